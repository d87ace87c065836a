import Verif.Spec.Basic
import Mathlib.LinearAlgebra.UnitaryGroup
import Mathlib.Data.Real.Basic

/-!
# Specification side: rotations and rigid transformations

A rotation matrix is an element of Mathlib's `Matrix.specialOrthogonalGroup`. A rigid
transformation is a 4x4 matrix with a rotation as upper left block and last row `0 0 0 1`.
-/

namespace StaticMath

/-- The upper left 3x3 block. -/
def Mat.block3 {T : Type} (H : Mat 4 T) : Mat 3 T := ⟨fun i j => H i.castSucc j.castSucc⟩

/-- A proper rotation. -/
def IsRot (R : Mat 3 ℝ) : Prop := R.toM ∈ Matrix.specialOrthogonalGroup (Fin 3) ℝ

/-- A rigid transformation in homogeneous coordinates. -/
structure IsRigid (H : Mat 4 ℝ) : Prop where
  rot : IsRot H.block3
  last : ∀ j, H 3 j = if j = 3 then 1 else 0

/-- The homogeneous coordinates of a point. -/
def Vec.point {T : Type} [One T] (p : Vec 3 T) : Vec 4 T := ⟨![p 0, p 1, p 2, 1]⟩

/-- An element of se(3): antisymmetric upper left block, zero last row. -/
structure IsSe3 (X : Mat 4 ℝ) : Prop where
  skew : ∀ i j : Fin 3, X i.castSucc j.castSucc = -X j.castSucc i.castSucc
  last : ∀ j, X 3 j = 0

end StaticMath
