import Verif.Model.Num
import Mathlib.LinearAlgebra.Matrix.Determinant.Basic
import Mathlib.LinearAlgebra.Matrix.Trace

/-!
# Specification side: reading a model value as a Mathlib object

`A.toM` is the Mathlib matrix with the same entries; `v.val : Fin n → T` is the Mathlib vector.
-/

namespace StaticMath

/-- The Mathlib matrix with the same entries. -/
def Mat.toM {n : ℕ} {T : Type} (A : Mat n T) : Matrix (Fin n) (Fin n) T := Matrix.of A.val

theorem Mat.toM_apply {n : ℕ} {T : Type} (A : Mat n T) (i j : Fin n) : A.toM i j = A.val i j := rfl

theorem Mat.toM_injective {n : ℕ} {T : Type} : Function.Injective (Mat.toM (n := n) (T := T)) := by
  intro A B h
  exact Mat.ext (funext fun i => funext fun j => congrFun (congrFun h i) j)

theorem Mat.toM_inj {n : ℕ} {T : Type} {A B : Mat n T} : A.toM = B.toM ↔ A = B :=
  Mat.toM_injective.eq_iff

/-- The model matrix with the entries of a Mathlib matrix. -/
def Mat.ofM {n : ℕ} {T : Type} (M : Matrix (Fin n) (Fin n) T) : Mat n T := ⟨fun i j => M i j⟩

theorem Mat.toM_ofM {n : ℕ} {T : Type} (M : Matrix (Fin n) (Fin n) T) : (Mat.ofM M).toM = M := rfl
theorem Mat.ofM_toM {n : ℕ} {T : Type} (A : Mat n T) : Mat.ofM A.toM = A := rfl

end StaticMath
