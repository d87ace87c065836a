import Verif.Model.GenVec
import Verif.Model.GenM22
import Verif.Model.GenM33
import Verif.Model.GenM44
import Verif.Model.GenM55
import Verif.Model.GenM66
import Mathlib.Data.List.FinRange
import Mathlib.Data.Fintype.Basic
import Mathlib.Tactic.FinCases

/-!
# Evaluation order of dot products and matrix products

Generated by `tools/gen_sumorder.py`. For any element type, with no law about its operations: each
dot product and each entry of a matrix-vector or matrix-matrix product is the left-to-right sum of
its `n` products, taken in some order of the index. All facts about rounded or overflow-checked
arithmetic follow from this shape.
-/

namespace StaticMath

/-- `x` is the sum, from left to right and in some order of the index, of the terms `g k`. -/
def IsOrderedSum {T : Type} [Add T] {n : ℕ} (x : T) (g : Fin n → T) : Prop :=
  ∃ (k : Fin n) (l : List (Fin n)), (k :: l).Perm (List.finRange n) ∧
    x = l.foldl (fun s j => s + g j) (g k)

variable {T : Type} [Add T] [Mul T]

theorem V2.dot_order (v w : Vec 2 T) : IsOrderedSum (V2.dot v w) (fun k => v k * w k) :=
  ⟨0, [1], by decide, rfl⟩

theorem M22.mulVec_order (A : Mat 2 T) (v : Vec 2 T) (i : Fin 2) :
    IsOrderedSum (M22.mulVec A v i) (fun k => A i k * v k) := by
  fin_cases i <;> exact ⟨0, [1], by decide, rfl⟩

theorem M22.mul_order (A B : Mat 2 T) (i j : Fin 2) :
    IsOrderedSum (M22.mul A B i j) (fun k => A i k * B k j) := by
  fin_cases i <;> fin_cases j <;>
  exact ⟨0, [1], by decide, rfl⟩

theorem V3.dot_order (v w : Vec 3 T) : IsOrderedSum (V3.dot v w) (fun k => v k * w k) :=
  ⟨0, [1, 2], by decide, rfl⟩

theorem M33.mulVec_order (A : Mat 3 T) (v : Vec 3 T) (i : Fin 3) :
    IsOrderedSum (M33.mulVec A v i) (fun k => A i k * v k) := by
  fin_cases i <;> exact ⟨0, [1, 2], by decide, rfl⟩

theorem M33.mul_order (A B : Mat 3 T) (i j : Fin 3) :
    IsOrderedSum (M33.mul A B i j) (fun k => A i k * B k j) := by
  fin_cases i <;> fin_cases j <;>
  exact ⟨0, [1, 2], by decide, rfl⟩

theorem V4.dot_order (v w : Vec 4 T) : IsOrderedSum (V4.dot v w) (fun k => v k * w k) :=
  ⟨0, [1, 2, 3], by decide, rfl⟩

theorem M44.mulVec_order (A : Mat 4 T) (v : Vec 4 T) (i : Fin 4) :
    IsOrderedSum (M44.mulVec A v i) (fun k => A i k * v k) := by
  fin_cases i <;> exact ⟨0, [1, 2, 3], by decide, rfl⟩

theorem M44.mul_order (A B : Mat 4 T) (i j : Fin 4) :
    IsOrderedSum (M44.mul A B i j) (fun k => A i k * B k j) := by
  fin_cases i <;> fin_cases j <;>
  first
  | exact ⟨0, [1, 2, 3], by decide, rfl⟩
  | exact ⟨1, [2, 3, 0], by decide, rfl⟩

theorem V5.dot_order (v w : Vec 5 T) : IsOrderedSum (V5.dot v w) (fun k => v k * w k) :=
  ⟨0, [1, 2, 3, 4], by decide, rfl⟩

theorem M55.mulVec_order (A : Mat 5 T) (v : Vec 5 T) (i : Fin 5) :
    IsOrderedSum (M55.mulVec A v i) (fun k => A i k * v k) := by
  fin_cases i <;> exact ⟨0, [1, 2, 3, 4], by decide, rfl⟩

theorem M55.mul_order (A B : Mat 5 T) (i j : Fin 5) :
    IsOrderedSum (M55.mul A B i j) (fun k => A i k * B k j) := by
  fin_cases i <;> fin_cases j <;>
  exact ⟨0, [1, 2, 3, 4], by decide, rfl⟩

theorem V6.dot_order (v w : Vec 6 T) : IsOrderedSum (V6.dot v w) (fun k => v k * w k) :=
  ⟨0, [1, 2, 3, 4, 5], by decide, rfl⟩

theorem M66.mulVec_order (A : Mat 6 T) (v : Vec 6 T) (i : Fin 6) :
    IsOrderedSum (M66.mulVec A v i) (fun k => A i k * v k) := by
  fin_cases i <;> exact ⟨0, [1, 2, 3, 4, 5], by decide, rfl⟩

theorem M66.mul_order (A B : Mat 6 T) (i j : Fin 6) :
    IsOrderedSum (M66.mul A B i j) (fun k => A i k * B k j) := by
  fin_cases i <;> fin_cases j <;>
  exact ⟨0, [1, 2, 3, 4, 5], by decide, rfl⟩

end StaticMath
