import Verif.Model.Linear
import Verif.Spec.Basic
import Mathlib.Tactic.FinCases
import Mathlib.Tactic.Ring
import Mathlib.Algebra.BigOperators.Fin
import Mathlib.Data.Fintype.Fin

/-! Generated by `tools/gen_transfer.py`: entry lemmas for the vector and matrix functions. -/

namespace StaticMath

set_option linter.unusedSectionVars false

theorem iterSum_eq_sum {R : Type} [CommRing R] (l : List R) : iterSum l = l.sum :=
  List.sum_eq_foldl.symm

theorem iterSum_toSlice {R : Type} [CommRing R] {n : ℕ} (f : R → R) (A : Mat n R) :
    iterSum (A.toSlice.map f) = ∑ i, ∑ j, f (A i j) := by
  rw [iterSum_eq_sum, Mat.toSlice, List.map_flatten, List.sum_flatten, List.map_map, List.map_ofFn,
    List.sum_ofFn]
  refine Finset.sum_congr rfl fun i _ => ?_
  simp only [Function.comp, List.map_ofFn, List.sum_ofFn]

theorem iterSum_vec {R : Type} [CommRing R] {n : ℕ} (f : R → R) (v : Vec n R) :
    iterSum (v.toSlice.map f) = ∑ i, f (v i) := by
  rw [iterSum_eq_sum, Vec.toSlice, List.map_ofFn, List.sum_ofFn]
  rfl

section S2
section anyT
variable {T : Type}

theorem M22.add_apply [Add T] (A B : Mat 2 T) (i j : Fin 2) : M22.add A B i j = A i j + B i j := by
  fin_cases i <;> fin_cases j <;> rfl
theorem M22.sub_apply [Sub T] (A B : Mat 2 T) (i j : Fin 2) : M22.sub A B i j = A i j - B i j := by
  fin_cases i <;> fin_cases j <;> rfl
theorem M22.neg_apply [Neg T] (A : Mat 2 T) (i j : Fin 2) : M22.neg A i j = -A i j := by
  fin_cases i <;> fin_cases j <;> rfl
theorem M22.smul_apply [Mul T] (A : Mat 2 T) (c : T) (i j : Fin 2) : M22.smul A c i j = A i j * c := by
  fin_cases i <;> fin_cases j <;> rfl
theorem M22.sdiv_apply [Div T] (A : Mat 2 T) (c : T) (i j : Fin 2) : M22.sdiv A c i j = A i j / c := by
  fin_cases i <;> fin_cases j <;> rfl
theorem M22.transpose_apply (A : Mat 2 T) (i j : Fin 2) : M22.transpose A i j = A j i := by
  fin_cases i <;> fin_cases j <;> rfl
theorem M22.zero_apply [Zero T] (i j : Fin 2) : (M22.zero : Mat 2 T) i j = 0 := by
  fin_cases i <;> fin_cases j <;> rfl
theorem M22.one_apply [Zero T] [One T] (i j : Fin 2) : (M22.one : Mat 2 T) i j = if i = j then 1 else 0 := by
  fin_cases i <;> fin_cases j <;> rfl
theorem V2.add_apply [Add T] (v w : Vec 2 T) (i : Fin 2) : V2.add v w i = v i + w i := by
  fin_cases i <;> rfl
theorem V2.sub_apply [Sub T] (v w : Vec 2 T) (i : Fin 2) : V2.sub v w i = v i - w i := by
  fin_cases i <;> rfl
theorem V2.neg_apply [Neg T] (v : Vec 2 T) (i : Fin 2) : V2.neg v i = -v i := by
  fin_cases i <;> rfl
theorem V2.smul_apply [Mul T] (v : Vec 2 T) (c : T) (i : Fin 2) : V2.smul v c i = v i * c := by
  fin_cases i <;> rfl
theorem V2.sdiv_apply [Div T] (v : Vec 2 T) (c : T) (i : Fin 2) : V2.sdiv v c i = v i / c := by
  fin_cases i <;> rfl
theorem V2.zero_apply [Zero T] (i : Fin 2) : (V2.zero : Vec 2 T) i = 0 := by
  fin_cases i <;> rfl
theorem V2.ones_apply [One T] (i : Fin 2) : (V2.ones : Vec 2 T) i = 1 := by
  fin_cases i <;> rfl
end anyT

section ring
variable {R : Type} [CommRing R]
theorem M22.mul_apply (A B : Mat 2 R) (i j : Fin 2) :
    M22.mul A B i j = ∑ k, A i k * B k j := by
  rw [Fin.sum_univ_two]
  fin_cases i <;> fin_cases j <;> rfl
theorem M22.mulVec_apply (A : Mat 2 R) (v : Vec 2 R) (i : Fin 2) :
    M22.mulVec A v i = ∑ k, A i k * v k := by
  rw [Fin.sum_univ_two]
  fin_cases i <;> rfl
theorem V2.dot_eq (v w : Vec 2 R) : V2.dot v w = ∑ k, v k * w k := by
  rw [Fin.sum_univ_two]
  rfl
theorem M22.trace_eq (A : Mat 2 R) : M22.trace A = ∑ k, A k k := by
  rw [Fin.sum_univ_two]
  rfl
theorem V2.mulMat_apply (v : Vec 2 R) (A : Mat 2 R) (j : Fin 2) :
    V2.mulMat v A j = ∑ k, v k * A k j := by
  rw [Fin.sum_univ_two]
  fin_cases j <;> rfl
theorem V2.norm2_eq [RFloat R] (v : Vec 2 R) :
    V2.norm2 v = RFloat.sqrt (∑ k, v k * v k) := by
  rw [Fin.sum_univ_two]
  rfl
theorem M22.norm2_eq [RFloat R] (A : Mat 2 R) :
    M22.norm2 A = RFloat.sqrt (∑ i, ∑ j, A i j * A i j) := by
  simp only [Fin.sum_univ_two, M22.norm2]
  congr 1
  ring

theorem M22.toM_mul (A B : Mat 2 R) : (M22.mul A B).toM = A.toM * B.toM :=
  Matrix.ext fun i j => M22.mul_apply A B i j
theorem M22.toM_add (A B : Mat 2 R) : (M22.add A B).toM = A.toM + B.toM :=
  Matrix.ext fun i j => M22.add_apply A B i j
theorem M22.toM_sub (A B : Mat 2 R) : (M22.sub A B).toM = A.toM - B.toM :=
  Matrix.ext fun i j => M22.sub_apply A B i j
theorem M22.toM_neg (A : Mat 2 R) : (M22.neg A).toM = -A.toM :=
  Matrix.ext fun i j => M22.neg_apply A i j
theorem M22.toM_smul (A : Mat 2 R) (c : R) : (M22.smul A c).toM = c • A.toM :=
  Matrix.ext fun i j => (M22.smul_apply A c i j).trans (mul_comm _ _)
theorem M22.toM_transpose (A : Mat 2 R) : (M22.transpose A).toM = A.toM.transpose :=
  Matrix.ext fun i j => M22.transpose_apply A i j
theorem M22.toM_zero : (M22.zero : Mat 2 R).toM = 0 :=
  Matrix.ext fun i j => M22.zero_apply i j
theorem M22.toM_one : (M22.one : Mat 2 R).toM = 1 :=
  Matrix.ext fun i j => (M22.one_apply i j).trans Matrix.one_apply.symm
theorem M22.val_mulVec (A : Mat 2 R) (v : Vec 2 R) :
    (M22.mulVec A v).val = A.toM.mulVec v.val :=
  funext fun i => M22.mulVec_apply A v i
theorem M22.trace_toM (A : Mat 2 R) : M22.trace A = A.toM.trace := M22.trace_eq A
theorem V2.dot_dotProduct (v w : Vec 2 R) : V2.dot v w = v.val ⬝ᵥ w.val := V2.dot_eq v w
end ring
end S2

section S3
section anyT
variable {T : Type}

theorem M33.add_apply [Add T] (A B : Mat 3 T) (i j : Fin 3) : M33.add A B i j = A i j + B i j := by
  fin_cases i <;> fin_cases j <;> rfl
theorem M33.sub_apply [Sub T] (A B : Mat 3 T) (i j : Fin 3) : M33.sub A B i j = A i j - B i j := by
  fin_cases i <;> fin_cases j <;> rfl
theorem M33.neg_apply [Neg T] (A : Mat 3 T) (i j : Fin 3) : M33.neg A i j = -A i j := by
  fin_cases i <;> fin_cases j <;> rfl
theorem M33.smul_apply [Mul T] (A : Mat 3 T) (c : T) (i j : Fin 3) : M33.smul A c i j = A i j * c := by
  fin_cases i <;> fin_cases j <;> rfl
theorem M33.sdiv_apply [Div T] (A : Mat 3 T) (c : T) (i j : Fin 3) : M33.sdiv A c i j = A i j / c := by
  fin_cases i <;> fin_cases j <;> rfl
theorem M33.transpose_apply (A : Mat 3 T) (i j : Fin 3) : M33.transpose A i j = A j i := by
  fin_cases i <;> fin_cases j <;> rfl
theorem M33.zero_apply [Zero T] (i j : Fin 3) : (M33.zero : Mat 3 T) i j = 0 := by
  fin_cases i <;> fin_cases j <;> rfl
theorem M33.one_apply [Zero T] [One T] (i j : Fin 3) : (M33.one : Mat 3 T) i j = if i = j then 1 else 0 := by
  fin_cases i <;> fin_cases j <;> rfl
theorem V3.add_apply [Add T] (v w : Vec 3 T) (i : Fin 3) : V3.add v w i = v i + w i := by
  fin_cases i <;> rfl
theorem V3.sub_apply [Sub T] (v w : Vec 3 T) (i : Fin 3) : V3.sub v w i = v i - w i := by
  fin_cases i <;> rfl
theorem V3.neg_apply [Neg T] (v : Vec 3 T) (i : Fin 3) : V3.neg v i = -v i := by
  fin_cases i <;> rfl
theorem V3.smul_apply [Mul T] (v : Vec 3 T) (c : T) (i : Fin 3) : V3.smul v c i = v i * c := by
  fin_cases i <;> rfl
theorem V3.sdiv_apply [Div T] (v : Vec 3 T) (c : T) (i : Fin 3) : V3.sdiv v c i = v i / c := by
  fin_cases i <;> rfl
theorem V3.zero_apply [Zero T] (i : Fin 3) : (V3.zero : Vec 3 T) i = 0 := by
  fin_cases i <;> rfl
theorem V3.ones_apply [One T] (i : Fin 3) : (V3.ones : Vec 3 T) i = 1 := by
  fin_cases i <;> rfl
end anyT

section ring
variable {R : Type} [CommRing R]
theorem M33.mul_apply (A B : Mat 3 R) (i j : Fin 3) :
    M33.mul A B i j = ∑ k, A i k * B k j := by
  rw [Fin.sum_univ_three]
  fin_cases i <;> fin_cases j <;> rfl
theorem M33.mulVec_apply (A : Mat 3 R) (v : Vec 3 R) (i : Fin 3) :
    M33.mulVec A v i = ∑ k, A i k * v k := by
  rw [Fin.sum_univ_three]
  fin_cases i <;> rfl
theorem V3.dot_eq (v w : Vec 3 R) : V3.dot v w = ∑ k, v k * w k := by
  rw [Fin.sum_univ_three]
  rfl
theorem M33.trace_eq (A : Mat 3 R) : M33.trace A = ∑ k, A k k := by
  rw [Fin.sum_univ_three]
  rfl
theorem V3.norm2_eq [RFloat R] (v : Vec 3 R) :
    V3.norm2 v = RFloat.sqrt (∑ k, v k * v k) := by
  rw [Fin.sum_univ_three]
  rfl
theorem M33.norm2_eq [RFloat R] (A : Mat 3 R) :
    M33.norm2 A = RFloat.sqrt (∑ i, ∑ j, A i j * A i j) := by
  simp only [Fin.sum_univ_three, M33.norm2]
  congr 1
  ring

theorem M33.toM_mul (A B : Mat 3 R) : (M33.mul A B).toM = A.toM * B.toM :=
  Matrix.ext fun i j => M33.mul_apply A B i j
theorem M33.toM_add (A B : Mat 3 R) : (M33.add A B).toM = A.toM + B.toM :=
  Matrix.ext fun i j => M33.add_apply A B i j
theorem M33.toM_sub (A B : Mat 3 R) : (M33.sub A B).toM = A.toM - B.toM :=
  Matrix.ext fun i j => M33.sub_apply A B i j
theorem M33.toM_neg (A : Mat 3 R) : (M33.neg A).toM = -A.toM :=
  Matrix.ext fun i j => M33.neg_apply A i j
theorem M33.toM_smul (A : Mat 3 R) (c : R) : (M33.smul A c).toM = c • A.toM :=
  Matrix.ext fun i j => (M33.smul_apply A c i j).trans (mul_comm _ _)
theorem M33.toM_transpose (A : Mat 3 R) : (M33.transpose A).toM = A.toM.transpose :=
  Matrix.ext fun i j => M33.transpose_apply A i j
theorem M33.toM_zero : (M33.zero : Mat 3 R).toM = 0 :=
  Matrix.ext fun i j => M33.zero_apply i j
theorem M33.toM_one : (M33.one : Mat 3 R).toM = 1 :=
  Matrix.ext fun i j => (M33.one_apply i j).trans Matrix.one_apply.symm
theorem M33.val_mulVec (A : Mat 3 R) (v : Vec 3 R) :
    (M33.mulVec A v).val = A.toM.mulVec v.val :=
  funext fun i => M33.mulVec_apply A v i
theorem M33.trace_toM (A : Mat 3 R) : M33.trace A = A.toM.trace := M33.trace_eq A
theorem V3.dot_dotProduct (v w : Vec 3 R) : V3.dot v w = v.val ⬝ᵥ w.val := V3.dot_eq v w
end ring
end S3

section S4
section anyT
variable {T : Type}

theorem M44.add_apply [Add T] (A B : Mat 4 T) (i j : Fin 4) : M44.add A B i j = A i j + B i j := by
  fin_cases i <;> fin_cases j <;> rfl
theorem M44.sub_apply [Sub T] (A B : Mat 4 T) (i j : Fin 4) : M44.sub A B i j = A i j - B i j := by
  fin_cases i <;> fin_cases j <;> rfl
theorem M44.neg_apply [Neg T] (A : Mat 4 T) (i j : Fin 4) : M44.neg A i j = -A i j := by
  fin_cases i <;> fin_cases j <;> rfl
theorem M44.smul_apply [Mul T] (A : Mat 4 T) (c : T) (i j : Fin 4) : M44.smul A c i j = A i j * c := by
  fin_cases i <;> fin_cases j <;> rfl
theorem M44.sdiv_apply [Div T] (A : Mat 4 T) (c : T) (i j : Fin 4) : M44.sdiv A c i j = A i j / c := by
  fin_cases i <;> fin_cases j <;> rfl
theorem M44.transpose_apply (A : Mat 4 T) (i j : Fin 4) : M44.transpose A i j = A j i := by
  fin_cases i <;> fin_cases j <;> rfl
theorem M44.zero_apply [Zero T] (i j : Fin 4) : (M44.zero : Mat 4 T) i j = 0 := by
  fin_cases i <;> fin_cases j <;> rfl
theorem M44.one_apply [Zero T] [One T] (i j : Fin 4) : (M44.one : Mat 4 T) i j = if i = j then 1 else 0 := by
  fin_cases i <;> fin_cases j <;> rfl
theorem V4.add_apply [Add T] (v w : Vec 4 T) (i : Fin 4) : V4.add v w i = v i + w i := by
  fin_cases i <;> rfl
theorem V4.sub_apply [Sub T] (v w : Vec 4 T) (i : Fin 4) : V4.sub v w i = v i - w i := by
  fin_cases i <;> rfl
theorem V4.neg_apply [Neg T] (v : Vec 4 T) (i : Fin 4) : V4.neg v i = -v i := by
  fin_cases i <;> rfl
theorem V4.smul_apply [Mul T] (v : Vec 4 T) (c : T) (i : Fin 4) : V4.smul v c i = v i * c := by
  fin_cases i <;> rfl
theorem V4.sdiv_apply [Div T] (v : Vec 4 T) (c : T) (i : Fin 4) : V4.sdiv v c i = v i / c := by
  fin_cases i <;> rfl
theorem V4.zero_apply [Zero T] (i : Fin 4) : (V4.zero : Vec 4 T) i = 0 := by
  fin_cases i <;> rfl
theorem V4.ones_apply [One T] (i : Fin 4) : (V4.ones : Vec 4 T) i = 1 := by
  fin_cases i <;> rfl
end anyT

section ring
variable {R : Type} [CommRing R]
theorem M44.mul_apply (A B : Mat 4 R) (i j : Fin 4) :
    M44.mul A B i j = ∑ k, A i k * B k j := by
  have h (a b c d : R) : a + b + c + d = d + a + b + c := by ring
  rw [Fin.sum_univ_four]
  fin_cases i <;> fin_cases j <;> first | rfl | exact (h _ _ _ _)
theorem M44.mulVec_apply (A : Mat 4 R) (v : Vec 4 R) (i : Fin 4) :
    M44.mulVec A v i = ∑ k, A i k * v k := by
  rw [Fin.sum_univ_four]
  fin_cases i <;> rfl
theorem V4.dot_eq (v w : Vec 4 R) : V4.dot v w = ∑ k, v k * w k := by
  rw [Fin.sum_univ_four]
  rfl
theorem M44.trace_eq (A : Mat 4 R) : M44.trace A = ∑ k, A k k := by
  rw [Fin.sum_univ_four]
  rfl
theorem V4.mulMat_apply (v : Vec 4 R) (A : Mat 4 R) (j : Fin 4) :
    V4.mulMat v A j = ∑ k, v k * A k j := by
  rw [Fin.sum_univ_four]
  fin_cases j <;> rfl
theorem V4.norm2_eq [RFloat R] (v : Vec 4 R) :
    V4.norm2 v = RFloat.sqrt (∑ k, v k * v k) := by
  rw [Fin.sum_univ_four]
  rfl
theorem M44.norm2_eq [RFloat R] (A : Mat 4 R) :
    M44.norm2 A = RFloat.sqrt (∑ i, ∑ j, A i j * A i j) := by
  simp only [Fin.sum_univ_four, M44.norm2]
  congr 1
  ring

theorem M44.toM_mul (A B : Mat 4 R) : (M44.mul A B).toM = A.toM * B.toM :=
  Matrix.ext fun i j => M44.mul_apply A B i j
theorem M44.toM_add (A B : Mat 4 R) : (M44.add A B).toM = A.toM + B.toM :=
  Matrix.ext fun i j => M44.add_apply A B i j
theorem M44.toM_sub (A B : Mat 4 R) : (M44.sub A B).toM = A.toM - B.toM :=
  Matrix.ext fun i j => M44.sub_apply A B i j
theorem M44.toM_neg (A : Mat 4 R) : (M44.neg A).toM = -A.toM :=
  Matrix.ext fun i j => M44.neg_apply A i j
theorem M44.toM_smul (A : Mat 4 R) (c : R) : (M44.smul A c).toM = c • A.toM :=
  Matrix.ext fun i j => (M44.smul_apply A c i j).trans (mul_comm _ _)
theorem M44.toM_transpose (A : Mat 4 R) : (M44.transpose A).toM = A.toM.transpose :=
  Matrix.ext fun i j => M44.transpose_apply A i j
theorem M44.toM_zero : (M44.zero : Mat 4 R).toM = 0 :=
  Matrix.ext fun i j => M44.zero_apply i j
theorem M44.toM_one : (M44.one : Mat 4 R).toM = 1 :=
  Matrix.ext fun i j => (M44.one_apply i j).trans Matrix.one_apply.symm
theorem M44.val_mulVec (A : Mat 4 R) (v : Vec 4 R) :
    (M44.mulVec A v).val = A.toM.mulVec v.val :=
  funext fun i => M44.mulVec_apply A v i
theorem M44.trace_toM (A : Mat 4 R) : M44.trace A = A.toM.trace := M44.trace_eq A
theorem V4.dot_dotProduct (v w : Vec 4 R) : V4.dot v w = v.val ⬝ᵥ w.val := V4.dot_eq v w
end ring
end S4

section S5
section anyT
variable {T : Type}

theorem M55.add_apply [Add T] (A B : Mat 5 T) (i j : Fin 5) : M55.add A B i j = A i j + B i j := by
  fin_cases i <;> fin_cases j <;> rfl
theorem M55.sub_apply [Sub T] (A B : Mat 5 T) (i j : Fin 5) : M55.sub A B i j = A i j - B i j := by
  fin_cases i <;> fin_cases j <;> rfl
theorem M55.neg_apply [Neg T] (A : Mat 5 T) (i j : Fin 5) : M55.neg A i j = -A i j := by
  fin_cases i <;> fin_cases j <;> rfl
theorem M55.smul_apply [Mul T] (A : Mat 5 T) (c : T) (i j : Fin 5) : M55.smul A c i j = A i j * c := by
  fin_cases i <;> fin_cases j <;> rfl
theorem M55.sdiv_apply [Div T] (A : Mat 5 T) (c : T) (i j : Fin 5) : M55.sdiv A c i j = A i j / c := by
  fin_cases i <;> fin_cases j <;> rfl
theorem M55.transpose_apply (A : Mat 5 T) (i j : Fin 5) : M55.transpose A i j = A j i := by
  fin_cases i <;> fin_cases j <;> rfl
theorem M55.zero_apply [Zero T] (i j : Fin 5) : (M55.zero : Mat 5 T) i j = 0 := by
  fin_cases i <;> fin_cases j <;> rfl
theorem M55.one_apply [Zero T] [One T] (i j : Fin 5) : (M55.one : Mat 5 T) i j = if i = j then 1 else 0 := by
  fin_cases i <;> fin_cases j <;> rfl
theorem V5.add_apply [Add T] (v w : Vec 5 T) (i : Fin 5) : V5.add v w i = v i + w i := by
  fin_cases i <;> rfl
theorem V5.sub_apply [Sub T] (v w : Vec 5 T) (i : Fin 5) : V5.sub v w i = v i - w i := by
  fin_cases i <;> rfl
theorem V5.neg_apply [Neg T] (v : Vec 5 T) (i : Fin 5) : V5.neg v i = -v i := by
  fin_cases i <;> rfl
theorem V5.smul_apply [Mul T] (v : Vec 5 T) (c : T) (i : Fin 5) : V5.smul v c i = v i * c := by
  fin_cases i <;> rfl
theorem V5.sdiv_apply [Div T] (v : Vec 5 T) (c : T) (i : Fin 5) : V5.sdiv v c i = v i / c := by
  fin_cases i <;> rfl
theorem V5.zero_apply [Zero T] (i : Fin 5) : (V5.zero : Vec 5 T) i = 0 := by
  fin_cases i <;> rfl
theorem V5.ones_apply [One T] (i : Fin 5) : (V5.ones : Vec 5 T) i = 1 := by
  fin_cases i <;> rfl
end anyT

section ring
variable {R : Type} [CommRing R]
theorem M55.mul_apply (A B : Mat 5 R) (i j : Fin 5) :
    M55.mul A B i j = ∑ k, A i k * B k j := by
  rw [Fin.sum_univ_five]
  fin_cases i <;> fin_cases j <;> rfl
theorem M55.mulVec_apply (A : Mat 5 R) (v : Vec 5 R) (i : Fin 5) :
    M55.mulVec A v i = ∑ k, A i k * v k := by
  rw [Fin.sum_univ_five]
  fin_cases i <;> rfl
theorem V5.dot_eq (v w : Vec 5 R) : V5.dot v w = ∑ k, v k * w k := by
  rw [Fin.sum_univ_five]
  rfl
theorem M55.trace_eq (A : Mat 5 R) : M55.trace A = ∑ k, A k k := by
  rw [Fin.sum_univ_five]
  rfl
theorem V5.mulMat_apply (v : Vec 5 R) (A : Mat 5 R) (j : Fin 5) :
    V5.mulMat v A j = ∑ k, v k * A k j := by
  rw [Finset.sum_congr rfl fun k _ => mul_comm (v k) (A k j), Fin.sum_univ_five]
  fin_cases j <;> rfl
theorem V5.norm2_eq [RFloat R] (v : Vec 5 R) :
    V5.norm2 v = RFloat.sqrt (∑ k, v k * v k) := by
  rw [Fin.sum_univ_five]
  rfl
theorem M55.norm2_eq [RFloat R] (A : Mat 5 R) :
    M55.norm2 A = RFloat.sqrt (∑ i, ∑ j, A i j * A i j) := by
  rw [M55.norm2, iterSum_toSlice]

theorem M55.toM_mul (A B : Mat 5 R) : (M55.mul A B).toM = A.toM * B.toM :=
  Matrix.ext fun i j => M55.mul_apply A B i j
theorem M55.toM_add (A B : Mat 5 R) : (M55.add A B).toM = A.toM + B.toM :=
  Matrix.ext fun i j => M55.add_apply A B i j
theorem M55.toM_sub (A B : Mat 5 R) : (M55.sub A B).toM = A.toM - B.toM :=
  Matrix.ext fun i j => M55.sub_apply A B i j
theorem M55.toM_neg (A : Mat 5 R) : (M55.neg A).toM = -A.toM :=
  Matrix.ext fun i j => M55.neg_apply A i j
theorem M55.toM_smul (A : Mat 5 R) (c : R) : (M55.smul A c).toM = c • A.toM :=
  Matrix.ext fun i j => (M55.smul_apply A c i j).trans (mul_comm _ _)
theorem M55.toM_transpose (A : Mat 5 R) : (M55.transpose A).toM = A.toM.transpose :=
  Matrix.ext fun i j => M55.transpose_apply A i j
theorem M55.toM_zero : (M55.zero : Mat 5 R).toM = 0 :=
  Matrix.ext fun i j => M55.zero_apply i j
theorem M55.toM_one : (M55.one : Mat 5 R).toM = 1 :=
  Matrix.ext fun i j => (M55.one_apply i j).trans Matrix.one_apply.symm
theorem M55.val_mulVec (A : Mat 5 R) (v : Vec 5 R) :
    (M55.mulVec A v).val = A.toM.mulVec v.val :=
  funext fun i => M55.mulVec_apply A v i
theorem M55.trace_toM (A : Mat 5 R) : M55.trace A = A.toM.trace := M55.trace_eq A
theorem V5.dot_dotProduct (v w : Vec 5 R) : V5.dot v w = v.val ⬝ᵥ w.val := V5.dot_eq v w
end ring
end S5

section S6
section anyT
variable {T : Type}

theorem M66.add_apply [Add T] (A B : Mat 6 T) (i j : Fin 6) : M66.add A B i j = A i j + B i j := by
  fin_cases i <;> fin_cases j <;> rfl
theorem M66.sub_apply [Sub T] (A B : Mat 6 T) (i j : Fin 6) : M66.sub A B i j = A i j - B i j := by
  fin_cases i <;> fin_cases j <;> rfl
theorem M66.neg_apply [Neg T] (A : Mat 6 T) (i j : Fin 6) : M66.neg A i j = -A i j := by
  fin_cases i <;> fin_cases j <;> rfl
theorem M66.smul_apply [Mul T] (A : Mat 6 T) (c : T) (i j : Fin 6) : M66.smul A c i j = A i j * c := by
  fin_cases i <;> fin_cases j <;> rfl
theorem M66.sdiv_apply [Div T] (A : Mat 6 T) (c : T) (i j : Fin 6) : M66.sdiv A c i j = A i j / c := by
  fin_cases i <;> fin_cases j <;> rfl
theorem M66.transpose_apply (A : Mat 6 T) (i j : Fin 6) : M66.transpose A i j = A j i := by
  fin_cases i <;> fin_cases j <;> rfl
theorem M66.zero_apply [Zero T] (i j : Fin 6) : (M66.zero : Mat 6 T) i j = 0 := by
  fin_cases i <;> fin_cases j <;> rfl
theorem M66.one_apply [Zero T] [One T] (i j : Fin 6) : (M66.one : Mat 6 T) i j = if i = j then 1 else 0 := by
  fin_cases i <;> fin_cases j <;> rfl
theorem V6.add_apply [Add T] (v w : Vec 6 T) (i : Fin 6) : V6.add v w i = v i + w i := by
  fin_cases i <;> rfl
theorem V6.sub_apply [Sub T] (v w : Vec 6 T) (i : Fin 6) : V6.sub v w i = v i - w i := by
  fin_cases i <;> rfl
theorem V6.neg_apply [Neg T] (v : Vec 6 T) (i : Fin 6) : V6.neg v i = -v i := by
  fin_cases i <;> rfl
theorem V6.smul_apply [Mul T] (v : Vec 6 T) (c : T) (i : Fin 6) : V6.smul v c i = v i * c := by
  fin_cases i <;> rfl
theorem V6.sdiv_apply [Div T] (v : Vec 6 T) (c : T) (i : Fin 6) : V6.sdiv v c i = v i / c := by
  fin_cases i <;> rfl
theorem V6.zero_apply [Zero T] (i : Fin 6) : (V6.zero : Vec 6 T) i = 0 := by
  fin_cases i <;> rfl
theorem V6.ones_apply [One T] (i : Fin 6) : (V6.ones : Vec 6 T) i = 1 := by
  fin_cases i <;> rfl
end anyT

section ring
variable {R : Type} [CommRing R]
theorem M66.mul_apply (A B : Mat 6 R) (i j : Fin 6) :
    M66.mul A B i j = ∑ k, A i k * B k j := by
  rw [Fin.sum_univ_six]
  fin_cases i <;> fin_cases j <;> rfl
theorem M66.mulVec_apply (A : Mat 6 R) (v : Vec 6 R) (i : Fin 6) :
    M66.mulVec A v i = ∑ k, A i k * v k := by
  rw [Fin.sum_univ_six]
  fin_cases i <;> rfl
theorem V6.dot_eq (v w : Vec 6 R) : V6.dot v w = ∑ k, v k * w k := by
  rw [Fin.sum_univ_six]
  rfl
theorem M66.trace_eq (A : Mat 6 R) : M66.trace A = ∑ k, A k k := by
  rw [Fin.sum_univ_six]
  rfl
theorem V6.mulMat_apply (v : Vec 6 R) (A : Mat 6 R) (j : Fin 6) :
    V6.mulMat v A j = ∑ k, v k * A k j := by
  rw [Finset.sum_congr rfl fun k _ => mul_comm (v k) (A k j), Fin.sum_univ_six]
  fin_cases j <;> rfl
theorem V6.norm2_eq [RFloat R] (v : Vec 6 R) :
    V6.norm2 v = RFloat.sqrt (∑ k, v k * v k) := by
  rw [Fin.sum_univ_six]
  rfl
theorem M66.norm2_eq [RFloat R] (A : Mat 6 R) :
    M66.norm2 A = RFloat.sqrt (∑ i, ∑ j, A i j * A i j) := by
  rw [M66.norm2, iterSum_toSlice]

theorem M66.toM_mul (A B : Mat 6 R) : (M66.mul A B).toM = A.toM * B.toM :=
  Matrix.ext fun i j => M66.mul_apply A B i j
theorem M66.toM_add (A B : Mat 6 R) : (M66.add A B).toM = A.toM + B.toM :=
  Matrix.ext fun i j => M66.add_apply A B i j
theorem M66.toM_sub (A B : Mat 6 R) : (M66.sub A B).toM = A.toM - B.toM :=
  Matrix.ext fun i j => M66.sub_apply A B i j
theorem M66.toM_neg (A : Mat 6 R) : (M66.neg A).toM = -A.toM :=
  Matrix.ext fun i j => M66.neg_apply A i j
theorem M66.toM_smul (A : Mat 6 R) (c : R) : (M66.smul A c).toM = c • A.toM :=
  Matrix.ext fun i j => (M66.smul_apply A c i j).trans (mul_comm _ _)
theorem M66.toM_transpose (A : Mat 6 R) : (M66.transpose A).toM = A.toM.transpose :=
  Matrix.ext fun i j => M66.transpose_apply A i j
theorem M66.toM_zero : (M66.zero : Mat 6 R).toM = 0 :=
  Matrix.ext fun i j => M66.zero_apply i j
theorem M66.toM_one : (M66.one : Mat 6 R).toM = 1 :=
  Matrix.ext fun i j => (M66.one_apply i j).trans Matrix.one_apply.symm
theorem M66.val_mulVec (A : Mat 6 R) (v : Vec 6 R) :
    (M66.mulVec A v).val = A.toM.mulVec v.val :=
  funext fun i => M66.mulVec_apply A v i
theorem M66.trace_toM (A : Mat 6 R) : M66.trace A = A.toM.trace := M66.trace_eq A
theorem V6.dot_dotProduct (v w : Vec 6 R) : V6.dot v w = v.val ⬝ᵥ w.val := V6.dot_eq v w
end ring
end S6
end StaticMath
