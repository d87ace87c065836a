import Verif.Exact
import Verif.Spec.Basic
import Verif.Lemmas.Transfer
import Verif.Lemmas.Det
import Mathlib.LinearAlgebra.UnitaryGroup
import Mathlib.Tactic.LinearCombination

/-! # 3x3 and 4x4 matrices, entry by entry; the algebraic relations of a rotation matrix -/

namespace StaticMath

section
variable {T : Type}

theorem Vec.ext3 {v w : Vec 3 T} (h0 : v 0 = w 0) (h1 : v 1 = w 1) (h2 : v 2 = w 2) : v = w :=
  Vec.ext (funext fun i => by fin_cases i <;> assumption)

theorem Vec.ext4 {v w : Vec 4 T} (h0 : v 0 = w 0) (h1 : v 1 = w 1) (h2 : v 2 = w 2)
    (h3 : v 3 = w 3) : v = w :=
  Vec.ext (funext fun i => by fin_cases i <;> assumption)

theorem Mat.ext2 {A B : Mat 2 T} (h00 : A 0 0 = B 0 0) (h01 : A 0 1 = B 0 1)
    (h10 : A 1 0 = B 1 0) (h11 : A 1 1 = B 1 1) : A = B :=
  Mat.ext (funext fun i => funext fun j => by fin_cases i <;> fin_cases j <;> assumption)

theorem Mat.ext3 {A B : Mat 3 T} (h00 : A 0 0 = B 0 0) (h01 : A 0 1 = B 0 1) (h02 : A 0 2 = B 0 2)
    (h10 : A 1 0 = B 1 0) (h11 : A 1 1 = B 1 1) (h12 : A 1 2 = B 1 2)
    (h20 : A 2 0 = B 2 0) (h21 : A 2 1 = B 2 1) (h22 : A 2 2 = B 2 2) : A = B :=
  Mat.ext (funext fun i => funext fun j => by fin_cases i <;> fin_cases j <;> assumption)

theorem Mat.ext4 {A B : Mat 4 T}
    (h00 : A 0 0 = B 0 0) (h01 : A 0 1 = B 0 1) (h02 : A 0 2 = B 0 2) (h03 : A 0 3 = B 0 3)
    (h10 : A 1 0 = B 1 0) (h11 : A 1 1 = B 1 1) (h12 : A 1 2 = B 1 2) (h13 : A 1 3 = B 1 3)
    (h20 : A 2 0 = B 2 0) (h21 : A 2 1 = B 2 1) (h22 : A 2 2 = B 2 2) (h23 : A 2 3 = B 2 3)
    (h30 : A 3 0 = B 3 0) (h31 : A 3 1 = B 3 1) (h32 : A 3 2 = B 3 2) (h33 : A 3 3 = B 3 3) :
    A = B :=
  Mat.ext (funext fun i => funext fun j => by fin_cases i <;> fin_cases j <;> assumption)

theorem M22.mul_apply2 [Add T] [Mul T] (A B : Mat 2 T) (i j : Fin 2) :
    M22.mul A B i j = A i 0 * B 0 j + A i 1 * B 1 j := by
  fin_cases i <;> fin_cases j <;> rfl

theorem M33.mul_apply3 [Add T] [Mul T] (A B : Mat 3 T) (i j : Fin 3) :
    M33.mul A B i j = A i 0 * B 0 j + A i 1 * B 1 j + A i 2 * B 2 j := by
  fin_cases i <;> fin_cases j <;> rfl

theorem M33.mulVec_apply3 [Add T] [Mul T] (A : Mat 3 T) (v : Vec 3 T) (i : Fin 3) :
    M33.mulVec A v i = A i 0 * v 0 + A i 1 * v 1 + A i 2 * v 2 := by
  fin_cases i <;> rfl
end

section
variable {R : Type} [CommRing R]

theorem M44.mul_apply4 (A B : Mat 4 R) (i j : Fin 4) :
    M44.mul A B i j = A i 0 * B 0 j + A i 1 * B 1 j + A i 2 * B 2 j + A i 3 * B 3 j := by
  rw [M44.mul_apply, Fin.sum_univ_four]

theorem M44.mulVec_apply4 (A : Mat 4 R) (v : Vec 4 R) (i : Fin 4) :
    M44.mulVec A v i = A i 0 * v 0 + A i 1 * v 1 + A i 2 * v 2 + A i 3 * v 3 := by
  rw [M44.mulVec_apply, Fin.sum_univ_four]

end

/-- Rows orthonormal, columns orthonormal, every entry equal to its cofactor. -/
structure SO3Rels {R : Type} [CommRing R] (r : Fin 3 → Fin 3 → R) : Prop where
  r00 : r 0 0 * r 0 0 + r 0 1 * r 0 1 + r 0 2 * r 0 2 = 1
  r11 : r 1 0 * r 1 0 + r 1 1 * r 1 1 + r 1 2 * r 1 2 = 1
  r22 : r 2 0 * r 2 0 + r 2 1 * r 2 1 + r 2 2 * r 2 2 = 1
  r01 : r 0 0 * r 1 0 + r 0 1 * r 1 1 + r 0 2 * r 1 2 = 0
  r02 : r 0 0 * r 2 0 + r 0 1 * r 2 1 + r 0 2 * r 2 2 = 0
  r12 : r 1 0 * r 2 0 + r 1 1 * r 2 1 + r 1 2 * r 2 2 = 0
  c00 : r 0 0 * r 0 0 + r 1 0 * r 1 0 + r 2 0 * r 2 0 = 1
  c11 : r 0 1 * r 0 1 + r 1 1 * r 1 1 + r 2 1 * r 2 1 = 1
  c22 : r 0 2 * r 0 2 + r 1 2 * r 1 2 + r 2 2 * r 2 2 = 1
  c01 : r 0 0 * r 0 1 + r 1 0 * r 1 1 + r 2 0 * r 2 1 = 0
  c02 : r 0 0 * r 0 2 + r 1 0 * r 1 2 + r 2 0 * r 2 2 = 0
  c12 : r 0 1 * r 0 2 + r 1 1 * r 1 2 + r 2 1 * r 2 2 = 0
  k00 : r 0 0 = r 1 1 * r 2 2 - r 1 2 * r 2 1
  k01 : r 0 1 = r 1 2 * r 2 0 - r 1 0 * r 2 2
  k02 : r 0 2 = r 1 0 * r 2 1 - r 1 1 * r 2 0
  k10 : r 1 0 = r 0 2 * r 2 1 - r 0 1 * r 2 2
  k11 : r 1 1 = r 0 0 * r 2 2 - r 0 2 * r 2 0
  k12 : r 1 2 = r 0 1 * r 2 0 - r 0 0 * r 2 1
  k20 : r 2 0 = r 0 1 * r 1 2 - r 0 2 * r 1 1
  k21 : r 2 1 = r 0 2 * r 1 0 - r 0 0 * r 1 2
  k22 : r 2 2 = r 0 0 * r 1 1 - r 0 1 * r 1 0
  det : r 0 0 * (r 1 1 * r 2 2 - r 1 2 * r 2 1) - r 0 1 * (r 1 0 * r 2 2 - r 1 2 * r 2 0)
    + r 0 2 * (r 1 0 * r 2 1 - r 1 1 * r 2 0) = 1

theorem SO3Rels.of {R : Type} [CommRing R] (M : Matrix (Fin 3) (Fin 3) R)
    (h : M * M.transpose = 1) (hd : M.det = 1) : SO3Rels (fun i j => M i j) := by
  have h' : M.transpose * M = 1 := mul_eq_one_comm.1 h
  have hk : M.adjugate = M.transpose := by
    have := Matrix.adjugate_mul M
    rw [hd, one_smul] at this
    calc M.adjugate = M.adjugate * (M * M.transpose) := by rw [h, mul_one]
      _ = M.transpose := by rw [← mul_assoc, this, one_mul]
  rw [Matrix.adjugate_fin_three] at hk
  have e (i j : Fin 3) : M i 0 * M j 0 + M i 1 * M j 1 + M i 2 * M j 2 = if i = j then 1 else 0 := by
    have := congrFun (congrFun h i) j
    rwa [Matrix.mul_apply, Fin.sum_univ_three, Matrix.one_apply] at this
  have e' (i j : Fin 3) : M 0 i * M 0 j + M 1 i * M 1 j + M 2 i * M 2 j = if i = j then 1 else 0 := by
    have := congrFun (congrFun h' i) j
    rwa [Matrix.mul_apply, Fin.sum_univ_three, Matrix.one_apply] at this
  have k (i j : Fin 3) := congrFun (congrFun hk i) j
  rw [Matrix.det_fin_three] at hd
  refine ⟨e 0 0, e 1 1, e 2 2, e 0 1, e 0 2, e 1 2, e' 0 0, e' 1 1, e' 2 2, e' 0 1, e' 0 2, e' 1 2,
    ?_, ?_, ?_, ?_, ?_, ?_, ?_, ?_, ?_, ?_⟩
  · exact (k 0 0).symm
  · have : -(M 1 0 * M 2 2) + M 1 2 * M 2 0 = M 0 1 := k 1 0
    linear_combination -this
  · exact (k 2 0).symm
  · have : -(M 0 1 * M 2 2) + M 0 2 * M 2 1 = M 1 0 := k 0 1
    linear_combination -this
  · exact (k 1 1).symm
  · have : -(M 0 0 * M 2 1) + M 0 1 * M 2 0 = M 1 2 := k 2 1
    linear_combination -this
  · exact (k 0 2).symm
  · have : -(M 0 0 * M 1 2) + M 0 2 * M 1 0 = M 2 1 := k 1 2
    linear_combination -this
  · exact (k 2 2).symm
  · linear_combination hd

/-- Membership in the special orthogonal group, spelled out. -/
theorem mem_SO3_iff (M : Matrix (Fin 3) (Fin 3) ℝ) :
    M ∈ Matrix.specialOrthogonalGroup (Fin 3) ℝ ↔ M * M.transpose = 1 ∧ M.det = 1 := by
  rw [Matrix.mem_specialOrthogonalGroup_iff, Matrix.mem_orthogonalGroup_iff]

theorem SO3Rels.of_mem {A : Mat 3 ℝ} (h : A.toM ∈ Matrix.specialOrthogonalGroup (Fin 3) ℝ) :
    SO3Rels A.val :=
  SO3Rels.of A.toM ((mem_SO3_iff _).1 h).1 ((mem_SO3_iff _).1 h).2

/-- Conversely: orthonormal rows and determinant one. -/
theorem orth3_of {R : Type} [CommRing R] (A : Mat 3 R)
    (r00 : A 0 0 * A 0 0 + A 0 1 * A 0 1 + A 0 2 * A 0 2 = 1)
    (r11 : A 1 0 * A 1 0 + A 1 1 * A 1 1 + A 1 2 * A 1 2 = 1)
    (r22 : A 2 0 * A 2 0 + A 2 1 * A 2 1 + A 2 2 * A 2 2 = 1)
    (r01 : A 0 0 * A 1 0 + A 0 1 * A 1 1 + A 0 2 * A 1 2 = 0)
    (r02 : A 0 0 * A 2 0 + A 0 1 * A 2 1 + A 0 2 * A 2 2 = 0)
    (r12 : A 1 0 * A 2 0 + A 1 1 * A 2 1 + A 1 2 * A 2 2 = 0)
    (hd : A 0 0 * (A 1 1 * A 2 2 - A 1 2 * A 2 1) - A 0 1 * (A 1 0 * A 2 2 - A 1 2 * A 2 0)
      + A 0 2 * (A 1 0 * A 2 1 - A 1 1 * A 2 0) = 1) :
    A.toM * A.toM.transpose = 1 ∧ A.toM.det = 1 := by
  have sw (a b c d e f : R) (h : a * b + c * d + e * f = 0) : b * a + d * c + f * e = 0 := by
    linear_combination h
  constructor
  · ext i j
    rw [Matrix.mul_apply, Fin.sum_univ_three, Matrix.one_apply]
    change A i 0 * A j 0 + A i 1 * A j 1 + A i 2 * A j 2 = _
    fin_cases i <;> fin_cases j
    · exact r00
    · exact r01
    · exact r02
    · exact sw _ _ _ _ _ _ r01
    · exact r11
    · exact r12
    · exact sw _ _ _ _ _ _ r02
    · exact sw _ _ _ _ _ _ r12
    · exact r22
  · rw [Matrix.det_fin_three]
    simp only [Mat.toM_apply]
    linear_combination hd

end StaticMath
