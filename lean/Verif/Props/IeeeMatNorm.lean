import Verif.Ieee.SumNorm
import Verif.Props.IeeeHomog
import Verif.Props.IeeeDet

/-!
# C154: row vectors times matrices, traces and norms of matrices in floating point

Generated by `tools/gen_props_ieee_matnorm.py`.
-/

namespace StaticMath
open Flt

private theorem pow_le_two {f : Fmt} (hp : 8 ≤ f.p) {m : ℕ} (hm : m ≤ 16) : (1 + f.u) ^ m ≤ 2 := by
  have h := Fmt.u_le_of_p hp
  have h0 := f.u_pos
  calc (1 + f.u) ^ m ≤ (1 + f.u) ^ 16 := pow_le_pow_right₀ (by linarith) hm
    _ ≤ (1 + 1 / 256) ^ 16 := pow_le_pow_left₀ (by linarith) (by linarith) 16
    _ ≤ 2 := by norm_num

private theorem mulMat_order2 {T : Type} [Add T] [Mul T] (v : Vec 2 T) (A : Mat 2 T) (j : Fin 2) :
    IsOrderedSum (V2.mulMat v A j) (fun k => v k * A k j) := by
  fin_cases j <;> exact ⟨0, [1], by decide, rfl⟩

/-- Each component of a computed product of a vector with a matrix. -/
theorem C154_mulMat_V2 {f : Fmt} (v : Vec 2 (Flt f)) (A : Mat 2 (Flt f)) (j : Fin 2) (h : (V2.mulMat v A j).IsFin) :
    |(V2.mulMat v A j).toReal - ∑ k, (v k).toReal * (A k j).toReal| ≤
      ((1 + f.u) ^ 2 - 1) * ∑ k, |(v k).toReal * (A k j).toReal| + (1 + f.u) ^ 2 * (2 * f.eta) := by
  simpa using orderedSum_err (mulMat_order2 v A j) h

/-- The trace is that of a sum of the stored numbers. -/
theorem C154_trace_M22 {f : Fmt} (A : Mat 2 (Flt f)) (h : (M22.trace A).IsFin) :
    |(M22.trace A).toReal - ∑ k, (A k k).toReal| ≤ ((1 + f.u) ^ 1 - 1) * ∑ k, |(A k k).toReal| :=
  sum_err (a := fun k => A k k) ⟨0, [1], by decide, rfl⟩ h

/-- Norm of a vector in every range, so also where squares underflow. -/
theorem C154_norm2_V2 {f : Fmt} [Libm f] (hp : 8 ≤ f.p) (v : Vec 2 (Flt f)) (h : (V2.norm2 v).IsFin) :
    0 ≤ (V2.norm2 v).toReal ∧ |(V2.norm2 v).toReal - √(∑ k, (v k).toReal ^ 2)| ≤
      ((1 + f.u) ^ 3 - 1) * √(∑ k, (v k).toReal ^ 2) + (1 + f.u) * √((1 + f.u) ^ 2 * (2 * f.eta)) := by
  have e : V2.norm2 v = Flt.sqrt (V2.dot v v) := rfl
  rw [e] at h ⊢
  simpa using norm_err (V2.dot_order v v) h (pow_le_two hp (by norm_num))

/-- It is finite if the components are not too large. -/
theorem C154_norm2_no_overflow_V2 {f : Fmt} [Libm f] (v : Vec 2 (Flt f)) (B : ℝ) (hv : ∀ k, (v k).IsFin ∧ |(v k).toReal| ≤ B)
    (h : (1 + f.u) ^ 2 * (2 * ((1 + f.u) * B ^ 2 + f.eta)) < (2 : ℝ) ^ (f.emax + 1)) : (V2.norm2 v).IsFin :=
  norm_isFin (V2.dot_order v v) hv (by norm_num; exact h)

private theorem mulMat_order3 {T : Type} [Add T] [Mul T] (v : Vec 3 T) (A : Mat 3 T) (j : Fin 3) :
    IsOrderedSum (V3.mulMat v A j) (fun k => A j k * v k) := by
  fin_cases j <;> exact ⟨0, [1, 2], by decide, rfl⟩

/-- Each component of a computed product of a vector with a matrix. This one computes the product of the matrix with the column vector (see C04). -/
theorem C154_mulMat_V3 {f : Fmt} (v : Vec 3 (Flt f)) (A : Mat 3 (Flt f)) (j : Fin 3) (h : (V3.mulMat v A j).IsFin) :
    |(V3.mulMat v A j).toReal - ∑ k, (A j k).toReal * (v k).toReal| ≤
      ((1 + f.u) ^ 3 - 1) * ∑ k, |(A j k).toReal * (v k).toReal| + (1 + f.u) ^ 3 * (3 * f.eta) := by
  simpa using orderedSum_err (mulMat_order3 v A j) h

/-- The trace is that of a sum of the stored numbers. -/
theorem C154_trace_M33 {f : Fmt} (A : Mat 3 (Flt f)) (h : (M33.trace A).IsFin) :
    |(M33.trace A).toReal - ∑ k, (A k k).toReal| ≤ ((1 + f.u) ^ 2 - 1) * ∑ k, |(A k k).toReal| :=
  sum_err (a := fun k => A k k) ⟨0, [1, 2], by decide, rfl⟩ h

/-- Norm of a vector in every range, so also where squares underflow. -/
theorem C154_norm2_V3 {f : Fmt} [Libm f] (hp : 8 ≤ f.p) (v : Vec 3 (Flt f)) (h : (V3.norm2 v).IsFin) :
    0 ≤ (V3.norm2 v).toReal ∧ |(V3.norm2 v).toReal - √(∑ k, (v k).toReal ^ 2)| ≤
      ((1 + f.u) ^ 4 - 1) * √(∑ k, (v k).toReal ^ 2) + (1 + f.u) * √((1 + f.u) ^ 3 * (3 * f.eta)) := by
  have e : V3.norm2 v = Flt.sqrt (V3.dot v v) := rfl
  rw [e] at h ⊢
  simpa using norm_err (V3.dot_order v v) h (pow_le_two hp (by norm_num))

/-- It is finite if the components are not too large. -/
theorem C154_norm2_no_overflow_V3 {f : Fmt} [Libm f] (v : Vec 3 (Flt f)) (B : ℝ) (hv : ∀ k, (v k).IsFin ∧ |(v k).toReal| ≤ B)
    (h : (1 + f.u) ^ 3 * (3 * ((1 + f.u) * B ^ 2 + f.eta)) < (2 : ℝ) ^ (f.emax + 1)) : (V3.norm2 v).IsFin :=
  norm_isFin (V3.dot_order v v) hv (by norm_num; exact h)

private theorem mulMat_order4 {T : Type} [Add T] [Mul T] (v : Vec 4 T) (A : Mat 4 T) (j : Fin 4) :
    IsOrderedSum (V4.mulMat v A j) (fun k => v k * A k j) := by
  fin_cases j <;> exact ⟨0, [1, 2, 3], by decide, rfl⟩

/-- Each component of a computed product of a vector with a matrix. -/
theorem C154_mulMat_V4 {f : Fmt} (v : Vec 4 (Flt f)) (A : Mat 4 (Flt f)) (j : Fin 4) (h : (V4.mulMat v A j).IsFin) :
    |(V4.mulMat v A j).toReal - ∑ k, (v k).toReal * (A k j).toReal| ≤
      ((1 + f.u) ^ 4 - 1) * ∑ k, |(v k).toReal * (A k j).toReal| + (1 + f.u) ^ 4 * (4 * f.eta) := by
  simpa using orderedSum_err (mulMat_order4 v A j) h

/-- The trace is that of a sum of the stored numbers. -/
theorem C154_trace_M44 {f : Fmt} (A : Mat 4 (Flt f)) (h : (M44.trace A).IsFin) :
    |(M44.trace A).toReal - ∑ k, (A k k).toReal| ≤ ((1 + f.u) ^ 3 - 1) * ∑ k, |(A k k).toReal| :=
  sum_err (a := fun k => A k k) ⟨0, [1, 2, 3], by decide, rfl⟩ h

/-- Norm of a vector in every range, so also where squares underflow. -/
theorem C154_norm2_V4 {f : Fmt} [Libm f] (hp : 8 ≤ f.p) (v : Vec 4 (Flt f)) (h : (V4.norm2 v).IsFin) :
    0 ≤ (V4.norm2 v).toReal ∧ |(V4.norm2 v).toReal - √(∑ k, (v k).toReal ^ 2)| ≤
      ((1 + f.u) ^ 5 - 1) * √(∑ k, (v k).toReal ^ 2) + (1 + f.u) * √((1 + f.u) ^ 4 * (4 * f.eta)) := by
  have e : V4.norm2 v = Flt.sqrt (V4.dot v v) := rfl
  rw [e] at h ⊢
  simpa using norm_err (V4.dot_order v v) h (pow_le_two hp (by norm_num))

/-- It is finite if the components are not too large. -/
theorem C154_norm2_no_overflow_V4 {f : Fmt} [Libm f] (v : Vec 4 (Flt f)) (B : ℝ) (hv : ∀ k, (v k).IsFin ∧ |(v k).toReal| ≤ B)
    (h : (1 + f.u) ^ 4 * (4 * ((1 + f.u) * B ^ 2 + f.eta)) < (2 : ℝ) ^ (f.emax + 1)) : (V4.norm2 v).IsFin :=
  norm_isFin (V4.dot_order v v) hv (by norm_num; exact h)

private theorem mulMat_order5 {T : Type} [Add T] [Mul T] (v : Vec 5 T) (A : Mat 5 T) (j : Fin 5) :
    IsOrderedSum (V5.mulMat v A j) (fun k => A k j * v k) := by
  fin_cases j <;> exact ⟨0, [1, 2, 3, 4], by decide, rfl⟩

/-- Each component of a computed product of a vector with a matrix. -/
theorem C154_mulMat_V5 {f : Fmt} (v : Vec 5 (Flt f)) (A : Mat 5 (Flt f)) (j : Fin 5) (h : (V5.mulMat v A j).IsFin) :
    |(V5.mulMat v A j).toReal - ∑ k, (A k j).toReal * (v k).toReal| ≤
      ((1 + f.u) ^ 5 - 1) * ∑ k, |(A k j).toReal * (v k).toReal| + (1 + f.u) ^ 5 * (5 * f.eta) := by
  simpa using orderedSum_err (mulMat_order5 v A j) h

/-- The trace is that of a sum of the stored numbers. -/
theorem C154_trace_M55 {f : Fmt} (A : Mat 5 (Flt f)) (h : (M55.trace A).IsFin) :
    |(M55.trace A).toReal - ∑ k, (A k k).toReal| ≤ ((1 + f.u) ^ 4 - 1) * ∑ k, |(A k k).toReal| :=
  sum_err (a := fun k => A k k) ⟨0, [1, 2, 3, 4], by decide, rfl⟩ h

/-- Norm of a vector in every range, so also where squares underflow. -/
theorem C154_norm2_V5 {f : Fmt} [Libm f] (hp : 8 ≤ f.p) (v : Vec 5 (Flt f)) (h : (V5.norm2 v).IsFin) :
    0 ≤ (V5.norm2 v).toReal ∧ |(V5.norm2 v).toReal - √(∑ k, (v k).toReal ^ 2)| ≤
      ((1 + f.u) ^ 6 - 1) * √(∑ k, (v k).toReal ^ 2) + (1 + f.u) * √((1 + f.u) ^ 5 * (5 * f.eta)) := by
  have e : V5.norm2 v = Flt.sqrt (V5.dot v v) := rfl
  rw [e] at h ⊢
  simpa using norm_err (V5.dot_order v v) h (pow_le_two hp (by norm_num))

/-- It is finite if the components are not too large. -/
theorem C154_norm2_no_overflow_V5 {f : Fmt} [Libm f] (v : Vec 5 (Flt f)) (B : ℝ) (hv : ∀ k, (v k).IsFin ∧ |(v k).toReal| ≤ B)
    (h : (1 + f.u) ^ 5 * (5 * ((1 + f.u) * B ^ 2 + f.eta)) < (2 : ℝ) ^ (f.emax + 1)) : (V5.norm2 v).IsFin :=
  norm_isFin (V5.dot_order v v) hv (by norm_num; exact h)

private theorem mulMat_order6 {T : Type} [Add T] [Mul T] (v : Vec 6 T) (A : Mat 6 T) (j : Fin 6) :
    IsOrderedSum (V6.mulMat v A j) (fun k => A k j * v k) := by
  fin_cases j <;> exact ⟨0, [1, 2, 3, 4, 5], by decide, rfl⟩

/-- Each component of a computed product of a vector with a matrix. -/
theorem C154_mulMat_V6 {f : Fmt} (v : Vec 6 (Flt f)) (A : Mat 6 (Flt f)) (j : Fin 6) (h : (V6.mulMat v A j).IsFin) :
    |(V6.mulMat v A j).toReal - ∑ k, (A k j).toReal * (v k).toReal| ≤
      ((1 + f.u) ^ 6 - 1) * ∑ k, |(A k j).toReal * (v k).toReal| + (1 + f.u) ^ 6 * (6 * f.eta) := by
  simpa using orderedSum_err (mulMat_order6 v A j) h

/-- The trace is that of a sum of the stored numbers. -/
theorem C154_trace_M66 {f : Fmt} (A : Mat 6 (Flt f)) (h : (M66.trace A).IsFin) :
    |(M66.trace A).toReal - ∑ k, (A k k).toReal| ≤ ((1 + f.u) ^ 5 - 1) * ∑ k, |(A k k).toReal| :=
  sum_err (a := fun k => A k k) ⟨0, [1, 2, 3, 4, 5], by decide, rfl⟩ h

/-- Norm of a vector in every range, so also where squares underflow. -/
theorem C154_norm2_V6 {f : Fmt} [Libm f] (hp : 8 ≤ f.p) (v : Vec 6 (Flt f)) (h : (V6.norm2 v).IsFin) :
    0 ≤ (V6.norm2 v).toReal ∧ |(V6.norm2 v).toReal - √(∑ k, (v k).toReal ^ 2)| ≤
      ((1 + f.u) ^ 7 - 1) * √(∑ k, (v k).toReal ^ 2) + (1 + f.u) * √((1 + f.u) ^ 6 * (6 * f.eta)) := by
  have e : V6.norm2 v = Flt.sqrt (V6.dot v v) := rfl
  rw [e] at h ⊢
  simpa using norm_err (V6.dot_order v v) h (pow_le_two hp (by norm_num))

/-- It is finite if the components are not too large. -/
theorem C154_norm2_no_overflow_V6 {f : Fmt} [Libm f] (v : Vec 6 (Flt f)) (B : ℝ) (hv : ∀ k, (v k).IsFin ∧ |(v k).toReal| ≤ B)
    (h : (1 + f.u) ^ 6 * (6 * ((1 + f.u) * B ^ 2 + f.eta)) < (2 : ℝ) ^ (f.emax + 1)) : (V6.norm2 v).IsFin :=
  norm_isFin (V6.dot_order v v) hv (by norm_num; exact h)

theorem M22.norm2_order {f : Fmt} [Libm f] (A : Mat 2 (Flt f)) : ∃ r, M22.norm2 A = Flt.sqrt r ∧
    IsOrderedSum r (fun k : Fin (2 * 2) => (A k.divNat k.modNat) * (A k.divNat k.modNat)) :=
  ⟨_, rfl, 0, [1, 2, 3], by decide, rfl⟩

/-- Frobenius norm of a matrix in every range. -/
theorem C154_norm2_M22 {f : Fmt} [Libm f] (hp : 8 ≤ f.p) (A : Mat 2 (Flt f)) (h : (M22.norm2 A).IsFin) :
    0 ≤ (M22.norm2 A).toReal ∧ |(M22.norm2 A).toReal - √(∑ i, ∑ j, (A i j).toReal ^ 2)| ≤
      ((1 + f.u) ^ 5 - 1) * √(∑ i, ∑ j, (A i j).toReal ^ 2) + (1 + f.u) * √((1 + f.u) ^ 4 * (4 * f.eta)) := by
  obtain ⟨r, hr, hs⟩ := M22.norm2_order A
  rw [hr] at h ⊢
  have H := norm_err hs h (pow_le_two hp (by norm_num))
  have e : ∑ k : Fin (2 * 2), (A k.divNat k.modNat).toReal ^ 2 = ∑ i, ∑ j, (A i j).toReal ^ 2 := by
    rw [← Fintype.sum_prod_type', ← finProdFinEquiv.symm.sum_comp]
    rfl
  rw [e] at H
  norm_num [-Fin.sum_univ_two] at H
  exact H

/-- It is finite if the entries are not too large. -/
theorem C154_norm2_no_overflow_M22 {f : Fmt} [Libm f] (A : Mat 2 (Flt f)) (B : ℝ) (hA : ∀ i j, (A i j).IsFin ∧ |(A i j).toReal| ≤ B)
    (h : (1 + f.u) ^ 4 * (4 * ((1 + f.u) * B ^ 2 + f.eta)) < (2 : ℝ) ^ (f.emax + 1)) : (M22.norm2 A).IsFin := by
  obtain ⟨r, hr, hs⟩ := M22.norm2_order A
  rw [hr]
  refine norm_isFin hs (B := B) (fun k => hA _ _) ?_
  norm_num
  exact h

theorem M33.norm2_order {f : Fmt} [Libm f] (A : Mat 3 (Flt f)) : ∃ r, M33.norm2 A = Flt.sqrt r ∧
    IsOrderedSum r (fun k : Fin (3 * 3) => (A k.modNat k.divNat) * (A k.modNat k.divNat)) :=
  ⟨_, rfl, 0, [1, 2, 3, 4, 5, 6, 7, 8], by decide, rfl⟩

/-- Frobenius norm of a matrix in every range. -/
theorem C154_norm2_M33 {f : Fmt} [Libm f] (hp : 8 ≤ f.p) (A : Mat 3 (Flt f)) (h : (M33.norm2 A).IsFin) :
    0 ≤ (M33.norm2 A).toReal ∧ |(M33.norm2 A).toReal - √(∑ i, ∑ j, (A i j).toReal ^ 2)| ≤
      ((1 + f.u) ^ 10 - 1) * √(∑ i, ∑ j, (A i j).toReal ^ 2) + (1 + f.u) * √((1 + f.u) ^ 9 * (9 * f.eta)) := by
  obtain ⟨r, hr, hs⟩ := M33.norm2_order A
  rw [hr] at h ⊢
  have H := norm_err hs h (pow_le_two hp (by norm_num))
  have e : ∑ k : Fin (3 * 3), (A k.modNat k.divNat).toReal ^ 2 = ∑ i, ∑ j, (A i j).toReal ^ 2 := by
    rw [Finset.sum_comm, ← Fintype.sum_prod_type', ← finProdFinEquiv.symm.sum_comp]
    rfl
  rw [e] at H
  norm_num [-Fin.sum_univ_two] at H
  exact H

/-- It is finite if the entries are not too large. -/
theorem C154_norm2_no_overflow_M33 {f : Fmt} [Libm f] (A : Mat 3 (Flt f)) (B : ℝ) (hA : ∀ i j, (A i j).IsFin ∧ |(A i j).toReal| ≤ B)
    (h : (1 + f.u) ^ 9 * (9 * ((1 + f.u) * B ^ 2 + f.eta)) < (2 : ℝ) ^ (f.emax + 1)) : (M33.norm2 A).IsFin := by
  obtain ⟨r, hr, hs⟩ := M33.norm2_order A
  rw [hr]
  refine norm_isFin hs (B := B) (fun k => hA _ _) ?_
  norm_num
  exact h

theorem M44.norm2_order {f : Fmt} [Libm f] (A : Mat 4 (Flt f)) : ∃ r, M44.norm2 A = Flt.sqrt r ∧
    IsOrderedSum r (fun k : Fin (4 * 4) => (A k.divNat k.modNat) * (A k.divNat k.modNat)) :=
  ⟨_, rfl, 0, [1, 2, 3, 4, 5, 6, 7, 8, 9, 10, 11, 12, 13, 14, 15], by decide, rfl⟩

/-- Frobenius norm of a matrix in every range. -/
theorem C154_norm2_M44 {f : Fmt} [Libm f] (hp : 8 ≤ f.p) (A : Mat 4 (Flt f)) (h : (M44.norm2 A).IsFin) :
    0 ≤ (M44.norm2 A).toReal ∧ |(M44.norm2 A).toReal - √(∑ i, ∑ j, (A i j).toReal ^ 2)| ≤
      ((1 + f.u) ^ 17 - 1) * √(∑ i, ∑ j, (A i j).toReal ^ 2) + (1 + f.u) * √((1 + f.u) ^ 16 * (16 * f.eta)) := by
  obtain ⟨r, hr, hs⟩ := M44.norm2_order A
  rw [hr] at h ⊢
  have H := norm_err hs h (pow_le_two hp (by norm_num))
  have e : ∑ k : Fin (4 * 4), (A k.divNat k.modNat).toReal ^ 2 = ∑ i, ∑ j, (A i j).toReal ^ 2 := by
    rw [← Fintype.sum_prod_type', ← finProdFinEquiv.symm.sum_comp]
    rfl
  rw [e] at H
  norm_num [-Fin.sum_univ_two] at H
  exact H

/-- It is finite if the entries are not too large. -/
theorem C154_norm2_no_overflow_M44 {f : Fmt} [Libm f] (A : Mat 4 (Flt f)) (B : ℝ) (hA : ∀ i j, (A i j).IsFin ∧ |(A i j).toReal| ≤ B)
    (h : (1 + f.u) ^ 16 * (16 * ((1 + f.u) * B ^ 2 + f.eta)) < (2 : ℝ) ^ (f.emax + 1)) : (M44.norm2 A).IsFin := by
  obtain ⟨r, hr, hs⟩ := M44.norm2_order A
  rw [hr]
  refine norm_isFin hs (B := B) (fun k => hA _ _) ?_
  norm_num
  exact h

/-- The bounds apply: the norm and the trace of a matrix of ones, and its product with a vector of ones, are finite in every format. -/
example {f : Fmt} [Libm f] (hp : 8 ≤ f.p) : (M22.norm2 (⟨fun _ _ => 1⟩ : Mat 2 (Flt f))).IsFin ∧
    (M22.trace (⟨fun _ _ => 1⟩ : Mat 2 (Flt f))).IsFin ∧
    ∀ j, (V2.mulMat (⟨fun _ => 1⟩ : Vec 2 (Flt f)) ⟨fun _ _ => 1⟩ j).IsFin := by
  have h0 := f.u_pos
  have h1 := Fmt.u_le_of_p hp
  have h8 : (2 : ℝ) ^ (3 : ℤ) ≤ 2 ^ (f.emax + 1) := by
    have := f.hmax
    have := f.hp
    exact zpow_le_zpow_right₀ (by norm_num) (by omega)
  norm_num at h8
  have hm : ((1 : Flt f) * 1).IsFin ∧ |((1 : Flt f) * 1).toReal - 1| ≤ f.u := by
    have hf : ((1 : Flt f) * 1).IsFin := mul_isFin isFin_one isFin_one (by rw [toReal_one]; norm_num; linarith)
    refine ⟨hf, ?_⟩
    have := mul_rel hf (by
      right
      rw [toReal_one]
      norm_num
      have := f.hmin
      omega)
    rw [toReal_one] at this
    simpa using this
  obtain ⟨hf, hm⟩ := hm
  obtain ⟨m1, m2⟩ := _root_.abs_le.1 hm
  have add {a b : Flt f} {c : ℝ} (ha : a.IsFin) (hb : b.IsFin) (h : |a.toReal + b.toReal| ≤ c) (hc : c ≤ 6) : (a + b).IsFin ∧
      |(a + b).toReal - (a.toReal + b.toReal)| ≤ f.u * c := by
    have hs : (a + b).IsFin := add_isFin ha hb (by nlinarith)
    exact ⟨hs, (add_rel hs).trans (mul_le_mul_of_nonneg_left h h0.le)⟩
  have s2 := add hf hf (c := 3) (by rw [_root_.abs_le]; constructor <;> linarith) (by norm_num)
  have q2 := _root_.abs_le.1 s2.2
  have s3 := add s2.1 hf (c := 4) (by rw [_root_.abs_le]; constructor <;> linarith) (by norm_num)
  have q3 := _root_.abs_le.1 s3.2
  have s4 := add s3.1 hf (c := 5) (by rw [_root_.abs_le]; constructor <;> linarith) (by norm_num)
  have q4 := _root_.abs_le.1 s4.2
  refine ⟨(sqrt_rel s4.1 (by linarith)).1, ?_, fun j => by fin_cases j <;> exact s2.1⟩
  exact (add isFin_one isFin_one (c := 2) (by rw [toReal_one]; norm_num) (by norm_num)).1

end StaticMath
