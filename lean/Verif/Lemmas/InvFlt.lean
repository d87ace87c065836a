import Verif.Lemmas.InverseFree
import Verif.Lemmas.Det
import Verif.Ieee.Facts
import Verif.Ieee.Back
import Verif.Props.IeeeDet

/-!
# Entries of `inverse()` in floating point

Generated by `tools/gen_props_ieee_inv.py`. The entries are computed cofactors, multiplied by the
computed reciprocal of the computed determinant (sizes 2, 3, 4, 6) or divided by it (size 5).
-/

namespace StaticMath
open Flt
variable {f : Fmt}

theorem abs_det_le_permanent {n : ℕ} (M : Fin n → Fin n → ℝ) :
    |(Matrix.of M).det| ≤ (Matrix.of fun i j => |M i j|).permanent := by
  rw [Matrix.det_apply', Matrix.permanent]
  refine (Finset.abs_sum_le_sum_abs _ _).trans (Finset.sum_le_sum fun σ _ => ?_)
  rw [abs_mul, Finset.abs_prod]
  have : |((Equiv.Perm.sign σ : ℤ) : ℝ)| = 1 := by
    rcases Int.units_eq_one_or (Equiv.Perm.sign σ) with h | h <;> rw [h] <;> simp
  rw [this, one_mul]
  exact le_rfl

/-- Cofactor times reciprocal. -/
theorem inv_entry_mul {C D : Flt f} {c P U : ℝ} {d : ℕ} (hD : D.IsFin) (h : (C * (1 / D)).IsFin)
    (hc : |c| ≤ P) (_hU : 0 ≤ U)
    (hC : |C.toReal - c| ≤ ((1 + f.u) ^ d - 1) * P + (1 + f.u) ^ d * (f.eta * U)) :
    |(C * (1 / D)).toReal - c / D.toReal| ≤
      (((1 + f.u) ^ (d + 2) - 1) * P + (1 + f.u) ^ (d + 2) * (f.eta * U)) / |D.toReal| +
      f.eta * (1 + (1 + f.u) ^ (d + 1) * (P + f.eta * U)) := by
  have hu := f.u_pos
  have he := f.eta_pos
  have h1 := mul_err h
  obtain ⟨hD0, h2⟩ := div_err hD (isFin_of_mul h).2
  rw [toReal_one] at h2
  obtain ⟨g, hg⟩ : ∃ g, g = (1 + f.u) ^ d := ⟨_, rfl⟩
  have hg1 : 1 ≤ g := by rw [hg]; exact one_le_pow₀ (by linarith)
  rw [pow_succ, pow_succ, ← hg]
  rw [← hg] at hC
  obtain ⟨w, hw⟩ : ∃ w, w = (1 / D : Flt f).toReal := ⟨_, rfl⟩
  obtain ⟨x, hx⟩ : ∃ x, x = C.toReal := ⟨_, rfl⟩
  obtain ⟨r, hr⟩ : ∃ r, r = 1 / D.toReal := ⟨_, rfl⟩
  rw [← hw, ← hr] at h2
  rw [← hw, ← hx] at h1
  rw [← hx] at hC
  have hP : 0 ≤ P := (abs_nonneg c).trans hc
  have hx1 : |x| ≤ g * (P + f.eta * U) := by
    have := abs_sub_abs_le_abs_sub x c
    nlinarith
  have hw1 : |w| ≤ (1 + f.u) * |r| + f.eta := by
    have := abs_sub_abs_le_abs_sub w r
    nlinarith
  rw [div_eq_mul_one_div c, ← hr, div_eq_mul_one_div _ |D.toReal|]
  have hr' : 1 / |D.toReal| = |r| := by rw [hr, abs_div, abs_one]
  rw [hr']
  have e1 : |x * w - c * r| ≤ |x| * (f.u * |r| + f.eta) + ((g - 1) * P + g * (f.eta * U)) * |r| := by
    calc |x * w - c * r| = |x * (w - r) + (x - c) * r| := by congr 1; ring
      _ ≤ |x * (w - r)| + |(x - c) * r| := abs_add_le _ _
      _ ≤ _ := by
        rw [abs_mul, abs_mul]
        exact add_le_add (mul_le_mul_of_nonneg_left h2 (abs_nonneg _))
          (mul_le_mul_of_nonneg_right hC (abs_nonneg _))
  have e2 : f.u * |x * w| ≤ f.u * (|x| * ((1 + f.u) * |r| + f.eta)) := by
    rw [abs_mul]
    exact mul_le_mul_of_nonneg_left (mul_le_mul_of_nonneg_left hw1 (abs_nonneg _)) hu.le
  have e3 : |(C * (1 / D)).toReal - c * r| ≤ |(C * (1 / D)).toReal - x * w| + |x * w - c * r| := abs_sub_le _ _ _
  have hr0 := abs_nonneg r
  have e4 : |x| * (f.u * |r| + f.eta) + f.u * (|x| * ((1 + f.u) * |r| + f.eta)) =
      |x| * ((f.u + f.u * (1 + f.u)) * |r| + (1 + f.u) * f.eta) := by ring
  have e5 : |x| * ((f.u + f.u * (1 + f.u)) * |r| + (1 + f.u) * f.eta) ≤
      g * (P + f.eta * U) * ((f.u + f.u * (1 + f.u)) * |r| + (1 + f.u) * f.eta) :=
    mul_le_mul_of_nonneg_right hx1 (by positivity)
  have e6 : g * (P + f.eta * U) * ((f.u + f.u * (1 + f.u)) * |r| + (1 + f.u) * f.eta) +
      ((g - 1) * P + g * (f.eta * U)) * |r| + f.eta =
      ((g * (1 + f.u) * (1 + f.u) - 1) * P + g * (1 + f.u) * (1 + f.u) * (f.eta * U)) * |r| +
      f.eta * (1 + g * (1 + f.u) * (P + f.eta * U)) := by ring
  linarith

/-- Cofactor divided by the determinant. -/
theorem inv_entry_div {C D : Flt f} {c P U : ℝ} {d : ℕ} (hD : D.IsFin) (h : (C / D).IsFin)
    (hc : |c| ≤ P) (hU : 0 ≤ U)
    (hC : |C.toReal - c| ≤ ((1 + f.u) ^ d - 1) * P + (1 + f.u) ^ d * (f.eta * U)) :
    |(C / D).toReal - c / D.toReal| ≤
      (((1 + f.u) ^ (d + 2) - 1) * P + (1 + f.u) ^ (d + 2) * (f.eta * U)) / |D.toReal| +
      f.eta * (1 + (1 + f.u) ^ (d + 1) * (P + f.eta * U)) := by
  have hu := f.u_pos
  have he := f.eta_pos
  obtain ⟨hD0, h2⟩ := div_err hD h
  obtain ⟨g, hg⟩ : ∃ g, g = (1 + f.u) ^ d := ⟨_, rfl⟩
  have hg1 : 1 ≤ g := by rw [hg]; exact one_le_pow₀ (by linarith)
  rw [pow_succ, pow_succ, ← hg]
  rw [← hg] at hC
  obtain ⟨x, hx⟩ : ∃ x, x = C.toReal := ⟨_, rfl⟩
  obtain ⟨r, hr⟩ : ∃ r, r = 1 / D.toReal := ⟨_, rfl⟩
  rw [← hx, div_eq_mul_one_div x, ← hr] at h2
  rw [← hx] at hC
  have hP : 0 ≤ P := (abs_nonneg c).trans hc
  have hx1 : |x| ≤ g * (P + f.eta * U) := by
    have := abs_sub_abs_le_abs_sub x c
    nlinarith
  rw [div_eq_mul_one_div c, ← hr, div_eq_mul_one_div _ |D.toReal|]
  have hr' : 1 / |D.toReal| = |r| := by rw [hr, abs_div, abs_one]
  rw [hr']
  have e1 : |x * r - c * r| ≤ ((g - 1) * P + g * (f.eta * U)) * |r| := by
    rw [← sub_mul, abs_mul]
    exact mul_le_mul_of_nonneg_right hC (abs_nonneg _)
  have e3 : |(C / D).toReal - c * r| ≤ |(C / D).toReal - x * r| + |x * r - c * r| := abs_sub_le _ _ _
  have hr0 := abs_nonneg r
  rw [abs_mul] at h2
  have e2 : f.u * (|x| * |r|) ≤ f.u * (g * (P + f.eta * U) * |r|) :=
    mul_le_mul_of_nonneg_left (mul_le_mul_of_nonneg_right hx1 hr0) hu.le
  have e4 : 0 ≤ f.u * (g * (1 + f.u) * (P + f.eta * U)) * |r| := by positivity
  have e5 : 0 ≤ f.eta * (g * (1 + f.u) * (P + f.eta * U)) := by positivity
  have e6 : f.u * (g * (P + f.eta * U) * |r|) + ((g - 1) * P + g * (f.eta * U)) * |r| +
      f.u * (g * (1 + f.u) * (P + f.eta * U)) * |r| =
      ((g * (1 + f.u) * (1 + f.u) - 1) * P + g * (1 + f.u) * (1 + f.u) * (f.eta * U)) * |r| := by ring
  linarith

theorem isFin_of_div_left {a b : Flt f} (h : (a / b).IsFin) : a.IsFin := by
  rcases a with _ | s | ⟨s, x, hx⟩
  · exact h
  · rcases b with _ | t | ⟨t, y, hy⟩ <;> exact h
  · trivial

theorem _root_.StaticMath.Fmt.eta_le (f : Fmt) : f.eta ≤ 1 / 16 := by
  have hp := f.hp
  have h2 := f.hmin
  have := zpow_le_zpow_right₀ (a := (2 : ℝ)) (by norm_num) (show f.emin - f.p ≤ -4 by omega)
  exact this.trans_eq (by norm_num)

theorem cof_le {C : Flt f} {c P U : ℝ} {d : ℕ} (hc : |c| ≤ P)
    (hC : |C.toReal - c| ≤ ((1 + f.u) ^ d - 1) * P + (1 + f.u) ^ d * (f.eta * U)) :
    |C.toReal| ≤ (1 + f.u) ^ d * (P + f.eta * U) := by
  have := abs_sub_abs_le_abs_sub C.toReal c
  nlinarith

/-- Reciprocals of numbers of magnitude at least `EPSILON`. -/
theorem recip_le {D : Flt f} (hD : D.IsFin) (h : (2 : ℝ) ^ (1 - (f.p : ℤ)) ≤ |D.toReal|) :
    (1 / D).IsFin ∧ |(1 / D).toReal| ≤ (2 : ℝ) ^ f.p ∧ |1 / D.toReal| ≤ (2 : ℝ) ^ (f.p - 1 : ℤ) := by
  have hpos : (0 : ℝ) < 2 ^ (1 - (f.p : ℤ)) := by positivity
  have hD0 : D.toReal ≠ 0 := by
    intro h0
    rw [h0, abs_zero] at h
    linarith
  have h3 : |1 / D.toReal| ≤ (2 : ℝ) ^ (f.p - 1 : ℤ) := by
    rw [abs_div, abs_one, show ((f.p : ℤ) - 1) = -(1 - (f.p : ℤ)) by ring, zpow_neg, ← one_div]
    exact one_div_le_one_div_of_le hpos h
  have hp2 : (2 : ℝ) ^ (f.p : ℤ) = 2 * 2 ^ (f.p - 1 : ℤ) := by
    rw [← zpow_one_add₀ (by norm_num)]
    congr 1
    ring
  have hp1 : (1 : ℝ) ≤ 2 ^ (f.p - 1 : ℤ) := one_le_zpow₀ (by norm_num) (by have := f.hp; omega)
  have hu := f.u_le
  have hu0 := f.u_pos
  have h1 : (1 / D).IsFin := by
    refine div_isFin isFin_one hD hD0 ?_
    rw [toReal_one]
    have : (2 : ℝ) ^ (f.p : ℤ) < 2 ^ (f.emax + 1) :=
      zpow_lt_zpow_right₀ (by norm_num) (by have := f.hmax; omega)
    nlinarith
  refine ⟨h1, ?_, h3⟩
  obtain ⟨-, h2⟩ := div_err hD h1
  rw [toReal_one] at h2
  have h4 := abs_sub_abs_le_abs_sub (1 / D : Flt f).toReal (1 / D.toReal)
  have h5 : f.eta ≤ 1 / 16 := f.eta_le
  rw [← zpow_natCast, hp2]
  nlinarith

/-- Cofactor times reciprocal stays finite. -/
theorem inv_fin_mul {C D : Flt f} {X : ℝ} (hD : D.IsFin) (h : (2 : ℝ) ^ (1 - (f.p : ℤ)) ≤ |D.toReal|)
    (hC : C.IsFin) (hX : |C.toReal| ≤ X) (hb : (1 + f.u) * (X * 2 ^ f.p) < (2 : ℝ) ^ (f.emax + 1)) :
    (C * (1 / D)).IsFin := by
  obtain ⟨h1, h2, -⟩ := recip_le hD h
  refine mul_isFin hC h1 (lt_of_le_of_lt ?_ hb)
  have := f.u_pos
  rw [abs_mul]
  exact mul_le_mul_of_nonneg_left (mul_le_mul hX h2 (abs_nonneg _) ((abs_nonneg _).trans hX)) (by linarith)

theorem inv_fin_div {C D : Flt f} {X : ℝ} (hD : D.IsFin) (h : (2 : ℝ) ^ (1 - (f.p : ℤ)) ≤ |D.toReal|)
    (hC : C.IsFin) (hX : |C.toReal| ≤ X) (hb : (1 + f.u) * (X * 2 ^ f.p) < (2 : ℝ) ^ (f.emax + 1)) :
    (C / D).IsFin := by
  obtain ⟨h1, h2, h3⟩ := recip_le hD h
  have hpos : (0 : ℝ) < 2 ^ (1 - (f.p : ℤ)) := by positivity
  have hD0 : D.toReal ≠ 0 := by
    intro h0
    rw [h0, abs_zero] at h
    linarith
  refine div_isFin hC hD hD0 (lt_of_le_of_lt ?_ hb)
  have := f.u_pos
  have h4 : (2 : ℝ) ^ (f.p - 1 : ℤ) ≤ 2 ^ f.p := by
    rw [← zpow_natCast]
    exact zpow_le_zpow_right₀ (by norm_num) (by omega)
  rw [div_eq_mul_one_div, abs_mul]
  exact mul_le_mul_of_nonneg_left (mul_le_mul hX (h3.trans h4) (abs_nonneg _) ((abs_nonneg _).trans hX)) (by linarith)

theorem minorPer_le {n : ℕ} (M : Fin n → Fin n → ℝ) (K : ℝ) (hM : ∀ i j, |M i j| ≤ K) :
    (Matrix.of fun i j => |M i j|).permanent ≤ (n.factorial : ℝ) * K ^ n := by
  rw [Matrix.permanent]
  calc ∑ σ : Equiv.Perm (Fin n), ∏ i, (Matrix.of fun i j => |M i j|) (σ i) i
      ≤ ∑ _σ : Equiv.Perm (Fin n), K ^ n := by
        refine Finset.sum_le_sum fun σ _ => ?_
        calc ∏ i, (Matrix.of fun i j => |M i j|) (σ i) i ≤ ∏ _i : Fin n, K :=
              Finset.prod_le_prod (fun i _ => abs_nonneg _) fun i _ => hM _ _
          _ = K ^ n := by simp
    _ = _ := by simp [Fintype.card_perm]

/-- From the computed to the true determinant. -/
theorem inv_true {B a D e E : ℝ} {d : ℝ} (hd : |D - d| ≤ E) (hE : E < |D|) (h : |B - a / D| ≤ e) :
    d ≠ 0 ∧ |B - a / d| ≤ e + |a / d| * (E / |D|) := by
  have hD : D ≠ 0 := by
    rintro rfl
    rw [abs_zero] at hE
    linarith [abs_nonneg (0 - d)]
  have hd0 : d ≠ 0 := by
    rintro rfl
    rw [sub_zero] at hd
    linarith
  refine ⟨hd0, ?_⟩
  have h1 : |a / D - a / d| ≤ |a / d| * (E / |D|) := by
    have : a / D - a / d = a / d * ((d - D) / D) := by field_simp
    rw [this, abs_mul, abs_div (d - D)]
    exact mul_le_mul_of_nonneg_left (div_le_div_of_nonneg_right (by rw [abs_sub_comm]; exact hd) (abs_nonneg _))
      (abs_nonneg _)
  have := abs_sub_le B (a / D) (a / d)
  linarith

private theorem neg_one_mul_val (x : Flt f) : (-1 : Flt f) * x = -x := by
  cases x with
  | nan => rfl
  | inf s =>
    change (if (1 : ℝ) = 0 then nan else inf (true != s)) = inf (!s)
    rw [if_neg one_ne_zero]
    cases s <;> rfl
  | fin s x hx =>
    change pack f (true != s) (1 * x) = fin (!s) x hx
    simp only [one_mul, Bool.true_bne]
    exact pack_rep hx

private theorem sign_val (k : ℕ) (x : Flt f) (h : ((if k % 2 = 0 then (1 : Flt f) else -1) * x).IsFin) :
    x.IsFin ∧ ((if k % 2 = 0 then (1 : Flt f) else -1) * x).toReal = (-1) ^ k * x.toReal := by
  rcases Nat.mod_two_eq_zero_or_one k with h0 | h0
  · rw [if_pos h0, one_mul'] at h ⊢
    exact ⟨h, by rw [Even.neg_one_pow (Nat.even_iff.2 h0), one_mul]⟩
  · rw [if_neg (by omega), neg_one_mul_val] at h ⊢
    exact ⟨isFin_neg.1 h, by rw [toReal_neg, Odd.neg_one_pow (Nat.odd_iff.2 h0), neg_one_mul]⟩

private theorem sign_fin (k : ℕ) (x : Flt f) (h : x.IsFin) : ((if k % 2 = 0 then (1 : Flt f) else -1) * x).IsFin := by
  rcases Nat.mod_two_eq_zero_or_one k with h0 | h0
  · rwa [if_pos h0, one_mul']
  · rw [if_neg (by omega), neg_one_mul_val]
    exact isFin_neg.2 h

private theorem pow_abs_one (k : ℕ) : |((-1 : ℝ)) ^ k| = 1 := by rw [abs_pow, abs_neg, abs_one, one_pow]

/-- The real matrix of a float matrix. -/
noncomputable def Mat.reM' {n : ℕ} (A : Mat n (Flt f)) : Matrix (Fin n) (Fin n) ℝ := Matrix.of fun i j => (A i j).toReal

/-- The permanent of the magnitudes of the minor that leaves out row `i` and column `j`. -/
noncomputable def Mat.minorPer {n : ℕ} (A : Mat (n + 1) (Flt f)) (i j : Fin (n + 1)) : ℝ :=
  (Matrix.of fun (r c : Fin n) => |(A (i.succAbove r) (j.succAbove c)).toReal|).permanent

theorem Mat.adj_le {n : ℕ} (A : Mat (n + 1) (Flt f)) (i j : Fin (n + 1)) : |A.reM'.adjugate i j| ≤ A.minorPer j i := by
  rw [Matrix.adjugate_fin_succ_eq_det_submatrix, abs_mul, pow_abs_one, one_mul]
  exact abs_det_le_permanent fun r c => (A (j.succAbove r) (i.succAbove c)).toReal

private theorem minor_sgn {n : ℕ} (A : Mat (n + 1) (Flt f)) (i j : Fin (n + 1)) (C : Flt f) (y E : ℝ)
    (hC : C.toReal = (-1) ^ (j.val + i.val) * y)
    (hy : |y - (Matrix.of fun r c => (A (j.succAbove r) (i.succAbove c)).toReal).det| ≤ E) :
    |C.toReal - A.reM'.adjugate i j| ≤ E := by
  rw [Matrix.adjugate_fin_succ_eq_det_submatrix, hC]
  rw [show A.reM'.submatrix j.succAbove i.succAbove = Matrix.of fun r c => (A (j.succAbove r) (i.succAbove c)).toReal from rfl,
    ← mul_sub, abs_mul, pow_abs_one, one_mul]
  exact hy

theorem M22.inv_flt [Libm f] (A B : Mat 2 (Flt f)) (h : M22.inverse A = .ok (some B)) (b : ℝ)
    (_hb : ∀ i j, |(A i j).toReal| ≤ b) : nearly_zero (M22.det A) = false ∧
    ∀ i j, ∃ C : Flt f, B i j = C * (1 / M22.det A) ∧ (C.IsFin → |C.toReal - A.reM'.adjugate i j| ≤
      ((1 + f.u) ^ 0 - 1) * A.minorPer j i + (1 + f.u) ^ 0 * (f.eta * (0))) ∧
      (∀ K : ℝ, 1 ≤ K → (∀ i j, (A i j).FinLe K) →
        (1 + f.u) ^ 0 * (1 * K ^ 1) < (2 : ℝ) ^ (f.emax + 1) → C.IsFin) := by
  unfold M22.inverse at h
  by_cases h0 : nearly_zero (M22.det A) = true
  · simp only [h0] at h
    cases h
  have h' : nearly_zero (M22.det A) = false := by simpa using h0
  refine ⟨h', ?_⟩
  simp only [h', Bool.not_false, if_true] at h
  have e : B = _ := (Option.some.inj (Except.ok.inj h)).symm
  clear h
  intro i j
  subst e
  have hp : ∀ i j : Fin 2, A.minorPer j i = |(A (j.succAbove 0) (i.succAbove 0)).toReal| := fun i j =>
    Matrix.permanent_unique _
  have ha : A.reM'.adjugate = !![(A 1 1).toReal, -(A 0 1).toReal; -(A 1 0).toReal, (A 0 0).toReal] :=
    Matrix.adjugate_fin_two A.reM'
  rw [ha]
  have z : ∀ x y : ℝ, x = y → ∀ P : ℝ, |x - y| ≤ ((1 + f.u) ^ 0 - 1) * P + (1 + f.u) ^ 0 * (f.eta * (0)) := by
    rintro x _ rfl P
    simp
  fin_cases i <;> fin_cases j
  · exact ⟨_, rfl, fun _ => z _ _ rfl _, fun _ _ hA _ => (hA _ _).1⟩
  · exact ⟨_, rfl, fun _ => z _ _ (toReal_neg _) _, fun _ _ hA _ => isFin_neg.2 (hA _ _).1⟩
  · exact ⟨_, rfl, fun _ => z _ _ (toReal_neg _) _, fun _ _ hA _ => isFin_neg.2 (hA _ _).1⟩
  · exact ⟨_, rfl, fun _ => z _ _ rfl _, fun _ _ hA _ => (hA _ _).1⟩

private theorem minor2 {a b c d : Flt f} (h : (a * b - c * d).IsFin) :
    |(a * b - c * d).toReal - (a.toReal * b.toReal - c.toReal * d.toReal)| ≤
      ((1 + f.u) ^ 2 - 1) * (|a.toReal| * |b.toReal| + |c.toReal| * |d.toReal|) + (1 + f.u) ^ 2 * (f.eta * 2) := by
  obtain ⟨K, hK⟩ : ∃ K : ℝ, ∀ i j, |((⟨![![a, d], ![c, b]]⟩ : Mat 2 (Flt f)) i j).toReal| ≤ K :=
    ⟨max (max |a.toReal| |b.toReal|) (max |c.toReal| |d.toReal|), fun i j => by
      fin_cases i <;> fin_cases j <;> simp⟩
  have := C102_det_M22 (⟨![![a, d], ![c, b]]⟩ : Mat 2 (Flt f)) K hK h
  rw [PermExpand.per2, Matrix.det_fin_two] at this
  have e : (Matrix.of fun i j => ((⟨![![a, d], ![c, b]]⟩ : Mat 2 (Flt f)) i j).toReal) 0 0 *
      (Matrix.of fun i j => ((⟨![![a, d], ![c, b]]⟩ : Mat 2 (Flt f)) i j).toReal) 1 1 -
      (Matrix.of fun i j => ((⟨![![a, d], ![c, b]]⟩ : Mat 2 (Flt f)) i j).toReal) 0 1 *
      (Matrix.of fun i j => ((⟨![![a, d], ![c, b]]⟩ : Mat 2 (Flt f)) i j).toReal) 1 0 =
      a.toReal * b.toReal - c.toReal * d.toReal := by
    change a.toReal * b.toReal - d.toReal * c.toReal = _
    ring
  rw [e] at this
  exact this

private theorem minor2_fin {a b c d : Flt f} (K : ℝ) (hK : 1 ≤ K) (ha : a.FinLe K) (hb : b.FinLe K) (hc : c.FinLe K)
    (hd : d.FinLe K) (h : (1 + f.u) ^ 2 * (4 * K ^ 2) < (2 : ℝ) ^ (f.emax + 1)) : (a * b - c * d).IsFin :=
  (C103_no_overflow_M22 (⟨![![a, d], ![c, b]]⟩ : Mat 2 (Flt f)) ⟨![![a, d], ![c, b]]⟩ ⟨![a, b]⟩ ⟨![a, b]⟩ K hK
    (fun i j => by fin_cases i <;> fin_cases j <;> assumption) (fun i j => by fin_cases i <;> fin_cases j <;> assumption)
    (fun i => by fin_cases i <;> assumption) (fun i => by fin_cases i <;> assumption)).1 h

theorem M33.inv_flt [Libm f] (A B : Mat 3 (Flt f)) (h : M33.inverse A = .ok (some B)) (b : ℝ)
    (_hb : ∀ i j, |(A i j).toReal| ≤ b) : nearly_zero (M33.det A) = false ∧
    ∀ i j, ∃ C : Flt f, B i j = C * (1 / M33.det A) ∧ (C.IsFin → |C.toReal - A.reM'.adjugate i j| ≤
      ((1 + f.u) ^ 2 - 1) * A.minorPer j i + (1 + f.u) ^ 2 * (f.eta * (2))) ∧
      (∀ K : ℝ, 1 ≤ K → (∀ i j, (A i j).FinLe K) →
        (1 + f.u) ^ 2 * (4 * K ^ 2) < (2 : ℝ) ^ (f.emax + 1) → C.IsFin) := by
  unfold M33.inverse at h
  by_cases h0 : nearly_zero (M33.det A) = true
  · simp only [h0] at h
    cases h
  have h' : nearly_zero (M33.det A) = false := by simpa using h0
  refine ⟨h', ?_⟩
  simp only [h', Bool.not_false, if_true] at h
  have e : B = _ := (Option.some.inj (Except.ok.inj h)).symm
  clear h
  intro i j
  subst e
  have hp : ∀ i j : Fin 3, A.minorPer j i =
      |(A (j.succAbove 0) (i.succAbove 0)).toReal| * |(A (j.succAbove 1) (i.succAbove 1)).toReal| +
      |(A (j.succAbove 1) (i.succAbove 0)).toReal| * |(A (j.succAbove 0) (i.succAbove 1)).toReal| := fun i j =>
    PermExpand.per2 _
  have ha := Matrix.adjugate_fin_three A.reM'
  rw [ha, hp]
  have key : ∀ (a b c d : Flt f) (y P : ℝ), y = a.toReal * b.toReal - c.toReal * d.toReal →
      P = |a.toReal| * |b.toReal| + |c.toReal| * |d.toReal| → (a * b - c * d).IsFin →
      |(a * b - c * d).toReal - y| ≤ ((1 + f.u) ^ 2 - 1) * P + (1 + f.u) ^ 2 * (f.eta * (2)) := by
    rintro a b c d _ _ rfl rfl h
    exact minor2 h
  fin_cases i <;> fin_cases j
  · refine ⟨_, rfl, fun hC => key _ _ _ _ _ _ ?_ ?_ hC, fun K hK hA => minor2_fin K hK (hA _ _) (hA _ _) (hA _ _) (hA _ _)⟩
    · simp [Mat.reM']
      try ring
    · simp [Fin.succAbove]
      try ring
  · refine ⟨_, rfl, fun hC => key _ _ _ _ _ _ ?_ ?_ hC, fun K hK hA => minor2_fin K hK (hA _ _) (hA _ _) (hA _ _) (hA _ _)⟩
    · simp [Mat.reM']
      try ring
    · simp [Fin.succAbove]
      try ring
  · refine ⟨_, rfl, fun hC => key _ _ _ _ _ _ ?_ ?_ hC, fun K hK hA => minor2_fin K hK (hA _ _) (hA _ _) (hA _ _) (hA _ _)⟩
    · simp [Mat.reM']
      try ring
    · simp [Fin.succAbove]
      try ring
  · refine ⟨_, rfl, fun hC => key _ _ _ _ _ _ ?_ ?_ hC, fun K hK hA => minor2_fin K hK (hA _ _) (hA _ _) (hA _ _) (hA _ _)⟩
    · simp [Mat.reM']
      try ring
    · simp [Fin.succAbove]
      try ring
  · refine ⟨_, rfl, fun hC => key _ _ _ _ _ _ ?_ ?_ hC, fun K hK hA => minor2_fin K hK (hA _ _) (hA _ _) (hA _ _) (hA _ _)⟩
    · simp [Mat.reM']
      try ring
    · simp [Fin.succAbove]
      try ring
  · refine ⟨_, rfl, fun hC => key _ _ _ _ _ _ ?_ ?_ hC, fun K hK hA => minor2_fin K hK (hA _ _) (hA _ _) (hA _ _) (hA _ _)⟩
    · simp [Mat.reM']
      try ring
    · simp [Fin.succAbove]
      try ring
  · refine ⟨_, rfl, fun hC => key _ _ _ _ _ _ ?_ ?_ hC, fun K hK hA => minor2_fin K hK (hA _ _) (hA _ _) (hA _ _) (hA _ _)⟩
    · simp [Mat.reM']
      try ring
    · simp [Fin.succAbove]
      try ring
  · refine ⟨_, rfl, fun hC => key _ _ _ _ _ _ ?_ ?_ hC, fun K hK hA => minor2_fin K hK (hA _ _) (hA _ _) (hA _ _) (hA _ _)⟩
    · simp [Mat.reM']
      try ring
    · simp [Fin.succAbove]
      try ring
  · refine ⟨_, rfl, fun hC => key _ _ _ _ _ _ ?_ ?_ hC, fun K hK hA => minor2_fin K hK (hA _ _) (hA _ _) (hA _ _) (hA _ _)⟩
    · simp [Mat.reM']
      try ring
    · simp [Fin.succAbove]
      try ring

theorem M44.inv_flt [Libm f] (A B : Mat 4 (Flt f)) (h : M44.inverse A = .ok (some B)) (b : ℝ)
    (hb : ∀ i j, |(A i j).toReal| ≤ b) : nearly_zero (M44.det A) = false ∧
    ∀ i j, ∃ C : Flt f, B i j = C * (1 / M44.det A) ∧ (C.IsFin → |C.toReal - A.reM'.adjugate i j| ≤
      ((1 + f.u) ^ 5 - 1) * A.minorPer j i + (1 + f.u) ^ 5 * (f.eta * (3 + 6 * b))) ∧
      (∀ K : ℝ, 1 ≤ K → (∀ i j, (A i j).FinLe K) →
        (1 + f.u) ^ 5 * (15 * K ^ 3) < (2 : ℝ) ^ (f.emax + 1) → C.IsFin) := by
  unfold M44.inverse at h
  by_cases h0 : nearly_zero (M44.det A) = true
  · simp only [h0] at h
    cases h
  have h' : nearly_zero (M44.det A) = false := by simpa using h0
  refine ⟨h', ?_⟩
  simp only [h', Bool.not_false, if_true] at h
  rw [show M44.get_submatrix A (0, 0) = _ from M44.get_submatrix_eq A 0 0] at h
  rw [show M44.get_submatrix A (0, 1) = _ from M44.get_submatrix_eq A 0 1] at h
  rw [show M44.get_submatrix A (0, 2) = _ from M44.get_submatrix_eq A 0 2] at h
  rw [show M44.get_submatrix A (0, 3) = _ from M44.get_submatrix_eq A 0 3] at h
  rw [show M44.get_submatrix A (1, 0) = _ from M44.get_submatrix_eq A 1 0] at h
  rw [show M44.get_submatrix A (1, 1) = _ from M44.get_submatrix_eq A 1 1] at h
  rw [show M44.get_submatrix A (1, 2) = _ from M44.get_submatrix_eq A 1 2] at h
  rw [show M44.get_submatrix A (1, 3) = _ from M44.get_submatrix_eq A 1 3] at h
  rw [show M44.get_submatrix A (2, 0) = _ from M44.get_submatrix_eq A 2 0] at h
  rw [show M44.get_submatrix A (2, 1) = _ from M44.get_submatrix_eq A 2 1] at h
  rw [show M44.get_submatrix A (2, 2) = _ from M44.get_submatrix_eq A 2 2] at h
  rw [show M44.get_submatrix A (2, 3) = _ from M44.get_submatrix_eq A 2 3] at h
  rw [show M44.get_submatrix A (3, 0) = _ from M44.get_submatrix_eq A 3 0] at h
  rw [show M44.get_submatrix A (3, 1) = _ from M44.get_submatrix_eq A 3 1] at h
  rw [show M44.get_submatrix A (3, 2) = _ from M44.get_submatrix_eq A 3 2] at h
  rw [show M44.get_submatrix A (3, 3) = _ from M44.get_submatrix_eq A 3 3] at h
  have e : B = _ := (Option.some.inj (Except.ok.inj h)).symm
  clear h
  intro i j
  subst e
  have key : ∀ (i j : Fin 4) (C : Flt f),
      (C = M33.det ⟨fun r c => A (j.succAbove r) (i.succAbove c)⟩ ∧ (j.val + i.val) % 2 = 0 ∨
        C = -M33.det ⟨fun r c => A (j.succAbove r) (i.succAbove c)⟩ ∧ (j.val + i.val) % 2 = 1) → C.IsFin →
      |C.toReal - A.reM'.adjugate i j| ≤ ((1 + f.u) ^ 5 - 1) * A.minorPer j i + (1 + f.u) ^ 5 * (f.eta * (3 + 6 * b)) := by
    intro i j C hC hf
    have hfin : (M33.det ⟨fun r c => A (j.succAbove r) (i.succAbove c)⟩).IsFin ∧
        C.toReal = (-1) ^ (j.val + i.val) * (M33.det ⟨fun r c => A (j.succAbove r) (i.succAbove c)⟩).toReal := by
      rcases hC with ⟨rfl, h⟩ | ⟨rfl, h⟩
      · exact ⟨hf, by rw [Even.neg_one_pow (Nat.even_iff.2 h), one_mul]⟩
      · exact ⟨isFin_neg.1 hf, by rw [toReal_neg, Odd.neg_one_pow (Nat.odd_iff.2 h), neg_one_mul]⟩
    exact minor_sgn A i j C _ _ hfin.2 (C102_det_M33 ⟨fun r c => A (j.succAbove r) (i.succAbove c)⟩ b
      (fun r c => hb _ _) hfin.1)
  have key2 : ∀ (i j : Fin 4) (K : ℝ), 1 ≤ K → (∀ i j, (A i j).FinLe K) →
      (1 + f.u) ^ 5 * (15 * K ^ 3) < (2 : ℝ) ^ (f.emax + 1) →
      (M33.det ⟨fun r c => A (j.succAbove r) (i.succAbove c)⟩).IsFin := fun i j K hK hA h =>
    (C103_no_overflow_M33 ⟨fun r c => A (j.succAbove r) (i.succAbove c)⟩ ⟨fun _ _ => A 0 0⟩ ⟨fun _ => A 0 0⟩ ⟨fun _ => A 0 0⟩
      K hK (fun _ _ => hA _ _) (fun _ _ => hA _ _) (fun _ => hA _ _) (fun _ => hA _ _)).1 h
  fin_cases i <;> fin_cases j
  · exact ⟨_, rfl, key 0 0 _ (Or.inl ⟨rfl, rfl⟩), fun K hK hA h => (key2 0 0 K hK hA h)⟩
  · exact ⟨_, rfl, key 0 1 _ (Or.inr ⟨rfl, rfl⟩), fun K hK hA h => isFin_neg.2 (key2 0 1 K hK hA h)⟩
  · exact ⟨_, rfl, key 0 2 _ (Or.inl ⟨rfl, rfl⟩), fun K hK hA h => (key2 0 2 K hK hA h)⟩
  · exact ⟨_, rfl, key 0 3 _ (Or.inr ⟨rfl, rfl⟩), fun K hK hA h => isFin_neg.2 (key2 0 3 K hK hA h)⟩
  · exact ⟨_, rfl, key 1 0 _ (Or.inr ⟨rfl, rfl⟩), fun K hK hA h => isFin_neg.2 (key2 1 0 K hK hA h)⟩
  · exact ⟨_, rfl, key 1 1 _ (Or.inl ⟨rfl, rfl⟩), fun K hK hA h => (key2 1 1 K hK hA h)⟩
  · exact ⟨_, rfl, key 1 2 _ (Or.inr ⟨rfl, rfl⟩), fun K hK hA h => isFin_neg.2 (key2 1 2 K hK hA h)⟩
  · exact ⟨_, rfl, key 1 3 _ (Or.inl ⟨rfl, rfl⟩), fun K hK hA h => (key2 1 3 K hK hA h)⟩
  · exact ⟨_, rfl, key 2 0 _ (Or.inl ⟨rfl, rfl⟩), fun K hK hA h => (key2 2 0 K hK hA h)⟩
  · exact ⟨_, rfl, key 2 1 _ (Or.inr ⟨rfl, rfl⟩), fun K hK hA h => isFin_neg.2 (key2 2 1 K hK hA h)⟩
  · exact ⟨_, rfl, key 2 2 _ (Or.inl ⟨rfl, rfl⟩), fun K hK hA h => (key2 2 2 K hK hA h)⟩
  · exact ⟨_, rfl, key 2 3 _ (Or.inr ⟨rfl, rfl⟩), fun K hK hA h => isFin_neg.2 (key2 2 3 K hK hA h)⟩
  · exact ⟨_, rfl, key 3 0 _ (Or.inr ⟨rfl, rfl⟩), fun K hK hA h => isFin_neg.2 (key2 3 0 K hK hA h)⟩
  · exact ⟨_, rfl, key 3 1 _ (Or.inl ⟨rfl, rfl⟩), fun K hK hA h => (key2 3 1 K hK hA h)⟩
  · exact ⟨_, rfl, key 3 2 _ (Or.inr ⟨rfl, rfl⟩), fun K hK hA h => isFin_neg.2 (key2 3 2 K hK hA h)⟩
  · exact ⟨_, rfl, key 3 3 _ (Or.inl ⟨rfl, rfl⟩), fun K hK hA h => (key2 3 3 K hK hA h)⟩

set_option maxRecDepth 8000 in
theorem M55.inv_flt [Libm f] (A B : Mat 5 (Flt f)) (h : M55.inverse A = .ok (some B)) (b : ℝ)
    (hb : ∀ i j, |(A i j).toReal| ≤ b) : nearly_zero (M55.det A) = false ∧
    ∀ i j, ∃ C : Flt f, B i j = C / M55.det A ∧ (C.IsFin → |C.toReal - A.reM'.adjugate i j| ≤
      ((1 + f.u) ^ 26 - 1) * A.minorPer j i + (1 + f.u) ^ 26 * (f.eta * (24 * (1 + b + b ^ 2)))) ∧
      (∀ K : ℝ, 1 ≤ K → (∀ i j, (A i j).FinLe K) →
        (1 + f.u) ^ 26 * (96 * K ^ 4) < (2 : ℝ) ^ (f.emax + 1) → C.IsFin) := by
  unfold M55.inverse at h
  by_cases h0 : nearly_zero (M55.det A) = true
  · simp only [h0] at h
    cases h
  have h' : nearly_zero (M55.det A) = false := by simpa using h0
  refine ⟨h', ?_⟩
  simp only [h', Bool.not_false, if_true] at h
  rw [forRange_set_mat _ (fun j i => (if (i.val + j.val) % 2 = 0 then (1 : Flt f) else -1) *
    M44.det ⟨fun r c => A (i.succAbove r) (j.succAbove c)⟩) _ (by
      intro i j hi hj r
      rw [show M55.get_submatrix A (i, j) = _ from M55.get_submatrix_eq A ⟨i, hi⟩ ⟨j, hj⟩]
      rfl)] at h
  have e : B = _ := (Option.some.inj (Except.ok.inj h)).symm
  clear h
  intro i j
  subst e
  refine ⟨(if (j.val + i.val) % 2 = 0 then (1 : Flt f) else -1) *
    M44.det ⟨fun r c => A (j.succAbove r) (i.succAbove c)⟩, ?_, fun hC => ?_, fun K hK hA h => sign_fin _ _ ?_⟩
  · exact M55.sdiv_apply _ _ i j
  · obtain ⟨h1, h2⟩ := sign_val _ _ hC
    exact minor_sgn A i j _ _ _ h2 (C102_det_M44 ⟨fun r c => A (j.succAbove r) (i.succAbove c)⟩ b
      (fun r c => hb _ _) h1)
  · exact (C103_no_overflow_M44 ⟨fun r c => A (j.succAbove r) (i.succAbove c)⟩ ⟨fun _ _ => A 0 0⟩ ⟨fun _ => A 0 0⟩
      ⟨fun _ => A 0 0⟩ K hK (fun _ _ => hA _ _) (fun _ _ => hA _ _) (fun _ => hA _ _) (fun _ => hA _ _)).1 h

set_option maxRecDepth 8000 in
theorem M66.inv_flt [Libm f] (A B : Mat 6 (Flt f)) (h : M66.inverse A = .ok (some B)) (b : ℝ)
    (hb : ∀ i j, |(A i j).toReal| ≤ b) : nearly_zero (M66.det A) = false ∧
    ∀ i j, ∃ C : Flt f, B i j = C * (1 / M66.det A) ∧ (C.IsFin → |C.toReal - A.reM'.adjugate i j| ≤
      ((1 + f.u) ^ 123 - 1) * A.minorPer j i + (1 + f.u) ^ 123 * (f.eta * (120 * (1 + b + b ^ 2 + b ^ 3)))) ∧
      (∀ K : ℝ, 1 ≤ K → (∀ i j, (A i j).FinLe K) →
        (1 + f.u) ^ 123 * (600 * K ^ 5) < (2 : ℝ) ^ (f.emax + 1) → C.IsFin) := by
  unfold M66.inverse at h
  by_cases h0 : nearly_zero (M66.det A) = true
  · simp only [h0] at h
    cases h
  have h' : nearly_zero (M66.det A) = false := by simpa using h0
  refine ⟨h', ?_⟩
  simp only [h', Bool.not_false, if_true] at h
  rw [forRange_set_mat _ (fun j i => (if (i.val + j.val) % 2 = 0 then (1 : Flt f) else -1) *
    M55.det ⟨fun r c => A (i.succAbove r) (j.succAbove c)⟩) _ (by
      intro i j hi hj r
      rw [show M66.get_submatrix A (i, j) = _ from M66.get_submatrix_eq A ⟨i, hi⟩ ⟨j, hj⟩]
      rfl)] at h
  have e : B = _ := (Option.some.inj (Except.ok.inj h)).symm
  clear h
  intro i j
  subst e
  refine ⟨(if (j.val + i.val) % 2 = 0 then (1 : Flt f) else -1) *
    M55.det ⟨fun r c => A (j.succAbove r) (i.succAbove c)⟩, ?_, fun hC => ?_, fun K hK hA h => sign_fin _ _ ?_⟩
  · exact M66.smul_apply _ _ i j
  · obtain ⟨h1, h2⟩ := sign_val _ _ hC
    exact minor_sgn A i j _ _ _ h2 (C102_det_M55 ⟨fun r c => A (j.succAbove r) (i.succAbove c)⟩ b
      (fun r c => hb _ _) h1)
  · exact (C103_no_overflow_M55 ⟨fun r c => A (j.succAbove r) (i.succAbove c)⟩ ⟨fun _ _ => A 0 0⟩ ⟨fun _ => A 0 0⟩
      ⟨fun _ => A 0 0⟩ K hK (fun _ _ => hA _ _) (fun _ _ => hA _ _) (fun _ => hA _ _) (fun _ => hA _ _)).1 h

end StaticMath
