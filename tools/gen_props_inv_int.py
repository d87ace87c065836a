#!/usr/bin/env python3
"""Writes lean/Verif/Props/IeeeInvInt.lean (C146)."""
import math, os
out = ['''import Verif.Lemmas.InvInt
import Verif.Props.Ieee
import Verif.Model.Examples

/-!
# C146: inverses and linear systems with integer entries in floating point

Generated by `tools/gen_props_inv_int.py`.
-/

namespace StaticMath
open Flt

/-- The exponents of the format reach `2^(-2p)` and `2^(2p+8)`; those of `f32` and `f64` do. -/
def Fmt.Deep (f : Fmt) : Prop := f.emin ≤ -(2 * f.p : ℤ) ∧ (2 * f.p + 8 : ℤ) ≤ f.emax

theorem Fmt.f32_deep : Fmt.f32.Deep := ⟨by decide, by decide⟩
theorem Fmt.f64_deep : Fmt.f64.Deep := ⟨by decide, by decide⟩

section
variable {f : Fmt}

private theorem div_rel {a b : Flt f} (hb : b.IsFin) (h : (a / b).IsFin)
    (hn : a.toReal / b.toReal = 0 ∨ (2 : ℝ) ^ f.emin ≤ |a.toReal / b.toReal|) :
    |(a / b).toReal - a.toReal / b.toReal| ≤ f.u * |a.toReal / b.toReal| := by
  change (div a b).IsFin at h
  rcases b with _ | t | ⟨t, y, hy⟩
  · exact absurd hb id
  · exact absurd hb id
  rcases a with _ | s | ⟨s, x, hx⟩
  · exact absurd h id
  · exact absurd h id
  by_cases hy0 : y = 0
  · simp only [div, hy0, if_true] at h
    split at h <;> exact absurd h id
  have e : div (fin s x hx) (fin t y hy) = pack f (s != t) (x / y) := if_neg hy0
  rw [e] at h
  obtain ⟨hr, e3⟩ := pack_fin h
  change sgn s x / sgn t y = 0 ∨ _ ≤ |sgn s x / sgn t y| at hn
  change |(div (fin s x hx) (fin t y hy)).toReal - sgn s x / sgn t y| ≤ f.u * |sgn s x / sgn t y|
  have e4 : sgn s x / sgn t y = sgn (s != t) (x / y) := by
    cases s <;> cases t <;> simp [sgn, neg_div, div_neg]
  have hxy : 0 ≤ x / y := div_nonneg hx.nonneg hy.nonneg
  have e5 : (fin (s != t) (f.rnd (x / y)) hr : Flt f).toReal = sgn (s != t) (f.rnd (x / y)) := rfl
  rw [e4, sgn_abs _ hxy, sgn_eq_zero] at hn
  rw [e, e3, e4, sgn_abs _ hxy, e5, sgn_sub, abs_sgn]
  rcases hn with h0 | hn
  · rw [h0, f.rnd_zero, sub_zero, abs_zero, mul_zero]
  · exact f.rnd_rel hn

private theorem P_low (hf : f.Deep) : (2 : ℝ) ^ f.emin ≤ 1 / (2 * 2 ^ f.p) := by
  have : (2 : ℝ) ^ f.emin ≤ 2 ^ (-((f.p : ℤ) + 1)) :=
    zpow_le_zpow_right₀ (by norm_num) (by have := hf.1; have := f.hp; omega)
  refine this.trans_eq ?_
  rw [zpow_neg, one_div, zpow_add₀ (by norm_num), zpow_natCast, zpow_one, mul_comm]

private theorem P_high (hf : f.Deep) : 256 * ((2 : ℝ) ^ f.p * 2 ^ f.p) < (2 : ℝ) ^ (f.emax + 1) := by
  have h1 : (2 : ℝ) ^ ((2 * f.p + 8 : ℤ)) < (2 : ℝ) ^ (f.emax + 1) :=
    zpow_lt_zpow_right₀ (by norm_num) (by have := hf.2; omega)
  refine lt_of_eq_of_lt ?_ h1
  rw [zpow_add₀ (by norm_num), two_mul, zpow_add₀ (by norm_num), zpow_natCast]
  norm_num [mul_comm]

private theorem u_quarter (f : Fmt) : f.u ≤ 1 / 4 := by
  have := f.hp
  unfold Fmt.u
  exact (zpow_le_zpow_right₀ (by norm_num) (show -(f.p : ℤ) ≤ -2 by omega)).trans_eq (by norm_num)

/-- A quotient of two integers that fit, computed with the reciprocal or directly. -/
private theorem quot_int (hf : f.Deep) {C D X : Flt f} (hX : X = C * (1 / D) ∨ X = C / D) (hC : C.IsFin) (hD : D.IsFin)
    (hc : C.toReal = 0 ∨ 1 ≤ |C.toReal|) (hc' : |C.toReal| ≤ 2 ^ f.p) (hd : 1 ≤ |D.toReal|) (hd' : |D.toReal| ≤ 2 ^ f.p) :
    X.IsFin ∧ |X.toReal - C.toReal / D.toReal| ≤ ((1 + f.u) ^ 2 - 1) * |C.toReal / D.toReal| ∧
    (X.toReal = 0 ∨ 1 / (2 * 2 ^ f.p) ≤ |X.toReal|) ∧ |X.toReal| ≤ 2 * 2 ^ f.p := by
  have hu := f.u_pos
  have hu4 := u_quarter f
  have hlow := P_low hf
  have hhigh := P_high hf
  have hP : (1 : ℝ) ≤ 2 ^ f.p := one_le_pow₀ (by norm_num)
  have hd0 : D.toReal ≠ 0 := by rintro h; rw [h, abs_zero] at hd; linarith
  have hdp : 0 < |D.toReal| := by linarith
  set c := C.toReal with hcdef
  set d := D.toReal with hddef
  set P : ℝ := 2 ^ f.p with hPdef
  have hPP : 4 * P < (2 : ℝ) ^ (f.emax + 1) := by nlinarith
  have hq : |c / d| ≤ P := by
    rw [abs_div, div_le_iff₀ hdp]; nlinarith [abs_nonneg c]
  have hq1 : c / d = 0 ∨ 1 / P ≤ |c / d| := by
    rcases hc with h | h
    · left; rw [h, zero_div]
    · right; rw [abs_div]; exact div_le_div₀ (by linarith) h hdp hd'
  have fin_part : ∀ x : ℝ, |x - c / d| ≤ ((1 + f.u) ^ 2 - 1) * |c / d| → 
      (c / d ≠ 0 → (1 - f.u) ^ 2 * |c / d| ≤ |x|) →
      (x = 0 ∨ 1 / (2 * P) ≤ |x|) ∧ |x| ≤ 2 * P := by
    intro x hx hx2
    constructor
    · rcases hq1 with h | h
      · left
        rw [h, abs_zero, mul_zero, sub_zero] at hx
        exact abs_eq_zero.1 (le_antisymm hx (abs_nonneg _))
      · right
        have hne : c / d ≠ 0 := by
          rintro h0
          rw [h0, abs_zero] at h
          have : 0 < 1 / P := by positivity
          linarith
        refine le_trans ?_ (hx2 hne)
        have e : 1 / (2 * P) = 1 / 2 * (1 / P) := by rw [one_div_mul_one_div]
        rw [e]
        exact mul_le_mul (by nlinarith) h (by positivity) (by positivity)
    · have := abs_sub_abs_le_abs_sub x (c / d)
      have h2 : (1 + f.u) ^ 2 ≤ 2 := by nlinarith
      have h3 := mul_le_mul h2 hq (abs_nonneg _) (by norm_num)
      linarith
  rcases hX with rfl | rfl
  · have h1d : (1 : Flt f).toReal / D.toReal = 1 / d := by rw [toReal_one]
    have hi : 1 / P ≤ |1 / d| := by
      rw [abs_div, abs_one]; exact one_div_le_one_div_of_le hdp hd'
    have hi' : |1 / d| ≤ 1 := by
      rw [abs_div, abs_one, div_le_one hdp]; exact hd
    have hlow' : (2 : ℝ) ^ f.emin ≤ |1 / d| :=
      hlow.trans ((one_div_le_one_div_of_le (by linarith) (by linarith)).trans hi)
    have hrf : (1 / D : Flt f).IsFin := div_isFin isFin_one hD hd0 (by rw [h1d]; nlinarith)
    have hr := div_rel hD hrf (Or.inr (by rw [h1d]; exact hlow'))
    rw [h1d] at hr
    set r := (1 / D : Flt f).toReal with hrdef
    have hrl : (1 - f.u) * |1 / d| ≤ |r| := by
      have := abs_sub_abs_le_abs_sub (1 / d) r
      rw [abs_sub_comm] at this; linarith
    have hru : |r| ≤ (1 + f.u) * |1 / d| := by
      have := abs_sub_abs_le_abs_sub r (1 / d)
      linarith
    have hcr : |c * r| ≤ (1 + f.u) * |c / d| := by
      rw [abs_mul, div_eq_mul_one_div, abs_mul]
      nlinarith [abs_nonneg c]
    have hcr' : (1 - f.u) * |c / d| ≤ |c * r| := by
      rw [abs_mul, div_eq_mul_one_div, abs_mul]
      nlinarith [abs_nonneg c]
    have hcrn : c * r = 0 ∨ (2 : ℝ) ^ f.emin ≤ |c * r| := by
      rcases hc with h | h
      · left; rw [h, zero_mul]
      · right
        refine hlow.trans ?_
        have e : 1 / (2 * P) = 1 / 2 * (1 / P) := by rw [one_div_mul_one_div]
        have h0 : 1 / P ≤ |c / d| := by
          rw [abs_div]; exact div_le_div₀ (by linarith) h hdp hd'
        rw [e]
        refine le_trans ?_ hcr'
        exact mul_le_mul (by linarith) h0 (by positivity) (by linarith)
    have hXf : (C * (1 / D)).IsFin := mul_isFin hC hrf (by
      change (1 + f.u) * |c * r| < _
      nlinarith [abs_nonneg (c / d)])
    have hm := mul_rel hXf hcrn
    change |(C * (1 / D)).toReal - c * r| ≤ f.u * |c * r| at hm
    have e1 : c * r - c / d = c * (r - 1 / d) := by rw [mul_sub, ← div_eq_mul_one_div]
    have e2 : |c * (r - 1 / d)| ≤ f.u * |c / d| := by
      rw [div_eq_mul_one_div c d, abs_mul, abs_mul]
      nlinarith [abs_nonneg c]
    have herr : |(C * (1 / D)).toReal - c / d| ≤ ((1 + f.u) ^ 2 - 1) * |c / d| := by
      have h3 := abs_add_le ((C * (1 / D)).toReal - c * r) (c * r - c / d)
      rw [sub_add_sub_cancel, e1] at h3
      nlinarith [abs_nonneg (c / d)]
    refine ⟨hXf, herr, fin_part _ herr fun _ => ?_⟩
    have h4 := abs_sub_abs_le_abs_sub (c * r) (C * (1 / D)).toReal
    rw [abs_sub_comm] at h4
    have h5 := mul_le_mul_of_nonneg_left hcr' (show 0 ≤ 1 - f.u by linarith)
    rw [sq, mul_assoc]
    linarith
  · have hXf : (C / D).IsFin := div_isFin hC hD hd0 (by nlinarith [abs_nonneg (c / d)])
    have hr := div_rel hD hXf (hq1.imp id fun h =>
      hlow.trans ((one_div_le_one_div_of_le (by linarith) (by linarith)).trans h))
    change |(C / D).toReal - c / d| ≤ f.u * |c / d| at hr
    have herr : |(C / D).toReal - c / d| ≤ ((1 + f.u) ^ 2 - 1) * |c / d| :=
      hr.trans (mul_le_mul_of_nonneg_right (by nlinarith) (abs_nonneg _))
    refine ⟨hXf, herr, fin_part _ herr fun _ => ?_⟩
    have h4 := abs_sub_abs_le_abs_sub (c / d) (C / D).toReal
    rw [abs_sub_comm] at h4
    have h5 := mul_le_mul_of_nonneg_right (show (1 - f.u) ^ 2 ≤ 1 - f.u by nlinarith) (abs_nonneg (c / d))
    linarith

private theorem int_data {n : ℕ} (A : Mat (n + 1) (Flt f)) (K : ℕ) (hK : 1 ≤ K) (hA : ∀ i j, (A i j).IntLe K)
    (hfit : (n + 1).factorial * K ^ (n + 1) ≤ 2 ^ f.p) :
    n.factorial * K ^ n ≤ 2 ^ f.p ∧
    ((A.reM'.det = 0 ∨ 1 ≤ |A.reM'.det|) ∧ |A.reM'.det| ≤ 2 ^ f.p) ∧
    ∀ i j, (A.reM'.adjugate i j = 0 ∨ 1 ≤ |A.reM'.adjugate i j|) ∧ |A.reM'.adjugate i j| ≤ 2 ^ f.p := by
  have hsm : n.factorial * K ^ n ≤ 2 ^ f.p := by
    refine le_trans ?_ hfit
    exact Nat.mul_le_mul (Nat.factorial_le (Nat.le_succ n)) (Nat.pow_le_pow_right hK (Nat.le_succ n))
  choose Z hZ using fun i j => (hA i j).2
  have hb : ∀ i j, |(A i j).toReal| ≤ K := fun i j => by
    rw [(hZ i j).1]; exact_mod_cast (hZ i j).2
  have hM : A.reM' = (Int.castRingHom ℝ).mapMatrix (Matrix.of Z) := by
    ext i j
    exact (hZ i j).1
  have hint : ∀ z : ℤ, ((z : ℝ) = 0 ∨ 1 ≤ |(z : ℝ)|) := fun z => by
    rcases eq_or_ne z 0 with h | h
    · left; exact_mod_cast h
    · right; exact_mod_cast Int.one_le_abs h
  refine ⟨hsm, ⟨?_, ?_⟩, fun i j => ⟨?_, ?_⟩⟩
  · rw [hM, ← RingHom.map_det]
    exact hint _
  · have h1 := abs_det_le_permanent fun i j => (A i j).toReal
    have h2 := minorPer_le (fun i j => (A i j).toReal) K hb
    refine (h1.trans h2).trans ?_
    exact_mod_cast hfit
  · rw [hM, ← RingHom.map_adjugate]
    exact hint _
  · have h1 := A.adj_le i j
    have h2 := minorPer_le (fun (r c : Fin n) => (A (j.succAbove r) (i.succAbove c)).toReal) K fun r c => hb _ _
    refine (h1.trans h2).trans ?_
    exact_mod_cast hsm

private theorem inv_entry {n : ℕ} (hf : f.Deep) (A B : Mat (n + 1) (Flt f)) (K : ℕ) (hK : 1 ≤ K) (hA : ∀ i j, (A i j).IntLe K)
    (hfit : (n + 1).factorial * K ^ (n + 1) ≤ 2 ^ f.p) (D : Flt f) (hD : D.IsFin) (hDe : D.toReal = A.reM'.det)
    (h0 : A.reM'.det ≠ 0) (hB : ∀ i j, ∃ C : Flt f, (B i j = C * (1 / D) ∨ B i j = C / D) ∧ C.IsFin ∧
      C.toReal = A.reM'.adjugate i j) (i j : Fin (n + 1)) :
    (B i j).IsFin ∧ |(B i j).toReal - A.reM'⁻¹ i j| ≤ ((1 + f.u) ^ 2 - 1) * |A.reM'⁻¹ i j| ∧
    ((B i j).toReal = 0 ∨ 1 / (2 * 2 ^ f.p) ≤ |(B i j).toReal|) ∧ |(B i j).toReal| ≤ 2 * 2 ^ f.p := by
  obtain ⟨C, hX, hCf, hCe⟩ := hB i j
  obtain ⟨-, ⟨hd, hd'⟩, hadj⟩ := int_data A K hK hA hfit
  have hinv : A.reM'⁻¹ i j = C.toReal / D.toReal := by
    rw [Matrix.inv_def, Matrix.smul_apply, Ring.inverse_eq_inv', smul_eq_mul, hCe, hDe, div_eq_mul_inv, mul_comm]
  rw [hinv]
  exact quot_int hf hX hCf hD (by rw [hCe]; exact (hadj i j).1) (by rw [hCe]; exact (hadj i j).2)
    (by rw [hDe]; exact hd.resolve_left h0) (by rw [hDe]; exact hd')

private theorem solve_entry {n : ℕ} (hf : f.Deep) (M : Matrix (Fin n) (Fin n) ℝ) (hM : M.det ≠ 0) (B : Fin n → Fin n → Flt f)
    (v : Fin n → Flt f) (K : ℕ) (hv : ∀ i, (v i).IntLe K) (x : Flt f) (i : Fin n)
    (hx : (∀ k, (B i k).toReal * (v k).toReal = 0 ∨ (2 : ℝ) ^ f.emin ≤ |(B i k).toReal * (v k).toReal|) →
      |x.toReal - ∑ k, (B i k).toReal * (v k).toReal| ≤ ((1 + f.u) ^ n - 1) * ∑ k, |(B i k).toReal * (v k).toReal|)
    (hB : ∀ k, |(B i k).toReal - M⁻¹ i k| ≤ ((1 + f.u) ^ 2 - 1) * |M⁻¹ i k| ∧
      ((B i k).toReal = 0 ∨ 1 / (2 * 2 ^ f.p) ≤ |(B i k).toReal|))
    (y : Fin n → ℝ) (hy : M.mulVec y = fun i => (v i).toReal) :
    |x.toReal - y i| ≤ ((1 + f.u) ^ (n + 2) - 1) * ∑ k, |M⁻¹ i k| * |(v k).toReal| := by
  have hu := f.u_pos
  have hlow := P_low hf
  have h1 := hx fun k => by
    rcases (hB k).2 with h | h
    · left; rw [h, zero_mul]
    obtain ⟨-, z, hz, -⟩ := hv k
    rcases eq_or_ne z 0 with h0 | h0
    · left; rw [hz, h0]; simp
    right
    have hz1 : 1 ≤ |(v k).toReal| := by rw [hz]; exact_mod_cast Int.one_le_abs h0
    rw [abs_mul]
    nlinarith [abs_nonneg (B i k).toReal]
  have hyi : y i = ∑ k, M⁻¹ i k * (v k).toReal := by
    have : M⁻¹.mulVec (M.mulVec y) = y := by
      rw [Matrix.mulVec_mulVec, Matrix.nonsing_inv_mul _ (isUnit_iff_ne_zero.2 hM), Matrix.one_mulVec]
    rw [hy] at this
    rw [← this]
    rfl
  have h2 : |∑ k, (B i k).toReal * (v k).toReal - y i| ≤ ((1 + f.u) ^ 2 - 1) * ∑ k, |M⁻¹ i k| * |(v k).toReal| := by
    rw [hyi, ← Finset.sum_sub_distrib, Finset.mul_sum]
    refine (Finset.abs_sum_le_sum_abs _ _).trans (Finset.sum_le_sum fun k _ => ?_)
    rw [← sub_mul, abs_mul, ← mul_assoc]
    exact mul_le_mul_of_nonneg_right (hB k).1 (abs_nonneg _)
  have h3 : ∑ k, |(B i k).toReal * (v k).toReal| ≤ (1 + f.u) ^ 2 * ∑ k, |M⁻¹ i k| * |(v k).toReal| := by
    rw [Finset.mul_sum]
    refine Finset.sum_le_sum fun k _ => ?_
    rw [abs_mul, ← mul_assoc]
    refine mul_le_mul_of_nonneg_right ?_ (abs_nonneg _)
    have := abs_sub_abs_le_abs_sub (B i k).toReal (M⁻¹ i k)
    linarith [(hB k).1]
  have hg : (1 : ℝ) ≤ (1 + f.u) ^ n := one_le_pow₀ (by linarith)
  have h4 := abs_add_le (x.toReal - ∑ k, (B i k).toReal * (v k).toReal) (∑ k, (B i k).toReal * (v k).toReal - y i)
  rw [sub_add_sub_cancel] at h4
  have h5 := mul_le_mul_of_nonneg_left h3 (sub_nonneg.2 hg)
  rw [pow_add]
  linarith

private theorem P_mul (hf : f.Deep) {n : ℕ} (hn : n ≤ 6) :
    (1 + f.u) ^ n * ((2 * n : ℕ) * (2 * (2 : ℝ) ^ f.p) ^ 2) < (2 : ℝ) ^ (f.emax + 1) := by
  have hu := f.u_pos
  have hu4 := u_quarter f
  have h1 : (1 + f.u) ^ n ≤ 4 := by
    calc (1 + f.u) ^ n ≤ (5 / 4) ^ n := pow_le_pow_left₀ (by linarith) (by linarith) n
      _ ≤ (5 / 4) ^ 6 := pow_le_pow_right₀ (by norm_num) hn
      _ ≤ 4 := by norm_num
  have h2 : ((2 * n : ℕ) : ℝ) ≤ 12 := by exact_mod_cast (by omega : 2 * n ≤ 12)
  refine lt_of_le_of_lt ?_ (P_high hf)
  have hP : (0 : ℝ) ≤ (2 * (2 : ℝ) ^ f.p) ^ 2 := by positivity
  calc (1 + f.u) ^ n * ((2 * n : ℕ) * (2 * (2 : ℝ) ^ f.p) ^ 2)
      ≤ 4 * (12 * (2 * (2 : ℝ) ^ f.p) ^ 2) := by gcongr
    _ ≤ 256 * ((2 : ℝ) ^ f.p * 2 ^ f.p) := by nlinarith [hP]

end
''']
for n in range(2, 7):
    fac = math.factorial(n)
    how = 'Or.inr' if n == 5 else 'Or.inl'
    out.append(f'''
{"set_option maxRecDepth 20000 in" + chr(10) if n >= 5 else ""}/-- A float matrix with integer entries of magnitude at most `K` has an inverse exactly when it is
regular, each entry of it is right up to two roundings, and the solution `inverse * v` of a linear
system with integer right-hand side is right up to {n+2} roundings of the largest sum. -/
theorem C146_M{n}{n} {{f : Fmt}} [Libm f] (hf : f.Deep) (A : Mat {n} (Flt f)) (K : ℕ) (hK : 1 ≤ K)
    (hA : ∀ i j, (A i j).IntLe K) (hfit : {fac} * K ^ {n} ≤ 2 ^ f.p) :
    (A.reM'.det = 0 → M{n}{n}.inverse A = .ok none) ∧
    (A.reM'.det ≠ 0 → ∃ B, M{n}{n}.inverse A = .ok (some B) ∧
      (∀ i j, (B i j).IsFin ∧ |(B i j).toReal - A.reM'⁻¹ i j| ≤ ((1 + f.u) ^ 2 - 1) * |A.reM'⁻¹ i j|) ∧
      ∀ v : Vec {n} (Flt f), (∀ i, (v i).IntLe K) → ∀ y : Fin {n} → ℝ, A.reM'.mulVec y = (fun i => (v i).toReal) →
        ∀ i, (M{n}{n}.mulVec B v i).IsFin ∧
          |(M{n}{n}.mulVec B v i).toReal - y i| ≤ ((1 + f.u) ^ {n+2} - 1) * ∑ k, |A.reM'⁻¹ i k| * |(v k).toReal|) := by
  have hd := (C104_integers_M{n}{n} A A ⟨fun i => A i 0⟩ ⟨fun i => A i 0⟩ K hK hA hA (fun i => hA i 0)
    (fun i => hA i 0)).1 hfit
  have hde : (M{n}{n}.det A).toReal = A.reM'.det := hd.2
  have hfit' : Nat.factorial {n} * K ^ {n} ≤ 2 ^ f.p := by
    rw [show Nat.factorial {n} = {fac} from by decide]; exact hfit
  obtain ⟨hsm', ⟨h1, h2⟩, -⟩ := int_data A K hK hA hfit'
  have hsm : {math.factorial(n-1)} * K ^ {n-1} ≤ 2 ^ f.p := by
    rw [show Nat.factorial {n-1} = {math.factorial(n-1)} from by decide] at hsm'; exact hsm'
  obtain ⟨-, hnone, r, hr⟩ := C91_M{n}{n} A
  have heps : (2 : ℝ) ^ (1 - (f.p : ℤ)) ≤ 1 := zpow_le_one_of_nonpos₀ (by norm_num) (by have := f.hp; omega)
  refine ⟨fun h => hnone.2 ⟨hd.1, by rw [hde, h, abs_zero]; positivity⟩, fun h0 => ?_⟩
  have hne : M{n}{n}.inverse A ≠ .ok none := fun h => by
    have := (hnone.1 h).2
    rw [hde] at this
    linarith [h1.resolve_left h0]
  rcases r with _ | B
  · exact absurd hr hne
  have key := inv_entry hf A B K hK hA hfit' _ hd.1 hde h0 fun i j => by
    obtain ⟨C, e1, e2⟩ := M{n}{n}.inv_int A B hr K hK hA hsm i j
    exact ⟨C, {how} e1, e2⟩
  refine ⟨B, hr, fun i j => ⟨(key i j).1, (key i j).2.1⟩, fun v hv y hy i => ?_⟩
  have hP : (1 : ℝ) ≤ 2 ^ f.p := one_le_pow₀ (by norm_num)
  have hKP : (K : ℝ) ≤ 2 * 2 ^ f.p := by
    have : K ≤ 2 ^ f.p := le_trans (by nlinarith [Nat.pow_le_pow_right hK (show 1 ≤ {n} by norm_num)]) hfit
    have : (K : ℝ) ≤ 2 ^ f.p := by exact_mod_cast this
    linarith
  have hvF : ∀ i, (v i).FinLe (2 * 2 ^ f.p) := fun i => by
    obtain ⟨h1, z, h2, h3⟩ := hv i
    refine ⟨h1, le_trans ?_ hKP⟩
    rw [h2]; exact_mod_cast h3
  have hfin := ((C103_no_overflow_M{n}{n} B B v v (2 * 2 ^ f.p) (by linarith)
    (fun i j => ⟨(key i j).1, (key i j).2.2.2⟩) (fun i j => ⟨(key i j).1, (key i j).2.2.2⟩) hvF hvF).2
      (by simpa using P_mul (n := {n}) hf (by norm_num))).2.1 i
  exact ⟨hfin, solve_entry hf A.reM' h0 (fun i j => B i j) (fun i => v i) K hv _ i
    (C93_mulVec_M{n}{n} B v i hfin).2 (fun k => ⟨(key i k).2.1, (key i k).2.2.1⟩) y hy⟩
''')

out.append('''
section
variable {f : Fmt}

private theorem of_int {n : ℕ} (A : Mat n (Flt f)) (Z N : Matrix (Fin n) (Fin n) ℤ) (d : ℤ) (hd : d ≠ 0)
    (hZ : ∀ i j, (A i j).toReal = Z i j) (h : Z * N = d • (1 : Matrix (Fin n) (Fin n) ℤ)) :
    A.reM'.det ≠ 0 ∧ ∀ i j, A.reM'⁻¹ i j = N i j / d := by
  have hd' : (d : ℝ) ≠ 0 := by exact_mod_cast hd
  have hM : A.reM' = (Int.castRingHom ℝ).mapMatrix Z := by
    ext i j
    exact hZ i j
  have h1 : A.reM' * ((d : ℝ)⁻¹ • (Int.castRingHom ℝ).mapMatrix N) = 1 := by
    rw [Matrix.mul_smul, hM, ← map_mul, h]
    ext i j
    simp only [Matrix.smul_apply, RingHom.mapMatrix_apply, Matrix.map_apply, smul_eq_mul, Matrix.one_apply]
    split <;> simp [hd']
  refine ⟨fun h0 => ?_, fun i j => ?_⟩
  · have := congrArg Matrix.det h1
    rw [Matrix.det_mul, h0, zero_mul, Matrix.det_one] at this
    exact zero_ne_one this
  · rw [Matrix.inv_eq_right_inv h1]
    simp only [Matrix.smul_apply, RingHom.mapMatrix_apply, Matrix.map_apply, smul_eq_mul]
    rw [div_eq_mul_inv, mul_comm]
    rfl

end

namespace Examples

/-- The matrix of `examples/solve_linear_system.rs:30-35`. -/
def systemMatrix : Matrix (Fin 6) (Fin 6) ℤ :=
  !![1, 1, 3, 4, 9, 3; 10, 10, 1, 2, 2, 5; 2, 9, 6, 10, 10, 9; 10, 9, 9, 7, 3, 6; 7, 6, 6, 2, 9, 5; 3, 8, 1, 4, 1, 5]

/-- The right-hand side of `examples/solve_linear_system.rs:37`. -/
def systemRhs : Fin 6 → ℤ := ![0, 1, 3, 0, 1, 2]

/-- The exact solution of the system, times 3272. -/
def systemSolution : Fin 6 → ℤ := ![131, -3222, -518, -1835, -1415, 8240]

end Examples

private def sysAdj : Matrix (Fin 6) (Fin 6) ℤ :=
  !![-1763, 1891, 2177, -274, -555, -3868; 7070, -4998, -7986, 1444, 1062, 12336; 702, -1358, -1290, 484, 646, 2032;
    2291, -787, -1721, 666, -693, 2404; 2783, -1543, -2709, 362, 375, 3940; -12784, 8072, 13648, -2848, -1016, -19880]

private theorem sys_mul : Examples.systemMatrix * sysAdj = (3272 : ℤ) • (1 : Matrix (Fin 6) (Fin 6) ℤ) := by
  decide +kernel
private theorem sys_sol : ∀ i, Examples.systemMatrix.mulVec Examples.systemSolution i = 3272 * Examples.systemRhs i := by
  decide +kernel
private theorem sys_sum : ∀ i, ∑ k, |sysAdj i k| * |Examples.systemRhs k| ≤ 28 * 3272 := by decide +kernel
private theorem sys_abs : ∀ i, ∑ k, |Examples.systemMatrix i k| ≤ 46 := by decide +kernel
private theorem sys_ent : ∀ i k, 1 ≤ |Examples.systemMatrix i k| ∧ |Examples.systemMatrix i k| ≤ 10 := by decide +kernel
private theorem sys_nn : ∀ i k, (0 : ℤ) ≤ Examples.systemMatrix i k + 0 := by decide +kernel
private theorem sys_rhs : ∀ k, |Examples.systemRhs k| ≤ 10 := by decide +kernel
private theorem sys_y : ∀ k, 131 ≤ |Examples.systemSolution k| ∧ |Examples.systemSolution k| ≤ 8240 := by decide +kernel

private theorem u64 : Fmt.f64.u ≤ 1.2e-16 := by
  rw [Fmt.u, show Fmt.f64.p = 53 from rfl]; norm_num

private theorem emin64 : (2 : ℝ) ^ Fmt.f64.emin ≤ 1 / 50 := by
  calc (2 : ℝ) ^ Fmt.f64.emin ≤ 2 ^ (-6 : ℤ) := zpow_le_zpow_right₀ (by norm_num) (by decide)
    _ ≤ 1 / 50 := by norm_num

/-- The program of `examples/solve_linear_system.rs` in `f64`: it prints a solution, each component within
`3e-14` of the solution of the system, and the printed check `a * solution` is within `2e-12` of `b`. -/
theorem C146_solve_linear_system [Libm Fmt.f64] (A : Mat 6 (Flt Fmt.f64)) (b : Vec 6 (Flt Fmt.f64))
    (hA : ∀ i j, (A i j).IsFin ∧ (A i j).toReal = Examples.systemMatrix i j)
    (hb : ∀ i, (b i).IsFin ∧ (b i).toReal = Examples.systemRhs i) :
    ∃ x c, Examples.solve_linear_system A b = .ok (some (x, c)) ∧
      ∀ i, (x i).IsFin ∧ |(x i).toReal - Examples.systemSolution i / 3272| ≤ 3e-14 ∧
        (c i).IsFin ∧ |(c i).toReal - Examples.systemRhs i| ≤ 2e-12 := by
  have hAK : ∀ i j, (A i j).IntLe 10 := fun i j => ⟨(hA i j).1, _, (hA i j).2, by exact_mod_cast (sys_ent i j).2⟩
  have hbK : ∀ i, (b i).IntLe 10 := fun i => ⟨(hb i).1, _, (hb i).2, by exact_mod_cast sys_rhs i⟩
  obtain ⟨hdet, hinv⟩ := of_int A Examples.systemMatrix sysAdj 3272 (by norm_num) (fun i j => (hA i j).2) sys_mul
  obtain ⟨B, hB, -, hsol⟩ := (C146_M66 Fmt.f64_deep A 10 (by norm_num) hAK
    (by rw [show Fmt.f64.p = 53 from rfl]; norm_num)).2 hdet
  have hy : A.reM'.mulVec (fun i => (Examples.systemSolution i : ℝ) / 3272) = fun i => (b i).toReal := by
    funext i
    have h1 := sys_sol i
    have h2 : A.reM'.mulVec (fun i => (Examples.systemSolution i : ℝ) / 3272) i =
        (∑ k, (Examples.systemMatrix i k : ℝ) * Examples.systemSolution k) / 3272 := by
      rw [Finset.sum_div]
      change ∑ k, (A i k).toReal * ((Examples.systemSolution k : ℝ) / 3272) = _
      exact Finset.sum_congr rfl fun k _ => by rw [(hA i k).2, mul_div_assoc]
    rw [h2, (hb i).2, div_eq_iff (by norm_num)]
    have h3 : ∑ k, Examples.systemMatrix i k * Examples.systemSolution k = 3272 * Examples.systemRhs i := h1
    rw [mul_comm (Examples.systemRhs i : ℝ)]
    exact_mod_cast h3
  have hx : ∀ i, (M66.mulVec B b i).IsFin ∧ |(M66.mulVec B b i).toReal - Examples.systemSolution i / 3272| ≤ 3e-14 := by
    intro i
    obtain ⟨h1, h2⟩ := hsol b hbK _ hy i
    refine ⟨h1, h2.trans ?_⟩
    have hs : ∑ k, |A.reM'⁻¹ i k| * |(b k).toReal| ≤ 28 := by
      have e : ∑ k, |A.reM'⁻¹ i k| * |(b k).toReal| = (∑ k, |(sysAdj i k : ℝ)| * |(Examples.systemRhs k : ℝ)|) / 3272 := by
        rw [Finset.sum_div]
        refine Finset.sum_congr rfl fun k _ => ?_
        rw [hinv, (hb k).2, abs_div]
        norm_num
        ring
      rw [e, div_le_iff₀ (by norm_num)]
      exact_mod_cast sys_sum i
    have hu := Fmt.f64.u_pos
    have hg : (1 + Fmt.f64.u) ^ 8 - 1 ≤ 1e-15 := by
      have : (1 + Fmt.f64.u) ^ 8 ≤ (1 + 1.2e-16) ^ 8 := pow_le_pow_left₀ (by linarith) (by linarith [u64]) 8
      refine (sub_le_sub_right this 1).trans (by norm_num)
    have hs0 : 0 ≤ ∑ k, |A.reM'⁻¹ i k| * |(b k).toReal| := Finset.sum_nonneg fun k _ => by positivity
    calc _ ≤ 1e-15 * 28 := mul_le_mul hg hs hs0 (by norm_num)
      _ ≤ _ := by norm_num
  have hyb : ∀ k, 0.04 ≤ |(Examples.systemSolution k : ℝ) / 3272| ∧ |(Examples.systemSolution k : ℝ) / 3272| ≤ 2.6 := fun k => by
    have h1 : (131 : ℝ) ≤ |(Examples.systemSolution k : ℝ)| := by exact_mod_cast (sys_y k).1
    have h2 : |(Examples.systemSolution k : ℝ)| ≤ 8240 := by exact_mod_cast (sys_y k).2
    rw [abs_div, abs_of_pos (show (0 : ℝ) < 3272 by norm_num)]
    constructor
    · rw [le_div_iff₀ (by norm_num)]; norm_num; linarith
    · rw [div_le_iff₀ (by norm_num)]; norm_num; linarith
  have hxb : ∀ k, 0.03 ≤ |(M66.mulVec B b k).toReal| ∧ |(M66.mulVec B b k).toReal| ≤ 3 := fun k => by
    have h1 := abs_sub_abs_le_abs_sub (M66.mulVec B b k).toReal (Examples.systemSolution k / 3272)
    have h2 := abs_sub_abs_le_abs_sub ((Examples.systemSolution k : ℝ) / 3272) (M66.mulVec B b k).toReal
    rw [abs_sub_comm] at h2
    have h3 := (hx k).2
    obtain ⟨h4, h5⟩ := hyb k
    norm_num at h3 h4 h5 ⊢
    constructor <;> linarith
  have hent : ∀ i k, 1 ≤ |(A i k).toReal| ∧ |(A i k).toReal| ≤ 10 := fun i k => by
    rw [(hA i k).2]
    exact_mod_cast sys_ent i k
  refine ⟨M66.mulVec B b, M66.mulVec A (M66.mulVec B b), ?_, fun i => ⟨(hx i).1, (hx i).2, ?_⟩⟩
  · unfold Examples.solve_linear_system
    rw [hB]
    rfl
  have hfin : (M66.mulVec A (M66.mulVec B b) i).IsFin :=
    ((C103_no_overflow_M66 A A (M66.mulVec B b) (M66.mulVec B b) 10 (by norm_num) (fun i j => ⟨(hA i j).1, (hent i j).2⟩)
      (fun i j => ⟨(hA i j).1, (hent i j).2⟩) (fun i => ⟨(hx i).1, by linarith [(hxb i).2]⟩)
      (fun i => ⟨(hx i).1, by linarith [(hxb i).2]⟩)).2 (by
        have hu := Fmt.f64.u_pos
        have h1 : (1 + Fmt.f64.u) ^ 6 ≤ 2 := by
          have : (1 + Fmt.f64.u) ^ 6 ≤ (1 + 1.2e-16) ^ 6 := pow_le_pow_left₀ (by linarith) (by linarith [u64]) 6
          exact this.trans (by norm_num)
        have h2 : (2 : ℝ) ^ (20 : ℤ) ≤ (2 : ℝ) ^ (Fmt.f64.emax + 1) := zpow_le_zpow_right₀ (by norm_num) (by decide)
        norm_num at h2 ⊢
        linarith)).2.1 i
  refine ⟨hfin, ?_⟩
  have h1 := (C93_mulVec_M66 A (M66.mulVec B b) i hfin).2 fun k => Or.inr (by
    rw [abs_mul]
    have := (hxb k).1
    have := (hent i k).1
    have := emin64
    norm_num at *
    nlinarith)
  have hu := Fmt.f64.u_pos
  have hg : (1 + Fmt.f64.u) ^ 6 - 1 ≤ 1e-15 := by
    have : (1 + Fmt.f64.u) ^ 6 ≤ (1 + 1.2e-16) ^ 6 := pow_le_pow_left₀ (by linarith) (by linarith [u64]) 6
    refine (sub_le_sub_right this 1).trans (by norm_num)
  have hsum : ∑ k, |(A i k).toReal| ≤ 46 := by
    have e : ∑ k, |(A i k).toReal| = ∑ k, |(Examples.systemMatrix i k : ℝ)| :=
      Finset.sum_congr rfl fun k _ => by rw [(hA i k).2]
    rw [e]
    exact_mod_cast sys_abs i
  have h2 : ∑ k, |(A i k).toReal * (M66.mulVec B b k).toReal| ≤ 46 * 3 := by
    calc _ ≤ ∑ k, |(A i k).toReal| * 3 := Finset.sum_le_sum fun k _ => by
          rw [abs_mul]; exact mul_le_mul_of_nonneg_left (hxb k).2 (abs_nonneg _)
      _ = (∑ k, |(A i k).toReal|) * 3 := (Finset.sum_mul _ _ _).symm
      _ ≤ _ := by linarith
  have h3 : |∑ k, (A i k).toReal * (M66.mulVec B b k).toReal - Examples.systemRhs i| ≤ 46 * 3e-14 := by
    have e : (Examples.systemRhs i : ℝ) = ∑ k, (A i k).toReal * (Examples.systemSolution k / 3272) := by
      rw [← (hb i).2]
      exact (congrFun hy i).symm
    rw [e, ← Finset.sum_sub_distrib]
    calc _ ≤ ∑ k, |(A i k).toReal * (M66.mulVec B b k).toReal - (A i k).toReal * (Examples.systemSolution k / 3272)| :=
          Finset.abs_sum_le_sum_abs _ _
      _ ≤ ∑ k, |(A i k).toReal| * 3e-14 := Finset.sum_le_sum fun k _ => by
          rw [← mul_sub, abs_mul]; exact mul_le_mul_of_nonneg_left (hx k).2 (abs_nonneg _)
      _ = (∑ k, |(A i k).toReal|) * 3e-14 := (Finset.sum_mul _ _ _).symm
      _ ≤ _ := mul_le_mul_of_nonneg_right hsum (by norm_num)
  have h4 := abs_add_le ((M66.mulVec A (M66.mulVec B b) i).toReal - ∑ k, (A i k).toReal * (M66.mulVec B b k).toReal)
    (∑ k, (A i k).toReal * (M66.mulVec B b k).toReal - Examples.systemRhs i)
  rw [sub_add_sub_cancel] at h4
  have h5 : ((1 + Fmt.f64.u) ^ 6 - 1) * ∑ k, |(A i k).toReal * (M66.mulVec B b k).toReal| ≤ 1e-15 * (46 * 3) :=
    mul_le_mul hg h2 (Finset.sum_nonneg fun k _ => abs_nonneg _) (by norm_num)
  norm_num at h1 h3 h4 h5 ⊢
  linarith

/-! ### The hypotheses are met -/

/-- The float with the value of a natural number that fits. -/
private noncomputable def natF (f : Fmt) (k : ℕ) (h : k ≤ 2 ^ f.p) : Flt f := Flt.fin false k (f.rep_nat h)

private theorem natF_le {f : Fmt} {k K : ℕ} (h : k ≤ 2 ^ f.p) (hK : k ≤ K) : (natF f k h).IntLe K :=
  ⟨trivial, k, rfl, by simpa using hK⟩

/-- The data of the program as `f64` numbers. -/
example : ∃ (A : Mat 6 (Flt Fmt.f64)) (b : Vec 6 (Flt Fmt.f64)),
    (∀ i j, (A i j).IsFin ∧ (A i j).toReal = Examples.systemMatrix i j) ∧
    ∀ i, (b i).IsFin ∧ (b i).toReal = Examples.systemRhs i := by
  have h1 : ∀ i j, (Examples.systemMatrix i j).toNat ≤ 2 ^ Fmt.f64.p ∧ 0 ≤ Examples.systemMatrix i j := fun i j =>
    ⟨(Int.toNat_le.2 ((le_abs_self _).trans (sys_ent i j).2)).trans (by rw [show Fmt.f64.p = 53 from rfl]; norm_num),
      by have := sys_nn i j; rwa [add_zero] at this⟩
  have h2 : ∀ i, (Examples.systemRhs i).toNat ≤ 2 ^ Fmt.f64.p ∧ 0 ≤ Examples.systemRhs i := by
    rw [show Fmt.f64.p = 53 from rfl]; decide +kernel
  refine ⟨⟨fun i j => natF _ _ (h1 i j).1⟩, ⟨fun i => natF _ _ (h2 i).1⟩, fun i j => ⟨trivial, ?_⟩, fun i => ⟨trivial, ?_⟩⟩
  · change ((Examples.systemMatrix i j).toNat : ℝ) = _
    exact_mod_cast Int.toNat_of_nonneg (h1 i j).2
  · change ((Examples.systemRhs i).toNat : ℝ) = _
    exact_mod_cast Int.toNat_of_nonneg (h2 i).2
''')
for n in range(2, 7):
    out.append(f'''
/-- The matrix with 2 on and 1 off the diagonal, in `f32`: the diagonal of the computed inverse is
{n}/{n+1} up to two roundings. -/
example [Libm Fmt.f32] : ∃ A B : Mat {n} (Flt Fmt.f32), (∀ i j, (A i j).IntLe 2) ∧ M{n}{n}.inverse A = .ok (some B) ∧
    ∀ i, |(B i i).toReal - {n} / {n+1}| ≤ ((1 + Fmt.f32.u) ^ 2 - 1) * ({n} / {n+1}) := by
  let A : Mat {n} (Flt Fmt.f32) := ⟨fun i j => natF Fmt.f32 (if i = j then 2 else 1) (by split <;> decide)⟩
  have hA : ∀ i j, (A i j).IntLe 2 := fun i j => natF_le (k := if i = j then 2 else 1)
    (by split <;> decide) (by split <;> norm_num)
  obtain ⟨hdet, hinv⟩ := of_int A (Matrix.of fun i j => if i = j then 2 else 1)
    (Matrix.of fun i j => if i = j then {n} else -1) {n+1} (by norm_num)
    (fun i j => by change ((if i = j then 2 else 1 : ℕ) : ℝ) = _; simp only [Matrix.of_apply]; split <;> norm_num)
    (by decide +kernel)
  obtain ⟨B, hB, h, -⟩ := (C146_M{n}{n} Fmt.f32_deep A 2 (by norm_num) hA (by decide)).2 hdet
  refine ⟨A, B, hA, hB, fun i => ?_⟩
  have h1 := (h i i).2
  rw [hinv, Matrix.of_apply, if_pos rfl] at h1
  norm_num [abs_of_pos] at h1 ⊢
  exact h1
''')

out.append('\nend StaticMath\n')
open(os.path.join(os.path.dirname(__file__), '../lean/Verif/Props/IeeeInvInt.lean'), 'w').write(''.join(out))
