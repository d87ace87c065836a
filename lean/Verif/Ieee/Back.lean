import Verif.Ieee.Sqrt

/-!
# Rounding errors relative to the computed result
-/

namespace StaticMath

namespace Fmt
variable (f : Fmt)

theorem rnd_rel' {x : ℝ} (hx : (2 : ℝ) ^ f.emin ≤ x) : |f.rnd x - x| ≤ f.u * f.rnd x := by
  have hx0 : 0 < x := lt_of_lt_of_le (by positivity) hx
  have hp := f.hp
  have hlog : f.emin ≤ Int.log 2 x := by
    by_contra hc
    push Not at hc
    have h1 : x < (2 : ℝ) ^ (Int.log 2 x + 1) := by
      exact_mod_cast Int.lt_zpow_succ_log_self (b := 2) (by norm_num) x
    have h2 := hx.trans_lt h1
    rw [zpow_lt_zpow_iff_right₀ (by norm_num)] at h2
    omega
  refine (f.abs_rnd_sub x).trans ?_
  have e : f.ulp x / 2 = f.u * (2 : ℝ) ^ Int.log 2 x := by
    unfold ulp u expo
    rw [max_eq_left hlog, ← zpow_add₀ (by norm_num), div_eq_iff (by norm_num),
      ← zpow_add_one₀ (by norm_num)]
    congr 1
    ring
  have e2 : (2 : ℝ) ^ Int.log 2 x = ((2 ^ (f.p - 1) : ℕ) : ℤ) * f.ulp x := by
    unfold ulp expo
    rw [max_eq_left hlog]
    push_cast
    rw [← zpow_natCast, ← zpow_add₀ (by norm_num)]
    congr 1
    push_cast [Nat.cast_sub (by omega : 1 ≤ f.p)]
    ring
  rw [e]
  refine mul_le_mul_of_nonneg_left ?_ f.u_pos.le
  rw [e2]
  unfold rnd
  refine mul_le_mul_of_nonneg_right ?_ (f.ulp_pos x).le
  have h1 : (((2 ^ (f.p - 1) : ℕ) : ℤ) : ℝ) ≤ x / f.ulp x := by
    rw [le_div_iff₀ (f.ulp_pos x), ← e2]
    exact log_le hx0
  exact_mod_cast le_rne h1

theorem rnd_err' {x : ℝ} (hx : 0 ≤ x) : |f.rnd x - x| ≤ f.u * f.rnd x + f.eta := by
  have he := f.eta_pos
  by_cases h : (2 : ℝ) ^ f.emin ≤ x
  · have := f.rnd_rel' h
    linarith
  · push Not at h
    have h0 := mul_nonneg f.u_pos.le (f.rnd_nonneg hx)
    rcases hx.eq_or_lt with h1 | h1
    · rw [← h1, rnd_zero, sub_zero, abs_zero, mul_zero, zero_add]
      exact he.le
    have hlog : Int.log 2 x ≤ f.emin := by
      have := (log_le h1).trans_lt h
      rw [zpow_lt_zpow_iff_right₀ (by norm_num)] at this
      exact this.le
    refine (f.abs_rnd_sub x).trans ?_
    have e : f.ulp x / 2 = f.eta := by
      unfold ulp eta expo
      rw [max_eq_right hlog, div_eq_iff (by norm_num), ← zpow_add_one₀ (by norm_num)]
    rw [e]
    linarith

end Fmt

namespace Flt
variable {f : Fmt}

theorem add_rel' {a b : Flt f} (h : (a + b).IsFin) :
    |(a + b).toReal - (a.toReal + b.toReal)| ≤ f.u * |(a + b).toReal| := by
  obtain ⟨ha, hb⟩ := isFin_of_add h
  rcases a with _ | s | ⟨s, x, hx⟩
  · exact absurd ha id
  · exact absurd ha id
  rcases b with _ | t | ⟨t, y, hy⟩
  · exact absurd hb id
  · exact absurd hb id
  change (ofReal f (s && t) (sgn s x + sgn t y)).IsFin at h
  change |(ofReal f (s && t) (sgn s x + sgn t y)).toReal - (sgn s x + sgn t y)| ≤
    f.u * |(ofReal f (s && t) (sgn s x + sgn t y)).toReal|
  rw [toReal_ofReal h]
  obtain ⟨r, hr⟩ : ∃ r, r = sgn s x + sgn t y := ⟨_, rfl⟩
  rw [← hr]
  have e : sgn (decide (r < 0)) (f.rnd |r|) - r = sgn (decide (r < 0)) (f.rnd |r| - |r|) := by
    rw [← sgn_sub, sgn_lt_abs]
  rw [e, abs_sgn, abs_sgn, abs_of_nonneg (f.rnd_nonneg (abs_nonneg r))]
  by_cases hn : (2 : ℝ) ^ f.emin ≤ |r|
  · exact f.rnd_rel' hn
  · push Not at hn
    obtain ⟨kx, hkx⟩ := f.rep_mul_ulp hx
    obtain ⟨ky, hky⟩ := f.rep_mul_ulp hy
    have : ∃ k : ℕ, |r| = k * (2 : ℝ) ^ (f.emin - f.p + 1) := by
      have hpos : (0 : ℝ) < (2 : ℝ) ^ (f.emin - f.p + 1) := by positivity
      obtain ⟨z, hz⟩ : ∃ z : ℤ, r = z * (2 : ℝ) ^ (f.emin - f.p + 1) := by
        refine ⟨(if s then -(kx : ℤ) else kx) + (if t then -(ky : ℤ) else ky), ?_⟩
        rw [hr, hkx, hky]
        cases s <;> cases t <;> simp [sgn] <;> ring
      refine ⟨z.natAbs, ?_⟩
      rw [hz, abs_mul, abs_of_pos hpos, Nat.cast_natAbs, Int.cast_abs]
    obtain ⟨k, hk⟩ := this
    rw [hk] at hn
    have hrep := rep_of_small hn
    rw [← hk] at hrep
    rw [f.rnd_rep hrep, sub_self, abs_zero]
    exact mul_nonneg f.u_pos.le (abs_nonneg _)

theorem sub_rel' {a b : Flt f} (h : (a - b).IsFin) :
    |(a - b).toReal - (a.toReal - b.toReal)| ≤ f.u * |(a - b).toReal| := by
  have := add_rel' (a := a) (b := -b) h
  rw [toReal_neg, ← sub_eq_add_neg] at this
  exact this

theorem div_err' {a b : Flt f} (hb : b.IsFin) (h : (a / b).IsFin) :
    a.IsFin ∧ b.toReal ≠ 0 ∧ |(a / b).toReal - a.toReal / b.toReal| ≤ f.u * |(a / b).toReal| + f.eta := by
  change (div a b).IsFin at h
  rcases b with _ | t | ⟨t, y, hy⟩
  · exact absurd hb id
  · exact absurd hb id
  rcases a with _ | s | ⟨s, x, hx⟩
  · exact absurd h id
  · exact absurd h id
  by_cases hy0 : y = 0
  · simp only [div, hy0, if_true] at h
    split at h <;> exact absurd h id
  have e : div (fin s x hx) (fin t y hy) = pack f (s != t) (x / y) := if_neg hy0
  rw [e] at h
  obtain ⟨hr, e3⟩ := pack_fin h
  refine ⟨trivial, ?_, ?_⟩
  · change sgn t y ≠ 0
    cases t <;> simpa [sgn] using hy0
  change |(div (fin s x hx) (fin t y hy)).toReal - sgn s x / sgn t y| ≤ f.u * |(div (fin s x hx) (fin t y hy)).toReal| + _
  have e4 : sgn s x / sgn t y = sgn (s != t) (x / y) := by
    cases s <;> cases t <;> simp [sgn, neg_div, div_neg]
  have hxy : 0 ≤ x / y := div_nonneg hx.nonneg hy.nonneg
  have e5 : (fin (s != t) (f.rnd (x / y)) hr : Flt f).toReal = sgn (s != t) (f.rnd (x / y)) := rfl
  rw [e, e3, e4, e5, sgn_sub, abs_sgn, abs_sgn, abs_of_nonneg (f.rnd_nonneg hxy)]
  exact f.rnd_err' hxy

end Flt
end StaticMath
