import Verif.Ieee.Facts
import Verif.Ieee.Sqrt

/-! # Rounding is monotone, and comparing a rounded result with a float -/

namespace StaticMath

namespace Fmt
variable (f : Fmt)

/-- Rounding is monotone. -/
theorem rnd_mono {x y : ℝ} (hx : 0 ≤ x) (h : x ≤ y) : f.rnd x ≤ f.rnd y := by
  rcases hx.eq_or_lt with h0 | h0
  · rw [← h0, rnd_zero]
    exact f.rnd_nonneg (hx.trans h)
  have hlog : Int.log 2 x ≤ Int.log 2 y := Int.log_mono_right h0 h
  have hexp : f.expo x ≤ f.expo y := max_le_max hlog le_rfl
  rcases hexp.eq_or_lt with he | he
  · have hu : f.ulp x = f.ulp y := by unfold ulp; rw [he]
    unfold rnd
    rw [hu]
    refine mul_le_mul_of_nonneg_right ?_ (f.ulp_pos y).le
    exact_mod_cast rne_mono (div_le_div_of_nonneg_right h (f.ulp_pos y).le)
  · have hp := f.hp
    have hlt : f.emin < Int.log 2 y := by
      unfold expo at he
      rcases max_cases (Int.log 2 x) f.emin with ⟨h3, h5⟩ | ⟨h3, h5⟩ <;>
        rcases max_cases (Int.log 2 y) f.emin with ⟨h4, h6⟩ | ⟨h4, h6⟩ <;> omega
    have h1 : rne (x / f.ulp x) ≤ ((2 ^ f.p : ℕ) : ℤ) := rne_le (by push_cast; exact (f.div_ulp_lt x).le)
    have h2 : ((2 ^ (f.p - 1) : ℕ) : ℤ) ≤ rne (y / f.ulp y) :=
      le_rne (by push_cast; exact f.le_div_ulp (h0.trans_le h) hlt)
    have h1' : (rne (x / f.ulp x) : ℝ) ≤ 2 ^ f.p := by exact_mod_cast h1
    have h2' : (2 : ℝ) ^ (f.p - 1) ≤ (rne (y / f.ulp y) : ℝ) := by exact_mod_cast h2
    calc f.rnd x ≤ (2 : ℝ) ^ f.p * f.ulp x := mul_le_mul_of_nonneg_right h1' (f.ulp_pos x).le
      _ = (2 : ℝ) ^ (f.expo x + 1) := by
          unfold ulp
          rw [← zpow_natCast, ← zpow_add₀ (by norm_num)]
          congr 1
          ring
      _ ≤ (2 : ℝ) ^ f.expo y := zpow_le_zpow_right₀ (by norm_num) (by omega)
      _ = (2 : ℝ) ^ (f.p - 1) * f.ulp y := by
          unfold ulp
          rw [← zpow_natCast, ← zpow_add₀ (by norm_num)]
          congr 1
          push_cast [Nat.cast_sub (by omega : 1 ≤ f.p)]
          ring
      _ ≤ f.rnd y := mul_le_mul_of_nonneg_right h2' (f.ulp_pos y).le

/-- If a rounded number is below a representable number, so was the number. -/
theorem lt_of_rnd_lt {x t : ℝ} (ht : f.Rep t) (h : f.rnd x < t) : x < t := by
  by_contra hc
  have h1 := f.rnd_mono ht.nonneg (not_lt.1 hc)
  rw [f.rnd_rep ht] at h1
  exact absurd h (not_lt.2 h1)

end Fmt

namespace Flt
variable {f : Fmt}

/-- The magnitude of a finite difference is the rounded distance. -/
theorem abs_sub_val {a b : Flt f} (h : (a - b).IsFin) :
    |(a - b).toReal| = f.rnd |a.toReal - b.toReal| := by
  obtain ⟨ha, hb⟩ := isFin_of_sub h
  rcases a with _ | s | ⟨s, x, hx⟩
  · exact absurd ha id
  · exact absurd ha id
  rcases b with _ | t | ⟨t, y, hy⟩
  · exact absurd hb id
  · exact absurd hb id
  have e : (fin s x hx - fin t y hy : Flt f) = ofReal f (s && !t) (sgn s x + sgn (!t) y) := rfl
  rw [e] at h ⊢
  rw [toReal_ofReal h, abs_sgn, abs_of_nonneg (f.rnd_nonneg (abs_nonneg _)), sgn_not, ← sub_eq_add_neg]
  rfl

/-- The magnitude of a finite quotient is the rounded quotient. -/
theorem abs_div_val {a b : Flt f} (hb : b.IsFin) (h : (a / b).IsFin) :
    b.toReal ≠ 0 ∧ |(a / b).toReal| = f.rnd |a.toReal / b.toReal| := by
  refine ⟨(div_err hb h).1, ?_⟩
  have h0 := (div_err hb h).1
  change (div a b).IsFin at h
  rcases b with _ | t | ⟨t, y, hy⟩
  · exact absurd hb id
  · exact absurd hb id
  rcases a with _ | s | ⟨s, x, hx⟩
  · exact absurd h id
  · exact absurd h id
  have hy0 : y ≠ 0 := by
    rintro rfl
    exact h0 (sgn_eq_zero.2 rfl)
  have e : div (fin s x hx) (fin t y hy) = pack f (s != t) (x / y) := if_neg hy0
  rw [e] at h
  obtain ⟨hr, e3⟩ := pack_fin h
  have hxy : 0 ≤ x / y := div_nonneg hx.nonneg hy.nonneg
  change |(div (fin s x hx) (fin t y hy)).toReal| = f.rnd |sgn s x / sgn t y|
  rw [e, e3, abs_div, abs_sgn, abs_sgn, abs_of_nonneg hx.nonneg, abs_of_nonneg hy.nonneg]
  change |sgn _ _| = _
  rw [abs_sgn, abs_of_nonneg hr.nonneg]

end Flt

end StaticMath
