import Verif.Ieee.Facts
import Verif.Ieee.Sqrt
import Verif.Ieee.Mono

/-!
# Floats near a real number

`Near a v e`: the float `a` is finite and within `e` of the real number `v`. One rule per operation, for
formats of precision at least 8, magnitudes up to 256.
-/

namespace StaticMath

namespace Fmt
variable (f : Fmt)

theorem eta_le_sq : f.eta ≤ f.u * f.u := by
  unfold eta u
  rw [← zpow_add₀ (by norm_num)]
  exact zpow_le_zpow_right₀ (by norm_num) (by have := f.hmin; omega)

theorem u_le_of_p {f : Fmt} (h : 8 ≤ f.p) : f.u ≤ 1 / 256 := by
  unfold u
  calc (2 : ℝ) ^ (-(f.p : ℤ)) ≤ 2 ^ (-8 : ℤ) := zpow_le_zpow_right₀ (by norm_num) (by omega)
    _ = _ := by norm_num

theorem range_of_p {f : Fmt} (h : 8 ≤ f.p) {x : ℝ} (hx : x ≤ 256) : (1 + f.u) * x < (2 : ℝ) ^ (f.emax + 1) := by
  have h1 : (2 : ℝ) ^ (9 : ℤ) ≤ (2 : ℝ) ^ (f.emax + 1) :=
    zpow_le_zpow_right₀ (by norm_num) (by have := f.hmax; omega)
  have h2 : (2 : ℝ) ^ (9 : ℤ) = 512 := by norm_num
  have hu := u_le_of_p h
  have hu0 := f.u_pos
  nlinarith

end Fmt

namespace Flt
variable {f : Fmt}

/-- Finite and within `e` of `v`. -/
structure Near (a : Flt f) (v e : ℝ) : Prop where
  fin : a.IsFin
  err : |a.toReal - v| ≤ e

namespace Near
variable {a b : Flt f} {v w e e1 e2 : ℝ}

theorem nonneg (h : Near a v e) : 0 ≤ e := (abs_nonneg _).trans h.err

theorem mono (h : Near a v e1) (he : e1 ≤ e) : Near a v e := ⟨h.fin, h.err.trans he⟩

theorem congr (h : Near a v e) (hv : v = w) : Near a w e := hv ▸ h

theorem of_fin (h : a.IsFin) : Near a a.toReal 0 := ⟨h, by simp⟩

theorem one : Near (1 : Flt f) 1 0 := ⟨trivial, by simp⟩

theorem zero : Near (0 : Flt f) 0 0 := ⟨trivial, by simp⟩

theorem two : Near ((1 : Flt f) + 1) 2 0 := by
  have hp := f.hp
  have hmin := f.hmin
  have hmax := f.hmax
  have h2 : f.Rep |(1 : Flt f).toReal + (1 : Flt f).toReal| := by
    have := f.rep_two_zpow 1 (by omega) (by omega)
    rw [toReal_one]
    norm_num at this ⊢
    exact this
  obtain ⟨h3, h4⟩ := add_exact (f := f) (a := 1) (b := 1) trivial trivial h2
  exact ⟨h3, by rw [h4, toReal_one]; norm_num⟩

theorem half : Near ((1 : Flt f) / (1 + 1)) (1 / 2) 0 := by
  have hp := f.hp
  have hmin := f.hmin
  have hmax := f.hmax
  have h2 := two (f := f)
  have e2 : ((1 : Flt f) + 1).toReal = 2 := sub_eq_zero.1 (abs_eq_zero.1 (le_antisymm h2.err (abs_nonneg _)))
  have hfin : ((1 : Flt f) / (1 + 1)).IsFin := by
    refine div_isFin trivial h2.fin (by rw [e2]; norm_num) ?_
    have h1 : (2 : ℝ) ^ (1 : ℤ) ≤ (2 : ℝ) ^ (f.emax + 1) := zpow_le_zpow_right₀ (by norm_num) (by omega)
    have hu := f.u_le
    rw [toReal_one, e2, abs_of_pos (by norm_num)]
    norm_num at h1
    linarith
  refine ⟨hfin, ?_⟩
  have h3 := (abs_div_val h2.fin hfin).2
  have h4 := (div_err h2.fin hfin).2
  have hr : f.Rep (1 / 2) := by
    have := f.rep_two_zpow (-1) (by omega) (by omega)
    norm_num at this ⊢
    exact this
  rw [toReal_one, e2, abs_of_pos (by norm_num : (0 : ℝ) < 1 / 2)] at h3 h4
  rw [f.rnd_rep hr] at h3
  have h5 : 0 ≤ ((1 : Flt f) / (1 + 1)).toReal := by
    have h6 := (_root_.abs_le.1 h4).1
    have hu := f.u_le
    have h7 := f.eta_le_sq
    have hu0 := f.u_pos
    nlinarith
  rw [abs_of_nonneg h5] at h3
  rw [h3]
  norm_num

theorem neg (h : Near a v e) : Near (-a) (-v) e := by
  refine ⟨isFin_neg.2 h.fin, ?_⟩
  rw [toReal_neg, ← neg_sub', abs_neg]
  exact h.err

theorem abs_le (h : Near a v e) : |a.toReal| ≤ |v| + e := by
  have h1 := abs_sub_abs_le_abs_sub a.toReal v
  linarith [h.err]

theorem le_abs (h : Near a v e) : |v| - e ≤ |a.toReal| := by
  have h1 := abs_sub_abs_le_abs_sub v a.toReal
  rw [abs_sub_comm] at h1
  linarith [h.err]

theorem add (hp : 8 ≤ f.p) {B : ℝ} (ha : Near a v e1) (hb : Near b w e2) (hB : |v + w| + (e1 + e2) ≤ B) (hB2 : B ≤ 256)
    (he : e1 + e2 + f.u * B ≤ e) : Near (a + b) (v + w) e := by
  have h1 : |a.toReal + b.toReal - (v + w)| ≤ e1 + e2 := by
    have := abs_add_le (a.toReal - v) (b.toReal - w)
    rw [show a.toReal - v + (b.toReal - w) = a.toReal + b.toReal - (v + w) by ring] at this
    linarith [ha.err, hb.err]
  have h2 : |a.toReal + b.toReal| ≤ B := by
    have := abs_sub_abs_le_abs_sub (a.toReal + b.toReal) (v + w)
    linarith
  have h3 : (a + b).IsFin := add_isFin ha.fin hb.fin (Fmt.range_of_p hp (h2.trans hB2))
  refine ⟨h3, ?_⟩
  have h4 := add_rel h3
  have h5 := mul_le_mul_of_nonneg_left h2 f.u_pos.le
  have h6 := abs_sub_le (a + b).toReal (a.toReal + b.toReal) (v + w)
  linarith

theorem sub (hp : 8 ≤ f.p) {B : ℝ} (ha : Near a v e1) (hb : Near b w e2) (hB : |v - w| + (e1 + e2) ≤ B) (hB2 : B ≤ 256)
    (he : e1 + e2 + f.u * B ≤ e) : Near (a - b) (v - w) e := by
  have h := add hp ha hb.neg (by rwa [← sub_eq_add_neg]) hB2 he
  rw [← sub_eq_add_neg] at h
  exact h

theorem mul (hp : 8 ≤ f.p) {A C D B : ℝ} (ha : Near a v e1) (hb : Near b w e2) (hA : |v| + e1 ≤ A) (hC : |w| ≤ C)
    (hD : |w| + e2 ≤ D) (hB : A * D ≤ B) (hB2 : B ≤ 256) (he : A * e2 + C * e1 + f.u * (B + 1 / 256) ≤ e) :
    Near (a * b) (v * w) e := by
  have ha1 := ha.abs_le.trans hA
  have hb1 := hb.abs_le.trans hD
  have hA0 : 0 ≤ A := (abs_nonneg _).trans ha1
  have hC0 : 0 ≤ C := (abs_nonneg _).trans hC
  have h1 : |a.toReal * b.toReal - v * w| ≤ A * e2 + C * e1 := by
    have := abs_add_le (a.toReal * (b.toReal - w)) ((a.toReal - v) * w)
    rw [show a.toReal * (b.toReal - w) + (a.toReal - v) * w = a.toReal * b.toReal - v * w by ring, abs_mul, abs_mul]
      at this
    have m1 := mul_le_mul ha1 hb.err (abs_nonneg _) hA0
    have m2 := mul_le_mul ha.err hC (abs_nonneg _) ha.nonneg
    linarith
  have h2 : |a.toReal * b.toReal| ≤ B := by
    rw [abs_mul]
    exact (mul_le_mul ha1 hb1 (abs_nonneg _) hA0).trans hB
  have h3 : (a * b).IsFin := mul_isFin ha.fin hb.fin (Fmt.range_of_p hp (h2.trans hB2))
  refine ⟨h3, ?_⟩
  have h4 := mul_err h3
  have h5 := mul_le_mul_of_nonneg_left h2 f.u_pos.le
  have h6 := abs_sub_le (a * b).toReal (a.toReal * b.toReal) (v * w)
  have h7 := f.eta_le_sq
  have h8 := mul_le_mul_of_nonneg_left (Fmt.u_le_of_p hp) f.u_pos.le
  linarith

theorem div (hp : 8 ≤ f.p) {c Q B : ℝ} (ha : Near a v e1) (hb : Near b w e2) (hc : 0 < c) (hcw : c + e2 ≤ |w|)
    (hQ : |v / w| ≤ Q) (hB : Q + (e1 + Q * e2) / c ≤ B) (hB2 : B ≤ 256)
    (he : (e1 + Q * e2) / c + f.u * (B + 1 / 256) ≤ e) : Near (a / b) (v / w) e := by
  have hbc : c ≤ |b.toReal| := by linarith [hb.le_abs]
  have hb0 : b.toReal ≠ 0 := by
    intro h
    rw [h, abs_zero] at hbc
    linarith
  have hw0 : w ≠ 0 := by
    rintro rfl
    rw [abs_zero] at hcw
    linarith [hb.nonneg]
  have h1 : |a.toReal / b.toReal - v / w| ≤ (e1 + Q * e2) / c := by
    have e : a.toReal / b.toReal - v / w = ((a.toReal - v) + (v / w) * (w - b.toReal)) / b.toReal := by
      field_simp
      ring
    rw [e, abs_div]
    have m1 := abs_add_le (a.toReal - v) (v / w * (w - b.toReal))
    rw [abs_mul, abs_sub_comm w] at m1
    have m2 := mul_le_mul hQ hb.err (abs_nonneg _) ((abs_nonneg _).trans hQ)
    have m3 : 0 ≤ e1 + Q * e2 := add_nonneg ha.nonneg (mul_nonneg ((abs_nonneg _).trans hQ) hb.nonneg)
    exact div_le_div₀ m3 (by linarith [ha.err]) hc hbc
  have h2 : |a.toReal / b.toReal| ≤ B := by
    have := abs_sub_abs_le_abs_sub (a.toReal / b.toReal) (v / w)
    linarith
  have h3 : (a / b).IsFin := div_isFin ha.fin hb.fin hb0 (Fmt.range_of_p hp (h2.trans hB2))
  refine ⟨h3, ?_⟩
  have h4 := (div_err hb.fin h3).2
  have h5 := mul_le_mul_of_nonneg_left h2 f.u_pos.le
  have h6 := abs_sub_le (a / b).toReal (a.toReal / b.toReal) (v / w)
  have h7 := f.eta_le_sq
  have h8 := mul_le_mul_of_nonneg_left (Fmt.u_le_of_p hp) f.u_pos.le
  linarith

theorem sqrt {c B : ℝ} (ha : Near a v e1) (hc : 0 < c) (hcv : c ^ 2 ≤ v) (h0 : e1 ≤ v) (hB0 : 0 ≤ B) (hB : v + e1 ≤ B ^ 2)
    (he : e1 / c + f.u * B ≤ e) : Near (Flt.sqrt a) (√v) e := by
  have h1 := _root_.abs_le.1 ha.err
  have ha0 : 0 ≤ a.toReal := by linarith [h1.1]
  obtain ⟨h2, h3, -⟩ := sqrt_rel ha.fin ha0
  refine ⟨h2, ?_⟩
  have h4 : √a.toReal ≤ B := Real.sqrt_le_iff.2 ⟨hB0, by linarith [h1.2]⟩
  have h5 := mul_le_mul_of_nonneg_left h4 f.u_pos.le
  have hv : c ≤ √v := Real.le_sqrt_of_sq_le hcv
  have h6 : |√a.toReal - √v| ≤ e1 / c := by
    rw [le_div_iff₀ hc]
    have m1 : (√a.toReal - √v) * (√a.toReal + √v) = a.toReal - v := by
      have s1 := Real.mul_self_sqrt ha0
      have s2 := Real.mul_self_sqrt ((by positivity : (0 : ℝ) ≤ c ^ 2).trans hcv)
      linear_combination s1 - s2
    have m2 : |√a.toReal - √v| * |√a.toReal + √v| ≤ e1 := by
      rw [← abs_mul, m1]
      exact ha.err
    have m3 : c ≤ |√a.toReal + √v| := by
      rw [abs_of_nonneg (by positivity)]
      linarith [Real.sqrt_nonneg a.toReal]
    exact (mul_le_mul_of_nonneg_left m3 (abs_nonneg _)).trans m2
  have h7 := abs_sub_le (Flt.sqrt a).toReal (√a.toReal) (√v)
  linarith

end Near
end Flt
end StaticMath
