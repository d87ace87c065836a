import Verif.Ieee.Facts
import Verif.Ieee.ExprBounds

/-!
# Scaling floats by a power of two

Multiplying all inputs by a power of two multiplies every intermediate result by a power of two, exactly, as long as no
product underflows and nothing overflows.
-/

namespace StaticMath

namespace Fmt
variable (f : Fmt)

theorem log_scale {x : ℝ} (hx : 0 < x) (k : ℤ) : Int.log 2 ((2 : ℝ) ^ k * x) = k + Int.log 2 x := by
  have hy : 0 < (2 : ℝ) ^ k * x := by positivity
  have h1 := log_le hx
  have h2 := log_le hy
  have h3 : x < (2 : ℝ) ^ (Int.log 2 x + 1) := by
    have := Int.lt_zpow_succ_log_self (b := 2) (by norm_num) x
    exact_mod_cast this
  have h4 : (2 : ℝ) ^ k * x < (2 : ℝ) ^ (Int.log 2 ((2 : ℝ) ^ k * x) + 1) := by
    have := Int.lt_zpow_succ_log_self (b := 2) (by norm_num) ((2 : ℝ) ^ k * x)
    exact_mod_cast this
  have hk : (0 : ℝ) < (2 : ℝ) ^ k := by positivity
  have h5 : (2 : ℝ) ^ (k + Int.log 2 x) < (2 : ℝ) ^ (Int.log 2 ((2 : ℝ) ^ k * x) + 1) := by
    rw [zpow_add₀ (by norm_num)]
    exact (mul_le_mul_of_nonneg_left h1 hk.le).trans_lt h4
  have h6 : (2 : ℝ) ^ Int.log 2 ((2 : ℝ) ^ k * x) < (2 : ℝ) ^ (k + (Int.log 2 x + 1)) := by
    rw [zpow_add₀ (by norm_num) k]
    exact h2.trans_lt (mul_lt_mul_of_pos_left h3 hk)
  have h7 := (zpow_lt_zpow_iff_right₀ (by norm_num : (1 : ℝ) < 2)).1 h5
  have h8 := (zpow_lt_zpow_iff_right₀ (by norm_num : (1 : ℝ) < 2)).1 h6
  omega

theorem emin_le_log {x : ℝ} (hx : (2 : ℝ) ^ f.emin ≤ x) : f.emin ≤ Int.log 2 x := by
  have h0 : 0 < x := lt_of_lt_of_le (by positivity) hx
  have h3 : x < (2 : ℝ) ^ (Int.log 2 x + 1) := by
    have := Int.lt_zpow_succ_log_self (b := 2) (by norm_num) x
    exact_mod_cast this
  have := (zpow_lt_zpow_iff_right₀ (by norm_num : (1 : ℝ) < 2)).1 (hx.trans_lt h3)
  omega

theorem log_lt_emin {x : ℝ} (h0 : 0 < x) (hx : x < (2 : ℝ) ^ f.emin) : Int.log 2 x < f.emin :=
  (zpow_lt_zpow_iff_right₀ (by norm_num : (1 : ℝ) < 2)).1 ((log_le h0).trans_lt hx)

theorem rnd_scale {x : ℝ} {k : ℤ} (hx : (2 : ℝ) ^ f.emin ≤ x) (hy : (2 : ℝ) ^ f.emin ≤ (2 : ℝ) ^ k * x) :
    f.rnd ((2 : ℝ) ^ k * x) = (2 : ℝ) ^ k * f.rnd x := by
  have h0 : 0 < x := lt_of_lt_of_le (by positivity) hx
  have e : f.ulp ((2 : ℝ) ^ k * x) = (2 : ℝ) ^ k * f.ulp x := by
    have h1 := f.emin_le_log hx
    have h2 := f.emin_le_log hy
    unfold ulp expo
    rw [max_eq_left h1, max_eq_left h2, log_scale h0, ← zpow_add₀ (by norm_num)]
    congr 1
    ring
  unfold rnd
  rw [e, mul_div_mul_left _ _ (two_zpow_ne k)]
  ring

theorem rnd_int_mul_ulp {x : ℝ} {n : ℤ} (h : x = n * f.ulp x) : f.rnd x = x := by
  unfold rnd
  have h1 : x / f.ulp x = n := by
    rw [div_eq_iff (f.ulp_pos x).ne']; exact h
  rw [h1, rne_int]
  exact h.symm

/-- Multiples of a power of two stay multiples of it. -/
theorem rnd_grid {x : ℝ} {m n : ℤ} (h : x = n * (2 : ℝ) ^ m) : ∃ n' : ℤ, f.rnd x = n' * (2 : ℝ) ^ m := by
  by_cases hc : f.expo x - f.p + 1 ≤ m
  · refine ⟨n, ?_⟩
    obtain ⟨j, hj⟩ : ∃ j : ℕ, m = (f.expo x - f.p + 1) + j := ⟨(m - (f.expo x - f.p + 1)).toNat, by omega⟩
    rw [f.rnd_int_mul_ulp (n := n * 2 ^ j), h]
    unfold ulp
    conv_lhs => rw [h, hj]
    push_cast
    rw [zpow_add₀ (by norm_num), zpow_natCast]
    ring
  · push Not at hc
    obtain ⟨j, hj⟩ : ∃ j : ℕ, f.expo x - f.p + 1 = m + j := ⟨(f.expo x - f.p + 1 - m).toNat, by omega⟩
    refine ⟨rne (x / f.ulp x) * 2 ^ j, ?_⟩
    unfold rnd
    generalize rne (x / f.ulp x) = q
    rw [ulp, hj]
    push_cast
    rw [zpow_add₀ (by norm_num), zpow_natCast]
    ring

private theorem rnd_scale_up {x : ℝ} {k : ℤ} {n : ℕ} (h0 : 0 < x) (hx : x < (2 : ℝ) ^ f.emin)
    (hn : x = n * (2 : ℝ) ^ (f.emin - f.p + 1)) (hy : (2 : ℝ) ^ f.emin ≤ (2 : ℝ) ^ k * x) :
    f.rnd ((2 : ℝ) ^ k * x) = (2 : ℝ) ^ k * x := by
  have h1 := f.log_lt_emin h0 hx
  have h2 := f.emin_le_log hy
  obtain ⟨j, hj⟩ : ∃ j : ℕ, f.emin = Int.log 2 x + j := ⟨(f.emin - Int.log 2 x).toNat, by omega⟩
  refine f.rnd_int_mul_ulp (n := n * 2 ^ j) ?_
  unfold ulp expo
  rw [max_eq_left h2, log_scale h0]
  conv_lhs => rw [hn, show f.emin - f.p + 1 = (Int.log 2 x - f.p + 1) + j by omega]
  rw [show k + Int.log 2 x - f.p + 1 = k + (Int.log 2 x - f.p + 1) by ring, zpow_add₀ (by norm_num) k,
    zpow_add₀ (by norm_num) _ (j : ℤ), zpow_natCast]
  push_cast
  ring

/-- Where the exact value is a multiple of the smallest positive number, underflow does no harm. -/
theorem rnd_scale_sum {x : ℝ} {k : ℤ} (h0 : 0 ≤ x) (hx : ∃ n : ℕ, x = n * (2 : ℝ) ^ (f.emin - f.p + 1))
    (hy : ∃ n : ℕ, (2 : ℝ) ^ k * x = n * (2 : ℝ) ^ (f.emin - f.p + 1)) :
    f.rnd ((2 : ℝ) ^ k * x) = (2 : ℝ) ^ k * f.rnd x := by
  rcases h0.eq_or_lt with h0 | h0
  · rw [← h0, mul_zero, f.rnd_zero, mul_zero]
  obtain ⟨n, hn⟩ := hx
  obtain ⟨m, hm⟩ := hy
  have hk : (0 : ℝ) < (2 : ℝ) ^ k := by positivity
  by_cases c1 : (2 : ℝ) ^ f.emin ≤ x
  · by_cases c2 : (2 : ℝ) ^ f.emin ≤ (2 : ℝ) ^ k * x
    · exact f.rnd_scale c1 c2
    · push Not at c2
      have e : x = (2 : ℝ) ^ (-k) * ((2 : ℝ) ^ k * x) := by
        rw [← mul_assoc, ← zpow_add₀ (by norm_num)]; simp
      have h1 := f.rnd_scale_up (k := -k) (mul_pos hk h0) c2 hm (by rw [← e]; exact c1)
      rw [← e] at h1
      rw [h1]
      rw [hm] at c2 ⊢
      exact f.rnd_rep (Flt.rep_of_small c2)
  · push Not at c1
    have hr : f.rnd x = x := by
      rw [hn] at c1 ⊢
      exact f.rnd_rep (Flt.rep_of_small c1)
    rw [hr]
    by_cases c2 : (2 : ℝ) ^ f.emin ≤ (2 : ℝ) ^ k * x
    · exact f.rnd_scale_up h0 c1 hn c2
    · push Not at c2
      rw [hm] at c2 ⊢
      exact f.rnd_rep (Flt.rep_of_small c2)

end Fmt

namespace Flt
variable {f : Fmt}

/-- `b` is the finite float `a` multiplied by `2^k`, exactly and with the same sign (also of zero). -/
def Scaled (k : ℤ) (a b : Flt f) : Prop :=
  ∃ (s : Bool) (x y : ℝ) (hx : f.Rep x) (hy : f.Rep y), a = fin s x hx ∧ b = fin s y hy ∧ y = (2 : ℝ) ^ k * x

namespace Scaled
variable {a b a' b' : Flt f} {j k : ℤ}

theorem fin_left (h : Scaled k a b) : a.IsFin := by
  obtain ⟨s, x, y, hx, hy, rfl, rfl, -⟩ := h; trivial

theorem fin_right (h : Scaled k a b) : b.IsFin := by
  obtain ⟨s, x, y, hx, hy, rfl, rfl, -⟩ := h; trivial

theorem val (h : Scaled k a b) : b.toReal = (2 : ℝ) ^ k * a.toReal := by
  obtain ⟨s, x, y, hx, hy, rfl, rfl, e⟩ := h
  change sgn s y = _ * sgn s x
  rw [e]
  cases s <;> simp [sgn]

theorem zero : Scaled k (0 : Flt f) 0 := ⟨false, 0, 0, _, _, rfl, rfl, by simp⟩

theorem refl (h : a.IsFin) : Scaled 0 a a := by
  rcases a with _ | s | ⟨s, x, hx⟩
  · exact absurd h id
  · exact absurd h id
  · exact ⟨s, x, x, hx, hx, rfl, rfl, by simp⟩

theorem eq_zero_iff (h : Scaled k a b) : a = b ↔ k = 0 ∨ a.toReal = 0 := by
  obtain ⟨s, x, y, hx, hy, rfl, rfl, e⟩ := h
  have hs : (fin s x hx : Flt f).toReal = 0 ↔ x = 0 := sgn_eq_zero
  rw [hs]
  constructor
  · intro h1
    have h2 : x = y := by injection h1
    rw [e] at h2
    by_cases hx0 : x = 0
    · exact Or.inr hx0
    · left
      have h3 : (2 : ℝ) ^ k = 1 := by
        have := mul_right_cancel₀ hx0 (h2.symm.trans (one_mul x).symm)
        exact this
      have h4 : (2 : ℝ) ^ k = (2 : ℝ) ^ (0 : ℤ) := by rw [h3, zpow_zero]
      exact zpow_right_injective₀ (by norm_num : (0 : ℝ) < 2) (by norm_num) h4
  · rintro (rfl | rfl)
    · exact fin_congr (by rw [e]; simp) _ _
    · exact fin_congr (by rw [e]; simp) _ _

theorem neg (h : Scaled k a b) : Scaled k (-a) (-b) := by
  obtain ⟨s, x, y, hx, hy, rfl, rfl, e⟩ := h
  exact ⟨!s, x, y, hx, hy, rfl, rfl, e⟩

theorem abs (h : Scaled k a b) : Scaled k (RAbs.abs a) (RAbs.abs b) := by
  obtain ⟨s, x, y, hx, hy, rfl, rfl, e⟩ := h
  exact ⟨false, x, y, hx, hy, rfl, rfl, e⟩

private theorem grid_sum {s t : Bool} {x y : ℝ} (hx : f.Rep x) (hy : f.Rep y) :
    ∃ n : ℕ, |sgn s x + sgn t y| = n * (2 : ℝ) ^ (f.emin - f.p + 1) := by
  obtain ⟨kx, hkx⟩ := f.rep_mul_ulp hx
  obtain ⟨ky, hky⟩ := f.rep_mul_ulp hy
  have hpos : (0 : ℝ) < (2 : ℝ) ^ (f.emin - f.p + 1) := by positivity
  obtain ⟨z, hz⟩ : ∃ z : ℤ, sgn s x + sgn t y = z * (2 : ℝ) ^ (f.emin - f.p + 1) := by
    refine ⟨(if s then -(kx : ℤ) else kx) + (if t then -(ky : ℤ) else ky), ?_⟩
    rw [hkx, hky]
    cases s <;> cases t <;> simp [sgn] <;> ring
  refine ⟨z.natAbs, ?_⟩
  rw [hz, abs_mul, abs_of_pos hpos, Nat.cast_natAbs, Int.cast_abs]

theorem add (ha : Scaled k a a') (hb : Scaled k b b') (h : (a + b).IsFin) (h' : (a' + b').IsFin) :
    Scaled k (a + b) (a' + b') := by
  obtain ⟨s, x, x', hx, hx', rfl, rfl, e⟩ := ha
  obtain ⟨t, y, y', hy, hy', rfl, rfl, e'⟩ := hb
  have hk : (0 : ℝ) < (2 : ℝ) ^ k := by positivity
  have e1 : sgn s x' + sgn t y' = (2 : ℝ) ^ k * (sgn s x + sgn t y) := by
    rw [e, e']
    cases s <;> cases t <;> simp [sgn] <;> ring
  have g1 := grid_sum (s := s) (t := t) hx hy
  have g2 := grid_sum (s := s) (t := t) hx' hy'
  change (ofReal f (s && t) (sgn s x + sgn t y)).IsFin at h
  change (ofReal f (s && t) (sgn s x' + sgn t y')).IsFin at h'
  change Scaled k (ofReal f (s && t) (sgn s x + sgn t y)) (ofReal f (s && t) (sgn s x' + sgn t y'))
  rw [e1] at h' g2 ⊢
  obtain ⟨r, hr⟩ : ∃ r, r = sgn s x + sgn t y := ⟨_, rfl⟩
  rw [← hr] at h h' g1 g2 ⊢
  rw [abs_mul, abs_of_pos hk] at g2
  unfold ofReal at h h' ⊢
  obtain ⟨h1, e2⟩ := pack_fin h
  obtain ⟨h2, e3⟩ := pack_fin h'
  rw [e2, e3]
  have es : (open Classical in (if (2 : ℝ) ^ k * r = 0 then (s && t) else decide ((2 : ℝ) ^ k * r < 0))) =
      (open Classical in (if r = 0 then (s && t) else decide (r < 0))) := by
    have c1 : (2 : ℝ) ^ k * r = 0 ↔ r = 0 := by simp [hk.ne']
    have c2 : (2 : ℝ) ^ k * r < 0 ↔ r < 0 := by
      constructor
      · intro h; by_contra h3; push Not at h3; have := mul_nonneg hk.le h3; linarith
      · intro h; exact mul_neg_of_pos_of_neg hk h
    simp only [c1, c2]
  refine ⟨_, f.rnd |r|, f.rnd |(2 : ℝ) ^ k * r|, h1, h2, rfl, ?_, ?_⟩
  · rw [es]
  · rw [abs_mul, abs_of_pos hk]
    exact f.rnd_scale_sum (abs_nonneg r) g1 g2

theorem sub (ha : Scaled k a a') (hb : Scaled k b b') (h : (a - b).IsFin) (h' : (a' - b').IsFin) :
    Scaled k (a - b) (a' - b') := ha.add hb.neg h h'

/-- The exact result is zero or not below the normal range. -/
def _root_.StaticMath.Fmt.Norm (f : Fmt) (r : ℝ) : Prop := r = 0 ∨ (2 : ℝ) ^ f.emin ≤ |r|

private theorem rnd_norm {x : ℝ} (h0 : 0 ≤ x) (h : f.Norm x) (h' : f.Norm ((2 : ℝ) ^ k * x)) :
    f.rnd ((2 : ℝ) ^ k * x) = (2 : ℝ) ^ k * f.rnd x := by
  have hk : (0 : ℝ) < (2 : ℝ) ^ k := by positivity
  rcases h with h | h
  · rw [h, mul_zero, f.rnd_zero, mul_zero]
  rcases h' with h' | h'
  · have : x = 0 := by simpa [hk.ne'] using h'
    rw [this, mul_zero, f.rnd_zero, mul_zero]
  rw [abs_of_nonneg h0] at h
  rw [abs_of_nonneg (mul_nonneg hk.le h0)] at h'
  exact f.rnd_scale h h'

theorem mul (ha : Scaled j a a') (hb : Scaled k b b') (h : (a * b).IsFin) (h' : (a' * b').IsFin)
    (hn : f.Norm (a.toReal * b.toReal)) (hn' : f.Norm (a'.toReal * b'.toReal)) :
    Scaled (j + k) (a * b) (a' * b') := by
  obtain ⟨s, x, x', hx, hx', rfl, rfl, e⟩ := ha
  obtain ⟨t, y, y', hy, hy', rfl, rfl, e'⟩ := hb
  have hk : (0 : ℝ) < (2 : ℝ) ^ (j + k) := by positivity
  have e1 : x' * y' = (2 : ℝ) ^ (j + k) * (x * y) := by
    rw [e, e', zpow_add₀ (by norm_num)]; ring
  have hxy : 0 ≤ x * y := mul_nonneg hx.nonneg hy.nonneg
  have n1 : ∀ {x y : ℝ}, f.Norm (sgn s x * sgn t y) → f.Norm (x * y) := by
    intro x y h
    unfold Fmt.Norm at *
    rw [← sgn_xor, abs_sgn, sgn_eq_zero] at h
    exact h
  have g1 := n1 hn
  have g2 := n1 hn'
  change (pack f (s != t) (x * y)).IsFin at h
  change (pack f (s != t) (x' * y')).IsFin at h'
  change Scaled _ (pack f (s != t) (x * y)) (pack f (s != t) (x' * y'))
  obtain ⟨h1, e2⟩ := pack_fin h
  obtain ⟨h2, e3⟩ := pack_fin h'
  rw [e2, e3]
  refine ⟨_, _, _, h1, h2, rfl, rfl, ?_⟩
  rw [e1] at g2 ⊢
  exact rnd_norm hxy g1 g2

theorem div (ha : Scaled j a a') (hb : Scaled k b b') (h0 : b.toReal ≠ 0) (h : (a / b).IsFin) (h' : (a' / b').IsFin)
    (hn : f.Norm (a.toReal / b.toReal)) (hn' : f.Norm (a'.toReal / b'.toReal)) :
    Scaled (j - k) (a / b) (a' / b') := by
  obtain ⟨s, x, x', hx, hx', rfl, rfl, e⟩ := ha
  obtain ⟨t, y, y', hy, hy', rfl, rfl, e'⟩ := hb
  have hj : (0 : ℝ) < (2 : ℝ) ^ k := by positivity
  have hk : (0 : ℝ) < (2 : ℝ) ^ (j - k) := by positivity
  have hy0 : y ≠ 0 := fun h => h0 (sgn_eq_zero.2 h)
  have hy0' : y' ≠ 0 := by rw [e']; exact mul_ne_zero hj.ne' hy0
  have e1 : x' / y' = (2 : ℝ) ^ (j - k) * (x / y) := by
    rw [e, e', zpow_sub₀ (by norm_num)]; field_simp
  have hxy : 0 ≤ x / y := div_nonneg hx.nonneg hy.nonneg
  have n1 : ∀ {x y : ℝ}, f.Norm (sgn s x / sgn t y) → f.Norm (x / y) := by
    intro x y h
    unfold Fmt.Norm at *
    rw [abs_div, abs_sgn, abs_sgn, ← abs_div, div_eq_zero_iff, sgn_eq_zero, sgn_eq_zero, ← div_eq_zero_iff] at h
    exact h
  have g1 := n1 hn
  have g2 := n1 hn'
  have d1 : ∀ {s t : Bool} {x y : ℝ} (hx : f.Rep x) (hy : f.Rep y), y ≠ 0 →
      (fin s x hx : Flt f) / fin t y hy = pack f (s != t) (x / y) := by
    intro s t x y hx hy h0
    change Flt.div _ _ = _
    simp only [Flt.div, h0, if_false]
  rw [d1 hx hy hy0] at h ⊢
  rw [d1 hx' hy' hy0'] at h' ⊢
  obtain ⟨h1, e2⟩ := pack_fin h
  obtain ⟨h2, e3⟩ := pack_fin h'
  rw [e2, e3]
  refine ⟨_, _, _, h1, h2, rfl, rfl, ?_⟩
  rw [e1] at g2 ⊢
  exact rnd_norm hxy g1 g2

theorem sqrt (ha : Scaled (2 * k) a a') (h : (Flt.sqrt a).IsFin) (h' : (Flt.sqrt a').IsFin)
    (hn : f.Norm (Real.sqrt a.toReal)) (hn' : f.Norm (Real.sqrt a'.toReal)) :
    Scaled k (Flt.sqrt a) (Flt.sqrt a') := by
  obtain ⟨s, x, x', hx, hx', rfl, rfl, e⟩ := ha
  have hk : (0 : ℝ) < (2 : ℝ) ^ k := by positivity
  have hk2 : (2 : ℝ) ^ (2 * k) = (2 : ℝ) ^ k * (2 : ℝ) ^ k := by
    rw [← zpow_add₀ (by norm_num)]; congr 1; ring
  by_cases h0 : x = 0
  · have h0' : x' = 0 := by rw [e, h0, mul_zero]
    subst h0 h0'
    have q : ∀ (h : f.Rep 0), Flt.sqrt (fin s 0 h : Flt f) = fin s 0 h := by
      intro h; simp [Flt.sqrt]
    rw [q]
    exact ⟨s, 0, 0, _, _, rfl, rfl, by simp⟩
  · have h0' : x' ≠ 0 := by rw [e, hk2]; exact mul_ne_zero (mul_ne_zero hk.ne' hk.ne') h0
    have q : ∀ {x : ℝ} (hx : f.Rep x), x ≠ 0 → Flt.sqrt (fin s x hx : Flt f) = if s then nan else pack f false (Real.sqrt x) := by
      intro x hx h; simp [Flt.sqrt, h]
    rw [q hx h0] at h ⊢
    rw [q hx' h0'] at h' ⊢
    cases s
    · change f.Norm (Real.sqrt x) at hn
      change f.Norm (Real.sqrt x') at hn'
      obtain ⟨h1, e2⟩ := pack_fin h
      obtain ⟨h2, e3⟩ := pack_fin h'
      change Scaled k (pack f false _) (pack f false _)
      rw [e2, e3]
      refine ⟨_, _, _, h1, h2, rfl, rfl, ?_⟩
      have e1 : Real.sqrt x' = (2 : ℝ) ^ k * Real.sqrt x := by
        rw [e, hk2, Real.sqrt_mul (by positivity), Real.sqrt_mul_self hk.le]
      rw [e1] at hn' ⊢
      exact rnd_norm (Real.sqrt_nonneg x) hn hn'
    · exact absurd h id

end Scaled

/-- A finite float that is an integer multiple of `2^(-G)`. -/
def OnGrid (G : ℕ) (a : Flt f) : Prop := a.IsFin ∧ ∃ z : ℤ, a.toReal = z * (2 : ℝ) ^ (-(G : ℤ))

/-- Floats of magnitude at least `2^(-L)` have no bits below `2^(-(L + p - 1))`. -/
theorem OnGrid.of_le {L : ℕ} {a : Flt f} (ha : a.IsFin) (h : a.toReal = 0 ∨ (2 : ℝ) ^ (-(L : ℤ)) ≤ |a.toReal|) :
    a.OnGrid (L + f.p - 1) := by
  refine ⟨ha, ?_⟩
  rcases h with h | h
  · exact ⟨0, by simp [h]⟩
  have hp := f.hp
  have hr := rep_abs_toReal a
  have h0 : 0 < |a.toReal| := lt_of_lt_of_le (by positivity) h
  have h1 := f.rnd_rep hr
  unfold Fmt.rnd at h1
  have h2 : -(L : ℤ) ≤ Int.log 2 |a.toReal| := by
    have h3 : |a.toReal| < (2 : ℝ) ^ (Int.log 2 |a.toReal| + 1) := by
      have := Int.lt_zpow_succ_log_self (b := 2) (by norm_num) |a.toReal|
      exact_mod_cast this
    have := (zpow_lt_zpow_iff_right₀ (by norm_num : (1 : ℝ) < 2)).1 (h.trans_lt h3)
    omega
  have h3 : -(L : ℤ) ≤ f.expo |a.toReal| := h2.trans (le_max_left _ _)
  obtain ⟨j, hj⟩ : ∃ j : ℕ, f.expo |a.toReal| - f.p + 1 = -((L + f.p - 1 : ℕ) : ℤ) + j :=
    ⟨(f.expo |a.toReal| - f.p + 1 + (L + f.p - 1 : ℕ)).toNat, by omega⟩
  have h4 : |a.toReal| = ((rne (|a.toReal| / f.ulp |a.toReal|) * 2 ^ j : ℤ) : ℝ) *
      (2 : ℝ) ^ (-((L + f.p - 1 : ℕ) : ℤ)) := by
    conv_lhs => rw [← h1]
    generalize rne (|a.toReal| / f.ulp |a.toReal|) = q
    rw [Fmt.ulp, hj, zpow_add₀ (by norm_num), zpow_natCast]
    push_cast
    ring
  rcases abs_choice a.toReal with h5 | h5
  · rw [h5] at h4
    exact ⟨_, h4⟩
  · refine ⟨-(rne (|a.toReal| / f.ulp |a.toReal|) * 2 ^ j), ?_⟩
    have h6 : a.toReal = -|a.toReal| := by rw [h5, neg_neg]
    conv_lhs => rw [h6, h4]
    push_cast
    ring

end Flt

namespace Ex
variable {ι : Type} {f : Fmt}

/-- Whether an expression is homogeneous in variables of the weights `w`: not, zero (of every degree), of one degree. -/
inductive Hom where
  | bad
  | any
  | deg (d : ℤ × ℤ)
  deriving DecidableEq

def hom (w : ι → ℤ × ℤ) : Ex ι → Hom
  | var i => .deg (w i)
  | zero => .any
  | one => .deg 0
  | neg a => hom w a
  | add a b => match hom w a, hom w b with
    | .bad, _ => .bad
    | _, .bad => .bad
    | .any, h => h
    | h, .any => h
    | .deg c, .deg d => if c = d then .deg c else .bad
  | sub a b => match hom w a, hom w b with
    | .bad, _ => .bad
    | _, .bad => .bad
    | .any, h => h
    | h, .any => h
    | .deg c, .deg d => if c = d then .deg c else .bad
  | mul a b => match hom w a, hom w b with
    | .deg c, .deg d => .deg (c + d)
    | _, _ => .bad

theorem grid {G : ℕ} {x : ι → Flt f} (hx : ∀ i, (x i).OnGrid G) (e : Ex ι) (h : (evalF x e).IsFin) :
    ∃ z : ℤ, (evalF x e).toReal = z * (2 : ℝ) ^ (-((G * deg e : ℕ) : ℤ)) := by
  have lift : ∀ {r : ℝ} {m n : ℕ}, m ≤ n → (∃ z : ℤ, r = z * (2 : ℝ) ^ (-((G * m : ℕ) : ℤ))) →
      ∃ z : ℤ, r = z * (2 : ℝ) ^ (-((G * n : ℕ) : ℤ)) := by
    rintro r m n hmn ⟨z, rfl⟩
    obtain ⟨l, rfl⟩ := Nat.exists_eq_add_of_le hmn
    refine ⟨z * 2 ^ (G * l), ?_⟩
    rw [Nat.mul_add]
    push_cast
    rw [mul_assoc, ← zpow_natCast (2 : ℝ) (G * l), ← zpow_add₀ (by norm_num)]
    congr 2
    push_cast
    ring
  have rs : ∀ {s : Bool} {r : ℝ} {m : ℤ}, (∃ z : ℤ, r = z * (2 : ℝ) ^ m) →
      ∃ z : ℤ, Flt.sgn s (f.rnd |r|) = z * (2 : ℝ) ^ m := by
    rintro s r m ⟨z, hz⟩
    have hm : (0 : ℝ) < (2 : ℝ) ^ m := by positivity
    obtain ⟨n, hn⟩ := f.rnd_grid (x := |r|) (m := m) (n := |z|) (by
      rw [hz, abs_mul, abs_of_pos hm]; push_cast; rfl)
    cases s
    · exact ⟨n, hn⟩
    · refine ⟨-n, ?_⟩
      change -f.rnd |r| = _
      rw [hn]; push_cast; ring
  have addg : ∀ {a b : Flt f} {m : ℤ}, (a + b).IsFin → (∃ z : ℤ, a.toReal = z * (2 : ℝ) ^ m) →
      (∃ z : ℤ, b.toReal = z * (2 : ℝ) ^ m) → ∃ z : ℤ, (a + b).toReal = z * (2 : ℝ) ^ m := by
    rintro a b m h ⟨z, hz⟩ ⟨w, hw⟩
    obtain ⟨ha, hb⟩ := Flt.isFin_of_add h
    rcases a with _ | s | ⟨s, x, hx⟩
    · exact absurd ha id
    · exact absurd ha id
    rcases b with _ | t | ⟨t, y, hy⟩
    · exact absurd hb id
    · exact absurd hb id
    change (Flt.ofReal f (s && t) (Flt.sgn s x + Flt.sgn t y)).IsFin at h
    change Flt.sgn s x = _ at hz
    change Flt.sgn t y = _ at hw
    change ∃ q : ℤ, (Flt.ofReal f (s && t) (Flt.sgn s x + Flt.sgn t y)).toReal = _
    rw [Flt.toReal_ofReal h]
    exact rs ⟨z + w, by rw [hz, hw]; push_cast; ring⟩
  induction e with
  | var i =>
    obtain ⟨z, hz⟩ := (hx i).2
    exact ⟨z, by rw [deg, mul_one]; exact hz⟩
  | zero => exact ⟨0, by simp [evalF]⟩
  | one => exact ⟨1, by simp [evalF, deg]⟩
  | neg a iha =>
    obtain ⟨z, hz⟩ := iha (Flt.isFin_neg.1 h)
    exact ⟨-z, by rw [evalF, Flt.toReal_neg, hz, deg]; push_cast; ring⟩
  | add a b iha ihb =>
    obtain ⟨h1, h2⟩ := Flt.isFin_of_add h
    have hd : deg (add a b) = max (deg a) (deg b) := by rw [deg]; split <;> omega
    rw [hd]
    exact addg h (lift (le_max_left _ _) (iha h1)) (lift (le_max_right _ _) (ihb h2))
  | sub a b iha ihb =>
    obtain ⟨h1, h2⟩ := Flt.isFin_of_sub h
    have hd : deg (sub a b) = max (deg a) (deg b) := by rw [deg]; split <;> omega
    rw [hd]
    refine addg (b := -evalF x b) h (lift (le_max_left _ _) (iha h1)) ?_
    obtain ⟨z, hz⟩ := lift (le_max_right (deg a) _) (ihb h2)
    exact ⟨-z, by rw [Flt.toReal_neg, hz]; push_cast; ring⟩
  | mul a b iha ihb =>
    obtain ⟨h1, h2⟩ := Flt.isFin_of_mul h
    obtain ⟨z, hz⟩ := iha h1
    obtain ⟨w, hw⟩ := ihb h2
    rw [evalF] at h ⊢
    generalize evalF x a = A at *
    generalize evalF x b = B at *
    rcases A with _ | s | ⟨s, x, hx⟩
    · exact absurd h1 id
    · exact absurd h1 id
    rcases B with _ | t | ⟨t, y, hy⟩
    · exact absurd h2 id
    · exact absurd h2 id
    change (Flt.pack f (s != t) (x * y)).IsFin at h
    obtain ⟨hr, e⟩ := Flt.pack_fin h
    change ∃ q : ℤ, (Flt.pack f (s != t) (x * y)).toReal = _
    rw [e]
    change ∃ q : ℤ, Flt.sgn (s != t) (f.rnd (x * y)) = _
    rw [← abs_of_nonneg (mul_nonneg hx.nonneg hy.nonneg)]
    refine rs ?_
    change Flt.sgn s x = _ at hz
    change Flt.sgn t y = _ at hw
    have e1 : Flt.sgn s x * Flt.sgn t y = ((z * w : ℤ) : ℝ) * (2 : ℝ) ^ (-((G * deg (mul a b) : ℕ) : ℤ)) := by
      rw [hz, hw, deg, Nat.mul_add]
      push_cast
      rw [neg_add, zpow_add₀ (by norm_num)]
      ring
    rw [← Flt.sgn_xor] at e1
    cases hst : (s != t)
    · rw [hst] at e1; exact ⟨_, e1⟩
    · rw [hst] at e1
      refine ⟨-(z * w), ?_⟩
      have e2 : -(x * y) = _ := e1
      rw [← neg_neg (x * y), e2]
      push_cast
      ring

theorem norm_of_grid {r : ℝ} {m : ℕ} (hm : f.emin ≤ -(m : ℤ)) (h : ∃ z : ℤ, r = z * (2 : ℝ) ^ (-(m : ℤ))) :
    f.Norm r := by
  obtain ⟨z, rfl⟩ := h
  have hpos : (0 : ℝ) < (2 : ℝ) ^ (-(m : ℤ)) := by positivity
  by_cases hz : z = 0
  · left; simp [hz]
  · right
    rw [abs_mul, abs_of_pos hpos]
    have h1 : (1 : ℝ) ≤ |(z : ℝ)| := by
      have := Int.one_le_abs hz
      exact_mod_cast this
    calc (2 : ℝ) ^ f.emin ≤ (2 : ℝ) ^ (-(m : ℤ)) := zpow_le_zpow_right₀ (by norm_num) hm
      _ ≤ _ := le_mul_of_one_le_left hpos.le h1

/-- The exponent of the scale of degree `d`. -/
def ex (j k : ℤ) (d : ℤ × ℤ) : ℤ := d.1 * j + d.2 * k

/-- Scaling the variables by powers of two according to their weights scales the computed value of a homogeneous
expression according to its degree, exactly. -/
theorem scaled {G : ℕ} {w : ι → ℤ × ℤ} {l k : ℤ} {x y : ι → Flt f} (hs : ∀ i, Flt.Scaled (ex l k (w i)) (x i) (y i))
    (hx : ∀ i, (x i).OnGrid G) (hy : ∀ i, (y i).OnGrid G) (e : Ex ι) (hG : f.emin ≤ -((G * deg e : ℕ) : ℤ))
    (h1 : (evalF x e).IsFin) (h2 : (evalF y e).IsFin) :
    (∀ d, hom w e = .deg d → Flt.Scaled (ex l k d) (evalF x e) (evalF y e)) ∧
      (hom w e = .any → ∀ j, Flt.Scaled j (evalF x e) (evalF y e)) := by
  have mono : ∀ {m n : ℕ}, m ≤ n → f.emin ≤ -((G * n : ℕ) : ℤ) → f.emin ≤ -((G * m : ℕ) : ℤ) := by
    intro m n h h'
    have := Nat.mul_le_mul_left G h
    omega
  induction e with
  | var i =>
    refine ⟨fun d h => ?_, fun h => by simp [hom] at h⟩
    simp only [hom, Hom.deg.injEq] at h
    rw [← h]; exact hs i
  | zero => exact ⟨fun d h => by simp [hom] at h, fun _ j => Flt.Scaled.zero⟩
  | one =>
    refine ⟨fun d h => ?_, fun h => by simp [hom] at h⟩
    simp only [hom, Hom.deg.injEq] at h
    rw [← h, show ex l k 0 = 0 by simp [ex]]
    exact Flt.Scaled.refl trivial
  | neg a iha =>
    have := iha hG (Flt.isFin_neg.1 h1) (Flt.isFin_neg.1 h2)
    exact ⟨fun d h => (this.1 d h).neg, fun h j => (this.2 h j).neg⟩
  | add a b iha ihb =>
    obtain ⟨p1, q1⟩ := Flt.isFin_of_add h1
    obtain ⟨p2, q2⟩ := Flt.isFin_of_add h2
    have hd : deg (add a b) = max (deg a) (deg b) := by rw [deg]; split <;> omega
    have ha := iha (mono (by omega) hG) p1 p2
    have hb := ihb (mono (by omega) hG) q1 q2
    rcases ea : hom w a with _ | _ | c <;> rcases eb : hom w b with _ | _ | c'
    all_goals
      refine ⟨fun d h => ?_, fun h j => ?_⟩
      all_goals simp only [hom, ea, eb] at h
    all_goals first
      | exact Hom.noConfusion h
      | exact (ha.2 ea j).add (hb.2 eb j) h1 h2
      | exact (ha.2 ea _).add (hb.1 d (eb.trans h)) h1 h2
      | exact (ha.1 d (ea.trans h)).add (hb.2 eb _) h1 h2
      | (split_ifs at h; done)
      | (split_ifs at h with hc
         subst hc
         first
         | exact (ha.1 d (ea.trans h)).add (hb.1 d (eb.trans h)) h1 h2
         | exact Hom.noConfusion h)
  | sub a b iha ihb =>
    obtain ⟨p1, q1⟩ := Flt.isFin_of_sub h1
    obtain ⟨p2, q2⟩ := Flt.isFin_of_sub h2
    have hd : deg (sub a b) = max (deg a) (deg b) := by rw [deg]; split <;> omega
    have ha := iha (mono (by omega) hG) p1 p2
    have hb := ihb (mono (by omega) hG) q1 q2
    rcases ea : hom w a with _ | _ | c <;> rcases eb : hom w b with _ | _ | c'
    all_goals
      refine ⟨fun d h => ?_, fun h j => ?_⟩
      all_goals simp only [hom, ea, eb] at h
    all_goals first
      | exact Hom.noConfusion h
      | exact (ha.2 ea j).sub (hb.2 eb j) h1 h2
      | exact (ha.2 ea _).sub (hb.1 d (eb.trans h)) h1 h2
      | exact (ha.1 d (ea.trans h)).sub (hb.2 eb _) h1 h2
      | (split_ifs at h; done)
      | (split_ifs at h with hc
         subst hc
         first
         | exact (ha.1 d (ea.trans h)).sub (hb.1 d (eb.trans h)) h1 h2
         | exact Hom.noConfusion h)
  | mul a b iha ihb =>
    obtain ⟨p1, q1⟩ := Flt.isFin_of_mul h1
    obtain ⟨p2, q2⟩ := Flt.isFin_of_mul h2
    have hd : deg (mul a b) = deg a + deg b := rfl
    have ha := iha (mono (by omega) hG) p1 p2
    have hb := ihb (mono (by omega) hG) q1 q2
    have gn : ∀ {x : ι → Flt f}, (∀ i, (x i).OnGrid G) → (evalF x a).IsFin → (evalF x b).IsFin →
        f.Norm ((evalF x a).toReal * (evalF x b).toReal) := by
      intro x hx h1 h2
      obtain ⟨z, hz⟩ := grid hx a h1
      obtain ⟨v, hv⟩ := grid hx b h2
      refine norm_of_grid hG ⟨z * v, ?_⟩
      rw [hz, hv, hd, Nat.mul_add]
      push_cast
      rw [neg_add, zpow_add₀ (by norm_num)]
      ring
    rcases ea : hom w a with _ | _ | c <;> rcases eb : hom w b with _ | _ | c'
    all_goals
      refine ⟨fun d h => ?_, fun h j => ?_⟩
      all_goals simp only [hom, ea, eb] at h
    all_goals first
      | exact Hom.noConfusion h
      | (simp only [Hom.deg.injEq] at h
         rw [← h, show ex l k (c + c') = ex l k c + ex l k c' by simp only [ex, Prod.fst_add, Prod.snd_add]; ring]
         exact (ha.1 c ea).mul (hb.1 c' eb) h1 h2 (gn hx p1 q1) (gn hy p2 q2))

end Ex
end StaticMath
