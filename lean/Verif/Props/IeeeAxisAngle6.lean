import Verif.Props.IeeeSlices
import Verif.Props.IeeeQuatTrig

/-!
# C159: screw axis of a twist, sums and multiples of dual quaternions in floating point
-/

namespace StaticMath
open Flt Quaternion

variable {f : Fmt}

private theorem k4 (hp : 8 ≤ f.p) : (1 + f.u) ^ 4 - 1 ≤ 403 / 100 * f.u := by
  have hu := Fmt.u_le_of_p hp
  have hu0 := f.u_pos
  have h2 : f.u * f.u ≤ 1 / 256 * f.u := mul_le_mul_of_nonneg_right hu hu0.le
  have h3 : f.u * f.u * f.u ≤ 1 / 256 * f.u * (1 / 256) := mul_le_mul h2 hu hu0.le (by positivity)
  have h4 : f.u * f.u * f.u * f.u ≤ 1 / 256 * f.u * (1 / 256) * (1 / 256) := mul_le_mul h3 hu hu0.le (by positivity)
  nlinarith

private theorem three (a b c : Flt f) [Libm f] (hp : 8 ≤ f.p) (h : (slice_norm2 [a, b, c]).IsFin)
    (ha : a.toReal = 0 ∨ (2 : ℝ) ^ f.emin ≤ a.toReal ^ 2) (hb : b.toReal = 0 ∨ (2 : ℝ) ^ f.emin ≤ b.toReal ^ 2)
    (hc : c.toReal = 0 ∨ (2 : ℝ) ^ f.emin ≤ c.toReal ^ 2) :
    0 ≤ (slice_norm2 [a, b, c]).toReal ∧
    |(slice_norm2 [a, b, c]).toReal - √(a.toReal ^ 2 + b.toReal ^ 2 + c.toReal ^ 2)| ≤
      403 / 100 * f.u * √(a.toReal ^ 2 + b.toReal ^ 2 + c.toReal ^ 2) := by
  obtain ⟨h1, h2⟩ := (C147_slice_norm2 [a, b, c]).2 h (by simp [ha, hb, hc])
  simp only [List.map_cons, List.map_nil, List.sum_cons, List.sum_nil, List.length_cons, List.length_nil, add_zero, ← add_assoc] at h2
  exact ⟨h1, h2.trans (mul_le_mul_of_nonneg_right (k4 hp) (Real.sqrt_nonneg _))⟩

private theorem mul0 {a b : Flt f} (ha : a.IsFin ∧ a.toReal = 0) (hb : b.IsFin) : (a * b).IsFin ∧ (a * b).toReal = 0 := by
  obtain ⟨ha, h0⟩ := ha
  rcases a with _ | s | ⟨s, x, hx⟩
  · exact absurd ha id
  · exact absurd ha id
  rcases b with _ | t | ⟨t, y, hy⟩
  · exact absurd hb id
  · exact absurd hb id
  have hx0 : x = 0 := sgn_eq_zero.1 h0
  have e : (fin s x hx * fin t y hy : Flt f) = fin (s != t) 0 f.rep_zero := by
    change pack f (s != t) (x * y) = _
    rw [hx0, zero_mul]
    exact pack_rep f.rep_zero
  rw [e]
  exact ⟨trivial, sgn_eq_zero.2 rfl⟩

private theorem div0 {a b : Flt f} (ha : a.IsFin ∧ a.toReal = 0) (hb : b.IsFin) :
    (b.toReal ≠ 0 → (a / b).IsFin ∧ (a / b).toReal = 0) ∧ (b.toReal = 0 → a / b = nan) := by
  obtain ⟨ha, h0⟩ := ha
  rcases a with _ | s | ⟨s, x, hx⟩
  · exact absurd ha id
  · exact absurd ha id
  rcases b with _ | t | ⟨t, y, hy⟩
  · exact absurd hb id
  · exact absurd hb id
  have hx0 : x = 0 := sgn_eq_zero.1 h0
  have k : (fin t y hy : Flt f).toReal = 0 ↔ y = 0 := sgn_eq_zero
  rw [Ne, k]
  constructor
  · intro hy0
    have e : (fin s x hx / fin t y hy : Flt f) = fin (s != t) 0 f.rep_zero := by
      change (if y = 0 then _ else pack f (s != t) (x / y)) = _
      rw [if_neg hy0, hx0, zero_div]
      exact pack_rep f.rep_zero
    rw [e]
    exact ⟨trivial, sgn_eq_zero.2 rfl⟩
  · intro hy0
    change (if y = 0 then (if x = 0 then nan else inf (s != t)) else pack f (s != t) (x / y)) = _
    rw [if_pos hy0, if_pos hx0]

private theorem norm0 [Libm f] {a b c : Flt f} (ha : a.IsFin ∧ a.toReal = 0) (hb : b.IsFin ∧ b.toReal = 0) (hc : c.IsFin ∧ c.toReal = 0) :
    (slice_norm2 [a, b, c]).IsFin ∧ (slice_norm2 [a, b, c]).toReal = 0 := by
  have add {x y : Flt f} (hx : x.IsFin ∧ x.toReal = 0) (hy : y.IsFin ∧ y.toReal = 0) : (x + y).IsFin ∧ (x + y).toReal = 0 := by
    have := add_zero_val hx.1 hy.1 hy.2
    exact ⟨this.1, this.2.trans hx.2⟩
  have h := add (mul0 hc hc.1) (add (mul0 hb hb.1) (add (mul0 ha ha.1) ⟨isFin_zero, toReal_zero⟩))
  exact sqrt_zero_val h.1 h.2

private theorem norm_fin [Libm f] {a b c : Flt f} (h : (slice_norm2 [a, b, c]).IsFin) : a.IsFin ∧ b.IsFin ∧ c.IsFin := by
  have h1 : (c * c + (b * b + (a * a + 0))).IsFin := by
    change (sqrt (c * c + (b * b + (a * a + 0)))).IsFin at h
    generalize c * c + (b * b + (a * a + 0)) = r at *
    rcases r with _ | s | ⟨s, x, hx⟩
    · exact h
    · cases s <;> exact h
    · trivial
  obtain ⟨hc, h2⟩ := isFin_of_add h1
  obtain ⟨hb, h3⟩ := isFin_of_add h2
  exact ⟨(isFin_of_mul (isFin_of_add h3).1).1, (isFin_of_mul hb).1, (isFin_of_mul hc).1⟩

/-- A twist divided by the computed length of a triple. -/
private theorem part [Libm f] (hp : 8 ≤ f.p) (V : Vec 6 (Flt f)) (a b c : Flt f) (h : (slice_norm2 [a, b, c]).IsFin)
    (ha : a.toReal = 0 ∨ (2 : ℝ) ^ f.emin ≤ a.toReal ^ 2) (hb : b.toReal = 0 ∨ (2 : ℝ) ^ f.emin ≤ b.toReal ^ 2)
    (hc : c.toReal = 0 ∨ (2 : ℝ) ^ f.emin ≤ c.toReal ^ 2) (h0 : 0 < √(a.toReal ^ 2 + b.toReal ^ 2 + c.toReal ^ 2)) (i : Fin 6)
    (hi : (V6.sdiv V (slice_norm2 [a, b, c]) i).IsFin) :
    |(V6.sdiv V (slice_norm2 [a, b, c]) i).toReal * (slice_norm2 [a, b, c]).toReal - (V i).toReal| ≤
      f.u * |(V i).toReal| + f.eta * (slice_norm2 [a, b, c]).toReal ∧
    |(V6.sdiv V (slice_norm2 [a, b, c]) i).toReal - (V i).toReal / √(a.toReal ^ 2 + b.toReal ^ 2 + c.toReal ^ 2)| ≤
      26 / 5 * f.u * (|(V i).toReal| / √(a.toReal ^ 2 + b.toReal ^ 2 + c.toReal ^ 2)) + f.eta := by
  obtain ⟨t0, t1⟩ := three a b c hp h ha hb hc
  have hu := Fmt.u_le_of_p hp
  have hu0 := f.u_pos
  rw [V6.sdiv_apply] at hi ⊢
  obtain ⟨d0, d1⟩ := div_err h hi
  have tp : 0 < (slice_norm2 [a, b, c]).toReal := lt_of_le_of_ne t0 (Ne.symm d0)
  generalize √(a.toReal ^ 2 + b.toReal ^ 2 + c.toReal ^ 2) = N at *
  constructor
  · generalize slice_norm2 [a, b, c] = r at *
    have e : (V i / r).toReal * r.toReal - (V i).toReal = ((V i / r).toReal - (V i).toReal / r.toReal) * r.toReal := by
      rw [sub_mul, div_mul_cancel₀ _ d0]
    have e2 : |(V i).toReal| = |(V i).toReal / r.toReal| * r.toReal := by
      rw [abs_div, abs_of_pos tp, div_mul_cancel₀ _ d0]
    rw [e, abs_mul, abs_of_pos tp, e2]
    calc _ ≤ (f.u * |(V i).toReal / r.toReal| + f.eta) * r.toReal := mul_le_mul_of_nonneg_right d1 tp.le
      _ = _ := by ring
  · have g := unit_err (w := (V i / slice_norm2 [a, b, c]).toReal) h0 (by linarith : 403 / 100 * f.u < 1) h t1 hi rfl
    refine g.trans ?_
    have : (403 / 100 * f.u + f.u) / (1 - 403 / 100 * f.u) ≤ 26 / 5 * f.u := by
      rw [div_le_iff₀ (by linarith)]
      nlinarith
    have := mul_le_mul_of_nonneg_right this (by positivity : 0 ≤ |(V i).toReal| / N)
    linarith

/-- **C159.** The screw axis and angle of a float twist whose rotation part is longer than the machine epsilon `2u`: the angle is the
length of the rotation part, the axis is the twist divided by it, axis times angle gives the twist back. -/
theorem C159_rotation [Libm f] (hp : 8 ≤ f.p) (V : Vec 6 (Flt f)) (hf : (slice_norm2 [V 0, V 1, V 2]).IsFin)
    (hn : ∀ i, i = 0 ∨ i = 1 ∨ i = 2 → (V i).toReal = 0 ∨ (2 : ℝ) ^ f.emin ≤ (V i).toReal ^ 2)
    (N : ℝ) (hN : N = √((V 0).toReal ^ 2 + (V 1).toReal ^ 2 + (V 2).toReal ^ 2)) (h0 : 2 * f.u * (1 + 41 / 10 * f.u) ≤ N) :
    let r := axis_angle6 V
    r.2.IsFin ∧ |r.2.toReal - N| ≤ 403 / 100 * f.u * N ∧
    ∀ i, (r.1 i).IsFin →
      |(r.1 i).toReal * r.2.toReal - (V i).toReal| ≤ f.u * |(V i).toReal| + f.eta * r.2.toReal ∧
      |(r.1 i).toReal - (V i).toReal / N| ≤ 26 / 5 * f.u * (|(V i).toReal| / N) + f.eta := by
  intro r
  have hu := Fmt.u_le_of_p hp
  have hu0 := f.u_pos
  have t := three _ _ _ hp hf (hn 0 (by simp)) (hn 1 (by simp)) (hn 2 (by simp))
  have hNp : 0 < N := lt_of_lt_of_le (by positivity) h0
  have br : ¬ nearly_zero (slice_norm2 [V 0, V 1, V 2]) = true := by
    rw [nearly_zero_flt, not_and, not_lt]
    intro _
    have e : (2 : ℝ) ^ (1 - (f.p : ℤ)) = 2 * f.u := by
      unfold Fmt.u
      rw [sub_eq_add_neg, zpow_add₀ (by norm_num), zpow_one]
    rw [e, abs_of_nonneg t.1]
    have := (_root_.abs_le.1 t.2).1
    rw [← hN] at this
    have h1 : (1 - 403 / 100 * f.u) * (2 * f.u * (1 + 41 / 10 * f.u)) ≤ (1 - 403 / 100 * f.u) * N :=
      mul_le_mul_of_nonneg_left h0 (by linarith)
    have h2 : 0 ≤ f.u * (f.u * (1 / 256 - f.u)) := by
      have : 0 ≤ 1 / 256 - f.u := by linarith
      positivity
    nlinarith
  have e : r = (V6.sdiv V (slice_norm2 [V 0, V 1, V 2]), slice_norm2 [V 0, V 1, V 2]) := by
    change axis_angle6 V = _
    unfold axis_angle6
    rw [if_neg br]
  rw [e]
  refine ⟨hf, ?_, fun i hi => ?_⟩
  · rw [hN]; exact t.2
  · have := part hp V _ _ _ hf (hn 0 (by simp)) (hn 1 (by simp)) (hn 2 (by simp)) (by rw [← hN]; exact hNp) i hi
    rw [← hN] at this
    exact this

/-- **C159.** The screw axis and angle of a float twist whose rotation part is zero: the angle is the length of the translation part, the
axis has exactly zero rotation part, and axis times angle gives the twist back; the zero twist gives angle zero and an axis of NaN. -/
theorem C159_translation [Libm f] (hp : 8 ≤ f.p) (V : Vec 6 (Flt f)) (hz : ∀ i, i = 0 ∨ i = 1 ∨ i = 2 → (V i).IsFin ∧ (V i).toReal = 0)
    (hf : (slice_norm2 [V 3, V 4, V 5]).IsFin)
    (hn : ∀ i, i = 3 ∨ i = 4 ∨ i = 5 → (V i).toReal = 0 ∨ (2 : ℝ) ^ f.emin ≤ (V i).toReal ^ 2)
    (N : ℝ) (hN : N = √((V 3).toReal ^ 2 + (V 4).toReal ^ 2 + (V 5).toReal ^ 2)) :
    let r := axis_angle6 V
    r.2.IsFin ∧ |r.2.toReal - N| ≤ 403 / 100 * f.u * N ∧
    (0 < N → (∀ i, i = 0 ∨ i = 1 ∨ i = 2 → (r.1 i).IsFin ∧ (r.1 i).toReal = 0) ∧
      ∀ i, (r.1 i).IsFin →
        |(r.1 i).toReal * r.2.toReal - (V i).toReal| ≤ f.u * |(V i).toReal| + f.eta * r.2.toReal ∧
        |(r.1 i).toReal - (V i).toReal / N| ≤ 26 / 5 * f.u * (|(V i).toReal| / N) + f.eta) ∧
    (N = 0 → r.2.toReal = 0 ∧ ∀ i, r.1 i = nan) := by
  intro r
  have hu := Fmt.u_le_of_p hp
  have hu0 := f.u_pos
  have hz0 := toReal_zero (f := f)
  have t := three _ _ _ hp hf (hn 3 (by simp)) (hn 4 (by simp)) (hn 5 (by simp))
  rw [← hN] at t
  have br : nearly_zero (slice_norm2 [V 0, V 1, V 2]) = true := by
    obtain ⟨z1, z2⟩ := norm0 (hz 0 (by simp)) (hz 1 (by simp)) (hz 2 (by simp))
    rw [nearly_zero_flt]
    exact ⟨z1, by rw [z2, abs_zero]; positivity⟩
  have e : r = (V6.sdiv V (slice_norm2 [V 3, V 4, V 5]), slice_norm2 [V 3, V 4, V 5]) := by
    change axis_angle6 V = _
    unfold axis_angle6
    rw [if_pos br]
  rw [e]
  refine ⟨hf, t.2, fun hp0 => ⟨fun i hi => ?_, fun i hi => ?_⟩, fun h0 => ?_⟩
  · have ht : (slice_norm2 [V 3, V 4, V 5]).toReal ≠ 0 := by
      have := (_root_.abs_le.1 t.2).1
      have h1 : 0 < (1 - 403 / 100 * f.u) * N := mul_pos (by linarith) hp0
      intro h
      linarith
    rw [V6.sdiv_apply]
    exact (div0 (hz i hi) hf).1 ht
  · have := part hp V _ _ _ hf (hn 3 (by simp)) (hn 4 (by simp)) (hn 5 (by simp)) (by rw [← hN]; exact hp0) i hi
    rw [← hN] at this
    exact this
  · rw [h0, mul_zero, sub_zero, abs_nonpos_iff] at t
    refine ⟨t.2, fun i => ?_⟩
    rw [V6.sdiv_apply]
    refine (div0 ?_ hf).2 t.2
    have q : (V 3).toReal ^ 2 + (V 4).toReal ^ 2 + (V 5).toReal ^ 2 = 0 := by
      rw [← Real.sqrt_eq_zero (by positivity), ← hN, h0]
    have s3 := sq_nonneg (V 3).toReal
    have s4 := sq_nonneg (V 4).toReal
    have s5 := sq_nonneg (V 5).toReal
    have fin := norm_fin hf
    have z3 : (V 3).toReal = 0 := (pow_eq_zero_iff two_ne_zero).1 (by linarith)
    have z4 : (V 4).toReal = 0 := (pow_eq_zero_iff two_ne_zero).1 (by linarith)
    have z5 : (V 5).toReal = 0 := (pow_eq_zero_iff two_ne_zero).1 (by linarith)
    fin_cases i
    · exact hz 0 (by simp)
    · exact hz 1 (by simp)
    · exact hz 2 (by simp)
    · exact ⟨fin.1, z3⟩
    · exact ⟨fin.2.1, z4⟩
    · exact ⟨fin.2.2, z5⟩

/-- The twist `(0, 0, 1, 1, 0, 0)` in double precision meets the hypotheses of `C159_rotation`, with angle one, and every component of
its axis is finite; the twist `(0, 0, 0, 0, 0, 1)` meets those of `C159_translation`. -/
example : let := correctLibm Fmt.f64
    let V : Vec 6 (Flt Fmt.f64) := ⟨![0, 0, 1, 1, 0, 0]⟩
    let W : Vec 6 (Flt Fmt.f64) := ⟨![0, 0, 0, 0, 0, 1]⟩
    (slice_norm2 [V 0, V 1, V 2]).IsFin ∧ √((V 0).toReal ^ 2 + (V 1).toReal ^ 2 + (V 2).toReal ^ 2) = 1 ∧
    (∀ i, ((axis_angle6 V).1 i).IsFin) ∧ (slice_norm2 [W 3, W 4, W 5]).IsFin := by
  let := correctLibm Fmt.f64
  intro _ V W
  have one := toReal_one (f := Fmt.f64)
  have zero := toReal_zero (f := Fmt.f64)
  have z : (0 : Flt Fmt.f64).IsFin ∧ (0 : Flt Fmt.f64).toReal = 0 := ⟨isFin_zero, zero⟩
  have o : (1 : Flt Fmt.f64).IsFin := trivial
  have zz := mul0 z z.1
  have h1 := add_zero_val zz.1 z.1 z.2
  have h2 := add_zero_val zz.1 h1.1 (h1.2.trans zz.2)
  have oo : ((1 : Flt Fmt.f64) * 1).IsFin ∧ ((1 : Flt Fmt.f64) * 1).toReal = 1 := by
    rw [mul_one']
    exact ⟨o, one⟩
  have h3 := add_zero_val oo.1 h2.1 (h2.2.trans zz.2)
  have h4 : (slice_norm2 [(0 : Flt Fmt.f64), 0, 1]).IsFin := (sqrt_rel h3.1 (by rw [h3.2, oo.2]; norm_num)).1
  have hN : √((V 0).toReal ^ 2 + (V 1).toReal ^ 2 + (V 2).toReal ^ 2) = 1 := by
    change √((0 : Flt Fmt.f64).toReal ^ 2 + (0 : Flt Fmt.f64).toReal ^ 2 + (1 : Flt Fmt.f64).toReal ^ 2) = 1
    rw [one, zero]; norm_num
  refine ⟨h4, hN, ?_, h4⟩
  have hu := Fmt.u_le_of_p Fmt.f64_wide.p
  have hu0 := Fmt.f64.u_pos
  have hn : ∀ i, i = 0 ∨ i = 1 ∨ i = 2 → (V i).toReal = 0 ∨ (2 : ℝ) ^ Fmt.f64.emin ≤ (V i).toReal ^ 2 := by
    rintro i (rfl | rfl | rfl)
    · exact Or.inl zero
    · exact Or.inl zero
    · right
      change _ ≤ (1 : Flt Fmt.f64).toReal ^ 2
      rw [one, one_pow]
      exact zpow_le_one_of_nonpos₀ (by norm_num) (by decide)
  obtain ⟨a1, a2, -⟩ := C159_rotation Fmt.f64_wide.p V h4 hn 1 hN.symm (by nlinarith)
  have e (i : Fin 6) : (axis_angle6 V).1 i = V i / (axis_angle6 V).2 := by
    unfold axis_angle6
    simp only []
    split <;> exact V6.sdiv_apply _ _ _
  intro i
  rw [e]
  have a3 := (_root_.abs_le.1 a2).1
  have a4 : 1 / 2 ≤ (axis_angle6 V).2.toReal := by linarith
  have vi : (V i).IsFin ∧ |(V i).toReal| ≤ 1 := by
    have h0 : (0 : Flt Fmt.f64).IsFin ∧ |(0 : Flt Fmt.f64).toReal| ≤ 1 := ⟨z.1, by rw [zero, abs_zero]; norm_num⟩
    have h1 : (1 : Flt Fmt.f64).IsFin ∧ |(1 : Flt Fmt.f64).toReal| ≤ 1 := ⟨o, by rw [one, abs_one]⟩
    fin_cases i
    exacts [h0, h0, h1, h1, h0, h0]
  refine div_isFin vi.1 a1 (by linarith) ?_
  have a5 : |(V i).toReal / (axis_angle6 V).2.toReal| ≤ 2 := by
    rw [abs_div, abs_of_pos (by linarith : 0 < (axis_angle6 V).2.toReal), div_le_iff₀ (by linarith)]
    linarith [vi.2]
  have a6 : (2 : ℝ) ^ (3 : ℤ) ≤ (2 : ℝ) ^ (Fmt.f64.emax + 1) := zpow_le_zpow_right₀ (by norm_num) (by decide)
  have a7 := mul_le_mul_of_nonneg_left a5 (by linarith : 0 ≤ 1 + Fmt.f64.u)
  have a8 : (2 : ℝ) ^ (3 : ℤ) = 8 := by norm_num
  linarith

/-- **C159.** Sums, differences and multiples of float dual quaternions: both parts have relative error at most `u`, multiples also
one underflow per component. -/
theorem C159_dual (x y : DQuat (Flt f)) (a : Flt f) (ha : a.IsFin) :
    ((∀ i, ((x.add y).real.comp i).IsFin ∧ ((x.add y).dual.comp i).IsFin) →
      ‖(x.add y).real.reH - (x.real.reH + y.real.reH)‖ ≤ f.u * ‖x.real.reH + y.real.reH‖ ∧
      ‖(x.add y).dual.reH - (x.dual.reH + y.dual.reH)‖ ≤ f.u * ‖x.dual.reH + y.dual.reH‖) ∧
    ((∀ i, ((x.sub y).real.comp i).IsFin ∧ ((x.sub y).dual.comp i).IsFin) →
      ‖(x.sub y).real.reH - (x.real.reH - y.real.reH)‖ ≤ f.u * ‖x.real.reH - y.real.reH‖ ∧
      ‖(x.sub y).dual.reH - (x.dual.reH - y.dual.reH)‖ ≤ f.u * ‖x.dual.reH - y.dual.reH‖) ∧
    ((∀ i, ((x.smul a).real.comp i).IsFin ∧ ((x.smul a).dual.comp i).IsFin) →
      ‖(x.smul a).real.reH - a.toReal • x.real.reH‖ ≤ f.u * ‖a.toReal • x.real.reH‖ + 2 * f.eta ∧
      ‖(x.smul a).dual.reH - a.toReal • x.dual.reH‖ ≤ f.u * ‖a.toReal • x.dual.reH‖ + 2 * f.eta) ∧
    (x.neg.real.reH = -x.real.reH ∧ x.neg.dual.reH = -x.dual.reH) :=
  ⟨fun h => ⟨(C158_add_sub _ _).1 fun i => (h i).1, (C158_add_sub _ _).1 fun i => (h i).2⟩,
    fun h => ⟨(C158_add_sub _ _).2 fun i => (h i).1, (C158_add_sub _ _).2 fun i => (h i).2⟩,
    fun h => ⟨(C158_scale _ a ha).2 fun i => (h i).1, (C158_scale _ a ha).2 fun i => (h i).2⟩, by
    constructor <;> ext <;> exact toReal_neg _⟩

/-- One plus one and one times one meet the hypotheses in every format. -/
example (i : Fin 4) : (((DQuat.one : DQuat (Flt f)).add DQuat.one).real.comp i).IsFin ∧
    (((DQuat.one : DQuat (Flt f)).add DQuat.one).dual.comp i).IsFin ∧
    (((DQuat.one : DQuat (Flt f)).smul 1).real.comp i).IsFin ∧ (((DQuat.one : DQuat (Flt f)).smul 1).dual.comp i).IsFin := by
  have h00 : ((0 : Flt f) + 0).IsFin := (add_zero_val isFin_zero isFin_zero toReal_zero).1
  have h11 : ((1 : Flt f) + 1).IsFin := (Near.two (f := f)).fin
  have o : ((0 : Flt f) * 1).IsFin := by rw [mul_one']; exact isFin_zero
  have p : ((1 : Flt f) * 1).IsFin := by rw [mul_one']; trivial
  fin_cases i
  exacts [⟨h11, h00, p, o⟩, ⟨h00, h00, o, o⟩, ⟨h00, h00, o, o⟩, ⟨h00, h00, o, o⟩]

end StaticMath
