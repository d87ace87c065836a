import Verif.Props.IeeeQuatNorm
import Verif.Props.IeeeCompare
import Verif.Props.IeeeScrew

/-!
# C150: normalising dual quaternions in floating point, and recognising normalised ones

`f.u = 2^-p` is the unit roundoff, `f.eta` half the smallest positive number.
-/

namespace StaticMath
open Flt Quaternion

section
variable {f : Fmt}

private theorem eps_val : (epsilon f).toReal = 2 * f.u := by
  change (2 : ℝ) ^ (1 - (f.p : ℤ)) = 2 * (2 : ℝ) ^ (-(f.p : ℤ))
  rw [sub_eq_add_neg, zpow_add₀ (by norm_num), zpow_one]

private theorem not_nearly_zero [Libm f] {a : Flt f} (h : 2 * f.u ≤ a.toReal) : nearly_zero a = false := by
  rw [Bool.eq_false_iff]
  intro hc
  have := ((nearly_zero_flt _).1 hc).2
  have e : (2 : ℝ) ^ (1 - (f.p : ℤ)) = 2 * f.u := eps_val
  rw [e] at this
  exact absurd ((le_abs_self _).trans_lt this) (not_lt.2 h)

/-- **C150.** `normalize` of an unflagged dual quaternion whose real part has norm at least `3u`, and neither overflows nor
underflows when squared: the result is flagged, its real part is the direction of the real part up to `5u`, and each
entry of its dual part is that of the argument divided by the norm of the real part, up to `5u` relatively. -/
theorem C150_normalize [Libm f] (hp : 8 ≤ f.p) (x : DQuat (Flt f)) (hflag : x.normalized = false)
    (hq : ∀ i, (x.q_real.comp i).IsFin) (h : x.q_real.norm2.IsFin) (h0 : 3 * f.u ≤ ‖x.q_real.reH‖)
    (hη : 16 * f.eta ≤ f.u * ‖x.q_real.reH‖ ^ 2) :
    ∃ r, x.normalize = some r ∧ r.normalized = true ∧ (∀ i, (r.q_real.comp i).IsFin) ∧
      ‖r.q_real.reH - ‖x.q_real.reH‖⁻¹ • x.q_real.reH‖ ≤ 5 * f.u ∧ |‖r.q_real.reH‖ - 1| ≤ 5 * f.u ∧
      ∀ i, (r.q_dual.comp i).IsFin → |(r.q_dual.comp i).toReal - (x.q_dual.comp i).toReal / ‖x.q_real.reH‖| ≤
        5 * f.u * (|(x.q_dual.comp i).toReal| / ‖x.q_real.reH‖) + f.eta := by
  have hu0 := f.u_pos
  have hu := Fmt.u_le_of_p hp
  have hM : 0 < ‖x.q_real.reH‖ := by linarith
  have h1 := Quat.norm2_near hp x.q_real h hM hη
  obtain ⟨h2, h3⟩ := Quat.sdiv_near_norm hp x.q_real hq hM h h1
  have hz : nearly_zero x.q_real.norm2 = false := by
    refine not_nearly_zero ?_
    have h4 := (_root_.abs_le.1 h1).1
    have h5 : f.u * ‖x.q_real.reH‖ ≤ 1 / 256 * ‖x.q_real.reH‖ := mul_le_mul_of_nonneg_right hu hM.le
    linarith
  have e : x.normalize = some ⟨x.q_real.sdiv x.q_real.norm2, x.q_dual.sdiv x.q_real.norm2, true⟩ := by
    unfold DQuat.normalize
    rw [if_neg (by rw [hflag]; decide)]
    dsimp only
    rw [hz]
    rfl
  refine ⟨_, e, rfl, h2, h3, ?_, fun i hi => ?_⟩
  · have hz : ‖‖x.q_real.reH‖⁻¹ • x.q_real.reH‖ = 1 := by
      rw [norm_smul, norm_inv, norm_norm, inv_mul_cancel₀ hM.ne']
    have := abs_norm_sub_norm_le (x.q_real.sdiv x.q_real.norm2).reH (‖x.q_real.reH‖⁻¹ • x.q_real.reH)
    rw [hz] at this
    exact this.trans h3
  · have k : (x.q_dual.sdiv x.q_real.norm2).comp i = x.q_dual.comp i / x.q_real.norm2 := by fin_cases i <;> rfl
    change ((x.q_dual.sdiv x.q_real.norm2).comp i).IsFin at hi
    change |((x.q_dual.sdiv x.q_real.norm2).comp i).toReal - _| ≤ _
    rw [k] at hi ⊢
    refine (unit_err hM (by linarith) h h1 hi rfl).trans ?_
    have k1 : (7 / 2 * f.u + f.u) / (1 - 7 / 2 * f.u) ≤ 5 * f.u := by
      rw [div_le_iff₀ (by linarith)]
      nlinarith
    have := mul_le_mul_of_nonneg_right k1 (div_nonneg (abs_nonneg (x.q_dual.comp i).toReal) hM.le)
    linarith

private theorem norm211 : 2 ≤ ‖q211.reH‖ ∧ ‖q211.reH‖ ≤ 3 := by
  have h : ‖q211.reH‖ ^ 2 = 6 := by
    rw [sq ‖q211.reH‖, ← Quaternion.normSq_eq_norm_mul_self, Quaternion.normSq_def']
    have e : (q211.q 2).toReal = 0 := by
      change sgn false ((0 : ℕ) : ℝ) = 0
      simp [sgn]
    change (sgn false ((2 : ℕ) : ℝ)) ^ 2 + (sgn false ((1 : ℕ) : ℝ)) ^ 2 + (sgn false ((1 : ℕ) : ℝ)) ^ 2 + (q211.q 2).toReal ^ 2 = 6
    rw [e]
    norm_num [sgn]
  have := norm_nonneg q211.reH
  constructor <;> nlinarith

/-- The hypotheses hold for the dual quaternion with real part and dual part `2 + i + j`. -/
example [Libm Fmt.f64] : ∃ r, (DQuat.new q211 q211).normalize = some r ∧ |‖r.q_real.reH‖ - 1| ≤ 5 * Fmt.f64.u := by
  obtain ⟨n1, n2⟩ := norm211
  have fin : ∀ i, (q211.comp i).IsFin := fun i => by fin_cases i <;> trivial
  have hu := Fmt.u_le_of_p Fmt.f64_wide.p
  obtain ⟨h1, h2⟩ := Quat.norm2_isFin Fmt.f64_wide q211 fin (by linarith) (by linarith)
  obtain ⟨r, r1, -, -, -, r2, -⟩ := C150_normalize Fmt.f64_wide.p (DQuat.new q211 q211) rfl fin h1 (by
    change _ ≤ ‖q211.reH‖; linarith) h2
  exact ⟨r, r1, r2⟩

/-- **C150.** A flagged dual quaternion is returned as it is, whatever its entries; an unflagged one whose real part has a
computed norm below `EPSILON` is rejected. -/
theorem C150_normalize_other [Libm f] (x : DQuat (Flt f)) :
    (x.normalized = true → x.normalize = some x) ∧
    (x.normalized = false → x.q_real.norm2.IsFin → |x.q_real.norm2.toReal| < 2 * f.u → x.normalize = none) := by
  refine ⟨fun h => by unfold DQuat.normalize; exact if_pos h, fun h h1 h2 => ?_⟩
  have hz : nearly_zero x.q_real.norm2 = true := (nearly_zero_flt _).2 ⟨h1, by
    have e : (2 : ℝ) ^ (1 - (f.p : ℤ)) = 2 * f.u := eps_val
    rwa [e]⟩
  unfold DQuat.normalize
  rw [if_neg (by rw [h]; decide)]
  dsimp only
  rw [hz]
  rfl

/-- **C150.** What `is_normalized` guarantees for an unflagged dual quaternion: either the computed norm of the real part is
below `EPSILON`, or it is within `5u` of 1, and so is the norm itself up to `9u` if its square does not underflow; and no entry
of the dual part is NaN. -/
theorem C150_is_normalized_sound [Libm f] (hp : 11 ≤ f.p) (x : DQuat (Flt f)) (hflag : x.normalized = false)
    (h : x.is_normalized = true) :
    x.q_real.norm2.IsFin ∧ (|x.q_real.norm2.toReal| < 2 * f.u ∨
      |x.q_real.norm2.toReal - 1| ≤ 5 * f.u ∧ (∀ i, x.q_dual.comp i ≠ nan) ∧
      (16 * f.eta ≤ f.u * ‖x.q_real.reH‖ ^ 2 → |‖x.q_real.reH‖ - 1| ≤ 9 * f.u)) := by
  have hu0 := f.u_pos
  have hu := Fmt.u_le_of_p (by linarith : 8 ≤ f.p)
  have e : (2 : ℝ) ^ (1 - (f.p : ℤ)) = 2 * f.u := eps_val
  unfold DQuat.is_normalized at h
  rw [if_neg (by rw [hflag]; decide)] at h
  by_cases hz : nearly_zero x.real.norm2 = true
  · have := (nearly_zero_flt _).1 hz
    rw [e] at this
    exact ⟨this.1, Or.inl this.2⟩
  rw [if_neg hz] at h
  dsimp only at h
  simp only [Bool.and_eq_true] at h
  obtain ⟨h1, ⟨⟨d0, d1⟩, d2⟩, d3⟩ := h
  obtain ⟨hf, h2⟩ := nearly_equal_one_flt hp _ h1
  refine ⟨hf, Or.inr ⟨h2, fun i hi => ?_, fun hη => ?_⟩⟩
  · have nn (a b : Flt f) (h : nearly_equal a b RFloat.epsilon = true) : b ≠ nan := by
      rintro rfl
      rw [(C34_nearly_equal_nan _ _).2] at h
      exact Bool.false_ne_true h
    fin_cases i
    exacts [nn _ _ d0 hi, nn _ _ d1 hi, nn _ _ d2 hi, nn _ _ d3 hi]
  · have hM : 0 < ‖x.q_real.reH‖ := by
      rcases (norm_nonneg x.q_real.reH).eq_or_lt with e | e
      · rw [← e] at hη
        have := f.eta_pos
        norm_num at hη; linarith
      · exact e
    have h3 := _root_.abs_le.1 (Quat.norm2_near (by linarith) x.q_real hf hM hη)
    have h4 := _root_.abs_le.1 h2
    change -(5 * f.u) ≤ x.q_real.norm2.toReal - 1 ∧ x.q_real.norm2.toReal - 1 ≤ 5 * f.u at h4
    have h5 : f.u * ‖x.q_real.reH‖ ≤ 1 / 256 * ‖x.q_real.reH‖ := mul_le_mul_of_nonneg_right hu hM.le
    have h6 : ‖x.q_real.reH‖ ≤ 104 / 100 := by linarith
    have h7 : f.u * ‖x.q_real.reH‖ ≤ f.u * (104 / 100) := mul_le_mul_of_nonneg_left h6 hu0.le
    rw [_root_.abs_le]
    constructor <;> linarith

private theorem near_quot {n d c u η : ℝ} (hu0 : 0 < u) (hu : u ≤ 1 / 256) (hn : |n - 1| ≤ 2 * u)
    (hd : 8 * η ≤ u * |d|) (h : |c - d / n| ≤ u * |d / n| + η) : |c - d| ≤ 63 / 20 * u * |d| := by
  obtain ⟨n1, n2⟩ := _root_.abs_le.1 hn
  have n0 : 0 < n := by linarith
  have e1 : d / n - d = (1 - n) / n * d := by field_simp
  have e2 : |(1 - n) / n| ≤ 2017 / 1000 * u := by
    rw [abs_div, abs_sub_comm, abs_of_pos n0, div_le_iff₀ n0]
    nlinarith
  have d0 := abs_nonneg d
  have e3 : |d / n - d| ≤ 2017 / 1000 * u * |d| := by
    rw [e1, abs_mul]
    exact mul_le_mul_of_nonneg_right e2 d0
  have e4 := abs_sub_abs_le_abs_sub (d / n) d
  have e5 := abs_sub_le c (d / n) d
  have e6 : u * |d| ≤ 1 / 256 * |d| := mul_le_mul_of_nonneg_right hu d0
  have e7 : u * |d / n| ≤ u * (1008 / 1000 * |d|) := mul_le_mul_of_nonneg_left (by linarith) hu0.le
  linarith

private theorem near_same [Libm f] (hp : 8 ≤ f.p) {n d : Flt f} (hn : n.IsFin) (h1 : |n.toReal - 1| ≤ 2 * f.u) (hd : d.IsFin)
    (h : d.toReal = 0 ∨ 8 * f.eta ≤ f.u * |d.toReal| ∧ |d.toReal| ≤ (2 : ℝ) ^ (f.emax - 1)) :
    nearly_equal (d / n) d RFloat.epsilon = true := by
  have hu0 := f.u_pos
  have hu := Fmt.u_le_of_p hp
  have hη := Fmt.eta_small hp
  have hη0 := f.eta_pos
  obtain ⟨n1, n2⟩ := _root_.abs_le.1 h1
  have n0 : 0 < n.toReal := by linarith
  rcases h with h | ⟨h, hm⟩
  · have hb : ROrd.beq (d / n) d = true := by
      have hf : (d / n).IsFin := div_isFin hd hn n0.ne' (by rw [h, zero_div, abs_zero, mul_zero]; positivity)
      have hd0 : (d / n).toReal = 0 := by
        rcases n with _ | t | ⟨t, y, hy⟩
        · exact absurd hn id
        · exact absurd hn id
        rcases d with _ | s | ⟨s, z, hzz⟩
        · exact absurd hd id
        · exact absurd hd id
        have z0 : z = 0 := sgn_eq_zero.1 h
        have y0 : y ≠ 0 := by
          rintro rfl
          exact n0.ne' (sgn_eq_zero.2 rfl)
        subst z0
        have e : (fin s 0 hzz / fin t y hy : Flt f) = fin (s != t) 0 f.rep_zero := by
          change (open Classical in if y = 0 then _ else pack f (s != t) (0 / y)) = _
          rw [if_neg y0, zero_div]
          exact pack_rep f.rep_zero
        rw [e]
        exact sgn_eq_zero.2 rfl
      rw [beq_iff hf hd, hd0, h]
    unfold nearly_equal
    dsimp only
    rw [if_pos hb]
  have hd0 : 0 < |d.toReal| := by
    rcases (abs_nonneg d.toReal).eq_or_lt with e | e
    · rw [← e] at h; linarith
    · exact e
  have hq : |d.toReal / n.toReal| ≤ 102 / 100 * |d.toReal| := by
    rw [abs_div, abs_of_pos n0, div_le_iff₀ n0]
    have : |d.toReal| * (99 / 100) ≤ |d.toReal| * n.toReal := mul_le_mul_of_nonneg_left (by linarith) hd0.le
    linarith
  have hE : (2 : ℝ) ^ (f.emax + 1) = 4 * (2 : ℝ) ^ (f.emax - 1) := by
    rw [show f.emax + 1 = 2 + (f.emax - 1) by ring, zpow_add₀ (by norm_num)]; norm_num
  have hE0 : (0 : ℝ) < (2 : ℝ) ^ (f.emax - 1) := by positivity
  have hf : (d / n).IsFin := div_isFin hd hn n0.ne' (by
    rw [hE]
    have := mul_le_mul (by linarith : 1 + f.u ≤ 102 / 100) hq (abs_nonneg _) (by norm_num)
    linarith)
  have key := near_quot hu0 hu h1 h (div_err hn hf).2
  have k1 : f.u * |d.toReal| ≤ 1 / 256 * |d.toReal| := mul_le_mul_of_nonneg_right hu hd0.le
  have k2 := abs_sub_abs_le_abs_sub d.toReal (d / n).toReal
  rw [abs_sub_comm d.toReal] at k2
  have k3 := abs_sub_abs_le_abs_sub (d / n).toReal d.toReal
  have k4 : 98 / 100 * |d.toReal| ≤ |(d / n).toReal| := by linarith
  refine C125_nearly_equal_complete (d / n) d (epsilon f) trivial hf hd (abs_pos.1 (by linarith)) (abs_pos.1 hd0) ?_ ?_
  · rw [hE]
    have := mul_le_mul (by linarith : 1 + f.u ≤ 102 / 100) (by linarith : |(d / n).toReal| + |d.toReal| ≤ 203 / 100 * |d.toReal|)
      (by positivity) (by norm_num)
    linarith
  · rw [eps_val]
    have a1 : (1 + f.u) ^ 2 * |(d / n).toReal - d.toReal| ≤ 102 / 100 * (63 / 20 * f.u * |d.toReal|) :=
      mul_le_mul (by nlinarith) key (abs_nonneg _) (by norm_num)
    have a2 : 99 / 100 * (198 / 100 * |d.toReal|) ≤ (1 - f.u) * (|(d / n).toReal| + |d.toReal|) :=
      mul_le_mul (by linarith) (by linarith) (by positivity) (by linarith)
    have a3 : 198 / 100 * f.u * (99 / 100 * (198 / 100 * |d.toReal|)) ≤ (2 * f.u - f.eta) * ((1 - f.u) * (|(d / n).toReal| + |d.toReal|)) :=
      mul_le_mul (by linarith) a2 (by positivity) (by linarith)
    have a4 : 0 < f.u * |d.toReal| := by positivity
    linarith

/-- **C150.** Conversely `is_normalized` accepts every dual quaternion the computed norm of whose real part is within `2u` of 1,
if the entries of the dual part are zero, or neither nearly subnormal nor nearly overflowing. -/
theorem C150_is_normalized_complete [Libm f] (hp : 8 ≤ f.p) (x : DQuat (Flt f)) (hn : x.q_real.norm2.IsFin)
    (h1 : |x.q_real.norm2.toReal - 1| ≤ 2 * f.u)
    (hd : ∀ i, (x.q_dual.comp i).IsFin ∧ ((x.q_dual.comp i).toReal = 0 ∨
      8 * f.eta ≤ f.u * |(x.q_dual.comp i).toReal| ∧ |(x.q_dual.comp i).toReal| ≤ (2 : ℝ) ^ (f.emax - 1))) :
    x.is_normalized = true := by
  have hu0 := f.u_pos
  have hu := Fmt.u_le_of_p hp
  have hη := Fmt.eta_small hp
  have hη0 := f.eta_pos
  obtain ⟨n1, n2⟩ := _root_.abs_le.1 h1
  have c1 : nearly_equal x.q_real.norm2 1 RFloat.epsilon = true := by
    refine C125_nearly_equal_complete _ 1 (epsilon f) trivial hn trivial (by linarith) (by rw [toReal_one]; norm_num) ?_ ?_
    · rw [toReal_one, abs_one, abs_of_pos (by linarith)]
      have := Fmt.range_of_p hp (x := x.q_real.norm2.toReal + 1) (by linarith)
      exact this
    · rw [toReal_one, abs_one, abs_of_pos (a := x.q_real.norm2.toReal) (by linarith), eps_val]
      have a1 : (1 + f.u) ^ 2 * |x.q_real.norm2.toReal - 1| ≤ 102 / 100 * (2 * f.u) :=
        mul_le_mul (by nlinarith) h1 (abs_nonneg _) (by norm_num)
      have a2 : 99 / 100 * (198 / 100) ≤ (1 - f.u) * (x.q_real.norm2.toReal + 1) :=
        mul_le_mul (by linarith) (by linarith) (by positivity) (by linarith)
      have a3 : 198 / 100 * f.u * (99 / 100 * (198 / 100)) ≤ (2 * f.u - f.eta) * ((1 - f.u) * (x.q_real.norm2.toReal + 1)) :=
        mul_le_mul (by linarith) a2 (by positivity) (by linarith)
      linarith
  have key (i) := near_same hp hn h1 (hd i).1 (hd i).2
  unfold DQuat.is_normalized
  split_ifs
  · rfl
  · rfl
  · dsimp only
    simp only [Bool.and_eq_true]
    exact ⟨c1, ⟨⟨key 0, key 1⟩, key 2⟩, key 3⟩

/-- **C150.** `compare_dual_quaternions` is symmetric; a dual quaternion compares equal to itself exactly if none of its entries
is NaN, whatever the tolerance; and one with a NaN entry compares equal to nothing. -/
theorem C150_compare [Libm f] (a b : DQuat (Flt f)) (eps : Flt f) :
    compare_dual_quaternions a b eps = compare_dual_quaternions b a eps ∧
    (compare_dual_quaternions a a eps = true ↔ ∀ i, a.q_real.comp i ≠ nan ∧ a.q_dual.comp i ≠ nan) ∧
    ((∃ i, a.q_real.comp i = nan ∨ a.q_dual.comp i = nan) → compare_dual_quaternions a b eps = false) := by
  refine ⟨?_, ?_, ?_⟩
  · unfold compare_dual_quaternions
    simp only [fun x y : Flt f => C34_nearly_equal_symm x y eps]
  · unfold compare_dual_quaternions
    simp only [Bool.and_eq_true, C34_nearly_equal_refl]
    constructor
    · rintro ⟨⟨⟨⟨⟨⟨⟨c0, c1⟩, c2⟩, c3⟩, d0⟩, d1⟩, d2⟩, d3⟩ i
      fin_cases i
      exacts [⟨c0, d0⟩, ⟨c1, d1⟩, ⟨c2, d2⟩, ⟨c3, d3⟩]
    · intro h
      exact ⟨⟨⟨⟨⟨⟨⟨(h 0).1, (h 1).1⟩, (h 2).1⟩, (h 3).1⟩, (h 0).2⟩, (h 1).2⟩, (h 2).2⟩, (h 3).2⟩
  · rintro ⟨i, h⟩
    rw [Bool.eq_false_iff]
    intro hc
    unfold compare_dual_quaternions at hc
    simp only [Bool.and_eq_true] at hc
    have nn (x y : Flt f) (h : nearly_equal x y eps = true) : x ≠ nan := by
      rintro rfl
      rw [(C34_nearly_equal_nan _ _).1] at h
      exact Bool.false_ne_true h
    obtain ⟨⟨⟨⟨⟨⟨⟨c0, c1⟩, c2⟩, c3⟩, d0⟩, d1⟩, d2⟩, d3⟩ := hc
    rcases h with h | h <;> fin_cases i
    exacts [nn _ _ c0 h, nn _ _ c1 h, nn _ _ c2 h, nn _ _ c3 h, nn _ _ d0 h, nn _ _ d1 h, nn _ _ d2 h, nn _ _ d3 h]

/-- **C150.** Products: the real part of a product of two dual quaternions whose real parts have norms within `δ ≤ 1/8` of 1
has a norm within `2δ + δ² + 11u` of 1, and normalising the product brings it back to within `5u`. What is missing is that
`is_normalized` accepts the product, which is false (`C150_product_false`). -/
theorem C150_product_partial [Libm f] (hw : f.Wide) (x y : DQuat (Flt f)) (hx : ∀ i, (x.q_real.comp i).IsFin)
    (hy : ∀ i, (y.q_real.comp i).IsFin) (δ : ℝ) (hδ : δ ≤ 1 / 8) (h1 : |‖x.q_real.reH‖ - 1| ≤ δ) (h2 : |‖y.q_real.reH‖ - 1| ≤ δ) :
    (∀ i, ((x.mul y).q_real.comp i).IsFin) ∧ |‖(x.mul y).q_real.reH‖ - 1| ≤ 2 * δ + δ ^ 2 + 11 * f.u ∧
    ∃ r, (x.mul y).normalize = some r ∧ r.normalized = true ∧ |‖r.q_real.reH‖ - 1| ≤ 5 * f.u := by
  have hp := hw.p
  have hu0 := f.u_pos
  have hu := Fmt.u_le_of_p hp
  have hη := Fmt.eta_small hp
  have hη0 := f.eta_pos
  obtain ⟨k1, -, -⟩ := Fmt.kappa456 hp
  obtain ⟨a1, a2⟩ := _root_.abs_le.1 h1
  obtain ⟨b1, b2⟩ := _root_.abs_le.1 h2
  have k0 : (1 : ℝ) ≤ (1 + f.u) ^ 4 := one_le_pow₀ (by linarith)
  have fin : ∀ i, ((x.q_real.mul y.q_real).comp i).IsFin := by
    refine (C105_no_overflow x.q_real y.q_real ⟨fun _ => 0⟩ 2 (by norm_num) (fun i => ⟨hx i, ?_⟩) (fun i => ⟨hy i, ?_⟩)
      (fun i => ⟨trivial, ?_⟩)).1 ?_
    · have := x.q_real.comp_le_reH i; linarith
    · have := y.q_real.comp_le_reH i; linarith
    · change |(0 : Flt f).toReal| ≤ 2
      rw [toReal_zero]; norm_num
    · have h := Fmt.range_of_p hp (x := 64) (by norm_num)
      have : (1 + f.u) ^ 4 * (8 * 2 ^ 2) ≤ 2 * (8 * 2 ^ 2) := mul_le_mul_of_nonneg_right (by linarith) (by norm_num)
      linarith
  have key := (C105_product x.q_real y.q_real fin).2.2
  have p0 := norm_nonneg x.q_real.reH
  have q0 := norm_nonneg y.q_real.reH
  have m1 : ‖x.q_real.reH‖ * ‖y.q_real.reH‖ ≤ (1 + δ) * (1 + δ) := mul_le_mul (by linarith) (by linarith) q0 (by linarith)
  have m2 : (1 - δ) * (1 - δ) ≤ ‖x.q_real.reH‖ * ‖y.q_real.reH‖ := mul_le_mul (by linarith) (by linarith) (by linarith) p0
  have δ0 : 0 ≤ δ := (abs_nonneg _).trans h1
  have m3 : (1 + δ) * (1 + δ) ≤ 81 / 64 := by nlinarith
  have m5 : (49 : ℝ) / 64 ≤ (1 - δ) * (1 - δ) := by nlinarith
  have m4 : ((1 + f.u) ^ 4 - 1) * (‖x.q_real.reH‖ * ‖y.q_real.reH‖) ≤ 404 / 100 * f.u * (81 / 64) :=
    mul_le_mul k1 (m1.trans m3) (by positivity) (by positivity)
  have m6 : (1 + f.u) ^ 4 * (f.eta * 4) ≤ 102 / 100 * (f.eta * 4) := mul_le_mul_of_nonneg_right (by linarith) (by linarith)
  obtain ⟨l1, l2⟩ := _root_.abs_le.1 key
  have hN : |‖(x.mul y).q_real.reH‖ - 1| ≤ 2 * δ + δ ^ 2 + 11 * f.u := by
    change |‖(x.q_real.mul y.q_real).reH‖ - 1| ≤ _
    rw [_root_.abs_le]
    constructor <;> nlinarith
  refine ⟨fin, hN, ?_⟩
  obtain ⟨n1, n2⟩ := _root_.abs_le.1 hN
  have s : δ ^ 2 ≤ 1 / 64 := by nlinarith
  obtain ⟨f1, f2⟩ := Quat.norm2_isFin hw (x.mul y).q_real fin (by linarith) (by linarith)
  obtain ⟨r, r1, r2, -, -, r3, -⟩ := C150_normalize hp (x.mul y) rfl fin f1 (by linarith) f2
  exact ⟨r, r1, r2, r3⟩

end

/-! ## A product that is not recognised -/

private def mB (n : ℕ) : BF Fmt.f64 := .fin false n 0

private theorem den_m (n : ℕ) (h : n ≤ 2 ^ Fmt.f64.p) : BF.Den (mB n) (nF n h) := ⟨rfl, by simp⟩

private theorem den_fin {b : BF Fmt.f64} {x : Flt Fmt.f64} (h : BF.Den b x) {s : Bool} {m : ℕ} {e : ℤ}
    (hb : b = .fin s m e) : x.IsFin := by
  subst hb
  rcases x with _ | t | ⟨t, y, hy⟩
  · exact absurd h id
  · exact absurd h id
  · trivial

attribute [local irreducible] BF.Den

/-- The quaternions `-1 + i + 3j - 8k` and `-1 - 2i + 2j + 5k`. -/
noncomputable def qa138 : Quat (Flt Fmt.f64) :=
  Quat.new_from (-nF 1 (by decide +kernel)) (nF 1 (by decide +kernel)) (nF 3 (by decide +kernel)) (-nF 8 (by decide +kernel))
noncomputable def qb125 : Quat (Flt Fmt.f64) :=
  Quat.new_from (-nF 1 (by decide +kernel)) (-nF 2 (by decide +kernel)) (nF 2 (by decide +kernel)) (nF 5 (by decide +kernel))

private def aB : Quat (BF Fmt.f64) := Quat.new_from (-mB 1) (mB 1) (mB 3) (-mB 8)
private def bB : Quat (BF Fmt.f64) := Quat.new_from (-mB 1) (-mB 2) (mB 2) (mB 5)

private def nB (q : Quat (BF Fmt.f64)) : BF Fmt.f64 := BF.sqrt (q.q0 * q.q0 + (q.q 0 * q.q 0 + q.q 1 * q.q 1 + q.q 2 * q.q 2))

private def QDen (b : Quat (BF Fmt.f64)) (x : Quat (Flt Fmt.f64)) : Prop := BF.Den b.q0 x.q0 ∧ ∀ i, BF.Den (b.q i) (x.q i)

private theorem QDen.norm2 [Libm Fmt.f64] {b : Quat (BF Fmt.f64)} {x : Quat (Flt Fmt.f64)} (h : QDen b x) : BF.Den (nB b) x.norm2 :=
  BF.den_sqrt (BF.den_add (BF.den_mul h.1 h.1) (BF.den_add (BF.den_add (BF.den_mul (h.2 0) (h.2 0)) (BF.den_mul (h.2 1) (h.2 1)))
    (BF.den_mul (h.2 2) (h.2 2))))

private theorem QDen.sdiv {b : Quat (BF Fmt.f64)} {x : Quat (Flt Fmt.f64)} (h : QDen b x) {c : BF Fmt.f64} {y : Flt Fmt.f64}
    (k : BF.Den c y) : QDen (b.sdiv c) (x.sdiv y) :=
  ⟨BF.den_div h.1 k, fun i => by fin_cases i; exacts [BF.den_div (h.2 0) k, BF.den_div (h.2 1) k, BF.den_div (h.2 2) k]⟩

private theorem QDen.mul {b c : Quat (BF Fmt.f64)} {x y : Quat (Flt Fmt.f64)} (h : QDen b x) (k : QDen c y) :
    QDen (b.mul c) (x.mul y) := by
  have m (i j : Fin 3) := BF.den_mul (h.2 i) (k.2 j)
  have s (i : Fin 3) := BF.den_add (BF.den_mul (k.2 i) h.1) (BF.den_mul (h.2 i) k.1)
  refine ⟨BF.den_sub (BF.den_mul h.1 k.1) (BF.den_add (BF.den_add (m 0 0) (m 1 1)) (m 2 2)), fun i => ?_⟩
  fin_cases i
  exacts [BF.den_add (s 0) (BF.den_sub (m 1 2) (m 2 1)), BF.den_add (s 1) (BF.den_sub (m 2 0) (m 0 2)),
    BF.den_add (s 2) (BF.den_sub (m 0 1) (m 1 0))]

private theorem norm_den [Libm Fmt.f64] {b : Quat (BF Fmt.f64)} {x : Quat (Flt Fmt.f64)} (h : QDen b x) (hx : x.normalized = false)
    (hz : nearly_zero (nB b) = false) :
    ∃ r, x.normalize = some r ∧ QDen (b.sdiv (nB b)) r := by
  have hn := h.norm2
  have hz' : nearly_zero x.norm2 = false := by rw [← (BF.related _).nearly_zero hn]; exact hz
  have k := h.sdiv hn
  refine ⟨{ x.sdiv x.norm2 with normalized := true }, ?_, k⟩
  unfold Quat.normalize
  dsimp only
  rw [hz', hx]
  rfl

/-- C150 is false of the code for products: in double precision, with any library, the rotations given by normalising
`-1 + i + 3j - 8k` and `-1 - 2i + 2j + 5k` have a product, of two flagged dual quaternions, that `is_normalized` rejects: the computed
norm of its real part is `1 - 2^-51`. -/
theorem C150_product_false [Libm Fmt.f64] :
    ∃ a b : Quat (Flt Fmt.f64), qa138.normalize = some a ∧ qb125.normalize = some b ∧
      (DQuat.new_from_rotation a).is_normalized = true ∧ (DQuat.new_from_rotation b).is_normalized = true ∧
      ((DQuat.new_from_rotation a).mul (DQuat.new_from_rotation b)).q_real.norm2.toReal = 1 - (2 : ℝ) ^ (-51 : ℤ) ∧
      ((DQuat.new_from_rotation a).mul (DQuat.new_from_rotation b)).is_normalized = false := by
  have ha : QDen aB qa138 := ⟨BF.den_neg (den_m 1 (by decide +kernel)), fun i => by
    fin_cases i; exacts [(den_m 1 (by decide +kernel)), (den_m 3 (by decide +kernel)), BF.den_neg (den_m 8 (by decide +kernel))]⟩
  have hb : QDen bB qb125 := ⟨BF.den_neg (den_m 1 (by decide +kernel)), fun i => by
    fin_cases i; exacts [BF.den_neg (den_m 2 (by decide +kernel)), (den_m 2 (by decide +kernel)), (den_m 5 (by decide +kernel))]⟩
  obtain ⟨a, a1, a2⟩ := norm_den ha rfl (by decide +kernel)
  obtain ⟨b, b1, b2⟩ := norm_den hb rfl (by decide +kernel)
  have k : nB ((aB.sdiv (nB aB)).mul (bB.sdiv (nB bB))) = .fin false (2 ^ 53 - 4) (-53) := by decide +kernel
  have hn := (a2.mul b2).norm2
  have hv : (a.mul b).norm2.toReal = 1 - (2 : ℝ) ^ (-51 : ℤ) := by
    rw [toReal_den hn k]
    norm_num [sgn]
  have hf : (a.mul b).norm2.IsFin := den_fin hn k
  refine ⟨a, b, a1, b1, rfl, rfl, hv, ?_⟩
  have hu : Fmt.f64.u = (2 : ℝ) ^ (-53 : ℤ) := rfl
  have hz : nearly_zero (a.mul b).norm2 = false := not_nearly_zero (by rw [hv, hu]; norm_num)
  have hc : nearly_equal (a.mul b).norm2 1 RFloat.epsilon = false := by
    rw [Bool.eq_false_iff]
    intro h
    rcases C125_nearly_equal_sound _ 1 (epsilon Fmt.f64) trivial h with ⟨s, -, h1⟩ | ⟨-, -, h1⟩
    · cases h1
    rw [eps_val, toReal_one, hv, hu] at h1
    norm_num at h1
  unfold DQuat.is_normalized
  rw [if_neg (by exact Bool.false_ne_true)]
  change (if nearly_zero (a.mul b).norm2 = true then _ else _) = _
  rw [hz, if_neg Bool.false_ne_true]
  change (nearly_equal (a.mul b).norm2 1 RFloat.epsilon && _) = false
  rw [hc]
  rfl

/-- The dual quaternion with real part `i` and dual part `1 + 2i + 4j + 10k`, unflagged, meets the hypotheses of
`C150_is_normalized_complete` and, being accepted, of `C150_is_normalized_sound`. -/
example [Libm Fmt.f64] :
    let x : DQuat (Flt Fmt.f64) := DQuat.new (Quat.new_from (nF 0 (by decide +kernel)) (nF 1 (by decide +kernel)) (nF 0 (by decide +kernel)) (nF 0 (by decide +kernel))) q11
    x.is_normalized = true ∧ |x.q_real.norm2.toReal - 1| ≤ 5 * Fmt.f64.u := by
  intro x
  have hx : QDen (Quat.new_from (mB 0) (mB 1) (mB 0) (mB 0)) x.q_real := ⟨den_m 0 (by decide +kernel), fun i => by
    fin_cases i; exacts [den_m 1 (by decide +kernel), den_m 0 (by decide +kernel), den_m 0 (by decide +kernel)]⟩
  have k : nB (Quat.new_from (mB 0) (mB 1) (mB 0) (mB 0)) = .fin false (2 ^ 52) (-52) := by decide +kernel
  have hv : x.q_real.norm2.toReal = 1 := by
    rw [toReal_den hx.norm2 k]
    norm_num [sgn]
  have hu0 := Fmt.f64.u_pos
  have hη : Fmt.f64.eta ≤ Fmt.f64.u / 256 := Fmt.eta_small Fmt.f64_wide.p
  have hd : ∀ n : ℕ, 1 ≤ n → n ≤ 16 → ∀ h, (nF n h).IsFin ∧ ((nF n h).toReal = 0 ∨
      8 * Fmt.f64.eta ≤ Fmt.f64.u * |(nF n h).toReal| ∧ |(nF n h).toReal| ≤ (2 : ℝ) ^ (Fmt.f64.emax - 1)) := fun n h1 h2 h => by
    have e : |(nF n h).toReal| = n := by
      change |sgn false (n : ℝ)| = n
      simp [sgn]
    have h1' : (1 : ℝ) ≤ n := by exact_mod_cast h1
    have h2' : (n : ℝ) ≤ 16 := by exact_mod_cast h2
    refine ⟨trivial, Or.inr ⟨?_, ?_⟩⟩
    · rw [e]
      have := mul_le_mul_of_nonneg_left h1' hu0.le
      linarith
    · rw [e]
      refine h2'.trans ?_
      calc (16 : ℝ) = 2 ^ (4 : ℤ) := by norm_num
        _ ≤ _ := zpow_le_zpow_right₀ (by norm_num) (by decide)
  have h1 : x.is_normalized = true := C150_is_normalized_complete Fmt.f64_wide.p x (den_fin hx.norm2 k)
    (by rw [hv, sub_self, abs_zero]; linarith) fun i => by
      fin_cases i
      exacts [hd 1 (by norm_num) (by norm_num) (by decide +kernel), hd 2 (by norm_num) (by norm_num) (by decide +kernel), hd 4 (by norm_num) (by norm_num) (by decide +kernel),
        hd 10 (by norm_num) (by norm_num) (by decide +kernel)]
  refine ⟨h1, ?_⟩
  rcases (C150_is_normalized_sound (by decide) x rfl h1).2 with h | h
  · rw [hv, sub_self, abs_zero]; linarith
  · exact h.1

end StaticMath
