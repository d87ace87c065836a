import Verif.Props.IeeeLog
import Verif.Props.QuatAnalysis

/-!
# C135: spherical interpolation in floating point
-/

namespace StaticMath
open Flt Quaternion

section
variable {f : Fmt}

/-- The computed dot product of two quaternions with entries known up to `δ`. -/
private theorem dot_near (hp : 8 ≤ f.p) {d δ : ℝ} (hδ : δ + f.u ≤ d) (hd : d ≤ 1 / 512) {a b : Quat (Flt f)} {x y : Quat ℝ}
    (ha0 : Near a.q0 x.q0 δ) (ha : ∀ i, Near (a.q i) (x.q i) δ) (hb0 : Near b.q0 y.q0 δ) (hb : ∀ i, Near (b.q i) (y.q i) δ)
    (hx0 : |x.q0| ≤ 1) (hx : ∀ i, |x.q i| ≤ 1) (hy0 : |y.q0| ≤ 1) (hy : ∀ i, |y.q i| ≤ 1) :
    Near (a.dot b) (x.dot y) (19 * d) := by
  have hu := f.u_pos
  have hδ0 := ha0.nonneg
  have m {a b : Flt f} {v w : ℝ} (h : Near a v δ) (k : Near b w δ) (hv : |v| ≤ 1) (hw : |w| ≤ 1) :
      Near (a * b) (v * w) (21 / 10 * d) :=
    h.mul hp (A := 101 / 100) (C := 1) (D := 101 / 100) (B := 103 / 100) k (by linarith) hw (by linarith) (by norm_num)
      (by norm_num) (by linarith)
  have le1 {v w : ℝ} (hv : |v| ≤ 1) (hw : |w| ≤ 1) : |v * w| ≤ 1 := by
    rw [abs_mul]
    exact mul_le_one₀ hv (abs_nonneg _) hw
  have l0 := le1 hx0 hy0
  have l1 := le1 (hx 0) (hy 0)
  have l2 := le1 (hx 1) (hy 1)
  have l3 := le1 (hx 2) (hy 2)
  have s1 := (m (ha 0) (hb 0) (hx 0) (hy 0)).add hp (B := 21 / 10) (e := 63 / 10 * d) (m (ha 1) (hb 1) (hx 1) (hy 1))
    (by linarith [abs_add_le (x.q 0 * y.q 0) (x.q 1 * y.q 1)]) (by norm_num) (by linarith)
  have s2 := s1.add hp (B := 32 / 10) (e := 116 / 10 * d) (m (ha 2) (hb 2) (hx 2) (hy 2))
    (by linarith [abs_add_le (x.q 0 * y.q 0) (x.q 1 * y.q 1), abs_add_le (x.q 0 * y.q 0 + x.q 1 * y.q 1) (x.q 2 * y.q 2)])
    (by norm_num) (by linarith)
  change Near (a.q0 * b.q0 + (a.q 0 * b.q 0 + a.q 1 * b.q 1 + a.q 2 * b.q 2))
    (x.q0 * y.q0 + (x.q 0 * y.q 0 + x.q 1 * y.q 1 + x.q 2 * y.q 2)) (19 * d)
  exact (m ha0 hb0 hx0 hy0).add hp (B := 44 / 10) (e := 19 * d) s2
    (by linarith [abs_add_le (x.q 0 * y.q 0) (x.q 1 * y.q 1), abs_add_le (x.q 0 * y.q 0 + x.q 1 * y.q 1) (x.q 2 * y.q 2),
      abs_add_le (x.q0 * y.q0) (x.q 0 * y.q 0 + x.q 1 * y.q 1 + x.q 2 * y.q 2)])
    (by norm_num) (by linarith)

/-- Angle and sine of the angle from its cosine. -/
private theorem angle_near [Libm f] (hp : 8 ≤ f.p) {ε d : ℝ} (hacos : AcosAcc f ε) (hε : ε + f.u ≤ d) (hε0 : 0 ≤ ε) {c : Flt f}
    {θ s : ℝ} (h0 : 0 ≤ θ) (h1 : θ ≤ Real.pi / 2) (hs : s = Real.sin θ) (hs0 : 0 < s) (hd : 512 * d ≤ s ^ 2)
    (hc : Near c (Real.cos θ) (19 * d)) :
    |c.toReal| < 1 ∧ Near (Libm.acos c) θ (25 * d / s) ∧ Near (Flt.sqrt (1 - c * c)) s (44 * d / s) := by
  have hu := f.u_pos
  have hu2 := Fmt.u_le_of_p hp
  have hpi := Real.pi_pos
  have hs1 : s ≤ 1 := hs ▸ Real.sin_le_one θ
  have hs2 : s ^ 2 ≤ 1 := by nlinarith
  have hd0 : 0 < d := by linarith
  have hds : d ≤ d / s := by
    rw [le_div_iff₀ hs0]
    exact mul_le_of_le_one_right hd0.le hs1
  obtain ⟨k1, k2⟩ := arccos_near (a := c.toReal) (d := 19 / 8 * d) h0 (by linarith) hs hs0 (by linarith)
    (by have := hc.err; linarith)
  have hs3 : 0 < s ^ 2 := by positivity
  have hsc := Real.sin_sq_add_cos_sq θ
  rw [← hs] at hsc
  have hc1 := Real.abs_cos_le_one θ
  refine ⟨by linarith, ?_, ?_⟩
  · obtain ⟨a1, a2⟩ := hacos c hc.fin (by linarith)
    refine ⟨a1, (abs_sub_le _ (Real.arccos c.toReal) _).trans ?_⟩
    have e : 10 * (19 / 8 * d) / s = 95 / 4 * (d / s) := by ring
    have e2 : 25 * d / s = 25 * (d / s) := by ring
    rw [e] at k2
    rw [e2]
    linarith
  · have e : 1 - Real.cos θ * Real.cos θ = s ^ 2 := by linear_combination -hsc
    have h2 := hc.mul hp (A := 104 / 100) (C := 1) (D := 104 / 100) (B := 109 / 100) (e := 40 * d) hc (by linarith) hc1 (by linarith)
      (by norm_num) (by norm_num) (by linarith)
    have h3 := Near.one.sub hp (B := 11 / 10) (e := 42 * d) h2 (by rw [e, abs_of_pos hs3]; linarith) (by norm_num) (by linarith)
    rw [e] at h3
    have h4 := h3.sqrt (c := s) (B := 11 / 10) (e := 44 * d / s) hs0 le_rfl (by linarith) (by norm_num) (by linarith) (by
      have e : 44 * d / s = 42 * d / s + 2 * (d / s) := by ring
      rw [e]
      linarith)
    rwa [Real.sqrt_sq hs0.le] at h4

/-- One of the two coefficients. -/
private theorem coef_near [Libm f] (hp : 8 ≤ f.p) {ε d : ℝ} (h : SinCosAcc f ε) (hε : ε + f.u ≤ d) (hε0 : 0 ≤ ε) {τ h' S : Flt f}
    {θ s t : ℝ} (h0 : 0 ≤ θ) (h1 : θ ≤ Real.pi / 2) (hs : s = Real.sin θ) (hs0 : 0 < s) (hd : 512 * d ≤ s ^ 2) (hθ : Near h' θ (25 * d / s))
    (hS : Near S s (44 * d / s)) (ht0 : 0 ≤ t) (ht1 : t ≤ 1) (hτ : Near τ t d) :
    |Real.sin (t * θ) / s| ≤ 1 ∧ Near (Libm.sin (τ * h') / S) (Real.sin (t * θ) / s) (84 * d / s ^ 2) := by
  have hu := f.u_pos
  have hu2 := Fmt.u_le_of_p hp
  have hpi := Real.pi_lt_d2
  have hpi3 := Real.pi_gt_three
  have hs1 : s ≤ 1 := hs ▸ Real.sin_le_one θ
  have hs2 : s ^ 2 ≤ 1 := by nlinarith
  have hd0 : 0 < d := by linarith
  have hds : d ≤ d / s := by
    rw [le_div_iff₀ hs0]
    exact mul_le_of_le_one_right hd0.le hs1
  have hdss : 512 * (d / s) ≤ s := by
    rw [← mul_div_assoc, div_le_iff₀ hs0]
    linarith
  have hdq : d / s ^ 2 ≤ 1 / 512 := by
    rw [div_le_iff₀ (by positivity)]
    linarith
  have hdq1 : d ≤ d / s ^ 2 := by
    rw [le_div_iff₀ (by positivity)]
    exact mul_le_of_le_one_right hd0.le hs2
  have e25 : 25 * d / s = 25 * (d / s) := by ring
  have e44 : 44 * d / s = 44 * (d / s) := by ring
  rw [e25] at hθ
  rw [e44] at hS
  have tθ0 : 0 ≤ t * θ := mul_nonneg ht0 h0
  have tθ1 : t * θ ≤ θ := mul_le_of_le_one_left h0 ht1
  have q1 : |Real.sin (t * θ) / s| ≤ 1 := by
    rw [abs_div, abs_of_pos hs0, div_le_one hs0, abs_of_nonneg (Real.sin_nonneg_of_nonneg_of_le_pi tθ0 (by linarith)), hs]
    exact Real.sin_le_sin_of_le_of_le_pi_div_two (by linarith) h1 tθ1
  refine ⟨q1, ?_⟩
  have at' : |t| = t := abs_of_nonneg ht0
  have aθ : |θ| = θ := abs_of_nonneg h0
  have m1 := hτ.mul hp (A := 101 / 100) (C := 16 / 10) (D := 165 / 100) (B := 167 / 100) (e := 29 * (d / s)) hθ
    (by rw [at']; linarith) (by rw [aθ]; linarith) (by rw [aθ]; linarith) (by norm_num) (by norm_num) (by linarith)
  have m2 : Near (Libm.sin (τ * h')) (Real.sin (t * θ)) (30 * (d / s)) := by
    obtain ⟨g1, g2⟩ := h.sin _ m1.fin
    exact ⟨g1, ((abs_sub_le _ _ _).trans (add_le_add g2 ((ls _ _).trans m1.err))).trans (by linarith)⟩
  have e1 : (30 * (d / s) + 1 * (44 * (d / s))) / (9 / 10 * s) = 740 / 9 * (d / s ^ 2) := by
    field_simp
    norm_num
  have e2 : 84 * d / s ^ 2 = 84 * (d / s ^ 2) := by ring
  refine m2.div hp (c := 9 / 10 * s) (Q := 1) (B := 12 / 10) hS (by linarith) (by rw [abs_of_pos hs0]; linarith) q1 ?_ (by norm_num) ?_
  · rw [e1]; linarith
  · rw [e1, e2]; linarith

/-- The combination of two entries. -/
private theorem comb_near (hp : 8 ≤ f.p) {d δ q : ℝ} (hδ : δ + f.u ≤ d) (hdq : d ≤ q) (hq : q ≤ 1 / 512) {a b p r : Flt f}
    {x y P R : ℝ} (ha : Near a x δ) (hb : Near b y δ) (hP : Near p P (84 * q)) (hR : Near r R (84 * q)) (hx : |x| ≤ 1) (hy : |y| ≤ 1)
    (hP1 : |P| ≤ 1) (hR1 : |R| ≤ 1) :
    Near (p * a + r * b) (P * x + R * y) (180 * q) ∧ Near (p * a - r * b) (P * x - R * y) (180 * q) := by
  have hu := f.u_pos
  have hδ0 := ha.nonneg
  have m {a p : Flt f} {x P : ℝ} (ha : Near a x δ) (hP : Near p P (84 * q)) (hx : |x| ≤ 1) (hP1 : |P| ≤ 1) :
      Near (p * a) (P * x) (87 * q) ∧ |P * x| ≤ 1 := by
    refine ⟨hP.mul hp (A := 117 / 100) (C := 1) (D := 101 / 100) (B := 119 / 100) ha (by linarith) hx (by linarith) (by norm_num)
      (by norm_num) (by linarith), ?_⟩
    rw [abs_mul]
    exact mul_le_one₀ hP1 (abs_nonneg _) hx
  obtain ⟨m1, l1⟩ := m ha hP hx hP1
  obtain ⟨m2, l2⟩ := m hb hR hy hR1
  exact ⟨m1.add hp (B := 24 / 10) m2 (by linarith [abs_add_le (P * x) (R * y)]) (by norm_num) (by linarith),
    m1.sub hp (B := 24 / 10) m2 (by linarith [abs_sub (P * x) (R * y)]) (by norm_num) (by linarith)⟩

private theorem slerp_flt [Libm f] (a b : Quat (Flt f)) (t : Flt f) (rev : Bool) (c : Flt f)
    (h1 : ROrd.le (1 : Flt f) (RAbs.abs (a.dot b)) = false) (hr : ROrd.lt (a.dot b) 0 = rev)
    (hc : (if rev = true then -(a.dot b) else a.dot b) = c) (h2 : ROrd.lt (RAbs.abs (Flt.sqrt (1 - c * c))) (Libm.lit0001 : Flt f) = false) :
    Quat.slerp a b t =
      if rev = true then
        ⟨Libm.sin ((1 - t) * Libm.acos c) / Flt.sqrt (1 - c * c) * a.q0 - Libm.sin (t * Libm.acos c) / Flt.sqrt (1 - c * c) * b.q0,
          V3.sub (V3.smul a.q (Libm.sin ((1 - t) * Libm.acos c) / Flt.sqrt (1 - c * c)))
            (V3.smul b.q (Libm.sin (t * Libm.acos c) / Flt.sqrt (1 - c * c))), false⟩
      else
        ⟨Libm.sin ((1 - t) * Libm.acos c) / Flt.sqrt (1 - c * c) * a.q0 + Libm.sin (t * Libm.acos c) / Flt.sqrt (1 - c * c) * b.q0,
          V3.add (V3.smul a.q (Libm.sin ((1 - t) * Libm.acos c) / Flt.sqrt (1 - c * c)))
            (V3.smul b.q (Libm.sin (t * Libm.acos c) / Flt.sqrt (1 - c * c))), false⟩ := by
  unfold Quat.slerp
  dsimp only
  rw [h1, hr, hc]
  change (if false = true then a else if ROrd.lt (RAbs.abs (Flt.sqrt (1 - c * c))) (Libm.lit0001 : Flt f) = true then _ else _) = _
  rw [h2]
  cases rev <;> rfl

/-- Missing with respect to C135: arguments whose half angle has a sine below `1/800` (see `C135_slerp_same_false`) or is closer
to a right angle than the accuracy of the input, where the shorter way is not determined.

`a`, `b` are float quaternions within `δ` of unit quaternions `x`, `y`, and `s² = 1 - (x·y)²`: every entry of the result is within
`180 (δ + ε + u) / s²` of the exact interpolation (C58, C119). -/
theorem C135_slerp_partial [Libm f] [RealParams] (hp : 8 ≤ f.p) {δ ε : ℝ} (h : SinCosAcc f ε) (hacos : AcosAcc f ε)
    (hlit : (Libm.lit0001 : Flt f).IsFin ∧ (Libm.lit0001 : Flt f).toReal ≤ 1 / 900) (x y : Quat ℝ) (hx : normSq x.toH = 1)
    (hy : normSq y.toH = 1) (a b : Quat (Flt f)) (ha0 : a.q0.IsFin ∧ |a.q0.toReal - x.q0| ≤ δ)
    (ha : ∀ i, (a.q i).IsFin ∧ |(a.q i).toReal - x.q i| ≤ δ) (hb0 : b.q0.IsFin ∧ |b.q0.toReal - y.q0| ≤ δ)
    (hb : ∀ i, (b.q i).IsFin ∧ |(b.q i).toReal - y.q i| ≤ δ) (t : Flt f) (ht : t.IsFin) (ht0 : 0 ≤ t.toReal) (ht1 : t.toReal ≤ 1)
    (hc : 20 * (δ + ε + f.u) ≤ |x.dot y|) (hs1 : (1 / 800) ^ 2 ≤ 1 - x.dot y ^ 2) (hs : 512 * (δ + ε + f.u) ≤ 1 - x.dot y ^ 2) :
    let q := Quat.slerp a b t
    let e := Quat.slerp x y t.toReal
    let E := 180 * (δ + ε + f.u) / (1 - x.dot y ^ 2)
    (q.q0.IsFin ∧ |q.q0.toReal - e.q0| ≤ E) ∧ ∀ i, (q.q i).IsFin ∧ |(q.q i).toReal - e.q i| ≤ E := by
  have hu := f.u_pos
  have hε0 : 0 ≤ ε := (abs_nonneg _).trans (h.sin 0 trivial).2
  have hδ0 : 0 ≤ δ := (abs_nonneg _).trans ha0.2
  obtain ⟨d, hd⟩ : ∃ d, d = δ + ε + f.u := ⟨_, rfl⟩
  rw [← hd] at hc hs ⊢
  obtain ⟨D, hD⟩ : ∃ D, D = x.dot y := ⟨_, rfl⟩
  have ux := (Quat.unit_iff x).1 hx
  have uy := (Quat.unit_iff y).1 hy
  have one {z : ℝ} (h : z ^ 2 ≤ 1) : |z| ≤ 1 := (sq_le_one_iff_abs_le_one z).1 h
  have bnd (z : Quat ℝ) (h : z.q0 ^ 2 + z.q 0 ^ 2 + z.q 1 ^ 2 + z.q 2 ^ 2 = 1) : |z.q0| ≤ 1 ∧ ∀ i, |z.q i| ≤ 1 := by
    have h0 := sq_nonneg z.q0
    have h1 := sq_nonneg (z.q 0)
    have h2 := sq_nonneg (z.q 1)
    have h3 := sq_nonneg (z.q 2)
    refine ⟨one (by linarith), fun i => ?_⟩
    fin_cases i
    · exact one (by change z.q 0 ^ 2 ≤ 1; linarith)
    · exact one (by change z.q 1 ^ 2 ≤ 1; linarith)
    · exact one (by change z.q 2 ^ 2 ≤ 1; linarith)
  obtain ⟨bx0, bx⟩ := bnd x ux
  obtain ⟨by0, by'⟩ := bnd y uy
  have na0 : Near a.q0 x.q0 δ := ⟨ha0.1, ha0.2⟩
  have nb0 : Near b.q0 y.q0 δ := ⟨hb0.1, hb0.2⟩
  have na (i) : Near (a.q i) (x.q i) δ := ⟨(ha i).1, (ha i).2⟩
  have nb (i) : Near (b.q i) (y.q i) δ := ⟨(hb i).1, (hb i).2⟩
  rw [← hD] at hc hs hs1 ⊢
  have hdD : d ≤ 1 / 512 := by nlinarith [sq_nonneg D]
  have hdot := dot_near hp (d := d) (by linarith) hdD na0 na nb0 nb bx0 bx by0 by'
  rw [← hD] at hdot
  obtain ⟨s, hs'⟩ : ∃ s, s = √(1 - D ^ 2) := ⟨_, rfl⟩
  have hs2 : s ^ 2 = 1 - D ^ 2 := by rw [hs', Real.sq_sqrt (by linarith)]
  have hs800 : 1 / 800 ≤ s := by rw [hs']; exact Real.le_sqrt_of_sq_le hs1
  rw [← hs2] at hs ⊢
  have hs0 : 0 < s := by linarith
  have aD1 : |D| < 1 := by
    rw [← sq_lt_one_iff_abs_lt_one]
    linarith
  obtain ⟨θ, hθ⟩ : ∃ θ, θ = Real.arccos |D| := ⟨_, rfl⟩
  have hcos : Real.cos θ = |D| := by rw [hθ, Real.cos_arccos (by linarith [abs_nonneg D]) aD1.le]
  have hsin : s = Real.sin θ := by rw [hθ, Real.sin_arccos, sq_abs, hs']
  have θ0 : 0 ≤ θ := hθ ▸ Real.arccos_nonneg _
  have θ1 : θ ≤ Real.pi / 2 := hθ ▸ Real.arccos_le_pi_div_two.2 (abs_nonneg _)
  -- the computed cosine
  obtain ⟨c, hcd⟩ : ∃ c, (if decide (D < 0) = true then -(a.dot b) else a.dot b) = c := ⟨_, rfl⟩
  have he := _root_.abs_le.1 hdot.err
  have hcn : Near c (Real.cos θ) (19 * d) := by
    rw [← hcd, hcos]
    by_cases hneg : D < 0
    · rw [decide_eq_true hneg, if_pos rfl, abs_of_neg hneg]
      exact hdot.neg
    · rw [decide_eq_false hneg, if_neg Bool.false_ne_true, abs_of_nonneg (not_lt.1 hneg)]
      exact hdot
  have hlt : ROrd.lt (a.dot b) (0 : Flt f) = decide (D < 0) := by
    rw [Bool.eq_iff_iff, lt_iff hdot.fin (b := (0 : Flt f)) trivial, toReal_zero, decide_eq_true_eq]
    constructor
    · intro h0
      by_contra hneg
      rw [abs_of_nonneg (not_lt.1 hneg)] at hc
      linarith
    · intro h0
      rw [abs_of_neg h0] at hc
      linarith
  obtain ⟨c1, nθ, nS⟩ := angle_near hp hacos (by linarith) hε0 θ0 θ1 hsin hs0 hs hcn
  have hab : |(a.dot b).toReal| < 1 := by
    rw [← hcd] at c1
    by_cases hneg : D < 0
    · rw [decide_eq_true hneg, if_pos rfl, toReal_neg, abs_neg] at c1
      exact c1
    · rw [decide_eq_false hneg, if_neg Bool.false_ne_true] at c1
      exact c1
  have hle : ROrd.le (1 : Flt f) (RAbs.abs (a.dot b)) = false := 
    le_false trivial (isFin_abs hdot.fin) (by rw [toReal_abs, toReal_one]; exact hab)
  have hbr : ROrd.lt (RAbs.abs (Flt.sqrt (1 - c * c))) (Libm.lit0001 : Flt f) = false := by
    rw [← Bool.not_eq_true, lt_iff (isFin_abs nS.fin) hlit.1, toReal_abs, not_lt]
    have k1 := nS.le_abs
    rw [abs_of_pos hs0] at k1
    have k2 : 44 * d / s ≤ 44 / 512 * s := by
      rw [div_le_iff₀ hs0]
      nlinarith
    linarith [hlit.2]
  have hsl := slerp_flt a b t _ c hle hlt hcd hbr
  -- coefficients
  have hp1 : Near (1 - t) (1 - t.toReal) d := Near.one.sub hp (B := 1) (Near.of_fin ht)
    (by rw [abs_of_nonneg (by linarith)]; linarith) (by norm_num) (by linarith)
  obtain ⟨l1, n1⟩ := coef_near hp h (by linarith) hε0 θ0 θ1 hsin hs0 hs nθ nS (by linarith) (by linarith) hp1
  obtain ⟨l2, n2⟩ := coef_near hp h (by linarith) hε0 θ0 θ1 hsin hs0 hs nθ nS ht0 ht1 ((Near.of_fin ht).mono (by linarith))
  have hs21 : s ^ 2 ≤ 1 := by rw [hs2]; linarith [sq_nonneg D]
  have hdq1 : d ≤ d / s ^ 2 := by
    rw [le_div_iff₀ (by positivity)]
    exact mul_le_of_le_one_right (by linarith) hs21
  have hdq : d / s ^ 2 ≤ 1 / 512 := by
    rw [div_le_iff₀ (by positivity)]
    linarith
  rw [mul_div_assoc] at n1 n2 ⊢
  have comb {p r : Flt f} {P R : ℝ} (hp' : Near p P δ) (hr : Near r R δ) (hP : |P| ≤ 1) (hR : |R| ≤ 1) :=
    comb_near hp (d := d) (δ := δ) (q := d / s ^ 2) (by linarith) hdq1 hdq hp' hr n1 n2 hP hR l1 l2
  obtain ⟨r0, ri⟩ := slerp_main x y t.toReal (by rw [← hD]; exact aD1) (by
      rw [← hD, abs_mul_abs_self, ← sq, ← hs', not_lt]; linarith) _ rfl s θ (by rw [← hD, abs_mul_abs_self, ← sq, ← hs'])
    (by rw [← hD]; exact hθ)
  rw [← hD] at r0 ri
  intro q e
  have hq : q = _ := hsl
  by_cases hneg : D < 0
  · rw [decide_eq_true hneg, if_pos rfl] at hq
    rw [if_pos hneg] at r0 ri
    constructor
    · have k := (comb na0 nb0 bx0 by0).2
      rw [hq, show e.q0 = _ from r0, neg_one_mul, mul_neg, ← sub_eq_add_neg]
      exact ⟨k.fin, k.err⟩
    · intro i
      have k := (comb (na i) (nb i) (bx i) (by' i)).2
      rw [hq, show e.q i = _ from ri i, neg_one_mul, mul_neg, ← sub_eq_add_neg]
      rw [Flt.mul_comm', Flt.mul_comm' _ (b.q i)] at k
      fin_cases i <;> exact ⟨k.fin, k.err⟩
  · rw [decide_eq_false hneg, if_neg Bool.false_ne_true] at hq
    rw [if_neg hneg] at r0 ri
    constructor
    · have k := (comb na0 nb0 bx0 by0).1
      rw [hq, show e.q0 = _ from r0, one_mul]
      exact ⟨k.fin, k.err⟩
    · intro i
      have k := (comb (na i) (nb i) (bx i) (by' i)).1
      rw [hq, show e.q i = _ from ri i, one_mul]
      rw [Flt.mul_comm', Flt.mul_comm' _ (b.q i)] at k
      fin_cases i <;> exact ⟨k.fin, k.err⟩

end

/-- The hypotheses can be met: `f32`, a correctly rounded library, half way from `1` to `(1 + i + j + k) / 2`. -/
example [RealParams] : ∃ (_ : Libm Fmt.f32) (x y : Quat ℝ) (a b : Quat (Flt Fmt.f32)) (t : Flt Fmt.f32),
    SinCosAcc Fmt.f32 (4 * Fmt.f32.u) ∧ AcosAcc Fmt.f32 (4 * Fmt.f32.u) ∧
    ((Libm.lit0001 : Flt Fmt.f32).IsFin ∧ (Libm.lit0001 : Flt Fmt.f32).toReal ≤ 1 / 900) ∧ normSq x.toH = 1 ∧
    normSq y.toH = 1 ∧ (a.q0.IsFin ∧ |a.q0.toReal - x.q0| ≤ 0) ∧ (∀ i, (a.q i).IsFin ∧ |(a.q i).toReal - x.q i| ≤ 0) ∧
    (b.q0.IsFin ∧ |b.q0.toReal - y.q0| ≤ 0) ∧ (∀ i, (b.q i).IsFin ∧ |(b.q i).toReal - y.q i| ≤ 0) ∧ t.IsFin ∧ t.toReal = 1 / 2 ∧
    20 * (0 + 4 * Fmt.f32.u + Fmt.f32.u) ≤ |x.dot y| ∧ (1 / 800 : ℝ) ^ 2 ≤ 1 - x.dot y ^ 2 ∧
    512 * (0 + 4 * Fmt.f32.u + Fmt.f32.u) ≤ 1 - x.dot y ^ 2 := by
  have hp : 8 ≤ Fmt.f32.p := by decide
  have hu := Fmt.f32.u_pos
  have hu2 : Fmt.f32.u ≤ 1 / 16777216 := by
    change (2 : ℝ) ^ (-24 : ℤ) ≤ _
    norm_num
  have hh := Near.half (f := Fmt.f32)
  have hl := Near.of_real (f := Fmt.f32) (r := 1 / 1000) (B := 1) hp (by norm_num) (by norm_num)
  have o : ((1 : Flt Fmt.f32)).IsFin ∧ |(1 : Flt Fmt.f32).toReal - 1| ≤ 0 := ⟨trivial, by rw [toReal_one, sub_self, abs_zero]⟩
  have z : ((0 : Flt Fmt.f32)).IsFin ∧ |(0 : Flt Fmt.f32).toReal - 0| ≤ 0 := ⟨trivial, by rw [toReal_zero, sub_self, abs_zero]⟩
  have hdot : (Quat.new_from 1 0 0 0 : Quat ℝ).dot (Quat.new_from (1 / 2) (1 / 2) (1 / 2) (1 / 2)) = 1 / 2 := by
    change (1 : ℝ) * (1 / 2) + (0 * (1 / 2) + 0 * (1 / 2) + 0 * (1 / 2)) = 1 / 2
    norm_num
  refine ⟨correctLibm _, Quat.new_from 1 0 0 0, Quat.new_from (1 / 2) (1 / 2) (1 / 2) (1 / 2), Quat.new_from 1 0 0 0,
    Quat.new_from (1 / (1 + 1)) (1 / (1 + 1)) (1 / (1 + 1)) (1 / (1 + 1)), 1 / (1 + 1), ?_, correctLibm_acos hp,
    ⟨hl.fin, ?_⟩, ?_, ?_, o, fun i => ?_, ⟨hh.fin, hh.err⟩, fun i => ?_, hh.fin, ?_, ?_, ?_, ?_⟩
  · let := correctLibm Fmt.f32
    have h := correctLibm_sin_cos hp
    exact ⟨fun x hx => ⟨(h.sin x hx).1, (h.sin x hx).2.trans (by linarith)⟩,
      fun x hx => ⟨(h.cos x hx).1, (h.cos x hx).2.trans (by linarith)⟩⟩
  · have := (_root_.abs_le.1 hl.err).2
    change (ofReal Fmt.f32 false (1 / 1000)).toReal ≤ _
    linarith
  · rw [Quat.unit_iff]
    change (1 : ℝ) ^ 2 + 0 ^ 2 + 0 ^ 2 + 0 ^ 2 = 1
    norm_num
  · rw [Quat.unit_iff]
    change (1 / 2 : ℝ) ^ 2 + (1 / 2) ^ 2 + (1 / 2) ^ 2 + (1 / 2) ^ 2 = 1
    norm_num
  · fin_cases i <;> exact z
  · fin_cases i <;> exact ⟨hh.fin, hh.err⟩
  · have := abs_eq_zero.1 (le_antisymm hh.err (abs_nonneg _))
    linarith
  · rw [hdot, abs_of_pos (by norm_num)]
    linarith
  · rw [hdot]
    norm_num
  · rw [hdot]
    linarith

/-! ## Interpolation between equal quaternions -/

private def nB (n : ℕ) : BF Fmt.f64 := .fin false n 0

/-- A whole number as a float. -/
noncomputable def nF (n : ℕ) (h : n ≤ 2 ^ Fmt.f64.p) : Flt Fmt.f64 := fin false n (Fmt.f64.rep_nat h)

private theorem den_n (n : ℕ) (h : n ≤ 2 ^ Fmt.f64.p) : BF.Den (nB n) (nF n h) := ⟨rfl, by simp⟩

private theorem den_fin {b : BF Fmt.f64} {x : Flt Fmt.f64} (h : BF.Den b x) {s : Bool} {m : ℕ} {e : ℤ}
    (hb : b = .fin s m e) : x.IsFin := by
  subst hb
  rcases x with _ | t | ⟨t, y, hy⟩
  · exact absurd h id
  · exact absurd h id
  · trivial

private theorem den_same {b c : BF Fmt.f64} {x y : Flt Fmt.f64} (h : BF.Den b x) (k : BF.Den c y) (e : b = c) :
    x.toReal = y.toReal := by
  subst e
  rcases b with _ | t | ⟨t, m, e⟩ <;> rcases x with _ | s | ⟨s, v, hv⟩ <;> rcases y with _ | r | ⟨r, w, hw⟩ <;>
    first | exact absurd h id | exact absurd k id | rfl | skip
  obtain ⟨rfl, rfl⟩ := h
  obtain ⟨rfl, rfl⟩ := k
  rfl

/-- The nearly parallel branch. -/
private theorem slerp_near_flt (a b : Quat (Flt Fmt.f64)) [Libm Fmt.f64] (t : Flt Fmt.f64) (rev : Bool) (c : Flt Fmt.f64)
    (h1 : ROrd.le (1 : Flt Fmt.f64) (RAbs.abs (a.dot b)) = false) (hr : ROrd.lt (a.dot b) 0 = rev)
    (hc : (if rev = true then -(a.dot b) else a.dot b) = c)
    (h2 : ROrd.lt (RAbs.abs (Flt.sqrt (1 - c * c))) (Libm.lit0001 : Flt Fmt.f64) = true) :
    Quat.slerp a b t = if rev = true then Quat.zero else
      ⟨(1 - t) * a.q0 + t * b.q0, ⟨![(1 - t) * a.q 0 + t * b.q 0, (1 - t) * a.q 1 + t * b.q 2,
        (1 - t) * a.q 2 + t * b.q 1]⟩, false⟩ := by
  unfold Quat.slerp
  dsimp only
  rw [h1, hr, hc]
  change (if false = true then a else if ROrd.lt (RAbs.abs (Flt.sqrt (1 - c * c))) (Libm.lit0001 : Flt Fmt.f64) = true then _ else _) = _
  rw [h2]
  cases rev <;> rfl

/-- The quaternion `1 + 2i + 4j + 10k`, of norm 11. -/
noncomputable def q11 : Quat (Flt Fmt.f64) :=
  Quat.new_from (nF 1 (by decide +kernel)) (nF 2 (by decide +kernel)) (nF 4 (by decide +kernel)) (nF 10 (by decide +kernel))

private def n11 : BF Fmt.f64 := BF.sqrt (nB 1 * nB 1 + (nB 2 * nB 2 + nB 4 * nB 4 + nB 10 * nB 10))

private def qB (n : ℕ) : BF Fmt.f64 := nB n / n11

private def dB : BF Fmt.f64 := qB 1 * qB 1 + (qB 2 * qB 2 + qB 4 * qB 4 + qB 10 * qB 10)
private def dB' : BF Fmt.f64 := qB 1 * -qB 1 + (qB 2 * -qB 2 + qB 4 * -qB 4 + qB 10 * -qB 10)

attribute [local irreducible] BF.Den

/-- C135 is false of the code for equal quaternions: in double precision, whatever the library (only `0.001` must be converted
to a number of at least `2^-20`), normalising `1 + 2i + 4j + 10k` gives a quaternion `a` whose computed dot product with itself
is below 1. Interpolating from `a` to `a` then exchanges two of its entries: at `t = 1` the result is off by more than 1/2.
Interpolating from `a` to `-a`, the same rotation, gives the zero quaternion for every `t`. -/
theorem C135_slerp_same_false [Libm Fmt.f64]
    (hlit : (Libm.lit0001 : Flt Fmt.f64).IsFin ∧ (2 : ℝ) ^ (-20 : ℤ) ≤ (Libm.lit0001 : Flt Fmt.f64).toReal) :
    ∃ a : Quat (Flt Fmt.f64), q11.normalize = some a ∧
      ((Quat.slerp a a 1).q 1).toReal = (a.q 2).toReal ∧ ((Quat.slerp a a 1).q 2).toReal = (a.q 1).toReal ∧
      1 / 2 < |((Quat.slerp a a 1).q 1).toReal - (a.q 1).toReal| ∧
      ∀ t, Quat.slerp a a.neg t = Quat.zero := by
  have e1 := den_n 1 (by decide +kernel)
  have e2 := den_n 2 (by decide +kernel)
  have e4 := den_n 4 (by decide +kernel)
  have e10 := den_n 10 (by decide +kernel)
  have hn : BF.Den n11 q11.norm2 := BF.den_sqrt (BF.den_add (BF.den_mul e1 e1)
    (BF.den_add (BF.den_add (BF.den_mul e2 e2) (BF.den_mul e4 e4)) (BF.den_mul e10 e10)))
  have hz : nearly_zero q11.norm2 = false := by
    rw [← (BF.related _).nearly_zero hn]
    decide +kernel
  obtain ⟨n, hn'⟩ : ∃ n, n = q11.norm2 := ⟨_, rfl⟩
  rw [← hn'] at hn
  obtain ⟨a, ha⟩ : ∃ a : Quat (Flt Fmt.f64), a = ⟨q11.q0 / n, ⟨![q11.q 0 / n, q11.q 1 / n, q11.q 2 / n]⟩, true⟩ := ⟨_, rfl⟩
  have hnorm : q11.normalize = some a := by
    unfold Quat.normalize
    dsimp only
    rw [hz, ← hn', ha]
    change some _ = some _
    congr 2
  have a0 : BF.Den (qB 1) a.q0 := by rw [ha]; exact BF.den_div e1 hn
  have a1 : BF.Den (qB 2) (a.q 0) := by rw [ha]; exact BF.den_div e2 hn
  have a2 : BF.Den (qB 4) (a.q 1) := by rw [ha]; exact BF.den_div e4 hn
  have a3 : BF.Den (qB 10) (a.q 2) := by rw [ha]; exact BF.den_div e10 hn
  have hd : BF.Den dB (a.dot a) := BF.den_add (BF.den_mul a0 a0)
    (BF.den_add (BF.den_add (BF.den_mul a1 a1) (BF.den_mul a2 a2)) (BF.den_mul a3 a3))
  have hd' : BF.Den dB' (a.dot a.neg) := BF.den_add (BF.den_mul a0 (BF.den_neg a0))
    (BF.den_add (BF.den_add (BF.den_mul a1 (BF.den_neg a1)) (BF.den_mul a2 (BF.den_neg a2))) (BF.den_mul a3 (BF.den_neg a3)))
  have o := BF.den_one (f := Fmt.f64)
  have z := BF.den_zero (f := Fmt.f64)
  have small {c : BF Fmt.f64} {C : Flt Fmt.f64} (h : BF.Den c C) (h2 : BF.sqrt (1 - c * c) = .fin false (2 ^ 52) (-78)) :
      ROrd.lt (RAbs.abs (Flt.sqrt (1 - C * C))) (Libm.lit0001 : Flt Fmt.f64) = true := by
    have k := BF.den_sqrt (BF.den_sub o (BF.den_mul h h))
    have k1 := toReal_den k h2
    have k2 : (Flt.sqrt (1 - C * C)).IsFin := den_fin k h2
    rw [lt_iff (isFin_abs k2) hlit.1, toReal_abs, k1]
    refine lt_of_lt_of_le ?_ hlit.2
    norm_num [sgn]
  have l1 : ROrd.le (1 : Flt Fmt.f64) (RAbs.abs (a.dot a)) = false := by
    rw [← BF.le_eq o (BF.den_abs hd)]
    decide +kernel
  have l2 : ROrd.lt (a.dot a) (0 : Flt Fmt.f64) = false := by
    rw [← BF.lt_eq hd z]
    decide +kernel
  have l3 : ROrd.le (1 : Flt Fmt.f64) (RAbs.abs (a.dot a.neg)) = false := by
    rw [← BF.le_eq o (BF.den_abs hd')]
    decide +kernel
  have l4 : ROrd.lt (a.dot a.neg) (0 : Flt Fmt.f64) = true := by
    rw [← BF.lt_eq hd' z]
    decide +kernel
  have hs := slerp_near_flt a a 1 _ _ l1 l2 rfl (small hd (by decide +kernel))
  rw [if_neg Bool.false_ne_true] at hs
  have r1 : ((Quat.slerp a a 1).q 1).toReal = (a.q 2).toReal := by
    rw [hs]
    exact den_same (BF.den_add (BF.den_mul (BF.den_sub o o) a2) (BF.den_mul o a3)) a3 (by decide +kernel)
  have r2 : ((Quat.slerp a a 1).q 2).toReal = (a.q 1).toReal := by
    rw [hs]
    exact den_same (BF.den_add (BF.den_mul (BF.den_sub o o) a3) (BF.den_mul o a2)) a2 (by decide +kernel)
  refine ⟨a, hnorm, r1, r2, ?_, fun t => ?_⟩
  · have v1 := toReal_den a2 (s := false) (m := 6550690367084358) (e := -54) (by decide +kernel)
    have v2 := toReal_den a3 (s := false) (m := 8188362958855447) (e := -53) (by decide +kernel)
    rw [r1, v1, v2]
    norm_num [sgn, lt_abs]
  · rw [slerp_near_flt a a.neg t _ _ l3 l4 rfl (small (BF.den_neg hd') (by decide +kernel)), if_pos rfl]

/-- A library meeting the hypothesis. -/
example : ∃ _ : Libm Fmt.f64, (Libm.lit0001 : Flt Fmt.f64).IsFin ∧ (2 : ℝ) ^ (-20 : ℤ) ≤ (Libm.lit0001 : Flt Fmt.f64).toReal := by
  have hl := Near.of_real (f := Fmt.f64) (r := 1 / 1000) (B := 1) (by decide) (by norm_num) (by norm_num)
  have hu : Fmt.f64.u ≤ 1 / 2 ^ 53 := by
    change (2 : ℝ) ^ (-53 : ℤ) ≤ _
    norm_num
  refine ⟨correctLibm _, hl.fin, ?_⟩
  have := (_root_.abs_le.1 hl.err).1
  change _ ≤ (ofReal Fmt.f64 false (1 / 1000)).toReal
  have h2 : (2 : ℝ) ^ (-20 : ℤ) ≤ 1 / 1000 - 1 / 2 ^ 52 := by norm_num
  linarith

end StaticMath
