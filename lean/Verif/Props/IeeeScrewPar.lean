import Verif.Props.IeeeScrew
import Verif.Props.IeeeMotionBuild
import Verif.Lemmas.ArgLip
import Mathlib.Analysis.Real.Pi.Irrational

/-!
# C143: screw parameters in floating point
-/

namespace StaticMath
open Flt Quaternion

/-- `tan` has relative error `ε` away from the zeros of the sine. Where the result is too large for the format it may be an infinity,
but then the cosine is negligible. -/
def TanAcc (f : Fmt) [L : Libm f] (ε : ℝ) : Prop :=
  ∀ x : Flt f, x.IsFin → f.u ≤ |Real.sin x.toReal| →
    ((L.tan x).IsFin ∧ |(L.tan x).toReal * Real.cos x.toReal - Real.sin x.toReal| ≤ ε * |Real.sin x.toReal|) ∨
    (∃ s, L.tan x = inf s) ∧ |Real.cos x.toReal| ≤ ε * |Real.sin x.toReal|

section
variable {f : Fmt}

/-- The angle, its half, the sine and cosine of the half and the axis of a quaternion close to a rotation. -/
theorem axis_part [L : Libm f] (hw : f.Wide) {σ d κ δ ε φ : ℝ} (σ0 : 0 < σ) (hu : δ + ε + f.u ≤ d) (hκ : κ * σ = d)
    (k4 : κ ≤ 1 / 256) (h : SinCosAcc f ε) (hA : Atan2Acc f ε) (h0 : 0 ≤ φ) (h1 : φ ≤ Real.pi) (hs : σ = Real.sin φ)
    {l : Vec 3 ℝ} (hl : l 0 ^ 2 + l 1 ^ 2 + l 2 ^ 2 = 1) (q : Quat (Flt f)) (hq : ∀ i, (q.comp i).IsFin)
    {y : ℍ[ℝ]} (yr : y.re = Real.cos φ) (y1 : y.imI = l 0 * σ) (y2 : y.imJ = l 1 * σ) (y3 : y.imK = l 2 * σ) (hc : ‖q.reH - y‖ ≤ δ) :
    Near q.get_angle (2 * φ) (41 * d) ∧ Near (q.get_angle / (1 + 1)) φ (24 * d) ∧
    Near (L.sin (q.get_angle / (1 + 1))) σ (25 * d) ∧ Near (L.cos (q.get_angle / (1 + 1))) (Real.cos φ) (25 * d) ∧
    ∀ i, Near (q.q i / L.sin (q.get_angle / (1 + 1))) (l i) (30 * κ) := by
  have hp := hw.p
  have u0 := f.u_pos
  have hu8 := Fmt.u_le_of_p hp
  have hε0 : 0 ≤ ε := acc_nonneg h
  have hδ0 : 0 ≤ δ := (norm_nonneg _).trans hc
  have σ1 : σ ≤ 1 := hs ▸ Real.sin_le_one _
  have hpi := Real.pi_lt_d2
  have d0 : 0 < d := by linarith
  have κ0 : 0 < κ := by
    by_contra hcc
    push Not at hcc
    nlinarith
  have dκ : d ≤ κ := by rw [← hκ]; exact mul_le_of_le_one_right κ0.le σ1
  have dσ : 256 * d ≤ σ := by
    have := mul_le_mul_of_nonneg_right k4 σ0.le
    rw [hκ] at this
    linarith
  have d256 : d ≤ 1 / 256 := by linarith
  obtain ⟨p0, p1, p2, p3⟩ := Quat.part_le_norm (q.reH - y)
  rw [re_sub, yr] at p0
  rw [imI_sub, y1] at p1
  rw [imJ_sub, y2] at p2
  rw [imK_sub, y3] at p3
  have r0 : |q.q0.toReal - Real.cos φ| ≤ δ := p0.trans hc
  have rv (i : Fin 3) : Near (q.q i) (l i * σ) δ := by
    fin_cases i
    exacts [⟨hq 1, p1.trans hc⟩, ⟨hq 2, p2.trans hc⟩, ⟨hq 3, p3.trans hc⟩]
  have hli (i : Fin 3) : |l i| ≤ 1 := by
    have l0 := sq_nonneg (l 0)
    have l1 := sq_nonneg (l 1)
    have l2 := sq_nonneg (l 2)
    refine abs_le_of_sq_le_sq ?_ zero_le_one
    fin_cases i
    · change l 0 ^ 2 ≤ _; linarith
    · change l 1 ^ 2 ≤ _; linarith
    · change l 2 ^ 2 ≤ _; linarith
  -- the norm of the vector part
  obtain ⟨N, hN⟩ : ∃ N, N = ‖q.reH.im‖ := ⟨_, rfl⟩
  have hN0 : 0 ≤ N := by rw [hN]; exact norm_nonneg _
  have hNs : N ^ 2 = (q.q 0).toReal ^ 2 + (q.q 1).toReal ^ 2 + (q.q 2).toReal ^ 2 := by
    rw [hN, sq ‖q.reH.im‖, ← Quaternion.normSq_eq_norm_mul_self, Quaternion.normSq_def', re_im, imI_im, imJ_im, imK_im]
    change (0 : ℝ) ^ 2 + (q.q 0).toReal ^ 2 + (q.q 1).toReal ^ 2 + (q.q 2).toReal ^ 2 = _
    ring
  have hyi : ‖y.im‖ = σ := by
    rw [← sq_eq_sq₀ (norm_nonneg _) σ0.le, sq ‖y.im‖, ← Quaternion.normSq_eq_norm_mul_self, Quaternion.normSq_def', re_im, imI_im, imJ_im,
      imK_im, y1, y2, y3]
    linear_combination σ ^ 2 * hl
  have hNσ : |N - σ| ≤ δ := by
    rw [hN, ← hyi]
    refine (abs_norm_sub_norm_le _ _).trans ?_
    rw [← im_sub]
    refine (le_trans ?_ hc)
    refine abs_le_of_sq_le_sq' ?_ (norm_nonneg _) |>.2
    rw [sq ‖(q.reH - y).im‖, sq ‖q.reH - y‖, ← Quaternion.normSq_eq_norm_mul_self, ← Quaternion.normSq_eq_norm_mul_self,
      Quaternion.normSq_def', Quaternion.normSq_def', re_im, imI_im, imJ_im, imK_im]
    linarith [sq_nonneg (q.reH - y).re]
  obtain ⟨N1, N2⟩ := _root_.abs_le.1 hNσ
  obtain ⟨n1, n0, n2⟩ := norm2_V3_near hp hw.eta q.q (fun i => (rv i).fin) hN0 hNs (by linarith)
  have n3 : |(V3.norm2 q.q).toReal - σ| ≤ δ + 51 / 10 * f.u := by
    have a1 := abs_sub_le (V3.norm2 q.q).toReal N σ
    have a2 : f.u * N ≤ f.u * (101 / 100) := mul_le_mul_of_nonneg_left (by linarith) u0.le
    have a3 : f.u ^ 2 ≤ f.u * (1 / 256) := by rw [sq]; exact mul_le_mul_of_nonneg_left hu8 u0.le
    linarith
  obtain ⟨m1, m2⟩ := _root_.abs_le.1 n3
  -- the angle
  have hpos : 0 < (V3.norm2 q.q).toReal := by linarith
  obtain ⟨a1, a2⟩ := hA (V3.norm2 q.q) q.q0 n1 (hq 0) (Or.inl hpos)
  have harg : Complex.arg ⟨Real.cos φ, σ⟩ = φ := by
    have e : (⟨Real.cos φ, σ⟩ : ℂ) = Complex.cos φ + Complex.sin φ * Complex.I := by
      rw [← Complex.ofReal_cos, ← Complex.ofReal_sin, hs]
      apply Complex.ext <;> simp [-Complex.ofReal_cos, -Complex.ofReal_sin]
    rw [e]
    exact Complex.arg_cos_add_sin_mul_I ⟨by linarith [Real.pi_pos], h1⟩
  have hlip := arg_lip (z := ⟨q.q0.toReal, (V3.norm2 q.q).toReal⟩) (w := ⟨Real.cos φ, σ⟩) (by
    rw [← sq_eq_sq₀ (norm_nonneg _) zero_le_one, Complex.sq_norm, Complex.normSq_mk, hs]
    linarith [Real.sin_sq_add_cos_sq φ]) hpos.le σ0.le
  rw [harg] at hlip
  have hz : ‖(⟨q.q0.toReal, (V3.norm2 q.q).toReal⟩ - ⟨Real.cos φ, σ⟩ : ℂ)‖ ≤ δ + (δ + 51 / 10 * f.u) := by
    refine (Complex.norm_le_abs_re_add_abs_im _).trans (add_le_add ?_ ?_)
    · exact r0
    · exact n3
  have A1 : Near (L.atan2 (V3.norm2 q.q) q.q0) φ (17 * d) := by
    refine ⟨a1, ((abs_sub_le _ _ _).trans (add_le_add a2 hlip)).trans ?_⟩
    have := mul_le_mul hpi.le hz (norm_nonneg _) (by norm_num)
    linarith
  have aφ : |φ| = φ := abs_of_nonneg h0
  have A2 : Near q.get_angle (2 * φ) (41 * d) :=
    Near.two.mul hp (A := 2) (C := 315 / 100) (D := 322 / 100) (B := 644 / 100) (e := 41 * d) A1 (by norm_num) (by rw [aφ]; linarith)
      (by rw [aφ]; linarith) (by norm_num) (by norm_num) (by linarith)
  have A3 := A2.div hp (c := 2) (Q := 315 / 100) (B := 33 / 10) (e := 24 * d) Near.two (by norm_num) (by norm_num)
    (by rw [mul_div_cancel_left₀ _ (two_ne_zero), aφ]; linarith) (by linarith) (by norm_num) (by linarith)
  rw [mul_div_cancel_left₀ _ (two_ne_zero)] at A3
  have A4 : Near (L.sin (q.get_angle / (1 + 1))) σ (25 * d) := by
    obtain ⟨g1, g2⟩ := h.sin _ A3.fin
    rw [hs]
    exact ⟨g1, ((abs_sub_le _ _ _).trans (add_le_add g2 ((ls _ _).trans A3.err))).trans (by linarith)⟩
  have A5 : Near (L.cos (q.get_angle / (1 + 1))) (Real.cos φ) (25 * d) := by
    obtain ⟨g1, g2⟩ := h.cos _ A3.fin
    exact ⟨g1, ((abs_sub_le _ _ _).trans (add_le_add g2 ((lc _ _).trans A3.err))).trans (by linarith)⟩
  refine ⟨A2, A3, A4, A5, fun i => ?_⟩
  have aσ : |σ| = σ := abs_of_pos σ0
  have hc9 : 0 < 9 / 10 * σ := by linarith
  have el : l i * σ / σ = l i := mul_div_cancel_right₀ _ σ0.ne'
  have q1 : (δ + 1 * (25 * d)) / (9 / 10 * σ) ≤ 260 / 9 * κ - (ε + f.u) := by
    refine (div_le_iff₀ hc9).2 ?_
    have e1 : (ε + f.u) * (9 / 10 * σ) ≤ (ε + f.u) * 1 := mul_le_mul_of_nonneg_left (by linarith) (by linarith)
    have e2 : (260 / 9 * κ - (ε + f.u)) * (9 / 10 * σ) = 26 * (κ * σ) - (ε + f.u) * (9 / 10 * σ) := by ring
    rw [e2, hκ]
    linarith
  have n := (rv i).div hp (c := 9 / 10 * σ) (Q := 1) (B := 113 / 100) (e := 30 * κ) A4 hc9 (by rw [aσ]; linarith)
    (by rw [el]; exact hli i) (by linarith) (by norm_num) (by linarith)
  rwa [el] at n

/-- The cotangent of half the angle. -/
private theorem cot_part [L : Libm f] (hw : f.Wide) {σ d κ g δ ε φ : ℝ} (σ0 : 0 < σ) (hδ0 : 0 ≤ δ) (hε0 : 0 ≤ ε) (hu : δ + ε + f.u ≤ d)
    (hκ : κ * σ = d) (hg : g * σ = κ)
    (k4 : κ ≤ 1 / 4096) (hs : σ = Real.sin φ) (hT : TanAcc f ε) (hbig : f.Big (2 / σ)) {x : Flt f} (hx : Near x φ (24 * d)) :
    Near (1 / L.tan x) (Real.cos φ / σ) (28 * g) := by
  have hp := hw.p
  have u0 := f.u_pos
  have hu8 := Fmt.u_le_of_p hp
  have σ1 : σ ≤ 1 := hs ▸ Real.sin_le_one _
  have d0 : 0 < d := by linarith
  have κ0 : 0 < κ := by
    by_contra hcc
    push Not at hcc
    nlinarith
  have g0 : 0 < g := by
    by_contra hcc
    push Not at hcc
    nlinarith
  have dκ : d ≤ κ := by rw [← hκ]; exact mul_le_of_le_one_right κ0.le σ1
  have κg : κ ≤ g := by rw [← hg]; exact mul_le_of_le_one_right g0.le σ1
  have dσ : 4096 * d ≤ σ := by
    have := mul_le_mul_of_nonneg_right k4 σ0.le
    rw [hκ] at this
    linarith
  have es : κ = d / σ := by rw [← hκ]; field_simp
  have eg : g = d / σ ^ 2 := by rw [← hκ, ← hg]; field_simp
  obtain ⟨s, hsx⟩ : ∃ s, s = Real.sin x.toReal := ⟨_, rfl⟩
  obtain ⟨c, hcx⟩ : ∃ c, c = Real.cos x.toReal := ⟨_, rfl⟩
  have s1 : |s - σ| ≤ 24 * d := by rw [hsx, hs]; exact (ls _ _).trans hx.err
  obtain ⟨s2, s3⟩ := _root_.abs_le.1 s1
  have s9 : 99 / 100 * σ ≤ s := by linarith
  have s0 : 0 < s := by linarith
  have as : |s| = s := abs_of_pos s0
  have c1 : |c| ≤ 1 := by rw [hcx]; exact Real.abs_cos_le_one _
  -- the cotangents of the exact and of the computed half angle
  have e1 : |c / s - Real.cos φ / σ| ≤ 2425 / 100 * g := by
    have e : c / s - Real.cos φ / σ = Real.sin (φ - x.toReal) / (s * σ) := by
      rw [Real.sin_sub, ← hs, ← hcx, ← hsx]
      field_simp
    rw [e, abs_div, abs_of_pos (by positivity : 0 < s * σ), eg, div_le_iff₀ (by positivity)]
    have h1 : |Real.sin (φ - x.toReal)| ≤ 24 * d := by
      have := ls (φ - x.toReal) 0
      rw [Real.sin_zero, sub_zero, sub_zero, abs_sub_comm φ] at this
      exact this.trans hx.err
    have h2 : 24 * d = 2425 / 100 * (d / σ ^ 2) * (24 * 100 / 2425 * σ * σ) := by field_simp
    have h3 : 24 * 100 / 2425 * σ * σ ≤ s * σ := mul_le_mul_of_nonneg_right (by linarith) σ0.le
    have h4 := mul_le_mul_of_nonneg_left h3 (by positivity : 0 ≤ 2425 / 100 * (d / σ ^ 2))
    linarith
  have hcs : |c / s| ≤ 102 / 100 / σ := by
    rw [abs_div, as, div_le_div_iff₀ s0 σ0]
    nlinarith
  rcases hT x hx.fin (by rw [← hsx, as]; linarith) with ⟨t1, t2⟩ | ⟨⟨sg, ht⟩, t2⟩
  · rw [← hsx, ← hcx, as] at t2
    generalize L.tan x = t at *
    obtain ⟨t3, t4⟩ := _root_.abs_le.1 t2
    have hε : ε ≤ 1 / 4096 := by linarith
    have htc : 99 / 100 * s ≤ t.toReal * c := by nlinarith
    have ht0 : t.toReal ≠ 0 := by
      intro h
      rw [h, zero_mul] at htc
      linarith
    have at0 : 0 < |t.toReal| := abs_pos.2 ht0
    have hti : |1 / t.toReal| ≤ 104 / 100 / σ := by
      rw [abs_div, abs_one, div_le_div_iff₀ at0 σ0]
      have h1 : |t.toReal * c| ≤ |t.toReal| := by rw [abs_mul]; exact mul_le_of_le_one_right at0.le c1
      have h2 := le_abs_self (t.toReal * c)
      linarith
    have e2 : |1 / t.toReal - c / s| ≤ ε * (104 / 100 / σ) := by
      have e : 1 / t.toReal - c / s = (s - t.toReal * c) / s * (1 / t.toReal) := by field_simp
      rw [e, abs_mul]
      refine mul_le_mul ?_ hti (abs_nonneg _) hε0
      rw [abs_div, as, abs_sub_comm, div_le_iff₀ s0]
      exact t2
    have hfin : (1 / t).IsFin := by
      refine div_isFin isFin_one t1 ht0 (hbig.mono ?_)
      rw [toReal_one]
      exact hti.trans (by gcongr; norm_num)
    refine ⟨hfin, ?_⟩
    have e3 := (div_err t1 hfin).2
    rw [toReal_one] at e3
    have e4 := mul_le_mul_of_nonneg_left hti u0.le
    have h7 := f.eta_le_sq
    have h8 := mul_le_mul_of_nonneg_left hu8 u0.le
    have h9 : (ε + f.u) * (104 / 100 / σ) ≤ 104 / 100 * κ := by
      rw [es, show (ε + f.u) * (104 / 100 / σ) = 104 / 100 * ((ε + f.u) / σ) by ring]
      exact mul_le_mul_of_nonneg_left (div_le_div_of_nonneg_right (by linarith) σ0.le) (by norm_num)
    have h10 := abs_sub_le (1 / t).toReal (1 / t.toReal) (c / s)
    have h11 := abs_sub_le (1 / t).toReal (c / s) (Real.cos φ / σ)
    linarith
  · rw [ht]
    have hz : (1 / inf sg : Flt f) = fin (false != sg) 0 f.rep_zero := rfl
    rw [hz]
    refine ⟨trivial, ?_⟩
    have hz' : (fin (false != sg) 0 f.rep_zero : Flt f).toReal = 0 := by
      change sgn _ 0 = 0
      unfold sgn
      split <;> simp
    rw [hz']
    rw [← hsx, ← hcx, as] at t2
    have h1 : |c / s| ≤ ε := by
      rw [abs_div, as, div_le_iff₀ s0]
      exact t2
    have h2 := abs_sub_le 0 (c / s) (Real.cos φ / σ)
    simp only [zero_sub, abs_neg] at h2 ⊢
    linarith

/-- The displacement is the component of the translation along the axis. -/
private theorem screw_along {l m : Vec 3 ℝ} (hlm : IsLine l m) (φ D : ℝ) {t : Vec 3 ℝ}
    (ht : ∀ i, t i = D * l i + 2 * Real.sin φ * Real.cos φ * m i - 2 * Real.sin φ ^ 2 * V3.cross m l i) :
    t 0 * l 0 + t 1 * l 1 + t 2 * l 2 = D := by
  obtain ⟨hl, hm⟩ := hlm
  rw [ht, ht, ht, V3.cross_0, V3.cross_1, V3.cross_2]
  linear_combination D * hl + 2 * Real.sin φ * Real.cos φ * hm

/-- The moment from the translation. -/
private theorem screw_moment {l m : Vec 3 ℝ} (hlm : IsLine l m) {σ φ D : ℝ} (hs : σ = Real.sin φ) (σ0 : 0 < σ) {t : Vec 3 ℝ}
    (ht : ∀ i, t i = D * l i + 2 * Real.sin φ * Real.cos φ * m i - 2 * Real.sin φ ^ 2 * V3.cross m l i) (i : Fin 3) :
    V3.cross t l i + (t i - l i * D) * (Real.cos φ / σ) = 2 * m i := by
  obtain ⟨hl, hm⟩ := hlm
  have hsc := Real.sin_sq_add_cos_sq φ
  rw [← hs] at ht hsc
  have e : (t i - l i * D) * (Real.cos φ / σ) = 2 * Real.cos φ ^ 2 * m i - 2 * σ * Real.cos φ * V3.cross m l i := by
    rw [ht]
    field_simp
    ring
  rw [e]
  fin_cases i
  · change V3.cross t l 0 + (2 * Real.cos φ ^ 2 * m 0 - 2 * σ * Real.cos φ * V3.cross m l 0) = 2 * m 0
    rw [V3.cross_0, V3.cross_0, ht, ht, V3.cross_1, V3.cross_2]
    linear_combination 2 * m 0 * hsc + 2 * σ ^ 2 * m 0 * hl - 2 * σ ^ 2 * l 0 * hm
  · change V3.cross t l 1 + (2 * Real.cos φ ^ 2 * m 1 - 2 * σ * Real.cos φ * V3.cross m l 1) = 2 * m 1
    rw [V3.cross_1, V3.cross_1, ht, ht, V3.cross_0, V3.cross_2]
    linear_combination 2 * m 1 * hsc + 2 * σ ^ 2 * m 1 * hl - 2 * σ ^ 2 * l 1 * hm
  · change V3.cross t l 2 + (2 * Real.cos φ ^ 2 * m 2 - 2 * σ * Real.cos φ * V3.cross m l 2) = 2 * m 2
    rw [V3.cross_2, V3.cross_2, ht, ht, V3.cross_0, V3.cross_1]
    linear_combination 2 * m 2 * hsc + 2 * σ ^ 2 * m 2 * hl - 2 * σ ^ 2 * l 2 * hm

/-- The sizes of the translation and of its component orthogonal to the axis. -/
private theorem screw_trans_size {l m : Vec 3 ℝ} (hlm : IsLine l m) {σ φ D P : ℝ} (hs : σ = Real.sin φ) {t : Vec 3 ℝ} (hP : 0 ≤ P)
    (ht : ∀ i, t i = D * l i + 2 * Real.sin φ * Real.cos φ * m i - 2 * Real.sin φ ^ 2 * V3.cross m l i)
    (h : (D / 2) ^ 2 + σ ^ 2 * (m 0 ^ 2 + m 1 ^ 2 + m 2 ^ 2) ≤ P ^ 2) (i : Fin 3) : |t i| ≤ 2 * P ∧ |t i - l i * D| ≤ 2 * P := by
  obtain ⟨hl, hm⟩ := hlm
  have hsc := Real.sin_sq_add_cos_sq φ
  rw [← hs] at ht hsc
  have lm : l 0 * V3.cross m l 0 + l 1 * V3.cross m l 1 + l 2 * V3.cross m l 2 = 0 := by
    rw [V3.cross_0, V3.cross_1, V3.cross_2]; ring
  have mm : m 0 * V3.cross m l 0 + m 1 * V3.cross m l 1 + m 2 * V3.cross m l 2 = 0 := by
    rw [V3.cross_0, V3.cross_1, V3.cross_2]; ring
  have nn : V3.cross m l 0 ^ 2 + V3.cross m l 1 ^ 2 + V3.cross m l 2 ^ 2 = m 0 ^ 2 + m 1 ^ 2 + m 2 ^ 2 := by
    rw [V3.cross_0, V3.cross_1, V3.cross_2]
    linear_combination (m 0 ^ 2 + m 1 ^ 2 + m 2 ^ 2) * hl - (l 0 * m 0 + l 1 * m 1 + l 2 * m 2) * hm
  have w (j : Fin 3) : t j - l j * D = 2 * σ * Real.cos φ * m j - 2 * σ ^ 2 * V3.cross m l j := by rw [ht]; ring
  have W : (t 0 - l 0 * D) ^ 2 + (t 1 - l 1 * D) ^ 2 + (t 2 - l 2 * D) ^ 2 = 4 * (σ ^ 2 * (m 0 ^ 2 + m 1 ^ 2 + m 2 ^ 2)) := by
    rw [w, w, w]
    linear_combination 4 * σ ^ 4 * nn - 8 * σ ^ 3 * Real.cos φ * mm + 4 * σ ^ 2 * (m 0 ^ 2 + m 1 ^ 2 + m 2 ^ 2) * hsc
  have V : t 0 ^ 2 + t 1 ^ 2 + t 2 ^ 2 = D ^ 2 + 4 * (σ ^ 2 * (m 0 ^ 2 + m 1 ^ 2 + m 2 ^ 2)) := by
    have e (j : Fin 3) : t j = D * l j + (t j - l j * D) := by ring
    rw [← W, e 0, e 1, e 2, w, w, w]
    linear_combination D ^ 2 * hl + 4 * D * σ * Real.cos φ * hm - 4 * D * σ ^ 2 * lm
  have comp (v : Vec 3 ℝ) (j : Fin 3) : v j ^ 2 ≤ v 0 ^ 2 + v 1 ^ 2 + v 2 ^ 2 := by
    have l0 := sq_nonneg (v 0)
    have l1 := sq_nonneg (v 1)
    have l2 := sq_nonneg (v 2)
    fin_cases j
    · change v 0 ^ 2 ≤ _; linarith
    · change v 1 ^ 2 ≤ _; linarith
    · change v 2 ^ 2 ≤ _; linarith
  have eP : (2 * P) ^ 2 = 4 * P ^ 2 := by ring
  have eD : (D / 2) ^ 2 = D ^ 2 / 4 := by ring
  have D0 := sq_nonneg D
  rw [eD] at h
  refine ⟨abs_le_of_sq_le_sq ?_ (by linarith), abs_le_of_sq_le_sq ?_ (by linarith)⟩
  · have := comp t i
    linarith
  · have := comp ⟨fun j => t j - l j * D⟩ i
    linarith

/-- The sizes in the error analysis. -/
private structure Sp (f : Fmt) (P σ d S κ g : ℝ) : Prop where
  σ0 : 0 < σ
  σ1 : σ ≤ 1
  hu : f.u ≤ d
  hκ : κ * σ = d
  hg : g * σ = κ
  hS : S * σ = P
  k4 : κ ≤ 1 / 4096
  P8 : 1 / 8 ≤ P
  big : f.Big (16 * S + 16)

private theorem Sp.facts {P σ d S κ g : ℝ} (h : Sp f P σ d S κ g) :
    0 < d ∧ d ≤ κ ∧ κ ≤ g ∧ P ≤ S ∧ P * d ≤ P * κ ∧ P * κ ≤ P * g ∧ S * d = P * κ ∧ S * κ = P * g ∧
      f.u * P ≤ P * d ∧ f.u * S ≤ P * κ ∧ P * κ ≤ P / 4096 ∧ P * g ≤ S / 4096 ∧ d ≤ 8 * (P * d) := by
  obtain ⟨σ0, σ1, hu, hκ, hg, hS, k4, P8, -⟩ := h
  have u0 := f.u_pos
  have d0 : 0 < d := by linarith
  have κ0 : 0 < κ := by
    by_contra hc
    push Not at hc
    nlinarith
  have g0 : 0 < g := by
    by_contra hc
    push Not at hc
    nlinarith
  have S0 : 0 < S := by
    by_contra hc
    push Not at hc
    nlinarith
  have dκ : d ≤ κ := by rw [← hκ]; exact mul_le_of_le_one_right κ0.le σ1
  have κg : κ ≤ g := by rw [← hg]; exact mul_le_of_le_one_right g0.le σ1
  have PS : P ≤ S := by rw [← hS]; exact mul_le_of_le_one_right S0.le σ1
  have P0 : 0 ≤ P := by linarith
  have e1 : S * d = P * κ := by rw [← hκ, ← hS]; ring
  have e2 : S * κ = P * g := by rw [← hg, ← hS]; ring
  refine ⟨d0, dκ, κg, PS, mul_le_mul_of_nonneg_left dκ P0, mul_le_mul_of_nonneg_left κg P0, e1, e2, ?_, ?_, ?_, ?_, ?_⟩
  · rw [mul_comm]; exact mul_le_mul_of_nonneg_left hu P0
  · rw [← e1, mul_comm]; exact mul_le_mul_of_nonneg_left hu S0.le
  · rw [div_eq_mul_one_div]; exact mul_le_mul_of_nonneg_left k4 P0
  · rw [← e2, div_eq_mul_one_div]; exact mul_le_mul_of_nonneg_left k4 S0.le
  · nlinarith

/-- The displacement and the moment. -/
private theorem moment_part (hp : 8 ≤ f.p) {P σ d S κ g : ℝ} (z : Sp f P σ d S κ g) {t a : Vec 3 (Flt f)} {ct : Flt f}
    {T l m : Vec 3 ℝ} {D k : ℝ} (ht : ∀ i, Near (t i) (T i) (17 * (P * d))) (ha : ∀ i, Near (a i) (l i) (30 * κ))
    (hct : Near ct k (28 * g)) (hT : ∀ i, |T i| ≤ 2 * P) (hl : ∀ i, |l i| ≤ 1) (hk : |k| * P ≤ S) (hk' : |k| * κ ≤ g) (hD : |D| ≤ 2 * P) (hm : ∀ i, |m i| ≤ S)
    (hTD : ∀ i, |T i - l i * D| ≤ 2 * P) (eD : T 0 * l 0 + T 1 * l 1 + T 2 * l 2 = D)
    (em : ∀ i, V3.cross T l i + (T i - l i * D) * k = 2 * m i) :
    Near (V3.dot t a) D (248 * (P * κ)) ∧
    ∀ i, Near ((V3.cross t a i + (t i - a i * V3.dot t a) * ct) * (1 / (1 + 1))) (m i) (283 * (P * g)) := by
  obtain ⟨d0, dκ, κg, PS, Pd, Pκ, Sd, Sκ, uP, uS, Pκ4, Pg4, dP⟩ := z.facts
  have u0 := f.u_pos
  have σ0 := z.σ0
  have k4 := z.k4
  have P8 := z.P8
  have hu := z.hu
  have P0 : 0 ≤ P := by linarith
  have uP0 : 0 ≤ f.u * P := mul_nonneg u0.le (by linarith)
  have b1 : f.Big (16 * S + 16) := z.big
  -- products
  have n1 (i j : Fin 3) : Near (t i * a j) (T i * l j) (80 * (P * κ)) := by
    have := hT i
    have := hl j
    refine (ht i).mul' hp (A := 201 / 100 * P) (C := 1) (D := 101 / 100) (B := 205 / 100 * P) (b1.mono (by linarith)) (ha j)
      (by linarith) (by linarith) (by linarith) (by linarith) (by linarith)
  have pr (i j : Fin 3) : |T i * l j| ≤ 2 * P := by
    rw [abs_mul]
    exact (mul_le_of_le_one_right (abs_nonneg _) (hl j)).trans (hT i)
  have n2 : Near (V3.dot t a) D (248 * (P * κ)) := by
    rw [← eD]
    change Near (t 0 * a 0 + t 1 * a 1 + t 2 * a 2) _ _
    have m1 := (n1 0 0).add' (B := 41 / 10 * P) (e := 165 * (P * κ)) (b1.mono (by linarith)) (n1 1 1)
      (by linarith [abs_add_le (T 0 * l 0) (T 1 * l 1), pr 0 0, pr 1 1]) (by linarith)
    exact m1.add' (B := 21 / 10 * P) (b1.mono (by linarith)) (n1 2 2) (by rw [eD]; linarith) (by linarith)
  refine ⟨n2, fun i => ?_⟩
  have n3 : Near (V3.cross t a i) (V3.cross T l i) (165 * (P * κ)) := by
    have s (i j i' j' : Fin 3) : Near (t i * a j - t i' * a j') (T i * l j - T i' * l j') (165 * (P * κ)) := by
      refine (n1 i j).sub' (B := 41 / 10 * P) (b1.mono (by linarith)) (n1 i' j') ?_ (by linarith)
      linarith [abs_sub (T i * l j) (T i' * l j'), pr i j, pr i' j']
    fin_cases i
    exacts [s 1 2 2 1, s 2 0 0 2, s 0 1 1 0]
  have hli := hl i
  have n4 := (ha i).mul' hp (A := 101 / 100) (C := 2 * P) (D := 21 / 10 * P) (B := 213 / 100 * P) (e := 313 * (P * κ)) (b1.mono (by linarith)) n2
    (by linarith) hD (by linarith) (by linarith) (by linarith)
  have hTDi := hTD i
  have n5 := (ht i).sub' (B := 21 / 10 * P) (e := 333 * (P * κ)) (b1.mono (by linarith)) n4 (by linarith) (by linarith)
  have k0 := abs_nonneg k
  have r0 : 1 / σ * P = S := by rw [← z.hS]; field_simp
  have r1 : 1 / σ * κ = g := by rw [← z.hg]; field_simp
  have r2 : 0 < 1 / σ := by positivity
  have n6 := n5.mul' hp (A := 21 / 10 * P) (C := |k|) (D := |k| + 28 * g) (B := 22 / 10 * S) (e := 395 * (P * g)) (b1.mono (by linarith)) hct
    (by linarith) le_rfl le_rfl (by linarith) (by
      have := mul_le_mul_of_nonneg_left hk' P0
      linarith)
  have n7 := n3.add' (B := 22 / 10 * S) (e := 563 * (P * g)) (b1.mono (by linarith)) n6 (by
    rw [em, abs_mul, abs_two]
    linarith [hm i]) (by linarith)
  rw [em] at n7
  have n8 := n7.mul' hp (A := 22 / 10 * S) (C := 1 / 2) (D := 1 / 2) (B := 11 / 10 * S) (e := 283 * (P * g)) (b1.mono (by linarith)) Near.half (by
    rw [abs_mul, abs_two]
    linarith [hm i]) (by norm_num) (by norm_num) (by linarith) (by linarith)
  exact n8.congr (by ring)

/-- The entries of the motion with the computed parameters. -/
private theorem rebuild_part (hp : 8 ≤ f.p) {P σ d S κ g : ℝ} (z : Sp f P σ d S κ g) {s c D' a m' : Flt f} {cφ l m D : ℝ}
    (hs : Near s σ (25 * d)) (hc : Near c cφ (25 * d)) (hc1 : |cφ| ≤ 1) (hl : |l| ≤ 1)
    (hD : |D| ≤ 2 * P) (hm : |m| ≤ S) (ha : Near a l (30 * κ)) (hD' : Near D' D (248 * (P * κ))) (hm' : Near m' m (283 * (P * g)))
    (hsum : |m * σ + l * (D / 2) * cφ| ≤ P) :
    Near (a * s) (l * σ) (57 * d) ∧ Near (s * (-D' / (1 + 1))) (σ * (-D / 2)) (500 * (P * κ)) ∧
    Near (m' * s + a * (D' / (1 + 1)) * c) (m * σ + l * (D / 2) * cφ) (500 * (P * κ)) := by
  obtain ⟨d0, dκ, κg, PS, Pd, Pκ, Sd, Sκ, uP, uS, Pκ4, Pg4, dP⟩ := z.facts
  have u0 := f.u_pos
  have σ0 := z.σ0
  have σ1 := z.σ1
  have k4 := z.k4
  have P8 := z.P8
  have hu := z.hu
  have P0 : 0 ≤ P := by linarith
  have uP0 : 0 ≤ f.u * P := mul_nonneg u0.le (by linarith)
  have b1 : f.Big (16 * S + 16) := z.big
  have aσ : |σ| = σ := abs_of_pos σ0
  have hκ := z.hκ
  have hg := z.hg
  have hS := z.hS
  have dσ : d ≤ σ / 4096 := by
    have := mul_le_mul_of_nonneg_right k4 σ0.le
    linarith
  have n1 := ha.mul hp (A := 101 / 100) (C := σ) (D := 101 / 100) (B := 103 / 100) (e := 57 * d) hs (by linarith) aσ.le
    (by rw [aσ]; linarith) (by norm_num) (by norm_num) (by linarith)
  have aD2 : |D / 2| ≤ P := by rw [abs_div, abs_two]; linarith
  have aD2' : |-D / 2| ≤ P := by rw [neg_div, abs_neg]; exact aD2
  have n2 := hD'.neg.div' hp (c := 2) (Q := P) (B := 11 / 10 * P) (e := 126 * (P * κ)) (b1.mono (by linarith)) Near.two (by norm_num)
    (by norm_num) aD2' (by linarith) (by linarith)
  have n3 := hs.mul' hp (A := 101 / 100) (C := P) (D := 11 / 10 * P) (B := 12 / 10 * P) (e := 500 * (P * κ)) (b1.mono (by linarith)) n2
    (by rw [aσ]; linarith) aD2' (by linarith) (by linarith) (by linarith)
  have n4 := hD'.div' hp (c := 2) (Q := P) (B := 11 / 10 * P) (e := 126 * (P * κ)) (b1.mono (by linarith)) Near.two (by norm_num)
    (by norm_num) aD2 (by linarith) (by linarith)
  have n5 := ha.mul' hp (A := 101 / 100) (C := P) (D := 104 / 100 * P) (B := 106 / 100 * P) (e := 159 * (P * κ)) (b1.mono (by linarith)) n4
    (by linarith) aD2 (by linarith) (by linarith) (by linarith)
  have al : |l * (D / 2)| ≤ P := by
    rw [abs_mul]
    exact (mul_le_of_le_one_left (abs_nonneg _) hl).trans aD2
  have n6 := n5.mul' hp (A := 105 / 100 * P) (C := 1) (D := 101 / 100) (B := 107 / 100 * P) (e := 187 * (P * κ)) (b1.mono (by linarith)) hc
    (by linarith) hc1 (by linarith) (by linarith) (by linarith)
  have n7 := hm'.mul' hp (A := 107 / 100 * S) (C := σ) (D := 101 / 100 * σ) (B := 11 / 10 * P) (e := 311 * (P * κ)) (b1.mono (by linarith)) hs
    (by linarith) aσ.le (by rw [aσ]; linarith) (by linarith) (by
      have e : σ * (283 * (P * g)) = 283 * (P * κ) := by rw [← hg]; ring
      linarith)
  have n8 := n7.add' (B := 12 / 10 * P) (e := 500 * (P * κ)) (b1.mono (by linarith)) n6 (by linarith) (by linarith)
  exact ⟨n1, n3, n8⟩

private theorem params_eq [L : Libm f] (x : DQuat (Flt f)) (h : nearly_zero x.q_real.get_angle = false) :
    x.get_screw_parameters =
      let a : Vec 3 (Flt f) := ⟨fun i => x.q_real.q i / L.sin (x.q_real.get_angle / (1 + 1))⟩
      let t := x.get_translation
      (a, ⟨fun i => (V3.cross t a i + (t i - a i * V3.dot t a) * (1 / L.tan (x.q_real.get_angle / (1 + 1)))) * (1 / (1 + 1))⟩,
        x.q_real.get_angle, V3.dot t a) := by
  unfold DQuat.get_screw_parameters
  change (if (!nearly_zero x.q_real.get_angle) = true then _ else _) = _
  rw [h, if_pos (by decide)]
  dsimp only
  have e : V3.sdiv x.real.imag (RFloat.sin (x.real.get_angle / (1 + 1))) =
      ⟨fun i => x.q_real.q i / L.sin (x.q_real.get_angle / (1 + 1))⟩ := by
    refine Vec.ext (funext fun i => ?_)
    rw [V3.sdiv_apply]
    rfl
  rw [e]
  congr 2
  refine Vec.ext (funext fun i => ?_)
  rw [V3.smul_apply, V3.add_apply, V3.smul_apply, V3.sub_apply, V3.smul_apply]
  rfl

/-- The translation. -/
private theorem trans_near (hp : 8 ≤ f.p) {x : DQuat (Flt f)} {y : DQuat ℝ} {P δ ε : ℝ} (hx : x.Close y P δ) (hP : 1 / 8 ≤ P) (hε0 : 0 ≤ ε)
    (hδ : δ ≤ 22 / 100) (hov : 16 * (2 + 2 * P) ^ 2 ≤ (2 : ℝ) ^ f.emax) (i : Fin 3) :
    Near (x.get_translation i) (y.get_translation i) (17 * (P * (δ + ε + f.u))) := by
  have key := fun i => (C136_to_homogeneous hp hx hP hδ hov i 0).2.1
  have key' : (x.get_translation i).IsFin ∧ |(x.get_translation i).toReal - y.get_translation i| ≤ P * (5 * δ + 17 * f.u) := by
    fin_cases i
    exacts [key 0, key 1, key 2]
  obtain ⟨-, -, hδ0, -⟩ := hx.norms
  refine ⟨key'.1, key'.2.trans ?_⟩
  have := mul_le_mul_of_nonneg_left (by linarith : 5 * δ + 17 * f.u ≤ 17 * (δ + ε + f.u)) (by linarith : 0 ≤ P)
  linarith

/-- What is known about the computed parameters. -/
private theorem params_near [RealParams] [L : Libm f] (hw : f.Wide) {x : DQuat (Flt f)} {l m : Vec 3 ℝ} (hlm : IsLine l m) {θ D P δ ε : ℝ}
    (hx : x.Close (DQuat.new_from_screw_parameters l m θ D) P δ) (h : SinCosAcc f ε) (hA : Atan2Acc f ε) (hT : TanAcc f ε) (h0 : 0 ≤ θ)
    (h1 : θ ≤ 2 * Real.pi) {σ : ℝ} (hσe : σ = Real.sin (θ / 2)) (hσ : 0 < σ) (hd : 4096 * (δ + ε + f.u) ≤ σ) (hP : 1 / 8 ≤ P)
    (hov : 16 * (2 + 2 * (P / σ)) ^ 2 ≤ (2 : ℝ) ^ f.emax) :
    Sp f P σ (δ + ε + f.u) (P / σ) ((δ + ε + f.u) / σ) ((δ + ε + f.u) / σ ^ 2) ∧
    (∀ i, Near (x.get_screw_parameters.1 i) (l i) (30 * ((δ + ε + f.u) / σ))) ∧
    (∀ i, Near (x.get_screw_parameters.2.1 i) (m i) (283 * (P * ((δ + ε + f.u) / σ ^ 2)))) ∧
    Near x.get_screw_parameters.2.2.1 θ (41 * (δ + ε + f.u)) ∧
    Near x.get_screw_parameters.2.2.2 D (248 * (P * ((δ + ε + f.u) / σ))) ∧
    Near (L.sin (x.get_screw_parameters.2.2.1 / (1 + 1))) σ (25 * (δ + ε + f.u)) ∧
    Near (L.cos (x.get_screw_parameters.2.2.1 / (1 + 1))) (Real.cos (θ / 2)) (25 * (δ + ε + f.u)) := by
  have hp := hw.p
  have u0 := f.u_pos
  have hu := Fmt.u_le_of_p hp
  have hε0 : 0 ≤ ε := acc_nonneg h
  obtain ⟨-, -, hδ0, -⟩ := hx.norms
  obtain ⟨S, hS⟩ : ∃ S, S = P / σ := ⟨_, rfl⟩
  obtain ⟨g, hg⟩ : ∃ g, g = (δ + ε + f.u) / σ ^ 2 := ⟨_, rfl⟩
  obtain ⟨κ, hκ⟩ : ∃ κ, κ = (δ + ε + f.u) / σ := ⟨_, rfl⟩
  obtain ⟨hl, hD, hm, hsz⟩ := screw_sizes hlm hσe hσ hx.size
  rw [← hS] at hov hm ⊢
  rw [← hg, ← hκ]
  have S0 : 0 < S := by rw [hS]; positivity
  have σ1 : σ ≤ 1 := hσe ▸ Real.sin_le_one _
  have z : Sp f P σ (δ + ε + f.u) S κ g := by
    refine ⟨hσ, σ1, by linarith, by rw [hκ]; field_simp, by rw [hg, hκ]; field_simp, by rw [hS]; field_simp, ?_, hP, ?_⟩
    · rw [hκ, div_le_div_iff₀ (by positivity) (by norm_num)]
      linarith
    · unfold Fmt.Big
      rw [zpow_add₀ (by norm_num), zpow_one]
      nlinarith
  obtain ⟨d0, dκ, κg, PS, Pd, Pκ, Sd, Sκ, uP, uS, Pκ4, Pg4, dP⟩ := z.facts
  obtain ⟨d, hde⟩ : ∃ d, d = δ + ε + f.u := ⟨_, rfl⟩
  obtain ⟨c1, c2, c3, c4⟩ := screw_comp l m θ D
  rw [← hσe] at c2 c3 c4
  have P0 : 0 ≤ P := by linarith
  obtain ⟨a1, a2, a3, a4, a5⟩ := axis_part hw hσ le_rfl z.hκ (by linarith [z.k4]) h hA (by linarith : 0 ≤ θ / 2) (by linarith) hσe hlm.unit
    x.q_real (fun i => (hx.fin i).1) (y := (DQuat.new_from_screw_parameters l m θ D).q_real.toH) c1 (c2 0) (c2 1) (c2 2) hx.real
  have eθ : 2 * (θ / 2) = θ := by ring
  rw [eθ] at a1
  have a6 := cot_part hw hσ hδ0 hε0 le_rfl z.hκ z.hg z.k4 hσe hT (z.big.mono (by
    have : 2 / σ ≤ 16 * (P / σ) := by
      rw [mul_div_assoc']
      exact div_le_div_of_nonneg_right (by linarith) hσ.le
    rw [hS]
    linarith)) a2
  have hz : nearly_zero x.q_real.get_angle = false := by
    rw [Bool.eq_false_iff]
    intro hc
    have := ((nearly_zero_flt _).1 hc).2
    have h3 := a1.err
    have h4 := Real.sin_le (by linarith : 0 ≤ θ / 2)
    rw [← hσe] at h4
    have h5 := abs_sub_abs_le_abs_sub θ x.q_real.get_angle.toReal
    rw [abs_sub_comm θ, abs_of_nonneg h0] at h5
    have h6 : (2 : ℝ) ^ (1 - (f.p : ℤ)) = 2 * f.u := by
      unfold Fmt.u
      rw [sub_eq_add_neg, zpow_add₀ (by norm_num), zpow_one]
    rw [h6] at this
    linarith
  rw [params_eq x hz]
  have ht := screw_translation hlm θ D
  have htr (i : Fin 3) : Near (x.get_translation i) ((DQuat.new_from_screw_parameters l m θ D).get_translation i) (17 * (P * (δ + ε + f.u))) := by
    refine trans_near hp hx hP hε0 (by linarith) ?_ i
    refine le_trans ?_ hov
    have : (2 + 2 * P) ^ 2 ≤ (2 + 2 * S) ^ 2 := pow_le_pow_left₀ (by linarith) (by linarith) 2
    linarith
  generalize (DQuat.new_from_screw_parameters l m θ D).get_translation = T at ht htr
  have tsz := screw_trans_size hlm hσe P0 ht hsz
  have hk : |Real.cos (θ / 2) / σ| ≤ 1 / σ := by
    rw [abs_div, abs_of_pos hσ]
    exact div_le_div_of_nonneg_right (Real.abs_cos_le_one _) hσ.le
  obtain ⟨e1, e2⟩ := moment_part hp z (a := ⟨fun i => x.q_real.q i / L.sin (x.q_real.get_angle / (1 + 1))⟩) htr a5 a6 (fun i => (tsz i).1) hl
    ((mul_le_mul_of_nonneg_right hk P0).trans (by rw [hS, one_div_mul_eq_div]))
    ((mul_le_mul_of_nonneg_right hk (by linarith)).trans (by rw [hκ, hg, one_div_mul_eq_div, div_div, sq]))
    hD hm (fun i => (tsz i).2) (screw_along hlm _ _ ht) (screw_moment hlm hσe hσ ht)
  exact ⟨z, a5, e2, a1, e1, a3, a4⟩

/-- `get_screw_parameters` of a float dual quaternion within `δ` of the screw motion about the line `(l, m)` with angle `θ` and
displacement `D`: axis, moment, angle and displacement are those of the motion up to explicit multiples of `(δ + ε + u)`, divided by
`sin (θ/2)` for the axis and the displacement and by its square for the moment. -/
theorem C143_parameters_partial [RealParams] [Libm f] (hw : f.Wide) {x : DQuat (Flt f)} {l m : Vec 3 ℝ} (hlm : IsLine l m) {θ D P δ ε : ℝ}
    (hx : x.Close (DQuat.new_from_screw_parameters l m θ D) P δ) (h : SinCosAcc f ε) (hA : Atan2Acc f ε) (hT : TanAcc f ε) (h0 : 0 ≤ θ)
    (h1 : θ ≤ 2 * Real.pi) (hσ : 0 < Real.sin (θ / 2)) (hd : 4096 * (δ + ε + f.u) ≤ Real.sin (θ / 2)) (hP : 1 / 8 ≤ P)
    (hov : 16 * (2 + 2 * (P / Real.sin (θ / 2))) ^ 2 ≤ (2 : ℝ) ^ f.emax) {l' m' : Vec 3 (Flt f)} {θ' D' : Flt f}
    (hr : x.get_screw_parameters = (l', m', θ', D')) :
    (∀ i, (l' i).IsFin ∧ |(l' i).toReal - l i| ≤ 30 * ((δ + ε + f.u) / Real.sin (θ / 2))) ∧
    (∀ i, (m' i).IsFin ∧ |(m' i).toReal - m i| ≤ 283 * (P * ((δ + ε + f.u) / Real.sin (θ / 2) ^ 2))) ∧
    (θ'.IsFin ∧ |θ'.toReal - θ| ≤ 41 * (δ + ε + f.u)) ∧
    D'.IsFin ∧ |D'.toReal - D| ≤ 248 * (P * ((δ + ε + f.u) / Real.sin (θ / 2))) := by
  obtain ⟨-, a1, a2, a3, a4, -⟩ := params_near hw hlm hx h hA hT h0 h1 rfl hσ hd hP hov
  rw [hr] at a1 a2 a3 a4
  exact ⟨fun i => ⟨(a1 i).fin, (a1 i).err⟩, fun i => ⟨(a2 i).fin, (a2 i).err⟩, ⟨a3.fin, a3.err⟩, a4.fin, a4.err⟩

/-- `new_from_screw_parameters` of the computed parameters gives the motion back, up to `1000 (δ + ε + u) / sin (θ/2)`. -/
theorem C143_round_trip_partial [RealParams] [L : Libm f] (hw : f.Wide) {x : DQuat (Flt f)} {l m : Vec 3 ℝ} (hlm : IsLine l m) {θ D P δ ε : ℝ}
    (hx : x.Close (DQuat.new_from_screw_parameters l m θ D) P δ) (h : SinCosAcc f ε) (hA : Atan2Acc f ε) (hT : TanAcc f ε) (h0 : 0 ≤ θ)
    (h1 : θ ≤ 2 * Real.pi) (hσ : 0 < Real.sin (θ / 2)) (hd : 4096 * (δ + ε + f.u) ≤ Real.sin (θ / 2)) (hP : 1 / 8 ≤ P)
    (hov : 16 * (2 + 2 * (P / Real.sin (θ / 2))) ^ 2 ≤ (2 : ℝ) ^ f.emax) {l' m' : Vec 3 (Flt f)} {θ' D' : Flt f}
    (hr : x.get_screw_parameters = (l', m', θ', D')) :
    (DQuat.new_from_screw_parameters l' m' θ' D').Close (DQuat.new_from_screw_parameters l m θ D) P
      (1000 * ((δ + ε + f.u) / Real.sin (θ / 2))) := by
  obtain ⟨σ, hσe⟩ : ∃ σ, σ = Real.sin (θ / 2) := ⟨_, rfl⟩
  rw [← hσe] at hσ hd hov ⊢
  obtain ⟨z, a1, a2, a3, a4, a5, a6⟩ := params_near hw hlm hx h hA hT h0 h1 hσe hσ hd hP hov
  rw [hr] at a1 a2 a3 a4 a5 a6
  obtain ⟨hl, hD, hm, -⟩ := screw_sizes hlm hσe hσ hx.size
  generalize hS : P / σ = S at *
  generalize hg : (δ + ε + f.u) / σ ^ 2 = g at *
  generalize hκ : (δ + ε + f.u) / σ = κ at *
  obtain ⟨c1, c2, c3, c4⟩ := screw_comp l m θ D
  rw [← hσe] at c2 c3 c4
  obtain ⟨d0, dκ, κg, PS, Pd, Pκ, Sd, Sκ, uP, uS, Pκ4, Pg4, dP⟩ := z.facts
  have hsum (i : Fin 3) : |m i * σ + l i * (D / 2) * Real.cos (θ / 2)| ≤ P := by
    rw [← c4]
    obtain ⟨p0, p1, p2, p3⟩ := Quat.part_le_norm (DQuat.new_from_screw_parameters l m θ D).q_dual.toH
    fin_cases i
    exacts [p1.trans hx.size, p2.trans hx.size, p3.trans hx.size]
  have R (i : Fin 3) := rebuild_part hw.p z a5 a6 (Real.abs_cos_le_one _) (hl i) hD (hm i) (a1 i) a4 (a2 i) (hsum i)
  have X0 := (a6.congr c1.symm).mono (show 25 * (δ + ε + f.u) ≤ 500 * κ by linarith)
  have X (i : Fin 3) := ((R i).1.congr (c2 i).symm).mono (show 57 * (δ + ε + f.u) ≤ 500 * κ by linarith)
  have Y0 := (R 0).2.1.congr c3.symm
  have Y (i : Fin 3) := (R i).2.2.congr (c4 i).symm
  refine ⟨fun i => ⟨?_, ?_⟩, screw_isMotion hlm _ _, hx.size, ?_, ?_⟩
  · fin_cases i
    exacts [X0.fin, (X 0).fin, (X 1).fin, (X 2).fin]
  · fin_cases i
    exacts [Y0.fin, (Y 0).fin, (Y 1).fin, (Y 2).fin]
  · refine (Quat.reH_sub_le _ _ (e := 500 * κ) fun i => ?_).trans (by linarith)
    fin_cases i
    exacts [X0.err, (X 0).err, (X 1).err, (X 2).err]
  · refine (Quat.reH_sub_le _ _ (e := 500 * (P * κ)) fun i => ?_).trans (by linarith)
    fin_cases i
    exacts [Y0.err, (Y 0).err, (Y 1).err, (Y 2).err]

/-- `log` of a flagged float dual quaternion close to a screw motion: the axis times half the angle, and half the translation. -/
theorem C143_log_partial [RealParams] [L : Libm f] (hw : f.Wide) {x : DQuat (Flt f)} {l m : Vec 3 ℝ} (hlm : IsLine l m) {θ D P δ ε : ℝ}
    (hx : x.Close (DQuat.new_from_screw_parameters l m θ D) P δ) (hflag : x.normalized = true) (h : SinCosAcc f ε) (hA : Atan2Acc f ε)
    (h0 : 0 ≤ θ) (h1 : θ ≤ 2 * Real.pi) (hσ : 0 < Real.sin (θ / 2)) (hd : 8192 * (δ + ε + f.u) ≤ Real.sin (θ / 2)) (hP : 1 / 8 ≤ P)
    (hov : 16 * (2 + 2 * P) ^ 2 ≤ (2 : ℝ) ^ f.emax) :
    ∃ y, x.log = .ok (some y) ∧ y.q_real.q0 = 0 ∧ y.q_dual.q0 = 0 ∧ ∀ i,
      ((y.q_real.q i).IsFin ∧ |(y.q_real.q i).toReal - l i * (θ / 2)| ≤ 2400 * ((δ + ε + f.u) / Real.sin (θ / 2))) ∧
      (y.q_dual.q i).IsFin ∧
      |(y.q_dual.q i).toReal - (DQuat.new_from_screw_parameters l m θ D).get_translation i / 2| ≤ 10 * (P * (δ + ε + f.u)) := by
  obtain ⟨σ, hσe⟩ : ∃ σ, σ = Real.sin (θ / 2) := ⟨_, rfl⟩
  rw [← hσe] at hσ hd ⊢
  have hp := hw.p
  have u0 := f.u_pos
  have hu := Fmt.u_le_of_p hp
  have hε0 : 0 ≤ ε := acc_nonneg h
  obtain ⟨-, -, hδ0, -⟩ := hx.norms
  have σ1 : σ ≤ 1 := hσe ▸ Real.sin_le_one _
  obtain ⟨κ, hκ⟩ : ∃ κ, κ = (δ + ε + f.u) / σ := ⟨_, rfl⟩
  rw [← hκ]
  have hκσ : κ * σ = δ + ε + f.u := by rw [hκ]; field_simp
  have κ4 : κ ≤ 1 / 8192 := by
    rw [hκ, div_le_div_iff₀ (by positivity) (by norm_num)]
    linarith
  have κ0 : 0 < κ := by rw [hκ]; exact div_pos (by linarith) hσ
  have dκ : δ + ε + f.u ≤ κ := by rw [← hκσ]; exact mul_le_of_le_one_right κ0.le σ1
  have P0 : 0 ≤ P := by linarith
  obtain ⟨hl, hD, hm, hsz⟩ := screw_sizes hlm hσe hσ hx.size
  obtain ⟨c1, c2, c3, c4⟩ := screw_comp l m θ D
  rw [← hσe] at c2 c3 c4
  obtain ⟨w, w1, -, w3⟩ := Quat.normalize_near hp (q := x.q_real) (e := δ) (by linarith) hx.motion.norm
    (fun i => ⟨(hx.fin i).1, (Quat.comp_sub_le _ _ i).trans hx.real⟩)
  have w4 := Quat.reH_sub_le w _ fun i => (w3 i).2
  obtain ⟨a1, -⟩ := axis_part hw hσ le_rfl hκσ (by linarith) h hA (by linarith : 0 ≤ θ / 2) (by linarith) hσe hlm.unit
    x.q_real (fun i => (hx.fin i).1) (y := (DQuat.new_from_screw_parameters l m θ D).q_real.toH) c1 (c2 0) (c2 1) (c2 2) hx.real
  obtain ⟨-, -, b3, -, b5⟩ := axis_part hw hσ (δ := 2 * (3 * δ + 12 * f.u)) (d := 25 * (δ + ε + f.u)) (κ := 25 * κ) (by linarith)
    (by rw [← hκσ]; ring) (by linarith) h hA (by linarith : 0 ≤ θ / 2) (by linarith) hσe hlm.unit
    w (fun i => (w3 i).1) (y := (DQuat.new_from_screw_parameters l m θ D).q_real.toH) c1 (c2 0) (c2 1) (c2 2) w4
  have eθ : 2 * (θ / 2) = θ := by ring
  rw [eθ] at a1
  have hax : x.q_real.get_axis = some ⟨fun i => w.q i / L.sin (w.get_angle / (1 + 1))⟩ := by
    unfold Quat.get_axis
    rw [w1]
    change (if ROrd.lt RFloat.epsilon (RAbs.abs (L.sin (w.get_angle / (1 + 1)))) = true then some (V3.sdiv w.q (L.sin (w.get_angle / (1 + 1)))) else none) = _
    rw [if_pos]
    · congr 1
      refine Vec.ext (funext fun i => ?_)
      rw [V3.sdiv_apply]
    · change ROrd.lt (epsilon f) (RAbs.abs (L.sin (w.get_angle / (1 + 1)))) = true
      rw [lt_iff (a := epsilon f) trivial (isFin_abs b3.fin), toReal_abs]
      have h2 : (epsilon f).toReal = 2 * f.u := by
        change sgn false ((2 : ℝ) ^ (1 - (f.p : ℤ))) = _
        unfold Fmt.u sgn
        rw [sub_eq_add_neg, zpow_add₀ (by norm_num), zpow_one]
        rfl
      have h3 := b3.le_abs
      rw [abs_of_pos hσ] at h3
      rw [h2]
      linarith
  have ht := screw_translation hlm θ D
  have htr := trans_near hp hx hP hε0 (by linarith) hov
  have tsz := screw_trans_size hlm hσe P0 ht hsz
  generalize (DQuat.new_from_screw_parameters l m θ D).get_translation = T at ht htr tsz ⊢
  have big : f.Big (16 * P + 16) := by
    unfold Fmt.Big
    rw [zpow_add₀ (by norm_num), zpow_one]
    nlinarith
  have Pd : f.u * P ≤ P * (δ + ε + f.u) := by
    rw [mul_comm]
    exact mul_le_mul_of_nonneg_left (by linarith) P0
  have dP : f.u ≤ 8 * (f.u * P) := by nlinarith
  have Pd' : P * (δ + ε + f.u) ≤ P * (1 / 8192) := mul_le_mul_of_nonneg_left (by linarith) P0
  have hpi := Real.pi_lt_d2
  have aθ : |θ| = θ := abs_of_nonneg h0
  refine ⟨DQuat.new (Quat.new_imag ⟨fun i => w.q i / L.sin (w.get_angle / (1 + 1)) * (1 / (1 + 1)) * x.q_real.get_angle⟩)
    (Quat.new_imag ⟨fun i => x.get_translation i * (1 / (1 + 1))⟩), ?_, rfl, rfl, fun i => ?_⟩
  · unfold DQuat.log
    rw [if_pos hflag]
    change (expectSome "there is no axis" x.q_real.get_axis >>= _) = _
    rw [hax]
    have e1 : V3.smul (V3.smul (⟨fun i => w.q i / L.sin (w.get_angle / (1 + 1))⟩ : Vec 3 (Flt f)) (1 / (1 + 1))) x.q_real.get_angle =
        ⟨fun i => w.q i / L.sin (w.get_angle / (1 + 1)) * (1 / (1 + 1)) * x.q_real.get_angle⟩ := by
      refine Vec.ext (funext fun i => ?_)
      rw [V3.smul_apply, V3.smul_apply]
    have e2 : V3.smul x.get_translation (1 / (1 + 1)) = ⟨fun i => x.get_translation i * (1 / (1 + 1))⟩ := by
      refine Vec.ext (funext fun i => ?_)
      rw [V3.smul_apply]
    rw [← e1, ← e2]
    rfl
  · have hli := hl i
    have n1 := (b5 i).mul hp (A := 11 / 10) (C := 1 / 2) (D := 1 / 2) (B := 55 / 100) (e := 376 * κ) Near.half (by linarith) (by norm_num)
      (by norm_num) (by norm_num) (by norm_num) (by linarith)
    have a5 : |l i * (1 / 2)| ≤ 1 / 2 := by
      rw [abs_mul, abs_of_pos (by norm_num : (0 : ℝ) < 1 / 2)]
      linarith
    have n2 := n1.mul hp (A := 55 / 100) (C := 63 / 10) (D := 632 / 100) (B := 4) (e := 2400 * κ) a1 (by linarith) (by rw [aθ]; linarith)
      (by rw [aθ]; linarith) (by norm_num) (by norm_num) (by linarith)
    have := (tsz i).1
    have n3 := (htr i).mul' hp (A := 201 / 100 * P) (C := 1 / 2) (D := 1 / 2) (B := 101 / 100 * P) (e := 10 * (P * (δ + ε + f.u)))
      (big.mono (by linarith)) Near.half (by linarith) (by norm_num) (by norm_num) (by linarith) (by linarith)
    have n4 := n2.congr (show l i * (1 / 2) * θ = l i * (θ / 2) by ring)
    have n5 := n3.congr (show T i * (1 / 2) = T i / 2 by ring)
    exact ⟨⟨n4.fin, n4.err⟩, n5.fin, n5.err⟩

private theorem Flt.mul_zero_val {a b : Flt f} (ha : a.IsFin) (hb : b.IsFin ∧ b.toReal = 0) : (a * b).IsFin ∧ (a * b).toReal = 0 := by
  obtain ⟨hb, h0⟩ := hb
  rcases a with _ | s | ⟨s, x, hx⟩
  · exact absurd ha id
  · exact absurd ha id
  rcases b with _ | t | ⟨t, y, hy⟩
  · exact absurd hb id
  · exact absurd hb id
  have hx0 : y = 0 := sgn_eq_zero.1 h0
  have e : (fin s x hx * fin t y hy : Flt f) = fin (s != t) 0 f.rep_zero := by
    change pack f (s != t) (x * y) = _
    rw [hx0, mul_zero]
    exact pack_rep f.rep_zero
  rw [e]
  exact ⟨trivial, sgn_eq_zero.2 rfl⟩

private theorem Flt.zero_div_two {a : Flt f} (ha : a.IsFin ∧ a.toReal = 0) : (a / (1 + 1)).IsFin ∧ (a / (1 + 1)).toReal = 0 := by
  obtain ⟨ha, h0⟩ := ha
  obtain ⟨h2, h2'⟩ := Near.two (f := f)
  generalize (1 + 1 : Flt f) = b at h2 h2'
  rcases a with _ | s | ⟨s, x, hx⟩
  · exact absurd ha id
  · exact absurd ha id
  rcases b with _ | t | ⟨t, y, hy⟩
  · exact absurd h2 id
  · exact absurd h2 id
  have hx0 : x = 0 := sgn_eq_zero.1 h0
  have hy0 : y ≠ 0 := by
    rintro rfl
    rw [show (fin t 0 hy : Flt f).toReal = 0 from sgn_eq_zero.2 rfl, zero_sub, abs_neg, abs_two] at h2'
    norm_num at h2'
  have e : (fin s x hx / fin t y hy : Flt f) = fin (s != t) 0 f.rep_zero := by
    change (if y = 0 then _ else pack f (s != t) (x / y)) = _
    rw [if_neg hy0, hx0, zero_div]
    exact pack_rep f.rep_zero
  rw [e]
  exact ⟨trivial, sgn_eq_zero.2 rfl⟩

/-- A pure translation: the computed moment is infinite, and `new_from_screw_parameters` of the computed parameters is not a number.
The hypotheses on the library hold of every implementation: `atan2` of a zero and 1 and the sine of a zero are zeros. -/
theorem C143_translation_false [L : Libm f] (ha : ∀ y, y.IsFin → y.toReal = 0 → (L.atan2 y 1).IsFin ∧ (L.atan2 y 1).toReal = 0)
    (hs : ∀ y, y.IsFin → y.toReal = 0 → (L.sin y).IsFin ∧ (L.sin y).toReal = 0) (t : Vec 3 (Flt f)) {l' m' : Vec 3 (Flt f)}
    {θ' D' : Flt f} (hr : (DQuat.new_from_translation t).get_screw_parameters = (l', m', θ', D')) :
    θ'.IsFin ∧ θ'.toReal = 0 ∧ ∀ i, m' i = inf false ∧ (DQuat.new_from_screw_parameters l' m' θ' D').q_dual.q i = nan := by
  have z : ((0 : Flt f) * 0).IsFin ∧ ((0 : Flt f) * 0).toReal = 0 := mul_zero_fin isFin_zero
  have s1 := add_zero_val z.1 z.1 z.2
  have s2 := add_zero_val s1.1 z.1 z.2
  have n : (V3.norm2 (V3.zero : Vec 3 (Flt f))).IsFin ∧ (V3.norm2 (V3.zero : Vec 3 (Flt f))).toReal = 0 := by
    have e := s2.2.trans (s1.2.trans z.2)
    change (Flt.sqrt (0 * 0 + 0 * 0 + 0 * 0 : Flt f)).IsFin ∧ (Flt.sqrt (0 * 0 + 0 * 0 + 0 * 0 : Flt f)).toReal = 0
    generalize (0 * 0 + 0 * 0 + 0 * 0 : Flt f) = w at s2 e
    rcases w with _ | s | ⟨s, x, hx⟩
    · exact absurd s2.1 id
    · exact absurd s2.1 id
    · have hx0 : x = 0 := sgn_eq_zero.1 e
      change (if x = 0 then fin s x hx else _ : Flt f).IsFin ∧ (if x = 0 then fin s x hx else _ : Flt f).toReal = 0
      rw [if_pos hx0]
      exact ⟨trivial, e⟩
  have n1 := ha _ n.1 n.2
  have n2 : ((1 + 1) * L.atan2 (V3.norm2 V3.zero) 1 : Flt f).IsFin ∧ ((1 + 1) * L.atan2 (V3.norm2 V3.zero) 1 : Flt f).toReal = 0 :=
    Flt.mul_zero_val (Near.two (f := f)).fin n1
  have hz : nearly_zero ((1 + 1) * L.atan2 (V3.norm2 V3.zero) 1 : Flt f) = true := by
    rw [nearly_zero_flt]
    refine ⟨n2.1, ?_⟩
    rw [n2.2, abs_zero]
    positivity
  unfold DQuat.get_screw_parameters at hr
  change (if (!nearly_zero ((1 + 1) * L.atan2 (V3.norm2 V3.zero) 1 : Flt f)) = true then _ else _) = _ at hr
  rw [hz, if_neg (by decide)] at hr
  simp only [Prod.mk.injEq] at hr
  obtain ⟨-, hm, hθ, -⟩ := hr
  have hθ' : θ' = (1 + 1) * L.atan2 (V3.norm2 V3.zero) 1 := hθ.symm
  rw [hθ']
  refine ⟨n2.1, n2.2, fun i => ?_⟩
  have hmi : m' i = inf false := by
    rw [← hm]
    fin_cases i <;> rfl
  refine ⟨hmi, ?_⟩
  have n3 := Flt.zero_div_two n2
  have n4 := hs _ n3.1 n3.2
  change V3.add (V3.smul m' (L.sin ((1 + 1) * L.atan2 (V3.norm2 V3.zero) 1 / (1 + 1)))) _ i = nan
  rw [V3.add_apply, V3.smul_apply, hmi]
  generalize L.sin ((1 + 1) * L.atan2 (V3.norm2 V3.zero) 1 / (1 + 1)) = w at n4
  have e : (inf false * w : Flt f) = nan := by
    rcases w with _ | s | ⟨s, x, hx⟩
    · exact absurd n4.1 id
    · exact absurd n4.1 id
    · change (if x = 0 then nan else _ : Flt f) = nan
      exact if_pos (sgn_eq_zero.1 n4.2)
  rw [e]
  rfl

/-- The correctly rounded tangent. -/
theorem correctLibm_tan (hw : f.Wide) : @TanAcc f (correctLibm f) (4 * f.u) := by
  intro x hx hs
  have u0 := f.u_pos
  have hu := Fmt.u_le_of_p hw.p
  have hη := hw.eta
  have hirr : Real.cos x.toReal ≠ 0 := by
    intro hc
    obtain ⟨k, hk⟩ := Real.cos_eq_zero_iff.1 hc
    have hrat : ∃ q : ℚ, (q : ℝ) = x.toReal := by
      match x, hx with
      | fin s y ⟨n, e, h1, _⟩, _ =>
        refine ⟨(if s then -(n * (2 : ℚ) ^ e) else n * (2 : ℚ) ^ e), ?_⟩
        change _ = sgn s y
        unfold sgn
        cases s <;> simp [h1]
    obtain ⟨q, hq⟩ := hrat
    rw [← hq] at hk
    have hk0 : ((2 * k + 1 : ℤ) : ℝ) ≠ 0 := by
      have : (2 * k + 1 : ℤ) ≠ 0 := by omega
      exact_mod_cast this
    refine irrational_pi ⟨2 * q / (2 * k + 1 : ℤ), ?_⟩
    push_cast at hk0 ⊢
    field_simp
    linarith
  have ht : Real.tan x.toReal = Real.sin x.toReal / Real.cos x.toReal := Real.tan_eq_sin_div_cos _
  have hc1 := Real.abs_cos_le_one x.toReal
  generalize Real.sin x.toReal = s at *
  generalize Real.cos x.toReal = c at *
  change ((ofReal f false (Real.tan x.toReal)).IsFin ∧ |(ofReal f false (Real.tan x.toReal)).toReal * c - s| ≤ _) ∨
    (∃ b, ofReal f false (Real.tan x.toReal) = inf b) ∧ _
  generalize Real.tan x.toReal = t at *
  have es : s = t * c := by rw [ht]; field_simp
  have c0 : 0 < |c| := abs_pos.2 hirr
  by_cases hf : (ofReal f false t).IsFin
  · refine Or.inl ⟨hf, ?_⟩
    have e1 : |(ofReal f false t).toReal - t| ≤ f.u * |t| + f.eta := by
      have h4 := sgn_lt_abs t
      have h6 : sgn (decide (t < 0)) (f.rnd |t|) - t = sgn (decide (t < 0)) (f.rnd |t|) - sgn (decide (t < 0)) |t| := by rw [h4]
      rw [toReal_ofReal hf, h6, sgn_sub, abs_sgn]
      exact f.rnd_err (abs_nonneg t)
    have e2 : (ofReal f false t).toReal * c - s = ((ofReal f false t).toReal - t) * c := by rw [es]; ring
    rw [e2, abs_mul]
    have e3 : |s| = |t| * |c| := by rw [es, abs_mul]
    have e4 := mul_le_mul_of_nonneg_right e1 c0.le
    have e5 : f.eta * |c| ≤ f.u ^ 4 * 1 := mul_le_mul hη hc1 c0.le (by positivity)
    have e6 : f.u ^ 4 ≤ f.u * f.u := by nlinarith [pow_le_one₀ u0.le (by linarith : f.u ≤ 1) (n := 2)]
    have e7 := mul_le_mul_of_nonneg_left hs u0.le
    have e8 : (f.u * |t| + f.eta) * |c| = f.u * |s| + f.eta * |c| := by rw [e3]; ring
    have e9 : 0 ≤ f.u * |s| := by positivity
    linarith
  · refine Or.inr ⟨?_, ?_⟩
    · unfold ofReal at hf ⊢
      rcases pack_cases (f := f) (if t = 0 then false else decide (t < 0)) |t| with h | ⟨_, h⟩
      · exact ⟨_, h⟩
      · exact absurd (by rw [h]; trivial) hf
    · by_contra hc
      push Not at hc
      refine hf (pack_isFin (abs_nonneg _) (hw.range ?_))
      have e3 : |s| = |t| * |c| := by rw [es, abs_mul]
      rw [e3] at hc
      have : 4 * f.u * |t| < 1 := by
        by_contra h9
        push Not at h9
        nlinarith
      linarith

/-- The hypotheses hold: a turn by 120 degrees about a line, in single precision. -/
example [RealParams] {l' m' : Vec 3 (Flt Fmt.f32)} {θ' D' : Flt Fmt.f32} :
    letI := correctLibm Fmt.f32; (turn120 Fmt.f32).get_screw_parameters = (l', m', θ', D') →
      (∀ i, (l' i).IsFin ∧ |(l' i).toReal - √3 / 3| ≤ 1 / 50000) ∧ |θ'.toReal - 2 * Real.pi / 3| ≤ 1 / 50000 ∧ |D'.toReal| ≤ 1 / 2500 := by
  let := correctLibm Fmt.f32
  intro hr
  have hu : Fmt.f32.u = 1 / 2 ^ 24 := by
    change (2 : ℝ) ^ (-24 : ℤ) = _
    norm_num
  have hpi := Real.pi_pos
  have h3 : √3 ^ 2 = 3 := Real.sq_sqrt (by norm_num)
  have hs3 : (17 / 10 : ℝ) ≤ √3 := Real.le_sqrt' (by norm_num) |>.2 (by norm_num)
  obtain ⟨l, hl⟩ : ∃ l : Vec 3 ℝ, l = ⟨fun _ => √3 / 3⟩ := ⟨_, rfl⟩
  obtain ⟨m, hm⟩ : ∃ m : Vec 3 ℝ, m = ⟨![2 * √3 / 3, -(2 * √3 / 3), 0]⟩ := ⟨_, rfl⟩
  obtain ⟨hlm, es, c1, b⟩ := turn120_close Fmt.f32 hl hm
  have hd : (0 + 4 * Fmt.f32.u + Fmt.f32.u) / (√3 / 2) ≤ 1 / 2500000 := by
    rw [div_le_iff₀ (by linarith), hu]
    linarith
  obtain ⟨a1, a2, a3, a4⟩ := C143_parameters_partial Fmt.f32_wide hlm b (correctLibm_all (f := Fmt.f32) (by decide)).1
    (correctLibm_atan2 (by decide)) (correctLibm_tan Fmt.f32_wide) (by positivity) (by linarith) (by rw [es]; linarith)
    (by rw [es, hu]; linarith) (by norm_num)
    (by
      rw [es]
      have h1 : 2 / (√3 / 2) ≤ 4 := by
        rw [div_le_iff₀ (by linarith)]
        linarith
      have h2 : 0 ≤ 2 / (√3 / 2) := by positivity
      have h4 : (2 + 2 * (2 / (√3 / 2))) ^ 2 ≤ 26 ^ 2 := pow_le_pow_left₀ (by linarith) (by linarith) 2
      change _ ≤ (2 : ℝ) ^ (127 : ℤ)
      norm_num at h4 ⊢
      linarith) hr
  rw [es] at a1 a4
  refine ⟨fun i => ⟨(a1 i).1, ?_⟩, ?_, ?_⟩
  · have := (a1 i).2
    rw [hl] at this
    exact this.trans (by linarith)
  · have := a3.2
    rw [hu] at this
    norm_num at this ⊢
    linarith
  · have := a4.2
    rw [sub_zero] at this
    linarith

/-- The library meets the hypotheses of the negative result. -/
example (t : Vec 3 (Flt f)) {l' m' : Vec 3 (Flt f)} {θ' D' : Flt f} : letI := correctLibm f;
    (DQuat.new_from_translation t).get_screw_parameters = (l', m', θ', D') →
      ∀ i, (DQuat.new_from_screw_parameters l' m' θ' D').q_dual.q i = nan := by
  let := correctLibm f
  intro hr i
  have h0 : (ofReal f false 0).IsFin ∧ (ofReal f false 0).toReal = 0 := by
    have : ofReal f false 0 = fin false 0 f.rep_zero := by
      unfold ofReal
      rw [abs_zero, if_pos rfl, pack_rep f.rep_zero]
    rw [this]
    exact ⟨trivial, sgn_eq_zero.2 rfl⟩
  refine ((C143_translation_false (fun y _ h => ?_) (fun y _ h => ?_) t hr).2.2 i).2
  · change (ofReal f false (Complex.arg ⟨(1 : Flt f).toReal, y.toReal⟩)).IsFin ∧ (ofReal f false (Complex.arg ⟨(1 : Flt f).toReal, y.toReal⟩)).toReal = 0
    have : Complex.arg ⟨(1 : Flt f).toReal, y.toReal⟩ = 0 := by
      rw [h, toReal_one]
      exact Complex.arg_one
    rw [this]
    exact h0
  · change (ofReal f false (Real.sin y.toReal)).IsFin ∧ (ofReal f false (Real.sin y.toReal)).toReal = 0
    rw [h, Real.sin_zero]
    exact h0

end
end StaticMath
