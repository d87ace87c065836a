import Verif.Props.IeeeLog
import Verif.Props.IeeeMotion
import Verif.Props.IeeeSlerp
import Verif.Props.IeeeQuatLn
import Verif.Props.DualScrew
import Verif.Ieee.NearBig

/-!
# C141: powers of dual quaternions and screw interpolation in floating point
-/

namespace StaticMath
open Flt Quaternion

section
variable {f : Fmt}

/-- The sizes in the error analysis: `σ` is the sine of half the angle, `P` bounds the dual part, `d` collects the errors. -/
private structure Sz (f : Fmt) (P σ d S κ g : ℝ) : Prop where
  σ0 : 0 < σ
  σ1 : σ ≤ 1
  hu : f.u ≤ d
  hκ : κ * σ = d
  hg : g * σ = κ
  hS : S * σ = P
  g4 : g ≤ 1 / 4096
  P8 : 1 / 8 ≤ P
  big : f.Big (4 * S + 16)

private theorem Sz.facts {P σ d S κ g : ℝ} (h : Sz f P σ d S κ g) :
    0 < d ∧ d ≤ κ ∧ κ ≤ g ∧ P ≤ S ∧ P * d ≤ P * κ ∧ P * κ ≤ P * g ∧ P * g ≤ S * g ∧ S * d ≤ S * κ ∧ S * κ ≤ S * g ∧
      f.u * P ≤ P * d ∧ f.u * S ≤ S * d ∧ P * g ≤ P / 4096 ∧ S * g ≤ S / 4096 ∧ d ≤ 8 * (P * d) ∧ d ≤ 8 * (S * d) := by
  obtain ⟨σ0, σ1, hu, hκ, hg, hS, g4, P8, -⟩ := h
  have u0 := f.u_pos
  have d0 : 0 < d := by linarith
  have κ0 : 0 < κ := by
    by_contra hc
    push Not at hc
    nlinarith
  have g0 : 0 < g := by
    by_contra hc
    push Not at hc
    nlinarith
  have S0 : 0 < S := by
    by_contra hc
    push Not at hc
    nlinarith
  have dκ : d ≤ κ := by rw [← hκ]; exact mul_le_of_le_one_right κ0.le σ1
  have κg : κ ≤ g := by rw [← hg]; exact mul_le_of_le_one_right g0.le σ1
  have PS : P ≤ S := by rw [← hS]; exact mul_le_of_le_one_right S0.le σ1
  have P0 : 0 ≤ P := by linarith
  refine ⟨d0, dκ, κg, PS, mul_le_mul_of_nonneg_left dκ P0, mul_le_mul_of_nonneg_left κg P0,
    mul_le_mul_of_nonneg_right PS g0.le, mul_le_mul_of_nonneg_left dκ S0.le, mul_le_mul_of_nonneg_left κg S0.le, ?_, ?_, ?_, ?_, ?_, ?_⟩
  · rw [mul_comm]; exact mul_le_mul_of_nonneg_left hu P0
  · rw [mul_comm]; exact mul_le_mul_of_nonneg_left hu S0.le
  · rw [div_eq_mul_one_div]; exact mul_le_mul_of_nonneg_left g4 P0
  · rw [div_eq_mul_one_div]; exact mul_le_mul_of_nonneg_left g4 S0.le
  · nlinarith
  · nlinarith

/-- The angle and its sine and cosine. -/
private theorem angle_part [Libm f] (hp : 8 ≤ f.p) {P σ d S κ g δ ε : ℝ} (z : Sz f P σ d S κ g) (hd : δ + ε + f.u ≤ d) (hε0 : 0 ≤ ε)
    (hδ0 : 0 ≤ δ) (h : SinCosAcc f ε) (hacos : AcosAcc f ε) {φ : ℝ} (h0 : 0 ≤ φ) (h1 : φ ≤ Real.pi) (hs : σ = Real.sin φ) {w : Flt f}
    (hw : Near w (Real.cos φ) δ) :
    Near ((1 + 1) * Libm.acos w) (2 * φ) (10 * κ) ∧ Near (Libm.sin ((1 + 1) * Libm.acos w / (1 + 1))) σ (10 * κ) ∧
    Near (Libm.cos ((1 + 1) * Libm.acos w / (1 + 1))) (Real.cos φ) (10 * κ) := by
  obtain ⟨d0, dκ, κg, PS, -⟩ := z.facts
  have u0 := f.u_pos
  have σ0 := z.σ0
  have hκ : d / σ = κ := by rw [← z.hκ, mul_div_cancel_right₀ _ σ0.ne']
  have hpi := Real.pi_lt_d2
  have g4 := z.g4
  have hσ2 : 4096 * d ≤ σ ^ 2 := by
    have e : d = g * σ ^ 2 := by rw [← z.hκ, ← z.hg]; ring
    have := mul_le_mul_of_nonneg_right g4 (sq_nonneg σ)
    rw [← e] at this
    linarith
  obtain ⟨k1, k2⟩ := arccos_near (a := w.toReal) (d := 1 / 8 * δ) h0 h1 hs σ0 (by linarith) (by have := hw.err; linarith)
  have hw1 : |w.toReal| ≤ 1 := by linarith [sq_nonneg σ]
  have n1 : Near (Libm.acos w) φ (5 / 4 * κ) := by
    obtain ⟨a1, a2⟩ := hacos w hw.fin hw1
    refine ⟨a1, (abs_sub_le _ (Real.arccos w.toReal) _).trans ?_⟩
    have e : 10 * (1 / 8 * δ) / σ ≤ 10 / 8 * κ := by
      rw [← hκ, mul_div_assoc']
      exact div_le_div_of_nonneg_right (by linarith) σ0.le
    have e2 : 5 / 4 * δ + ε ≤ 5 / 4 * d := by linarith
    have e3 : ε ≤ (d - δ) := by linarith
    have e4 : 10 * (1 / 8 * δ) / σ ≤ 10 / 8 * κ - 10 / 8 * (d - δ) := by
      have : 10 / 8 * κ - 10 * (1 / 8 * δ) / σ = 10 / 8 * ((d - δ) / σ) := by rw [← hκ]; ring
      have h5 : d - δ ≤ (d - δ) / σ := by
        rw [le_div_iff₀ σ0]
        exact mul_le_of_le_one_right (by linarith) z.σ1
      linarith
    linarith
  have aφ : |φ| = φ := abs_of_nonneg h0
  have n2 := Near.two.mul hp (A := 2) (C := 315 / 100) (D := 316 / 100) (B := 632 / 100) (e := 10 * κ) n1
    (by norm_num) (by rw [aφ]; linarith) (by rw [aφ]; linarith) (by norm_num) (by norm_num) (by linarith)
  have n3 := n2.div hp (c := 2) (Q := 315 / 100) (B := 32 / 10) (e := 9 * κ) Near.two (by norm_num) (by norm_num)
    (by rw [mul_div_cancel_left₀ _ (two_ne_zero), aφ]; linarith) (by linarith) (by norm_num) (by linarith)
  rw [mul_div_cancel_left₀ _ (two_ne_zero)] at n3
  refine ⟨n2, ?_, ?_⟩
  · obtain ⟨g1, g2⟩ := h.sin _ n3.fin
    rw [hs]
    exact ⟨g1, ((abs_sub_le _ _ _).trans (add_le_add g2 ((ls _ _).trans n3.err))).trans (by linarith)⟩
  · obtain ⟨g1, g2⟩ := h.cos _ n3.fin
    exact ⟨g1, ((abs_sub_le _ _ _).trans (add_le_add g2 ((lc _ _).trans n3.err))).trans (by linarith)⟩

/-- The angle of the power. -/
private theorem exp_part [Libm f] (hp : 8 ≤ f.p) {P σ d S κ g ε : ℝ} (z : Sz f P σ d S κ g) (hd : ε + f.u ≤ d)
    (h : SinCosAcc f ε) {φ : ℝ} (h0 : 0 ≤ φ) (h1 : φ ≤ Real.pi) {θ e : Flt f} (hθ : Near θ (2 * φ) (10 * κ)) (he : e.IsFin)
    (he1 : |e.toReal| ≤ 1) :
    Near (Libm.sin (e * θ / (1 + 1))) (Real.sin (e.toReal * φ)) (13 * κ) ∧
    Near (Libm.cos (e * θ / (1 + 1))) (Real.cos (e.toReal * φ)) (13 * κ) := by
  obtain ⟨d0, dκ, κg, PS, -⟩ := z.facts
  have u0 := f.u_pos
  have hε0 : 0 ≤ ε := acc_nonneg h
  have hpi := Real.pi_lt_d2
  have g4 := z.g4
  have aφ : |2 * φ| = 2 * φ := abs_of_nonneg (by linarith)
  have n1 := (Near.of_fin he).mul hp (A := 1) (C := 63 / 10) (D := 64 / 10) (B := 64 / 10) (e := 17 * κ) hθ
    (by linarith) (by rw [aφ]; linarith) (by rw [aφ]; linarith) (by norm_num) (by norm_num) (by linarith)
  have e1 : e.toReal * (2 * φ) / 2 = e.toReal * φ := by ring
  have hb : |e.toReal * φ| ≤ 315 / 100 := by
    rw [abs_mul, abs_of_nonneg h0]
    exact (mul_le_of_le_one_left h0 he1).trans (by linarith)
  have n2 := n1.div hp (c := 2) (Q := 315 / 100) (B := 33 / 10) (e := 12 * κ) Near.two (by norm_num) (by norm_num)
    (by rw [e1]; exact hb) (by linarith) (by norm_num) (by linarith)
  rw [e1] at n2
  constructor
  · obtain ⟨g1, g2⟩ := h.sin _ n2.fin
    exact ⟨g1, ((abs_sub_le _ _ _).trans (add_le_add g2 ((ls _ _).trans n2.err))).trans (by linarith)⟩
  · obtain ⟨g1, g2⟩ := h.cos _ n2.fin
    exact ⟨g1, ((abs_sub_le _ _ _).trans (add_le_add g2 ((lc _ _).trans n2.err))).trans (by linarith)⟩

/-- The axis, the displacement and the moment. -/
private theorem line_part (hp : 8 ≤ f.p) {P σ d S κ g δ : ℝ} (z : Sz f P σ d S κ g) (hd : δ + f.u ≤ d) (hδ0 : 0 ≤ δ)
    {s c v wd vd : Flt f} {cφ l m D : ℝ} (hs : Near s σ (10 * κ)) (hc : Near c cφ (10 * κ)) (hc1 : |cφ| ≤ 1) (hl : |l| ≤ 1)
    (hD : |D| ≤ 2 * P) (hm : |m| ≤ S) (hv : Near v (l * σ) δ) (hwd : Near wd (σ * (-D / 2)) (P * δ))
    (hvd : Near vd (m * σ + l * (D / 2) * cφ) (P * δ)) :
    Near (v / s) l (14 * g) ∧ Near (wd * -(1 + 1) / s) D (28 * (P * g)) ∧
    Near ((vd - v / s * (wd * -(1 + 1) / s / (1 + 1)) * c) / s) m (64 * (S * g)) := by
  obtain ⟨d0, dκ, κg, PS, Pd, Pκ, Pg, Sd, Sκ, uP, uS, Pg4, Sg4, dP, dS⟩ := z.facts
  have u0 := f.u_pos
  have σ0 := z.σ0
  have σ1 := z.σ1
  have g4 := z.g4
  have P8 := z.P8
  have hg := z.hg
  have κσ : 4096 * κ ≤ σ := by
    have := mul_le_mul_of_nonneg_right g4 σ0.le
    rw [hg] at this
    linarith
  have aσ : |σ| = σ := abs_of_pos σ0
  have ePg : P * g * σ = P * κ := by rw [mul_assoc, hg]
  have eSg : S * g * σ = S * κ := by rw [mul_assoc, hg]
  have eSg' : P * g = S * κ := by rw [← z.hS, ← hg]; ring
  have hS := z.hS
  have Pδ : P * δ ≤ P * d - f.u * P := by
    have := mul_le_mul_of_nonneg_left hd (by linarith : 0 ≤ P)
    linarith
  have Pδ0 : 0 ≤ P * δ := mul_nonneg (by linarith) hδ0
  have uP0 : 0 ≤ f.u * P := mul_nonneg u0.le (by linarith)
  have uS0 : 0 ≤ f.u * S := mul_nonneg u0.le (by linarith)
  have b1 : f.Big (3 * P) := z.big.mono (by linarith)
  have b2 : f.Big (2 * S) := z.big.mono (by linarith)
  have hc9 : 0 < 9 / 10 * σ := by linarith
  -- axis
  have el : l * σ / σ = l := mul_div_cancel_right₀ _ σ0.ne'
  have q1 : (δ + 1 * (10 * κ)) / (9 / 10 * σ) ≤ 110 / 9 * g := (div_le_iff₀ hc9).2 (by linarith)
  have n1 := hv.div hp (c := 9 / 10 * σ) (Q := 1) (B := 11 / 10) (e := 14 * g) hs hc9 (by rw [aσ]; linarith)
    (by rw [el]; exact hl) (by linarith) (by norm_num) (by linarith)
  rw [el] at n1
  -- displacement
  have aW : |σ * (-D / 2)| ≤ P := by
    rw [abs_mul, aσ, abs_div, abs_neg, abs_two]
    have : σ * (|D| / 2) ≤ 1 * (|D| / 2) := mul_le_mul_of_nonneg_right σ1 (by positivity)
    linarith
  have n2 := hwd.mul' hp (A := 101 / 100 * P) (C := 2) (D := 2) (B := 21 / 10 * P) (e := 3 * (P * d)) (b1.mono (by linarith))
    Near.two.neg (by linarith) (by norm_num) (by norm_num) (by linarith) (by linarith)
  have eD : σ * (-D / 2) * -2 / σ = D := by field_simp
  have q2 : (3 * (P * d) + 2 * P * (10 * κ)) / (9 / 10 * σ) ≤ 230 / 9 * (P * g) := (div_le_iff₀ hc9).2 (by linarith)
  have n3 := n2.div' hp (c := 9 / 10 * σ) (Q := 2 * P) (B := 21 / 10 * P) (e := 28 * (P * g)) (b1.mono (by linarith)) hs hc9
    (by rw [aσ]; linarith) (by rw [eD]; exact hD) (by linarith) (by linarith)
  rw [eD] at n3
  -- moment
  have aD2 : |D / 2| ≤ P := by rw [abs_div, abs_two]; linarith
  have n4 := n3.div' hp (c := 2) (Q := P) (B := 11 / 10 * P) (e := 16 * (P * g)) (b1.mono (by linarith)) Near.two (by norm_num)
    (by norm_num) aD2 (by linarith) (by linarith)
  have n5 := n1.mul' hp (A := 101 / 100) (C := P) (D := 101 / 100 * P) (B := 103 / 100 * P) (e := 32 * (P * g)) (b1.mono (by linarith)) n4
    (by linarith) aD2 (by linarith) (by linarith) (by linarith)
  have al : |l * (D / 2)| ≤ P := by
    rw [abs_mul]
    exact (mul_le_of_le_one_left (abs_nonneg _) hl).trans aD2
  have n6 := n5.mul' hp (A := 101 / 100 * P) (C := 1) (D := 101 / 100) (B := 103 / 100 * P) (e := 44 * (P * g)) (b1.mono (by linarith)) hc
    (by linarith) hc1 (by linarith) (by linarith) (by linarith)
  have em : m * σ + l * (D / 2) * cφ - l * (D / 2) * cφ = m * σ := by ring
  have aσm : |m * σ| ≤ P := by
    rw [abs_mul, aσ, ← hS]
    exact mul_le_mul_of_nonneg_right hm σ0.le
  have n7 := hvd.sub' (B := 11 / 10 * P) (e := 46 * (P * g)) (b1.mono (by linarith)) n6 (by rw [em]; linarith) (by linarith)
  rw [em] at n7
  have em' : m * σ / σ = m := mul_div_cancel_right₀ _ σ0.ne'
  have q3 : (46 * (P * g) + S * (10 * κ)) / (9 / 10 * σ) ≤ 560 / 9 * (S * g) := (div_le_iff₀ hc9).2 (by linarith)
  have n8 := n7.div' hp (c := 9 / 10 * σ) (Q := S) (B := 11 / 10 * S) (e := 64 * (S * g)) (b2.mono (by linarith)) hs hc9
    (by rw [aσ]; linarith) (by rw [em']; exact hm) (by linarith) (by linarith)
  rw [em'] at n8
  exact ⟨n1, n3, n8⟩

/-- The entries of the power. -/
private theorem entry_part (hp : 8 ≤ f.p) {P σ d S κ g : ℝ} (z : Sz f P σ d S κ g)
    {s c e s0 D' se : Flt f} {sφ cφ l m D : ℝ} (hs : Near s sφ (13 * κ)) (hc : Near c cφ (13 * κ)) (hc1 : |cφ| ≤ 1) (hs1 : |sφ| ≤ 1)
    (hl : |l| ≤ 1) (hD : |D| ≤ 2 * P) (hm : |m| ≤ S) (he : e.IsFin) (he1 : |e.toReal| ≤ 1) (h0 : Near s0 l (14 * g))
    (hD' : Near D' D (28 * (P * g))) (hse : Near se m (64 * (S * g))) :
    Near (s0 * s) (l * sφ) (29 * g) ∧ Near (s * -e * D' / (1 + 1)) (sφ * (-(e.toReal * D) / 2)) (33 * (P * g)) ∧
    Near (s0 * c * e * D' / (1 + 1) + se * s) (m * sφ + l * (e.toReal * D / 2) * cφ) (130 * (S * g)) := by
  obtain ⟨d0, dκ, κg, PS, Pd, Pκ, Pg, Sd, Sκ, uP, uS, Pg4, Sg4, dP, dS⟩ := z.facts
  have u0 := f.u_pos
  have hu := z.hu
  have g4 := z.g4
  have P8 := z.P8
  have uP0 : 0 ≤ f.u * P := mul_nonneg u0.le (by linarith)
  have uS0 : 0 ≤ f.u * S := mul_nonneg u0.le (by linarith)
  have b1 : f.Big (3 * P) := z.big.mono (by linarith)
  have b2 : f.Big (3 * S) := z.big.mono (by linarith)
  have ne : Near e e.toReal 0 := Near.of_fin he
  have n1 := h0.mul hp (A := 101 / 100) (C := 1) (D := 101 / 100) (B := 103 / 100) (e := 29 * g) hs (by linarith) hs1 (by linarith)
    (by norm_num) (by norm_num) (by linarith)
  have n2 := hs.mul hp (A := 101 / 100) (C := 1) (D := 1) (B := 103 / 100) (e := 15 * κ) ne.neg (by linarith) (by rwa [abs_neg])
    (by rw [abs_neg]; linarith) (by norm_num) (by norm_num) (by linarith)
  have a2 : |sφ * -e.toReal| ≤ 1 := by
    rw [abs_mul, abs_neg]
    exact (mul_le_of_le_one_left (abs_nonneg _) hs1).trans he1
  have n3 := n2.mul' hp (A := 101 / 100) (C := 2 * P) (D := 201 / 100 * P) (B := 21 / 10 * P) (e := 61 * (P * g)) (b1.mono (by linarith)) hD'
    (by linarith) hD (by linarith) (by linarith) (by linarith)
  have a3 : |sφ * -e.toReal * D / 2| ≤ P := by
    rw [abs_div, abs_mul, abs_two]
    have := mul_le_of_le_one_left (abs_nonneg D) a2
    linarith
  have n4 := n3.div' hp (c := 2) (Q := P) (B := 11 / 10 * P) (e := 33 * (P * g)) (b1.mono (by linarith)) Near.two (by norm_num)
    (by norm_num) a3 (by linarith) (by linarith)
  have m1 := h0.mul hp (A := 101 / 100) (C := 1) (D := 101 / 100) (B := 103 / 100) (e := 29 * g) hc (by linarith) hc1 (by linarith)
    (by norm_num) (by norm_num) (by linarith)
  have c1 : |l * cφ| ≤ 1 := by
    rw [abs_mul]
    exact (mul_le_of_le_one_left (abs_nonneg _) hl).trans hc1
  have m2 := m1.mul hp (A := 101 / 100) (C := 1) (D := 1) (B := 103 / 100) (e := 31 * g) ne (by linarith) he1 (by linarith)
    (by norm_num) (by norm_num) (by linarith)
  have c2 : |l * cφ * e.toReal| ≤ 1 := by
    rw [abs_mul]
    exact (mul_le_of_le_one_left (abs_nonneg _) c1).trans he1
  have m3 := m2.mul' hp (A := 101 / 100) (C := 2 * P) (D := 201 / 100 * P) (B := 21 / 10 * P) (e := 93 * (P * g)) (b1.mono (by linarith)) hD'
    (by linarith) hD (by linarith) (by linarith) (by linarith)
  have c3 : |l * cφ * e.toReal * D / 2| ≤ P := by
    rw [abs_div, abs_mul, abs_two]
    have := mul_le_of_le_one_left (abs_nonneg D) c2
    linarith
  have m4 := m3.div' hp (c := 2) (Q := P) (B := 11 / 10 * P) (e := 48 * (P * g)) (b1.mono (by linarith)) Near.two (by norm_num)
    (by norm_num) c3 (by linarith) (by linarith)
  have m5 := hse.mul' hp (A := 102 / 100 * S) (C := 1) (D := 101 / 100) (B := 104 / 100 * S) (e := 79 * (S * g)) (b2.mono (by linarith)) hs
    (by linarith) hs1 (by linarith) (by linarith) (by linarith)
  have c5 : |m * sφ| ≤ S := by
    rw [abs_mul]
    exact (mul_le_of_le_one_right (abs_nonneg _) hs1).trans hm
  have m6 := m4.add' (B := 21 / 10 * S) (e := 130 * (S * g)) (b2.mono (by linarith)) m5
    (by linarith [abs_add_le (l * cφ * e.toReal * D / 2) (m * sφ)]) (by linarith)
  exact ⟨n1, n4.congr (by ring), m6.congr (by ring)⟩

/-- The sizes of the parameters of a screw motion. -/
theorem screw_sizes [RealParams] {l m : Vec 3 ℝ} (hlm : IsLine l m) {θ D P σ : ℝ} (hσ : σ = Real.sin (θ / 2)) (σ0 : 0 < σ)
    (h : ‖(DQuat.new_from_screw_parameters l m θ D).q_dual.toH‖ ≤ P) :
    (∀ i, |l i| ≤ 1) ∧ |D| ≤ 2 * P ∧ (∀ i, |m i| ≤ P / σ) ∧
    (D / 2) ^ 2 + σ ^ 2 * (m 0 ^ 2 + m 1 ^ 2 + m 2 ^ 2) ≤ P ^ 2 := by
  have P0 : 0 ≤ P := (norm_nonneg _).trans h
  obtain ⟨-, -, h3, h4⟩ := screw_comp l m θ D
  have hsc := Real.sin_sq_add_cos_sq (θ / 2)
  rw [← hσ] at hsc h3 h4
  obtain ⟨hl, hm⟩ := hlm
  have h2 : ‖(DQuat.new_from_screw_parameters l m θ D).q_dual.toH‖ ^ 2 = (D / 2) ^ 2 + σ ^ 2 * (m 0 ^ 2 + m 1 ^ 2 + m 2 ^ 2) := by
    rw [sq ‖_‖, ← Quaternion.normSq_eq_norm_mul_self, Quaternion.normSq_def', Quat.toH_re, Quat.toH_imI, Quat.toH_imJ, Quat.toH_imK,
      h3, h4, h4, h4]
    linear_combination (D / 2) ^ 2 * Real.cos (θ / 2) ^ 2 * hl + σ * D * Real.cos (θ / 2) * hm + (D / 2) ^ 2 * hsc
  have h5 := pow_le_pow_left₀ (norm_nonneg _) h 2
  rw [h2] at h5
  have m0 := sq_nonneg (m 0)
  have m1 := sq_nonneg (m 1)
  have m2 := sq_nonneg (m 2)
  have σ2 := sq_nonneg σ
  refine ⟨fun i => ?_, ?_, fun i => ?_, h5⟩
  · have l0 := sq_nonneg (l 0)
    have l1 := sq_nonneg (l 1)
    have l2 := sq_nonneg (l 2)
    refine abs_le_of_sq_le_sq ?_ zero_le_one
    fin_cases i
    · change l 0 ^ 2 ≤ _; linarith
    · change l 1 ^ 2 ≤ _; linarith
    · change l 2 ^ 2 ≤ _; linarith
  · refine abs_le_of_sq_le_sq ?_ (by linarith)
    have : 0 ≤ σ ^ 2 * (m 0 ^ 2 + m 1 ^ 2 + m 2 ^ 2) := by positivity
    linarith
  · refine abs_le_of_sq_le_sq ?_ (by positivity)
    rw [div_pow, le_div_iff₀ (by positivity)]
    have hd : 0 ≤ (D / 2) ^ 2 := sq_nonneg _
    have g0 := mul_nonneg σ2 m0
    have g1 := mul_nonneg σ2 m1
    have g2 := mul_nonneg σ2 m2
    fin_cases i
    · change m 0 ^ 2 * σ ^ 2 ≤ _; linarith
    · change m 1 ^ 2 * σ ^ 2 ≤ _; linarith
    · change m 2 ^ 2 * σ ^ 2 ≤ _; linarith

/-- The size of a power. -/
private theorem power_size [RealParams] {l m : Vec 3 ℝ} (hlm : IsLine l m) {θ D P σ : ℝ} (hσ : σ = Real.sin (θ / 2)) (σ0 : 0 < σ) (e : ℝ)
    (he : |e| ≤ 1) (h : ‖(DQuat.new_from_screw_parameters l m θ D).q_dual.toH‖ ≤ P) :
    ‖(DQuat.new_from_screw_parameters l m (e * θ) (e * D)).q_dual.toH‖ ≤ P / σ := by
  have P0 : 0 ≤ P := (norm_nonneg _).trans h
  obtain ⟨-, -, -, h5⟩ := screw_sizes hlm hσ σ0 h
  have σ1 : σ ≤ 1 := hσ ▸ Real.sin_le_one _
  obtain ⟨-, -, h3, h4⟩ := screw_comp l m (e * θ) (e * D)
  have hsc := Real.sin_sq_add_cos_sq (e * θ / 2)
  obtain ⟨hl, hm⟩ := hlm
  refine abs_le_of_sq_le_sq' ?_ (by positivity) |>.2
  rw [sq ‖_‖, ← Quaternion.normSq_eq_norm_mul_self, Quaternion.normSq_def', Quat.toH_re, Quat.toH_imI, Quat.toH_imJ, Quat.toH_imK,
    h3, h4, h4, h4, div_pow, le_div_iff₀ (by positivity)]
  generalize Real.sin (e * θ / 2) = s at *
  generalize Real.cos (e * θ / 2) = c at *
  have he2 : e ^ 2 ≤ 1 := by
    rw [← sq_abs]
    exact pow_le_one₀ (abs_nonneg _) he
  have hσ2 : σ ^ 2 ≤ 1 := pow_le_one₀ σ0.le σ1
  have hs2 : s ^ 2 ≤ 1 := by linarith [sq_nonneg c]
  have e1 : ((s * (-(e * D) / 2)) ^ 2 + (m 0 * s + l 0 * (e * D / 2) * c) ^ 2 + (m 1 * s + l 1 * (e * D / 2) * c) ^ 2
      + (m 2 * s + l 2 * (e * D / 2) * c) ^ 2) * σ ^ 2
      = e ^ 2 * σ ^ 2 * (D / 2) ^ 2 + s ^ 2 * (σ ^ 2 * (m 0 ^ 2 + m 1 ^ 2 + m 2 ^ 2)) := by
    linear_combination σ ^ 2 * ((e * D / 2) ^ 2 * c ^ 2 * hl + s * e * D * c * hm + (e * D / 2) ^ 2 * hsc)
  rw [e1]
  have g1 : e ^ 2 * σ ^ 2 * (D / 2) ^ 2 ≤ 1 * (D / 2) ^ 2 :=
    mul_le_mul_of_nonneg_right (mul_le_one₀ he2 (sq_nonneg _) hσ2) (sq_nonneg _)
  have g2 : s ^ 2 * (σ ^ 2 * (m 0 ^ 2 + m 1 ^ 2 + m 2 ^ 2)) ≤ 1 * (σ ^ 2 * (m 0 ^ 2 + m 1 ^ 2 + m 2 ^ 2)) :=
    mul_le_mul_of_nonneg_right hs2 (by positivity)
  linarith

private theorem pow_eq [Libm f] (x : DQuat (Flt f)) (e : Flt f) (h : nearly_zero ((1 + 1) * Libm.acos x.q_real.q0) = false) :
    x.pow e =
      let θ := (1 + 1) * Libm.acos x.q_real.q0
      let s := Libm.sin (θ / (1 + 1))
      let c := Libm.cos (θ / (1 + 1))
      let D := x.q_dual.q0 * -(1 + 1) / s
      let se := Libm.sin (e * θ / (1 + 1))
      let ce := Libm.cos (e * θ / (1 + 1))
      DQuat.new (Quat.new ce ⟨fun i => x.q_real.q i / s * se⟩) (Quat.new (se * -e * D / (1 + 1))
        ⟨fun i => x.q_real.q i / s * ce * e * D / (1 + 1) + (x.q_dual.q i - x.q_real.q i / s * (D / (1 + 1)) * c) / s * se⟩) := by
  unfold DQuat.pow
  change (if nearly_zero ((1 + 1) * Libm.acos x.q_real.q0) = true then _ else _) = _
  rw [h, if_neg Bool.false_ne_true]
  dsimp only
  congr 2
  · refine Vec.ext (funext fun i => ?_)
    rw [V3.smul_apply, V3.sdiv_apply]
    rfl
  · refine Vec.ext (funext fun i => ?_)
    rw [V3.add_apply, V3.sdiv_apply, V3.smul_apply, V3.smul_apply, V3.smul_apply, V3.smul_apply, V3.sdiv_apply, V3.sdiv_apply,
      V3.sub_apply, V3.smul_apply, V3.smul_apply, V3.sdiv_apply]
    rfl

/-- `x.pow e` for a float dual quaternion within `δ` of a screw motion with angle `θ` and displacement `D`: within
`260 (δ + ε + u) / sin²(θ/2)` of the screw motion about the same line with angle `e θ` and displacement `e D`. -/
theorem C141_pow_partial [RealParams] [Libm f] (hp : 8 ≤ f.p) {x : DQuat (Flt f)} {l m : Vec 3 ℝ} (hlm : IsLine l m) {θ D P δ ε : ℝ}
    (hx : x.Close (DQuat.new_from_screw_parameters l m θ D) P δ) (h : SinCosAcc f ε) (hacos : AcosAcc f ε) (h0 : 0 ≤ θ)
    (h1 : θ ≤ 2 * Real.pi) (hσ : 0 < Real.sin (θ / 2)) (hd : 4096 * (δ + ε + f.u) ≤ Real.sin (θ / 2) ^ 2) (hP : 1 / 8 ≤ P)
    (hov : 16 * (2 + 2 * (P / Real.sin (θ / 2))) ^ 2 ≤ (2 : ℝ) ^ f.emax) (e : Flt f) (he : e.IsFin) (he1 : |e.toReal| ≤ 1) :
    (x.pow e).Close (DQuat.new_from_screw_parameters l m (e.toReal * θ) (e.toReal * D)) (P / Real.sin (θ / 2))
      (260 * ((δ + ε + f.u) / Real.sin (θ / 2) ^ 2)) := by
  obtain ⟨σ, hσe⟩ : ∃ σ, σ = Real.sin (θ / 2) := ⟨_, rfl⟩
  rw [← hσe] at hσ hd hov ⊢
  have u0 := f.u_pos
  have hu := Fmt.u_le_of_p hp
  have hε0 : 0 ≤ ε := acc_nonneg h
  obtain ⟨-, -, hδ0, -⟩ := hx.norms
  obtain ⟨S, hS⟩ : ∃ S, S = P / σ := ⟨_, rfl⟩
  obtain ⟨g, hg⟩ : ∃ g, g = (δ + ε + f.u) / σ ^ 2 := ⟨_, rfl⟩
  obtain ⟨hl, hD, hm, -⟩ := screw_sizes hlm hσe hσ hx.size
  have hsize := power_size hlm hσe hσ e.toReal he1 hx.size
  rw [← hS] at hov hm hsize ⊢
  rw [← hg]
  have S0 : 0 < S := by rw [hS]; positivity
  obtain ⟨κ, hκ⟩ : ∃ κ, κ = (δ + ε + f.u) / σ := ⟨_, rfl⟩
  have z : Sz f P σ (δ + ε + f.u) S κ g := by
    refine ⟨hσ, hσe ▸ Real.sin_le_one _, by linarith, by rw [hκ]; field_simp, by rw [hg, hκ]; field_simp, by rw [hS]; field_simp, ?_, hP, ?_⟩
    · rw [hg, div_le_div_iff₀ (by positivity) (by norm_num)]
      linarith
    · unfold Fmt.Big
      rw [zpow_add₀ (by norm_num), zpow_one]
      nlinarith
  obtain ⟨d0, dκ, κg, PS, Pd, Pκ, Pg, Sd, Sκ, uP, uS, Pg4, Sg4, dP, dS⟩ := z.facts
  obtain ⟨c1, c2, c3, c4⟩ := screw_comp l m θ D
  obtain ⟨k1, k2, k3, k4⟩ := screw_comp l m (e.toReal * θ) (e.toReal * D)
  rw [← hσe] at c2 c3 c4
  have ee : e.toReal * θ / 2 = e.toReal * (θ / 2) := by ring
  rw [ee] at k1 k2 k3 k4
  have r (i : Fin 4) : Near (x.q_real.comp i) ((DQuat.new_from_screw_parameters l m θ D).q_real.comp i) δ :=
    ⟨(hx.fin i).1, (Quat.comp_sub_le _ _ i).trans hx.real⟩
  have q (i : Fin 4) : Near (x.q_dual.comp i) ((DQuat.new_from_screw_parameters l m θ D).q_dual.comp i) (P * δ) :=
    ⟨(hx.fin i).2, (Quat.comp_sub_le _ _ i).trans hx.dual⟩
  have r0 : Near x.q_real.q0 (Real.cos (θ / 2)) δ := (r 0).congr c1
  have q0 : Near x.q_dual.q0 (σ * (-D / 2)) (P * δ) := (q 0).congr c3
  have r' (i : Fin 3) : Near (x.q_real.q i) (l i * σ) δ := by
    rw [← c2 i]
    fin_cases i
    exacts [r 1, r 2, r 3]
  have q' (i : Fin 3) : Near (x.q_dual.q i) (m i * σ + l i * (D / 2) * Real.cos (θ / 2)) (P * δ) := by
    rw [← c4 i]
    fin_cases i
    exacts [q 1, q 2, q 3]
  obtain ⟨a1, a2, a3⟩ := angle_part hp z le_rfl hε0 hδ0 h hacos (by linarith : 0 ≤ θ / 2) (by linarith) hσe r0
  obtain ⟨b1, b2⟩ := exp_part hp z (by linarith) h (by linarith : 0 ≤ θ / 2) (by linarith) a1 he he1
  have P0 : 0 ≤ P := by linarith
  have hz : nearly_zero ((1 + 1) * Libm.acos x.q_real.q0) = false := by
    rw [Bool.eq_false_iff]
    intro hc
    have := ((nearly_zero_flt _).1 hc).2
    have h3 := a1.err
    have h4 := Real.sin_le (by linarith : 0 ≤ θ / 2)
    rw [← hσe] at h4
    have g4 := z.g4
    have hκσ : 4096 * κ ≤ σ := by
      have := mul_le_mul_of_nonneg_right g4 hσ.le
      rw [z.hg] at this
      linarith
    have h5 := abs_sub_abs_le_abs_sub (2 * (θ / 2)) ((1 + 1) * Libm.acos x.q_real.q0).toReal
    rw [abs_sub_comm (2 * (θ / 2)), abs_of_nonneg (by linarith : 0 ≤ 2 * (θ / 2))] at h5
    have h6 : (2 : ℝ) ^ (1 - (f.p : ℤ)) = 2 * f.u := by
      unfold Fmt.u
      rw [sub_eq_add_neg, zpow_add₀ (by norm_num), zpow_one]
    rw [h6] at this
    linarith
  rw [pow_eq x e hz]
  have hs1 := Real.abs_sin_le_one (e.toReal * (θ / 2))
  have hc1 := Real.abs_cos_le_one (e.toReal * (θ / 2))
  have L (i : Fin 3) := line_part hp z (by linarith) hδ0 a2 a3 (Real.abs_cos_le_one _) (hl i) hD (hm i) (r' i) q0 (q' i)
  have E (i : Fin 3) := entry_part hp z b1 b2 hc1 hs1 (hl i) hD (hm i) he he1 (L i).1 (L i).2.1 (L i).2.2
  have X0 := b2.mono (show 13 * κ ≤ 130 * g by linarith)
  have X (i : Fin 3) := (E i).1.mono (show 29 * g ≤ 130 * g by linarith)
  have Y0 := (E 0).2.1.mono (show 33 * (P * g) ≤ 130 * (S * g) by linarith [mul_nonneg P0 (by linarith : 0 ≤ g)])
  have Y (i : Fin 3) := (E i).2.2
  rw [← k1] at X0
  rw [← k3] at Y0
  have X' (i : Fin 3) := (X i).congr (k2 i).symm
  have Y' (i : Fin 3) := (Y i).congr (k4 i).symm
  refine ⟨fun i => ⟨?_, ?_⟩, screw_isMotion hlm _ _, hsize, ?_, ?_⟩
  · fin_cases i
    exacts [X0.fin, (X' 0).fin, (X' 1).fin, (X' 2).fin]
  · fin_cases i
    exacts [Y0.fin, (Y' 0).fin, (Y' 1).fin, (Y' 2).fin]
  · refine (Quat.reH_sub_le _ _ (e := 130 * g) fun i => ?_).trans (by linarith)
    fin_cases i
    exacts [X0.err, (X' 0).err, (X' 1).err, (X' 2).err]
  · refine (Quat.reH_sub_le _ _ (e := 130 * (S * g)) fun i => ?_).trans (by linarith)
    fin_cases i
    exacts [Y0.err, (Y' 0).err, (Y' 1).err, (Y' 2).err]

/-- Conjugation does not round. -/
theorem DQuat.Close.conj {x : DQuat (Flt f)} {y : DQuat ℝ} {P ε : ℝ} (h : x.Close y P ε) : x.conj.Close y.conj P ε := by
  have e1 : x.conj.real.reH = star x.real.reH := Quat.reH_conj _
  have e2 : x.conj.dual.reH = star x.dual.reH := Quat.reH_conj _
  have e3 : y.conj.q_real.toH = star y.q_real.toH := Quat.toH_conj _
  have e4 : y.conj.q_dual.toH = star y.q_dual.toH := Quat.toH_conj _
  refine ⟨fun i => ?_, ⟨?_, ?_⟩, ?_, ?_, ?_⟩
  · fin_cases i
    · exact h.fin 0
    · exact ⟨isFin_neg.2 (h.fin 1).1, isFin_neg.2 (h.fin 1).2⟩
    · exact ⟨isFin_neg.2 (h.fin 2).1, isFin_neg.2 (h.fin 2).2⟩
    · exact ⟨isFin_neg.2 (h.fin 3).1, isFin_neg.2 (h.fin 3).2⟩
  · rw [e3, Quaternion.normSq_star, h.motion.norm]
  · have := h.motion.orth
    rw [e3, e4]
    simp only [Quaternion.re_mul, Quaternion.re_star, Quaternion.imI_star, Quaternion.imJ_star, Quaternion.imK_star] at this ⊢
    linarith
  · rw [e4, Quaternion.norm_star]
    exact h.size
  · rw [e1, e3, ← star_sub, Quaternion.norm_star]
    exact h.real
  · rw [e2, e4, ← star_sub, Quaternion.norm_star]
    exact h.dual

theorem DQuat.Close.congr {x : DQuat (Flt f)} {y z : DQuat ℝ} {P ε : ℝ} (h : x.Close y P ε) (e : y.toD = z.toD) : x.Close z P ε := by
  have e' := e
  rw [DQuat.toD_inj] at e'
  refine ⟨h.fin, h.motion.congr e, ?_, ?_, ?_⟩
  · rw [← e'.2]; exact h.size
  · rw [← e'.1]; exact h.real
  · rw [← e'.2]; exact h.dual

theorem DQuat.Close.mono {x : DQuat (Flt f)} {y : DQuat ℝ} {P Q ε ε' : ℝ} (h : x.Close y P ε) (hP : P ≤ Q) (he : ε ≤ ε') :
    x.Close y Q ε' := by
  obtain ⟨-, -, e0, P0⟩ := h.norms
  exact ⟨h.fin, h.motion, h.size.trans hP, h.real.trans he, h.dual.trans (mul_le_mul hP he e0 (P0.trans hP))⟩

/-- `screw_lerp` between float dual quaternions `a` and `b` within `δ` of the motions `A` and `B`, where `A⁻¹ B` is the screw
motion about a line with angle `θ` and displacement `D`: the result for `t` is within `262 (3 δ + ε + 13 u) / sin²(θ/2)` of
`A` followed by the screw motion about the same line with angle `t θ` and displacement `t D`.

Missing: the other sign of the real part of `A B` (where the code is wrong, `C69_begin_false`), and small angles
(`C141_same_motion_false`). -/
theorem C141_screw_lerp_partial [RealParams] [Libm f] (hp : 8 ≤ f.p) {a b : DQuat (Flt f)} {A B : DQuat ℝ} {l m : Vec 3 ℝ}
    (hlm : IsLine l m) {θ D P δ ε : ℝ} (ha : a.Close A P δ) (hb : b.Close B P δ) (hn : a.normalized = true)
    (hAB : (A.conj.mul B).toD = (DQuat.new_from_screw_parameters l m θ D).toD)
    (hsign : 3 * δ + 12 * f.u ≤ (A.q_real.toH * B.q_real.toH).re)
    (h : SinCosAcc f ε) (hacos : AcosAcc f ε) (h0 : 0 ≤ θ)
    (h1 : θ ≤ 2 * Real.pi) (hσ : 0 < Real.sin (θ / 2)) (hd : 4096 * (3 * δ + ε + 13 * f.u) ≤ Real.sin (θ / 2) ^ 2) (hP : 1 / 8 ≤ P)
    (hov : 16 * (2 + 6 * (P / Real.sin (θ / 2))) ^ 2 ≤ (2 : ℝ) ^ f.emax) (t : Flt f) (ht : t.IsFin) (ht1 : |t.toReal| ≤ 1) :
    ∃ y, DQuat.screw_lerp a b t = .ok y ∧
      y.Close (A.mul (DQuat.new_from_screw_parameters l m (t.toReal * θ) (t.toReal * D))) (P + 2 * P / Real.sin (θ / 2))
        (262 * ((3 * δ + ε + 13 * f.u) / Real.sin (θ / 2) ^ 2)) := by
  have σ1 := Real.sin_le_one (θ / 2)
  obtain ⟨σ, hσe⟩ : ∃ σ, σ = Real.sin (θ / 2) := ⟨_, rfl⟩
  rw [← hσe] at hσ hd hov σ1 ⊢
  have u0 := f.u_pos
  have hu := Fmt.u_le_of_p hp
  have hε0 : 0 ≤ ε := acc_nonneg h
  obtain ⟨-, -, hδ0, -⟩ := ha.norms
  have P0 : 0 ≤ P := by linarith
  have hσ2 : σ ^ 2 ≤ 1 := pow_le_one₀ hσ.le σ1
  have hδu : δ * f.u ≤ f.u / 12288 := by nlinarith
  have hδδ : δ * δ ≤ δ / 12288 := by nlinarith
  have hδδu : δ * δ * f.u ≤ f.u / 12288 := by nlinarith [mul_nonneg hδ0 hδ0]
  have hG : (1 + δ) * ((1 + δ) * (1 + 11 * f.u)) - 1 ≤ 3 * δ + 12 * f.u := by linarith
  have hPσ : P ≤ P / σ := by
    rw [le_div_iff₀ hσ]
    exact mul_le_of_le_one_right P0 σ1
  have ov1 : 16 * (2 + 2 * (1 + 1) * P) ^ 2 ≤ (2 : ℝ) ^ f.emax := le_trans (by gcongr; linarith) hov
  -- the sign
  have m1 := DQuat.Close.mul hp (k := 1) (G := 1 + δ) zero_le_one hP (by rw [one_mul, add_sub_cancel_left]; exact ha) hb
    (by linarith) ov1
  have hs : ROrd.lt (a.real.mul b.real).real 0 = false := by
    have g1 := Quat.comp_sub_le (a.mul b).real (A.mul B).q_real 0
    have g2 := m1.real
    have g3 : ((A.mul B).q_real.comp 0) = (A.q_real.toH * B.q_real.toH).re := by
      rw [← Quat.toH_mul]
      rfl
    rw [g3] at g1
    rw [Bool.eq_false_iff]
    intro hc
    have g4 := (lt_iff (m1.fin 0).1 isFin_zero).1 hc
    rw [toReal_zero] at g4
    change ((a.mul b).real.comp 0).toReal < 0 at g4
    have := (_root_.abs_le.1 (g1.trans g2)).1
    linarith
  have hl : DQuat.screw_lerp a b t = .ok (a.mul ((a.conj.mul b).pow t)) := by
    unfold DQuat.screw_lerp
    dsimp only
    rw [hs, if_neg Bool.false_ne_true]
    unfold DQuat.inverse
    rw [hn, if_pos rfl]
    rfl
  -- the relative motion
  have m2 := DQuat.Close.mul hp (k := 1) (G := 1 + δ) zero_le_one hP
    (by rw [one_mul, add_sub_cancel_left]; exact ha.conj) hb (by linarith) ov1
  have m3 := (m2.congr hAB).mono (Q := 2 * P) (by linarith) hG
  obtain ⟨g, hg⟩ : ∃ g, g = (3 * δ + ε + 13 * f.u) / σ ^ 2 := ⟨_, rfl⟩
  have ed : 3 * δ + 12 * f.u + ε + f.u = 3 * δ + ε + 13 * f.u := by ring
  have m4 := C141_pow_partial hp hlm m3 h hacos h0 h1 (hσe ▸ hσ) (by rw [ed, ← hσe]; exact hd) (by linarith)
    (by
      rw [← hσe]
      refine le_trans ?_ hov
      rw [mul_div_assoc]
      gcongr 16 * (2 + ?_) ^ 2
      have : 0 ≤ P / σ := by positivity
      linarith) t ht ht1
  rw [← hσe, ed, ← hg] at m4
  rw [← hg]
  have hg1 : g ≤ 1 / 4096 := by
    rw [hg, div_le_div_iff₀ (by positivity) (by norm_num)]
    linarith
  have hdg : 3 * δ + ε + 13 * f.u ≤ g := by
    rw [hg, le_div_iff₀ (by positivity)]
    exact mul_le_of_le_one_right (by linarith) hσ2
  have e5 : σ / 2 * (2 * P / σ) = P := by field_simp
  have e6 : (σ / 2 + 1) * (2 * P / σ) = P + 2 * P / σ := by rw [add_mul, e5, one_mul]
  have hδg : δ * g ≤ δ / 4096 := by nlinarith
  have hug : f.u * g ≤ f.u / 4096 := by nlinarith
  have hδug : δ * f.u * g ≤ f.u / 4096 := by nlinarith [mul_nonneg hδ0 u0.le]
  have hE : (1 + δ) * ((1 + 260 * g) * (1 + 11 * f.u)) - 1 ≤ 262 * g := by linarith
  have m5 := DQuat.Close.mul hp (k := σ / 2) (P := 2 * P / σ) (G := 1 + δ) (by positivity)
    (by rw [mul_div_assoc]; linarith) (by rw [e5, add_sub_cancel_left]; exact ha) m4
    (by linarith) (by
      refine le_trans ?_ hov
      rw [mul_assoc 2, e6, mul_div_assoc]
      gcongr 16 * (2 + ?_) ^ 2
      linarith)
  rw [e6] at m5
  exact ⟨_, hl, m5.mono le_rfl hE⟩

/-! ## Interpolation between equal motions -/

private theorem div_nan (a : Flt f) : nan / a = nan := rfl
private theorem add_nan' (a : Flt f) : a + nan = nan := by cases a <;> rfl
private theorem mul_nan' (a : Flt f) : a * nan = nan := by cases a <;> rfl
private theorem sub_nan (a : Flt f) : a - nan = nan := add_nan' a
private theorem nan_sub (a : Flt f) : nan - a = nan := rfl
private theorem div_nan' (a : Flt f) : a / nan = nan := by cases a <;> rfl

private theorem mul_nan_quat (p q : Quat (Flt f)) (hq : ∀ i, q.comp i = nan) (i : Fin 4) : (p.mul q).comp i = nan := by
  have h0 : q.q0 = nan := hq 0
  have h1 (i : Fin 3) : q.q i = nan := by
    fin_cases i
    exacts [hq 1, hq 2, hq 3]
  have e0 : (p.mul q).q0 = nan := by
    change p.q0 * q.q0 - _ = nan
    rw [h0, mul_nan', nan_sub]
  have e1 (i : Fin 3) : (p.mul q).q i = nan := by
    change (V3.add (V3.add (V3.smul q.q p.q0) (V3.smul p.q q.q0)) (V3.cross p.q q.q)) i = nan
    rw [V3.add_apply, V3.add_apply, V3.smul_apply, h1]
    rfl
  fin_cases i
  exacts [e0, e1 0, e1 1, e1 2]

private theorem add_nan_quat (p q : Quat (Flt f)) (hq : ∀ i, p.comp i = nan) (i : Fin 4) : (p.add q).comp i = nan := by
  fin_cases i
  · change p.q0 + q.q0 = nan
    rw [show p.q0 = nan from hq 0]; rfl
  · change (V3.add p.q q.q) 0 = nan
    rw [V3.add_apply, show p.q 0 = nan from hq 1]; rfl
  · change (V3.add p.q q.q) 1 = nan
    rw [V3.add_apply, show p.q 1 = nan from hq 2]; rfl
  · change (V3.add p.q q.q) 2 = nan
    rw [V3.add_apply, show p.q 2 = nan from hq 3]; rfl

/-- If the inverse cosine is not a number, neither is anything in the power. -/
private theorem pow_nan [L : Libm f] (hs : L.sin nan = nan) (hc : L.cos nan = nan) (x : DQuat (Flt f)) (h : L.acos x.q_real.q0 = nan)
    (e : Flt f) (i : Fin 4) : (x.pow e).real.comp i = nan ∧ (x.pow e).dual.comp i = nan := by
  have hz : nearly_zero ((1 + 1) * Libm.acos x.q_real.q0) = false := by
    rw [h, mul_nan', Bool.eq_false_iff]
    intro hc
    exact ((nearly_zero_flt _).1 hc).1
  rw [pow_eq x e hz]
  dsimp only
  rw [h, mul_nan', div_nan, mul_nan', div_nan, hs, hc]
  simp only [mul_nan', nan_mul, div_nan', add_nan', div_nan]
  fin_cases i <;> exact ⟨rfl, rfl⟩

private def mB (n : ℕ) : BF Fmt.f64 := .fin false n 0

private theorem den_m (n : ℕ) (h : n ≤ 2 ^ Fmt.f64.p) : BF.Den (mB n) (nF n h) := ⟨rfl, by simp⟩

/-- The quaternion `2 + i + j`. -/
noncomputable def q211 : Quat (Flt Fmt.f64) :=
  Quat.new_from (nF 2 (by decide +kernel)) (nF 1 (by decide +kernel)) (nF 1 (by decide +kernel)) (nF 0 (by decide +kernel))

private def n211 : BF Fmt.f64 := BF.sqrt (mB 2 * mB 2 + (mB 1 * mB 1 + mB 1 * mB 1 + mB 0 * mB 0))

private def rB (n : ℕ) : BF Fmt.f64 := mB n / n211

/-- The real part of the product of the conjugate with the quaternion. -/
private def cB : BF Fmt.f64 := rB 2 * rB 2 - (-rB 1 * rB 1 + -rB 1 * rB 1 + -rB 0 * rB 0)
/-- The real part of the product of the quaternion with itself. -/
private def sB : BF Fmt.f64 := rB 2 * rB 2 - (rB 1 * rB 1 + rB 1 * rB 1 + rB 0 * rB 0)

private theorem den_fin {b : BF Fmt.f64} {x : Flt Fmt.f64} (h : BF.Den b x) {s : Bool} {m : ℕ} {e : ℤ}
    (hb : b = .fin s m e) : x.IsFin := by
  subst hb
  rcases x with _ | t | ⟨t, y, hy⟩
  · exact absurd h id
  · exact absurd h id
  · trivial

attribute [local irreducible] BF.Den

/-- C141 is false of the code for equal motions: in double precision, with any library whose `acos` of a number above 1, and
whose sine and cosine of NaN, are NaN, interpolating from the rotation `a` given by normalising `2 + i + j` to itself gives a
dual quaternion with all eight entries NaN, for every `t`: the computed real part of `a⁻¹ a` is `1 + 2^-52`, and the
code takes its inverse cosine. -/
theorem C141_same_motion_false [L : Libm Fmt.f64] (hacos : ∀ x : Flt Fmt.f64, x.IsFin → 1 < x.toReal → L.acos x = nan)
    (hs : L.sin nan = nan) (hc : L.cos nan = nan) :
    ∃ a : Quat (Flt Fmt.f64), q211.normalize = some a ∧ ∀ t, ∃ y,
      DQuat.screw_lerp (DQuat.new_from_rotation a) (DQuat.new_from_rotation a) t = .ok y ∧
      ∀ i, y.real.comp i = nan ∧ y.dual.comp i = nan := by
  have e0 := den_m 0 (by decide +kernel)
  have e1 := den_m 1 (by decide +kernel)
  have e2 := den_m 2 (by decide +kernel)
  have hn : BF.Den n211 q211.norm2 := BF.den_sqrt (BF.den_add (BF.den_mul e2 e2)
    (BF.den_add (BF.den_add (BF.den_mul e1 e1) (BF.den_mul e1 e1)) (BF.den_mul e0 e0)))
  have hz : nearly_zero q211.norm2 = false := by
    rw [← (BF.related _).nearly_zero hn]
    decide +kernel
  obtain ⟨n, hn'⟩ : ∃ n, n = q211.norm2 := ⟨_, rfl⟩
  rw [← hn'] at hn
  obtain ⟨a, ha⟩ : ∃ a : Quat (Flt Fmt.f64), a = ⟨q211.q0 / n, ⟨![q211.q 0 / n, q211.q 1 / n, q211.q 2 / n]⟩, true⟩ := ⟨_, rfl⟩
  have hnorm : q211.normalize = some a := by
    unfold Quat.normalize
    dsimp only
    rw [hz, ← hn', ha]
    change some _ = some _
    congr 2
  have a0 : BF.Den (rB 2) a.q0 := by rw [ha]; exact BF.den_div e2 hn
  have a1 : BF.Den (rB 1) (a.q 0) := by rw [ha]; exact BF.den_div e1 hn
  have a2 : BF.Den (rB 1) (a.q 1) := by rw [ha]; exact BF.den_div e1 hn
  have a3 : BF.Den (rB 0) (a.q 2) := by rw [ha]; exact BF.den_div e0 hn
  have z := BF.den_zero (f := Fmt.f64)
  have hC : BF.Den cB (a.conj.mul a).q0 := BF.den_sub (BF.den_mul a0 a0) (BF.den_add (BF.den_add
    (BF.den_mul (BF.den_neg a1) a1) (BF.den_mul (BF.den_neg a2) a2)) (BF.den_mul (BF.den_neg a3) a3))
  have hS : BF.Den sB (a.mul a).q0 := BF.den_sub (BF.den_mul a0 a0) (BF.den_add (BF.den_add
    (BF.den_mul a1 a1) (BF.den_mul a2 a2)) (BF.den_mul a3 a3))
  have hC2 : cB = .fin false (2 ^ 52 + 1) (-52) := by decide +kernel
  have h1 : L.acos (a.conj.mul a).q0 = nan := by
    refine hacos _ (den_fin hC hC2) ?_
    rw [toReal_den hC hC2]
    norm_num [sgn]
  have h2 : ROrd.lt (a.mul a).q0 (0 : Flt Fmt.f64) = false := by
    rw [← BF.lt_eq hS z]
    decide +kernel
  refine ⟨a, hnorm, fun t => ⟨(DQuat.new_from_rotation a).mul
    (((DQuat.new_from_rotation a).conj.mul (DQuat.new_from_rotation a)).pow t), ?_, fun i => ?_⟩⟩
  · unfold DQuat.screw_lerp
    dsimp only
    rw [show ROrd.lt ((DQuat.new_from_rotation a).real.mul (DQuat.new_from_rotation a).real).real (0 : Flt Fmt.f64) = false from h2,
      if_neg Bool.false_ne_true]
    rfl
  · have h3 := pow_nan hs hc ((DQuat.new_from_rotation a).conj.mul (DQuat.new_from_rotation a)) h1 t
    exact ⟨mul_nan_quat _ _ (fun i => (h3 i).1) i, add_nan_quat _ _ (mul_nan_quat _ _ fun i => (h3 i).2) i⟩

/-- A library that rounds correctly and answers NaN outside the domain. -/
@[instance_reducible] noncomputable def nanLibm (f : Fmt) : Libm f :=
  let L := correctLibm f
  { L with
    sin := fun x => open Classical in if x.IsFin then L.sin x else nan
    cos := fun x => open Classical in if x.IsFin then L.cos x else nan
    acos := fun x => open Classical in if x.IsFin ∧ |x.toReal| ≤ 1 then L.acos x else nan }

theorem nanLibm_acc (hp : 8 ≤ f.p) : @SinCosAcc f (nanLibm f) (4 * f.u) ∧ @AcosAcc f (nanLibm f) (4 * f.u) := by
  have h1 := (correctLibm_all (f := f) hp).1
  have h2 := correctLibm_acos (f := f) hp
  let := nanLibm f
  refine ⟨⟨fun x hx => ?_, fun x hx => ?_⟩, fun x hx h => ?_⟩
  · have e1 : (nanLibm f).sin x = (correctLibm f).sin x := if_pos hx
    rw [e1]
    exact (@SinCosAcc.sin f (correctLibm f) _ h1) x hx
  · have e1 : (nanLibm f).cos x = (correctLibm f).cos x := if_pos hx
    rw [e1]
    exact (@SinCosAcc.cos f (correctLibm f) _ h1) x hx
  · have e1 : (nanLibm f).acos x = (correctLibm f).acos x := if_pos ⟨hx, h⟩
    rw [e1]
    exact h2 x hx h

/-- The library meets the hypotheses. -/
example : letI := nanLibm Fmt.f64; ∃ a : Quat (Flt Fmt.f64), q211.normalize = some a ∧ ∀ t, ∃ y,
    DQuat.screw_lerp (DQuat.new_from_rotation a) (DQuat.new_from_rotation a) t = .ok y ∧
    ∀ i, y.real.comp i = nan ∧ y.dual.comp i = nan := by
  let := nanLibm Fmt.f64
  refine C141_same_motion_false (fun x _ h => ?_) (if_neg id) (if_neg id)
  refine if_neg fun hc => ?_
  have := le_abs_self x.toReal
  linarith [hc.2]

/-- The quaternion `(1 + i + j + k) / 2` and the dual part `i - j`: a turn by 120 degrees about a line with direction `(1, 1, 1)`. -/
noncomputable def turn120 (f : Fmt) : DQuat (Flt f) :=
  DQuat.new (Quat.new (1 / (1 + 1)) ⟨fun _ => 1 / (1 + 1)⟩) (Quat.new 0 ⟨![1, -1, 0]⟩)

/-- The line of this motion, its angle, and that the floats are the motion exactly. -/
theorem turn120_close [RealParams] (f : Fmt) {l m : Vec 3 ℝ} (hl : l = ⟨fun _ => √3 / 3⟩) (hm : m = ⟨![2 * √3 / 3, -(2 * √3 / 3), 0]⟩) :
    IsLine l m ∧ Real.sin (2 * Real.pi / 3 / 2) = √3 / 2 ∧
    (DQuat.new_from_screw_parameters l m (2 * Real.pi / 3) 0).q_real.q0 = 1 / 2 ∧
    (turn120 f).Close (DQuat.new_from_screw_parameters l m (2 * Real.pi / 3) 0) 2 0 := by
  have h3 : √3 ^ 2 = 3 := Real.sq_sqrt (by norm_num)
  have ea : 2 * Real.pi / 3 / 2 = Real.pi / 3 := by ring
  have es : Real.sin (2 * Real.pi / 3 / 2) = √3 / 2 := by rw [ea, Real.sin_pi_div_three]
  have ec : Real.cos (2 * Real.pi / 3 / 2) = 1 / 2 := by rw [ea, Real.cos_pi_div_three]
  have hl' (i : Fin 3) : l i = √3 / 3 := by rw [hl]
  have m0 : m 0 = 2 * √3 / 3 := by rw [hm]; rfl
  have m1 : m 1 = -(2 * √3 / 3) := by rw [hm]; rfl
  have m2 : m 2 = 0 := by rw [hm]; rfl
  have hlm : IsLine l m := by
    refine ⟨?_, ?_⟩
    · rw [hl', hl', hl']; linarith
    · rw [hl', hl', hl', m0, m1, m2]; ring
  obtain ⟨c1, c2, c3, c4⟩ := screw_comp l m (2 * Real.pi / 3) 0
  rw [es] at c2 c3 c4
  rw [ec] at c1 c4
  have c2' (i : Fin 3) : (DQuat.new_from_screw_parameters l m (2 * Real.pi / 3) 0).q_real.q i = 1 / 2 := by
    rw [c2, hl']; linarith
  have d0 : (DQuat.new_from_screw_parameters l m (2 * Real.pi / 3) 0).q_dual.q0 = 0 := by rw [c3]; ring
  have d1 : (DQuat.new_from_screw_parameters l m (2 * Real.pi / 3) 0).q_dual.q 0 = 1 := by rw [c4, m0]; linarith
  have d2 : (DQuat.new_from_screw_parameters l m (2 * Real.pi / 3) 0).q_dual.q 1 = -1 := by rw [c4, m1]; linarith
  have d3 : (DQuat.new_from_screw_parameters l m (2 * Real.pi / 3) 0).q_dual.q 2 = 0 := by rw [c4, m2]; ring
  have hmo := screw_isMotion hlm (2 * Real.pi / 3) 0
  obtain ⟨B, hB⟩ : ∃ B, B = DQuat.new_from_screw_parameters l m (2 * Real.pi / 3) 0 := ⟨_, rfl⟩
  rw [← hB] at c1 c2' d0 d1 d2 d3 hmo
  have hh := Near.half (f := f)
  have hhr : (1 / (1 + 1) : Flt f).toReal = 1 / 2 := by
    have := abs_eq_zero.1 (le_antisymm hh.err (abs_nonneg _))
    linarith
  rw [← hB]
  refine ⟨hlm, es, c1, ?_⟩
  refine ⟨fun i => ?_, hmo, ?_, ?_, ?_⟩
  · fin_cases i
    exacts [⟨hh.fin, isFin_zero⟩, ⟨hh.fin, isFin_one⟩, ⟨hh.fin, isFin_neg.2 isFin_one⟩, ⟨hh.fin, isFin_zero⟩]
  · refine abs_le_of_sq_le_sq' ?_ (by norm_num) |>.2
    rw [sq ‖_‖, ← Quaternion.normSq_eq_norm_mul_self, Quaternion.normSq_def', Quat.toH_re, Quat.toH_imI, Quat.toH_imJ, Quat.toH_imK,
      d0, d1, d2, d3]
    norm_num
  · refine (Quat.reH_sub_le _ _ (e := 0) fun i => ?_).trans (by norm_num)
    fin_cases i
    · change |(1 / (1 + 1) : Flt f).toReal - B.q_real.q0| ≤ 0
      rw [hhr, c1, sub_self, abs_zero]
    · change |(1 / (1 + 1) : Flt f).toReal - B.q_real.q 0| ≤ 0
      rw [hhr, c2', sub_self, abs_zero]
    · change |(1 / (1 + 1) : Flt f).toReal - B.q_real.q 1| ≤ 0
      rw [hhr, c2', sub_self, abs_zero]
    · change |(1 / (1 + 1) : Flt f).toReal - B.q_real.q 2| ≤ 0
      rw [hhr, c2', sub_self, abs_zero]
  · refine (Quat.reH_sub_le _ _ (e := 0) fun i => ?_).trans (by norm_num)
    fin_cases i
    · change |(0 : Flt f).toReal - B.q_dual.q0| ≤ 0
      rw [d0, toReal_zero, sub_self, abs_zero]
    · change |(1 : Flt f).toReal - B.q_dual.q 0| ≤ 0
      rw [d1, toReal_one, sub_self, abs_zero]
    · change |(-1 : Flt f).toReal - B.q_dual.q 1| ≤ 0
      rw [d2, toReal_neg, toReal_one, sub_self, abs_zero]
    · change |(0 : Flt f).toReal - B.q_dual.q 2| ≤ 0
      rw [d3, toReal_zero, sub_self, abs_zero]

/-- The hypotheses hold: from the identity to a turn by 120 degrees about a line, in single precision. -/
example [RealParams] (t : Flt Fmt.f32) (ht : t.IsFin) (ht1 : |t.toReal| ≤ 1) :
    letI := nanLibm Fmt.f32; ∃ y, DQuat.screw_lerp DQuat.one (turn120 Fmt.f32) t = .ok y ∧
      y.Close (DQuat.one.mul (DQuat.new_from_screw_parameters ⟨fun _ => √3 / 3⟩ ⟨![2 * √3 / 3, -(2 * √3 / 3), 0]⟩
        (t.toReal * (2 * Real.pi / 3)) (t.toReal * 0))) (2 + 2 * 2 / (√3 / 2)) (262 * ((3 * 0 + 4 * Fmt.f32.u + 13 * Fmt.f32.u) / (√3 / 2) ^ 2)) := by
  let := nanLibm Fmt.f32
  obtain ⟨l1, l2⟩ := nanLibm_acc (f := Fmt.f32) (by decide)
  have hu : Fmt.f32.u = 1 / 2 ^ 24 := by
    change (2 : ℝ) ^ (-24 : ℤ) = _
    norm_num
  have hpi := Real.pi_pos
  have h3 : √3 ^ 2 = 3 := Real.sq_sqrt (by norm_num)
  have hs3 : (1 : ℝ) ≤ √3 := Real.one_le_sqrt.2 (by norm_num)
  obtain ⟨l, hl⟩ : ∃ l : Vec 3 ℝ, l = ⟨fun _ => √3 / 3⟩ := ⟨_, rfl⟩
  obtain ⟨m, hm⟩ : ∃ m : Vec 3 ℝ, m = ⟨![2 * √3 / 3, -(2 * √3 / 3), 0]⟩ := ⟨_, rfl⟩
  rw [← hl, ← hm]
  obtain ⟨hlm, es, c1, b⟩ := turn120_close Fmt.f32 hl hm
  obtain ⟨B, hB⟩ : ∃ B, B = DQuat.new_from_screw_parameters l m (2 * Real.pi / 3) 0 := ⟨_, rfl⟩
  rw [← hB] at c1 b
  have r1 : (DQuat.one : DQuat ℝ).q_real.toH = 1 := by ext <;> rfl
  have hconj : (DQuat.one : DQuat ℝ).conj.toD = 1 := by
    rw [← DQuat.toD_one, DQuat.toD_iff8]
    exact ⟨⟨rfl, neg_zero, neg_zero, neg_zero⟩, rfl, neg_zero, neg_zero, neg_zero⟩
  have key := C141_screw_lerp_partial (f := Fmt.f32) (by decide) (a := DQuat.one) (b := turn120 Fmt.f32) (A := DQuat.one) (B := B) hlm
    (θ := 2 * Real.pi / 3) (D := 0) (P := 2) (δ := 0) (ε := 4 * Fmt.f32.u) (DQuat.close_one.mono (by norm_num) le_rfl) b rfl
    (by rw [DQuat.toD_mul, hconj, one_mul, hB])
    (by
      rw [r1, one_mul, Quat.toH_re, c1, hu]
      norm_num) l1 l2 (by positivity) (by linarith) (by rw [es]; linarith)
    (by rw [es, hu]; linarith) (by norm_num)
    (by
      rw [es]
      have h1 : 2 / (√3 / 2) ≤ 4 := by
        rw [div_le_iff₀ (by linarith)]
        linarith
      have h2 : 0 ≤ 2 / (√3 / 2) := by positivity
      have h4 : (2 + 6 * (2 / (√3 / 2))) ^ 2 ≤ 26 ^ 2 := pow_le_pow_left₀ (by linarith) (by linarith) 2
      change _ ≤ (2 : ℝ) ^ (127 : ℤ)
      norm_num at h4 ⊢
      linarith) t ht ht1
  rw [es] at key
  exact key

end
end StaticMath
