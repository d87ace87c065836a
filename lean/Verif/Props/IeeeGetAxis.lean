import Verif.Props.IeeeScrewPar
import Verif.Props.IeeeAxisAngle

/-!
# C162: axis and angle of a computed quaternion, and building a quaternion from them again
-/

namespace StaticMath
open Flt Quaternion

variable {f : Fmt}

private theorem unit_of {l : Vec 3 ℝ} (hl : l 0 ^ 2 + l 1 ^ 2 + l 2 ^ 2 = 1) (φ : ℝ) :
    normSq (⟨Real.cos φ, ⟨fun i => l i * Real.sin φ⟩, true⟩ : Quat ℝ).toH = 1 := by
  rw [Quaternion.normSq_def']
  change Real.cos φ ^ 2 + (l 0 * Real.sin φ) ^ 2 + (l 1 * Real.sin φ) ^ 2 + (l 2 * Real.sin φ) ^ 2 = 1
  linear_combination Real.sin φ ^ 2 * hl + Real.sin_sq_add_cos_sq φ

/-- The axis of a float quaternion close to the rotation by `θ` about the unit vector `l`: it exists and is `l` up to the error of the
components divided by `sin (θ/2)`; the angle is `θ`. -/
theorem C162_axis_angle [L : Libm f] (hw : f.Wide) {e ε θ : ℝ} (h : SinCosAcc f ε) (hA : Atan2Acc f ε) (h0 : 0 ≤ θ) (h1 : θ ≤ 2 * Real.pi)
    (hσ : 0 < Real.sin (θ / 2)) (hd : 6400 * (e + ε + f.u) ≤ Real.sin (θ / 2)) {l : Vec 3 ℝ} (hl : l 0 ^ 2 + l 1 ^ 2 + l 2 ^ 2 = 1)
    (q : Quat (Flt f)) (hr : q.q0.IsFin ∧ |q.q0.toReal - Real.cos (θ / 2)| ≤ e)
    (hv : ∀ i, (q.q i).IsFin ∧ |(q.q i).toReal - l i * Real.sin (θ / 2)| ≤ e) :
    ∃ a t, q.axis_angle = (some a, t) ∧ q.get_axis = some a ∧ q.get_angle = t ∧
      (t.IsFin ∧ |t.toReal - θ| ≤ 82 * (e + ε + f.u)) ∧
      ∀ i, (a i).IsFin ∧ |(a i).toReal - l i| ≤ 750 * ((e + ε + f.u) / Real.sin (θ / 2)) := by
  obtain ⟨r, hrd⟩ : ∃ r : Quat ℝ, r = ⟨Real.cos (θ / 2), ⟨fun i => l i * Real.sin (θ / 2)⟩, true⟩ := ⟨_, rfl⟩
  have hn : normSq r.toH = 1 := by rw [hrd]; exact unit_of hl _
  have hc (i : Fin 4) : (q.comp i).IsFin ∧ |(q.comp i).toReal - r.comp i| ≤ e := by
    rw [hrd]
    fin_cases i
    exacts [hr, hv 0, hv 1, hv 2]
  have yr : r.toH.re = Real.cos (θ / 2) := by rw [hrd]; rfl
  have y1 : r.toH.imI = l 0 * Real.sin (θ / 2) := by rw [hrd]; rfl
  have y2 : r.toH.imJ = l 1 * Real.sin (θ / 2) := by rw [hrd]; rfl
  have y3 : r.toH.imK = l 2 * Real.sin (θ / 2) := by rw [hrd]; rfl
  obtain ⟨σ, hσe⟩ : ∃ σ, σ = Real.sin (θ / 2) := ⟨_, rfl⟩
  rw [← hσe] at hσ hd y1 y2 y3 ⊢
  have hp := hw.p
  have u0 := f.u_pos
  have hε0 : 0 ≤ ε := acc_nonneg h
  have he0 : 0 ≤ e := (abs_nonneg _).trans hr.2
  have σ1 : σ ≤ 1 := hσe ▸ Real.sin_le_one _
  obtain ⟨κ, hκ⟩ : ∃ κ, κ = (e + ε + f.u) / σ := ⟨_, rfl⟩
  rw [← hκ]
  have hκσ : κ * σ = e + ε + f.u := by rw [hκ]; field_simp
  have κ4 : κ ≤ 1 / 6400 := by
    rw [hκ, div_le_div_iff₀ (by positivity) (by norm_num)]
    linarith
  obtain ⟨w, w1, -, w3⟩ := Quat.normalize_near hp (q := q) (e := e) (by linarith) hn hc
  have q4 := Quat.reH_sub_le q _ fun i => (hc i).2
  have w4 := Quat.reH_sub_le w _ fun i => (w3 i).2
  obtain ⟨a1, -⟩ := axis_part hw hσ (d := 2 * (e + ε + f.u)) (κ := 2 * κ) (by linarith) (by rw [← hκσ]; ring) (by linarith) h hA
    (by linarith : 0 ≤ θ / 2) (by linarith) hσe hl q (fun i => (hc i).1) yr y1 y2 y3 q4
  obtain ⟨-, -, b3, -, b5⟩ := axis_part hw hσ (d := 25 * (e + ε + f.u)) (κ := 25 * κ) (by linarith)
    (by rw [← hκσ]; ring) (by linarith) h hA (by linarith : 0 ≤ θ / 2) (by linarith) hσe hl w (fun i => (w3 i).1) yr y1 y2 y3 w4
  have hax : q.get_axis = some ⟨fun i => w.q i / L.sin (w.get_angle / (1 + 1))⟩ := by
    unfold Quat.get_axis
    rw [w1]
    change (if ROrd.lt RFloat.epsilon (RAbs.abs (L.sin (w.get_angle / (1 + 1)))) = true then
      some (V3.sdiv w.q (L.sin (w.get_angle / (1 + 1)))) else none) = _
    rw [if_pos]
    · congr 1
      refine Vec.ext (funext fun i => ?_)
      rw [V3.sdiv_apply]
    · change ROrd.lt (epsilon f) (RAbs.abs (L.sin (w.get_angle / (1 + 1)))) = true
      rw [lt_iff (a := epsilon f) trivial (isFin_abs b3.fin), toReal_abs]
      have h2 : (epsilon f).toReal = 2 * f.u := by
        change sgn false ((2 : ℝ) ^ (1 - (f.p : ℤ))) = _
        unfold Fmt.u sgn
        rw [sub_eq_add_neg, zpow_add₀ (by norm_num), zpow_one]
        rfl
      have h3 := b3.le_abs
      rw [abs_of_pos hσ] at h3
      rw [h2]
      linarith
  have eθ : 2 * (θ / 2) = θ := by ring
  rw [eθ] at a1
  refine ⟨_, q.get_angle, ?_, hax, rfl, ⟨a1.fin, a1.err.trans (by linarith)⟩, fun i => ⟨(b5 i).fin, (b5 i).err.trans (by linarith)⟩⟩
  unfold Quat.axis_angle
  rw [hax]

/-- Axis and angle of a quaternion that `rotation` built from floats: the direction of the vector and the angle that went in. -/
theorem C162_axis_of_rotation [Libm f] [RealParams] (hw : f.Wide) {ε : ℝ} (h : SinCosAcc f ε) (hA : Atan2Acc f ε) (theta : Flt f)
    (hθ : theta.IsFin) (h0 : 0 ≤ theta.toReal) (h1 : theta.toReal ≤ 2 * Real.pi) (v : Vec 3 (Flt f)) (hv : ∀ k, (v k).IsFin)
    (hf : (V3.norm2 v).IsFin) (hn : ∀ k, (v k).toReal = 0 ∨ (2 : ℝ) ^ f.emin ≤ (v k).toReal ^ 2)
    {l : Vec 3 ℝ} (hl : l 0 ^ 2 + l 1 ^ 2 + l 2 ^ 2 = 1) {c : ℝ} (hc : 0 < c) (hva : ∀ k, (v k).toReal = c * l k)
    (hσ : 0 < Real.sin (theta.toReal / 2)) (hd : 51200 * (ε + f.u) ≤ Real.sin (theta.toReal / 2)) :
    ∃ q a t, Quat.rotation theta v = .ok q ∧ q.axis_angle = (some a, t) ∧ (t.IsFin ∧ |t.toReal - theta.toReal| ≤ 656 * (ε + f.u)) ∧
      ∀ i, (a i).IsFin ∧ |(a i).toReal - l i| ≤ 6000 * ((ε + f.u) / Real.sin (theta.toReal / 2)) := by
  have hp := hw.p
  have u0 := f.u_pos
  have hε0 := acc_nonneg h
  have σ1 := Real.sin_le_one (theta.toReal / 2)
  have hne : ∃ k, (v k).toReal ≠ 0 := by
    by_contra hc0
    push Not at hc0
    have z (k : Fin 3) : l k = 0 := by
      have := hc0 k
      rw [hva k] at this
      exact (mul_eq_zero.1 this).resolve_left hc.ne'
    rw [z 0, z 1, z 2] at hl
    norm_num at hl
  obtain ⟨q, q', g1, g2, -, g4⟩ := C127_rotation hp h (by linarith) theta hθ v hv hf hn hne
  have hN : V3.norm2 v.re3 = c := by
    rw [V3.norm2_eq_sqrt]
    change √((v 0).toReal ^ 2 + (v 1).toReal ^ 2 + (v 2).toReal ^ 2) = c
    rw [hva 0, hva 1, hva 2, show (c * l 0) ^ 2 + (c * l 1) ^ 2 + (c * l 2) ^ 2 = c ^ 2 by linear_combination c ^ 2 * hl, Real.sqrt_sq hc.le]
  rw [Quat.rotation_eq, hN, if_neg hc.ne'] at g2
  have g3 := Except.ok.inj g2
  have k (i : Fin 3) : (v i).toReal / c = l i := by rw [hva i, mul_div_cancel_left₀ _ hc.ne']
  obtain ⟨a, t, b1, -, -, b2, b3⟩ := C162_axis_angle hw (e := 11 / 10 * ε + 7 * f.u) h hA h0 h1 hσ (by linarith) hl q
    (by have := g4 0; rw [← g3] at this; exact this)
    (fun i => by
      rw [← k i]
      fin_cases i
      · have := g4 1; rw [← g3] at this; exact this
      · have := g4 2; rw [← g3] at this; exact this
      · have := g4 3; rw [← g3] at this; exact this)
  refine ⟨q, a, t, g1, b1, ⟨b2.1, b2.2.trans (by linarith)⟩, fun i => ⟨(b3 i).1, (b3 i).2.trans ?_⟩⟩
  have : (11 / 10 * ε + 7 * f.u + ε + f.u) / Real.sin (theta.toReal / 2) ≤ 8 * ((ε + f.u) / Real.sin (theta.toReal / 2)) := by
    rw [← mul_div_assoc]
    exact div_le_div_of_nonneg_right (by linarith) hσ.le
  linarith

/-- Building the quaternion of the computed axis and angle gives the quaternion back; the error no longer depends on the angle. -/
theorem C162_round_trip [L : Libm f] (hw : f.Wide) {e ε θ : ℝ} (h : SinCosAcc f ε) (hA : Atan2Acc f ε) (h0 : 0 ≤ θ) (h1 : θ ≤ 2 * Real.pi)
    (hσ : 0 < Real.sin (θ / 2)) (hd : 32768 * (e + ε + f.u) ≤ Real.sin (θ / 2)) {l : Vec 3 ℝ} (hl : l 0 ^ 2 + l 1 ^ 2 + l 2 ^ 2 = 1)
    (q : Quat (Flt f)) (hr : q.q0.IsFin ∧ |q.q0.toReal - Real.cos (θ / 2)| ≤ e)
    (hv : ∀ i, (q.q i).IsFin ∧ |(q.q i).toReal - l i * Real.sin (θ / 2)| ≤ e) :
    ∃ a t q2, q.axis_angle = (some a, t) ∧ Quat.rotation t a = .ok q2 ∧ q2.normalized = true ∧
      (q2.q0.IsFin ∧ |q2.q0.toReal - Real.cos (θ / 2)| ≤ 50 * (e + ε + f.u)) ∧
      ∀ i, (q2.q i).IsFin ∧ |(q2.q i).toReal - l i * Real.sin (θ / 2)| ≤ 2460 * (e + ε + f.u) := by
  have hp := hw.p
  have u0 := f.u_pos
  have hε0 : 0 ≤ ε := acc_nonneg h
  have he0 : 0 ≤ e := (abs_nonneg _).trans hr.2
  obtain ⟨a, t, b1, b2, b3, -, b5⟩ := C162_axis_angle hw h hA h0 h1 hσ (by linarith) hl q hr hv
  obtain ⟨r, hrd⟩ : ∃ r : Quat ℝ, r = ⟨Real.cos (θ / 2), ⟨fun i => l i * Real.sin (θ / 2)⟩, true⟩ := ⟨_, rfl⟩
  have hn : normSq r.toH = 1 := by rw [hrd]; exact unit_of hl _
  have hc (i : Fin 4) : (q.comp i).IsFin ∧ |(q.comp i).toReal - r.comp i| ≤ e := by
    rw [hrd]
    fin_cases i
    exacts [hr, hv 0, hv 1, hv 2]
  have yr : r.toH.re = Real.cos (θ / 2) := by rw [hrd]; rfl
  have y1 : r.toH.imI = l 0 * Real.sin (θ / 2) := by rw [hrd]; rfl
  have y2 : r.toH.imJ = l 1 * Real.sin (θ / 2) := by rw [hrd]; rfl
  have y3 : r.toH.imK = l 2 * Real.sin (θ / 2) := by rw [hrd]; rfl
  obtain ⟨σ, hσe⟩ : ∃ σ, σ = Real.sin (θ / 2) := ⟨_, rfl⟩
  rw [← hσe] at hσ hd y1 y2 y3 b5 ⊢
  have σ1 : σ ≤ 1 := hσe ▸ Real.sin_le_one _
  obtain ⟨κ, hκ⟩ : ∃ κ, κ = (e + ε + f.u) / σ := ⟨_, rfl⟩
  rw [← hκ] at b5
  have hκσ : κ * σ = e + ε + f.u := by rw [hκ]; field_simp
  have κ4 : κ ≤ 1 / 32768 := by
    rw [hκ, div_le_div_iff₀ (by positivity) (by norm_num)]
    linarith
  have κ0 : 0 < κ := by rw [hκ]; exact div_pos (by linarith) hσ
  have dκ : e + ε + f.u ≤ κ := by rw [← hκσ]; exact mul_le_of_le_one_right κ0.le σ1
  have q4 := Quat.reH_sub_le q _ fun i => (hc i).2
  obtain ⟨-, -, c3, c4, -⟩ := axis_part hw hσ (d := 2 * (e + ε + f.u)) (κ := 2 * κ) (by linarith) (by rw [← hκσ]; ring) (by linarith) h hA
    (by linarith : 0 ≤ θ / 2) (by linarith) hσe hl q (fun i => (hc i).1) yr y1 y2 y3 q4
  rw [b3] at c3 c4
  -- the length of the axis
  obtain ⟨N, hN⟩ : ∃ N, N = √((a 0).toReal ^ 2 + (a 1).toReal ^ 2 + (a 2).toReal ^ 2) := ⟨_, rfl⟩
  have hN0 : 0 ≤ N := by rw [hN]; exact Real.sqrt_nonneg _
  have hNs : N ^ 2 = (a 0).toReal ^ 2 + (a 1).toReal ^ 2 + (a 2).toReal ^ 2 := by rw [hN, Real.sq_sqrt (by positivity)]
  have hN1 : |N - 1| ≤ 1500 * κ := by
    obtain ⟨A, hA'⟩ : ∃ A : Quat (Flt f), A = ⟨0, a, true⟩ := ⟨_, rfl⟩
    obtain ⟨B, hB'⟩ : ∃ B : Quat ℝ, B = ⟨0, l, true⟩ := ⟨_, rfl⟩
    have g := Quat.reH_sub_le A B (e := 750 * κ) (fun i => by
      rw [hA', hB']
      fin_cases i
      · change |(0 : Flt f).toReal - 0| ≤ _
        rw [toReal_zero, sub_zero, abs_zero]
        positivity
      exacts [(b5 0).2, (b5 1).2, (b5 2).2])
    have nB : ‖B.toH‖ = 1 := by
      rw [← sq_eq_sq₀ (norm_nonneg _) zero_le_one, sq ‖B.toH‖, ← Quaternion.normSq_eq_norm_mul_self, Quaternion.normSq_def', hB']
      change (0 : ℝ) ^ 2 + l 0 ^ 2 + l 1 ^ 2 + l 2 ^ 2 = _
      linarith
    have nA : ‖A.reH‖ = N := by
      rw [← sq_eq_sq₀ (norm_nonneg _) hN0, sq ‖A.reH‖, ← Quaternion.normSq_eq_norm_mul_self, Quaternion.normSq_def', hNs, hA']
      change (0 : Flt f).toReal ^ 2 + (a 0).toReal ^ 2 + (a 1).toReal ^ 2 + (a 2).toReal ^ 2 = _
      rw [toReal_zero]
      ring
    have := abs_norm_sub_norm_le A.reH B.toH
    rw [nA, nB] at this
    linarith
  have hN2 := _root_.abs_le.1 hN1
  obtain ⟨n1, n0, n2⟩ := norm2_V3_near hp hw.eta a (fun i => (b5 i).1) hN0 hNs (by linarith)
  have hu8 := Fmt.u_le_of_p hp
  have nn : Near (V3.norm2 a) 1 (1510 * κ) := by
    refine ⟨n1, (abs_sub_le _ N _).trans ?_⟩
    have s1 : f.u * N ≤ f.u * (11 / 10) := mul_le_mul_of_nonneg_left (by linarith) u0.le
    have s2 : f.u ^ 2 ≤ f.u * (1 / 256) := by rw [sq]; exact mul_le_mul_of_nonneg_left hu8 u0.le
    linarith
  have hne : ¬ ROrd.beq (V3.norm2 a) 0 = true := by
    rw [beq_iff n1 isFin_zero, toReal_zero]
    have := _root_.abs_le.1 nn.err
    intro hz
    rw [hz] at this
    linarith
  have hli (i : Fin 3) : |l i| ≤ 1 := by
    have l0 := sq_nonneg (l 0)
    have l1 := sq_nonneg (l 1)
    have l2 := sq_nonneg (l 2)
    refine abs_le_of_sq_le_sq ?_ zero_le_one
    fin_cases i
    · change l 0 ^ 2 ≤ _; linarith
    · change l 1 ^ 2 ≤ _; linarith
    · change l 2 ^ 2 ≤ _; linarith
  have nw (i : Fin 3) : Near (a i / V3.norm2 a) (l i) (2400 * κ) := by
    have n := Near.div hp (a := a i) (b := V3.norm2 a) (v := l i) (w := 1) (e1 := 750 * κ) (e2 := 1510 * κ) (c := 19 / 20) (Q := 1) (B := 11 / 10)
      (e := 2400 * κ) ⟨(b5 i).1, (b5 i).2⟩ nn (by norm_num) (by rw [abs_one]; linarith) (by rw [div_one]; exact hli i) (by linarith) (by norm_num)
      (by linarith)
    rwa [div_one] at n
  have ns (i : Fin 3) : Near (a i / V3.norm2 a * L.sin (t / (1 + 1))) (l i * σ) (2460 * (e + ε + f.u)) := by
    refine Near.mul hp (nw i) c3 (A := 108 / 100) (C := σ) (D := 101 / 100) (B := 11 / 10) ?_ (by rw [abs_of_pos hσ]) ?_ (by norm_num)
      (by norm_num) ?_
    · linarith [hli i]
    · rw [abs_of_pos hσ]
      linarith
    · have : σ * (2400 * κ) = 2400 * (e + ε + f.u) := by rw [← hκσ]; ring
      rw [this]
      linarith
  refine ⟨a, t, ⟨L.cos (t / (1 + 1)), V3.smul ⟨fun i => a i / V3.norm2 a⟩ (L.sin (t / (1 + 1))), true⟩, b1, ?_, rfl,
    ⟨c4.fin, c4.err.trans (by linarith)⟩, fun i => ?_⟩
  · unfold Quat.rotation V3.normalize
    rw [normalizeGen_eq, if_neg hne]
    rfl
  · rw [V3.smul_apply]
    exact ⟨(ns i).fin, (ns i).err⟩

/-- The length of the vector part. -/
theorem C162_abs_imag [Libm f] (hw : f.Wide) (q : Quat (Flt f)) (hq : ∀ i, (q.q i).IsFin) {N : ℝ} (hN0 : 0 ≤ N)
    (hN : N ^ 2 = (q.q 0).toReal ^ 2 + (q.q 1).toReal ^ 2 + (q.q 2).toReal ^ 2) (h9 : N ≤ 9) :
    q.abs_imag.IsFin ∧ 0 ≤ q.abs_imag.toReal ∧ |q.abs_imag.toReal - N| ≤ 5 * f.u * N + 2 * f.u ^ 2 :=
  norm2_V3_near hw.p hw.eta q.q hq hN0 hN h9

private theorem u32 : Fmt.f32.u = 1 / 2 ^ 24 := by
  change (2 : ℝ) ^ (-24 : ℤ) = _
  norm_num

/-- The hypotheses hold: the half turn about the z axis, any quaternion within 1/100000 of it in single precision. -/
example (q : Quat (Flt Fmt.f32)) (hr : q.q0.IsFin ∧ |q.q0.toReal| ≤ 1 / 100000)
    (hv : ∀ i, (q.q i).IsFin ∧ |(q.q i).toReal - (V3.z_axis : Vec 3 ℝ) i| ≤ 1 / 100000) :
    letI := correctLibm Fmt.f32
    ∃ a t q2, q.axis_angle = (some a, t) ∧ Quat.rotation t a = .ok q2 ∧ ∀ i, |(q2.q i).toReal - (V3.z_axis : Vec 3 ℝ) i| ≤ 1 / 39 := by
  let := correctLibm Fmt.f32
  obtain ⟨a, t, q2, b1, b2, -, -, b3⟩ := C162_round_trip (f := Fmt.f32) (θ := Real.pi) Fmt.f32_wide (correctLibm_all (f := Fmt.f32) (by decide)).1
    (correctLibm_atan2 (f := Fmt.f32) (by decide)) Real.pi_pos.le (by linarith [Real.pi_pos]) (by rw [Real.sin_pi_div_two]; norm_num)
    (e := 1 / 100000) (by rw [Real.sin_pi_div_two, u32]; norm_num) (l := V3.z_axis)
    (by change (0 : ℝ) ^ 2 + 0 ^ 2 + 1 ^ 2 = 1; norm_num) q (by rw [Real.cos_pi_div_two, sub_zero]; exact hr)
    (fun i => by rw [Real.sin_pi_div_two, mul_one]; exact hv i)
  refine ⟨a, t, q2, b1, b2, fun i => ?_⟩
  have := (b3 i).2
  rw [Real.sin_pi_div_two, mul_one, u32] at this
  norm_num at this
  linarith

/-- The hypotheses hold: any angle from 1 to 5 about (3, 3, 3) in single precision. The axis comes back as (1, 1, 1)/√3. -/
example [RealParams] (theta : Flt Fmt.f32) (hθ : theta.IsFin) (h1 : 1 ≤ theta.toReal) (h5 : theta.toReal ≤ 5) (three : Flt Fmt.f32)
    (h3 : three.IsFin) (h3' : three.toReal = 3) :
    letI := correctLibm Fmt.f32
    ∃ q a t, Quat.rotation theta ⟨fun _ => three⟩ = .ok q ∧ q.axis_angle = (some a, t) ∧ |t.toReal - theta.toReal| ≤ 1 / 5000 ∧
      ∀ i, |(a i).toReal - 1 / √3| ≤ 1 / 150 := by
  let := correctLibm Fmt.f32
  have hpi := Real.pi_gt_d2
  have hpi2 := Real.pi_lt_d2
  have hs : 3 / 10 ≤ Real.sin (theta.toReal / 2) := by
    have c : (3 : ℝ) / 5 ≤ 2 / Real.pi := by rw [le_div_iff₀ Real.pi_pos]; linarith
    rcases le_total (theta.toReal / 2) (Real.pi / 2) with hle | hle
    · have h2 := Real.mul_le_sin (x := theta.toReal / 2) (by linarith) hle
      have h4 := mul_le_mul_of_nonneg_right c (by linarith : 0 ≤ theta.toReal / 2)
      linarith
    · have h2 := Real.mul_le_sin (x := Real.pi - theta.toReal / 2) (by linarith) (by linarith)
      have h4 := mul_le_mul_of_nonneg_right c (by linarith : 0 ≤ Real.pi - theta.toReal / 2)
      rw [Real.sin_pi_sub] at h2
      linarith
  have hf := (norm2_V3_near (f := Fmt.f32) (by decide) Fmt.f32_wide.eta ⟨fun _ => three⟩ (fun _ => h3) (N := √27) (Real.sqrt_nonneg _)
    (by rw [Real.sq_sqrt (by norm_num)]
        change (27 : ℝ) = three.toReal ^ 2 + three.toReal ^ 2 + three.toReal ^ 2
        rw [h3']; norm_num) (Real.sqrt_le_iff.2 (by norm_num))).1
  have s3 : (1 / √3 : ℝ) ^ 2 = 1 / 3 := by rw [div_pow, Real.sq_sqrt (by norm_num)]; norm_num
  have p3 : 0 < √(3 : ℝ) := Real.sqrt_pos.2 (by norm_num)
  obtain ⟨q, a, t, b1, b2, b3, b4⟩ := C162_axis_of_rotation (f := Fmt.f32) Fmt.f32_wide (correctLibm_all (f := Fmt.f32) (by decide)).1
    (correctLibm_atan2 (f := Fmt.f32) (by decide)) theta hθ (by linarith) (by linarith) ⟨fun _ => three⟩ (fun _ => h3) hf
    (fun _ => Or.inr (by
      change (2 : ℝ) ^ (-126 : ℤ) ≤ three.toReal ^ 2
      rw [h3']; norm_num)) (l := ⟨fun _ => 1 / √3⟩) (c := 3 * √3)
    (by change (1 / √3 : ℝ) ^ 2 + (1 / √3) ^ 2 + (1 / √3) ^ 2 = 1; rw [s3]; norm_num) (by positivity)
    (fun _ => by change three.toReal = 3 * √3 * (1 / √3); rw [h3']; field_simp) (by linarith) (by rw [u32]; linarith)
  refine ⟨q, a, t, b1, b2, b3.2.trans (by rw [u32]; norm_num), fun i => (b4 i).2.trans ?_⟩
  rw [← mul_div_assoc, div_le_iff₀ (by linarith), u32]
  linarith

end StaticMath
