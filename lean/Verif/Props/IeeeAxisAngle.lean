import Verif.Props.IeeeFromRot
import Verif.Props.IeeeRot
import Verif.Props.IeeeNorm
import Verif.Lemmas.ArgLip
import Verif.Ieee.Rounded

/-!
# C127: quaternions built from an axis and an angle in floating point
-/

namespace StaticMath
open Flt Quaternion

variable {f : Fmt}

private theorem kappa (hp : 8 ≤ f.p) : (1 + f.u) ^ 4 - 1 ≤ 403 / 100 * f.u := by
  have hu := Fmt.u_le_of_p hp
  have hu0 := f.u_pos
  have h2 : f.u * f.u ≤ 1 / 256 * f.u := mul_le_mul_of_nonneg_right hu hu0.le
  have h3 : f.u * f.u * f.u ≤ 1 / 256 * f.u * (1 / 256) := mul_le_mul h2 hu hu0.le (by positivity)
  have h4 : f.u * f.u * f.u * f.u ≤ 1 / 256 * f.u * (1 / 256) * (1 / 256) := mul_le_mul h3 hu hu0.le (by positivity)
  nlinarith

private theorem eta_small (hp : 8 ≤ f.p) : f.eta ≤ f.u / 256 := by
  have h1 := f.eta_le_sq
  have h2 := mul_le_mul_of_nonneg_right (Fmt.u_le_of_p hp) f.u_pos.le
  linarith

/-- The real vector of the values. -/
noncomputable def Vec.re3 (v : Vec 3 (Flt f)) : Vec 3 ℝ := ⟨fun i => (v i).toReal⟩

/-- `rotation`: no panic, and within `1.1 ε + 7 u` of the exact unit quaternion of that axis and angle. -/
theorem C127_rotation [Libm f] [RealParams] (hp : 8 ≤ f.p) {ε : ℝ} (h : SinCosAcc f ε) (hε : ε ≤ 1 / 4) (theta : Flt f)
    (hθ : theta.IsFin) (v : Vec 3 (Flt f)) (hv : ∀ k, (v k).IsFin) (hf : (V3.norm2 v).IsFin)
    (hn : ∀ k, (v k).toReal = 0 ∨ (2 : ℝ) ^ f.emin ≤ (v k).toReal ^ 2) (h0 : ∃ k, (v k).toReal ≠ 0) :
    ∃ q q', Quat.rotation theta v = .ok q ∧ Quat.rotation theta.toReal v.re3 = .ok q' ∧ q.normalized = true ∧
      ∀ i, (q.comp i).IsFin ∧ |(q.comp i).toReal - q'.comp i| ≤ 11 / 10 * ε + 7 * f.u := by
  have hu := Fmt.u_le_of_p hp
  have hu0 := f.u_pos
  have hη := eta_small hp
  have hκ := kappa hp
  have hε0 := acc_nonneg h
  obtain ⟨N, hNe⟩ : ∃ N, N = √(∑ k, (v k).toReal ^ 2) := ⟨_, rfl⟩
  have hN : 0 < N := by
    rw [hNe, Real.sqrt_pos]
    obtain ⟨k, hk⟩ := h0
    exact (by positivity : 0 < (v k).toReal ^ 2).trans_le
      (Finset.single_le_sum (f := fun k => (v k).toReal ^ 2) (fun i _ => sq_nonneg _) (Finset.mem_univ k))
  obtain ⟨-, hw⟩ := C106_V3 v hv hf hn (by linarith)
  rw [← hNe] at hw
  obtain ⟨w, hw1, hw2, -⟩ := hw hN
  have hNr : V3.norm2 v.re3 = N := by
    rw [V3.norm2_eq_sqrt, hNe, Fin.sum_univ_three]
    rfl
  have hle (k : Fin 3) : |(v k).toReal| / N ≤ 1 := by
    rw [div_le_one hN, hNe, ← Real.sqrt_sq_eq_abs]
    exact Real.sqrt_le_sqrt
      (Finset.single_le_sum (f := fun k => (v k).toReal ^ 2) (fun i _ => sq_nonneg _) (Finset.mem_univ k))
  have hc : ((1 + f.u) ^ 4 - 1 + f.u) / (1 - ((1 + f.u) ^ 4 - 1)) ≤ 52 / 10 * f.u - f.u / 256 := by
    rw [div_le_iff₀ (by linarith)]
    nlinarith
  have hc0 : 0 ≤ ((1 + f.u) ^ 4 - 1 + f.u) / (1 - ((1 + f.u) ^ 4 - 1)) := by
    have : 1 ≤ (1 + f.u) ^ 4 := one_le_pow₀ (by linarith)
    exact div_nonneg (by linarith) (by linarith)
  have nw (k : Fin 3) : Near (w k) ((v k).toReal / N) (52 / 10 * f.u) := by
    refine ⟨(hw2 k).1, (hw2 k).2.trans ?_⟩
    have := mul_le_mul hc (hle k) (by positivity) (hc0.trans hc)
    linarith
  obtain ⟨hs, hco⟩ := half_acc h hθ
  have ns : Near (Libm.sin (theta / (1 + 1))) (Real.sin (theta.toReal / 2)) (ε + f.u / 256) :=
    ⟨hs.1, hs.2.trans (by linarith)⟩
  have nq (k : Fin 3) : Near (w k * Libm.sin (theta / (1 + 1))) ((v k).toReal / N * Real.sin (theta.toReal / 2))
      (11 / 10 * ε + 7 * f.u) := by
    refine Near.mul hp (nw k) ns (A := 103 / 100) (C := 1) (D := 127 / 100) (B := 131 / 100) ?_ (Real.abs_sin_le_one _) ?_
      (by norm_num) (by norm_num) (by linarith)
    · rw [abs_div, abs_of_pos hN]
      linarith [hle k]
    · linarith [Real.abs_sin_le_one (theta.toReal / 2)]
  refine ⟨⟨Libm.cos (theta / (1 + 1)), V3.smul w (Libm.sin (theta / (1 + 1))), true⟩,
    ⟨Real.cos (theta.toReal / 2), ⟨fun i => (v i).toReal / N * Real.sin (theta.toReal / 2)⟩, true⟩, ?_, ?_, rfl, ?_⟩
  · unfold Quat.rotation
    rw [hw1]
    rfl
  · rw [Quat.rotation_eq, hNr, if_neg hN.ne']
    rfl
  · intro i
    fin_cases i
    · exact ⟨hco.1, hco.2.trans (by linarith)⟩
    · exact ⟨(nq 0).fin, (nq 0).err⟩
    · exact ⟨(nq 1).fin, (nq 1).err⟩
    · exact ⟨(nq 2).fin, (nq 2).err⟩

/-- The rotation matrix of `rotation`: within `6 ε + 52 u` of the exact rotation about that axis by that angle. -/
theorem C127_rotation_matrix [Libm f] [RealParams] (hp : 8 ≤ f.p) {ε : ℝ} (h : SinCosAcc f ε) (hε : ε ≤ 1 / 6) (theta : Flt f)
    (hθ : theta.IsFin) (v : Vec 3 (Flt f)) (hv : ∀ k, (v k).IsFin) (hf : (V3.norm2 v).IsFin)
    (hn : ∀ k, (v k).toReal = 0 ∨ (2 : ℝ) ^ f.emin ≤ (v k).toReal ^ 2) (a : Vec 3 ℝ)
    (ha : a 0 ^ 2 + a 1 ^ 2 + a 2 ^ 2 = 1) (c : ℝ) (hc : 0 < c) (hva : ∀ k, (v k).toReal = c * a k) :
    ∃ q, Quat.rotation theta v = .ok q ∧ ∀ i j, (q.to_rotation i j).IsFin ∧
      |(q.to_rotation i j).toReal - rotation_from_axis_angle a theta.toReal i j| ≤ 6 * ε + 52 * f.u := by
  have hu := Fmt.u_le_of_p hp
  have hε0 := acc_nonneg h
  have hu0 := f.u_pos
  have h0 : ∃ k, (v k).toReal ≠ 0 := by
    by_contra hc0
    push Not at hc0
    have z (k : Fin 3) : a k = 0 := by
      have := hc0 k
      rw [hva k] at this
      exact (mul_eq_zero.1 this).resolve_left hc.ne'
    rw [z, z, z] at ha
    norm_num at ha
  obtain ⟨q, q', e1, e2, -, e3⟩ := C127_rotation hp h (by linarith) theta hθ v hv hf hn h0
  obtain ⟨g1, -, g3, -⟩ := (C51_rotation theta.toReal 0 v.re3).2 q' e2
  have hN : V3.norm2 v.re3 = c := by
    rw [V3.norm2_eq_sqrt]
    have e (k : Fin 3) : v.re3 k = c * a k := hva k
    rw [e, e, e, show (c * a 0) ^ 2 + (c * a 1) ^ 2 + (c * a 2) ^ 2 = c ^ 2 * (a 0 ^ 2 + a 1 ^ 2 + a 2 ^ 2) by ring, ha,
      mul_one, Real.sqrt_sq hc.le]
  refine ⟨q, e1, fun i j => ?_⟩
  have k := C126_to_rotation hp q q' _ (by linarith) g1 e3 i j
  rw [g3 a (fun i => by rw [hN]; exact hva i)] at k
  exact ⟨k.1, k.2.trans (by linarith)⟩

/-- `rotation_norm_encoded` of a vector of length `N`: within `1.1 ε + (3 N + 10) u` of the unit quaternion of the
rotation about that vector by the angle `N`, also below the threshold where the code returns `one()`. -/
theorem C127_norm_encoded [Libm f] (hp : 8 ≤ f.p) {ε : ℝ} (h : SinCosAcc f ε) (hε : ε ≤ 1 / 4)
    (v : Vec 3 (Flt f)) (hv : ∀ k, (v k).IsFin) (hf : (V3.norm2 v).IsFin)
    (hn : ∀ k, (v k).toReal = 0 ∨ (2 : ℝ) ^ f.emin ≤ (v k).toReal ^ 2) (N : ℝ) (hNe : N = √(∑ k, (v k).toReal ^ 2))
    (hN2 : N ≤ 256) :
    let q := Quat.rotation_norm_encoded v
    let E := 11 / 10 * ε + (3 * N + 10) * f.u
    (q.q0.IsFin ∧ |q.q0.toReal - Real.cos (N / 2)| ≤ E) ∧
      ∀ k, (q.q k).IsFin ∧ |(q.q k).toReal - (v k).toReal / N * Real.sin (N / 2)| ≤ E := by
  intro q E
  have hu := Fmt.u_le_of_p hp
  have hu0 := f.u_pos
  have hη := eta_small hp
  have hη0 := f.eta_pos
  have hκ := kappa hp
  have hε0 := acc_nonneg h
  have hN0 : 0 ≤ N := by rw [hNe]; exact Real.sqrt_nonneg _
  have hNu := mul_nonneg hN0 hu0.le
  have hE : E = 11 / 10 * ε + 3 * (N * f.u) + 10 * f.u := by simp only [E]; ring
  have hle (k : Fin 3) : |(v k).toReal| ≤ N := by
    rw [hNe, ← Real.sqrt_sq_eq_abs]
    exact Real.sqrt_le_sqrt
      (Finset.single_le_sum (f := fun k => (v k).toReal ^ 2) (fun i _ => sq_nonneg _) (Finset.mem_univ k))
  obtain ⟨hθ, -⟩ := C106_V3 v hv hf hn (by linarith)
  rw [← hNe] at hθ
  obtain ⟨t, ht⟩ : ∃ t, t = V3.norm2 v := ⟨_, rfl⟩
  rw [← ht] at hf hθ
  have hθ1 : |t.toReal - N| ≤ 403 / 100 * f.u * N := hθ.trans (mul_le_mul_of_nonneg_right hκ hN0)
  obtain ⟨hθl, hθr⟩ := abs_le.1 hθ1
  have hNs : f.u * N ≤ 1 / 256 * N := mul_le_mul_of_nonneg_right hu hN0
  have ht0 : 0 ≤ t.toReal := by nlinarith
  have ls (x y : ℝ) : |Real.sin x - Real.sin y| ≤ |x - y| := by
    simpa [Real.dist_eq] using Real.lipschitzWith_sin.dist_le_mul x y
  have lc (x y : ℝ) : |Real.cos x - Real.cos y| ≤ |x - y| := by
    simpa [Real.dist_eq] using Real.lipschitzWith_cos.dist_le_mul x y
  have e2u : (2 : ℝ) ^ (1 - (f.p : ℤ)) = 2 * f.u := by
    unfold Fmt.u
    rw [zpow_sub₀ (by norm_num), zpow_neg, zpow_one]
    rfl
  have hq : q = if !nearly_zero t then
      ⟨Libm.cos (t / (1 + 1)), V3.smul v (Libm.sin (t / (1 + 1)) / t), true⟩ else Quat.new 1 V3.zero := by
    rw [ht]
    rfl
  by_cases hz : nearly_zero t = true
  · rw [hz, Bool.not_true, if_neg (by simp)] at hq
    rw [nearly_zero_flt, e2u, abs_of_nonneg ht0] at hz
    have hN3 : N / 2 ≤ 2 * f.u := by nlinarith [hz.2]
    have k1 : |(1 : Flt f).toReal - Real.cos (N / 2)| ≤ E := by
      have := lc 0 (N / 2)
      rw [Real.cos_zero, zero_sub, abs_neg, abs_of_nonneg (a := N / 2) (by linarith)] at this
      rw [toReal_one]
      refine this.trans ?_
      linarith
    have k2 (k : Fin 3) : |(0 : Flt f).toReal - (v k).toReal / N * Real.sin (N / 2)| ≤ E := by
      have := ls (N / 2) 0
      rw [Real.sin_zero, sub_zero, sub_zero, abs_of_nonneg (a := N / 2) (by linarith)] at this
      rw [toReal_zero, zero_sub, abs_neg, abs_mul, abs_div, abs_of_nonneg hN0]
      have m := mul_le_mul (div_le_one_of_le₀ (hle k) hN0) this (abs_nonneg _) zero_le_one
      refine m.trans ?_
      linarith
    rw [hq]
    refine ⟨⟨trivial, k1⟩, fun k => ?_⟩
    fin_cases k
    exacts [⟨trivial, k2 0⟩, ⟨trivial, k2 1⟩, ⟨trivial, k2 2⟩]
  · have hz' : 2 * f.u ≤ t.toReal := by
      by_contra hc
      push Not at hc
      exact hz ((nearly_zero_flt t).2 ⟨hf, by rw [e2u, abs_of_nonneg ht0]; exact hc⟩)
    have htp : 0 < t.toReal := by linarith
    rw [Bool.not_eq_true] at hz
    rw [hz, Bool.not_false, if_pos rfl] at hq
    have hNp : 0 < N := by
      rcases hN0.eq_or_lt with h1 | h1
      · rw [← h1] at hθr
        linarith
      · exact h1
    obtain ⟨hs, hc⟩ := half_acc h hf
    have hang : |t.toReal / 2 - N / 2| ≤ 202 / 100 * (N * f.u) := by
      rw [← sub_div, abs_div, abs_two, div_le_iff₀ (by norm_num)]
      linarith
    have ec : |(Libm.cos (t / (1 + 1)) : Flt f).toReal - Real.cos (N / 2)| ≤ ε + f.eta + 202 / 100 * (N * f.u) := by
      have := abs_sub_le (Libm.cos (t / (1 + 1)) : Flt f).toReal (Real.cos (t.toReal / 2)) (Real.cos (N / 2))
      linarith [hc.2, lc (t.toReal / 2) (N / 2)]
    have es : |(Libm.sin (t / (1 + 1)) : Flt f).toReal - Real.sin (N / 2)| ≤ ε + f.eta + 202 / 100 * (N * f.u) := by
      have := abs_sub_le (Libm.sin (t / (1 + 1)) : Flt f).toReal (Real.sin (t.toReal / 2)) (Real.sin (N / 2))
      linarith [hs.2, ls (t.toReal / 2) (N / 2)]
    obtain ⟨s, hse⟩ : ∃ s : Flt f, s = Libm.sin (t / (1 + 1)) := ⟨_, rfl⟩
    rw [← hse] at hs es hq
    have s1 : |s.toReal| ≤ 13 / 10 := by
      have := abs_sub_abs_le_abs_sub s.toReal (Real.sin (t.toReal / 2))
      linarith [hs.2, Real.abs_sin_le_one (t.toReal / 2)]
    -- the quotient
    have hdf : (s / t).IsFin := by
      refine div_isFin hs.1 hf htp.ne' ?_
      have h1 : (2 : ℝ) ^ (f.p : ℤ) ≤ (2 : ℝ) ^ (f.emax + 1) :=
        zpow_le_zpow_right₀ (by norm_num) (by have := f.hmax; omega)
      have h2 : f.u * (2 : ℝ) ^ (f.p : ℤ) = 1 := by
        unfold Fmt.u
        rw [← zpow_add₀ (by norm_num), neg_add_cancel, zpow_zero]
      refine lt_of_lt_of_le ?_ h1
      rw [abs_div, abs_of_pos htp, mul_div_assoc', div_lt_iff₀ htp]
      have h3 : (0 : ℝ) < (2 : ℝ) ^ (f.p : ℤ) := by positivity
      have h4 := mul_le_mul_of_nonneg_left hz' h3.le
      have h5 : (1 + f.u) * |s.toReal| ≤ (1 + 1 / 256) * (13 / 10) :=
        mul_le_mul (by linarith) s1 (abs_nonneg _) (by norm_num)
      linarith
    have hr := (div_err hf hdf).2
    obtain ⟨r, hre⟩ : ∃ r : Flt f, r = s / t := ⟨_, rfl⟩
    rw [← hre] at hdf hr hq
    have hNt : N / t.toReal ≤ 1017 / 1000 := by
      rw [div_le_iff₀ htp]
      linarith
    have hvt (k : Fin 3) : |(v k).toReal| / t.toReal ≤ 1017 / 1000 :=
      (div_le_div_of_nonneg_right (hle k) ht0).trans hNt
    have hNη : N * f.eta ≤ f.u := by
      have := mul_le_mul hN2 hη hη0.le (by norm_num)
      linarith
    have x1 (k : Fin 3) : |(v k).toReal * r.toReal - (v k).toReal * (s.toReal / t.toReal)| ≤ 233 / 100 * f.u := by
      rw [← mul_sub, abs_mul]
      have m1 := mul_le_mul_of_nonneg_left hr (abs_nonneg (v k).toReal)
      have m2 := mul_le_mul_of_nonneg_right (hle k) hη0.le
      have m3 := mul_le_mul (hvt k) s1 (abs_nonneg _) (by norm_num)
      have m4 := mul_le_mul_of_nonneg_left m3 hu0.le
      have e : |(v k).toReal| * (f.u * |s.toReal / t.toReal| + f.eta) =
          f.u * (|(v k).toReal| / t.toReal * |s.toReal|) + |(v k).toReal| * f.eta := by
        rw [abs_div, abs_of_pos htp]
        ring
      rw [e] at m1
      linarith
    have x2 (k : Fin 3) : |(v k).toReal * (s.toReal / t.toReal) - (v k).toReal / N * Real.sin (N / 2)| ≤
        1017 / 1000 * (ε + f.eta + 202 / 100 * (N * f.u)) + 41 / 10 * f.u := by
      have e : (v k).toReal * (s.toReal / t.toReal) - (v k).toReal / N * Real.sin (N / 2) =
          (v k).toReal / t.toReal * (s.toReal - Real.sin (N / 2)) +
          (v k).toReal / N * ((N - t.toReal) / t.toReal) * Real.sin (N / 2) := by
        field_simp
        ring
      rw [e]
      refine (abs_add_le _ _).trans (add_le_add ?_ ?_)
      · rw [abs_mul, abs_div, abs_of_pos htp]
        exact mul_le_mul (hvt k) es (abs_nonneg _) (by norm_num)
      · rw [abs_mul, abs_mul, abs_div, abs_div, abs_of_pos htp, abs_of_pos hNp]
        have m1 : |N - t.toReal| / t.toReal ≤ 41 / 10 * f.u := by
          rw [div_le_iff₀ htp, abs_sub_comm]
          rw [div_le_iff₀ htp] at hNt
          have := mul_le_mul_of_nonneg_left hNt hu0.le
          have := mul_nonneg hu0.le ht0
          nlinarith
        have m2 := mul_le_mul (div_le_one_of_le₀ (hle k) hN0) m1 (by positivity) zero_le_one
        have m3 := mul_le_mul m2 (Real.abs_sin_le_one (N / 2)) (abs_nonneg _) (by positivity)
        linarith
    have x3 (k : Fin 3) : |(v k).toReal * r.toReal| ≤ 134 / 100 := by
      have := abs_sub_abs_le_abs_sub ((v k).toReal * r.toReal) ((v k).toReal * (s.toReal / t.toReal))
      have m3 := mul_le_mul (hvt k) s1 (abs_nonneg _) (by norm_num)
      have e : |(v k).toReal * (s.toReal / t.toReal)| = |(v k).toReal| / t.toReal * |s.toReal| := by
        rw [abs_mul, abs_div, abs_of_pos htp]
        ring
      rw [e] at this
      linarith [x1 k]
    have x4 (k : Fin 3) : (v k * r).IsFin ∧ |(v k * r).toReal - (v k).toReal / N * Real.sin (N / 2)| ≤ E := by
      have hfin : (v k * r).IsFin := mul_isFin (hv k) hdf (Fmt.range_of_p hp ((x3 k).trans (by norm_num)))
      refine ⟨hfin, ?_⟩
      have m1 := mul_err hfin
      have m2 := mul_le_mul_of_nonneg_left (x3 k) hu0.le
      have m3 := abs_sub_le (v k * r).toReal ((v k).toReal * r.toReal) ((v k).toReal / N * Real.sin (N / 2))
      have m4 := abs_sub_le ((v k).toReal * r.toReal) ((v k).toReal * (s.toReal / t.toReal))
        ((v k).toReal / N * Real.sin (N / 2))
      have m5 := x1 k
      have m6 := x2 k
      linarith
    rw [hq]
    refine ⟨⟨hc.1, ec.trans ?_⟩, fun k => ?_⟩
    · linarith
    · fin_cases k
      exacts [x4 0, x4 1, x4 2]

private theorem norm_dist {a0 a1 a2 b0 b1 b2 N N' δ : ℝ} (hN0 : 0 ≤ N) (hN0' : 0 ≤ N')
    (hN2 : N ^ 2 = a0 ^ 2 + a1 ^ 2 + a2 ^ 2) (hN2' : N' ^ 2 = b0 ^ 2 + b1 ^ 2 + b2 ^ 2) (d0 : (a0 - b0) ^ 2 ≤ δ ^ 2)
    (d1 : (a1 - b1) ^ 2 ≤ δ ^ 2) (d2 : (a2 - b2) ^ 2 ≤ δ ^ 2) : (N - N') ^ 2 ≤ 3 * δ ^ 2 := by
  have hcs : a0 * b0 + a1 * b1 + a2 * b2 ≤ N * N' := by
    refine abs_le_of_sq_le_sq' ?_ (mul_nonneg hN0 hN0') |>.2
    rw [mul_pow, hN2, hN2']
    linarith [sq_nonneg (a0 * b1 - a1 * b0), sq_nonneg (a0 * b2 - a2 * b0), sq_nonneg (a1 * b2 - a2 * b1)]
  linarith

private theorem plane_dist {x x' n N N' δ c : ℝ} (hδ : 0 ≤ δ) (hc : 0 ≤ c) (hx : (x - x') ^ 2 ≤ δ ^ 2)
    (hN : (N - N') ^ 2 ≤ 3 * δ ^ 2) (hn : |n - N| ≤ c) : ‖(⟨x, n⟩ : ℂ) - ⟨x', N'⟩‖ ≤ 2 * δ + c := by
  have e : (⟨x, n⟩ : ℂ) - ⟨x', N'⟩ = ⟨x - x', N - N'⟩ + ⟨0, n - N⟩ := by
    apply Complex.ext <;> simp
  have e1 : ‖(⟨x - x', N - N'⟩ : ℂ)‖ ≤ 2 * δ := by
    refine abs_le_of_sq_le_sq' ?_ (by linarith) |>.2
    rw [← Complex.normSq_eq_norm_sq, Complex.normSq_mk]
    linarith
  have e2 : ‖(⟨0, n - N⟩ : ℂ)‖ ≤ c := by
    refine abs_le_of_sq_le_sq' ?_ hc |>.2
    have := sq_le_sq' (abs_le.1 hn).1 (abs_le.1 hn).2
    rw [← Complex.normSq_eq_norm_sq, Complex.normSq_mk]
    linarith
  rw [e]
  exact (norm_add_le _ _).trans (add_le_add e1 e2)

/-- `get_angle` of a quaternion within `δ` of a unit quaternion: within `2 ε + 13 δ + 42 u` of its angle. -/
theorem C127_get_angle [Libm f] [RealParams] (hp : 8 ≤ f.p) {ε δ : ℝ} (hA : Atan2Acc f ε) (hε : ε ≤ 1) (hδ : δ ≤ 1 / 8)
    (q : Quat (Flt f)) (q' : Quat ℝ) (h1 : normSq q'.toH = 1)
    (hq : ∀ i, (q.comp i).IsFin ∧ |(q.comp i).toReal - q'.comp i| ≤ δ)
    (hn : ∀ k, (q.q k).toReal = 0 ∨ (2 : ℝ) ^ f.emin ≤ (q.q k).toReal ^ 2)
    (hpos : 0 < (V3.norm2 q.q).toReal ∨ 0 < q.q0.toReal) :
    q.get_angle.IsFin ∧ |q.get_angle.toReal - q'.get_angle| ≤ 2 * ε + 13 * δ + 42 * f.u := by
  have hu := Fmt.u_le_of_p hp
  have hu0 := f.u_pos
  have hκ := kappa hp
  have hu1 := (Quat.unit_iff q').1 h1
  have n0 : Near q.q0 q'.q0 δ := ⟨(hq 0).1, (hq 0).2⟩
  have nk (k : Fin 3) : Near (q.q k) (q'.q k) δ := by
    fin_cases k
    exacts [⟨(hq 1).1, (hq 1).2⟩, ⟨(hq 2).1, (hq 2).2⟩, ⟨(hq 3).1, (hq 3).2⟩]
  have hδ0 := n0.nonneg
  have s0 := sq_nonneg q'.q0
  have s1 := sq_nonneg (q'.q 0)
  have s2 := sq_nonneg (q'.q 1)
  have s3 := sq_nonneg (q'.q 2)
  have hk1 (k : Fin 3) : |q'.q k| ≤ 1 := by
    apply abs_le_one_iff_mul_self_le_one.2
    fin_cases k <;> [change q'.q 0 * q'.q 0 ≤ 1; change q'.q 1 * q'.q 1 ≤ 1; change q'.q 2 * q'.q 2 ≤ 1] <;> linarith
  have hdot : (V3.dot q.q q.q).IsFin := by
    have sq (k : Fin 3) : Near (q.q k * q.q k) (q'.q k * q'.q k) 1 := by
      have := hk1 k
      exact Near.mul hp (nk k) (nk k) (A := 9 / 8) (C := 1) (D := 9 / 8) (B := 2) (by linarith) this (by linarith)
        (by norm_num) (by norm_num) (by linarith)
    have b0 := (sq 0)
    have q0 : |q'.q 0 * q'.q 0| ≤ 1 := by rw [abs_mul_self]; linarith
    have q1 : |q'.q 1 * q'.q 1| ≤ 1 := by rw [abs_mul_self]; linarith
    have q2 : |q'.q 2 * q'.q 2| ≤ 1 := by rw [abs_mul_self]; linarith
    have b1 : Near (q.q 0 * q.q 0 + q.q 1 * q.q 1) _ 3 :=
      Near.add hp (sq 0) (sq 1) (B := 4) (by linarith [abs_add_le (q'.q 0 * q'.q 0) (q'.q 1 * q'.q 1)]) (by norm_num)
        (by linarith)
    have b2 : Near (q.q 0 * q.q 0 + q.q 1 * q.q 1 + q.q 2 * q.q 2) _ 5 :=
      Near.add hp b1 (sq 2) (B := 7) (by
        linarith [abs_add_le (q'.q 0 * q'.q 0) (q'.q 1 * q'.q 1),
          abs_add_le (q'.q 0 * q'.q 0 + q'.q 1 * q'.q 1) (q'.q 2 * q'.q 2)]) (by norm_num) (by linarith)
    exact b2.fin
  obtain ⟨hnf, hn0, hne⟩ := norm_rel (V3.dot_order q.q q.q) hdot hn (by nlinarith)
  obtain ⟨N, hNe⟩ : ∃ N, N = √(∑ k, (q.q k).toReal ^ 2) := ⟨_, rfl⟩
  rw [← hNe] at hne
  have hnd : V3.norm2 q.q = Flt.sqrt (V3.dot q.q q.q) := rfl
  rw [← hnd] at hnf hn0 hne
  have hN2 : N ^ 2 = (q.q 0).toReal ^ 2 + (q.q 1).toReal ^ 2 + (q.q 2).toReal ^ 2 := by
    rw [hNe, Real.sq_sqrt (Finset.sum_nonneg fun _ _ => sq_nonneg _), Fin.sum_univ_three]
  have hN0 : 0 ≤ N := hNe ▸ Real.sqrt_nonneg _
  obtain ⟨N', hNe'⟩ : ∃ N', N' = V3.norm2 q'.q := ⟨_, rfl⟩
  have hN2' : N' ^ 2 = q'.q 0 ^ 2 + q'.q 1 ^ 2 + q'.q 2 ^ 2 := by rw [hNe', V3.norm2_sq]
  have hN0' : 0 ≤ N' := hNe' ▸ V3.norm2_nonneg _
  have hd (k : Fin 3) : ((q.q k).toReal - q'.q k) ^ 2 ≤ δ ^ 2 := sq_le_sq' (abs_le.1 (nk k).err).1 (abs_le.1 (nk k).err).2
  have hd0 : (q.q0.toReal - q'.q0) ^ 2 ≤ δ ^ 2 := sq_le_sq' (abs_le.1 n0.err).1 (abs_le.1 n0.err).2
  have hNN : (N - N') ^ 2 ≤ 3 * δ ^ 2 := by
    exact norm_dist hN0 hN0' hN2 hN2' (hd 0) (hd 1) (hd 2)
  have hN1' : N' ≤ 1 := by nlinarith
  have hN1 : N ≤ 122 / 100 := by
    have : (N - N') ^ 2 ≤ (22 / 100) ^ 2 := by nlinarith
    have := abs_le_of_sq_le_sq' this (by norm_num) |>.2
    linarith
  have hz : ‖(⟨q.q0.toReal, (V3.norm2 q.q).toReal⟩ : ℂ) - ⟨q'.q0, N'⟩‖ ≤ 2 * δ + 492 / 100 * f.u := by
    exact plane_dist hδ0 (by linarith) hd0 hNN (hne.trans (by nlinarith))
  have hw : ‖(⟨q'.q0, N'⟩ : ℂ)‖ = 1 := by
    have : ‖(⟨q'.q0, N'⟩ : ℂ)‖ ^ 2 = 1 := by
      rw [← Complex.normSq_eq_norm_sq, Complex.normSq_mk]
      linarith
    exact (pow_eq_one_iff_of_nonneg (norm_nonneg _) two_ne_zero).1 this
  have harg := arg_lip (z := ⟨q.q0.toReal, (V3.norm2 q.q).toReal⟩) hw hn0 hN0'
  obtain ⟨ha1, ha2⟩ := hA (V3.norm2 q.q) q.q0 hnf n0.fin hpos
  have hpi := Real.pi_lt_d2
  have hpi0 := Real.pi_gt_three
  have hb : Real.pi * ‖(⟨q.q0.toReal, (V3.norm2 q.q).toReal⟩ : ℂ) - ⟨q'.q0, N'⟩‖ ≤ 315 / 100 * (2 * δ + 492 / 100 * f.u) :=
    mul_le_mul (by linarith) hz (norm_nonneg _) (by norm_num)
  have hε0 : 0 ≤ ε := (abs_nonneg _).trans ha2
  have near : Near (Libm.atan2 (V3.norm2 q.q) q.q0) (Complex.arg ⟨q'.q0, N'⟩) (ε + 315 / 100 * (2 * δ + 492 / 100 * f.u)) :=
    ⟨ha1, by
      have := abs_sub_le (Libm.atan2 (V3.norm2 q.q) q.q0).toReal (Complex.arg ⟨q.q0.toReal, (V3.norm2 q.q).toReal⟩)
        (Complex.arg ⟨q'.q0, N'⟩)
      linarith⟩
  have habs : |Complex.arg ⟨q'.q0, N'⟩| ≤ 315 / 100 := (Complex.abs_arg_le_pi _).trans (by linarith)
  have two0 : |(2 : ℝ)| = 2 := abs_two
  have key : Near (((1 : Flt f) + 1) * Libm.atan2 (V3.norm2 q.q) q.q0) (2 * Complex.arg ⟨q'.q0, N'⟩)
      (2 * ε + 13 * δ + 42 * f.u) :=
    Near.mul hp Near.two near (A := 2) (C := 315 / 100) (D := 5) (B := 10) (by linarith) habs (by linarith)
      (by norm_num) (by norm_num) (by linarith)
  have e : q'.get_angle = 2 * Complex.arg ⟨q'.q0, N'⟩ := by
    unfold Quat.get_angle
    rw [hNe']
    simp only [rfloat_atan2]
    norm_num
  rw [e]
  exact ⟨key.fin, key.err⟩

/-! ## Concrete cases: single precision, a correctly rounded library -/

theorem ones_norm [Libm Fmt.f32] : (V3.norm2 (⟨fun _ => 1⟩ : Vec 3 (Flt Fmt.f32))).IsFin := by
  have hp : 8 ≤ Fmt.f32.p := by decide
  have hu := Fmt.u_le_of_p hp
  have hu0 := Fmt.f32.u_pos
  have m : Near ((1 : Flt Fmt.f32) * 1) (1 * 1) 1 :=
    Near.mul hp Near.one Near.one (A := 1) (C := 1) (D := 1) (B := 1) (by simp) (by simp) (by simp) (by norm_num)
      (by norm_num) (by linarith)
  have a1 : Near ((1 : Flt Fmt.f32) * 1 + 1 * 1) _ 3 := Near.add hp m m (B := 4) (by norm_num) (by norm_num) (by linarith)
  have a2 : Near ((1 : Flt Fmt.f32) * 1 + 1 * 1 + 1 * 1) _ 5 :=
    Near.add hp a1 m (B := 8) (by norm_num) (by norm_num) (by linarith)
  exact (norm_rel (V3.dot_order (⟨fun _ => 1⟩ : Vec 3 (Flt Fmt.f32)) _) a2.fin
    (fun _ => .inr (by
      change (2 : ℝ) ^ (-126 : ℤ) ≤ (1 : Flt Fmt.f32).toReal ^ 2
      rw [toReal_one]; norm_num)) (by
      have : (1 + Fmt.f32.u) ^ 4 - 1 ≤ _ := kappa hp
      nlinarith)).1

private theorem ones_large (k : Fin 3) : ((⟨fun _ => 1⟩ : Vec 3 (Flt Fmt.f32)) k).toReal = 0 ∨
    (2 : ℝ) ^ Fmt.f32.emin ≤ ((⟨fun _ => 1⟩ : Vec 3 (Flt Fmt.f32)) k).toReal ^ 2 := by
  right
  change (2 : ℝ) ^ (-126 : ℤ) ≤ (1 : Flt Fmt.f32).toReal ^ 2
  rw [toReal_one]
  norm_num

/-- A turn by `1` around `(1, 1, 1)`. -/
example [RealParams] :
    letI := correctLibm Fmt.f32
    ∃ q q', Quat.rotation (1 : Flt Fmt.f32) ⟨fun _ => 1⟩ = .ok q ∧ Quat.rotation (1 : ℝ) ⟨fun _ => 1⟩ = .ok q' ∧
      q.normalized = true ∧ ∀ i, |(q.comp i).toReal - q'.comp i| ≤ 2 ^ (-20 : ℤ) := by
  let _ := correctLibm Fmt.f32
  have hu : Fmt.f32.u = (2 : ℝ) ^ (-24 : ℤ) := rfl
  obtain ⟨q, q', h1, h2, h3, h4⟩ := C127_rotation (f := Fmt.f32) (by decide) (correctLibm_sin_cos (by decide))
    (by rw [hu]; norm_num) 1 isFin_one ⟨fun _ => 1⟩ (fun _ => isFin_one) ones_norm ones_large
    ⟨0, by change (1 : Flt Fmt.f32).toReal ≠ 0; rw [toReal_one]; norm_num⟩
  have e : Vec.re3 (⟨fun _ => 1⟩ : Vec 3 (Flt Fmt.f32)) = ⟨fun _ => 1⟩ := by
    apply Vec.ext
    funext k
    exact toReal_one (f := Fmt.f32)
  rw [e, toReal_one] at h2
  refine ⟨q, q', h1, h2, h3, fun i => (h4 i).2.trans ?_⟩
  rw [hu]
  norm_num

/-- Its rotation matrix. -/
example [RealParams] :
    letI := correctLibm Fmt.f32
    ∃ q, Quat.rotation (1 : Flt Fmt.f32) ⟨fun _ => 1⟩ = .ok q ∧
      ∀ i j, |(q.to_rotation i j).toReal - rotation_from_axis_angle ⟨fun _ => 1 / √3⟩ 1 i j| ≤ 2 ^ (-18 : ℤ) := by
  let _ := correctLibm Fmt.f32
  have hu : Fmt.f32.u = (2 : ℝ) ^ (-24 : ℤ) := rfl
  have h3 : (1 / √3 : ℝ) ^ 2 = 1 / 3 := by rw [div_pow, Real.sq_sqrt (by norm_num)]; norm_num
  obtain ⟨q, h1, h2⟩ := C127_rotation_matrix (f := Fmt.f32) (by decide) (correctLibm_sin_cos (by decide))
    (by rw [hu]; norm_num) 1 isFin_one ⟨fun _ => 1⟩ (fun _ => isFin_one) ones_norm ones_large ⟨fun _ => 1 / √3⟩
    (by change (1 / √3 : ℝ) ^ 2 + (1 / √3) ^ 2 + (1 / √3) ^ 2 = 1; rw [h3]; norm_num) √3 (by positivity)
    (fun k => by
      change (1 : Flt Fmt.f32).toReal = √3 * (1 / √3)
      rw [toReal_one, mul_one_div_cancel (by positivity)])
  refine ⟨q, h1, fun i j => ?_⟩
  have := (h2 i j).2
  rw [toReal_one] at this
  refine this.trans ?_
  rw [hu]
  norm_num

/-- The angle is the length of `(1, 1, 1)`. -/
example :
    letI := correctLibm Fmt.f32
    |(Quat.rotation_norm_encoded (⟨fun _ => 1⟩ : Vec 3 (Flt Fmt.f32))).q0.toReal - Real.cos (√3 / 2)| ≤ 2 ^ (-19 : ℤ) := by
  let _ := correctLibm Fmt.f32
  have hu : Fmt.f32.u = (2 : ℝ) ^ (-24 : ℤ) := rfl
  have h2 : √3 ≤ 2 := by rw [Real.sqrt_le_left (by norm_num)]; norm_num
  have := (C127_norm_encoded (f := Fmt.f32) (by decide) (correctLibm_sin_cos (by decide))
    (by rw [hu]; norm_num) ⟨fun _ => 1⟩ (fun _ => isFin_one) ones_norm ones_large √3 (by
      change √3 = √(∑ k : Fin 3, (1 : Flt Fmt.f32).toReal ^ 2)
      rw [toReal_one]
      norm_num) (by linarith)).1.2
  refine this.trans ?_
  rw [hu]
  linarith

/-- The quaternion `(1/2, 1/2, 1/2, 1/2)`. -/
example [RealParams] :
    letI := correctLibm Fmt.f32
    |(⟨1 / (1 + 1), ⟨fun _ => 1 / (1 + 1)⟩, true⟩ : Quat (Flt Fmt.f32)).get_angle.toReal
      - (⟨1 / 2, ⟨fun _ => 1 / 2⟩, true⟩ : Quat ℝ).get_angle| ≤ 2 ^ (-18 : ℤ) := by
  let _ := correctLibm Fmt.f32
  have hp : 8 ≤ Fmt.f32.p := by decide
  have hu : Fmt.f32.u = (2 : ℝ) ^ (-24 : ℤ) := rfl
  have hh := Near.half (f := Fmt.f32)
  have hv : ((1 : Flt Fmt.f32) / (1 + 1)).toReal = 1 / 2 := by
    have := abs_nonpos_iff.1 hh.err
    linarith
  have h := C127_get_angle (ε := 4 * Fmt.f32.u) (δ := 0) hp (correctLibm_atan2 hp) (by rw [hu]; norm_num) (by norm_num)
    (⟨1 / (1 + 1), ⟨fun _ => 1 / (1 + 1)⟩, true⟩ : Quat (Flt Fmt.f32)) (⟨1 / 2, ⟨fun _ => 1 / 2⟩, true⟩ : Quat ℝ)
    ((Quat.unit_iff _).2 (by norm_num))
    (fun i => by
      fin_cases i
      exacts [⟨hh.fin, hh.err⟩, ⟨hh.fin, hh.err⟩, ⟨hh.fin, hh.err⟩, ⟨hh.fin, hh.err⟩])
    (fun k => .inr (by
      change (2 : ℝ) ^ (-126 : ℤ) ≤ ((1 : Flt Fmt.f32) / (1 + 1)).toReal ^ 2
      rw [hv]
      norm_num))
    (.inr (by
      change 0 < ((1 : Flt Fmt.f32) / (1 + 1)).toReal
      rw [hv]
      norm_num))
  refine h.2.trans ?_
  rw [hu]
  norm_num

end StaticMath
