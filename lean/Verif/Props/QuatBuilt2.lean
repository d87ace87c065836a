import Verif.Props.QuatBuild
import Mathlib.Analysis.Complex.Exponential
import Mathlib.Analysis.Real.Pi.Bounds

/-!
# C163: how far from one the norm of a flagged quaternion can be, for every program
-/

namespace StaticMath
open Quaternion

/-- The quaternions a program can build with the public functions and operators, in any order and without restriction. -/
inductive Quat.Reach [RealParams] : Quat ℝ → Prop
  | new (a v) : Reach (Quat.new a v)
  | new_from (a b c d) : Reach (Quat.new_from a b c d)
  | new_real (a) : Reach (Quat.new_real a)
  | new_imag (v) : Reach (Quat.new_imag v)
  | new_from_vec (v) : Reach (Quat.new_from_vec v)
  | one : Reach Quat.one
  | zero : Reach Quat.zero
  | add {p q} : Reach p → Reach q → Reach (p.add q)
  | sub {p q} : Reach p → Reach q → Reach (p.sub q)
  | mul {p q} : Reach p → Reach q → Reach (p.mul q)
  | div {p q r} : Reach p → Reach q → p.div q = .ok r → Reach r
  | smul {p} (a) : Reach p → Reach (p.smul a)
  | sdiv {p} (a) : Reach p → Reach (p.sdiv a)
  | neg {p} : Reach p → Reach p.neg
  | conj {p} : Reach p → Reach p.conj
  | inverse {p r} : Reach p → p.inverse = some r → Reach r
  | from_rotation (R) : Reach (Quat.from_rotation R)
  | normalize {p r} : Reach p → p.normalize = some r → Reach r
  | normalize_q {p} : Reach p → Reach p.normalize_q
  | argq {p} : Reach p → Reach p.argq
  | rotation {r} (theta v) : Quat.rotation theta v = .ok r → Reach r
  | rotation_norm_encoded (v) : Reach (Quat.rotation_norm_encoded v)
  | from_euler_angles (y p r) : Reach (Quat.from_euler_angles y p r)
  | exp {p} : Reach p → Reach p.exp
  | ln {p} : Reach p → Reach p.ln
  | sqrt {p} : Reach p → Reach p.sqrt
  | pow {p q} : Reach p → Reach q → Reach (p.pow q)
  | sin {p r} : Reach p → p.sin = .ok r → Reach r
  | cos {p} : Reach p → Reach p.cos
  | slerp {p q} (t) : Reach p → Reach q → Reach (Quat.slerp p q t)
  | derivative {p} (v) : Reach p → Reach (p.derivative v)
  | get_parts (H) : Reach (get_parts H).1

section
variable [P : RealParams]

private theorem exp_small {p : Quat ℝ} (h : p.exp.normalized = true) :
    ∃ n, 0 ≤ n ∧ n ^ 2 = p.q 0 ^ 2 + p.q 1 ^ 2 + p.q 2 ^ 2 ∧ n < P.eps ∧ |p.q0| < P.eps ∧
      normSq p.exp.toH = Real.exp p.q0 ^ 2 * (Real.cos n ^ 2 + n ^ 2) := by
  have hs : p.norm2 < P.eps := by
    have hf' : ROrd.lt p.norm2 (RFloat.epsilon : ℝ) = true := h
    rw [rord_lt] at hf'
    exact of_decide_eq_true hf'
  have he := P.eps_pos
  rw [Quat.norm2_eq, Quaternion.normSq_def', Real.sqrt_lt' he] at hs
  change p.q0 ^ 2 + p.q 0 ^ 2 + p.q 1 ^ 2 + p.q 2 ^ 2 < _ at hs
  obtain ⟨n, hn⟩ : ∃ n, n = p.abs_imag := ⟨_, rfl⟩
  have hn2 : n = √(p.q 0 ^ 2 + p.q 1 ^ 2 + p.q 2 ^ 2) := by
    rw [hn]
    exact V3.norm2_eq_sqrt _
  have hns : n ^ 2 = p.q 0 ^ 2 + p.q 1 ^ 2 + p.q 2 ^ 2 := by rw [hn2, Real.sq_sqrt (by positivity)]
  have n0 : 0 ≤ n := by rw [hn2]; exact Real.sqrt_nonneg _
  have nlt : n < P.eps := abs_lt_of_sq_lt_sq' (by nlinarith [sq_nonneg p.q0]) he.le |>.2
  refine ⟨n, n0, hns, nlt, abs_lt_of_sq_lt_sq (by nlinarith) he.le, ?_⟩
  have e0 : p.exp.q0 = Real.exp p.q0 * Real.cos n := by rw [hn]; rfl
  have ek (k : Fin 3) : p.exp.q k = p.q k * Real.exp p.q0 := by
    change (V3.smul p.q _) k = _
    rw [V3.smul_apply, ← hn, if_neg (by rw [rord_lt]; simp only [rfloat_epsilon, decide_eq_true_eq]; linarith)]
    rfl
  rw [Quaternion.normSq_def']
  change p.exp.q0 ^ 2 + p.exp.q 0 ^ 2 + p.exp.q 1 ^ 2 + p.exp.q 2 ^ 2 = _
  rw [e0, ek, ek, ek, hns]
  ring

private theorem exp_within (p : Quat ℝ) (h : p.exp.normalized = true) : |‖p.exp.toH‖ - 1| ≤ 11 / 10 * P.eps := by
  have he := P.eps_pos
  have he1 := P.eps_le
  norm_num at he1
  obtain ⟨n, n0, hn, hlt, hx, hN⟩ := exp_small h
  have hsc := Real.sin_sq_add_cos_sq n
  have hsn := Real.sin_nonneg_of_nonneg_of_le_pi n0 (by linarith [Real.pi_gt_three])
  have hsl := Real.sin_le n0
  have hx' := abs_lt.1 hx
  have c1 : 1 ≤ Real.cos n ^ 2 + n ^ 2 := by nlinarith
  obtain ⟨M, hM⟩ : ∃ M, M = ‖p.exp.toH‖ := ⟨_, rfl⟩
  have M0 : 0 ≤ M := by rw [hM]; exact norm_nonneg _
  have hMs : M ^ 2 = Real.exp p.q0 ^ 2 * (Real.cos n ^ 2 + n ^ 2) := by rw [← hN, hM, sq, Quaternion.normSq_eq_norm_mul_self]
  rw [← hM]
  have x1 := Real.add_one_le_exp p.q0
  have x2 := Real.abs_exp_sub_one_sub_id_le (x := p.q0) (by linarith)
  have x3 := (abs_le.1 x2).2
  have x4 : p.q0 ^ 2 ≤ 1 / 1000000 * P.eps := by
    rw [← sq_abs, sq]
    exact mul_le_mul (by linarith) hx.le (abs_nonneg _) (by norm_num)
  have E0 := Real.exp_pos p.q0
  have nn : n ^ 2 ≤ 1 / 1000000 * P.eps := by
    rw [sq]
    exact mul_le_mul (by linarith) hlt.le n0 (by norm_num)
  have lo : Real.exp p.q0 ≤ M := abs_le_of_sq_le_sq' (by rw [hMs]; exact le_mul_of_one_le_right (sq_nonneg _) c1) M0 |>.2
  have hi : M ≤ Real.exp p.q0 * (1 + n ^ 2) := by
    refine abs_le_of_sq_le_sq' ?_ (by positivity) |>.2
    rw [hMs, mul_pow]
    refine mul_le_mul_of_nonneg_left ?_ (sq_nonneg _)
    have h1 := Real.cos_sq_le_one n
    have h2 : (1 + n ^ 2) ^ 2 = 1 + 2 * n ^ 2 + (n ^ 2) ^ 2 := by ring
    rw [h2]
    linarith [sq_nonneg (n ^ 2), sq_nonneg n]
  have E2 : Real.exp p.q0 ≤ 2 := by linarith
  have hi2 : Real.exp p.q0 * n ^ 2 ≤ 2 * (1 / 1000000 * P.eps) := mul_le_mul E2 nn (sq_nonneg _) (by norm_num)
  rw [abs_le]
  constructor <;> linarith

/-- The flag of `exp` (of `sqrt`, of `pow`), exactly: for a small argument of vector part length `n` the flagged result has norm one only if
`e^(2 q0) (cos² n + n²) = 1`; if moreover the real part is not negative, only at zero. -/
theorem C163_exp_flag (p : Quat ℝ) (h : p.exp.normalized = true) :
    (normSq p.exp.toH = 1 ↔ Real.exp (2 * p.q0) * (Real.cos ‖p.toH.im‖ ^ 2 + ‖p.toH.im‖ ^ 2) = 1) ∧
    (0 ≤ p.q0 → (normSq p.exp.toH = 1 ↔ p.toH = 0)) ∧ |‖p.exp.toH‖ - 1| ≤ 11 / 10 * P.eps := by
  have he := P.eps_pos
  have he1 := P.eps_le
  norm_num at he1
  obtain ⟨n, n0, hn, hlt, hx, hN⟩ := exp_small h
  have hni : ‖p.toH.im‖ = n := by
    rw [← sq_eq_sq₀ (norm_nonneg _) n0, sq ‖p.toH.im‖, ← Quaternion.normSq_eq_norm_mul_self, Quaternion.normSq_def', re_im, imI_im, imJ_im,
      imK_im, hn]
    change (0 : ℝ) ^ 2 + p.q 0 ^ 2 + p.q 1 ^ 2 + p.q 2 ^ 2 = _
    ring
  have hsc := Real.sin_sq_add_cos_sq n
  have hsn := Real.sin_nonneg_of_nonneg_of_le_pi n0 (by linarith [Real.pi_gt_three])
  have hsl := Real.sin_le n0
  have hx' := abs_lt.1 hx
  have c1 : 1 ≤ Real.cos n ^ 2 + n ^ 2 := by nlinarith
  refine ⟨?_, fun hq => ⟨fun h1 => ?_, fun h0 => ?_⟩, ?_⟩
  · rw [hN, hni, two_mul, Real.exp_add, sq (Real.exp p.q0)]
  · rw [hN] at h1
    have e1 : 1 ≤ Real.exp p.q0 := Real.one_le_exp hq
    have e2 : 1 ≤ Real.exp p.q0 ^ 2 := one_le_pow₀ e1
    have g1 : Real.cos n ^ 2 + n ^ 2 = 1 := by nlinarith
    have g2 : Real.exp p.q0 ^ 2 = 1 := by rw [g1, mul_one] at h1; exact h1
    have hn0 : n = 0 := by
      by_contra hne
      have := Real.sin_lt (lt_of_le_of_ne n0 (Ne.symm hne))
      nlinarith
    have hq0 : p.q0 = 0 := by
      have : Real.exp p.q0 = 1 := by nlinarith
      exact Real.exp_eq_one_iff _ |>.1 this
    rw [hn0] at hn
    have z0 : p.q 0 = 0 := by nlinarith [sq_nonneg (p.q 0), sq_nonneg (p.q 1), sq_nonneg (p.q 2)]
    have z1 : p.q 1 = 0 := by nlinarith [sq_nonneg (p.q 0), sq_nonneg (p.q 1), sq_nonneg (p.q 2)]
    have z2 : p.q 2 = 0 := by nlinarith [sq_nonneg (p.q 0), sq_nonneg (p.q 1), sq_nonneg (p.q 2)]
    ext
    exacts [hq0, z0, z1, z2]
  · have hq0 : p.q0 = 0 := congrArg (fun x : ℍ[ℝ] => x.re) h0
    have z0 : p.q 0 = 0 := congrArg (fun x : ℍ[ℝ] => x.imI) h0
    have z1 : p.q 1 = 0 := congrArg (fun x : ℍ[ℝ] => x.imJ) h0
    have z2 : p.q 2 = 0 := congrArg (fun x : ℍ[ℝ] => x.imK) h0
    have hn0 : n = 0 := by
      rw [z0, z1, z2] at hn
      exact pow_eq_zero_iff (two_ne_zero) |>.1 (by rw [hn]; norm_num)
    rw [hN, hq0, hn0]
    norm_num
  · exact exp_within p h

/-- Whatever a program computes with the public functions, a quaternion flagged as normalized has norm one up to `11/10 EPSILON`. -/
theorem C163_flag_within (q : Quat ℝ) (h : q.Reach) (hf : q.normalized = true) : |‖q.toH‖ - 1| ≤ 11 / 10 * P.eps := by
  have he := P.eps_pos
  have un {x : Quat ℝ} (hx : normSq x.toH = 1) : |‖x.toH‖ - 1| ≤ 11 / 10 * P.eps := by
    rw [Quaternion.normSq_eq_norm_mul_self] at hx
    have := norm_nonneg x.toH
    rw [show ‖x.toH‖ = 1 by nlinarith, sub_self, abs_zero]
    positivity
  have fl (p q : Quat ℝ) (R : Mat 3 ℝ) (v : Vec 3 ℝ) := C121_quat_flags p q 0 0 0 0 v ⟨fun _ => 0⟩ R
  have tr (q : Quat ℝ) (t y p r : ℝ) (v : Vec 3 ℝ) := C44_flag_partial q t y p r v
  have no {x : Quat ℝ} (hx : x.normalized = false) (h : x.normalized = true) : |‖x.toH‖ - 1| ≤ 11 / 10 * P.eps := by
    rw [hx] at h; cases h
  induction h with
  | one => exact un ((tr Quat.zero 0 0 0 0 V3.zero).1 rfl)
  | div _ _ h => exact no ((fl _ _ M33.one V3.zero).2.2.2.2.2.2.2.2.2.2.2.2.2.2.2.2.2.2.2 _ h) hf
  | inverse _ h => exact no ((fl _ Quat.one M33.one V3.zero).2.2.2.2.2.2.2.2.2.2.2.2.2.2.2.2.2.2.1 _ h) hf
  | from_rotation R => exact no (fl Quat.one Quat.one R V3.zero).2.2.2.2.2.2.2.2.2.2.2.2.2.2.2.2.2.1 hf
  | @normalize p r _ h ih =>
    by_cases hp : p.normalized = true
    · have : r = p := by
        unfold Quat.normalize at h
        rw [if_pos hp] at h
        exact (Option.some.inj h).symm
      rw [this]
      exact ih hp
    · exact un ((tr p 0 0 0 0 V3.zero).2.1 (fun h => absurd h hp) _ h).2
  | normalize_q _ => exact un (tr _ 0 0 0 0 V3.zero).2.2.2.2.2.2.1.2
  | argq _ => exact un (tr _ 0 0 0 0 V3.zero).2.2.2.2.2.2.2.2
  | rotation θ v h => exact un ((tr Quat.one θ 0 0 0 v).2.2.1 _ h).2
  | rotation_norm_encoded v => exact un ((tr Quat.one 0 0 0 0 v).2.2.2.1 hf)
  | from_euler_angles y p r => exact un (tr Quat.one 0 y p r V3.zero).2.2.2.2.2.1.2
  | get_parts H => exact un (tr Quat.one 0 _ _ _ V3.zero).2.2.2.2.2.1.2
  | exp _ => exact (C163_exp_flag _ hf).2.2
  | sqrt _ => exact (C163_exp_flag _ hf).2.2
  | pow _ _ => exact (C163_exp_flag _ hf).2.2
  | @sin p r _ h =>
    unfold Quat.sin at h
    exact no ((fl _ _ M33.one V3.zero).2.2.2.2.2.2.2.2.2.2.2.2.2.2.2.2.2.2.2 _ h) hf
  | ln _ => exact no (fl _ Quat.one M33.one V3.zero).2.2.2.2.2.2.2.2.2.2.2.2.2.2.1 hf
  | slerp t _ _ ih _ =>
    obtain ⟨e1, e2⟩ := C121_slerp_flag _ _ _ hf
    rw [e1]
    exact ih e2
  | _ => exact no rfl hf

/-- Therefore `inverse` and division are right up to `3 EPSILON` for every quaternion a program has built, flagged or not. -/
theorem C163_inverse (p q : Quat ℝ) (h : q.Reach) :
    (∀ r, q.inverse = some r → ‖q.toH * r.toH - 1‖ ≤ 3 * P.eps ∧ ‖r.toH * q.toH - 1‖ ≤ 3 * P.eps) ∧
    ∀ r, p.div q = .ok r → ‖r.toH * q.toH - p.toH‖ ≤ 3 * P.eps * ‖p.toH‖ := by
  have he := P.eps_pos
  have he1 := P.eps_le
  norm_num at he1
  have key : ∀ r, q.inverse = some r → ‖q.toH * r.toH - 1‖ ≤ 3 * P.eps ∧ ‖r.toH * q.toH - 1‖ ≤ 3 * P.eps := by
    intro r hr
    by_cases hf : q.normalized = true
    · have hw := C163_flag_within q h hf
      have e : r = q.conj := by
        unfold Quat.inverse at hr
        rw [hf] at hr
        exact (Option.some.inj hr).symm
      rw [e, Quat.toH_conj, Quaternion.self_mul_star, Quaternion.star_mul_self, Quaternion.normSq_eq_norm_mul_self]
      have : ‖((‖q.toH‖ * ‖q.toH‖ : ℝ) : ℍ[ℝ]) - 1‖ ≤ 3 * P.eps := by
        rw [← Quaternion.coe_one, ← Quaternion.coe_sub, Quaternion.norm_coe, Real.norm_eq_abs, abs_le]
        have := abs_le.1 hw
        have n0 := norm_nonneg q.toH
        constructor <;> nlinarith
      exact ⟨this, this⟩
    · have hz : q.toH * r.toH = 1 ∧ r.toH * q.toH = 1 := (C45_inverse q).2 (fun h => absurd h hf) r hr
      rw [hz.1, hz.2, sub_self, norm_zero]
      constructor <;> positivity
  refine ⟨key, fun r hr => ?_⟩
  unfold Quat.div at hr
  cases hi : q.inverse with
  | none => rw [hi] at hr; cases hr
  | some w =>
    rw [hi] at hr
    have e : r = p.mul w := (Except.ok.inj hr).symm
    rw [e, Quat.toH_mul, mul_assoc, show p.toH * (w.toH * q.toH) - p.toH = p.toH * (w.toH * q.toH - 1) by rw [mul_sub, mul_one], norm_mul, mul_comm]
    exact mul_le_mul_of_nonneg_right (key w hi).2 (norm_nonneg _)

/-- A program whose result is flagged but not of norm one: the exponential of a small real number. -/
example : ∃ q : Quat ℝ, q.Reach ∧ q.normalized = true ∧ ‖q.toH‖ ≠ 1 ∧ |‖q.toH‖ - 1| ≤ 11 / 10 * P.eps := by
  have he := P.eps_pos
  obtain ⟨p, hp⟩ : ∃ p : Quat ℝ, p = Quat.new_real (P.eps / 2) := ⟨_, rfl⟩
  have h0 : p.q0 = P.eps / 2 := by rw [hp]; rfl
  have hr : p.exp.Reach := .exp (hp ▸ .new_real _)
  have hf : p.exp.normalized = true := by
    change ROrd.lt p.norm2 (RFloat.epsilon : ℝ) = true
    rw [rord_lt, decide_eq_true_eq, rfloat_epsilon, Quat.norm2_eq, Real.sqrt_lt' he, Quaternion.normSq_def', hp]
    change (P.eps / 2) ^ 2 + (0 : ℝ) ^ 2 + 0 ^ 2 + 0 ^ 2 < _
    nlinarith
  refine ⟨p.exp, hr, hf, fun h => ?_, C163_flag_within _ hr hf⟩
  have h1 := ((C163_exp_flag p hf).2.1 (by rw [h0]; linarith)).1 (by rw [Quaternion.normSq_eq_norm_mul_self, h, mul_one])
  have h2 : p.q0 = 0 := congrArg (fun x : ℍ[ℝ] => x.re) h1
  rw [h0] at h2
  linarith

end

end StaticMath
