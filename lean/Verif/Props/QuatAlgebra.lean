import Mathlib.Analysis.Quaternion
import Verif.Lemmas.QuatRot

/-!
# C41-C48: quaternion algebra, flag, inverse, normalization, rotation of vectors

"Component-wise equal" is equality of the Hamilton quaternions `q.toH` (Mathlib's `ℍ[R]`).
-/

namespace StaticMath

open Quaternion

/-! ## C41 Hamilton's algebra -/

theorem C41_hamilton {R : Type} [CommRing R] (p q : Quat R) (c : R) (v : Vec 3 R) :
    (p.add q).toH = p.toH + q.toH ∧ (p.sub q).toH = p.toH - q.toH ∧ p.neg.toH = -p.toH ∧
    (p.mul q).toH = p.toH * q.toH ∧ (p.smul c).toH = c • p.toH ∧ p.conj.toH = star p.toH ∧
    p.abs2 = normSq p.toH ∧ (Quat.zero : Quat R).toH = 0 ∧ (Quat.one : Quat R).toH = 1 ∧
    (Quat.new_real c).toH = (c : ℍ[R]) ∧ (Quat.new c v).toH = (c : ℍ[R]) + v.toH ∧
    (Quat.new_from c (v 0) (v 1) (v 2)).toH = (c : ℍ[R]) + v.toH ∧
    p.real = p.toH.re ∧ p.imag.toH = p.toH.im := by
  refine ⟨rfl, rfl, rfl, Quat.toH_mul p q, Quat.toH_smul p c, Quat.toH_conj p, Quat.abs2_eq p,
    rfl, rfl, rfl, ?_, ?_, rfl, rfl⟩
  · rw [H_ext_iff, Quaternion.re_add, Quaternion.imI_add, Quaternion.imJ_add, Quaternion.imK_add]
    exact ⟨(add_zero c).symm, (zero_add _).symm, (zero_add _).symm, (zero_add _).symm⟩
  · rw [H_ext_iff, Quaternion.re_add, Quaternion.imI_add, Quaternion.imJ_add, Quaternion.imK_add]
    exact ⟨(add_zero c).symm, (zero_add _).symm, (zero_add _).symm, (zero_add _).symm⟩

theorem C41_sdiv {F : Type} [Field F] (p : Quat F) (c : F) (hc : c ≠ 0) :
    c • (p.sdiv c).toH = p.toH := by
  rw [Quat.toH_sdiv, smul_smul, mul_inv_cancel₀ hc, one_smul]

/-- `i * j = k` -/
example : ((Quat.new_from 0 1 0 0 : Quat ℤ).mul (Quat.new_from 0 0 1 0)).toH =
    (Quat.new_from 0 0 0 1 : Quat ℤ).toH := by
  rw [H_ext_iff]; exact ⟨by decide, by decide, by decide, by decide⟩

/-! ## C42 Norm -/

theorem C42_norm {R : Type} [CommRing R] (p q : Quat R) :
    (p.mul q).abs2 = p.abs2 * q.abs2 ∧
    (p.mul q).conj.toH = (q.conj.mul p.conj).toH ∧
    (q.mul q.conj).toH = (q.abs2 : ℍ[R]) ∧ (q.conj.mul q).toH = (q.abs2 : ℍ[R]) ∧
    q.dot q = q.abs2 := by
  refine ⟨?_, ?_, ?_, ?_, Quat.dot_self q⟩
  · rw [Quat.abs2_eq, Quat.abs2_eq, Quat.abs2_eq, Quat.toH_mul, map_mul]
  · rw [Quat.toH_conj, Quat.toH_mul, Quat.toH_mul, Quat.toH_conj, Quat.toH_conj, star_mul]
  · rw [Quat.toH_mul, Quat.toH_conj, Quat.abs2_eq, Quaternion.self_mul_star]
  · rw [Quat.toH_mul, Quat.toH_conj, Quat.abs2_eq, Quaternion.star_mul_self]

theorem C42_norm2 [RealParams] (p q : Quat ℝ) :
    (p.mul q).norm2 = p.norm2 * q.norm2 ∧ q.norm2 = ‖q.toH‖ ∧ 0 ≤ q.norm2 ∧
    (q.norm2 = 0 ↔ q.toH = 0) := by
  have h (x : Quat ℝ) : x.norm2 = ‖x.toH‖ := by
    rw [Quat.norm2_eq, Quaternion.normSq_eq_norm_mul_self, Real.sqrt_mul_self (norm_nonneg _)]
  refine ⟨?_, h q, ?_, ?_⟩
  · rw [h, h, h, Quat.toH_mul, norm_mul]
  · rw [h]; exact norm_nonneg _
  · rw [h, norm_eq_zero]

/-! ## C43 `==`

False: the comparison also looks at the `normalized` flag, which products drop. -/

/-- C43 is false: `one() * one() != one()` although all four components agree. -/
theorem C43_eq_false :
    ((Quat.one : Quat ℝ).mul Quat.one).toH = (Quat.one : Quat ℝ).toH ∧
    ((Quat.one : Quat ℝ).mul Quat.one).beq Quat.one = false := by
  refine ⟨by rw [Quat.toH_mul, Quat.toH_one, one_mul], ?_⟩
  simp [Quat.beq, Quat.one, Quat.mul, Quat.new]

/-- What holds: `==` is equality of the four components and of the flag; `q * one()` and
`one() * q` have the components of `q`. Missing: equality regardless of the flag (false). -/
theorem C43_eq_partial {R : Type} [CommRing R] [LinearOrder R] (p q : Quat R) :
    (p.beq q = true ↔ p.toH = q.toH ∧ p.normalized = q.normalized) ∧
    (q.mul Quat.one).toH = q.toH ∧ ((Quat.one : Quat R).mul q).toH = q.toH := by
  refine ⟨?_, by rw [Quat.toH_mul, Quat.toH_one, mul_one], by rw [Quat.toH_mul, Quat.toH_one, one_mul]⟩
  rw [Quat.toH_inj, Quat.beq, Bool.and_eq_true, Bool.and_eq_true]
  have hv : p.q.beq q.q = true ↔ p.q = q.q := by
    rw [Vec.beq, List.all_eq_true]
    constructor
    · intro h
      exact Vec.ext (funext fun i => by simpa using h i (List.mem_finRange i))
    · intro h i _
      simp [h]
  rw [hv]
  simp

/-! ## C44 The flag is truthful

`q.Truthful`: a set flag means norm one. -/

def Quat.Truthful {R : Type} [CommRing R] (q : Quat R) : Prop :=
  q.normalized = true → normSq q.toH = 1

section
variable [P : RealParams]

omit P in
private theorem normSq_nonneg' (q : ℍ[ℝ]) : 0 ≤ normSq q := Quaternion.normSq_nonneg

omit P in
private theorem sdiv_sqrt_unit (q : Quat ℝ) (h : 0 < normSq q.toH) :
    normSq (q.sdiv (√(normSq q.toH))).toH = 1 := by
  rw [Quat.toH_sdiv, Quaternion.normSq_smul, inv_pow, Real.sq_sqrt h.le, inv_mul_cancel₀ h.ne']

/-- C44 is false: `exp` flags its result when the *argument* is small. The exponential of the real
quaternion `ε/2` is flagged although its norm is `e^(ε/2) ≠ 1`. -/
theorem C44_flag_exp_false :
    ∃ q : Quat ℝ, q.exp.normalized = true ∧ normSq q.exp.toH ≠ 1 := by
  have he := P.eps_pos
  refine ⟨⟨P.eps / 2, V3.zero, false⟩, ?_, ?_⟩
  · have : (⟨P.eps / 2, V3.zero, false⟩ : Quat ℝ).norm2 = P.eps / 2 := by
      rw [Quat.norm2_eq, Quaternion.normSq_def']
      have : (P.eps / 2) ^ 2 + (V3.zero : Vec 3 ℝ) 0 ^ 2 + (V3.zero : Vec 3 ℝ) 1 ^ 2
          + (V3.zero : Vec 3 ℝ) 2 ^ 2 = (P.eps / 2) ^ 2 := by
        simp [V3.zero_apply]
      exact (congrArg Real.sqrt this).trans (Real.sqrt_sq (by linarith))
    simp only [Quat.exp, this, rord_lt, rfloat_epsilon, decide_eq_true_eq]
    linarith
  · have habs : (⟨P.eps / 2, V3.zero, false⟩ : Quat ℝ).abs_imag = 0 := by
      simp [Quat.abs_imag, Quat.imag, V3.norm2, V3.zero_apply]
    rw [Quaternion.normSq_def']
    simp only [Quat.exp, habs, Quat.toH_re, Quat.toH_imI, Quat.toH_imJ, Quat.toH_imK,
      V3.smul_apply, V3.zero_apply, zero_mul, rfloat_cos, Real.cos_zero, mul_one, Quat.real,
      rfloat_exp]
    have h1 : 1 < Real.exp (P.eps / 2) := Real.one_lt_exp_iff.2 (by linarith)
    nlinarith

/-- What holds: the flag of every other flag-setting function is truthful (`normalize` and `slerp`
pass on a flag they were given). Missing: `exp` (false). -/
theorem C44_flag_partial (q : Quat ℝ) (theta y p r : ℝ) (v : Vec 3 ℝ) :
    (Quat.one : Quat ℝ).Truthful ∧
    (q.Truthful → ∀ x, q.normalize = some x → x.normalized = true ∧ normSq x.toH = 1) ∧
    (∀ x, Quat.rotation theta v = .ok x → x.normalized = true ∧ normSq x.toH = 1) ∧
    (Quat.rotation_norm_encoded v).Truthful ∧
    normSq (Quat.rotation_norm_encoded v).toH = 1 ∧
    ((Quat.from_euler_angles y p r).normalized = true ∧ normSq (Quat.from_euler_angles y p r).toH = 1) ∧
    (q.normalize_q.normalized = true ∧ normSq q.normalize_q.toH = 1) ∧
    (q.argq.normalized = true ∧ normSq q.argq.toH = 1) := by
  have he := P.eps_pos
  have hnq (q : Quat ℝ) : q.normalize_q.normalized = true ∧ normSq q.normalize_q.toH = 1 := by
    unfold Quat.normalize_q
    rw [Quat.dot_self, Quat.abs2_eq]
    by_cases h : P.eps < normSq q.toH
    · simp only [rord_lt, rfloat_epsilon, h, decide_true, if_true, rfloat_sqrt]
      exact ⟨trivial, sdiv_sqrt_unit q (he.trans h)⟩
    · simp only [rord_lt, rfloat_epsilon, h, decide_false]
      refine ⟨rfl, ?_⟩
      rw [Quaternion.normSq_def']
      change (0 : ℝ) ^ 2 + 1 ^ 2 + 0 ^ 2 + 0 ^ 2 = 1
      norm_num
  have henc : normSq (Quat.rotation_norm_encoded v).toH = 1 := by
    unfold Quat.rotation_norm_encoded
    by_cases h : |V3.norm2 v| < P.eps
    · simp only [nearly_zero_eq, h, decide_true]
      rw [Quaternion.normSq_def']
      change (1 : ℝ) ^ 2 + 0 ^ 2 + 0 ^ 2 + 0 ^ 2 = 1
      norm_num
    · simp only [nearly_zero_eq, h, decide_false, Bool.not_false, if_true]
      have hn0 : V3.norm2 v ≠ 0 := fun h0 => h (by rw [h0, abs_zero]; exact he)
      have hn2 : V3.norm2 v ^ 2 = v 0 ^ 2 + v 1 ^ 2 + v 2 ^ 2 := by
        rw [V3.norm2, rfloat_sqrt, Real.sq_sqrt] <;> nlinarith [sq_nonneg (v 0), sq_nonneg (v 1), sq_nonneg (v 2)]
      generalize V3.norm2 v = n at *
      rw [Quaternion.normSq_def']
      change Real.cos (n / 2) ^ 2 + (v 0 * (Real.sin (n / 2) / n)) ^ 2 + (v 1 * (Real.sin (n / 2) / n)) ^ 2
        + (v 2 * (Real.sin (n / 2) / n)) ^ 2 = 1
      have : Real.cos (n / 2) ^ 2 + (v 0 * (Real.sin (n / 2) / n)) ^ 2 + (v 1 * (Real.sin (n / 2) / n)) ^ 2
        + (v 2 * (Real.sin (n / 2) / n)) ^ 2
          = Real.cos (n / 2) ^ 2 + Real.sin (n / 2) ^ 2 * ((v 0 ^ 2 + v 1 ^ 2 + v 2 ^ 2) / n ^ 2) := by
        field_simp
        ring
      rw [this, ← hn2, div_self (pow_ne_zero _ hn0), mul_one, Real.cos_sq_add_sin_sq]
  refine ⟨?_, ?_, ?_, fun _ => henc, henc, ⟨rfl, ?_⟩, hnq q, hnq _⟩
  · intro _; rw [Quat.toH_one, map_one]
  · intro ht x hx
    unfold Quat.normalize at hx
    by_cases hf : q.normalized = true
    · simp only [hf, if_true, Option.some.injEq] at hx
      subst hx; exact ⟨hf, ht hf⟩
    · simp only [hf] at hx
      by_cases h : |q.norm2| < P.eps
      · simp [nearly_zero_eq, h] at hx
      · simp only [nearly_zero_eq, h, decide_false, Bool.not_false, if_true] at hx
        simp only [Bool.false_eq_true, if_false, Option.some.injEq] at hx
        subst hx
        refine ⟨rfl, ?_⟩
        have hpos : 0 < normSq q.toH := by
          rcases (normSq_nonneg' q.toH).lt_or_eq with h1 | h1
          · exact h1
          · exact absurd (by rw [Quat.norm2_eq, ← h1, Real.sqrt_zero, abs_zero]; exact he) h
        have := sdiv_sqrt_unit q hpos
        rwa [← Quat.norm2_eq] at this
  · intro x hx
    unfold Quat.rotation at hx
    rw [V3.normalize, normalizeGen_eq] at hx
    by_cases h : V3.norm2 v = 0
    · simp [h, expectOk, bind, Except.bind] at hx
    · simp only [rord_beq, h, decide_false] at hx
      have hx := Except.ok.inj hx
      subst hx
      refine ⟨rfl, ?_⟩
      have hn2 : V3.norm2 v ^ 2 = v 0 ^ 2 + v 1 ^ 2 + v 2 ^ 2 := by
        rw [V3.norm2, rfloat_sqrt, Real.sq_sqrt] <;> nlinarith [sq_nonneg (v 0), sq_nonneg (v 1), sq_nonneg (v 2)]
      generalize V3.norm2 v = n at *
      rw [Quaternion.normSq_def']
      change Real.cos (theta / (1 + 1)) ^ 2 + (v 0 / n * Real.sin (theta / (1 + 1))) ^ 2
        + (v 1 / n * Real.sin (theta / (1 + 1))) ^ 2 + (v 2 / n * Real.sin (theta / (1 + 1))) ^ 2 = 1
      generalize theta / (1 + 1) = a
      have : Real.cos a ^ 2 + (v 0 / n * Real.sin a) ^ 2 + (v 1 / n * Real.sin a) ^ 2
        + (v 2 / n * Real.sin a) ^ 2
          = Real.cos a ^ 2 + Real.sin a ^ 2 * ((v 0 ^ 2 + v 1 ^ 2 + v 2 ^ 2) / n ^ 2) := by
        field_simp
        ring
      rw [this, ← hn2, div_self (pow_ne_zero _ h), mul_one, Real.cos_sq_add_sin_sq]
  · rw [Quaternion.normSq_def']
    have hr := Real.sin_sq_add_cos_sq (r / (1 + 1))
    have hp := Real.sin_sq_add_cos_sq (p / (1 + 1))
    have hy := Real.sin_sq_add_cos_sq (y / (1 + 1))
    change (Real.cos (r / (1 + 1)) * Real.cos (p / (1 + 1)) * Real.cos (y / (1 + 1))
        + Real.sin (r / (1 + 1)) * Real.sin (p / (1 + 1)) * Real.sin (y / (1 + 1))) ^ 2
      + (Real.sin (r / (1 + 1)) * Real.cos (p / (1 + 1)) * Real.cos (y / (1 + 1))
        - Real.cos (r / (1 + 1)) * Real.sin (p / (1 + 1)) * Real.sin (y / (1 + 1))) ^ 2
      + (Real.cos (r / (1 + 1)) * Real.sin (p / (1 + 1)) * Real.cos (y / (1 + 1))
        + Real.sin (r / (1 + 1)) * Real.cos (p / (1 + 1)) * Real.sin (y / (1 + 1))) ^ 2
      + (Real.cos (r / (1 + 1)) * Real.cos (p / (1 + 1)) * Real.sin (y / (1 + 1))
        - Real.sin (r / (1 + 1)) * Real.sin (p / (1 + 1)) * Real.cos (y / (1 + 1))) ^ 2 = 1
    generalize Real.cos (r / (1 + 1)) = cr at *
    generalize Real.cos (p / (1 + 1)) = cp at *
    generalize Real.cos (y / (1 + 1)) = cy at *
    generalize Real.sin (r / (1 + 1)) = sr at *
    generalize Real.sin (p / (1 + 1)) = sp at *
    generalize Real.sin (y / (1 + 1)) = sy at *
    linear_combination hr + (sr ^ 2 + cr ^ 2) * hp + (sr ^ 2 + cr ^ 2) * (sp ^ 2 + cp ^ 2) * hy

example : (Quat.one : Quat ℝ).Truthful := fun _ => by rw [Quat.toH_one, map_one]

/-! ## C45 Inverse and division -/

theorem C45_inverse (q : Quat ℝ) :
    (q.inverse = none ↔ q.normalized = false ∧ normSq q.toH < P.eps) ∧
    (q.Truthful → ∀ p, q.inverse = some p → q.toH * p.toH = 1 ∧ p.toH * q.toH = 1) := by
  have he := P.eps_pos
  unfold Quat.inverse
  rw [Quat.abs2_eq]
  by_cases hf : q.normalized = true
  · simp only [hf, Bool.not_true, Bool.false_eq_true, if_false]
    refine ⟨by simp, fun ht p hp => ?_⟩
    obtain rfl := Option.some.inj hp
    rw [Quat.toH_conj, Quaternion.self_mul_star, Quaternion.star_mul_self, ht hf]
    exact ⟨rfl, rfl⟩
  · simp only [hf, Bool.not_false, if_true, nearly_zero_eq, abs_of_nonneg (normSq_nonneg' _)]
    by_cases h : normSq q.toH < P.eps
    · simp [h]
    · simp only [h, decide_false, Bool.not_false, if_true]
      refine ⟨by simp, fun _ p hp => ?_⟩
      obtain rfl := Option.some.inj hp
      have h0 : normSq q.toH ≠ 0 := by linarith
      rw [Quat.toH_sdiv, Quat.toH_conj, mul_smul_comm, smul_mul_assoc, Quaternion.self_mul_star,
        Quaternion.star_mul_self, ← Quaternion.coe_smul, smul_eq_mul, inv_mul_cancel₀ h0]
      exact ⟨rfl, rfl⟩

theorem C45_div (a b : Quat ℝ) :
    (a.div b = .error .unwrapNone ↔ b.inverse = none) ∧
    (b.Truthful → ∀ c, a.div b = .ok c → c.toH * b.toH = a.toH) := by
  unfold Quat.div
  cases hb : b.inverse with
  | none => refine ⟨by simp [unwrapSome, bind, Except.bind], fun _ c hc => ?_⟩
            simp [unwrapSome, bind, Except.bind] at hc
  | some p =>
    refine ⟨by simp [unwrapSome, bind, Except.bind, pure, Except.pure], fun ht c hc => ?_⟩
    have hc : a.mul p = c := Except.ok.inj hc
    rw [← hc, Quat.toH_mul, mul_assoc, ((C45_inverse b).2 ht p hb).2, mul_one]

/-- Without the condition on the flag the claim fails: a flagged quaternion of norm 2. Such a value
can be produced by `exp` only up to order `ε` (see C44). -/
example : ∃ q p : Quat ℝ, q.inverse = some p ∧ q.toH * p.toH ≠ 1 := by
  refine ⟨⟨2, V3.zero, true⟩, _, rfl, fun h => ?_⟩
  have := congrArg (fun x : ℍ[ℝ] => x.re) h
  simp only [Quaternion.re_mul, Quat.toH_re, Quat.toH_imI, Quat.toH_imJ, Quat.toH_imK, Quat.conj_q0,
    Quat.conj_q, V3.zero_apply, Quaternion.re_one] at this
  norm_num at this

example : (⟨1, ⟨![2, 3, 4]⟩, false⟩ : Quat ℝ).Truthful := fun h => by simp at h

/-! ## C46 Normalization -/

theorem C46_normalize (q : Quat ℝ) (hf : q.normalized = false) :
    (q.normalize = none ↔ ‖q.toH‖ < P.eps) ∧
    ∀ x, q.normalize = some x →
      ‖x.toH‖ = 1 ∧ (∃ c : ℝ, 0 < c ∧ x.toH = c • q.toH) ∧ x.normalize = some x := by
  have he := P.eps_pos
  have hn := (C42_norm2 q q).2.1
  unfold Quat.normalize
  rw [hn]
  simp only [hf, Bool.false_eq_true, if_false, nearly_zero_eq, abs_norm]
  by_cases h : ‖q.toH‖ < P.eps
  · simp [h]
  · simp only [h, decide_false, Bool.not_false, if_true]
    have hp : 0 < ‖q.toH‖ := lt_of_lt_of_le he (not_lt.1 h)
    refine ⟨by simp, fun x hx => ?_⟩
    obtain rfl := Option.some.inj hx
    have e : (⟨(q.sdiv ‖q.toH‖).q0, (q.sdiv ‖q.toH‖).q, true⟩ : Quat ℝ).toH = ‖q.toH‖⁻¹ • q.toH :=
      Quat.toH_sdiv q _
    refine ⟨?_, ⟨‖q.toH‖⁻¹, inv_pos.2 hp, e⟩, by simp⟩
    rw [e, norm_smul, norm_inv, norm_norm, inv_mul_cancel₀ hp.ne']

/-- normalizing is idempotent, also for flagged input -/
theorem C46_idempotent (q x : Quat ℝ) (h : q.normalize = some x) : x.normalize = some x := by
  by_cases hf : q.normalized = true
  · have : q.normalize = some q := by simp [Quat.normalize, hf]
    rw [this] at h
    obtain rfl := Option.some.inj h
    exact this
  · exact ((C46_normalize q (by simpa using hf)).2 x h).2.2

example : (Quat.new_from 3 0 4 0 : Quat ℝ).normalized = false := rfl

end

/-! ## C47 Rotating vectors -/

theorem C47_mulVec {R : Type} [CommRing R] (p q : Quat R) (v w : Vec 3 R) (hq : normSq q.toH = 1)
    (hp : normSq p.toH = 1) :
    (q.mulVec v).toH = q.toH * v.toH * star q.toH ∧
    V3.dot (q.mulVec v) (q.mulVec w) = V3.dot v w ∧
    V3.cross (q.mulVec v) (q.mulVec w) = q.mulVec (V3.cross v w) ∧
    (p.mul q).mulVec v = p.mulVec (q.mulVec v) ∧
    q.conj.mulVec (q.mulVec v) = v ∧
    q.mulVec v = M33.mulVec q.to_rotation v := by
  have sand (q : Quat R) (hq : normSq q.toH = 1) (v : Vec 3 R) :
      (q.mulVec v).toH = q.toH * v.toH * star q.toH := by
    rw [Quat.unit_iff] at hq
    rw [H_ext_iff]
    simp only [Quaternion.re_mul, Quaternion.imI_mul, Quaternion.imJ_mul, Quaternion.imK_mul,
      Quaternion.re_star, Quaternion.imI_star, Quaternion.imJ_star, Quaternion.imK_star, Vec.toH_re, Vec.toH_imI, Vec.toH_imJ,
      Vec.toH_imK,
      Quat.toH_re, Quat.toH_imI, Quat.toH_imJ, Quat.toH_imK, Quat.mulVec0, Quat.mulVec1,
      Quat.mulVec2]
    refine ⟨by ring, ?_, ?_, ?_⟩
    · linear_combination -(v 0) * hq
    · linear_combination -(v 1) * hq
    · linear_combination -(v 2) * hq
  have vinj (v w : Vec 3 R) (h : v.toH = w.toH) : v = w := by
    rw [H_ext_iff] at h
    exact Vec.ext3 h.2.1 h.2.2.1 h.2.2.2
  have hsq : star q.toH * q.toH = 1 := by rw [Quaternion.star_mul_self, hq]; rfl
  refine ⟨sand q hq v, ?_, ?_, ?_, ?_, ?_⟩
  · rw [Quat.unit_iff] at hq
    simp only [V3.dot, Quat.mulVec0, Quat.mulVec1, Quat.mulVec2]
    linear_combination (4 * (q.q 0 ^ 2 * v 1 * w 1 + q.q 0 ^ 2 * v 2 * w 2 - q.q 0 * q.q 1 * v 0 * w 1
      - q.q 0 * q.q 1 * v 1 * w 0 - q.q 0 * q.q 2 * v 0 * w 2 - q.q 0 * q.q 2 * v 2 * w 0
      + q.q 1 ^ 2 * v 0 * w 0 + q.q 1 ^ 2 * v 2 * w 2 - q.q 1 * q.q 2 * v 1 * w 2
      - q.q 1 * q.q 2 * v 2 * w 1 + q.q 2 ^ 2 * v 0 * w 0 + q.q 2 ^ 2 * v 1 * w 1)) * hq
  · have key (a b : Vec 3 R) : (V3.cross a b).toH + (V3.cross a b).toH = a.toH * b.toH - b.toH * a.toH := by
      rw [H_ext_iff]
      simp only [Quaternion.re_sub, Quaternion.imI_sub, Quaternion.imJ_sub, Quaternion.imK_sub,
        Quaternion.re_add, Quaternion.imI_add, Quaternion.imJ_add, Quaternion.imK_add,
        Quaternion.re_mul, Quaternion.imI_mul, Quaternion.imJ_mul, Quaternion.imK_mul]
      refine ⟨?_, ?_, ?_, ?_⟩
      · change (0 : R) + 0 = 0 * 0 - a 0 * b 0 - a 1 * b 1 - a 2 * b 2
          - (0 * 0 - b 0 * a 0 - b 1 * a 1 - b 2 * a 2)
        ring
      · change (a 1 * b 2 - a 2 * b 1) + (a 1 * b 2 - a 2 * b 1)
          = 0 * b 0 + a 0 * 0 + a 1 * b 2 - a 2 * b 1 - (0 * a 0 + b 0 * 0 + b 1 * a 2 - b 2 * a 1)
        ring
      · change (a 2 * b 0 - a 0 * b 2) + (a 2 * b 0 - a 0 * b 2)
          = 0 * b 1 - a 0 * b 2 + a 1 * 0 + a 2 * b 0 - (0 * a 1 - b 0 * a 2 + b 1 * 0 + b 2 * a 0)
        ring
      · change (a 0 * b 1 - a 1 * b 0) + (a 0 * b 1 - a 1 * b 0)
          = 0 * b 2 + a 0 * b 1 - a 1 * b 0 + a 2 * 0 - (0 * a 2 + b 0 * a 1 - b 1 * a 0 + b 2 * 0)
        ring
    rw [Quat.unit_iff] at hq
    refine Vec.ext3 ?_ ?_ ?_
    · change q.mulVec v 1 * q.mulVec w 2 - q.mulVec v 2 * q.mulVec w 1 = _
      simp only [Quat.mulVec0, Quat.mulVec1, Quat.mulVec2]
      change _ = (v 1 * w 2 - v 2 * w 1)
        + 2 * q.q0 * (q.q 1 * (v 0 * w 1 - v 1 * w 0) - q.q 2 * (v 2 * w 0 - v 0 * w 2))
        + 2 * (q.q 1 * (q.q 0 * (v 2 * w 0 - v 0 * w 2) - q.q 1 * (v 1 * w 2 - v 2 * w 1))
          - q.q 2 * (q.q 2 * (v 1 * w 2 - v 2 * w 1) - q.q 0 * (v 0 * w 1 - v 1 * w 0)))
      linear_combination (4 * (q.q 0 ^ 2 * v 1 * w 2 - q.q 0 ^ 2 * v 2 * w 1
        + q.q 0 * q.q 1 * v 2 * w 0 - q.q 0 * q.q 1 * v 0 * w 2
        + q.q 0 * q.q 2 * v 0 * w 1 - q.q 0 * q.q 2 * v 1 * w 0)) * hq
    · change q.mulVec v 2 * q.mulVec w 0 - q.mulVec v 0 * q.mulVec w 2 = _
      simp only [Quat.mulVec0, Quat.mulVec1, Quat.mulVec2]
      change _ = (v 2 * w 0 - v 0 * w 2)
        + 2 * q.q0 * (q.q 2 * (v 1 * w 2 - v 2 * w 1) - q.q 0 * (v 0 * w 1 - v 1 * w 0))
        + 2 * (q.q 2 * (q.q 1 * (v 0 * w 1 - v 1 * w 0) - q.q 2 * (v 2 * w 0 - v 0 * w 2))
          - q.q 0 * (q.q 0 * (v 2 * w 0 - v 0 * w 2) - q.q 1 * (v 1 * w 2 - v 2 * w 1)))
      linear_combination (4 * (q.q 0 * q.q 1 * v 1 * w 2 - q.q 0 * q.q 1 * v 2 * w 1
        + q.q 1 ^ 2 * v 2 * w 0 - q.q 1 ^ 2 * v 0 * w 2
        + q.q 1 * q.q 2 * v 0 * w 1 - q.q 1 * q.q 2 * v 1 * w 0)) * hq
    · change q.mulVec v 0 * q.mulVec w 1 - q.mulVec v 1 * q.mulVec w 0 = _
      simp only [Quat.mulVec0, Quat.mulVec1, Quat.mulVec2]
      change _ = (v 0 * w 1 - v 1 * w 0)
        + 2 * q.q0 * (q.q 0 * (v 2 * w 0 - v 0 * w 2) - q.q 1 * (v 1 * w 2 - v 2 * w 1))
        + 2 * (q.q 0 * (q.q 2 * (v 1 * w 2 - v 2 * w 1) - q.q 0 * (v 0 * w 1 - v 1 * w 0))
          - q.q 1 * (q.q 1 * (v 0 * w 1 - v 1 * w 0) - q.q 2 * (v 2 * w 0 - v 0 * w 2)))
      linear_combination (4 * (q.q 0 * q.q 2 * v 1 * w 2 - q.q 0 * q.q 2 * v 2 * w 1
        + q.q 1 * q.q 2 * v 2 * w 0 - q.q 1 * q.q 2 * v 0 * w 2
        + q.q 2 ^ 2 * v 0 * w 1 - q.q 2 ^ 2 * v 1 * w 0)) * hq
  · apply vinj
    have hpq : normSq (p.mul q).toH = 1 := by rw [Quat.toH_mul, map_mul, hp, hq, one_mul]
    rw [sand _ hpq, sand p hp, sand q hq, Quat.toH_mul, star_mul]
    simp only [mul_assoc]
  · apply vinj
    have hc : normSq q.conj.toH = 1 := by rw [Quat.toH_conj, Quaternion.normSq_star, hq]
    rw [sand _ hc, sand q hq, Quat.toH_conj, star_star]
    calc star q.toH * (q.toH * v.toH * star q.toH) * q.toH
        = (star q.toH * q.toH) * v.toH * (star q.toH * q.toH) := by simp only [mul_assoc]
      _ = v.toH := by rw [hsq, one_mul, mul_one]
  · rw [Quat.unit_iff] at hq
    refine Vec.ext3 ?_ ?_ ?_ <;>
    simp only [M33.mulVec_apply3, Quat.mulVec0, Quat.mulVec1, Quat.mulVec2, Quat.rot00, Quat.rot01,
      Quat.rot02, Quat.rot10, Quat.rot11, Quat.rot12, Quat.rot20, Quat.rot21, Quat.rot22]
    · linear_combination -(v 0) * hq
    · linear_combination -(v 1) * hq
    · linear_combination -(v 2) * hq

/-- a unit quaternion that is not `±1`: a rotation about `x` with cosine 3/5 of half the angle -/
example : normSq (Quat.new_from (3 / 5) (4 / 5) 0 0 : Quat ℚ).toH = 1 := by
  rw [Quat.unit_iff]
  change (3 / 5 : ℚ) ^ 2 + (4 / 5) ^ 2 + 0 ^ 2 + 0 ^ 2 = 1
  norm_num

/-! ## C48 Rotation matrices -/

theorem C48_to_rotation {R : Type} [CommRing R] (p q : Quat R) (hq : normSq q.toH = 1) :
    q.to_rotation.toM * q.to_rotation.toM.transpose = 1 ∧ q.to_rotation.toM.det = 1 ∧
    (p.mul q).to_rotation = M33.mul p.to_rotation q.to_rotation ∧
    q.conj.to_rotation = M33.transpose q.to_rotation := by
  rw [Quat.unit_iff] at hq
  have h := orth3_of q.to_rotation
  simp only [Quat.rot00, Quat.rot01, Quat.rot02, Quat.rot10, Quat.rot11, Quat.rot12, Quat.rot20,
    Quat.rot21, Quat.rot22] at h
  have hs : (q.q0 ^ 2 + q.q 0 ^ 2 + q.q 1 ^ 2 + q.q 2 ^ 2) ^ 2 = 1 := by rw [hq, one_pow]
  have hc : (q.q0 ^ 2 + q.q 0 ^ 2 + q.q 1 ^ 2 + q.q 2 ^ 2) ^ 3 = 1 := by rw [hq, one_pow]
  have ho := h (by linear_combination hs) (by linear_combination hs) (by linear_combination hs)
    (by ring) (by ring) (by ring) (by linear_combination hc)
  refine ⟨ho.1, ho.2, ?_, ?_⟩
  · refine Mat.ext3 ?_ ?_ ?_ ?_ ?_ ?_ ?_ ?_ ?_ <;>
    · simp only [M33.mul_apply3, Quat.rot00, Quat.rot01, Quat.rot02, Quat.rot10, Quat.rot11,
        Quat.rot12, Quat.rot20, Quat.rot21, Quat.rot22, Quat.mul_q0, Quat.mul_qi, Quat.mul_qj,
        Quat.mul_qk]
      ring
  · refine Mat.ext3 ?_ ?_ ?_ ?_ ?_ ?_ ?_ ?_ ?_ <;>
    · simp only [M33.transpose_apply, Quat.rot00, Quat.rot01, Quat.rot02, Quat.rot10, Quat.rot11,
        Quat.rot12, Quat.rot20, Quat.rot21, Quat.rot22, Quat.conj_q0, Quat.conj_q]
      ring

theorem four_sq {a b c d : ℝ} (h : a ^ 2 + b ^ 2 + c ^ 2 + d ^ 2 = 0) :
    a = 0 ∧ b = 0 ∧ c = 0 ∧ d = 0 := by
  have ha := sq_nonneg a; have hb := sq_nonneg b; have hc := sq_nonneg c; have hd := sq_nonneg d
  have z (x : ℝ) (hx : x ^ 2 = 0) : x = 0 := (pow_eq_zero_iff two_ne_zero).1 hx
  exact ⟨z a (by linarith), z b (by linarith), z c (by linarith), z d (by linarith)⟩

/-- Two unit quaternions give the same matrix exactly when they agree up to sign. -/
theorem C48_double_cover (p q : Quat ℝ) (hp : normSq p.toH = 1) (hq : normSq q.toH = 1) :
    p.to_rotation = q.to_rotation ↔ p.toH = q.toH ∨ p.toH = -q.toH := by
  rw [Quat.unit_iff] at hp hq
  constructor
  · intro h
    have e (i j : Fin 3) : p.to_rotation i j = q.to_rotation i j := by rw [h]
    have e00 := e 0 0; have e01 := e 0 1; have e02 := e 0 2
    have e10 := e 1 0; have e11 := e 1 1; have e12 := e 1 2
    have e20 := e 2 0; have e21 := e 2 1; have e22 := e 2 2
    rw [Quat.rot00, Quat.rot00] at e00; rw [Quat.rot01, Quat.rot01] at e01
    rw [Quat.rot02, Quat.rot02] at e02; rw [Quat.rot10, Quat.rot10] at e10
    rw [Quat.rot11, Quat.rot11] at e11; rw [Quat.rot12, Quat.rot12] at e12
    rw [Quat.rot20, Quat.rot20] at e20; rw [Quat.rot21, Quat.rot21] at e21
    rw [Quat.rot22, Quat.rot22] at e22
    -- all products of two components agree; hence `(p·q)² = |p|²|q|² = 1`
    have s0 : p.q0 ^ 2 = q.q0 ^ 2 := by linarith
    have s1 : p.q 0 ^ 2 = q.q 0 ^ 2 := by linarith
    have s2 : p.q 1 ^ 2 = q.q 1 ^ 2 := by linarith
    have s3 : p.q 2 ^ 2 = q.q 2 ^ 2 := by linarith
    have m01 : p.q0 * p.q 0 = q.q0 * q.q 0 := by linarith
    have m02 : p.q0 * p.q 1 = q.q0 * q.q 1 := by linarith
    have m03 : p.q0 * p.q 2 = q.q0 * q.q 2 := by linarith
    have m12 : p.q 0 * p.q 1 = q.q 0 * q.q 1 := by linarith
    have m13 : p.q 0 * p.q 2 = q.q 0 * q.q 2 := by linarith
    have m23 : p.q 1 * p.q 2 = q.q 1 * q.q 2 := by linarith
    have hd : (p.q0 * q.q0 + p.q 0 * q.q 0 + p.q 1 * q.q 1 + p.q 2 * q.q 2) ^ 2 = 1 := by
      have : (p.q0 * q.q0 + p.q 0 * q.q 0 + p.q 1 * q.q 1 + p.q 2 * q.q 2) ^ 2
          = (q.q0 ^ 2 + q.q 0 ^ 2 + q.q 1 ^ 2 + q.q 2 ^ 2) ^ 2 := by
        linear_combination q.q0 ^ 2 * s0 + q.q 0 ^ 2 * s1 + q.q 1 ^ 2 * s2 + q.q 2 ^ 2 * s3
          + 2 * q.q0 * q.q 0 * m01 + 2 * q.q0 * q.q 1 * m02 + 2 * q.q0 * q.q 2 * m03
          + 2 * q.q 0 * q.q 1 * m12 + 2 * q.q 0 * q.q 2 * m13 + 2 * q.q 1 * q.q 2 * m23
      rw [this, hq, one_pow]
    rcases mul_self_eq_one_iff.1 ((sq _).symm.trans hd) with h1 | h1
    · left
      have hz : (p.q0 - q.q0) ^ 2 + (p.q 0 - q.q 0) ^ 2 + (p.q 1 - q.q 1) ^ 2 + (p.q 2 - q.q 2) ^ 2 = 0 := by
        linear_combination hp + hq - 2 * h1
      obtain ⟨z0, z1, z2, z3⟩ := four_sq hz
      rw [H_ext_iff]
      exact ⟨sub_eq_zero.1 z0, sub_eq_zero.1 z1, sub_eq_zero.1 z2, sub_eq_zero.1 z3⟩
    · right
      have hz : (p.q0 + q.q0) ^ 2 + (p.q 0 + q.q 0) ^ 2 + (p.q 1 + q.q 1) ^ 2 + (p.q 2 + q.q 2) ^ 2 = 0 := by
        linear_combination hp + hq + 2 * h1
      obtain ⟨z0, z1, z2, z3⟩ := four_sq hz
      rw [H_ext_iff]
      exact ⟨eq_neg_of_add_eq_zero_left z0, eq_neg_of_add_eq_zero_left z1, eq_neg_of_add_eq_zero_left z2, eq_neg_of_add_eq_zero_left z3⟩
  · rintro (h | h) <;> rw [H_ext_iff] at h <;> obtain ⟨h0, h1, h2, h3⟩ := h
    · simp only [Quat.toH_re, Quat.toH_imI, Quat.toH_imJ, Quat.toH_imK] at h0 h1 h2 h3
      refine Mat.ext3 ?_ ?_ ?_ ?_ ?_ ?_ ?_ ?_ ?_ <;>
      simp only [Quat.rot00, Quat.rot01, Quat.rot02, Quat.rot10, Quat.rot11,
        Quat.rot12, Quat.rot20, Quat.rot21, Quat.rot22, h0, h1, h2, h3]
    · simp only [Quaternion.re_neg, Quaternion.imI_neg, Quaternion.imJ_neg, Quaternion.imK_neg,
        Quat.toH_re, Quat.toH_imI, Quat.toH_imJ, Quat.toH_imK] at h0 h1 h2 h3
      refine Mat.ext3 ?_ ?_ ?_ ?_ ?_ ?_ ?_ ?_ ?_ <;>
      · simp only [Quat.rot00, Quat.rot01, Quat.rot02, Quat.rot10, Quat.rot11,
          Quat.rot12, Quat.rot20, Quat.rot21, Quat.rot22, h0, h1, h2, h3]
        ring

end StaticMath
