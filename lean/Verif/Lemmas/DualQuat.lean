import Verif.Spec.DualQuat
import Verif.Lemmas.QuatRot
import Verif.Lemmas.Entries

/-! # Dual quaternions of the model and dual numbers over Hamilton quaternions -/

namespace StaticMath

open Quaternion

section
variable {R : Type} [CommRing R]

theorem DQuat.toD_fst (x : DQuat R) : x.toD.fst = x.q_real.toH := by simp [DQuat.toD]
theorem DQuat.toD_snd (x : DQuat R) : x.toD.snd = x.q_dual.toH := by simp [DQuat.toD]

theorem DQuat.toD_iff {x : DQuat R} {d : DualNumber ℍ[R]} :
    x.toD = d ↔ x.q_real.toH = d.fst ∧ x.q_dual.toH = d.snd := by
  rw [TrivSqZeroExt.ext_iff, toD_fst, toD_snd]

theorem DQuat.toD_inj {x y : DQuat R} :
    x.toD = y.toD ↔ x.q_real.toH = y.q_real.toH ∧ x.q_dual.toH = y.q_dual.toH := by
  rw [DQuat.toD_iff, toD_fst, toD_snd]

theorem DQuat.toD_mul (x y : DQuat R) : (x.mul y).toD = x.toD * y.toD := by
  rw [DQuat.toD_iff, TrivSqZeroExt.fst_mul, TrivSqZeroExt.snd_mul, toD_fst, toD_fst, toD_snd, toD_snd]
  refine ⟨Quat.toH_mul _ _, ?_⟩
  change ((x.q_real.mul y.q_dual).add (x.q_dual.mul y.q_real)).toH = _
  rw [Quat.toH_add, Quat.toH_mul, Quat.toH_mul]
  rfl

theorem DQuat.toD_one : (DQuat.one : DQuat R).toD = 1 := by
  rw [DQuat.toD_iff]
  exact ⟨Quat.toH_one, Quat.toH_zero⟩

theorem Vec.toH_inj {v w : Vec 3 R} : v.toH = w.toH ↔ v = w := by
  constructor
  · intro h
    rw [H_ext_iff] at h
    exact Vec3.ext3 h.2.1 h.2.2.1 h.2.2.2
  · rintro rfl; rfl

theorem Quat.imag_toH (q : Quat R) : q.imag.toH = q.toH.im := rfl

/-- The matrix of a quaternion, unit or not, is the sandwich product. -/
theorem Quat.rot_toH (q : Quat R) (p : Vec 3 R) :
    (M33.mulVec q.to_rotation p).toH = q.toH * p.toH * star q.toH := by
  rw [H_ext_iff]
  simp only [Quaternion.re_mul, Quaternion.imI_mul, Quaternion.imJ_mul, Quaternion.imK_mul,
    Quaternion.re_star, Quaternion.imI_star, Quaternion.imJ_star, Quaternion.imK_star,
    Quat.toH_re, Quat.toH_imI, Quat.toH_imJ, Quat.toH_imK, Vec.toH_re, Vec.toH_imI, Vec.toH_imJ,
    Vec.toH_imK, M33.mulVec_apply3, Quat.rot00, Quat.rot01, Quat.rot02, Quat.rot10, Quat.rot11,
    Quat.rot12, Quat.rot20, Quat.rot21, Quat.rot22]
  refine ⟨?_, ?_, ?_, ?_⟩ <;> ring

theorem star_mul_self_unit {q : ℍ[R]} (h : normSq q = 1) : star q * q = 1 := by
  rw [Quaternion.star_mul_self, h]; rfl

theorem mul_star_self_unit {q : ℍ[R]} (h : normSq q = 1) : q * star q = 1 := by
  rw [Quaternion.self_mul_star, h]; rfl

theorem orth_iff (q d : ℍ[R]) (h : (q * star d).re = 0) : q * star d + d * star q = 0 := by
  have : d * star q = star (q * star d) := by rw [star_mul, star_star]
  rw [this, Quaternion.self_add_star, h]
  simp

/-- Unit dual quaternions are those with `x * conj x = 1`. -/
theorem DQuat.IsMotion.mul_conj {x : DQuat R} (h : x.IsMotion) :
    (x.mul x.conj).toD = 1 ∧ (x.conj.mul x).toD = 1 := by
  have hc : x.conj.q_real.toH = star x.q_real.toH ∧ x.conj.q_dual.toH = star x.q_dual.toH :=
    ⟨Quat.toH_conj _, Quat.toH_conj _⟩
  have ho := orth_iff _ _ h.orth
  have h1 := mul_star_self_unit h.norm
  have h2 := star_mul_self_unit h.norm
  constructor
  · rw [DQuat.toD_iff, ← DQuat.toD_fst, ← DQuat.toD_snd, DQuat.toD_mul, TrivSqZeroExt.fst_mul,
      TrivSqZeroExt.snd_mul, toD_fst, toD_fst, toD_snd, toD_snd, hc.1, hc.2]
    exact ⟨h1, ho⟩
  · rw [DQuat.toD_iff, ← DQuat.toD_fst, ← DQuat.toD_snd, DQuat.toD_mul, TrivSqZeroExt.fst_mul,
      TrivSqZeroExt.snd_mul, toD_fst, toD_fst, toD_snd, toD_snd, hc.1, hc.2]
    refine ⟨h2, ?_⟩
    change star x.q_real.toH * x.q_dual.toH + star x.q_dual.toH * x.q_real.toH = 0
    calc _ = star x.q_real.toH * (x.q_real.toH * star x.q_dual.toH
          + x.q_dual.toH * star x.q_real.toH) * x.q_real.toH := by
            rw [mul_add, add_mul, ← mul_assoc, h2, one_mul, mul_assoc (star x.q_real.toH),
              mul_assoc x.q_dual.toH, h2, mul_one, add_comm]
      _ = 0 := by rw [ho, mul_zero, zero_mul]

theorem DQuat.translation_toH (x : DQuat R) :
    x.get_translation.toH = (2 * x.q_dual.toH * star x.q_real.toH).im := by
  change (((x.q_dual.smul (1 + 1)).mul x.q_real.conj).imag).toH = _
  rw [Quat.imag_toH, Quat.toH_mul, Quat.toH_smul, Quat.toH_conj, one_add_one_eq_two]
  congr 2
  rw [two_smul, two_mul]

end

end StaticMath
