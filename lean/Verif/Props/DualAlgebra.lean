import Verif.Lemmas.DualQuat
import Verif.Props.QuatRotation
import Verif.Props.Transform

/-!
# C60-C66: dual quaternion arithmetic, rigid motions, inverse, normalization, division
-/

namespace StaticMath

open Quaternion

/-! ## C60 arithmetic -/

theorem C60_dual_numbers {R : Type} [CommRing R] (x y : DQuat R) (c : R) (v : Vec 3 R) :
    (x.add y).toD = x.toD + y.toD ∧ (x.sub y).toD = x.toD - y.toD ∧ x.neg.toD = -x.toD ∧
    (x.mul y).toD = x.toD * y.toD ∧ (x.smul c).toD = c • x.toD ∧
    (DQuat.zero : DQuat R).toD = 0 ∧ (DQuat.one : DQuat R).toD = 1 ∧
    (DQuat.new x.q_real x.q_dual).toD = x.toD ∧
    x.real.toH = x.toD.fst ∧ x.dual.toH = x.toD.snd ∧
    (DQuat.new_from_point v).toD = 1 + TrivSqZeroExt.inr v.toH := by
  refine ⟨?_, ?_, ?_, DQuat.toD_mul x y, ?_, ?_, DQuat.toD_one, ?_, (DQuat.toD_fst x).symm,
    (DQuat.toD_snd x).symm, ?_⟩
  · rw [DQuat.toD_iff, TrivSqZeroExt.fst_add, TrivSqZeroExt.snd_add, DQuat.toD_fst, DQuat.toD_fst,
      DQuat.toD_snd, DQuat.toD_snd]
    exact ⟨rfl, rfl⟩
  · rw [DQuat.toD_iff, TrivSqZeroExt.fst_sub, TrivSqZeroExt.snd_sub, DQuat.toD_fst, DQuat.toD_fst,
      DQuat.toD_snd, DQuat.toD_snd]
    exact ⟨rfl, rfl⟩
  · rw [DQuat.toD_iff, TrivSqZeroExt.fst_neg, TrivSqZeroExt.snd_neg, DQuat.toD_fst, DQuat.toD_snd]
    exact ⟨rfl, rfl⟩
  · rw [DQuat.toD_iff, TrivSqZeroExt.fst_smul, TrivSqZeroExt.snd_smul, DQuat.toD_fst, DQuat.toD_snd]
    exact ⟨Quat.toH_smul _ _, Quat.toH_smul _ _⟩
  · rw [DQuat.toD_iff]
    exact ⟨Quat.toH_zero, Quat.toH_zero⟩
  · rfl
  · rw [DQuat.toD_iff, TrivSqZeroExt.fst_add, TrivSqZeroExt.snd_add, TrivSqZeroExt.fst_inr,
      TrivSqZeroExt.snd_inr, TrivSqZeroExt.fst_one, TrivSqZeroExt.snd_one, add_zero, zero_add]
    exact ⟨Quat.toH_one, Quat.toH_new_imag v⟩

theorem C60_conj {R : Type} [CommRing R] (x y : DQuat R) :
    x.conj.toD = TrivSqZeroExt.inl (star x.toD.fst) + TrivSqZeroExt.inr (star x.toD.snd) ∧
    x.conj_as_dual.toD = TrivSqZeroExt.inl x.toD.fst - TrivSqZeroExt.inr x.toD.snd ∧
    x.conj_combined.toD = TrivSqZeroExt.inl (star x.toD.fst) - TrivSqZeroExt.inr (star x.toD.snd) ∧
    (x.mul y).conj.toD = (y.conj.mul x.conj).toD ∧
    (x.mul y).conj_as_dual.toD = (x.conj_as_dual.mul y.conj_as_dual).toD ∧
    (x.mul y).conj_combined.toD = (y.conj_combined.mul x.conj_combined).toD ∧
    x.norm.toD = (x.mul x.conj).toD := by
  have c1 (x : DQuat R) : x.conj.toD =
      TrivSqZeroExt.inl (star x.toD.fst) + TrivSqZeroExt.inr (star x.toD.snd) := by
    rw [DQuat.toD_iff, DQuat.toD_fst, DQuat.toD_snd]
    simp only [TrivSqZeroExt.fst_add, TrivSqZeroExt.snd_add, TrivSqZeroExt.fst_inr,
      TrivSqZeroExt.snd_inr, TrivSqZeroExt.fst_inl, TrivSqZeroExt.snd_inl, add_zero, zero_add]
    exact ⟨Quat.toH_conj _, Quat.toH_conj _⟩
  have c2 (x : DQuat R) : x.conj_as_dual.toD =
      TrivSqZeroExt.inl x.toD.fst - TrivSqZeroExt.inr x.toD.snd := by
    rw [DQuat.toD_iff, DQuat.toD_fst, DQuat.toD_snd]
    simp only [TrivSqZeroExt.fst_sub, TrivSqZeroExt.snd_sub, TrivSqZeroExt.fst_inr,
      TrivSqZeroExt.snd_inr, TrivSqZeroExt.fst_inl, TrivSqZeroExt.snd_inl, sub_zero, zero_sub]
    exact ⟨rfl, Quat.toH_neg _⟩
  have c3 (x : DQuat R) : x.conj_combined.toD =
      TrivSqZeroExt.inl (star x.toD.fst) - TrivSqZeroExt.inr (star x.toD.snd) := by
    rw [DQuat.toD_iff, DQuat.toD_fst, DQuat.toD_snd]
    simp only [TrivSqZeroExt.fst_sub, TrivSqZeroExt.snd_sub, TrivSqZeroExt.fst_inr,
      TrivSqZeroExt.snd_inr, TrivSqZeroExt.fst_inl, TrivSqZeroExt.snd_inl, sub_zero, zero_sub]
    exact ⟨Quat.toH_conj _, (Quat.toH_neg _).trans (congrArg _ (Quat.toH_conj _))⟩
  refine ⟨c1 x, c2 x, c3 x, ?_, ?_, ?_, rfl⟩
  · rw [c1, DQuat.toD_mul, DQuat.toD_mul, c1, c1, TrivSqZeroExt.ext_iff]
    simp only [TrivSqZeroExt.fst_add, TrivSqZeroExt.snd_add, TrivSqZeroExt.fst_inr,
      TrivSqZeroExt.snd_inr, TrivSqZeroExt.fst_inl, TrivSqZeroExt.snd_inl, add_zero, zero_add,
      TrivSqZeroExt.fst_mul, TrivSqZeroExt.snd_mul, smul_eq_mul, MulOpposite.smul_eq_mul_unop,
      MulOpposite.unop_op, star_mul, star_add, true_and]
    exact add_comm _ _
  · rw [c2, DQuat.toD_mul, DQuat.toD_mul, c2, c2, TrivSqZeroExt.ext_iff]
    simp only [TrivSqZeroExt.fst_sub, TrivSqZeroExt.snd_sub, TrivSqZeroExt.fst_inr,
      TrivSqZeroExt.snd_inr, TrivSqZeroExt.fst_inl, TrivSqZeroExt.snd_inl, sub_zero, zero_sub,
      TrivSqZeroExt.fst_mul, TrivSqZeroExt.snd_mul, smul_eq_mul, MulOpposite.smul_eq_mul_unop,
      MulOpposite.unop_op, true_and, neg_add, mul_neg, neg_mul]
  · rw [c3, DQuat.toD_mul, DQuat.toD_mul, c3, c3, TrivSqZeroExt.ext_iff]
    simp only [TrivSqZeroExt.fst_sub, TrivSqZeroExt.snd_sub, TrivSqZeroExt.fst_inr,
      TrivSqZeroExt.snd_inr, TrivSqZeroExt.fst_inl, TrivSqZeroExt.snd_inl, sub_zero, zero_sub,
      TrivSqZeroExt.fst_mul, TrivSqZeroExt.snd_mul, smul_eq_mul, MulOpposite.smul_eq_mul_unop,
      MulOpposite.unop_op, star_mul, star_add, true_and, neg_add, mul_neg, neg_mul]
    exact add_comm _ _

/-- `ε² = 0`. -/
example : ((DQuat.new Quat.zero Quat.one : DQuat ℤ).mul (DQuat.new Quat.zero Quat.one)).toD = 0 := by
  rw [DQuat.toD_mul, TrivSqZeroExt.ext_iff]
  constructor <;> simp [DQuat.toD_fst, DQuat.toD_snd, DQuat.new, Quat.toH_zero]

/-! ## C61 rotation and translation -/

/-- Normalizing a unit quaternion changes nothing but the flag. -/
theorem Quat.normalize_unit [P : RealParams] (q : Quat ℝ) (hq : normSq q.toH = 1) :
    q.normalize = some ⟨q.q0, q.q, true⟩ := by
  have he1 := P.eps_le
  unfold Quat.normalize
  by_cases hf : q.normalized = true
  · simp only [hf, if_true]
    exact congrArg some (by cases q; simp_all)
  · have h1 : q.norm2 = 1 := by rw [Quat.norm2_eq, hq, Real.sqrt_one]
    have h2 : ¬ (1 : ℝ) < P.eps := by norm_num at he1 ⊢; linarith
    simp only [hf, Bool.false_eq_true, if_false, h1, nearly_zero_eq, abs_one, h2, decide_false,
      Bool.not_false, if_true]
    refine congrArg some ?_
    refine Quat.ext (div_one q.q0) ?_ rfl
    exact Vec.ext (funext fun i => (V3.sdiv_apply _ _ _).trans (div_one _))

/-- `transform_point` is the rotation of the real part, whatever the dual part. -/
theorem DQuat.transform_point_eq {R : Type} [CommRing R] (x : DQuat R) (p : Vec 3 R) :
    x.transform_point p = M33.mulVec x.q_real.to_rotation p := by
  rw [← Vec.toH_inj, Quat.rot_toH]
  change (((x.mul (DQuat.new_from_point p)).mul x.conj).q_dual.imag).toH = _
  rw [Quat.imag_toH]
  change (((((x.q_real.mul Quat.one).mul x.q_dual.conj)).add
    (((x.q_real.mul (Quat.new_imag p)).add (x.q_dual.mul Quat.one)).mul x.q_real.conj)).toH).im = _
  rw [Quat.toH_add, Quat.toH_mul, Quat.toH_mul, Quat.toH_mul, Quat.toH_add, Quat.toH_mul,
    Quat.toH_mul, Quat.toH_conj, Quat.toH_conj, Quat.toH_one, Quat.toH_new_imag]
  rw [H_ext_iff]
  simp only [mul_one, Quaternion.re_im, Quaternion.imI_im, Quaternion.imJ_im, Quaternion.imK_im,
    Quaternion.imI_add, Quaternion.imJ_add, Quaternion.imK_add, Quaternion.re_add,
    Quaternion.re_mul, Quaternion.imI_mul, Quaternion.imJ_mul, Quaternion.imK_mul,
    Quaternion.re_star, Quaternion.imI_star, Quaternion.imJ_star, Quaternion.imK_star, Vec.toH_re]
  refine ⟨?_, ?_, ?_, ?_⟩ <;> ring

private theorem homogeneous_eq {R : Type} [CommRing R] (x : DQuat R) :
    x.to_homogeneous = homogeneous_from_rotation x.q_real.to_rotation x.get_translation := rfl

private theorem half_mul (t q : ℍ[ℝ]) (h : normSq q = 1) :
    2 * (((1 : ℝ) / (1 + 1)) • t * q) * star q = t := by
  rw [mul_assoc, mul_assoc, mul_star_self_unit h, mul_one, two_mul, ← add_smul]
  norm_num

private theorem half_orth (t q : ℍ[ℝ]) (ht : t.re = 0) :
    (q * star (((1 : ℝ) / (1 + 1)) • t * q)).re = 0 := by
  simp only [Quaternion.re_mul, Quaternion.imI_mul, Quaternion.imJ_mul, Quaternion.imK_mul,
    Quaternion.re_star, Quaternion.imI_star, Quaternion.imJ_star, Quaternion.imK_star,
    Quaternion.re_smul, Quaternion.imI_smul, Quaternion.imJ_smul, Quaternion.imK_smul, ht, smul_eq_mul]
  ring

private theorem im_toH (v : Vec 3 ℝ) : v.toH.im = v.toH := rfl

theorem Quat.to_rotation_congr {R : Type} [CommRing R] {p q : Quat R} (h : p.toH = q.toH) :
    p.to_rotation = q.to_rotation := by
  rw [Quat.toH_inj] at h
  unfold Quat.to_rotation Quat.real Quat.imag
  rw [h.1, h.2]

/-- `new_from_rot_trans` of a unit quaternion: everything C61 asks for, except that
`transform_point` applies the rotation only.

Missing: `transform_point` adds the translation. It does not, see `C61_transform_point_false`; the
code multiplies by `conj()` where `conj_combined()` is needed. -/
theorem C61_rot_trans_partial [P : RealParams] (q : Quat ℝ) (hq : normSq q.toH = 1) (t p : Vec 3 ℝ) :
    ∃ x, DQuat.new_from_rot_trans q t = .ok x ∧ x.normalized = true ∧ x.Truthful ∧
      x.q_real.toH = q.toH ∧ x.IsMotion ∧ x.get_translation = t ∧
      x.to_rotation_translation = (q.to_rotation, t) ∧
      x.to_quaternion_translation.1.toH = q.toH ∧ x.to_quaternion_translation.2 = t ∧
      x.to_homogeneous = homogeneous_from_rotation q.to_rotation t ∧
      M44.mulVec x.to_homogeneous p.point = (V3.add (M33.mulVec q.to_rotation p) t).point ∧
      x.transform_point p = M33.mulVec q.to_rotation p := by
  have hn := Quat.normalize_unit q hq
  refine ⟨⟨⟨q.q0, q.q, true⟩, ((Quat.new_imag t).smul (1 / (1 + 1))).mul ⟨q.q0, q.q, true⟩, true⟩,
    ?_, ?_⟩
  · unfold DQuat.new_from_rot_trans
    rw [hn]
    rfl
  obtain ⟨x, hx⟩ : ∃ x : DQuat ℝ, x = ⟨⟨q.q0, q.q, true⟩,
    ((Quat.new_imag t).smul (1 / (1 + 1))).mul ⟨q.q0, q.q, true⟩, true⟩ := ⟨_, rfl⟩
  rw [← hx]
  have hr : x.q_real.toH = q.toH := by rw [hx]; rfl
  have hd : x.q_dual.toH = ((1 : ℝ) / (1 + 1)) • t.toH * q.toH := by
    rw [hx]
    change (((Quat.new_imag t).smul (1 / (1 + 1))).mul ⟨q.q0, q.q, true⟩).toH = _
    rw [Quat.toH_mul, Quat.toH_smul]
    rfl
  have hm : x.IsMotion := ⟨by rw [hr, hq], by rw [hr, hd]; exact half_orth _ _ rfl⟩
  have ht : x.get_translation = t := by
    rw [← Vec.toH_inj, DQuat.translation_toH, hr, hd, half_mul _ _ hq, im_toH]
  have hrot : x.q_real.to_rotation = q.to_rotation := Quat.to_rotation_congr hr
  have hh : x.to_homogeneous = homogeneous_from_rotation q.to_rotation t := by
    rw [homogeneous_eq, hrot, ht]
  refine ⟨by rw [hx], ⟨fun _ => hm, fun _ => hm.norm⟩, hr, hm, ht, ?_, hr, ht, hh, ?_, ?_⟩
  · rw [← ht, ← hrot]; rfl
  · rw [hh]
    exact (C74_homogeneous q.to_rotation q.to_rotation t t p).2.2.1
  · rw [DQuat.transform_point_eq, hrot]

/-- `new_from_translation` and `new_from_rotation`. Missing: as above. -/
theorem C61_translation_rotation_partial (q : Quat ℝ) (t p : Vec 3 ℝ) :
    ((DQuat.new_from_translation t).IsMotion ∧ (DQuat.new_from_translation t).q_real.toH = 1 ∧
      (DQuat.new_from_translation t).get_translation = t ∧
      M44.mulVec (DQuat.new_from_translation t).to_homogeneous p.point = (V3.add p t).point ∧
      (DQuat.new_from_translation t).transform_point p = p) ∧
    ((DQuat.new_from_rotation q).q_real.toH = q.toH ∧
      (DQuat.new_from_rotation q).get_translation = V3.zero ∧
      (DQuat.new_from_rotation q).transform_point p = M33.mulVec q.to_rotation p ∧
      (normSq q.toH = 1 → (DQuat.new_from_rotation q).IsMotion)) := by
  have h1 : (Quat.one : Quat ℝ).to_rotation = M33.one := by
    refine Mat.ext3 ?_ ?_ ?_ ?_ ?_ ?_ ?_ ?_ ?_ <;>
      simp only [Quat.rot00, Quat.rot01, Quat.rot02, Quat.rot10, Quat.rot11, Quat.rot12, Quat.rot20,
        Quat.rot21, Quat.rot22, Quat.one, entries] <;> norm_num
  have h1v (p : Vec 3 ℝ) : M33.mulVec M33.one p = p := by
    refine Vec.ext3 ?_ ?_ ?_ <;> simp only [entries] <;> ring
  have hd : (DQuat.new_from_translation t).q_dual.toH = ((1 : ℝ) / (1 + 1)) • t.toH * 1 := by
    rw [mul_one, H_ext_iff]
    refine ⟨(mul_zero _).symm, ?_, ?_, ?_⟩
    · exact (one_div_mul_eq_div (1 + 1) (t 0)).symm
    · exact (one_div_mul_eq_div (1 + 1) (t 1)).symm
    · exact (one_div_mul_eq_div (1 + 1) (t 2)).symm
  have hr : (DQuat.new_from_translation t).q_real.toH = 1 := rfl
  have ht : (DQuat.new_from_translation t).get_translation = t := by
    rw [← Vec.toH_inj, DQuat.translation_toH, hd, hr, half_mul _ _ (map_one _), im_toH]
  refine ⟨⟨⟨?_, ?_⟩, rfl, ht, ?_, ?_⟩, rfl, ?_, ?_, ?_⟩
  · change normSq (1 : ℍ[ℝ]) = 1
    rw [map_one]
  · rw [hd, hr]
    exact half_orth _ _ rfl
  · rw [homogeneous_eq, ht]
    change M44.mulVec (homogeneous_from_rotation (Quat.one : Quat ℝ).to_rotation t) p.point = _
    rw [h1, (C74_homogeneous M33.one M33.one t t p).2.2.1, h1v]
  · rw [DQuat.transform_point_eq]
    change M33.mulVec (Quat.one : Quat ℝ).to_rotation p = p
    rw [h1, h1v]
  · rw [← Vec.toH_inj, DQuat.translation_toH]
    change (2 * (0 : ℍ[ℝ]) * star q.toH).im = _
    rw [mul_zero, zero_mul]
    rfl
  · exact DQuat.transform_point_eq _ _
  · intro hq
    refine ⟨hq, ?_⟩
    change (q.toH * star (0 : ℍ[ℝ])).re = 0
    rw [star_zero, mul_zero]
    rfl

/-- The translation by `(1, 0, 0)` leaves the origin where it is. -/
theorem C61_transform_point_false :
    ∃ t p : Vec 3 ℝ, (DQuat.new_from_translation t).transform_point p ≠ V3.add p t := by
  refine ⟨⟨![1, 0, 0]⟩, V3.zero, fun h => ?_⟩
  rw [(C61_translation_rotation_partial Quat.one ⟨![1, 0, 0]⟩ V3.zero).1.2.2.2.2] at h
  have := congrArg (fun v : Vec 3 ℝ => v 0) h
  change (0 : ℝ) = 0 + 1 at this
  norm_num at this

/-! ## C62 products compose motions -/

private theorem im_sandwich {R : Type} [CommRing R] (q x : ℍ[R]) :
    (q * x * star q).im = q * x.im * star q := by
  rw [H_ext_iff]
  simp only [Quaternion.re_im, Quaternion.imI_im, Quaternion.imJ_im, Quaternion.imK_im,
    Quaternion.re_mul, Quaternion.imI_mul, Quaternion.imJ_mul, Quaternion.imK_mul,
    Quaternion.re_star, Quaternion.imI_star, Quaternion.imJ_star, Quaternion.imK_star]
  refine ⟨?_, ?_, ?_, ?_⟩ <;> ring

private theorem re_sandwich {R : Type} [CommRing R] (q x : ℍ[R]) :
    (q * x * star q).re = normSq q * x.re := by
  simp only [Quaternion.normSq_def', Quaternion.re_mul, Quaternion.imI_mul, Quaternion.imJ_mul,
    Quaternion.imK_mul, Quaternion.re_star, Quaternion.imI_star, Quaternion.imJ_star,
    Quaternion.imK_star]
  ring

theorem DQuat.IsMotion.mul {R : Type} [CommRing R] {a b : DQuat R} (ha : a.IsMotion)
    (hb : b.IsMotion) : (a.mul b).IsMotion := by
  have hr : (a.mul b).q_real.toH = a.q_real.toH * b.q_real.toH := Quat.toH_mul _ _
  have hd : (a.mul b).q_dual.toH = a.q_real.toH * b.q_dual.toH + a.q_dual.toH * b.q_real.toH := by
    change ((a.q_real.mul b.q_dual).add (a.q_dual.mul b.q_real)).toH = _
    rw [Quat.toH_add, Quat.toH_mul, Quat.toH_mul]
  refine ⟨by rw [hr, map_mul, ha.norm, hb.norm, mul_one], ?_⟩
  rw [hr, hd, star_add, star_mul, star_mul, mul_add,
    show a.q_real.toH * b.q_real.toH * (star b.q_dual.toH * star a.q_real.toH)
      = a.q_real.toH * (b.q_real.toH * star b.q_dual.toH) * star a.q_real.toH by
      simp only [mul_assoc],
    show a.q_real.toH * b.q_real.toH * (star b.q_real.toH * star a.q_dual.toH)
      = a.q_real.toH * (b.q_real.toH * star b.q_real.toH) * star a.q_dual.toH by
      simp only [mul_assoc], mul_star_self_unit hb.norm, mul_one, Quaternion.re_add, re_sandwich,
    hb.orth, ha.orth, mul_zero, add_zero]

private theorem translation_mul {R : Type} [CommRing R] (a b : DQuat R)
    (hb : normSq b.q_real.toH = 1) : (a.mul b).get_translation =
      V3.add (M33.mulVec a.q_real.to_rotation b.get_translation) a.get_translation := by
  have hr : (a.mul b).q_real.toH = a.q_real.toH * b.q_real.toH := Quat.toH_mul _ _
  have hd : (a.mul b).q_dual.toH = a.q_real.toH * b.q_dual.toH + a.q_dual.toH * b.q_real.toH := by
    change ((a.q_real.mul b.q_dual).add (a.q_dual.mul b.q_real)).toH = _
    rw [Quat.toH_add, Quat.toH_mul, Quat.toH_mul]
  have hadd (v w : Vec 3 R) : (V3.add v w).toH = v.toH + w.toH := by
    rw [H_ext_iff]
    exact ⟨(add_zero _).symm, rfl, rfl, rfl⟩
  rw [← Vec.toH_inj, hadd, Quat.rot_toH, DQuat.translation_toH, DQuat.translation_toH,
    DQuat.translation_toH, ← im_sandwich, hr, hd, ← Quaternion.im_add]
  congr 1
  rw [star_mul, mul_add, add_mul]
  congr 1
  · simp only [two_mul, mul_add, add_mul, mul_assoc]
  · rw [show 2 * (a.q_dual.toH * b.q_real.toH) * (star b.q_real.toH * star a.q_real.toH)
      = 2 * a.q_dual.toH * (b.q_real.toH * star b.q_real.toH) * star a.q_real.toH by
      simp only [mul_assoc], mul_star_self_unit hb, mul_one]

/-- Missing: `transform_point(a, p)` is `to_homogeneous(a)` applied to `(p, 1)`; false, see
`C62_transform_point_false`. -/
theorem C62_product_partial {R : Type} [CommRing R] (a b : DQuat R) (ha : a.IsMotion)
    (hb : b.IsMotion) (p : Vec 3 R) :
    (a.mul b).IsMotion ∧
    (a.mul b).transform_point p = a.transform_point (b.transform_point p) ∧
    (a.mul b).to_homogeneous = M44.mul a.to_homogeneous b.to_homogeneous ∧
    M44.mulVec a.to_homogeneous p.point = (V3.add (a.transform_point p) a.get_translation).point := by
  have hrot : (a.mul b).q_real.to_rotation = M33.mul a.q_real.to_rotation b.q_real.to_rotation :=
    (C48_to_rotation a.q_real b.q_real hb.norm).2.2.1
  refine ⟨ha.mul hb, ?_, ?_, ?_⟩
  · rw [DQuat.transform_point_eq, DQuat.transform_point_eq, DQuat.transform_point_eq, hrot]
    refine Vec.ext3 ?_ ?_ ?_ <;> simp only [entries] <;> ring
  · rw [homogeneous_eq, homogeneous_eq, homogeneous_eq, hrot, translation_mul a b hb.norm]
    exact ((C74_homogeneous _ _ _ _ p).2.1).symm
  · rw [DQuat.transform_point_eq, homogeneous_eq]
    exact (C74_homogeneous _ a.q_real.to_rotation _ p p).2.2.1

/-- Two unit dual quaternions that do not commute. -/
example : (DQuat.new_from_translation (⟨![1, 2, 3]⟩ : Vec 3 ℝ)).IsMotion ∧
    (DQuat.new_from_rotation (Quat.new_from (3 / 5) 0 (4 / 5) 0 : Quat ℝ)).IsMotion := by
  refine ⟨(C61_translation_rotation_partial Quat.one _ V3.zero).1.1,
    (C61_translation_rotation_partial _ V3.zero V3.zero).2.2.2.2 ?_⟩
  rw [Quat.unit_iff]
  change (3 / 5 : ℝ) ^ 2 + 0 ^ 2 + (4 / 5) ^ 2 + 0 ^ 2 = 1
  norm_num

theorem C62_transform_point_false :
    ∃ (a : DQuat ℝ) (p : Vec 3 ℝ), a.IsMotion ∧
      M44.mulVec a.to_homogeneous p.point ≠ (a.transform_point p).point := by
  obtain ⟨h1, -, h3, -, h5⟩ :=
    (C61_translation_rotation_partial Quat.one (⟨![1, 0, 0]⟩ : Vec 3 ℝ) V3.zero).1
  refine ⟨DQuat.new_from_translation ⟨![1, 0, 0]⟩, V3.zero, h1, fun h => ?_⟩
  rw [(C62_product_partial _ _ h1 h1 V3.zero).2.2.2, h3, h5] at h
  have := congrArg (fun v : Vec 4 ℝ => v 0) h
  change (0 : ℝ) + 1 = 0 at this
  norm_num at this

/-! ## C63 homogeneous matrices -/

theorem C63_homogeneous [P : RealParams] (H : Mat 4 ℝ) (h : IsRigid H) :
    ∃ x, DQuat.new_from_homogeneous H = .ok x ∧ x.to_homogeneous = H ∧ x.IsMotion ∧
      x.normalized = true := by
  obtain ⟨hR, e⟩ := h.parts
  obtain ⟨h1, h2⟩ := C49_from_rotation _ hR
  have hn := Quat.normalize_unit _ h1
  obtain ⟨x, hx, hf, -, -, hm, -, -, -, -, hh, -⟩ := C61_rot_trans_partial
    ⟨(Quat.from_rotation (get_parts_raw H).1).q0, (Quat.from_rotation (get_parts_raw H).1).q, true⟩
    h1 (get_parts_raw H).2 V3.zero
  refine ⟨x, ?_, ?_, hm, hf⟩
  · unfold DQuat.new_from_homogeneous
    change (do
      let q ← expectSome "the quaternion it can't be zero!!!"
        (Quat.from_rotation (get_parts_raw H).1).normalize
      DQuat.new_from_rot_trans q (get_parts_raw H).2) = _
    rw [hn]
    exact hx
  · have e2 : (⟨(Quat.from_rotation (get_parts_raw H).1).q0,
        (Quat.from_rotation (get_parts_raw H).1).q, true⟩ : Quat ℝ).to_rotation
        = (Quat.from_rotation (get_parts_raw H).1).to_rotation := Quat.to_rotation_congr rfl
    rw [hh, e2, h2, ← e]

theorem C63_rotation_matrix [P : RealParams] (R : Mat 3 ℝ) (hR : IsRot R) (p : Vec 3 ℝ) :
    (DQuat.new_from_rotation_matrix R).IsMotion ∧
    (DQuat.new_from_rotation_matrix R).to_rotation_translation = (R, V3.zero) ∧
    (DQuat.new_from_rotation_matrix R).transform_point p = M33.mulVec R p := by
  obtain ⟨h1, h2⟩ := C49_from_rotation R hR
  have e : DQuat.new_from_rotation_matrix R = DQuat.new_from_rotation (Quat.from_rotation R) := rfl
  obtain ⟨-, h3, h4, h5⟩ := (C61_translation_rotation_partial (Quat.from_rotation R) V3.zero p).2
  rw [e]
  refine ⟨h5 h1, ?_, ?_⟩
  · refine Prod.ext ?_ h3
    exact h2
  · rw [h4, h2]

example [RealParams] : IsRigid (homogeneous_from_rotation (rotx 1) ⟨![1, 2, 3]⟩) :=
  isRigid_from (isRot_rotx _) _

/-! ## C64 inverse -/

theorem DQuat.Truthful.of_unflagged {R : Type} [CommRing R] {x : DQuat R} (h : x.normalized = false)
    (hr : x.q_real.normalized = false) : x.Truthful :=
  ⟨fun hf => (by rw [h] at hf; cases hf), fun hf => by rw [hr] at hf; cases hf⟩

/-- For dual quaternions whose flags are right: `inverse` panics exactly on an unflagged (nearly)
zero real part, and otherwise returns a two-sided inverse.

Missing: dual quaternions built by `new_from_rotation` and `new_from_rotation_matrix` from a
quaternion or matrix that is not a rotation (flag set without looking), see `C64_inverse_false`. -/
theorem C64_inverse_partial [P : RealParams] (x : DQuat ℝ) (h : x.Truthful) :
    (x.inverse = .error (.expect "the zero Quaternion cannot be inverted") ↔
      x.normalized = false ∧ x.q_real.normalized = false ∧ normSq x.q_real.toH < P.eps) ∧
    (x.inverse = .error (.expect "the zero Quaternion cannot be inverted") ∨
      ∃ y, x.inverse = .ok y ∧ x.toD * y.toD = 1 ∧ y.toD * x.toD = 1) := by
  obtain ⟨hn, hi⟩ := C45_inverse x.q_real
  unfold DQuat.inverse
  by_cases hf : x.normalized = true
  · simp only [hf, if_true]
    refine ⟨⟨fun h => (by cases h), fun h => by simp at h⟩, Or.inr ⟨_, rfl, ?_, ?_⟩⟩
    · rw [← DQuat.toD_mul]; exact (h.flag hf).mul_conj.1
    · rw [← DQuat.toD_mul]; exact (h.flag hf).mul_conj.2
  · simp only [hf, Bool.false_eq_true, if_false]
    cases hq : x.q_real.inverse with
    | none =>
      have := hn.1 hq
      exact ⟨⟨fun _ => ⟨by simp, this⟩, fun _ => rfl⟩, Or.inl rfl⟩
    | some p =>
      obtain ⟨h1, h2⟩ := hi (fun hf => h.real hf) p hq
      refine ⟨⟨fun h => (by cases h), fun h => ?_⟩, Or.inr ⟨_, rfl, ?_⟩⟩
      · have := hn.2 h.2
        rw [hq] at this; cases this
      · have e1 : (DQuat.new p ((p.neg.mul x.q_dual).mul p)).toD.fst = p.toH := DQuat.toD_fst _
        have e2 : (DQuat.new p ((p.neg.mul x.q_dual).mul p)).toD.snd
            = -(p.toH * x.q_dual.toH * p.toH) := by
          rw [DQuat.toD_snd]
          change ((p.neg.mul x.q_dual).mul p).toH = _
          rw [Quat.toH_mul, Quat.toH_mul, Quat.toH_neg, neg_mul, neg_mul]
        constructor
        · rw [TrivSqZeroExt.ext_iff, TrivSqZeroExt.fst_mul, TrivSqZeroExt.snd_mul, e1, e2,
            DQuat.toD_fst, DQuat.toD_snd]
          refine ⟨h1, ?_⟩
          change x.q_real.toH * -(p.toH * x.q_dual.toH * p.toH) + x.q_dual.toH * p.toH = 0
          rw [mul_neg, ← mul_assoc, ← mul_assoc, h1, one_mul, neg_add_cancel]
        · rw [TrivSqZeroExt.ext_iff, TrivSqZeroExt.fst_mul, TrivSqZeroExt.snd_mul, e1, e2,
            DQuat.toD_fst, DQuat.toD_snd]
          refine ⟨h2, ?_⟩
          change p.toH * x.q_dual.toH + -(p.toH * x.q_dual.toH * p.toH) * x.q_real.toH = 0
          rw [neg_mul, mul_assoc (p.toH * x.q_dual.toH), h2, mul_one, add_neg_cancel]

example : (DQuat.new (Quat.new_from 1 2 3 4) (Quat.new_from 5 6 7 8) : DQuat ℝ).Truthful :=
  DQuat.Truthful.of_unflagged rfl rfl

/-- The flags are right for everything the API returns, except the two constructors named in
`C64_inverse_partial`, for which the argument has to be a rotation, and `normalize`, which has to be
given orthogonal parts (C65). -/
theorem C64_flags_partial [P : RealParams] (z : DQuat ℝ) :
    (∀ a b : Quat ℝ, a.Truthful → (DQuat.new a b).Truthful) ∧
    (DQuat.zero : DQuat ℝ).Truthful ∧ (DQuat.one : DQuat ℝ).Truthful ∧
    (∀ v : Vec 3 ℝ, (DQuat.new_from_point v).Truthful) ∧
    (∀ v : Vec 3 ℝ, (DQuat.new_from_translation v).Truthful) ∧
    (∀ v w : Vec 4 ℝ, (DQuat.new_from_vecs v w).Truthful) ∧
    (∀ a : Vec 7 ℝ, (DQuat.new_from_array a).Truthful) ∧
    (∀ l m : Vec 3 ℝ, ∀ theta d, (DQuat.new_from_screw_parameters l m theta d).Truthful) ∧
    (∀ x y : DQuat ℝ, (x.add y).Truthful ∧ (x.sub y).Truthful ∧ (x.mul y).Truthful) ∧
    (∀ (x : DQuat ℝ) (c : ℝ), x.neg.Truthful ∧ (x.smul c).Truthful ∧ x.conj.Truthful ∧
      x.conj_combined.Truthful ∧ (x.pow c).Truthful) ∧
    (∀ x : DQuat ℝ, x.Truthful → x.conj_as_dual.Truthful) ∧
    (∀ x y : DQuat ℝ, x.div y = .ok z → z.Truthful) ∧
    (∀ x : DQuat ℝ, x.inverse = .ok z → z.Truthful) ∧
    (∀ (x y : DQuat ℝ) (c : ℝ), DQuat.screw_lerp x y c = .ok z → z.Truthful) ∧
    (∀ (q : Quat ℝ) (t : Vec 3 ℝ), q.Truthful → DQuat.new_from_rot_trans q t = .ok z → z.Truthful) ∧
    (∀ H : Mat 4 ℝ, DQuat.new_from_homogeneous H = .ok z → z.Truthful) ∧
    (∀ q : Quat ℝ, normSq q.toH = 1 → (DQuat.new_from_rotation q).Truthful) ∧
    (∀ R : Mat 3 ℝ, IsRot R → (DQuat.new_from_rotation_matrix R).Truthful) := by
  have hrt : ∀ (q : Quat ℝ) (t : Vec 3 ℝ), q.Truthful → DQuat.new_from_rot_trans q t = .ok z →
      z.Truthful := by
    intro q t hq h
    cases hn : q.normalize with
    | none =>
      unfold DQuat.new_from_rot_trans at h
      rw [hn] at h
      cases h
    | some p =>
      have hp : normSq p.toH = 1 := by
        by_cases hf : q.normalized = true
        · unfold Quat.normalize at hn
          simp only [hf, if_true] at hn
          rw [← Option.some.inj hn]
          exact hq hf
        · rw [Quaternion.normSq_eq_norm_mul_self, ((C46_normalize q (by simpa using hf)).2 p hn).1,
            mul_one]
      have e : DQuat.new_from_rot_trans q t = DQuat.new_from_rot_trans p t := by
        have hpf : p.normalized = true := by
          unfold Quat.normalize at hn
          by_cases hf : q.normalized = true
          · simp only [hf, if_true] at hn
            rw [← Option.some.inj hn]
            exact hf
          · simp only [hf, Bool.false_eq_true, if_false] at hn
            split at hn
            · rw [← Option.some.inj hn]
            · cases hn
        unfold DQuat.new_from_rot_trans
        rw [hn, Quat.normalize_unit p hp]
        have : p = ⟨p.q0, p.q, true⟩ := Quat.ext rfl rfl hpf
        rw [← this]
      obtain ⟨x, hx, -, ht, -⟩ := C61_rot_trans_partial p hp t V3.zero
      rw [e, hx] at h
      rwa [← Except.ok.inj h]
  refine ⟨?_, DQuat.Truthful.of_unflagged rfl rfl, ?_, ?_, ?_, ?_, ?_, ?_, ?_, ?_, ?_, ?_, ?_, ?_,
    hrt, ?_, ?_, ?_⟩
  · exact fun a b h => ⟨fun hf => (by cases hf), h⟩
  · have h1 : (DQuat.one : DQuat ℝ).IsMotion := ⟨by change normSq (1 : ℍ[ℝ]) = 1; rw [map_one], by
      change ((1 : ℍ[ℝ]) * star (0 : ℍ[ℝ])).re = 0
      rw [star_zero, mul_zero]; rfl⟩
    exact ⟨fun _ => h1, fun _ => h1.norm⟩
  · intro v
    have h1 : (DQuat.new_from_point v).IsMotion :=
      ⟨by change normSq (1 : ℍ[ℝ]) = 1; rw [map_one], by
        change ((1 : ℍ[ℝ]) * star v.toH).re = 0
        rw [one_mul, Quaternion.re_star]; rfl⟩
    exact ⟨fun _ => h1, fun _ => h1.norm⟩
  · intro v
    have h1 := (C61_translation_rotation_partial Quat.one v V3.zero).1.1
    exact ⟨fun _ => h1, fun _ => h1.norm⟩
  · exact fun v w => DQuat.Truthful.of_unflagged rfl rfl
  · exact fun v => DQuat.Truthful.of_unflagged rfl rfl
  · exact fun l m theta d => DQuat.Truthful.of_unflagged rfl rfl
  · exact fun x y => ⟨DQuat.Truthful.of_unflagged rfl rfl, DQuat.Truthful.of_unflagged rfl rfl,
      DQuat.Truthful.of_unflagged rfl rfl⟩
  · refine fun x c => ⟨DQuat.Truthful.of_unflagged rfl rfl, DQuat.Truthful.of_unflagged rfl rfl,
      DQuat.Truthful.of_unflagged rfl rfl, DQuat.Truthful.of_unflagged rfl rfl, ?_⟩
    unfold DQuat.pow
    dsimp only
    split
    · have h1 : (DQuat.new_from_point (V3.smul x.get_translation c)).IsMotion :=
        ⟨by change normSq (1 : ℍ[ℝ]) = 1; rw [map_one], by
          change ((1 : ℍ[ℝ]) * star (V3.smul x.get_translation c).toH).re = 0
          rw [one_mul, Quaternion.re_star]; rfl⟩
      exact ⟨fun _ => h1, fun _ => h1.norm⟩
    · exact DQuat.Truthful.of_unflagged rfl rfl
  · exact fun x h => ⟨fun hf => (by cases hf), h.real⟩
  · intro x y h
    unfold DQuat.div Quat.div at h
    dsimp only at h
    cases hq : (y.q_real.mul y.q_real).inverse with
    | none => rw [hq] at h; cases h
    | some p =>
      rw [hq] at h
      rw [← Except.ok.inj h]
      exact DQuat.Truthful.of_unflagged rfl rfl
  · intro x h
    unfold DQuat.inverse at h
    split at h
    · rw [← Except.ok.inj h]
      exact DQuat.Truthful.of_unflagged rfl rfl
    · cases hq : x.q_real.inverse with
      | none => rw [hq] at h; cases h
      | some p =>
        rw [hq] at h
        rw [← Except.ok.inj h]
        refine DQuat.Truthful.of_unflagged rfl ?_
        change p.normalized = false
        unfold Quat.inverse at hq
        dsimp only at hq
        split at hq
        · split at hq
          · rw [← Option.some.inj hq]; rfl
          · cases hq
        · rw [← Option.some.inj hq]; rfl
  · intro x y c h
    unfold DQuat.screw_lerp at h
    dsimp only at h
    generalize (if ROrd.lt (x.real.mul y.real).real 0 then
      { x with q_real := x.real.smul (-1) } else x) = s at h
    cases hs : s.inverse with
    | error e =>
      rw [hs] at h; cases h
    | ok i =>
      rw [hs] at h
      rw [← Except.ok.inj h]
      exact DQuat.Truthful.of_unflagged rfl rfl
  · intro H h
    unfold DQuat.new_from_homogeneous at h
    generalize (get_parts_raw H) = rp at h
    obtain ⟨r, p⟩ := rp
    change (do
      let q ← expectSome "the quaternion it can't be zero!!!" (Quat.from_rotation r).normalize
      DQuat.new_from_rot_trans q p) = _ at h
    cases hn : (Quat.from_rotation r).normalize with
    | none => rw [hn] at h; cases h
    | some q =>
      rw [hn] at h
      have hf : (Quat.from_rotation r).normalized = false := by
        unfold Quat.from_rotation
        dsimp only
        split
        · split <;> rfl
        · split <;> rfl
      exact hrt q p (fun _ => by
        rw [Quaternion.normSq_eq_norm_mul_self, ((C46_normalize _ hf).2 q hn).1, mul_one]) h
  · intro q hq
    have := (C61_translation_rotation_partial q V3.zero V3.zero).2.2.2.2 hq
    exact ⟨fun _ => this, fun _ => hq⟩
  · intro R hR
    have := (C63_rotation_matrix R hR V3.zero).1
    exact ⟨fun _ => this, fun _ => this.norm⟩

/-- `new_from_rotation` of the quaternion 2: the real part is not nearly zero, `inverse` returns a
value, and that is not the inverse. -/
theorem C64_inverse_false [P : RealParams] : ∃ (q : Quat ℝ) (y : DQuat ℝ), normSq q.toH = 4 ∧
    (DQuat.new_from_rotation q).inverse = .ok y ∧ (DQuat.new_from_rotation q).toD * y.toD ≠ 1 := by
  refine ⟨Quat.new_from 2 0 0 0, _, ?_, rfl, fun h => ?_⟩
  · rw [Quaternion.normSq_def']
    change (2 : ℝ) ^ 2 + 0 ^ 2 + 0 ^ 2 + 0 ^ 2 = 4
    norm_num
  · rw [← DQuat.toD_mul, TrivSqZeroExt.ext_iff, DQuat.toD_fst] at h
    have h0 := congrArg (fun x : ℍ[ℝ] => x.re) h.1
    change (2 : ℝ) * 2 - (0 * -0 + 0 * -0 + 0 * -0) = 1 at h0
    norm_num at h0

/-! ## C65 normalize -/

/-- Missing: the result is a unit dual quaternion; it is one exactly when the parts of the argument
are orthogonal already. See `C65_normalize_false`. -/
theorem C65_normalize_partial [P : RealParams] (x : DQuat ℝ) (hf : x.normalized = false) :
    (x.normalize = none ↔ ‖x.q_real.toH‖ < P.eps) ∧
    ∀ y, x.normalize = some y → y.normalized = true ∧ normSq y.q_real.toH = 1 ∧
      y.toD = ‖x.q_real.toH‖⁻¹ • x.toD ∧
      (y.IsMotion ↔ (x.q_real.toH * star x.q_dual.toH).re = 0) := by
  have he := P.eps_pos
  have hn : x.q_real.norm2 = ‖x.q_real.toH‖ := by
    rw [Quat.norm2_eq, Quaternion.normSq_eq_norm_mul_self, Real.sqrt_mul_self (norm_nonneg _)]
  unfold DQuat.normalize
  simp only [hf, Bool.false_eq_true, if_false, hn, nearly_zero_eq, abs_norm]
  by_cases h : ‖x.q_real.toH‖ < P.eps
  · simp [h]
  · simp only [h, decide_false, Bool.not_false, if_true]
    have h0 : ‖x.q_real.toH‖ ≠ 0 := by linarith
    have e1 : (x.q_real.sdiv ‖x.q_real.toH‖).toH = ‖x.q_real.toH‖⁻¹ • x.q_real.toH :=
      Quat.toH_sdiv _ _
    have e2 : (x.q_dual.sdiv ‖x.q_real.toH‖).toH = ‖x.q_real.toH‖⁻¹ • x.q_dual.toH :=
      Quat.toH_sdiv _ _
    have e3 : normSq (x.q_real.sdiv ‖x.q_real.toH‖).toH = 1 := by
      rw [e1, Quaternion.normSq_smul, Quaternion.normSq_eq_norm_mul_self]
      field_simp
    refine ⟨⟨fun h => (by cases h), fun h => h.elim⟩, fun y hy => ?_⟩
    obtain rfl := Option.some.inj hy
    refine ⟨rfl, e3, ?_, fun hm => ?_, fun ho => ⟨e3, ?_⟩⟩
    · rw [DQuat.toD_iff, TrivSqZeroExt.fst_smul, TrivSqZeroExt.snd_smul, DQuat.toD_fst,
        DQuat.toD_snd]
      exact ⟨e1, e2⟩
    · have := hm.orth
      change ((x.q_real.sdiv ‖x.q_real.toH‖).toH * star (x.q_dual.sdiv ‖x.q_real.toH‖).toH).re = 0
        at this
      rw [e1, e2, Quaternion.star_smul, smul_mul_smul_comm, Quaternion.re_smul, smul_eq_mul]
        at this
      exact (mul_eq_zero.1 this).resolve_left (mul_ne_zero (inv_ne_zero h0) (inv_ne_zero h0))
    · change ((x.q_real.sdiv ‖x.q_real.toH‖).toH * star (x.q_dual.sdiv ‖x.q_real.toH‖).toH).re = 0
      rw [e1, e2, Quaternion.star_smul, smul_mul_smul_comm, Quaternion.re_smul, smul_eq_mul, ho,
        mul_zero]

theorem C65_flagged [P : RealParams] (x : DQuat ℝ) (hf : x.normalized = true) :
    x.normalize = some x := by
  unfold DQuat.normalize
  rw [if_pos hf]

/-- `(2 + ε) ` normalizes to `1 + ε/2`, whose inverse is not its conjugate although the flag says so. -/
theorem C65_normalize_false [P : RealParams] :
    ∃ x y : DQuat ℝ, x.normalize = some y ∧ y.normalized = true ∧ ¬ y.IsMotion ∧
      (y.mul y.conj).toD ≠ 1 := by
  obtain ⟨x, hx⟩ : ∃ x : DQuat ℝ, x = DQuat.new (Quat.new_from 2 0 0 0) (Quat.new_from 1 0 0 0) :=
    ⟨_, rfl⟩
  have he1 := P.eps_le
  have hq : x.q_real.toH = ((2 : ℝ) : ℍ[ℝ]) := by rw [hx]; rfl
  have hd : x.q_dual.toH = ((1 : ℝ) : ℍ[ℝ]) := by rw [hx]; rfl
  have hnorm : ‖x.q_real.toH‖ = 2 := by
    rw [hq, Quaternion.norm_coe]; norm_num
  obtain ⟨h1, h2⟩ := C65_normalize_partial x (by rw [hx]; rfl)
  cases hn : x.normalize with
  | none =>
    have := h1.1 hn
    rw [hnorm] at this
    norm_num at he1
    linarith
  | some y =>
    obtain ⟨hf, hu, hy, hm⟩ := h2 y hn
    have hno : ¬ y.IsMotion := by
      rw [hm, hq, hd, Quaternion.star_coe, ← Quaternion.coe_mul, Quaternion.re_coe]
      norm_num
    refine ⟨x, y, hn, hf, hno, fun h => hno ⟨hu, ?_⟩⟩
    rw [DQuat.toD_iff] at h
    have h2 := h.2
    change ((y.q_real.mul y.q_dual.conj).add (y.q_dual.mul y.q_real.conj)).toH = 0 at h2
    rw [Quat.toH_add, Quat.toH_mul, Quat.toH_mul, Quat.toH_conj, Quat.toH_conj] at h2
    have h3 := congrArg (fun x : ℍ[ℝ] => x.re) h2
    simp only [Quaternion.re_add, Quaternion.re_mul, Quaternion.re_star, Quaternion.imI_star,
      Quaternion.imJ_star, Quaternion.imK_star, Quaternion.re_zero] at h3 ⊢
    linarith

example : (DQuat.new (Quat.new_from 2 0 0 0) (Quat.new_from 0 1 2 3) : DQuat ℝ).normalized = false :=
  rfl

/-! ## C66 division -/

theorem DQuat.div_form [P : RealParams] (a b : DQuat ℝ) :
    (a.div b = .error .unwrapNone ↔ normSq b.q_real.toH ^ 2 < P.eps) ∧
    (a.div b = .error .unwrapNone ∨ ∃ c, a.div b = .ok c) ∧
    ∀ c, a.div b = .ok c → ∃ p : ℍ[ℝ], b.q_real.toH * b.q_real.toH * p = 1 ∧
      c.q_real.toH = a.q_real.toH * b.q_real.toH * p ∧
      c.q_dual.toH = (b.q_real.toH * a.q_dual.toH - a.q_real.toH * b.q_dual.toH) * p := by
  obtain ⟨hn, hi⟩ := C45_inverse (b.q_real.mul b.q_real)
  have e : normSq (b.q_real.mul b.q_real).toH = normSq b.q_real.toH ^ 2 := by
    rw [Quat.toH_mul, map_mul, sq]
  rw [e] at hn
  have hn : (b.q_real.mul b.q_real).inverse = none ↔ normSq b.q_real.toH ^ 2 < P.eps :=
    hn.trans ⟨fun h => h.2, fun h => ⟨rfl, h⟩⟩
  unfold DQuat.div Quat.div
  dsimp only
  rw [← hn]
  cases hq : (b.q_real.mul b.q_real).inverse with
  | none => exact ⟨⟨fun _ => rfl, fun _ => rfl⟩, Or.inl rfl, fun c h => by cases h⟩
  | some p =>
    refine ⟨⟨fun h => (by cases h), fun h => (by cases h)⟩, Or.inr ⟨_, rfl⟩, fun c h => ⟨p.toH, ?_, ?_, ?_⟩⟩
    · have := (hi (fun h => by cases h) p hq).1
      rwa [Quat.toH_mul] at this
    · rw [← Except.ok.inj h]
      change ((a.q_real.mul b.q_real).mul p).toH = _
      rw [Quat.toH_mul, Quat.toH_mul]
    · rw [← Except.ok.inj h]
      change (((b.q_real.mul a.q_dual).sub (a.q_real.mul b.q_dual)).mul p).toH = _
      rw [Quat.toH_mul, Quat.toH_sub, Quat.toH_mul, Quat.toH_mul]

theorem C66_div_self [P : RealParams] (a : DQuat ℝ) :
    (a.div a = .error .unwrapNone ↔ normSq a.q_real.toH ^ 2 < P.eps) ∧
    ∀ c, a.div a = .ok c → c.toD = 1 := by
  obtain ⟨h1, -, h2⟩ := DQuat.div_form a a
  refine ⟨h1, fun c hc => ?_⟩
  obtain ⟨p, hp, hr, hd⟩ := h2 c hc
  rw [DQuat.toD_iff, hr, hd, hp]
  refine ⟨rfl, ?_⟩
  rw [sub_self, zero_mul]
  rfl

/-- Division panics exactly for a (nearly) zero real part of the divisor; the real part of `(a*b)/b`
is that of `a`, and all of it is `a` when the real part of `b` commutes with both parts of `a`.

Missing: the dual part in general, see `C66_div_false`. -/
theorem C66_div_partial [P : RealParams] (a b : DQuat ℝ) :
    (a.div b = .error .unwrapNone ↔ normSq b.q_real.toH ^ 2 < P.eps) ∧
    (a.div b = .error .unwrapNone ∨ ∃ c, a.div b = .ok c) ∧
    ∀ c, (a.mul b).div b = .ok c → c.q_real.toH = a.q_real.toH ∧
      (Commute b.q_real.toH a.q_real.toH → Commute b.q_real.toH a.q_dual.toH → c.toD = a.toD) := by
  obtain ⟨h1, h2, -⟩ := DQuat.div_form a b
  obtain ⟨-, -, h3⟩ := DQuat.div_form (a.mul b) b
  refine ⟨h1, h2, fun c hc => ?_⟩
  obtain ⟨p, hp, hr, hd⟩ := h3 c hc
  have er : (a.mul b).q_real.toH = a.q_real.toH * b.q_real.toH := Quat.toH_mul _ _
  have ed : (a.mul b).q_dual.toH = a.q_real.toH * b.q_dual.toH + a.q_dual.toH * b.q_real.toH := by
    change ((a.q_real.mul b.q_dual).add (a.q_dual.mul b.q_real)).toH = _
    rw [Quat.toH_add, Quat.toH_mul, Quat.toH_mul]
  have hr2 : c.q_real.toH = a.q_real.toH := by
    rw [hr, er, mul_assoc a.q_real.toH, mul_assoc, hp, mul_one]
  refine ⟨hr2, fun k1 k2 => ?_⟩
  rw [DQuat.toD_inj]
  refine ⟨hr2, ?_⟩
  rw [hd, er, ed, mul_add, ← mul_assoc, k1.eq, ← mul_assoc b.q_real.toH, k2.eq, add_sub_cancel_left,
    mul_assoc a.q_dual.toH, mul_assoc, hp, mul_one]

/-- `a = ε i`, `b = j`: `(a*b)/b = -a`. -/
theorem C66_div_false [P : RealParams] :
    ∃ a b c : DQuat ℝ, normSq b.q_real.toH = 1 ∧ (a.mul b).div b = .ok c ∧ c.toD ≠ a.toD := by
  obtain ⟨a, ha⟩ : ∃ a : DQuat ℝ, a = DQuat.new Quat.zero (Quat.new_from 0 1 0 0) := ⟨_, rfl⟩
  obtain ⟨b, hb⟩ : ∃ b : DQuat ℝ, b = DQuat.new (Quat.new_from 0 0 1 0) Quat.zero := ⟨_, rfl⟩
  have he1 := P.eps_le
  have hbn : normSq b.q_real.toH = 1 := by
    rw [hb, Quaternion.normSq_def']
    change (0 : ℝ) ^ 2 + 0 ^ 2 + 1 ^ 2 + 0 ^ 2 = 1
    norm_num
  obtain ⟨h1, h2, h3⟩ := DQuat.div_form (a.mul b) b
  rcases h2 with h2 | ⟨c, hc⟩
  · have := h1.1 h2
    rw [hbn] at this
    norm_num at this he1
    linarith
  refine ⟨a, b, c, hbn, hc, fun h => ?_⟩
  rw [DQuat.toD_inj] at h
  obtain ⟨p, hp, -, hd⟩ := h3 c hc
  have hbb : b.q_real.toH * b.q_real.toH = -1 := by
    rw [← Quat.toH_mul, hb, H_ext_iff]
    refine ⟨?_, ?_, ?_, ?_⟩
    · change (0 : ℝ) * 0 - (0 * 0 + 1 * 1 + 0 * 0) = -1
      norm_num
    all_goals
      simp only [DQuat.new, Quat.new_from, Quat.toH_imI, Quat.toH_imJ, Quat.toH_imK, Quat.mul_qi,
        Quat.mul_qj, Quat.mul_qk, Quaternion.imI_neg, Quaternion.imJ_neg, Quaternion.imK_neg,
        Quaternion.imI_one, Quaternion.imJ_one, Quaternion.imK_one, Matrix.cons_val_zero,
        Matrix.cons_val_one, Matrix.cons_val]
      norm_num
  have hp1 : p = -1 := by
    rw [hbb, neg_one_mul] at hp
    rw [← hp, neg_neg]
  have har : (a.mul b).q_real.toH = 0 := by
    change (a.q_real.mul b.q_real).toH = 0
    rw [Quat.toH_mul, ha]
    change (Quat.zero : Quat ℝ).toH * _ = 0
    rw [Quat.toH_zero, zero_mul]
  have had : (a.mul b).q_dual.toH = a.q_dual.toH * b.q_real.toH := by
    change ((a.q_real.mul b.q_dual).add (a.q_dual.mul b.q_real)).toH = _
    rw [Quat.toH_add, Quat.toH_mul, Quat.toH_mul, ha]
    change (Quat.zero : Quat ℝ).toH * _ + _ = _
    rw [Quat.toH_zero, zero_mul, zero_add]
  have hdi := h.2
  rw [hd, hp1, har, had, zero_mul, sub_zero] at hdi
  have h0 := congrArg (fun x : ℍ[ℝ] => x.imI) hdi
  have b0 : b.q_real.toH.re = 0 := by rw [hb]; rfl
  have b1 : b.q_real.toH.imI = 0 := by rw [hb]; rfl
  have b2 : b.q_real.toH.imJ = 1 := by rw [hb]; rfl
  have b3 : b.q_real.toH.imK = 0 := by rw [hb]; rfl
  have a0 : a.q_dual.toH.re = 0 := by rw [ha]; rfl
  have a1 : a.q_dual.toH.imI = 1 := by rw [ha]; rfl
  have a2 : a.q_dual.toH.imJ = 0 := by rw [ha]; rfl
  have a3 : a.q_dual.toH.imK = 0 := by rw [ha]; rfl
  simp only [mul_neg, mul_one, Quaternion.imI_neg, Quaternion.re_mul, Quaternion.imI_mul,
    Quaternion.imJ_mul, Quaternion.imK_mul, b0, b1, b2, b3, a0, a1, a2, a3] at h0
  norm_num at h0

/-- The real part of the divisor commutes with everything when it is a real number. -/
example [RealParams] : ∃ c, ((DQuat.new (Quat.new_from 1 2 3 4) (Quat.new_from 5 6 7 8) : DQuat ℝ).mul
    (DQuat.new (Quat.new_from 2 0 0 0) (Quat.new_from 1 1 1 1))).div
    (DQuat.new (Quat.new_from 2 0 0 0) (Quat.new_from 1 1 1 1)) = .ok c := by
  obtain ⟨h1, h2, -⟩ := C66_div_partial
    ((DQuat.new (Quat.new_from 1 2 3 4) (Quat.new_from 5 6 7 8) : DQuat ℝ).mul
      (DQuat.new (Quat.new_from 2 0 0 0) (Quat.new_from 1 1 1 1)))
    (DQuat.new (Quat.new_from 2 0 0 0) (Quat.new_from 1 1 1 1))
  rcases h2 with h2 | h2
  · have := h1.1 h2
    have he1 := RealParams.eps_le
    rw [Quaternion.normSq_def'] at this
    change ((2 : ℝ) ^ 2 + 0 ^ 2 + 0 ^ 2 + 0 ^ 2) ^ 2 < _ at this
    norm_num at this he1
    linarith
  · exact h2

end StaticMath
