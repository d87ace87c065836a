import Verif.Lemmas.Entries
import Verif.Lemmas.Real3
import Verif.Spec.Rigid
import Verif.Props.Inverse
import Verif.Props.Vector
import Verif.Props.Slices

/-!
# C72-C77, C84-C86, C88: elementary rotations, homogeneous transformations, hat and vee maps

Rotations are the elements of Mathlib's `Matrix.specialOrthogonalGroup (Fin 3) ℝ` (`IsRot`), rigid
transformations are 4x4 matrices with a rotation block and last row `0 0 0 1` (`IsRigid`).
-/

namespace StaticMath

/-! ## C72 Elementary rotations -/

theorem C72_rot2 [RealParams] (a b : ℝ) :
    (rot2 a).toM ∈ Matrix.specialOrthogonalGroup (Fin 2) ℝ ∧
    M22.mul (rot2 a) (rot2 b) = rot2 (a + b) ∧
    rot2 (0 : ℝ) = M22.one ∧
    rot2 (-a) = M22.transpose (rot2 a) ∧
    M22.mulVec (rot2 a) ⟨![1, 0]⟩ = ⟨![Real.cos a, Real.sin a]⟩ := by
  have h := Real.sin_sq_add_cos_sq a
  refine ⟨?_, ?_, ?_, ?_, ?_⟩
  · rw [Matrix.mem_specialOrthogonalGroup_iff, Matrix.mem_orthogonalGroup_iff, Matrix.det_fin_two]
    constructor
    · change (rot2 a).toM * (rot2 a).toM.transpose = 1
      rw [← M22.toM_transpose, ← M22.toM_mul, ← M22.toM_one, Mat.toM_inj]
      refine Mat.ext2 ?_ ?_ ?_ ?_ <;> simp only [entries, rfloat_sin, rfloat_cos] <;> linarith
    · change Real.cos a * Real.cos a - -Real.sin a * Real.sin a = 1
      linarith
  · refine Mat.ext2 ?_ ?_ ?_ ?_ <;>
      simp only [entries, rfloat_sin, rfloat_cos, Real.sin_add, Real.cos_add] <;> ring
  · refine Mat.ext2 ?_ ?_ ?_ ?_ <;>
      simp only [entries, rfloat_sin, rfloat_cos, Real.sin_zero, Real.cos_zero, neg_zero]
  · refine Mat.ext2 ?_ ?_ ?_ ?_ <;>
      simp only [entries, rfloat_sin, rfloat_cos, Real.sin_neg, Real.cos_neg, neg_neg]
  · refine Vec.ext (funext fun i => ?_)
    fin_cases i
    · change Real.cos a * 1 + -Real.sin a * 0 = Real.cos a
      ring
    · change Real.sin a * 1 + Real.cos a * 0 = Real.sin a
      ring

theorem isRot_of (A : Mat 3 ℝ)
    (r00 : A 0 0 * A 0 0 + A 0 1 * A 0 1 + A 0 2 * A 0 2 = 1)
    (r11 : A 1 0 * A 1 0 + A 1 1 * A 1 1 + A 1 2 * A 1 2 = 1)
    (r22 : A 2 0 * A 2 0 + A 2 1 * A 2 1 + A 2 2 * A 2 2 = 1)
    (r01 : A 0 0 * A 1 0 + A 0 1 * A 1 1 + A 0 2 * A 1 2 = 0)
    (r02 : A 0 0 * A 2 0 + A 0 1 * A 2 1 + A 0 2 * A 2 2 = 0)
    (r12 : A 1 0 * A 2 0 + A 1 1 * A 2 1 + A 1 2 * A 2 2 = 0)
    (hd : A 0 0 * (A 1 1 * A 2 2 - A 1 2 * A 2 1) - A 0 1 * (A 1 0 * A 2 2 - A 1 2 * A 2 0)
      + A 0 2 * (A 1 0 * A 2 1 - A 1 1 * A 2 0) = 1) : IsRot A :=
  (mem_SO3_iff _).2 (orth3_of A r00 r11 r22 r01 r02 r12 hd)

theorem isRot_mul {A B : Mat 3 ℝ} (hA : IsRot A) (hB : IsRot B) : IsRot (M33.mul A B) := by
  rw [IsRot, M33.toM_mul]
  exact mul_mem hA hB

theorem isRot_transpose {A : Mat 3 ℝ} (hA : IsRot A) : IsRot (M33.transpose A) := by
  rw [IsRot, M33.toM_transpose, mem_SO3_iff, Matrix.transpose_transpose, Matrix.det_transpose]
  have := (mem_SO3_iff _).1 hA
  exact ⟨mul_eq_one_comm.1 this.1, this.2⟩

theorem isRot_rotx [RealParams] (a : ℝ) : IsRot (rotx a) := by
  have h := Real.sin_sq_add_cos_sq a
  refine isRot_of _ ?_ ?_ ?_ ?_ ?_ ?_ ?_ <;> simp only [entries, rfloat_sin, rfloat_cos] <;> linarith

theorem isRot_roty [RealParams] (a : ℝ) : IsRot (roty a) := by
  have h := Real.sin_sq_add_cos_sq a
  refine isRot_of _ ?_ ?_ ?_ ?_ ?_ ?_ ?_ <;> simp only [entries, rfloat_sin, rfloat_cos] <;> linarith

theorem isRot_rotz [RealParams] (a : ℝ) : IsRot (rotz a) := by
  have h := Real.sin_sq_add_cos_sq a
  refine isRot_of _ ?_ ?_ ?_ ?_ ?_ ?_ ?_ <;> simp only [entries, rfloat_sin, rfloat_cos] <;> linarith

/-- x stays fixed, y turns towards z. -/
theorem C72_rotx [RealParams] (a b : ℝ) :
    IsRot (rotx a) ∧ M33.mul (rotx a) (rotx b) = rotx (a + b) ∧ rotx (0 : ℝ) = M33.one ∧
    rotx (-a) = M33.transpose (rotx a) ∧
    M33.mulVec (rotx a) ⟨![1, 0, 0]⟩ = ⟨![1, 0, 0]⟩ ∧
    M33.mulVec (rotx a) ⟨![0, 1, 0]⟩ = ⟨![0, Real.cos a, Real.sin a]⟩ := by
  refine ⟨isRot_rotx a, ?_, ?_, ?_, ?_, ?_⟩
  · refine Mat.ext3 ?_ ?_ ?_ ?_ ?_ ?_ ?_ ?_ ?_ <;>
      simp only [entries, rfloat_sin, rfloat_cos, Real.sin_add, Real.cos_add] <;> ring
  · refine Mat.ext3 ?_ ?_ ?_ ?_ ?_ ?_ ?_ ?_ ?_ <;>
      simp only [entries, rfloat_sin, rfloat_cos, Real.sin_zero, Real.cos_zero, neg_zero]
  · refine Mat.ext3 ?_ ?_ ?_ ?_ ?_ ?_ ?_ ?_ ?_ <;>
      simp only [entries, rfloat_sin, rfloat_cos, Real.sin_neg, Real.cos_neg, neg_neg]
  · refine Vec.ext3 ?_ ?_ ?_ <;> simp only [entries, rfloat_sin, rfloat_cos] <;> ring
  · refine Vec.ext3 ?_ ?_ ?_ <;> simp only [entries, rfloat_sin, rfloat_cos] <;> ring

/-- y stays fixed, z turns towards x. -/
theorem C72_roty [RealParams] (a b : ℝ) :
    IsRot (roty a) ∧ M33.mul (roty a) (roty b) = roty (a + b) ∧ roty (0 : ℝ) = M33.one ∧
    roty (-a) = M33.transpose (roty a) ∧
    M33.mulVec (roty a) ⟨![0, 1, 0]⟩ = ⟨![0, 1, 0]⟩ ∧
    M33.mulVec (roty a) ⟨![0, 0, 1]⟩ = ⟨![Real.sin a, 0, Real.cos a]⟩ := by
  refine ⟨isRot_roty a, ?_, ?_, ?_, ?_, ?_⟩
  · refine Mat.ext3 ?_ ?_ ?_ ?_ ?_ ?_ ?_ ?_ ?_ <;>
      simp only [entries, rfloat_sin, rfloat_cos, Real.sin_add, Real.cos_add] <;> ring
  · refine Mat.ext3 ?_ ?_ ?_ ?_ ?_ ?_ ?_ ?_ ?_ <;>
      simp only [entries, rfloat_sin, rfloat_cos, Real.sin_zero, Real.cos_zero, neg_zero]
  · refine Mat.ext3 ?_ ?_ ?_ ?_ ?_ ?_ ?_ ?_ ?_ <;>
      simp only [entries, rfloat_sin, rfloat_cos, Real.sin_neg, Real.cos_neg, neg_neg]
  · refine Vec.ext3 ?_ ?_ ?_ <;> simp only [entries, rfloat_sin, rfloat_cos] <;> ring
  · refine Vec.ext3 ?_ ?_ ?_ <;> simp only [entries, rfloat_sin, rfloat_cos] <;> ring

/-- z stays fixed, x turns towards y. -/
theorem C72_rotz [RealParams] (a b : ℝ) :
    IsRot (rotz a) ∧ M33.mul (rotz a) (rotz b) = rotz (a + b) ∧ rotz (0 : ℝ) = M33.one ∧
    rotz (-a) = M33.transpose (rotz a) ∧
    M33.mulVec (rotz a) ⟨![0, 0, 1]⟩ = ⟨![0, 0, 1]⟩ ∧
    M33.mulVec (rotz a) ⟨![1, 0, 0]⟩ = ⟨![Real.cos a, Real.sin a, 0]⟩ := by
  refine ⟨isRot_rotz a, ?_, ?_, ?_, ?_, ?_⟩
  · refine Mat.ext3 ?_ ?_ ?_ ?_ ?_ ?_ ?_ ?_ ?_ <;>
      simp only [entries, rfloat_sin, rfloat_cos, Real.sin_add, Real.cos_add] <;> ring
  · refine Mat.ext3 ?_ ?_ ?_ ?_ ?_ ?_ ?_ ?_ ?_ <;>
      simp only [entries, rfloat_sin, rfloat_cos, Real.sin_zero, Real.cos_zero, neg_zero]
  · refine Mat.ext3 ?_ ?_ ?_ ?_ ?_ ?_ ?_ ?_ ?_ <;>
      simp only [entries, rfloat_sin, rfloat_cos, Real.sin_neg, Real.cos_neg, neg_neg]
  · refine Vec.ext3 ?_ ?_ ?_ <;> simp only [entries, rfloat_sin, rfloat_cos] <;> ring
  · refine Vec.ext3 ?_ ?_ ?_ <;> simp only [entries, rfloat_sin, rfloat_cos] <;> ring

/-- A quarter turn about z takes x to y. -/
example [RealParams] : M33.mulVec (rotz (Real.pi / 2)) ⟨![1, 0, 0]⟩ = ⟨![0, 1, 0]⟩ := by
  rw [(C72_rotz (Real.pi / 2) 0).2.2.2.2.2, Real.cos_pi_div_two, Real.sin_pi_div_two]

/-! ## C73 Euler sequences -/

/-- The three elementary rotations named by a sequence, in order. -/
noncomputable def EulerSeq.rots [RealParams] :
    EulerSeq → (ℝ → Mat 3 ℝ) × (ℝ → Mat 3 ℝ) × (ℝ → Mat 3 ℝ)
  | .XYX => (rotx, roty, rotx)
  | .XYZ => (rotx, roty, rotz)
  | .XZX => (rotx, rotz, rotx)
  | .XZY => (rotx, rotz, roty)
  | .YXY => (roty, rotx, roty)
  | .YXZ => (roty, rotx, rotz)
  | .YZX => (roty, rotz, rotx)
  | .YZY => (roty, rotz, roty)
  | .ZXY => (rotz, rotx, roty)
  | .ZXZ => (rotz, rotx, rotz)

/-- Missing with respect to C73: the sequence YZX, for which the claim is false. The result is a
rotation for every sequence. -/
theorem C73_euler_to_rotation_partial [RealParams] (y p r : ℝ) :
    (∀ s : EulerSeq, s ≠ .YZX → euler_to_rotation y p r (some s) =
      M33.mul (M33.mul (s.rots.1 y) (s.rots.2.1 p)) (s.rots.2.2 r)) ∧
    euler_to_rotation y p r none = M33.mul (M33.mul (rotz y) (roty p)) (rotx r) ∧
    ∀ s, IsRot (euler_to_rotation y p r s) := by
  refine ⟨fun s hs => ?_, rfl, fun s => ?_⟩
  · cases s <;> first | rfl | exact absurd rfl hs
  · rcases s with - | s
    · exact isRot_mul (isRot_mul (isRot_rotz y) (isRot_roty p)) (isRot_rotx r)
    · cases s <;> simp only [euler_to_rotation] <;> refine isRot_mul (isRot_mul ?_ ?_) ?_ <;>
        with_reducible first | exact isRot_rotx _ | exact isRot_roty _ | exact isRot_rotz _

/-- `YZX` is computed as `XYZ`: with angles `π, 0, 0` the result turns about x, not about y. -/
theorem C73_euler_to_rotation_false [RealParams] :
    ∃ y p r : ℝ, euler_to_rotation y p r (some .YZX) ≠ M33.mul (M33.mul (roty y) (rotz p)) (rotx r) := by
  refine ⟨Real.pi, 0, 0, fun h => ?_⟩
  have h0 := congrArg (fun A : Mat 3 ℝ => A 0 0) h
  change M33.mul (M33.mul (rotx Real.pi) (roty 0)) (rotz 0) 0 0 =
    M33.mul (M33.mul (roty Real.pi) (rotz 0)) (rotx 0) 0 0 at h0
  simp only [entries, rfloat_sin, rfloat_cos, Real.cos_pi, Real.sin_pi, Real.cos_zero,
    Real.sin_zero] at h0
  norm_num at h0

/-! ## C74 Homogeneous transformations -/

theorem C74_homogeneous {R : Type} [CommRing R] (r1 r2 : Mat 3 R) (p1 p2 x : Vec 3 R) :
    get_parts_raw (homogeneous_from_rotation r1 p1) = (r1, p1) ∧
    M44.mul (homogeneous_from_rotation r1 p1) (homogeneous_from_rotation r2 p2) =
      homogeneous_from_rotation (M33.mul r1 r2) (V3.add (M33.mulVec r1 p2) p1) ∧
    M44.mulVec (homogeneous_from_rotation r1 p1) x.point =
      (V3.add (M33.mulVec r1 x) p1).point ∧
    homogeneous_from_rotation (M33.one : Mat 3 R) V3.zero = M44.one ∧
    se3_get_parts (se3_from_parts r1 p1) = (r1, p1) := by
  refine ⟨?_, ?_, ?_, ?_, ?_⟩
  · refine Prod.ext (Mat.ext3 ?_ ?_ ?_ ?_ ?_ ?_ ?_ ?_ ?_) (Vec.ext3 ?_ ?_ ?_) <;> rfl
  · refine Mat.ext4 ?_ ?_ ?_ ?_ ?_ ?_ ?_ ?_ ?_ ?_ ?_ ?_ ?_ ?_ ?_ ?_ <;>
      simp only [entries] <;> ring
  · refine Vec.ext4 ?_ ?_ ?_ ?_ <;> simp only [entries, Vec.point] <;> ring
  · refine Mat.ext4 ?_ ?_ ?_ ?_ ?_ ?_ ?_ ?_ ?_ ?_ ?_ ?_ ?_ ?_ ?_ ?_ <;> rfl
  · refine Prod.ext (Mat.ext3 ?_ ?_ ?_ ?_ ?_ ?_ ?_ ?_ ?_) (Vec.ext3 ?_ ?_ ?_) <;> rfl

/-- The other direction of the round trips, and the quaternion version. -/
theorem C74_get_parts {R : Type} [CommRing R] (H X : Mat 4 R)
    (hH : ∀ j, H 3 j = if j = 3 then 1 else 0) (hX : ∀ j, X 3 j = 0) (q : Quat R) (p : Vec 3 R) :
    homogeneous_from_rotation (get_parts_raw H).1 (get_parts_raw H).2 = H ∧
    se3_from_parts (se3_get_parts X).1 (se3_get_parts X).2 = X ∧
    homogeneous_from_quaternion q p = homogeneous_from_rotation q.to_rotation p := by
  refine ⟨?_, ?_, rfl⟩
  · refine Mat.ext4 ?_ ?_ ?_ ?_ ?_ ?_ ?_ ?_ ?_ ?_ ?_ ?_ ?_ ?_ ?_ ?_ <;>
      first | rfl | exact (hH 0).symm | exact (hH 1).symm | exact (hH 2).symm | exact (hH 3).symm
  · refine Mat.ext4 ?_ ?_ ?_ ?_ ?_ ?_ ?_ ?_ ?_ ?_ ?_ ?_ ?_ ?_ ?_ ?_ <;>
      first | rfl | exact (hX _).symm

/-- A matrix that meets the hypothesis on `H`. -/
example : ∀ j, (homogeneous_from_rotation ⟨![![0, -1, 0], ![1, 0, 0], ![0, 0, 1]]⟩ ⟨![1, 2, 3]⟩ :
    Mat 4 ℤ) 3 j = if j = 3 then 1 else 0 := by decide

/-! ## C75, C76 Inverse of a rigid transformation -/

theorem isRigid_from {R : Mat 3 ℝ} (hR : IsRot R) (p : Vec 3 ℝ) :
    IsRigid (homogeneous_from_rotation R p) := by
  refine ⟨?_, fun j => by fin_cases j <;> rfl⟩
  have : (homogeneous_from_rotation R p).block3 = R := by
    refine Mat.ext3 ?_ ?_ ?_ ?_ ?_ ?_ ?_ ?_ ?_ <;> rfl
  rwa [this]

theorem IsRigid.parts {H : Mat 4 ℝ} (h : IsRigid H) :
    IsRot (get_parts_raw H).1 ∧
    H = homogeneous_from_rotation (get_parts_raw H).1 (get_parts_raw H).2 := by
  constructor
  · have : (get_parts_raw H).1 = H.block3 := by
      refine Mat.ext3 ?_ ?_ ?_ ?_ ?_ ?_ ?_ ?_ ?_ <;> rfl
    rw [this]; exact h.rot
  · exact (C74_get_parts H M44.zero h.last (fun j => M44.zero_apply 3 j) Quat.one V3.zero).1.symm

theorem C75_homogeneous_inverse [RealParams] (H : Mat 4 ℝ) (h : IsRigid H) :
    IsRigid (homogeneous_inverse H) ∧
    M44.mul H (homogeneous_inverse H) = M44.one ∧
    M44.mul (homogeneous_inverse H) H = M44.one ∧
    M44.inverse H = .ok (some (homogeneous_inverse H)) := by
  obtain ⟨hR, hH⟩ := h.parts
  obtain ⟨p, hp⟩ : ∃ p, p = (get_parts_raw H).2 := ⟨_, rfl⟩
  obtain ⟨R, hRe⟩ : ∃ R, R = (get_parts_raw H).1 := ⟨_, rfl⟩
  rw [← hRe] at hR hH
  rw [← hp] at hH
  have hi : homogeneous_inverse H = homogeneous_from_rotation (M33.transpose R)
      (M33.mulVec (M33.neg (M33.transpose R)) p) := by rw [hRe, hp]; rfl
  obtain ⟨r00, r11, r22, r01, r02, r12, c00, c11, c22, c01, c02, c12, -⟩ := SO3Rels.of_mem hR
  have hm : M44.mul H (homogeneous_inverse H) = M44.one := by
    rw [hi, hH]
    refine Mat.ext4 ?_ ?_ ?_ ?_ ?_ ?_ ?_ ?_ ?_ ?_ ?_ ?_ ?_ ?_ ?_ ?_ <;>
      simp only [entries, mul_zero, zero_mul, add_zero, zero_add, mul_one] <;> try linarith
    · linear_combination -p 0 * r00 - p 1 * r01 - p 2 * r02
    · linear_combination -p 0 * r01 - p 1 * r11 - p 2 * r12
    · linear_combination -p 0 * r02 - p 1 * r12 - p 2 * r22
  have hm' : H.toM * (homogeneous_inverse H).toM = 1 := by
    rw [← M44.toM_mul, hm, M44.toM_one]
  have hm2 : M44.mul (homogeneous_inverse H) H = M44.one := by
    rw [← Mat.toM_inj, M44.toM_mul, M44.toM_one]
    exact mul_eq_one_comm.1 hm'
  have hrig : IsRigid (homogeneous_inverse H) := by
    rw [hi]; exact isRigid_from (isRot_transpose hR) _
  refine ⟨hrig, hm, hm2, ?_⟩
  have hdet : H.toM.det = 1 := by
    refine (M44.det_eq H).symm.trans ?_
    rw [hH]
    have hd := ((mem_SO3_iff _).1 hR).2
    rw [Matrix.det_fin_three] at hd
    simp only [Mat.toM_apply] at hd
    rw [M44.det]
    simp only [entries]
    linear_combination hd
  obtain ⟨o, ho, hn, -⟩ := C09_inverse_M44 H
  have hne : o ≠ none := fun h0 => by
    have := hn.1 h0
    rw [hdet, abs_one] at this
    have h6 := RealParams.eps_le
    norm_num at h6
    linarith
  obtain ⟨B, rfl⟩ := Option.ne_none_iff_exists'.1 hne
  rw [ho]
  have hB := (C08_inverse_M44 H B ho).1
  rw [← Mat.toM_inj, M44.toM_mul, M44.toM_one] at hB
  have : B = homogeneous_inverse H := by
    rw [← Mat.toM_inj]
    exact left_inv_eq_right_inv (mul_eq_one_comm.1 hB) hm'
  rw [this]

/-- A rigid transformation that is neither a rotation nor a translation. -/
example [RealParams] : IsRigid (homogeneous_from_rotation (rotz (1 : ℝ)) ⟨![1, 2, 3]⟩) :=
  isRigid_from (isRot_rotz 1) _

theorem C76_homogeneous_inverse_transform [RealParams] (H : Mat 4 ℝ) (h : IsRigid H)
    (p x : Vec 3 ℝ) :
    M44.mulVec H x.point = p.point ↔ x = homogeneous_inverse_transform H p := by
  obtain ⟨hR, hH⟩ := h.parts
  obtain ⟨t, ht⟩ : ∃ t, t = (get_parts_raw H).2 := ⟨_, rfl⟩
  obtain ⟨R, hRe⟩ : ∃ R, R = (get_parts_raw H).1 := ⟨_, rfl⟩
  rw [← hRe] at hR hH
  rw [← ht] at hH
  have hi : homogeneous_inverse_transform H p = M33.mulVec (M33.transpose R) (V3.sub p t) := by
    have e : homogeneous_inverse_transform H p = ⟨![
      M44.mulVec (homogeneous_inverse H) ⟨![p 0 - t 0, p 1 - t 1, p 2 - t 2, 0]⟩ 0,
      M44.mulVec (homogeneous_inverse H) ⟨![p 0 - t 0, p 1 - t 1, p 2 - t 2, 0]⟩ 1,
      M44.mulVec (homogeneous_inverse H) ⟨![p 0 - t 0, p 1 - t 1, p 2 - t 2, 0]⟩ 2]⟩ := by
      rw [ht]; rfl
    have hi : homogeneous_inverse H = homogeneous_from_rotation (M33.transpose R)
      (M33.mulVec (M33.neg (M33.transpose R)) t) := by rw [hRe, ht]; rfl
    rw [e, hi]
    refine Vec.ext3 ?_ ?_ ?_ <;> simp only [entries] <;> ring
  obtain ⟨r00, r11, r22, r01, r02, r12, c00, c11, c22, c01, c02, c12, -⟩ := SO3Rels.of_mem hR
  rw [hi, hH, (C74_homogeneous R R t t x).2.2.1]
  constructor
  · intro he
    have e0 : V3.add (M33.mulVec R x) t 0 = p 0 := congrArg (fun v : Vec 4 ℝ => v 0) he
    have e1 : V3.add (M33.mulVec R x) t 1 = p 1 := congrArg (fun v : Vec 4 ℝ => v 1) he
    have e2 : V3.add (M33.mulVec R x) t 2 = p 2 := congrArg (fun v : Vec 4 ℝ => v 2) he
    simp only [entries] at e0 e1 e2
    refine Vec.ext3 ?_ ?_ ?_ <;> simp only [entries, ← e0, ← e1, ← e2]
    · linear_combination -x 0 * c00 - x 1 * c01 - x 2 * c02
    · linear_combination -x 0 * c01 - x 1 * c11 - x 2 * c12
    · linear_combination -x 0 * c02 - x 1 * c12 - x 2 * c22
  · rintro rfl
    refine Vec.ext4 ?_ ?_ ?_ rfl <;> simp only [Vec.point, entries]
    · linear_combination (p 0 - t 0) * r00 + (p 1 - t 1) * r01 + (p 2 - t 2) * r02
    · linear_combination (p 0 - t 0) * r01 + (p 1 - t 1) * r11 + (p 2 - t 2) * r12
    · linear_combination (p 0 - t 0) * r02 + (p 1 - t 1) * r12 + (p 2 - t 2) * r22

/-! ## C77 hat and vee -/

theorem C77_skew {R : Type} [CommRing R] (v w : Vec 3 R) (S : Mat 3 R) :
    M33.mulVec (skew_from_vec v) w = V3.cross v w ∧
    M33.transpose (skew_from_vec v) = M33.neg (skew_from_vec v) ∧
    skew_to_vec (skew_from_vec v) = v ∧
    ((∀ i j, S i j = -S j i) → (∀ i, S i i = 0) → skew_from_vec (skew_to_vec S) = S) := by
  refine ⟨?_, ?_, ?_, fun h h0 => ?_⟩
  · refine Vec.ext3 ?_ ?_ ?_ <;> simp only [entries] <;> ring
  · refine Mat.ext3 ?_ ?_ ?_ ?_ ?_ ?_ ?_ ?_ ?_ <;> simp only [entries] <;> ring
  · refine Vec.ext3 ?_ ?_ ?_ <;> rfl
  · refine Mat.ext3 ?_ ?_ ?_ ?_ ?_ ?_ ?_ ?_ ?_ <;> simp only [entries, h0]
    · exact (h 0 1).symm
    · exact (h 1 2).symm
    · exact (h 2 0).symm

/-- An antisymmetric matrix. -/
example : (∀ i j, (skew_from_vec ⟨![1, 2, 3]⟩ : Mat 3 ℤ) i j = -(skew_from_vec ⟨![1, 2, 3]⟩ : Mat 3 ℤ) j i)
    ∧ ∀ i, (skew_from_vec ⟨![1, 2, 3]⟩ : Mat 3 ℤ) i i = 0 := by decide

theorem C77_skew_small {R : Type} [CommRing R] (x : R) (v : Vec 3 R) (p : Vec 3 R) (S : Mat 2 R)
    (t : Vec 6 R) :
    M22.transpose (skew_scalar x) = M22.neg (skew_scalar x) ∧
    vex_m22 (skew_scalar x) = x ∧
    ((∀ i j, S i j = -S j i) → (∀ i, S i i = 0) → skew_scalar (vex_m22 S) = S) ∧
    -- the planar twist (v 0, v 1, angular velocity v 2) acting on the point (p 0, p 1)
    M33.mulVec (skew_from_vec_aug v) ⟨![p 0, p 1, 1]⟩ =
      ⟨![v 0 - v 2 * p 1, v 1 + v 2 * p 0, 0]⟩ ∧
    -- the twist (linear velocity t 0..2, angular velocity t 3..5) acting on the point p
    M44.mulVec (skew_v6 t) p.point =
      ⟨![V3.cross ⟨![t 3, t 4, t 5]⟩ p 0 + t 0, V3.cross ⟨![t 3, t 4, t 5]⟩ p 1 + t 1,
        V3.cross ⟨![t 3, t 4, t 5]⟩ p 2 + t 2, 0]⟩ := by
  refine ⟨?_, rfl, fun h h0 => ?_, ?_, ?_⟩
  · refine Mat.ext2 ?_ ?_ ?_ ?_ <;> simp only [entries, M22.neg_apply] <;> ring
  · refine Mat.ext2 ?_ ?_ ?_ ?_ <;> simp only [entries, vex_m22, h0]
    exact (h 0 1).symm
  · refine Vec.ext3 ?_ ?_ ?_ <;> simp only [entries] <;> ring
  · refine Vec.ext4 ?_ ?_ ?_ ?_ <;> simp only [entries, Vec.point] <;> ring

/-! ## C84 Twists -/

theorem C84_twists (V : Vec 6 ℝ) (X : Mat 4 ℝ) :
    IsSe3 (twist_to_se3 V) ∧ se3_to_twist (twist_to_se3 V) = V ∧
    (IsSe3 X → twist_to_se3 (se3_to_twist X) = X) := by
  refine ⟨⟨fun i j => ?_, fun j => ?_⟩, ?_, fun ⟨h, h0⟩ => ?_⟩
  · fin_cases i <;> fin_cases j <;>
      first | exact neg_zero.symm | exact rfl | exact (neg_neg _).symm
  · fin_cases j <;> rfl
  · exact Vec.ext (funext fun i => by fin_cases i <;> rfl)
  · have hd (i : Fin 3) : X i.castSucc i.castSucc = 0 := by linarith [h i i]
    refine Mat.ext4 ?_ ?_ ?_ ?_ ?_ ?_ ?_ ?_ ?_ ?_ ?_ ?_ ?_ ?_ ?_ ?_ <;>
      first
      | rfl
      | exact (h0 _).symm
      | exact (hd 0).symm
      | exact (hd 1).symm
      | exact (hd 2).symm
      | exact (h 0 1).symm
      | exact (h 1 2).symm
      | exact (h 2 0).symm

/-! ## C85 distance_to_manifold -/

/-- `T::infinity()` is a parameter of the exact interpretation: the last claim says that this
constant is returned. -/
theorem C85_distance_to_manifold [RealParams] (m : Mat 3 ℝ) :
    (0 < m.toM.det →
      distance_to_manifold m = √(∑ i, ∑ j, (m.toM * m.toM.transpose - 1) i j ^ 2) ∧
      0 ≤ distance_to_manifold m ∧ (distance_to_manifold m = 0 ↔ IsRot m)) ∧
    (m.toM.det ≤ 0 → distance_to_manifold m = RFloat.infinity ∧ ¬IsRot m) := by
  unfold distance_to_manifold
  rw [show M33.det m = m.toM.det from M33.det_eq m]
  constructor
  · intro h
    simp only [rord_lt, h, decide_true, if_true]
    obtain ⟨h1, h2, h3, -⟩ := C13_norm2_M33
      (M33.sub (M33.mul m (M33.transpose m)) M33.one) M33.zero 0
    have e : (M33.sub (M33.mul m (M33.transpose m)) M33.one).toM = m.toM * m.toM.transpose - 1 := by
      rw [M33.toM_sub, M33.toM_mul, M33.toM_transpose, M33.toM_one]
    refine ⟨?_, h2, ?_⟩
    · rw [h1, ← e]; rfl
    · rw [h3, ← Mat.toM_inj, e, M33.toM_zero, sub_eq_zero, IsRot, mem_SO3_iff]
      refine ⟨fun ho => ⟨ho, ?_⟩, fun ho => ho.1⟩
      have hd := congrArg Matrix.det ho
      rw [Matrix.det_mul, Matrix.det_transpose, Matrix.det_one] at hd
      nlinarith
  · intro h
    simp only [rord_lt, not_lt.2 h, decide_false, Bool.false_eq_true, if_false, true_and]
    intro hr
    have := ((mem_SO3_iff _).1 hr).2
    linarith

/-- Both cases occur. -/
example : (0 : ℝ) < (M33.one : Mat 3 ℝ).toM.det ∧ (M33.zero : Mat 3 ℝ).toM.det ≤ 0 := by
  rw [M33.toM_one, M33.toM_zero, Matrix.det_one, Matrix.det_zero]
  norm_num

/-! ## C86 Screw axis coordinates -/

theorem axis_angle_eq [RealParams] (w : Vec 3 ℝ) :
    axis_angle w = if V3.norm2 w = 0 then .error (.expect "empty vector")
      else .ok (⟨fun i => w i / V3.norm2 w⟩, V3.norm2 w) := by
  unfold axis_angle
  rw [V3.normalize, normalizeGen_eq]
  simp only [rord_beq]
  by_cases h : V3.norm2 w = 0
  · simp [h, expectOk, bind, Except.bind]
  · simp only [h, decide_false, Bool.false_eq_true, if_false]
    rfl

theorem C86_axis_angle [RealParams] (w : Vec 3 ℝ) :
    (w = V3.zero → axis_angle w = .error (.expect "empty vector")) ∧
    (w ≠ V3.zero → ∃ u theta, axis_angle w = .ok (u, theta) ∧ 0 < theta ∧ V3.smul u theta = w ∧
      u 0 ^ 2 + u 1 ^ 2 + u 2 ^ 2 = 1) := by
  rw [axis_angle_eq, ne_eq, ← V3.norm2_zero w]
  refine ⟨fun h => if_pos h, fun h => ⟨_, _, if_neg h, ?_, ?_, ?_⟩⟩
  · exact lt_of_le_of_ne (V3.norm2_nonneg w) (Ne.symm h)
  · exact Vec.ext (funext fun i => by rw [V3.smul_apply]; exact div_mul_cancel₀ _ h)
  · have := V3.norm2_sq w
    change (w 0 / V3.norm2 w) ^ 2 + (w 1 / V3.norm2 w) ^ 2 + (w 2 / V3.norm2 w) ^ 2 = 1
    rw [div_pow, div_pow, div_pow, ← add_div, ← add_div, ← this, div_self (pow_ne_zero 2 h)]

theorem slice_norm3 [RealParams] (a b c : ℝ) : slice_norm2 [a, b, c] = √(a ^ 2 + b ^ 2 + c ^ 2) := by
  rw [C40_norm2]
  congr 1
  simp only [List.map_cons, List.map_nil, List.sum_cons, List.sum_nil]
  ring

/-- The hypothesis says that the rotation part is zero or of norm at least EPSILON. -/
theorem C86_axis_angle6 [P : RealParams] (V : Vec 6 ℝ) (hV : V ≠ V6.zero)
    (hw : (V 0 = 0 ∧ V 1 = 0 ∧ V 2 = 0) ∨ P.eps ≤ √(V 0 ^ 2 + V 1 ^ 2 + V 2 ^ 2)) :
    ∃ S theta, axis_angle6 V = (S, theta) ∧ 0 < theta ∧ V6.smul S theta = V ∧
      (S 0 ^ 2 + S 1 ^ 2 + S 2 ^ 2 = 1 ∨
        ((S 0 = 0 ∧ S 1 = 0 ∧ S 2 = 0) ∧ S 3 ^ 2 + S 4 ^ 2 + S 5 ^ 2 = 1)) := by
  have key (a b c t : ℝ) (h : t = √(a ^ 2 + b ^ 2 + c ^ 2)) (ht : 0 < t) :
      (a / t) ^ 2 + (b / t) ^ 2 + (c / t) ^ 2 = 1 := by
    have h2 : t ^ 2 = a ^ 2 + b ^ 2 + c ^ 2 := by rw [h, Real.sq_sqrt (by positivity)]
    rw [div_pow, div_pow, div_pow, ← add_div, ← add_div, ← h2, div_self (pow_ne_zero 2 ht.ne')]
  have mul (t : ℝ) (ht : 0 < t) : V6.smul (V6.sdiv V t) t = V :=
    Vec.ext (funext fun i => by rw [V6.smul_apply, V6.sdiv_apply, div_mul_cancel₀ _ ht.ne'])
  unfold axis_angle6
  simp only [slice_norm3, nearly_zero_eq]
  rcases hw with ⟨h0, h1, h2⟩ | hw
  · have hz : √(V 0 ^ 2 + V 1 ^ 2 + V 2 ^ 2) = 0 := by rw [h0, h1, h2]; norm_num
    have hpos : 0 < √(V 3 ^ 2 + V 4 ^ 2 + V 5 ^ 2) := by
      rw [Real.sqrt_pos]
      by_contra hn
      have a := sq_nonneg (V 3); have b := sq_nonneg (V 4); have c := sq_nonneg (V 5)
      have z (x : ℝ) (hx : x ^ 2 = 0) : x = 0 := (pow_eq_zero_iff two_ne_zero).1 hx
      have e3 := z (V 3) (by linarith)
      have e4 := z (V 4) (by linarith)
      have e5 := z (V 5) (by linarith)
      exact hV (Vec.ext (funext fun i => by fin_cases i <;> assumption))
    have hp := P.eps_pos
    rw [if_pos (by rw [hz]; simpa using hp)]
    refine ⟨_, _, rfl, hpos, mul _ hpos, Or.inr ⟨?_, ?_⟩⟩
    · simp only [V6.sdiv_apply, h0, h1, h2, zero_div, and_self]
    · simp only [V6.sdiv_apply]
      exact key _ _ _ _ rfl hpos
  · have hpos : 0 < √(V 0 ^ 2 + V 1 ^ 2 + V 2 ^ 2) := lt_of_lt_of_le P.eps_pos hw
    rw [if_neg (by rw [abs_of_pos hpos]; simpa using hw)]
    refine ⟨_, _, rfl, hpos, mul _ hpos, Or.inl ?_⟩
    simp only [V6.sdiv_apply]
    exact key _ _ _ _ rfl hpos

/-- A twist that meets the hypotheses. -/
example [P : RealParams] : (⟨![0, 0, 1, 5, 0, 0]⟩ : Vec 6 ℝ) ≠ V6.zero ∧
    P.eps ≤ √((⟨![0, 0, 1, 5, 0, 0]⟩ : Vec 6 ℝ) 0 ^ 2 + (⟨![0, 0, 1, 5, 0, 0]⟩ : Vec 6 ℝ) 1 ^ 2
      + (⟨![0, 0, 1, 5, 0, 0]⟩ : Vec 6 ℝ) 2 ^ 2) := by
  constructor
  · intro h
    have := congrArg (fun v : Vec 6 ℝ => v 2) h
    change (1 : ℝ) = 0 at this
    norm_num at this
  · change P.eps ≤ √(0 ^ 2 + 0 ^ 2 + 1 ^ 2)
    have := P.eps_le
    norm_num at this ⊢
    linarith

theorem C86_screw_to_axis {R : Type} [CommRing R] (q s : Vec 3 R) (h : R) :
    (∀ i : Fin 3, screw_to_axis q s h (Fin.castLE (by norm_num) i) = s i) ∧
    (∀ i : Fin 3, screw_to_axis q s h (Fin.natAdd 3 i) =
      V3.add (V3.neg (V3.cross s q)) (V3.smul s h) i) := by
  constructor
  · intro i; fin_cases i <;> rfl
  · intro i
    have e (i : Fin 3) : screw_to_axis q s h (Fin.natAdd 3 i) =
        V3.add (V3.cross q s) (V3.smul s h) i := by fin_cases i <;> rfl
    rw [e]
    fin_cases i <;> simp [entries] <;> ring

/-! ## C88 Planar poses -/

theorem C88_ksi [RealParams] (a b x y x' y' u v : ℝ) :
    ksi a x y = M33.mul (translation_2d x y) (rotz a) ∧
    M33.mulVec (ksi a x y) ⟨![u, v, 1]⟩ =
      ⟨![M22.mulVec (rot2 a) ⟨![u, v]⟩ 0 + x, M22.mulVec (rot2 a) ⟨![u, v]⟩ 1 + y, 1]⟩ ∧
    M33.mul (ksi a x y) (ksi b x' y') = ksi (a + b) (M22.mulVec (rot2 a) ⟨![x', y']⟩ 0 + x)
      (M22.mulVec (rot2 a) ⟨![x', y']⟩ 1 + y) := by
  have e0 (u v : ℝ) : M22.mulVec (rot2 a) ⟨![u, v]⟩ 0 = Real.cos a * u + -Real.sin a * v := rfl
  have e1 (u v : ℝ) : M22.mulVec (rot2 a) ⟨![u, v]⟩ 1 = Real.sin a * u + Real.cos a * v := rfl
  simp only [e0, e1]
  refine ⟨?_, ?_, ?_⟩
  · refine Mat.ext3 ?_ ?_ ?_ ?_ ?_ ?_ ?_ ?_ ?_ <;> simp only [entries] <;> ring
  · refine Vec.ext3 ?_ ?_ ?_ <;> simp only [entries, rfloat_sin, rfloat_cos] <;> ring
  · refine Mat.ext3 ?_ ?_ ?_ ?_ ?_ ?_ ?_ ?_ ?_ <;>
      simp only [entries, rfloat_sin, rfloat_cos, Real.sin_add, Real.cos_add] <;> ring

theorem C88_translation {R : Type} [CommRing R] (x y z : R) (p : Vec 3 R) (u v : R) :
    M44.mulVec (translation_3d x y z) p.point = (V3.add p ⟨![x, y, z]⟩).point ∧
    M33.mulVec (translation_2d x y) ⟨![u, v, 1]⟩ = ⟨![u + x, v + y, 1]⟩ := by
  constructor
  · refine Vec.ext4 ?_ ?_ ?_ ?_ <;> simp only [entries, Vec.point] <;> ring
  · refine Vec.ext3 ?_ ?_ ?_ <;> simp only [entries] <;> ring

end StaticMath
