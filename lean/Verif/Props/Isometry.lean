import Verif.Props.Transform
import Verif.Props.Laws
import Verif.Props.QuatRotation
import Mathlib.Analysis.Real.Pi.Bounds

/-!
# C117: rotations and rigid motions preserve geometry and form groups
-/

namespace StaticMath

open Quaternion

variable [P : RealParams]

omit P in
private theorem rot_dot {R : Mat 3 ℝ} (hR : IsRot R) (v w : Vec 3 ℝ) :
    V3.dot (M33.mulVec R v) (M33.mulVec R w) = V3.dot v w := by
  obtain ⟨-, -, -, -, -, -, c00, c11, c22, c01, c02, c12, -⟩ := SO3Rels.of_mem hR
  simp only [V3.dot, entries]
  linear_combination v 0 * w 0 * c00 + v 1 * w 1 * c11 + v 2 * w 2 * c22
    + (v 0 * w 1 + v 1 * w 0) * c01 + (v 0 * w 2 + v 2 * w 0) * c02 + (v 1 * w 2 + v 2 * w 1) * c12

private theorem norm_of_dot (v : Vec 3 ℝ) : V3.norm2 v = √(V3.dot v v) := by
  rw [V3.norm2_eq_sqrt]
  simp only [V3.dot]
  congr 1
  ring

omit P in
private theorem rot_sub (R : Mat 3 ℝ) (v w : Vec 3 ℝ) :
    V3.sub (M33.mulVec R v) (M33.mulVec R w) = M33.mulVec R (V3.sub v w) := by
  refine Vec.ext3 ?_ ?_ ?_ <;> simp only [entries] <;> ring

private theorem norm33 (A : Mat 3 ℝ) : M33.norm2 A = √((A.toM.transpose * A.toM).trace) := by
  rw [(C13_norm2_M33 A A 0).1, Matrix.trace]
  congr 1
  simp only [Matrix.diag_apply, Matrix.mul_apply, Matrix.transpose_apply, Mat.toM_apply,
    Fin.sum_univ_three]
  ring

/-- Scalar product, length, distance, cross product, Frobenius norm and determinant are invariant
under rotations; rotations are closed under product and inverse, and `inverse` is the transpose. -/
theorem C117_rotations (R S A : Mat 3 ℝ) (hR : IsRot R) (hS : IsRot S) (v w : Vec 3 ℝ) :
    V3.dot (M33.mulVec R v) (M33.mulVec R w) = V3.dot v w ∧
    V3.norm2 (M33.mulVec R v) = V3.norm2 v ∧
    V3.norm2 (V3.sub (M33.mulVec R v) (M33.mulVec R w)) = V3.norm2 (V3.sub v w) ∧
    V3.cross (M33.mulVec R v) (M33.mulVec R w) = M33.mulVec R (V3.cross v w) ∧
    M33.norm2 (M33.mul R A) = M33.norm2 A ∧
    M33.norm2 (M33.mul A R) = M33.norm2 A ∧
    M33.det (M33.mul R A) = M33.det A ∧
    IsRot (M33.mul R S) ∧ IsRot (rotation_inverse R) ∧ IsRot M33.one ∧
    M33.inverse R = .ok (some (rotation_inverse R)) := by
  have hm := (mem_SO3_iff _).1 hR
  refine ⟨rot_dot hR v w, ?_, ?_, ?_, ?_, ?_, ?_, isRot_mul hR hS, isRot_transpose hR, ?_, ?_⟩
  · rw [norm_of_dot, norm_of_dot, rot_dot hR]
  · rw [rot_sub, norm_of_dot, norm_of_dot, rot_dot hR]
  · obtain ⟨-, -, -, -, -, -, -, -, -, -, -, -, k00, k01, k02, k10, k11, k12, k20, k21, k22, -⟩ :=
      SO3Rels.of_mem hR
    refine Vec.ext3 ?_ ?_ ?_ <;> simp only [V3.cross, entries]
    · rw [k00, k01, k02]; ring
    · rw [k10, k11, k12]; ring
    · rw [k20, k21, k22]; ring
  · rw [norm33, norm33, M33.toM_mul, Matrix.transpose_mul, mul_assoc, ← mul_assoc R.toM.transpose,
      mul_eq_one_comm.1 hm.1, one_mul]
  · rw [norm33, norm33, M33.toM_mul, Matrix.transpose_mul, mul_assoc, Matrix.trace_mul_comm,
      mul_assoc, mul_assoc, hm.1, mul_one]
  · have e1 : M33.det (M33.mul R A) = (M33.mul R A).toM.det := M33.det_eq _
    have e2 : M33.det A = A.toM.det := M33.det_eq _
    rw [e1, e2, M33.toM_mul, Matrix.det_mul, hm.2, one_mul]
  · rw [IsRot, M33.toM_one]
    exact one_mem _
  · obtain ⟨B, hB⟩ := C10_inverse_M33_partial R (by
      rw [hm.2, abs_one]
      have := P.eps_le
      norm_num at this
      linarith)
    have h1 := (C08_inverse_M33 R B hB).2
    rw [← Mat.toM_inj, M33.toM_mul, M33.toM_one] at h1
    rw [hB]
    congr 2
    rw [← Mat.toM_inj, rotation_inverse, M33.toM_transpose]
    exact left_inv_eq_right_inv h1 hm.1

/-- Two rotations about different axes. -/
example : IsRot (rotx (1 : ℝ)) ∧ IsRot (rotz (2 : ℝ)) ∧ rotx (1 : ℝ) ≠ rotz 2 := by
  refine ⟨isRot_rotx _, isRot_rotz _, fun h => ?_⟩
  have h0 := congrArg (fun A : Mat 3 ℝ => A 2 2) h
  simp only [entries, rfloat_cos] at h0
  have : Real.cos 1 < 1 := by
    have := Real.cos_lt_cos_of_nonneg_of_le_pi (x := 0) (y := 1) le_rfl
      (by linarith [Real.pi_gt_three]) one_pos
    rwa [Real.cos_zero] at this
  linarith

/-- `from_rotation` turns products into products and inverses into conjugates, up to the sign that
a rotation does not determine. -/
theorem C117_from_rotation (R S : Mat 3 ℝ) (hR : IsRot R) (hS : IsRot S) :
    ((Quat.from_rotation (M33.mul R S)).toH = (Quat.from_rotation R).toH * (Quat.from_rotation S).toH ∨
      (Quat.from_rotation (M33.mul R S)).toH
        = -((Quat.from_rotation R).toH * (Quat.from_rotation S).toH)) ∧
    ((Quat.from_rotation (rotation_inverse R)).toH = star (Quat.from_rotation R).toH ∨
      (Quat.from_rotation (rotation_inverse R)).toH = -star (Quat.from_rotation R).toH) := by
  obtain ⟨r1, r2⟩ := C49_from_rotation R hR
  obtain ⟨s1, s2⟩ := C49_from_rotation S hS
  obtain ⟨p1, p2⟩ := C49_from_rotation _ (isRot_mul hR hS)
  obtain ⟨i1, i2⟩ := C49_from_rotation _ (isRot_transpose hR)
  have hm : normSq ((Quat.from_rotation R).mul (Quat.from_rotation S)).toH = 1 := by
    rw [Quat.toH_mul, map_mul, r1, s1, one_mul]
  have hc : normSq (Quat.from_rotation R).conj.toH = 1 := by
    rw [Quat.toH_conj, normSq_star, r1]
  refine ⟨?_, ?_⟩
  · have := (C48_double_cover _ _ p1 hm).1 (by
      rw [p2, (C48_to_rotation _ _ s1).2.2.1, r2, s2])
    rwa [Quat.toH_mul] at this
  · have := (C48_double_cover _ _ i1 hc).1 (by
      rw [i2, (C48_to_rotation Quat.one _ r1).2.2.2, r2])
    rwa [Quat.toH_conj] at this

private theorem norm_points (a b : Vec 3 ℝ) : V4.norm2 (V4.sub a.point b.point) = V3.norm2 (V3.sub a b) := by
  have h3 (i : Fin 4) : V4.sub a.point b.point i = a.point i - b.point i := V4.sub_apply _ _ _
  have e0 : a.point 0 - b.point 0 = a 0 - b 0 := rfl
  have e1 : a.point 1 - b.point 1 = a 1 - b 1 := rfl
  have e2 : a.point 2 - b.point 2 = a 2 - b 2 := rfl
  have e3 : a.point 3 - b.point 3 = 1 - 1 := rfl
  rw [V3.norm2_eq_sqrt, V4.norm2, rfloat_sqrt, h3, h3, h3, h3, e0, e1, e2, e3]
  congr 1
  simp only [entries]
  ring

/-- Rigid motions keep distances, are closed under product and inverse, and products of them move
points one after the other. -/
theorem C117_rigid (H G : Mat 4 ℝ) (hH : IsRigid H) (hG : IsRigid G) (x y : Vec 3 ℝ) :
    IsRigid (M44.mul H G) ∧ IsRigid (homogeneous_inverse H) ∧ IsRigid M44.one ∧
    (∃ x' y' : Vec 3 ℝ, M44.mulVec H x.point = x'.point ∧ M44.mulVec H y.point = y'.point ∧
      V3.norm2 (V3.sub x' y') = V3.norm2 (V3.sub x y)) ∧
    V4.norm2 (V4.sub (M44.mulVec H x.point) (M44.mulVec H y.point)) = V3.norm2 (V3.sub x y) ∧
    M44.det H = 1 := by
  obtain ⟨hR, e⟩ := hH.parts
  obtain ⟨hS, f⟩ := hG.parts
  obtain ⟨R, hr⟩ : ∃ R, R = (get_parts_raw H).1 := ⟨_, rfl⟩
  obtain ⟨p, hp⟩ : ∃ p, p = (get_parts_raw H).2 := ⟨_, rfl⟩
  rw [← hr] at hR e
  rw [← hp] at e
  have hx (x : Vec 3 ℝ) := (C74_homogeneous R R p p x).2.2.1
  have hd : V3.norm2 (V3.sub (V3.add (M33.mulVec R x) p) (V3.add (M33.mulVec R y) p))
      = V3.norm2 (V3.sub x y) := by
    rw [← (C117_rotations R R R hR hR x y).2.2.1]
    congr 1
    refine Vec.ext3 ?_ ?_ ?_ <;> simp only [entries] <;> ring
  refine ⟨?_, (C75_homogeneous_inverse H hH).1, ?_, ⟨_, _, by rw [e]; exact hx x, by rw [e]; exact hx y, hd⟩,
    ?_, ?_⟩
  · rw [e, f, (C74_homogeneous R _ p _ x).2.1]
    exact isRigid_from (isRot_mul hR hS) _
  · rw [← (C74_homogeneous R R p p x).2.2.2.1]
    exact isRigid_from (C117_rotations R R R hR hR x y).2.2.2.2.2.2.2.2.2.1 _
  · rw [← hd, e, hx, hx, norm_points]
  · rw [e]
    have hd := ((mem_SO3_iff _).1 hR).2
    rw [Matrix.det_fin_three] at hd
    simp only [Mat.toM_apply] at hd
    rw [M44.det]
    simp only [entries]
    linear_combination hd

/-- Two rigid motions that are neither rotations nor translations. -/
example : IsRigid (homogeneous_from_rotation (rotz (1 : ℝ)) ⟨![1, 2, 3]⟩) ∧
    IsRigid (homogeneous_from_rotation (rotx (2 : ℝ)) ⟨![-1, 0, 3]⟩) :=
  ⟨isRigid_from (isRot_rotz 1) _, isRigid_from (isRot_rotx 2) _⟩

end StaticMath
