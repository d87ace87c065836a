import Verif.Props.Extent
import Verif.Props.Euler

/-!
# C157: exactly where further functions that deviate from their description are right

As C148, for the claims C38, C54, C64, C69, C70, C73 and C82.
-/

namespace StaticMath
open Quaternion NormedSpace

/-! ## Euler angles -/

/-- The sequence YZX is computed as XYZ. The result is the named product exactly when it is a rotation about
the diagonal `(1, 1, 1)`. -/
theorem C157_euler_YZX [RealParams] (y p r : ℝ) :
    euler_to_rotation y p r (some .YZX) = M33.mul (M33.mul (roty y) (rotz p)) (rotx r) ↔
      M33.mulVec (M33.mul (M33.mul (rotx y) (roty p)) (rotz r)) ⟨![1, 1, 1]⟩ = ⟨![1, 1, 1]⟩ := by
  have hR : IsRot (M33.mul (M33.mul (rotx y) (roty p)) (rotz r)) :=
    isRot_mul (isRot_mul (isRot_rotx y) (isRot_roty p)) (isRot_rotz r)
  change M33.mul (M33.mul (rotx y) (roty p)) (rotz r) = _ ↔ _
  -- the named product is the computed one with the axes renamed
  have hN : M33.mul (M33.mul (roty y) (rotz p)) (rotx r) =
      ⟨![![M33.mul (M33.mul (rotx y) (roty p)) (rotz r) 2 2, M33.mul (M33.mul (rotx y) (roty p)) (rotz r) 2 0,
          M33.mul (M33.mul (rotx y) (roty p)) (rotz r) 2 1],
        ![M33.mul (M33.mul (rotx y) (roty p)) (rotz r) 0 2, M33.mul (M33.mul (rotx y) (roty p)) (rotz r) 0 0,
          M33.mul (M33.mul (rotx y) (roty p)) (rotz r) 0 1],
        ![M33.mul (M33.mul (rotx y) (roty p)) (rotz r) 1 2, M33.mul (M33.mul (rotx y) (roty p)) (rotz r) 1 0,
          M33.mul (M33.mul (rotx y) (roty p)) (rotz r) 1 1]]⟩ := by
    refine Mat.ext3 ?_ ?_ ?_ ?_ ?_ ?_ ?_ ?_ ?_ <;> simp only [entries] <;> ring
  rw [hN]
  obtain ⟨R, hr⟩ : ∃ R, R = M33.mul (M33.mul (rotx y) (roty p)) (rotz r) := ⟨_, rfl⟩
  rw [← hr] at hR ⊢
  obtain ⟨r00, r11, r22, r01, r02, r12, c00, c11, c22, c01, c02, c12, k00, k01, k02, k10, k11, k12,
    k20, k21, k22, hd⟩ := SO3Rels.of_mem hR
  constructor
  · intro h
    have e (i j : Fin 3) := congrArg (fun A : Mat 3 ℝ => A i j) h
    have e00 : R 0 0 = R 2 2 := e 0 0
    have e01 : R 0 1 = R 2 0 := e 0 1
    have e02 : R 0 2 = R 2 1 := e 0 2
    have e10 : R 1 0 = R 0 2 := e 1 0
    have e11 : R 1 1 = R 0 0 := e 1 1
    have e12 : R 1 2 = R 0 1 := e 1 2
    rw [e10, e11, e12] at r01
    rw [← e00, ← e01, ← e02, e10, e11, e12] at hd
    have h1 : R 0 0 + R 0 1 + R 0 2 = 1 := by
      generalize R 0 0 = a at r00 r01 hd ⊢
      generalize R 0 1 = b at r00 r01 hd ⊢
      generalize R 0 2 = c at r00 r01 hd ⊢
      have hq : a * b + b * c + c * a = 0 := by linarith
      linear_combination hd - (a + b + c) * r00 + (a + b + c) * hq
    refine Vec.ext3 ?_ ?_ ?_ <;> simp only [entries, ← e00, ← e01, ← e02, e10, e11, e12] <;> linarith
  · intro h
    have e (i : Fin 3) := congrArg (fun v : Vec 3 ℝ => v i) h
    have e0 := e 0
    have e1 := e 1
    have e2 := e 2
    simp only [entries, mul_one] at e0 e1 e2
    -- the transpose fixes the diagonal as well
    have t0 : R 0 0 + R 1 0 + R 2 0 = 1 := by
      linear_combination c00 + c01 + c02 - R 0 0 * e0 - R 1 0 * e1 - R 2 0 * e2
    have t1 : R 0 1 + R 1 1 + R 2 1 = 1 := by
      linear_combination c01 + c11 + c12 - R 0 1 * e0 - R 1 1 * e1 - R 2 1 * e2
    have a1 : R 1 0 = R 0 2 := by
      have : R 0 0 + R 0 1 + R 1 0 = 1 := by
        have h02 : R 0 2 = 1 - R 0 0 - R 0 1 := by linarith
        have h12 : R 1 2 = 1 - R 1 0 - R 1 1 := by linarith
        have h22 : R 2 2 = R 0 0 + R 0 1 + R 1 0 + R 1 1 - 1 := by linarith
        rw [h02, h12] at k20
        rw [h22] at k22
        linarith
      linarith
    have a2 : R 0 1 + R 1 0 + R 1 1 = 1 := by
      have h02 : R 0 2 = 1 - R 0 0 - R 0 1 := by linarith
      have h12 : R 1 2 = 1 - R 1 0 - R 1 1 := by linarith
      have h22 : R 2 2 = R 0 0 + R 0 1 + R 1 0 + R 1 1 - 1 := by linarith
      rw [h02, h12] at k21
      rw [h22] at k22
      linarith
    refine Mat.ext3 ?_ ?_ ?_ ?_ ?_ ?_ ?_ ?_ ?_ <;> simp only [entries] <;> linarith

/-- The three right angles `0, 0, 0` meet the condition, and so do angles that turn by 120 degrees about
the diagonal: `π/2, π/2, 0` is the cyclic exchange of the axes. -/
example [RealParams] : euler_to_rotation (Real.pi / 2) (Real.pi / 2) 0 (some .YZX) =
      M33.mul (M33.mul (roty (Real.pi / 2)) (rotz (Real.pi / 2))) (rotx 0) ∧
    euler_to_rotation (Real.pi / 2) 0 0 (some .YZX) ≠
      M33.mul (M33.mul (roty (Real.pi / 2)) (rotz 0)) (rotx 0) := by
  rw [Ne, C157_euler_YZX, C157_euler_YZX]
  constructor
  · refine Vec.ext3 ?_ ?_ ?_ <;> simp only [entries, rfloat_sin, rfloat_cos, Real.cos_pi_div_two,
      Real.sin_pi_div_two, Real.cos_zero, Real.sin_zero] <;> norm_num
  · intro h
    have := congrArg (fun v : Vec 3 ℝ => v 1) h
    simp only [entries, rfloat_sin, rfloat_cos, Real.cos_pi_div_two,
      Real.sin_pi_div_two, Real.cos_zero, Real.sin_zero] at this
    norm_num at this

private theorem near_quarter [P : RealParams] (p c : ℝ) (hp : |p| ≤ Real.pi / 2) (hc : |c| = Real.pi / 2) :
    nearly_equal p c P.eps = true ↔ |p - c| < P.eps * (|p| + Real.pi / 2) := by
  have hpos := P.eps_pos
  have hle := P.eps_le
  norm_num at hle
  have hpi := Real.pi_gt_three
  have hpi4 := Real.pi_le_four
  have hM : min (|p| + |c|) P.maxVal = |p| + |c| :=
    min_eq_left (le_trans (by linarith) ((by norm_num : (4 : ℝ) ≤ 10 ^ 38).trans P.maxVal_ge))
  have hc0 : c ≠ 0 := fun h => by rw [h, abs_zero] at hc; linarith
  rw [C35_nearly_equal, hM, hc]
  have h0 := abs_nonneg p
  constructor
  · rintro (h | ⟨h | h, h'⟩ | ⟨-, -, h⟩)
    · rw [h, sub_self, abs_zero]
      positivity
    · rw [h, zero_sub, abs_neg, hc] at h'
      linarith
    · exact absurd h hc0
    · exact h
  · intro h
    by_cases hp0 : p = 0
    · rw [hp0, zero_sub, abs_neg, hc, abs_zero, zero_add] at h
      nlinarith
    · exact Or.inr (Or.inr ⟨hp0, hc0, h⟩)

/-- With `p` the pitch of the rotation, the round trip through `rotation_to_euler` is exact exactly when
the pitch is not within a relative EPSILON of a quarter turn, or the roll is zero (`R 2 1 = 0` and
`R 2 2` not negative; at gimbal lock both are zero). -/
theorem C157_rotation_to_euler [P : RealParams] (R : Mat 3 ℝ) (hR : IsRot R) (p : ℝ)
    (hp : p = Real.arcsin (-R 2 0)) :
    euler_to_rotation (rotation_to_euler R).1 (rotation_to_euler R).2.1 (rotation_to_euler R).2.2 none = R ↔
      P.eps * (|p| + Real.pi / 2) ≤ Real.pi / 2 - |p| ∨ (R 2 1 = 0 ∧ 0 ≤ R 2 2) := by
  obtain ⟨p', hsin, hcos, hpp, he⟩ := to_euler_eq R hR
  have hpe : p' = p := by
    rw [hp, ← hsin, Real.arcsin_sin (abs_le.1 hpp).1 (abs_le.1 hpp).2]
  rw [hpe] at hsin hcos hpp he
  clear hp hpe
  have hs2 : √(R 0 0 ^ 2 + R 1 0 ^ 2) ^ 2 = R 0 0 ^ 2 + R 1 0 ^ 2 := Real.sq_sqrt (by positivity)
  have hs0 := Real.sqrt_nonneg (R 0 0 ^ 2 + R 1 0 ^ 2)
  have hpos := P.eps_pos
  have hle := P.eps_le
  norm_num at hle
  have hpi := Real.pi_gt_three
  have hpi4 := Real.pi_le_four
  have habs : |-(Real.pi / 2)| = Real.pi / 2 := by rw [abs_neg, abs_of_pos (by linarith)]
  have habs' : |Real.pi / 2| = Real.pi / 2 := abs_of_pos (by linarith)
  have rel := SO3Rels.of_mem hR
  have hp0 := abs_nonneg p
  -- the roll is zero
  have back (y : ℝ) (h21 : R 2 1 = 0) (h22 : 0 ≤ R 2 2) (hs : 0 < √(R 0 0 ^ 2 + R 1 0 ^ 2))
      (hy : y = Complex.arg ⟨R 0 0, R 1 0⟩) : euler_to_rotation y p 0 none = R := by
    have hgen := euler_generic_branch R hR p _ hsin hcos hs hs2
    rwa [h21, ← hy, show (⟨R 2 2, 0⟩ : ℂ) = ((R 2 2 : ℝ) : ℂ) from rfl, Complex.arg_ofReal_of_nonneg h22] at hgen
  have ent (y : ℝ) (h : euler_to_rotation y p 0 none = R) : R 2 1 = 0 ∧ 0 ≤ R 2 2 := by
    rw [euler_roll0] at h
    have h1 := congrArg (fun A : Mat 3 ℝ => A 2 1) h
    have h2 := congrArg (fun A : Mat 3 ℝ => A 2 2) h
    refine ⟨h1.symm, ?_⟩
    rw [show R 2 2 = Real.cos p from h2.symm, hcos]
    exact hs0
  have zero (h : √(R 0 0 ^ 2 + R 1 0 ^ 2) = 0) : R 0 0 = 0 ∧ R 1 0 = 0 := by
    rw [h] at hs2
    constructor <;> nlinarith [sq_nonneg (R 0 0), sq_nonneg (R 1 0)]
  -- where the yaw is read off
  have yaw (h21 : R 2 1 = 0) (h22 : 0 ≤ R 2 2) (hs : 0 < √(R 0 0 ^ 2 + R 1 0 ^ 2)) :
      R 0 2 * √(R 0 0 ^ 2 + R 1 0 ^ 2) = Real.sin p * R 0 0 ∧ R 1 2 * √(R 0 0 ^ 2 + R 1 0 ^ 2) = Real.sin p * R 1 0 := by
    have hb := back _ h21 h22 hs rfl
    rw [euler_roll0] at hb
    have g (i j : Fin 3) := congrArg (fun A : Mat 3 ℝ => A i j) hb
    have g02 : Real.cos (Complex.arg ⟨R 0 0, R 1 0⟩) * Real.sin p = R 0 2 := g 0 2
    have g12 : Real.sin (Complex.arg ⟨R 0 0, R 1 0⟩) * Real.sin p = R 1 2 := g 1 2
    have g00 : Real.cos (Complex.arg ⟨R 0 0, R 1 0⟩) * Real.cos p = R 0 0 := g 0 0
    have g10 : Real.sin (Complex.arg ⟨R 0 0, R 1 0⟩) * Real.cos p = R 1 0 := g 1 0
    constructor
    · rw [← g02, ← hcos]
      linear_combination Real.sin p * g00
    · rw [← g12, ← hcos]
      linear_combination Real.sin p * g10
  have scale (k x y : ℝ) (hk : 0 < k) : Complex.arg ⟨k * x, k * y⟩ = Complex.arg ⟨x, y⟩ := by
    rw [← Complex.arg_real_mul ⟨x, y⟩ hk]
    congr 1
    exact Complex.ext (by simp) (by simp)
  by_cases h1 : nearly_equal p (-(Real.pi / 2)) P.eps = true
  · have hn := (near_quarter p _ hpp habs).1 h1
    rw [he, if_pos h1]
    have hneg : p < 0 := by
      by_contra hge
      rw [not_lt] at hge
      rw [sub_neg_eq_add, abs_of_nonneg (by linarith), abs_of_nonneg hge] at hn
      nlinarith
    have hband : ¬ P.eps * (|p| + Real.pi / 2) ≤ Real.pi / 2 - |p| := by
      rw [not_le]
      refine lt_of_le_of_lt ?_ hn
      rw [abs_of_neg hneg, sub_neg_eq_add, sub_neg_eq_add]
      exact (le_abs_self _).trans (by rw [add_comm])
    constructor
    · intro h
      exact Or.inr (ent _ h)
    · intro h
      obtain ⟨h21, h22⟩ := h.resolve_left hband
      rcases hs0.eq_or_lt with hs | hs
      · have h := (C54_rotation_to_euler_partial R hR).1 (Or.inl (zero hs.symm))
        rwa [he, if_pos h1] at h
      · refine back _ h21 h22 hs ?_
        obtain ⟨y1, y2⟩ := yaw h21 h22 hs
        have hsp : Real.sin p < 0 := Real.sin_neg_of_neg_of_neg_pi_lt hneg (by linarith [(abs_le.1 hpp).1])
        rw [← scale _ (-R 0 2) (-R 1 2) hs, ← scale (-Real.sin p) (R 0 0) (R 1 0) (by linarith)]
        exact congrArg Complex.arg (Complex.ext (by dsimp only; linarith) (by dsimp only; linarith))
  · by_cases h2 : nearly_equal p (Real.pi / 2) P.eps = true
    · have hn := (near_quarter p _ hpp habs').1 h2
      rw [he, if_neg h1, if_pos h2]
      have hpp' : 0 < p := by
        by_contra hge
        rw [not_lt] at hge
        rw [abs_sub_comm, abs_of_nonneg (by linarith), abs_of_nonpos hge] at hn
        nlinarith
      have hband : ¬ P.eps * (|p| + Real.pi / 2) ≤ Real.pi / 2 - |p| := by
        rw [not_le]
        refine lt_of_le_of_lt ?_ hn
        rw [abs_of_pos hpp', abs_sub_comm]
        exact le_abs_self _
      constructor
      · intro h
        exact Or.inr (ent _ h)
      · intro h
        obtain ⟨h21, h22⟩ := h.resolve_left hband
        rcases hs0.eq_or_lt with hs | hs
        · have h := (C54_rotation_to_euler_partial R hR).1 (Or.inl (zero hs.symm))
          rwa [he, if_neg h1, if_pos h2] at h
        · refine back _ h21 h22 hs ?_
          obtain ⟨y1, y2⟩ := yaw h21 h22 hs
          have hsp : 0 < Real.sin p := Real.sin_pos_of_pos_of_lt_pi hpp' (by linarith [(abs_le.1 hpp).2])
          rw [← scale _ (R 0 2) (R 1 2) hs, ← scale (Real.sin p) (R 0 0) (R 1 0) hsp]
          exact congrArg Complex.arg (Complex.ext (by dsimp only; linarith) (by dsimp only; linarith))
    · rw [he, if_neg h1, if_neg h2]
      have hband : P.eps * (|p| + Real.pi / 2) ≤ Real.pi / 2 - |p| := by
        rw [near_quarter p _ hpp habs, not_lt, sub_neg_eq_add] at h1
        rw [near_quarter p _ hpp habs', not_lt, abs_sub_comm] at h2
        rcases abs_cases p with ⟨e, e'⟩ | ⟨e, e'⟩
        · rw [abs_of_nonneg (a := Real.pi / 2 - p) (by linarith [(abs_le.1 hpp).2])] at h2
          rw [e] at h2 ⊢
          exact h2
        · rw [abs_of_nonneg (a := p + Real.pi / 2) (by linarith [(abs_le.1 hpp).1])] at h1
          rw [e] at h1 ⊢
          linarith
      refine ⟨fun _ => Or.inl hband, fun _ => ?_⟩
      refine euler_generic_branch R hR p _ hsin hcos ?_ hs2
      rw [← hcos]
      have : |p| < Real.pi / 2 := by
        have : 0 < P.eps * (|p| + Real.pi / 2) := by positivity
        linarith
      exact Real.cos_pos_of_mem_Ioo ⟨(abs_lt.1 this).1, (abs_lt.1 this).2⟩

/-- The rotation about y by a quarter turn less half an EPSILON lies in the band, and its round trip is
exact since the roll is zero. -/
example [P : RealParams] : IsRot (roty (Real.pi / 2 - P.eps / 2)) ∧
    euler_to_rotation (rotation_to_euler (roty (Real.pi / 2 - P.eps / 2))).1
      (rotation_to_euler (roty (Real.pi / 2 - P.eps / 2))).2.1
      (rotation_to_euler (roty (Real.pi / 2 - P.eps / 2))).2.2 none = roty (Real.pi / 2 - P.eps / 2) := by
  refine ⟨isRot_roty _, (C157_rotation_to_euler _ (isRot_roty _) _ rfl).2 (Or.inr ⟨rfl, ?_⟩)⟩
  have := P.eps_pos
  have := P.eps_le
  norm_num at this
  have := Real.pi_gt_three
  simp only [entries, rfloat_cos]
  exact Real.cos_nonneg_of_mem_Icc ⟨by linarith, by linarith⟩

/-! ## The logarithm of a rigid motion -/

section Reals
variable [P : RealParams]

/-- The rotation block of the exponential on se(3) is the exponential of the rotation block. -/
private theorem exp_block (w v : Vec 3 ℝ) (R : Mat 3 ℝ) (q : Vec 3 ℝ)
    (h : exp (se3_from_parts (skew_from_vec w) v).toM = (homogeneous_from_rotation R q).toM) :
    exp (skew_from_vec w).toM = R.toM := by
  rcases (V3.norm2_nonneg w).eq_or_lt with h0 | h0
  · have hw := (V3.norm2_zero w).1 h0.symm
    have hz : skew_from_vec w = M33.zero := by
      rw [hw]
      refine Mat.ext3 ?_ ?_ ?_ ?_ ?_ ?_ ?_ ?_ ?_ <;> simp only [entries] <;> norm_num
    rw [hz] at h ⊢
    have hE : exp (se3_from_parts M33.zero v).toM = (homogeneous_from_rotation M33.one v).toM := by
      rw [exp_of_sq_zero, ← M44.toM_one, ← M44.toM_add, Mat.toM_inj]
      · refine Mat.ext4 ?_ ?_ ?_ ?_ ?_ ?_ ?_ ?_ ?_ ?_ ?_ ?_ ?_ ?_ ?_ ?_ <;> simp only [entries] <;> ring
      · rw [sq, ← M44.toM_mul, ← M44.toM_zero, Mat.toM_inj]
        refine Mat.ext4 ?_ ?_ ?_ ?_ ?_ ?_ ?_ ?_ ?_ ?_ ?_ ?_ ?_ ?_ ?_ ?_ <;> simp only [entries] <;> ring
    rw [hE, Mat.toM_inj] at h
    have e (i j : Fin 4) := congrArg (fun A : Mat 4 ℝ => A i j) h
    rw [M33.toM_zero, exp_zero, ← M33.toM_one, Mat.toM_inj]
    exact Mat.ext3 (e 0 0) (e 0 1) (e 0 2) (e 1 0) (e 1 1) (e 1 2) (e 2 0) (e 2 1) (e 2 2)
  · have hu := unit_of_div w h0
    have hE := exp_se3 ⟨fun i => w i / V3.norm2 w⟩ v (V3.norm2 w) h0.ne' hu
    have h1 := (C78_rodrigues ⟨fun i => w i / V3.norm2 w⟩ hu (V3.norm2 w) 0).1
    rw [← skew_smul, smul_div_norm w h0] at h1
    rw [smul_div_norm w h0, h, Mat.toM_inj] at hE
    rw [← h1, Mat.toM_inj]
    have e (i j : Fin 4) := (congrArg (fun A : Mat 4 ℝ => A i j) hE).symm
    exact Mat.ext3 (e 0 0) (e 0 1) (e 0 2) (e 1 0) (e 1 1) (e 1 2) (e 2 0) (e 2 1) (e 2 2)

/-- `matrix_log6` of a rigid motion is a logarithm exactly outside the half turns about (nearly) the x axis,
and `matrix_exponential6` undoes it exactly when, in addition, the rotation turns by at least EPSILON; in
particular never for a pure translation. -/
theorem C157_matrix_log6 (H : Mat 4 ℝ) (hH : IsRigid H) :
    (exp (matrix_log6 H).toM = H.toM ↔
      ¬ (H 0 0 + H 1 1 + H 2 2 = -1 ∧ 1 + H 2 2 < P.eps ∧ 1 + H 1 1 < P.eps)) ∧
    (matrix_exponential6 (matrix_log6 H) = .ok H ↔
      ¬ (H 0 0 + H 1 1 + H 2 2 = -1 ∧ 1 + H 2 2 < P.eps ∧ 1 + H 1 1 < P.eps) ∧
      P.eps ≤ Real.arccos ((H 0 0 + H 1 1 + H 2 2 - 1) / 2)) := by
  obtain ⟨hse, hpart⟩ := C82_matrix_log6_partial H hH
  obtain ⟨hR, e⟩ := hH.parts
  have hlog : ∃ v, matrix_log6 H = se3_from_parts (matrix_log (get_parts_raw H).1) v := by
    unfold matrix_log6
    dsimp only
    split
    · rename_i hz
      refine ⟨(get_parts_raw H).2, ?_⟩
      have hz' : matrix_log (get_parts_raw H).1 = M33.zero := by
        rw [Mat.is_zero, Mat.beq] at hz
        simp only [List.all_eq_true, List.mem_finRange, forall_const, rord_beq, decide_eq_true_eq] at hz
        exact Mat.ext (funext fun i => funext fun j => by rw [M33.zero_apply]; exact hz i j)
      rw [hz']
      exact Mat.ext4 rfl rfl rfl rfl rfl rfl rfl rfl rfl rfl rfl rfl rfl rfl rfl rfl
    · exact ⟨_, rfl⟩
  have hb : H.block3 = (get_parts_raw H).1 := Mat.ext3 rfl rfl rfl rfl rfl rfl rfl rfl rfl
  obtain ⟨v, hv⟩ := hlog
  have hskew := (C80_matrix_log_partial _ hR).1
  obtain ⟨w, hw⟩ : ∃ w, matrix_log (get_parts_raw H).1 = skew_from_vec w := by
    generalize matrix_log (get_parts_raw H).1 = S at hskew
    refine ⟨⟨![S 2 1, S 0 2, S 1 0]⟩, ?_⟩
    have s00 := hskew 0 0
    have s11 := hskew 1 1
    have s22 := hskew 2 2
    have s01 := hskew 0 1
    have s20 := hskew 2 0
    have s12 := hskew 1 2
    refine Mat.ext3 ?_ ?_ ?_ ?_ ?_ ?_ ?_ ?_ ?_ <;> simp only [entries] <;> linarith
  have hnot (h : exp (matrix_log6 H).toM = H.toM) : ¬ NearXHalfTurn H.block3 := by
    intro hx
    rw [hv, hw, e] at h
    have h1 := exp_block _ _ _ _ h
    rw [← hw] at h1
    rw [hb] at hx
    exact log_near_half_turn _ hR hx h1
  refine ⟨⟨fun h => hnot h, fun h => (hpart h).1⟩, fun h => ?_, fun h => (hpart h.1).2 h.2⟩
  have hn : P.eps ≤ √(matrix_log6 H 2 1 ^ 2 + matrix_log6 H 0 2 ^ 2 + matrix_log6 H 1 0 ^ 2) := by
    by_contra hlt
    rw [not_le] at hlt
    obtain ⟨E, hE, hent⟩ := (C81_matrix_exponential6_partial (matrix_log6 H)).2.1 hlt
    rw [h] at hE
    cases hE
    have h0 : H 0 0 = 1 := (hent 0 0).trans (by simp)
    have h1 : H 0 1 = 0 := (hent 0 1).trans (by simp)
    have h2 : H 0 2 = 1 := (hent 0 2).trans (by simp)
    have := (SO3Rels.of_mem hR).r00
    change H 0 0 * H 0 0 + H 0 1 * H 0 1 + H 0 2 * H 0 2 = 1 at this
    rw [h0, h1, h2] at this
    norm_num at this
  obtain ⟨E, hE, -, hexp⟩ := (C81_matrix_exponential6_partial (matrix_log6 H)).2.2 hse hn
  rw [h] at hE
  cases hE
  have hx := hnot hexp.symm
  refine ⟨hx, ?_⟩
  rw [hb] at hx
  change P.eps ≤ Real.arccos (((get_parts_raw H).1 0 0 + (get_parts_raw H).1 1 1 + (get_parts_raw H).1 2 2 - 1) / 2)
  rcases le_or_gt 3 ((get_parts_raw H).1 0 0 + (get_parts_raw H).1 1 1 + (get_parts_raw H).1 2 2) with h3 | h3
  · exfalso
    rw [hv, (log_one _ hR h3).2] at hn
    change P.eps ≤ √((0 : ℝ) ^ 2 + (0 : ℝ) ^ 2 + (0 : ℝ) ^ 2) at hn
    norm_num at hn
    exact absurd P.eps_pos (not_lt.2 hn)
  · obtain ⟨u, t, ht, hpos, -, hu, hl, -⟩ := log_form _ hR h3 hx
    rw [trace3] at ht
    rw [← ht]
    have hnt := norm_unit_smul u t hpos.le hu
    rw [V3.norm2_eq_sqrt] at hnt
    rw [hv, hl] at hn
    exact hn.trans hnt.le

/-- A quarter turn about z with a translation comes back, a pure translation does not. -/
example : matrix_exponential6 (matrix_log6 (homogeneous_from_rotation (rotz (Real.pi / 2)) ⟨![1, 2, 3]⟩)) =
      .ok (homogeneous_from_rotation (rotz (Real.pi / 2)) ⟨![1, 2, 3]⟩) ∧
    matrix_exponential6 (matrix_log6 (homogeneous_from_rotation (rotz (0 : ℝ)) ⟨![1, 2, 3]⟩)) ≠
      .ok (homogeneous_from_rotation (rotz (0 : ℝ)) ⟨![1, 2, 3]⟩) := by
  have hpi := Real.pi_gt_three
  have he := P.eps_le
  norm_num at he
  have h2 : (homogeneous_from_rotation (rotz (Real.pi / 2)) (⟨![1, 2, 3]⟩ : Vec 3 ℝ)) 2 2 = 1 := rfl
  refine ⟨(C157_matrix_log6 _ (isRigid_from (isRot_rotz _) _)).2.2 ⟨fun h => ?_, ?_⟩, fun h => ?_⟩
  · have := h.2.1
    rw [h2] at this
    linarith
  · rw [h2]
    simp only [entries, rfloat_cos, Real.cos_pi_div_two]
    norm_num
    linarith
  · have := ((C157_matrix_log6 _ (isRigid_from (isRot_rotz _) _)).2.1 h).2
    simp only [entries, rfloat_cos, Real.cos_zero] at this
    norm_num at this
    exact absurd P.eps_pos (not_lt.2 this)

/-! ## Dual quaternions -/

private theorem pow_small (x : DQuat ℝ) (h : 2 * Real.arccos x.q_real.q0 < P.eps) (e : ℝ) :
    x.pow e = DQuat.new_from_point (V3.smul x.get_translation e) := by
  have e2 : ((1 : ℝ) + 1) = 2 := by norm_num
  have hz : nearly_zero (2 * Real.arccos x.q_real.q0) = true := by
    rw [nearly_zero_eq, abs_of_nonneg (by have := Real.arccos_nonneg x.q_real.q0; linarith)]
    simpa using h
  unfold DQuat.pow
  simp only [e2, rfloat_acos, DQuat.real, Quat.real, hz, if_true]

omit P in
private theorem point_zero : (DQuat.new_from_point (V3.zero : Vec 3 ℝ)).toD = 1 := by
  have h : (DQuat.new_from_point (V3.zero : Vec 3 ℝ)).toD = (DQuat.one : DQuat ℝ).toD := by
    rw [DQuat.toD_inj, Quat.toH_inj, Quat.toH_inj]
    exact ⟨⟨rfl, rfl⟩, rfl, Vec.ext3 rfl rfl rfl⟩
  rw [h, DQuat.toD_one]

omit P in
private theorem point_motion (v : Vec 3 ℝ) : (DQuat.new_from_point v).IsMotion := by
  refine ⟨?_, ?_⟩
  · change normSq (1 : ℍ[ℝ]) = 1
    exact map_one _
  · change ((1 : ℍ[ℝ]) * star (Quat.new_imag v).toH).re = 0
    rw [one_mul, Quaternion.re_star]
    rfl

omit P in
private theorem smul_zero_vec (v : Vec 3 ℝ) : V3.smul v 0 = V3.zero := by
  refine Vec.ext3 ?_ ?_ ?_ <;> simp only [entries] <;> ring

omit P in
private theorem one_homogeneous : (DQuat.one : DQuat ℝ).to_homogeneous.toM = 1 := by
  rw [← M44.toM_one, Mat.toM_inj]
  refine Mat.ext4 ?_ ?_ ?_ ?_ ?_ ?_ ?_ ?_ ?_ ?_ ?_ ?_ ?_ ?_ ?_ ?_ <;>
    simp [DQuat.to_homogeneous, DQuat.to_rotation_translation, DQuat.get_translation, Quat.to_rotation,
      DQuat.real, DQuat.dual, DQuat.one, Quat.one, Quat.zero, Quat.mul, Quat.smul, Quat.conj, Quat.new,
      Quat.real, Quat.imag, entries]

/-- Screw interpolation from `a` to `b`. The code replaces the real part of `a` by its negative when the real
part of the product of the real parts is negative; `s` is the motion so obtained, `r` the cosine of half the
angle from `s` to `b`. The start is `a` exactly when the sign is kept or `a` does not translate, and the end
is `b` exactly when `b` is turned by at least EPSILON against `s` or is the same motion as `s`. -/
theorem C157_screw_lerp (a b s : DQuat ℝ) (ha : a.IsMotion) (hb : b.IsMotion)
    (hr : s.q_real.toH = if (a.q_real.toH * b.q_real.toH).re < 0 then -a.q_real.toH else a.q_real.toH)
    (hd : s.q_dual.toH = a.q_dual.toH) (h1 : -1 < (star s.q_real.toH * b.q_real.toH).re) :
    ∃ y0 y1, DQuat.screw_lerp a b 0 = .ok y0 ∧ DQuat.screw_lerp a b 1 = .ok y1 ∧
      (y0.to_homogeneous = a.to_homogeneous ↔
        0 ≤ (a.q_real.toH * b.q_real.toH).re ∨ a.get_translation = V3.zero) ∧
      (y1.to_homogeneous = b.to_homogeneous ↔
        P.eps ≤ 2 * Real.arccos (star s.q_real.toH * b.q_real.toH).re ∨ b.to_homogeneous = s.to_homogeneous) := by
  have hs := start_motion a b ha
  have hsr : (lerpStart a b).q_real.toH = s.q_real.toH := by
    rw [hr]
    unfold lerpStart
    split
    · change (a.q_real.smul (-1)).toH = _
      rw [Quat.toH_smul, neg_one_smul]
    · rfl
  have hsd : (lerpStart a b).q_dual.toH = s.q_dual.toH := by
    rw [hd]
    unfold lerpStart
    split <;> rfl
  have hsD : (lerpStart a b).toD = s.toD := DQuat.toD_inj.2 ⟨hsr, hsd⟩
  have hsH := homogeneous_congr hsD
  obtain ⟨y, hy, hc, hy1, hy2⟩ := motion_inverse _ hs
  have hcm : (lerpStart a b).conj.IsMotion := by
    refine ⟨?_, ?_⟩
    · change normSq (lerpStart a b).q_real.conj.toH = 1
      rw [Quat.toH_conj, Quaternion.normSq_star, hs.norm]
    · change ((lerpStart a b).q_real.conj.toH * star (lerpStart a b).q_dual.conj.toH).re = 0
      have := hs.orth
      rw [Quat.toH_conj, Quat.toH_conj]
      simp only [Quaternion.re_mul, Quaternion.re_star, Quaternion.imI_star, Quaternion.imJ_star,
        Quaternion.imK_star] at this ⊢
      linarith
  have hz : (y.mul b).IsMotion := (hcm.congr hc.symm).mul hb
  have hq0 : (y.mul b).q_real.q0 = (star s.q_real.toH * b.q_real.toH).re := by
    change (y.q_real.mul b.q_real).toH.re = _
    rw [Quat.toH_mul, (DQuat.toD_inj.1 hc).1, ← hsr, ← Quat.toH_conj]
    rfl
  -- the motion from the start to `b`
  have hbz : ((lerpStart a b).mul (y.mul b)).toD = b.toD := by
    rw [DQuat.toD_mul, DQuat.toD_mul, ← mul_assoc, hy1, one_mul]
  have hbH : b.to_homogeneous = M44.mul (lerpStart a b).to_homogeneous (y.mul b).to_homogeneous := by
    rw [← homogeneous_congr hbz, (C62_product_partial _ _ hs hz V3.zero).2.2.1]
  refine ⟨_, _, lerp_eq a b 0 y hy, lerp_eq a b 1 y hy, ?_, ?_⟩
  · -- the start
    have h0 : ((lerpStart a b).mul ((y.mul b).pow 0)).toD = (lerpStart a b).toD := by
      rw [DQuat.toD_mul]
      rcases le_or_gt P.eps (2 * Real.arccos (y.mul b).q_real.q0) with h | h
      · rw [(C67_pow_partial (y.mul b) hz (by rw [hq0]; exact h1) h).2.2.1, mul_one]
      · rw [pow_small _ h, smul_zero_vec, point_zero, mul_one]
    rw [homogeneous_congr h0, hsH]
    have tr (x : DQuat ℝ) (i : Fin 3) : x.get_translation i = x.to_homogeneous i.castSucc 3 := by
      fin_cases i <;> rfl
    by_cases hre : (a.q_real.toH * b.q_real.toH).re < 0
    · rw [if_pos hre] at hr
      have hrot : s.q_real.to_rotation = a.q_real.to_rotation := by
        have hn : -a.q_real.toH = a.q_real.neg.toH := (Quat.toH_neg _).symm
        rw [hn, Quat.toH_inj] at hr
        refine Mat.ext3 ?_ ?_ ?_ ?_ ?_ ?_ ?_ ?_ ?_ <;>
          simp only [Quat.rot00, Quat.rot01, Quat.rot02, Quat.rot10, Quat.rot11, Quat.rot12, Quat.rot20,
            Quat.rot21, Quat.rot22, hr, Quat.neg, Quat.new, V3.neg_apply] <;> ring
      have htr : s.get_translation = V3.neg a.get_translation := by
        have hn (v : Vec 3 ℝ) : (V3.neg v).toH = -v.toH := by
          rw [H_ext_iff]
          exact ⟨neg_zero.symm, rfl, rfl, rfl⟩
        rw [← Vec.toH_inj, DQuat.translation_toH, hr, hd, hn, DQuat.translation_toH, star_neg, mul_neg]
        exact Quaternion.im_neg _
      constructor
      · intro h
        have c (i : Fin 3) : a.get_translation i = 0 := by
          have e1 := tr s i
          rw [h, ← tr a i, htr, V3.neg_apply] at e1
          linarith
        exact Or.inr (Vec.ext3 (c 0) (c 1) (c 2))
      · intro h
        have h := h.resolve_left (not_le.2 hre)
        change homogeneous_from_rotation s.q_real.to_rotation s.get_translation =
          homogeneous_from_rotation a.q_real.to_rotation a.get_translation
        rw [hrot, htr, h]
        congr 1
        refine Vec.ext3 ?_ ?_ ?_ <;> simp only [entries] <;> ring
    · rw [if_neg hre] at hr
      exact ⟨fun _ => Or.inl (not_lt.1 hre), fun _ => homogeneous_congr (DQuat.toD_inj.2 ⟨hr, hd⟩)⟩
  · -- the end
    rw [← hq0]
    rcases le_or_gt P.eps (2 * Real.arccos (y.mul b).q_real.q0) with h | h
    · refine ⟨fun _ => Or.inl h, fun _ => homogeneous_congr ?_⟩
      rw [DQuat.toD_mul, (C67_pow_partial (y.mul b) hz (by rw [hq0]; exact h1) h).2.1, ← DQuat.toD_mul, hbz]
    · have hym : y.IsMotion := hcm.congr hc.symm
      have hinv : y.to_homogeneous.toM * (lerpStart a b).to_homogeneous.toM = 1 := by
        rw [← M44.toM_mul, ← (C62_product_partial y _ hym hs V3.zero).2.2.1, ← one_homogeneous]
        refine congrArg Mat.toM (homogeneous_congr ?_)
        rw [DQuat.toD_mul, hy2, DQuat.toD_one]
      have hcan (A B : Mat 4 ℝ) : M44.mul (lerpStart a b).to_homogeneous A
          = M44.mul (lerpStart a b).to_homogeneous B ↔ A = B := by
        refine ⟨fun h => ?_, fun h => by rw [h]⟩
        have := congrArg (fun M => y.to_homogeneous.toM * Mat.toM M) h
        simp only [M44.toM_mul, ← mul_assoc, hinv, one_mul] at this
        exact Mat.toM_inj.1 this
      have hp := point_motion (V3.smul (y.mul b).get_translation 1)
      have ht := (C67_pow_translation_partial (y.mul b) h 1).2
      have hone : M44.mul (lerpStart a b).to_homogeneous (DQuat.one : DQuat ℝ).to_homogeneous =
          (lerpStart a b).to_homogeneous := by
        rw [← Mat.toM_inj, M44.toM_mul, one_homogeneous, mul_one]
      have e1 : ((lerpStart a b).mul ((y.mul b).pow 1)).to_homogeneous = b.to_homogeneous ↔
          ((y.mul b).pow 1).to_homogeneous = (y.mul b).to_homogeneous := by
        rw [(C62_product_partial _ _ hs (by rw [pow_small _ h]; exact hp) V3.zero).2.2.1, hbH, hcan]
      have e2 : b.to_homogeneous = s.to_homogeneous ↔
          (y.mul b).to_homogeneous = (DQuat.one : DQuat ℝ).to_homogeneous := by
        rw [hbH, ← hsH, ← hcan (y.mul b).to_homogeneous, hone]
      rw [e1, e2, or_iff_right (not_le.2 h)]
      have tr (x : DQuat ℝ) (i : Fin 3) : x.get_translation i = x.to_homogeneous i.castSucc 3 := by
        fin_cases i <;> rfl
      have hz0 (h0 : (y.mul b).get_translation = V3.zero) :
          ((y.mul b).pow 1).to_homogeneous = (DQuat.one : DQuat ℝ).to_homogeneous := by
        refine homogeneous_congr ?_
        rw [pow_small _ h, h0, show V3.smul (V3.zero : Vec 3 ℝ) 1 = V3.zero by
          refine Vec.ext3 ?_ ?_ ?_ <;> simp only [entries] <;> ring, point_zero, DQuat.toD_one]
      constructor
      · intro hh
        have c (i : Fin 3) : (y.mul b).get_translation i = 0 := by
          have e1 := tr ((y.mul b).pow 1) i
          rw [hh, ← tr, ht, V3.smul_apply] at e1
          linarith
        rw [← hh, hz0 (Vec.ext3 (c 0) (c 1) (c 2))]
      · intro hh
        have c (i : Fin 3) : (y.mul b).get_translation i = 0 := by
          rw [tr, hh]
          fin_cases i <;> simp [DQuat.to_homogeneous, DQuat.to_rotation_translation, DQuat.get_translation,
            Quat.to_rotation, DQuat.real, DQuat.dual, DQuat.one, Quat.one, Quat.zero, Quat.mul, Quat.smul,
            Quat.conj, Quat.new, Quat.real, Quat.imag, entries]
        rw [hh, hz0 (Vec.ext3 (c 0) (c 1) (c 2))]

/-- From the identity to itself: the hypotheses hold, and both ends are right although the turn is below
EPSILON. -/
example : ∃ y0 y1, DQuat.screw_lerp (DQuat.one : DQuat ℝ) DQuat.one 0 = .ok y0 ∧
    DQuat.screw_lerp (DQuat.one : DQuat ℝ) DQuat.one 1 = .ok y1 ∧
    y0.to_homogeneous = (DQuat.one : DQuat ℝ).to_homogeneous ∧ y1.to_homogeneous = (DQuat.one : DQuat ℝ).to_homogeneous := by
  have hm : (DQuat.one : DQuat ℝ).IsMotion := ((C64_flags_partial DQuat.one).2.2.1).flag rfl
  have e : (DQuat.one : DQuat ℝ).q_real.toH = 1 := rfl
  have h1 : ¬ ((DQuat.one : DQuat ℝ).q_real.toH * (DQuat.one : DQuat ℝ).q_real.toH).re < 0 := by
    rw [e, mul_one]
    norm_num
  obtain ⟨y0, y1, a0, a1, b0, b1⟩ := C157_screw_lerp DQuat.one DQuat.one DQuat.one hm hm (if_neg h1).symm rfl (by
    rw [e, mul_one, star_one]; norm_num)
  exact ⟨y0, y1, a0, a1, b0.2 (Or.inl (not_lt.1 h1)), b1.2 (Or.inr rfl)⟩

/-- `is_normalized` looks at the flag and at the norm of the real part only: as long as no component of the dual
part is so large that three times it overflows, it answers true exactly for flagged values, real parts of norm
below EPSILON, and norms `n` with `|n - 1| < EPSILON (n + 1)`. It says nothing about the dual part being
orthogonal to the real part. -/
theorem C157_is_normalized (x : DQuat ℝ) (h0 : 3 * |x.q_dual.q0| ≤ P.maxVal) (hq : ∀ i, 3 * |x.q_dual.q i| ≤ P.maxVal) :
    x.is_normalized = true ↔ x.normalized = true ∨ ‖x.q_real.toH‖ < P.eps ∨
      |‖x.q_real.toH‖ - 1| < P.eps * (‖x.q_real.toH‖ + 1) := by
  have he := P.eps_pos
  have he1 := P.eps_le
  norm_num at he1
  have hM : (3 : ℝ) ≤ P.maxVal := le_trans (by norm_num) P.maxVal_ge
  have hn : x.q_real.norm2 = ‖x.q_real.toH‖ := by
    rw [Quat.norm2_eq, Quaternion.normSq_eq_norm_mul_self, Real.sqrt_mul_self (norm_nonneg _)]
  have hn0 := norm_nonneg x.q_real.toH
  unfold DQuat.is_normalized
  have hd0 : (x.q_dual.sdiv ‖x.q_real.toH‖).q0 = x.q_dual.q0 / ‖x.q_real.toH‖ := rfl
  have hdi (i : Fin 3) : (x.q_dual.sdiv ‖x.q_real.toH‖).q i = x.q_dual.q i / ‖x.q_real.toH‖ := V3.sdiv_apply _ _ _
  simp only [DQuat.real, DQuat.dual, Quat.real, Quat.imag, hn, rfloat_epsilon, hd0, hdi]
  generalize ‖x.q_real.toH‖ = n at *
  by_cases hf : x.normalized = true
  · simp [hf]
  rw [Bool.not_eq_true] at hf
  simp only [hf, Bool.false_eq_true, if_false, false_or, nearly_zero_eq, abs_of_nonneg hn0]
  by_cases hlt : n < P.eps
  · simp [hlt]
  simp only [hlt, decide_false, Bool.false_eq_true, if_false, false_or, Bool.and_eq_true]
  rw [not_lt] at hlt
  have hnp : 0 < n := lt_of_lt_of_le he hlt
  have key : nearly_equal n 1 P.eps = true ↔ |n - 1| < P.eps * (n + 1) := by
    rw [C35_nearly_equal, abs_of_nonneg hn0, abs_one]
    constructor
    · rintro (h | ⟨h | h, -⟩ | ⟨-, -, h⟩)
      · rw [h]; norm_num; linarith
      · exact absurd h hnp.ne'
      · norm_num at h
      · exact lt_of_lt_of_le h (mul_le_mul_of_nonneg_left (min_le_left _ _) he.le)
    · intro h
      have h4 : n - 1 ≤ |n - 1| := le_abs_self _
      have h5 : n ≤ 2 := by nlinarith
      refine Or.inr (Or.inr ⟨hnp.ne', one_ne_zero, ?_⟩)
      rwa [min_eq_left (by linarith)]
  have comp (d : ℝ) (hd : 3 * |d| ≤ P.maxVal) (h : |n - 1| < P.eps * (n + 1)) : nearly_equal (d / n) d P.eps = true := by
    rw [C35_nearly_equal]
    by_cases hd0 : d = 0
    · left; rw [hd0, zero_div]
    refine Or.inr (Or.inr ⟨div_ne_zero hd0 hnp.ne', hd0, ?_⟩)
    have hlo : 1 / 2 ≤ n := by
      have := (abs_lt.1 h).1
      nlinarith
    have e1 : d / n - d = -(d / n) * (n - 1) := by field_simp; ring
    have hdn : |d / n| ≤ 2 * |d| := by
      rw [abs_div, abs_of_pos hnp, div_le_iff₀ hnp]
      nlinarith [abs_nonneg d]
    rw [min_eq_left (by linarith), e1, abs_mul, abs_neg]
    have e2 : |d| = |d / n| * n := by rw [abs_div, abs_of_pos hnp]; field_simp
    have hp : 0 < |d / n| := abs_pos.2 (div_ne_zero hd0 hnp.ne')
    calc |d / n| * |n - 1| < |d / n| * (P.eps * (n + 1)) := mul_lt_mul_of_pos_left h hp
      _ = P.eps * (|d / n| + |d / n| * n) := by ring
      _ = P.eps * (|d / n| + |d|) := by rw [← e2]
  rw [key]
  exact ⟨fun h => h.1, fun h => ⟨h, ⟨⟨comp _ h0 h, comp _ (hq 0) h⟩, comp _ (hq 1) h⟩, comp _ (hq 2) h⟩⟩

/-- A dual quaternion with parts that are not orthogonal passes, `1 + ε`. -/
example : (⟨Quat.one, Quat.one, false⟩ : DQuat ℝ).is_normalized = true ∧ ¬ (⟨Quat.one, Quat.one, false⟩ : DQuat ℝ).IsMotion := by
  have hM : (3 : ℝ) ≤ P.maxVal := le_trans (by norm_num) P.maxVal_ge
  constructor
  · refine (C157_is_normalized _ ?_ fun i => ?_).2 (Or.inr (Or.inr ?_))
    · change 3 * |(1 : ℝ)| ≤ _
      rw [abs_one]; linarith
    · have : (⟨Quat.one, Quat.one, false⟩ : DQuat ℝ).q_dual.q i = 0 := by fin_cases i <;> rfl
      rw [this, abs_zero]; linarith
    · rw [show (⟨Quat.one, Quat.one, false⟩ : DQuat ℝ).q_real.toH = 1 from rfl, norm_one, sub_self, abs_zero]
      linarith [P.eps_pos]
  · intro h
    have := (DQuat.isMotion_iff.1 h).2
    change (1 : ℝ) * 1 + 0 * 0 + 0 * 0 + 0 * 0 = 0 at this
    norm_num at this

/-- `inverse` of a value flagged as normalized is a two-sided inverse exactly when the value is a unit dual
quaternion. -/
theorem C157_inverse_flagged (x : DQuat ℝ) (hf : x.normalized = true) :
    ∃ y, x.inverse = .ok y ∧ (x.toD * y.toD = 1 ↔ x.IsMotion) ∧ (y.toD * x.toD = 1 ↔ x.IsMotion) := by
  have hc : x.conj.q_real.toH = star x.q_real.toH ∧ x.conj.q_dual.toH = star x.q_dual.toH :=
    ⟨Quat.toH_conj _, Quat.toH_conj _⟩
  refine ⟨x.conj, by unfold DQuat.inverse; rw [if_pos hf]; rfl, ?_, ?_⟩
  · refine ⟨fun h => ?_, fun h => by rw [← DQuat.toD_mul]; exact h.mul_conj.1⟩
    have h1 := congrArg (fun d => (TrivSqZeroExt.fst d).re) h
    have h2 := congrArg (fun d => (TrivSqZeroExt.snd d).re) h
    simp [DQuat.toD_fst, DQuat.toD_snd, hc.1, hc.2, Quat.toH_re, Quat.toH_imI, Quat.toH_imJ, Quat.toH_imK] at h1 h2
    rw [DQuat.isMotion_iff]
    constructor
    · linarith
    · linarith
  · refine ⟨fun h => ?_, fun h => by rw [← DQuat.toD_mul]; exact h.mul_conj.2⟩
    have h1 := congrArg (fun d => (TrivSqZeroExt.fst d).re) h
    have h2 := congrArg (fun d => (TrivSqZeroExt.snd d).re) h
    simp [DQuat.toD_fst, DQuat.toD_snd, hc.1, hc.2, Quat.toH_re, Quat.toH_imI, Quat.toH_imJ, Quat.toH_imK] at h1 h2
    rw [DQuat.isMotion_iff]
    constructor
    · linarith
    · linarith

/-- The half turn about x with the wrong scale, built by `new_from_rotation`, is flagged and not a unit. -/
example : (DQuat.new_from_rotation (Quat.new_from 0 2 0 0 : Quat ℝ)).normalized = true ∧
    ∃ y, (DQuat.new_from_rotation (Quat.new_from 0 2 0 0 : Quat ℝ)).inverse = .ok y ∧
      (DQuat.new_from_rotation (Quat.new_from 0 2 0 0 : Quat ℝ)).toD * y.toD ≠ 1 := by
  obtain ⟨y, h1, h2, -⟩ := C157_inverse_flagged (DQuat.new_from_rotation (Quat.new_from 0 2 0 0 : Quat ℝ)) rfl
  refine ⟨rfl, y, h1, fun h => ?_⟩
  have := (DQuat.isMotion_iff.1 (h2.1 h)).1
  change (0 : ℝ) ^ 2 + 2 ^ 2 + 0 ^ 2 + 0 ^ 2 = 1 at this
  norm_num at this

end Reals

/-! ## Comparison of slices -/

/-- `compare_vecs` compares the common prefix: equal exactly when the elements at every position that exists in
both slices are nearly equal. -/
theorem C157_compare_vecs {T : Type} [Add T] [Sub T] [Div T] [Zero T] [RAbs T] [ROrd T] [RFloat T]
    (v w : List T) (eps : T) :
    compare_vecs v w eps = true ↔
      ∀ (i : ℕ) (hv : i < v.length) (hw : i < w.length), nearly_equal v[i] w[i] eps = true := by
  rw [compare_vecs, List.all_eq_true]
  constructor
  · intro H i hv hw
    refine H _ (List.mem_map.2 ⟨(v[i], w[i]), ?_, rfl⟩)
    refine List.mem_iff_getElem?.2 ⟨i, ?_⟩
    rw [List.getElem?_zip_eq_some]
    exact ⟨List.getElem?_eq_getElem hv, List.getElem?_eq_getElem hw⟩
  · intro H x hx
    obtain ⟨⟨a, b⟩, hab, rfl⟩ := List.mem_map.1 hx
    obtain ⟨i, hi⟩ := List.mem_iff_getElem?.1 hab
    rw [List.getElem?_zip_eq_some] at hi
    obtain ⟨hv, ea⟩ := List.getElem?_eq_some_iff.1 hi.1
    obtain ⟨hw, eb⟩ := List.getElem?_eq_some_iff.1 hi.2
    have := H i hv hw
    rwa [ea, eb] at this

/-- The empty slice compares equal to every slice. -/
example [RealParams] (w : List ℝ) (eps : ℝ) : compare_vecs [] w eps = true :=
  (C157_compare_vecs _ _ _).2 fun i hv _ => absurd hv (Nat.not_lt_zero i)

end StaticMath
