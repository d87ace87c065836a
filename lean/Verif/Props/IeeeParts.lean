import Verif.Props.IeeeEuler
import Verif.Props.IeeeFromRot
import Verif.Props.QuatRotation

/-!
# C140: quaternions and poses through their Euler angles, in floating point
-/

namespace StaticMath
open Flt Quaternion

/-- Two unit quaternions whose rotations are close are close up to sign. -/
theorem quat_near_of_rot (p q : Quat ℝ) (hp : normSq p.toH = 1) (hq : normSq q.toH = 1) {e : ℝ}
    (h : ∀ i j, |p.to_rotation i j - q.to_rotation i j| ≤ e) :
    ∃ s : ℝ, (s = 1 ∨ s = -1) ∧ ∀ i, |p.comp i - s * q.comp i| ≤ 3 / 2 * e := by
  have he : 0 ≤ e := (abs_nonneg _).trans (h 0 0)
  rw [Quat.unit_iff] at hp hq
  obtain ⟨d, hd⟩ : ∃ d, d = p.q0 * q.q0 + p.q 0 * q.q 0 + p.q 1 * q.q 1 + p.q 2 * q.q 2 := ⟨_, rfl⟩
  have key : 8 * (1 - d ^ 2) ≤ 9 * e ^ 2 := by
    have k (i j : Fin 3) : (p.to_rotation i j - q.to_rotation i j) ^ 2 ≤ e ^ 2 :=
      sq_le_sq' (_root_.abs_le.1 (h i j)).1 (_root_.abs_le.1 (h i j)).2
    have id : (p.to_rotation 0 0 - q.to_rotation 0 0) ^ 2 + (p.to_rotation 0 1 - q.to_rotation 0 1) ^ 2 +
        (p.to_rotation 0 2 - q.to_rotation 0 2) ^ 2 + (p.to_rotation 1 0 - q.to_rotation 1 0) ^ 2 +
        (p.to_rotation 1 1 - q.to_rotation 1 1) ^ 2 + (p.to_rotation 1 2 - q.to_rotation 1 2) ^ 2 +
        (p.to_rotation 2 0 - q.to_rotation 2 0) ^ 2 + (p.to_rotation 2 1 - q.to_rotation 2 1) ^ 2 +
        (p.to_rotation 2 2 - q.to_rotation 2 2) ^ 2 =
        3 * (p.q0 ^ 2 + p.q 0 ^ 2 + p.q 1 ^ 2 + p.q 2 ^ 2) ^ 2 + 3 * (q.q0 ^ 2 + q.q 0 ^ 2 + q.q 1 ^ 2 + q.q 2 ^ 2) ^ 2 -
        8 * d ^ 2 + 2 * (p.q0 ^ 2 + p.q 0 ^ 2 + p.q 1 ^ 2 + p.q 2 ^ 2) * (q.q0 ^ 2 + q.q 0 ^ 2 + q.q 1 ^ 2 + q.q 2 ^ 2) := by
      rw [hd]
      rw [Quat.rot00, Quat.rot01, Quat.rot02, Quat.rot10, Quat.rot11, Quat.rot12, Quat.rot20, Quat.rot21, Quat.rot22,
        Quat.rot00, Quat.rot01, Quat.rot02, Quat.rot10, Quat.rot11, Quat.rot12, Quat.rot20, Quat.rot21, Quat.rot22]
      ring
    rw [hp, hq] at id
    linarith [k 0 0, k 0 1, k 0 2, k 1 0, k 1 1, k 1 2, k 2 0, k 2 1, k 2 2]
  have fin (s : ℝ) (hs : s ^ 2 = 1) (hsd : 0 ≤ s * d) (i : Fin 4) : |p.comp i - s * q.comp i| ≤ 3 / 2 * e := by
    have sum : (p.q0 - s * q.q0) ^ 2 + (p.q 0 - s * q.q 0) ^ 2 + (p.q 1 - s * q.q 1) ^ 2 + (p.q 2 - s * q.q 2) ^ 2 = 2 - 2 * (s * d) := by
      rw [hd]
      linear_combination hp + s ^ 2 * hq + hs
    have s0 := sq_nonneg (p.q0 - s * q.q0)
    have s1 := sq_nonneg (p.q 0 - s * q.q 0)
    have s2 := sq_nonneg (p.q 1 - s * q.q 1)
    have s3 := sq_nonneg (p.q 2 - s * q.q 2)
    have hd2 : (s * d) ^ 2 = d ^ 2 := by rw [mul_pow, hs, one_mul]
    have tot : 2 - 2 * (s * d) ≤ (3 / 2 * e) ^ 2 := by nlinarith
    refine abs_le_of_sq_le_sq ?_ (by linarith)
    fin_cases i
    · change (p.q0 - s * q.q0) ^ 2 ≤ _; linarith
    · change (p.q 0 - s * q.q 0) ^ 2 ≤ _; linarith
    · change (p.q 1 - s * q.q 1) ^ 2 ≤ _; linarith
    · change (p.q 2 - s * q.q 2) ^ 2 ≤ _; linarith
  rcases le_total 0 d with h0 | h0
  · exact ⟨1, Or.inl rfl, fin 1 (by norm_num) (by linarith)⟩
  · exact ⟨-1, Or.inr rfl, fin (-1) (by norm_num) (by linarith)⟩

section
variable {f : Fmt}

private theorem small_pow3 (u ε η : ℝ) (hu : 0 ≤ u) (hu2 : u ≤ 1 / 256) (hε : 0 ≤ ε) (hε2 : ε ≤ 1 / 64) (hη : 0 ≤ η)
    (hη2 : η ≤ u * u) : 2 * ((1 + u) ^ 3 * (1 + (ε + η)) ^ 3 - 1) + (1 + u) ^ 3 * (η * 6) ≤ 7 * ε + 7 * u := by
  have hη3 : η ≤ 1 / 256 * u := hη2.trans (mul_le_mul_of_nonneg_right hu2 hu)
  have h1 : (1 + u) ^ 3 ≤ 1 + 3.02 * u := by
    have h2 : (1 + u) ^ 2 ≤ 1 + 2.004 * u := by nlinarith
    nlinarith
  have h4 : (1 + (ε + η)) ^ 3 ≤ 1 + 3.06 * (ε + η) := by
    have hw : ε + η ≤ 1 / 60 := by linarith
    have hw0 : 0 ≤ ε + η := by linarith
    generalize ε + η = w at hw hw0
    have h5 : (1 + w) ^ 2 ≤ 1 + (2 + 1 / 60) * w := by nlinarith
    nlinarith
  have h6 := mul_le_mul h1 h4 (by positivity) (by positivity)
  have h7 : (1 + u) ^ 3 * (η * 6) ≤ 2 * (η * 6) := mul_le_mul_of_nonneg_right (by linarith) (by linarith)
  nlinarith

/-- The quaternion of three float angles. -/
theorem Quat.euler_near [Libm f] [RealParams] (hp : 9 ≤ f.p) {ε : ℝ} (hsc : SinCosAcc f ε) (hε1 : ε ≤ 1 / 64) (y p r : Flt f)
    (hy : y.IsFin) (hp' : p.IsFin) (hr : r.IsFin) (i : Fin 4) :
    ((Quat.from_euler_angles y p r).comp i).IsFin ∧
    |((Quat.from_euler_angles y p r).comp i).toReal - (Quat.from_euler_angles y.toReal p.toReal r.toReal).comp i| ≤
      7 * ε + 7 * f.u := by
  have hu := f.u_pos
  have hu2 := Fmt.u_le_of_p (by omega : 8 ≤ f.p)
  have hη := f.eta_le_sq
  have hη0 := f.eta_pos
  have hε0 : 0 ≤ ε := acc_nonneg hsc
  have hE := small_pow3 f.u ε f.eta hu.le hu2 hε0 hε1 hη0.le hη
  obtain ⟨h0, h1⟩ := C109_quaternion_euler hsc (by nlinarith) (by have := f.hmax; omega) y p r hy hp' hr
  fin_cases i
  · exact ⟨h0.1, h0.2.trans hE⟩
  · exact ⟨(h1 0).1, (h1 0).2.trans hE⟩
  · exact ⟨(h1 1).1, (h1 1).2.trans hE⟩
  · exact ⟨(h1 2).1, (h1 2).2.trans hE⟩

/-- The quaternion of the Euler angles of a float matrix. -/
private theorem through_euler [Libm f] [RealParams] (hp : 9 ≤ f.p) {δ ε : ℝ} (hsc : SinCosAcc f ε) (hA2 : Atan2Turn f ε)
    (hπ : FracPi2Acc f ε) (R : Mat 3 ℝ) (hR : IsRot R) (A : Mat 3 (Flt f)) (hA : ∀ i j, (A i j).IsFin ∧ |(A i j).toReal - R i j| ≤ δ)
    (hs : 64 * (δ + ε + f.u) ≤ √(R 0 0 ^ 2 + R 1 0 ^ 2)) :
    let e := rotation_to_euler A
    let q := Quat.from_euler_angles e.1 e.2.1 e.2.2
    (e.1.IsFin ∧ e.2.1.IsFin ∧ e.2.2.IsFin) ∧
    (∀ i j, (q.to_rotation i j).IsFin ∧
      |(q.to_rotation i j).toReal - R i j| ≤ 18 * δ / √(R 0 0 ^ 2 + R 1 0 ^ 2) + 40 * ε + 88 * f.u) ∧
    ∀ p : Quat ℝ, normSq p.toH = 1 → p.to_rotation = R → ∃ s : ℝ, (s = 1 ∨ s = -1) ∧
      ∀ i, (q.comp i).IsFin ∧
        |(q.comp i).toReal - s * p.comp i| ≤ 27 * δ / √(R 0 0 ^ 2 + R 1 0 ^ 2) + 15 * ε + 62 * f.u := by
  intro e q
  obtain ⟨fy, fp, fr, h⟩ := C134_rotation_to_euler_partial (by omega) hA2 hπ R hR A hA hs
  change ∀ i j, |euler_to_rotation e.1.toReal e.2.1.toReal e.2.2.toReal none i j - R i j| ≤ _ at h
  change e.1.IsFin at fy
  change e.2.1.IsFin at fp
  change e.2.2.IsFin at fr
  have hu := f.u_pos
  have hε0 : 0 ≤ ε := acc_nonneg hsc
  have hδ0 : 0 ≤ δ := (abs_nonneg _).trans (hA 0 0).2
  obtain ⟨s, hs'⟩ : ∃ s, s = √(R 0 0 ^ 2 + R 1 0 ^ 2) := ⟨_, rfl⟩
  have hs1 : s ≤ 1 := by
    rw [hs', Real.sqrt_le_iff]
    refine ⟨zero_le_one, ?_⟩
    obtain ⟨-, -, -, -, -, -, c00, -⟩ := SO3Rels.of_mem hR
    nlinarith [sq_nonneg (R 2 0)]
  rw [← hs'] at hs h ⊢
  have hε1 : ε ≤ 1 / 64 := by linarith
  have hq (i : Fin 4) := Quat.euler_near hp hsc hε1 e.1 e.2.1 e.2.2 fy fp fr i
  obtain ⟨c1, c2, -⟩ := C53_from_euler_angles e.1.toReal e.2.1.toReal e.2.2.toReal
  obtain ⟨q', hq'⟩ : ∃ q', q' = Quat.from_euler_angles e.1.toReal e.2.1.toReal e.2.2.toReal := ⟨_, rfl⟩
  rw [← hq'] at c1 c2 hq
  rw [← c2] at h
  refine ⟨⟨fy, fp, fr⟩, fun i j => ?_, fun p hp1 hpR => ?_⟩
  · obtain ⟨g1, g2⟩ := C126_to_rotation (by omega) q q' _ (by linarith) c1 hq i j
    refine ⟨g1, (abs_sub_le _ (q'.to_rotation i j) _).trans ?_⟩
    linarith [h i j]
  · obtain ⟨t, ht, k⟩ := quat_near_of_rot q' p c1 hp1 (by rw [hpR]; exact h)
    refine ⟨t, ht, fun i => ⟨(hq i).1, (abs_sub_le _ (q'.comp i) _).trans ?_⟩⟩
    have e1 : 27 * δ / s = 3 / 2 * (18 * δ / s) := by ring
    rw [e1]
    linarith [k i, (hq i).2]

/-- Missing with respect to C140: poses closer to gimbal lock than `64 (δ + ε + u)` (`C140_near_gimbal_lock_false`).

A float pose whose rotation block is within `δ` of a rotation `R` whose pitch has cosine `s = √(R₀₀² + R₁₀²)`: `get_parts`
returns the translation bit for bit and a quaternion flagged as normalized; the quaternion is, up to sign, within
`27 δ / s + 15 ε + 62 u` of each unit quaternion of `R`, and the matrix it converts to within `18 δ / s + 40 ε + 88 u` of `R`. -/
theorem C140_get_parts_partial [Libm f] [RealParams] (hp : 9 ≤ f.p) {δ ε : ℝ} (hsc : SinCosAcc f ε) (hA2 : Atan2Turn f ε)
    (hπ : FracPi2Acc f ε) (R : Mat 3 ℝ) (hR : IsRot R) (A : Mat 4 (Flt f))
    (hA : ∀ i j : Fin 3, (A i.castSucc j.castSucc).IsFin ∧ |(A i.castSucc j.castSucc).toReal - R i j| ≤ δ)
    (hs : 64 * (δ + ε + f.u) ≤ √(R 0 0 ^ 2 + R 1 0 ^ 2)) :
    let q := (get_parts A).1
    (∀ i : Fin 3, (get_parts A).2 i = A i.castSucc 3) ∧ q.normalized = true ∧
    (∀ i j, (q.to_rotation i j).IsFin ∧
      |(q.to_rotation i j).toReal - R i j| ≤ 18 * δ / √(R 0 0 ^ 2 + R 1 0 ^ 2) + 40 * ε + 88 * f.u) ∧
    ∀ p : Quat ℝ, normSq p.toH = 1 → p.to_rotation = R → ∃ s : ℝ, (s = 1 ∨ s = -1) ∧
      ∀ i, (q.comp i).IsFin ∧
        |(q.comp i).toReal - s * p.comp i| ≤ 27 * δ / √(R 0 0 ^ 2 + R 1 0 ^ 2) + 15 * ε + 62 * f.u := by
  intro q
  obtain ⟨-, h1, h2⟩ := through_euler hp hsc hA2 hπ R hR A.block3 hA hs
  have e : A.block3 = ⟨![![A 0 0, A 0 1, A 0 2], ![A 1 0, A 1 1, A 1 2], ![A 2 0, A 2 1, A 2 2]]⟩ :=
    Mat.ext3 rfl rfl rfl rfl rfl rfl rfl rfl rfl
  rw [e] at h1 h2
  exact ⟨fun i => by fin_cases i <;> rfl, rfl, h1, h2⟩

/-- Missing with respect to C140: quaternions closer to gimbal lock than `64 (5 δ + ε + 18 u)`.

A float quaternion within `δ` of a unit quaternion `q'`: its three Euler angles are finite, and the quaternion built from them
is `q'` up to sign, within `(135 δ + 459 u) / s + 15 ε + 62 u`, where `s` is the cosine of the pitch. -/
theorem C140_to_euler_angles_partial [Libm f] [RealParams] (hp : 9 ≤ f.p) {δ ε : ℝ} (hsc : SinCosAcc f ε) (hA2 : Atan2Turn f ε)
    (hπ : FracPi2Acc f ε) (q : Quat (Flt f)) (q' : Quat ℝ) (h1 : normSq q'.toH = 1)
    (hq : ∀ i, (q.comp i).IsFin ∧ |(q.comp i).toReal - q'.comp i| ≤ δ)
    (hs : 64 * (5 * δ + ε + 18 * f.u) ≤ √(q'.to_rotation 0 0 ^ 2 + q'.to_rotation 1 0 ^ 2)) :
    let e := q.to_euler_angles
    let r := Quat.from_euler_angles e.1 e.2.1 e.2.2
    (e.1.IsFin ∧ e.2.1.IsFin ∧ e.2.2.IsFin) ∧ ∃ s : ℝ, (s = 1 ∨ s = -1) ∧ ∀ i, (r.comp i).IsFin ∧
      |(r.comp i).toReal - s * q'.comp i| ≤
        (135 * δ + 459 * f.u) / √(q'.to_rotation 0 0 ^ 2 + q'.to_rotation 1 0 ^ 2) + 15 * ε + 62 * f.u := by
  have hu := f.u_pos
  have hε0 : 0 ≤ ε := acc_nonneg hsc
  have hδ0 : 0 ≤ δ := (abs_nonneg _).trans (hq 0).2
  obtain ⟨m1, m2, -⟩ := C48_to_rotation q' q' h1
  have hR : IsRot q'.to_rotation := (mem_SO3_iff _).2 ⟨m1, m2⟩
  have hs1 : √(q'.to_rotation 0 0 ^ 2 + q'.to_rotation 1 0 ^ 2) ≤ 1 := by
    rw [Real.sqrt_le_iff]
    refine ⟨zero_le_one, ?_⟩
    obtain ⟨-, -, -, -, -, -, c00, -⟩ := SO3Rels.of_mem hR
    nlinarith [sq_nonneg (q'.to_rotation 2 0)]
  have hm := C126_to_rotation (by omega) q q' δ (by linarith) h1 hq
  obtain ⟨g1, -, g2⟩ := through_euler hp hsc hA2 hπ q'.to_rotation hR q.to_rotation hm (by linarith)
  obtain ⟨s, hs2, g3⟩ := g2 q' h1 rfl
  have e : 27 * (5 * δ + 17 * f.u) = 135 * δ + 459 * f.u := by ring
  rw [e] at g3
  exact ⟨g1, s, hs2, g3⟩

/-- What C140 would claim without restriction is false: close to gimbal lock the quaternion of `get_parts` may describe another
rotation. For every format of 11 bits or more and every library accurate to `4 u` there is a float pose whose rotation block is
within `32 u` of a rotation, and the matrix of the quaternion `get_parts` returns is off by more than `1/2` in an entry. -/
theorem C140_near_gimbal_lock_false [Libm f] [RealParams] (hp : 11 ≤ f.p) (hsc : SinCosAcc f (4 * f.u)) (hA2 : Atan2Turn f (4 * f.u))
    (hπ : FracPi2Acc f (4 * f.u)) :
    ∃ (R : Mat 3 ℝ) (A : Mat 4 (Flt f)), IsRot R ∧
      (∀ i j : Fin 3, (A i.castSucc j.castSucc).IsFin ∧ |(A i.castSucc j.castSucc).toReal - R i j| ≤ 32 * f.u) ∧
      ((get_parts A).1.to_rotation 0 2).IsFin ∧ 1 / 2 < |((get_parts A).1.to_rotation 0 2).toReal - R 0 2| := by
  obtain ⟨R, A, hR, hA, fy, fp, fr, h⟩ := C134_near_gimbal_lock_false hp hA2 hπ
  have hu := f.u_pos
  have hu2 : f.u ≤ 1 / 2048 := by
    unfold Fmt.u
    calc (2 : ℝ) ^ (-(f.p : ℤ)) ≤ 2 ^ (-11 : ℤ) := zpow_le_zpow_right₀ (by norm_num) (by omega)
      _ = _ := by norm_num
  have hq (i : Fin 4) := Quat.euler_near (by omega) hsc (by linarith) _ _ _ fy fp fr i
  obtain ⟨c1, c2, -⟩ := C53_from_euler_angles (rotation_to_euler A).1.toReal (rotation_to_euler A).2.1.toReal
    (rotation_to_euler A).2.2.toReal
  obtain ⟨g1, g2⟩ := C126_to_rotation (by omega) _ _ _ (by linarith) c1 hq 0 2
  rw [c2] at g2
  have e : (⟨![![A 0 0, A 0 1, A 0 2], ![A 1 0, A 1 1, A 1 2], ![A 2 0, A 2 1, A 2 2]]⟩ : Mat 3 (Flt f)) = A :=
    Mat.ext3 rfl rfl rfl rfl rfl rfl rfl rfl rfl
  refine ⟨R, homogeneous_from_rotation A V3.zero, hR, fun i j => ?_, ?_⟩
  · have e1 : homogeneous_from_rotation A V3.zero i.castSucc j.castSucc = A i j := by
      fin_cases i <;> fin_cases j <;> rfl
    rw [e1]
    exact hA i j
  · have e2 : (get_parts (homogeneous_from_rotation A V3.zero)).1 = Quat.from_euler_angles (rotation_to_euler A).1
        (rotation_to_euler A).2.1 (rotation_to_euler A).2.2 := by
      conv_rhs => rw [← e]
      rfl
    rw [e2]
    refine ⟨g1, ?_⟩
    have k := abs_sub_le (euler_to_rotation (rotation_to_euler A).1.toReal (rotation_to_euler A).2.1.toReal
      (rotation_to_euler A).2.2.toReal none 0 2) ((Quat.from_euler_angles (rotation_to_euler A).1
        (rotation_to_euler A).2.1 (rotation_to_euler A).2.2).to_rotation 0 2).toReal (R 0 2)
    rw [abs_sub_comm] at g2
    linarith

end

private theorem correctLibm_sin_cos4 {f : Fmt} (hp : 8 ≤ f.p) : @SinCosAcc f (correctLibm f) (4 * f.u) := by
  let := correctLibm f
  have hu := f.u_pos
  have h := correctLibm_sin_cos hp
  exact ⟨fun x hx => ⟨(h.sin x hx).1, (h.sin x hx).2.trans (by linarith)⟩,
    fun x hx => ⟨(h.cos x hx).1, (h.cos x hx).2.trans (by linarith)⟩⟩

private theorem u32 : Fmt.f32.u ≤ 1 / 2 ^ 20 := by
  change (2 : ℝ) ^ (-24 : ℤ) ≤ _
  norm_num

/-- The hypotheses can be met: the half turn about the `z` axis moved to `(1, 2, 3)`, a pose of floats, in `f32` with a correctly
rounded library. The quaternion returned is `k` up to sign, within `122 u`. -/
example : letI := correctLibm Fmt.f32
    let A : Mat 4 (Flt Fmt.f32) := ⟨![![-1, 0, 0, 1], ![0, -1, 0, 1 + 1], ![0, 0, 1, 1 + 1 + 1], ![0, 0, 0, 1]]⟩
    let q := (get_parts A).1
    (get_parts A).2 1 = 1 + 1 ∧ ∃ s : ℝ, (s = 1 ∨ s = -1) ∧
      |q.q0.toReal| ≤ 122 * Fmt.f32.u ∧ |(q.q 2).toReal - s| ≤ 122 * Fmt.f32.u := by
  let := correctLibm Fmt.f32
  let _ : RealParams := f64Params
  intro A q
  have hp : 8 ≤ Fmt.f32.p := by decide
  have hu := Fmt.f32.u_pos
  have hu2 := u32
  let k : Quat ℝ := ⟨0, ⟨![0, 0, 1]⟩, false⟩
  have k0 : k.q0 = 0 := rfl
  have k1 : k.q 0 = 0 := rfl
  have k2 : k.q 1 = 0 := rfl
  have k3 : k.q 2 = 1 := rfl
  have hk : normSq k.toH = 1 := by rw [Quat.unit_iff, k0, k1, k2, k3]; norm_num
  have hR : IsRot k.to_rotation := by
    obtain ⟨m1, m2, -⟩ := C48_to_rotation k k hk
    exact (mem_SO3_iff _).2 ⟨m1, m2⟩
  have eR : k.to_rotation = ⟨![![-1, 0, 0], ![0, -1, 0], ![0, 0, 1]]⟩ := by
    refine Mat.ext3 ?_ ?_ ?_ ?_ ?_ ?_ ?_ ?_ ?_
    · rw [Quat.rot00, k0, k1, k2, k3]; change _ = (-1 : ℝ); norm_num
    · rw [Quat.rot01, k0, k1, k2, k3]; change _ = (0 : ℝ); norm_num
    · rw [Quat.rot02, k0, k1, k2, k3]; change _ = (0 : ℝ); norm_num
    · rw [Quat.rot10, k0, k1, k2, k3]; change _ = (0 : ℝ); norm_num
    · rw [Quat.rot11, k0, k1, k2, k3]; change _ = (-1 : ℝ); norm_num
    · rw [Quat.rot12, k0, k1, k2, k3]; change _ = (0 : ℝ); norm_num
    · rw [Quat.rot20, k0, k1, k2, k3]; change _ = (0 : ℝ); norm_num
    · rw [Quat.rot21, k0, k1, k2, k3]; change _ = (0 : ℝ); norm_num
    · rw [Quat.rot22, k0, k1, k2, k3]; change _ = (1 : ℝ); norm_num
  have hs : √(k.to_rotation 0 0 ^ 2 + k.to_rotation 1 0 ^ 2) = 1 := by
    rw [eR]
    change √((-1 : ℝ) ^ 2 + 0 ^ 2) = 1
    norm_num
  have hA (i j : Fin 3) : (A i.castSucc j.castSucc).IsFin ∧ |(A i.castSucc j.castSucc).toReal - k.to_rotation i j| ≤ 0 := by
    have z : |(0 : Flt Fmt.f32).toReal - 0| ≤ 0 := by rw [toReal_zero, sub_zero, abs_zero]
    have o : |(1 : Flt Fmt.f32).toReal - 1| ≤ 0 := by rw [toReal_one, sub_self, abs_zero]
    have m : |(-1 : Flt Fmt.f32).toReal - -1| ≤ 0 := by rw [toReal_neg, toReal_one, sub_self, abs_zero]
    rw [eR]
    fin_cases i <;> fin_cases j <;> first | exact ⟨trivial, z⟩ | exact ⟨trivial, o⟩ | exact ⟨trivial, m⟩
  obtain ⟨h1, -, -, h2⟩ := C140_get_parts_partial (f := Fmt.f32) (by decide) (correctLibm_sin_cos4 hp) (correctLibm_turn hp)
    (correctLibm_frac_pi_2 hp) k.to_rotation hR A hA (by rw [hs]; linarith)
  obtain ⟨s, hs1, h3⟩ := h2 k hk rfl
  rw [hs] at h3
  refine ⟨h1 1, s, hs1, ?_, ?_⟩
  · have h : |q.q0.toReal - s * 0| ≤ _ := (h3 0).2
    rw [mul_zero, sub_zero] at h
    exact h.trans (by linarith)
  · have h : |(q.q 2).toReal - s * 1| ≤ _ := (h3 3).2
    rw [mul_one] at h
    exact h.trans (by linarith)

/-- The quaternion `k` meets the hypotheses of the second theorem. -/
example [RealParams] : ∃ (_ : Libm Fmt.f32) (q : Quat (Flt Fmt.f32)) (q' : Quat ℝ), SinCosAcc Fmt.f32 (4 * Fmt.f32.u) ∧
    Atan2Turn Fmt.f32 (4 * Fmt.f32.u) ∧ FracPi2Acc Fmt.f32 (4 * Fmt.f32.u) ∧ normSq q'.toH = 1 ∧
    (∀ i, (q.comp i).IsFin ∧ |(q.comp i).toReal - q'.comp i| ≤ 0) ∧
    64 * (5 * 0 + 4 * Fmt.f32.u + 18 * Fmt.f32.u) ≤ √(q'.to_rotation 0 0 ^ 2 + q'.to_rotation 1 0 ^ 2) := by
  have hp : 8 ≤ Fmt.f32.p := by decide
  have hu := Fmt.f32.u_pos
  have hu2 := u32
  let k : Quat ℝ := ⟨0, ⟨![0, 0, 1]⟩, false⟩
  have k0 : k.q0 = 0 := rfl
  have k1 : k.q 0 = 0 := rfl
  have k2 : k.q 1 = 0 := rfl
  have k3 : k.q 2 = 1 := rfl
  refine ⟨correctLibm _, ⟨0, ⟨![0, 0, 1]⟩, false⟩, k, correctLibm_sin_cos4 hp, correctLibm_turn hp, correctLibm_frac_pi_2 hp,
    by rw [Quat.unit_iff, k0, k1, k2, k3]; norm_num, fun i => ?_, ?_⟩
  · have z : |(0 : Flt Fmt.f32).toReal - 0| ≤ 0 := by rw [toReal_zero, sub_zero, abs_zero]
    have o : |(1 : Flt Fmt.f32).toReal - 1| ≤ 0 := by rw [toReal_one, sub_self, abs_zero]
    fin_cases i <;> first | exact ⟨trivial, z⟩ | exact ⟨trivial, o⟩
  · rw [Quat.rot00, Quat.rot10, k0, k1, k2, k3]
    norm_num
    linarith

end StaticMath
