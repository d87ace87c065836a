import Verif.Props.IeeeParts
import Verif.Props.Examples

/-!
# C167: Euler angles come back in floating point
-/

namespace StaticMath
open Flt Quaternion

variable {f : Fmt}

/-- Angles with nearby sines and cosines differ by little, up to whole turns. -/
private theorem angle_near {a b d : ℝ} (hc : |Real.cos a - Real.cos b| ≤ d) (hs : |Real.sin a - Real.sin b| ≤ d) :
    ∃ k : ℤ, |a - (b + k * (2 * Real.pi))| ≤ 9 / 4 * d := by
  have hpi := Real.pi_pos
  have hd : 0 ≤ d := (abs_nonneg _).trans hc
  refine ⟨round ((a - b) / (2 * Real.pi)), ?_⟩
  obtain ⟨k, hk⟩ : ∃ k, k = round ((a - b) / (2 * Real.pi)) := ⟨_, rfl⟩
  rw [← hk]
  obtain ⟨t, ht⟩ : ∃ t, t = a - (b + k * (2 * Real.pi)) := ⟨_, rfl⟩
  rw [← ht]
  have t1 : |t| ≤ Real.pi := by
    have h := abs_sub_round ((a - b) / (2 * Real.pi))
    rw [← hk] at h
    have e : t = ((a - b) / (2 * Real.pi) - k) * (2 * Real.pi) := by
      rw [ht]
      field_simp
      ring
    rw [e, abs_mul, abs_of_pos (by positivity : 0 < 2 * Real.pi)]
    have := mul_le_mul_of_nonneg_right h (by positivity : 0 ≤ 2 * Real.pi)
    linarith
  have c1 : Real.cos t = Real.cos a * Real.cos b + Real.sin a * Real.sin b := by
    have e : t = a - b - k * (2 * Real.pi) := by rw [ht]; ring
    rw [e, Real.cos_sub_int_mul_two_pi, Real.cos_sub]
  have c2 : Real.cos |t| = 1 - 2 * Real.sin (|t| / 2) ^ 2 := by
    have h := Real.cos_two_mul' (|t| / 2)
    have h2 := Real.sin_sq_add_cos_sq (|t| / 2)
    rw [mul_div_cancel₀ _ (two_ne_zero)] at h
    linarith
  rw [Real.cos_abs, c1] at c2
  have s1 : (2 * Real.sin (|t| / 2)) ^ 2 ≤ 2 * d ^ 2 := by
    have a1 := Real.sin_sq_add_cos_sq a
    have b1 := Real.sin_sq_add_cos_sq b
    have h1 := sq_le_sq' (_root_.abs_le.1 hc).1 (_root_.abs_le.1 hc).2
    have h2 := sq_le_sq' (_root_.abs_le.1 hs).1 (_root_.abs_le.1 hs).2
    linarith
  have s2 : 2 * Real.sin (|t| / 2) ≤ 71 / 50 * d := by
    refine abs_le_of_sq_le_sq' ?_ (by positivity) |>.2
    have := sq_nonneg d
    linarith
  have s3 := Real.mul_le_sin (x := |t| / 2) (by positivity) (by linarith)
  have s4 : |t| ≤ Real.pi * Real.sin (|t| / 2) := by
    have := mul_le_mul_of_nonneg_left s3 hpi.le
    have e : Real.pi * (2 / Real.pi * (|t| / 2)) = |t| := by field_simp
    linarith
  have p1 := Real.pi_lt_d2
  have s0 : 0 ≤ Real.sin (|t| / 2) := le_trans (by positivity) s3
  have s5 := mul_le_mul_of_nonneg_right p1.le s0
  linarith

/-- **C167.** The angles of a float matrix that is within `δ` of the rotation of the angles `y`, `p`, `r` are these angles up to
whole turns, if the pitch is not too close to a quarter turn. -/
theorem C167_rotation_to_euler [Libm f] [RealParams] (hp : 8 ≤ f.p) {δ ε : ℝ} (hA2 : Atan2Turn f ε) (hπ : FracPi2Acc f ε) (y p r : ℝ)
    (A : Mat 3 (Flt f)) (hA : ∀ i j, (A i j).IsFin ∧ |(A i j).toReal - euler_to_rotation y p r none i j| ≤ δ)
    (hs : 64 * (δ + ε + f.u) ≤ Real.cos p) :
    let e := rotation_to_euler A
    (e.1.IsFin ∧ ∃ k : ℤ, |e.1.toReal - (y + k * (2 * Real.pi))| ≤ 9 / 4 * (ε + 3 * δ / Real.cos p)) ∧
    (e.2.1.IsFin ∧ ∃ k : ℤ, |e.2.1.toReal - (p + k * (2 * Real.pi))| ≤ 9 / 4 * (ε + 6 * δ + 36 * f.u)) ∧
    (e.2.2.IsFin ∧ ∃ k : ℤ, |e.2.2.toReal - (r + k * (2 * Real.pi))| ≤ 9 / 4 * (ε + 3 * δ / Real.cos p)) := by
  intro e
  have hu := f.u_pos
  have hε0 : 0 ≤ ε := (abs_nonneg _).trans hπ.2
  have hδ0 : 0 ≤ δ := (abs_nonneg _).trans (hA 0 0).2
  have c0 : 0 < Real.cos p := by linarith
  obtain ⟨R, hR⟩ : ∃ R, R = euler_to_rotation y p r none := ⟨_, rfl⟩
  have E : R = ⟨![
      ![Real.cos y * Real.cos p, Real.cos y * Real.sin p * Real.sin r - Real.sin y * Real.cos r,
        Real.cos y * Real.sin p * Real.cos r + Real.sin y * Real.sin r],
      ![Real.sin y * Real.cos p, Real.sin y * Real.sin p * Real.sin r + Real.cos y * Real.cos r,
        Real.sin y * Real.sin p * Real.cos r - Real.cos y * Real.sin r],
      ![-Real.sin p, Real.cos p * Real.sin r, Real.cos p * Real.cos r]]⟩ :=
    hR.trans (euler_entries y p r _ rfl rfl rfl rfl rfl rfl rfl rfl rfl)
  have hrot : IsRot R := by
    obtain ⟨c1, c2, -⟩ := C53_from_euler_angles y p r
    obtain ⟨m1, m2, -⟩ := C48_to_rotation (Quat.from_euler_angles y p r) (Quat.from_euler_angles y p r) c1
    rw [hR, ← c2]
    exact (mem_SO3_iff _).2 ⟨m1, m2⟩
  rw [← hR] at hA
  have r00 : R 0 0 = Real.cos y * Real.cos p := by rw [E]; rfl
  have r10 : R 1 0 = Real.sin y * Real.cos p := by rw [E]; rfl
  have r20 : R 2 0 = -Real.sin p := by rw [E]; rfl
  have r21 : R 2 1 = Real.cos p * Real.sin r := by rw [E]; rfl
  have r22 : R 2 2 = Real.cos p * Real.cos r := by rw [E]; rfl
  have s1 : Real.cos p = √(R 0 0 ^ 2 + R 1 0 ^ 2) := by
    have e : R 0 0 ^ 2 + R 1 0 ^ 2 = Real.cos p ^ 2 := by
      rw [r00, r10]
      linear_combination Real.cos p ^ 2 * Real.sin_sq_add_cos_sq y
    rw [e, Real.sqrt_sq c0.le]
  obtain ⟨⟨f1, f2, f3⟩, ⟨y1, y2⟩, ⟨p1, p2⟩, z1, z2⟩ := rotation_to_euler_near hp hA2 hπ R hrot A hA s1 hs
  rw [r00, mul_div_cancel_right₀ _ c0.ne'] at y1
  rw [r10, mul_div_cancel_right₀ _ c0.ne'] at y2
  rw [r22, mul_div_cancel_left₀ _ c0.ne'] at z1
  rw [r21, mul_div_cancel_left₀ _ c0.ne'] at z2
  rw [r20, neg_neg] at p2
  refine ⟨⟨f1, angle_near y1 y2⟩, ⟨f2, ?_⟩, f3, angle_near z1 z2⟩
  obtain ⟨k, hk⟩ := angle_near p1 p2
  exact ⟨k, hk.trans (by linarith)⟩

/-- The same for the angles of a float quaternion that is within `δ` of the unit quaternion of the angles. -/
theorem C167_to_euler_angles [Libm f] [RealParams] (hp : 8 ≤ f.p) {δ ε : ℝ} (hA2 : Atan2Turn f ε) (hπ : FracPi2Acc f ε) (y p r : ℝ)
    (q : Quat (Flt f)) (hq : ∀ i, (q.comp i).IsFin ∧ |(q.comp i).toReal - (Quat.from_euler_angles y p r).comp i| ≤ δ)
    (hs : 64 * (5 * δ + ε + 18 * f.u) ≤ Real.cos p) :
    let e := q.to_euler_angles
    (e.1.IsFin ∧ ∃ k : ℤ, |e.1.toReal - (y + k * (2 * Real.pi))| ≤ 9 / 4 * (ε + (15 * δ + 51 * f.u) / Real.cos p)) ∧
    (e.2.1.IsFin ∧ ∃ k : ℤ, |e.2.1.toReal - (p + k * (2 * Real.pi))| ≤ 9 / 4 * (ε + 30 * δ + 138 * f.u)) ∧
    (e.2.2.IsFin ∧ ∃ k : ℤ, |e.2.2.toReal - (r + k * (2 * Real.pi))| ≤ 9 / 4 * (ε + (15 * δ + 51 * f.u) / Real.cos p)) := by
  intro e
  have hu := f.u_pos
  have hε0 : 0 ≤ ε := (abs_nonneg _).trans hπ.2
  have c1 := Real.cos_le_one p
  obtain ⟨h1, h2, -⟩ := C53_from_euler_angles y p r
  have hm := C126_to_rotation hp q _ δ (by linarith) h1 hq
  rw [h2] at hm
  have key := C167_rotation_to_euler hp hA2 hπ y p r q.to_rotation hm (by linarith)
  have e1 : 3 * (5 * δ + 17 * f.u) = 15 * δ + 51 * f.u := by ring
  have e2 : ε + 6 * (5 * δ + 17 * f.u) + 36 * f.u = ε + 30 * δ + 138 * f.u := by ring
  rw [e1, e2] at key
  exact key

/-- `examples/quaternions.rs`: the angles given to `from_euler_angles` come back from `to_euler_angles`. -/
theorem C167_euler_again [Libm f] [RealParams] (hp : 9 ≤ f.p) {ε : ℝ} (hsc : SinCosAcc f ε) (hA2 : Atan2Turn f ε) (hπ : FracPi2Acc f ε)
    (y p r : Flt f) (hy : y.IsFin) (hp' : p.IsFin) (hr : r.IsFin) (hs : 64 * (36 * ε + 53 * f.u) ≤ Real.cos p.toReal) :
    let e := (Examples.euler_again y p r).2
    (e.1.IsFin ∧ ∃ k : ℤ, |e.1.toReal - (y.toReal + k * (2 * Real.pi))| ≤ 9 / 4 * (ε + (105 * ε + 156 * f.u) / Real.cos p.toReal)) ∧
    (e.2.1.IsFin ∧ ∃ k : ℤ, |e.2.1.toReal - (p.toReal + k * (2 * Real.pi))| ≤ 9 / 4 * (211 * ε + 348 * f.u)) ∧
    (e.2.2.IsFin ∧ ∃ k : ℤ, |e.2.2.toReal - (r.toReal + k * (2 * Real.pi))| ≤ 9 / 4 * (ε + (105 * ε + 156 * f.u) / Real.cos p.toReal)) := by
  intro e
  have hu := f.u_pos
  have c1 := Real.cos_le_one p.toReal
  have hq (i : Fin 4) := Quat.euler_near hp hsc (by linarith) y p r hy hp' hr i
  have key := C167_to_euler_angles (by omega) hA2 hπ y.toReal p.toReal r.toReal (Quat.from_euler_angles y p r) hq (by linarith)
  have e1 : 15 * (7 * ε + 7 * f.u) + 51 * f.u = 105 * ε + 156 * f.u := by ring
  have e2 : ε + 30 * (7 * ε + 7 * f.u) + 138 * f.u = 211 * ε + 348 * f.u := by ring
  rw [e1, e2] at key
  exact key

private theorem u32 : Fmt.f32.u = 1 / 2 ^ 24 := by
  change (2 : ℝ) ^ (-24 : ℤ) = _
  norm_num

/-- The hypotheses hold in single precision with a correctly rounded library: the angles 1, 0 and -1 come back up to 1/1000. -/
example : letI := correctLibm Fmt.f32; letI := f64Params
    let e := (Examples.euler_again (1 : Flt Fmt.f32) 0 (-1)).2
    ∃ k l m : ℤ, |e.1.toReal - (1 + k * (2 * Real.pi))| ≤ 1 / 1000 ∧ |e.2.1.toReal - l * (2 * Real.pi)| ≤ 1 / 1000 ∧
      |e.2.2.toReal - (-1 + m * (2 * Real.pi))| ≤ 1 / 1000 := by
  let := correctLibm Fmt.f32
  let := f64Params
  intro e
  have hp : 8 ≤ Fmt.f32.p := by decide
  have hu := Fmt.f32.u_pos
  have h := correctLibm_sin_cos hp
  have hsc : SinCosAcc Fmt.f32 (4 * Fmt.f32.u) := ⟨fun x hx => ⟨(h.sin x hx).1, (h.sin x hx).2.trans (by linarith)⟩,
    fun x hx => ⟨(h.cos x hx).1, (h.cos x hx).2.trans (by linarith)⟩⟩
  have z : (0 : Flt Fmt.f32).toReal = 0 := toReal_zero
  have c : Real.cos (0 : Flt Fmt.f32).toReal = 1 := by rw [z, Real.cos_zero]
  obtain ⟨⟨-, k, hk⟩, ⟨-, l, hl⟩, -, m, hm⟩ := C167_euler_again (by decide) hsc (correctLibm_turn hp) (correctLibm_frac_pi_2 hp)
    (1 : Flt Fmt.f32) 0 (-1) isFin_one isFin_zero (isFin_neg.2 isFin_one) (by rw [c, u32]; norm_num)
  rw [c, u32] at hk hm
  rw [z, zero_add, u32] at hl
  rw [toReal_one] at hk
  rw [toReal_neg, toReal_one] at hm
  exact ⟨k, l, m, hk.trans (by norm_num), hl.trans (by norm_num), hm.trans (by norm_num)⟩

end StaticMath
