import Verif.Lemmas.Dim3
import Verif.Lemmas.Loop
import Verif.Lemmas.Inverse
import Verif.Model.Quaternion

/-! # Three-dimensional real vectors and the two-argument arctangent -/

namespace StaticMath

theorem V3.norm2_sq [RealParams] (v : Vec 3 ℝ) :
    V3.norm2 v ^ 2 = v 0 ^ 2 + v 1 ^ 2 + v 2 ^ 2 := by
  rw [V3.norm2, rfloat_sqrt, Real.sq_sqrt] <;>
    nlinarith [sq_nonneg (v 0), sq_nonneg (v 1), sq_nonneg (v 2)]

theorem V3.norm2_zero [RealParams] (v : Vec 3 ℝ) : V3.norm2 v = 0 ↔ v = V3.zero := by
  have h := V3.norm2_sq v
  constructor
  · intro h0
    rw [h0] at h
    have z (x : ℝ) (hx : x ^ 2 = 0) : x = 0 := (pow_eq_zero_iff two_ne_zero).1 hx
    have a := sq_nonneg (v 0); have b := sq_nonneg (v 1); have c := sq_nonneg (v 2)
    exact Vec.ext3 (z _ (by linarith)) (z _ (by linarith)) (z _ (by linarith))
  · rintro rfl
    have : V3.norm2 (V3.zero : Vec 3 ℝ) ^ 2 = 0 := by rw [h]; simp [V3.zero_apply]
    exact (pow_eq_zero_iff two_ne_zero).1 this

/-- `rotation` in closed form -/
theorem Quat.rotation_eq [RealParams] (theta : ℝ) (v : Vec 3 ℝ) :
    Quat.rotation theta v = if V3.norm2 v = 0
      then .error (.expect "the input has to be a non zero vector")
      else .ok ⟨Real.cos (theta / 2), ⟨fun i => v i / V3.norm2 v * Real.sin (theta / 2)⟩, true⟩ := by
  unfold Quat.rotation
  rw [V3.normalize, normalizeGen_eq]
  simp only [rord_beq, one_add_one_eq_two]
  by_cases h : V3.norm2 v = 0
  · simp [h, expectOk, bind, Except.bind]
  · simp only [h, decide_false, Bool.false_eq_true, if_false]
    refine congrArg Except.ok (congrArg (fun q => (⟨Real.cos (theta / 2), q, true⟩ : Quat ℝ)) ?_)
    exact Vec.ext (funext fun i => V3.smul_apply _ _ _)

theorem arg_sin_cos (x y : ℝ) (h : x ^ 2 + y ^ 2 = 1) :
    Real.sin (Complex.arg ⟨x, y⟩) = y ∧ Real.cos (Complex.arg ⟨x, y⟩) = x := by
  have hn : ‖(⟨x, y⟩ : ℂ)‖ = 1 := by
    rw [Complex.norm_eq_sqrt_sq_add_sq]
    exact (congrArg Real.sqrt h).trans Real.sqrt_one
  have hz : (⟨x, y⟩ : ℂ) ≠ 0 := fun h0 => by rw [h0] at hn; simp at hn
  rw [Complex.sin_arg, Complex.cos_arg hz, hn, div_one, div_one]
  exact ⟨rfl, rfl⟩

theorem V3.norm2_nonneg [RealParams] (v : Vec 3 ℝ) : 0 ≤ V3.norm2 v := Real.sqrt_nonneg _

theorem V3.norm2_eq_sqrt [RealParams] (v : Vec 3 ℝ) :
    V3.norm2 v = √(v 0 ^ 2 + v 1 ^ 2 + v 2 ^ 2) := by
  rw [← V3.norm2_sq, Real.sqrt_sq (V3.norm2_nonneg v)]

/-- `atan2` of a vector of length `r` -/
theorem arg_sin_cos' (x y r : ℝ) (hr : 0 < r) (h : x ^ 2 + y ^ 2 = r ^ 2) :
    Real.sin (Complex.arg ⟨x, y⟩) = y / r ∧ Real.cos (Complex.arg ⟨x, y⟩) = x / r := by
  have hn : ‖(⟨x, y⟩ : ℂ)‖ = r := by
    rw [Complex.norm_eq_sqrt_sq_add_sq]
    exact (congrArg Real.sqrt h).trans (Real.sqrt_sq hr.le)
  have hz : (⟨x, y⟩ : ℂ) ≠ 0 := fun h0 => by rw [h0] at hn; simp at hn; linarith
  rw [Complex.sin_arg, Complex.cos_arg hz, hn]
  exact ⟨rfl, rfl⟩

end StaticMath
