import Verif.Ieee.Near
import Verif.Spec.Libm
import Mathlib.Analysis.SpecialFunctions.Trigonometric.Inverse
import Mathlib.Analysis.SpecialFunctions.Log.Basic
import Mathlib.Analysis.Real.Pi.Bounds

/-!
# A correctly rounded mathematical library

Used only to show that the accuracy hypotheses on `Libm` can be met.
-/

namespace StaticMath
open Flt

variable {f : Fmt}

theorem Flt.Near.of_real (hp : 8 ≤ f.p) {r B : ℝ} (h : |r| ≤ B) (hB : B ≤ 256) :
    Near (ofReal f false r) r (f.u * (B + 1 / 256)) := by
  have hu := f.u_pos
  have hu2 := Fmt.u_le_of_p hp
  have hη := f.eta_le_sq
  have hu3 := mul_le_mul_of_nonneg_right hu2 hu.le
  have hB0 : 0 ≤ B := (abs_nonneg r).trans h
  have hrB := mul_le_mul_of_nonneg_left h hu.le
  have h1 : (ofReal f false r).IsFin := by
    refine pack_isFin (abs_nonneg _) ?_
    exact Fmt.range_of_p hp (h.trans hB)
  refine ⟨h1, ?_⟩
  obtain ⟨hr, e⟩ := pack_fin h1
  have h3 : (ofReal f false r).toReal = sgn (decide (r < 0)) (f.rnd |r|) := by
    unfold ofReal
    rw [e]
    by_cases h0 : r = 0
    · have h7 : f.rnd |r| = 0 := by rw [h0, abs_zero, f.rnd_zero]
      change sgn _ (f.rnd |r|) = _
      rw [h7]
      simp [sgn]
    · rw [if_neg h0]; rfl
  have h4 := sgn_lt_abs r
  have h5 := f.rnd_err (abs_nonneg r)
  have h6 : sgn (decide (r < 0)) (f.rnd |r|) - r = sgn (decide (r < 0)) (f.rnd |r|) - sgn (decide (r < 0)) |r| := by rw [h4]
  rw [h3, h6, sgn_sub, abs_sgn]
  linarith

/-- Every function is the exact function, rounded. -/
@[instance_reducible] noncomputable def correctLibm (f : Fmt) : Libm f where
  sin x := ofReal f false (Real.sin x.toReal)
  cos x := ofReal f false (Real.cos x.toReal)
  tan x := ofReal f false (Real.tan x.toReal)
  acos x := ofReal f false (Real.arccos x.toReal)
  exp x := ofReal f false (Real.exp x.toReal)
  ln x := ofReal f false (Real.log x.toReal)
  atan2 y x := ofReal f false (Complex.arg ⟨x.toReal, y.toReal⟩)
  pi := ofReal f false Real.pi
  frac_pi_2 := ofReal f false (Real.pi / 2)
  lit1em40 := ofReal f false (1 / 10 ^ 40)
  lit0001 := ofReal f false (1 / 1000)
  lit1em6 := ofReal f false (1 / 10 ^ 6)

theorem correctLibm_sin_cos (hp : 8 ≤ f.p) : @SinCosAcc f (correctLibm f) (257 / 256 * f.u) :=
  letI := correctLibm f
  ⟨fun _ _ => ⟨(Near.of_real hp (Real.abs_sin_le_one _) (by norm_num)).fin,
      (Near.of_real hp (Real.abs_sin_le_one _) (by norm_num)).err.trans (by linarith)⟩,
    fun _ _ => ⟨(Near.of_real hp (Real.abs_cos_le_one _) (by norm_num)).fin,
      (Near.of_real hp (Real.abs_cos_le_one _) (by norm_num)).err.trans (by linarith)⟩⟩

theorem correctLibm_atan2 (hp : 8 ≤ f.p) : @Atan2Acc f (correctLibm f) (4 * f.u) := by
  intro y x _ _ _
  have hu := f.u_pos
  have := Near.of_real (f := f) (B := 3.15) hp ((Complex.abs_arg_le_pi ⟨x.toReal, y.toReal⟩).trans Real.pi_lt_d2.le) (by norm_num)
  exact ⟨this.fin, this.err.trans (by linarith)⟩

end StaticMath
