import Verif.Spec.Quat
import Verif.Spec.Basic
import Verif.Exact
import Verif.Lemmas.Transfer
import Mathlib.Tactic.LinearCombination

/-! # Quaternions of the model and Hamilton quaternions -/

namespace StaticMath

open Quaternion

variable {R : Type} [CommRing R]

theorem Vec3.ext3 {T : Type} {v w : Vec 3 T} (h0 : v 0 = w 0) (h1 : v 1 = w 1) (h2 : v 2 = w 2) : v = w :=
  Vec.ext (funext fun i => by fin_cases i <;> assumption)

theorem H_ext_iff {a b : ℍ[R]} :
    a = b ↔ a.re = b.re ∧ a.imI = b.imI ∧ a.imJ = b.imJ ∧ a.imK = b.imK :=
  QuaternionAlgebra.ext_iff

namespace Quat

@[simp] theorem toH_re (q : Quat R) : q.toH.re = q.q0 := rfl
@[simp] theorem toH_imI (q : Quat R) : q.toH.imI = q.q 0 := rfl
@[simp] theorem toH_imJ (q : Quat R) : q.toH.imJ = q.q 1 := rfl
@[simp] theorem toH_imK (q : Quat R) : q.toH.imK = q.q 2 := rfl

theorem toH_inj {p q : Quat R} : p.toH = q.toH ↔ p.q0 = q.q0 ∧ p.q = q.q := by
  constructor
  · intro h
    rw [H_ext_iff] at h
    exact ⟨h.1, Vec3.ext3 h.2.1 h.2.2.1 h.2.2.2⟩
  · rintro ⟨h1, h2⟩
    ext <;> simp [h1, h2]

theorem toH_add (p q : Quat R) : (p.add q).toH = p.toH + q.toH := rfl
theorem toH_sub (p q : Quat R) : (p.sub q).toH = p.toH - q.toH := rfl
theorem toH_neg (p : Quat R) : p.neg.toH = -p.toH := rfl
theorem toH_conj (p : Quat R) : p.conj.toH = star p.toH := by
  rw [H_ext_iff]
  refine ⟨?_, ?_, ?_, ?_⟩ <;> simp <;> rfl
theorem toH_mul (p q : Quat R) : (p.mul q).toH = p.toH * q.toH := by
  rw [H_ext_iff]
  simp only [Quaternion.re_mul, Quaternion.imI_mul, Quaternion.imJ_mul, Quaternion.imK_mul, toH_re, toH_imI,
    toH_imJ, toH_imK]
  refine ⟨?_, ?_, ?_, ?_⟩
  · change p.q0 * q.q0 - (p.q 0 * q.q 0 + p.q 1 * q.q 1 + p.q 2 * q.q 2) = _
    ring
  · change q.q 0 * p.q0 + p.q 0 * q.q0 + (p.q 1 * q.q 2 - p.q 2 * q.q 1) = _
    ring
  · change q.q 1 * p.q0 + p.q 1 * q.q0 + (p.q 2 * q.q 0 - p.q 0 * q.q 2) = _
    ring
  · change q.q 2 * p.q0 + p.q 2 * q.q0 + (p.q 0 * q.q 1 - p.q 1 * q.q 0) = _
    ring
theorem toH_smul (p : Quat R) (c : R) : (p.smul c).toH = c • p.toH := by
  rw [H_ext_iff]
  refine ⟨mul_comm _ _, mul_comm _ _, mul_comm _ _, mul_comm _ _⟩
theorem toH_sdiv {F : Type} [Field F] (p : Quat F) (c : F) : (p.sdiv c).toH = c⁻¹ • p.toH := by
  rw [H_ext_iff]
  refine ⟨?_, ?_, ?_, ?_⟩ <;> exact (div_eq_inv_mul _ _)
theorem toH_one : (Quat.one : Quat R).toH = 1 := rfl
theorem toH_zero : (Quat.zero : Quat R).toH = 0 := rfl
theorem toH_new_imag (v : Vec 3 R) : (Quat.new_imag v).toH = v.toH := rfl
theorem toH_new (a : R) (v : Vec 3 R) (f : Bool) : (⟨a, v, f⟩ : Quat R).toH = ⟨a, v 0, v 1, v 2⟩ := rfl

theorem abs2_eq (q : Quat R) : q.abs2 = Quaternion.normSq q.toH := by
  rw [Quaternion.normSq_def', Quat.abs2]; simp; ring
theorem dot_self (q : Quat R) : q.dot q = q.abs2 := by
  rw [Quat.dot, V3.dot, Quat.abs2]; ring
theorem dot_eq (p q : Quat R) : p.dot q = p.q0 * q.q0 + p.q 0 * q.q 0 + p.q 1 * q.q 1 + p.q 2 * q.q 2 := by
  rw [Quat.dot, V3.dot]; ring
theorem norm2_eq [RealParams] (q : Quat ℝ) : q.norm2 = √(Quaternion.normSq q.toH) := by
  rw [Quat.norm2, dot_self, abs2_eq]; rfl
end Quat
end StaticMath
