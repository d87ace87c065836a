import Verif.Lemmas.Quat
import Verif.Lemmas.Dim3
import Verif.Lemmas.Inverse

/-! # `to_rotation` and `q * v`, entry by entry -/

namespace StaticMath

section
variable {R : Type} [CommRing R]
theorem Vec.toH_re (v : Vec 3 R) : v.toH.re = 0 := rfl
theorem Vec.toH_imI (v : Vec 3 R) : v.toH.imI = v 0 := rfl
theorem Vec.toH_imJ (v : Vec 3 R) : v.toH.imJ = v 1 := rfl
theorem Vec.toH_imK (v : Vec 3 R) : v.toH.imK = v 2 := rfl
end

namespace Quat

variable {R : Type} [CommRing R]

theorem two_R : (1 : R) + 1 = 2 := one_add_one_eq_two

theorem rot00 (q : Quat R) : q.to_rotation 0 0 = q.q0 ^ 2 + q.q 0 ^ 2 - q.q 1 ^ 2 - q.q 2 ^ 2 := by
  change q.q0 * q.q0 + q.q 0 * q.q 0 - q.q 1 * q.q 1 - q.q 2 * q.q 2 = _
  ring
theorem rot01 (q : Quat R) : q.to_rotation 0 1 = 2 * (q.q 0 * q.q 1 - q.q0 * q.q 2) := by
  change (1 + 1) * q.q 0 * q.q 1 - (1 + 1) * q.q0 * q.q 2 = _
  ring
theorem rot02 (q : Quat R) : q.to_rotation 0 2 = 2 * (q.q 0 * q.q 2 + q.q0 * q.q 1) := by
  change (1 + 1) * q.q 0 * q.q 2 + (1 + 1) * q.q0 * q.q 1 = _
  ring
theorem rot10 (q : Quat R) : q.to_rotation 1 0 = 2 * (q.q 0 * q.q 1 + q.q0 * q.q 2) := by
  change (1 + 1) * q.q 0 * q.q 1 + (1 + 1) * q.q0 * q.q 2 = _
  ring
theorem rot11 (q : Quat R) : q.to_rotation 1 1 = q.q0 ^ 2 - q.q 0 ^ 2 + q.q 1 ^ 2 - q.q 2 ^ 2 := by
  change q.q0 * q.q0 - q.q 0 * q.q 0 + q.q 1 * q.q 1 - q.q 2 * q.q 2 = _
  ring
theorem rot12 (q : Quat R) : q.to_rotation 1 2 = 2 * (q.q 1 * q.q 2 - q.q0 * q.q 0) := by
  change (1 + 1) * q.q 1 * q.q 2 - (1 + 1) * q.q0 * q.q 0 = _
  ring
theorem rot20 (q : Quat R) : q.to_rotation 2 0 = 2 * (q.q 0 * q.q 2 - q.q0 * q.q 1) := by
  change (1 + 1) * q.q 0 * q.q 2 - (1 + 1) * q.q0 * q.q 1 = _
  ring
theorem rot21 (q : Quat R) : q.to_rotation 2 1 = 2 * (q.q 1 * q.q 2 + q.q0 * q.q 0) := by
  change (1 + 1) * q.q 1 * q.q 2 + (1 + 1) * q.q0 * q.q 0 = _
  ring
theorem rot22 (q : Quat R) : q.to_rotation 2 2 = q.q0 ^ 2 - q.q 0 ^ 2 - q.q 1 ^ 2 + q.q 2 ^ 2 := by
  change q.q0 * q.q0 - q.q 0 * q.q 0 - q.q 1 * q.q 1 + q.q 2 * q.q 2 = _
  ring

theorem mulVec0 (q : Quat R) (v : Vec 3 R) : q.mulVec v 0 =
    v 0 + 2 * q.q0 * (q.q 1 * v 2 - q.q 2 * v 1)
      + 2 * (q.q 1 * (q.q 0 * v 1 - q.q 1 * v 0) - q.q 2 * (q.q 2 * v 0 - q.q 0 * v 2)) := by
  change v 0 + (q.q 1 * (1 + 1) * v 2 - q.q 2 * (1 + 1) * v 1) * q.q0
    + (q.q 1 * (q.q 0 * (1 + 1) * v 1 - q.q 1 * (1 + 1) * v 0)
      - q.q 2 * (q.q 2 * (1 + 1) * v 0 - q.q 0 * (1 + 1) * v 2)) = _
  ring
theorem mulVec1 (q : Quat R) (v : Vec 3 R) : q.mulVec v 1 =
    v 1 + 2 * q.q0 * (q.q 2 * v 0 - q.q 0 * v 2)
      + 2 * (q.q 2 * (q.q 1 * v 2 - q.q 2 * v 1) - q.q 0 * (q.q 0 * v 1 - q.q 1 * v 0)) := by
  change v 1 + (q.q 2 * (1 + 1) * v 0 - q.q 0 * (1 + 1) * v 2) * q.q0
    + (q.q 2 * (q.q 1 * (1 + 1) * v 2 - q.q 2 * (1 + 1) * v 1)
      - q.q 0 * (q.q 0 * (1 + 1) * v 1 - q.q 1 * (1 + 1) * v 0)) = _
  ring
theorem mulVec2 (q : Quat R) (v : Vec 3 R) : q.mulVec v 2 =
    v 2 + 2 * q.q0 * (q.q 0 * v 1 - q.q 1 * v 0)
      + 2 * (q.q 0 * (q.q 2 * v 0 - q.q 0 * v 2) - q.q 1 * (q.q 1 * v 2 - q.q 2 * v 1)) := by
  change v 2 + (q.q 0 * (1 + 1) * v 1 - q.q 1 * (1 + 1) * v 0) * q.q0
    + (q.q 0 * (q.q 2 * (1 + 1) * v 0 - q.q 0 * (1 + 1) * v 2)
      - q.q 1 * (q.q 1 * (1 + 1) * v 2 - q.q 2 * (1 + 1) * v 1)) = _
  ring

theorem mul_q0 (p q : Quat R) :
    (p.mul q).q0 = p.q0 * q.q0 - p.q 0 * q.q 0 - p.q 1 * q.q 1 - p.q 2 * q.q 2 := by
  rw [← toH_re, toH_mul, Quaternion.re_mul]; rfl
theorem mul_qi (p q : Quat R) :
    (p.mul q).q 0 = p.q0 * q.q 0 + p.q 0 * q.q0 + p.q 1 * q.q 2 - p.q 2 * q.q 1 := by
  rw [← toH_imI, toH_mul, Quaternion.imI_mul]; rfl
theorem mul_qj (p q : Quat R) :
    (p.mul q).q 1 = p.q0 * q.q 1 - p.q 0 * q.q 2 + p.q 1 * q.q0 + p.q 2 * q.q 0 := by
  rw [← toH_imJ, toH_mul, Quaternion.imJ_mul]; rfl
theorem mul_qk (p q : Quat R) :
    (p.mul q).q 2 = p.q0 * q.q 2 + p.q 0 * q.q 1 - p.q 1 * q.q 0 + p.q 2 * q.q0 := by
  rw [← toH_imK, toH_mul, Quaternion.imK_mul]; rfl

omit [CommRing R] in
theorem new_from_0 (a b c d : R) : (new_from a b c d).q0 = a := rfl
omit [CommRing R] in
theorem new_from_1 (a b c d : R) : (new_from a b c d).q 0 = b := rfl
omit [CommRing R] in
theorem new_from_2 (a b c d : R) : (new_from a b c d).q 1 = c := rfl
omit [CommRing R] in
theorem new_from_3 (a b c d : R) : (new_from a b c d).q 2 = d := rfl

theorem conj_q0 (p : Quat R) : p.conj.q0 = p.q0 := rfl
theorem conj_q (p : Quat R) (i : Fin 3) : p.conj.q i = -p.q i := V3.neg_apply _ _

theorem unit_iff (q : Quat R) : Quaternion.normSq q.toH = 1 ↔
    q.q0 ^ 2 + q.q 0 ^ 2 + q.q 1 ^ 2 + q.q 2 ^ 2 = 1 := by
  rw [Quaternion.normSq_def']; rfl

end Quat
end StaticMath
