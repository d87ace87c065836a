import Verif.Spec.Quat
import Verif.Model.DualQuaternion
import Mathlib.Algebra.DualNumber

/-!
# Specification side: dual numbers over Hamilton's quaternions

`x.toD` is the element `real + ε dual` of Mathlib's `DualNumber ℍ[R]` with the components of `x`. The
`normalized` flag is not part of it: "component-wise equal" is `x.toD = y.toD`.
-/

namespace StaticMath

open Quaternion

/-- The dual number over Hamilton's quaternions with the same components. -/
def DQuat.toD {R : Type} [CommRing R] (x : DQuat R) : DualNumber ℍ[R] :=
  TrivSqZeroExt.inl x.q_real.toH + TrivSqZeroExt.inr x.q_dual.toH

/-- A unit dual quaternion: real part of norm one and orthogonal to the dual part. -/
structure DQuat.IsMotion {R : Type} [CommRing R] (x : DQuat R) : Prop where
  norm : normSq x.q_real.toH = 1
  orth : (x.q_real.toH * star x.q_dual.toH).re = 0

/-- What the `normalized` flags of a dual quaternion promise: a flagged dual quaternion is a unit
dual quaternion, and its real part is a unit quaternion if that is flagged. -/
structure DQuat.Truthful {R : Type} [CommRing R] (x : DQuat R) : Prop where
  flag : x.normalized = true → x.IsMotion
  real : x.q_real.normalized = true → normSq x.q_real.toH = 1

/-- Coordinates of a line: a unit direction `l` and a moment `m = p × l` (`p` any point of the line),
which is orthogonal to `l`. -/
structure IsLine {R : Type} [CommRing R] (l m : Vec 3 R) : Prop where
  unit : l 0 ^ 2 + l 1 ^ 2 + l 2 ^ 2 = 1
  orth : l 0 * m 0 + l 1 * m 1 + l 2 * m 2 = 0

end StaticMath
