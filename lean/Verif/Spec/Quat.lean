import Verif.Model.Quaternion
import Mathlib.Algebra.Quaternion

/-!
# Specification side: reading a model quaternion as a Hamilton quaternion

`q.toH` is the Mathlib quaternion with the same four components. The `normalized` flag is not part
of it: "component-wise equal" is `p.toH = q.toH`.
-/

namespace StaticMath

open Quaternion

/-- The Hamilton quaternion with the same components. -/
def Quat.toH {R : Type} [CommRing R] (q : Quat R) : ℍ[R] := ⟨q.q0, q.q 0, q.q 1, q.q 2⟩

/-- The vector `v` as a pure quaternion. -/
def Vec.toH {R : Type} [CommRing R] (v : Vec 3 R) : ℍ[R] := ⟨0, v 0, v 1, v 2⟩

end StaticMath
