import Verif.Ieee.Sim
import Verif.Model.DualQuaternion

/-!
# Equality of floating point results

`Flt.Same a b`: Rust's `a == b` is true, or both are NaN.
-/

namespace StaticMath
variable {f : Fmt}

/-- Every pair of entries compares equal, or both are NaN. -/
def Mat.Same {n : ℕ} (A B : Mat n (Flt f)) : Prop := ∀ i j, (A i j).Same (B i j)
/-- Every pair of components compares equal, or both are NaN. -/
def Vec.Same {n : ℕ} (v w : Vec n (Flt f)) : Prop := ∀ i, (v i).Same (w i)
/-- Every pair of components compares equal, or both are NaN. The flag is not compared. -/
def Quat.Same (p q : Quat (Flt f)) : Prop := p.q0.Same q.q0 ∧ p.q.Same q.q
/-- Every pair of components compares equal, or both are NaN. The flags are not compared. -/
def DQuat.Same (p q : DQuat (Flt f)) : Prop := p.q_real.Same q.q_real ∧ p.q_dual.Same q.q_dual

/-- All entries are finite. -/
def Mat.AllFin {n : ℕ} (A : Mat n (Flt f)) : Prop := ∀ i j, (A i j).IsFin
/-- All components are finite. -/
def Vec.AllFin {n : ℕ} (v : Vec n (Flt f)) : Prop := ∀ i, (v i).IsFin
/-- All components are finite. -/
def Quat.AllFin (q : Quat (Flt f)) : Prop := q.q0.IsFin ∧ q.q.AllFin
/-- All components are finite. -/
def DQuat.AllFin (q : DQuat (Flt f)) : Prop := q.q_real.AllFin ∧ q.q_dual.AllFin

end StaticMath
