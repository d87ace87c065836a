import Verif.Model.Construct
import Verif.Model.Assign
import Verif.Model.DualQuaternion
import Verif.Model.Linear

/-!
# The crate's own unit tests, run on the model

Generated by `tools/gen_conformance.py` from the `#[cfg(test)]` modules of the crate: every unit test
is transcribed statement by statement into Lean and evaluated on the *model*, with `f32` as
`Float32`, `f64` as `Float` and `i32` as `Int`. A failing `#guard` fails the build.

These are tests, not proofs: nothing in the development depends on this module. Their purpose is to
give evidence that the model computes what the crate computes, since the model is what the theorems
are about. The functions `sin`, `cos`, … are those of the C library Lean is linked against.
-/

namespace StaticMath.Conformance

open StaticMath

instance : Zero Float32 := ⟨0⟩
instance : One Float32 := ⟨1⟩
instance : Zero Float := ⟨0⟩
instance : One Float := ⟨1⟩

instance : RAbs Float32 := ⟨Float32.abs⟩
instance : RAbs Float := ⟨Float.abs⟩
instance : RAbs Int := ⟨fun x => if x < 0 then -x else x⟩

instance : ROrd Float32 := ⟨fun a b => a < b, fun a b => a ≤ b, fun a b => a == b⟩
instance : ROrd Float := ⟨fun a b => a < b, fun a b => a ≤ b, fun a b => a == b⟩
instance : ROrd Int := ⟨fun a b => a < b, fun a b => a ≤ b, fun a b => a == b⟩

instance : RFloat Float32 where
  sqrt := Float32.sqrt
  recip x := 1 / x
  sin := Float32.sin
  cos := Float32.cos
  tan := Float32.tan
  acos := Float32.acos
  exp := Float32.exp
  ln := Float32.log
  atan2 := Float32.atan2
  min a b := if a.isNaN then b else if b.isNaN then a else if a < b then a else b
  epsilon := 1.1920929e-7
  min_value := -3.40282347e38
  max_value := 3.40282347e38
  infinity := 1 / 0
  pi := 3.14159265358979323846264338327950288
  frac_pi_2 := 1.57079632679489661923132169163975144
  lit2 := 2
  lit4 := 4
  lit1em40 := 1e-40
  lit0001 := 0.001
  lit1em6 := 1e-6

instance : RFloat Float where
  sqrt := Float.sqrt
  recip x := 1 / x
  sin := Float.sin
  cos := Float.cos
  tan := Float.tan
  acos := Float.acos
  exp := Float.exp
  ln := Float.log
  atan2 := Float.atan2
  min a b := if a.isNaN then b else if b.isNaN then a else if a < b then a else b
  epsilon := 2.2204460492503131e-16
  min_value := -1.7976931348623157e308
  max_value := 1.7976931348623157e308
  infinity := 1 / 0
  pi := 3.14159265358979323846264338327950288
  frac_pi_2 := 1.57079632679489661923132169163975144
  lit2 := 2
  lit4 := 4
  lit1em40 := 1e-40
  lit0001 := 0.001
  lit1em6 := 1e-6

/-- `f32::to_radians` of core: multiplication by `π / 180` rounded to `f32`. -/
def _root_.Float32.to_radians (x : Float32) : Float32 :=
  x * 0.017453292519943295769236907684886

/-- `assert!(b)` -/
def check (b : Bool) : MayPanic Unit := if b then pure () else throw .assertFailed

/-- Did the test run to the end? -/
def passes (t : MayPanic Unit) : Bool := match t with | .ok _ => true | .error _ => false

/-- The `==` of `assert_eq!`, through the model's `PartialEq`. -/
class REq (α : Type) (β : outParam Type) where
  req : α → β → Bool
export REq (req)
instance : REq Float32 Float32 := ⟨ROrd.beq⟩
instance : REq Float Float := ⟨ROrd.beq⟩
instance : REq Int Int := ⟨ROrd.beq⟩
instance : REq Bool Bool := ⟨(· == ·)⟩
instance {T : Type} [REq T T] : REq (List T) (List T) :=
  ⟨fun a b => a.length == b.length && (a.zip b).all fun p => req p.1 p.2⟩
instance {n : ℕ} {T : Type} [REq T T] : REq (Vec n T) (Vec n T) :=
  ⟨fun a b => req a.toSlice b.toSlice⟩
instance : REq (MaxMin Int) (MaxMin Int) :=
  ⟨fun a b => a.max.1 == b.max.1 && a.max.2 == b.max.2 && a.min.1 == b.min.1 && a.min.2 == b.min.2⟩
