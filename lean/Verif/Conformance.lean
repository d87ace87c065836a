import Verif.Model.Construct
import Verif.Model.Assign
import Verif.Model.DualQuaternion
import Verif.Model.Linear

/-!
# The crate's own unit tests, run on the model

Generated by `tools/gen_conformance.py` from the `#[cfg(test)]` modules of the crate: every unit test
is transcribed statement by statement into Lean and evaluated on the *model*, with `f32` as
`Float32`, `f64` as `Float` and `i32` as `Int`. A failing `#guard` fails the build.

These are tests, not proofs: nothing in the development depends on this module. Their purpose is to
give evidence that the model computes what the crate computes, since the model is what the theorems
are about. The functions `sin`, `cos`, … are those of the C library Lean is linked against.
-/

namespace StaticMath.Conformance

open StaticMath

instance : Zero Float32 := ⟨0⟩
instance : One Float32 := ⟨1⟩
instance : Zero Float := ⟨0⟩
instance : One Float := ⟨1⟩

instance : RAbs Float32 := ⟨Float32.abs⟩
instance : RAbs Float := ⟨Float.abs⟩
instance : RAbs Int := ⟨fun x => if x < 0 then -x else x⟩

instance : ROrd Float32 := ⟨fun a b => a < b, fun a b => a ≤ b, fun a b => a == b⟩
instance : ROrd Float := ⟨fun a b => a < b, fun a b => a ≤ b, fun a b => a == b⟩
instance : ROrd Int := ⟨fun a b => a < b, fun a b => a ≤ b, fun a b => a == b⟩

instance : RFloat Float32 where
  sqrt := Float32.sqrt
  recip x := 1 / x
  sin := Float32.sin
  cos := Float32.cos
  tan := Float32.tan
  acos := Float32.acos
  exp := Float32.exp
  ln := Float32.log
  atan2 := Float32.atan2
  min a b := if a.isNaN then b else if b.isNaN then a else if a < b then a else b
  epsilon := 1.1920929e-7
  min_value := -3.40282347e38
  max_value := 3.40282347e38
  infinity := 1 / 0
  pi := 3.14159265358979323846264338327950288
  frac_pi_2 := 1.57079632679489661923132169163975144
  lit2 := 2
  lit4 := 4
  lit1em40 := 1e-40
  lit0001 := 0.001
  lit1em6 := 1e-6

instance : RFloat Float where
  sqrt := Float.sqrt
  recip x := 1 / x
  sin := Float.sin
  cos := Float.cos
  tan := Float.tan
  acos := Float.acos
  exp := Float.exp
  ln := Float.log
  atan2 := Float.atan2
  min a b := if a.isNaN then b else if b.isNaN then a else if a < b then a else b
  epsilon := 2.2204460492503131e-16
  min_value := -1.7976931348623157e308
  max_value := 1.7976931348623157e308
  infinity := 1 / 0
  pi := 3.14159265358979323846264338327950288
  frac_pi_2 := 1.57079632679489661923132169163975144
  lit2 := 2
  lit4 := 4
  lit1em40 := 1e-40
  lit0001 := 0.001
  lit1em6 := 1e-6

/-- `f32::to_radians` of core: multiplication by `π / 180` rounded to `f32`. -/
def _root_.Float32.to_radians (x : Float32) : Float32 :=
  x * 0.017453292519943295769236907684886

/-- `assert!(b)` -/
def check (b : Bool) : MayPanic Unit := if b then pure () else throw .assertFailed

/-- Did the test run to the end? -/
def passes (t : MayPanic Unit) : Bool := match t with | .ok _ => true | .error _ => false

/-- The `==` of `assert_eq!`, through the model's `PartialEq`. -/
class REq (α : Type) (β : outParam Type) where
  req : α → β → Bool
export REq (req)
instance : REq Float32 Float32 := ⟨ROrd.beq⟩
instance : REq Float Float := ⟨ROrd.beq⟩
instance : REq Int Int := ⟨ROrd.beq⟩
instance : REq Bool Bool := ⟨(· == ·)⟩
instance {T : Type} [REq T T] : REq (List T) (List T) :=
  ⟨fun a b => a.length == b.length && (a.zip b).all fun p => req p.1 p.2⟩
instance {n : ℕ} {T : Type} [REq T T] : REq (Vec n T) (Vec n T) :=
  ⟨fun a b => req a.toSlice b.toSlice⟩
instance : REq (MaxMin Int) (MaxMin Int) :=
  ⟨fun a b => a.max.1 == b.max.1 && a.max.2 == b.max.2 && a.min.1 == b.min.1 && a.min.2 == b.min.2⟩

/-! ## `src/vector2.rs` -/

/-- `src/vector2.rs:267-271`, `create_vector2_test` -/
def vector2_create_vector2_test : MayPanic Unit := do
  let v := (V2.new ⟨![(1.0 : Float), (2.0 : Float)]⟩)
  check (req (← v.get 0) (1.0 : Float))
  check (req (← v.get 1) (2.0 : Float))
#guard passes vector2_create_vector2_test

/-- `src/vector2.rs:274-284`, `zero_vector2_test` -/
def vector2_zero_vector2_test : MayPanic Unit := do
  let result : (Vec 2 Float) := V2.zeros
  let expected := (V2.new ⟨![(0.0 : Float), (0.0 : Float)]⟩)
  check (req result expected)
#guard passes vector2_zero_vector2_test

/-- `src/vector2.rs:287-293`, `product_test` -/
def vector2_product_test : MayPanic Unit := do
  let v1 := (V2.new ⟨![(1.0 : Float), (2.0 : Float)]⟩)
  let v2 := (V2.new ⟨![(3.0 : Float), (4.0 : Float)]⟩)
  let result := (V2.dot v1 v2)
  let expected := (11.0 : Float)
  check (req result expected)
#guard passes vector2_product_test

/-- `src/vector2.rs:296-308`, `add_test` -/
def vector2_add_test : MayPanic Unit := do
  let v1 := (V2.new ⟨![(1.0 : Float), (2.0 : Float)]⟩)
  let v2 := (V2.new ⟨![(3.0 : Float), (4.0 : Float)]⟩)
  let result := (V2.add v1 v2)
  let expected := (V2.new ⟨![(4.0 : Float), (6.0 : Float)]⟩)
  check (req result expected)
#guard passes vector2_add_test

/-- `src/vector2.rs:311-324`, `sub_test` -/
def vector2_sub_test : MayPanic Unit := do
  let v1 := (V2.new ⟨![(1.0 : Float), (2.0 : Float)]⟩)
  let v2 := (V2.new ⟨![(2.0 : Float), (3.0 : Float)]⟩)
  let expected := (V2.new ⟨![(-(1.0 : Float)), (-(1.0 : Float))]⟩)
  let result := (V2.sub v1 v2)
  check (req result expected)
#guard passes vector2_sub_test

/-- `src/vector2.rs:327-338`, `mul_const_rhs` -/
def vector2_mul_const_rhs : MayPanic Unit := do
  let v1 := (V2.new_from (1.0 : Float) (2.0 : Float))
  let result := (V2.f32mul (2.0 : Float) v1)
  let expected := (V2.new_from (2.0 : Float) (4.0 : Float))
  check (req result expected)
#guard passes vector2_mul_const_rhs

/-- `src/vector2.rs:341-352`, `mul_const` -/
def vector2_mul_const : MayPanic Unit := do
  let v1 := (V2.new_from (1.0 : Float) (2.0 : Float))
  let result := (V2.smul v1 (10.0 : Float))
  let expected := (V2.new_from (10.0 : Float) (20.0 : Float))
  check (req result expected)
#guard passes vector2_mul_const

/-- `src/vector2.rs:355-360`, `norm2_test` -/
def vector2_norm2_test : MayPanic Unit := do
  let v1 := (V2.new_from (1.0 : Float) (2.0 : Float))
  let expected := (2.23606797749979 : Float)
  let result := (V2.norm2 v1)
  check (req result expected)
#guard passes vector2_norm2_test

/-- `src/vector2.rs:363-373`, `normalize_test` -/
def vector2_normalize_test : MayPanic Unit := do
  let result := (← expectOk "unwrap" (← V2.normalize (V2.new ⟨![(1.0 : Float), (1.0 : Float)]⟩)))
  let expected := (V2.new ⟨![(0.7071067811865475 : Float), (0.7071067811865475 : Float)]⟩)
  check (req result expected)
#guard passes vector2_normalize_test

/-- `src/vector2.rs:376-388`, `sub_assigment_test` -/
def vector2_sub_assigment_test : MayPanic Unit := do
  let mut result := (V2.new_from (1.0 : Float) (3.0 : Float))
  let v2 := (V2.new_from (3.0 : Float) (3.0 : Float))
  let expected := (V2.new_from (-(2.0 : Float)) (0.0 : Float))
  result := V2.sub_assign result v2
  check (req result expected)
#guard passes vector2_sub_assigment_test

/-- `src/vector2.rs:391-403`, `add_assigment_test` -/
def vector2_add_assigment_test : MayPanic Unit := do
  let mut result := (V2.new_from (1.0 : Float) (3.0 : Float))
  let v2 := (V2.new_from (3.0 : Float) (3.0 : Float))
  let expected := (V2.new_from (4.0 : Float) (6.0 : Float))
  result := V2.add_assign result v2
  check (req result expected)
#guard passes vector2_add_assigment_test

/-- `src/vector2.rs:406-411`, `norm_inf_test` -/
def vector2_norm_inf_test : MayPanic Unit := do
  let v := (V2.new_from (1 : Int) (10 : Int))
  let result := (← Vec.norm_inf v)
  let expected := (10 : Int)
  check (req result expected)
#guard passes vector2_norm_inf_test

/-- `src/vector2.rs:414-419`, `norm_l_test` -/
def vector2_norm_l_test : MayPanic Unit := do
  let v := (V2.new_from (-(1 : Int)) (1 : Int))
  let result := (Vec.norm_l v)
  let expected := (2 : Int)
  check (req result expected)
#guard passes vector2_norm_l_test

/-! ## `src/vector3.rs` -/

/-- `src/vector3.rs:316-321`, `create_vector3_test` -/
def vector3_create_vector3_test : MayPanic Unit := do
  let v := (V3.new ⟨![(1.0 : Float), (1.0 : Float), (1.0 : Float)]⟩)
  check (req (← v.get 0) (1.0 : Float))
  check (req (← v.get 1) (1.0 : Float))
  check (req (← v.get 2) (1.0 : Float))
#guard passes vector3_create_vector3_test

/-- `src/vector3.rs:324-334`, `zero_vector3_test` -/
def vector3_zero_vector3_test : MayPanic Unit := do
  let result : (Vec 3 Float) := V3.zeros
  let expected := (V3.new ⟨![(0.0 : Float), (0.0 : Float), (0.0 : Float)]⟩)
  check (req result expected)
#guard passes vector3_zero_vector3_test

/-- `src/vector3.rs:337-343`, `product_test` -/
def vector3_product_test : MayPanic Unit := do
  let v1 := (V3.new ⟨![(1.0 : Float), (2.0 : Float), (3.0 : Float)]⟩)
  let v2 := (V3.new ⟨![(4.0 : Float), (5.0 : Float), (6.0 : Float)]⟩)
  let result := (V3.dot v1 v2)
  let expected := (32.0 : Float)
  check (req result expected)
#guard passes vector3_product_test

/-- `src/vector3.rs:346-358`, `add_test` -/
def vector3_add_test : MayPanic Unit := do
  let v1 := (V3.new ⟨![(1.0 : Float), (2.0 : Float), (3.0 : Float)]⟩)
  let v2 := (V3.new ⟨![(4.0 : Float), (5.0 : Float), (6.0 : Float)]⟩)
  let result := (V3.add v1 v2)
  let expected := (V3.new ⟨![(5.0 : Float), (7.0 : Float), (9.0 : Float)]⟩)
  check (req result expected)
#guard passes vector3_add_test

/-- `src/vector3.rs:361-366`, `norm2_test` -/
def vector3_norm2_test : MayPanic Unit := do
  let v1 := (V3.new ⟨![(1.0 : Float), (2.0 : Float), (3.0 : Float)]⟩)
  let expected := (3.7416573867739413 : Float)
  let result := (V3.norm2 v1)
  check (req result expected)
#guard passes vector3_norm2_test

/-- `src/vector3.rs:369-380`, `mul_const_rhs` -/
def vector3_mul_const_rhs : MayPanic Unit := do
  let v := (V3.new ⟨![(1.0 : Float), (2.0 : Float), (3.0 : Float)]⟩)
  let result : (Vec 3 Float) := (V3.f64mul (2.0 : Float) v)
  let expected := (V3.new ⟨![(2.0 : Float), (4.0 : Float), (6.0 : Float)]⟩)
  check (req result expected)
#guard passes vector3_mul_const_rhs

/-- `src/vector3.rs:383-394`, `mul_const` -/
def vector3_mul_const : MayPanic Unit := do
  let v := (V3.new ⟨![(1.0 : Float), (2.0 : Float), (3.0 : Float)]⟩)
  let result := (V3.smul v (2.0 : Float))
  let expected := (V3.new ⟨![(2.0 : Float), (4.0 : Float), (6.0 : Float)]⟩)
  check (req result expected)
#guard passes vector3_mul_const

/-- `src/vector3.rs:397-409`, `sub_test` -/
def vector3_sub_test : MayPanic Unit := do
  let v1 := (V3.new ⟨![(1.0 : Float), (1.0 : Float), (1.0 : Float)]⟩)
  let v2 := (V3.new ⟨![(2.0 : Float), (3.0 : Float), (4.0 : Float)]⟩)
  let result := (V3.sub v1 v2)
  let expected := (V3.new ⟨![(-(1.0 : Float)), (-(2.0 : Float)), (-(3.0 : Float))]⟩)
  check (req result expected)
#guard passes vector3_sub_test

/-- `src/vector3.rs:412-422`, `normalize_test` -/
def vector3_normalize_test : MayPanic Unit := do
  let result := (← expectOk "unwrap" (← V3.normalize (V3.new ⟨![(1.0 : Float), (1.0 : Float), (1.0 : Float)]⟩)))
  let expected := (V3.new ⟨![(0.5773502691896258 : Float), (0.5773502691896258 : Float), (0.5773502691896258 : Float)]⟩)
  check (req result expected)
#guard passes vector3_normalize_test

/-- `src/vector3.rs:425-439`, `cross_test` -/
def vector3_cross_test : MayPanic Unit := do
  let x := (V3.new ⟨![(1.0 : Float), (0.0 : Float), (0.0 : Float)]⟩)
  let y := (V3.new ⟨![(0.0 : Float), (1.0 : Float), (0.0 : Float)]⟩)
  let result := (V3.cross x y)
  let expected := (V3.new ⟨![(0.0 : Float), (0.0 : Float), (1.0 : Float)]⟩)
  check (req result expected)
#guard passes vector3_cross_test

/-- `src/vector3.rs:442-454`, `sub_assigment_test` -/
def vector3_sub_assigment_test : MayPanic Unit := do
  let mut result := (V3.new ⟨![(1.0 : Float), (2.0 : Float), (3.0 : Float)]⟩)
  let v := (V3.new ⟨![(4.0 : Float), (5.0 : Float), (6.0 : Float)]⟩)
  let expected := (V3.new ⟨![(-(3.0 : Float)), (-(3.0 : Float)), (-(3.0 : Float))]⟩)
  result := V3.sub_assign result v
  check (req result expected)
#guard passes vector3_sub_assigment_test

/-- `src/vector3.rs:457-469`, `add_assigment_test` -/
def vector3_add_assigment_test : MayPanic Unit := do
  let mut result := (V3.new_from (1.0 : Float) (2.0 : Float) (3.0 : Float))
  let v := (V3.new_from (4.0 : Float) (5.0 : Float) (6.0 : Float))
  let expected := (V3.new_from (5.0 : Float) (7.0 : Float) (9.0 : Float))
  result := V3.add_assign result v
  check (req result expected)
#guard passes vector3_add_assigment_test

/-- `src/vector3.rs:472-477`, `norm_inf_test` -/
def vector3_norm_inf_test : MayPanic Unit := do
  let v := (V3.new_from (1 : Int) (-(10 : Int)) (73 : Int))
  let result := (← Vec.norm_inf v)
  let expected := (73 : Int)
  check (req result expected)
#guard passes vector3_norm_inf_test

/-- `src/vector3.rs:480-485`, `norm_l_test` -/
def vector3_norm_l_test : MayPanic Unit := do
  let v := (V3.new_from (1 : Int) (-(1 : Int)) (1 : Int))
  let result := (Vec.norm_l v)
  let expected := (3 : Int)
  check (req result expected)
#guard passes vector3_norm_l_test

/-! ## `src/vector4.rs` -/

/-- `src/vector4.rs:275-281`, `vector4_creation_test` -/
def vector4_vector4_creation_test : MayPanic Unit := do
  let v := (V4.new ⟨![(1 : Int), (1 : Int), (1 : Int), (1 : Int)]⟩)
  check (req (← v.get 0) (1 : Int))
  check (req (← v.get 1) (1 : Int))
  check (req (← v.get 2) (1 : Int))
  check (req (← v.get 3) (1 : Int))
#guard passes vector4_vector4_creation_test

/-- `src/vector4.rs:284-294`, `vector4_zeros_test` -/
def vector4_vector4_zeros_test : MayPanic Unit := do
  let result : (Vec 4 Float32) := V4.zeros
  let expected := (V4.new ⟨![(0.0 : Float32), (0.0 : Float32), (0.0 : Float32), (0.0 : Float32)]⟩)
  check (req result expected)
#guard passes vector4_vector4_zeros_test

/-- `src/vector4.rs:297-309`, `vector4_add_test` -/
def vector4_vector4_add_test : MayPanic Unit := do
  let v1 := (V4.new ⟨![(1.0 : Float), (2.0 : Float), (3.0 : Float), (4.0 : Float)]⟩)
  let v2 := (V4.new ⟨![(5.0 : Float), (6.0 : Float), (7.0 : Float), (8.0 : Float)]⟩)
  let result := (V4.add v1 v2)
  let expected := (V4.new ⟨![(6.0 : Float), (8.0 : Float), (10.0 : Float), (12.0 : Float)]⟩)
  check (req result expected)
#guard passes vector4_vector4_add_test

/-- `src/vector4.rs:312-324`, `sub_test` -/
def vector4_sub_test : MayPanic Unit := do
  let v1 := (V4.new ⟨![(1.0 : Float), (2.0 : Float), (3.0 : Float), (4.0 : Float)]⟩)
  let v2 := (V4.new ⟨![(5.0 : Float), (6.0 : Float), (7.0 : Float), (8.0 : Float)]⟩)
  let result := (V4.sub v1 v2)
  let expected := (V4.new ⟨![(-(4.0 : Float)), (-(4.0 : Float)), (-(4.0 : Float)), (-(4.0 : Float))]⟩)
  check (req result expected)
#guard passes vector4_sub_test

/-- `src/vector4.rs:327-333`, `vector4_product_test` -/
def vector4_vector4_product_test : MayPanic Unit := do
  let v1 := (V4.new ⟨![(1.0 : Float), (2.0 : Float), (3.0 : Float), (4.0 : Float)]⟩)
  let v2 := (V4.new ⟨![(5.0 : Float), (6.0 : Float), (7.0 : Float), (8.0 : Float)]⟩)
  let result := (V4.dot v1 v2)
  let expected := (70.0 : Float)
  check (req result expected)
#guard passes vector4_vector4_product_test

/-- `src/vector4.rs:336-341`, `vector4_norm_test` -/
def vector4_vector4_norm_test : MayPanic Unit := do
  let v1 := (V4.new ⟨![(1.0 : Float), (2.0 : Float), (3.0 : Float), (4.0 : Float)]⟩)
  let result := (V4.norm2 v1)
  let expected := (5.477225575051661 : Float)
  check (req result expected)
#guard passes vector4_vector4_norm_test

/-- `src/vector4.rs:344-355`, `mul_const_rhs` -/
def vector4_mul_const_rhs : MayPanic Unit := do
  let v := (V4.new ⟨![(1.0 : Float), (2.0 : Float), (3.0 : Float), (4.0 : Float)]⟩)
  let result := (V4.f32mul (2.0 : Float) v)
  let expected := (V4.new ⟨![(2.0 : Float), (4.0 : Float), (6.0 : Float), (8.0 : Float)]⟩)
  check (req result expected)
#guard passes vector4_mul_const_rhs

/-- `src/vector4.rs:358-369`, `mul_const` -/
def vector4_mul_const : MayPanic Unit := do
  let v := (V4.new ⟨![(1.0 : Float), (2.0 : Float), (3.0 : Float), (4.0 : Float)]⟩)
  let result := (V4.smul v (2.0 : Float))
  let expected := (V4.new ⟨![(2.0 : Float), (4.0 : Float), (6.0 : Float), (8.0 : Float)]⟩)
  check (req result expected)
#guard passes vector4_mul_const

/-- `src/vector4.rs:372-390`, `vector4_mul_matrix4x4_test` -/
def vector4_vector4_mul_matrix4x4_test : MayPanic Unit := do
  let m := (M44.new ⟨![⟨![(1.0 : Float), (2.0 : Float), (3.0 : Float), (4.0 : Float)]⟩, ⟨![(5.0 : Float), (6.0 : Float), (7.0 : Float), (8.0 : Float)]⟩, ⟨![(9.0 : Float), (10.0 : Float), (11.0 : Float), (12.0 : Float)]⟩, ⟨![(13.0 : Float), (14.0 : Float), (15.0 : Float), (16.0 : Float)]⟩]⟩)
  let v1 := (V4.new ⟨![(1.0 : Float), (2.0 : Float), (3.0 : Float), (4.0 : Float)]⟩)
  let result := (V4.mulMat v1 m)
  let expected := (V4.new ⟨![(90.0 : Float), (100.0 : Float), (110.0 : Float), (120.0 : Float)]⟩)
  check (req result expected)
#guard passes vector4_vector4_mul_matrix4x4_test

/-- `src/vector4.rs:393-403`, `normalize_test` -/
def vector4_normalize_test : MayPanic Unit := do
  let result := (← expectOk "unwrap" (← V4.normalize (V4.new ⟨![(1.0 : Float), (1.0 : Float), (1.0 : Float), (1.0 : Float)]⟩)))
  let expected := (V4.new ⟨![(0.5 : Float), (0.5 : Float), (0.5 : Float), (0.5 : Float)]⟩)
  check (req result expected)
#guard passes vector4_normalize_test

/-- `src/vector4.rs:406-418`, `sub_assigment_test` -/
def vector4_sub_assigment_test : MayPanic Unit := do
  let mut result := (V4.new ⟨![(1.0 : Float), (2.0 : Float), (3.0 : Float), (4.0 : Float)]⟩)
  let v := (V4.new ⟨![(5.0 : Float), (6.0 : Float), (7.0 : Float), (8.0 : Float)]⟩)
  let expected := (V4.new ⟨![(-(4.0 : Float)), (-(4.0 : Float)), (-(4.0 : Float)), (-(4.0 : Float))]⟩)
  result := V4.sub_assign result v
  check (req result expected)
#guard passes vector4_sub_assigment_test

/-- `src/vector4.rs:421-433`, `add_assigment_test` -/
def vector4_add_assigment_test : MayPanic Unit := do
  let mut result := (V4.new_from (1.0 : Float) (2.0 : Float) (3.0 : Float) (4.0 : Float))
  let v := (V4.new_from (5.0 : Float) (6.0 : Float) (7.0 : Float) (8.0 : Float))
  let expected := (V4.new_from (6.0 : Float) (8.0 : Float) (10.0 : Float) (12.0 : Float))
  result := V4.add_assign result v
  check (req result expected)
#guard passes vector4_add_assigment_test

/-- `src/vector4.rs:436-441`, `norm_inf_test` -/
def vector4_norm_inf_test : MayPanic Unit := do
  let v := (V4.new_from (10 : Int) (100 : Int) (-(9 : Int)) (0 : Int))
  let result := (← Vec.norm_inf v)
  let expected := (100 : Int)
  check (req result expected)
#guard passes vector4_norm_inf_test

/-- `src/vector4.rs:444-449`, `norm_l_test` -/
def vector4_norm_l_test : MayPanic Unit := do
  let v := (V4.new_from (1 : Int) (-(1 : Int)) (1 : Int) (-(1 : Int)))
  let result := (Vec.norm_l v)
  let expected := (4 : Int)
  check (req result expected)
#guard passes vector4_norm_l_test

/-- `src/vector4.rs:452-457`, `product_lhs_f32_test` -/
def vector4_product_lhs_f32_test : MayPanic Unit := do
  let v := (V4.new_from (1.0 : Float32) (2.0 : Float32) (3.0 : Float32) (4.0 : Float32))
  let result := (V4.f32mul (2.0 : Float32) v)
  let expected := (V4.new_from (2.0 : Float32) (4.0 : Float32) (6.0 : Float32) (8.0 : Float32))
  check (req result expected)
#guard passes vector4_product_lhs_f32_test

/-! ## `src/vector5.rs` -/

/-- `src/vector5.rs:260-267`, `vector5_creation_test` -/
def vector5_vector5_creation_test : MayPanic Unit := do
  let v := (V5.new ⟨![(1.0 : Float), (2.0 : Float), (3.0 : Float), (4.0 : Float), (5.0 : Float)]⟩)
  check (req (← v.get 0) (1.0 : Float))
  check (req (← v.get 1) (2.0 : Float))
  check (req (← v.get 2) (3.0 : Float))
  check (req (← v.get 3) (4.0 : Float))
  check (req (← v.get 4) (5.0 : Float))
#guard passes vector5_vector5_creation_test

/-- `src/vector5.rs:270-280`, `vector5_zeros_test` -/
def vector5_vector5_zeros_test : MayPanic Unit := do
  let result : (Vec 5 Float32) := V5.zeros
  let expected := (V5.new ⟨![(0.0 : Float32), (0.0 : Float32), (0.0 : Float32), (0.0 : Float32), (0.0 : Float32)]⟩)
  check (req result expected)
#guard passes vector5_vector5_zeros_test

/-- `src/vector5.rs:283-295`, `vector5_add_test` -/
def vector5_vector5_add_test : MayPanic Unit := do
  let v1 := (V5.new ⟨![(1.0 : Float), (2.0 : Float), (3.0 : Float), (4.0 : Float), (5.0 : Float)]⟩)
  let v2 := (V5.new ⟨![(6.0 : Float), (7.0 : Float), (8.0 : Float), (9.0 : Float), (10.0 : Float)]⟩)
  let result := (V5.add v1 v2)
  let expected := (V5.new ⟨![(7.0 : Float), (9.0 : Float), (11.0 : Float), (13.0 : Float), (15.0 : Float)]⟩)
  check (req result expected)
#guard passes vector5_vector5_add_test

/-- `src/vector5.rs:298-310`, `sub_test` -/
def vector5_sub_test : MayPanic Unit := do
  let v1 := (V5.new ⟨![(1.0 : Float), (2.0 : Float), (3.0 : Float), (4.0 : Float), (5.0 : Float)]⟩)
  let v2 := (V5.new ⟨![(6.0 : Float), (7.0 : Float), (8.0 : Float), (9.0 : Float), (10.0 : Float)]⟩)
  let result := (V5.sub v1 v2)
  let expected := (V5.new ⟨![(-(5.0 : Float)), (-(5.0 : Float)), (-(5.0 : Float)), (-(5.0 : Float)), (-(5.0 : Float))]⟩)
  check (req result expected)
#guard passes vector5_sub_test

/-- `src/vector5.rs:313-319`, `vector5_mul_test` -/
def vector5_vector5_mul_test : MayPanic Unit := do
  let v1 := (V5.new ⟨![(1.0 : Float), (2.0 : Float), (3.0 : Float), (4.0 : Float), (5.0 : Float)]⟩)
  let v2 := (V5.new ⟨![(6.0 : Float), (7.0 : Float), (8.0 : Float), (9.0 : Float), (10.0 : Float)]⟩)
  let result := (V5.dot v1 v2)
  let expected := (130.0 : Float)
  check (req result expected)
#guard passes vector5_vector5_mul_test

/-- `src/vector5.rs:322-327`, `vector5_norm_test` -/
def vector5_vector5_norm_test : MayPanic Unit := do
  let v1 := (V5.new ⟨![(1.0 : Float), (2.0 : Float), (3.0 : Float), (4.0 : Float), (5.0 : Float)]⟩)
  let result := (V5.norm2 v1)
  let expected := (7.416198487095663 : Float)
  check (req result expected)
#guard passes vector5_vector5_norm_test

/-- `src/vector5.rs:330-341`, `mul_const_rhs` -/
def vector5_mul_const_rhs : MayPanic Unit := do
  let v := (V5.new ⟨![(1.0 : Float), (2.0 : Float), (3.0 : Float), (4.0 : Float), (5.0 : Float)]⟩)
  let result := (V5.f32mul (2.0 : Float) v)
  let expected := (V5.new ⟨![(2.0 : Float), (4.0 : Float), (6.0 : Float), (8.0 : Float), (10.0 : Float)]⟩)
  check (req result expected)
#guard passes vector5_mul_const_rhs

/-- `src/vector5.rs:344-355`, `mul_const` -/
def vector5_mul_const : MayPanic Unit := do
  let v := (V5.new ⟨![(1.0 : Float), (2.0 : Float), (3.0 : Float), (4.0 : Float), (5.0 : Float)]⟩)
  let result := (V5.smul v (2.0 : Float))
  let expected := (V5.new ⟨![(2.0 : Float), (4.0 : Float), (6.0 : Float), (8.0 : Float), (10.0 : Float)]⟩)
  check (req result expected)
#guard passes vector5_mul_const

/-- `src/vector5.rs:358-376`, `vector5_mul_matrix5x5_test` -/
def vector5_vector5_mul_matrix5x5_test : MayPanic Unit := do
  let v1 := (V5.new ⟨![(1.0 : Float), (2.0 : Float), (3.0 : Float), (4.0 : Float), (5.0 : Float)]⟩)
  let m := (M55.new ⟨![⟨![(10.0 : Float), (1.0 : Float), (7.0 : Float), (1.0 : Float), (5.0 : Float)]⟩, ⟨![(2.0 : Float), (4.0 : Float), (8.0 : Float), (3.0 : Float), (2.0 : Float)]⟩, ⟨![(5.0 : Float), (1.0 : Float), (2.0 : Float), (9.0 : Float), (10.0 : Float)]⟩, ⟨![(6.0 : Float), (9.0 : Float), (9.0 : Float), (7.0 : Float), (3.0 : Float)]⟩, ⟨![(1.0 : Float), (8.0 : Float), (8.0 : Float), (10.0 : Float), (5.0 : Float)]⟩]⟩)
  let result := (V5.mulMat v1 m)
  let expected := (V5.new ⟨![(58.0 : Float), (88.0 : Float), (105.0 : Float), (112.0 : Float), (76.0 : Float)]⟩)
  check (req result expected)
#guard passes vector5_vector5_mul_matrix5x5_test

/-- `src/vector5.rs:379-389`, `normalize_test` -/
def vector5_normalize_test : MayPanic Unit := do
  let result := (← expectOk "unwrap" (← V5.normalize (V5.new ⟨![(1.0 : Float), (1.0 : Float), (1.0 : Float), (1.0 : Float), (1.0 : Float)]⟩)))
  let expected := (V5.new ⟨![(0.4472135954999579 : Float), (0.4472135954999579 : Float), (0.4472135954999579 : Float), (0.4472135954999579 : Float), (0.4472135954999579 : Float)]⟩)
  check (req result expected)
#guard passes vector5_normalize_test

/-- `src/vector5.rs:392-404`, `sub_assigment_test` -/
def vector5_sub_assigment_test : MayPanic Unit := do
  let mut result := (V5.new ⟨![(1.0 : Float), (2.0 : Float), (3.0 : Float), (4.0 : Float), (5.0 : Float)]⟩)
  let v := (V5.new ⟨![(0.0 : Float), (1.0 : Float), (2.0 : Float), (3.0 : Float), (4.0 : Float)]⟩)
  let expected := (V5.new ⟨![(1.0 : Float), (1.0 : Float), (1.0 : Float), (1.0 : Float), (1.0 : Float)]⟩)
  result := V5.sub_assign result v
  check (req result expected)
#guard passes vector5_sub_assigment_test

/-- `src/vector5.rs:407-419`, `add_assigment_test` -/
def vector5_add_assigment_test : MayPanic Unit := do
  let mut result := (V5.new_from (1.0 : Float) (2.0 : Float) (3.0 : Float) (4.0 : Float) (5.0 : Float))
  let v := (V5.new_from (0.0 : Float) (1.0 : Float) (2.0 : Float) (3.0 : Float) (4.0 : Float))
  let expected := (V5.new_from (1.0 : Float) (3.0 : Float) (5.0 : Float) (7.0 : Float) (9.0 : Float))
  result := V5.add_assign result v
  check (req result expected)
#guard passes vector5_add_assigment_test

/-- `src/vector5.rs:422-427`, `norm_inf_test` -/
def vector5_norm_inf_test : MayPanic Unit := do
  let v := (V5.new_from (1 : Int) (2 : Int) (30 : Int) (91 : Int) (10 : Int))
  let result := (← Vec.norm_inf v)
  let expected := (91 : Int)
  check (req result expected)
#guard passes vector5_norm_inf_test

/-- `src/vector5.rs:430-435`, `norm_l_test` -/
def vector5_norm_l_test : MayPanic Unit := do
  let v := (V5.new_from (-(1 : Int)) (1 : Int) (-(1 : Int)) (1 : Int) (-(1 : Int)))
  let result := (Vec.norm_l v)
  let expected := (5 : Int)
  check (req result expected)
#guard passes vector5_norm_l_test

/-! ## `src/vector6.rs` -/

/-- `src/vector6.rs:317-325`, `vector6_creation_test` -/
def vector6_vector6_creation_test : MayPanic Unit := do
  let v := (V6.new ⟨![(1.0 : Float), (2.0 : Float), (3.0 : Float), (4.0 : Float), (5.0 : Float), (6.0 : Float)]⟩)
  check (req (← v.get 0) (1.0 : Float))
  check (req (← v.get 1) (2.0 : Float))
  check (req (← v.get 2) (3.0 : Float))
  check (req (← v.get 3) (4.0 : Float))
  check (req (← v.get 4) (5.0 : Float))
  check (req (← v.get 5) (6.0 : Float))
#guard passes vector6_vector6_creation_test

/-- `src/vector6.rs:328-339`, `vector6_add_test` -/
def vector6_vector6_add_test : MayPanic Unit := do
  let v := (V6.new ⟨![(1.0 : Float), (2.0 : Float), (3.0 : Float), (4.0 : Float), (5.0 : Float), (6.0 : Float)]⟩)
  let result := (V6.add v v)
  let expected := (V6.new ⟨![(2.0 : Float), (4.0 : Float), (6.0 : Float), (8.0 : Float), (10.0 : Float), (12.0 : Float)]⟩)
  check (req result expected)
#guard passes vector6_vector6_add_test

/-- `src/vector6.rs:342-353`, `sub_test` -/
def vector6_sub_test : MayPanic Unit := do
  let v := (V6.new ⟨![(1.0 : Float), (2.0 : Float), (3.0 : Float), (4.0 : Float), (5.0 : Float), (6.0 : Float)]⟩)
  let result := (V6.sub v v)
  let expected := (V6.new ⟨![(0.0 : Float), (0.0 : Float), (0.0 : Float), (0.0 : Float), (0.0 : Float), (0.0 : Float)]⟩)
  check (req result expected)
#guard passes vector6_sub_test

/-- `src/vector6.rs:356-367`, `mul_const_rhs` -/
def vector6_mul_const_rhs : MayPanic Unit := do
  let v := (V6.new ⟨![(1.0 : Float), (2.0 : Float), (3.0 : Float), (4.0 : Float), (5.0 : Float), (6.0 : Float)]⟩)
  let result := (V6.f32mul (2.0 : Float) v)
  let expected := (V6.new ⟨![(2.0 : Float), (4.0 : Float), (6.0 : Float), (8.0 : Float), (10.0 : Float), (12.0 : Float)]⟩)
  check (req result expected)
#guard passes vector6_mul_const_rhs

/-- `src/vector6.rs:370-381`, `mul_const` -/
def vector6_mul_const : MayPanic Unit := do
  let v := (V6.new ⟨![(1.0 : Float), (2.0 : Float), (3.0 : Float), (4.0 : Float), (5.0 : Float), (6.0 : Float)]⟩)
  let result := (V6.smul v (2.0 : Float))
  let expected := (V6.new ⟨![(2.0 : Float), (4.0 : Float), (6.0 : Float), (8.0 : Float), (10.0 : Float), (12.0 : Float)]⟩)
  check (req result expected)
#guard passes vector6_mul_const

/-- `src/vector6.rs:384-389`, `product_test` -/
def vector6_product_test : MayPanic Unit := do
  let v := (V6.new ⟨![(1.0 : Float), (2.0 : Float), (3.0 : Float), (4.0 : Float), (5.0 : Float), (6.0 : Float)]⟩)
  let result := (V6.dot v v)
  let expected := (91.0 : Float)
  check (req result expected)
#guard passes vector6_product_test

/-- `src/vector6.rs:391-411`, `product_matrix6x6_test` -/
def vector6_product_matrix6x6_test : MayPanic Unit := do
  let v := (V6.new ⟨![(1.0 : Float), (2.0 : Float), (3.0 : Float), (4.0 : Float), (5.0 : Float), (6.0 : Float)]⟩)
  let m := (M66.new ⟨![⟨![(0.0 : Float), (1.0 : Float), (2.0 : Float), (3.0 : Float), (4.0 : Float), (5.0 : Float)]⟩, ⟨![(6.0 : Float), (7.0 : Float), (8.0 : Float), (9.0 : Float), (10.0 : Float), (11.0 : Float)]⟩, ⟨![(12.0 : Float), (13.0 : Float), (14.0 : Float), (15.0 : Float), (16.0 : Float), (17.0 : Float)]⟩, ⟨![(18.0 : Float), (19.0 : Float), (20.0 : Float), (21.0 : Float), (22.0 : Float), (23.0 : Float)]⟩, ⟨![(24.0 : Float), (25.0 : Float), (26.0 : Float), (27.0 : Float), (28.0 : Float), (29.0 : Float)]⟩, ⟨![(30.0 : Float), (31.0 : Float), (32.0 : Float), (33.0 : Float), (34.0 : Float), (35.0 : Float)]⟩]⟩)
  let result := (V6.mulMat v m)
  let expected := (V6.new ⟨![(420.0 : Float), (441.0 : Float), (462.0 : Float), (483.0 : Float), (504.0 : Float), (525.0 : Float)]⟩)
  check (req result expected)
#guard passes vector6_product_matrix6x6_test

/-- `src/vector6.rs:414-424`, `normalize_test` -/
def vector6_normalize_test : MayPanic Unit := do
  let result := (← expectOk "unwrap" (← V6.normalize (V6.new ⟨![(1.0 : Float), (1.0 : Float), (1.0 : Float), (1.0 : Float), (1.0 : Float), (1.0 : Float)]⟩)))
  let expected := (V6.new ⟨![(0.4082482904638631 : Float), (0.4082482904638631 : Float), (0.4082482904638631 : Float), (0.4082482904638631 : Float), (0.4082482904638631 : Float), (0.4082482904638631 : Float)]⟩)
  check (req result expected)
#guard passes vector6_normalize_test

/-- `src/vector6.rs:427-439`, `sub_assigment_test` -/
def vector6_sub_assigment_test : MayPanic Unit := do
  let mut result := (V6.new ⟨![(1.0 : Float), (2.0 : Float), (3.0 : Float), (4.0 : Float), (5.0 : Float), (6.0 : Float)]⟩)
  let v := (V6.new ⟨![(0.0 : Float), (1.0 : Float), (2.0 : Float), (3.0 : Float), (4.0 : Float), (5.0 : Float)]⟩)
  let expected := (V6.new ⟨![(1.0 : Float), (1.0 : Float), (1.0 : Float), (1.0 : Float), (1.0 : Float), (1.0 : Float)]⟩)
  result := V6.sub_assign result v
  check (req result expected)
#guard passes vector6_sub_assigment_test

/-- `src/vector6.rs:442-454`, `add_assigment_test` -/
def vector6_add_assigment_test : MayPanic Unit := do
  let mut result := (V6.new_from (1.0 : Float) (2.0 : Float) (3.0 : Float) (4.0 : Float) (5.0 : Float) (6.0 : Float))
  let v := (V6.new_from (0.0 : Float) (1.0 : Float) (2.0 : Float) (3.0 : Float) (4.0 : Float) (5.0 : Float))
  let expected := (V6.new_from (1.0 : Float) (3.0 : Float) (5.0 : Float) (7.0 : Float) (9.0 : Float) (11.0 : Float))
  result := V6.add_assign result v
  check (req result expected)
#guard passes vector6_add_assigment_test

/-- `src/vector6.rs:457-462`, `norm_inf_test` -/
def vector6_norm_inf_test : MayPanic Unit := do
  let v := (V6.new_from (1 : Int) (10 : Int) (-(10 : Int)) (10 : Int) (100 : Int) (3 : Int))
  let result := (← Vec.norm_inf v)
  let expected := (100 : Int)
  check (req result expected)
#guard passes vector6_norm_inf_test

/-- `src/vector6.rs:465-470`, `norm_l_test` -/
def vector6_norm_l_test : MayPanic Unit := do
  let v := (V6.new_from (1 : Int) (-(1 : Int)) (1 : Int) (-(1 : Int)) (1 : Int) (-(1 : Int)))
  let result := (Vec.norm_l v)
  let expected := (6 : Int)
  check (req result expected)
#guard passes vector6_norm_l_test

/-! ## `src/matrix2x2.rs` -/

/-- `src/matrix2x2.rs:556-562`, `create_m22_floats` -/
def matrix2x2_create_m22_floats : MayPanic Unit := do
  let matrix := (M22.new ⟨![⟨![(0.0 : Float), (1.0 : Float)]⟩, ⟨![(2.0 : Float), (3.0 : Float)]⟩]⟩)
  check (req (← matrix.get 0 0) (0.0 : Float))
  check (req (← matrix.get 0 1) (1.0 : Float))
  check (req (← matrix.get 1 0) (2.0 : Float))
  check (req (← matrix.get 1 1) (3.0 : Float))
#guard passes matrix2x2_create_m22_floats

/-- `src/matrix2x2.rs:565-573`, `create_m22_test` -/
def matrix2x2_create_m22_test : MayPanic Unit := do
  let m := (M22.new ⟨![⟨![(0.0 : Float), (1.0 : Float)]⟩, ⟨![(2.0 : Float), (3.0 : Float)]⟩]⟩)
  check (req (← m.get 0 0) (0.0 : Float))
  check (req (← m.get 0 1) (1.0 : Float))
  check (req (← m.get 1 0) (2.0 : Float))
  check (req (← m.get 1 1) (3.0 : Float))
#guard passes matrix2x2_create_m22_test

/-- `src/matrix2x2.rs:576-582`, `create_m22_ints` -/
def matrix2x2_create_m22_ints : MayPanic Unit := do
  let m := (M22.new ⟨![⟨![(0 : Int), (1 : Int)]⟩, ⟨![(2 : Int), (3 : Int)]⟩]⟩)
  check (req (← m.get 0 0) (0 : Int))
  check (req (← m.get 0 1) (1 : Int))
  check (req (← m.get 1 0) (2 : Int))
  check (req (← m.get 1 1) (3 : Int))
#guard passes matrix2x2_create_m22_ints

/-- `src/matrix2x2.rs:585-589`, `create_identity_floats` -/
def matrix2x2_create_identity_floats : MayPanic Unit := do
  let expected := (M22.new ⟨![⟨![(1.0 : Float), (0.0 : Float)]⟩, ⟨![(0.0 : Float), (1.0 : Float)]⟩]⟩)
  let result : (Mat 2 Float) := M22.identity
  check (req (← M22.as_vec result) (← M22.as_vec expected))
#guard passes matrix2x2_create_identity_floats

/-- `src/matrix2x2.rs:592-596`, `create_identity_ints` -/
def matrix2x2_create_identity_ints : MayPanic Unit := do
  let expected := (M22.new ⟨![⟨![(1 : Int), (0 : Int)]⟩, ⟨![(0 : Int), (1 : Int)]⟩]⟩)
  let result : (Mat 2 Int) := M22.identity
  check (req (← M22.as_vec result) (← M22.as_vec expected))
#guard passes matrix2x2_create_identity_ints

/-- `src/matrix2x2.rs:599-605`, `add_m22_floats` -/
def matrix2x2_add_m22_floats : MayPanic Unit := do
  let m1 := (M22.new ⟨![⟨![(1.0 : Float), (2.0 : Float)]⟩, ⟨![(3.0 : Float), (4.0 : Float)]⟩]⟩)
  let m2 := (M22.new ⟨![⟨![(5.0 : Float), (6.0 : Float)]⟩, ⟨![(7.0 : Float), (8.0 : Float)]⟩]⟩)
  let expected := (M22.new ⟨![⟨![(6.0 : Float), (8.0 : Float)]⟩, ⟨![(10.0 : Float), (12.0 : Float)]⟩]⟩)
  let result := (M22.add m1 m2)
  check (req (← M22.as_vec result) (← M22.as_vec expected))
#guard passes matrix2x2_add_m22_floats

/-- `src/matrix2x2.rs:608-617`, `sub_test` -/
def matrix2x2_sub_test : MayPanic Unit := do
  let m1 := (M22.new ⟨![⟨![(1.0 : Float), (2.0 : Float)]⟩, ⟨![(3.0 : Float), (4.0 : Float)]⟩]⟩)
  let m2 := (M22.new ⟨![⟨![(5.0 : Float), (6.0 : Float)]⟩, ⟨![(7.0 : Float), (8.0 : Float)]⟩]⟩)
  let expected := (M22.new ⟨![⟨![(-(4.0 : Float)), (-(4.0 : Float))]⟩, ⟨![(-(4.0 : Float)), (-(4.0 : Float))]⟩]⟩)
  let result := (M22.sub m1 m2)
  check (req (← M22.as_vec result) (← M22.as_vec expected))
#guard passes matrix2x2_sub_test

/-- `src/matrix2x2.rs:620-626`, `add_m22_ints` -/
def matrix2x2_add_m22_ints : MayPanic Unit := do
  let m1 := (M22.new ⟨![⟨![(1 : Int), (2 : Int)]⟩, ⟨![(3 : Int), (4 : Int)]⟩]⟩)
  let m2 := (M22.new ⟨![⟨![(5 : Int), (6 : Int)]⟩, ⟨![(7 : Int), (8 : Int)]⟩]⟩)
  let expected := (M22.new ⟨![⟨![(6 : Int), (8 : Int)]⟩, ⟨![(10 : Int), (12 : Int)]⟩]⟩)
  let result := (M22.add m1 m2)
  check (req (← M22.as_vec result) (← M22.as_vec expected))
#guard passes matrix2x2_add_m22_ints

/-- `src/matrix2x2.rs:629-634`, `test_determinant` -/
def matrix2x2_test_determinant : MayPanic Unit := do
  let m1 := (M22.new ⟨![⟨![(1.0 : Float), (2.0 : Float)]⟩, ⟨![(1.0 : Float), (2.0 : Float)]⟩]⟩)
  let result := (M22.det m1)
  let expected := (0.0 : Float)
  check (req result expected)
#guard passes matrix2x2_test_determinant

/-- `src/matrix2x2.rs:637-650`, `product_with_vector2_rhs_test` -/
def matrix2x2_product_with_vector2_rhs_test : MayPanic Unit := do
  let m1 := (M22.new ⟨![⟨![(1.0 : Float), (2.0 : Float)]⟩, ⟨![(3.0 : Float), (4.0 : Float)]⟩]⟩)
  let v := (V2.new ⟨![(1.0 : Float), (2.0 : Float)]⟩)
  let result := (M22.mulVec m1 v)
  let expected := (V2.new ⟨![(5.0 : Float), (11.0 : Float)]⟩)
  check (req result expected)
#guard passes matrix2x2_product_with_vector2_rhs_test

/-- `src/matrix2x2.rs:653-665`, `product_with_matrix2x2_rhs_test` -/
def matrix2x2_product_with_matrix2x2_rhs_test : MayPanic Unit := do
  let v := (V2.new ⟨![(1.0 : Float), (2.0 : Float)]⟩)
  let m1 := (M22.new ⟨![⟨![(1.0 : Float), (2.0 : Float)]⟩, ⟨![(3.0 : Float), (4.0 : Float)]⟩]⟩)
  let result := (V2.mulMat v m1)
  let expected := (V2.new ⟨![(7.0 : Float), (10.0 : Float)]⟩)
  check (req result expected)
#guard passes matrix2x2_product_with_matrix2x2_rhs_test

/-- `src/matrix2x2.rs:668-677`, `inverse_test` -/
def matrix2x2_inverse_test : MayPanic Unit := do
  let m1 := (M22.new ⟨![⟨![(1.0 : Float32), (2.0 : Float32)]⟩, ⟨![(3.0 : Float32), (4.0 : Float32)]⟩]⟩)
  let expected := (M22.new ⟨![⟨![(-(2.0 : Float32)), (1.0 : Float32)]⟩, ⟨![(1.5 : Float32), (-(0.5 : Float32))]⟩]⟩)
  if let some result := (← M22.inverse m1) then
    check (compare_vecs (← M22.as_vec result).toSlice (← M22.as_vec expected).toSlice (1e-7 : Float32))
#guard passes matrix2x2_inverse_test

/-- `src/matrix2x2.rs:680-684`, `inverse_fail` -/
def matrix2x2_inverse_fail : MayPanic Unit := do
  let m1 := (M22.new ⟨![⟨![(1.0 : Float), (2.0 : Float)]⟩, ⟨![(1.0 : Float), (2.0 : Float)]⟩]⟩)
  let result := (← M22.inverse m1)
  check result.isNone
#guard passes matrix2x2_inverse_fail

/-- `src/matrix2x2.rs:687-702`, `get_columns_test` -/
def matrix2x2_get_columns_test : MayPanic Unit := do
  let m1 := (M22.new ⟨![⟨![(1.0 : Float), (2.0 : Float)]⟩, ⟨![(3.0 : Float), (4.0 : Float)]⟩]⟩)
  let result := (← M22.get_cols m1)
  let expected1 := (V2.new ⟨![(1.0 : Float), (3.0 : Float)]⟩)
  let expected2 := (V2.new ⟨![(2.0 : Float), (4.0 : Float)]⟩)
  let expected := (V2.new ⟨![expected1, expected2]⟩)
  check (req result expected)
#guard passes matrix2x2_get_columns_test

/-- `src/matrix2x2.rs:705-720`, `get_rows_test` -/
def matrix2x2_get_rows_test : MayPanic Unit := do
  let m1 := (M22.new ⟨![⟨![(1.0 : Float), (2.0 : Float)]⟩, ⟨![(3.0 : Float), (4.0 : Float)]⟩]⟩)
  let result := (← M22.get_rows m1)
  let expected1 := (V2.new ⟨![(1.0 : Float), (2.0 : Float)]⟩)
  let expected2 := (V2.new ⟨![(3.0 : Float), (4.0 : Float)]⟩)
  let expected := (V2.new ⟨![expected1, expected2]⟩)
  check (req result expected)
#guard passes matrix2x2_get_rows_test

/-- `src/matrix2x2.rs:723-732`, `new_from_vecs_test` -/
def matrix2x2_new_from_vecs_test : MayPanic Unit := do
  let expected := (M22.new ⟨![⟨![(1.0 : Float32), (2.0 : Float32)]⟩, ⟨![(3.0 : Float32), (4.0 : Float32)]⟩]⟩)
  let cols := (← M22.get_cols expected)
  let result := (← M22.new_from_vecs cols)
  check (compare_vecs (← M22.as_vec result).toSlice (← M22.as_vec expected).toSlice (1e-7 : Float32))
#guard passes matrix2x2_new_from_vecs_test

/-- `src/matrix2x2.rs:735-743`, `qr_test` -/
def matrix2x2_qr_test : MayPanic Unit := do
  let expected := (M22.new ⟨![⟨![(10.0 : Float32), (2.0 : Float32)]⟩, ⟨![(3.0 : Float32), (-(4.0 : Float32))]⟩]⟩)
  if let some (q, r) := (← M22.qr expected) then
    let result := (M22.mul q r)
    check (compare_vecs (← M22.as_vec result).toSlice (← M22.as_vec expected).toSlice (1e-7 : Float32))
    check (nearly_equal (RAbs.abs (M22.det q)) (1.0 : Float32) (1e-7 : Float32))
#guard passes matrix2x2_qr_test

/-- `src/matrix2x2.rs:746-758`, `get_diagonal` -/
def matrix2x2_get_diagonal : MayPanic Unit := do
  let m := (M22.new ⟨![⟨![(10.0 : Float), (2.0 : Float)]⟩, ⟨![(3.0 : Float), (-(4.0 : Float))]⟩]⟩)
  let result := (← M22.get_diagonal m)
  let expected := (V2.new ⟨![(10.0 : Float), (-(4.0 : Float))]⟩)
  check (req result expected)
#guard passes matrix2x2_get_diagonal

/-- `src/matrix2x2.rs:761-769`, `for_each_test` -/
def matrix2x2_for_each_test : MayPanic Unit := do
  let m := (M22.new ⟨![⟨![(10.0 : Float32), (2.0 : Float32)]⟩, ⟨![(3.0 : Float32), (-(4.0 : Float32))]⟩]⟩)
  let result := (← M22.for_each m (fun element => (element + (37.0 : Float32))))
  let expected := (M22.new ⟨![⟨![(47.0 : Float32), (39.0 : Float32)]⟩, ⟨![(40.0 : Float32), (33.0 : Float32)]⟩]⟩)
  check (compare_vecs (← M22.as_vec result).toSlice (← M22.as_vec expected).toSlice (1e-7 : Float32))
#guard passes matrix2x2_for_each_test

/-! ## `src/matrix3x3.rs` -/

/-- `src/matrix3x3.rs:683-694`, `create_matrix` -/
def matrix3x3_create_matrix : MayPanic Unit := do
  let matrix := (M33.new ⟨![⟨![(0.0 : Float), (1.0 : Float), (2.0 : Float)]⟩, ⟨![(3.0 : Float), (4.0 : Float), (5.0 : Float)]⟩, ⟨![(6.0 : Float), (7.0 : Float), (8.0 : Float)]⟩]⟩)
  check (req (← matrix.get 0 0) (0.0 : Float))
  check (req (← matrix.get 0 1) (1.0 : Float))
  check (req (← matrix.get 0 2) (2.0 : Float))
  check (req (← matrix.get 1 0) (3.0 : Float))
  check (req (← matrix.get 1 1) (4.0 : Float))
  check (req (← matrix.get 1 2) (5.0 : Float))
  check (req (← matrix.get 2 0) (6.0 : Float))
  check (req (← matrix.get 2 1) (7.0 : Float))
  check (req (← matrix.get 2 2) (8.0 : Float))
#guard passes matrix3x3_create_matrix

/-- `src/matrix3x3.rs:697-700`, `trace_test` -/
def matrix3x3_trace_test : MayPanic Unit := do
  let matrix := (M33.new ⟨![⟨![(0.0 : Float), (1.0 : Float), (2.0 : Float)]⟩, ⟨![(3.0 : Float), (4.0 : Float), (5.0 : Float)]⟩, ⟨![(6.0 : Float), (7.0 : Float), (8.0 : Float)]⟩]⟩)
  check (req (M33.trace matrix) (12.0 : Float))
#guard passes matrix3x3_trace_test

/-- `src/matrix3x3.rs:703-712`, `add_matrix` -/
def matrix3x3_add_matrix : MayPanic Unit := do
  let m1 := (M33.new ⟨![⟨![(0.0 : Float32), (1.0 : Float32), (2.0 : Float32)]⟩, ⟨![(3.0 : Float32), (4.0 : Float32), (5.0 : Float32)]⟩, ⟨![(6.0 : Float32), (7.0 : Float32), (8.0 : Float32)]⟩]⟩)
  let m2 := (M33.new ⟨![⟨![(0.0 : Float32), (1.0 : Float32), (2.0 : Float32)]⟩, ⟨![(3.0 : Float32), (4.0 : Float32), (5.0 : Float32)]⟩, ⟨![(6.0 : Float32), (7.0 : Float32), (8.0 : Float32)]⟩]⟩)
  let expected := (M33.new ⟨![⟨![(0.0 : Float32), (2.0 : Float32), (4.0 : Float32)]⟩, ⟨![(6.0 : Float32), (8.0 : Float32), (10.0 : Float32)]⟩, ⟨![(12.0 : Float32), (14.0 : Float32), (16.0 : Float32)]⟩]⟩)
  let result := (M33.add m1 m2)
  check (compare_vecs (← M33.as_vec result).toSlice (← M33.as_vec expected).toSlice (1e-8 : Float32))
#guard passes matrix3x3_add_matrix

/-- `src/matrix3x3.rs:715-731`, `sub_test` -/
def matrix3x3_sub_test : MayPanic Unit := do
  let m1 := (M33.new ⟨![⟨![(0.0 : Float32), (1.0 : Float32), (2.0 : Float32)]⟩, ⟨![(3.0 : Float32), (4.0 : Float32), (5.0 : Float32)]⟩, ⟨![(6.0 : Float32), (7.0 : Float32), (8.0 : Float32)]⟩]⟩)
  let m2 := (M33.new ⟨![⟨![(0.0 : Float32), (1.0 : Float32), (2.0 : Float32)]⟩, ⟨![(3.0 : Float32), (4.0 : Float32), (5.0 : Float32)]⟩, ⟨![(6.0 : Float32), (7.0 : Float32), (8.0 : Float32)]⟩]⟩)
  let expected := (M33.new ⟨![⟨![(0.0 : Float32), (0.0 : Float32), (0.0 : Float32)]⟩, ⟨![(0.0 : Float32), (0.0 : Float32), (0.0 : Float32)]⟩, ⟨![(0.0 : Float32), (0.0 : Float32), (0.0 : Float32)]⟩]⟩)
  let result := (M33.sub m1 m2)
  check (compare_vecs (← M33.as_vec result).toSlice (← M33.as_vec expected).toSlice (1e-8 : Float32))
#guard passes matrix3x3_sub_test

/-- `src/matrix3x3.rs:734-740`, `test_identity_creation` -/
def matrix3x3_test_identity_creation : MayPanic Unit := do
  let identity : (Mat 3 Float32) := M33.identity
  let expected := (M33.new ⟨![⟨![(1.0 : Float32), (0.0 : Float32), (0.0 : Float32)]⟩, ⟨![(0.0 : Float32), (1.0 : Float32), (0.0 : Float32)]⟩, ⟨![(0.0 : Float32), (0.0 : Float32), (1.0 : Float32)]⟩]⟩)
  check (compare_vecs (← M33.as_vec identity).toSlice (← M33.as_vec expected).toSlice (1e-8 : Float32))
#guard passes matrix3x3_test_identity_creation

/-- `src/matrix3x3.rs:743-749`, `test_zeros_creation` -/
def matrix3x3_test_zeros_creation : MayPanic Unit := do
  let zero : (Mat 3 Float32) := M33.zeros
  let expected := (M33.new ⟨![⟨![(0.0 : Float32), (0.0 : Float32), (0.0 : Float32)]⟩, ⟨![(0.0 : Float32), (0.0 : Float32), (0.0 : Float32)]⟩, ⟨![(0.0 : Float32), (0.0 : Float32), (0.0 : Float32)]⟩]⟩)
  check (compare_vecs (← M33.as_vec zero).toSlice (← M33.as_vec expected).toSlice (1e-8 : Float32))
#guard passes matrix3x3_test_zeros_creation

/-- `src/matrix3x3.rs:752-755`, `test_trace` -/
def matrix3x3_test_trace : MayPanic Unit := do
  let m : (Mat 3 Float32) := M33.identity
  check (req (M33.trace m) (3.0 : Float32))
#guard passes matrix3x3_test_trace

/-- `src/matrix3x3.rs:758-762`, `test_norm2` -/
def matrix3x3_test_norm2 : MayPanic Unit := do
  let m := (M33.new ⟨![⟨![(0.0 : Float32), (1.0 : Float32), (2.0 : Float32)]⟩, ⟨![(3.0 : Float32), (4.0 : Float32), (5.0 : Float32)]⟩, ⟨![(6.0 : Float32), (7.0 : Float32), (8.0 : Float32)]⟩]⟩)
  check (nearly_equal (M33.norm2 m) (14.2828568570857 : Float32) (1e-8 : Float32))
#guard passes matrix3x3_test_norm2

/-- `src/matrix3x3.rs:765-771`, `determinant_test` -/
def matrix3x3_determinant_test : MayPanic Unit := do
  let m := (M33.new ⟨![⟨![(0.0 : Float32), (1.0 : Float32), (2.0 : Float32)]⟩, ⟨![(3.0 : Float32), (4.0 : Float32), (5.0 : Float32)]⟩, ⟨![(6.0 : Float32), (7.0 : Float32), (9.0 : Float32)]⟩]⟩)
  let expected := (-(3.0 : Float32))
  let result := (M33.det m)
  check (nearly_equal result expected (1e-8 : Float32))
#guard passes matrix3x3_determinant_test

/-- `src/matrix3x3.rs:774-787`, `inverse_test` -/
def matrix3x3_inverse_test : MayPanic Unit := do
  let m := (M33.new ⟨![⟨![(1.0 : Float32), (0.0 : Float32), (3.0 : Float32)]⟩, ⟨![(2.0 : Float32), (1.0 : Float32), (6.0 : Float32)]⟩, ⟨![(1.0 : Float32), (0.0 : Float32), (9.0 : Float32)]⟩]⟩)
  let expected := (M33.new ⟨![⟨![(1.5 : Float32), (0.0 : Float32), (-(0.5 : Float32))]⟩, ⟨![(-(2.0 : Float32)), (1.0 : Float32), (0.0 : Float32)]⟩, ⟨![(-(0.16666666666666666 : Float32)), (0.0 : Float32), (0.16666666666666666 : Float32)]⟩]⟩)
  if let some result := (← M33.inverse m) then
    check (compare_vecs (← M33.as_vec result).toSlice (← M33.as_vec expected).toSlice (1e-8 : Float32))
#guard passes matrix3x3_inverse_test

/-- `src/matrix3x3.rs:790-795`, `inverse_fail` -/
def matrix3x3_inverse_fail : MayPanic Unit := do
  let m := (M33.new ⟨![⟨![(1.0 : Float), (0.0 : Float), (3.0 : Float)]⟩, ⟨![(1.0 : Float), (0.0 : Float), (3.0 : Float)]⟩, ⟨![(10.0 : Float), (0.0 : Float), (3.0 : Float)]⟩]⟩)
  let result := (← M33.inverse m)
  check (result).isNone
#guard passes matrix3x3_inverse_fail

/-- `src/matrix3x3.rs:798-810`, `test_mul_m33_v3` -/
def matrix3x3_test_mul_m33_v3 : MayPanic Unit := do
  let m := (M33.new ⟨![⟨![(1.0 : Float), (1.0 : Float), (1.0 : Float)]⟩, ⟨![(3.0 : Float), (2.0 : Float), (1.0 : Float)]⟩, ⟨![(7.0 : Float), (3.0 : Float), (3.0 : Float)]⟩]⟩)
  let v := (V3.new ⟨![(2.0 : Float), (7.0 : Float), (6.0 : Float)]⟩)
  let result := (M33.mulVec m v)
  let expected := (V3.new ⟨![(15.0 : Float), (26.0 : Float), (53.0 : Float)]⟩)
  check (req result expected)
#guard passes matrix3x3_test_mul_m33_v3

/-- `src/matrix3x3.rs:813-832`, `get_columns_test` -/
def matrix3x3_get_columns_test : MayPanic Unit := do
  let m := (M33.new ⟨![⟨![(0.0 : Float), (1.0 : Float), (2.0 : Float)]⟩, ⟨![(3.0 : Float), (4.0 : Float), (5.0 : Float)]⟩, ⟨![(6.0 : Float), (7.0 : Float), (8.0 : Float)]⟩]⟩)
  let result := (← M33.get_cols m)
  let expected0 := (V3.new ⟨![(0.0 : Float), (3.0 : Float), (6.0 : Float)]⟩)
  let expected1 := (V3.new ⟨![(1.0 : Float), (4.0 : Float), (7.0 : Float)]⟩)
  let expected2 := (V3.new ⟨![(2.0 : Float), (5.0 : Float), (8.0 : Float)]⟩)
  let expected := (V3.new ⟨![expected0, expected1, expected2]⟩)
  check (req result expected)
#guard passes matrix3x3_get_columns_test

/-- `src/matrix3x3.rs:835-855`, `get_rows_test` -/
def matrix3x3_get_rows_test : MayPanic Unit := do
  let m := (M33.new ⟨![⟨![(0.0 : Float), (1.0 : Float), (2.0 : Float)]⟩, ⟨![(3.0 : Float), (4.0 : Float), (5.0 : Float)]⟩, ⟨![(6.0 : Float), (7.0 : Float), (8.0 : Float)]⟩]⟩)
  let result := (← M33.get_rows m)
  let expected0 := (V3.new ⟨![(0.0 : Float), (1.0 : Float), (2.0 : Float)]⟩)
  let expected1 := (V3.new ⟨![(3.0 : Float), (4.0 : Float), (5.0 : Float)]⟩)
  let expected2 := (V3.new ⟨![(6.0 : Float), (7.0 : Float), (8.0 : Float)]⟩)
  let expected := (V3.new ⟨![expected0, expected1, expected2]⟩)
  check (req result expected)
#guard passes matrix3x3_get_rows_test

/-- `src/matrix3x3.rs:858-868`, `new_from_vecs_test` -/
def matrix3x3_new_from_vecs_test : MayPanic Unit := do
  let expected := (M33.new ⟨![⟨![(0.0 : Float32), (1.0 : Float32), (2.0 : Float32)]⟩, ⟨![(3.0 : Float32), (4.0 : Float32), (5.0 : Float32)]⟩, ⟨![(6.0 : Float32), (7.0 : Float32), (8.0 : Float32)]⟩]⟩)
  let cols := (← M33.get_cols expected)
  let result := (← M33.new_from_vecs cols)
  check (compare_vecs (← M33.as_vec result).toSlice (← M33.as_vec expected).toSlice (1e-8 : Float32))
#guard passes matrix3x3_new_from_vecs_test

/-- `src/matrix3x3.rs:871-880`, `qr_test` -/
def matrix3x3_qr_test : MayPanic Unit := do
  let expected := (M33.new ⟨![⟨![(0.0 : Float32), (1.0 : Float32), (2.0 : Float32)]⟩, ⟨![(3.0 : Float32), (4.0 : Float32), (5.0 : Float32)]⟩, ⟨![(6.0 : Float32), (7.0 : Float32), (8.0 : Float32)]⟩]⟩)
  if let some (q, r) := (← M33.qr expected) then
    let result := (M33.mul q r)
    check (compare_vecs (← M33.as_vec result).toSlice (← M33.as_vec expected).toSlice (1e-8 : Float32))
    check (nearly_equal (RAbs.abs (M33.det q)) (1.0 : Float32) (1e-8 : Float32))
#guard passes matrix3x3_qr_test

/-- `src/matrix3x3.rs:883-896`, `get_diagonal` -/
def matrix3x3_get_diagonal : MayPanic Unit := do
  let m := (M33.new ⟨![⟨![(0.0 : Float), (1.0 : Float), (2.0 : Float)]⟩, ⟨![(3.0 : Float), (4.0 : Float), (5.0 : Float)]⟩, ⟨![(6.0 : Float), (7.0 : Float), (8.0 : Float)]⟩]⟩)
  let result := (← M33.get_diagonal m)
  let expected := (V3.new ⟨![(0.0 : Float), (4.0 : Float), (8.0 : Float)]⟩)
  check (req result expected)
#guard passes matrix3x3_get_diagonal

/-- `src/matrix3x3.rs:899-912`, `get_upper_triangular_test` -/
def matrix3x3_get_upper_triangular_test : MayPanic Unit := do
  let m := (M33.new ⟨![⟨![(0.0 : Float), (1.0 : Float), (2.0 : Float)]⟩, ⟨![(3.0 : Float), (4.0 : Float), (5.0 : Float)]⟩, ⟨![(6.0 : Float), (7.0 : Float), (8.0 : Float)]⟩]⟩)
  let result := (← M33.get_upper_triagular m)
  let expected : Vec 3 Float := ⟨![(1.0 : Float), (2.0 : Float), (5.0 : Float)]⟩
  check (req result expected)
#guard passes matrix3x3_get_upper_triangular_test

/-- `src/matrix3x3.rs:915-928`, `get_lower_triangular_test` -/
def matrix3x3_get_lower_triangular_test : MayPanic Unit := do
  let m := (M33.new ⟨![⟨![(0.0 : Float), (1.0 : Float), (2.0 : Float)]⟩, ⟨![(3.0 : Float), (4.0 : Float), (5.0 : Float)]⟩, ⟨![(6.0 : Float), (7.0 : Float), (8.0 : Float)]⟩]⟩)
  let result := (← M33.get_lower_triangular m)
  let expected : Vec 3 Float := ⟨![(3.0 : Float), (6.0 : Float), (7.0 : Float)]⟩
  check (req result expected)
#guard passes matrix3x3_get_lower_triangular_test

/-- `src/matrix3x3.rs:931-940`, `for_each_test` -/
def matrix3x3_for_each_test : MayPanic Unit := do
  let m := (M33.new ⟨![⟨![(0.0 : Float32), (1.0 : Float32), (2.0 : Float32)]⟩, ⟨![(3.0 : Float32), (4.0 : Float32), (5.0 : Float32)]⟩, ⟨![(6.0 : Float32), (7.0 : Float32), (8.0 : Float32)]⟩]⟩)
  let result := (← M33.for_each m (fun element => (element + (1.0 : Float32))))
  let expected := (M33.new ⟨![⟨![(1.0 : Float32), (2.0 : Float32), (3.0 : Float32)]⟩, ⟨![(4.0 : Float32), (5.0 : Float32), (6.0 : Float32)]⟩, ⟨![(7.0 : Float32), (8.0 : Float32), (9.0 : Float32)]⟩]⟩)
  check (compare_vecs (← M33.as_vec result).toSlice (← M33.as_vec expected).toSlice (1e-8 : Float32))
#guard passes matrix3x3_for_each_test

/-! ## `src/matrix4x4.rs` -/

/-- `src/matrix4x4.rs:891-900`, `matrix4x4_create_matrix4x4_test` -/
def matrix4x4_matrix4x4_create_matrix4x4_test : MayPanic Unit := do
  let m := (M44.new ⟨![⟨![(1.0 : Float), (2.0 : Float), (3.0 : Float), (4.0 : Float)]⟩, ⟨![(5.0 : Float), (6.0 : Float), (7.0 : Float), (8.0 : Float)]⟩, ⟨![(9.0 : Float), (10.0 : Float), (11.0 : Float), (12.0 : Float)]⟩, ⟨![(13.0 : Float), (14.0 : Float), (15.0 : Float), (16.0 : Float)]⟩]⟩)
  check (req (← m.get 1 1) (6.0 : Float))
#guard passes matrix4x4_matrix4x4_create_matrix4x4_test

/-- `src/matrix4x4.rs:903-915`, `matrix4x4_identity_creation_test` -/
def matrix4x4_matrix4x4_identity_creation_test : MayPanic Unit := do
  let expected := (M44.new ⟨![⟨![(1.0 : Float32), (0.0 : Float32), (0.0 : Float32), (0.0 : Float32)]⟩, ⟨![(0.0 : Float32), (1.0 : Float32), (0.0 : Float32), (0.0 : Float32)]⟩, ⟨![(0.0 : Float32), (0.0 : Float32), (1.0 : Float32), (0.0 : Float32)]⟩, ⟨![(0.0 : Float32), (0.0 : Float32), (0.0 : Float32), (1.0 : Float32)]⟩]⟩)
  let result : (Mat 4 Float32) := M44.identity
  check (compare_vecs (← M44.as_vec result).toSlice (← M44.as_vec expected).toSlice (1e-8 : Float32))
#guard passes matrix4x4_matrix4x4_identity_creation_test

/-- `src/matrix4x4.rs:918-944`, `matrix4x4_add_test` -/
def matrix4x4_matrix4x4_add_test : MayPanic Unit := do
  let m1 := (M44.new ⟨![⟨![(1.0 : Float32), (2.0 : Float32), (3.0 : Float32), (4.0 : Float32)]⟩, ⟨![(5.0 : Float32), (6.0 : Float32), (7.0 : Float32), (8.0 : Float32)]⟩, ⟨![(9.0 : Float32), (10.0 : Float32), (11.0 : Float32), (12.0 : Float32)]⟩, ⟨![(13.0 : Float32), (14.0 : Float32), (15.0 : Float32), (16.0 : Float32)]⟩]⟩)
  let m2 := (M44.new ⟨![⟨![(1.0 : Float32), (2.0 : Float32), (3.0 : Float32), (4.0 : Float32)]⟩, ⟨![(5.0 : Float32), (6.0 : Float32), (7.0 : Float32), (8.0 : Float32)]⟩, ⟨![(9.0 : Float32), (10.0 : Float32), (11.0 : Float32), (12.0 : Float32)]⟩, ⟨![(13.0 : Float32), (14.0 : Float32), (15.0 : Float32), (16.0 : Float32)]⟩]⟩)
  let expected := (M44.new ⟨![⟨![(2.0 : Float32), (4.0 : Float32), (6.0 : Float32), (8.0 : Float32)]⟩, ⟨![(10.0 : Float32), (12.0 : Float32), (14.0 : Float32), (16.0 : Float32)]⟩, ⟨![(18.0 : Float32), (20.0 : Float32), (22.0 : Float32), (24.0 : Float32)]⟩, ⟨![(26.0 : Float32), (28.0 : Float32), (30.0 : Float32), (32.0 : Float32)]⟩]⟩)
  let result := (M44.add m1 m2)
  check (compare_vecs (← M44.as_vec result).toSlice (← M44.as_vec expected).toSlice (1e-8 : Float32))
#guard passes matrix4x4_matrix4x4_add_test

/-- `src/matrix4x4.rs:947-965`, `mul_vector_rhs` -/
def matrix4x4_mul_vector_rhs : MayPanic Unit := do
  let m := (M44.new ⟨![⟨![(1.0 : Float), (2.0 : Float), (3.0 : Float), (4.0 : Float)]⟩, ⟨![(5.0 : Float), (6.0 : Float), (7.0 : Float), (8.0 : Float)]⟩, ⟨![(9.0 : Float), (10.0 : Float), (11.0 : Float), (12.0 : Float)]⟩, ⟨![(13.0 : Float), (14.0 : Float), (15.0 : Float), (16.0 : Float)]⟩]⟩)
  let v := (V4.new ⟨![(0.0 : Float), (1.0 : Float), (2.0 : Float), (3.0 : Float)]⟩)
  let result := (M44.mulVec m v)
  let expected := (V4.new ⟨![(20.0 : Float), (44.0 : Float), (68.0 : Float), (92.0 : Float)]⟩)
  check (req result expected)
#guard passes matrix4x4_mul_vector_rhs

/-- `src/matrix4x4.rs:968-986`, `sub_test` -/
def matrix4x4_sub_test : MayPanic Unit := do
  let m1 := (M44.new ⟨![⟨![(1.0 : Float32), (2.0 : Float32), (3.0 : Float32), (4.0 : Float32)]⟩, ⟨![(5.0 : Float32), (6.0 : Float32), (7.0 : Float32), (8.0 : Float32)]⟩, ⟨![(9.0 : Float32), (10.0 : Float32), (11.0 : Float32), (12.0 : Float32)]⟩, ⟨![(13.0 : Float32), (14.0 : Float32), (15.0 : Float32), (16.0 : Float32)]⟩]⟩)
  let m2 := (M44.new ⟨![⟨![(1.0 : Float32), (2.0 : Float32), (3.0 : Float32), (4.0 : Float32)]⟩, ⟨![(5.0 : Float32), (6.0 : Float32), (7.0 : Float32), (8.0 : Float32)]⟩, ⟨![(9.0 : Float32), (10.0 : Float32), (11.0 : Float32), (12.0 : Float32)]⟩, ⟨![(13.0 : Float32), (14.0 : Float32), (15.0 : Float32), (16.0 : Float32)]⟩]⟩)
  let result := (M44.sub m1 m2)
  let expected := (M44.new ⟨![⟨![(0.0 : Float32), (0.0 : Float32), (0.0 : Float32), (0.0 : Float32)]⟩, ⟨![(0.0 : Float32), (0.0 : Float32), (0.0 : Float32), (0.0 : Float32)]⟩, ⟨![(0.0 : Float32), (0.0 : Float32), (0.0 : Float32), (0.0 : Float32)]⟩, ⟨![(0.0 : Float32), (0.0 : Float32), (0.0 : Float32), (0.0 : Float32)]⟩]⟩)
  check (compare_vecs (← M44.as_vec result).toSlice (← M44.as_vec expected).toSlice (1e-8 : Float32))
#guard passes matrix4x4_sub_test

/-- `src/matrix4x4.rs:989-1015`, `matrix4x4_product_test` -/
def matrix4x4_matrix4x4_product_test : MayPanic Unit := do
  let m1 := (M44.new ⟨![⟨![(1.0 : Float32), (2.0 : Float32), (3.0 : Float32), (4.0 : Float32)]⟩, ⟨![(5.0 : Float32), (6.0 : Float32), (7.0 : Float32), (8.0 : Float32)]⟩, ⟨![(9.0 : Float32), (10.0 : Float32), (11.0 : Float32), (12.0 : Float32)]⟩, ⟨![(13.0 : Float32), (14.0 : Float32), (15.0 : Float32), (16.0 : Float32)]⟩]⟩)
  let m2 := (M44.new ⟨![⟨![(1.0 : Float32), (2.0 : Float32), (3.0 : Float32), (4.0 : Float32)]⟩, ⟨![(5.0 : Float32), (6.0 : Float32), (7.0 : Float32), (8.0 : Float32)]⟩, ⟨![(9.0 : Float32), (10.0 : Float32), (11.0 : Float32), (12.0 : Float32)]⟩, ⟨![(13.0 : Float32), (14.0 : Float32), (15.0 : Float32), (16.0 : Float32)]⟩]⟩)
  let expected := (M44.new ⟨![⟨![(90.0 : Float32), (100.0 : Float32), (110.0 : Float32), (120.0 : Float32)]⟩, ⟨![(202.0 : Float32), (228.0 : Float32), (254.0 : Float32), (280.0 : Float32)]⟩, ⟨![(314.0 : Float32), (356.0 : Float32), (398.0 : Float32), (440.0 : Float32)]⟩, ⟨![(426.0 : Float32), (484.0 : Float32), (542.0 : Float32), (600.0 : Float32)]⟩]⟩)
  let result := (M44.mul m1 m2)
  check (compare_vecs (← M44.as_vec result).toSlice (← M44.as_vec expected).toSlice (1e-8 : Float32))
#guard passes matrix4x4_matrix4x4_product_test

/-- `src/matrix4x4.rs:1018-1029`, `matrix4x4_det_test` -/
def matrix4x4_matrix4x4_det_test : MayPanic Unit := do
  let m1 := (M44.new ⟨![⟨![(1.0 : Float), (2.0 : Float), (3.0 : Float), (1.0 : Float)]⟩, ⟨![(5.0 : Float), (6.0 : Float), (7.0 : Float), (8.0 : Float)]⟩, ⟨![(9.0 : Float), (0.0 : Float), (11.0 : Float), (12.0 : Float)]⟩, ⟨![(13.0 : Float), (1.0 : Float), (15.0 : Float), (16.0 : Float)]⟩]⟩)
  let expected := (168.0 : Float)
  let result := (M44.det m1)
  check (req result expected)
#guard passes matrix4x4_matrix4x4_det_test

/-- `src/matrix4x4.rs:1032-1046`, `matrix4x4_norm_test` -/
def matrix4x4_matrix4x4_norm_test : MayPanic Unit := do
  let m1 := (M44.new ⟨![⟨![(1.0 : Float32), (2.0 : Float32), (3.0 : Float32), (4.0 : Float32)]⟩, ⟨![(5.0 : Float32), (6.0 : Float32), (7.0 : Float32), (8.0 : Float32)]⟩, ⟨![(9.0 : Float32), (10.0 : Float32), (11.0 : Float32), (12.0 : Float32)]⟩, ⟨![(13.0 : Float32), (14.0 : Float32), (15.0 : Float32), (16.0 : Float32)]⟩]⟩)
  let expected := (38.67815921162743 : Float32)
  let result := (M44.norm2 m1)
  check (nearly_equal result expected (1e-8 : Float32))
#guard passes matrix4x4_matrix4x4_norm_test

/-- `src/matrix4x4.rs:1049-1068`, `matrix4x4_transpose_test` -/
def matrix4x4_matrix4x4_transpose_test : MayPanic Unit := do
  let m1 := (M44.new ⟨![⟨![(1.0 : Float32), (2.0 : Float32), (3.0 : Float32), (4.0 : Float32)]⟩, ⟨![(5.0 : Float32), (6.0 : Float32), (7.0 : Float32), (8.0 : Float32)]⟩, ⟨![(9.0 : Float32), (10.0 : Float32), (11.0 : Float32), (12.0 : Float32)]⟩, ⟨![(13.0 : Float32), (14.0 : Float32), (15.0 : Float32), (16.0 : Float32)]⟩]⟩)
  let expected := (M44.new ⟨![⟨![(1.0 : Float32), (5.0 : Float32), (9.0 : Float32), (13.0 : Float32)]⟩, ⟨![(2.0 : Float32), (6.0 : Float32), (10.0 : Float32), (14.0 : Float32)]⟩, ⟨![(3.0 : Float32), (7.0 : Float32), (11.0 : Float32), (15.0 : Float32)]⟩, ⟨![(4.0 : Float32), (8.0 : Float32), (12.0 : Float32), (16.0 : Float32)]⟩]⟩)
  let result := (M44.transpose m1)
  check (compare_vecs (← M44.as_vec result).toSlice (← M44.as_vec expected).toSlice (1e-8 : Float32))
#guard passes matrix4x4_matrix4x4_transpose_test

/-- `src/matrix4x4.rs:1071-1083`, `matrix4x4_zeros_test` -/
def matrix4x4_matrix4x4_zeros_test : MayPanic Unit := do
  let expected := (M44.new ⟨![⟨![(0.0 : Float32), (0.0 : Float32), (0.0 : Float32), (0.0 : Float32)]⟩, ⟨![(0.0 : Float32), (0.0 : Float32), (0.0 : Float32), (0.0 : Float32)]⟩, ⟨![(0.0 : Float32), (0.0 : Float32), (0.0 : Float32), (0.0 : Float32)]⟩, ⟨![(0.0 : Float32), (0.0 : Float32), (0.0 : Float32), (0.0 : Float32)]⟩]⟩)
  let result : (Mat 4 Float32) := M44.zeros
  check (compare_vecs (← M44.as_vec result).toSlice (← M44.as_vec expected).toSlice (1e-8 : Float32))
#guard passes matrix4x4_matrix4x4_zeros_test

/-- `src/matrix4x4.rs:1086-1114`, `matrix4x4_get_submatrix_test` -/
def matrix4x4_matrix4x4_get_submatrix_test : MayPanic Unit := do
  let m := (M44.new ⟨![⟨![(1.0 : Float32), (2.0 : Float32), (3.0 : Float32), (4.0 : Float32)]⟩, ⟨![(5.0 : Float32), (6.0 : Float32), (7.0 : Float32), (8.0 : Float32)]⟩, ⟨![(9.0 : Float32), (10.0 : Float32), (11.0 : Float32), (12.0 : Float32)]⟩, ⟨![(13.0 : Float32), (14.0 : Float32), (15.0 : Float32), (16.0 : Float32)]⟩]⟩)
  let result1 := (← M44.get_submatrix m (0, 0))
  let expected1 := (M33.new ⟨![⟨![(6.0 : Float32), (7.0 : Float32), (8.0 : Float32)]⟩, ⟨![(10.0 : Float32), (11.0 : Float32), (12.0 : Float32)]⟩, ⟨![(14.0 : Float32), (15.0 : Float32), (16.0 : Float32)]⟩]⟩)
  check (compare_vecs (← M33.as_vec result1).toSlice (← M33.as_vec expected1).toSlice (1e-8 : Float32))
  let result2 := (← M44.get_submatrix m (0, 1))
  let expected2 := (M33.new ⟨![⟨![(5.0 : Float32), (7.0 : Float32), (8.0 : Float32)]⟩, ⟨![(9.0 : Float32), (11.0 : Float32), (12.0 : Float32)]⟩, ⟨![(13.0 : Float32), (15.0 : Float32), (16.0 : Float32)]⟩]⟩)
  check (compare_vecs (← M33.as_vec result2).toSlice (← M33.as_vec expected2).toSlice (1e-8 : Float32))
  let result3 := (← M44.get_submatrix m (0, 2))
  let expected3 := (M33.new ⟨![⟨![(5.0 : Float32), (6.0 : Float32), (8.0 : Float32)]⟩, ⟨![(9.0 : Float32), (10.0 : Float32), (12.0 : Float32)]⟩, ⟨![(13.0 : Float32), (14.0 : Float32), (16.0 : Float32)]⟩]⟩)
  check (compare_vecs (← M33.as_vec result3).toSlice (← M33.as_vec expected3).toSlice (1e-8 : Float32))
#guard passes matrix4x4_matrix4x4_get_submatrix_test

/-- `src/matrix4x4.rs:1117-1138`, `matrix4x4_inverse_test` -/
def matrix4x4_matrix4x4_inverse_test : MayPanic Unit := do
  let m := (M44.new ⟨![⟨![(1.0 : Float32), (1.0 : Float32), (1.0 : Float32), (-(1.0 : Float32))]⟩, ⟨![(1.0 : Float32), (1.0 : Float32), (-(1.0 : Float32)), (1.0 : Float32)]⟩, ⟨![(1.0 : Float32), (-(1.0 : Float32)), (1.0 : Float32), (1.0 : Float32)]⟩, ⟨![(-(1.0 : Float32)), (1.0 : Float32), (1.0 : Float32), (1.0 : Float32)]⟩]⟩)
  let expected := (M44.new ⟨![⟨![((1.0 : Float32) / (4.0 : Float32)), ((1.0 : Float32) / (4.0 : Float32)), ((1.0 : Float32) / (4.0 : Float32)), ((-(1.0 : Float32)) / (4.0 : Float32))]⟩, ⟨![((1.0 : Float32) / (4.0 : Float32)), ((1.0 : Float32) / (4.0 : Float32)), ((-(1.0 : Float32)) / (4.0 : Float32)), ((1.0 : Float32) / (4.0 : Float32))]⟩, ⟨![((1.0 : Float32) / (4.0 : Float32)), ((-(1.0 : Float32)) / (4.0 : Float32)), ((1.0 : Float32) / (4.0 : Float32)), ((1.0 : Float32) / (4.0 : Float32))]⟩, ⟨![((-(1.0 : Float32)) / (4.0 : Float32)), ((1.0 : Float32) / (4.0 : Float32)), ((1.0 : Float32) / (4.0 : Float32)), ((1.0 : Float32) / (4.0 : Float32))]⟩]⟩)
  if let some result := (← M44.inverse m) then
    check (compare_vecs (← M44.as_vec result).toSlice (← M44.as_vec expected).toSlice (1e-8 : Float32))
#guard passes matrix4x4_matrix4x4_inverse_test

/-- `src/matrix4x4.rs:1141-1152`, `inverse_fail` -/
def matrix4x4_inverse_fail : MayPanic Unit := do
  let m := (M44.new ⟨![⟨![(1.0 : Float), (1.0 : Float), (1.0 : Float), (-(1.0 : Float))]⟩, ⟨![(1.0 : Float), (1.0 : Float), (1.0 : Float), (-(1.0 : Float))]⟩, ⟨![(1.0 : Float), (-(1.0 : Float)), (1.0 : Float), (1.0 : Float)]⟩, ⟨![(-(1.0 : Float)), (1.0 : Float), (1.0 : Float), (1.0 : Float)]⟩]⟩)
  let result := (← M44.inverse m)
  check (result).isNone
#guard passes matrix4x4_inverse_fail

/-- `src/matrix4x4.rs:1155-1177`, `get_cols_test` -/
def matrix4x4_get_cols_test : MayPanic Unit := do
  let m := (M44.new ⟨![⟨![(0.0 : Float), (1.0 : Float), (2.0 : Float), (3.0 : Float)]⟩, ⟨![(4.0 : Float), (5.0 : Float), (6.0 : Float), (7.0 : Float)]⟩, ⟨![(8.0 : Float), (9.0 : Float), (10.0 : Float), (11.0 : Float)]⟩, ⟨![(12.0 : Float), (13.0 : Float), (14.0 : Float), (15.0 : Float)]⟩]⟩)
  let result := (← M44.get_cols m)
  let expected0 := (V4.new ⟨![(0.0 : Float), (4.0 : Float), (8.0 : Float), (12.0 : Float)]⟩)
  let expected1 := (V4.new ⟨![(1.0 : Float), (5.0 : Float), (9.0 : Float), (13.0 : Float)]⟩)
  let expected2 := (V4.new ⟨![(2.0 : Float), (6.0 : Float), (10.0 : Float), (14.0 : Float)]⟩)
  let expected3 := (V4.new ⟨![(3.0 : Float), (7.0 : Float), (11.0 : Float), (15.0 : Float)]⟩)
  let expected := (V4.new ⟨![expected0, expected1, expected2, expected3]⟩)
  check (req result expected)
#guard passes matrix4x4_get_cols_test

/-- `src/matrix4x4.rs:1180-1202`, `get_rows_test` -/
def matrix4x4_get_rows_test : MayPanic Unit := do
  let m := (M44.new ⟨![⟨![(0.0 : Float), (1.0 : Float), (2.0 : Float), (3.0 : Float)]⟩, ⟨![(4.0 : Float), (5.0 : Float), (6.0 : Float), (7.0 : Float)]⟩, ⟨![(8.0 : Float), (9.0 : Float), (10.0 : Float), (11.0 : Float)]⟩, ⟨![(12.0 : Float), (13.0 : Float), (14.0 : Float), (15.0 : Float)]⟩]⟩)
  let result := (← M44.get_rows m)
  let expected0 := (V4.new ⟨![(0.0 : Float), (1.0 : Float), (2.0 : Float), (3.0 : Float)]⟩)
  let expected1 := (V4.new ⟨![(4.0 : Float), (5.0 : Float), (6.0 : Float), (7.0 : Float)]⟩)
  let expected2 := (V4.new ⟨![(8.0 : Float), (9.0 : Float), (10.0 : Float), (11.0 : Float)]⟩)
  let expected3 := (V4.new ⟨![(12.0 : Float), (13.0 : Float), (14.0 : Float), (15.0 : Float)]⟩)
  let expected := (V4.new ⟨![expected0, expected1, expected2, expected3]⟩)
  check (req result expected)
#guard passes matrix4x4_get_rows_test

/-- `src/matrix4x4.rs:1205-1216`, `new_from_vecs_test` -/
def matrix4x4_new_from_vecs_test : MayPanic Unit := do
  let expected := (M44.new ⟨![⟨![(0.0 : Float32), (1.0 : Float32), (2.0 : Float32), (3.0 : Float32)]⟩, ⟨![(4.0 : Float32), (5.0 : Float32), (6.0 : Float32), (7.0 : Float32)]⟩, ⟨![(8.0 : Float32), (9.0 : Float32), (10.0 : Float32), (11.0 : Float32)]⟩, ⟨![(12.0 : Float32), (13.0 : Float32), (14.0 : Float32), (15.0 : Float32)]⟩]⟩)
  let cols := (← M44.get_cols expected)
  let result := (← M44.new_from_vecs cols)
  check (compare_vecs (← M44.as_vec result).toSlice (← M44.as_vec expected).toSlice (1e-8 : Float32))
#guard passes matrix4x4_new_from_vecs_test

/-- `src/matrix4x4.rs:1219-1229`, `qr_test` -/
def matrix4x4_qr_test : MayPanic Unit := do
  let expected := (M44.new ⟨![⟨![(0.0 : Float32), (1.0 : Float32), (2.0 : Float32), (3.0 : Float32)]⟩, ⟨![(4.0 : Float32), (5.0 : Float32), (6.0 : Float32), (7.0 : Float32)]⟩, ⟨![(8.0 : Float32), (9.0 : Float32), (10.0 : Float32), (11.0 : Float32)]⟩, ⟨![(12.0 : Float32), (13.0 : Float32), (14.0 : Float32), (15.0 : Float32)]⟩]⟩)
  if let some (q, r) := (← M44.qr expected) then
    let result := (M44.mul q r)
    check (compare_vecs (← M44.as_vec result).toSlice (← M44.as_vec expected).toSlice (1e-8 : Float32))
    check (nearly_equal (RAbs.abs (M44.det q)) (1.0 : Float32) (1e-8 : Float32))
#guard passes matrix4x4_qr_test

/-- `src/matrix4x4.rs:1232-1246`, `get_diagonal` -/
def matrix4x4_get_diagonal : MayPanic Unit := do
  let m := (M44.new ⟨![⟨![(0.0 : Float), (1.0 : Float), (2.0 : Float), (3.0 : Float)]⟩, ⟨![(4.0 : Float), (5.0 : Float), (6.0 : Float), (7.0 : Float)]⟩, ⟨![(8.0 : Float), (9.0 : Float), (10.0 : Float), (11.0 : Float)]⟩, ⟨![(12.0 : Float), (13.0 : Float), (14.0 : Float), (15.0 : Float)]⟩]⟩)
  let result := (← M44.get_diagonal m)
  let expected := (V4.new ⟨![(0.0 : Float), (5.0 : Float), (10.0 : Float), (15.0 : Float)]⟩)
  check (req result expected)
#guard passes matrix4x4_get_diagonal

/-- `src/matrix4x4.rs:1249-1263`, `get_upper_triangular_test` -/
def matrix4x4_get_upper_triangular_test : MayPanic Unit := do
  let m := (M44.new ⟨![⟨![(0.0 : Float), (1.0 : Float), (2.0 : Float), (3.0 : Float)]⟩, ⟨![(4.0 : Float), (5.0 : Float), (6.0 : Float), (7.0 : Float)]⟩, ⟨![(8.0 : Float), (9.0 : Float), (10.0 : Float), (11.0 : Float)]⟩, ⟨![(12.0 : Float), (13.0 : Float), (14.0 : Float), (15.0 : Float)]⟩]⟩)
  let result := (← M44.get_upper_triagular m)
  let expected : Vec 6 Float := ⟨![(1.0 : Float), (2.0 : Float), (3.0 : Float), (6.0 : Float), (7.0 : Float), (11.0 : Float)]⟩
  check (req result expected)
#guard passes matrix4x4_get_upper_triangular_test

/-- `src/matrix4x4.rs:1266-1281`, `get_lower_triangular_test` -/
def matrix4x4_get_lower_triangular_test : MayPanic Unit := do
  let m := (M44.new ⟨![⟨![(0.0 : Float), (1.0 : Float), (2.0 : Float), (3.0 : Float)]⟩, ⟨![(4.0 : Float), (5.0 : Float), (6.0 : Float), (7.0 : Float)]⟩, ⟨![(8.0 : Float), (9.0 : Float), (10.0 : Float), (11.0 : Float)]⟩, ⟨![(12.0 : Float), (13.0 : Float), (14.0 : Float), (15.0 : Float)]⟩]⟩)
  let result := (← M44.get_lower_triangular m)
  let expected : Vec 6 Float := ⟨![(4.0 : Float), (8.0 : Float), (9.0 : Float), (12.0 : Float), (13.0 : Float), (14.0 : Float)]⟩
  check (req result expected)
#guard passes matrix4x4_get_lower_triangular_test

/-- `src/matrix4x4.rs:1284-1295`, `for_each_test` -/
def matrix4x4_for_each_test : MayPanic Unit := do
  let m := (M44.new ⟨![⟨![(0.0 : Float32), (1.0 : Float32), (2.0 : Float32), (3.0 : Float32)]⟩, ⟨![(4.0 : Float32), (5.0 : Float32), (6.0 : Float32), (7.0 : Float32)]⟩, ⟨![(8.0 : Float32), (9.0 : Float32), (10.0 : Float32), (11.0 : Float32)]⟩, ⟨![(12.0 : Float32), (13.0 : Float32), (14.0 : Float32), (15.0 : Float32)]⟩]⟩)
  let result := (← M44.for_each m (fun element => (element + (1.0 : Float32))))
  let expected := (M44.new ⟨![⟨![(1.0 : Float32), (2.0 : Float32), (3.0 : Float32), (4.0 : Float32)]⟩, ⟨![(5.0 : Float32), (6.0 : Float32), (7.0 : Float32), (8.0 : Float32)]⟩, ⟨![(9.0 : Float32), (10.0 : Float32), (11.0 : Float32), (12.0 : Float32)]⟩, ⟨![(13.0 : Float32), (14.0 : Float32), (15.0 : Float32), (16.0 : Float32)]⟩]⟩)
  check (compare_vecs (← M44.as_vec result).toSlice (← M44.as_vec expected).toSlice (1e-8 : Float32))
#guard passes matrix4x4_for_each_test

/-! ## `src/matrix5x5.rs` -/

/-- `src/matrix5x5.rs:1164-1178`, `matrix5x5_det_test` -/
def matrix5x5_matrix5x5_det_test : MayPanic Unit := do
  let m := (M55.new ⟨![⟨![(10.0 : Float32), (1.0 : Float32), (7.0 : Float32), (1.0 : Float32), (5.0 : Float32)]⟩, ⟨![(2.0 : Float32), (4.0 : Float32), (8.0 : Float32), (3.0 : Float32), (2.0 : Float32)]⟩, ⟨![(5.0 : Float32), (1.0 : Float32), (2.0 : Float32), (9.0 : Float32), (10.0 : Float32)]⟩, ⟨![(6.0 : Float32), (9.0 : Float32), (9.0 : Float32), (7.0 : Float32), (3.0 : Float32)]⟩, ⟨![(1.0 : Float32), (8.0 : Float32), (8.0 : Float32), (10.0 : Float32), (5.0 : Float32)]⟩]⟩)
  let result := (M55.det m)
  let expected := (49.99999999999798 : Float32)
  check (nearly_equal result expected (1e-6 : Float32))
#guard passes matrix5x5_matrix5x5_det_test

/-- `src/matrix5x5.rs:1181-1203`, `matrix5x5_sum_test` -/
def matrix5x5_matrix5x5_sum_test : MayPanic Unit := do
  let m := (M55.new ⟨![⟨![(10.0 : Float32), (1.0 : Float32), (7.0 : Float32), (1.0 : Float32), (5.0 : Float32)]⟩, ⟨![(2.0 : Float32), (4.0 : Float32), (8.0 : Float32), (3.0 : Float32), (2.0 : Float32)]⟩, ⟨![(5.0 : Float32), (1.0 : Float32), (2.0 : Float32), (9.0 : Float32), (10.0 : Float32)]⟩, ⟨![(6.0 : Float32), (9.0 : Float32), (9.0 : Float32), (7.0 : Float32), (3.0 : Float32)]⟩, ⟨![(1.0 : Float32), (8.0 : Float32), (8.0 : Float32), (10.0 : Float32), (5.0 : Float32)]⟩]⟩)
  let expected := (M55.new ⟨![⟨![(20.0 : Float32), (2.0 : Float32), (14.0 : Float32), (2.0 : Float32), (10.0 : Float32)]⟩, ⟨![(4.0 : Float32), (8.0 : Float32), (16.0 : Float32), (6.0 : Float32), (4.0 : Float32)]⟩, ⟨![(10.0 : Float32), (2.0 : Float32), (4.0 : Float32), (18.0 : Float32), (20.0 : Float32)]⟩, ⟨![(12.0 : Float32), (18.0 : Float32), (18.0 : Float32), (14.0 : Float32), (6.0 : Float32)]⟩, ⟨![(2.0 : Float32), (16.0 : Float32), (16.0 : Float32), (20.0 : Float32), (10.0 : Float32)]⟩]⟩)
  let result := (M55.add m m)
  check (compare_vecs (← M55.as_vec result).toSlice (← M55.as_vec expected).toSlice (1e-6 : Float32))
#guard passes matrix5x5_matrix5x5_sum_test

/-- `src/matrix5x5.rs:1206-1229`, `sub_test` -/
def matrix5x5_sub_test : MayPanic Unit := do
  let m1 := (M55.new ⟨![⟨![(10.0 : Float32), (1.0 : Float32), (7.0 : Float32), (1.0 : Float32), (5.0 : Float32)]⟩, ⟨![(2.0 : Float32), (4.0 : Float32), (8.0 : Float32), (3.0 : Float32), (2.0 : Float32)]⟩, ⟨![(5.0 : Float32), (1.0 : Float32), (2.0 : Float32), (9.0 : Float32), (10.0 : Float32)]⟩, ⟨![(6.0 : Float32), (9.0 : Float32), (9.0 : Float32), (7.0 : Float32), (3.0 : Float32)]⟩, ⟨![(1.0 : Float32), (8.0 : Float32), (8.0 : Float32), (10.0 : Float32), (5.0 : Float32)]⟩]⟩)
  let m2 := (M55.new ⟨![⟨![(10.0 : Float32), (1.0 : Float32), (7.0 : Float32), (1.0 : Float32), (5.0 : Float32)]⟩, ⟨![(2.0 : Float32), (4.0 : Float32), (8.0 : Float32), (3.0 : Float32), (2.0 : Float32)]⟩, ⟨![(5.0 : Float32), (1.0 : Float32), (2.0 : Float32), (9.0 : Float32), (10.0 : Float32)]⟩, ⟨![(6.0 : Float32), (9.0 : Float32), (9.0 : Float32), (7.0 : Float32), (3.0 : Float32)]⟩, ⟨![(1.0 : Float32), (8.0 : Float32), (8.0 : Float32), (10.0 : Float32), (5.0 : Float32)]⟩]⟩)
  let result := (M55.sub m1 m2)
  let expected := (M55.new ⟨![⟨![(0.0 : Float32), (0.0 : Float32), (0.0 : Float32), (0.0 : Float32), (0.0 : Float32)]⟩, ⟨![(0.0 : Float32), (0.0 : Float32), (0.0 : Float32), (0.0 : Float32), (0.0 : Float32)]⟩, ⟨![(0.0 : Float32), (0.0 : Float32), (0.0 : Float32), (0.0 : Float32), (0.0 : Float32)]⟩, ⟨![(0.0 : Float32), (0.0 : Float32), (0.0 : Float32), (0.0 : Float32), (0.0 : Float32)]⟩, ⟨![(0.0 : Float32), (0.0 : Float32), (0.0 : Float32), (0.0 : Float32), (0.0 : Float32)]⟩]⟩)
  check (compare_vecs (← M55.as_vec result).toSlice (← M55.as_vec expected).toSlice (1e-6 : Float32))
#guard passes matrix5x5_sub_test

/-- `src/matrix5x5.rs:1232-1253`, `matrix5x5_product_test` -/
def matrix5x5_matrix5x5_product_test : MayPanic Unit := do
  let m := (M55.new ⟨![⟨![(10.0 : Float32), (1.0 : Float32), (7.0 : Float32), (1.0 : Float32), (5.0 : Float32)]⟩, ⟨![(2.0 : Float32), (4.0 : Float32), (8.0 : Float32), (3.0 : Float32), (2.0 : Float32)]⟩, ⟨![(5.0 : Float32), (1.0 : Float32), (2.0 : Float32), (9.0 : Float32), (10.0 : Float32)]⟩, ⟨![(6.0 : Float32), (9.0 : Float32), (9.0 : Float32), (7.0 : Float32), (3.0 : Float32)]⟩, ⟨![(1.0 : Float32), (8.0 : Float32), (8.0 : Float32), (10.0 : Float32), (5.0 : Float32)]⟩]⟩)
  let result := (M55.mul m m)
  let expected := (M55.new ⟨![⟨![(148.0 : Float32), (70.0 : Float32), (141.0 : Float32), (133.0 : Float32), (150.0 : Float32)]⟩, ⟨![(88.0 : Float32), (69.0 : Float32), (105.0 : Float32), (127.0 : Float32), (117.0 : Float32)]⟩, ⟨![(126.0 : Float32), (172.0 : Float32), (208.0 : Float32), (189.0 : Float32), (124.0 : Float32)]⟩, ⟨![(168.0 : Float32), (138.0 : Float32), (219.0 : Float32), (193.0 : Float32), (174.0 : Float32)]⟩, ⟨![(131.0 : Float32), (171.0 : Float32), (217.0 : Float32), (217.0 : Float32), (156.0 : Float32)]⟩]⟩)
  check (compare_vecs (← M55.as_vec result).toSlice (← M55.as_vec expected).toSlice (1e-6 : Float32))
#guard passes matrix5x5_matrix5x5_product_test

/-- `src/matrix5x5.rs:1255-1270`, `matrix5x5_norm2_test` -/
def matrix5x5_matrix5x5_norm2_test : MayPanic Unit := do
  let m := (M55.new ⟨![⟨![(10.0 : Float32), (1.0 : Float32), (7.0 : Float32), (1.0 : Float32), (5.0 : Float32)]⟩, ⟨![(2.0 : Float32), (4.0 : Float32), (8.0 : Float32), (3.0 : Float32), (2.0 : Float32)]⟩, ⟨![(5.0 : Float32), (1.0 : Float32), (2.0 : Float32), (9.0 : Float32), (10.0 : Float32)]⟩, ⟨![(6.0 : Float32), (9.0 : Float32), (9.0 : Float32), (7.0 : Float32), (3.0 : Float32)]⟩, ⟨![(1.0 : Float32), (8.0 : Float32), (8.0 : Float32), (10.0 : Float32), (5.0 : Float32)]⟩]⟩)
  let result := (M55.norm2 m)
  let expected := (31.52776554086889 : Float32)
  check (nearly_equal result expected (1e-6 : Float32))
#guard passes matrix5x5_matrix5x5_norm2_test

/-- `src/matrix5x5.rs:1273-1294`, `matrix5x5_const_product_test` -/
def matrix5x5_matrix5x5_const_product_test : MayPanic Unit := do
  let m := (M55.new ⟨![⟨![(10.0 : Float32), (1.0 : Float32), (7.0 : Float32), (1.0 : Float32), (5.0 : Float32)]⟩, ⟨![(2.0 : Float32), (4.0 : Float32), (8.0 : Float32), (3.0 : Float32), (2.0 : Float32)]⟩, ⟨![(5.0 : Float32), (1.0 : Float32), (2.0 : Float32), (9.0 : Float32), (10.0 : Float32)]⟩, ⟨![(6.0 : Float32), (9.0 : Float32), (9.0 : Float32), (7.0 : Float32), (3.0 : Float32)]⟩, ⟨![(1.0 : Float32), (8.0 : Float32), (8.0 : Float32), (10.0 : Float32), (5.0 : Float32)]⟩]⟩)
  let result := (M55.smul m (0.5 : Float32))
  let expected := (M55.new ⟨![⟨![(5.0 : Float32), (0.5 : Float32), (3.5 : Float32), (0.5 : Float32), (2.5 : Float32)]⟩, ⟨![(1.0 : Float32), (2.0 : Float32), (4.0 : Float32), (1.5 : Float32), (1.0 : Float32)]⟩, ⟨![(2.5 : Float32), (0.5 : Float32), (1.0 : Float32), (4.5 : Float32), (5.0 : Float32)]⟩, ⟨![(3.0 : Float32), (4.5 : Float32), (4.5 : Float32), (3.5 : Float32), (1.5 : Float32)]⟩, ⟨![(0.5 : Float32), (4.0 : Float32), (4.0 : Float32), (5.0 : Float32), (2.5 : Float32)]⟩]⟩)
  check (compare_vecs (← M55.as_vec result).toSlice (← M55.as_vec expected).toSlice (1e-6 : Float32))
#guard passes matrix5x5_matrix5x5_const_product_test

/-- `src/matrix5x5.rs:1296-1318`, `matrix5x5_inv_test` -/
def matrix5x5_matrix5x5_inv_test : MayPanic Unit := do
  let m := (M55.new ⟨![⟨![(10.0 : Float32), (1.0 : Float32), (7.0 : Float32), (1.0 : Float32), (5.0 : Float32)]⟩, ⟨![(2.0 : Float32), (4.0 : Float32), (8.0 : Float32), (3.0 : Float32), (2.0 : Float32)]⟩, ⟨![(5.0 : Float32), (1.0 : Float32), (2.0 : Float32), (9.0 : Float32), (10.0 : Float32)]⟩, ⟨![(6.0 : Float32), (9.0 : Float32), (9.0 : Float32), (7.0 : Float32), (3.0 : Float32)]⟩, ⟨![(1.0 : Float32), (8.0 : Float32), (8.0 : Float32), (10.0 : Float32), (5.0 : Float32)]⟩]⟩)
  let expected := (M55.new ⟨![⟨![(-(11.98 : Float32)), (15.64 : Float32), (9.32 : Float32), (10.34 : Float32), (-(19.12 : Float32))]⟩, ⟨![(33.62 : Float32), (-(44.16 : Float32)), (-(26.08 : Float32)), (-(28.46 : Float32)), (53.28 : Float32)]⟩, ⟨![(-(9.36 : Float32)), (12.48 : Float32), (7.24 : Float32), (7.88 : Float32), (-(14.84 : Float32))]⟩, ⟨![(-(37.2 : Float32)), (48.6 : Float32), (28.8 : Float32), (31.6 : Float32), (-(58.8 : Float32))]⟩, ⟨![(37.98 : Float32), (-(49.64 : Float32)), (-(29.32 : Float32)), (-(32.34 : Float32)), (60.12 : Float32)]⟩]⟩)
  if let some result := (← M55.inverse m) then
    check (compare_vecs (← M55.as_vec result).toSlice (← M55.as_vec expected).toSlice (1e-6 : Float32))
#guard passes matrix5x5_matrix5x5_inv_test

/-- `src/matrix5x5.rs:1321-1332`, `inverse_fail` -/
def matrix5x5_inverse_fail : MayPanic Unit := do
  let m := (M55.new ⟨![⟨![(10.0 : Float), (1.0 : Float), (7.0 : Float), (1.0 : Float), (5.0 : Float)]⟩, ⟨![(10.0 : Float), (1.0 : Float), (7.0 : Float), (1.0 : Float), (5.0 : Float)]⟩, ⟨![(5.0 : Float), (1.0 : Float), (2.0 : Float), (9.0 : Float), (10.0 : Float)]⟩, ⟨![(6.0 : Float), (9.0 : Float), (9.0 : Float), (7.0 : Float), (3.0 : Float)]⟩, ⟨![(1.0 : Float), (8.0 : Float), (8.0 : Float), (10.0 : Float), (5.0 : Float)]⟩]⟩)
  let result := (← M55.inverse m)
  check (result).isNone
#guard passes matrix5x5_inverse_fail

/-- `src/matrix5x5.rs:1335-1358`, `get_cols_test` -/
def matrix5x5_get_cols_test : MayPanic Unit := do
  let m1 := (M55.new ⟨![⟨![(10.0 : Float), (1.0 : Float), (7.0 : Float), (1.0 : Float), (5.0 : Float)]⟩, ⟨![(2.0 : Float), (4.0 : Float), (8.0 : Float), (3.0 : Float), (2.0 : Float)]⟩, ⟨![(5.0 : Float), (1.0 : Float), (2.0 : Float), (9.0 : Float), (10.0 : Float)]⟩, ⟨![(6.0 : Float), (9.0 : Float), (9.0 : Float), (7.0 : Float), (3.0 : Float)]⟩, ⟨![(1.0 : Float), (8.0 : Float), (8.0 : Float), (10.0 : Float), (5.0 : Float)]⟩]⟩)
  let result := (← M55.get_cols m1)
  let expected0 := (V5.new ⟨![(10.0 : Float), (2.0 : Float), (5.0 : Float), (6.0 : Float), (1.0 : Float)]⟩)
  let expected1 := (V5.new ⟨![(1.0 : Float), (4.0 : Float), (1.0 : Float), (9.0 : Float), (8.0 : Float)]⟩)
  let expected2 := (V5.new ⟨![(7.0 : Float), (8.0 : Float), (2.0 : Float), (9.0 : Float), (8.0 : Float)]⟩)
  let expected3 := (V5.new ⟨![(1.0 : Float), (3.0 : Float), (9.0 : Float), (7.0 : Float), (10.0 : Float)]⟩)
  let expected4 := (V5.new ⟨![(5.0 : Float), (2.0 : Float), (10.0 : Float), (3.0 : Float), (5.0 : Float)]⟩)
  let expected := (V5.new ⟨![expected0, expected1, expected2, expected3, expected4]⟩)
  check (req result expected)
#guard passes matrix5x5_get_cols_test

/-- `src/matrix5x5.rs:1361-1379`, `mul_vector_rhs` -/
def matrix5x5_mul_vector_rhs : MayPanic Unit := do
  let m := (M55.new ⟨![⟨![(10.0 : Float), (1.0 : Float), (7.0 : Float), (1.0 : Float), (5.0 : Float)]⟩, ⟨![(2.0 : Float), (4.0 : Float), (8.0 : Float), (3.0 : Float), (2.0 : Float)]⟩, ⟨![(5.0 : Float), (1.0 : Float), (2.0 : Float), (9.0 : Float), (10.0 : Float)]⟩, ⟨![(6.0 : Float), (9.0 : Float), (9.0 : Float), (7.0 : Float), (3.0 : Float)]⟩, ⟨![(1.0 : Float), (8.0 : Float), (8.0 : Float), (10.0 : Float), (5.0 : Float)]⟩]⟩)
  let v := (V5.new ⟨![(0.0 : Float), (1.0 : Float), (2.0 : Float), (3.0 : Float), (4.0 : Float)]⟩)
  let result := (M55.mulVec m v)
  let expected := (V5.new ⟨![(38.0 : Float), (37.0 : Float), (72.0 : Float), (60.0 : Float), (74.0 : Float)]⟩)
  check (req result expected)
#guard passes matrix5x5_mul_vector_rhs

/-- `src/matrix5x5.rs:1382-1405`, `get_rows_test` -/
def matrix5x5_get_rows_test : MayPanic Unit := do
  let m1 := (M55.new ⟨![⟨![(10.0 : Float), (1.0 : Float), (7.0 : Float), (1.0 : Float), (5.0 : Float)]⟩, ⟨![(2.0 : Float), (4.0 : Float), (8.0 : Float), (3.0 : Float), (2.0 : Float)]⟩, ⟨![(5.0 : Float), (1.0 : Float), (2.0 : Float), (9.0 : Float), (10.0 : Float)]⟩, ⟨![(6.0 : Float), (9.0 : Float), (9.0 : Float), (7.0 : Float), (3.0 : Float)]⟩, ⟨![(1.0 : Float), (8.0 : Float), (8.0 : Float), (10.0 : Float), (5.0 : Float)]⟩]⟩)
  let result := (← M55.get_rows (M55.transpose m1))
  let expected0 := (V5.new ⟨![(10.0 : Float), (2.0 : Float), (5.0 : Float), (6.0 : Float), (1.0 : Float)]⟩)
  let expected1 := (V5.new ⟨![(1.0 : Float), (4.0 : Float), (1.0 : Float), (9.0 : Float), (8.0 : Float)]⟩)
  let expected2 := (V5.new ⟨![(7.0 : Float), (8.0 : Float), (2.0 : Float), (9.0 : Float), (8.0 : Float)]⟩)
  let expected3 := (V5.new ⟨![(1.0 : Float), (3.0 : Float), (9.0 : Float), (7.0 : Float), (10.0 : Float)]⟩)
  let expected4 := (V5.new ⟨![(5.0 : Float), (2.0 : Float), (10.0 : Float), (3.0 : Float), (5.0 : Float)]⟩)
  let expected := (V5.new ⟨![expected0, expected1, expected2, expected3, expected4]⟩)
  check (req result expected)
#guard passes matrix5x5_get_rows_test

/-- `src/matrix5x5.rs:1408-1420`, `new_from_vecs_test` -/
def matrix5x5_new_from_vecs_test : MayPanic Unit := do
  let expected := (M55.new ⟨![⟨![(10.0 : Float32), (1.0 : Float32), (7.0 : Float32), (1.0 : Float32), (5.0 : Float32)]⟩, ⟨![(2.0 : Float32), (4.0 : Float32), (8.0 : Float32), (3.0 : Float32), (2.0 : Float32)]⟩, ⟨![(5.0 : Float32), (1.0 : Float32), (2.0 : Float32), (9.0 : Float32), (10.0 : Float32)]⟩, ⟨![(6.0 : Float32), (9.0 : Float32), (9.0 : Float32), (7.0 : Float32), (3.0 : Float32)]⟩, ⟨![(1.0 : Float32), (8.0 : Float32), (8.0 : Float32), (10.0 : Float32), (5.0 : Float32)]⟩]⟩)
  let cols := (← M55.get_cols expected)
  let result := (← M55.new_from_vecs cols)
  check (compare_vecs (← M55.as_vec result).toSlice (← M55.as_vec expected).toSlice (1e-6 : Float32))
#guard passes matrix5x5_new_from_vecs_test

/-- `src/matrix5x5.rs:1423-1434`, `qr_test` -/
def matrix5x5_qr_test : MayPanic Unit := do
  let expected := (M55.new ⟨![⟨![(10.0 : Float32), (1.0 : Float32), (7.0 : Float32), (1.0 : Float32), (5.0 : Float32)]⟩, ⟨![(2.0 : Float32), (1.0 : Float32), (8.0 : Float32), (3.0 : Float32), (2.0 : Float32)]⟩, ⟨![(5.0 : Float32), (1.0 : Float32), (1.0 : Float32), (9.0 : Float32), (10.0 : Float32)]⟩, ⟨![(6.0 : Float32), (9.0 : Float32), (9.0 : Float32), (1.0 : Float32), (3.0 : Float32)]⟩, ⟨![(1.0 : Float32), (8.0 : Float32), (8.0 : Float32), (10.0 : Float32), (5.0 : Float32)]⟩]⟩)
  if let some (q, r) := (← M55.qr expected) then
    let result := (M55.mul q r)
    check (compare_vecs (← M55.as_vec result).toSlice (← M55.as_vec expected).toSlice (1e-6 : Float32))
    check (nearly_equal (RAbs.abs (M55.det q)) (1.0 : Float32) (1e-6 : Float32))
#guard passes matrix5x5_qr_test

/-- `src/matrix5x5.rs:1437-1452`, `get_diagonal` -/
def matrix5x5_get_diagonal : MayPanic Unit := do
  let m := (M55.new ⟨![⟨![(10.0 : Float), (1.0 : Float), (7.0 : Float), (1.0 : Float), (5.0 : Float)]⟩, ⟨![(2.0 : Float), (1.0 : Float), (8.0 : Float), (3.0 : Float), (2.0 : Float)]⟩, ⟨![(5.0 : Float), (1.0 : Float), (1.0 : Float), (9.0 : Float), (10.0 : Float)]⟩, ⟨![(6.0 : Float), (9.0 : Float), (9.0 : Float), (1.0 : Float), (3.0 : Float)]⟩, ⟨![(1.0 : Float), (8.0 : Float), (8.0 : Float), (10.0 : Float), (5.0 : Float)]⟩]⟩)
  let result := (← M55.get_diagonal m)
  let expected := (V5.new ⟨![(10.0 : Float), (1.0 : Float), (1.0 : Float), (1.0 : Float), (5.0 : Float)]⟩)
  check (req result expected)
#guard passes matrix5x5_get_diagonal

/-- `src/matrix5x5.rs:1455-1470`, `get_upper_triangular_test` -/
def matrix5x5_get_upper_triangular_test : MayPanic Unit := do
  let m := (M55.new ⟨![⟨![(10.0 : Float), (1.0 : Float), (7.0 : Float), (1.0 : Float), (5.0 : Float)]⟩, ⟨![(2.0 : Float), (1.0 : Float), (8.0 : Float), (3.0 : Float), (2.0 : Float)]⟩, ⟨![(5.0 : Float), (1.0 : Float), (1.0 : Float), (9.0 : Float), (10.0 : Float)]⟩, ⟨![(6.0 : Float), (9.0 : Float), (9.0 : Float), (1.0 : Float), (3.0 : Float)]⟩, ⟨![(1.0 : Float), (8.0 : Float), (8.0 : Float), (10.0 : Float), (5.0 : Float)]⟩]⟩)
  let result := (← M55.get_upper_triagular m)
  let expected : Vec 10 Float := ⟨![(1.0 : Float), (7.0 : Float), (1.0 : Float), (5.0 : Float), (8.0 : Float), (3.0 : Float), (2.0 : Float), (9.0 : Float), (10.0 : Float), (3.0 : Float)]⟩
  check (req result expected)
#guard passes matrix5x5_get_upper_triangular_test

/-- `src/matrix5x5.rs:1473-1488`, `get_lower_triangular_test` -/
def matrix5x5_get_lower_triangular_test : MayPanic Unit := do
  let m := (M55.new ⟨![⟨![(10.0 : Float), (1.0 : Float), (7.0 : Float), (1.0 : Float), (5.0 : Float)]⟩, ⟨![(2.0 : Float), (1.0 : Float), (8.0 : Float), (3.0 : Float), (2.0 : Float)]⟩, ⟨![(5.0 : Float), (1.0 : Float), (1.0 : Float), (9.0 : Float), (10.0 : Float)]⟩, ⟨![(6.0 : Float), (9.0 : Float), (9.0 : Float), (1.0 : Float), (3.0 : Float)]⟩, ⟨![(1.0 : Float), (8.0 : Float), (8.0 : Float), (10.0 : Float), (5.0 : Float)]⟩]⟩)
  let result := (← M55.get_lower_triangular m)
  let expected : Vec 10 Float := ⟨![(2.0 : Float), (5.0 : Float), (1.0 : Float), (6.0 : Float), (9.0 : Float), (9.0 : Float), (1.0 : Float), (8.0 : Float), (8.0 : Float), (10.0 : Float)]⟩
  check (req result expected)
#guard passes matrix5x5_get_lower_triangular_test

/-- `src/matrix5x5.rs:1491-1507`, `for_each_test` -/
def matrix5x5_for_each_test : MayPanic Unit := do
  let m := (M55.new ⟨![⟨![(10.0 : Float32), (1.0 : Float32), (7.0 : Float32), (1.0 : Float32), (5.0 : Float32)]⟩, ⟨![(2.0 : Float32), (1.0 : Float32), (8.0 : Float32), (3.0 : Float32), (2.0 : Float32)]⟩, ⟨![(5.0 : Float32), (1.0 : Float32), (1.0 : Float32), (9.0 : Float32), (10.0 : Float32)]⟩, ⟨![(6.0 : Float32), (9.0 : Float32), (9.0 : Float32), (1.0 : Float32), (3.0 : Float32)]⟩, ⟨![(1.0 : Float32), (8.0 : Float32), (8.0 : Float32), (10.0 : Float32), (5.0 : Float32)]⟩]⟩)
  let result := (← M55.for_each m (fun element => (element + (1.0 : Float32))))
  let expected := (M55.new ⟨![⟨![(11.0 : Float32), (2.0 : Float32), (8.0 : Float32), (2.0 : Float32), (6.0 : Float32)]⟩, ⟨![(3.0 : Float32), (2.0 : Float32), (9.0 : Float32), (4.0 : Float32), (3.0 : Float32)]⟩, ⟨![(6.0 : Float32), (2.0 : Float32), (2.0 : Float32), (10.0 : Float32), (11.0 : Float32)]⟩, ⟨![(7.0 : Float32), (10.0 : Float32), (10.0 : Float32), (2.0 : Float32), (4.0 : Float32)]⟩, ⟨![(2.0 : Float32), (9.0 : Float32), (9.0 : Float32), (11.0 : Float32), (6.0 : Float32)]⟩]⟩)
  check (compare_vecs (← M55.as_vec result).toSlice (← M55.as_vec expected).toSlice (1e-6 : Float32))
#guard passes matrix5x5_for_each_test

/-! ## `src/matrix6x6.rs` -/

/-- `src/matrix6x6.rs:2013-2037`, `sub_test` -/
def matrix6x6_sub_test : MayPanic Unit := do
  let m1 := (M66.new ⟨![⟨![(0.0 : Float32), (1.0 : Float32), (2.0 : Float32), (3.0 : Float32), (4.0 : Float32), (5.0 : Float32)]⟩, ⟨![(6.0 : Float32), (7.0 : Float32), (8.0 : Float32), (9.0 : Float32), (10.0 : Float32), (11.0 : Float32)]⟩, ⟨![(12.0 : Float32), (13.0 : Float32), (14.0 : Float32), (15.0 : Float32), (16.0 : Float32), (17.0 : Float32)]⟩, ⟨![(18.0 : Float32), (19.0 : Float32), (20.0 : Float32), (21.0 : Float32), (22.0 : Float32), (23.0 : Float32)]⟩, ⟨![(24.0 : Float32), (25.0 : Float32), (26.0 : Float32), (27.0 : Float32), (28.0 : Float32), (29.0 : Float32)]⟩, ⟨![(30.0 : Float32), (31.0 : Float32), (32.0 : Float32), (33.0 : Float32), (34.0 : Float32), (35.0 : Float32)]⟩]⟩)
  let m2 := (M66.new ⟨![⟨![(0.0 : Float32), (1.0 : Float32), (2.0 : Float32), (3.0 : Float32), (4.0 : Float32), (5.0 : Float32)]⟩, ⟨![(6.0 : Float32), (7.0 : Float32), (8.0 : Float32), (9.0 : Float32), (10.0 : Float32), (11.0 : Float32)]⟩, ⟨![(12.0 : Float32), (13.0 : Float32), (14.0 : Float32), (15.0 : Float32), (16.0 : Float32), (17.0 : Float32)]⟩, ⟨![(18.0 : Float32), (19.0 : Float32), (20.0 : Float32), (21.0 : Float32), (22.0 : Float32), (23.0 : Float32)]⟩, ⟨![(24.0 : Float32), (25.0 : Float32), (26.0 : Float32), (27.0 : Float32), (28.0 : Float32), (29.0 : Float32)]⟩, ⟨![(30.0 : Float32), (31.0 : Float32), (32.0 : Float32), (33.0 : Float32), (34.0 : Float32), (35.0 : Float32)]⟩]⟩)
  let result := (M66.sub m1 m2)
  let expected := (M66.new ⟨![⟨![(0.0 : Float32), (0.0 : Float32), (0.0 : Float32), (0.0 : Float32), (0.0 : Float32), (0.0 : Float32)]⟩, ⟨![(0.0 : Float32), (0.0 : Float32), (0.0 : Float32), (0.0 : Float32), (0.0 : Float32), (0.0 : Float32)]⟩, ⟨![(0.0 : Float32), (0.0 : Float32), (0.0 : Float32), (0.0 : Float32), (0.0 : Float32), (0.0 : Float32)]⟩, ⟨![(0.0 : Float32), (0.0 : Float32), (0.0 : Float32), (0.0 : Float32), (0.0 : Float32), (0.0 : Float32)]⟩, ⟨![(0.0 : Float32), (0.0 : Float32), (0.0 : Float32), (0.0 : Float32), (0.0 : Float32), (0.0 : Float32)]⟩, ⟨![(0.0 : Float32), (0.0 : Float32), (0.0 : Float32), (0.0 : Float32), (0.0 : Float32), (0.0 : Float32)]⟩]⟩)
  check (compare_vecs (← M66.as_vec result).toSlice (← M66.as_vec expected).toSlice (1e-4 : Float32))
#guard passes matrix6x6_sub_test

/-- `src/matrix6x6.rs:2040-2065`, `sum_test` -/
def matrix6x6_sum_test : MayPanic Unit := do
  let m1 := (M66.new ⟨![⟨![(0.0 : Float32), (1.0 : Float32), (2.0 : Float32), (3.0 : Float32), (4.0 : Float32), (5.0 : Float32)]⟩, ⟨![(6.0 : Float32), (7.0 : Float32), (8.0 : Float32), (9.0 : Float32), (10.0 : Float32), (11.0 : Float32)]⟩, ⟨![(12.0 : Float32), (13.0 : Float32), (14.0 : Float32), (15.0 : Float32), (16.0 : Float32), (17.0 : Float32)]⟩, ⟨![(18.0 : Float32), (19.0 : Float32), (20.0 : Float32), (21.0 : Float32), (22.0 : Float32), (23.0 : Float32)]⟩, ⟨![(24.0 : Float32), (25.0 : Float32), (26.0 : Float32), (27.0 : Float32), (28.0 : Float32), (29.0 : Float32)]⟩, ⟨![(30.0 : Float32), (31.0 : Float32), (32.0 : Float32), (33.0 : Float32), (34.0 : Float32), (35.0 : Float32)]⟩]⟩)
  let m2 := (M66.new ⟨![⟨![(0.0 : Float32), (1.0 : Float32), (2.0 : Float32), (3.0 : Float32), (4.0 : Float32), (5.0 : Float32)]⟩, ⟨![(6.0 : Float32), (7.0 : Float32), (8.0 : Float32), (9.0 : Float32), (10.0 : Float32), (11.0 : Float32)]⟩, ⟨![(12.0 : Float32), (13.0 : Float32), (14.0 : Float32), (15.0 : Float32), (16.0 : Float32), (17.0 : Float32)]⟩, ⟨![(18.0 : Float32), (19.0 : Float32), (20.0 : Float32), (21.0 : Float32), (22.0 : Float32), (23.0 : Float32)]⟩, ⟨![(24.0 : Float32), (25.0 : Float32), (26.0 : Float32), (27.0 : Float32), (28.0 : Float32), (29.0 : Float32)]⟩, ⟨![(30.0 : Float32), (31.0 : Float32), (32.0 : Float32), (33.0 : Float32), (34.0 : Float32), (35.0 : Float32)]⟩]⟩)
  let result := (M66.add m1 m2)
  let expected := (M66.new ⟨![⟨![(0.0 : Float32), (2.0 : Float32), (4.0 : Float32), (6.0 : Float32), (8.0 : Float32), (10.0 : Float32)]⟩, ⟨![(12.0 : Float32), (14.0 : Float32), (16.0 : Float32), (18.0 : Float32), (20.0 : Float32), (22.0 : Float32)]⟩, ⟨![(24.0 : Float32), (26.0 : Float32), (28.0 : Float32), (30.0 : Float32), (32.0 : Float32), (34.0 : Float32)]⟩, ⟨![(36.0 : Float32), (38.0 : Float32), (40.0 : Float32), (42.0 : Float32), (44.0 : Float32), (46.0 : Float32)]⟩, ⟨![(48.0 : Float32), (50.0 : Float32), (52.0 : Float32), (54.0 : Float32), (56.0 : Float32), (58.0 : Float32)]⟩, ⟨![(60.0 : Float32), (62.0 : Float32), (64.0 : Float32), (66.0 : Float32), (68.0 : Float32), (70.0 : Float32)]⟩]⟩)
  check (compare_vecs (← M66.as_vec result).toSlice (← M66.as_vec expected).toSlice (1e-4 : Float32))
#guard passes matrix6x6_sum_test

/-- `src/matrix6x6.rs:2068-2084`, `matrix6x6_det_test` -/
def matrix6x6_matrix6x6_det_test : MayPanic Unit := do
  let m := (M66.new ⟨![⟨![(1.0 : Float32), (1.0 : Float32), (3.0 : Float32), (4.0 : Float32), (9.0 : Float32), (3.0 : Float32)]⟩, ⟨![(10.0 : Float32), (10.0 : Float32), (1.0 : Float32), (2.0 : Float32), (2.0 : Float32), (5.0 : Float32)]⟩, ⟨![(2.0 : Float32), (9.0 : Float32), (6.0 : Float32), (10.0 : Float32), (10.0 : Float32), (9.0 : Float32)]⟩, ⟨![(10.0 : Float32), (9.0 : Float32), (9.0 : Float32), (7.0 : Float32), (3.0 : Float32), (6.0 : Float32)]⟩, ⟨![(7.0 : Float32), (6.0 : Float32), (6.0 : Float32), (2.0 : Float32), (9.0 : Float32), (5.0 : Float32)]⟩, ⟨![(3.0 : Float32), (8.0 : Float32), (1.0 : Float32), (4.0 : Float32), (1.0 : Float32), (5.0 : Float32)]⟩]⟩)
  let result := (M66.det m)
  let expected := (3271.9999999999723 : Float32)
  check (nearly_equal result expected (1e-4 : Float32))
#guard passes matrix6x6_matrix6x6_det_test

/-- `src/matrix6x6.rs:2087-2110`, `matrix6x6_mul_test` -/
def matrix6x6_matrix6x6_mul_test : MayPanic Unit := do
  let m := (M66.new ⟨![⟨![(0.0 : Float32), (1.0 : Float32), (2.0 : Float32), (3.0 : Float32), (4.0 : Float32), (5.0 : Float32)]⟩, ⟨![(6.0 : Float32), (7.0 : Float32), (8.0 : Float32), (9.0 : Float32), (10.0 : Float32), (11.0 : Float32)]⟩, ⟨![(12.0 : Float32), (13.0 : Float32), (14.0 : Float32), (15.0 : Float32), (16.0 : Float32), (17.0 : Float32)]⟩, ⟨![(18.0 : Float32), (19.0 : Float32), (20.0 : Float32), (21.0 : Float32), (22.0 : Float32), (23.0 : Float32)]⟩, ⟨![(24.0 : Float32), (25.0 : Float32), (26.0 : Float32), (27.0 : Float32), (28.0 : Float32), (29.0 : Float32)]⟩, ⟨![(30.0 : Float32), (31.0 : Float32), (32.0 : Float32), (33.0 : Float32), (34.0 : Float32), (35.0 : Float32)]⟩]⟩)
  let result := (M66.mul m m)
  let expected := (M66.new ⟨![⟨![(330.0 : Float32), (345.0 : Float32), (360.0 : Float32), (375.0 : Float32), (390.0 : Float32), (405.0 : Float32)]⟩, ⟨![(870.0 : Float32), (921.0 : Float32), (972.0 : Float32), (1023.0 : Float32), (1074.0 : Float32), (1125.0 : Float32)]⟩, ⟨![(1410.0 : Float32), (1497.0 : Float32), (1584.0 : Float32), (1671.0 : Float32), (1758.0 : Float32), (1845.0 : Float32)]⟩, ⟨![(1950.0 : Float32), (2073.0 : Float32), (2196.0 : Float32), (2319.0 : Float32), (2442.0 : Float32), (2565.0 : Float32)]⟩, ⟨![(2490.0 : Float32), (2649.0 : Float32), (2808.0 : Float32), (2967.0 : Float32), (3126.0 : Float32), (3285.0 : Float32)]⟩, ⟨![(3030.0 : Float32), (3225.0 : Float32), (3420.0 : Float32), (3615.0 : Float32), (3810.0 : Float32), (4005.0 : Float32)]⟩]⟩)
  check (compare_vecs (← M66.as_vec result).toSlice (← M66.as_vec expected).toSlice (1e-4 : Float32))
#guard passes matrix6x6_matrix6x6_mul_test

/-- `src/matrix6x6.rs:2113-2127`, `matrix6x6_norm2_test` -/
def matrix6x6_matrix6x6_norm2_test : MayPanic Unit := do
  let m := (M66.new ⟨![⟨![(0.0 : Float32), (1.0 : Float32), (2.0 : Float32), (3.0 : Float32), (4.0 : Float32), (5.0 : Float32)]⟩, ⟨![(6.0 : Float32), (7.0 : Float32), (8.0 : Float32), (9.0 : Float32), (10.0 : Float32), (11.0 : Float32)]⟩, ⟨![(12.0 : Float32), (13.0 : Float32), (14.0 : Float32), (15.0 : Float32), (16.0 : Float32), (17.0 : Float32)]⟩, ⟨![(18.0 : Float32), (19.0 : Float32), (20.0 : Float32), (21.0 : Float32), (22.0 : Float32), (23.0 : Float32)]⟩, ⟨![(24.0 : Float32), (25.0 : Float32), (26.0 : Float32), (27.0 : Float32), (28.0 : Float32), (29.0 : Float32)]⟩, ⟨![(30.0 : Float32), (31.0 : Float32), (32.0 : Float32), (33.0 : Float32), (34.0 : Float32), (35.0 : Float32)]⟩]⟩)
  let result := (M66.norm2 m)
  let expected := (122.10651088291729 : Float32)
  check (nearly_equal result expected (1e-4 : Float32))
#guard passes matrix6x6_matrix6x6_norm2_test

/-- `src/matrix6x6.rs:2130-2151`, `matrix6x6_inv_test` -/
def matrix6x6_matrix6x6_inv_test : MayPanic Unit := do
  let m := (M66.new ⟨![⟨![(1.0 : Float32), (1.0 : Float32), (3.0 : Float32), (4.0 : Float32), (9.0 : Float32), (3.0 : Float32)]⟩, ⟨![(10.0 : Float32), (10.0 : Float32), (1.0 : Float32), (2.0 : Float32), (2.0 : Float32), (5.0 : Float32)]⟩, ⟨![(2.0 : Float32), (9.0 : Float32), (6.0 : Float32), (10.0 : Float32), (10.0 : Float32), (9.0 : Float32)]⟩, ⟨![(10.0 : Float32), (9.0 : Float32), (9.0 : Float32), (7.0 : Float32), (3.0 : Float32), (6.0 : Float32)]⟩, ⟨![(7.0 : Float32), (6.0 : Float32), (6.0 : Float32), (2.0 : Float32), (9.0 : Float32), (5.0 : Float32)]⟩, ⟨![(3.0 : Float32), (8.0 : Float32), (1.0 : Float32), (4.0 : Float32), (1.0 : Float32), (5.0 : Float32)]⟩]⟩)
  let expected := (M66.new ⟨![⟨![(-(0.538814 : Float32)), (0.577934 : Float32), (0.665342 : Float32), (-(0.0837408 : Float32)), (-(0.169621 : Float32)), (-(1.18215 : Float32))]⟩, ⟨![(2.16076 : Float32), (-(1.52751 : Float32)), (-(2.44071 : Float32)), (0.44132 : Float32), (0.324572 : Float32), (3.77017 : Float32)]⟩, ⟨![(0.214548 : Float32), (-(0.415037 : Float32)), (-(0.394254 : Float32)), (0.147922 : Float32), (0.197433 : Float32), (0.621027 : Float32)]⟩, ⟨![(0.700183 : Float32), (-(0.240526 : Float32)), (-(0.525978 : Float32)), (0.203545 : Float32), (-(0.211797 : Float32)), (0.734719 : Float32)]⟩, ⟨![(0.85055 : Float32), (-(0.471577 : Float32)), (-(0.827934 : Float32)), (0.110636 : Float32), (0.114609 : Float32), (1.20416 : Float32)]⟩, ⟨![(-(3.90709 : Float32)), (2.46699 : Float32), (4.17115 : Float32), (-(0.870416 : Float32)), (-(0.310513 : Float32)), (-(6.07579 : Float32))]⟩]⟩)
  if let some result := (← M66.inverse m) then
    check (compare_vecs (← M66.as_vec result).toSlice (← M66.as_vec expected).toSlice (1e-4 : Float32))
#guard passes matrix6x6_matrix6x6_inv_test

/-- `src/matrix6x6.rs:2154-2166`, `inverse_fail` -/
def matrix6x6_inverse_fail : MayPanic Unit := do
  let m := (M66.new ⟨![⟨![(1.0 : Float), (1.0 : Float), (3.0 : Float), (4.0 : Float), (9.0 : Float), (3.0 : Float)]⟩, ⟨![(10.0 : Float), (10.0 : Float), (1.0 : Float), (2.0 : Float), (2.0 : Float), (5.0 : Float)]⟩, ⟨![(2.0 : Float), (9.0 : Float), (6.0 : Float), (10.0 : Float), (10.0 : Float), (9.0 : Float)]⟩, ⟨![(2.0 : Float), (9.0 : Float), (6.0 : Float), (10.0 : Float), (10.0 : Float), (9.0 : Float)]⟩, ⟨![(7.0 : Float), (6.0 : Float), (6.0 : Float), (2.0 : Float), (9.0 : Float), (5.0 : Float)]⟩, ⟨![(3.0 : Float), (8.0 : Float), (1.0 : Float), (4.0 : Float), (1.0 : Float), (5.0 : Float)]⟩]⟩)
  let result := (← M66.inverse m)
  check (result).isNone
#guard passes matrix6x6_inverse_fail

/-- `src/matrix6x6.rs:2169-2191`, `mul_vec_rhs` -/
def matrix6x6_mul_vec_rhs : MayPanic Unit := do
  let m := (M66.new ⟨![⟨![(1.0 : Float), (1.0 : Float), (3.0 : Float), (4.0 : Float), (9.0 : Float), (3.0 : Float)]⟩, ⟨![(10.0 : Float), (10.0 : Float), (1.0 : Float), (2.0 : Float), (2.0 : Float), (5.0 : Float)]⟩, ⟨![(2.0 : Float), (9.0 : Float), (6.0 : Float), (10.0 : Float), (10.0 : Float), (9.0 : Float)]⟩, ⟨![(10.0 : Float), (9.0 : Float), (9.0 : Float), (7.0 : Float), (3.0 : Float), (6.0 : Float)]⟩, ⟨![(7.0 : Float), (6.0 : Float), (6.0 : Float), (2.0 : Float), (9.0 : Float), (5.0 : Float)]⟩, ⟨![(3.0 : Float), (8.0 : Float), (1.0 : Float), (4.0 : Float), (1.0 : Float), (5.0 : Float)]⟩]⟩)
  let v := (V6.new ⟨![(0.0 : Float), (1.0 : Float), (2.0 : Float), (3.0 : Float), (4.0 : Float), (5.0 : Float)]⟩)
  let result := (M66.mulVec m v)
  let expected := (V6.new ⟨![(70.0 : Float), (51.0 : Float), (136.0 : Float), (90.0 : Float), (85.0 : Float), (51.0 : Float)]⟩)
  check (req result expected)
#guard passes matrix6x6_mul_vec_rhs

/-- `src/matrix6x6.rs:2194-2218`, `get_cols_test` -/
def matrix6x6_get_cols_test : MayPanic Unit := do
  let m := (M66.new ⟨![⟨![(1.0 : Float), (1.0 : Float), (3.0 : Float), (4.0 : Float), (9.0 : Float), (3.0 : Float)]⟩, ⟨![(10.0 : Float), (10.0 : Float), (1.0 : Float), (2.0 : Float), (2.0 : Float), (5.0 : Float)]⟩, ⟨![(2.0 : Float), (9.0 : Float), (6.0 : Float), (10.0 : Float), (10.0 : Float), (9.0 : Float)]⟩, ⟨![(10.0 : Float), (9.0 : Float), (9.0 : Float), (7.0 : Float), (3.0 : Float), (6.0 : Float)]⟩, ⟨![(7.0 : Float), (6.0 : Float), (6.0 : Float), (2.0 : Float), (9.0 : Float), (5.0 : Float)]⟩, ⟨![(3.0 : Float), (8.0 : Float), (1.0 : Float), (4.0 : Float), (1.0 : Float), (5.0 : Float)]⟩]⟩)
  let result := (← M66.get_cols m)
  let expected0 := (V6.new ⟨![(1.0 : Float), (10.0 : Float), (2.0 : Float), (10.0 : Float), (7.0 : Float), (3.0 : Float)]⟩)
  let expected1 := (V6.new ⟨![(1.0 : Float), (10.0 : Float), (9.0 : Float), (9.0 : Float), (6.0 : Float), (8.0 : Float)]⟩)
  let expected2 := (V6.new ⟨![(3.0 : Float), (1.0 : Float), (6.0 : Float), (9.0 : Float), (6.0 : Float), (1.0 : Float)]⟩)
  let expected3 := (V6.new ⟨![(4.0 : Float), (2.0 : Float), (10.0 : Float), (7.0 : Float), (2.0 : Float), (4.0 : Float)]⟩)
  let expected4 := (V6.new ⟨![(9.0 : Float), (2.0 : Float), (10.0 : Float), (3.0 : Float), (9.0 : Float), (1.0 : Float)]⟩)
  let expected5 := (V6.new ⟨![(3.0 : Float), (5.0 : Float), (9.0 : Float), (6.0 : Float), (5.0 : Float), (5.0 : Float)]⟩)
  let expected := (V6.new ⟨![expected0, expected1, expected2, expected3, expected4, expected5]⟩)
  check (req result expected)
#guard passes matrix6x6_get_cols_test

/-- `src/matrix6x6.rs:2221-2246`, `get_rows_test` -/
def matrix6x6_get_rows_test : MayPanic Unit := do
  let m := (M66.new ⟨![⟨![(1.0 : Float), (1.0 : Float), (3.0 : Float), (4.0 : Float), (9.0 : Float), (3.0 : Float)]⟩, ⟨![(10.0 : Float), (10.0 : Float), (1.0 : Float), (2.0 : Float), (2.0 : Float), (5.0 : Float)]⟩, ⟨![(2.0 : Float), (9.0 : Float), (6.0 : Float), (10.0 : Float), (10.0 : Float), (9.0 : Float)]⟩, ⟨![(10.0 : Float), (9.0 : Float), (9.0 : Float), (7.0 : Float), (3.0 : Float), (6.0 : Float)]⟩, ⟨![(7.0 : Float), (6.0 : Float), (6.0 : Float), (2.0 : Float), (9.0 : Float), (5.0 : Float)]⟩, ⟨![(3.0 : Float), (8.0 : Float), (1.0 : Float), (4.0 : Float), (1.0 : Float), (5.0 : Float)]⟩]⟩)
  let result := (← M66.get_rows (M66.transpose m))
  let expected0 := (V6.new ⟨![(1.0 : Float), (10.0 : Float), (2.0 : Float), (10.0 : Float), (7.0 : Float), (3.0 : Float)]⟩)
  let expected1 := (V6.new ⟨![(1.0 : Float), (10.0 : Float), (9.0 : Float), (9.0 : Float), (6.0 : Float), (8.0 : Float)]⟩)
  let expected2 := (V6.new ⟨![(3.0 : Float), (1.0 : Float), (6.0 : Float), (9.0 : Float), (6.0 : Float), (1.0 : Float)]⟩)
  let expected3 := (V6.new ⟨![(4.0 : Float), (2.0 : Float), (10.0 : Float), (7.0 : Float), (2.0 : Float), (4.0 : Float)]⟩)
  let expected4 := (V6.new ⟨![(9.0 : Float), (2.0 : Float), (10.0 : Float), (3.0 : Float), (9.0 : Float), (1.0 : Float)]⟩)
  let expected5 := (V6.new ⟨![(3.0 : Float), (5.0 : Float), (9.0 : Float), (6.0 : Float), (5.0 : Float), (5.0 : Float)]⟩)
  let expected := (V6.new ⟨![expected0, expected1, expected2, expected3, expected4, expected5]⟩)
  check (req result expected)
#guard passes matrix6x6_get_rows_test

/-- `src/matrix6x6.rs:2249-2263`, `new_from_vecs_test` -/
def matrix6x6_new_from_vecs_test : MayPanic Unit := do
  let expected := (M66.new ⟨![⟨![(1.0 : Float32), (1.0 : Float32), (3.0 : Float32), (4.0 : Float32), (9.0 : Float32), (3.0 : Float32)]⟩, ⟨![(10.0 : Float32), (10.0 : Float32), (1.0 : Float32), (2.0 : Float32), (2.0 : Float32), (5.0 : Float32)]⟩, ⟨![(2.0 : Float32), (9.0 : Float32), (6.0 : Float32), (10.0 : Float32), (10.0 : Float32), (9.0 : Float32)]⟩, ⟨![(10.0 : Float32), (9.0 : Float32), (9.0 : Float32), (7.0 : Float32), (3.0 : Float32), (6.0 : Float32)]⟩, ⟨![(7.0 : Float32), (6.0 : Float32), (6.0 : Float32), (2.0 : Float32), (9.0 : Float32), (5.0 : Float32)]⟩, ⟨![(3.0 : Float32), (8.0 : Float32), (1.0 : Float32), (4.0 : Float32), (1.0 : Float32), (5.0 : Float32)]⟩]⟩)
  let cols := (← M66.get_cols expected)
  let result := (← M66.new_from_vecs cols)
  check (compare_vecs (← M66.as_vec result).toSlice (← M66.as_vec expected).toSlice (1e-4 : Float32))
#guard passes matrix6x6_new_from_vecs_test

/-- `src/matrix6x6.rs:2266-2278`, `qr_test` -/
def matrix6x6_qr_test : MayPanic Unit := do
  let expected := (M66.new ⟨![⟨![(1.0 : Float32), (1.0 : Float32), (3.0 : Float32), (4.0 : Float32), (9.0 : Float32), (3.0 : Float32)]⟩, ⟨![(10.0 : Float32), (10.0 : Float32), (1.0 : Float32), (2.0 : Float32), (2.0 : Float32), (5.0 : Float32)]⟩, ⟨![(2.0 : Float32), (9.0 : Float32), (6.0 : Float32), (10.0 : Float32), (10.0 : Float32), (9.0 : Float32)]⟩, ⟨![(10.0 : Float32), (9.0 : Float32), (9.0 : Float32), (7.0 : Float32), (3.0 : Float32), (6.0 : Float32)]⟩, ⟨![(7.0 : Float32), (6.0 : Float32), (6.0 : Float32), (2.0 : Float32), (9.0 : Float32), (5.0 : Float32)]⟩, ⟨![(3.0 : Float32), (8.0 : Float32), (1.0 : Float32), (4.0 : Float32), (1.0 : Float32), (5.0 : Float32)]⟩]⟩)
  if let some (q, r) := (← M66.qr expected) then
    let result := (M66.mul q r)
    check (compare_vecs (← M66.as_vec result).toSlice (← M66.as_vec expected).toSlice (1e-4 : Float32))
    check (nearly_equal (RAbs.abs (M66.det q)) (1.0 : Float32) (1e-4 : Float32))
#guard passes matrix6x6_qr_test

/-- `src/matrix6x6.rs:2281-2297`, `get_diagonal_test` -/
def matrix6x6_get_diagonal_test : MayPanic Unit := do
  let m := (M66.new ⟨![⟨![(1.0 : Float), (1.0 : Float), (3.0 : Float), (4.0 : Float), (9.0 : Float), (3.0 : Float)]⟩, ⟨![(10.0 : Float), (10.0 : Float), (1.0 : Float), (2.0 : Float), (2.0 : Float), (5.0 : Float)]⟩, ⟨![(2.0 : Float), (9.0 : Float), (6.0 : Float), (10.0 : Float), (10.0 : Float), (9.0 : Float)]⟩, ⟨![(10.0 : Float), (9.0 : Float), (9.0 : Float), (7.0 : Float), (3.0 : Float), (6.0 : Float)]⟩, ⟨![(7.0 : Float), (6.0 : Float), (6.0 : Float), (2.0 : Float), (9.0 : Float), (5.0 : Float)]⟩, ⟨![(3.0 : Float), (8.0 : Float), (1.0 : Float), (4.0 : Float), (1.0 : Float), (5.0 : Float)]⟩]⟩)
  let result := (← M66.get_diagonal m)
  let expected := (V6.new ⟨![(1.0 : Float), (10.0 : Float), (6.0 : Float), (7.0 : Float), (9.0 : Float), (5.0 : Float)]⟩)
  check (req result expected)
#guard passes matrix6x6_get_diagonal_test

/-- `src/matrix6x6.rs:2300-2316`, `get_upper_triangular_test` -/
def matrix6x6_get_upper_triangular_test : MayPanic Unit := do
  let m := (M66.new ⟨![⟨![(1.0 : Float), (1.0 : Float), (3.0 : Float), (4.0 : Float), (9.0 : Float), (3.0 : Float)]⟩, ⟨![(10.0 : Float), (10.0 : Float), (1.0 : Float), (2.0 : Float), (2.0 : Float), (5.0 : Float)]⟩, ⟨![(2.0 : Float), (9.0 : Float), (6.0 : Float), (10.0 : Float), (10.0 : Float), (9.0 : Float)]⟩, ⟨![(10.0 : Float), (9.0 : Float), (9.0 : Float), (7.0 : Float), (3.0 : Float), (6.0 : Float)]⟩, ⟨![(7.0 : Float), (6.0 : Float), (6.0 : Float), (2.0 : Float), (9.0 : Float), (5.0 : Float)]⟩, ⟨![(3.0 : Float), (8.0 : Float), (1.0 : Float), (4.0 : Float), (1.0 : Float), (5.0 : Float)]⟩]⟩)
  let result := (← M66.get_upper_triangular m)
  let expected : Vec 15 Float := ⟨![(1.0 : Float), (3.0 : Float), (4.0 : Float), (9.0 : Float), (3.0 : Float), (1.0 : Float), (2.0 : Float), (2.0 : Float), (5.0 : Float), (10.0 : Float), (10.0 : Float), (9.0 : Float), (3.0 : Float), (6.0 : Float), (5.0 : Float)]⟩
  check (req result expected)
#guard passes matrix6x6_get_upper_triangular_test

/-- `src/matrix6x6.rs:2319-2335`, `get_lower_triangular_test` -/
def matrix6x6_get_lower_triangular_test : MayPanic Unit := do
  let m := (M66.new ⟨![⟨![(1.0 : Float), (1.0 : Float), (3.0 : Float), (4.0 : Float), (9.0 : Float), (3.0 : Float)]⟩, ⟨![(10.0 : Float), (10.0 : Float), (1.0 : Float), (2.0 : Float), (2.0 : Float), (5.0 : Float)]⟩, ⟨![(2.0 : Float), (9.0 : Float), (6.0 : Float), (10.0 : Float), (10.0 : Float), (9.0 : Float)]⟩, ⟨![(10.0 : Float), (9.0 : Float), (9.0 : Float), (7.0 : Float), (3.0 : Float), (6.0 : Float)]⟩, ⟨![(7.0 : Float), (6.0 : Float), (6.0 : Float), (2.0 : Float), (9.0 : Float), (5.0 : Float)]⟩, ⟨![(3.0 : Float), (8.0 : Float), (1.0 : Float), (4.0 : Float), (1.0 : Float), (5.0 : Float)]⟩]⟩)
  let result := (← M66.get_lower_triangular m)
  let expected : Vec 15 Float := ⟨![(10.0 : Float), (2.0 : Float), (9.0 : Float), (10.0 : Float), (9.0 : Float), (9.0 : Float), (7.0 : Float), (6.0 : Float), (6.0 : Float), (2.0 : Float), (3.0 : Float), (8.0 : Float), (1.0 : Float), (4.0 : Float), (1.0 : Float)]⟩
  check (req result expected)
#guard passes matrix6x6_get_lower_triangular_test

/-- `src/matrix6x6.rs:2338-2356`, `for_each_test` -/
def matrix6x6_for_each_test : MayPanic Unit := do
  let m := (M66.new ⟨![⟨![(1.0 : Float32), (1.0 : Float32), (3.0 : Float32), (4.0 : Float32), (9.0 : Float32), (3.0 : Float32)]⟩, ⟨![(10.0 : Float32), (10.0 : Float32), (1.0 : Float32), (2.0 : Float32), (2.0 : Float32), (5.0 : Float32)]⟩, ⟨![(2.0 : Float32), (9.0 : Float32), (6.0 : Float32), (10.0 : Float32), (10.0 : Float32), (9.0 : Float32)]⟩, ⟨![(10.0 : Float32), (9.0 : Float32), (9.0 : Float32), (7.0 : Float32), (3.0 : Float32), (6.0 : Float32)]⟩, ⟨![(7.0 : Float32), (6.0 : Float32), (6.0 : Float32), (2.0 : Float32), (9.0 : Float32), (5.0 : Float32)]⟩, ⟨![(3.0 : Float32), (8.0 : Float32), (1.0 : Float32), (4.0 : Float32), (1.0 : Float32), (5.0 : Float32)]⟩]⟩)
  let result := (← M66.for_each m (fun element => (element + (1.0 : Float32))))
  let expected := (M66.new ⟨![⟨![(2.0 : Float32), (2.0 : Float32), (4.0 : Float32), (5.0 : Float32), (10.0 : Float32), (4.0 : Float32)]⟩, ⟨![(11.0 : Float32), (11.0 : Float32), (2.0 : Float32), (3.0 : Float32), (3.0 : Float32), (6.0 : Float32)]⟩, ⟨![(3.0 : Float32), (10.0 : Float32), (7.0 : Float32), (11.0 : Float32), (11.0 : Float32), (10.0 : Float32)]⟩, ⟨![(11.0 : Float32), (10.0 : Float32), (10.0 : Float32), (8.0 : Float32), (4.0 : Float32), (7.0 : Float32)]⟩, ⟨![(8.0 : Float32), (7.0 : Float32), (7.0 : Float32), (3.0 : Float32), (10.0 : Float32), (6.0 : Float32)]⟩, ⟨![(4.0 : Float32), (9.0 : Float32), (2.0 : Float32), (5.0 : Float32), (2.0 : Float32), (6.0 : Float32)]⟩]⟩)
  check (compare_vecs (← M66.as_vec result).toSlice (← M66.as_vec expected).toSlice (1e-4 : Float32))
#guard passes matrix6x6_for_each_test

/-! ## `src/slices_methods.rs` -/

/-- `src/slices_methods.rs:121-132`, `find_max_min_test` -/
def slices_methods_find_max_min_test : MayPanic Unit := do
  let v := (V3.new ⟨![(1 : Int), (10 : Int), (37 : Int)]⟩)
  let result := (← find_max_min v.toSlice)
  let expected := (MaxMin.mk ((37 : Int), 2) ((1 : Int), 0))
  check (req result expected)
#guard passes slices_methods_find_max_min_test

/-- `src/slices_methods.rs:135-143`, `dot_tests` -/
def slices_methods_dot_tests : MayPanic Unit := do
  let v1 := (V3.new ⟨![(1 : Int), (1 : Int), (1 : Int)]⟩)
  let v2 := (V3.new ⟨![(1 : Int), (1 : Int), (3 : Int)]⟩)
  let result := (← slice_dot v1.toSlice v2.toSlice)
  let expected := (5 : Int)
  check (req result expected)
#guard passes slices_methods_dot_tests

/-- `src/slices_methods.rs:146-159`, `normalize_test` -/
def slices_methods_normalize_test : MayPanic Unit := do
  let mut v1 := (V3.new ⟨![(1.0 : Float), (1.0 : Float), (1.0 : Float)]⟩)
  v1 ← Vec.normalizeSlice v1
  let expected := (V3.new ⟨![(0.5773502691896258 : Float), (0.5773502691896258 : Float), (0.5773502691896258 : Float)]⟩)
  check (req v1 expected)
#guard passes slices_methods_normalize_test

/-! ## `src/utils.rs` -/

/-- `src/utils.rs:110-114`, `test_nearly_equal` -/
def utils_test_nearly_equal : MayPanic Unit := do
  let a := ((0.15 : Float) + (0.15 : Float))
  let b := ((0.1 : Float) + (0.2 : Float))
  check (req (nearly_equal a b (1e-10 : Float)) true)
#guard passes utils_test_nearly_equal

/-- `src/utils.rs:117-121`, `test_zero_signs` -/
def utils_test_zero_signs : MayPanic Unit := do
  let a := (0.0 : Float)
  let b := (-(0.0 : Float))
  check (req (nearly_equal a b (1e-10 : Float)) true)
#guard passes utils_test_zero_signs

/-- `src/utils.rs:124-128`, `test_one_zero` -/
def utils_test_one_zero : MayPanic Unit := do
  let b := (-(0.0000000005561918225744 : Float))
  let a := (0.0 : Float)
  check (req (nearly_equal a b (1e-8 : Float)) true)
#guard passes utils_test_one_zero

/-! ## `src/quaternion.rs` -/

/-- `src/quaternion.rs:570-582`, `quaternion_creation_test` -/
def quaternion_quaternion_creation_test : MayPanic Unit := do
  let q : (Quat _) := (Quat.new (0 : Int) V3.ones)
  let expected := (V3.new ⟨![(1 : Int), (1 : Int), (1 : Int)]⟩)
  check (req q.q0 (0 : Int))
  check (req q.q expected)
#guard passes quaternion_quaternion_creation_test

/-- `src/quaternion.rs:585-605`, `quaternion_product_test` -/
def quaternion_quaternion_product_test : MayPanic Unit := do
  let a : (Quat _) := (Quat.new (1 : Int) V3.ones)
  let b : (Quat _) := (Quat.new (1 : Int) V3.ones)
  let result : (Quat _) := (Quat.mul a b)
  check (req result.q0 (-(2 : Int)))
  check (req (← result.q.get 0) (2 : Int))
  check (req (← result.q.get 1) (2 : Int))
  check (req (← result.q.get 2) (2 : Int))
  let q1 : (Quat _) := (Quat.new (1 : Int) V3.ones)
  let q2 : (Quat _) := (Quat.conj q1)
  let result : (Quat _) := (Quat.mul q1 q2)
  let expected : (Quat _) := (Quat.new (Quat.dot q1 q1) V3.zeros)
  check (req result.q0 expected.q0)
  check (req (← result.q.get 0) (← expected.q.get 0))
  check (req (← result.q.get 1) (← expected.q.get 1))
  check (req (← result.q.get 2) (← expected.q.get 2))
#guard passes quaternion_quaternion_product_test

/-- `src/quaternion.rs:608-623`, `quaternion_conj` -/
def quaternion_quaternion_conj : MayPanic Unit := do
  let a : (Quat _) := (Quat.new (1 : Int) V3.ones)
  let result : (Quat _) := (Quat.conj a)
  check (req result.q0 (1 : Int))
  check (req (← result.q.get 0) (-(1 : Int)))
  check (req (← result.q.get 1) (-(1 : Int)))
  check (req (← result.q.get 2) (-(1 : Int)))
  let a_float : (Quat _) := (Quat.new (1.0 : Float) V3.ones)
  let result_float : (Quat _) := (Quat.conj a_float)
  check (req result_float.q0 (1.0 : Float))
  check (req (← result_float.q.get 0) (-(1.0 : Float)))
  check (req (← result_float.q.get 1) (-(1.0 : Float)))
  check (req (← result_float.q.get 2) (-(1.0 : Float)))
#guard passes quaternion_quaternion_conj

/-- `src/quaternion.rs:627-636`, `rotate_vec` -/
def quaternion_rotate_vec : MayPanic Unit := do
  let q1 : (Quat _) := (← Quat.rotation ((90.0 : Float32).to_radians) (V3.new_from (0.0 : Float32) (0.0 : Float32) (1.0 : Float32)))
  let x := (V3.new_from (1.0 : Float32) (0.0 : Float32) (0.0 : Float32))
  let result := (Quat.mulVec q1 x)
  let expected := (V3.new_from (0.0 : Float32) (1.0 : Float32) (0.0 : Float32))
  check (nearly_equal (← result.get 0) (← expected.get 0) (1e-6 : Float32))
  check (nearly_equal (← result.get 1) (← expected.get 1) (1e-6 : Float32))
  check (nearly_equal (← result.get 2) (← expected.get 2) (1e-6 : Float32))
#guard passes quaternion_rotate_vec

/-- `src/quaternion.rs:639-647`, `rotate_vec_composition_360` -/
def quaternion_rotate_vec_composition_360 : MayPanic Unit := do
  let q1 : (Quat _) := (← Quat.rotation ((90.0 : Float32).to_radians) (V3.new_from (0.0 : Float32) (0.0 : Float32) (1.0 : Float32)))
  let x := (V3.new_from (1.0 : Float32) (0.0 : Float32) (0.0 : Float32))
  let result := (Quat.mulVec (Quat.mul (Quat.mul (Quat.mul q1 q1) q1) q1) x)
  check (nearly_equal (← result.get 0) (← x.get 0) (1e-6 : Float32))
  check (nearly_equal (← result.get 1) (← x.get 1) (1e-6 : Float32))
  check (nearly_equal (← result.get 2) (← x.get 2) (1e-6 : Float32))
#guard passes quaternion_rotate_vec_composition_360

/-- `src/quaternion.rs:650-658`, `rotate_vec_angle_encode` -/
def quaternion_rotate_vec_angle_encode : MayPanic Unit := do
  let q : (Quat _) := (Quat.rotation_norm_encoded (V3.new_from (0.0 : Float32) (0.0 : Float32) ((90.0 : Float32).to_radians)))
  let x := V3.x_axis
  let result := (Quat.mulVec q x)
  let expected := (V3.new_from (0.0 : Float32) (1.0 : Float32) (0.0 : Float32))
  check (nearly_equal (← result.get 0) (← expected.get 0) (1e-6 : Float32))
  check (nearly_equal (← result.get 1) (← expected.get 1) (1e-6 : Float32))
  check (nearly_equal (← result.get 2) (← expected.get 2) (1e-6 : Float32))
#guard passes quaternion_rotate_vec_angle_encode

/-- `src/quaternion.rs:661-674`, `convert_rotation_test` -/
def quaternion_convert_rotation_test : MayPanic Unit := do
  let q : (Quat _) := (Quat.rotation_norm_encoded (V3.new_from (0.0 : Float32) (0.0 : Float32) ((90.0 : Float32).to_radians)))
  let x := V3.x_axis
  let expected := (Quat.mulVec (Quat.mul (Quat.mul (Quat.mul q q) q) q) x)
  let m := (Quat.to_rotation q)
  let result := (M33.mulVec (M33.mul (M33.mul (M33.mul m m) m) m) x)
  check (nearly_equal (← result.get 0) (← expected.get 0) (1e-6 : Float32))
  check (nearly_equal (← result.get 1) (← expected.get 1) (1e-6 : Float32))
  check (nearly_equal (← result.get 2) (← expected.get 2) (1e-6 : Float32))
#guard passes quaternion_convert_rotation_test

/-- `src/quaternion.rs:677-687`, `inverse_test` -/
def quaternion_inverse_test : MayPanic Unit := do
  let q : (Quat _) := (Quat.new_from (1.0 : Float32) (1.0 : Float32) (1.0 : Float32) (10.0 : Float32))
  if let some inv := (Quat.inverse q) then
    let result : (Quat _) := (Quat.mul q inv)
    let expected : (Quat _) := Quat.one
    check (nearly_equal result.q0 expected.q0 (1e-6 : Float32))
    check (nearly_equal (← result.q.get 0) (← expected.q.get 0) (1e-6 : Float32))
    check (nearly_equal (← result.q.get 1) (← expected.q.get 1) (1e-6 : Float32))
    check (nearly_equal (← result.q.get 2) (← expected.q.get 2) (1e-6 : Float32))
#guard passes quaternion_inverse_test

/-- `src/quaternion.rs:690-698`, `division_test` -/
def quaternion_division_test : MayPanic Unit := do
  let q : (Quat _) := (Quat.new_from (10.0 : Float32) (3.0 : Float32) (7.0 : Float32) (1.0 : Float32))
  let result : (Quat _) := (← Quat.div q q)
  let expected : (Quat _) := Quat.one
  check (nearly_equal result.q0 expected.q0 (1e-6 : Float32))
  check (nearly_equal (← result.q.get 0) (← expected.q.get 0) (1e-6 : Float32))
  check (nearly_equal (← result.q.get 1) (← expected.q.get 1) (1e-6 : Float32))
  check (nearly_equal (← result.q.get 2) (← expected.q.get 2) (1e-6 : Float32))
#guard passes quaternion_division_test

/-- `src/quaternion.rs:701-708`, `euler_and_quaternions` -/
def quaternion_euler_and_quaternions : MayPanic Unit := do
  let expected := ((0.1 : Float32), (0.2 : Float32), (0.3 : Float32))
  let q : (Quat _) := (Quat.from_euler_angles expected.1 expected.2.1 expected.2.2)
  let result := (Quat.to_euler_angles q)
  check (nearly_equal result.1 expected.1 (1e-6 : Float32))
  check (nearly_equal result.2.1 expected.2.1 (1e-6 : Float32))
  check (nearly_equal result.2.2 expected.2.2 (1e-6 : Float32))
#guard passes quaternion_euler_and_quaternions

/-- `src/quaternion.rs:711-721`, `slerp_test` -/
def quaternion_slerp_test : MayPanic Unit := do
  let a : (Quat _) := (← Quat.rotation (1.78 : Float32) (V3.new_from (1.0 : Float32) (2.0 : Float32) (3.0 : Float32)))
  let b : (Quat _) := (← Quat.rotation (1.78 : Float32) V3.x_axis)
  let result : (Quat _) := (Quat.slerp a b (0.3 : Float32))
  let expected : (Quat _) := (Quat.new_from (0.6995922116669001 : Float32) (0.42947374679735195 : Float32) (0.31677365769795535 : Float32) (0.475160486546933 : Float32))
  check (nearly_equal result.q0 expected.q0 (1e-6 : Float32))
  check (nearly_equal (← result.q.get 0) (← expected.q.get 0) (1e-6 : Float32))
  check (nearly_equal (← result.q.get 1) (← expected.q.get 1) (1e-6 : Float32))
  check (nearly_equal (← result.q.get 2) (← expected.q.get 2) (1e-6 : Float32))
#guard passes quaternion_slerp_test

/-- `src/quaternion.rs:725-730`, `to_rotation_test` -/
def quaternion_to_rotation_test : MayPanic Unit := do
  let expected := (M33.mul (rotx ((20.0 : Float32).to_radians)) (roty ((30.0 : Float32).to_radians)))
  let q : (Quat _) := (Quat.from_rotation expected)
  let result := (Quat.to_rotation q)
  check (compare_vecs (← M33.as_vec result).toSlice (← M33.as_vec expected).toSlice (1e-6 : Float32))
#guard passes quaternion_to_rotation_test

/-! ## `src/transformations.rs` -/

/-- `src/transformations.rs:673-680`, `rotation_and_euler_test` -/
def transformations_rotation_and_euler_test : MayPanic Unit := do
  let expected := ((0.1 : Float32), (0.2 : Float32), (0.3 : Float32))
  let r := (euler_to_rotation expected.1 expected.2.1 expected.2.2 none)
  let result := (rotation_to_euler r)
  check (nearly_equal result.1 expected.1 (1e-6 : Float32))
  check (nearly_equal result.2.1 expected.2.1 (1e-6 : Float32))
  check (nearly_equal result.2.2 expected.2.2 (1e-6 : Float32))
#guard passes transformations_rotation_and_euler_test

/-- `src/transformations.rs:683-686`, `rotation_x` -/
def transformations_rotation_x : MayPanic Unit := do
  let r := (rotx ((20.0 : Float32).to_radians))
  check (is_rotation r)
#guard passes transformations_rotation_x

/-- `src/transformations.rs:689-692`, `rotation_y` -/
def transformations_rotation_y : MayPanic Unit := do
  let r := (roty ((20.0 : Float32).to_radians))
  check (is_rotation r)
#guard passes transformations_rotation_y

/-- `src/transformations.rs:695-698`, `rotation_z` -/
def transformations_rotation_z : MayPanic Unit := do
  let r := (rotz ((20.0 : Float32).to_radians))
  check (is_rotation r)
#guard passes transformations_rotation_z

/-- `src/transformations.rs:701-706`, `homogeneous_transform_test` -/
def transformations_homogeneous_transform_test : MayPanic Unit := do
  let v := (V3.smul V3.y_axis (RFloat.frac_pi_2 : Float32))
  let q : (Quat _) := (Quat.rotation_norm_encoded v)
  let iso_s := (homogeneous_from_quaternion q (V3.new_from (0.0 : Float32) (0.0 : Float32) (3.0 : Float32)))
  check (is_rotation_h iso_s)
#guard passes transformations_homogeneous_transform_test

/-- `src/transformations.rs:709-716`, `homogeneous_inverse_test` -/
def transformations_homogeneous_inverse_test : MayPanic Unit := do
  let v := (V3.smul V3.y_axis (RFloat.frac_pi_2 : Float32))
  let q : (Quat _) := (Quat.rotation_norm_encoded v)
  let iso_s := (homogeneous_from_quaternion q (V3.new_from (0.0 : Float32) (0.0 : Float32) (3.0 : Float32)))
  let result := (M44.mul iso_s (homogeneous_inverse iso_s))
  let expected := M44.identity
  check (compare_vecs (← M44.as_vec result).toSlice (← M44.as_vec expected).toSlice (1e-6 : Float32))
#guard passes transformations_homogeneous_inverse_test

/-- `src/transformations.rs:721-728`, `inverse_point_transform_test` -/
def transformations_inverse_point_transform_test : MayPanic Unit := do
  let v := (V3.smul V3.y_axis (RFloat.frac_pi_2 : Float32))
  let q : (Quat _) := (Quat.rotation_norm_encoded v)
  let iso_s := (homogeneous_from_quaternion q (V3.new_from (0.0 : Float32) (0.0 : Float32) (3.0 : Float32)))
  let result := (homogeneous_inverse_transform iso_s (V3.new_from (1.0 : Float32) (2.0 : Float32) (3.0 : Float32)))
  let expected := (V3.new_from (0.0 : Float32) (2.0 : Float32) (1.0 : Float32))
  check (compare_vecs result.toSlice expected.toSlice (1e-6 : Float32))
#guard passes transformations_inverse_point_transform_test

/-- `src/transformations.rs:731-740`, `matrix_log_test` -/
def transformations_matrix_log_test : MayPanic Unit := do
  let r := (M33.new ⟨![⟨![(0.0 : Float32), (0.0 : Float32), (1.0 : Float32)]⟩, ⟨![(1.0 : Float32), (0.0 : Float32), (0.0 : Float32)]⟩, ⟨![(0.0 : Float32), (1.0 : Float32), (0.0 : Float32)]⟩]⟩)
  let result := (matrix_log r)
  let expected := (M33.new ⟨![⟨![(0.0 : Float32), (-(1.20919958 : Float32)), (1.20919958 : Float32)]⟩, ⟨![(1.20919958 : Float32), (0.0 : Float32), (-(1.20919958 : Float32))]⟩, ⟨![(-(1.20919958 : Float32)), (1.20919958 : Float32), (0.0 : Float32)]⟩]⟩)
  check (compare_vecs (← M33.as_vec result).toSlice (← M33.as_vec expected).toSlice (1e-6 : Float32))
#guard passes transformations_matrix_log_test

/-- `src/transformations.rs:743-750`, `matrix_exponential_test` -/
def transformations_matrix_exponential_test : MayPanic Unit := do
  let so3 := (skew_from_vec (V3.new_from (1.0 : Float32) (2.0 : Float32) (3.0 : Float32)))
  let result := (← matrix_exponential so3)
  let expected := (M33.new ⟨![⟨![(-(0.69492056 : Float32)), (0.71352099 : Float32), (0.08929286 : Float32)]⟩, ⟨![(-(0.19200697 : Float32)), (-(0.30378504 : Float32)), (0.93319235 : Float32)]⟩, ⟨![(0.69297817 : Float32), (0.6313497 : Float32), (0.34810748 : Float32)]⟩]⟩)
  check (compare_vecs (← M33.as_vec result).toSlice (← M33.as_vec expected).toSlice (1e-6 : Float32))
#guard passes transformations_matrix_exponential_test

/-- `src/transformations.rs:753-760`, `twist_to_se3_test` -/
def transformations_twist_to_se3_test : MayPanic Unit := do
  let result := (twist_to_se3 (V6.new_from (1.0 : Float32) (2.0 : Float32) (3.0 : Float32) (4.0 : Float32) (5.0 : Float32) (6.0 : Float32)))
  let expected := (M44.new ⟨![⟨![(0.0 : Float32), (-(3.0 : Float32)), (2.0 : Float32), (4.0 : Float32)]⟩, ⟨![(3.0 : Float32), (0.0 : Float32), (-(1.0 : Float32)), (5.0 : Float32)]⟩, ⟨![(-(2.0 : Float32)), (1.0 : Float32), (0.0 : Float32), (6.0 : Float32)]⟩, ⟨![(0.0 : Float32), (0.0 : Float32), (0.0 : Float32), (0.0 : Float32)]⟩]⟩)
  check (compare_vecs (← M44.as_vec result).toSlice (← M44.as_vec expected).toSlice (1e-6 : Float32))
#guard passes transformations_twist_to_se3_test

/-- `src/transformations.rs:763-777`, `se3_to_twist_test` -/
def transformations_se3_to_twist_test : MayPanic Unit := do
  let se3 := (M44.new ⟨![⟨![(0.0 : Float), (-(3.0 : Float)), (2.0 : Float), (4.0 : Float)]⟩, ⟨![(3.0 : Float), (0.0 : Float), (-(1.0 : Float)), (5.0 : Float)]⟩, ⟨![(-(2.0 : Float)), (1.0 : Float), (0.0 : Float), (6.0 : Float)]⟩, ⟨![(0.0 : Float), (0.0 : Float), (0.0 : Float), (0.0 : Float)]⟩]⟩)
  let result := (se3_to_twist se3)
  let expected := (V6.new_from (1.0 : Float) (2.0 : Float) (3.0 : Float) (4.0 : Float) (5.0 : Float) (6.0 : Float))
  check (req result expected)
#guard passes transformations_se3_to_twist_test

/-- `src/transformations.rs:780-795`, `adjoint_test` -/
def transformations_adjoint_test : MayPanic Unit := do
  let t := (M44.new ⟨![⟨![(1.0 : Float32), (0.0 : Float32), (0.0 : Float32), (0.0 : Float32)]⟩, ⟨![(0.0 : Float32), (0.0 : Float32), (-(1.0 : Float32)), (0.0 : Float32)]⟩, ⟨![(0.0 : Float32), (1.0 : Float32), (0.0 : Float32), (3.0 : Float32)]⟩, ⟨![(0.0 : Float32), (0.0 : Float32), (0.0 : Float32), (1.0 : Float32)]⟩]⟩)
  let result := (← adjoint t)
  let expected := (M66.new ⟨![⟨![(1.0 : Float32), (0.0 : Float32), (0.0 : Float32), (0.0 : Float32), (0.0 : Float32), (0.0 : Float32)]⟩, ⟨![(0.0 : Float32), (0.0 : Float32), (-(1.0 : Float32)), (0.0 : Float32), (0.0 : Float32), (0.0 : Float32)]⟩, ⟨![(0.0 : Float32), (1.0 : Float32), (0.0 : Float32), (0.0 : Float32), (0.0 : Float32), (0.0 : Float32)]⟩, ⟨![(0.0 : Float32), (0.0 : Float32), (3.0 : Float32), (1.0 : Float32), (0.0 : Float32), (0.0 : Float32)]⟩, ⟨![(3.0 : Float32), (0.0 : Float32), (0.0 : Float32), (0.0 : Float32), (0.0 : Float32), (-(1.0 : Float32))]⟩, ⟨![(0.0 : Float32), (0.0 : Float32), (0.0 : Float32), (0.0 : Float32), (1.0 : Float32), (0.0 : Float32)]⟩]⟩)
  check (compare_vecs (← M66.as_vec result).toSlice (← M66.as_vec expected).toSlice (1e-6 : Float32))
#guard passes transformations_adjoint_test

/-- `src/transformations.rs:798-811`, `screw_to_axis_test` -/
def transformations_screw_to_axis_test : MayPanic Unit := do
  let q := (V3.new_from (3.0 : Float) (0.0 : Float) (0.0 : Float))
  let s := (V3.new_from (0.0 : Float) (0.0 : Float) (1.0 : Float))
  let h := (2.0 : Float)
  let result := (screw_to_axis q s h)
  let expected := (V6.new_from (0.0 : Float) (0.0 : Float) (1.0 : Float) (0.0 : Float) (-(3.0 : Float)) (2.0 : Float))
  check (req result expected)
#guard passes transformations_screw_to_axis_test

/-- `src/transformations.rs:814-826`, `axis_angle6_test` -/
def transformations_axis_angle6_test : MayPanic Unit := do
  let v := (V6.new_from (1.0 : Float32) (0.0 : Float32) (0.0 : Float32) (1.0 : Float32) (2.0 : Float32) (3.0 : Float32))
  let result := (axis_angle6 v)
  let expected := ((V6.new_from (1.0 : Float32) (0.0 : Float32) (0.0 : Float32) (1.0 : Float32) (2.0 : Float32) (3.0 : Float32)), (1.0 : Float32))
  check (req result.1 expected.1)
  check (nearly_equal result.2 expected.2 (1e-6 : Float32))
#guard passes transformations_axis_angle6_test

/-- `src/transformations.rs:829-841`, `matrix_exponential6_test` -/
def transformations_matrix_exponential6_test : MayPanic Unit := do
  let se3mat := (M44.new ⟨![⟨![(0.0 : Float32), (0.0 : Float32), (0.0 : Float32), (0.0 : Float32)]⟩, ⟨![(0.0 : Float32), (0.0 : Float32), (-(1.57079632 : Float32)), (2.35619449 : Float32)]⟩, ⟨![(0.0 : Float32), (1.57079632 : Float32), (0.0 : Float32), (2.35619449 : Float32)]⟩, ⟨![(0.0 : Float32), (0.0 : Float32), (0.0 : Float32), (0.0 : Float32)]⟩]⟩)
  let result := (← matrix_exponential6 se3mat)
  let expected := (M44.new ⟨![⟨![(1.0 : Float32), (0.0 : Float32), (0.0 : Float32), (0.0 : Float32)]⟩, ⟨![(0.0 : Float32), (0.0 : Float32), (-(1.0 : Float32)), (0.0 : Float32)]⟩, ⟨![(0.0 : Float32), (1.0 : Float32), (0.0 : Float32), (3.0 : Float32)]⟩, ⟨![(0.0 : Float32), (0.0 : Float32), (0.0 : Float32), (1.0 : Float32)]⟩]⟩)
  check (compare_vecs (← M44.as_vec result).toSlice (← M44.as_vec expected).toSlice (1e-6 : Float32))
#guard passes transformations_matrix_exponential6_test

/-- `src/transformations.rs:844-857`, `matrix_log6_test` -/
def transformations_matrix_log6_test : MayPanic Unit := do
  let t := (M44.new ⟨![⟨![(1.0 : Float32), (0.0 : Float32), (0.0 : Float32), (0.0 : Float32)]⟩, ⟨![(0.0 : Float32), (0.0 : Float32), (-(1.0 : Float32)), (0.0 : Float32)]⟩, ⟨![(0.0 : Float32), (1.0 : Float32), (0.0 : Float32), (3.0 : Float32)]⟩, ⟨![(0.0 : Float32), (0.0 : Float32), (0.0 : Float32), (1.0 : Float32)]⟩]⟩)
  let result := (matrix_log6 t)
  let expected := (M44.new ⟨![⟨![(0.0 : Float32), (0.0 : Float32), (0.0 : Float32), (0.0 : Float32)]⟩, ⟨![(0.0 : Float32), (0.0 : Float32), (-(1.57079633 : Float32)), (2.35619449 : Float32)]⟩, ⟨![(0.0 : Float32), (1.57079633 : Float32), (0.0 : Float32), (2.35619449 : Float32)]⟩, ⟨![(0.0 : Float32), (0.0 : Float32), (0.0 : Float32), (0.0 : Float32)]⟩]⟩)
  check (compare_vecs (← M44.as_vec result).toSlice (← M44.as_vec expected).toSlice (1e-6 : Float32))
#guard passes transformations_matrix_log6_test

/-- `src/transformations.rs:860-868`, `distance_to_manifold_test` -/
def transformations_distance_to_manifold_test : MayPanic Unit := do
  let mat := (M33.new ⟨![⟨![(1.0 : Float32), (0.0 : Float32), (0.0 : Float32)]⟩, ⟨![(0.0 : Float32), (0.1 : Float32), (-(0.95 : Float32))]⟩, ⟨![(0.0 : Float32), (1.0 : Float32), (0.1 : Float32)]⟩]⟩)
  let result := (distance_to_manifold mat)
  let expected := (0.08835298523536149 : Float32)
  check (nearly_equal result expected (1e-6 : Float32))
#guard passes transformations_distance_to_manifold_test

/-! ## `src/dual_quaternion.rs` -/

/-- `src/dual_quaternion.rs:516-521`, `unity_product_dual_quaternion_test` -/
def dual_quaternion_unity_product_dual_quaternion_test : MayPanic Unit := do
  let unit : (DQuat _) := DQuat.one
  let expected : (DQuat Float32) := (DQuat.new_from_translation V3.z_axis)
  let result : (DQuat _) := (DQuat.mul unit expected)
  check (compare_dual_quaternions result expected (1e-4 : Float32))
#guard passes dual_quaternion_unity_product_dual_quaternion_test

/-- `src/dual_quaternion.rs:524-556`, `dual_quaternion_creation_tests` -/
def dual_quaternion_dual_quaternion_creation_tests : MayPanic Unit := do
  let dq : (DQuat Float32) := (DQuat.new_from_translation V3.z_axis)
  let result := (DQuat.to_rotation_translation dq)
  let result2 := (DQuat.to_quaternion_translation dq)
  let expected1 := V3.z_axis
  check (req result.2 expected1)
  check (req result2.2 expected1)
  let expected2 := M33.identity
  check (compare_vecs (← M33.as_vec result.1).toSlice (← M33.as_vec expected2).toSlice (1e-4 : Float32))
  let expected3 : (Quat _) := Quat.one
  check (nearly_equal (Quat.real result2.1) (Quat.real expected3) (1e-4 : Float32))
  check (nearly_equal (← (Quat.imag result2.1).get 0) (← (Quat.imag expected3).get 0) (1e-4 : Float32))
  check (nearly_equal (← (Quat.imag result2.1).get 1) (← (Quat.imag expected3).get 1) (1e-4 : Float32))
  check (nearly_equal (← (Quat.imag result2.1).get 2) (← (Quat.imag expected3).get 2) (1e-4 : Float32))
#guard passes dual_quaternion_dual_quaternion_creation_tests

/-- `src/dual_quaternion.rs:559-571`, `dual_quaternion_test_norm` -/
def dual_quaternion_dual_quaternion_test_norm : MayPanic Unit := do
  let dq : (DQuat _) := (DQuat.new_from_vecs (V4.new_from (1.0 : Float32) (2.0 : Float32) (3.0 : Float32) (4.0 : Float32)) (V4.new_from (5.0 : Float32) (6.0 : Float32) (7.0 : Float32) (8.0 : Float32)))
  let one : (DQuat Float32) := DQuat.one
  let normalized : (DQuat _) := (← unwrapSome (DQuat.normalize dq))
  check (DQuat.is_normalized normalized)
  check (DQuat.is_normalized one)
  check (compare_dual_quaternions one (← unwrapSome (DQuat.normalize one)) (1e-4 : Float32))
#guard passes dual_quaternion_dual_quaternion_test_norm

/-- `src/dual_quaternion.rs:575-585`, `homogeneous_conversions` -/
def dual_quaternion_homogeneous_conversions : MayPanic Unit := do
  let q : (Quat _) := (Quat.from_euler_angles ((10.0 : Float32).to_radians) ((10.0 : Float32).to_radians) ((10.0 : Float32).to_radians))
  let expected := (homogeneous_from_quaternion q (V3.new_from (1.0 : Float32) (2.0 : Float32) (3.0 : Float32)))
  let result := (DQuat.to_homogeneous (← DQuat.new_from_homogeneous expected))
  check (compare_vecs (← M44.as_vec result).toSlice (← M44.as_vec expected).toSlice (1e-4 : Float32))
#guard passes dual_quaternion_homogeneous_conversions

/-- `src/dual_quaternion.rs:588-606`, `conjugate_product_test` -/
def dual_quaternion_conjugate_product_test : MayPanic Unit := do
  let q1 : (Quat _) := (Quat.from_euler_angles ((10.0 : Float32).to_radians) ((10.0 : Float32).to_radians) ((10.0 : Float32).to_radians))
  let q2 : (Quat _) := (Quat.from_euler_angles ((30.0 : Float32).to_radians) ((10.0 : Float32).to_radians) ((30.0 : Float32).to_radians))
  let dq1 : (DQuat _) := (← DQuat.new_from_rot_trans q1 V3.x_axis)
  let dq2 : (DQuat _) := (← DQuat.new_from_rot_trans q2 V3.z_axis)
  let result : (DQuat _) := (DQuat.conj (DQuat.mul dq1 dq2))
  let expected : (DQuat _) := (DQuat.mul (DQuat.conj dq2) (DQuat.conj dq1))
  check (compare_dual_quaternions result expected (1e-4 : Float32))
#guard passes dual_quaternion_conjugate_product_test

/-- `src/dual_quaternion.rs:610-634`, `combined_transformations_tests` -/
def dual_quaternion_combined_transformations_tests : MayPanic Unit := do
  let rot := (euler_to_rotation ((10.0 : Float32).to_radians) ((10.0 : Float32).to_radians) ((10.0 : Float32).to_radians) none)
  let q : (Quat _) := (Quat.from_euler_angles ((10.0 : Float32).to_radians) ((10.0 : Float32).to_radians) ((10.0 : Float32).to_radians))
  let t_pure : (DQuat _) := (DQuat.new_from_translation V3.x_axis)
  let r_pure : (DQuat _) := (DQuat.new_from_rotation q)
  let expected : (DQuat _) := (← DQuat.new_from_rot_trans q V3.x_axis)
  let result1 : (DQuat _) := (DQuat.mul t_pure r_pure)
  let r_pure2 : (DQuat _) := (DQuat.new_from_rotation_matrix rot)
  let result2 : (DQuat _) := (DQuat.mul t_pure r_pure2)
  check (compare_dual_quaternions result1 expected (1e-4 : Float32))
  check (compare_dual_quaternions result2 expected (1e-4 : Float32))
#guard passes dual_quaternion_combined_transformations_tests

/-- `src/dual_quaternion.rs:639-650`, `dual_quaternion_inverse_test` -/
def dual_quaternion_dual_quaternion_inverse_test : MayPanic Unit := do
  let q : (Quat _) := (Quat.from_euler_angles ((10.0 : Float32).to_radians) ((10.0 : Float32).to_radians) ((10.0 : Float32).to_radians))
  let dq : (DQuat _) := (← DQuat.new_from_rot_trans q V3.x_axis)
  let result : (DQuat _) := (DQuat.mul (← DQuat.inverse dq) dq)
  let expected : (DQuat _) := DQuat.one
  check (compare_dual_quaternions result expected (1e-4 : Float32))
#guard passes dual_quaternion_dual_quaternion_inverse_test

/-- `src/dual_quaternion.rs:655-679`, `dual_quaternion_transformation_inverse` -/
def dual_quaternion_dual_quaternion_transformation_inverse : MayPanic Unit := do
  let t_1_2 := (M44.new ⟨![⟨![(0.0 : Float32), (1.0 : Float32), (0.0 : Float32), (2.0 : Float32)]⟩, ⟨![(-(1.0 : Float32)), (0.0 : Float32), (0.0 : Float32), (4.0 : Float32)]⟩, ⟨![(0.0 : Float32), (0.0 : Float32), (1.0 : Float32), (6.0 : Float32)]⟩, ⟨![(0.0 : Float32), (0.0 : Float32), (0.0 : Float32), (1.0 : Float32)]⟩]⟩)
  let t_2_1 := (M44.new ⟨![⟨![(0.0 : Float32), (-(1.0 : Float32)), (0.0 : Float32), (4.0 : Float32)]⟩, ⟨![(1.0 : Float32), (0.0 : Float32), (0.0 : Float32), (-(2.0 : Float32))]⟩, ⟨![(0.0 : Float32), (0.0 : Float32), (1.0 : Float32), (-(6.0 : Float32))]⟩, ⟨![(0.0 : Float32), (0.0 : Float32), (0.0 : Float32), (1.0 : Float32)]⟩]⟩)
  let dq_1_2 : (DQuat _) := (← DQuat.new_from_homogeneous t_1_2)
  let dq_2_1 : (DQuat _) := (← DQuat.new_from_homogeneous t_2_1)
  check (compare_vecs (← M44.as_vec (DQuat.to_homogeneous dq_2_1)).toSlice (← M44.as_vec (DQuat.to_homogeneous (← DQuat.inverse dq_1_2))).toSlice (1e-4 : Float32))
  check (compare_vecs (← M44.as_vec (DQuat.to_homogeneous dq_1_2)).toSlice (← M44.as_vec (DQuat.to_homogeneous (← DQuat.inverse dq_2_1))).toSlice (1e-4 : Float32))
#guard passes dual_quaternion_dual_quaternion_transformation_inverse

/-- `src/dual_quaternion.rs:682-703`, `dual_quaternion_transform_point_test` -/
def dual_quaternion_dual_quaternion_transform_point_test : MayPanic Unit := do
  let q : (Quat _) := (Quat.from_euler_angles ((10.0 : Float32).to_radians) ((10.0 : Float32).to_radians) ((10.0 : Float32).to_radians))
  let t := (homogeneous_from_quaternion q (V3.new_from (1.0 : Float32) (2.0 : Float32) (3.0 : Float32)))
  let p := (V4.new_from (1.0 : Float32) (2.0 : Float32) (3.0 : Float32) (0.0 : Float32))
  let expected := (M44.mulVec t p)
  let p := (V3.new_from (1.0 : Float32) (2.0 : Float32) (3.0 : Float32))
  let dq : (DQuat _) := (← DQuat.new_from_homogeneous t)
  let result := (DQuat.transform_point dq p)
  check (nearly_equal (← result.get 0) (← expected.get 0) (1e-4 : Float32))
  check (nearly_equal (← result.get 1) (← expected.get 1) (1e-4 : Float32))
  check (nearly_equal (← result.get 2) (← expected.get 2) (1e-4 : Float32))
  check (nearly_zero (← expected.get 3))
#guard passes dual_quaternion_dual_quaternion_transform_point_test

/-- `src/dual_quaternion.rs:706-723`, `dual_quaternion_get_screw_params_translation_test` -/
def dual_quaternion_dual_quaternion_get_screw_params_translation_test : MayPanic Unit := do
  let trans := (V3.new_from (10.0 : Float32) (3.7 : Float32) (7.3 : Float32))
  let t_pure : (DQuat _) := (DQuat.new_from_translation trans)
  let (l_result, m_result, theta_result, d_result) := (DQuat.get_screw_parameters t_pure)
  let inf := (RFloat.infinity : Float32)
  check (nearly_equal (V3.norm2 l_result) (1.0 : Float32) (1e-4 : Float32))
  check (compare_vecs m_result.toSlice (V3.new_from inf inf inf).toSlice (1e-4 : Float32))
  check (nearly_zero theta_result)
  check (d_result.isFinite)
  check (nearly_equal d_result (V3.norm2 trans) (1e-4 : Float32))
#guard passes dual_quaternion_dual_quaternion_get_screw_params_translation_test

/-- `src/dual_quaternion.rs:726-744`, `dual_quaternion_screw_params_rotation_test` -/
def dual_quaternion_dual_quaternion_screw_params_rotation_test : MayPanic Unit := do
  let q : (Quat _) := (Quat.from_euler_angles ((73.0 : Float32).to_radians) ((10.0 : Float32).to_radians) ((10.0 : Float32).to_radians))
  let r_pure : (DQuat _) := (DQuat.new_from_rotation q)
  let (l_result, m_result, theta_result, d_result) := (DQuat.get_screw_parameters r_pure)
  check (nearly_equal (V3.norm2 l_result) (1.0 : Float32) (1e-4 : Float32))
  check (compare_vecs m_result.toSlice V3.zeros.toSlice (1e-4 : Float32))
  check (nearly_equal theta_result (Quat.get_angle q) (1e-4 : Float32))
  check (nearly_zero d_result)
#guard passes dual_quaternion_dual_quaternion_screw_params_rotation_test

/-- `src/dual_quaternion.rs:751-761`, `dual_quternion_screw_paras_full` -/
def dual_quaternion_dual_quternion_screw_paras_full : MayPanic Unit := do
  let v := (V3.smul V3.z_axis ((45.0 : Float32).to_radians))
  let q : (Quat _) := (Quat.rotation_norm_encoded v)
  let trans := (V3.new_from (0.0 : Float32) (0.0 : Float32) (7.0 : Float32))
  let dq_full : (DQuat _) := (← DQuat.new_from_rot_trans q trans)
  let (l, m, theta, d) := (DQuat.get_screw_parameters dq_full)
  check (compare_vecs l.toSlice V3.z_axis.toSlice (1e-4 : Float32))
  check (compare_vecs m.toSlice V3.zeros.toSlice (1e-4 : Float32))
  check (nearly_equal theta ((45.0 : Float32).to_radians) (1e-4 : Float32))
  check (nearly_equal d (7.0 : Float32) (1e-4 : Float32))
#guard passes dual_quaternion_dual_quternion_screw_paras_full

/-- `src/dual_quaternion.rs:764-773`, `dual_quaternion_screw_params_test` -/
def dual_quaternion_dual_quaternion_screw_params_test : MayPanic Unit := do
  let v := (V3.smul V3.z_axis ((45.0 : Float32).to_radians))
  let q : (Quat _) := (Quat.rotation_norm_encoded v)
  let trans := (V3.new_from (0.0 : Float32) (0.0 : Float32) (7.0 : Float32))
  let dq_full : (DQuat _) := (← DQuat.new_from_rot_trans q trans)
  let (l, m, theta, d) := (DQuat.get_screw_parameters dq_full)
  let result : (DQuat _) := (DQuat.new_from_screw_parameters l m theta d)
  check (compare_dual_quaternions dq_full result (1e-4 : Float32))
#guard passes dual_quaternion_dual_quaternion_screw_params_test

/-- `src/dual_quaternion.rs:776-788`, `dual_quaternion_pow_test` -/
def dual_quaternion_dual_quaternion_pow_test : MayPanic Unit := do
  let q : (Quat _) := (Quat.from_euler_angles ((73.0 : Float32).to_radians) ((10.0 : Float32).to_radians) ((10.0 : Float32).to_radians))
  let trans := (V3.new_from (0.0 : Float32) (0.0 : Float32) (7.0 : Float32))
  let dq_full : (DQuat _) := (← DQuat.new_from_rot_trans q trans)
  let expected : (DQuat _) := (DQuat.mul (DQuat.mul dq_full dq_full) dq_full)
  let result : (DQuat _) := (DQuat.pow dq_full (3.0 : Float32))
  check (compare_dual_quaternions expected result (1e-4 : Float32))
#guard passes dual_quaternion_dual_quaternion_pow_test

/-- `src/dual_quaternion.rs:791-810`, `dual_quaternion_interpolation_test` -/
def dual_quaternion_dual_quaternion_interpolation_test : MayPanic Unit := do
  let taus : Vec 4 Float32 := ⟨![(0.0 : Float32), (0.37 : Float32), (0.73 : Float32), (1.0 : Float32)]⟩
  let q : (Quat _) := (Quat.from_euler_angles ((73.0 : Float32).to_radians) ((10.0 : Float32).to_radians) ((10.0 : Float32).to_radians))
  let trans := (V3.new_from (0.0 : Float32) (0.0 : Float32) (7.0 : Float32))
  let dq : (DQuat _) := (← unwrapSome (DQuat.normalize (← DQuat.new_from_rot_trans q trans)))
  let (l, m, theta, d) := (DQuat.get_screw_parameters dq)
  for tau in taus.toSlice do
    let result : (DQuat _) := (← DQuat.screw_lerp DQuat.one dq tau)
    let expected : (DQuat _) := (DQuat.new_from_screw_parameters l m (tau * theta) (tau * d))
    check (compare_dual_quaternions expected result (1e-4 : Float32))
#guard passes dual_quaternion_dual_quaternion_interpolation_test

end StaticMath.Conformance
