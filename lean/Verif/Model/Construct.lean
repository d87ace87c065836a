import Verif.Model.Linear
import Verif.Model.DualQuaternion

/-!
# Constructors, sizes and constants

Generated by `tools/gen_construct.py` from the Rust text. An array `[T; n]` is a `Vec n T`, an array
of arrays `[[T; n]; n]` a `Vec n (Vec n T)`. The `f32` constants are stated for any element type;
`0.0` and `1.0` are its zero and one. The `mNN_new!` macros expand to `new` of the listed rows.
-/

namespace StaticMath

variable {T : Type}

/-- `src/vector2.rs:48-50` -/
def V2.new (input : Vec 2 T) : Vec 2 T := input

/-- `src/vector2.rs:53-55` -/
def V2.new_from (a b : T) : Vec 2 T := V2.new ⟨![a, b]⟩

/-- `src/vector2.rs:238-242` -/
def V2.from (data : Vec 2 T) : Vec 2 T := data

/-- `src/vector2.rs:60-62` -/
def V2.zeros [Zero T] : Vec 2 T := V2.zero

/-- `src/vector2.rs:254` -/
def V2_ZEROS [Zero T] : Vec 2 T := V2.new_from 0 0

/-- `src/vector2.rs:255` -/
def V2.X_AXIS [Zero T] [One T] : Vec 2 T := V2.new_from 1 0

/-- `src/vector2.rs:256` -/
def V2.Y_AXIS [Zero T] [One T] : Vec 2 T := V2.new_from 0 1

/-- `src/vector3.rs:48-50` -/
def V3.new (input : Vec 3 T) : Vec 3 T := input

/-- `src/vector3.rs:53-55` -/
def V3.new_from (a b c : T) : Vec 3 T := V3.new ⟨![a, b, c]⟩

/-- `src/vector3.rs:277-281` -/
def V3.from (data : Vec 3 T) : Vec 3 T := data

/-- `src/vector3.rs:61-63` -/
def V3.zeros [Zero T] : Vec 3 T := V3.zero

/-- `src/vector3.rs:300` -/
def V3.X_AXIS [Zero T] [One T] : Vec 3 T := V3.new_from 1 0 0

/-- `src/vector3.rs:302` -/
def V3.Y_AXIS [Zero T] [One T] : Vec 3 T := V3.new_from 0 1 0

/-- `src/vector3.rs:304` -/
def V3.Z_AXIS [Zero T] [One T] : Vec 3 T := V3.new_from 0 0 1

/-- `src/vector3.rs:306` -/
def V3_ZEROS [Zero T] : Vec 3 T := V3.new_from 0 0 0

/-- `src/vector4.rs:49-51` -/
def V4.new (input : Vec 4 T) : Vec 4 T := input

/-- `src/vector4.rs:54-56` -/
def V4.new_from (a b c d : T) : Vec 4 T := V4.new ⟨![a, b, c, d]⟩

/-- `src/vector4.rs:244-248` -/
def V4.from (data : Vec 4 T) : Vec 4 T := data

/-- `src/vector4.rs:61-63` -/
def V4.zeros [Zero T] : Vec 4 T := V4.zero

/-- `src/vector4.rs:264` -/
def V4_ZEROS [Zero T] : Vec 4 T := V4.new_from 0 0 0 0

/-- `src/vector5.rs:48-50` -/
def V5.new (input : Vec 5 T) : Vec 5 T := input

/-- `src/vector5.rs:53-55` -/
def V5.new_from (num1 num2 num3 num4 num5 : T) : Vec 5 T := V5.new ⟨![num1, num2, num3, num4, num5]⟩

/-- `src/vector5.rs:229-233` -/
def V5.from (data : Vec 5 T) : Vec 5 T := data

/-- `src/vector5.rs:60-62` -/
def V5.zeros [Zero T] : Vec 5 T := V5.zero

/-- `src/vector5.rs:248` -/
def V5_ZEROS [Zero T] : Vec 5 T := V5.new_from 0 0 0 0 0

/-- `src/vector6.rs:49-51` -/
def V6.new (input : Vec 6 T) : Vec 6 T := input

/-- `src/vector6.rs:54-56` -/
def V6.new_from (num1 num2 num3 num4 num5 num6 : T) : Vec 6 T := V6.new ⟨![num1, num2, num3, num4, num5, num6]⟩

/-- `src/vector6.rs:285-289` -/
def V6.from (data : Vec 6 T) : Vec 6 T := data

/-- `src/vector6.rs:61-63` -/
def V6.zeros [Zero T] : Vec 6 T := V6.zero

/-- `src/vector6.rs:305` -/
def V6_ZEROS [Zero T] : Vec 6 T := V6.new_from 0 0 0 0 0 0

/-- `src/matrix2x2.rs:49-51` -/
def M22.new (data_input : Vec 2 (Vec 2 T)) : Mat 2 T := ⟨fun i => (data_input i).val⟩

/-- `src/matrix2x2.rs:54-56` -/
def M22.new_from (a b c d : T) : Mat 2 T := M22.new ⟨![⟨![a, b]⟩, ⟨![c, d]⟩]⟩

/-- `src/matrix2x2.rs:473-477` -/
def M22.from (data : Vec 2 (Vec 2 T)) : Mat 2 T := ⟨fun i => (data i).val⟩

/-- `src/matrix2x2.rs:59-61`, `src/matrix2x2.rs:70-72`: the length of the outer array. -/
def M22.rows (_self : Mat 2 T) : ℕ := 2

/-- `src/matrix2x2.rs:64-66`, `src/matrix2x2.rs:74-76` -/
def M22.cols (self : Mat 2 T) : ℕ := M22.rows self

/-- `src/traits.rs:40-42` -/
def M22.shape (self : Mat 2 T) : ℕ × ℕ := (M22.rows self, M22.cols self)

/-- `src/matrix2x2.rs:143-145` -/
def M22.identity [Zero T] [One T] : Mat 2 T := M22.one

/-- `src/matrix2x2.rs:148-150` -/
def M22.zeros [Zero T] : Mat 2 T := M22.zero

/-- `src/matrix2x2.rs:519-523`: the `i`-th listed row is the `i`-th argument. -/
def m22_new (first_row second_row : Vec 2 T) : Mat 2 T :=
  M22.new ⟨![first_row, second_row]⟩

/-- `src/matrix2x2.rs:540` -/
def M22_ZEROS [Zero T] : Mat 2 T := m22_new ⟨![0, 0]⟩ ⟨![0, 0]⟩

/-- `src/matrix2x2.rs:541` -/
def M22_IDENT [Zero T] [One T] : Mat 2 T := m22_new ⟨![1, 0]⟩ ⟨![0, 1]⟩

/-- `src/matrix3x3.rs:51-53` -/
def M33.new (data_input : Vec 3 (Vec 3 T)) : Mat 3 T := ⟨fun i => (data_input i).val⟩

/-- `src/matrix3x3.rs:583-587` -/
def M33.from (data : Vec 3 (Vec 3 T)) : Mat 3 T := ⟨fun i => (data i).val⟩

/-- `src/matrix3x3.rs:55-57`, `src/matrix3x3.rs:65-67`: the length of the outer array. -/
def M33.rows (_self : Mat 3 T) : ℕ := 3

/-- `src/matrix3x3.rs:59-61`, `src/matrix3x3.rs:69-71` -/
def M33.cols (self : Mat 3 T) : ℕ := M33.rows self

/-- `src/traits.rs:40-42` -/
def M33.shape (self : Mat 3 T) : ℕ × ℕ := (M33.rows self, M33.cols self)

/-- `src/matrix3x3.rs:215-217` -/
def M33.identity [Zero T] [One T] : Mat 3 T := M33.one

/-- `src/matrix3x3.rs:220-222` -/
def M33.zeros [Zero T] : Mat 3 T := M33.zero

/-- `src/matrix3x3.rs:659-666`: the `i`-th listed row is the `i`-th argument. -/
def m33_new (first_row second_row third_row : Vec 3 T) : Mat 3 T :=
  M33.new ⟨![first_row, second_row, third_row]⟩

/-- `src/matrix4x4.rs:50-52` -/
def M44.new (data_input : Vec 4 (Vec 4 T)) : Mat 4 T := ⟨fun i => (data_input i).val⟩

/-- `src/matrix4x4.rs:772-776` -/
def M44.from (data : Vec 4 (Vec 4 T)) : Mat 4 T := ⟨fun i => (data i).val⟩

/-- `src/matrix4x4.rs:54-56`, `src/matrix4x4.rs:64-66`: the length of the outer array. -/
def M44.rows (_self : Mat 4 T) : ℕ := 4

/-- `src/matrix4x4.rs:58-60`, `src/matrix4x4.rs:68-70` -/
def M44.cols (self : Mat 4 T) : ℕ := M44.rows self

/-- `src/traits.rs:40-42` -/
def M44.shape (self : Mat 4 T) : ℕ × ℕ := (M44.rows self, M44.cols self)

/-- `src/matrix4x4.rs:290-292` -/
def M44.identity [Zero T] [One T] : Mat 4 T := M44.one

/-- `src/matrix4x4.rs:295-297` -/
def M44.zeros [Zero T] : Mat 4 T := M44.zero

/-- `src/matrix4x4.rs:861-872`: the `i`-th listed row is the `i`-th argument. -/
def m44_new (first_row second_row third_row fourth_row : Vec 4 T) : Mat 4 T :=
  M44.new ⟨![first_row, second_row, third_row, fourth_row]⟩

/-- `src/matrix5x5.rs:50-52` -/
def M55.new (data_input : Vec 5 (Vec 5 T)) : Mat 5 T := ⟨fun i => (data_input i).val⟩

/-- `src/matrix5x5.rs:1033-1037` -/
def M55.from (data : Vec 5 (Vec 5 T)) : Mat 5 T := ⟨fun i => (data i).val⟩

/-- `src/matrix5x5.rs:53-55`, `src/matrix5x5.rs:62-64`: the length of the outer array. -/
def M55.rows (_self : Mat 5 T) : ℕ := 5

/-- `src/matrix5x5.rs:56-58`, `src/matrix5x5.rs:66-68` -/
def M55.cols (self : Mat 5 T) : ℕ := M55.rows self

/-- `src/traits.rs:40-42` -/
def M55.shape (self : Mat 5 T) : ℕ × ℕ := (M55.rows self, M55.cols self)

/-- `src/matrix5x5.rs:872-874` -/
def M55.identity [Zero T] [One T] : Mat 5 T := M55.one

/-- `src/matrix5x5.rs:877-879` -/
def M55.zeros [Zero T] : Mat 5 T := M55.zero

/-- `src/matrix5x5.rs:1133-1146`: the `i`-th listed row is the `i`-th argument. -/
def m55_new (first_row second_row third_row fourth_row fifth_row : Vec 5 T) : Mat 5 T :=
  M55.new ⟨![first_row, second_row, third_row, fourth_row, fifth_row]⟩

/-- `src/matrix6x6.rs:51-53` -/
def M66.new (data_input : Vec 6 (Vec 6 T)) : Mat 6 T := ⟨fun i => (data_input i).val⟩

/-- `src/matrix6x6.rs:1864-1868` -/
def M66.from (data : Vec 6 (Vec 6 T)) : Mat 6 T := ⟨fun i => (data i).val⟩

/-- `src/matrix6x6.rs:54-56`, `src/matrix6x6.rs:64-66`: the length of the outer array. -/
def M66.rows (_self : Mat 6 T) : ℕ := 6

/-- `src/matrix6x6.rs:57-59`, `src/matrix6x6.rs:69-71` -/
def M66.cols (self : Mat 6 T) : ℕ := M66.rows self

/-- `src/traits.rs:40-42` -/
def M66.shape (self : Mat 6 T) : ℕ × ℕ := (M66.rows self, M66.cols self)

/-- `src/matrix6x6.rs:1623-1625` -/
def M66.identity [Zero T] [One T] : Mat 6 T := M66.one

/-- `src/matrix6x6.rs:1628-1630` -/
def M66.zeros [Zero T] : Mat 6 T := M66.zero

/-- `src/matrix6x6.rs:1910-1925`: the `i`-th listed row is the `i`-th argument. -/
def m66_new (first_row second_row third_row fourth_row fifth_row sixth_row : Vec 6 T) : Mat 6 T :=
  M66.new ⟨![first_row, second_row, third_row, fourth_row, fifth_row, sixth_row]⟩

/-- `src/quaternion.rs:539-543` -/
def Quat.from (data : Vec 4 T) : Quat T := Quat.new_from (data 0) (data 1) (data 2) (data 3)

end StaticMath
