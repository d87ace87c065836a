import Verif.Model.Num

/-! Generated by `tools/rs2lean.py` from the Rust text; every definition cites its source lines. -/

namespace StaticMath


variable {T : Type} [Add T] [Sub T] [Mul T] [Div T] [Neg T] [Zero T] [One T] [RFloat T]

/-- `src/vector2.rs:212-216` -/
def V2.zero : Vec 2 T :=
  ⟨![0, 0]⟩

/-- `src/vector2.rs:65-68` -/
def V2.ones : Vec 2 T :=
  let one : T := 1
  ⟨![one, one]⟩

/-- `src/vector2.rs:83-89` -/
def V2.neg (self : Vec 2 T) : Vec 2 T :=
  ⟨![-self 0, -self 1]⟩

/-- `src/vector2.rs:94-96` -/
def V2.norm2 (self : Vec 2 T) : T :=
  RFloat.sqrt (self 0 * self 0 + self 1 * self 1)

/-- `src/vector2.rs:114-120` -/
def V2.dot (self rhs : Vec 2 T) : T :=
  self 0 * rhs 0 + self 1 * rhs 1

/-- `src/vector2.rs:125-131` -/
def V2.smul (self : Vec 2 T) (rhs : T) : Vec 2 T :=
  ⟨![self 0 * rhs, self 1 * rhs]⟩

/-- `src/vector2.rs:135-141` -/
def V2.sdiv (self : Vec 2 T) (rhs : T) : Vec 2 T :=
  ⟨![self 0 / rhs, self 1 / rhs]⟩

/-- `src/vector2.rs:155-161` -/
def V2.f32mul (self : T) (rhs : Vec 2 T) : Vec 2 T :=
  ⟨![self * rhs 0, self * rhs 1]⟩

/-- `src/vector2.rs:165-174` -/
def V2.mulMat (self : Vec 2 T) (rhs : Mat 2 T) : Vec 2 T :=
  ⟨![self 0 * rhs 0 0 + self 1 * rhs 1 0, self 0 * rhs 0 1 + self 1 * rhs 1 1]⟩

/-- `src/vector2.rs:178-184` -/
def V2.sub (self rhs : Vec 2 T) : Vec 2 T :=
  ⟨![self 0 - rhs 0, self 1 - rhs 1]⟩

/-- `src/vector2.rs:196-201` -/
def V2.add (self rhs : Vec 2 T) : Vec 2 T :=
  ⟨![self 0 + rhs 0, self 1 + rhs 1]⟩

/-- `src/vector3.rs:251-255` -/
def V3.zero : Vec 3 T :=
  ⟨![0, 0, 0]⟩

/-- `src/vector3.rs:66-69` -/
def V3.ones : Vec 3 T :=
  let one : T := 1
  ⟨![one, one, one]⟩

/-- `src/vector3.rs:115-121` -/
def V3.neg (self : Vec 3 T) : Vec 3 T :=
  ⟨![-self 0, -self 1, -self 2]⟩

/-- `src/vector3.rs:127-129` -/
def V3.norm2 (self : Vec 3 T) : T :=
  RFloat.sqrt (self 0 * self 0 + self 1 * self 1 + self 2 * self 2)

/-- `src/vector3.rs:192-198` -/
def V3.dot (self rhs : Vec 3 T) : T :=
  self 0 * rhs 0 + self 1 * rhs 1 + self 2 * rhs 2

/-- `src/vector3.rs:152-158` -/
def V3.smul (self : Vec 3 T) (rhs : T) : Vec 3 T :=
  ⟨![self 0 * rhs, self 1 * rhs, self 2 * rhs]⟩

/-- `src/vector3.rs:162-168` -/
def V3.sdiv (self : Vec 3 T) (rhs : T) : Vec 3 T :=
  ⟨![self 0 / rhs, self 1 / rhs, self 2 / rhs]⟩

/-- `src/vector3.rs:172-178` -/
def V3.f32mul (self : T) (rhs : Vec 3 T) : Vec 3 T :=
  ⟨![rhs 0 * self, rhs 1 * self, rhs 2 * self]⟩

/-- `src/vector3.rs:182-188` -/
def V3.f64mul (self : T) (rhs : Vec 3 T) : Vec 3 T :=
  ⟨![rhs 0 * self, rhs 1 * self, rhs 2 * self]⟩

/-- `src/vector3.rs:202-211` -/
def V3.mulMat (self : Vec 3 T) (rhs : Mat 3 T) : Vec 3 T :=
  ⟨![rhs 0 0 * self 0 + rhs 0 1 * self 1 + rhs 0 2 * self 2,
     rhs 1 0 * self 0 + rhs 1 1 * self 1 + rhs 1 2 * self 2,
     rhs 2 0 * self 0 + rhs 2 1 * self 1 + rhs 2 2 * self 2]⟩

/-- `src/vector3.rs:215-221` -/
def V3.sub (self rhs : Vec 3 T) : Vec 3 T :=
  ⟨![self 0 - rhs 0, self 1 - rhs 1, self 2 - rhs 2]⟩

/-- `src/vector3.rs:233-239` -/
def V3.add (self rhs : Vec 3 T) : Vec 3 T :=
  ⟨![self 0 + rhs 0, self 1 + rhs 1, self 2 + rhs 2]⟩

/-- `src/vector3.rs:73-79` -/
def V3.cross (self rhs : Vec 3 T) : Vec 3 T :=
  ⟨![self 1 * rhs 2 - self 2 * rhs 1,
     self 2 * rhs 0 - self 0 * rhs 2,
     self 0 * rhs 1 - self 1 * rhs 0]⟩

/-- `src/vector3.rs:82-86` -/
def V3.x_axis : Vec 3 T :=
  let one : T := 1
  let zero : T := 0
  ⟨![one, zero, zero]⟩

/-- `src/vector3.rs:89-93` -/
def V3.y_axis : Vec 3 T :=
  let one : T := 1
  let zero : T := 0
  ⟨![zero, one, zero]⟩

/-- `src/vector3.rs:96-100` -/
def V3.z_axis : Vec 3 T :=
  let one : T := 1
  let zero : T := 0
  ⟨![zero, zero, one]⟩

/-- `src/vector4.rs:218-222` -/
def V4.zero : Vec 4 T :=
  ⟨![0, 0, 0, 0]⟩

/-- `src/vector4.rs:66-69` -/
def V4.ones : Vec 4 T :=
  let one : T := 1
  ⟨![one, one, one, one]⟩

/-- `src/vector4.rs:95-101` -/
def V4.neg (self : Vec 4 T) : Vec 4 T :=
  ⟨![-self 0, -self 1, -self 2, -self 3]⟩

/-- `src/vector4.rs:107-109` -/
def V4.norm2 (self : Vec 4 T) : T :=
  RFloat.sqrt (self 0 * self 0 + self 1 * self 1 + self 2 * self 2 + self 3 * self 3)

/-- `src/vector4.rs:128-134` -/
def V4.dot (self rhs : Vec 4 T) : T :=
  self 0 * rhs 0 + self 1 * rhs 1 + self 2 * rhs 2 + self 3 * rhs 3

/-- `src/vector4.rs:138-144` -/
def V4.smul (self : Vec 4 T) (rhs : T) : Vec 4 T :=
  ⟨![self 0 * rhs, self 1 * rhs, self 2 * rhs, self 3 * rhs]⟩

/-- `src/vector4.rs:149-155` -/
def V4.sdiv (self : Vec 4 T) (rhs : T) : Vec 4 T :=
  ⟨![self 0 / rhs, self 1 / rhs, self 2 / rhs, self 3 / rhs]⟩

/-- `src/vector4.rs:159-165` -/
def V4.f32mul (self : T) (rhs : Vec 4 T) : Vec 4 T :=
  ⟨![self * rhs 0, self * rhs 1, self * rhs 2, self * rhs 3]⟩

/-- `src/vector4.rs:169-180` -/
def V4.mulMat (self : Vec 4 T) (rhs : Mat 4 T) : Vec 4 T :=
  ⟨![self 0 * rhs 0 0 + self 1 * rhs 1 0 + self 2 * rhs 2 0 + self 3 * rhs 3 0,
     self 0 * rhs 0 1 + self 1 * rhs 1 1 + self 2 * rhs 2 1 + self 3 * rhs 3 1,
     self 0 * rhs 0 2 + self 1 * rhs 1 2 + self 2 * rhs 2 2 + self 3 * rhs 3 2,
     self 0 * rhs 0 3 + self 1 * rhs 1 3 + self 2 * rhs 2 3 + self 3 * rhs 3 3]⟩

/-- `src/vector4.rs:184-190` -/
def V4.sub (self rhs : Vec 4 T) : Vec 4 T :=
  ⟨![self 0 - rhs 0, self 1 - rhs 1, self 2 - rhs 2, self 3 - rhs 3]⟩

/-- `src/vector4.rs:201-207` -/
def V4.add (self rhs : Vec 4 T) : Vec 4 T :=
  ⟨![self 0 + rhs 0, self 1 + rhs 1, self 2 + rhs 2, self 3 + rhs 3]⟩

/-- `src/vector5.rs:204-207` -/
def V5.zero : Vec 5 T :=
  ⟨![0, 0, 0, 0, 0]⟩

/-- `src/vector5.rs:65-68` -/
def V5.ones : Vec 5 T :=
  let one : T := 1
  ⟨![one, one, one, one, one]⟩

/-- `src/vector5.rs:83-89` -/
def V5.neg (self : Vec 5 T) : Vec 5 T :=
  ⟨![-self 0, -self 1, -self 2, -self 3, -self 4]⟩

/-- `src/vector5.rs:95-97` -/
def V5.norm2 (self : Vec 5 T) : T :=
  RFloat.sqrt (self 0 * self 0 + self 1 * self 1 + self 2 * self 2 + self 3 * self 3 + self 4 * self 4)

/-- `src/vector5.rs:116-122` -/
def V5.dot (self rhs : Vec 5 T) : T :=
  self 0 * rhs 0 + self 1 * rhs 1 + self 2 * rhs 2 + self 3 * rhs 3 + self 4 * rhs 4

/-- `src/vector5.rs:126-132` -/
def V5.smul (self : Vec 5 T) (rhs : T) : Vec 5 T :=
  ⟨![self 0 * rhs, self 1 * rhs, self 2 * rhs, self 3 * rhs, self 4 * rhs]⟩

/-- `src/vector5.rs:136-141` -/
def V5.sdiv (self : Vec 5 T) (rhs : T) : Vec 5 T :=
  ⟨![self 0 / rhs, self 1 / rhs, self 2 / rhs, self 3 / rhs, self 4 / rhs]⟩

/-- `src/vector5.rs:144-150` -/
def V5.f32mul (self : T) (rhs : Vec 5 T) : Vec 5 T :=
  ⟨![self * rhs 0, self * rhs 1, self * rhs 2, self * rhs 3, self * rhs 4]⟩

/-- `src/vector5.rs:154-166` -/
def V5.mulMat (self : Vec 5 T) (rhs : Mat 5 T) : Vec 5 T :=
  ⟨![rhs 0 0 * self 0 + rhs 1 0 * self 1 + rhs 2 0 * self 2 + rhs 3 0 * self 3 + rhs 4 0 * self 4,
     rhs 0 1 * self 0 + rhs 1 1 * self 1 + rhs 2 1 * self 2 + rhs 3 1 * self 3 + rhs 4 1 * self 4,
     rhs 0 2 * self 0 + rhs 1 2 * self 1 + rhs 2 2 * self 2 + rhs 3 2 * self 3 + rhs 4 2 * self 4,
     rhs 0 3 * self 0 + rhs 1 3 * self 1 + rhs 2 3 * self 2 + rhs 3 3 * self 3 + rhs 4 3 * self 4,
     rhs 0 4 * self 0 + rhs 1 4 * self 1 + rhs 2 4 * self 2 + rhs 3 4 * self 3 + rhs 4 4 * self 4]⟩

/-- `src/vector5.rs:170-176` -/
def V5.sub (self rhs : Vec 5 T) : Vec 5 T :=
  ⟨![self 0 - rhs 0, self 1 - rhs 1, self 2 - rhs 2, self 3 - rhs 3, self 4 - rhs 4]⟩

/-- `src/vector5.rs:188-193` -/
def V5.add (self rhs : Vec 5 T) : Vec 5 T :=
  ⟨![self 0 + rhs 0, self 1 + rhs 1, self 2 + rhs 2, self 3 + rhs 3, self 4 + rhs 4]⟩

/-- `src/vector6.rs:260-263` -/
def V6.zero : Vec 6 T :=
  ⟨![0, 0, 0, 0, 0, 0]⟩

/-- `src/vector6.rs:66-69` -/
def V6.ones : Vec 6 T :=
  let one : T := 1
  ⟨![one, one, one, one, one, one]⟩

/-- `src/vector6.rs:84-90` -/
def V6.neg (self : Vec 6 T) : Vec 6 T :=
  ⟨![-self 0, -self 1, -self 2, -self 3, -self 4, -self 5]⟩

/-- `src/vector6.rs:96-99` -/
def V6.norm2 (self : Vec 6 T) : T :=
  RFloat.sqrt (self 0 * self 0 + self 1 * self 1 + self 2 * self 2 + self 3 * self 3 + self 4 * self 4
      + self 5 * self 5)

/-- `src/vector6.rs:151-158` -/
def V6.dot (self rhs : Vec 6 T) : T :=
  self 0 * rhs 0 + self 1 * rhs 1 + self 2 * rhs 2 + self 3 * rhs 3 + self 4 * rhs 4 + self 5 * rhs 5

/-- `src/vector6.rs:118-125` -/
def V6.smul (self : Vec 6 T) (rhs : T) : Vec 6 T :=
  ⟨![self 0 * rhs, self 1 * rhs, self 2 * rhs, self 3 * rhs, self 4 * rhs, self 5 * rhs]⟩

/-- `src/vector6.rs:129-136` -/
def V6.sdiv (self : Vec 6 T) (rhs : T) : Vec 6 T :=
  ⟨![self 0 / rhs, self 1 / rhs, self 2 / rhs, self 3 / rhs, self 4 / rhs, self 5 / rhs]⟩

/-- `src/vector6.rs:140-147` -/
def V6.f32mul (self : T) (rhs : Vec 6 T) : Vec 6 T :=
  ⟨![self * rhs 0, self * rhs 1, self * rhs 2, self * rhs 3, self * rhs 4, self * rhs 5]⟩

/-- `src/vector6.rs:162-218` -/
def V6.mulMat (self : Vec 6 T) (rhs : Mat 6 T) : Vec 6 T :=
  let a_00 : T := rhs 0 0
  let a_01 : T := rhs 0 1
  let a_02 : T := rhs 0 2
  let a_03 : T := rhs 0 3
  let a_04 : T := rhs 0 4
  let a_05 : T := rhs 0 5
  let a_10 : T := rhs 1 0
  let a_11 : T := rhs 1 1
  let a_12 : T := rhs 1 2
  let a_13 : T := rhs 1 3
  let a_14 : T := rhs 1 4
  let a_15 : T := rhs 1 5
  let a_20 : T := rhs 2 0
  let a_21 : T := rhs 2 1
  let a_22 : T := rhs 2 2
  let a_23 : T := rhs 2 3
  let a_24 : T := rhs 2 4
  let a_25 : T := rhs 2 5
  let a_30 : T := rhs 3 0
  let a_31 : T := rhs 3 1
  let a_32 : T := rhs 3 2
  let a_33 : T := rhs 3 3
  let a_34 : T := rhs 3 4
  let a_35 : T := rhs 3 5
  let a_40 : T := rhs 4 0
  let a_41 : T := rhs 4 1
  let a_42 : T := rhs 4 2
  let a_43 : T := rhs 4 3
  let a_44 : T := rhs 4 4
  let a_45 : T := rhs 4 5
  let a_50 : T := rhs 5 0
  let a_51 : T := rhs 5 1
  let a_52 : T := rhs 5 2
  let a_53 : T := rhs 5 3
  let a_54 : T := rhs 5 4
  let a_55 : T := rhs 5 5
  let v0 : T := self 0
  let v1 : T := self 1
  let v2 : T := self 2
  let v3 : T := self 3
  let v4 : T := self 4
  let v5 : T := self 5
  ⟨![a_00 * v0 + a_10 * v1 + a_20 * v2 + a_30 * v3 + a_40 * v4 + a_50 * v5,
     a_01 * v0 + a_11 * v1 + a_21 * v2 + a_31 * v3 + a_41 * v4 + a_51 * v5,
     a_02 * v0 + a_12 * v1 + a_22 * v2 + a_32 * v3 + a_42 * v4 + a_52 * v5,
     a_03 * v0 + a_13 * v1 + a_23 * v2 + a_33 * v3 + a_43 * v4 + a_53 * v5,
     a_04 * v0 + a_14 * v1 + a_24 * v2 + a_34 * v3 + a_44 * v4 + a_54 * v5,
     a_05 * v0 + a_15 * v1 + a_25 * v2 + a_35 * v3 + a_45 * v4 + a_55 * v5]⟩

/-- `src/vector6.rs:222-229` -/
def V6.sub (self rhs : Vec 6 T) : Vec 6 T :=
  ⟨![self 0 - rhs 0,
     self 1 - rhs 1,
     self 2 - rhs 2,
     self 3 - rhs 3,
     self 4 - rhs 4,
     self 5 - rhs 5]⟩

/-- `src/vector6.rs:241-248` -/
def V6.add (self rhs : Vec 6 T) : Vec 6 T :=
  ⟨![self 0 + rhs 0,
     self 1 + rhs 1,
     self 2 + rhs 2,
     self 3 + rhs 3,
     self 4 + rhs 4,
     self 5 + rhs 5]⟩

end StaticMath
