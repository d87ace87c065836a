import Verif.Model.Num

/-! Generated by `tools/rs2lean.py` from the Rust text; every definition cites its source lines. -/

namespace StaticMath


variable {T : Type} [Add T] [Sub T] [Mul T] [Div T] [Neg T] [Zero T] [One T] [RFloat T]

/-- `src/matrix3x3.rs:549-552` -/
def M33.zero : Mat 3 T :=
  ⟨![![0, 0, 0], ![0, 0, 0], ![0, 0, 0]]⟩

/-- `src/matrix3x3.rs:559-565` -/
def M33.one : Mat 3 T :=
  let one : T := 1
  let zero : T := 0
  ⟨![![one, zero, zero],
      ![zero, one, zero],
      ![zero, zero, one]]⟩

/-- `src/matrix3x3.rs:74-80` -/
def M33.transpose (self : Mat 3 T) : Mat 3 T :=
  ⟨![![self 0 0, self 1 0, self 2 0],
      ![self 0 1, self 1 1, self 2 1],
      ![self 0 2, self 1 2, self 2 2]]⟩

/-- `src/matrix3x3.rs:83-85` -/
def M33.trace (self : Mat 3 T) : T :=
  self 0 0 + self 1 1 + self 2 2

/-- `src/matrix3x3.rs:87-99` -/
def M33.norm2 (self : Mat 3 T) : T :=
  RFloat.sqrt (self 0 0 * self 0 0 + self 1 0 * self 1 0 + self 2 0 * self 2 0 + self 0 1 * self 0 1
      + self 1 1 * self 1 1 + self 2 1 * self 2 1 + self 0 2 * self 0 2 + self 1 2 * self 1 2 + self 2 2 * self 2 2)

/-- `src/matrix3x3.rs:103-107` -/
def M33.det (self : Mat 3 T) : T :=
  self 0 0 * (self 1 1 * self 2 2 - self 2 1 * self 1 2) - self 0 1 * (self 1 0 * self 2 2 - self 1 2 * self 2 0)
      + self 0 2 * (self 1 0 * self 2 1 - self 1 1 * self 2 0)

/-- `src/matrix3x3.rs:332-354` -/
def M33.add (self rhs : Mat 3 T) : Mat 3 T :=
  ⟨![![self 0 0 + rhs 0 0, self 0 1 + rhs 0 1, self 0 2 + rhs 0 2],
      ![self 1 0 + rhs 1 0, self 1 1 + rhs 1 1, self 1 2 + rhs 1 2],
      ![self 2 0 + rhs 2 0, self 2 1 + rhs 2 1, self 2 2 + rhs 2 2]]⟩

/-- `src/matrix3x3.rs:365-386` -/
def M33.sub (self rhs : Mat 3 T) : Mat 3 T :=
  ⟨![![self 0 0 - rhs 0 0, self 0 1 - rhs 0 1, self 0 2 - rhs 0 2],
      ![self 1 0 - rhs 1 0, self 1 1 - rhs 1 1, self 1 2 - rhs 1 2],
      ![self 2 0 - rhs 2 0, self 2 1 - rhs 2 1, self 2 2 - rhs 2 2]]⟩

/-- `src/matrix3x3.rs:424-439` -/
def M33.smul (self : Mat 3 T) (rhs : T) : Mat 3 T :=
  let a_00 : T := self 0 0 * rhs
  let a_01 : T := self 0 1 * rhs
  let a_02 : T := self 0 2 * rhs
  let a_10 : T := self 1 0 * rhs
  let a_11 : T := self 1 1 * rhs
  let a_12 : T := self 1 2 * rhs
  let a_20 : T := self 2 0 * rhs
  let a_21 : T := self 2 1 * rhs
  let a_22 : T := self 2 2 * rhs
  ⟨![![a_00, a_01, a_02],
      ![a_10, a_11, a_12],
      ![a_20, a_21, a_22]]⟩

/-- `src/matrix3x3.rs:443-458` -/
def M33.sdiv (self : Mat 3 T) (rhs : T) : Mat 3 T :=
  let a_00 : T := self 0 0 / rhs
  let a_01 : T := self 0 1 / rhs
  let a_02 : T := self 0 2 / rhs
  let a_10 : T := self 1 0 / rhs
  let a_11 : T := self 1 1 / rhs
  let a_12 : T := self 1 2 / rhs
  let a_20 : T := self 2 0 / rhs
  let a_21 : T := self 2 1 / rhs
  let a_22 : T := self 2 2 / rhs
  ⟨![![a_00, a_01, a_02],
      ![a_10, a_11, a_12],
      ![a_20, a_21, a_22]]⟩

/-- `src/matrix3x3.rs:397-420` -/
def M33.mulVec (self : Mat 3 T) (rhs : Vec 3 T) : Vec 3 T :=
  let a_00 : T := self 0 0
  let a_01 : T := self 0 1
  let a_02 : T := self 0 2
  let a_10 : T := self 1 0
  let a_11 : T := self 1 1
  let a_12 : T := self 1 2
  let a_20 : T := self 2 0
  let a_21 : T := self 2 1
  let a_22 : T := self 2 2
  let v0 : T := rhs 0
  let v1 : T := rhs 1
  let v2 : T := rhs 2
  ⟨![a_00 * v0 + a_01 * v1 + a_02 * v2,
     a_10 * v0 + a_11 * v1 + a_12 * v2,
     a_20 * v0 + a_21 * v1 + a_22 * v2]⟩

/-- `src/matrix3x3.rs:500-527` -/
def M33.mul (self rhs : Mat 3 T) : Mat 3 T :=
  let m00 : T := self 0 0 * rhs 0 0 + self 0 1 * rhs 1 0 + self 0 2 * rhs 2 0
  let m01 : T := self 0 0 * rhs 0 1 + self 0 1 * rhs 1 1 + self 0 2 * rhs 2 1
  let m02 : T := self 0 0 * rhs 0 2 + self 0 1 * rhs 1 2 + self 0 2 * rhs 2 2
  let m10 : T := self 1 0 * rhs 0 0 + self 1 1 * rhs 1 0 + self 1 2 * rhs 2 0
  let m11 : T := self 1 0 * rhs 0 1 + self 1 1 * rhs 1 1 + self 1 2 * rhs 2 1
  let m12 : T := self 1 0 * rhs 0 2 + self 1 1 * rhs 1 2 + self 1 2 * rhs 2 2
  let m20 : T := self 2 0 * rhs 0 0 + self 2 1 * rhs 1 0 + self 2 2 * rhs 2 0
  let m21 : T := self 2 0 * rhs 0 1 + self 2 1 * rhs 1 1 + self 2 2 * rhs 2 1
  let m22 : T := self 2 0 * rhs 0 2 + self 2 1 * rhs 1 2 + self 2 2 * rhs 2 2
  ⟨![![m00, m01, m02],
      ![m10, m11, m12],
      ![m20, m21, m22]]⟩

/-- `src/matrix3x3.rs:531-546` -/
def M33.neg (self : Mat 3 T) : Mat 3 T :=
  let a_00 : T := -self 0 0
  let a_01 : T := -self 0 1
  let a_02 : T := -self 0 2
  let a_10 : T := -self 1 0
  let a_11 : T := -self 1 1
  let a_12 : T := -self 1 2
  let a_20 : T := -self 2 0
  let a_21 : T := -self 2 1
  let a_22 : T := -self 2 2
  ⟨![![a_00, a_01, a_02],
      ![a_10, a_11, a_12],
      ![a_20, a_21, a_22]]⟩

/-- `src/matrix3x3.rs:462-477` -/
def M33.f32mul (self : T) (rhs : Mat 3 T) : Mat 3 T :=
  let a_00 : T := self * rhs 0 0
  let a_01 : T := self * rhs 0 1
  let a_02 : T := self * rhs 0 2
  let a_10 : T := self * rhs 1 0
  let a_11 : T := self * rhs 1 1
  let a_12 : T := self * rhs 1 2
  let a_20 : T := self * rhs 2 0
  let a_21 : T := self * rhs 2 1
  let a_22 : T := self * rhs 2 2
  ⟨![![a_00, a_01, a_02],
      ![a_10, a_11, a_12],
      ![a_20, a_21, a_22]]⟩

/-- `src/matrix3x3.rs:481-496` -/
def M33.f64mul (self : T) (rhs : Mat 3 T) : Mat 3 T :=
  let a_00 : T := self * rhs 0 0
  let a_01 : T := self * rhs 0 1
  let a_02 : T := self * rhs 0 2
  let a_10 : T := self * rhs 1 0
  let a_11 : T := self * rhs 1 1
  let a_12 : T := self * rhs 1 2
  let a_20 : T := self * rhs 2 0
  let a_21 : T := self * rhs 2 1
  let a_22 : T := self * rhs 2 2
  ⟨![![a_00, a_01, a_02],
      ![a_10, a_11, a_12],
      ![a_20, a_21, a_22]]⟩

end StaticMath
