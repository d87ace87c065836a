import Verif.Model.Num

/-! Generated by `tools/rs2lean.py` from the Rust text; every definition cites its source lines. -/

namespace StaticMath


variable {T : Type} [Add T] [Sub T] [Mul T] [Div T] [Neg T] [Zero T] [One T] [RFloat T]

/-- `src/matrix2x2.rs:438-442` -/
def M22.zero : Mat 2 T :=
  ⟨![![0, 0], ![0, 0]]⟩

/-- `src/matrix2x2.rs:449-455` -/
def M22.one : Mat 2 T :=
  let one : T := 1
  let zero : T := 0
  ⟨![![one, zero],
      ![zero, one]]⟩

/-- `src/matrix2x2.rs:84-86` -/
def M22.transpose (self : Mat 2 T) : Mat 2 T :=
  ⟨![![self 0 0, self 1 0],
      ![self 0 1, self 1 1]]⟩

/-- `src/matrix2x2.rs:89-91` -/
def M22.trace (self : Mat 2 T) : T :=
  self 0 0 + self 1 1

/-- `src/matrix2x2.rs:94-101` -/
def M22.norm2 (self : Mat 2 T) : T :=
  RFloat.sqrt (self 0 0 * self 0 0 + self 0 1 * self 0 1 + self 1 0 * self 1 0 + self 1 1 * self 1 1)

/-- `src/matrix2x2.rs:79-81` -/
def M22.det (self : Mat 2 T) : T :=
  (self 0 0 * self 1 1) - (self 1 0 * self 0 1)

/-- `src/matrix2x2.rs:203-212` -/
def M22.add (self rhs : Mat 2 T) : Mat 2 T :=
  ⟨![![self 0 0 + rhs 0 0, self 0 1 + rhs 0 1],
      ![self 1 0 + rhs 1 0, self 1 1 + rhs 1 1]]⟩

/-- `src/matrix2x2.rs:224-233` -/
def M22.sub (self rhs : Mat 2 T) : Mat 2 T :=
  ⟨![![self 0 0 - rhs 0 0, self 0 1 - rhs 0 1],
      ![self 1 0 - rhs 1 0, self 1 1 - rhs 1 1]]⟩

/-- `src/matrix2x2.rs:378-387` -/
def M22.smul (self : Mat 2 T) (rhs : T) : Mat 2 T :=
  ⟨![![self 0 0 * rhs, self 0 1 * rhs],
      ![self 1 0 * rhs, self 1 1 * rhs]]⟩

/-- `src/matrix2x2.rs:391-399` -/
def M22.sdiv (self : Mat 2 T) (rhs : T) : Mat 2 T :=
  ⟨![![self 0 0 / rhs, self 0 1 / rhs],
      ![self 1 0 / rhs, self 1 1 / rhs]]⟩

/-- `src/matrix2x2.rs:190-199` -/
def M22.mulVec (self : Mat 2 T) (rhs : Vec 2 T) : Vec 2 T :=
  ⟨![self 0 0 * rhs 0 + self 0 1 * rhs 1, self 1 0 * rhs 0 + self 1 1 * rhs 1]⟩

/-- `src/matrix2x2.rs:403-422` -/
def M22.mul (self rhs : Mat 2 T) : Mat 2 T :=
  let a1 : T := self 0 0
  let b1 : T := self 0 1
  let c1 : T := self 1 0
  let d1 : T := self 1 1
  let a2 : T := rhs 0 0
  let b2 : T := rhs 0 1
  let c2 : T := rhs 1 0
  let d2 : T := rhs 1 1
  ⟨![![a1 * a2 + b1 * c2, a1 * b2 + b1 * d2],
      ![c1 * a2 + d1 * c2, c1 * b2 + d1 * d2]]⟩

/-- `src/matrix2x2.rs:426-435` -/
def M22.neg (self : Mat 2 T) : Mat 2 T :=
  ⟨![![-self 0 0, -self 0 1],
      ![-self 1 0, -self 1 1]]⟩

/-- `src/matrix2x2.rs:365-374` -/
def M22.f32mul (self : T) (rhs : Mat 2 T) : Mat 2 T :=
  ⟨![![rhs 0 0 * self, rhs 0 1 * self],
      ![rhs 1 0 * self, rhs 1 1 * self]]⟩

end StaticMath
