import Verif.Model.Num

/-! Generated by `tools/rs2lean.py` from the Rust text; every definition cites its source lines. -/

namespace StaticMath


variable {T : Type} [Add T] [Sub T] [Mul T] [Div T] [Neg T] [Zero T] [One T] [RFloat T]

/-- `src/matrix5x5.rs:845-848` -/
def M55.zero : Mat 5 T :=
  ⟨![![0, 0, 0, 0, 0], ![0, 0, 0, 0, 0], ![0, 0, 0, 0, 0], ![0, 0, 0, 0, 0], ![0, 0, 0, 0, 0]]⟩

/-- `src/matrix5x5.rs:855-867` -/
def M55.one : Mat 5 T :=
  let one : T := 1
  let zero : T := 0
  ⟨![![one, zero, zero, zero, zero],
      ![zero, one, zero, zero, zero],
      ![zero, zero, one, zero, zero],
      ![zero, zero, zero, one, zero],
      ![zero, zero, zero, zero, one]]⟩

/-- `src/matrix5x5.rs:70-104` -/
def M55.transpose (self : Mat 5 T) : Mat 5 T :=
  let a_00 : T := self 0 0
  let a_01 : T := self 0 1
  let a_02 : T := self 0 2
  let a_03 : T := self 0 3
  let a_04 : T := self 0 4
  let a_10 : T := self 1 0
  let a_11 : T := self 1 1
  let a_12 : T := self 1 2
  let a_13 : T := self 1 3
  let a_14 : T := self 1 4
  let a_20 : T := self 2 0
  let a_21 : T := self 2 1
  let a_22 : T := self 2 2
  let a_23 : T := self 2 3
  let a_24 : T := self 2 4
  let a_30 : T := self 3 0
  let a_31 : T := self 3 1
  let a_32 : T := self 3 2
  let a_33 : T := self 3 3
  let a_34 : T := self 3 4
  let a_40 : T := self 4 0
  let a_41 : T := self 4 1
  let a_42 : T := self 4 2
  let a_43 : T := self 4 3
  let a_44 : T := self 4 4
  ⟨![![a_00, a_10, a_20, a_30, a_40],
      ![a_01, a_11, a_21, a_31, a_41],
      ![a_02, a_12, a_22, a_32, a_42],
      ![a_03, a_13, a_23, a_33, a_43],
      ![a_04, a_14, a_24, a_34, a_44]]⟩

/-- `src/matrix5x5.rs:106-108` -/
def M55.trace (self : Mat 5 T) : T :=
  self 0 0 + self 1 1 + self 2 2 + self 3 3 + self 4 4

/-- `src/matrix5x5.rs:120-267` -/
def M55.det (self : Mat 5 T) : T :=
  let a_00 : T := self 0 0
  let a_01 : T := self 0 1
  let a_02 : T := self 0 2
  let a_03 : T := self 0 3
  let a_04 : T := self 0 4
  let a_10 : T := self 1 0
  let a_11 : T := self 1 1
  let a_12 : T := self 1 2
  let a_13 : T := self 1 3
  let a_14 : T := self 1 4
  let a_20 : T := self 2 0
  let a_21 : T := self 2 1
  let a_22 : T := self 2 2
  let a_23 : T := self 2 3
  let a_24 : T := self 2 4
  let a_30 : T := self 3 0
  let a_31 : T := self 3 1
  let a_32 : T := self 3 2
  let a_33 : T := self 3 3
  let a_34 : T := self 3 4
  let a_40 : T := self 4 0
  let a_41 : T := self 4 1
  let a_42 : T := self 4 2
  let a_43 : T := self 4 3
  let a_44 : T := self 4 4
  a_00 * a_11 * a_22 * a_33 * a_44 - a_00 * a_11 * a_22 * a_34 * a_43 - a_00 * a_11 * a_23 * a_32 * a_44
      + a_00 * a_11 * a_23 * a_34 * a_42 + a_00 * a_11 * a_24 * a_32 * a_43 - a_00 * a_11 * a_24 * a_33 * a_42
      - a_00 * a_12 * a_21 * a_33 * a_44 + a_00 * a_12 * a_21 * a_34 * a_43 + a_00 * a_12 * a_23 * a_31 * a_44
      - a_00 * a_12 * a_23 * a_34 * a_41 - a_00 * a_12 * a_24 * a_31 * a_43 + a_00 * a_12 * a_24 * a_33 * a_41
      + a_00 * a_13 * a_21 * a_32 * a_44 - a_00 * a_13 * a_21 * a_34 * a_42 - a_00 * a_13 * a_22 * a_31 * a_44
      + a_00 * a_13 * a_22 * a_34 * a_41 + a_00 * a_13 * a_24 * a_31 * a_42 - a_00 * a_13 * a_24 * a_32 * a_41
      - a_00 * a_14 * a_21 * a_32 * a_43 + a_00 * a_14 * a_21 * a_33 * a_42 + a_00 * a_14 * a_22 * a_31 * a_43
      - a_00 * a_14 * a_22 * a_33 * a_41 - a_00 * a_14 * a_23 * a_31 * a_42 + a_00 * a_14 * a_23 * a_32 * a_41
      - a_01 * a_10 * a_22 * a_33 * a_44 + a_01 * a_10 * a_22 * a_34 * a_43 + a_01 * a_10 * a_23 * a_32 * a_44
      - a_01 * a_10 * a_23 * a_34 * a_42 - a_01 * a_10 * a_24 * a_32 * a_43 + a_01 * a_10 * a_24 * a_33 * a_42
      + a_01 * a_12 * a_20 * a_33 * a_44 - a_01 * a_12 * a_20 * a_34 * a_43 - a_01 * a_12 * a_23 * a_30 * a_44
      + a_01 * a_12 * a_23 * a_34 * a_40 + a_01 * a_12 * a_24 * a_30 * a_43 - a_01 * a_12 * a_24 * a_33 * a_40
      - a_01 * a_13 * a_20 * a_32 * a_44 + a_01 * a_13 * a_20 * a_34 * a_42 + a_01 * a_13 * a_22 * a_30 * a_44
      - a_01 * a_13 * a_22 * a_34 * a_40 - a_01 * a_13 * a_24 * a_30 * a_42 + a_01 * a_13 * a_24 * a_32 * a_40
      + a_01 * a_14 * a_20 * a_32 * a_43 - a_01 * a_14 * a_20 * a_33 * a_42 - a_01 * a_14 * a_22 * a_30 * a_43
      + a_01 * a_14 * a_22 * a_33 * a_40 + a_01 * a_14 * a_23 * a_30 * a_42 - a_01 * a_14 * a_23 * a_32 * a_40
      + a_02 * a_10 * a_21 * a_33 * a_44 - a_02 * a_10 * a_21 * a_34 * a_43 - a_02 * a_10 * a_23 * a_31 * a_44
      + a_02 * a_10 * a_23 * a_34 * a_41 + a_02 * a_10 * a_24 * a_31 * a_43 - a_02 * a_10 * a_24 * a_33 * a_41
      - a_02 * a_11 * a_20 * a_33 * a_44 + a_02 * a_11 * a_20 * a_34 * a_43 + a_02 * a_11 * a_23 * a_30 * a_44
      - a_02 * a_11 * a_23 * a_34 * a_40 - a_02 * a_11 * a_24 * a_30 * a_43 + a_02 * a_11 * a_24 * a_33 * a_40
      + a_02 * a_13 * a_20 * a_31 * a_44 - a_02 * a_13 * a_20 * a_34 * a_41 - a_02 * a_13 * a_21 * a_30 * a_44
      + a_02 * a_13 * a_21 * a_34 * a_40 + a_02 * a_13 * a_24 * a_30 * a_41 - a_02 * a_13 * a_24 * a_31 * a_40
      - a_02 * a_14 * a_20 * a_31 * a_43 + a_02 * a_14 * a_20 * a_33 * a_41 + a_02 * a_14 * a_21 * a_30 * a_43
      - a_02 * a_14 * a_21 * a_33 * a_40 - a_02 * a_14 * a_23 * a_30 * a_41 + a_02 * a_14 * a_23 * a_31 * a_40
      - a_03 * a_10 * a_21 * a_32 * a_44 + a_03 * a_10 * a_21 * a_34 * a_42 + a_03 * a_10 * a_22 * a_31 * a_44
      - a_03 * a_10 * a_22 * a_34 * a_41 - a_03 * a_10 * a_24 * a_31 * a_42 + a_03 * a_10 * a_24 * a_32 * a_41
      + a_03 * a_11 * a_20 * a_32 * a_44 - a_03 * a_11 * a_20 * a_34 * a_42 - a_03 * a_11 * a_22 * a_30 * a_44
      + a_03 * a_11 * a_22 * a_34 * a_40 + a_03 * a_11 * a_24 * a_30 * a_42 - a_03 * a_11 * a_24 * a_32 * a_40
      - a_03 * a_12 * a_20 * a_31 * a_44 + a_03 * a_12 * a_20 * a_34 * a_41 + a_03 * a_12 * a_21 * a_30 * a_44
      - a_03 * a_12 * a_21 * a_34 * a_40 - a_03 * a_12 * a_24 * a_30 * a_41 + a_03 * a_12 * a_24 * a_31 * a_40
      + a_03 * a_14 * a_20 * a_31 * a_42 - a_03 * a_14 * a_20 * a_32 * a_41 - a_03 * a_14 * a_21 * a_30 * a_42
      + a_03 * a_14 * a_21 * a_32 * a_40 + a_03 * a_14 * a_22 * a_30 * a_41 - a_03 * a_14 * a_22 * a_31 * a_40
      + a_04 * a_10 * a_21 * a_32 * a_43 - a_04 * a_10 * a_21 * a_33 * a_42 - a_04 * a_10 * a_22 * a_31 * a_43
      + a_04 * a_10 * a_22 * a_33 * a_41 + a_04 * a_10 * a_23 * a_31 * a_42 - a_04 * a_10 * a_23 * a_32 * a_41
      - a_04 * a_11 * a_20 * a_32 * a_43 + a_04 * a_11 * a_20 * a_33 * a_42 + a_04 * a_11 * a_22 * a_30 * a_43
      - a_04 * a_11 * a_22 * a_33 * a_40 - a_04 * a_11 * a_23 * a_30 * a_42 + a_04 * a_11 * a_23 * a_32 * a_40
      + a_04 * a_12 * a_20 * a_31 * a_43 - a_04 * a_12 * a_20 * a_33 * a_41 - a_04 * a_12 * a_21 * a_30 * a_43
      + a_04 * a_12 * a_21 * a_33 * a_40 + a_04 * a_12 * a_23 * a_30 * a_41 - a_04 * a_12 * a_23 * a_31 * a_40
      - a_04 * a_13 * a_20 * a_31 * a_42 + a_04 * a_13 * a_20 * a_32 * a_41 + a_04 * a_13 * a_21 * a_30 * a_42
      - a_04 * a_13 * a_21 * a_32 * a_40 - a_04 * a_13 * a_22 * a_30 * a_41 + a_04 * a_13 * a_22 * a_31 * a_40

/-- `src/matrix5x5.rs:375-468` -/
def M55.add (self rhs : Mat 5 T) : Mat 5 T :=
  let a_00 : T := self 0 0
  let a_01 : T := self 0 1
  let a_02 : T := self 0 2
  let a_03 : T := self 0 3
  let a_04 : T := self 0 4
  let a_10 : T := self 1 0
  let a_11 : T := self 1 1
  let a_12 : T := self 1 2
  let a_13 : T := self 1 3
  let a_14 : T := self 1 4
  let a_20 : T := self 2 0
  let a_21 : T := self 2 1
  let a_22 : T := self 2 2
  let a_23 : T := self 2 3
  let a_24 : T := self 2 4
  let a_30 : T := self 3 0
  let a_31 : T := self 3 1
  let a_32 : T := self 3 2
  let a_33 : T := self 3 3
  let a_34 : T := self 3 4
  let a_40 : T := self 4 0
  let a_41 : T := self 4 1
  let a_42 : T := self 4 2
  let a_43 : T := self 4 3
  let a_44 : T := self 4 4
  let b_00 : T := rhs 0 0
  let b_01 : T := rhs 0 1
  let b_02 : T := rhs 0 2
  let b_03 : T := rhs 0 3
  let b_04 : T := rhs 0 4
  let b_10 : T := rhs 1 0
  let b_11 : T := rhs 1 1
  let b_12 : T := rhs 1 2
  let b_13 : T := rhs 1 3
  let b_14 : T := rhs 1 4
  let b_20 : T := rhs 2 0
  let b_21 : T := rhs 2 1
  let b_22 : T := rhs 2 2
  let b_23 : T := rhs 2 3
  let b_24 : T := rhs 2 4
  let b_30 : T := rhs 3 0
  let b_31 : T := rhs 3 1
  let b_32 : T := rhs 3 2
  let b_33 : T := rhs 3 3
  let b_34 : T := rhs 3 4
  let b_40 : T := rhs 4 0
  let b_41 : T := rhs 4 1
  let b_42 : T := rhs 4 2
  let b_43 : T := rhs 4 3
  let b_44 : T := rhs 4 4
  ⟨![![a_00 + b_00, a_01 + b_01, a_02 + b_02, a_03 + b_03, a_04 + b_04],
      ![a_10 + b_10, a_11 + b_11, a_12 + b_12, a_13 + b_13, a_14 + b_14],
      ![a_20 + b_20, a_21 + b_21, a_22 + b_22, a_23 + b_23, a_24 + b_24],
      ![a_30 + b_30, a_31 + b_31, a_32 + b_32, a_33 + b_33, a_34 + b_34],
      ![a_40 + b_40, a_41 + b_41, a_42 + b_42, a_43 + b_43, a_44 + b_44]]⟩

/-- `src/matrix5x5.rs:480-573` -/
def M55.sub (self rhs : Mat 5 T) : Mat 5 T :=
  let a_00 : T := self 0 0
  let a_01 : T := self 0 1
  let a_02 : T := self 0 2
  let a_03 : T := self 0 3
  let a_04 : T := self 0 4
  let a_10 : T := self 1 0
  let a_11 : T := self 1 1
  let a_12 : T := self 1 2
  let a_13 : T := self 1 3
  let a_14 : T := self 1 4
  let a_20 : T := self 2 0
  let a_21 : T := self 2 1
  let a_22 : T := self 2 2
  let a_23 : T := self 2 3
  let a_24 : T := self 2 4
  let a_30 : T := self 3 0
  let a_31 : T := self 3 1
  let a_32 : T := self 3 2
  let a_33 : T := self 3 3
  let a_34 : T := self 3 4
  let a_40 : T := self 4 0
  let a_41 : T := self 4 1
  let a_42 : T := self 4 2
  let a_43 : T := self 4 3
  let a_44 : T := self 4 4
  let b_00 : T := rhs 0 0
  let b_01 : T := rhs 0 1
  let b_02 : T := rhs 0 2
  let b_03 : T := rhs 0 3
  let b_04 : T := rhs 0 4
  let b_10 : T := rhs 1 0
  let b_11 : T := rhs 1 1
  let b_12 : T := rhs 1 2
  let b_13 : T := rhs 1 3
  let b_14 : T := rhs 1 4
  let b_20 : T := rhs 2 0
  let b_21 : T := rhs 2 1
  let b_22 : T := rhs 2 2
  let b_23 : T := rhs 2 3
  let b_24 : T := rhs 2 4
  let b_30 : T := rhs 3 0
  let b_31 : T := rhs 3 1
  let b_32 : T := rhs 3 2
  let b_33 : T := rhs 3 3
  let b_34 : T := rhs 3 4
  let b_40 : T := rhs 4 0
  let b_41 : T := rhs 4 1
  let b_42 : T := rhs 4 2
  let b_43 : T := rhs 4 3
  let b_44 : T := rhs 4 4
  ⟨![![a_00 - b_00, a_01 - b_01, a_02 - b_02, a_03 - b_03, a_04 - b_04],
      ![a_10 - b_10, a_11 - b_11, a_12 - b_12, a_13 - b_13, a_14 - b_14],
      ![a_20 - b_20, a_21 - b_21, a_22 - b_22, a_23 - b_23, a_24 - b_24],
      ![a_30 - b_30, a_31 - b_31, a_32 - b_32, a_33 - b_33, a_34 - b_34],
      ![a_40 - b_40, a_41 - b_41, a_42 - b_42, a_43 - b_43, a_44 - b_44]]⟩

/-- `src/matrix5x5.rs:584-621` -/
def M55.smul (self : Mat 5 T) (rhs : T) : Mat 5 T :=
  let a_00 : T := self 0 0 * rhs
  let a_01 : T := self 0 1 * rhs
  let a_02 : T := self 0 2 * rhs
  let a_03 : T := self 0 3 * rhs
  let a_04 : T := self 0 4 * rhs
  let a_10 : T := self 1 0 * rhs
  let a_11 : T := self 1 1 * rhs
  let a_12 : T := self 1 2 * rhs
  let a_13 : T := self 1 3 * rhs
  let a_14 : T := self 1 4 * rhs
  let a_20 : T := self 2 0 * rhs
  let a_21 : T := self 2 1 * rhs
  let a_22 : T := self 2 2 * rhs
  let a_23 : T := self 2 3 * rhs
  let a_24 : T := self 2 4 * rhs
  let a_30 : T := self 3 0 * rhs
  let a_31 : T := self 3 1 * rhs
  let a_32 : T := self 3 2 * rhs
  let a_33 : T := self 3 3 * rhs
  let a_34 : T := self 3 4 * rhs
  let a_40 : T := self 4 0 * rhs
  let a_41 : T := self 4 1 * rhs
  let a_42 : T := self 4 2 * rhs
  let a_43 : T := self 4 3 * rhs
  let a_44 : T := self 4 4 * rhs
  ⟨![![a_00, a_01, a_02, a_03, a_04],
      ![a_10, a_11, a_12, a_13, a_14],
      ![a_20, a_21, a_22, a_23, a_24],
      ![a_30, a_31, a_32, a_33, a_34],
      ![a_40, a_41, a_42, a_43, a_44]]⟩

/-- `src/matrix5x5.rs:625-662` -/
def M55.sdiv (self : Mat 5 T) (rhs : T) : Mat 5 T :=
  let a_00 : T := self 0 0 / rhs
  let a_01 : T := self 0 1 / rhs
  let a_02 : T := self 0 2 / rhs
  let a_03 : T := self 0 3 / rhs
  let a_04 : T := self 0 4 / rhs
  let a_10 : T := self 1 0 / rhs
  let a_11 : T := self 1 1 / rhs
  let a_12 : T := self 1 2 / rhs
  let a_13 : T := self 1 3 / rhs
  let a_14 : T := self 1 4 / rhs
  let a_20 : T := self 2 0 / rhs
  let a_21 : T := self 2 1 / rhs
  let a_22 : T := self 2 2 / rhs
  let a_23 : T := self 2 3 / rhs
  let a_24 : T := self 2 4 / rhs
  let a_30 : T := self 3 0 / rhs
  let a_31 : T := self 3 1 / rhs
  let a_32 : T := self 3 2 / rhs
  let a_33 : T := self 3 3 / rhs
  let a_34 : T := self 3 4 / rhs
  let a_40 : T := self 4 0 / rhs
  let a_41 : T := self 4 1 / rhs
  let a_42 : T := self 4 2 / rhs
  let a_43 : T := self 4 3 / rhs
  let a_44 : T := self 4 4 / rhs
  ⟨![![a_00, a_01, a_02, a_03, a_04],
      ![a_10, a_11, a_12, a_13, a_14],
      ![a_20, a_21, a_22, a_23, a_24],
      ![a_30, a_31, a_32, a_33, a_34],
      ![a_40, a_41, a_42, a_43, a_44]]⟩

/-- `src/matrix5x5.rs:666-704` -/
def M55.mulVec (self : Mat 5 T) (rhs : Vec 5 T) : Vec 5 T :=
  let a_00 : T := self 0 0
  let a_01 : T := self 0 1
  let a_02 : T := self 0 2
  let a_03 : T := self 0 3
  let a_04 : T := self 0 4
  let a_10 : T := self 1 0
  let a_11 : T := self 1 1
  let a_12 : T := self 1 2
  let a_13 : T := self 1 3
  let a_14 : T := self 1 4
  let a_20 : T := self 2 0
  let a_21 : T := self 2 1
  let a_22 : T := self 2 2
  let a_23 : T := self 2 3
  let a_24 : T := self 2 4
  let a_30 : T := self 3 0
  let a_31 : T := self 3 1
  let a_32 : T := self 3 2
  let a_33 : T := self 3 3
  let a_34 : T := self 3 4
  let a_40 : T := self 4 0
  let a_41 : T := self 4 1
  let a_42 : T := self 4 2
  let a_43 : T := self 4 3
  let a_44 : T := self 4 4
  let v0 : T := a_00 * rhs 0 + a_01 * rhs 1 + a_02 * rhs 2 + a_03 * rhs 3 + a_04 * rhs 4
  let v1 : T := a_10 * rhs 0 + a_11 * rhs 1 + a_12 * rhs 2 + a_13 * rhs 3 + a_14 * rhs 4
  let v2 : T := a_20 * rhs 0 + a_21 * rhs 1 + a_22 * rhs 2 + a_23 * rhs 3 + a_24 * rhs 4
  let v3 : T := a_30 * rhs 0 + a_31 * rhs 1 + a_32 * rhs 2 + a_33 * rhs 3 + a_34 * rhs 4
  let v4 : T := a_40 * rhs 0 + a_41 * rhs 1 + a_42 * rhs 2 + a_43 * rhs 3 + a_44 * rhs 4
  ⟨![v0, v1, v2, v3, v4]⟩

/-- `src/matrix5x5.rs:709-802` -/
def M55.mul (self rhs : Mat 5 T) : Mat 5 T :=
  let a_00 : T := self 0 0
  let a_01 : T := self 0 1
  let a_02 : T := self 0 2
  let a_03 : T := self 0 3
  let a_04 : T := self 0 4
  let a_10 : T := self 1 0
  let a_11 : T := self 1 1
  let a_12 : T := self 1 2
  let a_13 : T := self 1 3
  let a_14 : T := self 1 4
  let a_20 : T := self 2 0
  let a_21 : T := self 2 1
  let a_22 : T := self 2 2
  let a_23 : T := self 2 3
  let a_24 : T := self 2 4
  let a_30 : T := self 3 0
  let a_31 : T := self 3 1
  let a_32 : T := self 3 2
  let a_33 : T := self 3 3
  let a_34 : T := self 3 4
  let a_40 : T := self 4 0
  let a_41 : T := self 4 1
  let a_42 : T := self 4 2
  let a_43 : T := self 4 3
  let a_44 : T := self 4 4
  let b_00 : T := rhs 0 0
  let b_01 : T := rhs 0 1
  let b_02 : T := rhs 0 2
  let b_03 : T := rhs 0 3
  let b_04 : T := rhs 0 4
  let b_10 : T := rhs 1 0
  let b_11 : T := rhs 1 1
  let b_12 : T := rhs 1 2
  let b_13 : T := rhs 1 3
  let b_14 : T := rhs 1 4
  let b_20 : T := rhs 2 0
  let b_21 : T := rhs 2 1
  let b_22 : T := rhs 2 2
  let b_23 : T := rhs 2 3
  let b_24 : T := rhs 2 4
  let b_30 : T := rhs 3 0
  let b_31 : T := rhs 3 1
  let b_32 : T := rhs 3 2
  let b_33 : T := rhs 3 3
  let b_34 : T := rhs 3 4
  let b_40 : T := rhs 4 0
  let b_41 : T := rhs 4 1
  let b_42 : T := rhs 4 2
  let b_43 : T := rhs 4 3
  let b_44 : T := rhs 4 4
  ⟨![![a_00 * b_00 + a_01 * b_10 + a_02 * b_20 + a_03 * b_30 + a_04 * b_40,
       a_00 * b_01 + a_01 * b_11 + a_02 * b_21 + a_03 * b_31 + a_04 * b_41,
       a_00 * b_02 + a_01 * b_12 + a_02 * b_22 + a_03 * b_32 + a_04 * b_42,
       a_00 * b_03 + a_01 * b_13 + a_02 * b_23 + a_03 * b_33 + a_04 * b_43,
       a_00 * b_04 + a_01 * b_14 + a_02 * b_24 + a_03 * b_34 + a_04 * b_44],
      ![a_10 * b_00 + a_11 * b_10 + a_12 * b_20 + a_13 * b_30 + a_14 * b_40,
       a_10 * b_01 + a_11 * b_11 + a_12 * b_21 + a_13 * b_31 + a_14 * b_41,
       a_10 * b_02 + a_11 * b_12 + a_12 * b_22 + a_13 * b_32 + a_14 * b_42,
       a_10 * b_03 + a_11 * b_13 + a_12 * b_23 + a_13 * b_33 + a_14 * b_43,
       a_10 * b_04 + a_11 * b_14 + a_12 * b_24 + a_13 * b_34 + a_14 * b_44],
      ![a_20 * b_00 + a_21 * b_10 + a_22 * b_20 + a_23 * b_30 + a_24 * b_40,
       a_20 * b_01 + a_21 * b_11 + a_22 * b_21 + a_23 * b_31 + a_24 * b_41,
       a_20 * b_02 + a_21 * b_12 + a_22 * b_22 + a_23 * b_32 + a_24 * b_42,
       a_20 * b_03 + a_21 * b_13 + a_22 * b_23 + a_23 * b_33 + a_24 * b_43,
       a_20 * b_04 + a_21 * b_14 + a_22 * b_24 + a_23 * b_34 + a_24 * b_44],
      ![a_30 * b_00 + a_31 * b_10 + a_32 * b_20 + a_33 * b_30 + a_34 * b_40,
       a_30 * b_01 + a_31 * b_11 + a_32 * b_21 + a_33 * b_31 + a_34 * b_41,
       a_30 * b_02 + a_31 * b_12 + a_32 * b_22 + a_33 * b_32 + a_34 * b_42,
       a_30 * b_03 + a_31 * b_13 + a_32 * b_23 + a_33 * b_33 + a_34 * b_43,
       a_30 * b_04 + a_31 * b_14 + a_32 * b_24 + a_33 * b_34 + a_34 * b_44],
      ![a_40 * b_00 + a_41 * b_10 + a_42 * b_20 + a_43 * b_30 + a_44 * b_40,
       a_40 * b_01 + a_41 * b_11 + a_42 * b_21 + a_43 * b_31 + a_44 * b_41,
       a_40 * b_02 + a_41 * b_12 + a_42 * b_22 + a_43 * b_32 + a_44 * b_42,
       a_40 * b_03 + a_41 * b_13 + a_42 * b_23 + a_43 * b_33 + a_44 * b_43,
       a_40 * b_04 + a_41 * b_14 + a_42 * b_24 + a_43 * b_34 + a_44 * b_44]]⟩

/-- `src/matrix5x5.rs:806-843` -/
def M55.neg (self : Mat 5 T) : Mat 5 T :=
  let a_00 : T := -self 0 0
  let a_01 : T := -self 0 1
  let a_02 : T := -self 0 2
  let a_03 : T := -self 0 3
  let a_04 : T := -self 0 4
  let a_10 : T := -self 1 0
  let a_11 : T := -self 1 1
  let a_12 : T := -self 1 2
  let a_13 : T := -self 1 3
  let a_14 : T := -self 1 4
  let a_20 : T := -self 2 0
  let a_21 : T := -self 2 1
  let a_22 : T := -self 2 2
  let a_23 : T := -self 2 3
  let a_24 : T := -self 2 4
  let a_30 : T := -self 3 0
  let a_31 : T := -self 3 1
  let a_32 : T := -self 3 2
  let a_33 : T := -self 3 3
  let a_34 : T := -self 3 4
  let a_40 : T := -self 4 0
  let a_41 : T := -self 4 1
  let a_42 : T := -self 4 2
  let a_43 : T := -self 4 3
  let a_44 : T := -self 4 4
  ⟨![![a_00, a_01, a_02, a_03, a_04],
      ![a_10, a_11, a_12, a_13, a_14],
      ![a_20, a_21, a_22, a_23, a_24],
      ![a_30, a_31, a_32, a_33, a_34],
      ![a_40, a_41, a_42, a_43, a_44]]⟩

end StaticMath
