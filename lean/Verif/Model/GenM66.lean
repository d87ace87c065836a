import Verif.Model.Num

/-! Generated by `tools/rs2lean.py` from the Rust text; every definition cites its source lines. -/

namespace StaticMath


variable {T : Type} [Add T] [Sub T] [Mul T] [Div T] [Neg T] [Zero T] [One T] [RFloat T]

/-- `src/matrix6x6.rs:1822-1825` -/
def M66.zero : Mat 6 T :=
  ⟨![![0,
       0,
       0,
       0,
       0,
       0],
       ![0,
       0,
       0,
       0,
       0,
       0],
       ![0,
       0,
       0,
       0,
       0,
       0],
       ![0,
       0,
       0,
       0,
       0,
       0],
       ![0,
       0,
       0,
       0,
       0,
       0],
       ![0,
       0,
       0,
       0,
       0,
       0]]⟩

/-- `src/matrix6x6.rs:1832-1846` -/
def M66.one : Mat 6 T :=
  let one : T := 1
  let zero : T := 0
  ⟨![![one, zero, zero, zero, zero, zero],
      ![zero, one, zero, zero, zero, zero],
      ![zero, zero, one, zero, zero, zero],
      ![zero, zero, zero, one, zero, zero],
      ![zero, zero, zero, zero, one, zero],
      ![zero, zero, zero, zero, zero, one]]⟩

/-- `src/matrix6x6.rs:74-120` -/
def M66.transpose (self : Mat 6 T) : Mat 6 T :=
  let a_00 : T := self 0 0
  let a_01 : T := self 0 1
  let a_02 : T := self 0 2
  let a_03 : T := self 0 3
  let a_04 : T := self 0 4
  let a_05 : T := self 0 5
  let a_10 : T := self 1 0
  let a_11 : T := self 1 1
  let a_12 : T := self 1 2
  let a_13 : T := self 1 3
  let a_14 : T := self 1 4
  let a_15 : T := self 1 5
  let a_20 : T := self 2 0
  let a_21 : T := self 2 1
  let a_22 : T := self 2 2
  let a_23 : T := self 2 3
  let a_24 : T := self 2 4
  let a_25 : T := self 2 5
  let a_30 : T := self 3 0
  let a_31 : T := self 3 1
  let a_32 : T := self 3 2
  let a_33 : T := self 3 3
  let a_34 : T := self 3 4
  let a_35 : T := self 3 5
  let a_40 : T := self 4 0
  let a_41 : T := self 4 1
  let a_42 : T := self 4 2
  let a_43 : T := self 4 3
  let a_44 : T := self 4 4
  let a_45 : T := self 4 5
  let a_50 : T := self 5 0
  let a_51 : T := self 5 1
  let a_52 : T := self 5 2
  let a_53 : T := self 5 3
  let a_54 : T := self 5 4
  let a_55 : T := self 5 5
  ⟨![![a_00, a_10, a_20, a_30, a_40, a_50],
      ![a_01, a_11, a_21, a_31, a_41, a_51],
      ![a_02, a_12, a_22, a_32, a_42, a_52],
      ![a_03, a_13, a_23, a_33, a_43, a_53],
      ![a_04, a_14, a_24, a_34, a_44, a_54],
      ![a_05, a_15, a_25, a_35, a_45, a_55]]⟩

/-- `src/matrix6x6.rs:123-125` -/
def M66.trace (self : Mat 6 T) : T :=
  self 0 0 + self 1 1 + self 2 2 + self 3 3 + self 4 4 + self 5 5

/-- `src/matrix6x6.rs:138-896` -/
def M66.det (self : Mat 6 T) : T :=
  let a_00 : T := self 0 0
  let a_01 : T := self 0 1
  let a_02 : T := self 0 2
  let a_03 : T := self 0 3
  let a_04 : T := self 0 4
  let a_05 : T := self 0 5
  let a_10 : T := self 1 0
  let a_11 : T := self 1 1
  let a_12 : T := self 1 2
  let a_13 : T := self 1 3
  let a_14 : T := self 1 4
  let a_15 : T := self 1 5
  let a_20 : T := self 2 0
  let a_21 : T := self 2 1
  let a_22 : T := self 2 2
  let a_23 : T := self 2 3
  let a_24 : T := self 2 4
  let a_25 : T := self 2 5
  let a_30 : T := self 3 0
  let a_31 : T := self 3 1
  let a_32 : T := self 3 2
  let a_33 : T := self 3 3
  let a_34 : T := self 3 4
  let a_35 : T := self 3 5
  let a_40 : T := self 4 0
  let a_41 : T := self 4 1
  let a_42 : T := self 4 2
  let a_43 : T := self 4 3
  let a_44 : T := self 4 4
  let a_45 : T := self 4 5
  let a_50 : T := self 5 0
  let a_51 : T := self 5 1
  let a_52 : T := self 5 2
  let a_53 : T := self 5 3
  let a_54 : T := self 5 4
  let a_55 : T := self 5 5
  a_00 * a_11 * a_22 * a_33 * a_44 * a_55 - a_00 * a_11 * a_22 * a_33 * a_45 * a_54 - a_00 * a_11 * a_22 * a_34 * a_43 * a_55
      + a_00 * a_11 * a_22 * a_34 * a_45 * a_53 + a_00 * a_11 * a_22 * a_35 * a_43 * a_54 - a_00 * a_11 * a_22 * a_35 * a_44 * a_53
      - a_00 * a_11 * a_23 * a_32 * a_44 * a_55 + a_00 * a_11 * a_23 * a_32 * a_45 * a_54 + a_00 * a_11 * a_23 * a_34 * a_42 * a_55
      - a_00 * a_11 * a_23 * a_34 * a_45 * a_52 - a_00 * a_11 * a_23 * a_35 * a_42 * a_54 + a_00 * a_11 * a_23 * a_35 * a_44 * a_52
      + a_00 * a_11 * a_24 * a_32 * a_43 * a_55 - a_00 * a_11 * a_24 * a_32 * a_45 * a_53 - a_00 * a_11 * a_24 * a_33 * a_42 * a_55
      + a_00 * a_11 * a_24 * a_33 * a_45 * a_52 + a_00 * a_11 * a_24 * a_35 * a_42 * a_53 - a_00 * a_11 * a_24 * a_35 * a_43 * a_52
      - a_00 * a_11 * a_25 * a_32 * a_43 * a_54 + a_00 * a_11 * a_25 * a_32 * a_44 * a_53 + a_00 * a_11 * a_25 * a_33 * a_42 * a_54
      - a_00 * a_11 * a_25 * a_33 * a_44 * a_52 - a_00 * a_11 * a_25 * a_34 * a_42 * a_53 + a_00 * a_11 * a_25 * a_34 * a_43 * a_52
      - a_00 * a_12 * a_21 * a_33 * a_44 * a_55 + a_00 * a_12 * a_21 * a_33 * a_45 * a_54 + a_00 * a_12 * a_21 * a_34 * a_43 * a_55
      - a_00 * a_12 * a_21 * a_34 * a_45 * a_53 - a_00 * a_12 * a_21 * a_35 * a_43 * a_54 + a_00 * a_12 * a_21 * a_35 * a_44 * a_53
      + a_00 * a_12 * a_23 * a_31 * a_44 * a_55 - a_00 * a_12 * a_23 * a_31 * a_45 * a_54 - a_00 * a_12 * a_23 * a_34 * a_41 * a_55
      + a_00 * a_12 * a_23 * a_34 * a_45 * a_51 + a_00 * a_12 * a_23 * a_35 * a_41 * a_54 - a_00 * a_12 * a_23 * a_35 * a_44 * a_51
      - a_00 * a_12 * a_24 * a_31 * a_43 * a_55 + a_00 * a_12 * a_24 * a_31 * a_45 * a_53 + a_00 * a_12 * a_24 * a_33 * a_41 * a_55
      - a_00 * a_12 * a_24 * a_33 * a_45 * a_51 - a_00 * a_12 * a_24 * a_35 * a_41 * a_53 + a_00 * a_12 * a_24 * a_35 * a_43 * a_51
      + a_00 * a_12 * a_25 * a_31 * a_43 * a_54 - a_00 * a_12 * a_25 * a_31 * a_44 * a_53 - a_00 * a_12 * a_25 * a_33 * a_41 * a_54
      + a_00 * a_12 * a_25 * a_33 * a_44 * a_51 + a_00 * a_12 * a_25 * a_34 * a_41 * a_53 - a_00 * a_12 * a_25 * a_34 * a_43 * a_51
      + a_00 * a_13 * a_21 * a_32 * a_44 * a_55 - a_00 * a_13 * a_21 * a_32 * a_45 * a_54 - a_00 * a_13 * a_21 * a_34 * a_42 * a_55
      + a_00 * a_13 * a_21 * a_34 * a_45 * a_52 + a_00 * a_13 * a_21 * a_35 * a_42 * a_54 - a_00 * a_13 * a_21 * a_35 * a_44 * a_52
      - a_00 * a_13 * a_22 * a_31 * a_44 * a_55 + a_00 * a_13 * a_22 * a_31 * a_45 * a_54 + a_00 * a_13 * a_22 * a_34 * a_41 * a_55
      - a_00 * a_13 * a_22 * a_34 * a_45 * a_51 - a_00 * a_13 * a_22 * a_35 * a_41 * a_54 + a_00 * a_13 * a_22 * a_35 * a_44 * a_51
      + a_00 * a_13 * a_24 * a_31 * a_42 * a_55 - a_00 * a_13 * a_24 * a_31 * a_45 * a_52 - a_00 * a_13 * a_24 * a_32 * a_41 * a_55
      + a_00 * a_13 * a_24 * a_32 * a_45 * a_51 + a_00 * a_13 * a_24 * a_35 * a_41 * a_52 - a_00 * a_13 * a_24 * a_35 * a_42 * a_51
      - a_00 * a_13 * a_25 * a_31 * a_42 * a_54 + a_00 * a_13 * a_25 * a_31 * a_44 * a_52 + a_00 * a_13 * a_25 * a_32 * a_41 * a_54
      - a_00 * a_13 * a_25 * a_32 * a_44 * a_51 - a_00 * a_13 * a_25 * a_34 * a_41 * a_52 + a_00 * a_13 * a_25 * a_34 * a_42 * a_51
      - a_00 * a_14 * a_21 * a_32 * a_43 * a_55 + a_00 * a_14 * a_21 * a_32 * a_45 * a_53 + a_00 * a_14 * a_21 * a_33 * a_42 * a_55
      - a_00 * a_14 * a_21 * a_33 * a_45 * a_52 - a_00 * a_14 * a_21 * a_35 * a_42 * a_53 + a_00 * a_14 * a_21 * a_35 * a_43 * a_52
      + a_00 * a_14 * a_22 * a_31 * a_43 * a_55 - a_00 * a_14 * a_22 * a_31 * a_45 * a_53 - a_00 * a_14 * a_22 * a_33 * a_41 * a_55
      + a_00 * a_14 * a_22 * a_33 * a_45 * a_51 + a_00 * a_14 * a_22 * a_35 * a_41 * a_53 - a_00 * a_14 * a_22 * a_35 * a_43 * a_51
      - a_00 * a_14 * a_23 * a_31 * a_42 * a_55 + a_00 * a_14 * a_23 * a_31 * a_45 * a_52 + a_00 * a_14 * a_23 * a_32 * a_41 * a_55
      - a_00 * a_14 * a_23 * a_32 * a_45 * a_51 - a_00 * a_14 * a_23 * a_35 * a_41 * a_52 + a_00 * a_14 * a_23 * a_35 * a_42 * a_51
      + a_00 * a_14 * a_25 * a_31 * a_42 * a_53 - a_00 * a_14 * a_25 * a_31 * a_43 * a_52 - a_00 * a_14 * a_25 * a_32 * a_41 * a_53
      + a_00 * a_14 * a_25 * a_32 * a_43 * a_51 + a_00 * a_14 * a_25 * a_33 * a_41 * a_52 - a_00 * a_14 * a_25 * a_33 * a_42 * a_51
      + a_00 * a_15 * a_21 * a_32 * a_43 * a_54 - a_00 * a_15 * a_21 * a_32 * a_44 * a_53 - a_00 * a_15 * a_21 * a_33 * a_42 * a_54
      + a_00 * a_15 * a_21 * a_33 * a_44 * a_52 + a_00 * a_15 * a_21 * a_34 * a_42 * a_53 - a_00 * a_15 * a_21 * a_34 * a_43 * a_52
      - a_00 * a_15 * a_22 * a_31 * a_43 * a_54 + a_00 * a_15 * a_22 * a_31 * a_44 * a_53 + a_00 * a_15 * a_22 * a_33 * a_41 * a_54
      - a_00 * a_15 * a_22 * a_33 * a_44 * a_51 - a_00 * a_15 * a_22 * a_34 * a_41 * a_53 + a_00 * a_15 * a_22 * a_34 * a_43 * a_51
      + a_00 * a_15 * a_23 * a_31 * a_42 * a_54 - a_00 * a_15 * a_23 * a_31 * a_44 * a_52 - a_00 * a_15 * a_23 * a_32 * a_41 * a_54
      + a_00 * a_15 * a_23 * a_32 * a_44 * a_51 + a_00 * a_15 * a_23 * a_34 * a_41 * a_52 - a_00 * a_15 * a_23 * a_34 * a_42 * a_51
      - a_00 * a_15 * a_24 * a_31 * a_42 * a_53 + a_00 * a_15 * a_24 * a_31 * a_43 * a_52 + a_00 * a_15 * a_24 * a_32 * a_41 * a_53
      - a_00 * a_15 * a_24 * a_32 * a_43 * a_51 - a_00 * a_15 * a_24 * a_33 * a_41 * a_52 + a_00 * a_15 * a_24 * a_33 * a_42 * a_51
      - a_01 * a_10 * a_22 * a_33 * a_44 * a_55 + a_01 * a_10 * a_22 * a_33 * a_45 * a_54 + a_01 * a_10 * a_22 * a_34 * a_43 * a_55
      - a_01 * a_10 * a_22 * a_34 * a_45 * a_53 - a_01 * a_10 * a_22 * a_35 * a_43 * a_54 + a_01 * a_10 * a_22 * a_35 * a_44 * a_53
      + a_01 * a_10 * a_23 * a_32 * a_44 * a_55 - a_01 * a_10 * a_23 * a_32 * a_45 * a_54 - a_01 * a_10 * a_23 * a_34 * a_42 * a_55
      + a_01 * a_10 * a_23 * a_34 * a_45 * a_52 + a_01 * a_10 * a_23 * a_35 * a_42 * a_54 - a_01 * a_10 * a_23 * a_35 * a_44 * a_52
      - a_01 * a_10 * a_24 * a_32 * a_43 * a_55 + a_01 * a_10 * a_24 * a_32 * a_45 * a_53 + a_01 * a_10 * a_24 * a_33 * a_42 * a_55
      - a_01 * a_10 * a_24 * a_33 * a_45 * a_52 - a_01 * a_10 * a_24 * a_35 * a_42 * a_53 + a_01 * a_10 * a_24 * a_35 * a_43 * a_52
      + a_01 * a_10 * a_25 * a_32 * a_43 * a_54 - a_01 * a_10 * a_25 * a_32 * a_44 * a_53 - a_01 * a_10 * a_25 * a_33 * a_42 * a_54
      + a_01 * a_10 * a_25 * a_33 * a_44 * a_52 + a_01 * a_10 * a_25 * a_34 * a_42 * a_53 - a_01 * a_10 * a_25 * a_34 * a_43 * a_52
      + a_01 * a_12 * a_20 * a_33 * a_44 * a_55 - a_01 * a_12 * a_20 * a_33 * a_45 * a_54 - a_01 * a_12 * a_20 * a_34 * a_43 * a_55
      + a_01 * a_12 * a_20 * a_34 * a_45 * a_53 + a_01 * a_12 * a_20 * a_35 * a_43 * a_54 - a_01 * a_12 * a_20 * a_35 * a_44 * a_53
      - a_01 * a_12 * a_23 * a_30 * a_44 * a_55 + a_01 * a_12 * a_23 * a_30 * a_45 * a_54 + a_01 * a_12 * a_23 * a_34 * a_40 * a_55
      - a_01 * a_12 * a_23 * a_34 * a_45 * a_50 - a_01 * a_12 * a_23 * a_35 * a_40 * a_54 + a_01 * a_12 * a_23 * a_35 * a_44 * a_50
      + a_01 * a_12 * a_24 * a_30 * a_43 * a_55 - a_01 * a_12 * a_24 * a_30 * a_45 * a_53 - a_01 * a_12 * a_24 * a_33 * a_40 * a_55
      + a_01 * a_12 * a_24 * a_33 * a_45 * a_50 + a_01 * a_12 * a_24 * a_35 * a_40 * a_53 - a_01 * a_12 * a_24 * a_35 * a_43 * a_50
      - a_01 * a_12 * a_25 * a_30 * a_43 * a_54 + a_01 * a_12 * a_25 * a_30 * a_44 * a_53 + a_01 * a_12 * a_25 * a_33 * a_40 * a_54
      - a_01 * a_12 * a_25 * a_33 * a_44 * a_50 - a_01 * a_12 * a_25 * a_34 * a_40 * a_53 + a_01 * a_12 * a_25 * a_34 * a_43 * a_50
      - a_01 * a_13 * a_20 * a_32 * a_44 * a_55 + a_01 * a_13 * a_20 * a_32 * a_45 * a_54 + a_01 * a_13 * a_20 * a_34 * a_42 * a_55
      - a_01 * a_13 * a_20 * a_34 * a_45 * a_52 - a_01 * a_13 * a_20 * a_35 * a_42 * a_54 + a_01 * a_13 * a_20 * a_35 * a_44 * a_52
      + a_01 * a_13 * a_22 * a_30 * a_44 * a_55 - a_01 * a_13 * a_22 * a_30 * a_45 * a_54 - a_01 * a_13 * a_22 * a_34 * a_40 * a_55
      + a_01 * a_13 * a_22 * a_34 * a_45 * a_50 + a_01 * a_13 * a_22 * a_35 * a_40 * a_54 - a_01 * a_13 * a_22 * a_35 * a_44 * a_50
      - a_01 * a_13 * a_24 * a_30 * a_42 * a_55 + a_01 * a_13 * a_24 * a_30 * a_45 * a_52 + a_01 * a_13 * a_24 * a_32 * a_40 * a_55
      - a_01 * a_13 * a_24 * a_32 * a_45 * a_50 - a_01 * a_13 * a_24 * a_35 * a_40 * a_52 + a_01 * a_13 * a_24 * a_35 * a_42 * a_50
      + a_01 * a_13 * a_25 * a_30 * a_42 * a_54 - a_01 * a_13 * a_25 * a_30 * a_44 * a_52 - a_01 * a_13 * a_25 * a_32 * a_40 * a_54
      + a_01 * a_13 * a_25 * a_32 * a_44 * a_50 + a_01 * a_13 * a_25 * a_34 * a_40 * a_52 - a_01 * a_13 * a_25 * a_34 * a_42 * a_50
      + a_01 * a_14 * a_20 * a_32 * a_43 * a_55 - a_01 * a_14 * a_20 * a_32 * a_45 * a_53 - a_01 * a_14 * a_20 * a_33 * a_42 * a_55
      + a_01 * a_14 * a_20 * a_33 * a_45 * a_52 + a_01 * a_14 * a_20 * a_35 * a_42 * a_53 - a_01 * a_14 * a_20 * a_35 * a_43 * a_52
      - a_01 * a_14 * a_22 * a_30 * a_43 * a_55 + a_01 * a_14 * a_22 * a_30 * a_45 * a_53 + a_01 * a_14 * a_22 * a_33 * a_40 * a_55
      - a_01 * a_14 * a_22 * a_33 * a_45 * a_50 - a_01 * a_14 * a_22 * a_35 * a_40 * a_53 + a_01 * a_14 * a_22 * a_35 * a_43 * a_50
      + a_01 * a_14 * a_23 * a_30 * a_42 * a_55 - a_01 * a_14 * a_23 * a_30 * a_45 * a_52 - a_01 * a_14 * a_23 * a_32 * a_40 * a_55
      + a_01 * a_14 * a_23 * a_32 * a_45 * a_50 + a_01 * a_14 * a_23 * a_35 * a_40 * a_52 - a_01 * a_14 * a_23 * a_35 * a_42 * a_50
      - a_01 * a_14 * a_25 * a_30 * a_42 * a_53 + a_01 * a_14 * a_25 * a_30 * a_43 * a_52 + a_01 * a_14 * a_25 * a_32 * a_40 * a_53
      - a_01 * a_14 * a_25 * a_32 * a_43 * a_50 - a_01 * a_14 * a_25 * a_33 * a_40 * a_52 + a_01 * a_14 * a_25 * a_33 * a_42 * a_50
      - a_01 * a_15 * a_20 * a_32 * a_43 * a_54 + a_01 * a_15 * a_20 * a_32 * a_44 * a_53 + a_01 * a_15 * a_20 * a_33 * a_42 * a_54
      - a_01 * a_15 * a_20 * a_33 * a_44 * a_52 - a_01 * a_15 * a_20 * a_34 * a_42 * a_53 + a_01 * a_15 * a_20 * a_34 * a_43 * a_52
      + a_01 * a_15 * a_22 * a_30 * a_43 * a_54 - a_01 * a_15 * a_22 * a_30 * a_44 * a_53 - a_01 * a_15 * a_22 * a_33 * a_40 * a_54
      + a_01 * a_15 * a_22 * a_33 * a_44 * a_50 + a_01 * a_15 * a_22 * a_34 * a_40 * a_53 - a_01 * a_15 * a_22 * a_34 * a_43 * a_50
      - a_01 * a_15 * a_23 * a_30 * a_42 * a_54 + a_01 * a_15 * a_23 * a_30 * a_44 * a_52 + a_01 * a_15 * a_23 * a_32 * a_40 * a_54
      - a_01 * a_15 * a_23 * a_32 * a_44 * a_50 - a_01 * a_15 * a_23 * a_34 * a_40 * a_52 + a_01 * a_15 * a_23 * a_34 * a_42 * a_50
      + a_01 * a_15 * a_24 * a_30 * a_42 * a_53 - a_01 * a_15 * a_24 * a_30 * a_43 * a_52 - a_01 * a_15 * a_24 * a_32 * a_40 * a_53
      + a_01 * a_15 * a_24 * a_32 * a_43 * a_50 + a_01 * a_15 * a_24 * a_33 * a_40 * a_52 - a_01 * a_15 * a_24 * a_33 * a_42 * a_50
      + a_02 * a_10 * a_21 * a_33 * a_44 * a_55 - a_02 * a_10 * a_21 * a_33 * a_45 * a_54 - a_02 * a_10 * a_21 * a_34 * a_43 * a_55
      + a_02 * a_10 * a_21 * a_34 * a_45 * a_53 + a_02 * a_10 * a_21 * a_35 * a_43 * a_54 - a_02 * a_10 * a_21 * a_35 * a_44 * a_53
      - a_02 * a_10 * a_23 * a_31 * a_44 * a_55 + a_02 * a_10 * a_23 * a_31 * a_45 * a_54 + a_02 * a_10 * a_23 * a_34 * a_41 * a_55
      - a_02 * a_10 * a_23 * a_34 * a_45 * a_51 - a_02 * a_10 * a_23 * a_35 * a_41 * a_54 + a_02 * a_10 * a_23 * a_35 * a_44 * a_51
      + a_02 * a_10 * a_24 * a_31 * a_43 * a_55 - a_02 * a_10 * a_24 * a_31 * a_45 * a_53 - a_02 * a_10 * a_24 * a_33 * a_41 * a_55
      + a_02 * a_10 * a_24 * a_33 * a_45 * a_51 + a_02 * a_10 * a_24 * a_35 * a_41 * a_53 - a_02 * a_10 * a_24 * a_35 * a_43 * a_51
      - a_02 * a_10 * a_25 * a_31 * a_43 * a_54 + a_02 * a_10 * a_25 * a_31 * a_44 * a_53 + a_02 * a_10 * a_25 * a_33 * a_41 * a_54
      - a_02 * a_10 * a_25 * a_33 * a_44 * a_51 - a_02 * a_10 * a_25 * a_34 * a_41 * a_53 + a_02 * a_10 * a_25 * a_34 * a_43 * a_51
      - a_02 * a_11 * a_20 * a_33 * a_44 * a_55 + a_02 * a_11 * a_20 * a_33 * a_45 * a_54 + a_02 * a_11 * a_20 * a_34 * a_43 * a_55
      - a_02 * a_11 * a_20 * a_34 * a_45 * a_53 - a_02 * a_11 * a_20 * a_35 * a_43 * a_54 + a_02 * a_11 * a_20 * a_35 * a_44 * a_53
      + a_02 * a_11 * a_23 * a_30 * a_44 * a_55 - a_02 * a_11 * a_23 * a_30 * a_45 * a_54 - a_02 * a_11 * a_23 * a_34 * a_40 * a_55
      + a_02 * a_11 * a_23 * a_34 * a_45 * a_50 + a_02 * a_11 * a_23 * a_35 * a_40 * a_54 - a_02 * a_11 * a_23 * a_35 * a_44 * a_50
      - a_02 * a_11 * a_24 * a_30 * a_43 * a_55 + a_02 * a_11 * a_24 * a_30 * a_45 * a_53 + a_02 * a_11 * a_24 * a_33 * a_40 * a_55
      - a_02 * a_11 * a_24 * a_33 * a_45 * a_50 - a_02 * a_11 * a_24 * a_35 * a_40 * a_53 + a_02 * a_11 * a_24 * a_35 * a_43 * a_50
      + a_02 * a_11 * a_25 * a_30 * a_43 * a_54 - a_02 * a_11 * a_25 * a_30 * a_44 * a_53 - a_02 * a_11 * a_25 * a_33 * a_40 * a_54
      + a_02 * a_11 * a_25 * a_33 * a_44 * a_50 + a_02 * a_11 * a_25 * a_34 * a_40 * a_53 - a_02 * a_11 * a_25 * a_34 * a_43 * a_50
      + a_02 * a_13 * a_20 * a_31 * a_44 * a_55 - a_02 * a_13 * a_20 * a_31 * a_45 * a_54 - a_02 * a_13 * a_20 * a_34 * a_41 * a_55
      + a_02 * a_13 * a_20 * a_34 * a_45 * a_51 + a_02 * a_13 * a_20 * a_35 * a_41 * a_54 - a_02 * a_13 * a_20 * a_35 * a_44 * a_51
      - a_02 * a_13 * a_21 * a_30 * a_44 * a_55 + a_02 * a_13 * a_21 * a_30 * a_45 * a_54 + a_02 * a_13 * a_21 * a_34 * a_40 * a_55
      - a_02 * a_13 * a_21 * a_34 * a_45 * a_50 - a_02 * a_13 * a_21 * a_35 * a_40 * a_54 + a_02 * a_13 * a_21 * a_35 * a_44 * a_50
      + a_02 * a_13 * a_24 * a_30 * a_41 * a_55 - a_02 * a_13 * a_24 * a_30 * a_45 * a_51 - a_02 * a_13 * a_24 * a_31 * a_40 * a_55
      + a_02 * a_13 * a_24 * a_31 * a_45 * a_50 + a_02 * a_13 * a_24 * a_35 * a_40 * a_51 - a_02 * a_13 * a_24 * a_35 * a_41 * a_50
      - a_02 * a_13 * a_25 * a_30 * a_41 * a_54 + a_02 * a_13 * a_25 * a_30 * a_44 * a_51 + a_02 * a_13 * a_25 * a_31 * a_40 * a_54
      - a_02 * a_13 * a_25 * a_31 * a_44 * a_50 - a_02 * a_13 * a_25 * a_34 * a_40 * a_51 + a_02 * a_13 * a_25 * a_34 * a_41 * a_50
      - a_02 * a_14 * a_20 * a_31 * a_43 * a_55 + a_02 * a_14 * a_20 * a_31 * a_45 * a_53 + a_02 * a_14 * a_20 * a_33 * a_41 * a_55
      - a_02 * a_14 * a_20 * a_33 * a_45 * a_51 - a_02 * a_14 * a_20 * a_35 * a_41 * a_53 + a_02 * a_14 * a_20 * a_35 * a_43 * a_51
      + a_02 * a_14 * a_21 * a_30 * a_43 * a_55 - a_02 * a_14 * a_21 * a_30 * a_45 * a_53 - a_02 * a_14 * a_21 * a_33 * a_40 * a_55
      + a_02 * a_14 * a_21 * a_33 * a_45 * a_50 + a_02 * a_14 * a_21 * a_35 * a_40 * a_53 - a_02 * a_14 * a_21 * a_35 * a_43 * a_50
      - a_02 * a_14 * a_23 * a_30 * a_41 * a_55 + a_02 * a_14 * a_23 * a_30 * a_45 * a_51 + a_02 * a_14 * a_23 * a_31 * a_40 * a_55
      - a_02 * a_14 * a_23 * a_31 * a_45 * a_50 - a_02 * a_14 * a_23 * a_35 * a_40 * a_51 + a_02 * a_14 * a_23 * a_35 * a_41 * a_50
      + a_02 * a_14 * a_25 * a_30 * a_41 * a_53 - a_02 * a_14 * a_25 * a_30 * a_43 * a_51 - a_02 * a_14 * a_25 * a_31 * a_40 * a_53
      + a_02 * a_14 * a_25 * a_31 * a_43 * a_50 + a_02 * a_14 * a_25 * a_33 * a_40 * a_51 - a_02 * a_14 * a_25 * a_33 * a_41 * a_50
      + a_02 * a_15 * a_20 * a_31 * a_43 * a_54 - a_02 * a_15 * a_20 * a_31 * a_44 * a_53 - a_02 * a_15 * a_20 * a_33 * a_41 * a_54
      + a_02 * a_15 * a_20 * a_33 * a_44 * a_51 + a_02 * a_15 * a_20 * a_34 * a_41 * a_53 - a_02 * a_15 * a_20 * a_34 * a_43 * a_51
      - a_02 * a_15 * a_21 * a_30 * a_43 * a_54 + a_02 * a_15 * a_21 * a_30 * a_44 * a_53 + a_02 * a_15 * a_21 * a_33 * a_40 * a_54
      - a_02 * a_15 * a_21 * a_33 * a_44 * a_50 - a_02 * a_15 * a_21 * a_34 * a_40 * a_53 + a_02 * a_15 * a_21 * a_34 * a_43 * a_50
      + a_02 * a_15 * a_23 * a_30 * a_41 * a_54 - a_02 * a_15 * a_23 * a_30 * a_44 * a_51 - a_02 * a_15 * a_23 * a_31 * a_40 * a_54
      + a_02 * a_15 * a_23 * a_31 * a_44 * a_50 + a_02 * a_15 * a_23 * a_34 * a_40 * a_51 - a_02 * a_15 * a_23 * a_34 * a_41 * a_50
      - a_02 * a_15 * a_24 * a_30 * a_41 * a_53 + a_02 * a_15 * a_24 * a_30 * a_43 * a_51 + a_02 * a_15 * a_24 * a_31 * a_40 * a_53
      - a_02 * a_15 * a_24 * a_31 * a_43 * a_50 - a_02 * a_15 * a_24 * a_33 * a_40 * a_51 + a_02 * a_15 * a_24 * a_33 * a_41 * a_50
      - a_03 * a_10 * a_21 * a_32 * a_44 * a_55 + a_03 * a_10 * a_21 * a_32 * a_45 * a_54 + a_03 * a_10 * a_21 * a_34 * a_42 * a_55
      - a_03 * a_10 * a_21 * a_34 * a_45 * a_52 - a_03 * a_10 * a_21 * a_35 * a_42 * a_54 + a_03 * a_10 * a_21 * a_35 * a_44 * a_52
      + a_03 * a_10 * a_22 * a_31 * a_44 * a_55 - a_03 * a_10 * a_22 * a_31 * a_45 * a_54 - a_03 * a_10 * a_22 * a_34 * a_41 * a_55
      + a_03 * a_10 * a_22 * a_34 * a_45 * a_51 + a_03 * a_10 * a_22 * a_35 * a_41 * a_54 - a_03 * a_10 * a_22 * a_35 * a_44 * a_51
      - a_03 * a_10 * a_24 * a_31 * a_42 * a_55 + a_03 * a_10 * a_24 * a_31 * a_45 * a_52 + a_03 * a_10 * a_24 * a_32 * a_41 * a_55
      - a_03 * a_10 * a_24 * a_32 * a_45 * a_51 - a_03 * a_10 * a_24 * a_35 * a_41 * a_52 + a_03 * a_10 * a_24 * a_35 * a_42 * a_51
      + a_03 * a_10 * a_25 * a_31 * a_42 * a_54 - a_03 * a_10 * a_25 * a_31 * a_44 * a_52 - a_03 * a_10 * a_25 * a_32 * a_41 * a_54
      + a_03 * a_10 * a_25 * a_32 * a_44 * a_51 + a_03 * a_10 * a_25 * a_34 * a_41 * a_52 - a_03 * a_10 * a_25 * a_34 * a_42 * a_51
      + a_03 * a_11 * a_20 * a_32 * a_44 * a_55 - a_03 * a_11 * a_20 * a_32 * a_45 * a_54 - a_03 * a_11 * a_20 * a_34 * a_42 * a_55
      + a_03 * a_11 * a_20 * a_34 * a_45 * a_52 + a_03 * a_11 * a_20 * a_35 * a_42 * a_54 - a_03 * a_11 * a_20 * a_35 * a_44 * a_52
      - a_03 * a_11 * a_22 * a_30 * a_44 * a_55 + a_03 * a_11 * a_22 * a_30 * a_45 * a_54 + a_03 * a_11 * a_22 * a_34 * a_40 * a_55
      - a_03 * a_11 * a_22 * a_34 * a_45 * a_50 - a_03 * a_11 * a_22 * a_35 * a_40 * a_54 + a_03 * a_11 * a_22 * a_35 * a_44 * a_50
      + a_03 * a_11 * a_24 * a_30 * a_42 * a_55 - a_03 * a_11 * a_24 * a_30 * a_45 * a_52 - a_03 * a_11 * a_24 * a_32 * a_40 * a_55
      + a_03 * a_11 * a_24 * a_32 * a_45 * a_50 + a_03 * a_11 * a_24 * a_35 * a_40 * a_52 - a_03 * a_11 * a_24 * a_35 * a_42 * a_50
      - a_03 * a_11 * a_25 * a_30 * a_42 * a_54 + a_03 * a_11 * a_25 * a_30 * a_44 * a_52 + a_03 * a_11 * a_25 * a_32 * a_40 * a_54
      - a_03 * a_11 * a_25 * a_32 * a_44 * a_50 - a_03 * a_11 * a_25 * a_34 * a_40 * a_52 + a_03 * a_11 * a_25 * a_34 * a_42 * a_50
      - a_03 * a_12 * a_20 * a_31 * a_44 * a_55 + a_03 * a_12 * a_20 * a_31 * a_45 * a_54 + a_03 * a_12 * a_20 * a_34 * a_41 * a_55
      - a_03 * a_12 * a_20 * a_34 * a_45 * a_51 - a_03 * a_12 * a_20 * a_35 * a_41 * a_54 + a_03 * a_12 * a_20 * a_35 * a_44 * a_51
      + a_03 * a_12 * a_21 * a_30 * a_44 * a_55 - a_03 * a_12 * a_21 * a_30 * a_45 * a_54 - a_03 * a_12 * a_21 * a_34 * a_40 * a_55
      + a_03 * a_12 * a_21 * a_34 * a_45 * a_50 + a_03 * a_12 * a_21 * a_35 * a_40 * a_54 - a_03 * a_12 * a_21 * a_35 * a_44 * a_50
      - a_03 * a_12 * a_24 * a_30 * a_41 * a_55 + a_03 * a_12 * a_24 * a_30 * a_45 * a_51 + a_03 * a_12 * a_24 * a_31 * a_40 * a_55
      - a_03 * a_12 * a_24 * a_31 * a_45 * a_50 - a_03 * a_12 * a_24 * a_35 * a_40 * a_51 + a_03 * a_12 * a_24 * a_35 * a_41 * a_50
      + a_03 * a_12 * a_25 * a_30 * a_41 * a_54 - a_03 * a_12 * a_25 * a_30 * a_44 * a_51 - a_03 * a_12 * a_25 * a_31 * a_40 * a_54
      + a_03 * a_12 * a_25 * a_31 * a_44 * a_50 + a_03 * a_12 * a_25 * a_34 * a_40 * a_51 - a_03 * a_12 * a_25 * a_34 * a_41 * a_50
      + a_03 * a_14 * a_20 * a_31 * a_42 * a_55 - a_03 * a_14 * a_20 * a_31 * a_45 * a_52 - a_03 * a_14 * a_20 * a_32 * a_41 * a_55
      + a_03 * a_14 * a_20 * a_32 * a_45 * a_51 + a_03 * a_14 * a_20 * a_35 * a_41 * a_52 - a_03 * a_14 * a_20 * a_35 * a_42 * a_51
      - a_03 * a_14 * a_21 * a_30 * a_42 * a_55 + a_03 * a_14 * a_21 * a_30 * a_45 * a_52 + a_03 * a_14 * a_21 * a_32 * a_40 * a_55
      - a_03 * a_14 * a_21 * a_32 * a_45 * a_50 - a_03 * a_14 * a_21 * a_35 * a_40 * a_52 + a_03 * a_14 * a_21 * a_35 * a_42 * a_50
      + a_03 * a_14 * a_22 * a_30 * a_41 * a_55 - a_03 * a_14 * a_22 * a_30 * a_45 * a_51 - a_03 * a_14 * a_22 * a_31 * a_40 * a_55
      + a_03 * a_14 * a_22 * a_31 * a_45 * a_50 + a_03 * a_14 * a_22 * a_35 * a_40 * a_51 - a_03 * a_14 * a_22 * a_35 * a_41 * a_50
      - a_03 * a_14 * a_25 * a_30 * a_41 * a_52 + a_03 * a_14 * a_25 * a_30 * a_42 * a_51 + a_03 * a_14 * a_25 * a_31 * a_40 * a_52
      - a_03 * a_14 * a_25 * a_31 * a_42 * a_50 - a_03 * a_14 * a_25 * a_32 * a_40 * a_51 + a_03 * a_14 * a_25 * a_32 * a_41 * a_50
      - a_03 * a_15 * a_20 * a_31 * a_42 * a_54 + a_03 * a_15 * a_20 * a_31 * a_44 * a_52 + a_03 * a_15 * a_20 * a_32 * a_41 * a_54
      - a_03 * a_15 * a_20 * a_32 * a_44 * a_51 - a_03 * a_15 * a_20 * a_34 * a_41 * a_52 + a_03 * a_15 * a_20 * a_34 * a_42 * a_51
      + a_03 * a_15 * a_21 * a_30 * a_42 * a_54 - a_03 * a_15 * a_21 * a_30 * a_44 * a_52 - a_03 * a_15 * a_21 * a_32 * a_40 * a_54
      + a_03 * a_15 * a_21 * a_32 * a_44 * a_50 + a_03 * a_15 * a_21 * a_34 * a_40 * a_52 - a_03 * a_15 * a_21 * a_34 * a_42 * a_50
      - a_03 * a_15 * a_22 * a_30 * a_41 * a_54 + a_03 * a_15 * a_22 * a_30 * a_44 * a_51 + a_03 * a_15 * a_22 * a_31 * a_40 * a_54
      - a_03 * a_15 * a_22 * a_31 * a_44 * a_50 - a_03 * a_15 * a_22 * a_34 * a_40 * a_51 + a_03 * a_15 * a_22 * a_34 * a_41 * a_50
      + a_03 * a_15 * a_24 * a_30 * a_41 * a_52 - a_03 * a_15 * a_24 * a_30 * a_42 * a_51 - a_03 * a_15 * a_24 * a_31 * a_40 * a_52
      + a_03 * a_15 * a_24 * a_31 * a_42 * a_50 + a_03 * a_15 * a_24 * a_32 * a_40 * a_51 - a_03 * a_15 * a_24 * a_32 * a_41 * a_50
      + a_04 * a_10 * a_21 * a_32 * a_43 * a_55 - a_04 * a_10 * a_21 * a_32 * a_45 * a_53 - a_04 * a_10 * a_21 * a_33 * a_42 * a_55
      + a_04 * a_10 * a_21 * a_33 * a_45 * a_52 + a_04 * a_10 * a_21 * a_35 * a_42 * a_53 - a_04 * a_10 * a_21 * a_35 * a_43 * a_52
      - a_04 * a_10 * a_22 * a_31 * a_43 * a_55 + a_04 * a_10 * a_22 * a_31 * a_45 * a_53 + a_04 * a_10 * a_22 * a_33 * a_41 * a_55
      - a_04 * a_10 * a_22 * a_33 * a_45 * a_51 - a_04 * a_10 * a_22 * a_35 * a_41 * a_53 + a_04 * a_10 * a_22 * a_35 * a_43 * a_51
      + a_04 * a_10 * a_23 * a_31 * a_42 * a_55 - a_04 * a_10 * a_23 * a_31 * a_45 * a_52 - a_04 * a_10 * a_23 * a_32 * a_41 * a_55
      + a_04 * a_10 * a_23 * a_32 * a_45 * a_51 + a_04 * a_10 * a_23 * a_35 * a_41 * a_52 - a_04 * a_10 * a_23 * a_35 * a_42 * a_51
      - a_04 * a_10 * a_25 * a_31 * a_42 * a_53 + a_04 * a_10 * a_25 * a_31 * a_43 * a_52 + a_04 * a_10 * a_25 * a_32 * a_41 * a_53
      - a_04 * a_10 * a_25 * a_32 * a_43 * a_51 - a_04 * a_10 * a_25 * a_33 * a_41 * a_52 + a_04 * a_10 * a_25 * a_33 * a_42 * a_51
      - a_04 * a_11 * a_20 * a_32 * a_43 * a_55 + a_04 * a_11 * a_20 * a_32 * a_45 * a_53 + a_04 * a_11 * a_20 * a_33 * a_42 * a_55
      - a_04 * a_11 * a_20 * a_33 * a_45 * a_52 - a_04 * a_11 * a_20 * a_35 * a_42 * a_53 + a_04 * a_11 * a_20 * a_35 * a_43 * a_52
      + a_04 * a_11 * a_22 * a_30 * a_43 * a_55 - a_04 * a_11 * a_22 * a_30 * a_45 * a_53 - a_04 * a_11 * a_22 * a_33 * a_40 * a_55
      + a_04 * a_11 * a_22 * a_33 * a_45 * a_50 + a_04 * a_11 * a_22 * a_35 * a_40 * a_53 - a_04 * a_11 * a_22 * a_35 * a_43 * a_50
      - a_04 * a_11 * a_23 * a_30 * a_42 * a_55 + a_04 * a_11 * a_23 * a_30 * a_45 * a_52 + a_04 * a_11 * a_23 * a_32 * a_40 * a_55
      - a_04 * a_11 * a_23 * a_32 * a_45 * a_50 - a_04 * a_11 * a_23 * a_35 * a_40 * a_52 + a_04 * a_11 * a_23 * a_35 * a_42 * a_50
      + a_04 * a_11 * a_25 * a_30 * a_42 * a_53 - a_04 * a_11 * a_25 * a_30 * a_43 * a_52 - a_04 * a_11 * a_25 * a_32 * a_40 * a_53
      + a_04 * a_11 * a_25 * a_32 * a_43 * a_50 + a_04 * a_11 * a_25 * a_33 * a_40 * a_52 - a_04 * a_11 * a_25 * a_33 * a_42 * a_50
      + a_04 * a_12 * a_20 * a_31 * a_43 * a_55 - a_04 * a_12 * a_20 * a_31 * a_45 * a_53 - a_04 * a_12 * a_20 * a_33 * a_41 * a_55
      + a_04 * a_12 * a_20 * a_33 * a_45 * a_51 + a_04 * a_12 * a_20 * a_35 * a_41 * a_53 - a_04 * a_12 * a_20 * a_35 * a_43 * a_51
      - a_04 * a_12 * a_21 * a_30 * a_43 * a_55 + a_04 * a_12 * a_21 * a_30 * a_45 * a_53 + a_04 * a_12 * a_21 * a_33 * a_40 * a_55
      - a_04 * a_12 * a_21 * a_33 * a_45 * a_50 - a_04 * a_12 * a_21 * a_35 * a_40 * a_53 + a_04 * a_12 * a_21 * a_35 * a_43 * a_50
      + a_04 * a_12 * a_23 * a_30 * a_41 * a_55 - a_04 * a_12 * a_23 * a_30 * a_45 * a_51 - a_04 * a_12 * a_23 * a_31 * a_40 * a_55
      + a_04 * a_12 * a_23 * a_31 * a_45 * a_50 + a_04 * a_12 * a_23 * a_35 * a_40 * a_51 - a_04 * a_12 * a_23 * a_35 * a_41 * a_50
      - a_04 * a_12 * a_25 * a_30 * a_41 * a_53 + a_04 * a_12 * a_25 * a_30 * a_43 * a_51 + a_04 * a_12 * a_25 * a_31 * a_40 * a_53
      - a_04 * a_12 * a_25 * a_31 * a_43 * a_50 - a_04 * a_12 * a_25 * a_33 * a_40 * a_51 + a_04 * a_12 * a_25 * a_33 * a_41 * a_50
      - a_04 * a_13 * a_20 * a_31 * a_42 * a_55 + a_04 * a_13 * a_20 * a_31 * a_45 * a_52 + a_04 * a_13 * a_20 * a_32 * a_41 * a_55
      - a_04 * a_13 * a_20 * a_32 * a_45 * a_51 - a_04 * a_13 * a_20 * a_35 * a_41 * a_52 + a_04 * a_13 * a_20 * a_35 * a_42 * a_51
      + a_04 * a_13 * a_21 * a_30 * a_42 * a_55 - a_04 * a_13 * a_21 * a_30 * a_45 * a_52 - a_04 * a_13 * a_21 * a_32 * a_40 * a_55
      + a_04 * a_13 * a_21 * a_32 * a_45 * a_50 + a_04 * a_13 * a_21 * a_35 * a_40 * a_52 - a_04 * a_13 * a_21 * a_35 * a_42 * a_50
      - a_04 * a_13 * a_22 * a_30 * a_41 * a_55 + a_04 * a_13 * a_22 * a_30 * a_45 * a_51 + a_04 * a_13 * a_22 * a_31 * a_40 * a_55
      - a_04 * a_13 * a_22 * a_31 * a_45 * a_50 - a_04 * a_13 * a_22 * a_35 * a_40 * a_51 + a_04 * a_13 * a_22 * a_35 * a_41 * a_50
      + a_04 * a_13 * a_25 * a_30 * a_41 * a_52 - a_04 * a_13 * a_25 * a_30 * a_42 * a_51 - a_04 * a_13 * a_25 * a_31 * a_40 * a_52
      + a_04 * a_13 * a_25 * a_31 * a_42 * a_50 + a_04 * a_13 * a_25 * a_32 * a_40 * a_51 - a_04 * a_13 * a_25 * a_32 * a_41 * a_50
      + a_04 * a_15 * a_20 * a_31 * a_42 * a_53 - a_04 * a_15 * a_20 * a_31 * a_43 * a_52 - a_04 * a_15 * a_20 * a_32 * a_41 * a_53
      + a_04 * a_15 * a_20 * a_32 * a_43 * a_51 + a_04 * a_15 * a_20 * a_33 * a_41 * a_52 - a_04 * a_15 * a_20 * a_33 * a_42 * a_51
      - a_04 * a_15 * a_21 * a_30 * a_42 * a_53 + a_04 * a_15 * a_21 * a_30 * a_43 * a_52 + a_04 * a_15 * a_21 * a_32 * a_40 * a_53
      - a_04 * a_15 * a_21 * a_32 * a_43 * a_50 - a_04 * a_15 * a_21 * a_33 * a_40 * a_52 + a_04 * a_15 * a_21 * a_33 * a_42 * a_50
      + a_04 * a_15 * a_22 * a_30 * a_41 * a_53 - a_04 * a_15 * a_22 * a_30 * a_43 * a_51 - a_04 * a_15 * a_22 * a_31 * a_40 * a_53
      + a_04 * a_15 * a_22 * a_31 * a_43 * a_50 + a_04 * a_15 * a_22 * a_33 * a_40 * a_51 - a_04 * a_15 * a_22 * a_33 * a_41 * a_50
      - a_04 * a_15 * a_23 * a_30 * a_41 * a_52 + a_04 * a_15 * a_23 * a_30 * a_42 * a_51 + a_04 * a_15 * a_23 * a_31 * a_40 * a_52
      - a_04 * a_15 * a_23 * a_31 * a_42 * a_50 - a_04 * a_15 * a_23 * a_32 * a_40 * a_51 + a_04 * a_15 * a_23 * a_32 * a_41 * a_50
      - a_05 * a_10 * a_21 * a_32 * a_43 * a_54 + a_05 * a_10 * a_21 * a_32 * a_44 * a_53 + a_05 * a_10 * a_21 * a_33 * a_42 * a_54
      - a_05 * a_10 * a_21 * a_33 * a_44 * a_52 - a_05 * a_10 * a_21 * a_34 * a_42 * a_53 + a_05 * a_10 * a_21 * a_34 * a_43 * a_52
      + a_05 * a_10 * a_22 * a_31 * a_43 * a_54 - a_05 * a_10 * a_22 * a_31 * a_44 * a_53 - a_05 * a_10 * a_22 * a_33 * a_41 * a_54
      + a_05 * a_10 * a_22 * a_33 * a_44 * a_51 + a_05 * a_10 * a_22 * a_34 * a_41 * a_53 - a_05 * a_10 * a_22 * a_34 * a_43 * a_51
      - a_05 * a_10 * a_23 * a_31 * a_42 * a_54 + a_05 * a_10 * a_23 * a_31 * a_44 * a_52 + a_05 * a_10 * a_23 * a_32 * a_41 * a_54
      - a_05 * a_10 * a_23 * a_32 * a_44 * a_51 - a_05 * a_10 * a_23 * a_34 * a_41 * a_52 + a_05 * a_10 * a_23 * a_34 * a_42 * a_51
      + a_05 * a_10 * a_24 * a_31 * a_42 * a_53 - a_05 * a_10 * a_24 * a_31 * a_43 * a_52 - a_05 * a_10 * a_24 * a_32 * a_41 * a_53
      + a_05 * a_10 * a_24 * a_32 * a_43 * a_51 + a_05 * a_10 * a_24 * a_33 * a_41 * a_52 - a_05 * a_10 * a_24 * a_33 * a_42 * a_51
      + a_05 * a_11 * a_20 * a_32 * a_43 * a_54 - a_05 * a_11 * a_20 * a_32 * a_44 * a_53 - a_05 * a_11 * a_20 * a_33 * a_42 * a_54
      + a_05 * a_11 * a_20 * a_33 * a_44 * a_52 + a_05 * a_11 * a_20 * a_34 * a_42 * a_53 - a_05 * a_11 * a_20 * a_34 * a_43 * a_52
      - a_05 * a_11 * a_22 * a_30 * a_43 * a_54 + a_05 * a_11 * a_22 * a_30 * a_44 * a_53 + a_05 * a_11 * a_22 * a_33 * a_40 * a_54
      - a_05 * a_11 * a_22 * a_33 * a_44 * a_50 - a_05 * a_11 * a_22 * a_34 * a_40 * a_53 + a_05 * a_11 * a_22 * a_34 * a_43 * a_50
      + a_05 * a_11 * a_23 * a_30 * a_42 * a_54 - a_05 * a_11 * a_23 * a_30 * a_44 * a_52 - a_05 * a_11 * a_23 * a_32 * a_40 * a_54
      + a_05 * a_11 * a_23 * a_32 * a_44 * a_50 + a_05 * a_11 * a_23 * a_34 * a_40 * a_52 - a_05 * a_11 * a_23 * a_34 * a_42 * a_50
      - a_05 * a_11 * a_24 * a_30 * a_42 * a_53 + a_05 * a_11 * a_24 * a_30 * a_43 * a_52 + a_05 * a_11 * a_24 * a_32 * a_40 * a_53
      - a_05 * a_11 * a_24 * a_32 * a_43 * a_50 - a_05 * a_11 * a_24 * a_33 * a_40 * a_52 + a_05 * a_11 * a_24 * a_33 * a_42 * a_50
      - a_05 * a_12 * a_20 * a_31 * a_43 * a_54 + a_05 * a_12 * a_20 * a_31 * a_44 * a_53 + a_05 * a_12 * a_20 * a_33 * a_41 * a_54
      - a_05 * a_12 * a_20 * a_33 * a_44 * a_51 - a_05 * a_12 * a_20 * a_34 * a_41 * a_53 + a_05 * a_12 * a_20 * a_34 * a_43 * a_51
      + a_05 * a_12 * a_21 * a_30 * a_43 * a_54 - a_05 * a_12 * a_21 * a_30 * a_44 * a_53 - a_05 * a_12 * a_21 * a_33 * a_40 * a_54
      + a_05 * a_12 * a_21 * a_33 * a_44 * a_50 + a_05 * a_12 * a_21 * a_34 * a_40 * a_53 - a_05 * a_12 * a_21 * a_34 * a_43 * a_50
      - a_05 * a_12 * a_23 * a_30 * a_41 * a_54 + a_05 * a_12 * a_23 * a_30 * a_44 * a_51 + a_05 * a_12 * a_23 * a_31 * a_40 * a_54
      - a_05 * a_12 * a_23 * a_31 * a_44 * a_50 - a_05 * a_12 * a_23 * a_34 * a_40 * a_51 + a_05 * a_12 * a_23 * a_34 * a_41 * a_50
      + a_05 * a_12 * a_24 * a_30 * a_41 * a_53 - a_05 * a_12 * a_24 * a_30 * a_43 * a_51 - a_05 * a_12 * a_24 * a_31 * a_40 * a_53
      + a_05 * a_12 * a_24 * a_31 * a_43 * a_50 + a_05 * a_12 * a_24 * a_33 * a_40 * a_51 - a_05 * a_12 * a_24 * a_33 * a_41 * a_50
      + a_05 * a_13 * a_20 * a_31 * a_42 * a_54 - a_05 * a_13 * a_20 * a_31 * a_44 * a_52 - a_05 * a_13 * a_20 * a_32 * a_41 * a_54
      + a_05 * a_13 * a_20 * a_32 * a_44 * a_51 + a_05 * a_13 * a_20 * a_34 * a_41 * a_52 - a_05 * a_13 * a_20 * a_34 * a_42 * a_51
      - a_05 * a_13 * a_21 * a_30 * a_42 * a_54 + a_05 * a_13 * a_21 * a_30 * a_44 * a_52 + a_05 * a_13 * a_21 * a_32 * a_40 * a_54
      - a_05 * a_13 * a_21 * a_32 * a_44 * a_50 - a_05 * a_13 * a_21 * a_34 * a_40 * a_52 + a_05 * a_13 * a_21 * a_34 * a_42 * a_50
      + a_05 * a_13 * a_22 * a_30 * a_41 * a_54 - a_05 * a_13 * a_22 * a_30 * a_44 * a_51 - a_05 * a_13 * a_22 * a_31 * a_40 * a_54
      + a_05 * a_13 * a_22 * a_31 * a_44 * a_50 + a_05 * a_13 * a_22 * a_34 * a_40 * a_51 - a_05 * a_13 * a_22 * a_34 * a_41 * a_50
      - a_05 * a_13 * a_24 * a_30 * a_41 * a_52 + a_05 * a_13 * a_24 * a_30 * a_42 * a_51 + a_05 * a_13 * a_24 * a_31 * a_40 * a_52
      - a_05 * a_13 * a_24 * a_31 * a_42 * a_50 - a_05 * a_13 * a_24 * a_32 * a_40 * a_51 + a_05 * a_13 * a_24 * a_32 * a_41 * a_50
      - a_05 * a_14 * a_20 * a_31 * a_42 * a_53 + a_05 * a_14 * a_20 * a_31 * a_43 * a_52 + a_05 * a_14 * a_20 * a_32 * a_41 * a_53
      - a_05 * a_14 * a_20 * a_32 * a_43 * a_51 - a_05 * a_14 * a_20 * a_33 * a_41 * a_52 + a_05 * a_14 * a_20 * a_33 * a_42 * a_51
      + a_05 * a_14 * a_21 * a_30 * a_42 * a_53 - a_05 * a_14 * a_21 * a_30 * a_43 * a_52 - a_05 * a_14 * a_21 * a_32 * a_40 * a_53
      + a_05 * a_14 * a_21 * a_32 * a_43 * a_50 + a_05 * a_14 * a_21 * a_33 * a_40 * a_52 - a_05 * a_14 * a_21 * a_33 * a_42 * a_50
      - a_05 * a_14 * a_22 * a_30 * a_41 * a_53 + a_05 * a_14 * a_22 * a_30 * a_43 * a_51 + a_05 * a_14 * a_22 * a_31 * a_40 * a_53
      - a_05 * a_14 * a_22 * a_31 * a_43 * a_50 - a_05 * a_14 * a_22 * a_33 * a_40 * a_51 + a_05 * a_14 * a_22 * a_33 * a_41 * a_50
      + a_05 * a_14 * a_23 * a_30 * a_41 * a_52 - a_05 * a_14 * a_23 * a_30 * a_42 * a_51 - a_05 * a_14 * a_23 * a_31 * a_40 * a_52
      + a_05 * a_14 * a_23 * a_31 * a_42 * a_50 + a_05 * a_14 * a_23 * a_32 * a_40 * a_51 - a_05 * a_14 * a_23 * a_32 * a_41 * a_50

/-- `src/matrix6x6.rs:1027-1155` -/
def M66.add (self rhs : Mat 6 T) : Mat 6 T :=
  let a_00 : T := self 0 0
  let a_01 : T := self 0 1
  let a_02 : T := self 0 2
  let a_03 : T := self 0 3
  let a_04 : T := self 0 4
  let a_05 : T := self 0 5
  let a_10 : T := self 1 0
  let a_11 : T := self 1 1
  let a_12 : T := self 1 2
  let a_13 : T := self 1 3
  let a_14 : T := self 1 4
  let a_15 : T := self 1 5
  let a_20 : T := self 2 0
  let a_21 : T := self 2 1
  let a_22 : T := self 2 2
  let a_23 : T := self 2 3
  let a_24 : T := self 2 4
  let a_25 : T := self 2 5
  let a_30 : T := self 3 0
  let a_31 : T := self 3 1
  let a_32 : T := self 3 2
  let a_33 : T := self 3 3
  let a_34 : T := self 3 4
  let a_35 : T := self 3 5
  let a_40 : T := self 4 0
  let a_41 : T := self 4 1
  let a_42 : T := self 4 2
  let a_43 : T := self 4 3
  let a_44 : T := self 4 4
  let a_45 : T := self 4 5
  let a_50 : T := self 5 0
  let a_51 : T := self 5 1
  let a_52 : T := self 5 2
  let a_53 : T := self 5 3
  let a_54 : T := self 5 4
  let a_55 : T := self 5 5
  let b_00 : T := rhs 0 0
  let b_01 : T := rhs 0 1
  let b_02 : T := rhs 0 2
  let b_03 : T := rhs 0 3
  let b_04 : T := rhs 0 4
  let b_05 : T := rhs 0 5
  let b_10 : T := rhs 1 0
  let b_11 : T := rhs 1 1
  let b_12 : T := rhs 1 2
  let b_13 : T := rhs 1 3
  let b_14 : T := rhs 1 4
  let b_15 : T := rhs 1 5
  let b_20 : T := rhs 2 0
  let b_21 : T := rhs 2 1
  let b_22 : T := rhs 2 2
  let b_23 : T := rhs 2 3
  let b_24 : T := rhs 2 4
  let b_25 : T := rhs 2 5
  let b_30 : T := rhs 3 0
  let b_31 : T := rhs 3 1
  let b_32 : T := rhs 3 2
  let b_33 : T := rhs 3 3
  let b_34 : T := rhs 3 4
  let b_35 : T := rhs 3 5
  let b_40 : T := rhs 4 0
  let b_41 : T := rhs 4 1
  let b_42 : T := rhs 4 2
  let b_43 : T := rhs 4 3
  let b_44 : T := rhs 4 4
  let b_45 : T := rhs 4 5
  let b_50 : T := rhs 5 0
  let b_51 : T := rhs 5 1
  let b_52 : T := rhs 5 2
  let b_53 : T := rhs 5 3
  let b_54 : T := rhs 5 4
  let b_55 : T := rhs 5 5
  ⟨![![a_00 + b_00, a_01 + b_01, a_02 + b_02, a_03 + b_03, a_04 + b_04, a_05 + b_05],
      ![a_10 + b_10, a_11 + b_11, a_12 + b_12, a_13 + b_13, a_14 + b_14, a_15 + b_15],
      ![a_20 + b_20, a_21 + b_21, a_22 + b_22, a_23 + b_23, a_24 + b_24, a_25 + b_25],
      ![a_30 + b_30, a_31 + b_31, a_32 + b_32, a_33 + b_33, a_34 + b_34, a_35 + b_35],
      ![a_40 + b_40, a_41 + b_41, a_42 + b_42, a_43 + b_43, a_44 + b_44, a_45 + b_45],
      ![a_50 + b_50, a_51 + b_51, a_52 + b_52, a_53 + b_53, a_54 + b_54, a_55 + b_55]]⟩

/-- `src/matrix6x6.rs:1166-1294` -/
def M66.sub (self rhs : Mat 6 T) : Mat 6 T :=
  let a_00 : T := self 0 0
  let a_01 : T := self 0 1
  let a_02 : T := self 0 2
  let a_03 : T := self 0 3
  let a_04 : T := self 0 4
  let a_05 : T := self 0 5
  let a_10 : T := self 1 0
  let a_11 : T := self 1 1
  let a_12 : T := self 1 2
  let a_13 : T := self 1 3
  let a_14 : T := self 1 4
  let a_15 : T := self 1 5
  let a_20 : T := self 2 0
  let a_21 : T := self 2 1
  let a_22 : T := self 2 2
  let a_23 : T := self 2 3
  let a_24 : T := self 2 4
  let a_25 : T := self 2 5
  let a_30 : T := self 3 0
  let a_31 : T := self 3 1
  let a_32 : T := self 3 2
  let a_33 : T := self 3 3
  let a_34 : T := self 3 4
  let a_35 : T := self 3 5
  let a_40 : T := self 4 0
  let a_41 : T := self 4 1
  let a_42 : T := self 4 2
  let a_43 : T := self 4 3
  let a_44 : T := self 4 4
  let a_45 : T := self 4 5
  let a_50 : T := self 5 0
  let a_51 : T := self 5 1
  let a_52 : T := self 5 2
  let a_53 : T := self 5 3
  let a_54 : T := self 5 4
  let a_55 : T := self 5 5
  let b_00 : T := rhs 0 0
  let b_01 : T := rhs 0 1
  let b_02 : T := rhs 0 2
  let b_03 : T := rhs 0 3
  let b_04 : T := rhs 0 4
  let b_05 : T := rhs 0 5
  let b_10 : T := rhs 1 0
  let b_11 : T := rhs 1 1
  let b_12 : T := rhs 1 2
  let b_13 : T := rhs 1 3
  let b_14 : T := rhs 1 4
  let b_15 : T := rhs 1 5
  let b_20 : T := rhs 2 0
  let b_21 : T := rhs 2 1
  let b_22 : T := rhs 2 2
  let b_23 : T := rhs 2 3
  let b_24 : T := rhs 2 4
  let b_25 : T := rhs 2 5
  let b_30 : T := rhs 3 0
  let b_31 : T := rhs 3 1
  let b_32 : T := rhs 3 2
  let b_33 : T := rhs 3 3
  let b_34 : T := rhs 3 4
  let b_35 : T := rhs 3 5
  let b_40 : T := rhs 4 0
  let b_41 : T := rhs 4 1
  let b_42 : T := rhs 4 2
  let b_43 : T := rhs 4 3
  let b_44 : T := rhs 4 4
  let b_45 : T := rhs 4 5
  let b_50 : T := rhs 5 0
  let b_51 : T := rhs 5 1
  let b_52 : T := rhs 5 2
  let b_53 : T := rhs 5 3
  let b_54 : T := rhs 5 4
  let b_55 : T := rhs 5 5
  ⟨![![a_00 - b_00, a_01 - b_01, a_02 - b_02, a_03 - b_03, a_04 - b_04, a_05 - b_05],
      ![a_10 - b_10, a_11 - b_11, a_12 - b_12, a_13 - b_13, a_14 - b_14, a_15 - b_15],
      ![a_20 - b_20, a_21 - b_21, a_22 - b_22, a_23 - b_23, a_24 - b_24, a_25 - b_25],
      ![a_30 - b_30, a_31 - b_31, a_32 - b_32, a_33 - b_33, a_34 - b_34, a_35 - b_35],
      ![a_40 - b_40, a_41 - b_41, a_42 - b_42, a_43 - b_43, a_44 - b_44, a_45 - b_45],
      ![a_50 - b_50, a_51 - b_51, a_52 - b_52, a_53 - b_53, a_54 - b_54, a_55 - b_55]]⟩

/-- `src/matrix6x6.rs:1305-1354` -/
def M66.smul (self : Mat 6 T) (rhs : T) : Mat 6 T :=
  let a_00 : T := self 0 0 * rhs
  let a_01 : T := self 0 1 * rhs
  let a_02 : T := self 0 2 * rhs
  let a_03 : T := self 0 3 * rhs
  let a_04 : T := self 0 4 * rhs
  let a_05 : T := self 0 5 * rhs
  let a_10 : T := self 1 0 * rhs
  let a_11 : T := self 1 1 * rhs
  let a_12 : T := self 1 2 * rhs
  let a_13 : T := self 1 3 * rhs
  let a_14 : T := self 1 4 * rhs
  let a_15 : T := self 1 5 * rhs
  let a_20 : T := self 2 0 * rhs
  let a_21 : T := self 2 1 * rhs
  let a_22 : T := self 2 2 * rhs
  let a_23 : T := self 2 3 * rhs
  let a_24 : T := self 2 4 * rhs
  let a_25 : T := self 2 5 * rhs
  let a_30 : T := self 3 0 * rhs
  let a_31 : T := self 3 1 * rhs
  let a_32 : T := self 3 2 * rhs
  let a_33 : T := self 3 3 * rhs
  let a_34 : T := self 3 4 * rhs
  let a_35 : T := self 3 5 * rhs
  let a_40 : T := self 4 0 * rhs
  let a_41 : T := self 4 1 * rhs
  let a_42 : T := self 4 2 * rhs
  let a_43 : T := self 4 3 * rhs
  let a_44 : T := self 4 4 * rhs
  let a_45 : T := self 4 5 * rhs
  let a_50 : T := self 5 0 * rhs
  let a_51 : T := self 5 1 * rhs
  let a_52 : T := self 5 2 * rhs
  let a_53 : T := self 5 3 * rhs
  let a_54 : T := self 5 4 * rhs
  let a_55 : T := self 5 5 * rhs
  ⟨![![a_00, a_01, a_02, a_03, a_04, a_05],
      ![a_10, a_11, a_12, a_13, a_14, a_15],
      ![a_20, a_21, a_22, a_23, a_24, a_25],
      ![a_30, a_31, a_32, a_33, a_34, a_35],
      ![a_40, a_41, a_42, a_43, a_44, a_45],
      ![a_50, a_51, a_52, a_53, a_54, a_55]]⟩

/-- `src/matrix6x6.rs:1358-1407` -/
def M66.sdiv (self : Mat 6 T) (rhs : T) : Mat 6 T :=
  let a_00 : T := self 0 0 / rhs
  let a_01 : T := self 0 1 / rhs
  let a_02 : T := self 0 2 / rhs
  let a_03 : T := self 0 3 / rhs
  let a_04 : T := self 0 4 / rhs
  let a_05 : T := self 0 5 / rhs
  let a_10 : T := self 1 0 / rhs
  let a_11 : T := self 1 1 / rhs
  let a_12 : T := self 1 2 / rhs
  let a_13 : T := self 1 3 / rhs
  let a_14 : T := self 1 4 / rhs
  let a_15 : T := self 1 5 / rhs
  let a_20 : T := self 2 0 / rhs
  let a_21 : T := self 2 1 / rhs
  let a_22 : T := self 2 2 / rhs
  let a_23 : T := self 2 3 / rhs
  let a_24 : T := self 2 4 / rhs
  let a_25 : T := self 2 5 / rhs
  let a_30 : T := self 3 0 / rhs
  let a_31 : T := self 3 1 / rhs
  let a_32 : T := self 3 2 / rhs
  let a_33 : T := self 3 3 / rhs
  let a_34 : T := self 3 4 / rhs
  let a_35 : T := self 3 5 / rhs
  let a_40 : T := self 4 0 / rhs
  let a_41 : T := self 4 1 / rhs
  let a_42 : T := self 4 2 / rhs
  let a_43 : T := self 4 3 / rhs
  let a_44 : T := self 4 4 / rhs
  let a_45 : T := self 4 5 / rhs
  let a_50 : T := self 5 0 / rhs
  let a_51 : T := self 5 1 / rhs
  let a_52 : T := self 5 2 / rhs
  let a_53 : T := self 5 3 / rhs
  let a_54 : T := self 5 4 / rhs
  let a_55 : T := self 5 5 / rhs
  ⟨![![a_00, a_01, a_02, a_03, a_04, a_05],
      ![a_10, a_11, a_12, a_13, a_14, a_15],
      ![a_20, a_21, a_22, a_23, a_24, a_25],
      ![a_30, a_31, a_32, a_33, a_34, a_35],
      ![a_40, a_41, a_42, a_43, a_44, a_45],
      ![a_50, a_51, a_52, a_53, a_54, a_55]]⟩

/-- `src/matrix6x6.rs:1464-1485` -/
def M66.mulVec (self : Mat 6 T) (rhs : Vec 6 T) : Vec 6 T :=
  let rhs_0 : T := rhs 0
  let rhs_1 : T := rhs 1
  let rhs_2 : T := rhs 2
  let rhs_3 : T := rhs 3
  let rhs_4 : T := rhs 4
  let rhs_5 : T := rhs 5
  let v0 : T := self 0 0 * rhs_0 + self 0 1 * rhs_1 + self 0 2 * rhs_2 + self 0 3 * rhs_3 + self 0 4 * rhs_4 + self 0 5 * rhs_5
  let v1 : T := self 1 0 * rhs_0 + self 1 1 * rhs_1 + self 1 2 * rhs_2 + self 1 3 * rhs_3 + self 1 4 * rhs_4 + self 1 5 * rhs_5
  let v2 : T := self 2 0 * rhs_0 + self 2 1 * rhs_1 + self 2 2 * rhs_2 + self 2 3 * rhs_3 + self 2 4 * rhs_4 + self 2 5 * rhs_5
  let v3 : T := self 3 0 * rhs_0 + self 3 1 * rhs_1 + self 3 2 * rhs_2 + self 3 3 * rhs_3 + self 3 4 * rhs_4 + self 3 5 * rhs_5
  let v4 : T := self 4 0 * rhs_0 + self 4 1 * rhs_1 + self 4 2 * rhs_2 + self 4 3 * rhs_3 + self 4 4 * rhs_4 + self 4 5 * rhs_5
  let v5 : T := self 5 0 * rhs_0 + self 5 1 * rhs_1 + self 5 2 * rhs_2 + self 5 3 * rhs_3 + self 5 4 * rhs_4 + self 5 5 * rhs_5
  ⟨![v0, v1, v2, v3, v4, v5]⟩

/-- `src/matrix6x6.rs:1490-1618` -/
def M66.mul (self rhs : Mat 6 T) : Mat 6 T :=
  let a_00 : T := self 0 0
  let a_01 : T := self 0 1
  let a_02 : T := self 0 2
  let a_03 : T := self 0 3
  let a_04 : T := self 0 4
  let a_05 : T := self 0 5
  let a_10 : T := self 1 0
  let a_11 : T := self 1 1
  let a_12 : T := self 1 2
  let a_13 : T := self 1 3
  let a_14 : T := self 1 4
  let a_15 : T := self 1 5
  let a_20 : T := self 2 0
  let a_21 : T := self 2 1
  let a_22 : T := self 2 2
  let a_23 : T := self 2 3
  let a_24 : T := self 2 4
  let a_25 : T := self 2 5
  let a_30 : T := self 3 0
  let a_31 : T := self 3 1
  let a_32 : T := self 3 2
  let a_33 : T := self 3 3
  let a_34 : T := self 3 4
  let a_35 : T := self 3 5
  let a_40 : T := self 4 0
  let a_41 : T := self 4 1
  let a_42 : T := self 4 2
  let a_43 : T := self 4 3
  let a_44 : T := self 4 4
  let a_45 : T := self 4 5
  let a_50 : T := self 5 0
  let a_51 : T := self 5 1
  let a_52 : T := self 5 2
  let a_53 : T := self 5 3
  let a_54 : T := self 5 4
  let a_55 : T := self 5 5
  let b_00 : T := rhs 0 0
  let b_01 : T := rhs 0 1
  let b_02 : T := rhs 0 2
  let b_03 : T := rhs 0 3
  let b_04 : T := rhs 0 4
  let b_05 : T := rhs 0 5
  let b_10 : T := rhs 1 0
  let b_11 : T := rhs 1 1
  let b_12 : T := rhs 1 2
  let b_13 : T := rhs 1 3
  let b_14 : T := rhs 1 4
  let b_15 : T := rhs 1 5
  let b_20 : T := rhs 2 0
  let b_21 : T := rhs 2 1
  let b_22 : T := rhs 2 2
  let b_23 : T := rhs 2 3
  let b_24 : T := rhs 2 4
  let b_25 : T := rhs 2 5
  let b_30 : T := rhs 3 0
  let b_31 : T := rhs 3 1
  let b_32 : T := rhs 3 2
  let b_33 : T := rhs 3 3
  let b_34 : T := rhs 3 4
  let b_35 : T := rhs 3 5
  let b_40 : T := rhs 4 0
  let b_41 : T := rhs 4 1
  let b_42 : T := rhs 4 2
  let b_43 : T := rhs 4 3
  let b_44 : T := rhs 4 4
  let b_45 : T := rhs 4 5
  let b_50 : T := rhs 5 0
  let b_51 : T := rhs 5 1
  let b_52 : T := rhs 5 2
  let b_53 : T := rhs 5 3
  let b_54 : T := rhs 5 4
  let b_55 : T := rhs 5 5
  ⟨![![a_00 * b_00 + a_01 * b_10 + a_02 * b_20 + a_03 * b_30 + a_04 * b_40 + a_05 * b_50,
       a_00 * b_01 + a_01 * b_11 + a_02 * b_21 + a_03 * b_31 + a_04 * b_41 + a_05 * b_51,
       a_00 * b_02 + a_01 * b_12 + a_02 * b_22 + a_03 * b_32 + a_04 * b_42 + a_05 * b_52,
       a_00 * b_03 + a_01 * b_13 + a_02 * b_23 + a_03 * b_33 + a_04 * b_43 + a_05 * b_53,
       a_00 * b_04 + a_01 * b_14 + a_02 * b_24 + a_03 * b_34 + a_04 * b_44 + a_05 * b_54,
       a_00 * b_05 + a_01 * b_15 + a_02 * b_25 + a_03 * b_35 + a_04 * b_45 + a_05 * b_55],
      ![a_10 * b_00 + a_11 * b_10 + a_12 * b_20 + a_13 * b_30 + a_14 * b_40 + a_15 * b_50,
       a_10 * b_01 + a_11 * b_11 + a_12 * b_21 + a_13 * b_31 + a_14 * b_41 + a_15 * b_51,
       a_10 * b_02 + a_11 * b_12 + a_12 * b_22 + a_13 * b_32 + a_14 * b_42 + a_15 * b_52,
       a_10 * b_03 + a_11 * b_13 + a_12 * b_23 + a_13 * b_33 + a_14 * b_43 + a_15 * b_53,
       a_10 * b_04 + a_11 * b_14 + a_12 * b_24 + a_13 * b_34 + a_14 * b_44 + a_15 * b_54,
       a_10 * b_05 + a_11 * b_15 + a_12 * b_25 + a_13 * b_35 + a_14 * b_45 + a_15 * b_55],
      ![a_20 * b_00 + a_21 * b_10 + a_22 * b_20 + a_23 * b_30 + a_24 * b_40 + a_25 * b_50,
       a_20 * b_01 + a_21 * b_11 + a_22 * b_21 + a_23 * b_31 + a_24 * b_41 + a_25 * b_51,
       a_20 * b_02 + a_21 * b_12 + a_22 * b_22 + a_23 * b_32 + a_24 * b_42 + a_25 * b_52,
       a_20 * b_03 + a_21 * b_13 + a_22 * b_23 + a_23 * b_33 + a_24 * b_43 + a_25 * b_53,
       a_20 * b_04 + a_21 * b_14 + a_22 * b_24 + a_23 * b_34 + a_24 * b_44 + a_25 * b_54,
       a_20 * b_05 + a_21 * b_15 + a_22 * b_25 + a_23 * b_35 + a_24 * b_45 + a_25 * b_55],
      ![a_30 * b_00 + a_31 * b_10 + a_32 * b_20 + a_33 * b_30 + a_34 * b_40 + a_35 * b_50,
       a_30 * b_01 + a_31 * b_11 + a_32 * b_21 + a_33 * b_31 + a_34 * b_41 + a_35 * b_51,
       a_30 * b_02 + a_31 * b_12 + a_32 * b_22 + a_33 * b_32 + a_34 * b_42 + a_35 * b_52,
       a_30 * b_03 + a_31 * b_13 + a_32 * b_23 + a_33 * b_33 + a_34 * b_43 + a_35 * b_53,
       a_30 * b_04 + a_31 * b_14 + a_32 * b_24 + a_33 * b_34 + a_34 * b_44 + a_35 * b_54,
       a_30 * b_05 + a_31 * b_15 + a_32 * b_25 + a_33 * b_35 + a_34 * b_45 + a_35 * b_55],
      ![a_40 * b_00 + a_41 * b_10 + a_42 * b_20 + a_43 * b_30 + a_44 * b_40 + a_45 * b_50,
       a_40 * b_01 + a_41 * b_11 + a_42 * b_21 + a_43 * b_31 + a_44 * b_41 + a_45 * b_51,
       a_40 * b_02 + a_41 * b_12 + a_42 * b_22 + a_43 * b_32 + a_44 * b_42 + a_45 * b_52,
       a_40 * b_03 + a_41 * b_13 + a_42 * b_23 + a_43 * b_33 + a_44 * b_43 + a_45 * b_53,
       a_40 * b_04 + a_41 * b_14 + a_42 * b_24 + a_43 * b_34 + a_44 * b_44 + a_45 * b_54,
       a_40 * b_05 + a_41 * b_15 + a_42 * b_25 + a_43 * b_35 + a_44 * b_45 + a_45 * b_55],
      ![a_50 * b_00 + a_51 * b_10 + a_52 * b_20 + a_53 * b_30 + a_54 * b_40 + a_55 * b_50,
       a_50 * b_01 + a_51 * b_11 + a_52 * b_21 + a_53 * b_31 + a_54 * b_41 + a_55 * b_51,
       a_50 * b_02 + a_51 * b_12 + a_52 * b_22 + a_53 * b_32 + a_54 * b_42 + a_55 * b_52,
       a_50 * b_03 + a_51 * b_13 + a_52 * b_23 + a_53 * b_33 + a_54 * b_43 + a_55 * b_53,
       a_50 * b_04 + a_51 * b_14 + a_52 * b_24 + a_53 * b_34 + a_54 * b_44 + a_55 * b_54,
       a_50 * b_05 + a_51 * b_15 + a_52 * b_25 + a_53 * b_35 + a_54 * b_45 + a_55 * b_55]]⟩

/-- `src/matrix6x6.rs:1411-1460` -/
def M66.neg (self : Mat 6 T) : Mat 6 T :=
  let a_00 : T := -self 0 0
  let a_01 : T := -self 0 1
  let a_02 : T := -self 0 2
  let a_03 : T := -self 0 3
  let a_04 : T := -self 0 4
  let a_05 : T := -self 0 5
  let a_10 : T := -self 1 0
  let a_11 : T := -self 1 1
  let a_12 : T := -self 1 2
  let a_13 : T := -self 1 3
  let a_14 : T := -self 1 4
  let a_15 : T := -self 1 5
  let a_20 : T := -self 2 0
  let a_21 : T := -self 2 1
  let a_22 : T := -self 2 2
  let a_23 : T := -self 2 3
  let a_24 : T := -self 2 4
  let a_25 : T := -self 2 5
  let a_30 : T := -self 3 0
  let a_31 : T := -self 3 1
  let a_32 : T := -self 3 2
  let a_33 : T := -self 3 3
  let a_34 : T := -self 3 4
  let a_35 : T := -self 3 5
  let a_40 : T := -self 4 0
  let a_41 : T := -self 4 1
  let a_42 : T := -self 4 2
  let a_43 : T := -self 4 3
  let a_44 : T := -self 4 4
  let a_45 : T := -self 4 5
  let a_50 : T := -self 5 0
  let a_51 : T := -self 5 1
  let a_52 : T := -self 5 2
  let a_53 : T := -self 5 3
  let a_54 : T := -self 5 4
  let a_55 : T := -self 5 5
  ⟨![![a_00, a_01, a_02, a_03, a_04, a_05],
      ![a_10, a_11, a_12, a_13, a_14, a_15],
      ![a_20, a_21, a_22, a_23, a_24, a_25],
      ![a_30, a_31, a_32, a_33, a_34, a_35],
      ![a_40, a_41, a_42, a_43, a_44, a_45],
      ![a_50, a_51, a_52, a_53, a_54, a_55]]⟩

end StaticMath
