import Verif.Model.Utils
import Verif.Model.GenVec
import Verif.Model.GenM22
import Verif.Model.GenM33
import Verif.Model.GenM44
import Verif.Model.GenM55
import Verif.Model.GenM66

/-! Generated by `tools/rs2lean_loops.py` from the Rust text; every definition cites its source
lines. Array accesses and explicit panics are modelled; `rows()`/`cols()` are the size. -/

namespace StaticMath

set_option linter.unusedVariables false


variable {T : Type} [Add T] [Sub T] [Mul T] [Div T] [Neg T] [Zero T] [One T]
  [RAbs T] [ROrd T] [RFloat T]

/-- `src/matrix2x2.rs:162-170` -/
def M22.new_from_vecs (cols : Vec 2 (Vec 2 T)) : MayPanic (Mat 2 T) := do
  let result : Mat 2 T := M22.zero
  let result ← forRange 0 2 result fun i result => do
    let result ← result.set i 0 ((← (← cols.get 0).get i))
    let result ← result.set i 1 ((← (← cols.get 1).get i))
    pure result
  pure (result)

/-- `src/matrix2x2.rs:173-185` -/
def M22.get_diagonal (self : Mat 2 T) : MayPanic (Vec 2 T) := do
  let result : Vec 2 T := V2.zero
  let index : ℕ := 0
  let (result, index) ← forRange 0 2 (result, index) fun i (result, index) => do
    let (result, index) ← forRange 0 2 (result, index) fun j (result, index) => do
      let (result, index) ← if i = j then do
          let result ← result.set index ((← self.get i j))
          let index := index + 1
          pure (result, index)
        else pure (result, index)
      pure (result, index)
    pure (result, index)
  pure (result)

/-- `src/matrix2x2.rs:246-256` -/
def M22.get_rows (self : Mat 2 T) : MayPanic (Vec 2 (Vec 2 T)) := do
  let r0 : Vec 2 T := V2.zero
  let r1 : Vec 2 T := V2.zero
  let (r0, r1) ← forRange 0 2 (r0, r1) fun j (r0, r1) => do
    let r0 ← r0.set j ((← self.get 0 j))
    let r1 ← r1.set j ((← self.get 1 j))
    pure (r0, r1)
  pure (⟨![r0, r1]⟩)

/-- `src/matrix2x2.rs:259-269` -/
def M22.get_cols (self : Mat 2 T) : MayPanic (Vec 2 (Vec 2 T)) := do
  let c0 : Vec 2 T := V2.zero
  let c1 : Vec 2 T := V2.zero
  let (c0, c1) ← forRange 0 2 (c0, c1) fun i (c0, c1) => do
    let c0 ← c0.set i ((← self.get i 0))
    let c1 ← c1.set i ((← self.get i 1))
    pure (c0, c1)
  pure (⟨![c0, c1]⟩)

/-- `src/matrix2x2.rs:272-280` -/
def M22.for_each (self : Mat 2 T) (f : T → T) : MayPanic (Mat 2 T) := do
  let result : Mat 2 T := M22.zero
  let result ← forRange 0 2 result fun i result => do
    let result ← forRange 0 2 result fun j result => do
      let result ← result.set i j (f (← self.get i j))
      pure result
    pure result
  pure (result)

/-- `src/matrix2x2.rs:104-115` -/
def M22.inverse (self : Mat 2 T) : MayPanic (Option (Mat 2 T)) := do
  let det := M22.det self
  if !nearly_zero det then do
    let det_recip := RFloat.recip det
    pure (some (⟨![![(← self.get 1 1) * det_recip, -(← self.get 0 1) * det_recip], ![-(← self.get 1 0) * det_recip, (← self.get 0 0) * det_recip]]⟩))
  else do
    pure (none)

/-- `src/matrix2x2.rs:285-340` -/
def M22.lu (self : Mat 2 T) : MayPanic (Mat 2 T × T × Vec 2 ℕ) := do
  let tiny : T := RFloat.lit1em40
  let indx : Vec 2 ℕ := V2.zero
  let lu := self
  let vv : Vec 2 T := V2.zero
  let d : T := 1
  let big : T := 0
  let (big, vv) ← forRange 0 2 (big, vv) fun i (big, vv) => do
    let big ← forRange 0 2 big fun j big => do
      let temp := RAbs.abs (← lu.get i j)
      let big ← if ROrd.lt big temp then do
          let big := temp
          pure big
        else pure big
      pure big
    if ROrd.beq big 0 then do
      throw (Panic.explicit "the matrix should be non zero")
    let vv ← vv.set i (RFloat.recip big)
    pure (big, vv)
  let (big, lu, d, vv, indx) ← forRange 0 2 (big, lu, d, vv, indx) fun k (big, lu, d, vv, indx) => do
    let big := 0
    let i_max := k
    let (big, i_max) ← forRange k 2 (big, i_max) fun i (big, i_max) => do
      let temp := (← vv.get i) * RAbs.abs (← lu.get i k)
      let (big, i_max) ← if ROrd.lt big temp then do
          let big := temp
          let i_max := i
          pure (big, i_max)
        else pure (big, i_max)
      pure (big, i_max)
    let (lu, d, vv) ← if k ≠ i_max then do
        let lu ← forRange 0 2 lu fun j lu => do
          let temp := (← lu.get i_max j)
          let lu ← lu.set i_max j ((← lu.get k j))
          let lu ← lu.set k j (temp)
          pure lu
        let d := -d
        let vv ← vv.set i_max ((← vv.get k))
        pure (lu, d, vv)
      else pure (lu, d, vv)
    let indx ← indx.set k (i_max)
    let lu ← if ROrd.beq (← lu.get k k) 0 then do
        let lu ← lu.set k k (tiny)
        pure lu
      else pure lu
    let lu ← forRange (k + 1) 2 lu fun i lu => do
      let lu ← lu.set i k ((← lu.get i k) / (← lu.get k k))
      let lu ← forRange (k + 1) 2 lu fun j lu => do
        let lu ← lu.set i j ((← lu.get i j) - (← lu.get i k) * (← lu.get k j))
        pure lu
      pure lu
    pure (big, lu, d, vv, indx)
  let det := d * (← lu.get 0 0) * (← lu.get 1 1)
  pure ((lu, det, indx))

/-- `src/matrix3x3.rs:234-243` -/
def M33.new_from_vecs (cols : Vec 3 (Vec 3 T)) : MayPanic (Mat 3 T) := do
  let result : Mat 3 T := M33.zero
  let result ← forRange 0 3 result fun i result => do
    let result ← result.set i 0 ((← (← cols.get 0).get i))
    let result ← result.set i 1 ((← (← cols.get 1).get i))
    let result ← result.set i 2 ((← (← cols.get 2).get i))
    pure result
  pure (result)

/-- `src/matrix3x3.rs:246-258` -/
def M33.get_diagonal (self : Mat 3 T) : MayPanic (Vec 3 T) := do
  let result : Vec 3 T := V3.zero
  let index : ℕ := 0
  let (result, index) ← forRange 0 3 (result, index) fun i (result, index) => do
    let (result, index) ← forRange 0 3 (result, index) fun j (result, index) => do
      let (result, index) ← if i = j then do
          let result ← result.set index ((← self.get i j))
          let index := index + 1
          pure (result, index)
        else pure (result, index)
      pure (result, index)
    pure (result, index)
  pure (result)

/-- `src/matrix3x3.rs:304-315` -/
def M33.get_rows (self : Mat 3 T) : MayPanic (Vec 3 (Vec 3 T)) := do
  let r0 : Vec 3 T := V3.zero
  let r1 : Vec 3 T := V3.zero
  let r2 : Vec 3 T := V3.zero
  let (r0, r1, r2) ← forRange 0 3 (r0, r1, r2) fun j (r0, r1, r2) => do
    let r0 ← r0.set j ((← self.get 0 j))
    let r1 ← r1.set j ((← self.get 1 j))
    let r2 ← r2.set j ((← self.get 2 j))
    pure (r0, r1, r2)
  pure (⟨![r0, r1, r2]⟩)

/-- `src/matrix3x3.rs:318-329` -/
def M33.get_cols (self : Mat 3 T) : MayPanic (Vec 3 (Vec 3 T)) := do
  let c0 : Vec 3 T := V3.zero
  let c1 : Vec 3 T := V3.zero
  let c2 : Vec 3 T := V3.zero
  let (c0, c1, c2) ← forRange 0 3 (c0, c1, c2) fun i (c0, c1, c2) => do
    let c0 ← c0.set i ((← self.get i 0))
    let c1 ← c1.set i ((← self.get i 1))
    let c2 ← c2.set i ((← self.get i 2))
    pure (c0, c1, c2)
  pure (⟨![c0, c1, c2]⟩)

/-- `src/matrix3x3.rs:291-299` -/
def M33.for_each (self : Mat 3 T) (f : T → T) : MayPanic (Mat 3 T) := do
  let result : Mat 3 T := M33.zero
  let result ← forRange 0 3 result fun i result => do
    let result ← forRange 0 3 result fun j result => do
      let result ← result.set i j (f (← self.get i j))
      pure result
    pure result
  pure (result)

/-- `src/matrix3x3.rs:260-273` -/
def M33.get_upper_triagular (self : Mat 3 T) : MayPanic (Vec 3 T) := do
  let zero : T := 0
  let result : Vec 3 T := Vec.rep 3 zero
  let index : ℕ := 0
  let (result, index) ← forRange 0 3 (result, index) fun i (result, index) => do
    let (result, index) ← forRange 0 3 (result, index) fun j (result, index) => do
      let (result, index) ← if i < j then do
          let result ← result.set index ((← self.get i j))
          let index := index + 1
          pure (result, index)
        else pure (result, index)
      pure (result, index)
    pure (result, index)
  pure (result)

/-- `src/matrix3x3.rs:275-288` -/
def M33.get_lower_triangular (self : Mat 3 T) : MayPanic (Vec 3 T) := do
  let zero : T := 0
  let result : Vec 3 T := Vec.rep 3 zero
  let index : ℕ := 0
  let (result, index) ← forRange 0 3 (result, index) fun i (result, index) => do
    let (result, index) ← forRange 0 3 (result, index) fun j (result, index) => do
      let (result, index) ← if i > j then do
          let result ← result.set index ((← self.get i j))
          let index := index + 1
          pure (result, index)
        else pure (result, index)
      pure (result, index)
    pure (result, index)
  pure (result)

/-- `src/matrix3x3.rs:111-129` -/
def M33.inverse (self : Mat 3 T) : MayPanic (Option (Mat 3 T)) := do
  let det := M33.det self
  if !nearly_zero det then do
    let invdet := RFloat.recip det
    let res : Mat 3 T := M33.zero
    let res ← res.set 0 0 (((← self.get 1 1) * (← self.get 2 2) - (← self.get 2 1) * (← self.get 1 2)) * invdet)
    let res ← res.set 0 1 (((← self.get 0 2) * (← self.get 2 1) - (← self.get 0 1) * (← self.get 2 2)) * invdet)
    let res ← res.set 0 2 (((← self.get 0 1) * (← self.get 1 2) - (← self.get 0 2) * (← self.get 1 1)) * invdet)
    let res ← res.set 1 0 (((← self.get 1 2) * (← self.get 2 0) - (← self.get 1 0) * (← self.get 2 2)) * invdet)
    let res ← res.set 1 1 (((← self.get 0 0) * (← self.get 2 2) - (← self.get 0 2) * (← self.get 2 0)) * invdet)
    let res ← res.set 1 2 (((← self.get 1 0) * (← self.get 0 2) - (← self.get 0 0) * (← self.get 1 2)) * invdet)
    let res ← res.set 2 0 (((← self.get 1 0) * (← self.get 2 1) - (← self.get 2 0) * (← self.get 1 1)) * invdet)
    let res ← res.set 2 1 (((← self.get 2 0) * (← self.get 0 1) - (← self.get 0 0) * (← self.get 2 1)) * invdet)
    let res ← res.set 2 2 (((← self.get 0 0) * (← self.get 1 1) - (← self.get 1 0) * (← self.get 0 1)) * invdet)
    pure (some res)
  else do
    pure (none)

/-- `src/matrix3x3.rs:157-210` -/
def M33.lu (self : Mat 3 T) : MayPanic (Mat 3 T × T × Vec 3 ℕ) := do
  let tiny : T := RFloat.lit1em40
  let indx : Vec 3 ℕ := V3.zero
  let lu := self
  let vv : Vec 3 T := V3.zero
  let d : T := 1
  let big : T := 0
  let (big, vv) ← forRange 0 3 (big, vv) fun i (big, vv) => do
    let big ← forRange 0 3 big fun j big => do
      let temp := RAbs.abs (← lu.get i j)
      let big ← if ROrd.lt big temp then do
          let big := temp
          pure big
        else pure big
      pure big
    if ROrd.beq big 0 then do
      throw (Panic.explicit "the matrix should be non zero")
    let vv ← vv.set i (RFloat.recip big)
    pure (big, vv)
  let (big, lu, d, vv, indx) ← forRange 0 3 (big, lu, d, vv, indx) fun k (big, lu, d, vv, indx) => do
    let big := 0
    let i_max := k
    let (big, i_max) ← forRange k 3 (big, i_max) fun i (big, i_max) => do
      let temp := (← vv.get i) * RAbs.abs (← lu.get i k)
      let (big, i_max) ← if ROrd.lt big temp then do
          let big := temp
          let i_max := i
          pure (big, i_max)
        else pure (big, i_max)
      pure (big, i_max)
    let (lu, d, vv) ← if k ≠ i_max then do
        let lu ← forRange 0 3 lu fun j lu => do
          let temp := (← lu.get i_max j)
          let lu ← lu.set i_max j ((← lu.get k j))
          let lu ← lu.set k j (temp)
          pure lu
        let d := -d
        let vv ← vv.set i_max ((← vv.get k))
        pure (lu, d, vv)
      else pure (lu, d, vv)
    let indx ← indx.set k (i_max)
    let lu ← if ROrd.beq (← lu.get k k) 0 then do
        let lu ← lu.set k k (tiny)
        pure lu
      else pure lu
    let lu ← forRange (k + 1) 3 lu fun i lu => do
      let lu ← lu.set i k ((← lu.get i k) / (← lu.get k k))
      let lu ← forRange (k + 1) 3 lu fun j lu => do
        let lu ← lu.set i j ((← lu.get i j) - (← lu.get i k) * (← lu.get k j))
        pure lu
      pure lu
    pure (big, lu, d, vv, indx)
  let det := d * (← lu.get 0 0) * (← lu.get 1 1) * (← lu.get 2 2)
  pure ((lu, det, indx))

/-- `src/matrix4x4.rs:308-318` -/
def M44.new_from_vecs (cols : Vec 4 (Vec 4 T)) : MayPanic (Mat 4 T) := do
  let result : Mat 4 T := M44.zero
  let result ← forRange 0 4 result fun i result => do
    let result ← result.set i 0 ((← (← cols.get 0).get i))
    let result ← result.set i 1 ((← (← cols.get 1).get i))
    let result ← result.set i 2 ((← (← cols.get 2).get i))
    let result ← result.set i 3 ((← (← cols.get 3).get i))
    pure result
  pure (result)

/-- `src/matrix4x4.rs:321-333` -/
def M44.get_diagonal (self : Mat 4 T) : MayPanic (Vec 4 T) := do
  let result : Vec 4 T := V4.zero
  let index : ℕ := 0
  let (result, index) ← forRange 0 4 (result, index) fun i (result, index) => do
    let (result, index) ← forRange 0 4 (result, index) fun j (result, index) => do
      let (result, index) ← if i = j then do
          let result ← result.set index ((← self.get i j))
          let index := index + 1
          pure (result, index)
        else pure (result, index)
      pure (result, index)
    pure (result, index)
  pure (result)

/-- `src/matrix4x4.rs:360-373` -/
def M44.get_rows (self : Mat 4 T) : MayPanic (Vec 4 (Vec 4 T)) := do
  let r0 : Vec 4 T := V4.zero
  let r1 : Vec 4 T := V4.zero
  let r2 : Vec 4 T := V4.zero
  let r3 : Vec 4 T := V4.zero
  let (r0, r1, r2, r3) ← forRange 0 4 (r0, r1, r2, r3) fun j (r0, r1, r2, r3) => do
    let r0 ← r0.set j ((← self.get 0 j))
    let r1 ← r1.set j ((← self.get 1 j))
    let r2 ← r2.set j ((← self.get 2 j))
    let r3 ← r3.set j ((← self.get 3 j))
    pure (r0, r1, r2, r3)
  pure (⟨![r0, r1, r2, r3]⟩)

/-- `src/matrix4x4.rs:375-388` -/
def M44.get_cols (self : Mat 4 T) : MayPanic (Vec 4 (Vec 4 T)) := do
  let c0 : Vec 4 T := V4.zero
  let c1 : Vec 4 T := V4.zero
  let c2 : Vec 4 T := V4.zero
  let c3 : Vec 4 T := V4.zero
  let (c0, c1, c2, c3) ← forRange 0 4 (c0, c1, c2, c3) fun i (c0, c1, c2, c3) => do
    let c0 ← c0.set i ((← self.get i 0))
    let c1 ← c1.set i ((← self.get i 1))
    let c2 ← c2.set i ((← self.get i 2))
    let c3 ← c3.set i ((← self.get i 3))
    pure (c0, c1, c2, c3)
  pure (⟨![c0, c1, c2, c3]⟩)

/-- `src/matrix4x4.rs:421-429` -/
def M44.for_each (self : Mat 4 T) (f : T → T) : MayPanic (Mat 4 T) := do
  let result : Mat 4 T := M44.zero
  let result ← forRange 0 4 result fun i result => do
    let result ← forRange 0 4 result fun j result => do
      let result ← result.set i j (f (← self.get i j))
      pure result
    pure result
  pure (result)

/-- `src/matrix4x4.rs:390-403` -/
def M44.get_upper_triagular (self : Mat 4 T) : MayPanic (Vec 6 T) := do
  let zero : T := 0
  let result : Vec 6 T := Vec.rep 6 zero
  let index : ℕ := 0
  let (result, index) ← forRange 0 4 (result, index) fun i (result, index) => do
    let (result, index) ← forRange 0 4 (result, index) fun j (result, index) => do
      let (result, index) ← if i < j then do
          let result ← result.set index ((← self.get i j))
          let index := index + 1
          pure (result, index)
        else pure (result, index)
      pure (result, index)
    pure (result, index)
  pure (result)

/-- `src/matrix4x4.rs:405-418` -/
def M44.get_lower_triangular (self : Mat 4 T) : MayPanic (Vec 6 T) := do
  let zero : T := 0
  let result : Vec 6 T := Vec.rep 6 zero
  let index : ℕ := 0
  let (result, index) ← forRange 0 4 (result, index) fun i (result, index) => do
    let (result, index) ← forRange 0 4 (result, index) fun j (result, index) => do
      let (result, index) ← if i > j then do
          let result ← result.set index ((← self.get i j))
          let index := index + 1
          pure (result, index)
        else pure (result, index)
      pure (result, index)
    pure (result, index)
  pure (result)

/-- `src/matrix4x4.rs:337-358` -/
def M44.get_submatrix (self : Mat 4 T) (selected : ℕ × ℕ) : MayPanic (Mat 3 T) := do
  let values : Vec 9 T := Vec.rep 9 0
  let result : Mat 3 T := M33.zero
  let index : ℕ := 0
  let (values, index) ← forRange 0 4 (values, index) fun i (values, index) => do
    let (values, index) ← forRange 0 4 (values, index) fun j (values, index) => do
      let (values, index) ← if ¬(i = selected.1 ∨ j = selected.2) then do
          let values ← values.set index ((← self.get i j))
          let index := index + 1
          pure (values, index)
        else pure (values, index)
      pure (values, index)
    pure (values, index)
  let index := 0
  let (result, index) ← forRange 0 3 (result, index) fun r (result, index) => do
    let (result, index) ← forRange 0 3 (result, index) fun c (result, index) => do
      let result ← result.set r c ((← values.get index))
      let index := index + 1
      pure (result, index)
    pure (result, index)
  pure (result)

/-- `src/matrix4x4.rs:170-203` -/
def M44.inverse (self : Mat 4 T) : MayPanic (Option (Mat 4 T)) := do
  let det := M44.det self
  if !nearly_zero det then do
    let det_recip := RFloat.recip det
    let a1 := M33.det (← M44.get_submatrix self (0, 0)) * det_recip
    let a2 := -M33.det (← M44.get_submatrix self (1, 0)) * det_recip
    let a3 := M33.det (← M44.get_submatrix self (2, 0)) * det_recip
    let a4 := -M33.det (← M44.get_submatrix self (3, 0)) * det_recip
    let a5 := -M33.det (← M44.get_submatrix self (0, 1)) * det_recip
    let a6 := M33.det (← M44.get_submatrix self (1, 1)) * det_recip
    let a7 := -M33.det (← M44.get_submatrix self (2, 1)) * det_recip
    let a8 := M33.det (← M44.get_submatrix self (3, 1)) * det_recip
    let a9 := M33.det (← M44.get_submatrix self (0, 2)) * det_recip
    let a10 := -M33.det (← M44.get_submatrix self (1, 2)) * det_recip
    let a11 := M33.det (← M44.get_submatrix self (2, 2)) * det_recip
    let a12 := -M33.det (← M44.get_submatrix self (3, 2)) * det_recip
    let a13 := -M33.det (← M44.get_submatrix self (0, 3)) * det_recip
    let a14 := M33.det (← M44.get_submatrix self (1, 3)) * det_recip
    let a15 := -M33.det (← M44.get_submatrix self (2, 3)) * det_recip
    let a16 := M33.det (← M44.get_submatrix self (3, 3)) * det_recip
    pure (some (⟨![![a1, a2, a3, a4], ![a5, a6, a7, a8], ![a9, a10, a11, a12], ![a13, a14, a15, a16]]⟩))
  else do
    pure (none)

/-- `src/matrix4x4.rs:232-285` -/
def M44.lu (self : Mat 4 T) : MayPanic (Mat 4 T × T × Vec 4 ℕ) := do
  let tiny : T := RFloat.lit1em40
  let indx : Vec 4 ℕ := V4.zero
  let lu := self
  let vv : Vec 4 T := V4.zero
  let d : T := 1
  let big : T := 0
  let (big, vv) ← forRange 0 4 (big, vv) fun i (big, vv) => do
    let big ← forRange 0 4 big fun j big => do
      let temp := RAbs.abs (← lu.get i j)
      let big ← if ROrd.lt big temp then do
          let big := temp
          pure big
        else pure big
      pure big
    if ROrd.beq big 0 then do
      throw (Panic.explicit "the matrix should be non zero")
    let vv ← vv.set i (RFloat.recip big)
    pure (big, vv)
  let (big, lu, d, vv, indx) ← forRange 0 4 (big, lu, d, vv, indx) fun k (big, lu, d, vv, indx) => do
    let big := 0
    let i_max := k
    let (big, i_max) ← forRange k 4 (big, i_max) fun i (big, i_max) => do
      let temp := (← vv.get i) * RAbs.abs (← lu.get i k)
      let (big, i_max) ← if ROrd.lt big temp then do
          let big := temp
          let i_max := i
          pure (big, i_max)
        else pure (big, i_max)
      pure (big, i_max)
    let (lu, d, vv) ← if k ≠ i_max then do
        let lu ← forRange 0 4 lu fun j lu => do
          let temp := (← lu.get i_max j)
          let lu ← lu.set i_max j ((← lu.get k j))
          let lu ← lu.set k j (temp)
          pure lu
        let d := -d
        let vv ← vv.set i_max ((← vv.get k))
        pure (lu, d, vv)
      else pure (lu, d, vv)
    let indx ← indx.set k (i_max)
    let lu ← if ROrd.beq (← lu.get k k) 0 then do
        let lu ← lu.set k k (tiny)
        pure lu
      else pure lu
    let lu ← forRange (k + 1) 4 lu fun i lu => do
      let lu ← lu.set i k ((← lu.get i k) / (← lu.get k k))
      let lu ← forRange (k + 1) 4 lu fun j lu => do
        let lu ← lu.set i j ((← lu.get i j) - (← lu.get i k) * (← lu.get k j))
        pure lu
      pure lu
    pure (big, lu, d, vv, indx)
  let det := d * (← lu.get 0 0) * (← lu.get 1 1) * (← lu.get 2 2) * (← lu.get 3 3)
  pure ((lu, det, indx))

/-- `src/matrix5x5.rs:890-901` -/
def M55.new_from_vecs (cols : Vec 5 (Vec 5 T)) : MayPanic (Mat 5 T) := do
  let result : Mat 5 T := M55.zero
  let result ← forRange 0 5 result fun i result => do
    let result ← result.set i 0 ((← (← cols.get 0).get i))
    let result ← result.set i 1 ((← (← cols.get 1).get i))
    let result ← result.set i 2 ((← (← cols.get 2).get i))
    let result ← result.set i 3 ((← (← cols.get 3).get i))
    let result ← result.set i 4 ((← (← cols.get 4).get i))
    pure result
  pure (result)

/-- `src/matrix5x5.rs:904-916` -/
def M55.get_diagonal (self : Mat 5 T) : MayPanic (Vec 5 T) := do
  let result : Vec 5 T := V5.zero
  let index : ℕ := 0
  let (result, index) ← forRange 0 5 (result, index) fun i (result, index) => do
    let (result, index) ← forRange 0 5 (result, index) fun j (result, index) => do
      let (result, index) ← if i = j then do
          let result ← result.set index ((← self.get i j))
          let index := index + 1
          pure (result, index)
        else pure (result, index)
      pure (result, index)
    pure (result, index)
  pure (result)

/-- `src/matrix5x5.rs:941-956` -/
def M55.get_rows (self : Mat 5 T) : MayPanic (Vec 5 (Vec 5 T)) := do
  let r0 : Vec 5 T := V5.zero
  let r1 : Vec 5 T := V5.zero
  let r2 : Vec 5 T := V5.zero
  let r3 : Vec 5 T := V5.zero
  let r4 : Vec 5 T := V5.zero
  let (r0, r1, r2, r3, r4) ← forRange 0 5 (r0, r1, r2, r3, r4) fun j (r0, r1, r2, r3, r4) => do
    let r0 ← r0.set j ((← self.get 0 j))
    let r1 ← r1.set j ((← self.get 1 j))
    let r2 ← r2.set j ((← self.get 2 j))
    let r3 ← r3.set j ((← self.get 3 j))
    let r4 ← r4.set j ((← self.get 4 j))
    pure (r0, r1, r2, r3, r4)
  pure (⟨![r0, r1, r2, r3, r4]⟩)

/-- `src/matrix5x5.rs:958-973` -/
def M55.get_cols (self : Mat 5 T) : MayPanic (Vec 5 (Vec 5 T)) := do
  let c0 : Vec 5 T := V5.zero
  let c1 : Vec 5 T := V5.zero
  let c2 : Vec 5 T := V5.zero
  let c3 : Vec 5 T := V5.zero
  let c4 : Vec 5 T := V5.zero
  let (c0, c1, c2, c3, c4) ← forRange 0 5 (c0, c1, c2, c3, c4) fun i (c0, c1, c2, c3, c4) => do
    let c0 ← c0.set i ((← self.get i 0))
    let c1 ← c1.set i ((← self.get i 1))
    let c2 ← c2.set i ((← self.get i 2))
    let c3 ← c3.set i ((← self.get i 3))
    let c4 ← c4.set i ((← self.get i 4))
    pure (c0, c1, c2, c3, c4)
  pure (⟨![c0, c1, c2, c3, c4]⟩)

/-- `src/matrix5x5.rs:1006-1014` -/
def M55.for_each (self : Mat 5 T) (f : T → T) : MayPanic (Mat 5 T) := do
  let result : Mat 5 T := M55.zero
  let result ← forRange 0 5 result fun i result => do
    let result ← forRange 0 5 result fun j result => do
      let result ← result.set i j (f (← self.get i j))
      pure result
    pure result
  pure (result)

/-- `src/matrix5x5.rs:975-988` -/
def M55.get_upper_triagular (self : Mat 5 T) : MayPanic (Vec 10 T) := do
  let zero : T := 0
  let result : Vec 10 T := Vec.rep 10 zero
  let index : ℕ := 0
  let (result, index) ← forRange 0 5 (result, index) fun i (result, index) => do
    let (result, index) ← forRange 0 5 (result, index) fun j (result, index) => do
      let (result, index) ← if i < j then do
          let result ← result.set index ((← self.get i j))
          let index := index + 1
          pure (result, index)
        else pure (result, index)
      pure (result, index)
    pure (result, index)
  pure (result)

/-- `src/matrix5x5.rs:990-1003` -/
def M55.get_lower_triangular (self : Mat 5 T) : MayPanic (Vec 10 T) := do
  let zero : T := 0
  let result : Vec 10 T := Vec.rep 10 zero
  let index : ℕ := 0
  let (result, index) ← forRange 0 5 (result, index) fun i (result, index) => do
    let (result, index) ← forRange 0 5 (result, index) fun j (result, index) => do
      let (result, index) ← if i > j then do
          let result ← result.set index ((← self.get i j))
          let index := index + 1
          pure (result, index)
        else pure (result, index)
      pure (result, index)
    pure (result, index)
  pure (result)

/-- `src/matrix5x5.rs:919-939` -/
def M55.get_submatrix (self : Mat 5 T) (selected : ℕ × ℕ) : MayPanic (Mat 4 T) := do
  let values : Vec 16 T := Vec.rep 16 0
  let result : Mat 4 T := M44.zero
  let index : ℕ := 0
  let (values, index) ← forRange 0 5 (values, index) fun i (values, index) => do
    let (values, index) ← forRange 0 5 (values, index) fun j (values, index) => do
      let (values, index) ← if ¬(i = selected.1 ∨ j = selected.2) then do
          let values ← values.set index ((← self.get i j))
          let index := index + 1
          pure (values, index)
        else pure (values, index)
      pure (values, index)
    pure (values, index)
  let index := 0
  let (result, index) ← forRange 0 4 (result, index) fun r (result, index) => do
    let (result, index) ← forRange 0 4 (result, index) fun c (result, index) => do
      let result ← result.set r c ((← values.get index))
      let index := index + 1
      pure (result, index)
    pure (result, index)
  pure (result)

/-- `src/matrix5x5.rs:275-291` -/
def M55.inverse (self : Mat 5 T) : MayPanic (Option (Mat 5 T)) := do
  let one : T := 1
  let det := M55.det self
  if !nearly_zero det then do
    let cofactors : Mat 5 T := M55.zero
    let cofactors ← forRange 0 5 cofactors fun i cofactors => do
      let cofactors ← forRange 0 5 cofactors fun j cofactors => do
        let sign := if (i + j) % 2 = 0 then one else -one
        let cofactors ← cofactors.set j i (sign * M44.det (← M55.get_submatrix self (i, j)))
        pure cofactors
      pure cofactors
    pure (some (M55.sdiv cofactors det))
  else do
    pure (none)

/-- `src/matrix5x5.rs:319-372` -/
def M55.lu (self : Mat 5 T) : MayPanic (Mat 5 T × T × Vec 5 ℕ) := do
  let tiny : T := RFloat.lit1em40
  let indx : Vec 5 ℕ := V5.zero
  let lu := self
  let vv : Vec 5 T := V5.zero
  let d : T := 1
  let big : T := 0
  let (big, vv) ← forRange 0 5 (big, vv) fun i (big, vv) => do
    let big ← forRange 0 5 big fun j big => do
      let temp := RAbs.abs (← lu.get i j)
      let big ← if ROrd.lt big temp then do
          let big := temp
          pure big
        else pure big
      pure big
    if ROrd.beq big 0 then do
      throw (Panic.explicit "the matrix should be non zero")
    let vv ← vv.set i (RFloat.recip big)
    pure (big, vv)
  let (big, lu, d, vv, indx) ← forRange 0 5 (big, lu, d, vv, indx) fun k (big, lu, d, vv, indx) => do
    let big := 0
    let i_max := k
    let (big, i_max) ← forRange k 5 (big, i_max) fun i (big, i_max) => do
      let temp := (← vv.get i) * RAbs.abs (← lu.get i k)
      let (big, i_max) ← if ROrd.lt big temp then do
          let big := temp
          let i_max := i
          pure (big, i_max)
        else pure (big, i_max)
      pure (big, i_max)
    let (lu, d, vv) ← if k ≠ i_max then do
        let lu ← forRange 0 5 lu fun j lu => do
          let temp := (← lu.get i_max j)
          let lu ← lu.set i_max j ((← lu.get k j))
          let lu ← lu.set k j (temp)
          pure lu
        let d := -d
        let vv ← vv.set i_max ((← vv.get k))
        pure (lu, d, vv)
      else pure (lu, d, vv)
    let indx ← indx.set k (i_max)
    let lu ← if ROrd.beq (← lu.get k k) 0 then do
        let lu ← lu.set k k (tiny)
        pure lu
      else pure lu
    let lu ← forRange (k + 1) 5 lu fun i lu => do
      let lu ← lu.set i k ((← lu.get i k) / (← lu.get k k))
      let lu ← forRange (k + 1) 5 lu fun j lu => do
        let lu ← lu.set i j ((← lu.get i j) - (← lu.get i k) * (← lu.get k j))
        pure lu
      pure lu
    pure (big, lu, d, vv, indx)
  let det := d * (← lu.get 0 0) * (← lu.get 1 1) * (← lu.get 2 2) * (← lu.get 3 3) * (← lu.get 4 4)
  pure ((lu, det, indx))

/-- `src/matrix6x6.rs:1657-1669` -/
def M66.new_from_vecs (cols : Vec 6 (Vec 6 T)) : MayPanic (Mat 6 T) := do
  let result : Mat 6 T := M66.zero
  let result ← forRange 0 6 result fun i result => do
    let result ← result.set i 0 ((← (← cols.get 0).get i))
    let result ← result.set i 1 ((← (← cols.get 1).get i))
    let result ← result.set i 2 ((← (← cols.get 2).get i))
    let result ← result.set i 3 ((← (← cols.get 3).get i))
    let result ← result.set i 4 ((← (← cols.get 4).get i))
    let result ← result.set i 5 ((← (← cols.get 5).get i))
    pure result
  pure (result)

/-- `src/matrix6x6.rs:1642-1654` -/
def M66.get_diagonal (self : Mat 6 T) : MayPanic (Vec 6 T) := do
  let result : Vec 6 T := V6.zero
  let index : ℕ := 0
  let (result, index) ← forRange 0 6 (result, index) fun i (result, index) => do
    let (result, index) ← forRange 0 6 (result, index) fun j (result, index) => do
      let (result, index) ← if i = j then do
          let result ← result.set index ((← self.get i j))
          let index := index + 1
          pure (result, index)
        else pure (result, index)
      pure (result, index)
    pure (result, index)
  pure (result)

/-- `src/matrix6x6.rs:1695-1712` -/
def M66.get_rows (self : Mat 6 T) : MayPanic (Vec 6 (Vec 6 T)) := do
  let r0 : Vec 6 T := V6.zero
  let r1 : Vec 6 T := V6.zero
  let r2 : Vec 6 T := V6.zero
  let r3 : Vec 6 T := V6.zero
  let r4 : Vec 6 T := V6.zero
  let r5 : Vec 6 T := V6.zero
  let (r0, r1, r2, r3, r4, r5) ← forRange 0 6 (r0, r1, r2, r3, r4, r5) fun j (r0, r1, r2, r3, r4, r5) => do
    let r0 ← r0.set j ((← self.get 0 j))
    let r1 ← r1.set j ((← self.get 1 j))
    let r2 ← r2.set j ((← self.get 2 j))
    let r3 ← r3.set j ((← self.get 3 j))
    let r4 ← r4.set j ((← self.get 4 j))
    let r5 ← r5.set j ((← self.get 5 j))
    pure (r0, r1, r2, r3, r4, r5)
  pure (⟨![r0, r1, r2, r3, r4, r5]⟩)

/-- `src/matrix6x6.rs:1714-1731` -/
def M66.get_cols (self : Mat 6 T) : MayPanic (Vec 6 (Vec 6 T)) := do
  let c0 : Vec 6 T := V6.zero
  let c1 : Vec 6 T := V6.zero
  let c2 : Vec 6 T := V6.zero
  let c3 : Vec 6 T := V6.zero
  let c4 : Vec 6 T := V6.zero
  let c5 : Vec 6 T := V6.zero
  let (c0, c1, c2, c3, c4, c5) ← forRange 0 6 (c0, c1, c2, c3, c4, c5) fun i (c0, c1, c2, c3, c4, c5) => do
    let c0 ← c0.set i ((← self.get i 0))
    let c1 ← c1.set i ((← self.get i 1))
    let c2 ← c2.set i ((← self.get i 2))
    let c3 ← c3.set i ((← self.get i 3))
    let c4 ← c4.set i ((← self.get i 4))
    let c5 ← c5.set i ((← self.get i 5))
    pure (c0, c1, c2, c3, c4, c5)
  pure (⟨![c0, c1, c2, c3, c4, c5]⟩)

/-- `src/matrix6x6.rs:1764-1772` -/
def M66.for_each (self : Mat 6 T) (f : T → T) : MayPanic (Mat 6 T) := do
  let result : Mat 6 T := M66.zero
  let result ← forRange 0 6 result fun i result => do
    let result ← forRange 0 6 result fun j result => do
      let result ← result.set i j (f (← self.get i j))
      pure result
    pure result
  pure (result)

/-- `src/matrix6x6.rs:1733-1746` -/
def M66.get_upper_triangular (self : Mat 6 T) : MayPanic (Vec 15 T) := do
  let zero : T := 0
  let result : Vec 15 T := Vec.rep 15 zero
  let index : ℕ := 0
  let (result, index) ← forRange 0 6 (result, index) fun i (result, index) => do
    let (result, index) ← forRange 0 6 (result, index) fun j (result, index) => do
      let (result, index) ← if i < j then do
          let result ← result.set index ((← self.get i j))
          let index := index + 1
          pure (result, index)
        else pure (result, index)
      pure (result, index)
    pure (result, index)
  pure (result)

/-- `src/matrix6x6.rs:1748-1761` -/
def M66.get_lower_triangular (self : Mat 6 T) : MayPanic (Vec 15 T) := do
  let zero : T := 0
  let result : Vec 15 T := Vec.rep 15 zero
  let index : ℕ := 0
  let (result, index) ← forRange 0 6 (result, index) fun i (result, index) => do
    let (result, index) ← forRange 0 6 (result, index) fun j (result, index) => do
      let (result, index) ← if i > j then do
          let result ← result.set index ((← self.get i j))
          let index := index + 1
          pure (result, index)
        else pure (result, index)
      pure (result, index)
    pure (result, index)
  pure (result)

/-- `src/matrix6x6.rs:1673-1693` -/
def M66.get_submatrix (self : Mat 6 T) (selected : ℕ × ℕ) : MayPanic (Mat 5 T) := do
  let values : Vec 25 T := Vec.rep 25 0
  let result : Mat 5 T := M55.zero
  let index : ℕ := 0
  let (values, index) ← forRange 0 6 (values, index) fun i (values, index) => do
    let (values, index) ← forRange 0 6 (values, index) fun j (values, index) => do
      let (values, index) ← if ¬(i = selected.1 ∨ j = selected.2) then do
          let values ← values.set index ((← self.get i j))
          let index := index + 1
          pure (values, index)
        else pure (values, index)
      pure (values, index)
    pure (values, index)
  let index := 0
  let (result, index) ← forRange 0 5 (result, index) fun r (result, index) => do
    let (result, index) ← forRange 0 5 (result, index) fun c (result, index) => do
      let result ← result.set r c ((← values.get index))
      let index := index + 1
      pure (result, index)
    pure (result, index)
  pure (result)

/-- `src/matrix6x6.rs:906-922` -/
def M66.inverse (self : Mat 6 T) : MayPanic (Option (Mat 6 T)) := do
  let one : T := 1
  let det := M66.det self
  if !nearly_zero det then do
    let cofactors : Mat 6 T := M66.zero
    let cofactors ← forRange 0 6 cofactors fun i cofactors => do
      let cofactors ← forRange 0 6 cofactors fun j cofactors => do
        let sign := if (i + j) % 2 = 0 then one else -one
        let cofactors ← cofactors.set j i (sign * M55.det (← M66.get_submatrix self (i, j)))
        pure cofactors
      pure cofactors
    pure (some (M66.smul cofactors (RFloat.recip det)))
  else do
    pure (none)

/-- `src/matrix6x6.rs:952-1005` -/
def M66.lu (self : Mat 6 T) : MayPanic (Mat 6 T × T × Vec 6 ℕ) := do
  let tiny : T := RFloat.lit1em40
  let indx : Vec 6 ℕ := V6.zero
  let lu := self
  let vv : Vec 6 T := V6.zero
  let d : T := 1
  let big : T := 0
  let (big, vv) ← forRange 0 6 (big, vv) fun i (big, vv) => do
    let big ← forRange 0 6 big fun j big => do
      let temp := RAbs.abs (← lu.get i j)
      let big ← if ROrd.lt big temp then do
          let big := temp
          pure big
        else pure big
      pure big
    if ROrd.beq big 0 then do
      throw (Panic.explicit "the matrix should be non zero")
    let vv ← vv.set i (RFloat.recip big)
    pure (big, vv)
  let (big, lu, d, vv, indx) ← forRange 0 6 (big, lu, d, vv, indx) fun k (big, lu, d, vv, indx) => do
    let big := 0
    let i_max := k
    let (big, i_max) ← forRange k 6 (big, i_max) fun i (big, i_max) => do
      let temp := (← vv.get i) * RAbs.abs (← lu.get i k)
      let (big, i_max) ← if ROrd.lt big temp then do
          let big := temp
          let i_max := i
          pure (big, i_max)
        else pure (big, i_max)
      pure (big, i_max)
    let (lu, d, vv) ← if k ≠ i_max then do
        let lu ← forRange 0 6 lu fun j lu => do
          let temp := (← lu.get i_max j)
          let lu ← lu.set i_max j ((← lu.get k j))
          let lu ← lu.set k j (temp)
          pure lu
        let d := -d
        let vv ← vv.set i_max ((← vv.get k))
        pure (lu, d, vv)
      else pure (lu, d, vv)
    let indx ← indx.set k (i_max)
    let lu ← if ROrd.beq (← lu.get k k) 0 then do
        let lu ← lu.set k k (tiny)
        pure lu
      else pure lu
    let lu ← forRange (k + 1) 6 lu fun i lu => do
      let lu ← lu.set i k ((← lu.get i k) / (← lu.get k k))
      let lu ← forRange (k + 1) 6 lu fun j lu => do
        let lu ← lu.set i j ((← lu.get i j) - (← lu.get i k) * (← lu.get k j))
        pure lu
      pure lu
    pure (big, lu, d, vv, indx)
  let det := d * (← lu.get 0 0) * (← lu.get 1 1) * (← lu.get 2 2) * (← lu.get 3 3) * (← lu.get 4 4) * (← lu.get 5 5)
  pure ((lu, det, indx))

end StaticMath
