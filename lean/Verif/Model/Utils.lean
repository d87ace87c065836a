import Verif.Model.Array

/-! # `src/utils.rs` (scalar comparisons) and `src/slices_methods.rs` -/

namespace StaticMath



section Utils
variable {T : Type} [Add T] [Sub T] [Mul T] [Div T] [Neg T] [Zero T] [One T]
  [RAbs T] [ROrd T] [RFloat T]

/-- `src/utils.rs:42-57` -/
def nearly_equal (a b epsilon : T) : Bool :=
  let abs_a : T := RAbs.abs a
  let abs_b : T := RAbs.abs b
  let abs_diff : T := RAbs.abs (a - b)
  let zero : T := 0
  if ROrd.beq a b then
    true
  else if ROrd.beq a zero || ROrd.beq b zero || ROrd.lt (abs_a + abs_b) RFloat.min_value then
    ROrd.lt abs_diff epsilon
  else
    ROrd.lt (abs_diff / RFloat.min (abs_a + abs_b) RFloat.max_value) epsilon

/-- `src/utils.rs:60-62` -/
def nearly_zero (a : T) : Bool :=
  nearly_equal a 0 RFloat.epsilon

/-- `src/utils.rs:65-70` -/
def compare_vecs (v1 v2 : List T) (epsilon : T) : Bool :=
  ((v1.zip v2).map fun p => nearly_equal p.1 p.2 epsilon).all fun x => x

omit [Add T] [Mul T] [Div T] [Neg T] [Zero T] [One T] [RFloat T] in
/-- `src/utils.rs:72-74` -/
def compare_floats (num1 num2 tol : T) : Bool :=
  ROrd.lt (RAbs.abs (num1 - num2)) tol

end Utils

section Slices
variable {T : Type}

/-- `src/slices_methods.rs:36-39` -/
structure MaxMin (T : Type) where
  max : T × ℕ
  min : T × ℕ

/-- `src/slices_methods.rs:49-58`, the loop body of `find_max_min`; state: `max, max_pos, min,
min_pos`. -/
def find_max_min_step [ROrd T] (s : MaxMin T) (p : T × ℕ) : MaxMin T :=
  let s := if ROrd.lt p.1 s.min.1 then { s with min := p } else s
  if ROrd.lt s.max.1 p.1 then { s with max := p } else s

/-- `src/slices_methods.rs:42-64`; `slice[0]` panics on an empty slice. -/
def find_max_min [ROrd T] (slice : List T) : MayPanic (MaxMin T) :=
  match slice with
  | [] => .error .indexOutOfBounds
  | x :: _ => .ok ((slice.zipIdx.drop 1).foldl find_max_min_step { max := (x, 0), min := (x, 0) })

/-- `src/slices_methods.rs:67-70` -/
def norm_inf [ROrd T] (slice : List T) : MayPanic T := do
  let max_min ← find_max_min slice
  pure max_min.max.1

/-- `src/slices_methods.rs:73-75` -/
def norm_l [Add T] [Zero T] [RAbs T] (slice : List T) : T :=
  iterSum (slice.map fun element => RAbs.abs element)

/-- `src/slices_methods.rs:78-80` -/
def slice_norm2 [Add T] [Mul T] [Zero T] [RFloat T] (slice : List T) : T :=
  RFloat.sqrt (slice.foldl (fun n i => (i * i) + n) 0)

/-- `src/slices_methods.rs:83-86` -/
def slice_dot [Add T] [Mul T] [Zero T] (slice1 slice2 : List T) : MayPanic T :=
  if slice1.length = slice2.length then
    .ok (iterSum ((slice1.zip slice2).map fun p => p.1 * p.2))
  else .error .assertFailed

/-- `src/slices_methods.rs:91-96`; the `&mut` slice is returned. -/
def slice_normalize [Add T] [Mul T] [Div T] [Zero T] [RFloat T] (slice : List T) : List T :=
  let n := slice_norm2 slice
  slice.map fun element => element / n

/-- `src/slices_methods.rs:99-101` -/
def project_x_over_y [Add T] [Mul T] [Div T] [Zero T] (x y : List T) : MayPanic T := do
  pure ((← slice_dot x y) / (← slice_dot y y))

/-- `src/slices_methods.rs:103-109` -/
def check_elements [Add T] [Sub T] [Div T] [Zero T] [RAbs T] [ROrd T] [RFloat T]
    (v : List T) (tol : T) : Bool :=
  v.foldl (fun result num => result || nearly_equal num 0 tol) false

end Slices

end StaticMath
