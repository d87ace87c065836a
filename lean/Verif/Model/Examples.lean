import Verif.Model.DualQuaternion
import Verif.Model.GenLoops

/-!
# `examples/*.rs`

The programs under `examples/`, as functions of the data they use (the numbers written in `main` are
parameters here) returning what they print. `{f32}.to_radians()` is applied by the caller.
-/

namespace StaticMath.Examples

variable {T : Type} [Add T] [Sub T] [Mul T] [Div T] [Neg T] [Zero T] [One T]
  [RAbs T] [ROrd T] [RFloat T]

/-- `examples/eigenvalues.rs:40-44` -/
def convert_to_similar (m : Mat 3 T) : MayPanic (Mat 3 T) := do
  match ← M33.qr m with
  | some (q, r) => pure (M33.mul r q)
  | none => pure m

/-- `examples/eigenvalues.rs:56-61`: the `while` loop. The first argument is
`max_iterations - counter`; the state is `(m, counter, result)`. -/
def eigen_loop (tol : T) : ℕ → Mat 3 T × ℕ × Bool → MayPanic (Mat 3 T × ℕ × Bool)
  | 0, s => pure s
  | k + 1, (m, counter, result) =>
    if !result then do
      let m ← convert_to_similar m
      let lower ← M33.get_lower_triangular m
      let result := check_elements lower.toSlice tol
      let counter := counter + 1
      eigen_loop tol k (m, counter, result)
    else pure (m, counter, result)

/-- `examples/eigenvalues.rs:46-67` with the matrix, the tolerance `1e-9` and `max_iterations = 200` as
parameters. Besides the two printed values the last matrix and the convergence flag are returned. -/
def eigenvalues (m : Mat 3 T) (tol : T) (max_iterations : ℕ) :
    MayPanic (ℕ × Vec 3 T × Mat 3 T × Bool) := do
  let (m, counter, result) ← eigen_loop tol max_iterations (m, 0, false)
  let eigenvalues ← M33.get_diagonal m
  pure (counter, eigenvalues, m, result)

/-- `examples/quaternions.rs:38-45`: `angle` is `90f32.to_radians()`, `axis` is `V3::z_axis()` and `x` is
`X_AXIS`. -/
def rotate_four (axis : Vec 3 T) (angle : T) (x : Vec 3 T) : Vec 3 T :=
  let v := V3.smul axis angle
  let q := Quat.rotation_norm_encoded v
  (((q.mul q).mul q).mul q).mulVec x

/-- `examples/quaternions.rs:49-53` -/
def euler_again (yay pitch roll : T) : Quat T × (T × T × T) :=
  let q := Quat.from_euler_angles yay pitch roll
  (q, q.to_euler_angles)

/-- `examples/dual_quaternion_screw_parameters.rs:36-41`: `axis` is `V3::z_axis()`, `angle` is
`45f32.to_radians()`, `trans` is `(0, 0, 7)`. -/
def screw_parameters (axis : Vec 3 T) (angle : T) (trans : Vec 3 T) :
    MayPanic (Vec 3 T × Vec 3 T × T × T) := do
  let v := V3.smul axis angle
  let q := Quat.rotation_norm_encoded v
  let dq_full ← DQuat.new_from_rot_trans q trans
  pure dq_full.get_screw_parameters

/-- `examples/dual_quaternion_transform_point.rs:39-51`: (`expected`, `result`). The fourth component of
the point is 0 there. -/
def transform_point (yay pitch roll : T) (t p : Vec 3 T) : MayPanic (Vec 4 T × Vec 3 T) := do
  let q := Quat.from_euler_angles yay pitch roll
  let t := homogeneous_from_quaternion q t
  let p4 : Vec 4 T := ⟨![p 0, p 1, p 2, 0]⟩
  let expected := M44.mulVec t p4
  let dq ← DQuat.new_from_homogeneous t
  let result := dq.transform_point p
  pure (expected, result)

/-- What `examples/dual_quaternions.rs` prints. -/
structure DualOut (T : Type) where
  t : Mat 4 T
  double : Mat 4 T
  normal : DQuat T
  combined : DQuat T
  combined2 : DQuat T

/-- `examples/dual_quaternions.rs:36-56`; the translation of `t` and the one of `t_pure`, `normal`
(`V3::x_axis()`) are parameters. -/
def dual_quaternions (yay pitch roll : T) (p x : Vec 3 T) : MayPanic (DualOut T) := do
  let rot := euler_to_rotation yay pitch roll none
  let q := Quat.from_euler_angles yay pitch roll
  let t := homogeneous_from_quaternion q p
  let double := (← DQuat.new_from_homogeneous t).to_homogeneous
  let t_pure := DQuat.new_from_translation x
  let r_pure := DQuat.new_from_rotation q
  let normal ← DQuat.new_from_rot_trans q x
  let combined := t_pure.mul r_pure
  let r_pure2 := DQuat.new_from_rotation_matrix rot
  let combined2 := t_pure.mul r_pure2
  pure ⟨t, double, normal, combined, combined2⟩

/-- `examples/inverse.rs:28-40`: (`inv`, `inv * m66`) if there is an inverse. -/
def inverse (m66 : Mat 6 T) : MayPanic (Option (Mat 6 T × Mat 6 T)) := do
  match ← M66.inverse m66 with
  | some inv => pure (some (inv, M66.mul inv m66))
  | none => pure none

/-- `examples/solve_linear_system.rs:28-45`: (`solution`, `a * solution`) if there is an inverse. -/
def solve_linear_system (a : Mat 6 T) (b : Vec 6 T) : MayPanic (Option (Vec 6 T × Vec 6 T)) := do
  match ← M66.inverse a with
  | some inv =>
    let solution := M66.mulVec inv b
    pure (some (solution, M66.mulVec a solution))
  | none => pure none

/-- `examples/for_each_example.rs:34-45` -/
def for_each_example (m66 : Mat 6 T) : MayPanic (Mat 6 T) :=
  M66.for_each m66 fun element => RFloat.cos element + RFloat.sin element

/-- `examples/nice_square_example.rs:34-41` -/
def nice_square (m : Mat 2 T) : Mat 2 T := M22.mul m m

/-- What `examples/qr_example.rs` prints for one matrix: `q`, `r`, `q * r`, `q.det()`
(`examples/qr_example.rs:55-60`). -/
def qr_example22 (m : Mat 2 T) : MayPanic (Option (Mat 2 T × Mat 2 T × Mat 2 T × T)) := do
  match ← M22.qr m with
  | some (q, r) => pure (some (q, r, M22.mul q r, M22.det q))
  | none => pure none

/-- `examples/qr_example.rs:62-67` -/
def qr_example33 (m : Mat 3 T) : MayPanic (Option (Mat 3 T × Mat 3 T × Mat 3 T × T)) := do
  match ← M33.qr m with
  | some (q, r) => pure (some (q, r, M33.mul q r, M33.det q))
  | none => pure none

/-- `examples/qr_example.rs:69-74` -/
def qr_example44 (m : Mat 4 T) : MayPanic (Option (Mat 4 T × Mat 4 T × Mat 4 T × T)) := do
  match ← M44.qr m with
  | some (q, r) => pure (some (q, r, M44.mul q r, M44.det q))
  | none => pure none

/-- `examples/qr_example.rs:76-81` -/
def qr_example55 (m : Mat 5 T) : MayPanic (Option (Mat 5 T × Mat 5 T × Mat 5 T × T)) := do
  match ← M55.qr m with
  | some (q, r) => pure (some (q, r, M55.mul q r, M55.det q))
  | none => pure none

/-- `examples/qr_example.rs:83-88` -/
def qr_example66 (m : Mat 6 T) : MayPanic (Option (Mat 6 T × Mat 6 T × Mat 6 T × T)) := do
  match ← M66.qr m with
  | some (q, r) => pure (some (q, r, M66.mul q r, M66.det q))
  | none => pure none

end StaticMath.Examples
