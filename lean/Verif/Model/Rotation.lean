import Verif.Model.Linear

/-! # `src/transformations.rs`, the functions that do not use quaternions -/

namespace StaticMath

variable {T : Type} [Add T] [Sub T] [Mul T] [Div T] [Neg T] [Zero T] [One T]
  [RAbs T] [ROrd T] [RFloat T]

/-- `src/transformations.rs:47-58` -/
inductive EulerSeq where
  | XYX | XYZ | XZX | XZY | YXY | YXZ | YZX | YZY | ZXY | ZXZ
  deriving DecidableEq, Repr

/-- `src/transformations.rs:67-71` -/
def rot2 (angle : T) : Mat 2 T :=
  let s : T := RFloat.sin angle
  let c : T := RFloat.cos angle
  ⟨![![c, -s],
     ![s,  c]]⟩

/-- `src/transformations.rs:79-86` -/
def rotx (angle : T) : Mat 3 T :=
  let one : T := 1
  let zero : T := 0
  let s : T := RFloat.sin angle
  let c : T := RFloat.cos angle
  ⟨![![one, zero, zero],
     ![zero, c, -s],
     ![zero, s, c]]⟩

/-- `src/transformations.rs:94-101` -/
def roty (angle : T) : Mat 3 T :=
  let one : T := 1
  let zero : T := 0
  let s : T := RFloat.sin angle
  let c : T := RFloat.cos angle
  ⟨![![c, zero, s],
     ![zero, one, zero],
     ![-s, zero, c]]⟩

/-- `src/transformations.rs:109-116` -/
def rotz (angle : T) : Mat 3 T :=
  let one : T := 1
  let zero : T := 0
  let s : T := RFloat.sin angle
  let c : T := RFloat.cos angle
  ⟨![![c, -s, zero],
     ![s, c, zero],
     ![zero, zero, one]]⟩

/-- `src/transformations.rs:135-149` -/
def euler_to_rotation (yay pitch roll : T) (s : Option EulerSeq) : Mat 3 T :=
  match s with
  | some .XYX => M33.mul (M33.mul (rotx yay) (roty pitch)) (rotx roll)
  | some .XYZ => M33.mul (M33.mul (rotx yay) (roty pitch)) (rotz roll)
  | some .XZX => M33.mul (M33.mul (rotx yay) (rotz pitch)) (rotx roll)
  | some .XZY => M33.mul (M33.mul (rotx yay) (rotz pitch)) (roty roll)
  | some .YXY => M33.mul (M33.mul (roty yay) (rotx pitch)) (roty roll)
  | some .YXZ => M33.mul (M33.mul (roty yay) (rotx pitch)) (rotz roll)
  | some .YZX => M33.mul (M33.mul (rotx yay) (roty pitch)) (rotz roll)
  | some .YZY => M33.mul (M33.mul (roty yay) (rotz pitch)) (roty roll)
  | some .ZXY => M33.mul (M33.mul (rotz yay) (rotx pitch)) (roty roll)
  | some .ZXZ => M33.mul (M33.mul (rotz yay) (rotx pitch)) (rotz roll)
  | none => M33.mul (M33.mul (rotz yay) (roty pitch)) (rotx roll)

/-- `src/transformations.rs:163-186` -/
def rotation_to_euler (r : Mat 3 T) : T × T × T :=
  let one : T := 1
  let pitch : T := RFloat.atan2 (-r 2 0) (RFloat.sqrt (r 0 0 * r 0 0 + r 1 0 * r 1 0))
  if nearly_equal pitch (-one * RFloat.frac_pi_2) RFloat.epsilon then
    let yay : T := RFloat.atan2 (-r 1 2) (-r 0 2)
    let roll : T := 0
    (yay, pitch, roll)
  else if nearly_equal pitch RFloat.frac_pi_2 RFloat.epsilon then
    let yay : T := RFloat.atan2 (r 1 2) (r 0 2)
    let roll : T := 0
    (yay, pitch, roll)
  else
    let yay : T := RFloat.atan2 (r 1 0) (r 0 0)
    let roll : T := RFloat.atan2 (r 2 1) (r 2 2)
    (yay, pitch, roll)

/-- `src/transformations.rs:198-205` -/
def homogeneous_from_rotation (r : Mat 3 T) (p : Vec 3 T) : Mat 4 T :=
  let zero : T := 0
  let one : T := 1
  ⟨![![r 0 0, r 0 1, r 0 2, p 0],
     ![r 1 0, r 1 1, r 1 2, p 1],
     ![r 2 0, r 2 1, r 2 2, p 2],
     ![zero, zero, zero, one]]⟩

/-- `src/transformations.rs:207-213` -/
def se3_from_parts (r : Mat 3 T) (p : Vec 3 T) : Mat 4 T :=
  let zero : T := 0
  ⟨![![r 0 0, r 0 1, r 0 2, p 0],
     ![r 1 0, r 1 1, r 1 2, p 1],
     ![r 2 0, r 2 1, r 2 2, p 2],
     ![zero, zero, zero, zero]]⟩

/-- `src/transformations.rs:215-221` -/
def se3_get_parts (se3 : Mat 4 T) : Mat 3 T × Vec 3 T :=
  let skew_omega : Mat 3 T :=
    ⟨![![se3 0 0, se3 0 1, se3 0 2],
       ![se3 1 0, se3 1 1, se3 1 2],
       ![se3 2 0, se3 2 1, se3 2 2]]⟩
  let v : Vec 3 T := ⟨![se3 0 3, se3 1 3, se3 2 3]⟩
  (skew_omega, v)

/-- `src/transformations.rs:263-271` -/
def get_parts_raw (r : Mat 4 T) : Mat 3 T × Vec 3 T :=
  let rot : Mat 3 T :=
    ⟨![![r 0 0, r 0 1, r 0 2],
       ![r 1 0, r 1 1, r 1 2],
       ![r 2 0, r 2 1, r 2 2]]⟩
  let p : Vec 3 T := ⟨![r 0 3, r 1 3, r 2 3]⟩
  (rot, p)

/-- `src/transformations.rs:278-283` -/
def homogeneous_inverse (r : Mat 4 T) : Mat 4 T :=
  let (rot, p) := get_parts_raw r
  let rot_new := M33.transpose rot
  let p_new := M33.mulVec (M33.neg rot_new) p
  homogeneous_from_rotation rot_new p_new

/-- `src/transformations.rs:310-315` -/
def skew_from_vec (v : Vec 3 T) : Mat 3 T :=
  let zero : T := 0
  ⟨![![zero, -v 2, v 1],
     ![v 2, zero, -v 0],
     ![-v 1, v 0, zero]]⟩

/-- `src/transformations.rs:324-326` -/
def skew_to_vec (r : Mat 3 T) : Vec 3 T :=
  ⟨![r 2 1, r 0 2, r 1 0]⟩

/-- `src/transformations.rs:328-332` -/
def skew_scalar (number : T) : Mat 2 T :=
  let zero : T := 0
  ⟨![![zero, -number],
     ![number, zero]]⟩

/-- `src/transformations.rs:334-336` -/
def vex_m22 (m : Mat 2 T) : T := m 1 0

/-- `src/transformations.rs:339-346` -/
def ksi (angle x y : T) : Mat 3 T :=
  let zero : T := 0
  let one : T := 1
  let s : T := RFloat.sin angle
  let c : T := RFloat.cos angle
  ⟨![![c, -s, x],
     ![s, c, y],
     ![zero, zero, one]]⟩

/-- `src/transformations.rs:349-354` -/
def skew_from_vec_aug (v : Vec 3 T) : Mat 3 T :=
  let zero : T := 0
  ⟨![![zero, -v 2, v 0],
     ![v 2, zero, v 1],
     ![zero, zero, zero]]⟩

/-- `src/transformations.rs:365-371` -/
def skew_v6 (v : Vec 6 T) : Mat 4 T :=
  let zero : T := 0
  ⟨![![zero, -v 5, v 4, v 0],
     ![v 5, zero, -v 3, v 1],
     ![-v 4, v 3, zero, v 2],
     ![zero, zero, zero, zero]]⟩

/-- `src/transformations.rs:382-384` -/
def axis_angle (exp : Vec 3 T) : MayPanic (Vec 3 T × T) := do
  let n ← V3.normalize exp
  let n ← expectOk "empty vector" n
  pure (n, V3.norm2 exp)

/-- `src/transformations.rs:387-393` -/
def translation_2d (x y : T) : Mat 3 T :=
  let zero : T := 0
  let one : T := 1
  ⟨![![one, zero, x],
     ![zero, one, y],
     ![zero, zero, one]]⟩

/-- `src/transformations.rs:396-403` -/
def translation_3d (x y z : T) : Mat 4 T :=
  let zero : T := 0
  let one : T := 1
  ⟨![![one, zero, zero, x],
     ![zero, one, zero, y],
     ![zero, zero, one, z],
     ![zero, zero, zero, one]]⟩

/-- `src/transformations.rs:408-412` -/
def rotation_from_axis_angle (omega : Vec 3 T) (theta : T) : Mat 3 T :=
  let skew := skew_from_vec omega
  let sin : T := RFloat.sin theta
  let cos : T := RFloat.cos theta
  M33.add (M33.add M33.one (M33.smul skew sin)) (M33.smul (M33.mul skew skew) (1 - cos))

/-- `src/transformations.rs:423-434` -/
def matrix_exponential (so3 : Mat 3 T) : MayPanic (Mat 3 T) := do
  let omega_theta := skew_to_vec so3
  let one : T := 1
  if nearly_zero (V3.norm2 omega_theta) then
    pure M33.one
  else do
    let (_, theta) ← axis_angle omega_theta
    let omega := M33.sdiv so3 theta
    let s : T := RFloat.sin theta
    let c : T := RFloat.cos theta
    pure (M33.add (M33.add M33.one (M33.smul omega s)) (M33.smul (M33.mul omega omega) (one - c)))

/-- `src/transformations.rs:446-471` -/
def matrix_log (r : Mat 3 T) : Mat 3 T :=
  let one : T := 1
  let two : T := one + one
  let angle : T := (M33.trace r - one) / two
  if ROrd.le one angle then
    M33.zero
  else if ROrd.le angle (-one) then
    if !nearly_zero (one + r 2 2) then
      let omega : Vec 3 T := V3.smul ⟨![r 0 2, r 1 2, one + r 2 2]⟩
        (one / RFloat.sqrt (two * (one + r 2 2)))
      skew_from_vec (V3.smul omega RFloat.pi)
    else if !nearly_zero (one + r 1 1) then
      let omega : Vec 3 T := V3.smul ⟨![r 0 1, one + r 1 1, r 2 1]⟩
        (one / RFloat.sqrt (two * (one + r 1 1)))
      skew_from_vec (V3.smul omega RFloat.pi)
    else
      let omega : Vec 3 T := V3.smul ⟨![one + r 0 0, one + r 1 0, r 2 0]⟩
        (one / RFloat.sqrt (two * (one + r 0 0)))
      skew_from_vec (V3.smul omega RFloat.pi)
  else
    let theta : T := RFloat.acos angle
    M33.smul (M33.sub r (M33.transpose r)) (theta / two / RFloat.sin theta)

/-- `src/transformations.rs:474-476` -/
def rotation_inverse (r : Mat 3 T) : Mat 3 T := M33.transpose r

/-- `src/transformations.rs:486-489` -/
def twist_to_se3 (twist : Vec 6 T) : Mat 4 T :=
  let skew := skew_from_vec ⟨![twist 0, twist 1, twist 2]⟩
  se3_from_parts skew ⟨![twist 3, twist 4, twist 5]⟩

/-- `src/transformations.rs:499-508` -/
def se3_to_twist (se3 : Mat 4 T) : Vec 6 T :=
  ⟨![se3 2 1, se3 0 2, se3 1 0, se3 0 3, se3 1 3, se3 2 3]⟩

/-- `src/transformations.rs:518-527` -/
def adjoint (transform : Mat 4 T) : MayPanic (Mat 6 T) := do
  let result : Mat 6 T := M66.zero
  let (r, p) := get_parts_raw transform
  let skew := skew_from_vec p
  let transform_p := M33.mul skew r
  let result ← M66.copy_elements_from result r 1
  let result ← M66.copy_elements_from result r 4
  let result ← M66.copy_elements_from result transform_p 3
  pure result

/-- `src/transformations.rs:539-542` -/
def screw_to_axis (q s : Vec 3 T) (h : T) : Vec 6 T :=
  let v := V3.add (V3.cross q s) (V3.smul s h)
  ⟨![s 0, s 1, s 2, v 0, v 1, v 2]⟩

/-- `src/transformations.rs:553-562` -/
def axis_angle6 (exp : Vec 6 T) : Vec 6 T × T :=
  let theta : T := slice_norm2 [exp 0, exp 1, exp 2]
  if nearly_zero theta then
    let theta : T := slice_norm2 [exp 3, exp 4, exp 5]
    (V6.sdiv exp theta, theta)
  else
    (V6.sdiv exp theta, theta)

/-- `src/transformations.rs:572-598` -/
def matrix_exponential6 (se3 : Mat 4 T) : MayPanic (Mat 4 T) := do
  let zero : T := 0
  let one : T := 1
  let (skew_omega, v) := se3_get_parts se3
  let omega_theta := skew_to_vec skew_omega
  if nearly_zero (V3.norm2 omega_theta) then
    pure ⟨![![one, zero, one, v 0],
            ![zero, one, zero, v 1],
            ![zero, zero, one, v 2],
            ![zero, zero, zero, one]]⟩
  else do
    let (_, theta) ← axis_angle omega_theta
    let omega := M33.sdiv skew_omega theta
    let mat_exp ← matrix_exponential skew_omega
    let s : T := RFloat.sin theta
    let c : T := RFloat.cos theta
    let v_t := V3.sdiv (M33.mulVec (M33.add (M33.add (M33.smul M33.one theta)
      (M33.smul omega (one - c))) (M33.smul (M33.mul omega omega) (theta - s))) v) theta
    pure ⟨![![mat_exp 0 0, mat_exp 0 1, mat_exp 0 2, v_t 0],
            ![mat_exp 1 0, mat_exp 1 1, mat_exp 1 2, v_t 1],
            ![mat_exp 2 0, mat_exp 2 1, mat_exp 2 2, v_t 2],
            ![zero, zero, zero, one]]⟩

/-- `src/transformations.rs:608-630` -/
def matrix_log6 (t : Mat 4 T) : Mat 4 T :=
  let zero : T := 0
  let one : T := 1
  let two : T := one + one
  let (r, p) := get_parts_raw t
  let omega := matrix_log r
  if omega.is_zero then
    ⟨![![zero, zero, zero, p 0],
       ![zero, zero, zero, p 1],
       ![zero, zero, zero, p 2],
       ![zero, zero, zero, zero]]⟩
  else
    let theta : T := RFloat.acos ((M33.trace r - one) / two)
    let cot : T := one / RFloat.tan (theta / two)
    let v := M33.mulVec (M33.add (M33.sub M33.one (M33.sdiv omega two))
      (M33.sdiv (M33.smul (M33.mul omega omega) (one / theta - cot / two)) theta)) p
    ⟨![![omega 0 0, omega 0 1, omega 0 2, v 0],
       ![omega 1 0, omega 1 1, omega 1 2, v 1],
       ![omega 2 0, omega 2 1, omega 2 2, v 2],
       ![zero, zero, zero, zero]]⟩

/-- `src/transformations.rs:641-647` -/
def distance_to_manifold (m : Mat 3 T) : T :=
  if ROrd.lt 0 (M33.det m) then
    M33.norm2 (M33.sub (M33.mul m (M33.transpose m)) M33.one)
  else
    RFloat.infinity

/-- `src/utils.rs:77-80` -/
def is_rotation (r : Mat 3 T) : Bool :=
  let r2 := M33.mul r r
  nearly_equal (M33.det r) 1 RFloat.epsilon && nearly_equal (M33.det r2) 1 RFloat.epsilon

/-- `src/utils.rs:82-86` -/
def is_rotation_h (r : Mat 4 T) : Bool :=
  let r2 := M44.mul r r
  let eps : T := RFloat.lit1em6
  nearly_equal (M44.det r) 1 eps && nearly_equal (M44.det r2) 1 eps

end StaticMath
