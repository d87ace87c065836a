import Verif.Model.Rotation

/-! # `src/quaternion.rs` and the functions of `src/transformations.rs` that use quaternions -/

namespace StaticMath

/-- `src/quaternion.rs:45-52` (`Quaternion<T>`; the name `Quat` avoids Mathlib's `Quaternion`) -/
@[ext] structure Quat (T : Type) where
  q0 : T
  q : Vec 3 T
  normalized : Bool

variable {T : Type} [Add T] [Sub T] [Mul T] [Div T] [Neg T] [Zero T] [One T]
  [RAbs T] [ROrd T] [RFloat T]

namespace Quat

/-- `src/quaternion.rs:58-60` -/
def new (q0 : T) (q : Vec 3 T) : Quat T := ⟨q0, q, false⟩

/-- `src/quaternion.rs:64-66` -/
def new_from (q0 q1 q2 q3 : T) : Quat T := ⟨q0, ⟨![q1, q2, q3]⟩, false⟩

/-- `src/quaternion.rs:71-73` -/
def dot (self rhs : Quat T) : T := self.q0 * rhs.q0 + V3.dot self.q rhs.q

/-- `src/quaternion.rs:76-78` -/
def real (self : Quat T) : T := self.q0

/-- `src/quaternion.rs:81-83` -/
def imag (self : Quat T) : Vec 3 T := self.q

/-- `src/quaternion.rs:86-88`, `src/quaternion.rs:145-148` -/
def one : Quat T := ⟨1, V3.zero, true⟩

/-- `src/quaternion.rs:91-93`, `src/quaternion.rs:133-135` -/
def zero : Quat T := Quat.new 0 V3.zero

/-- `src/quaternion.rs:96-98` -/
def new_real (q0 : T) : Quat T := ⟨q0, V3.zero, false⟩

/-- `src/quaternion.rs:101-103` -/
def new_imag (q : Vec 3 T) : Quat T := ⟨0, q, false⟩

/-- `src/quaternion.rs:106-108` -/
def abs2 (self : Quat T) : T :=
  self.q0 * self.q0 + self.q 0 * self.q 0 + self.q 1 * self.q 1 + self.q 2 * self.q 2

/-- `src/quaternion.rs:111-113` -/
def new_from_vec (v : Vec 4 T) : Quat T := ⟨v 0, ⟨![v 1, v 2, v 3]⟩, false⟩

/-- `src/quaternion.rs:116-128` -/
def to_rotation (self : Quat T) : Mat 3 T :=
  let q0 : T := self.real
  let q := self.imag
  let q0_s : T := q0 * q0
  let q1 : T := q 0
  let q2 : T := q 1
  let q3 : T := q 2
  let q1_s : T := q1 * q1
  let q2_s : T := q2 * q2
  let q3_s : T := q3 * q3
  let two : T := 1 + 1
  ⟨![![q0_s + q1_s - q2_s - q3_s, two * q1 * q2 - two * q0 * q3, two * q1 * q3 + two * q0 * q2],
     ![two * q1 * q2 + two * q0 * q3, q0_s - q1_s + q2_s - q3_s, two * q2 * q3 - two * q0 * q1],
     ![two * q1 * q3 - two * q0 * q2, two * q2 * q3 + two * q0 * q1, q0_s - q1_s - q2_s + q3_s]]⟩

/-- `src/quaternion.rs:43` (`derive(PartialEq)`): all three fields are compared. -/
def beq (a b : Quat T) : Bool :=
  ROrd.beq a.q0 b.q0 && a.q.beq b.q && (a.normalized == b.normalized)

/-- `src/quaternion.rs:137-139` -/
def is_zero (self : Quat T) : Bool := self.beq Quat.zero

/-- `src/quaternion.rs:155-157` -/
def add (self rhs : Quat T) : Quat T := Quat.new (self.q0 + rhs.q0) (V3.add self.q rhs.q)

/-- `src/quaternion.rs:164-166` -/
def sub (self rhs : Quat T) : Quat T := Quat.new (self.q0 - rhs.q0) (V3.sub self.q rhs.q)

/-- `src/quaternion.rs:174-176` -/
def sdiv (self : Quat T) (rhs : T) : Quat T := Quat.new (self.q0 / rhs) (V3.sdiv self.q rhs)

/-- `src/quaternion.rs:194-196` -/
def mul (self rhs : Quat T) : Quat T :=
  Quat.new (self.q0 * rhs.q0 - V3.dot self.q rhs.q)
    (V3.add (V3.add (V3.smul rhs.q self.q0) (V3.smul self.q rhs.q0)) (V3.cross self.q rhs.q))

/-- `src/quaternion.rs:205-210` -/
def mulVec (self : Quat T) (rhs : Vec 3 T) : Vec 3 T :=
  let one : T := 1
  let two : T := one + one
  let t := V3.cross (V3.smul self.q two) rhs
  V3.add (V3.add rhs (V3.smul t self.q0)) (V3.cross self.q t)

/-- `src/quaternion.rs:216-218` -/
def smul (self : Quat T) (rhs : T) : Quat T := ⟨self.q0 * rhs, V3.smul self.q rhs, false⟩

/-- `src/quaternion.rs:225-227` -/
def neg (self : Quat T) : Quat T := Quat.new (-self.q0) (V3.neg self.q)

/-- `src/quaternion.rs:233-235` -/
def conj (self : Quat T) : Quat T := Quat.new self.q0 (V3.neg self.q)

/-- `src/quaternion.rs:242-266` -/
def from_rotation (rot : Mat 3 T) : Quat T :=
  let m := M33.transpose rot
  let zero : T := 0
  let one : T := 1
  let half : T := one / (one + one)
  if ROrd.lt (m 2 2) zero then
    if ROrd.lt (m 1 1) (m 0 0) then
      let t : T := one + m 0 0 - m 1 1 - m 2 2
      let q := Quat.new_from (m 1 2 - m 2 1) t (m 0 1 + m 1 0) (m 2 0 + m 0 2)
      (q.smul half).sdiv (RFloat.sqrt t)
    else
      let t : T := one - m 0 0 + m 1 1 - m 2 2
      let q := Quat.new_from (m 2 0 - m 0 2) (m 0 1 + m 1 0) t (m 1 2 + m 2 1)
      (q.smul half).sdiv (RFloat.sqrt t)
  else if ROrd.lt (m 0 0) (-m 1 1) then
    let t : T := one - m 0 0 - m 1 1 + m 2 2
    let q := Quat.new_from (m 0 1 - m 1 0) (m 2 0 + m 0 2) (m 1 2 + m 2 1) t
    (q.smul half).sdiv (RFloat.sqrt t)
  else
    let t : T := one + m 0 0 + m 1 1 + m 2 2
    let q := Quat.new_from t (m 1 2 - m 2 1) (m 2 0 - m 0 2) (m 0 1 - m 1 0)
    (q.smul half).sdiv (RFloat.sqrt t)

/-- `src/quaternion.rs:271-273` -/
def norm2 (self : Quat T) : T := RFloat.sqrt (self.dot self)

/-- `src/quaternion.rs:276-289` -/
def normalize (self : Quat T) : Option (Quat T) :=
  if self.normalized then
    some self
  else
    let norm_sqr : T := self.norm2
    if !nearly_zero norm_sqr then
      let result := self.sdiv norm_sqr
      let result := { result with normalized := true }
      some result
    else
      none

/-- `src/quaternion.rs:292-294` -/
def abs_imag (self : Quat T) : T := V3.norm2 self.imag

/-- `src/quaternion.rs:298-306` -/
def rotation (theta : T) (vector : Vec 3 T) : MayPanic (Quat T) := do
  let one : T := 1
  let two : T := one + one
  let normalized ← V3.normalize vector
  let normalized ← expectOk "the input has to be a non zero vector" normalized
  let sin : T := RFloat.sin (theta / two)
  let cos : T := RFloat.cos (theta / two)
  let q0 := cos
  let q := V3.smul normalized sin
  pure ⟨q0, q, true⟩

/-- `src/quaternion.rs:311-321` -/
def rotation_norm_encoded (v : Vec 3 T) : Quat T :=
  let one : T := 1
  let two : T := RFloat.lit2
  let theta : T := V3.norm2 v
  if !nearly_zero theta then
    let s : T := RFloat.sin (theta / two)
    let c : T := RFloat.cos (theta / two)
    ⟨c, V3.smul v (s / theta), true⟩
  else
    Quat.new one V3.zero

/-- `src/quaternion.rs:325-337` -/
def from_euler_angles (yay pitch roll : T) : Quat T :=
  let one : T := 1
  let two : T := one + one
  let roll_sin : T := RFloat.sin (roll / two)
  let roll_cos : T := RFloat.cos (roll / two)
  let pitch_sin : T := RFloat.sin (pitch / two)
  let pitch_cos : T := RFloat.cos (pitch / two)
  let yay_sin : T := RFloat.sin (yay / two)
  let yay_cos : T := RFloat.cos (yay / two)
  let q0 : T := roll_cos * pitch_cos * yay_cos + roll_sin * pitch_sin * yay_sin
  let q1 : T := roll_sin * pitch_cos * yay_cos - roll_cos * pitch_sin * yay_sin
  let q2 : T := roll_cos * pitch_sin * yay_cos + roll_sin * pitch_cos * yay_sin
  let q3 : T := roll_cos * pitch_cos * yay_sin - roll_sin * pitch_sin * yay_cos
  ⟨q0, ⟨![q1, q2, q3]⟩, true⟩

/-- `src/quaternion.rs:340-346` -/
def get_angle (self : Quat T) : T :=
  let one : T := 1
  let two : T := one + one
  let n : T := V3.norm2 self.q
  two * RFloat.atan2 n self.q0

/-- `src/quaternion.rs:349-353`; `T::from(2.0)?` is `Some` for `f32` and `f64`. -/
def get_axis (self : Quat T) : Option (Vec 3 T) :=
  match self.normalize with
  | none => none
  | some qn =>
    let s : T := RFloat.sin (qn.get_angle / RFloat.lit2)
    if ROrd.lt RFloat.epsilon (RAbs.abs s) then some (V3.sdiv qn.q s) else none

/-- `src/quaternion.rs:356-358` -/
def axis_angle (self : Quat T) : Option (Vec 3 T) × T := (self.get_axis, self.get_angle)

/-- `src/quaternion.rs:363-372` -/
def normalize_q (self : Quat T) : Quat T :=
  let a : T := self.dot self
  if ROrd.lt RFloat.epsilon a then
    let result := self.sdiv (RFloat.sqrt a)
    { result with normalized := true }
  else
    ⟨0, V3.x_axis, true⟩

/-- `src/quaternion.rs:374-382` -/
def normalize_a (self : Quat T) : Quat T × T :=
  if self.normalized then
    (self, 1)
  else
    let a : T := self.norm2
    let result := self.sdiv a
    let result := { result with normalized := true }
    (result, a)

/-- `src/quaternion.rs:385-388` -/
def argq (self : Quat T) : Quat T :=
  let result := Quat.new 0 self.q
  result.normalize_q

/-- `src/quaternion.rs:391-402` -/
def exp (self : Quat T) : Quat T :=
  let real : T := self.real
  let real_exp : T := RFloat.exp real
  let scale : T := real_exp
  let imag_norm : T := self.abs_imag
  let scale : T := if ROrd.lt RFloat.epsilon imag_norm then
      scale * (RFloat.sin imag_norm / imag_norm)
    else scale
  ⟨real_exp * RFloat.cos imag_norm, V3.smul self.q scale, ROrd.lt self.norm2 RFloat.epsilon⟩

/-- `src/quaternion.rs:405-416` -/
def ln (self : Quat T) : Quat T :=
  let (q_norm, a) := self.normalize_a
  let real : T := q_norm.real
  let imag_norm : T := q_norm.abs_imag
  let arg_angle : T := RFloat.atan2 imag_norm real
  if ROrd.lt RFloat.epsilon imag_norm then
    let imag_norm : T := arg_angle / imag_norm
    ⟨RFloat.ln a, V3.smul q_norm.q imag_norm, false⟩
  else
    ⟨RFloat.ln a, ⟨![arg_angle, 0, 0]⟩, false⟩

/-- `src/quaternion.rs:419-423` -/
def sqrt (self : Quat T) : Quat T :=
  let one : T := 1
  let two : T := one + one
  (self.ln.smul (one / two)).exp

/-- `src/quaternion.rs:426-428` -/
def pow (self rhs : Quat T) : Quat T := (rhs.mul self.ln).exp

/-- `src/quaternion.rs:445-483` -/
def slerp (a b : Quat T) (t : T) : Quat T :=
  let one : T := 1
  let cos_half_theta : T := a.dot b
  if ROrd.le one (RAbs.abs cos_half_theta) then
    a
  else
    let reverse_a : Bool := ROrd.lt cos_half_theta 0
    let cos_half_theta : T := if reverse_a then -cos_half_theta else cos_half_theta
    let half_theta : T := RFloat.acos cos_half_theta
    let sin_half_theta : T := RFloat.sqrt (one - cos_half_theta * cos_half_theta)
    if ROrd.lt (RAbs.abs sin_half_theta) RFloat.lit0001 then
      if !reverse_a then
        ⟨(one - t) * a.q0 + t * b.q0,
         ⟨![(one - t) * a.q 0 + t * b.q 0,
            (one - t) * a.q 1 + t * b.q 2,
            (one - t) * a.q 2 + t * b.q 1]⟩, Quat.zero (T := T).normalized⟩
      else Quat.zero
    else
      let aux1 : T := RFloat.sin ((one - t) * half_theta) / sin_half_theta
      let aux2 : T := RFloat.sin (t * half_theta) / sin_half_theta
      if !reverse_a then
        ⟨aux1 * a.q0 + aux2 * b.q0, V3.add (V3.smul a.q aux1) (V3.smul b.q aux2),
          Quat.zero (T := T).normalized⟩
      else
        ⟨aux1 * a.q0 - aux2 * b.q0, V3.sub (V3.smul a.q aux1) (V3.smul b.q aux2),
          Quat.zero (T := T).normalized⟩

/-- `src/quaternion.rs:492-496` -/
def derivative (self : Quat T) (rate : Vec 3 T) : Quat T :=
  let one : T := 1
  let two : T := one + one
  ((Quat.new_imag rate).smul (one / two)).mul self

/-- `src/quaternion.rs:501-512` -/
def inverse (self : Quat T) : Option (Quat T) :=
  if !self.normalized then
    let norm_sqr : T := self.abs2
    if !nearly_zero norm_sqr then
      some (self.conj.sdiv norm_sqr)
    else
      none
  else
    some self.conj

/-- `src/quaternion.rs:184-186` -/
def div (self rhs : Quat T) : MayPanic (Quat T) := do
  let inv ← unwrapSome rhs.inverse
  pure (self.mul inv)

/-- `src/quaternion.rs:515-520` -/
def sin (self : Quat T) : MayPanic (Quat T) :=
  let one : T := 1
  let two : T := one + one
  let l := self.argq
  ((self.mul l).exp.sub (self.mul l.neg).exp).div (l.smul two)

/-- `src/quaternion.rs:523-528` -/
def cos (self : Quat T) : Quat T :=
  let one : T := 1
  let two : T := one + one
  let l := self.argq
  ((self.mul l).exp.add (self.mul l.neg).exp).sdiv two

/-- `src/quaternion.rs:533-535` -/
def to_euler_angles (self : Quat T) : T × T × T := rotation_to_euler self.to_rotation

end Quat

/-- `src/transformations.rs:233-235` -/
def homogeneous_from_quaternion (q : Quat T) (p : Vec 3 T) : Mat 4 T :=
  homogeneous_from_rotation q.to_rotation p

/-- `src/transformations.rs:244-255` -/
def get_parts (r : Mat 4 T) : Quat T × Vec 3 T :=
  let rot : Mat 3 T :=
    ⟨![![r 0 0, r 0 1, r 0 2],
       ![r 1 0, r 1 1, r 1 2],
       ![r 2 0, r 2 1, r 2 2]]⟩
  let p : Vec 3 T := ⟨![r 0 3, r 1 3, r 2 3]⟩
  let (yay, pitch, roll) := rotation_to_euler rot
  let q := Quat.from_euler_angles yay pitch roll
  (q, p)

/-- `src/transformations.rs:292-301` -/
def homogeneous_inverse_transform (r : Mat 4 T) (p : Vec 3 T) : Vec 3 T :=
  let (_, translation) := get_parts r
  let p_trans := V3.sub p translation
  let p_new : Vec 4 T := ⟨![p_trans 0, p_trans 1, p_trans 2, 0]⟩
  let result := M44.mulVec (homogeneous_inverse r) p_new
  ⟨![result 0, result 1, result 2]⟩

end StaticMath
