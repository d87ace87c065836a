import Verif.Model.Quaternion

/-! # `src/dual_quaternion.rs` and `compare_dual_quaternions` of `src/utils.rs` -/

namespace StaticMath

/-- `src/dual_quaternion.rs:44-51` -/
@[ext] structure DQuat (T : Type) where
  q_real : Quat T
  q_dual : Quat T
  normalized : Bool

variable {T : Type} [Add T] [Sub T] [Mul T] [Div T] [Neg T] [Zero T] [One T]
  [RAbs T] [ROrd T] [RFloat T]

namespace DQuat

/-- `src/dual_quaternion.rs:55-61` -/
def new (q_real q_dual : Quat T) : DQuat T := ⟨q_real, q_dual, false⟩

/-- `src/dual_quaternion.rs:66-68` -/
def real (self : DQuat T) : Quat T := self.q_real

/-- `src/dual_quaternion.rs:71-73` -/
def dual (self : DQuat T) : Quat T := self.q_dual

/-- `src/dual_quaternion.rs:76-82` -/
def new_from_rotation (r : Quat T) : DQuat T := ⟨r, Quat.zero, true⟩

/-- `src/dual_quaternion.rs:86-92` -/
def new_from_point (v : Vec 3 T) : DQuat T := ⟨Quat.one, Quat.new_imag v, true⟩

/-- `src/dual_quaternion.rs:98-100` -/
def add (self rhs : DQuat T) : DQuat T :=
  DQuat.new (self.q_real.add rhs.q_real) (self.q_dual.add rhs.q_dual)

/-- `src/dual_quaternion.rs:106-108` -/
def sub (self rhs : DQuat T) : DQuat T :=
  DQuat.new (self.q_real.sub rhs.q_real) (self.q_dual.sub rhs.q_dual)

/-- `src/dual_quaternion.rs:115-117` -/
def neg (self : DQuat T) : DQuat T := DQuat.new self.q_real.neg self.q_dual.neg

/-- `src/dual_quaternion.rs:125-129` -/
def mul (self rhs : DQuat T) : DQuat T :=
  let q_real := self.q_real.mul rhs.q_real
  let q_dual := (self.q_real.mul rhs.q_dual).add (self.q_dual.mul rhs.q_real)
  DQuat.new q_real q_dual

/-- `src/dual_quaternion.rs:135-137` -/
def smul (self : DQuat T) (rhs : T) : DQuat T :=
  DQuat.new (self.q_real.smul rhs) (self.q_dual.smul rhs)

/-- `src/dual_quaternion.rs:144-149` -/
def div (self rhs : DQuat T) : MayPanic (DQuat T) := do
  let rhs_real_sqr := rhs.q_real.mul rhs.q_real
  let prod_real ← (self.q_real.mul rhs.q_real).div rhs_real_sqr
  let prod_dual ← ((rhs.q_real.mul self.q_dual).sub (self.q_real.mul rhs.q_dual)).div rhs_real_sqr
  pure (DQuat.new prod_real prod_dual)

/-- `src/dual_quaternion.rs:396-398` -/
def conj (self : DQuat T) : DQuat T := DQuat.new self.q_real.conj self.q_dual.conj

/-- `src/dual_quaternion.rs:401-403` -/
def conj_as_dual (self : DQuat T) : DQuat T := DQuat.new self.q_real self.q_dual.neg

/-- `src/dual_quaternion.rs:406-408` -/
def conj_combined (self : DQuat T) : DQuat T := DQuat.new self.q_real.conj self.q_dual.conj.neg

/-- `src/dual_quaternion.rs:411-413` -/
def norm (self : DQuat T) : DQuat T := self.mul self.conj

/-- `src/dual_quaternion.rs:423-427` -/
def get_translation (self : DQuat T) : Vec 3 T :=
  let one : T := 1
  let two : T := one + one
  ((self.dual.smul two).mul self.real.conj).imag

/-- `src/dual_quaternion.rs:416-420` -/
def to_rotation_translation (self : DQuat T) : Mat 3 T × Vec 3 T :=
  let r := self.real.to_rotation
  let t := self.get_translation
  (r, t)

/-- `src/dual_quaternion.rs:430-436` -/
def to_quaternion_translation (self : DQuat T) : Quat T × Vec 3 T :=
  let one : T := 1
  let two : T := one + one
  let q := self.real
  let t := (self.dual.smul two).mul self.real.conj
  (q, t.imag)

/-- `src/dual_quaternion.rs:440-443` -/
def transform_point (self : DQuat T) (point : Vec 3 T) : Vec 3 T :=
  let dq_point := DQuat.new_from_point point
  ((self.mul dq_point).mul self.conj).dual.imag

/-- `src/dual_quaternion.rs:448-453` -/
def new_from_vecs (q_real q_dual : Vec 4 T) : DQuat T :=
  DQuat.new (Quat.new_from_vec q_real) (Quat.new_from_vec q_dual)

/-- `src/dual_quaternion.rs:456-458`, `src/dual_quaternion.rs:468-470` -/
def zero : DQuat T := DQuat.new Quat.zero Quat.zero

/-- `src/dual_quaternion.rs:461-463`, `src/dual_quaternion.rs:480-486` -/
def one : DQuat T := ⟨Quat.one, Quat.zero, true⟩

/-- `src/dual_quaternion.rs:43` (`derive(PartialEq)`) -/
def beq (a b : DQuat T) : Bool :=
  a.q_real.beq b.q_real && a.q_dual.beq b.q_dual && (a.normalized == b.normalized)

/-- `src/dual_quaternion.rs:472-474` -/
def is_zero (self : DQuat T) : Bool := self.beq DQuat.zero

/-- `src/dual_quaternion.rs:154-157` -/
def to_homogeneous (self : DQuat T) : Mat 4 T :=
  let (r, p) := self.to_rotation_translation
  homogeneous_from_rotation r p

/-- `src/dual_quaternion.rs:160-170` -/
def inverse (self : DQuat T) : MayPanic (DQuat T) :=
  if self.normalized then
    pure self.conj
  else do
    let q_real_inv ← expectSome "the zero Quaternion cannot be inverted" self.q_real.inverse
    pure (DQuat.new q_real_inv ((q_real_inv.neg.mul self.q_dual).mul q_real_inv))

/-- `src/dual_quaternion.rs:182-205` -/
def get_screw_parameters (self : DQuat T) : Vec 3 T × Vec 3 T × T × T :=
  let one : T := 1
  let two : T := one + one
  let half : T := one / two
  let theta : T := self.real.get_angle
  let t := self.get_translation
  if !nearly_zero theta then
    let l := V3.sdiv self.real.imag (RFloat.sin (theta / two))
    let d : T := V3.dot t l
    let cot : T := one / RFloat.tan (theta / two)
    let m := V3.smul (V3.add (V3.cross t l) (V3.smul (V3.sub t (V3.smul l d)) cot)) half
    (l, m, theta, d)
  else
    let d : T := V3.norm2 t
    let l : Vec 3 T := V3.zero
    let l := if !nearly_zero d then V3.sdiv t d else l
    let inf : T := RFloat.infinity
    let m : Vec 3 T := ⟨![inf, inf, inf]⟩
    (l, m, theta, d)

/-- `src/dual_quaternion.rs:222-229` -/
def new_from_screw_parameters (l m : Vec 3 T) (theta d : T) : DQuat T :=
  let one : T := 1
  let two : T := one + one
  let sin : T := RFloat.sin (theta / two)
  let cos : T := RFloat.cos (theta / two)
  let q_real := Quat.new cos (V3.smul l sin)
  let q_dual := Quat.new (sin * (-d / two))
    (V3.add (V3.smul m sin) (V3.smul (V3.smul l (d / two)) cos))
  DQuat.new q_real q_dual

/-- `src/dual_quaternion.rs:241-261` -/
def pow (self : DQuat T) (exponent : T) : DQuat T :=
  let one : T := 1
  let two : T := one + one
  let theta : T := two * RFloat.acos self.real.real
  let s : T := RFloat.sin (theta / two)
  let c : T := RFloat.cos (theta / two)
  if nearly_zero theta then
    DQuat.new_from_point (V3.smul self.get_translation exponent)
  else
    let s0 := V3.sdiv self.real.imag s
    let d : T := self.dual.real * -two / s
    let se := V3.sdiv (V3.sub self.dual.imag (V3.smul (V3.smul s0 (d / two)) c)) s
    let s_exp : T := RFloat.sin (exponent * theta / two)
    let c_exp : T := RFloat.cos (exponent * theta / two)
    let q_real := Quat.new c_exp (V3.smul s0 s_exp)
    let q_dual := Quat.new (s_exp * -exponent * d / two)
      (V3.add (V3.sdiv (V3.smul (V3.smul (V3.smul s0 c_exp) exponent) d) two) (V3.smul se s_exp))
    DQuat.new q_real q_dual

/-- `src/dual_quaternion.rs:273-282` -/
def screw_lerp (begin' end' : DQuat T) (tau : T) : MayPanic (DQuat T) := do
  let one : T := 1
  let start := begin'
  let start := if ROrd.lt (start.real.mul end'.real).real 0 then
      { start with q_real := begin'.real.smul (-one) }
    else start
  let inv ← start.inverse
  pure (start.mul ((inv.mul end').pow tau))

/-- `src/dual_quaternion.rs:285-297` -/
def log (self : DQuat T) : MayPanic (Option (DQuat T)) :=
  if self.normalized then do
    let one : T := 1
    let two : T := one + one
    let half : T := one / two
    let (axis, angle) := self.real.axis_angle
    let axis ← expectSome "there is no axis" axis
    let q_real := Quat.new_imag (V3.smul (V3.smul axis half) angle)
    let q_dual := Quat.new_imag (V3.smul self.get_translation half)
    pure (some (DQuat.new q_real q_dual))
  else
    pure none

/-- `src/dual_quaternion.rs:302-310` -/
def new_from_array (array : Vec 7 T) : DQuat T :=
  let one : T := 1
  let half : T := one / (one + one)
  let v_q : Vec 4 T := ⟨![array 0, array 1, array 2, array 3]⟩
  let q_real := Quat.new_from_vec v_q
  let v_d : Vec 3 T := ⟨![array 4, array 5, array 6]⟩
  let q_dual := ((Quat.new_imag v_d).smul half).mul q_real
  DQuat.new q_real q_dual

/-- `src/dual_quaternion.rs:313-321` -/
def new_from_translation (t : Vec 3 T) : DQuat T :=
  let one : T := 1
  let two : T := one + one
  ⟨Quat.one, Quat.new_imag ⟨![t 0 / two, t 1 / two, t 2 / two]⟩, true⟩

/-- `src/dual_quaternion.rs:324-334` -/
def new_from_rot_trans (rot : Quat T) (translation : Vec 3 T) : MayPanic (DQuat T) := do
  let one : T := 1
  let half : T := one / (one + one)
  let q_real ← expectSome "the quaternion it can't be zero!!!" rot.normalize
  let q_dual := ((Quat.new_imag translation).smul half).mul q_real
  pure ⟨q_real, q_dual, true⟩

/-- `src/dual_quaternion.rs:336-351` -/
def is_normalized (self : DQuat T) : Bool :=
  if self.normalized then
    true
  else if nearly_zero self.real.norm2 then
    true
  else
    let check1 := nearly_equal self.real.norm2 1 RFloat.epsilon
    let dual_norm := self.dual.sdiv self.real.norm2
    let check2 := nearly_equal dual_norm.real self.dual.real RFloat.epsilon
      && nearly_equal (dual_norm.imag 0) (self.dual.imag 0) RFloat.epsilon
      && nearly_equal (dual_norm.imag 1) (self.dual.imag 1) RFloat.epsilon
      && nearly_equal (dual_norm.imag 2) (self.dual.imag 2) RFloat.epsilon
    check1 && check2

/-- `src/dual_quaternion.rs:356-371` -/
def normalize (self : DQuat T) : Option (DQuat T) :=
  if self.normalized then
    some self
  else
    let norm_q_real : T := self.q_real.norm2
    if !nearly_zero norm_q_real then
      let result : DQuat T := DQuat.one
      let result := { result with q_real := self.q_real.sdiv norm_q_real }
      let result := { result with q_dual := self.q_dual.sdiv norm_q_real }
      let result := { result with normalized := true }
      some result
    else
      none

/-- `src/dual_quaternion.rs:376-382` -/
def new_from_homogeneous (t : Mat 4 T) : MayPanic (DQuat T) := do
  let (rot, p) := get_parts_raw t
  let q ← expectSome "the quaternion it can't be zero!!!" (Quat.from_rotation rot).normalize
  DQuat.new_from_rot_trans q p

/-- `src/dual_quaternion.rs:385-391` -/
def new_from_rotation_matrix (m : Mat 3 T) : DQuat T := ⟨Quat.from_rotation m, Quat.zero, true⟩

end DQuat

/-- `src/utils.rs:88-101` -/
def compare_dual_quaternions (a b : DQuat T) (epsilon : T) : Bool :=
  nearly_equal a.real.real b.real.real epsilon
    && nearly_equal (a.real.imag 0) (b.real.imag 0) epsilon
    && nearly_equal (a.real.imag 1) (b.real.imag 1) epsilon
    && nearly_equal (a.real.imag 2) (b.real.imag 2) epsilon
    && nearly_equal a.dual.real b.dual.real epsilon
    && nearly_equal (a.dual.imag 0) (b.dual.imag 0) epsilon
    && nearly_equal (a.dual.imag 1) (b.dual.imag 1) epsilon
    && nearly_equal (a.dual.imag 2) (b.dual.imag 2) epsilon

end StaticMath
