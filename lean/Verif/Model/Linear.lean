import Verif.Model.GenLoops
import Verif.Model.Assign

/-! # Remaining vector and matrix functions (hand-transcribed) -/

namespace StaticMath

variable {T : Type} [Add T] [Sub T] [Mul T] [Div T] [Neg T] [Zero T] [One T]
  [RAbs T] [ROrd T] [RFloat T]

/-! ## vectors -/

/-- `src/vector2.rs:99-111`, `src/vector3.rs:132-144`, `src/vector4.rs:112-124`,
`src/vector5.rs:100-112`, `src/vector6.rs:102-114`: the five bodies are textually identical; `zeros`
and `norm2` are the functions of the size in question. -/
def normalizeGen {n : ℕ} (zeros : Vec n T) (norm2 : Vec n T → T) (self : Vec n T) :
    MayPanic (Except VectorErrors (Vec n T)) := do
  let nrm := norm2 self
  if !ROrd.beq nrm 0 then do
    let result := zeros
    let result ← forRange 0 n result fun i result => do
      result.set i ((← self.get i) / nrm)
    pure (.ok result)
  else
    pure (.error .Norm2IsZero)

/-- `src/vector2.rs:99-111` -/
def V2.normalize (self : Vec 2 T) := normalizeGen V2.zero V2.norm2 self
/-- `src/vector3.rs:132-144` -/
def V3.normalize (self : Vec 3 T) := normalizeGen V3.zero V3.norm2 self
/-- `src/vector4.rs:112-124` (takes `&mut self` but does not modify it) -/
def V4.normalize (self : Vec 4 T) := normalizeGen V4.zero V4.norm2 self
/-- `src/vector5.rs:100-112` (takes `&mut self` but does not modify it) -/
def V5.normalize (self : Vec 5 T) := normalizeGen V5.zero V5.norm2 self
/-- `src/vector6.rs:102-114` (takes `&mut self` but does not modify it) -/
def V6.normalize (self : Vec 6 T) := normalizeGen V6.zero V6.norm2 self

/-- `src/vector2.rs:72-74`, `src/vector3.rs:104-106`, `src/vector4.rs:82-84`,
`src/vector5.rs:72-74`, `src/vector6.rs:73-75`: `norm_inf(&**self)` in every size. -/
def Vec.norm_inf {n : ℕ} (self : Vec n T) : MayPanic T := StaticMath.norm_inf self.toSlice

/-- `src/vector2.rs:78-80`, `src/vector3.rs:110-112`, `src/vector4.rs:89-91`,
`src/vector5.rs:78-80`, `src/vector6.rs:79-81`: `norm_l(&**self)` in every size. -/
def Vec.norm_l {n : ℕ} (self : Vec n T) : T := StaticMath.norm_l self.toSlice

/-- `src/vector4.rs:73-78` -/
def V4.bitand (self rhs : Vec 4 Bool) : Vec 4 Bool :=
  ⟨![self 0 && rhs 0, self 1 && rhs 1, self 2 && rhs 2, self 3 && rhs 3]⟩

/-- `src/vector2.rs:218-220`, `src/vector3.rs:257-259`, `src/vector4.rs:224-226`,
`src/vector5.rs:209-211`, `src/vector6.rs:265-267` (`*self == zero`). -/
def Vec.is_zero {n : ℕ} (self : Vec n T) : Bool := self.beq ⟨fun _ => 0⟩

/-- `src/matrix3x3.rs:554-556`, `src/matrix6x6.rs:1827-1829` and the same text in the other sizes
(`*self == zero`). -/
def Mat.is_zero {n : ℕ} (self : Mat n T) : Bool := self.beq ⟨fun _ _ => 0⟩

/-! ## matrices -/

/-- `src/matrix5x5.rs:110-118` -/
def M55.norm2 (self : Mat 5 T) : T :=
  RFloat.sqrt (iterSum (self.toSlice.map fun element => element * element))

/-- `src/matrix6x6.rs:127-135` -/
def M66.norm2 (self : Mat 6 T) : T :=
  RFloat.sqrt (iterSum (self.toSlice.map fun element => element * element))

/-- `src/matrix2x2.rs:153-159`, `src/matrix3x3.rs:225-231`, `src/matrix4x4.rs:300-306`,
`src/matrix5x5.rs:882-888`, `src/matrix6x6.rs:1633-1639`: textually identical up to the array length
`len`, which is 4, 9, 16, 25, 36. -/
def asVecGen {n : ℕ} (len : ℕ) (self : Mat n T) : MayPanic (Vec len T) :=
  self.toSlice.zipIdx.foldlM (fun (result : Vec len T) p => result.set p.2 p.1) (Vec.rep len 0)

/-- `src/matrix2x2.rs:153-159` -/
def M22.as_vec (self : Mat 2 T) : MayPanic (Vec 4 T) := asVecGen 4 self
/-- `src/matrix3x3.rs:225-231` -/
def M33.as_vec (self : Mat 3 T) : MayPanic (Vec 9 T) := asVecGen 9 self
/-- `src/matrix4x4.rs:300-306` -/
def M44.as_vec (self : Mat 4 T) : MayPanic (Vec 16 T) := asVecGen 16 self
/-- `src/matrix5x5.rs:882-888` -/
def M55.as_vec (self : Mat 5 T) : MayPanic (Vec 25 T) := asVecGen 25 self
/-- `src/matrix6x6.rs:1633-1639` -/
def M66.as_vec (self : Mat 6 T) : MayPanic (Vec 36 T) := asVecGen 36 self

/-- `src/matrix6x6.rs:1787-1819`; the `&mut` matrix is returned. -/
def M66.copy_elements_from (self : Mat 6 T) (r : Mat 3 T) (quadrant : ℕ) : MayPanic (Mat 6 T) :=
  match quadrant with
  | 1 => forRange 0 3 self fun i self => forRange 0 3 self fun j self => do
      self.set i j (← r.get i j)
  | 2 => forRange 0 3 self fun i self => forRange 3 6 self fun j self => do
      self.set i j (← r.get i (j - 3))
  | 3 => forRange 3 6 self fun i self => forRange 0 3 self fun j self => do
      self.set i j (← r.get (i - 3) j)
  | 4 => forRange 3 6 self fun i self => forRange 3 6 self fun j self => do
      self.set i j (← r.get (i - 3) (j - 3))
  | _ => throw (.explicit "no more than 4 quadrants !!!")

/-- `src/matrix2x2.rs:346-360`; `T::from(4)?`, `T::from(2)?` are `Some` for `f32` and `f64`. -/
def M22.real_eigenvals (self : Mat 2 T) : Option (Vec 2 T) :=
  let tau : T := M22.trace self
  let delta : T := M22.det self
  let tau_2 : T := tau * tau
  let four : T := RFloat.lit4
  let discr : T := tau_2 - four * delta
  if ROrd.lt discr 0 then
    none
  else
    let two : T := RFloat.lit2
    let lambda2 : T := (tau - RFloat.sqrt discr) / two
    let lambda1 : T := (tau + RFloat.sqrt discr) / two
    some ⟨![lambda1, lambda2]⟩

/-- The methods of one matrix size and of the matching vector size that `qr` calls. -/
structure QrOps (n : ℕ) (T : Type) where
  det : Mat n T → T
  zeros : Mat n T
  get_cols : Mat n T → MayPanic (Vec n (Vec n T))
  new_from_vecs : Vec n (Vec n T) → MayPanic (Mat n T)
  transpose : Mat n T → Mat n T
  mul : Mat n T → Mat n T → Mat n T
  vsub : Vec n T → Vec n T → Vec n T
  vsmul : Vec n T → T → Vec n T

/-- `src/slices_methods.rs:91-96` applied in place to the array behind a vector
(`normalize(&mut *q_tilde)`): writing the normalized elements back. -/
def Vec.normalizeSlice {n : ℕ} (v : Vec n T) : MayPanic (Vec n T) :=
  (slice_normalize v.toSlice).zipIdx.foldlM (fun (r : Vec n T) p => r.set p.2 p.1) v

/-- `src/matrix2x2.rs:119-138`, `src/matrix3x3.rs:133-152`, `src/matrix4x4.rs:207-226`,
`src/matrix5x5.rs:295-314`, `src/matrix6x6.rs:926-946`: the five bodies are textually identical up
to the type names (and a comment). `V::new_from(q[0], …, q[n-1])` is the array `q` itself. -/
def qrGen {n : ℕ} (o : QrOps n T) (self : Mat n T) : MayPanic (Option (Mat n T × Mat n T)) := do
  if !nearly_zero (o.det self) then do
    let cols ← o.get_cols self
    let q ← o.get_cols o.zeros
    let q ← forRange 0 n q fun i q => do
      let q_tilde ← cols.get i
      let q_tilde ← (q.toSlice.take i).foldlM (fun q_tilde elem => do
        let p ← project_x_over_y (← cols.get i).toSlice elem.toSlice
        pure (o.vsub q_tilde (o.vsmul elem p))) q_tilde
      let q_tilde ← q_tilde.normalizeSlice
      q.set i q_tilde
    let q ← o.new_from_vecs q
    let r := o.mul (o.transpose q) self
    pure (some (q, r))
  else
    pure none

/-- `src/matrix2x2.rs:119-138` -/
def M22.qr (self : Mat 2 T) : MayPanic (Option (Mat 2 T × Mat 2 T)) :=
  qrGen ⟨M22.det, M22.zero, M22.get_cols, M22.new_from_vecs, M22.transpose, M22.mul, V2.sub, V2.smul⟩
    self
/-- `src/matrix3x3.rs:133-152` -/
def M33.qr (self : Mat 3 T) : MayPanic (Option (Mat 3 T × Mat 3 T)) :=
  qrGen ⟨M33.det, M33.zero, M33.get_cols, M33.new_from_vecs, M33.transpose, M33.mul, V3.sub, V3.smul⟩
    self
/-- `src/matrix4x4.rs:207-226` -/
def M44.qr (self : Mat 4 T) : MayPanic (Option (Mat 4 T × Mat 4 T)) :=
  qrGen ⟨M44.det, M44.zero, M44.get_cols, M44.new_from_vecs, M44.transpose, M44.mul, V4.sub, V4.smul⟩
    self
/-- `src/matrix5x5.rs:295-314` -/
def M55.qr (self : Mat 5 T) : MayPanic (Option (Mat 5 T × Mat 5 T)) :=
  qrGen ⟨M55.det, M55.zero, M55.get_cols, M55.new_from_vecs, M55.transpose, M55.mul, V5.sub, V5.smul⟩
    self
/-- `src/matrix6x6.rs:926-946` -/
def M66.qr (self : Mat 6 T) : MayPanic (Option (Mat 6 T × Mat 6 T)) :=
  qrGen ⟨M66.det, M66.zero, M66.get_cols, M66.new_from_vecs, M66.transpose, M66.mul, V6.sub, V6.smul⟩
    self

end StaticMath
