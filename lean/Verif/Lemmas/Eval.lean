import Verif.Ieee.Sim
import Verif.Lemmas.Attr
import Verif.Spec.Same
import Verif.Lemmas.IeeeExpr

/-!
# Model functions commute with evaluating expressions

Generated by `tools/gen_eval.py`. Every equation holds by unfolding: the model functions are generic
in the element type.
-/

namespace StaticMath
open Flt
variable {ι : Type} {f : Fmt}

/-- Evaluate every entry. -/
noncomputable def Mat.ev {n : ℕ} (x : ι → Flt f) (M : Mat n (Ex ι)) : Mat n (Flt f) :=
  ⟨fun i j => (M i j).evalF x⟩
/-- Evaluate every component. -/
noncomputable def Vec.ev {n : ℕ} (x : ι → Flt f) (v : Vec n (Ex ι)) : Vec n (Flt f) :=
  ⟨fun i => (v i).evalF x⟩
/-- Evaluate every component. -/
noncomputable def Quat.ev (x : ι → Flt f) (q : Quat (Ex ι)) : Quat (Flt f) :=
  ⟨q.q0.evalF x, q.q.ev x, q.normalized⟩
/-- Evaluate every component. -/
noncomputable def DQuat.ev (x : ι → Flt f) (q : DQuat (Ex ι)) : DQuat (Flt f) :=
  ⟨q.q_real.ev x, q.q_dual.ev x, q.normalized⟩

variable (x : ι → Flt f)

@[ev] theorem Ex.ev_zero : (0 : Ex ι).evalF x = 0 := rfl
@[ev] theorem Ex.ev_one : (1 : Ex ι).evalF x = 1 := rfl
@[ev] theorem Ex.ev_neg (a : Ex ι) : (-a).evalF x = -a.evalF x := rfl
@[ev] theorem Ex.ev_add (a b : Ex ι) : (a + b).evalF x = a.evalF x + b.evalF x := rfl
@[ev] theorem Ex.ev_sub (a b : Ex ι) : (a - b).evalF x = a.evalF x - b.evalF x := rfl
@[ev] theorem Ex.ev_mul (a b : Ex ι) : (a * b).evalF x = a.evalF x * b.evalF x := rfl
@[ev] theorem Ex.ev_var (i : ι) : (Ex.var i).evalF x = x i := rfl

@[ev] theorem V2.zero_ev  :
    (V2.zero : Vec 2 (Ex ι)).ev x = V2.zero := by
  refine Vec.ext (funext fun i => ?_)
  fin_cases i <;> rfl

@[ev] theorem V2.add_ev (a b : Vec 2 (Ex ι)) :
    (V2.add a b).ev x = V2.add (a.ev x) (b.ev x) := by
  refine Vec.ext (funext fun i => ?_)
  fin_cases i <;> rfl

@[ev] theorem V2.sub_ev (a b : Vec 2 (Ex ι)) :
    (V2.sub a b).ev x = V2.sub (a.ev x) (b.ev x) := by
  refine Vec.ext (funext fun i => ?_)
  fin_cases i <;> rfl

@[ev] theorem V2.neg_ev (a : Vec 2 (Ex ι)) :
    (V2.neg a).ev x = V2.neg (a.ev x) := by
  refine Vec.ext (funext fun i => ?_)
  fin_cases i <;> rfl

@[ev] theorem V2.smul_ev (a : Vec 2 (Ex ι)) (c : Ex ι) :
    (V2.smul a c).ev x = V2.smul (a.ev x) (c.evalF x) := by
  refine Vec.ext (funext fun i => ?_)
  fin_cases i <;> rfl

@[ev] theorem V2.dot_ev (a b : Vec 2 (Ex ι)) :
    (V2.dot a b).evalF x = V2.dot (a.ev x) (b.ev x) := rfl

@[ev] theorem V2.mulMat_ev (a : Vec 2 (Ex ι)) (B : Mat 2 (Ex ι)) :
    (V2.mulMat a B).ev x = V2.mulMat (a.ev x) (B.ev x) := by
  refine Vec.ext (funext fun i => ?_)
  fin_cases i <;> rfl

@[ev] theorem M22.zero_ev  :
    (M22.zero : Mat 2 (Ex ι)).ev x = M22.zero := by
  refine Mat.ext (funext fun i => funext fun j => ?_)
  fin_cases i <;> fin_cases j <;> rfl

@[ev] theorem M22.one_ev  :
    (M22.one : Mat 2 (Ex ι)).ev x = M22.one := by
  refine Mat.ext (funext fun i => funext fun j => ?_)
  fin_cases i <;> fin_cases j <;> rfl

@[ev] theorem M22.add_ev (A B : Mat 2 (Ex ι)) :
    (M22.add A B).ev x = M22.add (A.ev x) (B.ev x) := by
  refine Mat.ext (funext fun i => funext fun j => ?_)
  fin_cases i <;> fin_cases j <;> rfl

@[ev] theorem M22.sub_ev (A B : Mat 2 (Ex ι)) :
    (M22.sub A B).ev x = M22.sub (A.ev x) (B.ev x) := by
  refine Mat.ext (funext fun i => funext fun j => ?_)
  fin_cases i <;> fin_cases j <;> rfl

@[ev] theorem M22.mul_ev (A B : Mat 2 (Ex ι)) :
    (M22.mul A B).ev x = M22.mul (A.ev x) (B.ev x) := by
  refine Mat.ext (funext fun i => funext fun j => ?_)
  fin_cases i <;> fin_cases j <;> rfl

@[ev] theorem M22.neg_ev (A : Mat 2 (Ex ι)) :
    (M22.neg A).ev x = M22.neg (A.ev x) := by
  refine Mat.ext (funext fun i => funext fun j => ?_)
  fin_cases i <;> fin_cases j <;> rfl

@[ev] theorem M22.transpose_ev (A : Mat 2 (Ex ι)) :
    (M22.transpose A).ev x = M22.transpose (A.ev x) := by
  refine Mat.ext (funext fun i => funext fun j => ?_)
  fin_cases i <;> fin_cases j <;> rfl

@[ev] theorem M22.smul_ev (A : Mat 2 (Ex ι)) (c : Ex ι) :
    (M22.smul A c).ev x = M22.smul (A.ev x) (c.evalF x) := by
  refine Mat.ext (funext fun i => funext fun j => ?_)
  fin_cases i <;> fin_cases j <;> rfl

@[ev] theorem M22.mulVec_ev (A : Mat 2 (Ex ι)) (v : Vec 2 (Ex ι)) :
    (M22.mulVec A v).ev x = M22.mulVec (A.ev x) (v.ev x) := by
  refine Vec.ext (funext fun i => ?_)
  fin_cases i <;> rfl

@[ev] theorem M22.trace_ev (A : Mat 2 (Ex ι)) :
    (M22.trace A).evalF x = M22.trace (A.ev x) := rfl

@[ev] theorem M22.det_ev (A : Mat 2 (Ex ι)) :
    (M22.det A).evalF x = M22.det (A.ev x) := rfl

@[ev] theorem V3.zero_ev  :
    (V3.zero : Vec 3 (Ex ι)).ev x = V3.zero := by
  refine Vec.ext (funext fun i => ?_)
  fin_cases i <;> rfl

@[ev] theorem V3.add_ev (a b : Vec 3 (Ex ι)) :
    (V3.add a b).ev x = V3.add (a.ev x) (b.ev x) := by
  refine Vec.ext (funext fun i => ?_)
  fin_cases i <;> rfl

@[ev] theorem V3.sub_ev (a b : Vec 3 (Ex ι)) :
    (V3.sub a b).ev x = V3.sub (a.ev x) (b.ev x) := by
  refine Vec.ext (funext fun i => ?_)
  fin_cases i <;> rfl

@[ev] theorem V3.neg_ev (a : Vec 3 (Ex ι)) :
    (V3.neg a).ev x = V3.neg (a.ev x) := by
  refine Vec.ext (funext fun i => ?_)
  fin_cases i <;> rfl

@[ev] theorem V3.smul_ev (a : Vec 3 (Ex ι)) (c : Ex ι) :
    (V3.smul a c).ev x = V3.smul (a.ev x) (c.evalF x) := by
  refine Vec.ext (funext fun i => ?_)
  fin_cases i <;> rfl

@[ev] theorem V3.dot_ev (a b : Vec 3 (Ex ι)) :
    (V3.dot a b).evalF x = V3.dot (a.ev x) (b.ev x) := rfl

@[ev] theorem V3.mulMat_ev (a : Vec 3 (Ex ι)) (B : Mat 3 (Ex ι)) :
    (V3.mulMat a B).ev x = V3.mulMat (a.ev x) (B.ev x) := by
  refine Vec.ext (funext fun i => ?_)
  fin_cases i <;> rfl

@[ev] theorem M33.zero_ev  :
    (M33.zero : Mat 3 (Ex ι)).ev x = M33.zero := by
  refine Mat.ext (funext fun i => funext fun j => ?_)
  fin_cases i <;> fin_cases j <;> rfl

@[ev] theorem M33.one_ev  :
    (M33.one : Mat 3 (Ex ι)).ev x = M33.one := by
  refine Mat.ext (funext fun i => funext fun j => ?_)
  fin_cases i <;> fin_cases j <;> rfl

@[ev] theorem M33.add_ev (A B : Mat 3 (Ex ι)) :
    (M33.add A B).ev x = M33.add (A.ev x) (B.ev x) := by
  refine Mat.ext (funext fun i => funext fun j => ?_)
  fin_cases i <;> fin_cases j <;> rfl

@[ev] theorem M33.sub_ev (A B : Mat 3 (Ex ι)) :
    (M33.sub A B).ev x = M33.sub (A.ev x) (B.ev x) := by
  refine Mat.ext (funext fun i => funext fun j => ?_)
  fin_cases i <;> fin_cases j <;> rfl

@[ev] theorem M33.mul_ev (A B : Mat 3 (Ex ι)) :
    (M33.mul A B).ev x = M33.mul (A.ev x) (B.ev x) := by
  refine Mat.ext (funext fun i => funext fun j => ?_)
  fin_cases i <;> fin_cases j <;> rfl

@[ev] theorem M33.neg_ev (A : Mat 3 (Ex ι)) :
    (M33.neg A).ev x = M33.neg (A.ev x) := by
  refine Mat.ext (funext fun i => funext fun j => ?_)
  fin_cases i <;> fin_cases j <;> rfl

@[ev] theorem M33.transpose_ev (A : Mat 3 (Ex ι)) :
    (M33.transpose A).ev x = M33.transpose (A.ev x) := by
  refine Mat.ext (funext fun i => funext fun j => ?_)
  fin_cases i <;> fin_cases j <;> rfl

@[ev] theorem M33.smul_ev (A : Mat 3 (Ex ι)) (c : Ex ι) :
    (M33.smul A c).ev x = M33.smul (A.ev x) (c.evalF x) := by
  refine Mat.ext (funext fun i => funext fun j => ?_)
  fin_cases i <;> fin_cases j <;> rfl

@[ev] theorem M33.mulVec_ev (A : Mat 3 (Ex ι)) (v : Vec 3 (Ex ι)) :
    (M33.mulVec A v).ev x = M33.mulVec (A.ev x) (v.ev x) := by
  refine Vec.ext (funext fun i => ?_)
  fin_cases i <;> rfl

@[ev] theorem M33.trace_ev (A : Mat 3 (Ex ι)) :
    (M33.trace A).evalF x = M33.trace (A.ev x) := rfl

@[ev] theorem M33.det_ev (A : Mat 3 (Ex ι)) :
    (M33.det A).evalF x = M33.det (A.ev x) := rfl

@[ev] theorem V4.zero_ev  :
    (V4.zero : Vec 4 (Ex ι)).ev x = V4.zero := by
  refine Vec.ext (funext fun i => ?_)
  fin_cases i <;> rfl

@[ev] theorem V4.add_ev (a b : Vec 4 (Ex ι)) :
    (V4.add a b).ev x = V4.add (a.ev x) (b.ev x) := by
  refine Vec.ext (funext fun i => ?_)
  fin_cases i <;> rfl

@[ev] theorem V4.sub_ev (a b : Vec 4 (Ex ι)) :
    (V4.sub a b).ev x = V4.sub (a.ev x) (b.ev x) := by
  refine Vec.ext (funext fun i => ?_)
  fin_cases i <;> rfl

@[ev] theorem V4.neg_ev (a : Vec 4 (Ex ι)) :
    (V4.neg a).ev x = V4.neg (a.ev x) := by
  refine Vec.ext (funext fun i => ?_)
  fin_cases i <;> rfl

@[ev] theorem V4.smul_ev (a : Vec 4 (Ex ι)) (c : Ex ι) :
    (V4.smul a c).ev x = V4.smul (a.ev x) (c.evalF x) := by
  refine Vec.ext (funext fun i => ?_)
  fin_cases i <;> rfl

@[ev] theorem V4.dot_ev (a b : Vec 4 (Ex ι)) :
    (V4.dot a b).evalF x = V4.dot (a.ev x) (b.ev x) := rfl

@[ev] theorem V4.mulMat_ev (a : Vec 4 (Ex ι)) (B : Mat 4 (Ex ι)) :
    (V4.mulMat a B).ev x = V4.mulMat (a.ev x) (B.ev x) := by
  refine Vec.ext (funext fun i => ?_)
  fin_cases i <;> rfl

@[ev] theorem M44.zero_ev  :
    (M44.zero : Mat 4 (Ex ι)).ev x = M44.zero := by
  refine Mat.ext (funext fun i => funext fun j => ?_)
  fin_cases i <;> fin_cases j <;> rfl

@[ev] theorem M44.one_ev  :
    (M44.one : Mat 4 (Ex ι)).ev x = M44.one := by
  refine Mat.ext (funext fun i => funext fun j => ?_)
  fin_cases i <;> fin_cases j <;> rfl

@[ev] theorem M44.add_ev (A B : Mat 4 (Ex ι)) :
    (M44.add A B).ev x = M44.add (A.ev x) (B.ev x) := by
  refine Mat.ext (funext fun i => funext fun j => ?_)
  fin_cases i <;> fin_cases j <;> rfl

@[ev] theorem M44.sub_ev (A B : Mat 4 (Ex ι)) :
    (M44.sub A B).ev x = M44.sub (A.ev x) (B.ev x) := by
  refine Mat.ext (funext fun i => funext fun j => ?_)
  fin_cases i <;> fin_cases j <;> rfl

@[ev] theorem M44.mul_ev (A B : Mat 4 (Ex ι)) :
    (M44.mul A B).ev x = M44.mul (A.ev x) (B.ev x) := by
  refine Mat.ext (funext fun i => funext fun j => ?_)
  fin_cases i <;> fin_cases j <;> rfl

@[ev] theorem M44.neg_ev (A : Mat 4 (Ex ι)) :
    (M44.neg A).ev x = M44.neg (A.ev x) := by
  refine Mat.ext (funext fun i => funext fun j => ?_)
  fin_cases i <;> fin_cases j <;> rfl

@[ev] theorem M44.transpose_ev (A : Mat 4 (Ex ι)) :
    (M44.transpose A).ev x = M44.transpose (A.ev x) := by
  refine Mat.ext (funext fun i => funext fun j => ?_)
  fin_cases i <;> fin_cases j <;> rfl

@[ev] theorem M44.smul_ev (A : Mat 4 (Ex ι)) (c : Ex ι) :
    (M44.smul A c).ev x = M44.smul (A.ev x) (c.evalF x) := by
  refine Mat.ext (funext fun i => funext fun j => ?_)
  fin_cases i <;> fin_cases j <;> rfl

@[ev] theorem M44.mulVec_ev (A : Mat 4 (Ex ι)) (v : Vec 4 (Ex ι)) :
    (M44.mulVec A v).ev x = M44.mulVec (A.ev x) (v.ev x) := by
  refine Vec.ext (funext fun i => ?_)
  fin_cases i <;> rfl

@[ev] theorem M44.trace_ev (A : Mat 4 (Ex ι)) :
    (M44.trace A).evalF x = M44.trace (A.ev x) := rfl

@[ev] theorem M44.det_ev (A : Mat 4 (Ex ι)) :
    (M44.det A).evalF x = M44.det (A.ev x) := rfl

@[ev] theorem V5.zero_ev  :
    (V5.zero : Vec 5 (Ex ι)).ev x = V5.zero := by
  refine Vec.ext (funext fun i => ?_)
  fin_cases i <;> rfl

@[ev] theorem V5.add_ev (a b : Vec 5 (Ex ι)) :
    (V5.add a b).ev x = V5.add (a.ev x) (b.ev x) := by
  refine Vec.ext (funext fun i => ?_)
  fin_cases i <;> rfl

@[ev] theorem V5.sub_ev (a b : Vec 5 (Ex ι)) :
    (V5.sub a b).ev x = V5.sub (a.ev x) (b.ev x) := by
  refine Vec.ext (funext fun i => ?_)
  fin_cases i <;> rfl

@[ev] theorem V5.neg_ev (a : Vec 5 (Ex ι)) :
    (V5.neg a).ev x = V5.neg (a.ev x) := by
  refine Vec.ext (funext fun i => ?_)
  fin_cases i <;> rfl

@[ev] theorem V5.smul_ev (a : Vec 5 (Ex ι)) (c : Ex ι) :
    (V5.smul a c).ev x = V5.smul (a.ev x) (c.evalF x) := by
  refine Vec.ext (funext fun i => ?_)
  fin_cases i <;> rfl

@[ev] theorem V5.dot_ev (a b : Vec 5 (Ex ι)) :
    (V5.dot a b).evalF x = V5.dot (a.ev x) (b.ev x) := rfl

@[ev] theorem V5.mulMat_ev (a : Vec 5 (Ex ι)) (B : Mat 5 (Ex ι)) :
    (V5.mulMat a B).ev x = V5.mulMat (a.ev x) (B.ev x) := by
  refine Vec.ext (funext fun i => ?_)
  fin_cases i <;> rfl

@[ev] theorem M55.zero_ev  :
    (M55.zero : Mat 5 (Ex ι)).ev x = M55.zero := by
  refine Mat.ext (funext fun i => funext fun j => ?_)
  fin_cases i <;> fin_cases j <;> rfl

@[ev] theorem M55.one_ev  :
    (M55.one : Mat 5 (Ex ι)).ev x = M55.one := by
  refine Mat.ext (funext fun i => funext fun j => ?_)
  fin_cases i <;> fin_cases j <;> rfl

@[ev] theorem M55.add_ev (A B : Mat 5 (Ex ι)) :
    (M55.add A B).ev x = M55.add (A.ev x) (B.ev x) := by
  refine Mat.ext (funext fun i => funext fun j => ?_)
  fin_cases i <;> fin_cases j <;> rfl

@[ev] theorem M55.sub_ev (A B : Mat 5 (Ex ι)) :
    (M55.sub A B).ev x = M55.sub (A.ev x) (B.ev x) := by
  refine Mat.ext (funext fun i => funext fun j => ?_)
  fin_cases i <;> fin_cases j <;> rfl

@[ev] theorem M55.mul_ev (A B : Mat 5 (Ex ι)) :
    (M55.mul A B).ev x = M55.mul (A.ev x) (B.ev x) := by
  refine Mat.ext (funext fun i => funext fun j => ?_)
  fin_cases i <;> fin_cases j <;> rfl

@[ev] theorem M55.neg_ev (A : Mat 5 (Ex ι)) :
    (M55.neg A).ev x = M55.neg (A.ev x) := by
  refine Mat.ext (funext fun i => funext fun j => ?_)
  fin_cases i <;> fin_cases j <;> rfl

@[ev] theorem M55.transpose_ev (A : Mat 5 (Ex ι)) :
    (M55.transpose A).ev x = M55.transpose (A.ev x) := by
  refine Mat.ext (funext fun i => funext fun j => ?_)
  fin_cases i <;> fin_cases j <;> rfl

@[ev] theorem M55.smul_ev (A : Mat 5 (Ex ι)) (c : Ex ι) :
    (M55.smul A c).ev x = M55.smul (A.ev x) (c.evalF x) := by
  refine Mat.ext (funext fun i => funext fun j => ?_)
  fin_cases i <;> fin_cases j <;> rfl

@[ev] theorem M55.mulVec_ev (A : Mat 5 (Ex ι)) (v : Vec 5 (Ex ι)) :
    (M55.mulVec A v).ev x = M55.mulVec (A.ev x) (v.ev x) := by
  refine Vec.ext (funext fun i => ?_)
  fin_cases i <;> rfl

@[ev] theorem M55.trace_ev (A : Mat 5 (Ex ι)) :
    (M55.trace A).evalF x = M55.trace (A.ev x) := rfl

set_option maxRecDepth 20000 in
@[ev] theorem M55.det_ev (A : Mat 5 (Ex ι)) :
    (M55.det A).evalF x = M55.det (A.ev x) := rfl

@[ev] theorem V6.zero_ev  :
    (V6.zero : Vec 6 (Ex ι)).ev x = V6.zero := by
  refine Vec.ext (funext fun i => ?_)
  fin_cases i <;> rfl

@[ev] theorem V6.add_ev (a b : Vec 6 (Ex ι)) :
    (V6.add a b).ev x = V6.add (a.ev x) (b.ev x) := by
  refine Vec.ext (funext fun i => ?_)
  fin_cases i <;> rfl

@[ev] theorem V6.sub_ev (a b : Vec 6 (Ex ι)) :
    (V6.sub a b).ev x = V6.sub (a.ev x) (b.ev x) := by
  refine Vec.ext (funext fun i => ?_)
  fin_cases i <;> rfl

@[ev] theorem V6.neg_ev (a : Vec 6 (Ex ι)) :
    (V6.neg a).ev x = V6.neg (a.ev x) := by
  refine Vec.ext (funext fun i => ?_)
  fin_cases i <;> rfl

@[ev] theorem V6.smul_ev (a : Vec 6 (Ex ι)) (c : Ex ι) :
    (V6.smul a c).ev x = V6.smul (a.ev x) (c.evalF x) := by
  refine Vec.ext (funext fun i => ?_)
  fin_cases i <;> rfl

@[ev] theorem V6.dot_ev (a b : Vec 6 (Ex ι)) :
    (V6.dot a b).evalF x = V6.dot (a.ev x) (b.ev x) := rfl

@[ev] theorem V6.mulMat_ev (a : Vec 6 (Ex ι)) (B : Mat 6 (Ex ι)) :
    (V6.mulMat a B).ev x = V6.mulMat (a.ev x) (B.ev x) := by
  refine Vec.ext (funext fun i => ?_)
  fin_cases i <;> rfl

@[ev] theorem M66.zero_ev  :
    (M66.zero : Mat 6 (Ex ι)).ev x = M66.zero := by
  refine Mat.ext (funext fun i => funext fun j => ?_)
  fin_cases i <;> fin_cases j <;> rfl

@[ev] theorem M66.one_ev  :
    (M66.one : Mat 6 (Ex ι)).ev x = M66.one := by
  refine Mat.ext (funext fun i => funext fun j => ?_)
  fin_cases i <;> fin_cases j <;> rfl

@[ev] theorem M66.add_ev (A B : Mat 6 (Ex ι)) :
    (M66.add A B).ev x = M66.add (A.ev x) (B.ev x) := by
  refine Mat.ext (funext fun i => funext fun j => ?_)
  fin_cases i <;> fin_cases j <;> rfl

@[ev] theorem M66.sub_ev (A B : Mat 6 (Ex ι)) :
    (M66.sub A B).ev x = M66.sub (A.ev x) (B.ev x) := by
  refine Mat.ext (funext fun i => funext fun j => ?_)
  fin_cases i <;> fin_cases j <;> rfl

@[ev] theorem M66.mul_ev (A B : Mat 6 (Ex ι)) :
    (M66.mul A B).ev x = M66.mul (A.ev x) (B.ev x) := by
  refine Mat.ext (funext fun i => funext fun j => ?_)
  fin_cases i <;> fin_cases j <;> rfl

@[ev] theorem M66.neg_ev (A : Mat 6 (Ex ι)) :
    (M66.neg A).ev x = M66.neg (A.ev x) := by
  refine Mat.ext (funext fun i => funext fun j => ?_)
  fin_cases i <;> fin_cases j <;> rfl

@[ev] theorem M66.transpose_ev (A : Mat 6 (Ex ι)) :
    (M66.transpose A).ev x = M66.transpose (A.ev x) := by
  refine Mat.ext (funext fun i => funext fun j => ?_)
  fin_cases i <;> fin_cases j <;> rfl

@[ev] theorem M66.smul_ev (A : Mat 6 (Ex ι)) (c : Ex ι) :
    (M66.smul A c).ev x = M66.smul (A.ev x) (c.evalF x) := by
  refine Mat.ext (funext fun i => funext fun j => ?_)
  fin_cases i <;> fin_cases j <;> rfl

@[ev] theorem M66.mulVec_ev (A : Mat 6 (Ex ι)) (v : Vec 6 (Ex ι)) :
    (M66.mulVec A v).ev x = M66.mulVec (A.ev x) (v.ev x) := by
  refine Vec.ext (funext fun i => ?_)
  fin_cases i <;> rfl

@[ev] theorem M66.trace_ev (A : Mat 6 (Ex ι)) :
    (M66.trace A).evalF x = M66.trace (A.ev x) := rfl

set_option maxRecDepth 20000 in
@[ev] theorem M66.det_ev (A : Mat 6 (Ex ι)) :
    (M66.det A).evalF x = M66.det (A.ev x) := rfl

/-! ## vectors in space, quaternions -/

@[ev] theorem V3.cross_ev (a b : Vec 3 (Ex ι)) :
    (V3.cross a b).ev x = V3.cross (a.ev x) (b.ev x) := by
  refine Vec.ext (funext fun i => ?_)
  fin_cases i <;> rfl

@[ev] theorem Quat.one_ev  :
    (Quat.one : Quat (Ex ι)).ev x = Quat.one := by
  refine Quat.ext rfl (Vec.ext (funext fun i => ?_)) rfl
  fin_cases i <;> rfl

@[ev] theorem Quat.zero_ev  :
    (Quat.zero : Quat (Ex ι)).ev x = Quat.zero := by
  refine Quat.ext rfl (Vec.ext (funext fun i => ?_)) rfl
  fin_cases i <;> rfl

@[ev] theorem Quat.add_ev (p q : Quat (Ex ι)) :
    (p.add q).ev x = (p.ev x).add (q.ev x) := by
  refine Quat.ext rfl (Vec.ext (funext fun i => ?_)) rfl
  fin_cases i <;> rfl

@[ev] theorem Quat.sub_ev (p q : Quat (Ex ι)) :
    (p.sub q).ev x = (p.ev x).sub (q.ev x) := by
  refine Quat.ext rfl (Vec.ext (funext fun i => ?_)) rfl
  fin_cases i <;> rfl

@[ev] theorem Quat.mul_ev (p q : Quat (Ex ι)) :
    (p.mul q).ev x = (p.ev x).mul (q.ev x) := by
  refine Quat.ext rfl (Vec.ext (funext fun i => ?_)) rfl
  fin_cases i <;> rfl

@[ev] theorem Quat.neg_ev (q : Quat (Ex ι)) :
    (q.neg).ev x = (q.ev x).neg := by
  refine Quat.ext rfl (Vec.ext (funext fun i => ?_)) rfl
  fin_cases i <;> rfl

@[ev] theorem Quat.conj_ev (q : Quat (Ex ι)) :
    (q.conj).ev x = (q.ev x).conj := by
  refine Quat.ext rfl (Vec.ext (funext fun i => ?_)) rfl
  fin_cases i <;> rfl

@[ev] theorem Quat.smul_ev (q : Quat (Ex ι)) (c : Ex ι) :
    (q.smul c).ev x = (q.ev x).smul (c.evalF x) := by
  refine Quat.ext rfl (Vec.ext (funext fun i => ?_)) rfl
  fin_cases i <;> rfl

@[ev] theorem Quat.new_imag_ev (v : Vec 3 (Ex ι)) :
    (Quat.new_imag v).ev x = Quat.new_imag (v.ev x) := rfl

@[ev] theorem Quat.real_ev (q : Quat (Ex ι)) :
    q.real.evalF x = (q.ev x).real := rfl

@[ev] theorem Quat.imag_ev (q : Quat (Ex ι)) :
    q.imag.ev x = (q.ev x).imag := rfl

@[ev] theorem Quat.dot_ev (p q : Quat (Ex ι)) :
    (p.dot q).evalF x = (p.ev x).dot (q.ev x) := rfl

@[ev] theorem Quat.abs2_ev (q : Quat (Ex ι)) :
    q.abs2.evalF x = (q.ev x).abs2 := rfl

@[ev] theorem Quat.mulVec_ev (q : Quat (Ex ι)) (v : Vec 3 (Ex ι)) :
    (q.mulVec v).ev x = (q.ev x).mulVec (v.ev x) := by
  refine Vec.ext (funext fun i => ?_)
  fin_cases i <;> rfl

@[ev] theorem Quat.to_rotation_ev (q : Quat (Ex ι)) :
    q.to_rotation.ev x = (q.ev x).to_rotation := by
  refine Mat.ext (funext fun i => funext fun j => ?_)
  fin_cases i <;> fin_cases j <;> rfl

/-! ## dual quaternions -/

@[ev] theorem DQuat.one_ev  :
    (DQuat.one : DQuat (Ex ι)).ev x = DQuat.one := by
  refine DQuat.ext ?_ ?_ rfl
  · exact Quat.ext rfl (Vec.ext (funext fun i => by fin_cases i <;> rfl)) rfl
  · exact Quat.ext rfl (Vec.ext (funext fun i => by fin_cases i <;> rfl)) rfl

@[ev] theorem DQuat.add_ev (p q : DQuat (Ex ι)) :
    (p.add q).ev x = (p.ev x).add (q.ev x) := by
  refine DQuat.ext ?_ ?_ rfl
  · exact Quat.ext rfl (Vec.ext (funext fun i => by fin_cases i <;> rfl)) rfl
  · exact Quat.ext rfl (Vec.ext (funext fun i => by fin_cases i <;> rfl)) rfl

@[ev] theorem DQuat.sub_ev (p q : DQuat (Ex ι)) :
    (p.sub q).ev x = (p.ev x).sub (q.ev x) := by
  refine DQuat.ext ?_ ?_ rfl
  · exact Quat.ext rfl (Vec.ext (funext fun i => by fin_cases i <;> rfl)) rfl
  · exact Quat.ext rfl (Vec.ext (funext fun i => by fin_cases i <;> rfl)) rfl

@[ev] theorem DQuat.mul_ev (p q : DQuat (Ex ι)) :
    (p.mul q).ev x = (p.ev x).mul (q.ev x) := by
  refine DQuat.ext ?_ ?_ rfl
  · exact Quat.ext rfl (Vec.ext (funext fun i => by fin_cases i <;> rfl)) rfl
  · exact Quat.ext rfl (Vec.ext (funext fun i => by fin_cases i <;> rfl)) rfl

@[ev] theorem DQuat.neg_ev (q : DQuat (Ex ι)) :
    (q.neg).ev x = (q.ev x).neg := by
  refine DQuat.ext ?_ ?_ rfl
  · exact Quat.ext rfl (Vec.ext (funext fun i => by fin_cases i <;> rfl)) rfl
  · exact Quat.ext rfl (Vec.ext (funext fun i => by fin_cases i <;> rfl)) rfl

@[ev] theorem DQuat.conj_ev (q : DQuat (Ex ι)) :
    (q.conj).ev x = (q.ev x).conj := by
  refine DQuat.ext ?_ ?_ rfl
  · exact Quat.ext rfl (Vec.ext (funext fun i => by fin_cases i <;> rfl)) rfl
  · exact Quat.ext rfl (Vec.ext (funext fun i => by fin_cases i <;> rfl)) rfl

@[ev] theorem DQuat.conj_as_dual_ev (q : DQuat (Ex ι)) :
    (q.conj_as_dual).ev x = (q.ev x).conj_as_dual := by
  refine DQuat.ext ?_ ?_ rfl
  · exact Quat.ext rfl (Vec.ext (funext fun i => by fin_cases i <;> rfl)) rfl
  · exact Quat.ext rfl (Vec.ext (funext fun i => by fin_cases i <;> rfl)) rfl

@[ev] theorem DQuat.conj_combined_ev (q : DQuat (Ex ι)) :
    (q.conj_combined).ev x = (q.ev x).conj_combined := by
  refine DQuat.ext ?_ ?_ rfl
  · exact Quat.ext rfl (Vec.ext (funext fun i => by fin_cases i <;> rfl)) rfl
  · exact Quat.ext rfl (Vec.ext (funext fun i => by fin_cases i <;> rfl)) rfl

@[ev] theorem DQuat.new_from_point_ev (v : Vec 3 (Ex ι)) :
    (DQuat.new_from_point v).ev x = DQuat.new_from_point (v.ev x) := by
  refine DQuat.ext ?_ ?_ rfl
  · exact Quat.ext rfl (Vec.ext (funext fun i => by fin_cases i <;> rfl)) rfl
  · exact Quat.ext rfl (Vec.ext (funext fun i => by fin_cases i <;> rfl)) rfl

@[ev] theorem DQuat.new_from_rotation_ev (q : Quat (Ex ι)) :
    (DQuat.new_from_rotation q).ev x = DQuat.new_from_rotation (q.ev x) := by
  refine DQuat.ext ?_ ?_ rfl
  · exact Quat.ext rfl (Vec.ext (funext fun i => by fin_cases i <;> rfl)) rfl
  · exact Quat.ext rfl (Vec.ext (funext fun i => by fin_cases i <;> rfl)) rfl

@[ev] theorem DQuat.real_ev (q : DQuat (Ex ι)) :
    q.real.ev x = (q.ev x).real := rfl

@[ev] theorem DQuat.dual_ev (q : DQuat (Ex ι)) :
    q.dual.ev x = (q.ev x).dual := rfl

@[ev] theorem DQuat.get_translation_ev (q : DQuat (Ex ι)) :
    q.get_translation.ev x = (q.ev x).get_translation := by
  refine Vec.ext (funext fun i => ?_)
  fin_cases i <;> rfl

@[ev] theorem DQuat.transform_point_ev (q : DQuat (Ex ι)) (v : Vec 3 (Ex ι)) :
    (q.transform_point v).ev x = (q.ev x).transform_point (v.ev x) := by
  refine Vec.ext (funext fun i => ?_)
  fin_cases i <;> rfl

/-! ## transformations -/

@[ev] theorem DQuat.to_homogeneous_ev (q : DQuat (Ex ι)) :
    q.to_homogeneous.ev x = (q.ev x).to_homogeneous := by
  refine Mat.ext (funext fun i => funext fun j => ?_)
  fin_cases i <;> fin_cases j <;> rfl

@[ev] theorem homogeneous_from_rotation_ev (R : Mat 3 (Ex ι)) (p : Vec 3 (Ex ι)) :
    (homogeneous_from_rotation R p).ev x = homogeneous_from_rotation (R.ev x) (p.ev x) := by
  refine Mat.ext (funext fun i => funext fun j => ?_)
  fin_cases i <;> fin_cases j <;> rfl

@[ev] theorem homogeneous_inverse_ev (H : Mat 4 (Ex ι)) :
    (homogeneous_inverse H).ev x = homogeneous_inverse (H.ev x) := by
  refine Mat.ext (funext fun i => funext fun j => ?_)
  fin_cases i <;> fin_cases j <;> rfl

@[ev] theorem skew_from_vec_ev (v : Vec 3 (Ex ι)) :
    (skew_from_vec v).ev x = skew_from_vec (v.ev x) := by
  refine Mat.ext (funext fun i => funext fun j => ?_)
  fin_cases i <;> fin_cases j <;> rfl

@[ev] theorem screw_to_axis_ev (q s : Vec 3 (Ex ι)) (h : Ex ι) :
    (screw_to_axis q s h).ev x = screw_to_axis (q.ev x) (s.ev x) (h.evalF x) := by
  refine Vec.ext (funext fun i => ?_)
  fin_cases i <;> rfl

@[ev] theorem translation_2d_ev (a b : Ex ι) :
    (translation_2d a b).ev x = translation_2d (a.evalF x) (b.evalF x) := by
  refine Mat.ext (funext fun i => funext fun j => ?_)
  fin_cases i <;> fin_cases j <;> rfl

@[ev] theorem translation_3d_ev (a b c : Ex ι) :
    (translation_3d a b c).ev x = translation_3d (a.evalF x) (b.evalF x) (c.evalF x) := by
  refine Mat.ext (funext fun i => funext fun j => ?_)
  fin_cases i <;> fin_cases j <;> rfl

/-! ## variables -/

/-- A matrix of variables. -/
def Mat.vr {n : ℕ} (g : Fin n × Fin n → ι) : Mat n (Ex ι) := ⟨fun i j => .var (g (i, j))⟩
/-- A vector of variables. -/
def Vec.vr {n : ℕ} (g : Fin n → ι) : Vec n (Ex ι) := ⟨fun i => .var (g i)⟩
/-- A quaternion of variables. -/
def Quat.vr (g : Fin 4 → ι) : Quat (Ex ι) := ⟨.var (g 0), ⟨fun i => .var (g i.succ)⟩, false⟩
/-- A dual quaternion of variables. -/
def DQuat.vr (g : Fin 2 × Fin 4 → ι) : DQuat (Ex ι) :=
  ⟨Quat.vr fun i => g (0, i), Quat.vr fun i => g (1, i), false⟩

/-- The entries of a matrix. -/
def Mat.fl {n : ℕ} {T : Type} (A : Mat n T) : Fin n × Fin n → T := fun q => A q.1 q.2
/-- The components of a vector. -/
def Vec.fl {n : ℕ} {T : Type} (v : Vec n T) : Fin n → T := fun i => v i
/-- The components of a quaternion. -/
def Quat.fl {T : Type} (q : Quat T) : Fin 4 → T := Fin.cons q.q0 q.q.val
/-- The components of a dual quaternion. -/
def DQuat.fl {T : Type} (q : DQuat T) : Fin 2 × Fin 4 → T :=
  fun i => if i.1 = 0 then q.q_real.fl i.2 else q.q_dual.fl i.2

/-- The components without the flag. -/
def Quat.unflag {T : Type} (q : Quat T) : Quat T := ⟨q.q0, q.q, false⟩
/-- The components without the flags. -/
def DQuat.unflag {T : Type} (q : DQuat T) : DQuat T := ⟨q.q_real.unflag, q.q_dual.unflag, false⟩

omit x in
@[ev] theorem Mat.vr_id {n : ℕ} (A : Mat n (Flt f)) : (Mat.vr id).ev A.fl = A := rfl
omit x in
@[ev] theorem Mat.vr_inl {κ : Type} {n : ℕ} (A : Mat n (Flt f)) (y : κ → Flt f) :
    (Mat.vr Sum.inl).ev (Sum.elim A.fl y) = A := rfl
omit x in
@[ev] theorem Mat.vr_inr {κ : Type} {n : ℕ} (A : Mat n (Flt f)) (y : κ → Flt f) :
    (Mat.vr Sum.inr).ev (Sum.elim y A.fl) = A := rfl
omit x in
@[ev] theorem Vec.vr_id {n : ℕ} (A : Vec n (Flt f)) : (Vec.vr id).ev A.fl = A := rfl
omit x in
@[ev] theorem Vec.vr_inl {κ : Type} {n : ℕ} (A : Vec n (Flt f)) (y : κ → Flt f) :
    (Vec.vr Sum.inl).ev (Sum.elim A.fl y) = A := rfl
omit x in
@[ev] theorem Vec.vr_inr {κ : Type} {n : ℕ} (A : Vec n (Flt f)) (y : κ → Flt f) :
    (Vec.vr Sum.inr).ev (Sum.elim y A.fl) = A := rfl
omit x in
@[ev] theorem Quat.vr_id (A : Quat (Flt f)) : (Quat.vr id).ev A.fl = A.unflag := rfl
omit x in
@[ev] theorem Quat.vr_inl {κ : Type} (A : Quat (Flt f)) (y : κ → Flt f) :
    (Quat.vr Sum.inl).ev (Sum.elim A.fl y) = A.unflag := rfl
omit x in
@[ev] theorem Quat.vr_inr {κ : Type} (A : Quat (Flt f)) (y : κ → Flt f) :
    (Quat.vr Sum.inr).ev (Sum.elim y A.fl) = A.unflag := rfl
omit x in
@[ev] theorem DQuat.vr_id (A : DQuat (Flt f)) : (DQuat.vr id).ev A.fl = A.unflag := rfl
omit x in
@[ev] theorem DQuat.vr_inl {κ : Type} (A : DQuat (Flt f)) (y : κ → Flt f) :
    (DQuat.vr Sum.inl).ev (Sum.elim A.fl y) = A.unflag := rfl
omit x in
@[ev] theorem DQuat.vr_inr {κ : Type} (A : DQuat (Flt f)) (y : κ → Flt f) :
    (DQuat.vr Sum.inr).ev (Sum.elim y A.fl) = A.unflag := rfl
omit x in
@[ev] theorem Mat.vr_ll {κ ν : Type} {n : ℕ} (A : Mat n (Flt f)) (y : κ → Flt f) (z : ν → Flt f) :
    (Mat.vr fun i => .inl (.inl i)).ev (Sum.elim (Sum.elim A.fl y) z) = A := rfl
omit x in
@[ev] theorem Mat.vr_lr {κ ν : Type} {n : ℕ} (A : Mat n (Flt f)) (y : κ → Flt f) (z : ν → Flt f) :
    (Mat.vr fun i => .inl (.inr i)).ev (Sum.elim (Sum.elim y A.fl) z) = A := rfl
omit x in
@[ev] theorem Mat.vr_rl {κ ν : Type} {n : ℕ} (A : Mat n (Flt f)) (y : κ → Flt f) (z : ν → Flt f) :
    (Mat.vr fun i => .inr (.inl i)).ev (Sum.elim y (Sum.elim A.fl z)) = A := rfl
omit x in
@[ev] theorem Mat.vr_rr {κ ν : Type} {n : ℕ} (A : Mat n (Flt f)) (y : κ → Flt f) (z : ν → Flt f) :
    (Mat.vr fun i => .inr (.inr i)).ev (Sum.elim y (Sum.elim z A.fl)) = A := rfl
omit x in
@[ev] theorem Vec.vr_ll {κ ν : Type} {n : ℕ} (A : Vec n (Flt f)) (y : κ → Flt f) (z : ν → Flt f) :
    (Vec.vr fun i => .inl (.inl i)).ev (Sum.elim (Sum.elim A.fl y) z) = A := rfl
omit x in
@[ev] theorem Vec.vr_lr {κ ν : Type} {n : ℕ} (A : Vec n (Flt f)) (y : κ → Flt f) (z : ν → Flt f) :
    (Vec.vr fun i => .inl (.inr i)).ev (Sum.elim (Sum.elim y A.fl) z) = A := rfl
omit x in
@[ev] theorem Vec.vr_rl {κ ν : Type} {n : ℕ} (A : Vec n (Flt f)) (y : κ → Flt f) (z : ν → Flt f) :
    (Vec.vr fun i => .inr (.inl i)).ev (Sum.elim y (Sum.elim A.fl z)) = A := rfl
omit x in
@[ev] theorem Vec.vr_rr {κ ν : Type} {n : ℕ} (A : Vec n (Flt f)) (y : κ → Flt f) (z : ν → Flt f) :
    (Vec.vr fun i => .inr (.inr i)).ev (Sum.elim y (Sum.elim z A.fl)) = A := rfl

/-! ## finite inputs -/

omit x in
theorem isFin_elim {κ ν : Type} {y : κ → Flt f} {z : ν → Flt f} (hy : ∀ i, (y i).IsFin) (hz : ∀ i, (z i).IsFin) :
    ∀ i, (Sum.elim y z i).IsFin := fun i => by rcases i with i | i <;> [exact hy i; exact hz i]
omit x in
theorem Mat.AllFin.fl {n : ℕ} {A : Mat n (Flt f)} (h : A.AllFin) : ∀ i, (A.fl i).IsFin := fun i => h i.1 i.2
omit x in
theorem Vec.AllFin.fl {n : ℕ} {v : Vec n (Flt f)} (h : v.AllFin) : ∀ i, (v.fl i).IsFin := fun i => h i
omit x in
theorem Quat.AllFin.fl {q : Quat (Flt f)} (h : q.AllFin) : ∀ i, (q.fl i).IsFin :=
  fun i => Fin.cases h.1 (fun j => h.2 j) i
omit x in
theorem DQuat.AllFin.fl {q : DQuat (Flt f)} (h : q.AllFin) : ∀ i, (q.fl i).IsFin := fun i => by
  unfold DQuat.fl
  split
  · exact h.1.fl i.2
  · exact h.2.fl i.2

/-! ## flags do not matter -/


omit x in
@[ev] theorem Quat.add_unflag_left (p q : Quat (Flt f)) : p.unflag.add q = p.add q := rfl
omit x in
@[ev] theorem Quat.add_unflag_right (p q : Quat (Flt f)) : p.add q.unflag = p.add q := rfl
omit x in
@[ev] theorem Quat.sub_unflag_left (p q : Quat (Flt f)) : p.unflag.sub q = p.sub q := rfl
omit x in
@[ev] theorem Quat.sub_unflag_right (p q : Quat (Flt f)) : p.sub q.unflag = p.sub q := rfl
omit x in
@[ev] theorem Quat.mul_unflag_left (p q : Quat (Flt f)) : p.unflag.mul q = p.mul q := rfl
omit x in
@[ev] theorem Quat.mul_unflag_right (p q : Quat (Flt f)) : p.mul q.unflag = p.mul q := rfl
omit x in
@[ev] theorem Quat.dot_unflag_left (p q : Quat (Flt f)) : p.unflag.dot q = p.dot q := rfl
omit x in
@[ev] theorem Quat.dot_unflag_right (p q : Quat (Flt f)) : p.dot q.unflag = p.dot q := rfl
omit x in
@[ev] theorem Quat.neg_unflag (p : Quat (Flt f)) : p.unflag.neg = p.neg := rfl
omit x in
@[ev] theorem Quat.conj_unflag (p : Quat (Flt f)) : p.unflag.conj = p.conj := rfl
omit x in
@[ev] theorem Quat.abs2_unflag (p : Quat (Flt f)) : p.unflag.abs2 = p.abs2 := rfl
omit x in
@[ev] theorem Quat.to_rotation_unflag (p : Quat (Flt f)) : p.unflag.to_rotation = p.to_rotation := rfl
omit x in
@[ev] theorem Quat.q0_unflag (p : Quat (Flt f)) : p.unflag.q0 = p.q0 := rfl
omit x in
@[ev] theorem Quat.q_unflag (p : Quat (Flt f)) : p.unflag.q = p.q := rfl
omit x in
@[ev] theorem Quat.real_unflag (p : Quat (Flt f)) : p.unflag.real = p.real := rfl
omit x in
@[ev] theorem Quat.imag_unflag (p : Quat (Flt f)) : p.unflag.imag = p.imag := rfl
omit x in
@[ev] theorem Quat.mulVec_unflag (p : Quat (Flt f)) (v : Vec 3 (Flt f)) : p.unflag.mulVec v = p.mulVec v := rfl
omit x in
@[ev] theorem DQuat.add_unflag_left (p q : DQuat (Flt f)) : p.unflag.add q = p.add q := rfl
omit x in
@[ev] theorem DQuat.add_unflag_right (p q : DQuat (Flt f)) : p.add q.unflag = p.add q := rfl
omit x in
@[ev] theorem DQuat.sub_unflag_left (p q : DQuat (Flt f)) : p.unflag.sub q = p.sub q := rfl
omit x in
@[ev] theorem DQuat.sub_unflag_right (p q : DQuat (Flt f)) : p.sub q.unflag = p.sub q := rfl
omit x in
@[ev] theorem DQuat.mul_unflag_left (p q : DQuat (Flt f)) : p.unflag.mul q = p.mul q := rfl
omit x in
@[ev] theorem DQuat.mul_unflag_right (p q : DQuat (Flt f)) : p.mul q.unflag = p.mul q := rfl
omit x in
@[ev] theorem DQuat.neg_unflag (p : DQuat (Flt f)) : p.unflag.neg = p.neg := rfl
omit x in
@[ev] theorem DQuat.conj_unflag (p : DQuat (Flt f)) : p.unflag.conj = p.conj := rfl
omit x in
@[ev] theorem DQuat.conj_combined_unflag (p : DQuat (Flt f)) : p.unflag.conj_combined = p.conj_combined := rfl
omit x in
@[ev] theorem DQuat.get_translation_unflag (p : DQuat (Flt f)) : p.unflag.get_translation = p.get_translation := rfl
omit x in
@[ev] theorem DQuat.to_homogeneous_unflag (p : DQuat (Flt f)) : p.unflag.to_homogeneous = p.to_homogeneous := rfl
omit x in
@[ev] theorem DQuat.real_unflag (p : DQuat (Flt f)) : p.unflag.q_real = p.q_real.unflag := rfl
omit x in
@[ev] theorem DQuat.dual_unflag (p : DQuat (Flt f)) : p.unflag.q_dual = p.q_dual.unflag := rfl
omit x in
@[ev] theorem DQuat.transform_point_unflag (p : DQuat (Flt f)) (v : Vec 3 (Flt f)) : p.unflag.transform_point v = p.transform_point v := rfl



omit x in
@[ev] theorem Quat.same_unflag_left (p q : Quat (Flt f)) : p.unflag.Same q ↔ p.Same q := Iff.rfl
omit x in
@[ev] theorem Quat.same_unflag_right (p q : Quat (Flt f)) : p.Same q.unflag ↔ p.Same q := Iff.rfl
omit x in
@[ev] theorem DQuat.same_unflag_left (p q : DQuat (Flt f)) : p.unflag.Same q ↔ p.Same q := Iff.rfl
omit x in
@[ev] theorem DQuat.same_unflag_right (p q : DQuat (Flt f)) : p.Same q.unflag ↔ p.Same q := Iff.rfl

/-! ## comparing results -/

variable [Coded ι]

/-- Equal up to commutativity and signs, entry by entry. -/
def Mat.simEq {n : ℕ} (z : Ex.Mode) (A B : Mat n (Ex ι)) : Bool :=
  (List.finRange n).all fun i => (List.finRange n).all fun j => Ex.simEq z (A i j) (B i j)
/-- Equal up to commutativity and signs, component by component. -/
def Vec.simEq {n : ℕ} (z : Ex.Mode) (v w : Vec n (Ex ι)) : Bool :=
  (List.finRange n).all fun i => Ex.simEq z (v i) (w i)
/-- Equal up to commutativity and signs, component by component. -/
def Quat.simEq (z : Ex.Mode) (p q : Quat (Ex ι)) : Bool := Ex.simEq z p.q0 q.q0 && p.q.simEq z q.q
/-- Equal up to commutativity and signs, component by component. -/
def DQuat.simEq (z : Ex.Mode) (p q : DQuat (Ex ι)) : Bool := p.q_real.simEq z q.q_real && p.q_dual.simEq z q.q_dual

theorem Mat.same_of {n : ℕ} {A B : Mat n (Ex ι)} (h : A.simEq .none B = true) : (A.ev x).Same (B.ev x) := by
  intro i j
  simp only [Mat.simEq, List.all_eq_true, List.mem_finRange, forall_const] at h
  exact Ex.same_of x (h i j)

theorem Vec.same_of {n : ℕ} {v w : Vec n (Ex ι)} (h : v.simEq .none w = true) : (v.ev x).Same (w.ev x) := by
  intro i
  simp only [Vec.simEq, List.all_eq_true, List.mem_finRange, forall_const] at h
  exact Ex.same_of x (h i)

theorem Quat.same_of {p q : Quat (Ex ι)} (h : p.simEq .none q = true) : (p.ev x).Same (q.ev x) := by
  rw [Quat.simEq, Bool.and_eq_true] at h
  exact ⟨Ex.same_of x h.1, Vec.same_of x h.2⟩

theorem DQuat.same_of {p q : DQuat (Ex ι)} (h : p.simEq .none q = true) : (p.ev x).Same (q.ev x) := by
  rw [DQuat.simEq, Bool.and_eq_true] at h
  exact ⟨Quat.same_of x h.1, Quat.same_of x h.2⟩

theorem Mat.same_of_fin {n : ℕ} {A B : Mat n (Ex ι)} (h : A.simEq .result B = true) (ha : (A.ev x).AllFin) :
    (A.ev x).Same (B.ev x) := by
  intro i j
  simp only [Mat.simEq, List.all_eq_true, List.mem_finRange, forall_const] at h
  exact Ex.same_of_fin x (h i j) (ha i j)

theorem Vec.same_of_fin {n : ℕ} {v w : Vec n (Ex ι)} (h : v.simEq .result w = true) (ha : (v.ev x).AllFin) :
    (v.ev x).Same (w.ev x) := by
  intro i
  simp only [Vec.simEq, List.all_eq_true, List.mem_finRange, forall_const] at h
  exact Ex.same_of_fin x (h i) (ha i)

theorem Quat.same_of_fin {p q : Quat (Ex ι)} (h : p.simEq .result q = true) (ha : (p.ev x).AllFin) :
    (p.ev x).Same (q.ev x) := by
  rw [Quat.simEq, Bool.and_eq_true] at h
  exact ⟨Ex.same_of_fin x h.1 ha.1, Vec.same_of_fin x h.2 ha.2⟩

theorem DQuat.same_of_fin {p q : DQuat (Ex ι)} (h : p.simEq .result q = true) (ha : (p.ev x).AllFin) :
    (p.ev x).Same (q.ev x) := by
  rw [DQuat.simEq, Bool.and_eq_true] at h
  exact ⟨Quat.same_of_fin x h.1 ha.1, Quat.same_of_fin x h.2 ha.2⟩

theorem Mat.same_of_inputs {n : ℕ} {A B : Mat n (Ex ι)} (h : A.simEq .inputs B = true) (hx : ∀ i, (x i).IsFin) :
    (A.ev x).Same (B.ev x) := by
  intro i j
  simp only [Mat.simEq, List.all_eq_true, List.mem_finRange, forall_const] at h
  exact Ex.same_of_inputs x (h i j) hx

theorem Vec.same_of_inputs {n : ℕ} {v w : Vec n (Ex ι)} (h : v.simEq .inputs w = true) (hx : ∀ i, (x i).IsFin) :
    (v.ev x).Same (w.ev x) := by
  intro i
  simp only [Vec.simEq, List.all_eq_true, List.mem_finRange, forall_const] at h
  exact Ex.same_of_inputs x (h i) hx

theorem Quat.same_of_inputs {p q : Quat (Ex ι)} (h : p.simEq .inputs q = true) (hx : ∀ i, (x i).IsFin) :
    (p.ev x).Same (q.ev x) := by
  rw [Quat.simEq, Bool.and_eq_true] at h
  exact ⟨Ex.same_of_inputs x h.1 hx, Vec.same_of_inputs x h.2 hx⟩

theorem DQuat.same_of_inputs {p q : DQuat (Ex ι)} (h : p.simEq .inputs q = true) (hx : ∀ i, (x i).IsFin) :
    (p.ev x).Same (q.ev x) := by
  rw [DQuat.simEq, Bool.and_eq_true] at h
  exact ⟨Quat.same_of_inputs x h.1 hx, Quat.same_of_inputs x h.2 hx⟩


end StaticMath
