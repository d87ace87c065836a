import Verif.Lemmas.Eval
import Verif.Props.Ieee
import Verif.Props.IeeeQuat
import Verif.Props.IeeeDet

/-!
# C107, C108: floating point identities that hold without any rounding error

Generated by `tools/gen_props_ieee_sym.py`. `Same`: every pair of components is equal for Rust's `==`, or
both are NaN. `AllFin`: every component is finite.
-/

namespace StaticMath
open Flt

/-! ## C107 sign symmetries -/

/-- Negation moves through sums, products, matrix-vector products, dot products and the trace without any
rounding difference, and `det(-A) = det A`; NaN and infinities included. -/
theorem C107_signs_M22 {f : Fmt} (A B : Mat 2 (Flt f)) (v w : Vec 2 (Flt f)) :
    ((M22.mul (M22.neg A) B).Same (M22.neg (M22.mul A B)) ∧ (M22.mul A (M22.neg B)).Same (M22.neg (M22.mul A B)) ∧
      (M22.mul (M22.neg A) (M22.neg B)).Same (M22.mul A B)) ∧
    ((M22.sub A B).Same (M22.neg (M22.sub B A)) ∧ (M22.sub A B).Same (M22.add A (M22.neg B)) ∧
      (M22.add (M22.neg A) (M22.neg B)).Same (M22.neg (M22.add A B)) ∧ M22.neg (M22.neg A) = A) ∧
    ((M22.mulVec (M22.neg A) v).Same (V2.neg (M22.mulVec A v)) ∧ (M22.mulVec A (V2.neg v)).Same (V2.neg (M22.mulVec A v))) ∧
    ((V2.sub v w).Same (V2.neg (V2.sub w v)) ∧ (V2.dot (V2.neg v) w).Same (-V2.dot v w) ∧
      (V2.dot (V2.neg v) (V2.neg w)).Same (V2.dot v w)) ∧
    (M22.det (M22.neg A)).Same (M22.det A) ∧ (M22.trace (M22.neg A)).Same (-M22.trace A) := by
  refine ⟨⟨?_, ?_, ?_⟩, ⟨?_, ?_, ?_, ?_⟩, ⟨?_, ?_⟩, ⟨?_, ?_, ?_⟩, ?_, ?_⟩
  · simpa only [ev] using Mat.same_of (Sum.elim A.fl B.fl)
      (show Mat.simEq .none (M22.mul (M22.neg (Mat.vr Sum.inl)) (Mat.vr Sum.inr)) (M22.neg (M22.mul (Mat.vr Sum.inl) (Mat.vr Sum.inr))) = true by decide +kernel)
  · simpa only [ev] using Mat.same_of (Sum.elim A.fl B.fl)
      (show Mat.simEq .none (M22.mul (Mat.vr Sum.inl) (M22.neg (Mat.vr Sum.inr))) (M22.neg (M22.mul (Mat.vr Sum.inl) (Mat.vr Sum.inr))) = true by decide +kernel)
  · simpa only [ev] using Mat.same_of (Sum.elim A.fl B.fl)
      (show Mat.simEq .none (M22.mul (M22.neg (Mat.vr Sum.inl)) (M22.neg (Mat.vr Sum.inr))) (M22.mul (Mat.vr Sum.inl) (Mat.vr Sum.inr)) = true by decide +kernel)
  · simpa only [ev] using Mat.same_of (Sum.elim A.fl B.fl)
      (show Mat.simEq .none (M22.sub (Mat.vr Sum.inl) (Mat.vr Sum.inr)) (M22.neg (M22.sub (Mat.vr Sum.inr) (Mat.vr Sum.inl))) = true by decide +kernel)
  · simpa only [ev] using Mat.same_of (Sum.elim A.fl B.fl)
      (show Mat.simEq .none (M22.sub (Mat.vr Sum.inl) (Mat.vr Sum.inr)) (M22.add (Mat.vr Sum.inl) (M22.neg (Mat.vr Sum.inr))) = true by decide +kernel)
  · simpa only [ev] using Mat.same_of (Sum.elim A.fl B.fl)
      (show Mat.simEq .none (M22.add (M22.neg (Mat.vr Sum.inl)) (M22.neg (Mat.vr Sum.inr))) (M22.neg (M22.add (Mat.vr Sum.inl) (Mat.vr Sum.inr))) = true by decide +kernel)
  · refine Mat.ext (funext fun i => funext fun j => ?_)
    fin_cases i <;> fin_cases j <;> exact neg_neg' _
  · simpa only [ev] using Vec.same_of (Sum.elim A.fl v.fl)
      (show Vec.simEq .none (M22.mulVec (M22.neg (Mat.vr Sum.inl)) (Vec.vr Sum.inr)) (V2.neg (M22.mulVec (Mat.vr Sum.inl) (Vec.vr Sum.inr))) = true by decide +kernel)
  · simpa only [ev] using Vec.same_of (Sum.elim A.fl v.fl)
      (show Vec.simEq .none (M22.mulVec (Mat.vr Sum.inl) (V2.neg (Vec.vr Sum.inr))) (V2.neg (M22.mulVec (Mat.vr Sum.inl) (Vec.vr Sum.inr))) = true by decide +kernel)
  · simpa only [ev] using Vec.same_of (Sum.elim v.fl w.fl)
      (show Vec.simEq .none (V2.sub (Vec.vr Sum.inl) (Vec.vr Sum.inr)) (V2.neg (V2.sub (Vec.vr Sum.inr) (Vec.vr Sum.inl))) = true by decide +kernel)
  · simpa only [ev] using Ex.same_of (Sum.elim v.fl w.fl)
      (show Ex.simEq .none (V2.dot (V2.neg (Vec.vr Sum.inl)) (Vec.vr Sum.inr)) (-V2.dot (Vec.vr Sum.inl) (Vec.vr Sum.inr)) = true by decide +kernel)
  · simpa only [ev] using Ex.same_of (Sum.elim v.fl w.fl)
      (show Ex.simEq .none (V2.dot (V2.neg (Vec.vr Sum.inl)) (V2.neg (Vec.vr Sum.inr))) (V2.dot (Vec.vr Sum.inl) (Vec.vr Sum.inr)) = true by decide +kernel)
  · simpa only [ev] using Ex.same_of A.fl
      (show Ex.simEq .none (M22.det (M22.neg (Mat.vr id))) (M22.det (Mat.vr id)) = true by decide +kernel)
  · simpa only [ev] using Ex.same_of A.fl
      (show Ex.simEq .none (M22.trace (M22.neg (Mat.vr id))) (-M22.trace (Mat.vr id)) = true by decide +kernel)

/-- Negation moves through sums, products, matrix-vector products, dot products and the trace without any
rounding difference, and `det(-A) = -det A`; NaN and infinities included. -/
theorem C107_signs_M33 {f : Fmt} (A B : Mat 3 (Flt f)) (v w : Vec 3 (Flt f)) :
    ((M33.mul (M33.neg A) B).Same (M33.neg (M33.mul A B)) ∧ (M33.mul A (M33.neg B)).Same (M33.neg (M33.mul A B)) ∧
      (M33.mul (M33.neg A) (M33.neg B)).Same (M33.mul A B)) ∧
    ((M33.sub A B).Same (M33.neg (M33.sub B A)) ∧ (M33.sub A B).Same (M33.add A (M33.neg B)) ∧
      (M33.add (M33.neg A) (M33.neg B)).Same (M33.neg (M33.add A B)) ∧ M33.neg (M33.neg A) = A) ∧
    ((M33.mulVec (M33.neg A) v).Same (V3.neg (M33.mulVec A v)) ∧ (M33.mulVec A (V3.neg v)).Same (V3.neg (M33.mulVec A v))) ∧
    ((V3.sub v w).Same (V3.neg (V3.sub w v)) ∧ (V3.dot (V3.neg v) w).Same (-V3.dot v w) ∧
      (V3.dot (V3.neg v) (V3.neg w)).Same (V3.dot v w)) ∧
    (M33.det (M33.neg A)).Same (-M33.det A) ∧ (M33.trace (M33.neg A)).Same (-M33.trace A) := by
  refine ⟨⟨?_, ?_, ?_⟩, ⟨?_, ?_, ?_, ?_⟩, ⟨?_, ?_⟩, ⟨?_, ?_, ?_⟩, ?_, ?_⟩
  · simpa only [ev] using Mat.same_of (Sum.elim A.fl B.fl)
      (show Mat.simEq .none (M33.mul (M33.neg (Mat.vr Sum.inl)) (Mat.vr Sum.inr)) (M33.neg (M33.mul (Mat.vr Sum.inl) (Mat.vr Sum.inr))) = true by decide +kernel)
  · simpa only [ev] using Mat.same_of (Sum.elim A.fl B.fl)
      (show Mat.simEq .none (M33.mul (Mat.vr Sum.inl) (M33.neg (Mat.vr Sum.inr))) (M33.neg (M33.mul (Mat.vr Sum.inl) (Mat.vr Sum.inr))) = true by decide +kernel)
  · simpa only [ev] using Mat.same_of (Sum.elim A.fl B.fl)
      (show Mat.simEq .none (M33.mul (M33.neg (Mat.vr Sum.inl)) (M33.neg (Mat.vr Sum.inr))) (M33.mul (Mat.vr Sum.inl) (Mat.vr Sum.inr)) = true by decide +kernel)
  · simpa only [ev] using Mat.same_of (Sum.elim A.fl B.fl)
      (show Mat.simEq .none (M33.sub (Mat.vr Sum.inl) (Mat.vr Sum.inr)) (M33.neg (M33.sub (Mat.vr Sum.inr) (Mat.vr Sum.inl))) = true by decide +kernel)
  · simpa only [ev] using Mat.same_of (Sum.elim A.fl B.fl)
      (show Mat.simEq .none (M33.sub (Mat.vr Sum.inl) (Mat.vr Sum.inr)) (M33.add (Mat.vr Sum.inl) (M33.neg (Mat.vr Sum.inr))) = true by decide +kernel)
  · simpa only [ev] using Mat.same_of (Sum.elim A.fl B.fl)
      (show Mat.simEq .none (M33.add (M33.neg (Mat.vr Sum.inl)) (M33.neg (Mat.vr Sum.inr))) (M33.neg (M33.add (Mat.vr Sum.inl) (Mat.vr Sum.inr))) = true by decide +kernel)
  · refine Mat.ext (funext fun i => funext fun j => ?_)
    fin_cases i <;> fin_cases j <;> exact neg_neg' _
  · simpa only [ev] using Vec.same_of (Sum.elim A.fl v.fl)
      (show Vec.simEq .none (M33.mulVec (M33.neg (Mat.vr Sum.inl)) (Vec.vr Sum.inr)) (V3.neg (M33.mulVec (Mat.vr Sum.inl) (Vec.vr Sum.inr))) = true by decide +kernel)
  · simpa only [ev] using Vec.same_of (Sum.elim A.fl v.fl)
      (show Vec.simEq .none (M33.mulVec (Mat.vr Sum.inl) (V3.neg (Vec.vr Sum.inr))) (V3.neg (M33.mulVec (Mat.vr Sum.inl) (Vec.vr Sum.inr))) = true by decide +kernel)
  · simpa only [ev] using Vec.same_of (Sum.elim v.fl w.fl)
      (show Vec.simEq .none (V3.sub (Vec.vr Sum.inl) (Vec.vr Sum.inr)) (V3.neg (V3.sub (Vec.vr Sum.inr) (Vec.vr Sum.inl))) = true by decide +kernel)
  · simpa only [ev] using Ex.same_of (Sum.elim v.fl w.fl)
      (show Ex.simEq .none (V3.dot (V3.neg (Vec.vr Sum.inl)) (Vec.vr Sum.inr)) (-V3.dot (Vec.vr Sum.inl) (Vec.vr Sum.inr)) = true by decide +kernel)
  · simpa only [ev] using Ex.same_of (Sum.elim v.fl w.fl)
      (show Ex.simEq .none (V3.dot (V3.neg (Vec.vr Sum.inl)) (V3.neg (Vec.vr Sum.inr))) (V3.dot (Vec.vr Sum.inl) (Vec.vr Sum.inr)) = true by decide +kernel)
  · simpa only [ev] using Ex.same_of A.fl
      (show Ex.simEq .none (M33.det (M33.neg (Mat.vr id))) (-M33.det (Mat.vr id)) = true by decide +kernel)
  · simpa only [ev] using Ex.same_of A.fl
      (show Ex.simEq .none (M33.trace (M33.neg (Mat.vr id))) (-M33.trace (Mat.vr id)) = true by decide +kernel)

/-- Negation moves through sums, products, matrix-vector products, dot products and the trace without any
rounding difference, and `det(-A) = det A`; NaN and infinities included. -/
theorem C107_signs_M44 {f : Fmt} (A B : Mat 4 (Flt f)) (v w : Vec 4 (Flt f)) :
    ((M44.mul (M44.neg A) B).Same (M44.neg (M44.mul A B)) ∧ (M44.mul A (M44.neg B)).Same (M44.neg (M44.mul A B)) ∧
      (M44.mul (M44.neg A) (M44.neg B)).Same (M44.mul A B)) ∧
    ((M44.sub A B).Same (M44.neg (M44.sub B A)) ∧ (M44.sub A B).Same (M44.add A (M44.neg B)) ∧
      (M44.add (M44.neg A) (M44.neg B)).Same (M44.neg (M44.add A B)) ∧ M44.neg (M44.neg A) = A) ∧
    ((M44.mulVec (M44.neg A) v).Same (V4.neg (M44.mulVec A v)) ∧ (M44.mulVec A (V4.neg v)).Same (V4.neg (M44.mulVec A v))) ∧
    ((V4.sub v w).Same (V4.neg (V4.sub w v)) ∧ (V4.dot (V4.neg v) w).Same (-V4.dot v w) ∧
      (V4.dot (V4.neg v) (V4.neg w)).Same (V4.dot v w)) ∧
    (M44.det (M44.neg A)).Same (M44.det A) ∧ (M44.trace (M44.neg A)).Same (-M44.trace A) := by
  refine ⟨⟨?_, ?_, ?_⟩, ⟨?_, ?_, ?_, ?_⟩, ⟨?_, ?_⟩, ⟨?_, ?_, ?_⟩, ?_, ?_⟩
  · simpa only [ev] using Mat.same_of (Sum.elim A.fl B.fl)
      (show Mat.simEq .none (M44.mul (M44.neg (Mat.vr Sum.inl)) (Mat.vr Sum.inr)) (M44.neg (M44.mul (Mat.vr Sum.inl) (Mat.vr Sum.inr))) = true by decide +kernel)
  · simpa only [ev] using Mat.same_of (Sum.elim A.fl B.fl)
      (show Mat.simEq .none (M44.mul (Mat.vr Sum.inl) (M44.neg (Mat.vr Sum.inr))) (M44.neg (M44.mul (Mat.vr Sum.inl) (Mat.vr Sum.inr))) = true by decide +kernel)
  · simpa only [ev] using Mat.same_of (Sum.elim A.fl B.fl)
      (show Mat.simEq .none (M44.mul (M44.neg (Mat.vr Sum.inl)) (M44.neg (Mat.vr Sum.inr))) (M44.mul (Mat.vr Sum.inl) (Mat.vr Sum.inr)) = true by decide +kernel)
  · simpa only [ev] using Mat.same_of (Sum.elim A.fl B.fl)
      (show Mat.simEq .none (M44.sub (Mat.vr Sum.inl) (Mat.vr Sum.inr)) (M44.neg (M44.sub (Mat.vr Sum.inr) (Mat.vr Sum.inl))) = true by decide +kernel)
  · simpa only [ev] using Mat.same_of (Sum.elim A.fl B.fl)
      (show Mat.simEq .none (M44.sub (Mat.vr Sum.inl) (Mat.vr Sum.inr)) (M44.add (Mat.vr Sum.inl) (M44.neg (Mat.vr Sum.inr))) = true by decide +kernel)
  · simpa only [ev] using Mat.same_of (Sum.elim A.fl B.fl)
      (show Mat.simEq .none (M44.add (M44.neg (Mat.vr Sum.inl)) (M44.neg (Mat.vr Sum.inr))) (M44.neg (M44.add (Mat.vr Sum.inl) (Mat.vr Sum.inr))) = true by decide +kernel)
  · refine Mat.ext (funext fun i => funext fun j => ?_)
    fin_cases i <;> fin_cases j <;> exact neg_neg' _
  · simpa only [ev] using Vec.same_of (Sum.elim A.fl v.fl)
      (show Vec.simEq .none (M44.mulVec (M44.neg (Mat.vr Sum.inl)) (Vec.vr Sum.inr)) (V4.neg (M44.mulVec (Mat.vr Sum.inl) (Vec.vr Sum.inr))) = true by decide +kernel)
  · simpa only [ev] using Vec.same_of (Sum.elim A.fl v.fl)
      (show Vec.simEq .none (M44.mulVec (Mat.vr Sum.inl) (V4.neg (Vec.vr Sum.inr))) (V4.neg (M44.mulVec (Mat.vr Sum.inl) (Vec.vr Sum.inr))) = true by decide +kernel)
  · simpa only [ev] using Vec.same_of (Sum.elim v.fl w.fl)
      (show Vec.simEq .none (V4.sub (Vec.vr Sum.inl) (Vec.vr Sum.inr)) (V4.neg (V4.sub (Vec.vr Sum.inr) (Vec.vr Sum.inl))) = true by decide +kernel)
  · simpa only [ev] using Ex.same_of (Sum.elim v.fl w.fl)
      (show Ex.simEq .none (V4.dot (V4.neg (Vec.vr Sum.inl)) (Vec.vr Sum.inr)) (-V4.dot (Vec.vr Sum.inl) (Vec.vr Sum.inr)) = true by decide +kernel)
  · simpa only [ev] using Ex.same_of (Sum.elim v.fl w.fl)
      (show Ex.simEq .none (V4.dot (V4.neg (Vec.vr Sum.inl)) (V4.neg (Vec.vr Sum.inr))) (V4.dot (Vec.vr Sum.inl) (Vec.vr Sum.inr)) = true by decide +kernel)
  · simpa only [ev] using Ex.same_of A.fl
      (show Ex.simEq .none (M44.det (M44.neg (Mat.vr id))) (M44.det (Mat.vr id)) = true by decide +kernel)
  · simpa only [ev] using Ex.same_of A.fl
      (show Ex.simEq .none (M44.trace (M44.neg (Mat.vr id))) (-M44.trace (Mat.vr id)) = true by decide +kernel)

/-- Negation moves through sums, products, matrix-vector products, dot products and the trace without any
rounding difference, and `det(-A) = -det A`; NaN and infinities included. -/
theorem C107_signs_M55 {f : Fmt} (A B : Mat 5 (Flt f)) (v w : Vec 5 (Flt f)) :
    ((M55.mul (M55.neg A) B).Same (M55.neg (M55.mul A B)) ∧ (M55.mul A (M55.neg B)).Same (M55.neg (M55.mul A B)) ∧
      (M55.mul (M55.neg A) (M55.neg B)).Same (M55.mul A B)) ∧
    ((M55.sub A B).Same (M55.neg (M55.sub B A)) ∧ (M55.sub A B).Same (M55.add A (M55.neg B)) ∧
      (M55.add (M55.neg A) (M55.neg B)).Same (M55.neg (M55.add A B)) ∧ M55.neg (M55.neg A) = A) ∧
    ((M55.mulVec (M55.neg A) v).Same (V5.neg (M55.mulVec A v)) ∧ (M55.mulVec A (V5.neg v)).Same (V5.neg (M55.mulVec A v))) ∧
    ((V5.sub v w).Same (V5.neg (V5.sub w v)) ∧ (V5.dot (V5.neg v) w).Same (-V5.dot v w) ∧
      (V5.dot (V5.neg v) (V5.neg w)).Same (V5.dot v w)) ∧
    (M55.det (M55.neg A)).Same (-M55.det A) ∧ (M55.trace (M55.neg A)).Same (-M55.trace A) := by
  refine ⟨⟨?_, ?_, ?_⟩, ⟨?_, ?_, ?_, ?_⟩, ⟨?_, ?_⟩, ⟨?_, ?_, ?_⟩, ?_, ?_⟩
  · simpa only [ev] using Mat.same_of (Sum.elim A.fl B.fl)
      (show Mat.simEq .none (M55.mul (M55.neg (Mat.vr Sum.inl)) (Mat.vr Sum.inr)) (M55.neg (M55.mul (Mat.vr Sum.inl) (Mat.vr Sum.inr))) = true by decide +kernel)
  · simpa only [ev] using Mat.same_of (Sum.elim A.fl B.fl)
      (show Mat.simEq .none (M55.mul (Mat.vr Sum.inl) (M55.neg (Mat.vr Sum.inr))) (M55.neg (M55.mul (Mat.vr Sum.inl) (Mat.vr Sum.inr))) = true by decide +kernel)
  · simpa only [ev] using Mat.same_of (Sum.elim A.fl B.fl)
      (show Mat.simEq .none (M55.mul (M55.neg (Mat.vr Sum.inl)) (M55.neg (Mat.vr Sum.inr))) (M55.mul (Mat.vr Sum.inl) (Mat.vr Sum.inr)) = true by decide +kernel)
  · simpa only [ev] using Mat.same_of (Sum.elim A.fl B.fl)
      (show Mat.simEq .none (M55.sub (Mat.vr Sum.inl) (Mat.vr Sum.inr)) (M55.neg (M55.sub (Mat.vr Sum.inr) (Mat.vr Sum.inl))) = true by decide +kernel)
  · simpa only [ev] using Mat.same_of (Sum.elim A.fl B.fl)
      (show Mat.simEq .none (M55.sub (Mat.vr Sum.inl) (Mat.vr Sum.inr)) (M55.add (Mat.vr Sum.inl) (M55.neg (Mat.vr Sum.inr))) = true by decide +kernel)
  · simpa only [ev] using Mat.same_of (Sum.elim A.fl B.fl)
      (show Mat.simEq .none (M55.add (M55.neg (Mat.vr Sum.inl)) (M55.neg (Mat.vr Sum.inr))) (M55.neg (M55.add (Mat.vr Sum.inl) (Mat.vr Sum.inr))) = true by decide +kernel)
  · refine Mat.ext (funext fun i => funext fun j => ?_)
    fin_cases i <;> fin_cases j <;> exact neg_neg' _
  · simpa only [ev] using Vec.same_of (Sum.elim A.fl v.fl)
      (show Vec.simEq .none (M55.mulVec (M55.neg (Mat.vr Sum.inl)) (Vec.vr Sum.inr)) (V5.neg (M55.mulVec (Mat.vr Sum.inl) (Vec.vr Sum.inr))) = true by decide +kernel)
  · simpa only [ev] using Vec.same_of (Sum.elim A.fl v.fl)
      (show Vec.simEq .none (M55.mulVec (Mat.vr Sum.inl) (V5.neg (Vec.vr Sum.inr))) (V5.neg (M55.mulVec (Mat.vr Sum.inl) (Vec.vr Sum.inr))) = true by decide +kernel)
  · simpa only [ev] using Vec.same_of (Sum.elim v.fl w.fl)
      (show Vec.simEq .none (V5.sub (Vec.vr Sum.inl) (Vec.vr Sum.inr)) (V5.neg (V5.sub (Vec.vr Sum.inr) (Vec.vr Sum.inl))) = true by decide +kernel)
  · simpa only [ev] using Ex.same_of (Sum.elim v.fl w.fl)
      (show Ex.simEq .none (V5.dot (V5.neg (Vec.vr Sum.inl)) (Vec.vr Sum.inr)) (-V5.dot (Vec.vr Sum.inl) (Vec.vr Sum.inr)) = true by decide +kernel)
  · simpa only [ev] using Ex.same_of (Sum.elim v.fl w.fl)
      (show Ex.simEq .none (V5.dot (V5.neg (Vec.vr Sum.inl)) (V5.neg (Vec.vr Sum.inr))) (V5.dot (Vec.vr Sum.inl) (Vec.vr Sum.inr)) = true by decide +kernel)
  · simpa only [ev] using Ex.same_of A.fl
      (show Ex.simEq .none (M55.det (M55.neg (Mat.vr id))) (-M55.det (Mat.vr id)) = true by decide +kernel)
  · simpa only [ev] using Ex.same_of A.fl
      (show Ex.simEq .none (M55.trace (M55.neg (Mat.vr id))) (-M55.trace (Mat.vr id)) = true by decide +kernel)

/-- Negation moves through sums, products, matrix-vector products, dot products and the trace without any
rounding difference, and `det(-A) = det A`; NaN and infinities included. -/
theorem C107_signs_M66 {f : Fmt} (A B : Mat 6 (Flt f)) (v w : Vec 6 (Flt f)) :
    ((M66.mul (M66.neg A) B).Same (M66.neg (M66.mul A B)) ∧ (M66.mul A (M66.neg B)).Same (M66.neg (M66.mul A B)) ∧
      (M66.mul (M66.neg A) (M66.neg B)).Same (M66.mul A B)) ∧
    ((M66.sub A B).Same (M66.neg (M66.sub B A)) ∧ (M66.sub A B).Same (M66.add A (M66.neg B)) ∧
      (M66.add (M66.neg A) (M66.neg B)).Same (M66.neg (M66.add A B)) ∧ M66.neg (M66.neg A) = A) ∧
    ((M66.mulVec (M66.neg A) v).Same (V6.neg (M66.mulVec A v)) ∧ (M66.mulVec A (V6.neg v)).Same (V6.neg (M66.mulVec A v))) ∧
    ((V6.sub v w).Same (V6.neg (V6.sub w v)) ∧ (V6.dot (V6.neg v) w).Same (-V6.dot v w) ∧
      (V6.dot (V6.neg v) (V6.neg w)).Same (V6.dot v w)) ∧
    (M66.det (M66.neg A)).Same (M66.det A) ∧ (M66.trace (M66.neg A)).Same (-M66.trace A) := by
  refine ⟨⟨?_, ?_, ?_⟩, ⟨?_, ?_, ?_, ?_⟩, ⟨?_, ?_⟩, ⟨?_, ?_, ?_⟩, ?_, ?_⟩
  · simpa only [ev] using Mat.same_of (Sum.elim A.fl B.fl)
      (show Mat.simEq .none (M66.mul (M66.neg (Mat.vr Sum.inl)) (Mat.vr Sum.inr)) (M66.neg (M66.mul (Mat.vr Sum.inl) (Mat.vr Sum.inr))) = true by decide +kernel)
  · simpa only [ev] using Mat.same_of (Sum.elim A.fl B.fl)
      (show Mat.simEq .none (M66.mul (Mat.vr Sum.inl) (M66.neg (Mat.vr Sum.inr))) (M66.neg (M66.mul (Mat.vr Sum.inl) (Mat.vr Sum.inr))) = true by decide +kernel)
  · simpa only [ev] using Mat.same_of (Sum.elim A.fl B.fl)
      (show Mat.simEq .none (M66.mul (M66.neg (Mat.vr Sum.inl)) (M66.neg (Mat.vr Sum.inr))) (M66.mul (Mat.vr Sum.inl) (Mat.vr Sum.inr)) = true by decide +kernel)
  · simpa only [ev] using Mat.same_of (Sum.elim A.fl B.fl)
      (show Mat.simEq .none (M66.sub (Mat.vr Sum.inl) (Mat.vr Sum.inr)) (M66.neg (M66.sub (Mat.vr Sum.inr) (Mat.vr Sum.inl))) = true by decide +kernel)
  · simpa only [ev] using Mat.same_of (Sum.elim A.fl B.fl)
      (show Mat.simEq .none (M66.sub (Mat.vr Sum.inl) (Mat.vr Sum.inr)) (M66.add (Mat.vr Sum.inl) (M66.neg (Mat.vr Sum.inr))) = true by decide +kernel)
  · simpa only [ev] using Mat.same_of (Sum.elim A.fl B.fl)
      (show Mat.simEq .none (M66.add (M66.neg (Mat.vr Sum.inl)) (M66.neg (Mat.vr Sum.inr))) (M66.neg (M66.add (Mat.vr Sum.inl) (Mat.vr Sum.inr))) = true by decide +kernel)
  · refine Mat.ext (funext fun i => funext fun j => ?_)
    fin_cases i <;> fin_cases j <;> exact neg_neg' _
  · simpa only [ev] using Vec.same_of (Sum.elim A.fl v.fl)
      (show Vec.simEq .none (M66.mulVec (M66.neg (Mat.vr Sum.inl)) (Vec.vr Sum.inr)) (V6.neg (M66.mulVec (Mat.vr Sum.inl) (Vec.vr Sum.inr))) = true by decide +kernel)
  · simpa only [ev] using Vec.same_of (Sum.elim A.fl v.fl)
      (show Vec.simEq .none (M66.mulVec (Mat.vr Sum.inl) (V6.neg (Vec.vr Sum.inr))) (V6.neg (M66.mulVec (Mat.vr Sum.inl) (Vec.vr Sum.inr))) = true by decide +kernel)
  · simpa only [ev] using Vec.same_of (Sum.elim v.fl w.fl)
      (show Vec.simEq .none (V6.sub (Vec.vr Sum.inl) (Vec.vr Sum.inr)) (V6.neg (V6.sub (Vec.vr Sum.inr) (Vec.vr Sum.inl))) = true by decide +kernel)
  · simpa only [ev] using Ex.same_of (Sum.elim v.fl w.fl)
      (show Ex.simEq .none (V6.dot (V6.neg (Vec.vr Sum.inl)) (Vec.vr Sum.inr)) (-V6.dot (Vec.vr Sum.inl) (Vec.vr Sum.inr)) = true by decide +kernel)
  · simpa only [ev] using Ex.same_of (Sum.elim v.fl w.fl)
      (show Ex.simEq .none (V6.dot (V6.neg (Vec.vr Sum.inl)) (V6.neg (Vec.vr Sum.inr))) (V6.dot (Vec.vr Sum.inl) (Vec.vr Sum.inr)) = true by decide +kernel)
  · simpa only [ev] using Ex.same_of A.fl
      (show Ex.simEq .none (M66.det (M66.neg (Mat.vr id))) (M66.det (Mat.vr id)) = true by decide +kernel)
  · simpa only [ev] using Ex.same_of A.fl
      (show Ex.simEq .none (M66.trace (M66.neg (Mat.vr id))) (-M66.trace (Mat.vr id)) = true by decide +kernel)

/-- The cross product is exactly antisymmetric and odd in each argument; the hat matrix is exactly skew. -/
theorem C107_cross {f : Fmt} (a b : Vec 3 (Flt f)) :
    (V3.cross a b).Same (V3.neg (V3.cross b a)) ∧
    (V3.cross (V3.neg a) b).Same (V3.neg (V3.cross a b)) ∧
    (V3.cross a (V3.neg b)).Same (V3.neg (V3.cross a b)) ∧
    (M33.transpose (skew_from_vec a)).Same (M33.neg (skew_from_vec a)) := by
  refine ⟨?_, ?_, ?_, ?_⟩
  · simpa only [ev] using Vec.same_of (Sum.elim a.fl b.fl)
      (show Vec.simEq .none (V3.cross (Vec.vr Sum.inl) (Vec.vr Sum.inr)) (V3.neg (V3.cross (Vec.vr Sum.inr) (Vec.vr Sum.inl))) = true by decide +kernel)
  · simpa only [ev] using Vec.same_of (Sum.elim a.fl b.fl)
      (show Vec.simEq .none (V3.cross (V3.neg (Vec.vr Sum.inl)) (Vec.vr Sum.inr)) (V3.neg (V3.cross (Vec.vr Sum.inl) (Vec.vr Sum.inr))) = true by decide +kernel)
  · simpa only [ev] using Vec.same_of (Sum.elim a.fl b.fl)
      (show Vec.simEq .none (V3.cross (Vec.vr Sum.inl) (V3.neg (Vec.vr Sum.inr))) (V3.neg (V3.cross (Vec.vr Sum.inl) (Vec.vr Sum.inr))) = true by decide +kernel)
  · simpa only [ev] using Mat.same_of (Sum.elim a.fl b.fl)
      (show Mat.simEq .none (M33.transpose (skew_from_vec (Vec.vr Sum.inl))) (M33.neg (skew_from_vec (Vec.vr Sum.inl))) = true by decide +kernel)

/-- Conjugation reverses products exactly and is an involution; signs move through products exactly. -/
theorem C107_quaternion {f : Fmt} (p q : Quat (Flt f)) :
    (p.mul q).conj.Same (q.conj.mul p.conj) ∧
    p.conj.conj.Same p ∧
    (p.neg.mul q).Same (p.mul q).neg ∧
    (p.mul q.neg).Same (p.mul q).neg ∧
    (p.neg.mul q.neg).Same (p.mul q) ∧
    (p.sub q).Same (q.sub p).neg ∧
    (p.neg.dot q.neg).Same (p.dot q) ∧
    (p.dot q).Same (q.dot p) := by
  refine ⟨?_, ?_, ?_, ?_, ?_, ?_, ?_, ?_⟩
  · simpa only [ev] using Quat.same_of (Sum.elim p.fl q.fl)
      (show Quat.simEq .none ((Quat.mul (Quat.vr Sum.inl) (Quat.vr Sum.inr)).conj) (Quat.mul (Quat.conj (Quat.vr Sum.inr)) (Quat.conj (Quat.vr Sum.inl))) = true by decide +kernel)
  · simpa only [ev] using Quat.same_of (p.fl)
      (show Quat.simEq .none ((Quat.conj (Quat.vr id)).conj) (Quat.vr id) = true by decide +kernel)
  · simpa only [ev] using Quat.same_of (Sum.elim p.fl q.fl)
      (show Quat.simEq .none ((Quat.neg (Quat.vr Sum.inl)).mul (Quat.vr Sum.inr)) ((Quat.mul (Quat.vr Sum.inl) (Quat.vr Sum.inr)).neg) = true by decide +kernel)
  · simpa only [ev] using Quat.same_of (Sum.elim p.fl q.fl)
      (show Quat.simEq .none (Quat.mul (Quat.vr Sum.inl) (Quat.neg (Quat.vr Sum.inr))) ((Quat.mul (Quat.vr Sum.inl) (Quat.vr Sum.inr)).neg) = true by decide +kernel)
  · simpa only [ev] using Quat.same_of (Sum.elim p.fl q.fl)
      (show Quat.simEq .none ((Quat.neg (Quat.vr Sum.inl)).mul (Quat.neg (Quat.vr Sum.inr))) (Quat.mul (Quat.vr Sum.inl) (Quat.vr Sum.inr)) = true by decide +kernel)
  · simpa only [ev] using Quat.same_of (Sum.elim p.fl q.fl)
      (show Quat.simEq .none (Quat.sub (Quat.vr Sum.inl) (Quat.vr Sum.inr)) ((Quat.sub (Quat.vr Sum.inr) (Quat.vr Sum.inl)).neg) = true by decide +kernel)
  · simpa only [ev] using Ex.same_of (Sum.elim p.fl q.fl)
      (show Ex.simEq .none ((Quat.neg (Quat.vr Sum.inl)).dot (Quat.neg (Quat.vr Sum.inr))) (Quat.dot (Quat.vr Sum.inl) (Quat.vr Sum.inr)) = true by decide +kernel)
  · simpa only [ev] using Ex.same_of (Sum.elim p.fl q.fl)
      (show Ex.simEq .none (Quat.dot (Quat.vr Sum.inl) (Quat.vr Sum.inr)) (Quat.dot (Quat.vr Sum.inr) (Quat.vr Sum.inl)) = true by decide +kernel)

/-- `q` and `-q` rotate every vector to exactly the same result and give exactly the same rotation matrix;
rotating `-v` gives exactly the negated result; the conjugate gives exactly the transposed matrix. -/
theorem C107_double_cover {f : Fmt} (q : Quat (Flt f)) (v : Vec 3 (Flt f)) :
    (q.neg.mulVec v).Same (q.mulVec v) ∧
    (q.mulVec (V3.neg v)).Same (V3.neg (q.mulVec v)) ∧
    q.neg.to_rotation.Same q.to_rotation ∧
    q.conj.to_rotation.Same (M33.transpose q.to_rotation) := by
  refine ⟨?_, ?_, ?_, ?_⟩
  · simpa only [ev] using Vec.same_of (Sum.elim q.fl v.fl)
      (show Vec.simEq .none ((Quat.neg (Quat.vr Sum.inl)).mulVec (Vec.vr Sum.inr)) (Quat.mulVec (Quat.vr Sum.inl) (Vec.vr Sum.inr)) = true by decide +kernel)
  · simpa only [ev] using Vec.same_of (Sum.elim q.fl v.fl)
      (show Vec.simEq .none (Quat.mulVec (Quat.vr Sum.inl) (V3.neg (Vec.vr Sum.inr))) (V3.neg (Quat.mulVec (Quat.vr Sum.inl) (Vec.vr Sum.inr))) = true by decide +kernel)
  · simpa only [ev] using Mat.same_of (q.fl)
      (show Mat.simEq .none ((Quat.neg (Quat.vr id)).to_rotation) (Quat.to_rotation (Quat.vr id)) = true by decide +kernel)
  · simpa only [ev] using Mat.same_of (q.fl)
      (show Mat.simEq .none ((Quat.conj (Quat.vr id)).to_rotation) (M33.transpose (Quat.to_rotation (Quat.vr id))) = true by decide +kernel)

/-- Conjugation reverses dual quaternion products exactly; `dq` and `-dq` have exactly the same product signs. -/
theorem C107_dual {f : Fmt} (p q : DQuat (Flt f)) :
    (p.mul q).conj.Same (q.conj.mul p.conj) ∧
    p.conj.conj.Same p ∧
    p.conj_combined.conj_combined.Same p ∧
    (p.mul q).conj_combined.Same (q.conj_combined.mul p.conj_combined) ∧
    (p.neg.mul q).Same (p.mul q).neg ∧
    (p.mul q.neg).Same (p.mul q).neg ∧
    (p.sub q).Same (q.sub p).neg := by
  refine ⟨?_, ?_, ?_, ?_, ?_, ?_, ?_⟩
  · simpa only [ev] using DQuat.same_of (Sum.elim p.fl q.fl)
      (show DQuat.simEq .none ((DQuat.mul (DQuat.vr Sum.inl) (DQuat.vr Sum.inr)).conj) (DQuat.mul (DQuat.conj (DQuat.vr Sum.inr)) (DQuat.conj (DQuat.vr Sum.inl))) = true by decide +kernel)
  · simpa only [ev] using DQuat.same_of (p.fl)
      (show DQuat.simEq .none ((DQuat.conj (DQuat.vr id)).conj) (DQuat.vr id) = true by decide +kernel)
  · simpa only [ev] using DQuat.same_of (p.fl)
      (show DQuat.simEq .none ((DQuat.conj_combined (DQuat.vr id)).conj_combined) (DQuat.vr id) = true by decide +kernel)
  · simpa only [ev] using DQuat.same_of (Sum.elim p.fl q.fl)
      (show DQuat.simEq .none ((DQuat.mul (DQuat.vr Sum.inl) (DQuat.vr Sum.inr)).conj_combined) (DQuat.mul (DQuat.conj_combined (DQuat.vr Sum.inr)) (DQuat.conj_combined (DQuat.vr Sum.inl))) = true by decide +kernel)
  · simpa only [ev] using DQuat.same_of (Sum.elim p.fl q.fl)
      (show DQuat.simEq .none ((DQuat.neg (DQuat.vr Sum.inl)).mul (DQuat.vr Sum.inr)) ((DQuat.mul (DQuat.vr Sum.inl) (DQuat.vr Sum.inr)).neg) = true by decide +kernel)
  · simpa only [ev] using DQuat.same_of (Sum.elim p.fl q.fl)
      (show DQuat.simEq .none (DQuat.mul (DQuat.vr Sum.inl) (DQuat.neg (DQuat.vr Sum.inr))) ((DQuat.mul (DQuat.vr Sum.inl) (DQuat.vr Sum.inr)).neg) = true by decide +kernel)
  · simpa only [ev] using DQuat.same_of (Sum.elim p.fl q.fl)
      (show DQuat.simEq .none (DQuat.sub (DQuat.vr Sum.inl) (DQuat.vr Sum.inr)) ((DQuat.sub (DQuat.vr Sum.inr) (DQuat.vr Sum.inl)).neg) = true by decide +kernel)

/-- `dq` and `-dq` move every point to exactly the same place and have exactly the same translation and
homogeneous matrix. -/
theorem C107_dual_double_cover {f : Fmt} (q : DQuat (Flt f)) (v : Vec 3 (Flt f)) :
    (q.neg.transform_point v).Same (q.transform_point v) ∧
    q.neg.get_translation.Same q.get_translation ∧
    q.neg.to_homogeneous.Same q.to_homogeneous := by
  refine ⟨?_, ?_, ?_⟩
  · simpa only [ev] using Vec.same_of (Sum.elim q.fl v.fl)
      (show Vec.simEq .none ((DQuat.neg (DQuat.vr Sum.inl)).transform_point (Vec.vr Sum.inr)) (DQuat.transform_point (DQuat.vr Sum.inl) (Vec.vr Sum.inr)) = true by decide +kernel)
  · simpa only [ev] using Vec.same_of (q.fl)
      (show Vec.simEq .none ((DQuat.neg (DQuat.vr id)).get_translation) (DQuat.get_translation (DQuat.vr id)) = true by decide +kernel)
  · simpa only [ev] using Mat.same_of (q.fl)
      (show Mat.simEq .none ((DQuat.neg (DQuat.vr id)).to_homogeneous) (DQuat.to_homogeneous (DQuat.vr id)) = true by decide +kernel)

/-- A case with NaN, an infinity and a signed zero. -/
example : (V3.cross ⟨![nan, -0, 1]⟩ (⟨![1, inf true, 1]⟩ : Vec 3 (Flt Fmt.f32))).Same
    (V3.neg (V3.cross ⟨![1, inf true, 1]⟩ ⟨![nan, -0, 1]⟩)) := (C107_cross _ _).1

/-- The comparison is not vacuous: `1` is not the `Same` as `-1` or NaN. -/
example : ¬(1 : Flt Fmt.f64).Same (-1) ∧ ¬(1 : Flt Fmt.f64).Same nan := by
  constructor
  · rw [same_iff, cls_neg, cls_fin isFin_one, toReal_one, FVal.neg]
    intro h
    injection h with h
    norm_num at h
  · rintro (⟨h, -⟩ | h)
    · exact absurd h (by intro h; have := isFin_one (f := Fmt.f64); rw [h] at this; exact this)
    · exact absurd h (by simp [ROrd.beq, beq])

/-! ## C108 structural zeros and identities -/

/-- Replace a row by zeros. -/
private def zrow {n : ℕ} {T : Type} [Zero T] (k : Fin n) (A : Mat n T) : Mat n T := ⟨fun i j => if i = k then 0 else A i j⟩
/-- Replace a column by zeros. -/
private def zcol {n : ℕ} {T : Type} [Zero T] (k : Fin n) (A : Mat n T) : Mat n T := ⟨fun i j => if j = k then 0 else A i j⟩
/-- Replace the entries below the diagonal by zeros. -/
private def upper {n : ℕ} {T : Type} [Zero T] (A : Mat n T) : Mat n T := ⟨fun i j => if j < i then 0 else A i j⟩
/-- Replace the entries above the diagonal by zeros. -/
private def lower {n : ℕ} {T : Type} [Zero T] (A : Mat n T) : Mat n T := ⟨fun i j => if i < j then 0 else A i j⟩

private theorem zrow_ev {ι : Type} {f : Fmt} {n : ℕ} (x : ι → Flt f) (k : Fin n) (A : Mat n (Ex ι)) :
    (zrow k A).ev x = zrow k (A.ev x) := by
  refine Mat.ext (funext fun i => funext fun j => ?_)
  show (if i = k then 0 else A i j).evalF x = if i = k then 0 else (A i j).evalF x
  split <;> rfl
private theorem zcol_ev {ι : Type} {f : Fmt} {n : ℕ} (x : ι → Flt f) (k : Fin n) (A : Mat n (Ex ι)) :
    (zcol k A).ev x = zcol k (A.ev x) := by
  refine Mat.ext (funext fun i => funext fun j => ?_)
  show (if j = k then 0 else A i j).evalF x = if j = k then 0 else (A i j).evalF x
  split <;> rfl
private theorem upper_ev {ι : Type} {f : Fmt} {n : ℕ} (x : ι → Flt f) (A : Mat n (Ex ι)) :
    (upper A).ev x = upper (A.ev x) := by
  refine Mat.ext (funext fun i => funext fun j => ?_)
  show (if j < i then 0 else A i j).evalF x = if j < i then 0 else (A i j).evalF x
  split <;> rfl
private theorem lower_ev {ι : Type} {f : Fmt} {n : ℕ} (x : ι → Flt f) (A : Mat n (Ex ι)) :
    (lower A).ev x = lower (A.ev x) := by
  refine Mat.ext (funext fun i => funext fun j => ?_)
  show (if i < j then 0 else A i j).evalF x = if i < j then 0 else (A i j).evalF x
  split <;> rfl
private theorem zrow_same {f : Fmt} {n : ℕ} {A : Mat n (Flt f)} {k : Fin n} (h : ∀ j, ROrd.beq (A k j) 0 = true) :
    A.Same (zrow k A) := fun i j => by
  show (A i j).Same (if i = k then 0 else A i j)
  split
  · rename_i e; rw [e]; exact .inr (h j)
  · exact .refl _
private theorem zcol_same {f : Fmt} {n : ℕ} {A : Mat n (Flt f)} {k : Fin n} (h : ∀ i, ROrd.beq (A i k) 0 = true) :
    A.Same (zcol k A) := fun i j => by
  show (A i j).Same (if j = k then 0 else A i j)
  split
  · rename_i e; rw [e]; exact .inr (h i)
  · exact .refl _
private theorem upper_same {f : Fmt} {n : ℕ} {A : Mat n (Flt f)} (h : ∀ i j, j < i → ROrd.beq (A i j) 0 = true) :
    A.Same (upper A) := fun i j => by
  show (A i j).Same (if j < i then 0 else A i j)
  split
  · rename_i e; exact .inr (h i j e)
  · exact .refl _
private theorem lower_same {f : Fmt} {n : ℕ} {A : Mat n (Flt f)} (h : ∀ i j, i < j → ROrd.beq (A i j) 0 = true) :
    A.Same (lower A) := fun i j => by
  show (A i j).Same (if i < j then 0 else A i j)
  split
  · rename_i e; exact .inr (h i j e)
  · exact .refl _

private theorem det_congr_M22 {f : Fmt} {A B : Mat 2 (Flt f)} (h : A.Same B) : (M22.det A).Same (M22.det B) := by
  have := Ex.evalF_congr (x := A.fl) (y := B.fl) (fun i => h i.1 i.2) (M22.det (Mat.vr id))
  simpa only [ev] using this

/-- A matrix with a row or a column of zeros (of either sign): if the computed determinant is finite it is zero,
and `inverse` returns `None`. -/
theorem C108_zero_line_M22 {f : Fmt} [Libm f] (A : Mat 2 (Flt f)) (k : Fin 2)
    (hk : (∀ j, ROrd.beq (A k j) 0 = true) ∨ (∀ i, ROrd.beq (A i k) 0 = true)) (h : (M22.det A).IsFin) :
    ROrd.beq (M22.det A) 0 = true ∧ M22.inverse A = .ok none := by
  have h0 : (M22.det A).Same 0 := by
    rcases hk with hk | hk
    · have h1 := det_congr_M22 (zrow_same hk)
      have h2 : ∀ k : Fin 2, Ex.simEq .result (M22.det (zrow k (Mat.vr id))) 0 = true := by decide +kernel
      have h3 := Ex.same_of_fin A.fl (h2 k) (by simpa only [ev, zrow_ev] using (h1.isFin h).1)
      simp only [ev, zrow_ev] at h3
      exact h1.trans h3
    · have h1 := det_congr_M22 (zcol_same hk)
      have h2 : ∀ k : Fin 2, Ex.simEq .result (M22.det (zcol k (Mat.vr id))) 0 = true := by decide +kernel
      have h3 := Ex.same_of_fin A.fl (h2 k) (by simpa only [ev, zcol_ev] using (h1.isFin h).1)
      simp only [ev, zcol_ev] at h3
      exact h1.trans h3
  have h4 := h0.symm.isFin isFin_zero
  refine ⟨h0.resolve_left fun e => ?_, (C91_M22 A).2.1.2 ⟨h4.1, ?_⟩⟩
  · rw [e.1] at h; exact h
  · rw [h4.2, toReal_zero, abs_zero]; positivity

/-- The determinant of a triangular matrix is computed as the product of the diagonal, in the order shown, with
no other rounding. -/
theorem C108_triangular_M22 {f : Fmt} (A : Mat 2 (Flt f))
    (ht : (∀ i j, j < i → ROrd.beq (A i j) 0 = true) ∨ (∀ i j, i < j → ROrd.beq (A i j) 0 = true))
    (h : (M22.det A).IsFin) : (M22.det A).Same (A 0 0 * A 1 1) := by
  rcases ht with ht | ht
  · have h1 := det_congr_M22 (upper_same ht)
    have h2 : Ex.simEq .result (M22.det (upper (Mat.vr id))) ((Mat.vr id : Mat 2 (Ex (Fin 2 × Fin 2))) 0 0 * (Mat.vr id : Mat 2 (Ex (Fin 2 × Fin 2))) 1 1) = true := by decide +kernel
    have h3 := Ex.same_of_fin A.fl h2 (by simpa only [ev, upper_ev] using (h1.isFin h).1)
    simp only [ev, upper_ev] at h3
    exact h1.trans h3
  · have h1 := det_congr_M22 (lower_same ht)
    have h2 : Ex.simEq .result (M22.det (lower (Mat.vr id))) ((Mat.vr id : Mat 2 (Ex (Fin 2 × Fin 2))) 0 0 * (Mat.vr id : Mat 2 (Ex (Fin 2 × Fin 2))) 1 1) = true := by decide +kernel
    have h3 := Ex.same_of_fin A.fl h2 (by simpa only [ev, lower_ev] using (h1.isFin h).1)
    simp only [ev, lower_ev] at h3
    exact h1.trans h3

private theorem det_congr_M33 {f : Fmt} {A B : Mat 3 (Flt f)} (h : A.Same B) : (M33.det A).Same (M33.det B) := by
  have := Ex.evalF_congr (x := A.fl) (y := B.fl) (fun i => h i.1 i.2) (M33.det (Mat.vr id))
  simpa only [ev] using this

/-- A matrix with a row or a column of zeros (of either sign): if the computed determinant is finite it is zero,
and `inverse` returns `None`. -/
theorem C108_zero_line_M33 {f : Fmt} [Libm f] (A : Mat 3 (Flt f)) (k : Fin 3)
    (hk : (∀ j, ROrd.beq (A k j) 0 = true) ∨ (∀ i, ROrd.beq (A i k) 0 = true)) (h : (M33.det A).IsFin) :
    ROrd.beq (M33.det A) 0 = true ∧ M33.inverse A = .ok none := by
  have h0 : (M33.det A).Same 0 := by
    rcases hk with hk | hk
    · have h1 := det_congr_M33 (zrow_same hk)
      have h2 : ∀ k : Fin 3, Ex.simEq .result (M33.det (zrow k (Mat.vr id))) 0 = true := by decide +kernel
      have h3 := Ex.same_of_fin A.fl (h2 k) (by simpa only [ev, zrow_ev] using (h1.isFin h).1)
      simp only [ev, zrow_ev] at h3
      exact h1.trans h3
    · have h1 := det_congr_M33 (zcol_same hk)
      have h2 : ∀ k : Fin 3, Ex.simEq .result (M33.det (zcol k (Mat.vr id))) 0 = true := by decide +kernel
      have h3 := Ex.same_of_fin A.fl (h2 k) (by simpa only [ev, zcol_ev] using (h1.isFin h).1)
      simp only [ev, zcol_ev] at h3
      exact h1.trans h3
  have h4 := h0.symm.isFin isFin_zero
  refine ⟨h0.resolve_left fun e => ?_, (C91_M33 A).2.1.2 ⟨h4.1, ?_⟩⟩
  · rw [e.1] at h; exact h
  · rw [h4.2, toReal_zero, abs_zero]; positivity

/-- The determinant of a triangular matrix is computed as the product of the diagonal, in the order shown, with
no other rounding. -/
theorem C108_triangular_M33 {f : Fmt} (A : Mat 3 (Flt f))
    (ht : (∀ i j, j < i → ROrd.beq (A i j) 0 = true) ∨ (∀ i j, i < j → ROrd.beq (A i j) 0 = true))
    (h : (M33.det A).IsFin) : (M33.det A).Same (A 0 0 * (A 1 1 * A 2 2)) := by
  rcases ht with ht | ht
  · have h1 := det_congr_M33 (upper_same ht)
    have h2 : Ex.simEq .result (M33.det (upper (Mat.vr id))) ((Mat.vr id : Mat 3 (Ex (Fin 3 × Fin 3))) 0 0 * ((Mat.vr id : Mat 3 (Ex (Fin 3 × Fin 3))) 1 1 * (Mat.vr id : Mat 3 (Ex (Fin 3 × Fin 3))) 2 2)) = true := by decide +kernel
    have h3 := Ex.same_of_fin A.fl h2 (by simpa only [ev, upper_ev] using (h1.isFin h).1)
    simp only [ev, upper_ev] at h3
    exact h1.trans h3
  · have h1 := det_congr_M33 (lower_same ht)
    have h2 : Ex.simEq .result (M33.det (lower (Mat.vr id))) ((Mat.vr id : Mat 3 (Ex (Fin 3 × Fin 3))) 0 0 * ((Mat.vr id : Mat 3 (Ex (Fin 3 × Fin 3))) 1 1 * (Mat.vr id : Mat 3 (Ex (Fin 3 × Fin 3))) 2 2)) = true := by decide +kernel
    have h3 := Ex.same_of_fin A.fl h2 (by simpa only [ev, lower_ev] using (h1.isFin h).1)
    simp only [ev, lower_ev] at h3
    exact h1.trans h3

private theorem det_congr_M44 {f : Fmt} {A B : Mat 4 (Flt f)} (h : A.Same B) : (M44.det A).Same (M44.det B) := by
  have := Ex.evalF_congr (x := A.fl) (y := B.fl) (fun i => h i.1 i.2) (M44.det (Mat.vr id))
  simpa only [ev] using this

/-- A matrix with a row or a column of zeros (of either sign): if the computed determinant is finite it is zero,
and `inverse` returns `None`. -/
theorem C108_zero_line_M44 {f : Fmt} [Libm f] (A : Mat 4 (Flt f)) (k : Fin 4)
    (hk : (∀ j, ROrd.beq (A k j) 0 = true) ∨ (∀ i, ROrd.beq (A i k) 0 = true)) (h : (M44.det A).IsFin) :
    ROrd.beq (M44.det A) 0 = true ∧ M44.inverse A = .ok none := by
  have h0 : (M44.det A).Same 0 := by
    rcases hk with hk | hk
    · have h1 := det_congr_M44 (zrow_same hk)
      have h2 : ∀ k : Fin 4, Ex.simEq .result (M44.det (zrow k (Mat.vr id))) 0 = true := by decide +kernel
      have h3 := Ex.same_of_fin A.fl (h2 k) (by simpa only [ev, zrow_ev] using (h1.isFin h).1)
      simp only [ev, zrow_ev] at h3
      exact h1.trans h3
    · have h1 := det_congr_M44 (zcol_same hk)
      have h2 : ∀ k : Fin 4, Ex.simEq .result (M44.det (zcol k (Mat.vr id))) 0 = true := by decide +kernel
      have h3 := Ex.same_of_fin A.fl (h2 k) (by simpa only [ev, zcol_ev] using (h1.isFin h).1)
      simp only [ev, zcol_ev] at h3
      exact h1.trans h3
  have h4 := h0.symm.isFin isFin_zero
  refine ⟨h0.resolve_left fun e => ?_, (C91_M44 A).2.1.2 ⟨h4.1, ?_⟩⟩
  · rw [e.1] at h; exact h
  · rw [h4.2, toReal_zero, abs_zero]; positivity

/-- The determinant of a triangular matrix is computed as the product of the diagonal, in the order shown, with
no other rounding. -/
theorem C108_triangular_M44 {f : Fmt} (A : Mat 4 (Flt f))
    (ht : (∀ i j, j < i → ROrd.beq (A i j) 0 = true) ∨ (∀ i j, i < j → ROrd.beq (A i j) 0 = true))
    (h : (M44.det A).IsFin) : (M44.det A).Same (A 1 1 * (A 3 3 * (A 0 0 * A 2 2))) := by
  rcases ht with ht | ht
  · have h1 := det_congr_M44 (upper_same ht)
    have h2 : Ex.simEq .result (M44.det (upper (Mat.vr id))) ((Mat.vr id : Mat 4 (Ex (Fin 4 × Fin 4))) 1 1 * ((Mat.vr id : Mat 4 (Ex (Fin 4 × Fin 4))) 3 3 * ((Mat.vr id : Mat 4 (Ex (Fin 4 × Fin 4))) 0 0 * (Mat.vr id : Mat 4 (Ex (Fin 4 × Fin 4))) 2 2))) = true := by decide +kernel
    have h3 := Ex.same_of_fin A.fl h2 (by simpa only [ev, upper_ev] using (h1.isFin h).1)
    simp only [ev, upper_ev] at h3
    exact h1.trans h3
  · have h1 := det_congr_M44 (lower_same ht)
    have h2 : Ex.simEq .result (M44.det (lower (Mat.vr id))) ((Mat.vr id : Mat 4 (Ex (Fin 4 × Fin 4))) 1 1 * ((Mat.vr id : Mat 4 (Ex (Fin 4 × Fin 4))) 3 3 * ((Mat.vr id : Mat 4 (Ex (Fin 4 × Fin 4))) 0 0 * (Mat.vr id : Mat 4 (Ex (Fin 4 × Fin 4))) 2 2))) = true := by decide +kernel
    have h3 := Ex.same_of_fin A.fl h2 (by simpa only [ev, lower_ev] using (h1.isFin h).1)
    simp only [ev, lower_ev] at h3
    exact h1.trans h3

private theorem det_congr_M55 {f : Fmt} {A B : Mat 5 (Flt f)} (h : A.Same B) : (M55.det A).Same (M55.det B) := by
  have := Ex.evalF_congr (x := A.fl) (y := B.fl) (fun i => h i.1 i.2) (M55.det (Mat.vr id))
  simpa only [ev] using this

set_option maxRecDepth 20000 in
/-- A matrix with a row or a column of zeros (of either sign): if the computed determinant is finite it is zero,
and `inverse` returns `None`. -/
theorem C108_zero_line_M55 {f : Fmt} [Libm f] (A : Mat 5 (Flt f)) (k : Fin 5)
    (hk : (∀ j, ROrd.beq (A k j) 0 = true) ∨ (∀ i, ROrd.beq (A i k) 0 = true)) (h : (M55.det A).IsFin) :
    ROrd.beq (M55.det A) 0 = true ∧ M55.inverse A = .ok none := by
  have h0 : (M55.det A).Same 0 := by
    rcases hk with hk | hk
    · have h1 := det_congr_M55 (zrow_same hk)
      have h2 : ∀ k : Fin 5, Ex.simEq .result (M55.det (zrow k (Mat.vr id))) 0 = true := by decide +kernel
      have h3 := Ex.same_of_fin A.fl (h2 k) (by simpa only [ev, zrow_ev] using (h1.isFin h).1)
      simp only [ev, zrow_ev] at h3
      exact h1.trans h3
    · have h1 := det_congr_M55 (zcol_same hk)
      have h2 : ∀ k : Fin 5, Ex.simEq .result (M55.det (zcol k (Mat.vr id))) 0 = true := by decide +kernel
      have h3 := Ex.same_of_fin A.fl (h2 k) (by simpa only [ev, zcol_ev] using (h1.isFin h).1)
      simp only [ev, zcol_ev] at h3
      exact h1.trans h3
  have h4 := h0.symm.isFin isFin_zero
  refine ⟨h0.resolve_left fun e => ?_, (C91_M55 A).2.1.2 ⟨h4.1, ?_⟩⟩
  · rw [e.1] at h; exact h
  · rw [h4.2, toReal_zero, abs_zero]; positivity

set_option maxRecDepth 20000 in
/-- The determinant of a triangular matrix is computed as the product of the diagonal, in the order shown, with
no other rounding. -/
theorem C108_triangular_M55 {f : Fmt} (A : Mat 5 (Flt f))
    (ht : (∀ i j, j < i → ROrd.beq (A i j) 0 = true) ∨ (∀ i j, i < j → ROrd.beq (A i j) 0 = true))
    (h : (M55.det A).IsFin) : (M55.det A).Same (A 4 4 * (A 3 3 * (A 2 2 * (A 0 0 * A 1 1)))) := by
  rcases ht with ht | ht
  · have h1 := det_congr_M55 (upper_same ht)
    have h2 : Ex.simEq .result (M55.det (upper (Mat.vr id))) ((Mat.vr id : Mat 5 (Ex (Fin 5 × Fin 5))) 4 4 * ((Mat.vr id : Mat 5 (Ex (Fin 5 × Fin 5))) 3 3 * ((Mat.vr id : Mat 5 (Ex (Fin 5 × Fin 5))) 2 2 * ((Mat.vr id : Mat 5 (Ex (Fin 5 × Fin 5))) 0 0 * (Mat.vr id : Mat 5 (Ex (Fin 5 × Fin 5))) 1 1)))) = true := by decide +kernel
    have h3 := Ex.same_of_fin A.fl h2 (by simpa only [ev, upper_ev] using (h1.isFin h).1)
    simp only [ev, upper_ev] at h3
    exact h1.trans h3
  · have h1 := det_congr_M55 (lower_same ht)
    have h2 : Ex.simEq .result (M55.det (lower (Mat.vr id))) ((Mat.vr id : Mat 5 (Ex (Fin 5 × Fin 5))) 4 4 * ((Mat.vr id : Mat 5 (Ex (Fin 5 × Fin 5))) 3 3 * ((Mat.vr id : Mat 5 (Ex (Fin 5 × Fin 5))) 2 2 * ((Mat.vr id : Mat 5 (Ex (Fin 5 × Fin 5))) 0 0 * (Mat.vr id : Mat 5 (Ex (Fin 5 × Fin 5))) 1 1)))) = true := by decide +kernel
    have h3 := Ex.same_of_fin A.fl h2 (by simpa only [ev, lower_ev] using (h1.isFin h).1)
    simp only [ev, lower_ev] at h3
    exact h1.trans h3

private theorem det_congr_M66 {f : Fmt} {A B : Mat 6 (Flt f)} (h : A.Same B) : (M66.det A).Same (M66.det B) := by
  have := Ex.evalF_congr (x := A.fl) (y := B.fl) (fun i => h i.1 i.2) (M66.det (Mat.vr id))
  simpa only [ev] using this

set_option maxRecDepth 20000 in
/-- A matrix with a row or a column of zeros (of either sign): if the computed determinant is finite it is zero,
and `inverse` returns `None`. -/
theorem C108_zero_line_M66 {f : Fmt} [Libm f] (A : Mat 6 (Flt f)) (k : Fin 6)
    (hk : (∀ j, ROrd.beq (A k j) 0 = true) ∨ (∀ i, ROrd.beq (A i k) 0 = true)) (h : (M66.det A).IsFin) :
    ROrd.beq (M66.det A) 0 = true ∧ M66.inverse A = .ok none := by
  have h0 : (M66.det A).Same 0 := by
    rcases hk with hk | hk
    · have h1 := det_congr_M66 (zrow_same hk)
      have h2 : ∀ k : Fin 6, Ex.simEq .result (M66.det (zrow k (Mat.vr id))) 0 = true := by decide +kernel
      have h3 := Ex.same_of_fin A.fl (h2 k) (by simpa only [ev, zrow_ev] using (h1.isFin h).1)
      simp only [ev, zrow_ev] at h3
      exact h1.trans h3
    · have h1 := det_congr_M66 (zcol_same hk)
      have h2 : ∀ k : Fin 6, Ex.simEq .result (M66.det (zcol k (Mat.vr id))) 0 = true := by decide +kernel
      have h3 := Ex.same_of_fin A.fl (h2 k) (by simpa only [ev, zcol_ev] using (h1.isFin h).1)
      simp only [ev, zcol_ev] at h3
      exact h1.trans h3
  have h4 := h0.symm.isFin isFin_zero
  refine ⟨h0.resolve_left fun e => ?_, (C91_M66 A).2.1.2 ⟨h4.1, ?_⟩⟩
  · rw [e.1] at h; exact h
  · rw [h4.2, toReal_zero, abs_zero]; positivity

set_option maxRecDepth 20000 in
/-- The determinant of a triangular matrix is computed as the product of the diagonal, in the order shown, with
no other rounding. -/
theorem C108_triangular_M66 {f : Fmt} (A : Mat 6 (Flt f))
    (ht : (∀ i j, j < i → ROrd.beq (A i j) 0 = true) ∨ (∀ i j, i < j → ROrd.beq (A i j) 0 = true))
    (h : (M66.det A).IsFin) : (M66.det A).Same (A 5 5 * (A 4 4 * (A 3 3 * (A 2 2 * (A 0 0 * A 1 1))))) := by
  rcases ht with ht | ht
  · have h1 := det_congr_M66 (upper_same ht)
    have h2 : Ex.simEq .result (M66.det (upper (Mat.vr id))) ((Mat.vr id : Mat 6 (Ex (Fin 6 × Fin 6))) 5 5 * ((Mat.vr id : Mat 6 (Ex (Fin 6 × Fin 6))) 4 4 * ((Mat.vr id : Mat 6 (Ex (Fin 6 × Fin 6))) 3 3 * ((Mat.vr id : Mat 6 (Ex (Fin 6 × Fin 6))) 2 2 * ((Mat.vr id : Mat 6 (Ex (Fin 6 × Fin 6))) 0 0 * (Mat.vr id : Mat 6 (Ex (Fin 6 × Fin 6))) 1 1))))) = true := by decide +kernel
    have h3 := Ex.same_of_fin A.fl h2 (by simpa only [ev, upper_ev] using (h1.isFin h).1)
    simp only [ev, upper_ev] at h3
    exact h1.trans h3
  · have h1 := det_congr_M66 (lower_same ht)
    have h2 : Ex.simEq .result (M66.det (lower (Mat.vr id))) ((Mat.vr id : Mat 6 (Ex (Fin 6 × Fin 6))) 5 5 * ((Mat.vr id : Mat 6 (Ex (Fin 6 × Fin 6))) 4 4 * ((Mat.vr id : Mat 6 (Ex (Fin 6 × Fin 6))) 3 3 * ((Mat.vr id : Mat 6 (Ex (Fin 6 × Fin 6))) 2 2 * ((Mat.vr id : Mat 6 (Ex (Fin 6 × Fin 6))) 0 0 * (Mat.vr id : Mat 6 (Ex (Fin 6 × Fin 6))) 1 1))))) = true := by decide +kernel
    have h3 := Ex.same_of_fin A.fl h2 (by simpa only [ev, lower_ev] using (h1.isFin h).1)
    simp only [ev, lower_ev] at h3
    exact h1.trans h3

/-- Multiplying by the hat matrix is exactly the cross product, for finite inputs; `a × a` is exactly zero
unless a product overflows. -/
theorem C108_cross {f : Fmt} (a b : Vec 3 (Flt f)) (ha : a.AllFin) (hb : b.AllFin) :
    (M33.mulVec (skew_from_vec a) b).Same (V3.cross a b) ∧
    ((V3.cross a a).AllFin → (V3.cross a a).Same V3.zero) := by
  refine ⟨?_, ?_⟩
  · have := Vec.same_of_inputs (Sum.elim a.fl b.fl) (show Vec.simEq .inputs (M33.mulVec (skew_from_vec (Vec.vr Sum.inl)) (Vec.vr Sum.inr)) (V3.cross (Vec.vr Sum.inl) (Vec.vr Sum.inr)) = true by decide +kernel)
      (isFin_elim ha.fl hb.fl)
    simp only [ev] at this
    exact this
  · intro h
    have := Vec.same_of_fin (a.fl) (show Vec.simEq .result (V3.cross (Vec.vr id) (Vec.vr id)) (V3.zero) = true by decide +kernel)
      (by simpa only [ev] using h)
    simpa only [ev] using this

/-- `q * conj q` and `conj q * q` have exactly zero imaginary part (unless a product overflows) and exactly
`dot q q` as real part. The unit quaternion is an exact identity of products and rotations. -/
theorem C108_quaternion {f : Fmt} (q : Quat (Flt f)) (v : Vec 3 (Flt f)) (hq : q.AllFin) (hv : v.AllFin) :
    ((q.mul q.conj).imag.AllFin → (q.mul q.conj).imag.Same V3.zero) ∧
    ((q.conj.mul q).imag.AllFin → (q.conj.mul q).imag.Same V3.zero) ∧
    (q.mul q.conj).real.Same (q.dot q) ∧
    (q.conj.mul q).real.Same (q.dot q) ∧
    (Quat.one.mul q).Same q ∧
    (q.mul Quat.one).Same q ∧
    (Quat.one.mulVec v).Same v ∧
    (Quat.one.to_rotation : Mat 3 (Flt f)).Same M33.one := by
  refine ⟨?_, ?_, ?_, ?_, ?_, ?_, ?_, ?_⟩
  · intro h
    have := Vec.same_of_fin (q.fl) (show Vec.simEq .result ((Quat.mul (Quat.vr id) (Quat.conj (Quat.vr id))).imag) (V3.zero) = true by decide +kernel)
      (by simpa only [ev] using h)
    simpa only [ev] using this
  · intro h
    have := Vec.same_of_fin (q.fl) (show Vec.simEq .result ((Quat.mul (Quat.conj (Quat.vr id)) (Quat.vr id)).imag) (V3.zero) = true by decide +kernel)
      (by simpa only [ev] using h)
    simpa only [ev] using this
  · have := Ex.same_of_inputs (q.fl) (show Ex.simEq .inputs ((Quat.mul (Quat.vr id) (Quat.conj (Quat.vr id))).real) (Quat.dot (Quat.vr id) (Quat.vr id)) = true by decide +kernel)
      (hq.fl)
    simp only [ev] at this
    exact this
  · have := Ex.same_of_inputs (q.fl) (show Ex.simEq .inputs ((Quat.mul (Quat.conj (Quat.vr id)) (Quat.vr id)).real) (Quat.dot (Quat.vr id) (Quat.vr id)) = true by decide +kernel)
      (hq.fl)
    simp only [ev] at this
    exact this
  · have := Quat.same_of_inputs (q.fl) (show Quat.simEq .inputs (Quat.one.mul (Quat.vr id)) ((Quat.vr id)) = true by decide +kernel)
      (hq.fl)
    simp only [ev] at this
    exact this
  · have := Quat.same_of_inputs (q.fl) (show Quat.simEq .inputs (Quat.mul (Quat.vr id) Quat.one) ((Quat.vr id)) = true by decide +kernel)
      (hq.fl)
    simp only [ev] at this
    exact this
  · have := Vec.same_of_inputs (v.fl) (show Vec.simEq .inputs (Quat.one.mulVec (Vec.vr id)) (Vec.vr id) = true by decide +kernel)
      (hv.fl)
    simp only [ev] at this
    exact this
  · have := Mat.same_of_inputs (v.fl) (show Mat.simEq .inputs (Quat.one.to_rotation) (M33.one) = true by decide +kernel)
      (hv.fl)
    simp only [ev] at this
    exact this

/-- The unit dual quaternion is an exact identity of products and point transformations. -/
theorem C108_dual {f : Fmt} (q : DQuat (Flt f)) (v : Vec 3 (Flt f)) (hq : q.AllFin) (hv : v.AllFin) :
    (DQuat.one.mul q).Same q ∧
    (q.mul DQuat.one).Same q ∧
    (DQuat.one.transform_point v).Same v := by
  refine ⟨?_, ?_, ?_⟩
  · have := DQuat.same_of_inputs (q.fl) (show DQuat.simEq .inputs (DQuat.one.mul (DQuat.vr id)) ((DQuat.vr id)) = true by decide +kernel)
      (hq.fl)
    simp only [ev] at this
    exact this
  · have := DQuat.same_of_inputs (q.fl) (show DQuat.simEq .inputs (DQuat.mul (DQuat.vr id) DQuat.one) ((DQuat.vr id)) = true by decide +kernel)
      (hq.fl)
    simp only [ev] at this
    exact this
  · have := Vec.same_of_inputs (v.fl) (show Vec.simEq .inputs (DQuat.one.transform_point (Vec.vr id)) (Vec.vr id) = true by decide +kernel)
      (hv.fl)
    simp only [ev] at this
    exact this

/-- Pure rotations compose to exactly the pure rotation of the quaternion product; `new_from_point` values
compose to exactly that of the vector sum. -/
theorem C108_dual_compose {f : Fmt} (p q : Quat (Flt f)) (a b : Vec 3 (Flt f)) (hp : p.AllFin) (hq : q.AllFin) (ha : a.AllFin) (hb : b.AllFin) :
    ((DQuat.new_from_rotation p).mul (DQuat.new_from_rotation q)).Same (DQuat.new_from_rotation (p.mul q)) ∧
    ((DQuat.new_from_point a).mul (DQuat.new_from_point b)).Same (DQuat.new_from_point (V3.add a b)) := by
  refine ⟨?_, ?_⟩
  · have := DQuat.same_of_inputs (Sum.elim p.fl q.fl) (show DQuat.simEq .inputs ((DQuat.new_from_rotation (Quat.vr Sum.inl)).mul (DQuat.new_from_rotation (Quat.vr Sum.inr))) (DQuat.new_from_rotation (Quat.mul (Quat.vr Sum.inl) (Quat.vr Sum.inr))) = true by decide +kernel)
      (isFin_elim hp.fl hq.fl)
    simp only [ev] at this
    exact this
  · have := DQuat.same_of_inputs (Sum.elim a.fl b.fl) (show DQuat.simEq .inputs ((DQuat.new_from_point (Vec.vr Sum.inl)).mul (DQuat.new_from_point (Vec.vr Sum.inr))) (DQuat.new_from_point (V3.add (Vec.vr Sum.inl) (Vec.vr Sum.inr))) = true by decide +kernel)
      (isFin_elim ha.fl hb.fl)
    simp only [ev] at this
    exact this

/-- The last row of a product of homogeneous transforms is exactly `[0, 0, 0, 1]`, and the first two rows are exactly
those of the `3x3` product and of `R q + p`. The third row has the same terms, summed in another order (the
code adds the first product last). -/
theorem C108_homogeneous {f : Fmt} (R S : Mat 3 (Flt f)) (p q : Vec 3 (Flt f)) (hR : R.AllFin) (hS : S.AllFin)
    (hp : p.AllFin) (hq : q.AllFin) :
    let H := M44.mul (homogeneous_from_rotation R p) (homogeneous_from_rotation S q)
    (∀ j, (H 3 j).Same (if j = 3 then 1 else 0)) ∧
    (∀ i j, i ≠ 2 → (H i j).Same ((homogeneous_from_rotation (M33.mul R S) (V3.add (M33.mulVec R q) p)) i j)) ∧
    (∀ j : Fin 3, (H 2 j.castSucc).Same (R 2 1 * S 1 j + R 2 2 * S 2 j + R 2 0 * S 0 j)) ∧
    (H 2 3).Same (R 2 1 * q 1 + R 2 2 * q 2 + p 2 + R 2 0 * q 0) := by
  intro H
  have hx := isFin_elim (isFin_elim hR.fl hp.fl) (isFin_elim hS.fl hq.fl)
  have hH : (M44.mul (homogeneous_from_rotation (Mat.vr fun i => .inl (.inl i)) (Vec.vr fun i => .inl (.inr i))) (homogeneous_from_rotation (Mat.vr fun i => .inr (.inl i)) (Vec.vr fun i => .inr (.inr i)))).ev (Sum.elim (Sum.elim R.fl p.fl) (Sum.elim S.fl q.fl)) = H := by simp only [ev]; rfl
  refine ⟨fun j => ?_, fun i j hi => ?_, fun j => ?_, ?_⟩
  · have h1 : ∀ j, Ex.simEq .inputs ((M44.mul (homogeneous_from_rotation (Mat.vr fun i => .inl (.inl i)) (Vec.vr fun i => .inl (.inr i))) (homogeneous_from_rotation (Mat.vr fun i => .inr (.inl i)) (Vec.vr fun i => .inr (.inr i))) :
        Mat 4 (Ex ((Fin 3 × Fin 3 ⊕ Fin 3) ⊕ (Fin 3 × Fin 3 ⊕ Fin 3)))) 3 j) (if j = 3 then 1 else 0) = true := by decide +kernel
    have h2 := Ex.same_of_inputs (Sum.elim (Sum.elim R.fl p.fl) (Sum.elim S.fl q.fl)) (h1 j) hx
    rw [← hH]
    fin_cases j <;> exact h2
  · have h1 : ∀ i j, i ≠ 2 → Ex.simEq .inputs ((M44.mul (homogeneous_from_rotation (Mat.vr fun i => .inl (.inl i)) (Vec.vr fun i => .inl (.inr i))) (homogeneous_from_rotation (Mat.vr fun i => .inr (.inl i)) (Vec.vr fun i => .inr (.inr i))) :
        Mat 4 (Ex ((Fin 3 × Fin 3 ⊕ Fin 3) ⊕ (Fin 3 × Fin 3 ⊕ Fin 3)))) i j) ((homogeneous_from_rotation (M33.mul (Mat.vr fun i => .inl (.inl i)) (Mat.vr fun i => .inr (.inl i))) (V3.add (M33.mulVec (Mat.vr fun i => .inl (.inl i)) (Vec.vr fun i => .inr (.inr i))) (Vec.vr fun i => .inl (.inr i)))) i j) = true := by decide +kernel
    have h2 := Ex.same_of_inputs (Sum.elim (Sum.elim R.fl p.fl) (Sum.elim S.fl q.fl)) (h1 i j hi) hx
    have h3 : (homogeneous_from_rotation (M33.mul (Mat.vr fun i => .inl (.inl i)) (Mat.vr fun i => .inr (.inl i))) (V3.add (M33.mulVec (Mat.vr fun i => .inl (.inl i)) (Vec.vr fun i => .inr (.inr i))) (Vec.vr fun i => .inl (.inr i)))).ev (Sum.elim (Sum.elim R.fl p.fl) (Sum.elim S.fl q.fl)) = homogeneous_from_rotation (M33.mul R S) (V3.add (M33.mulVec R q) p) := by simp only [ev]
    rw [← hH, ← h3]
    exact h2
  · have h1 : ∀ j : Fin 3, Ex.simEq .inputs ((M44.mul (homogeneous_from_rotation (Mat.vr fun i => .inl (.inl i)) (Vec.vr fun i => .inl (.inr i))) (homogeneous_from_rotation (Mat.vr fun i => .inr (.inl i)) (Vec.vr fun i => .inr (.inr i))) :
        Mat 4 (Ex ((Fin 3 × Fin 3 ⊕ Fin 3) ⊕ (Fin 3 × Fin 3 ⊕ Fin 3)))) 2 j.castSucc)
        ((Mat.vr fun i => .inl (.inl i)) 2 1 * (Mat.vr fun i => .inr (.inl i)) 1 j + (Mat.vr fun i => .inl (.inl i)) 2 2 * (Mat.vr fun i => .inr (.inl i)) 2 j + (Mat.vr fun i => .inl (.inl i)) 2 0 * (Mat.vr fun i => .inr (.inl i)) 0 j) = true := by decide +kernel
    have h2 := Ex.same_of_inputs (Sum.elim (Sum.elim R.fl p.fl) (Sum.elim S.fl q.fl)) (h1 j) hx
    rw [← hH]
    exact h2
  · have h1 : Ex.simEq .inputs ((M44.mul (homogeneous_from_rotation (Mat.vr fun i => .inl (.inl i)) (Vec.vr fun i => .inl (.inr i))) (homogeneous_from_rotation (Mat.vr fun i => .inr (.inl i)) (Vec.vr fun i => .inr (.inr i))) :
        Mat 4 (Ex ((Fin 3 × Fin 3 ⊕ Fin 3) ⊕ (Fin 3 × Fin 3 ⊕ Fin 3)))) 2 3)
        ((Mat.vr fun i => .inl (.inl i)) 2 1 * (Vec.vr fun i => .inr (.inr i)) 1 + (Mat.vr fun i => .inl (.inl i)) 2 2 * (Vec.vr fun i => .inr (.inr i)) 2 + (Vec.vr fun i => .inl (.inr i)) 2 + (Mat.vr fun i => .inl (.inl i)) 2 0 * (Vec.vr fun i => .inr (.inr i)) 0) = true := by decide +kernel
    have h2 := Ex.same_of_inputs (Sum.elim (Sum.elim R.fl p.fl) (Sum.elim S.fl q.fl)) h1 hx
    rw [← hH]
    exact h2

/-- `homogeneous_inverse` transposes the rotation exactly, its translation is the computed `-(Rᵀ p)`, and its last row
is `[0, 0, 0, 1]`. A homogeneous transform maps a point `(v, 1)` to exactly `(R v + p, 1)`. -/
theorem C108_homogeneous_inverse {f : Fmt} (R : Mat 3 (Flt f)) (p v : Vec 3 (Flt f)) (hR : R.AllFin) (hp : p.AllFin) (hv : v.AllFin) :
    (homogeneous_inverse (homogeneous_from_rotation R p)).Same
      (homogeneous_from_rotation (M33.transpose R) (V3.neg (M33.mulVec (M33.transpose R) p))) := by
  refine ?_
  · have := Mat.same_of_inputs (Sum.elim R.fl (Sum.elim p.fl v.fl)) (show Mat.simEq .inputs (homogeneous_inverse (homogeneous_from_rotation (Mat.vr Sum.inl) (Vec.vr fun i => .inr (.inl i)))) (homogeneous_from_rotation (M33.transpose (Mat.vr Sum.inl)) (V3.neg (M33.mulVec (M33.transpose (Mat.vr Sum.inl)) (Vec.vr fun i => .inr (.inl i))))) = true by decide +kernel)
      (isFin_elim hR.fl (isFin_elim hp.fl hv.fl))
    simp only [ev] at this
    exact this

/-- A homogeneous transform maps a point `(v, 1)` to exactly the computed `(R v + p, 1)`. -/
theorem C108_homogeneous_point {f : Fmt} (R : Mat 3 (Flt f)) (p v : Vec 3 (Flt f)) (hR : R.AllFin) (hp : p.AllFin)
    (hv : v.AllFin) :
    let w := M44.mulVec (homogeneous_from_rotation R p) ⟨![v 0, v 1, v 2, 1]⟩
    (∀ i : Fin 3, (w i.castSucc).Same (V3.add (M33.mulVec R v) p i)) ∧ (w 3).Same 1 := by
  intro w
  have hx := isFin_elim hR.fl (isFin_elim hp.fl hv.fl)
  refine ⟨fun i => ?_, ?_⟩
  · have h1 : ∀ i : Fin 3, Ex.simEq .inputs (M44.mulVec (homogeneous_from_rotation (Mat.vr Sum.inl) (Vec.vr fun i => .inr (.inl i)))
        (⟨![(Vec.vr fun i => .inr (.inr i)) 0, (Vec.vr fun i => .inr (.inr i)) 1, (Vec.vr fun i => .inr (.inr i)) 2, 1]⟩ : Vec 4 (Ex (Fin 3 × Fin 3 ⊕ (Fin 3 ⊕ Fin 3)))) i.castSucc)
        (V3.add (M33.mulVec (Mat.vr Sum.inl) (Vec.vr fun i => .inr (.inr i))) (Vec.vr fun i => .inr (.inl i)) i) = true := by decide +kernel
    have h2 := Ex.same_of_inputs (Sum.elim R.fl (Sum.elim p.fl v.fl)) (h1 i) hx
    fin_cases i <;> exact h2
  · have h1 : Ex.simEq .inputs (M44.mulVec (homogeneous_from_rotation (Mat.vr Sum.inl) (Vec.vr fun i => .inr (.inl i)))
        (⟨![(Vec.vr fun i => .inr (.inr i)) 0, (Vec.vr fun i => .inr (.inr i)) 1, (Vec.vr fun i => .inr (.inr i)) 2, 1]⟩ : Vec 4 (Ex (Fin 3 × Fin 3 ⊕ (Fin 3 ⊕ Fin 3)))) 3) 1 = true := by decide +kernel
    exact Ex.same_of_inputs (Sum.elim R.fl (Sum.elim p.fl v.fl)) h1 hx

/-- Translations compose to exactly the translation by the computed sums, with every other entry exactly that of the
identity. -/
theorem C108_translation {f : Fmt} (a b : Vec 3 (Flt f)) (ha : a.AllFin) (hb : b.AllFin) :
    (M44.mul (translation_3d (a 0) (a 1) (a 2)) (translation_3d (b 0) (b 1) (b 2))).Same
      (translation_3d (a 0 + b 0) (a 1 + b 1) (a 2 + b 2)) ∧
    (M33.mul (translation_2d (a 0) (a 1)) (translation_2d (b 0) (b 1))).Same (translation_2d (a 0 + b 0) (a 1 + b 1)) := by
  constructor
  · have := Mat.same_of_inputs (Sum.elim a.fl b.fl) (show Mat.simEq .inputs
      (M44.mul (translation_3d ((Vec.vr Sum.inl : Vec 3 (Ex (Fin 3 ⊕ Fin 3))) 0) ((Vec.vr Sum.inl : Vec 3 (Ex (Fin 3 ⊕ Fin 3))) 1) ((Vec.vr Sum.inl : Vec 3 (Ex (Fin 3 ⊕ Fin 3))) 2)) (translation_3d ((Vec.vr Sum.inr : Vec 3 (Ex (Fin 3 ⊕ Fin 3))) 0) ((Vec.vr Sum.inr : Vec 3 (Ex (Fin 3 ⊕ Fin 3))) 1) ((Vec.vr Sum.inr : Vec 3 (Ex (Fin 3 ⊕ Fin 3))) 2)))
      (translation_3d ((Vec.vr Sum.inl : Vec 3 (Ex (Fin 3 ⊕ Fin 3))) 0 + (Vec.vr Sum.inr : Vec 3 (Ex (Fin 3 ⊕ Fin 3))) 0) ((Vec.vr Sum.inl : Vec 3 (Ex (Fin 3 ⊕ Fin 3))) 1 + (Vec.vr Sum.inr : Vec 3 (Ex (Fin 3 ⊕ Fin 3))) 1) ((Vec.vr Sum.inl : Vec 3 (Ex (Fin 3 ⊕ Fin 3))) 2 + (Vec.vr Sum.inr : Vec 3 (Ex (Fin 3 ⊕ Fin 3))) 2)) = true by decide +kernel) (isFin_elim ha.fl hb.fl)
    simp only [ev] at this
    exact this
  · have := Mat.same_of_inputs (Sum.elim a.fl b.fl) (show Mat.simEq .inputs
      (M33.mul (translation_2d ((Vec.vr Sum.inl : Vec 3 (Ex (Fin 3 ⊕ Fin 3))) 0) ((Vec.vr Sum.inl : Vec 3 (Ex (Fin 3 ⊕ Fin 3))) 1)) (translation_2d ((Vec.vr Sum.inr : Vec 3 (Ex (Fin 3 ⊕ Fin 3))) 0) ((Vec.vr Sum.inr : Vec 3 (Ex (Fin 3 ⊕ Fin 3))) 1)))
      (translation_2d ((Vec.vr Sum.inl : Vec 3 (Ex (Fin 3 ⊕ Fin 3))) 0 + (Vec.vr Sum.inr : Vec 3 (Ex (Fin 3 ⊕ Fin 3))) 0) ((Vec.vr Sum.inl : Vec 3 (Ex (Fin 3 ⊕ Fin 3))) 1 + (Vec.vr Sum.inr : Vec 3 (Ex (Fin 3 ⊕ Fin 3))) 1)) = true by decide +kernel) (isFin_elim ha.fl hb.fl)
    simp only [ev] at this
    exact this

/-- Concrete cases: integer-valued floats with finite results. -/
example : (V3.cross ⟨fun _ => 1⟩ (⟨fun _ => 1⟩ : Vec 3 (Flt Fmt.f32))).Same V3.zero := by
  have hi : (1 : Flt Fmt.f32).IntLe 1 := ⟨isFin_one, 1, by rw [toReal_one]; norm_num, by norm_num⟩
  refine (C108_cross (⟨fun _ => 1⟩ : Vec 3 (Flt Fmt.f32)) ⟨fun _ => 1⟩ (fun _ => isFin_one) (fun _ => isFin_one)).2 fun i => ?_
  exact ((C105_integers (f := Fmt.f32) ⟨1, ⟨fun _ => 1⟩, false⟩ ⟨1, ⟨fun _ => 1⟩, false⟩ ⟨fun _ => 1⟩ ⟨fun _ => 1⟩ 1 le_rfl
    (fun i => by fin_cases i <;> exact hi) (fun i => by fin_cases i <;> exact hi) (fun _ => hi) (fun _ => hi)).2
    (by norm_num [Fmt.f32])).1 i

/-- The all-ones matrix with its first row cleared, with a negative zero: the determinant is finite. -/
example [Libm Fmt.f32] : M33.inverse (⟨![![0, -0, 0], ![1, 1, 1], ![1, 1, 1]]⟩ : Mat 3 (Flt Fmt.f32)) = .ok none := by
  have h1 : (1 : Flt Fmt.f32).FinLe 1 := ⟨isFin_one, by rw [toReal_one]; norm_num⟩
  have h0 : (0 : Flt Fmt.f32).FinLe 1 := ⟨isFin_zero, by rw [toReal_zero]; norm_num⟩
  have hn : (-0 : Flt Fmt.f32).FinLe 1 := ⟨isFin_neg.2 isFin_zero, by rw [toReal_neg, toReal_zero]; norm_num⟩
  refine (C108_zero_line_M33 _ 0 (.inl fun j => ?_) ?_).2
  · fin_cases j
    · exact (beq_iff isFin_zero isFin_zero).2 rfl
    · exact (beq_iff (isFin_neg.2 isFin_zero) isFin_zero).2 (by rw [toReal_neg, toReal_zero, neg_zero])
    · exact (beq_iff isFin_zero isFin_zero).2 rfl
  · refine Ex.isFin_of le_rfl (x := Mat.fl (⟨![![0, -0, 0], ![1, 1, 1], ![1, 1, 1]]⟩ : Mat 3 (Flt Fmt.f32))) (fun q => ?_)
      (M33.det (Mat.vars 3)) (k := 5) (c := 15) (d := 3) (by decide +kernel) (by decide +kernel) (by decide +kernel) ?_
    · rcases q with ⟨i, j⟩
      fin_cases i <;> fin_cases j <;> first | exact h0 | exact h1 | exact hn
    · norm_num [Fmt.f32, Fmt.u]

end StaticMath
