import Verif.Checked.Int

/-!
# C94: overflow-checked integers

Generated by `tools/gen_props_checked.py`. `of t z` is the value `z` of the integer type `t`; every
operation that overflows yields the mark of a panic, which is different from all `of t z`.
-/

namespace StaticMath
open CInt

private theorem chk_iff {t : IntTy} {z w : ℤ} : chk t w = of t z ↔ z = w ∧ t.lo ≤ w ∧ w ≤ t.hi :=
  ⟨fun h => ⟨(chk_some h).1.symm, (chk_some h).2⟩, fun h => by rw [h.1]; exact chk_ok h.2.1 h.2.2⟩

/-- An entry of the sum of two matrices is computed exactly when it fits, and is then exact. -/
theorem C94_add_M22 (t : IntTy) (A B : Mat 2 ℤ) (i j : Fin 2) (z : ℤ) :
    M22.add ⟨fun i j => of t (A i j)⟩ ⟨fun i j => of t (B i j)⟩ i j = of t z ↔
      z = A i j + B i j ∧ t.lo ≤ A i j + B i j ∧ A i j + B i j ≤ t.hi := by
  fin_cases i <;> fin_cases j <;> exact chk_iff

/-- An entry of the sum of two vectors is computed exactly when it fits, and is then exact. -/
theorem C94_add_V2 (t : IntTy) (v w : Vec 2 ℤ) (i : Fin 2) (z : ℤ) :
    V2.add ⟨fun i => of t (v i)⟩ ⟨fun i => of t (w i)⟩ i = of t z ↔ z = v i + w i ∧ t.lo ≤ v i + w i ∧ v i + w i ≤ t.hi := by
  fin_cases i <;> exact chk_iff

/-- An entry of the difference of two matrices is computed exactly when it fits, and is then exact. -/
theorem C94_sub_M22 (t : IntTy) (A B : Mat 2 ℤ) (i j : Fin 2) (z : ℤ) :
    M22.sub ⟨fun i j => of t (A i j)⟩ ⟨fun i j => of t (B i j)⟩ i j = of t z ↔
      z = A i j - B i j ∧ t.lo ≤ A i j - B i j ∧ A i j - B i j ≤ t.hi := by
  fin_cases i <;> fin_cases j <;> exact chk_iff

/-- An entry of the difference of two vectors is computed exactly when it fits, and is then exact. -/
theorem C94_sub_V2 (t : IntTy) (v w : Vec 2 ℤ) (i : Fin 2) (z : ℤ) :
    V2.sub ⟨fun i => of t (v i)⟩ ⟨fun i => of t (w i)⟩ i = of t z ↔ z = v i - w i ∧ t.lo ≤ v i - w i ∧ v i - w i ≤ t.hi := by
  fin_cases i <;> exact chk_iff

/-- A dot product that is returned is exact, and one whose positive and negative terms each fit is
returned. -/
theorem C94_dot_V2 (t : IntTy) (v w : Vec 2 ℤ) :
    (∀ z, V2.dot ⟨fun i => of t (v i)⟩ ⟨fun i => of t (w i)⟩ = of t z → z = ∑ k, v k * w k) ∧
    (∑ k, max (v k * w k) 0 ≤ t.hi → ∑ k, max (-(v k * w k)) 0 ≤ -t.lo →
      V2.dot ⟨fun i => of t (v i)⟩ ⟨fun i => of t (w i)⟩ = of t (∑ k, v k * w k)) :=
  ⟨orderedSum_exact (V2.dot_order _ _), orderedSum_ok (V2.dot_order _ _)⟩

/-- An entry of a matrix-vector product that is returned is exact, and one whose positive and negative terms each fit is
returned. -/
theorem C94_mulVec_M22 (t : IntTy) (A : Mat 2 ℤ) (v : Vec 2 ℤ) (i : Fin 2) :
    (∀ z, M22.mulVec ⟨fun i j => of t (A i j)⟩ ⟨fun i => of t (v i)⟩ i = of t z → z = ∑ k, A i k * v k) ∧
    (∑ k, max (A i k * v k) 0 ≤ t.hi → ∑ k, max (-(A i k * v k)) 0 ≤ -t.lo →
      M22.mulVec ⟨fun i j => of t (A i j)⟩ ⟨fun i => of t (v i)⟩ i = of t (∑ k, A i k * v k)) :=
  ⟨orderedSum_exact (M22.mulVec_order _ _ i), orderedSum_ok (M22.mulVec_order _ _ i)⟩

/-- An entry of a matrix product that is returned is exact, and one whose positive and negative terms each fit is
returned. -/
theorem C94_mul_M22 (t : IntTy) (A B : Mat 2 ℤ) (i j : Fin 2) :
    (∀ z, M22.mul ⟨fun i j => of t (A i j)⟩ ⟨fun i j => of t (B i j)⟩ i j = of t z → z = ∑ k, A i k * B k j) ∧
    (∑ k, max (A i k * B k j) 0 ≤ t.hi → ∑ k, max (-(A i k * B k j)) 0 ≤ -t.lo →
      M22.mul ⟨fun i j => of t (A i j)⟩ ⟨fun i j => of t (B i j)⟩ i j = of t (∑ k, A i k * B k j)) :=
  ⟨orderedSum_exact (M22.mul_order _ _ i j), orderedSum_ok (M22.mul_order _ _ i j)⟩

/-- A product that fits into `i8`, and one that does not although its exact value is zero. -/
example : V2.dot ⟨fun _ => of IntTy.i8 4⟩ ⟨fun _ => of IntTy.i8 (-5)⟩ = of IntTy.i8 (2 * (4 * -5)) ∧
    ∀ z, V2.dot ⟨fun _ => of IntTy.i8 100⟩ ⟨fun i => of IntTy.i8 (if i = 0 then 2 else if i = 1 then -2 else 0)⟩ ≠
      of IntTy.i8 z := by
  refine ⟨by decide, fun z h => ?_⟩
  have : (V2.dot ⟨fun _ => of IntTy.i8 100⟩
    ⟨fun i => of IntTy.i8 (if i = 0 then 2 else if i = 1 then -2 else 0)⟩).val = none := by decide
  rw [h] at this
  cases this

/-- An entry of the sum of two matrices is computed exactly when it fits, and is then exact. -/
theorem C94_add_M33 (t : IntTy) (A B : Mat 3 ℤ) (i j : Fin 3) (z : ℤ) :
    M33.add ⟨fun i j => of t (A i j)⟩ ⟨fun i j => of t (B i j)⟩ i j = of t z ↔
      z = A i j + B i j ∧ t.lo ≤ A i j + B i j ∧ A i j + B i j ≤ t.hi := by
  fin_cases i <;> fin_cases j <;> exact chk_iff

/-- An entry of the sum of two vectors is computed exactly when it fits, and is then exact. -/
theorem C94_add_V3 (t : IntTy) (v w : Vec 3 ℤ) (i : Fin 3) (z : ℤ) :
    V3.add ⟨fun i => of t (v i)⟩ ⟨fun i => of t (w i)⟩ i = of t z ↔ z = v i + w i ∧ t.lo ≤ v i + w i ∧ v i + w i ≤ t.hi := by
  fin_cases i <;> exact chk_iff

/-- An entry of the difference of two matrices is computed exactly when it fits, and is then exact. -/
theorem C94_sub_M33 (t : IntTy) (A B : Mat 3 ℤ) (i j : Fin 3) (z : ℤ) :
    M33.sub ⟨fun i j => of t (A i j)⟩ ⟨fun i j => of t (B i j)⟩ i j = of t z ↔
      z = A i j - B i j ∧ t.lo ≤ A i j - B i j ∧ A i j - B i j ≤ t.hi := by
  fin_cases i <;> fin_cases j <;> exact chk_iff

/-- An entry of the difference of two vectors is computed exactly when it fits, and is then exact. -/
theorem C94_sub_V3 (t : IntTy) (v w : Vec 3 ℤ) (i : Fin 3) (z : ℤ) :
    V3.sub ⟨fun i => of t (v i)⟩ ⟨fun i => of t (w i)⟩ i = of t z ↔ z = v i - w i ∧ t.lo ≤ v i - w i ∧ v i - w i ≤ t.hi := by
  fin_cases i <;> exact chk_iff

/-- A dot product that is returned is exact, and one whose positive and negative terms each fit is
returned. -/
theorem C94_dot_V3 (t : IntTy) (v w : Vec 3 ℤ) :
    (∀ z, V3.dot ⟨fun i => of t (v i)⟩ ⟨fun i => of t (w i)⟩ = of t z → z = ∑ k, v k * w k) ∧
    (∑ k, max (v k * w k) 0 ≤ t.hi → ∑ k, max (-(v k * w k)) 0 ≤ -t.lo →
      V3.dot ⟨fun i => of t (v i)⟩ ⟨fun i => of t (w i)⟩ = of t (∑ k, v k * w k)) :=
  ⟨orderedSum_exact (V3.dot_order _ _), orderedSum_ok (V3.dot_order _ _)⟩

/-- An entry of a matrix-vector product that is returned is exact, and one whose positive and negative terms each fit is
returned. -/
theorem C94_mulVec_M33 (t : IntTy) (A : Mat 3 ℤ) (v : Vec 3 ℤ) (i : Fin 3) :
    (∀ z, M33.mulVec ⟨fun i j => of t (A i j)⟩ ⟨fun i => of t (v i)⟩ i = of t z → z = ∑ k, A i k * v k) ∧
    (∑ k, max (A i k * v k) 0 ≤ t.hi → ∑ k, max (-(A i k * v k)) 0 ≤ -t.lo →
      M33.mulVec ⟨fun i j => of t (A i j)⟩ ⟨fun i => of t (v i)⟩ i = of t (∑ k, A i k * v k)) :=
  ⟨orderedSum_exact (M33.mulVec_order _ _ i), orderedSum_ok (M33.mulVec_order _ _ i)⟩

/-- An entry of a matrix product that is returned is exact, and one whose positive and negative terms each fit is
returned. -/
theorem C94_mul_M33 (t : IntTy) (A B : Mat 3 ℤ) (i j : Fin 3) :
    (∀ z, M33.mul ⟨fun i j => of t (A i j)⟩ ⟨fun i j => of t (B i j)⟩ i j = of t z → z = ∑ k, A i k * B k j) ∧
    (∑ k, max (A i k * B k j) 0 ≤ t.hi → ∑ k, max (-(A i k * B k j)) 0 ≤ -t.lo →
      M33.mul ⟨fun i j => of t (A i j)⟩ ⟨fun i j => of t (B i j)⟩ i j = of t (∑ k, A i k * B k j)) :=
  ⟨orderedSum_exact (M33.mul_order _ _ i j), orderedSum_ok (M33.mul_order _ _ i j)⟩

/-- A product that fits into `i8`, and one that does not although its exact value is zero. -/
example : V3.dot ⟨fun _ => of IntTy.i8 4⟩ ⟨fun _ => of IntTy.i8 (-5)⟩ = of IntTy.i8 (3 * (4 * -5)) ∧
    ∀ z, V3.dot ⟨fun _ => of IntTy.i8 100⟩ ⟨fun i => of IntTy.i8 (if i = 0 then 2 else if i = 1 then -2 else 0)⟩ ≠
      of IntTy.i8 z := by
  refine ⟨by decide, fun z h => ?_⟩
  have : (V3.dot ⟨fun _ => of IntTy.i8 100⟩
    ⟨fun i => of IntTy.i8 (if i = 0 then 2 else if i = 1 then -2 else 0)⟩).val = none := by decide
  rw [h] at this
  cases this

/-- An entry of the sum of two matrices is computed exactly when it fits, and is then exact. -/
theorem C94_add_M44 (t : IntTy) (A B : Mat 4 ℤ) (i j : Fin 4) (z : ℤ) :
    M44.add ⟨fun i j => of t (A i j)⟩ ⟨fun i j => of t (B i j)⟩ i j = of t z ↔
      z = A i j + B i j ∧ t.lo ≤ A i j + B i j ∧ A i j + B i j ≤ t.hi := by
  fin_cases i <;> fin_cases j <;> exact chk_iff

/-- An entry of the sum of two vectors is computed exactly when it fits, and is then exact. -/
theorem C94_add_V4 (t : IntTy) (v w : Vec 4 ℤ) (i : Fin 4) (z : ℤ) :
    V4.add ⟨fun i => of t (v i)⟩ ⟨fun i => of t (w i)⟩ i = of t z ↔ z = v i + w i ∧ t.lo ≤ v i + w i ∧ v i + w i ≤ t.hi := by
  fin_cases i <;> exact chk_iff

/-- An entry of the difference of two matrices is computed exactly when it fits, and is then exact. -/
theorem C94_sub_M44 (t : IntTy) (A B : Mat 4 ℤ) (i j : Fin 4) (z : ℤ) :
    M44.sub ⟨fun i j => of t (A i j)⟩ ⟨fun i j => of t (B i j)⟩ i j = of t z ↔
      z = A i j - B i j ∧ t.lo ≤ A i j - B i j ∧ A i j - B i j ≤ t.hi := by
  fin_cases i <;> fin_cases j <;> exact chk_iff

/-- An entry of the difference of two vectors is computed exactly when it fits, and is then exact. -/
theorem C94_sub_V4 (t : IntTy) (v w : Vec 4 ℤ) (i : Fin 4) (z : ℤ) :
    V4.sub ⟨fun i => of t (v i)⟩ ⟨fun i => of t (w i)⟩ i = of t z ↔ z = v i - w i ∧ t.lo ≤ v i - w i ∧ v i - w i ≤ t.hi := by
  fin_cases i <;> exact chk_iff

/-- A dot product that is returned is exact, and one whose positive and negative terms each fit is
returned. -/
theorem C94_dot_V4 (t : IntTy) (v w : Vec 4 ℤ) :
    (∀ z, V4.dot ⟨fun i => of t (v i)⟩ ⟨fun i => of t (w i)⟩ = of t z → z = ∑ k, v k * w k) ∧
    (∑ k, max (v k * w k) 0 ≤ t.hi → ∑ k, max (-(v k * w k)) 0 ≤ -t.lo →
      V4.dot ⟨fun i => of t (v i)⟩ ⟨fun i => of t (w i)⟩ = of t (∑ k, v k * w k)) :=
  ⟨orderedSum_exact (V4.dot_order _ _), orderedSum_ok (V4.dot_order _ _)⟩

/-- An entry of a matrix-vector product that is returned is exact, and one whose positive and negative terms each fit is
returned. -/
theorem C94_mulVec_M44 (t : IntTy) (A : Mat 4 ℤ) (v : Vec 4 ℤ) (i : Fin 4) :
    (∀ z, M44.mulVec ⟨fun i j => of t (A i j)⟩ ⟨fun i => of t (v i)⟩ i = of t z → z = ∑ k, A i k * v k) ∧
    (∑ k, max (A i k * v k) 0 ≤ t.hi → ∑ k, max (-(A i k * v k)) 0 ≤ -t.lo →
      M44.mulVec ⟨fun i j => of t (A i j)⟩ ⟨fun i => of t (v i)⟩ i = of t (∑ k, A i k * v k)) :=
  ⟨orderedSum_exact (M44.mulVec_order _ _ i), orderedSum_ok (M44.mulVec_order _ _ i)⟩

/-- An entry of a matrix product that is returned is exact, and one whose positive and negative terms each fit is
returned. -/
theorem C94_mul_M44 (t : IntTy) (A B : Mat 4 ℤ) (i j : Fin 4) :
    (∀ z, M44.mul ⟨fun i j => of t (A i j)⟩ ⟨fun i j => of t (B i j)⟩ i j = of t z → z = ∑ k, A i k * B k j) ∧
    (∑ k, max (A i k * B k j) 0 ≤ t.hi → ∑ k, max (-(A i k * B k j)) 0 ≤ -t.lo →
      M44.mul ⟨fun i j => of t (A i j)⟩ ⟨fun i j => of t (B i j)⟩ i j = of t (∑ k, A i k * B k j)) :=
  ⟨orderedSum_exact (M44.mul_order _ _ i j), orderedSum_ok (M44.mul_order _ _ i j)⟩

/-- A product that fits into `i8`, and one that does not although its exact value is zero. -/
example : V4.dot ⟨fun _ => of IntTy.i8 4⟩ ⟨fun _ => of IntTy.i8 (-5)⟩ = of IntTy.i8 (4 * (4 * -5)) ∧
    ∀ z, V4.dot ⟨fun _ => of IntTy.i8 100⟩ ⟨fun i => of IntTy.i8 (if i = 0 then 2 else if i = 1 then -2 else 0)⟩ ≠
      of IntTy.i8 z := by
  refine ⟨by decide, fun z h => ?_⟩
  have : (V4.dot ⟨fun _ => of IntTy.i8 100⟩
    ⟨fun i => of IntTy.i8 (if i = 0 then 2 else if i = 1 then -2 else 0)⟩).val = none := by decide
  rw [h] at this
  cases this

/-- An entry of the sum of two matrices is computed exactly when it fits, and is then exact. -/
theorem C94_add_M55 (t : IntTy) (A B : Mat 5 ℤ) (i j : Fin 5) (z : ℤ) :
    M55.add ⟨fun i j => of t (A i j)⟩ ⟨fun i j => of t (B i j)⟩ i j = of t z ↔
      z = A i j + B i j ∧ t.lo ≤ A i j + B i j ∧ A i j + B i j ≤ t.hi := by
  fin_cases i <;> fin_cases j <;> exact chk_iff

/-- An entry of the sum of two vectors is computed exactly when it fits, and is then exact. -/
theorem C94_add_V5 (t : IntTy) (v w : Vec 5 ℤ) (i : Fin 5) (z : ℤ) :
    V5.add ⟨fun i => of t (v i)⟩ ⟨fun i => of t (w i)⟩ i = of t z ↔ z = v i + w i ∧ t.lo ≤ v i + w i ∧ v i + w i ≤ t.hi := by
  fin_cases i <;> exact chk_iff

/-- An entry of the difference of two matrices is computed exactly when it fits, and is then exact. -/
theorem C94_sub_M55 (t : IntTy) (A B : Mat 5 ℤ) (i j : Fin 5) (z : ℤ) :
    M55.sub ⟨fun i j => of t (A i j)⟩ ⟨fun i j => of t (B i j)⟩ i j = of t z ↔
      z = A i j - B i j ∧ t.lo ≤ A i j - B i j ∧ A i j - B i j ≤ t.hi := by
  fin_cases i <;> fin_cases j <;> exact chk_iff

/-- An entry of the difference of two vectors is computed exactly when it fits, and is then exact. -/
theorem C94_sub_V5 (t : IntTy) (v w : Vec 5 ℤ) (i : Fin 5) (z : ℤ) :
    V5.sub ⟨fun i => of t (v i)⟩ ⟨fun i => of t (w i)⟩ i = of t z ↔ z = v i - w i ∧ t.lo ≤ v i - w i ∧ v i - w i ≤ t.hi := by
  fin_cases i <;> exact chk_iff

/-- A dot product that is returned is exact, and one whose positive and negative terms each fit is
returned. -/
theorem C94_dot_V5 (t : IntTy) (v w : Vec 5 ℤ) :
    (∀ z, V5.dot ⟨fun i => of t (v i)⟩ ⟨fun i => of t (w i)⟩ = of t z → z = ∑ k, v k * w k) ∧
    (∑ k, max (v k * w k) 0 ≤ t.hi → ∑ k, max (-(v k * w k)) 0 ≤ -t.lo →
      V5.dot ⟨fun i => of t (v i)⟩ ⟨fun i => of t (w i)⟩ = of t (∑ k, v k * w k)) :=
  ⟨orderedSum_exact (V5.dot_order _ _), orderedSum_ok (V5.dot_order _ _)⟩

/-- An entry of a matrix-vector product that is returned is exact, and one whose positive and negative terms each fit is
returned. -/
theorem C94_mulVec_M55 (t : IntTy) (A : Mat 5 ℤ) (v : Vec 5 ℤ) (i : Fin 5) :
    (∀ z, M55.mulVec ⟨fun i j => of t (A i j)⟩ ⟨fun i => of t (v i)⟩ i = of t z → z = ∑ k, A i k * v k) ∧
    (∑ k, max (A i k * v k) 0 ≤ t.hi → ∑ k, max (-(A i k * v k)) 0 ≤ -t.lo →
      M55.mulVec ⟨fun i j => of t (A i j)⟩ ⟨fun i => of t (v i)⟩ i = of t (∑ k, A i k * v k)) :=
  ⟨orderedSum_exact (M55.mulVec_order _ _ i), orderedSum_ok (M55.mulVec_order _ _ i)⟩

/-- An entry of a matrix product that is returned is exact, and one whose positive and negative terms each fit is
returned. -/
theorem C94_mul_M55 (t : IntTy) (A B : Mat 5 ℤ) (i j : Fin 5) :
    (∀ z, M55.mul ⟨fun i j => of t (A i j)⟩ ⟨fun i j => of t (B i j)⟩ i j = of t z → z = ∑ k, A i k * B k j) ∧
    (∑ k, max (A i k * B k j) 0 ≤ t.hi → ∑ k, max (-(A i k * B k j)) 0 ≤ -t.lo →
      M55.mul ⟨fun i j => of t (A i j)⟩ ⟨fun i j => of t (B i j)⟩ i j = of t (∑ k, A i k * B k j)) :=
  ⟨orderedSum_exact (M55.mul_order _ _ i j), orderedSum_ok (M55.mul_order _ _ i j)⟩

/-- A product that fits into `i8`, and one that does not although its exact value is zero. -/
example : V5.dot ⟨fun _ => of IntTy.i8 4⟩ ⟨fun _ => of IntTy.i8 (-5)⟩ = of IntTy.i8 (5 * (4 * -5)) ∧
    ∀ z, V5.dot ⟨fun _ => of IntTy.i8 100⟩ ⟨fun i => of IntTy.i8 (if i = 0 then 2 else if i = 1 then -2 else 0)⟩ ≠
      of IntTy.i8 z := by
  refine ⟨by decide, fun z h => ?_⟩
  have : (V5.dot ⟨fun _ => of IntTy.i8 100⟩
    ⟨fun i => of IntTy.i8 (if i = 0 then 2 else if i = 1 then -2 else 0)⟩).val = none := by decide
  rw [h] at this
  cases this

/-- An entry of the sum of two matrices is computed exactly when it fits, and is then exact. -/
theorem C94_add_M66 (t : IntTy) (A B : Mat 6 ℤ) (i j : Fin 6) (z : ℤ) :
    M66.add ⟨fun i j => of t (A i j)⟩ ⟨fun i j => of t (B i j)⟩ i j = of t z ↔
      z = A i j + B i j ∧ t.lo ≤ A i j + B i j ∧ A i j + B i j ≤ t.hi := by
  fin_cases i <;> fin_cases j <;> exact chk_iff

/-- An entry of the sum of two vectors is computed exactly when it fits, and is then exact. -/
theorem C94_add_V6 (t : IntTy) (v w : Vec 6 ℤ) (i : Fin 6) (z : ℤ) :
    V6.add ⟨fun i => of t (v i)⟩ ⟨fun i => of t (w i)⟩ i = of t z ↔ z = v i + w i ∧ t.lo ≤ v i + w i ∧ v i + w i ≤ t.hi := by
  fin_cases i <;> exact chk_iff

/-- An entry of the difference of two matrices is computed exactly when it fits, and is then exact. -/
theorem C94_sub_M66 (t : IntTy) (A B : Mat 6 ℤ) (i j : Fin 6) (z : ℤ) :
    M66.sub ⟨fun i j => of t (A i j)⟩ ⟨fun i j => of t (B i j)⟩ i j = of t z ↔
      z = A i j - B i j ∧ t.lo ≤ A i j - B i j ∧ A i j - B i j ≤ t.hi := by
  fin_cases i <;> fin_cases j <;> exact chk_iff

/-- An entry of the difference of two vectors is computed exactly when it fits, and is then exact. -/
theorem C94_sub_V6 (t : IntTy) (v w : Vec 6 ℤ) (i : Fin 6) (z : ℤ) :
    V6.sub ⟨fun i => of t (v i)⟩ ⟨fun i => of t (w i)⟩ i = of t z ↔ z = v i - w i ∧ t.lo ≤ v i - w i ∧ v i - w i ≤ t.hi := by
  fin_cases i <;> exact chk_iff

/-- A dot product that is returned is exact, and one whose positive and negative terms each fit is
returned. -/
theorem C94_dot_V6 (t : IntTy) (v w : Vec 6 ℤ) :
    (∀ z, V6.dot ⟨fun i => of t (v i)⟩ ⟨fun i => of t (w i)⟩ = of t z → z = ∑ k, v k * w k) ∧
    (∑ k, max (v k * w k) 0 ≤ t.hi → ∑ k, max (-(v k * w k)) 0 ≤ -t.lo →
      V6.dot ⟨fun i => of t (v i)⟩ ⟨fun i => of t (w i)⟩ = of t (∑ k, v k * w k)) :=
  ⟨orderedSum_exact (V6.dot_order _ _), orderedSum_ok (V6.dot_order _ _)⟩

/-- An entry of a matrix-vector product that is returned is exact, and one whose positive and negative terms each fit is
returned. -/
theorem C94_mulVec_M66 (t : IntTy) (A : Mat 6 ℤ) (v : Vec 6 ℤ) (i : Fin 6) :
    (∀ z, M66.mulVec ⟨fun i j => of t (A i j)⟩ ⟨fun i => of t (v i)⟩ i = of t z → z = ∑ k, A i k * v k) ∧
    (∑ k, max (A i k * v k) 0 ≤ t.hi → ∑ k, max (-(A i k * v k)) 0 ≤ -t.lo →
      M66.mulVec ⟨fun i j => of t (A i j)⟩ ⟨fun i => of t (v i)⟩ i = of t (∑ k, A i k * v k)) :=
  ⟨orderedSum_exact (M66.mulVec_order _ _ i), orderedSum_ok (M66.mulVec_order _ _ i)⟩

/-- An entry of a matrix product that is returned is exact, and one whose positive and negative terms each fit is
returned. -/
theorem C94_mul_M66 (t : IntTy) (A B : Mat 6 ℤ) (i j : Fin 6) :
    (∀ z, M66.mul ⟨fun i j => of t (A i j)⟩ ⟨fun i j => of t (B i j)⟩ i j = of t z → z = ∑ k, A i k * B k j) ∧
    (∑ k, max (A i k * B k j) 0 ≤ t.hi → ∑ k, max (-(A i k * B k j)) 0 ≤ -t.lo →
      M66.mul ⟨fun i j => of t (A i j)⟩ ⟨fun i j => of t (B i j)⟩ i j = of t (∑ k, A i k * B k j)) :=
  ⟨orderedSum_exact (M66.mul_order _ _ i j), orderedSum_ok (M66.mul_order _ _ i j)⟩

/-- A product that fits into `i8`, and one that does not although its exact value is zero. -/
example : V6.dot ⟨fun _ => of IntTy.i8 4⟩ ⟨fun _ => of IntTy.i8 (-5)⟩ = of IntTy.i8 (6 * (4 * -5)) ∧
    ∀ z, V6.dot ⟨fun _ => of IntTy.i8 100⟩ ⟨fun i => of IntTy.i8 (if i = 0 then 2 else if i = 1 then -2 else 0)⟩ ≠
      of IntTy.i8 z := by
  refine ⟨by decide, fun z h => ?_⟩
  have : (V6.dot ⟨fun _ => of IntTy.i8 100⟩
    ⟨fun i => of IntTy.i8 (if i = 0 then 2 else if i = 1 then -2 else 0)⟩).val = none := by decide
  rw [h] at this
  cases this

end StaticMath
