import Verif.Lemmas.NanExpr
import Verif.Lemmas.Perm
import Verif.Lemmas.InverseFree
import Verif.Lemmas.InvFlt
import Verif.Lemmas.Loop
import Verif.Props.Ieee
import Verif.Model.Quaternion
import Verif.Model.Examples

/-!
# C149: what becomes of a NaN

A NaN anywhere in the input of the arithmetic functions reaches the output: the exact set of output
entries is stated. The functions that lose it are listed at the end.
-/

namespace StaticMath
open Flt

private theorem div_nan (a : Flt f) : a / nan = nan := by cases a <;> rfl
private theorem nan_div (a : Flt f) : nan / a = nan := rfl

private def nL (n : ℕ) : Mat n (Ex (Fin n × Fin n ⊕ Fin n × Fin n)) := ⟨fun i j => .var (.inl (i, j))⟩
private def nR (n : ℕ) : Mat n (Ex (Fin n × Fin n ⊕ Fin n × Fin n)) := ⟨fun i j => .var (.inr (i, j))⟩
private def nM (n : ℕ) : Mat n (Ex (Fin n × Fin n ⊕ Fin n)) := ⟨fun i j => .var (.inl (i, j))⟩
private def nV (n : ℕ) : Vec n (Ex (Fin n × Fin n ⊕ Fin n)) := ⟨fun i => .var (.inr i)⟩
private def nA (n : ℕ) : Vec n (Ex (Fin n ⊕ Fin n)) := ⟨fun i => .var (.inl i)⟩
private def nB (n : ℕ) : Vec n (Ex (Fin n ⊕ Fin n)) := ⟨fun i => .var (.inr i)⟩

private theorem nz_nan [Libm f] : nearly_zero (nan : Flt f) = false := (C34_nearly_equal_nan 0 _).1

/-- A bound on the entries, NaN and infinities counting as zero. -/
private theorem exists_bound {n : ℕ} (A : Mat n (Flt f)) : ∃ b : ℝ, ∀ i j, |(A i j).toReal| ≤ b :=
  ⟨∑ i, ∑ j, |(A i j).toReal|, fun i j =>
    (Finset.single_le_sum (f := fun j => |(A i j).toReal|) (fun _ _ => abs_nonneg _) (Finset.mem_univ j)).trans
      (Finset.single_le_sum (f := fun i => ∑ j, |(A i j).toReal|)
        (fun _ _ => Finset.sum_nonneg fun _ _ => abs_nonneg _) (Finset.mem_univ i))⟩

/-! ## two by two -/

/-- A NaN entry makes the determinant NaN, whatever the other entries are. -/
theorem C149_det_M22 (A : Mat 2 (Flt f)) (i j : Fin 2) (h : A i j = nan) : M22.det A = nan :=
  Ex.evalF_nan (x := fun q : Fin 2 × Fin 2 => A q.1 q.2) (i := (i, j)) h (M22.det (Mat.vars 2))
    (by revert i j; intro i j _; clear * -; revert i j; decide +kernel)

/-- A NaN in a row of the left factor, or in a column of the right factor, makes the corresponding row or
column of the product NaN; a NaN component makes every product with a vector and every dot product NaN; a NaN on
the diagonal makes the trace NaN; a NaN anywhere makes the norm NaN. -/
theorem C149_products_M22 [Libm f] (A B : Mat 2 (Flt f)) (v w : Vec 2 (Flt f)) :
    (∀ i j k, (A i k = nan ∨ B k j = nan) → M22.mul A B i j = nan) ∧
    (∀ i j, (A i j = nan ∨ v j = nan) → M22.mulVec A v i = nan) ∧
    (∀ i j, (v i = nan ∨ A i j = nan) → V2.mulMat v A j = nan) ∧
    (∀ i, (v i = nan ∨ w i = nan) → V2.dot v w = nan) ∧
    (∀ i, A i i = nan → M22.trace A = nan) ∧
    (∀ i j, A i j = nan → M22.norm2 A = nan) ∧ (∀ i, v i = nan → V2.norm2 v = nan) := by
  refine ⟨fun i j k h => ?_, fun i j h => ?_, fun i j h => ?_, fun i h => ?_, fun i h => ?_, fun i j h => ?_, fun i h => ?_⟩
  · have e : (M22.mul (nL 2) (nR 2) i j).evalF
        (Sum.elim (fun q : Fin 2 × Fin 2 => A q.1 q.2) fun q => B q.1 q.2) = M22.mul A B i j := by
      clear h
      fin_cases i <;> fin_cases j <;> rfl
    rw [← e]
    rcases h with h | h
    · exact Ex.evalF_nan (i := Sum.inl (i, k)) h _ (by clear * -; revert i j k; decide +kernel)
    · exact Ex.evalF_nan (i := Sum.inr (k, j)) h _ (by clear * -; revert i j k; decide +kernel)
  · have e : (M22.mulVec (nM 2) (nV 2) i).evalF
        (Sum.elim (fun q : Fin 2 × Fin 2 => A q.1 q.2) fun q => v q) = M22.mulVec A v i := by
      clear h
      fin_cases i <;> rfl
    rw [← e]
    rcases h with h | h
    · exact Ex.evalF_nan (i := Sum.inl (i, j)) h _ (by clear * -; revert i j; decide +kernel)
    · exact Ex.evalF_nan (i := Sum.inr j) h _ (by clear * -; revert i j; decide +kernel)
  · have e : (V2.mulMat (nV 2) (nM 2) j).evalF
        (Sum.elim (fun q : Fin 2 × Fin 2 => A q.1 q.2) fun q => v q) = V2.mulMat v A j := by
      clear h
      fin_cases j <;> rfl
    rw [← e]
    rcases h with h | h
    · exact Ex.evalF_nan (i := Sum.inr i) h _ (by clear * -; revert i j; decide +kernel)
    · exact Ex.evalF_nan (i := Sum.inl (i, j)) h _ (by clear * -; revert i j; decide +kernel)
  · rcases h with h | h
    · exact Ex.evalF_nan (x := Sum.elim (fun q : Fin 2 => v q) fun q => w q) (i := Sum.inl i) h (V2.dot (nA 2) (nB 2))
        (by clear * -; revert i; decide +kernel)
    · exact Ex.evalF_nan (x := Sum.elim (fun q : Fin 2 => v q) fun q => w q) (i := Sum.inr i) h (V2.dot (nA 2) (nB 2))
        (by clear * -; revert i; decide +kernel)
  · exact Ex.evalF_nan (x := fun q : Fin 2 × Fin 2 => A q.1 q.2) (i := (i, i)) h (M22.trace (Mat.vars 2))
      (by clear * -; revert i; decide +kernel)
  · have e := Ex.evalF_nan (x := fun q : Fin 2 × Fin 2 => A q.1 q.2) (i := (i, j)) h
      ((fun X : Mat 2 (Ex (Fin 2 × Fin 2)) => X 0 0 * X 0 0 + X 0 1 * X 0 1 + X 1 0 * X 1 0 + X 1 1 * X 1 1) (Mat.vars 2))
      (by clear * -; revert i j; decide +kernel)
    exact congrArg Flt.sqrt e
  · have e := Ex.evalF_nan (x := fun q : Fin 2 => v q) (i := i) h
      ((fun X : Vec 2 (Ex (Fin 2)) => X 0 * X 0 + X 1 * X 1) ⟨fun i => .var i⟩)
      (by clear * -; revert i; decide +kernel)
    exact congrArg Flt.sqrt e

/-- `inverse()` of a matrix with a NaN entry is `Some` of a matrix all of whose entries are NaN, and `normalize()`
of a vector with a NaN component is `Ok` of a vector all of whose components are NaN. -/
theorem C149_inverse_M22 [Libm f] (A : Mat 2 (Flt f)) (v : Vec 2 (Flt f)) :
    ((∃ i j, A i j = nan) → ∃ B, M22.inverse A = .ok (some B) ∧ ∀ k l, B k l = nan) ∧
    ((∃ i, v i = nan) → ∃ w, V2.normalize v = .ok (.ok w) ∧ ∀ k, w k = nan) := by
  constructor
  · rintro ⟨i, j, h⟩
    have hd := C149_det_M22 A i j h
    rcases M22.inverse_cases A with ⟨h0, _⟩ | ⟨_, B, hB⟩
    · rw [hd, nz_nan] at h0
      cases h0
    · refine ⟨B, hB, fun k l => ?_⟩
      obtain ⟨b, hb⟩ := exists_bound A
      obtain ⟨C, hC, _⟩ := (M22.inv_flt A B hB b hb).2 k l
      rw [hC, hd, div_nan, mul_nan]
  · rintro ⟨i, h⟩
    have hn : V2.norm2 v = nan := (C149_products_M22 ⟨fun _ _ => 0⟩ ⟨fun _ _ => 0⟩ v v).2.2.2.2.2.2 i h
    refine ⟨⟨fun i => v i / V2.norm2 v⟩, ?_, fun k => ?_⟩
    · unfold V2.normalize
      rw [normalizeGen_eq, if_neg]
      rw [hn]
      exact Bool.false_ne_true
    · change v k / V2.norm2 v = nan
      rw [hn, div_nan]

/-! ## three by three -/

/-- A NaN entry makes the determinant NaN, whatever the other entries are. -/
theorem C149_det_M33 (A : Mat 3 (Flt f)) (i j : Fin 3) (h : A i j = nan) : M33.det A = nan :=
  Ex.evalF_nan (x := fun q : Fin 3 × Fin 3 => A q.1 q.2) (i := (i, j)) h (M33.det (Mat.vars 3))
    (by revert i j; intro i j _; clear * -; revert i j; decide +kernel)

/-- A NaN in a row of the left factor, or in a column of the right factor, makes the corresponding row or
column of the product NaN; a NaN component makes every product with a vector and every dot product NaN; a NaN on
the diagonal makes the trace NaN; a NaN anywhere makes the norm NaN. -/
theorem C149_products_M33 [Libm f] (A B : Mat 3 (Flt f)) (v w : Vec 3 (Flt f)) :
    (∀ i j k, (A i k = nan ∨ B k j = nan) → M33.mul A B i j = nan) ∧
    (∀ i j, (A i j = nan ∨ v j = nan) → M33.mulVec A v i = nan) ∧
    (∀ i j, (v i = nan ∨ A j i = nan) → V3.mulMat v A j = nan) ∧
    (∀ i, (v i = nan ∨ w i = nan) → V3.dot v w = nan) ∧
    (∀ i, A i i = nan → M33.trace A = nan) ∧
    (∀ i j, A i j = nan → M33.norm2 A = nan) ∧ (∀ i, v i = nan → V3.norm2 v = nan) := by
  refine ⟨fun i j k h => ?_, fun i j h => ?_, fun i j h => ?_, fun i h => ?_, fun i h => ?_, fun i j h => ?_, fun i h => ?_⟩
  · have e : (M33.mul (nL 3) (nR 3) i j).evalF
        (Sum.elim (fun q : Fin 3 × Fin 3 => A q.1 q.2) fun q => B q.1 q.2) = M33.mul A B i j := by
      clear h
      fin_cases i <;> fin_cases j <;> rfl
    rw [← e]
    rcases h with h | h
    · exact Ex.evalF_nan (i := Sum.inl (i, k)) h _ (by clear * -; revert i j k; decide +kernel)
    · exact Ex.evalF_nan (i := Sum.inr (k, j)) h _ (by clear * -; revert i j k; decide +kernel)
  · have e : (M33.mulVec (nM 3) (nV 3) i).evalF
        (Sum.elim (fun q : Fin 3 × Fin 3 => A q.1 q.2) fun q => v q) = M33.mulVec A v i := by
      clear h
      fin_cases i <;> rfl
    rw [← e]
    rcases h with h | h
    · exact Ex.evalF_nan (i := Sum.inl (i, j)) h _ (by clear * -; revert i j; decide +kernel)
    · exact Ex.evalF_nan (i := Sum.inr j) h _ (by clear * -; revert i j; decide +kernel)
  · have e : (V3.mulMat (nV 3) (nM 3) j).evalF
        (Sum.elim (fun q : Fin 3 × Fin 3 => A q.1 q.2) fun q => v q) = V3.mulMat v A j := by
      clear h
      fin_cases j <;> rfl
    rw [← e]
    rcases h with h | h
    · exact Ex.evalF_nan (i := Sum.inr i) h _ (by clear * -; revert i j; decide +kernel)
    · exact Ex.evalF_nan (i := Sum.inl (j, i)) h _ (by clear * -; revert i j; decide +kernel)
  · rcases h with h | h
    · exact Ex.evalF_nan (x := Sum.elim (fun q : Fin 3 => v q) fun q => w q) (i := Sum.inl i) h (V3.dot (nA 3) (nB 3))
        (by clear * -; revert i; decide +kernel)
    · exact Ex.evalF_nan (x := Sum.elim (fun q : Fin 3 => v q) fun q => w q) (i := Sum.inr i) h (V3.dot (nA 3) (nB 3))
        (by clear * -; revert i; decide +kernel)
  · exact Ex.evalF_nan (x := fun q : Fin 3 × Fin 3 => A q.1 q.2) (i := (i, i)) h (M33.trace (Mat.vars 3))
      (by clear * -; revert i; decide +kernel)
  · have e := Ex.evalF_nan (x := fun q : Fin 3 × Fin 3 => A q.1 q.2) (i := (i, j)) h
      ((fun X : Mat 3 (Ex (Fin 3 × Fin 3)) => X 0 0 * X 0 0 + X 1 0 * X 1 0 + X 2 0 * X 2 0 + X 0 1 * X 0 1 + X 1 1 * X 1 1 + X 2 1 * X 2 1 + X 0 2 * X 0 2 + X 1 2 * X 1 2 + X 2 2 * X 2 2) (Mat.vars 3))
      (by clear * -; revert i j; decide +kernel)
    exact congrArg Flt.sqrt e
  · have e := Ex.evalF_nan (x := fun q : Fin 3 => v q) (i := i) h
      ((fun X : Vec 3 (Ex (Fin 3)) => X 0 * X 0 + X 1 * X 1 + X 2 * X 2) ⟨fun i => .var i⟩)
      (by clear * -; revert i; decide +kernel)
    exact congrArg Flt.sqrt e

/-- `inverse()` of a matrix with a NaN entry is `Some` of a matrix all of whose entries are NaN, and `normalize()`
of a vector with a NaN component is `Ok` of a vector all of whose components are NaN. -/
theorem C149_inverse_M33 [Libm f] (A : Mat 3 (Flt f)) (v : Vec 3 (Flt f)) :
    ((∃ i j, A i j = nan) → ∃ B, M33.inverse A = .ok (some B) ∧ ∀ k l, B k l = nan) ∧
    ((∃ i, v i = nan) → ∃ w, V3.normalize v = .ok (.ok w) ∧ ∀ k, w k = nan) := by
  constructor
  · rintro ⟨i, j, h⟩
    have hd := C149_det_M33 A i j h
    rcases M33.inverse_cases A with ⟨h0, _⟩ | ⟨_, B, hB⟩
    · rw [hd, nz_nan] at h0
      cases h0
    · refine ⟨B, hB, fun k l => ?_⟩
      obtain ⟨b, hb⟩ := exists_bound A
      obtain ⟨C, hC, _⟩ := (M33.inv_flt A B hB b hb).2 k l
      rw [hC, hd, div_nan, mul_nan]
  · rintro ⟨i, h⟩
    have hn : V3.norm2 v = nan := (C149_products_M33 ⟨fun _ _ => 0⟩ ⟨fun _ _ => 0⟩ v v).2.2.2.2.2.2 i h
    refine ⟨⟨fun i => v i / V3.norm2 v⟩, ?_, fun k => ?_⟩
    · unfold V3.normalize
      rw [normalizeGen_eq, if_neg]
      rw [hn]
      exact Bool.false_ne_true
    · change v k / V3.norm2 v = nan
      rw [hn, div_nan]

/-! ## four by four -/

/-- A NaN entry makes the determinant NaN, whatever the other entries are. -/
theorem C149_det_M44 (A : Mat 4 (Flt f)) (i j : Fin 4) (h : A i j = nan) : M44.det A = nan :=
  Ex.evalF_nan (x := fun q : Fin 4 × Fin 4 => A q.1 q.2) (i := (i, j)) h (M44.det (Mat.vars 4))
    (by revert i j; intro i j _; clear * -; revert i j; decide +kernel)

/-- A NaN in a row of the left factor, or in a column of the right factor, makes the corresponding row or
column of the product NaN; a NaN component makes every product with a vector and every dot product NaN; a NaN on
the diagonal makes the trace NaN; a NaN anywhere makes the norm NaN. -/
theorem C149_products_M44 [Libm f] (A B : Mat 4 (Flt f)) (v w : Vec 4 (Flt f)) :
    (∀ i j k, (A i k = nan ∨ B k j = nan) → M44.mul A B i j = nan) ∧
    (∀ i j, (A i j = nan ∨ v j = nan) → M44.mulVec A v i = nan) ∧
    (∀ i j, (v i = nan ∨ A i j = nan) → V4.mulMat v A j = nan) ∧
    (∀ i, (v i = nan ∨ w i = nan) → V4.dot v w = nan) ∧
    (∀ i, A i i = nan → M44.trace A = nan) ∧
    (∀ i j, A i j = nan → M44.norm2 A = nan) ∧ (∀ i, v i = nan → V4.norm2 v = nan) := by
  refine ⟨fun i j k h => ?_, fun i j h => ?_, fun i j h => ?_, fun i h => ?_, fun i h => ?_, fun i j h => ?_, fun i h => ?_⟩
  · have e : (M44.mul (nL 4) (nR 4) i j).evalF
        (Sum.elim (fun q : Fin 4 × Fin 4 => A q.1 q.2) fun q => B q.1 q.2) = M44.mul A B i j := by
      clear h
      fin_cases i <;> fin_cases j <;> rfl
    rw [← e]
    rcases h with h | h
    · exact Ex.evalF_nan (i := Sum.inl (i, k)) h _ (by clear * -; revert i j k; decide +kernel)
    · exact Ex.evalF_nan (i := Sum.inr (k, j)) h _ (by clear * -; revert i j k; decide +kernel)
  · have e : (M44.mulVec (nM 4) (nV 4) i).evalF
        (Sum.elim (fun q : Fin 4 × Fin 4 => A q.1 q.2) fun q => v q) = M44.mulVec A v i := by
      clear h
      fin_cases i <;> rfl
    rw [← e]
    rcases h with h | h
    · exact Ex.evalF_nan (i := Sum.inl (i, j)) h _ (by clear * -; revert i j; decide +kernel)
    · exact Ex.evalF_nan (i := Sum.inr j) h _ (by clear * -; revert i j; decide +kernel)
  · have e : (V4.mulMat (nV 4) (nM 4) j).evalF
        (Sum.elim (fun q : Fin 4 × Fin 4 => A q.1 q.2) fun q => v q) = V4.mulMat v A j := by
      clear h
      fin_cases j <;> rfl
    rw [← e]
    rcases h with h | h
    · exact Ex.evalF_nan (i := Sum.inr i) h _ (by clear * -; revert i j; decide +kernel)
    · exact Ex.evalF_nan (i := Sum.inl (i, j)) h _ (by clear * -; revert i j; decide +kernel)
  · rcases h with h | h
    · exact Ex.evalF_nan (x := Sum.elim (fun q : Fin 4 => v q) fun q => w q) (i := Sum.inl i) h (V4.dot (nA 4) (nB 4))
        (by clear * -; revert i; decide +kernel)
    · exact Ex.evalF_nan (x := Sum.elim (fun q : Fin 4 => v q) fun q => w q) (i := Sum.inr i) h (V4.dot (nA 4) (nB 4))
        (by clear * -; revert i; decide +kernel)
  · exact Ex.evalF_nan (x := fun q : Fin 4 × Fin 4 => A q.1 q.2) (i := (i, i)) h (M44.trace (Mat.vars 4))
      (by clear * -; revert i; decide +kernel)
  · have e := Ex.evalF_nan (x := fun q : Fin 4 × Fin 4 => A q.1 q.2) (i := (i, j)) h
      ((fun X : Mat 4 (Ex (Fin 4 × Fin 4)) => X 0 0 * X 0 0 + X 0 1 * X 0 1 + X 0 2 * X 0 2 + X 0 3 * X 0 3 + X 1 0 * X 1 0 + X 1 1 * X 1 1 + X 1 2 * X 1 2 + X 1 3 * X 1 3 + X 2 0 * X 2 0 + X 2 1 * X 2 1 + X 2 2 * X 2 2 + X 2 3 * X 2 3 + X 3 0 * X 3 0 + X 3 1 * X 3 1 + X 3 2 * X 3 2 + X 3 3 * X 3 3) (Mat.vars 4))
      (by clear * -; revert i j; decide +kernel)
    exact congrArg Flt.sqrt e
  · have e := Ex.evalF_nan (x := fun q : Fin 4 => v q) (i := i) h
      ((fun X : Vec 4 (Ex (Fin 4)) => X 0 * X 0 + X 1 * X 1 + X 2 * X 2 + X 3 * X 3) ⟨fun i => .var i⟩)
      (by clear * -; revert i; decide +kernel)
    exact congrArg Flt.sqrt e

/-- `inverse()` of a matrix with a NaN entry is `Some` of a matrix all of whose entries are NaN, and `normalize()`
of a vector with a NaN component is `Ok` of a vector all of whose components are NaN. -/
theorem C149_inverse_M44 [Libm f] (A : Mat 4 (Flt f)) (v : Vec 4 (Flt f)) :
    ((∃ i j, A i j = nan) → ∃ B, M44.inverse A = .ok (some B) ∧ ∀ k l, B k l = nan) ∧
    ((∃ i, v i = nan) → ∃ w, V4.normalize v = .ok (.ok w) ∧ ∀ k, w k = nan) := by
  constructor
  · rintro ⟨i, j, h⟩
    have hd := C149_det_M44 A i j h
    rcases M44.inverse_cases A with ⟨h0, _⟩ | ⟨_, B, hB⟩
    · rw [hd, nz_nan] at h0
      cases h0
    · refine ⟨B, hB, fun k l => ?_⟩
      obtain ⟨b, hb⟩ := exists_bound A
      obtain ⟨C, hC, _⟩ := (M44.inv_flt A B hB b hb).2 k l
      rw [hC, hd, div_nan, mul_nan]
  · rintro ⟨i, h⟩
    have hn : V4.norm2 v = nan := (C149_products_M44 ⟨fun _ _ => 0⟩ ⟨fun _ _ => 0⟩ v v).2.2.2.2.2.2 i h
    refine ⟨⟨fun i => v i / V4.norm2 v⟩, ?_, fun k => ?_⟩
    · unfold V4.normalize
      rw [normalizeGen_eq, if_neg]
      rw [hn]
      exact Bool.false_ne_true
    · change v k / V4.norm2 v = nan
      rw [hn, div_nan]

/-! ## five by five -/

set_option maxRecDepth 20000 in
/-- A NaN entry makes the determinant NaN, whatever the other entries are. -/
theorem C149_det_M55 (A : Mat 5 (Flt f)) (i j : Fin 5) (h : A i j = nan) : M55.det A = nan :=
  Ex.evalF_nan (x := fun q : Fin 5 × Fin 5 => A q.1 q.2) (i := (i, j)) h (M55.det (Mat.vars 5))
    (by revert i j; intro i j _; clear * -; revert i j; decide +kernel)

set_option maxRecDepth 20000 in
/-- A NaN in a row of the left factor, or in a column of the right factor, makes the corresponding row or
column of the product NaN; a NaN component makes every product with a vector and every dot product NaN; a NaN on
the diagonal makes the trace NaN; a NaN anywhere makes the norm NaN. -/
theorem C149_products_M55 [Libm f] (A B : Mat 5 (Flt f)) (v w : Vec 5 (Flt f)) :
    (∀ i j k, (A i k = nan ∨ B k j = nan) → M55.mul A B i j = nan) ∧
    (∀ i j, (A i j = nan ∨ v j = nan) → M55.mulVec A v i = nan) ∧
    (∀ i j, (v i = nan ∨ A i j = nan) → V5.mulMat v A j = nan) ∧
    (∀ i, (v i = nan ∨ w i = nan) → V5.dot v w = nan) ∧
    (∀ i, A i i = nan → M55.trace A = nan) ∧
    (∀ i j, A i j = nan → M55.norm2 A = nan) ∧ (∀ i, v i = nan → V5.norm2 v = nan) := by
  refine ⟨fun i j k h => ?_, fun i j h => ?_, fun i j h => ?_, fun i h => ?_, fun i h => ?_, fun i j h => ?_, fun i h => ?_⟩
  · have e : (M55.mul (nL 5) (nR 5) i j).evalF
        (Sum.elim (fun q : Fin 5 × Fin 5 => A q.1 q.2) fun q => B q.1 q.2) = M55.mul A B i j := by
      clear h
      fin_cases i <;> fin_cases j <;> rfl
    rw [← e]
    rcases h with h | h
    · exact Ex.evalF_nan (i := Sum.inl (i, k)) h _ (by clear * -; revert i j k; decide +kernel)
    · exact Ex.evalF_nan (i := Sum.inr (k, j)) h _ (by clear * -; revert i j k; decide +kernel)
  · have e : (M55.mulVec (nM 5) (nV 5) i).evalF
        (Sum.elim (fun q : Fin 5 × Fin 5 => A q.1 q.2) fun q => v q) = M55.mulVec A v i := by
      clear h
      fin_cases i <;> rfl
    rw [← e]
    rcases h with h | h
    · exact Ex.evalF_nan (i := Sum.inl (i, j)) h _ (by clear * -; revert i j; decide +kernel)
    · exact Ex.evalF_nan (i := Sum.inr j) h _ (by clear * -; revert i j; decide +kernel)
  · have e : (V5.mulMat (nV 5) (nM 5) j).evalF
        (Sum.elim (fun q : Fin 5 × Fin 5 => A q.1 q.2) fun q => v q) = V5.mulMat v A j := by
      clear h
      fin_cases j <;> rfl
    rw [← e]
    rcases h with h | h
    · exact Ex.evalF_nan (i := Sum.inr i) h _ (by clear * -; revert i j; decide +kernel)
    · exact Ex.evalF_nan (i := Sum.inl (i, j)) h _ (by clear * -; revert i j; decide +kernel)
  · rcases h with h | h
    · exact Ex.evalF_nan (x := Sum.elim (fun q : Fin 5 => v q) fun q => w q) (i := Sum.inl i) h (V5.dot (nA 5) (nB 5))
        (by clear * -; revert i; decide +kernel)
    · exact Ex.evalF_nan (x := Sum.elim (fun q : Fin 5 => v q) fun q => w q) (i := Sum.inr i) h (V5.dot (nA 5) (nB 5))
        (by clear * -; revert i; decide +kernel)
  · exact Ex.evalF_nan (x := fun q : Fin 5 × Fin 5 => A q.1 q.2) (i := (i, i)) h (M55.trace (Mat.vars 5))
      (by clear * -; revert i; decide +kernel)
  · have e := Ex.evalF_nan (x := fun q : Fin 5 × Fin 5 => A q.1 q.2) (i := (i, j)) h
      ((fun X : Mat 5 (Ex (Fin 5 × Fin 5)) => iterSum (X.toSlice.map fun e => e * e)) (Mat.vars 5))
      (by clear * -; revert i j; decide +kernel)
    exact congrArg Flt.sqrt e
  · have e := Ex.evalF_nan (x := fun q : Fin 5 => v q) (i := i) h
      ((fun X : Vec 5 (Ex (Fin 5)) => X 0 * X 0 + X 1 * X 1 + X 2 * X 2 + X 3 * X 3 + X 4 * X 4) ⟨fun i => .var i⟩)
      (by clear * -; revert i; decide +kernel)
    exact congrArg Flt.sqrt e

/-- `inverse()` of a matrix with a NaN entry is `Some` of a matrix all of whose entries are NaN, and `normalize()`
of a vector with a NaN component is `Ok` of a vector all of whose components are NaN. -/
theorem C149_inverse_M55 [Libm f] (A : Mat 5 (Flt f)) (v : Vec 5 (Flt f)) :
    ((∃ i j, A i j = nan) → ∃ B, M55.inverse A = .ok (some B) ∧ ∀ k l, B k l = nan) ∧
    ((∃ i, v i = nan) → ∃ w, V5.normalize v = .ok (.ok w) ∧ ∀ k, w k = nan) := by
  constructor
  · rintro ⟨i, j, h⟩
    have hd := C149_det_M55 A i j h
    rcases M55.inverse_cases A with ⟨h0, _⟩ | ⟨_, B, hB⟩
    · rw [hd, nz_nan] at h0
      cases h0
    · refine ⟨B, hB, fun k l => ?_⟩
      obtain ⟨b, hb⟩ := exists_bound A
      obtain ⟨C, hC, _⟩ := (M55.inv_flt A B hB b hb).2 k l
      rw [hC, hd, div_nan]
  · rintro ⟨i, h⟩
    have hn : V5.norm2 v = nan := (C149_products_M55 ⟨fun _ _ => 0⟩ ⟨fun _ _ => 0⟩ v v).2.2.2.2.2.2 i h
    refine ⟨⟨fun i => v i / V5.norm2 v⟩, ?_, fun k => ?_⟩
    · unfold V5.normalize
      rw [normalizeGen_eq, if_neg]
      rw [hn]
      exact Bool.false_ne_true
    · change v k / V5.norm2 v = nan
      rw [hn, div_nan]

/-! ## six by six -/

set_option maxRecDepth 20000 in
/-- A NaN entry makes the determinant NaN, whatever the other entries are. -/
theorem C149_det_M66 (A : Mat 6 (Flt f)) (i j : Fin 6) (h : A i j = nan) : M66.det A = nan :=
  Ex.evalF_nan (x := fun q : Fin 6 × Fin 6 => A q.1 q.2) (i := (i, j)) h (M66.det (Mat.vars 6))
    (by revert i j; intro i j _; clear * -; revert i j; decide +kernel)

set_option maxRecDepth 20000 in
/-- A NaN in a row of the left factor, or in a column of the right factor, makes the corresponding row or
column of the product NaN; a NaN component makes every product with a vector and every dot product NaN; a NaN on
the diagonal makes the trace NaN; a NaN anywhere makes the norm NaN. -/
theorem C149_products_M66 [Libm f] (A B : Mat 6 (Flt f)) (v w : Vec 6 (Flt f)) :
    (∀ i j k, (A i k = nan ∨ B k j = nan) → M66.mul A B i j = nan) ∧
    (∀ i j, (A i j = nan ∨ v j = nan) → M66.mulVec A v i = nan) ∧
    (∀ i j, (v i = nan ∨ A i j = nan) → V6.mulMat v A j = nan) ∧
    (∀ i, (v i = nan ∨ w i = nan) → V6.dot v w = nan) ∧
    (∀ i, A i i = nan → M66.trace A = nan) ∧
    (∀ i j, A i j = nan → M66.norm2 A = nan) ∧ (∀ i, v i = nan → V6.norm2 v = nan) := by
  refine ⟨fun i j k h => ?_, fun i j h => ?_, fun i j h => ?_, fun i h => ?_, fun i h => ?_, fun i j h => ?_, fun i h => ?_⟩
  · have e : (M66.mul (nL 6) (nR 6) i j).evalF
        (Sum.elim (fun q : Fin 6 × Fin 6 => A q.1 q.2) fun q => B q.1 q.2) = M66.mul A B i j := by
      clear h
      fin_cases i <;> fin_cases j <;> rfl
    rw [← e]
    rcases h with h | h
    · exact Ex.evalF_nan (i := Sum.inl (i, k)) h _ (by clear * -; revert i j k; decide +kernel)
    · exact Ex.evalF_nan (i := Sum.inr (k, j)) h _ (by clear * -; revert i j k; decide +kernel)
  · have e : (M66.mulVec (nM 6) (nV 6) i).evalF
        (Sum.elim (fun q : Fin 6 × Fin 6 => A q.1 q.2) fun q => v q) = M66.mulVec A v i := by
      clear h
      fin_cases i <;> rfl
    rw [← e]
    rcases h with h | h
    · exact Ex.evalF_nan (i := Sum.inl (i, j)) h _ (by clear * -; revert i j; decide +kernel)
    · exact Ex.evalF_nan (i := Sum.inr j) h _ (by clear * -; revert i j; decide +kernel)
  · have e : (V6.mulMat (nV 6) (nM 6) j).evalF
        (Sum.elim (fun q : Fin 6 × Fin 6 => A q.1 q.2) fun q => v q) = V6.mulMat v A j := by
      clear h
      fin_cases j <;> rfl
    rw [← e]
    rcases h with h | h
    · exact Ex.evalF_nan (i := Sum.inr i) h _ (by clear * -; revert i j; decide +kernel)
    · exact Ex.evalF_nan (i := Sum.inl (i, j)) h _ (by clear * -; revert i j; decide +kernel)
  · rcases h with h | h
    · exact Ex.evalF_nan (x := Sum.elim (fun q : Fin 6 => v q) fun q => w q) (i := Sum.inl i) h (V6.dot (nA 6) (nB 6))
        (by clear * -; revert i; decide +kernel)
    · exact Ex.evalF_nan (x := Sum.elim (fun q : Fin 6 => v q) fun q => w q) (i := Sum.inr i) h (V6.dot (nA 6) (nB 6))
        (by clear * -; revert i; decide +kernel)
  · exact Ex.evalF_nan (x := fun q : Fin 6 × Fin 6 => A q.1 q.2) (i := (i, i)) h (M66.trace (Mat.vars 6))
      (by clear * -; revert i; decide +kernel)
  · have e := Ex.evalF_nan (x := fun q : Fin 6 × Fin 6 => A q.1 q.2) (i := (i, j)) h
      ((fun X : Mat 6 (Ex (Fin 6 × Fin 6)) => iterSum (X.toSlice.map fun e => e * e)) (Mat.vars 6))
      (by clear * -; revert i j; decide +kernel)
    exact congrArg Flt.sqrt e
  · have e := Ex.evalF_nan (x := fun q : Fin 6 => v q) (i := i) h
      ((fun X : Vec 6 (Ex (Fin 6)) => X 0 * X 0 + X 1 * X 1 + X 2 * X 2 + X 3 * X 3 + X 4 * X 4 + X 5 * X 5) ⟨fun i => .var i⟩)
      (by clear * -; revert i; decide +kernel)
    exact congrArg Flt.sqrt e

/-- `inverse()` of a matrix with a NaN entry is `Some` of a matrix all of whose entries are NaN, and `normalize()`
of a vector with a NaN component is `Ok` of a vector all of whose components are NaN. -/
theorem C149_inverse_M66 [Libm f] (A : Mat 6 (Flt f)) (v : Vec 6 (Flt f)) :
    ((∃ i j, A i j = nan) → ∃ B, M66.inverse A = .ok (some B) ∧ ∀ k l, B k l = nan) ∧
    ((∃ i, v i = nan) → ∃ w, V6.normalize v = .ok (.ok w) ∧ ∀ k, w k = nan) := by
  constructor
  · rintro ⟨i, j, h⟩
    have hd := C149_det_M66 A i j h
    rcases M66.inverse_cases A with ⟨h0, _⟩ | ⟨_, B, hB⟩
    · rw [hd, nz_nan] at h0
      cases h0
    · refine ⟨B, hB, fun k l => ?_⟩
      obtain ⟨b, hb⟩ := exists_bound A
      obtain ⟨C, hC, _⟩ := (M66.inv_flt A B hB b hb).2 k l
      rw [hC, hd, div_nan, mul_nan]
  · rintro ⟨i, h⟩
    have hn : V6.norm2 v = nan := (C149_products_M66 ⟨fun _ _ => 0⟩ ⟨fun _ _ => 0⟩ v v).2.2.2.2.2.2 i h
    refine ⟨⟨fun i => v i / V6.norm2 v⟩, ?_, fun k => ?_⟩
    · unfold V6.normalize
      rw [normalizeGen_eq, if_neg]
      rw [hn]
      exact Bool.false_ne_true
    · change v k / V6.norm2 v = nan
      rw [hn, div_nan]

/-! ## linear systems -/

/-- The example program that solves a linear system answers with NaNs only, when the matrix contains one. -/
theorem C149_solve [Libm f] (A : Mat 6 (Flt f)) (b : Vec 6 (Flt f)) (i j : Fin 6) (h : A i j = nan) :
    ∃ x r, Examples.solve_linear_system A b = .ok (some (x, r)) ∧ ∀ k, x k = nan := by
  obtain ⟨B, hB, hn⟩ := (C149_inverse_M66 A b).1 ⟨i, j, h⟩
  refine ⟨M66.mulVec B b, M66.mulVec A (M66.mulVec B b), ?_, fun k => ?_⟩
  · unfold Examples.solve_linear_system
    rw [hB]
    rfl
  · exact (C149_products_M66 B B b b).2.1 k 0 (Or.inl (hn _ _))

/-! ## quaternions -/

private def nQ : Quat (Ex (Fin 4 ⊕ Fin 4)) := ⟨.var (.inl 0), ⟨fun i => .var (.inl i.succ)⟩, false⟩
private def nP : Quat (Ex (Fin 4 ⊕ Fin 4)) := ⟨.var (.inr 0), ⟨fun i => .var (.inr i.succ)⟩, false⟩
private def nW : Vec 3 (Ex (Fin 4 ⊕ Fin 4)) := ⟨fun i => .var (.inr i.succ)⟩

/-- The components of a quaternion. -/
private def cp (q : Quat (Flt f)) : Fin 4 → Flt f := Fin.cons q.q0 q.q.val

private theorem cp_nan {q : Quat (Flt f)} (h : q.q0 = nan ∨ ∃ i, q.q i = nan) : ∃ i, cp q i = nan := by
  rcases h with h | ⟨i, h⟩
  · exact ⟨0, h⟩
  · exact ⟨i.succ, h⟩

/-- A NaN component in either factor makes all four components of the product NaN. -/
theorem C149_quat_mul (p q : Quat (Flt f))
    (h : (p.q0 = nan ∨ ∃ i, p.q i = nan) ∨ q.q0 = nan ∨ ∃ i, q.q i = nan) :
    (p.mul q).q0 = nan ∧ ∀ i, (p.mul q).q i = nan := by
  have key : ∃ s, Sum.elim (cp p) (cp q) s = nan := by
    rcases h with h | h
    · obtain ⟨i, h⟩ := cp_nan h
      exact ⟨.inl i, h⟩
    · obtain ⟨i, h⟩ := cp_nan h
      exact ⟨.inr i, h⟩
  obtain ⟨s, hs⟩ := key
  refine ⟨Ex.evalF_nan hs (nQ.mul nP).q0 (by clear * -; revert s; decide +kernel), fun i => ?_⟩
  have e : ((nQ.mul nP).q i).evalF (Sum.elim (cp p) (cp q)) = (p.mul q).q i := by
    fin_cases i <;> rfl
  rw [← e]
  exact Ex.evalF_nan hs _ (by clear * -; revert s i; decide +kernel)

/-- A NaN component makes the norm, the squared norm and every dot product NaN, all nine entries of the
rotation matrix and all components of any rotated vector; a quaternion that does not carry the normalisation
flag is "normalised" and "inverted" to four NaNs. -/
theorem C149_quat [Libm f] (q : Quat (Flt f)) (h : q.q0 = nan ∨ ∃ i, q.q i = nan) :
    q.norm2 = nan ∧ q.abs2 = nan ∧ (∀ r, q.dot r = nan ∧ r.dot q = nan) ∧
    (∀ i j, q.to_rotation i j = nan) ∧ (∀ v i, q.mulVec v i = nan) ∧
    (q.normalized = false → (∃ r, q.normalize = some r ∧ r.q0 = nan ∧ ∀ i, r.q i = nan) ∧
      ∃ r, q.inverse = some r ∧ r.q0 = nan ∧ ∀ i, r.q i = nan) := by
  obtain ⟨s, hs⟩ := cp_nan h
  have dl (r : Quat (Flt f)) : q.dot r = nan :=
    Ex.evalF_nan (x := Sum.elim (cp q) (cp r)) (i := Sum.inl s) (by exact hs) (nQ.dot nP) (by clear * -; revert s; decide +kernel)
  have dr (r : Quat (Flt f)) : r.dot q = nan :=
    Ex.evalF_nan (x := Sum.elim (cp r) (cp q)) (i := Sum.inr s) (by exact hs) (nQ.dot nP) (by clear * -; revert s; decide +kernel)
  have hn : q.norm2 = nan := congrArg Flt.sqrt (dl q)
  have ha : q.abs2 = nan :=
    Ex.evalF_nan (x := Sum.elim (cp q) (cp q)) (i := Sum.inl s) (by exact hs) nQ.abs2 (by clear * -; revert s; decide +kernel)
  refine ⟨hn, ha, fun r => ⟨dl r, dr r⟩, fun i j => ?_, fun v i => ?_, fun hf => ⟨⟨{ q.sdiv q.norm2 with normalized := true }, ?_, ?_, fun i => ?_⟩,
    q.conj.sdiv q.abs2, ?_, ?_, fun i => ?_⟩⟩
  · have e : (nQ.to_rotation i j).evalF (Sum.elim (cp q) (cp q)) = q.to_rotation i j := by
      fin_cases i <;> fin_cases j <;> rfl
    rw [← e]
    exact Ex.evalF_nan (i := .inl s) hs _ (by clear * -; revert s i j; decide +kernel)
  · have e : (nQ.mulVec nW i).evalF (Sum.elim (cp q) (cp ⟨0, v, false⟩)) = q.mulVec v i := by
      fin_cases i <;> rfl
    rw [← e]
    exact Ex.evalF_nan (i := .inl s) hs _ (by clear * -; revert s i; decide +kernel)
  · unfold Quat.normalize
    rw [hf, if_neg Bool.false_ne_true]
    simp only [hn, nz_nan, Bool.not_false, if_true]
  · change q.q0 / q.norm2 = nan
    rw [hn, div_nan]
  · fin_cases i <;> (change _ / q.norm2 = nan; rw [hn, div_nan])
  · unfold Quat.inverse
    rw [hf]
    simp only [ha, nz_nan, Bool.not_false, if_true]
  · change q.q0 / q.abs2 = nan
    rw [ha, div_nan]
  · fin_cases i <;> (change _ / q.abs2 = nan; rw [ha, div_nan])

/-- A NaN component of a vector makes all components of the rotated vector NaN. -/
theorem C149_quat_mulVec (q : Quat (Flt f)) (v : Vec 3 (Flt f)) (j : Fin 3) (h : v j = nan) (i : Fin 3) :
    q.mulVec v i = nan := by
  have e : (nQ.mulVec nW i).evalF (Sum.elim (cp q) (cp ⟨0, v, false⟩)) = q.mulVec v i := by
    fin_cases i <;> rfl
  rw [← e]
  exact Ex.evalF_nan (i := .inr j.succ) h _ (by clear * -; revert j i; decide +kernel)

/-- Dual quaternions: a NaN in a real part of a factor makes both parts of the product NaN, a NaN in a dual
part makes the dual part NaN and does not touch the real part. -/
theorem C149_dual_mul (p q : DQuat (Flt f)) :
    (((p.q_real.q0 = nan ∨ ∃ i, p.q_real.q i = nan) ∨ q.q_real.q0 = nan ∨ ∃ i, q.q_real.q i = nan) →
      (p.mul q).q_real.q0 = nan ∧ (∀ i, (p.mul q).q_real.q i = nan) ∧
      (p.mul q).q_dual.q0 = nan ∧ ∀ i, (p.mul q).q_dual.q i = nan) ∧
    (((p.q_dual.q0 = nan ∨ ∃ i, p.q_dual.q i = nan) ∨ q.q_dual.q0 = nan ∨ ∃ i, q.q_dual.q i = nan) →
      (p.mul q).q_real = p.q_real.mul q.q_real ∧ (p.mul q).q_dual.q0 = nan ∧ ∀ i, (p.mul q).q_dual.q i = nan) := by
  have add0 (a b : Quat (Flt f)) (h : (a.q0 = nan ∧ ∀ i, a.q i = nan) ∨ (b.q0 = nan ∧ ∀ i, b.q i = nan)) :
      (a.add b).q0 = nan ∧ ∀ i, (a.add b).q i = nan := by
    rcases h with ⟨h0, h1⟩ | ⟨h0, h1⟩
    · refine ⟨by change a.q0 + b.q0 = nan; rw [h0]; rfl, fun i => ?_⟩
      fin_cases i
      · change a.q 0 + b.q 0 = nan; rw [h1]; rfl
      · change a.q 1 + b.q 1 = nan; rw [h1]; rfl
      · change a.q 2 + b.q 2 = nan; rw [h1]; rfl
    · refine ⟨by change a.q0 + b.q0 = nan; rw [h0, add_nan], fun i => ?_⟩
      fin_cases i
      · change a.q 0 + b.q 0 = nan; rw [h1, add_nan]
      · change a.q 1 + b.q 1 = nan; rw [h1, add_nan]
      · change a.q 2 + b.q 2 = nan; rw [h1, add_nan]
  refine ⟨fun h => ?_, fun h => ⟨rfl, ?_⟩⟩
  · obtain ⟨a, b⟩ := C149_quat_mul p.q_real q.q_real h
    refine ⟨a, b, ?_⟩
    rcases h with h | h
    · exact add0 _ _ (Or.inl (C149_quat_mul _ _ (Or.inl h)))
    · exact add0 _ _ (Or.inr (C149_quat_mul _ _ (Or.inr h)))
  · rcases h with h | h
    · exact add0 _ _ (Or.inr (C149_quat_mul _ _ (Or.inl h)))
    · exact add0 _ _ (Or.inl (C149_quat_mul _ _ (Or.inr h)))

/-! ## functions that lose a NaN -/

private theorem lt_nan (a : Flt f) : ROrd.lt a nan = false := by cases a <;> rfl

/-- Where a NaN does not come out as a NaN: `normalize_q` answers with the `x` axis marked as normalised,
`distance_to_manifold` with `+∞`, the two rotation tests with `false`; `matrix_exponential` answers with the
identity whenever the three entries it reads are small, `matrix_log` with the zero matrix whenever
`(trace - 1)/2` is at least one, whatever the other entries are. -/
theorem C149_lost [Libm f] :
    (∀ q : Quat (Flt f), (q.q0 = nan ∨ ∃ i, q.q i = nan) → q.normalize_q = ⟨0, ⟨![1, 0, 0]⟩, true⟩) ∧
    (∀ m : Mat 3 (Flt f), (∃ i j, m i j = nan) → distance_to_manifold m = inf false ∧ is_rotation m = false) ∧
    (∀ m : Mat 4 (Flt f), (∃ i j, m i j = nan) → is_rotation_h m = false) ∧
    (∀ m : Mat 3 (Flt f), nearly_zero (V3.norm2 ⟨![m 2 1, m 0 2, m 1 0]⟩) = true → matrix_exponential m = .ok M33.one) ∧
    (∀ m : Mat 3 (Flt f), ROrd.le 1 ((M33.trace m - 1) / (1 + 1)) = true → matrix_log m = M33.zero) := by
  refine ⟨fun q h => ?_, ?_, ?_, fun m h => ?_, fun m h => ?_⟩
  · unfold Quat.normalize_q
    simp only [((C149_quat q h).2.2.1 q).1, lt_nan]
    rfl
  · rintro m ⟨i, j, h⟩
    have hd := C149_det_M33 m i j h
    constructor
    · unfold distance_to_manifold
      rw [hd, lt_nan]
      rfl
    · unfold is_rotation
      simp only [hd, (C34_nearly_equal_nan _ _).1, Bool.false_and]
  · rintro m ⟨i, j, h⟩
    have hd := C149_det_M44 m i j h
    unfold is_rotation_h
    simp only [hd, (C34_nearly_equal_nan _ _).1, Bool.false_and]
  · unfold matrix_exponential
    have e : skew_to_vec m = ⟨![m 2 1, m 0 2, m 1 0]⟩ := rfl
    simp only [e, h, if_true]
    rfl
  · unfold matrix_log
    simp only [h, if_true]

/-! ## concrete cases -/

@[reducible] private noncomputable def anyLibm (f : Fmt) : Libm f :=
  ⟨id, id, id, id, id, id, fun a _ => a, 1, 1, 1, 1, 1⟩

/-- One NaN in the corner of a `6x6` matrix of zeros: the determinant, every entry of the inverse. -/
example : let _ := anyLibm Fmt.f64
    let A : Mat 6 (Flt Fmt.f64) := ⟨fun i j => if i = 5 ∧ j = 5 then nan else 0⟩
    M66.det A = nan ∧ ∃ B, M66.inverse A = .ok (some B) ∧ ∀ k l, B k l = nan := by
  intro _ A
  exact ⟨C149_det_M66 A 5 5 rfl, (C149_inverse_M66 A ⟨fun _ => 0⟩).1 ⟨5, 5, rfl⟩⟩

/-- A vector with one NaN; a quaternion with one NaN, not flagged, times the identity. -/
example : let _ := anyLibm Fmt.f32
    (∃ w, V3.normalize (⟨![1, nan, 0]⟩ : Vec 3 (Flt Fmt.f32)) = .ok (.ok w) ∧ ∀ k, w k = nan) ∧
    ((⟨1, ⟨![0, 0, nan]⟩, false⟩ : Quat (Flt Fmt.f32)).mul Quat.one).q0 = nan ∧
    (⟨1, ⟨![0, 0, nan]⟩, false⟩ : Quat (Flt Fmt.f32)).normalize_q = ⟨0, ⟨![1, 0, 0]⟩, true⟩ := by
  intro _
  exact ⟨(C149_inverse_M33 ⟨fun _ _ => 0⟩ _).2 ⟨1, rfl⟩, (C149_quat_mul _ _ (Or.inl (Or.inr ⟨2, rfl⟩))).1,
    C149_lost.1 _ (Or.inr ⟨2, rfl⟩)⟩

/-- The exponential of a matrix with a NaN on the diagonal and zeros elsewhere is the identity. -/
example : let _ := anyLibm Fmt.f64
    matrix_exponential (⟨![![nan, 0, 0], ![0, 0, 0], ![0, 0, 0]]⟩ : Mat 3 (Flt Fmt.f64)) = .ok M33.one := by
  intro _
  refine C149_lost.2.2.2.1 _ ((nearly_zero_flt _).2 ?_)
  have hz := mul_zero_fin (isFin_zero (f := Fmt.f64))
  have h2 := add_zero_val hz.1 hz.1 hz.2
  have h3 := add_zero_val h2.1 hz.1 hz.2
  have h4 := sqrt_zero_val h3.1 (h3.2.trans (h2.2.trans hz.2))
  refine ⟨h4.1, ?_⟩
  change |(Flt.sqrt (0 * 0 + 0 * 0 + 0 * 0 : Flt Fmt.f64)).toReal| < _
  rw [h4.2, abs_zero]
  positivity

end StaticMath
