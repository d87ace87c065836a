import Verif.Lemmas.IeeeExpr
import Verif.Lemmas.Perm
import Verif.Lemmas.Det
import Mathlib.Analysis.SpecialFunctions.Log.Deriv
import Mathlib.Analysis.Complex.ExponentialBounds
import Verif.Props.Ring
import Verif.Props.Vector

/-!
# C102–C104: floating point determinants, absence of overflow, exactness on integers

Generated by `tools/gen_props_ieee_expr.py`. `a.FinLe B`: finite and of magnitude at most `B`;
`a.IntLe K`: a finite integer value of magnitude at most `K`. `f.u = 2^-p` is the unit roundoff,
`f.eta` half the smallest positive number.
-/

namespace StaticMath
open Flt

/-- Real values of the entries. -/
noncomputable abbrev Mat.re {f : Fmt} {n : ℕ} (A : Mat n (Flt f)) : Mat n ℝ := ⟨fun i j => (A i j).toReal⟩
/-- Real values of the components. -/
noncomputable abbrev Vec.re {f : Fmt} {n : ℕ} (v : Vec n (Flt f)) : Vec n ℝ := ⟨fun i => (v i).toReal⟩

/-- Two matrices of variables. -/
private def varsL (n : ℕ) : Mat n (Ex (Fin n × Fin n ⊕ Fin n × Fin n)) := ⟨fun i j => .var (.inl (i, j))⟩
private def varsR (n : ℕ) : Mat n (Ex (Fin n × Fin n ⊕ Fin n × Fin n)) := ⟨fun i j => .var (.inr (i, j))⟩
/-- A matrix and a vector of variables. -/
private def varsM (n : ℕ) : Mat n (Ex (Fin n × Fin n ⊕ Fin n)) := ⟨fun i j => .var (.inl (i, j))⟩
private def varsV (n : ℕ) : Vec n (Ex (Fin n × Fin n ⊕ Fin n)) := ⟨fun i => .var (.inr i)⟩
/-- Two vectors of variables. -/
private def varsA (n : ℕ) : Vec n (Ex (Fin n ⊕ Fin n)) := ⟨fun i => .var (.inl i)⟩
private def varsB (n : ℕ) : Vec n (Ex (Fin n ⊕ Fin n)) := ⟨fun i => .var (.inr i)⟩

/-! ## C102 error of the determinant -/

/-- The computed `2x2` determinant differs from the true one by at most `(1+u)^2 - 1` times the
permanent of the absolute values, plus an underflow term. -/
theorem C102_det_M22 {f : Fmt} (A : Mat 2 (Flt f)) (B : ℝ) (hB : ∀ i j, |(A i j).toReal| ≤ B)
    (h : (M22.det A).IsFin) :
    |(M22.det A).toReal - (Matrix.of fun i j => (A i j).toReal).det| ≤
      ((1 + f.u) ^ 2 - 1) * (Matrix.of fun i j => |(A i j).toReal|).permanent +
      (1 + f.u) ^ 2 * (f.eta * (2)) := by
  have h1 := Ex.err_of (x := fun q : Fin 2 × Fin 2 => A q.1 q.2) (B := B) (fun q => hB q.1 q.2)
    (M22.det (Mat.vars 2)) (k := 2) (l := [2]) (by decide +kernel) (by decide +kernel) (by decide +kernel) h
  have h2 := M22.perm_eq A.re
  have h3 : (Matrix.of fun i j => (A i j).toReal).det = M22.det A.re := (M22.det_eq A.re).symm
  have h4 : Ex.polyL B [2] = 2 := by
    simp only [Ex.polyL]; push_cast; ring
  rw [h4] at h1
  rw [h3, ← h2]
  exact h1

/-- The computed `3x3` determinant differs from the true one by at most `(1+u)^5 - 1` times the
permanent of the absolute values, plus an underflow term. -/
theorem C102_det_M33 {f : Fmt} (A : Mat 3 (Flt f)) (B : ℝ) (hB : ∀ i j, |(A i j).toReal| ≤ B)
    (h : (M33.det A).IsFin) :
    |(M33.det A).toReal - (Matrix.of fun i j => (A i j).toReal).det| ≤
      ((1 + f.u) ^ 5 - 1) * (Matrix.of fun i j => |(A i j).toReal|).permanent +
      (1 + f.u) ^ 5 * (f.eta * (3 + 6 * B)) := by
  have h1 := Ex.err_of (x := fun q : Fin 3 × Fin 3 => A q.1 q.2) (B := B) (fun q => hB q.1 q.2)
    (M33.det (Mat.vars 3)) (k := 5) (l := [3, 6]) (by decide +kernel) (by decide +kernel) (by decide +kernel) h
  have h2 := M33.perm_eq A.re
  have h3 : (Matrix.of fun i j => (A i j).toReal).det = M33.det A.re := (M33.det_eq A.re).symm
  have h4 : Ex.polyL B [3, 6] = 3 + 6 * B := by
    simp only [Ex.polyL]; push_cast; ring
  rw [h4] at h1
  rw [h3, ← h2]
  exact h1

/-- The computed `4x4` determinant differs from the true one by at most `(1+u)^26 - 1` times the
permanent of the absolute values, plus an underflow term. -/
theorem C102_det_M44 {f : Fmt} (A : Mat 4 (Flt f)) (B : ℝ) (hB : ∀ i j, |(A i j).toReal| ≤ B)
    (h : (M44.det A).IsFin) :
    |(M44.det A).toReal - (Matrix.of fun i j => (A i j).toReal).det| ≤
      ((1 + f.u) ^ 26 - 1) * (Matrix.of fun i j => |(A i j).toReal|).permanent +
      (1 + f.u) ^ 26 * (f.eta * (24 * (1 + B + B ^ 2))) := by
  have h1 := Ex.err_of (x := fun q : Fin 4 × Fin 4 => A q.1 q.2) (B := B) (fun q => hB q.1 q.2)
    (M44.det (Mat.vars 4)) (k := 26) (l := [24, 24, 24]) (by decide +kernel) (by decide +kernel) (by decide +kernel) h
  have h2 := M44.perm_eq A.re
  have h3 : (Matrix.of fun i j => (A i j).toReal).det = M44.det A.re := (M44.det_eq A.re).symm
  have h4 : Ex.polyL B [24, 24, 24] = 24 * (1 + B + B ^ 2) := by
    simp only [Ex.polyL]; push_cast; ring
  rw [h4] at h1
  rw [h3, ← h2]
  exact h1

set_option maxRecDepth 20000 in
/-- The computed `5x5` determinant differs from the true one by at most `(1+u)^123 - 1` times the
permanent of the absolute values, plus an underflow term. -/
theorem C102_det_M55 {f : Fmt} (A : Mat 5 (Flt f)) (B : ℝ) (hB : ∀ i j, |(A i j).toReal| ≤ B)
    (h : (M55.det A).IsFin) :
    |(M55.det A).toReal - (Matrix.of fun i j => (A i j).toReal).det| ≤
      ((1 + f.u) ^ 123 - 1) * (Matrix.of fun i j => |(A i j).toReal|).permanent +
      (1 + f.u) ^ 123 * (f.eta * (120 * (1 + B + B ^ 2 + B ^ 3))) := by
  have h1 := Ex.err_of (x := fun q : Fin 5 × Fin 5 => A q.1 q.2) (B := B) (fun q => hB q.1 q.2)
    (M55.det (Mat.vars 5)) (k := 123) (l := [120, 120, 120, 120]) (by decide +kernel) (by decide +kernel) (by decide +kernel) h
  have h2 := M55.perm_eq A.re
  have h3 : (Matrix.of fun i j => (A i j).toReal).det = M55.det A.re := (M55.det_eq A.re).symm
  have h4 : Ex.polyL B [120, 120, 120, 120] = 120 * (1 + B + B ^ 2 + B ^ 3) := by
    simp only [Ex.polyL]; push_cast; ring
  rw [h4] at h1
  rw [h3, ← h2]
  exact h1

set_option maxRecDepth 20000 in
/-- The computed `6x6` determinant differs from the true one by at most `(1+u)^724 - 1` times the
permanent of the absolute values, plus an underflow term. -/
theorem C102_det_M66 {f : Fmt} (A : Mat 6 (Flt f)) (B : ℝ) (hB : ∀ i j, |(A i j).toReal| ≤ B)
    (h : (M66.det A).IsFin) :
    |(M66.det A).toReal - (Matrix.of fun i j => (A i j).toReal).det| ≤
      ((1 + f.u) ^ 724 - 1) * (Matrix.of fun i j => |(A i j).toReal|).permanent +
      (1 + f.u) ^ 724 * (f.eta * (720 * (1 + B + B ^ 2 + B ^ 3 + B ^ 4))) := by
  have h1 := Ex.err_of (x := fun q : Fin 6 × Fin 6 => A q.1 q.2) (B := B) (fun q => hB q.1 q.2)
    (M66.det (Mat.vars 6)) (k := 724) (l := [720, 720, 720, 720, 720]) (by decide +kernel) (by decide +kernel) (by decide +kernel) h
  have h2 := M66.perm_eq A.re
  have h3 : (Matrix.of fun i j => (A i j).toReal).det = M66.det A.re := (M66.det_eq A.re).symm
  have h4 : Ex.polyL B [720, 720, 720, 720, 720] = 720 * (1 + B + B ^ 2 + B ^ 3 + B ^ 4) := by
    simp only [Ex.polyL]; push_cast; ring
  rw [h4] at h1
  rw [h3, ← h2]
  exact h1

/-- Concrete case: the determinant of a `2x2` matrix of single precision ones. -/
example : |(M22.det (⟨![![1, 1], ![1, 1]]⟩ : Mat 2 (Flt Fmt.f32))).toReal - 0| ≤
    ((1 + Fmt.f32.u) ^ 2 - 1) * 2 + (1 + Fmt.f32.u) ^ 2 * (Fmt.f32.eta * 2) := by
  have hfin : (M22.det (⟨![![1, 1], ![1, 1]]⟩ : Mat 2 (Flt Fmt.f32))).IsFin := by
    change ((1 : Flt Fmt.f32) * 1 - 1 * 1).IsFin
    rw [mul_one']
    exact (sub_exact isFin_one isFin_one (by rw [sub_self, abs_zero]; exact Fmt.f32.rep_zero)).1
  have h := C102_det_M22 (⟨![![1, 1], ![1, 1]]⟩ : Mat 2 (Flt Fmt.f32)) 1
    (fun i j => by fin_cases i <;> fin_cases j <;> simp [toReal_one]) hfin
  have e1 : (Matrix.of fun i j => ((⟨![![1, 1], ![1, 1]]⟩ : Mat 2 (Flt Fmt.f32)) i j).toReal).det = 0 := by
    rw [Matrix.det_fin_two]; simp [toReal_one]
  have e2 : (Matrix.of fun i j => |((⟨![![1, 1], ![1, 1]]⟩ : Mat 2 (Flt Fmt.f32)) i j).toReal|).permanent = 2 := by
    rw [PermExpand.per2]; simp [PermExpand.p2, toReal_one]; norm_num
  rw [e1, e2] at h
  exact h

/-! ## C103 no overflow, no NaN -/

/-- Finite entries bounded by `B ≥ 1` give a finite determinant, product, matrix-vector product and dot
product, as long as the stated bounds are below the overflow threshold. -/
theorem C103_no_overflow_M22 {f : Fmt} (A C : Mat 2 (Flt f)) (v w : Vec 2 (Flt f)) (B : ℝ) (hB : 1 ≤ B)
    (hA : ∀ i j, (A i j).FinLe B) (hC : ∀ i j, (C i j).FinLe B) (hv : ∀ i, (v i).FinLe B) (hw : ∀ i, (w i).FinLe B) :
    ((1 + f.u) ^ 2 * (4 * B ^ 2) < (2 : ℝ) ^ (f.emax + 1) → (M22.det A).IsFin) ∧
    ((1 + f.u) ^ 2 * (4 * B ^ 2) < (2 : ℝ) ^ (f.emax + 1) →
      (∀ i j, (M22.mul A C i j).IsFin) ∧ (∀ i, (M22.mulVec A v i).IsFin) ∧ (V2.dot v w).IsFin) := by
  refine ⟨fun h => ?_, fun h => ⟨fun i j => ?_, fun i => ?_, ?_⟩⟩
  · exact Ex.isFin_of hB (x := fun q : Fin 2 × Fin 2 => A q.1 q.2) (fun q => hA q.1 q.2)
      (M22.det (Mat.vars 2)) (k := 2) (c := 4) (d := 2) (by decide +kernel) (by decide +kernel) (by decide +kernel)
      (by exact_mod_cast h)
  · have h1 := Ex.isFin_of hB (x := Sum.elim (fun q : Fin 2 × Fin 2 => A q.1 q.2) fun q => C q.1 q.2)
      (fun q => by rcases q with q | q <;> [exact hA _ _; exact hC _ _])
      (M22.mul (varsL 2) (varsR 2) i j) (k := 2) (c := 4) (d := 2)
      (by revert i j; decide +kernel) (by revert i j; decide +kernel) (by revert i j; decide +kernel) (by exact_mod_cast h)
    have e : (M22.mul (varsL 2) (varsR 2) i j).evalF
        (Sum.elim (fun q : Fin 2 × Fin 2 => A q.1 q.2) fun q => C q.1 q.2) = M22.mul A C i j := by
      fin_cases i <;> fin_cases j <;> rfl
    rwa [e] at h1
  · have h1 := Ex.isFin_of hB (x := Sum.elim (fun q : Fin 2 × Fin 2 => A q.1 q.2) fun q => v q)
      (fun q => by rcases q with q | q <;> [exact hA _ _; exact hv _])
      (M22.mulVec (varsM 2) (varsV 2) i) (k := 2) (c := 4) (d := 2)
      (by revert i; decide +kernel) (by revert i; decide +kernel) (by revert i; decide +kernel) (by exact_mod_cast h)
    have e : (M22.mulVec (varsM 2) (varsV 2) i).evalF
        (Sum.elim (fun q : Fin 2 × Fin 2 => A q.1 q.2) fun q => v q) = M22.mulVec A v i := by
      fin_cases i <;> rfl
    rwa [e] at h1
  · exact Ex.isFin_of hB (x := Sum.elim (fun q : Fin 2 => v q) fun q => w q)
      (fun q => by rcases q with q | q <;> [exact hv _; exact hw _])
      (V2.dot (varsA 2) (varsB 2)) (k := 2) (c := 4) (d := 2)
      (by decide +kernel) (by decide +kernel) (by decide +kernel) (by exact_mod_cast h)

/-- Finite entries bounded by `B ≥ 1` give a finite determinant, product, matrix-vector product and dot
product, as long as the stated bounds are below the overflow threshold. -/
theorem C103_no_overflow_M33 {f : Fmt} (A C : Mat 3 (Flt f)) (v w : Vec 3 (Flt f)) (B : ℝ) (hB : 1 ≤ B)
    (hA : ∀ i j, (A i j).FinLe B) (hC : ∀ i j, (C i j).FinLe B) (hv : ∀ i, (v i).FinLe B) (hw : ∀ i, (w i).FinLe B) :
    ((1 + f.u) ^ 5 * (15 * B ^ 3) < (2 : ℝ) ^ (f.emax + 1) → (M33.det A).IsFin) ∧
    ((1 + f.u) ^ 3 * (6 * B ^ 2) < (2 : ℝ) ^ (f.emax + 1) →
      (∀ i j, (M33.mul A C i j).IsFin) ∧ (∀ i, (M33.mulVec A v i).IsFin) ∧ (V3.dot v w).IsFin) := by
  refine ⟨fun h => ?_, fun h => ⟨fun i j => ?_, fun i => ?_, ?_⟩⟩
  · exact Ex.isFin_of hB (x := fun q : Fin 3 × Fin 3 => A q.1 q.2) (fun q => hA q.1 q.2)
      (M33.det (Mat.vars 3)) (k := 5) (c := 15) (d := 3) (by decide +kernel) (by decide +kernel) (by decide +kernel)
      (by exact_mod_cast h)
  · have h1 := Ex.isFin_of hB (x := Sum.elim (fun q : Fin 3 × Fin 3 => A q.1 q.2) fun q => C q.1 q.2)
      (fun q => by rcases q with q | q <;> [exact hA _ _; exact hC _ _])
      (M33.mul (varsL 3) (varsR 3) i j) (k := 3) (c := 6) (d := 2)
      (by revert i j; decide +kernel) (by revert i j; decide +kernel) (by revert i j; decide +kernel) (by exact_mod_cast h)
    have e : (M33.mul (varsL 3) (varsR 3) i j).evalF
        (Sum.elim (fun q : Fin 3 × Fin 3 => A q.1 q.2) fun q => C q.1 q.2) = M33.mul A C i j := by
      fin_cases i <;> fin_cases j <;> rfl
    rwa [e] at h1
  · have h1 := Ex.isFin_of hB (x := Sum.elim (fun q : Fin 3 × Fin 3 => A q.1 q.2) fun q => v q)
      (fun q => by rcases q with q | q <;> [exact hA _ _; exact hv _])
      (M33.mulVec (varsM 3) (varsV 3) i) (k := 3) (c := 6) (d := 2)
      (by revert i; decide +kernel) (by revert i; decide +kernel) (by revert i; decide +kernel) (by exact_mod_cast h)
    have e : (M33.mulVec (varsM 3) (varsV 3) i).evalF
        (Sum.elim (fun q : Fin 3 × Fin 3 => A q.1 q.2) fun q => v q) = M33.mulVec A v i := by
      fin_cases i <;> rfl
    rwa [e] at h1
  · exact Ex.isFin_of hB (x := Sum.elim (fun q : Fin 3 => v q) fun q => w q)
      (fun q => by rcases q with q | q <;> [exact hv _; exact hw _])
      (V3.dot (varsA 3) (varsB 3)) (k := 3) (c := 6) (d := 2)
      (by decide +kernel) (by decide +kernel) (by decide +kernel) (by exact_mod_cast h)

/-- Finite entries bounded by `B ≥ 1` give a finite determinant, product, matrix-vector product and dot
product, as long as the stated bounds are below the overflow threshold. -/
theorem C103_no_overflow_M44 {f : Fmt} (A C : Mat 4 (Flt f)) (v w : Vec 4 (Flt f)) (B : ℝ) (hB : 1 ≤ B)
    (hA : ∀ i j, (A i j).FinLe B) (hC : ∀ i j, (C i j).FinLe B) (hv : ∀ i, (v i).FinLe B) (hw : ∀ i, (w i).FinLe B) :
    ((1 + f.u) ^ 26 * (96 * B ^ 4) < (2 : ℝ) ^ (f.emax + 1) → (M44.det A).IsFin) ∧
    ((1 + f.u) ^ 4 * (8 * B ^ 2) < (2 : ℝ) ^ (f.emax + 1) →
      (∀ i j, (M44.mul A C i j).IsFin) ∧ (∀ i, (M44.mulVec A v i).IsFin) ∧ (V4.dot v w).IsFin) := by
  refine ⟨fun h => ?_, fun h => ⟨fun i j => ?_, fun i => ?_, ?_⟩⟩
  · exact Ex.isFin_of hB (x := fun q : Fin 4 × Fin 4 => A q.1 q.2) (fun q => hA q.1 q.2)
      (M44.det (Mat.vars 4)) (k := 26) (c := 96) (d := 4) (by decide +kernel) (by decide +kernel) (by decide +kernel)
      (by exact_mod_cast h)
  · have h1 := Ex.isFin_of hB (x := Sum.elim (fun q : Fin 4 × Fin 4 => A q.1 q.2) fun q => C q.1 q.2)
      (fun q => by rcases q with q | q <;> [exact hA _ _; exact hC _ _])
      (M44.mul (varsL 4) (varsR 4) i j) (k := 4) (c := 8) (d := 2)
      (by revert i j; decide +kernel) (by revert i j; decide +kernel) (by revert i j; decide +kernel) (by exact_mod_cast h)
    have e : (M44.mul (varsL 4) (varsR 4) i j).evalF
        (Sum.elim (fun q : Fin 4 × Fin 4 => A q.1 q.2) fun q => C q.1 q.2) = M44.mul A C i j := by
      fin_cases i <;> fin_cases j <;> rfl
    rwa [e] at h1
  · have h1 := Ex.isFin_of hB (x := Sum.elim (fun q : Fin 4 × Fin 4 => A q.1 q.2) fun q => v q)
      (fun q => by rcases q with q | q <;> [exact hA _ _; exact hv _])
      (M44.mulVec (varsM 4) (varsV 4) i) (k := 4) (c := 8) (d := 2)
      (by revert i; decide +kernel) (by revert i; decide +kernel) (by revert i; decide +kernel) (by exact_mod_cast h)
    have e : (M44.mulVec (varsM 4) (varsV 4) i).evalF
        (Sum.elim (fun q : Fin 4 × Fin 4 => A q.1 q.2) fun q => v q) = M44.mulVec A v i := by
      fin_cases i <;> rfl
    rwa [e] at h1
  · exact Ex.isFin_of hB (x := Sum.elim (fun q : Fin 4 => v q) fun q => w q)
      (fun q => by rcases q with q | q <;> [exact hv _; exact hw _])
      (V4.dot (varsA 4) (varsB 4)) (k := 4) (c := 8) (d := 2)
      (by decide +kernel) (by decide +kernel) (by decide +kernel) (by exact_mod_cast h)

set_option maxRecDepth 20000 in
/-- Finite entries bounded by `B ≥ 1` give a finite determinant, product, matrix-vector product and dot
product, as long as the stated bounds are below the overflow threshold. -/
theorem C103_no_overflow_M55 {f : Fmt} (A C : Mat 5 (Flt f)) (v w : Vec 5 (Flt f)) (B : ℝ) (hB : 1 ≤ B)
    (hA : ∀ i j, (A i j).FinLe B) (hC : ∀ i j, (C i j).FinLe B) (hv : ∀ i, (v i).FinLe B) (hw : ∀ i, (w i).FinLe B) :
    ((1 + f.u) ^ 123 * (600 * B ^ 5) < (2 : ℝ) ^ (f.emax + 1) → (M55.det A).IsFin) ∧
    ((1 + f.u) ^ 5 * (10 * B ^ 2) < (2 : ℝ) ^ (f.emax + 1) →
      (∀ i j, (M55.mul A C i j).IsFin) ∧ (∀ i, (M55.mulVec A v i).IsFin) ∧ (V5.dot v w).IsFin) := by
  refine ⟨fun h => ?_, fun h => ⟨fun i j => ?_, fun i => ?_, ?_⟩⟩
  · exact Ex.isFin_of hB (x := fun q : Fin 5 × Fin 5 => A q.1 q.2) (fun q => hA q.1 q.2)
      (M55.det (Mat.vars 5)) (k := 123) (c := 600) (d := 5) (by decide +kernel) (by decide +kernel) (by decide +kernel)
      (by exact_mod_cast h)
  · have h1 := Ex.isFin_of hB (x := Sum.elim (fun q : Fin 5 × Fin 5 => A q.1 q.2) fun q => C q.1 q.2)
      (fun q => by rcases q with q | q <;> [exact hA _ _; exact hC _ _])
      (M55.mul (varsL 5) (varsR 5) i j) (k := 5) (c := 10) (d := 2)
      (by revert i j; decide +kernel) (by revert i j; decide +kernel) (by revert i j; decide +kernel) (by exact_mod_cast h)
    have e : (M55.mul (varsL 5) (varsR 5) i j).evalF
        (Sum.elim (fun q : Fin 5 × Fin 5 => A q.1 q.2) fun q => C q.1 q.2) = M55.mul A C i j := by
      fin_cases i <;> fin_cases j <;> rfl
    rwa [e] at h1
  · have h1 := Ex.isFin_of hB (x := Sum.elim (fun q : Fin 5 × Fin 5 => A q.1 q.2) fun q => v q)
      (fun q => by rcases q with q | q <;> [exact hA _ _; exact hv _])
      (M55.mulVec (varsM 5) (varsV 5) i) (k := 5) (c := 10) (d := 2)
      (by revert i; decide +kernel) (by revert i; decide +kernel) (by revert i; decide +kernel) (by exact_mod_cast h)
    have e : (M55.mulVec (varsM 5) (varsV 5) i).evalF
        (Sum.elim (fun q : Fin 5 × Fin 5 => A q.1 q.2) fun q => v q) = M55.mulVec A v i := by
      fin_cases i <;> rfl
    rwa [e] at h1
  · exact Ex.isFin_of hB (x := Sum.elim (fun q : Fin 5 => v q) fun q => w q)
      (fun q => by rcases q with q | q <;> [exact hv _; exact hw _])
      (V5.dot (varsA 5) (varsB 5)) (k := 5) (c := 10) (d := 2)
      (by decide +kernel) (by decide +kernel) (by decide +kernel) (by exact_mod_cast h)

set_option maxRecDepth 20000 in
/-- Finite entries bounded by `B ≥ 1` give a finite determinant, product, matrix-vector product and dot
product, as long as the stated bounds are below the overflow threshold. -/
theorem C103_no_overflow_M66 {f : Fmt} (A C : Mat 6 (Flt f)) (v w : Vec 6 (Flt f)) (B : ℝ) (hB : 1 ≤ B)
    (hA : ∀ i j, (A i j).FinLe B) (hC : ∀ i j, (C i j).FinLe B) (hv : ∀ i, (v i).FinLe B) (hw : ∀ i, (w i).FinLe B) :
    ((1 + f.u) ^ 724 * (4320 * B ^ 6) < (2 : ℝ) ^ (f.emax + 1) → (M66.det A).IsFin) ∧
    ((1 + f.u) ^ 6 * (12 * B ^ 2) < (2 : ℝ) ^ (f.emax + 1) →
      (∀ i j, (M66.mul A C i j).IsFin) ∧ (∀ i, (M66.mulVec A v i).IsFin) ∧ (V6.dot v w).IsFin) := by
  refine ⟨fun h => ?_, fun h => ⟨fun i j => ?_, fun i => ?_, ?_⟩⟩
  · exact Ex.isFin_of hB (x := fun q : Fin 6 × Fin 6 => A q.1 q.2) (fun q => hA q.1 q.2)
      (M66.det (Mat.vars 6)) (k := 724) (c := 4320) (d := 6) (by decide +kernel) (by decide +kernel) (by decide +kernel)
      (by exact_mod_cast h)
  · have h1 := Ex.isFin_of hB (x := Sum.elim (fun q : Fin 6 × Fin 6 => A q.1 q.2) fun q => C q.1 q.2)
      (fun q => by rcases q with q | q <;> [exact hA _ _; exact hC _ _])
      (M66.mul (varsL 6) (varsR 6) i j) (k := 6) (c := 12) (d := 2)
      (by revert i j; decide +kernel) (by revert i j; decide +kernel) (by revert i j; decide +kernel) (by exact_mod_cast h)
    have e : (M66.mul (varsL 6) (varsR 6) i j).evalF
        (Sum.elim (fun q : Fin 6 × Fin 6 => A q.1 q.2) fun q => C q.1 q.2) = M66.mul A C i j := by
      fin_cases i <;> fin_cases j <;> rfl
    rwa [e] at h1
  · have h1 := Ex.isFin_of hB (x := Sum.elim (fun q : Fin 6 × Fin 6 => A q.1 q.2) fun q => v q)
      (fun q => by rcases q with q | q <;> [exact hA _ _; exact hv _])
      (M66.mulVec (varsM 6) (varsV 6) i) (k := 6) (c := 12) (d := 2)
      (by revert i; decide +kernel) (by revert i; decide +kernel) (by revert i; decide +kernel) (by exact_mod_cast h)
    have e : (M66.mulVec (varsM 6) (varsV 6) i).evalF
        (Sum.elim (fun q : Fin 6 × Fin 6 => A q.1 q.2) fun q => v q) = M66.mulVec A v i := by
      fin_cases i <;> rfl
    rwa [e] at h1
  · exact Ex.isFin_of hB (x := Sum.elim (fun q : Fin 6 => v q) fun q => w q)
      (fun q => by rcases q with q | q <;> [exact hv _; exact hw _])
      (V6.dot (varsA 6) (varsB 6)) (k := 6) (c := 12) (d := 2)
      (by decide +kernel) (by decide +kernel) (by decide +kernel) (by exact_mod_cast h)

set_option maxRecDepth 20000 in
/-- Single precision `6x6` matrices with entries up to a thousand never overflow in `det`; the
all-ones matrix is one of them. -/
example (A : Mat 6 (Flt Fmt.f32)) (hA : ∀ i j, (A i j).FinLe 1000) : (M66.det A).IsFin := by
  refine (C103_no_overflow_M66 A A ⟨fun i => A i 0⟩ ⟨fun i => A i 0⟩ 1000 (by norm_num) hA hA (fun i => hA i 0)
    (fun i => hA i 0)).1 ?_
  have h1 : (1 + Fmt.f32.u) ^ 724 ≤ 2 := by
    have h2 : (1 + Fmt.f32.u) ^ 724 ≤ Real.exp (724 * Fmt.f32.u) := by
      rw [show (724 : ℝ) = ((724 : ℕ) : ℝ) by norm_num, Real.exp_nat_mul]
      exact pow_le_pow_left₀ (by have := Fmt.f32.u_pos; linarith) (by linarith [Real.add_one_le_exp Fmt.f32.u]) _
    have h3 : 724 * Fmt.f32.u ≤ Real.log 2 := by
      have := Real.log_two_gt_d9
      have h4 : Fmt.f32.u = 1 / 16777216 := by norm_num [Fmt.u, Fmt.f32]
      rw [h4]; linarith
    calc _ ≤ _ := h2
      _ ≤ Real.exp (Real.log 2) := Real.exp_le_exp.mpr h3
      _ = 2 := Real.exp_log (by norm_num)
  calc (1 + Fmt.f32.u) ^ 724 * (4320 * 1000 ^ 6) ≤ 2 * (4320 * 1000 ^ 6) := by gcongr
    _ < _ := by norm_num [Fmt.f32]

example : (⟨fun _ _ => 1⟩ : Mat 6 (Flt Fmt.f32)) 2 3 |>.FinLe 1000 :=
  ⟨isFin_one, by rw [toReal_one]; norm_num⟩

/-! ## C104 exactness on integers -/

/-- Float matrices with integer entries of magnitude at most `K` have exact sums, differences,
products, dot products and determinants as long as the largest possible result fits in the mantissa. -/
theorem C104_integers_M22 {f : Fmt} (A C : Mat 2 (Flt f)) (v w : Vec 2 (Flt f)) (K : ℕ) (hK : 1 ≤ K)
    (hA : ∀ i j, (A i j).IntLe K) (hC : ∀ i j, (C i j).IntLe K) (hv : ∀ i, (v i).IntLe K) (hw : ∀ i, (w i).IntLe K) :
    (2 * K ^ 2 ≤ 2 ^ f.p →
      (M22.det A).IsFin ∧ (M22.det A).toReal = (Matrix.of fun i j => (A i j).toReal).det) ∧
    (2 * K ^ 2 ≤ 2 ^ f.p →
      (∀ i j, (M22.mul A C i j).IsFin ∧ (M22.mul A C i j).toReal = ∑ k, (A i k).toReal * (C k j).toReal) ∧
      (∀ i, (M22.mulVec A v i).IsFin ∧ (M22.mulVec A v i).toReal = ∑ k, (A i k).toReal * (v k).toReal) ∧
      (V2.dot v w).IsFin ∧ (V2.dot v w).toReal = ∑ k, (v k).toReal * (w k).toReal) ∧
    (2 * K ≤ 2 ^ f.p → ∀ i j, (M22.add A C i j).IsFin ∧ (M22.sub A C i j).IsFin ∧
      (M22.add A C i j).toReal = (A i j).toReal + (C i j).toReal ∧
      (M22.sub A C i j).toReal = (A i j).toReal - (C i j).toReal) := by
  refine ⟨fun h => ?_, fun h => ⟨fun i j => ?_, fun i => ?_, ?_⟩, fun h i j => ?_⟩
  · have h1 := Ex.exact_of hK (x := fun q : Fin 2 × Fin 2 => A q.1 q.2) (fun q => hA q.1 q.2)
      (M22.det (Mat.vars 2)) (t := 2) (d := 2) (by decide +kernel) (by decide +kernel) h
    have h3 : (Matrix.of fun i j => (A i j).toReal).det = M22.det A.re := (M22.det_eq A.re).symm
    rw [h3]
    exact h1
  · have h1 := Ex.exact_of hK (x := Sum.elim (fun q : Fin 2 × Fin 2 => A q.1 q.2) fun q => C q.1 q.2)
      (fun q => by rcases q with q | q <;> [exact hA _ _; exact hC _ _])
      (M22.mul (varsL 2) (varsR 2) i j) (t := 2) (d := 2)
      (by revert i j; decide +kernel) (by revert i j; decide +kernel) h
    have e : (M22.mul (varsL 2) (varsR 2) i j).evalF
        (Sum.elim (fun q : Fin 2 × Fin 2 => A q.1 q.2) fun q => C q.1 q.2) = M22.mul A C i j := by
      fin_cases i <;> fin_cases j <;> rfl
    have e2 : (M22.mul (varsL 2) (varsR 2) i j).evalR
        (Ex.vals (Sum.elim (fun q : Fin 2 × Fin 2 => A q.1 q.2) fun q => C q.1 q.2)) = M22.mul A.re C.re i j := by
      fin_cases i <;> fin_cases j <;> rfl
    rwa [e, e2, C01_mul_M22] at h1
  · have h1 := Ex.exact_of hK (x := Sum.elim (fun q : Fin 2 × Fin 2 => A q.1 q.2) fun q => v q)
      (fun q => by rcases q with q | q <;> [exact hA _ _; exact hv _])
      (M22.mulVec (varsM 2) (varsV 2) i) (t := 2) (d := 2)
      (by revert i; decide +kernel) (by revert i; decide +kernel) h
    have e : (M22.mulVec (varsM 2) (varsV 2) i).evalF
        (Sum.elim (fun q : Fin 2 × Fin 2 => A q.1 q.2) fun q => v q) = M22.mulVec A v i := by
      fin_cases i <;> rfl
    have e2 : (M22.mulVec (varsM 2) (varsV 2) i).evalR
        (Ex.vals (Sum.elim (fun q : Fin 2 × Fin 2 => A q.1 q.2) fun q => v q)) = M22.mulVec A.re v.re i := by
      fin_cases i <;> rfl
    rwa [e, e2, (C03_mulVec_M22 A.re A.re v.re v.re 0).1 i] at h1
  · have h1 := Ex.exact_of hK (x := Sum.elim (fun q : Fin 2 => v q) fun q => w q)
      (fun q => by rcases q with q | q <;> [exact hv _; exact hw _])
      (V2.dot (varsA 2) (varsB 2)) (t := 2) (d := 2) (by decide +kernel) (by decide +kernel) h
    have e2 : (V2.dot (varsA 2) (varsB 2)).evalR (Ex.vals (Sum.elim (fun q : Fin 2 => v q) fun q => w q)) =
        V2.dot v.re w.re := rfl
    rw [e2, V2.dot_eq] at h1
    exact h1
  · have h1 := Ex.exact_of hK (x := Sum.elim (fun q : Fin 2 × Fin 2 => A q.1 q.2) fun q => C q.1 q.2)
      (fun q => by rcases q with q | q <;> [exact hA _ _; exact hC _ _])
      (.add (.var (.inl (i, j))) (.var (.inr (i, j)))) (t := 2) (d := 1) rfl rfl (by simpa using h)
    have h2 := Ex.exact_of hK (x := Sum.elim (fun q : Fin 2 × Fin 2 => A q.1 q.2) fun q => C q.1 q.2)
      (fun q => by rcases q with q | q <;> [exact hA _ _; exact hC _ _])
      (.sub (.var (.inl (i, j))) (.var (.inr (i, j)))) (t := 2) (d := 1) rfl rfl (by simpa using h)
    have e1 : M22.add A C i j = A i j + C i j := by fin_cases i <;> fin_cases j <;> rfl
    have e2 : M22.sub A C i j = A i j - C i j := by fin_cases i <;> fin_cases j <;> rfl
    rw [e1, e2]
    exact ⟨h1.1, h2.1, h1.2, h2.2⟩

/-- Float matrices with integer entries of magnitude at most `K` have exact sums, differences,
products, dot products and determinants as long as the largest possible result fits in the mantissa. -/
theorem C104_integers_M33 {f : Fmt} (A C : Mat 3 (Flt f)) (v w : Vec 3 (Flt f)) (K : ℕ) (hK : 1 ≤ K)
    (hA : ∀ i j, (A i j).IntLe K) (hC : ∀ i j, (C i j).IntLe K) (hv : ∀ i, (v i).IntLe K) (hw : ∀ i, (w i).IntLe K) :
    (6 * K ^ 3 ≤ 2 ^ f.p →
      (M33.det A).IsFin ∧ (M33.det A).toReal = (Matrix.of fun i j => (A i j).toReal).det) ∧
    (3 * K ^ 2 ≤ 2 ^ f.p →
      (∀ i j, (M33.mul A C i j).IsFin ∧ (M33.mul A C i j).toReal = ∑ k, (A i k).toReal * (C k j).toReal) ∧
      (∀ i, (M33.mulVec A v i).IsFin ∧ (M33.mulVec A v i).toReal = ∑ k, (A i k).toReal * (v k).toReal) ∧
      (V3.dot v w).IsFin ∧ (V3.dot v w).toReal = ∑ k, (v k).toReal * (w k).toReal) ∧
    (2 * K ≤ 2 ^ f.p → ∀ i j, (M33.add A C i j).IsFin ∧ (M33.sub A C i j).IsFin ∧
      (M33.add A C i j).toReal = (A i j).toReal + (C i j).toReal ∧
      (M33.sub A C i j).toReal = (A i j).toReal - (C i j).toReal) := by
  refine ⟨fun h => ?_, fun h => ⟨fun i j => ?_, fun i => ?_, ?_⟩, fun h i j => ?_⟩
  · have h1 := Ex.exact_of hK (x := fun q : Fin 3 × Fin 3 => A q.1 q.2) (fun q => hA q.1 q.2)
      (M33.det (Mat.vars 3)) (t := 6) (d := 3) (by decide +kernel) (by decide +kernel) h
    have h3 : (Matrix.of fun i j => (A i j).toReal).det = M33.det A.re := (M33.det_eq A.re).symm
    rw [h3]
    exact h1
  · have h1 := Ex.exact_of hK (x := Sum.elim (fun q : Fin 3 × Fin 3 => A q.1 q.2) fun q => C q.1 q.2)
      (fun q => by rcases q with q | q <;> [exact hA _ _; exact hC _ _])
      (M33.mul (varsL 3) (varsR 3) i j) (t := 3) (d := 2)
      (by revert i j; decide +kernel) (by revert i j; decide +kernel) h
    have e : (M33.mul (varsL 3) (varsR 3) i j).evalF
        (Sum.elim (fun q : Fin 3 × Fin 3 => A q.1 q.2) fun q => C q.1 q.2) = M33.mul A C i j := by
      fin_cases i <;> fin_cases j <;> rfl
    have e2 : (M33.mul (varsL 3) (varsR 3) i j).evalR
        (Ex.vals (Sum.elim (fun q : Fin 3 × Fin 3 => A q.1 q.2) fun q => C q.1 q.2)) = M33.mul A.re C.re i j := by
      fin_cases i <;> fin_cases j <;> rfl
    rwa [e, e2, C01_mul_M33] at h1
  · have h1 := Ex.exact_of hK (x := Sum.elim (fun q : Fin 3 × Fin 3 => A q.1 q.2) fun q => v q)
      (fun q => by rcases q with q | q <;> [exact hA _ _; exact hv _])
      (M33.mulVec (varsM 3) (varsV 3) i) (t := 3) (d := 2)
      (by revert i; decide +kernel) (by revert i; decide +kernel) h
    have e : (M33.mulVec (varsM 3) (varsV 3) i).evalF
        (Sum.elim (fun q : Fin 3 × Fin 3 => A q.1 q.2) fun q => v q) = M33.mulVec A v i := by
      fin_cases i <;> rfl
    have e2 : (M33.mulVec (varsM 3) (varsV 3) i).evalR
        (Ex.vals (Sum.elim (fun q : Fin 3 × Fin 3 => A q.1 q.2) fun q => v q)) = M33.mulVec A.re v.re i := by
      fin_cases i <;> rfl
    rwa [e, e2, (C03_mulVec_M33 A.re A.re v.re v.re 0).1 i] at h1
  · have h1 := Ex.exact_of hK (x := Sum.elim (fun q : Fin 3 => v q) fun q => w q)
      (fun q => by rcases q with q | q <;> [exact hv _; exact hw _])
      (V3.dot (varsA 3) (varsB 3)) (t := 3) (d := 2) (by decide +kernel) (by decide +kernel) h
    have e2 : (V3.dot (varsA 3) (varsB 3)).evalR (Ex.vals (Sum.elim (fun q : Fin 3 => v q) fun q => w q)) =
        V3.dot v.re w.re := rfl
    rw [e2, V3.dot_eq] at h1
    exact h1
  · have h1 := Ex.exact_of hK (x := Sum.elim (fun q : Fin 3 × Fin 3 => A q.1 q.2) fun q => C q.1 q.2)
      (fun q => by rcases q with q | q <;> [exact hA _ _; exact hC _ _])
      (.add (.var (.inl (i, j))) (.var (.inr (i, j)))) (t := 2) (d := 1) rfl rfl (by simpa using h)
    have h2 := Ex.exact_of hK (x := Sum.elim (fun q : Fin 3 × Fin 3 => A q.1 q.2) fun q => C q.1 q.2)
      (fun q => by rcases q with q | q <;> [exact hA _ _; exact hC _ _])
      (.sub (.var (.inl (i, j))) (.var (.inr (i, j)))) (t := 2) (d := 1) rfl rfl (by simpa using h)
    have e1 : M33.add A C i j = A i j + C i j := by fin_cases i <;> fin_cases j <;> rfl
    have e2 : M33.sub A C i j = A i j - C i j := by fin_cases i <;> fin_cases j <;> rfl
    rw [e1, e2]
    exact ⟨h1.1, h2.1, h1.2, h2.2⟩

/-- Float matrices with integer entries of magnitude at most `K` have exact sums, differences,
products, dot products and determinants as long as the largest possible result fits in the mantissa. -/
theorem C104_integers_M44 {f : Fmt} (A C : Mat 4 (Flt f)) (v w : Vec 4 (Flt f)) (K : ℕ) (hK : 1 ≤ K)
    (hA : ∀ i j, (A i j).IntLe K) (hC : ∀ i j, (C i j).IntLe K) (hv : ∀ i, (v i).IntLe K) (hw : ∀ i, (w i).IntLe K) :
    (24 * K ^ 4 ≤ 2 ^ f.p →
      (M44.det A).IsFin ∧ (M44.det A).toReal = (Matrix.of fun i j => (A i j).toReal).det) ∧
    (4 * K ^ 2 ≤ 2 ^ f.p →
      (∀ i j, (M44.mul A C i j).IsFin ∧ (M44.mul A C i j).toReal = ∑ k, (A i k).toReal * (C k j).toReal) ∧
      (∀ i, (M44.mulVec A v i).IsFin ∧ (M44.mulVec A v i).toReal = ∑ k, (A i k).toReal * (v k).toReal) ∧
      (V4.dot v w).IsFin ∧ (V4.dot v w).toReal = ∑ k, (v k).toReal * (w k).toReal) ∧
    (2 * K ≤ 2 ^ f.p → ∀ i j, (M44.add A C i j).IsFin ∧ (M44.sub A C i j).IsFin ∧
      (M44.add A C i j).toReal = (A i j).toReal + (C i j).toReal ∧
      (M44.sub A C i j).toReal = (A i j).toReal - (C i j).toReal) := by
  refine ⟨fun h => ?_, fun h => ⟨fun i j => ?_, fun i => ?_, ?_⟩, fun h i j => ?_⟩
  · have h1 := Ex.exact_of hK (x := fun q : Fin 4 × Fin 4 => A q.1 q.2) (fun q => hA q.1 q.2)
      (M44.det (Mat.vars 4)) (t := 24) (d := 4) (by decide +kernel) (by decide +kernel) h
    have h3 : (Matrix.of fun i j => (A i j).toReal).det = M44.det A.re := (M44.det_eq A.re).symm
    rw [h3]
    exact h1
  · have h1 := Ex.exact_of hK (x := Sum.elim (fun q : Fin 4 × Fin 4 => A q.1 q.2) fun q => C q.1 q.2)
      (fun q => by rcases q with q | q <;> [exact hA _ _; exact hC _ _])
      (M44.mul (varsL 4) (varsR 4) i j) (t := 4) (d := 2)
      (by revert i j; decide +kernel) (by revert i j; decide +kernel) h
    have e : (M44.mul (varsL 4) (varsR 4) i j).evalF
        (Sum.elim (fun q : Fin 4 × Fin 4 => A q.1 q.2) fun q => C q.1 q.2) = M44.mul A C i j := by
      fin_cases i <;> fin_cases j <;> rfl
    have e2 : (M44.mul (varsL 4) (varsR 4) i j).evalR
        (Ex.vals (Sum.elim (fun q : Fin 4 × Fin 4 => A q.1 q.2) fun q => C q.1 q.2)) = M44.mul A.re C.re i j := by
      fin_cases i <;> fin_cases j <;> rfl
    rwa [e, e2, C01_mul_M44] at h1
  · have h1 := Ex.exact_of hK (x := Sum.elim (fun q : Fin 4 × Fin 4 => A q.1 q.2) fun q => v q)
      (fun q => by rcases q with q | q <;> [exact hA _ _; exact hv _])
      (M44.mulVec (varsM 4) (varsV 4) i) (t := 4) (d := 2)
      (by revert i; decide +kernel) (by revert i; decide +kernel) h
    have e : (M44.mulVec (varsM 4) (varsV 4) i).evalF
        (Sum.elim (fun q : Fin 4 × Fin 4 => A q.1 q.2) fun q => v q) = M44.mulVec A v i := by
      fin_cases i <;> rfl
    have e2 : (M44.mulVec (varsM 4) (varsV 4) i).evalR
        (Ex.vals (Sum.elim (fun q : Fin 4 × Fin 4 => A q.1 q.2) fun q => v q)) = M44.mulVec A.re v.re i := by
      fin_cases i <;> rfl
    rwa [e, e2, (C03_mulVec_M44 A.re A.re v.re v.re 0).1 i] at h1
  · have h1 := Ex.exact_of hK (x := Sum.elim (fun q : Fin 4 => v q) fun q => w q)
      (fun q => by rcases q with q | q <;> [exact hv _; exact hw _])
      (V4.dot (varsA 4) (varsB 4)) (t := 4) (d := 2) (by decide +kernel) (by decide +kernel) h
    have e2 : (V4.dot (varsA 4) (varsB 4)).evalR (Ex.vals (Sum.elim (fun q : Fin 4 => v q) fun q => w q)) =
        V4.dot v.re w.re := rfl
    rw [e2, V4.dot_eq] at h1
    exact h1
  · have h1 := Ex.exact_of hK (x := Sum.elim (fun q : Fin 4 × Fin 4 => A q.1 q.2) fun q => C q.1 q.2)
      (fun q => by rcases q with q | q <;> [exact hA _ _; exact hC _ _])
      (.add (.var (.inl (i, j))) (.var (.inr (i, j)))) (t := 2) (d := 1) rfl rfl (by simpa using h)
    have h2 := Ex.exact_of hK (x := Sum.elim (fun q : Fin 4 × Fin 4 => A q.1 q.2) fun q => C q.1 q.2)
      (fun q => by rcases q with q | q <;> [exact hA _ _; exact hC _ _])
      (.sub (.var (.inl (i, j))) (.var (.inr (i, j)))) (t := 2) (d := 1) rfl rfl (by simpa using h)
    have e1 : M44.add A C i j = A i j + C i j := by fin_cases i <;> fin_cases j <;> rfl
    have e2 : M44.sub A C i j = A i j - C i j := by fin_cases i <;> fin_cases j <;> rfl
    rw [e1, e2]
    exact ⟨h1.1, h2.1, h1.2, h2.2⟩

set_option maxRecDepth 20000 in
/-- Float matrices with integer entries of magnitude at most `K` have exact sums, differences,
products, dot products and determinants as long as the largest possible result fits in the mantissa. -/
theorem C104_integers_M55 {f : Fmt} (A C : Mat 5 (Flt f)) (v w : Vec 5 (Flt f)) (K : ℕ) (hK : 1 ≤ K)
    (hA : ∀ i j, (A i j).IntLe K) (hC : ∀ i j, (C i j).IntLe K) (hv : ∀ i, (v i).IntLe K) (hw : ∀ i, (w i).IntLe K) :
    (120 * K ^ 5 ≤ 2 ^ f.p →
      (M55.det A).IsFin ∧ (M55.det A).toReal = (Matrix.of fun i j => (A i j).toReal).det) ∧
    (5 * K ^ 2 ≤ 2 ^ f.p →
      (∀ i j, (M55.mul A C i j).IsFin ∧ (M55.mul A C i j).toReal = ∑ k, (A i k).toReal * (C k j).toReal) ∧
      (∀ i, (M55.mulVec A v i).IsFin ∧ (M55.mulVec A v i).toReal = ∑ k, (A i k).toReal * (v k).toReal) ∧
      (V5.dot v w).IsFin ∧ (V5.dot v w).toReal = ∑ k, (v k).toReal * (w k).toReal) ∧
    (2 * K ≤ 2 ^ f.p → ∀ i j, (M55.add A C i j).IsFin ∧ (M55.sub A C i j).IsFin ∧
      (M55.add A C i j).toReal = (A i j).toReal + (C i j).toReal ∧
      (M55.sub A C i j).toReal = (A i j).toReal - (C i j).toReal) := by
  refine ⟨fun h => ?_, fun h => ⟨fun i j => ?_, fun i => ?_, ?_⟩, fun h i j => ?_⟩
  · have h1 := Ex.exact_of hK (x := fun q : Fin 5 × Fin 5 => A q.1 q.2) (fun q => hA q.1 q.2)
      (M55.det (Mat.vars 5)) (t := 120) (d := 5) (by decide +kernel) (by decide +kernel) h
    have h3 : (Matrix.of fun i j => (A i j).toReal).det = M55.det A.re := (M55.det_eq A.re).symm
    rw [h3]
    exact h1
  · have h1 := Ex.exact_of hK (x := Sum.elim (fun q : Fin 5 × Fin 5 => A q.1 q.2) fun q => C q.1 q.2)
      (fun q => by rcases q with q | q <;> [exact hA _ _; exact hC _ _])
      (M55.mul (varsL 5) (varsR 5) i j) (t := 5) (d := 2)
      (by revert i j; decide +kernel) (by revert i j; decide +kernel) h
    have e : (M55.mul (varsL 5) (varsR 5) i j).evalF
        (Sum.elim (fun q : Fin 5 × Fin 5 => A q.1 q.2) fun q => C q.1 q.2) = M55.mul A C i j := by
      fin_cases i <;> fin_cases j <;> rfl
    have e2 : (M55.mul (varsL 5) (varsR 5) i j).evalR
        (Ex.vals (Sum.elim (fun q : Fin 5 × Fin 5 => A q.1 q.2) fun q => C q.1 q.2)) = M55.mul A.re C.re i j := by
      fin_cases i <;> fin_cases j <;> rfl
    rwa [e, e2, C01_mul_M55] at h1
  · have h1 := Ex.exact_of hK (x := Sum.elim (fun q : Fin 5 × Fin 5 => A q.1 q.2) fun q => v q)
      (fun q => by rcases q with q | q <;> [exact hA _ _; exact hv _])
      (M55.mulVec (varsM 5) (varsV 5) i) (t := 5) (d := 2)
      (by revert i; decide +kernel) (by revert i; decide +kernel) h
    have e : (M55.mulVec (varsM 5) (varsV 5) i).evalF
        (Sum.elim (fun q : Fin 5 × Fin 5 => A q.1 q.2) fun q => v q) = M55.mulVec A v i := by
      fin_cases i <;> rfl
    have e2 : (M55.mulVec (varsM 5) (varsV 5) i).evalR
        (Ex.vals (Sum.elim (fun q : Fin 5 × Fin 5 => A q.1 q.2) fun q => v q)) = M55.mulVec A.re v.re i := by
      fin_cases i <;> rfl
    rwa [e, e2, (C03_mulVec_M55 A.re A.re v.re v.re 0).1 i] at h1
  · have h1 := Ex.exact_of hK (x := Sum.elim (fun q : Fin 5 => v q) fun q => w q)
      (fun q => by rcases q with q | q <;> [exact hv _; exact hw _])
      (V5.dot (varsA 5) (varsB 5)) (t := 5) (d := 2) (by decide +kernel) (by decide +kernel) h
    have e2 : (V5.dot (varsA 5) (varsB 5)).evalR (Ex.vals (Sum.elim (fun q : Fin 5 => v q) fun q => w q)) =
        V5.dot v.re w.re := rfl
    rw [e2, V5.dot_eq] at h1
    exact h1
  · have h1 := Ex.exact_of hK (x := Sum.elim (fun q : Fin 5 × Fin 5 => A q.1 q.2) fun q => C q.1 q.2)
      (fun q => by rcases q with q | q <;> [exact hA _ _; exact hC _ _])
      (.add (.var (.inl (i, j))) (.var (.inr (i, j)))) (t := 2) (d := 1) rfl rfl (by simpa using h)
    have h2 := Ex.exact_of hK (x := Sum.elim (fun q : Fin 5 × Fin 5 => A q.1 q.2) fun q => C q.1 q.2)
      (fun q => by rcases q with q | q <;> [exact hA _ _; exact hC _ _])
      (.sub (.var (.inl (i, j))) (.var (.inr (i, j)))) (t := 2) (d := 1) rfl rfl (by simpa using h)
    have e1 : M55.add A C i j = A i j + C i j := by fin_cases i <;> fin_cases j <;> rfl
    have e2 : M55.sub A C i j = A i j - C i j := by fin_cases i <;> fin_cases j <;> rfl
    rw [e1, e2]
    exact ⟨h1.1, h2.1, h1.2, h2.2⟩

set_option maxRecDepth 20000 in
/-- Float matrices with integer entries of magnitude at most `K` have exact sums, differences,
products, dot products and determinants as long as the largest possible result fits in the mantissa. -/
theorem C104_integers_M66 {f : Fmt} (A C : Mat 6 (Flt f)) (v w : Vec 6 (Flt f)) (K : ℕ) (hK : 1 ≤ K)
    (hA : ∀ i j, (A i j).IntLe K) (hC : ∀ i j, (C i j).IntLe K) (hv : ∀ i, (v i).IntLe K) (hw : ∀ i, (w i).IntLe K) :
    (720 * K ^ 6 ≤ 2 ^ f.p →
      (M66.det A).IsFin ∧ (M66.det A).toReal = (Matrix.of fun i j => (A i j).toReal).det) ∧
    (6 * K ^ 2 ≤ 2 ^ f.p →
      (∀ i j, (M66.mul A C i j).IsFin ∧ (M66.mul A C i j).toReal = ∑ k, (A i k).toReal * (C k j).toReal) ∧
      (∀ i, (M66.mulVec A v i).IsFin ∧ (M66.mulVec A v i).toReal = ∑ k, (A i k).toReal * (v k).toReal) ∧
      (V6.dot v w).IsFin ∧ (V6.dot v w).toReal = ∑ k, (v k).toReal * (w k).toReal) ∧
    (2 * K ≤ 2 ^ f.p → ∀ i j, (M66.add A C i j).IsFin ∧ (M66.sub A C i j).IsFin ∧
      (M66.add A C i j).toReal = (A i j).toReal + (C i j).toReal ∧
      (M66.sub A C i j).toReal = (A i j).toReal - (C i j).toReal) := by
  refine ⟨fun h => ?_, fun h => ⟨fun i j => ?_, fun i => ?_, ?_⟩, fun h i j => ?_⟩
  · have h1 := Ex.exact_of hK (x := fun q : Fin 6 × Fin 6 => A q.1 q.2) (fun q => hA q.1 q.2)
      (M66.det (Mat.vars 6)) (t := 720) (d := 6) (by decide +kernel) (by decide +kernel) h
    have h3 : (Matrix.of fun i j => (A i j).toReal).det = M66.det A.re := (M66.det_eq A.re).symm
    rw [h3]
    exact h1
  · have h1 := Ex.exact_of hK (x := Sum.elim (fun q : Fin 6 × Fin 6 => A q.1 q.2) fun q => C q.1 q.2)
      (fun q => by rcases q with q | q <;> [exact hA _ _; exact hC _ _])
      (M66.mul (varsL 6) (varsR 6) i j) (t := 6) (d := 2)
      (by revert i j; decide +kernel) (by revert i j; decide +kernel) h
    have e : (M66.mul (varsL 6) (varsR 6) i j).evalF
        (Sum.elim (fun q : Fin 6 × Fin 6 => A q.1 q.2) fun q => C q.1 q.2) = M66.mul A C i j := by
      fin_cases i <;> fin_cases j <;> rfl
    have e2 : (M66.mul (varsL 6) (varsR 6) i j).evalR
        (Ex.vals (Sum.elim (fun q : Fin 6 × Fin 6 => A q.1 q.2) fun q => C q.1 q.2)) = M66.mul A.re C.re i j := by
      fin_cases i <;> fin_cases j <;> rfl
    rwa [e, e2, C01_mul_M66] at h1
  · have h1 := Ex.exact_of hK (x := Sum.elim (fun q : Fin 6 × Fin 6 => A q.1 q.2) fun q => v q)
      (fun q => by rcases q with q | q <;> [exact hA _ _; exact hv _])
      (M66.mulVec (varsM 6) (varsV 6) i) (t := 6) (d := 2)
      (by revert i; decide +kernel) (by revert i; decide +kernel) h
    have e : (M66.mulVec (varsM 6) (varsV 6) i).evalF
        (Sum.elim (fun q : Fin 6 × Fin 6 => A q.1 q.2) fun q => v q) = M66.mulVec A v i := by
      fin_cases i <;> rfl
    have e2 : (M66.mulVec (varsM 6) (varsV 6) i).evalR
        (Ex.vals (Sum.elim (fun q : Fin 6 × Fin 6 => A q.1 q.2) fun q => v q)) = M66.mulVec A.re v.re i := by
      fin_cases i <;> rfl
    rwa [e, e2, (C03_mulVec_M66 A.re A.re v.re v.re 0).1 i] at h1
  · have h1 := Ex.exact_of hK (x := Sum.elim (fun q : Fin 6 => v q) fun q => w q)
      (fun q => by rcases q with q | q <;> [exact hv _; exact hw _])
      (V6.dot (varsA 6) (varsB 6)) (t := 6) (d := 2) (by decide +kernel) (by decide +kernel) h
    have e2 : (V6.dot (varsA 6) (varsB 6)).evalR (Ex.vals (Sum.elim (fun q : Fin 6 => v q) fun q => w q)) =
        V6.dot v.re w.re := rfl
    rw [e2, V6.dot_eq] at h1
    exact h1
  · have h1 := Ex.exact_of hK (x := Sum.elim (fun q : Fin 6 × Fin 6 => A q.1 q.2) fun q => C q.1 q.2)
      (fun q => by rcases q with q | q <;> [exact hA _ _; exact hC _ _])
      (.add (.var (.inl (i, j))) (.var (.inr (i, j)))) (t := 2) (d := 1) rfl rfl (by simpa using h)
    have h2 := Ex.exact_of hK (x := Sum.elim (fun q : Fin 6 × Fin 6 => A q.1 q.2) fun q => C q.1 q.2)
      (fun q => by rcases q with q | q <;> [exact hA _ _; exact hC _ _])
      (.sub (.var (.inl (i, j))) (.var (.inr (i, j)))) (t := 2) (d := 1) rfl rfl (by simpa using h)
    have e1 : M66.add A C i j = A i j + C i j := by fin_cases i <;> fin_cases j <;> rfl
    have e2 : M66.sub A C i j = A i j - C i j := by fin_cases i <;> fin_cases j <;> rfl
    rw [e1, e2]
    exact ⟨h1.1, h2.1, h1.2, h2.2⟩

/-- Single precision `3x3` matrices with integer entries up to a hundred have exact determinants; the
all-ones matrix is one of them. -/
example (A : Mat 3 (Flt Fmt.f32)) (hA : ∀ i j, (A i j).IntLe 100) :
    (M33.det A).toReal = (Matrix.of fun i j => (A i j).toReal).det :=
  ((C104_integers_M33 A A ⟨fun i => A i 0⟩ ⟨fun i => A i 0⟩ 100 (by norm_num) hA hA (fun i => hA i 0)
    (fun i => hA i 0)).1 (by norm_num [Fmt.f32])).2

example : ((⟨fun _ _ => 1⟩ : Mat 3 (Flt Fmt.f32)) 2 1).IntLe 100 :=
  ⟨isFin_one, 1, by rw [toReal_one]; norm_num, by norm_num⟩

end StaticMath
