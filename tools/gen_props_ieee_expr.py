#!/usr/bin/env python3
"""Writes lean/Verif/Props/IeeeDet.lean (C102-C104)."""
from math import factorial
out=['''import Verif.Lemmas.IeeeExpr
import Verif.Lemmas.Perm
import Verif.Lemmas.Det
import Mathlib.Analysis.SpecialFunctions.Log.Deriv
import Mathlib.Analysis.Complex.ExponentialBounds
import Verif.Props.Ring
import Verif.Props.Vector

/-!
# C102–C104: floating point determinants, absence of overflow, exactness on integers

Generated by `tools/gen_props_ieee_expr.py`. `a.FinLe B`: finite and of magnitude at most `B`;
`a.IntLe K`: a finite integer value of magnitude at most `K`. `f.u = 2^-p` is the unit roundoff,
`f.eta` half the smallest positive number.
-/

namespace StaticMath
open Flt

/-- Real values of the entries. -/
noncomputable abbrev Mat.re {f : Fmt} {n : ℕ} (A : Mat n (Flt f)) : Mat n ℝ := ⟨fun i j => (A i j).toReal⟩
/-- Real values of the components. -/
noncomputable abbrev Vec.re {f : Fmt} {n : ℕ} (v : Vec n (Flt f)) : Vec n ℝ := ⟨fun i => (v i).toReal⟩

/-- Two matrices of variables. -/
private def varsL (n : ℕ) : Mat n (Ex (Fin n × Fin n ⊕ Fin n × Fin n)) := ⟨fun i j => .var (.inl (i, j))⟩
private def varsR (n : ℕ) : Mat n (Ex (Fin n × Fin n ⊕ Fin n × Fin n)) := ⟨fun i j => .var (.inr (i, j))⟩
/-- A matrix and a vector of variables. -/
private def varsM (n : ℕ) : Mat n (Ex (Fin n × Fin n ⊕ Fin n)) := ⟨fun i j => .var (.inl (i, j))⟩
private def varsV (n : ℕ) : Vec n (Ex (Fin n × Fin n ⊕ Fin n)) := ⟨fun i => .var (.inr i)⟩
/-- Two vectors of variables. -/
private def varsA (n : ℕ) : Vec n (Ex (Fin n ⊕ Fin n)) := ⟨fun i => .var (.inl i)⟩
private def varsB (n : ℕ) : Vec n (Ex (Fin n ⊕ Fin n)) := ⟨fun i => .var (.inr i)⟩

/-! ## C102 error of the determinant -/
''']
depth={2:2,3:None,4:26,5:123,6:724}
depth[3]=5
und={2:'2',3:'3 + 6 * B',4:'24 * (1 + B + B ^ 2)',5:'120 * (1 + B + B ^ 2 + B ^ 3)',6:'720 * (1 + B + B ^ 2 + B ^ 3 + B ^ 4)'}
undl={2:'[2]',3:'[3, 6]',4:'[24, 24, 24]',5:'[120, 120, 120, 120]',6:'[720, 720, 720, 720, 720]'}
cnt={2:4,3:15,4:96,5:600,6:4320}
for n in range(2,7):
    M=f'M{n}{n}'; d=depth[n]
    opt='set_option maxRecDepth 20000 in\n' if n>=5 else ''
    out.append(f'''{opt}/-- The computed `{n}x{n}` determinant differs from the true one by at most `(1+u)^{d} - 1` times the
permanent of the absolute values, plus an underflow term. -/
theorem C102_det_{M} {{f : Fmt}} (A : Mat {n} (Flt f)) (B : ℝ) (hB : ∀ i j, |(A i j).toReal| ≤ B)
    (h : ({M}.det A).IsFin) :
    |({M}.det A).toReal - (Matrix.of fun i j => (A i j).toReal).det| ≤
      ((1 + f.u) ^ {d} - 1) * (Matrix.of fun i j => |(A i j).toReal|).permanent +
      (1 + f.u) ^ {d} * (f.eta * ({und[n]})) := by
  have h1 := Ex.err_of (x := fun q : Fin {n} × Fin {n} => A q.1 q.2) (B := B) (fun q => hB q.1 q.2)
    ({M}.det (Mat.vars {n})) (k := {d}) (l := {undl[n]}) (by decide +kernel) (by decide +kernel) (by decide +kernel) h
  have h2 := {M}.perm_eq A.re
  have h3 : (Matrix.of fun i j => (A i j).toReal).det = {M}.det A.re := ({M}.det_eq A.re).symm
  have h4 : Ex.polyL B {undl[n]} = {und[n]} := by
    simp only [Ex.polyL]; push_cast; ring
  rw [h4] at h1
  rw [h3, ← h2]
  exact h1
''')
out.append('''/-- Concrete case: the determinant of a `2x2` matrix of single precision ones. -/
example : |(M22.det (⟨![![1, 1], ![1, 1]]⟩ : Mat 2 (Flt Fmt.f32))).toReal - 0| ≤
    ((1 + Fmt.f32.u) ^ 2 - 1) * 2 + (1 + Fmt.f32.u) ^ 2 * (Fmt.f32.eta * 2) := by
  have hfin : (M22.det (⟨![![1, 1], ![1, 1]]⟩ : Mat 2 (Flt Fmt.f32))).IsFin := by
    change ((1 : Flt Fmt.f32) * 1 - 1 * 1).IsFin
    rw [mul_one']
    exact (sub_exact isFin_one isFin_one (by rw [sub_self, abs_zero]; exact Fmt.f32.rep_zero)).1
  have h := C102_det_M22 (⟨![![1, 1], ![1, 1]]⟩ : Mat 2 (Flt Fmt.f32)) 1
    (fun i j => by fin_cases i <;> fin_cases j <;> simp [toReal_one]) hfin
  have e1 : (Matrix.of fun i j => ((⟨![![1, 1], ![1, 1]]⟩ : Mat 2 (Flt Fmt.f32)) i j).toReal).det = 0 := by
    rw [Matrix.det_fin_two]; simp [toReal_one]
  have e2 : (Matrix.of fun i j => |((⟨![![1, 1], ![1, 1]]⟩ : Mat 2 (Flt Fmt.f32)) i j).toReal|).permanent = 2 := by
    rw [PermExpand.per2]; simp [PermExpand.p2, toReal_one]; norm_num
  rw [e1, e2] at h
  exact h

/-! ## C103 no overflow, no NaN -/
''')
for n in range(2,7):
    M=f'M{n}{n}'; V=f'V{n}'; d=depth[n]
    opt='set_option maxRecDepth 20000 in\n' if n>=5 else ''
    out.append(f'''{opt}/-- Finite entries bounded by `B ≥ 1` give a finite determinant, product, matrix-vector product and dot
product, as long as the stated bounds are below the overflow threshold. -/
theorem C103_no_overflow_{M} {{f : Fmt}} (A C : Mat {n} (Flt f)) (v w : Vec {n} (Flt f)) (B : ℝ) (hB : 1 ≤ B)
    (hA : ∀ i j, (A i j).FinLe B) (hC : ∀ i j, (C i j).FinLe B) (hv : ∀ i, (v i).FinLe B) (hw : ∀ i, (w i).FinLe B) :
    ((1 + f.u) ^ {d} * ({cnt[n]} * B ^ {n}) < (2 : ℝ) ^ (f.emax + 1) → ({M}.det A).IsFin) ∧
    ((1 + f.u) ^ {n} * ({2*n} * B ^ 2) < (2 : ℝ) ^ (f.emax + 1) →
      (∀ i j, ({M}.mul A C i j).IsFin) ∧ (∀ i, ({M}.mulVec A v i).IsFin) ∧ ({V}.dot v w).IsFin) := by
  refine ⟨fun h => ?_, fun h => ⟨fun i j => ?_, fun i => ?_, ?_⟩⟩
  · exact Ex.isFin_of hB (x := fun q : Fin {n} × Fin {n} => A q.1 q.2) (fun q => hA q.1 q.2)
      ({M}.det (Mat.vars {n})) (k := {d}) (c := {cnt[n]}) (d := {n}) (by decide +kernel) (by decide +kernel) (by decide +kernel)
      (by exact_mod_cast h)
  · have h1 := Ex.isFin_of hB (x := Sum.elim (fun q : Fin {n} × Fin {n} => A q.1 q.2) fun q => C q.1 q.2)
      (fun q => by rcases q with q | q <;> [exact hA _ _; exact hC _ _])
      ({M}.mul (varsL {n}) (varsR {n}) i j) (k := {n}) (c := {2*n}) (d := 2)
      (by revert i j; decide +kernel) (by revert i j; decide +kernel) (by revert i j; decide +kernel) (by exact_mod_cast h)
    have e : ({M}.mul (varsL {n}) (varsR {n}) i j).evalF
        (Sum.elim (fun q : Fin {n} × Fin {n} => A q.1 q.2) fun q => C q.1 q.2) = {M}.mul A C i j := by
      fin_cases i <;> fin_cases j <;> rfl
    rwa [e] at h1
  · have h1 := Ex.isFin_of hB (x := Sum.elim (fun q : Fin {n} × Fin {n} => A q.1 q.2) fun q => v q)
      (fun q => by rcases q with q | q <;> [exact hA _ _; exact hv _])
      ({M}.mulVec (varsM {n}) (varsV {n}) i) (k := {n}) (c := {2*n}) (d := 2)
      (by revert i; decide +kernel) (by revert i; decide +kernel) (by revert i; decide +kernel) (by exact_mod_cast h)
    have e : ({M}.mulVec (varsM {n}) (varsV {n}) i).evalF
        (Sum.elim (fun q : Fin {n} × Fin {n} => A q.1 q.2) fun q => v q) = {M}.mulVec A v i := by
      fin_cases i <;> rfl
    rwa [e] at h1
  · exact Ex.isFin_of hB (x := Sum.elim (fun q : Fin {n} => v q) fun q => w q)
      (fun q => by rcases q with q | q <;> [exact hv _; exact hw _])
      ({V}.dot (varsA {n}) (varsB {n})) (k := {n}) (c := {2*n}) (d := 2)
      (by decide +kernel) (by decide +kernel) (by decide +kernel) (by exact_mod_cast h)
''')
out.append('''set_option maxRecDepth 20000 in
/-- Single precision `6x6` matrices with entries up to a thousand never overflow in `det`; the
all-ones matrix is one of them. -/
example (A : Mat 6 (Flt Fmt.f32)) (hA : ∀ i j, (A i j).FinLe 1000) : (M66.det A).IsFin := by
  refine (C103_no_overflow_M66 A A ⟨fun i => A i 0⟩ ⟨fun i => A i 0⟩ 1000 (by norm_num) hA hA (fun i => hA i 0)
    (fun i => hA i 0)).1 ?_
  have h1 : (1 + Fmt.f32.u) ^ 724 ≤ 2 := by
    have h2 : (1 + Fmt.f32.u) ^ 724 ≤ Real.exp (724 * Fmt.f32.u) := by
      rw [show (724 : ℝ) = ((724 : ℕ) : ℝ) by norm_num, Real.exp_nat_mul]
      exact pow_le_pow_left₀ (by have := Fmt.f32.u_pos; linarith) (by linarith [Real.add_one_le_exp Fmt.f32.u]) _
    have h3 : 724 * Fmt.f32.u ≤ Real.log 2 := by
      have := Real.log_two_gt_d9
      have h4 : Fmt.f32.u = 1 / 16777216 := by norm_num [Fmt.u, Fmt.f32]
      rw [h4]; linarith
    calc _ ≤ _ := h2
      _ ≤ Real.exp (Real.log 2) := Real.exp_le_exp.mpr h3
      _ = 2 := Real.exp_log (by norm_num)
  calc (1 + Fmt.f32.u) ^ 724 * (4320 * 1000 ^ 6) ≤ 2 * (4320 * 1000 ^ 6) := by gcongr
    _ < _ := by norm_num [Fmt.f32]

example : (⟨fun _ _ => 1⟩ : Mat 6 (Flt Fmt.f32)) 2 3 |>.FinLe 1000 :=
  ⟨isFin_one, by rw [toReal_one]; norm_num⟩

/-! ## C104 exactness on integers -/
''')
for n in range(2,7):
    M=f'M{n}{n}'; V=f'V{n}'
    opt='set_option maxRecDepth 20000 in\n' if n>=5 else ''
    out.append(f'''{opt}/-- Float matrices with integer entries of magnitude at most `K` have exact sums, differences,
products, dot products and determinants as long as the largest possible result fits in the mantissa. -/
theorem C104_integers_{M} {{f : Fmt}} (A C : Mat {n} (Flt f)) (v w : Vec {n} (Flt f)) (K : ℕ) (hK : 1 ≤ K)
    (hA : ∀ i j, (A i j).IntLe K) (hC : ∀ i j, (C i j).IntLe K) (hv : ∀ i, (v i).IntLe K) (hw : ∀ i, (w i).IntLe K) :
    ({factorial(n)} * K ^ {n} ≤ 2 ^ f.p →
      ({M}.det A).IsFin ∧ ({M}.det A).toReal = (Matrix.of fun i j => (A i j).toReal).det) ∧
    ({n} * K ^ 2 ≤ 2 ^ f.p →
      (∀ i j, ({M}.mul A C i j).IsFin ∧ ({M}.mul A C i j).toReal = ∑ k, (A i k).toReal * (C k j).toReal) ∧
      (∀ i, ({M}.mulVec A v i).IsFin ∧ ({M}.mulVec A v i).toReal = ∑ k, (A i k).toReal * (v k).toReal) ∧
      ({V}.dot v w).IsFin ∧ ({V}.dot v w).toReal = ∑ k, (v k).toReal * (w k).toReal) ∧
    (2 * K ≤ 2 ^ f.p → ∀ i j, ({M}.add A C i j).IsFin ∧ ({M}.sub A C i j).IsFin ∧
      ({M}.add A C i j).toReal = (A i j).toReal + (C i j).toReal ∧
      ({M}.sub A C i j).toReal = (A i j).toReal - (C i j).toReal) := by
  refine ⟨fun h => ?_, fun h => ⟨fun i j => ?_, fun i => ?_, ?_⟩, fun h i j => ?_⟩
  · have h1 := Ex.exact_of hK (x := fun q : Fin {n} × Fin {n} => A q.1 q.2) (fun q => hA q.1 q.2)
      ({M}.det (Mat.vars {n})) (t := {factorial(n)}) (d := {n}) (by decide +kernel) (by decide +kernel) h
    have h3 : (Matrix.of fun i j => (A i j).toReal).det = {M}.det A.re := ({M}.det_eq A.re).symm
    rw [h3]
    exact h1
  · have h1 := Ex.exact_of hK (x := Sum.elim (fun q : Fin {n} × Fin {n} => A q.1 q.2) fun q => C q.1 q.2)
      (fun q => by rcases q with q | q <;> [exact hA _ _; exact hC _ _])
      ({M}.mul (varsL {n}) (varsR {n}) i j) (t := {n}) (d := 2)
      (by revert i j; decide +kernel) (by revert i j; decide +kernel) h
    have e : ({M}.mul (varsL {n}) (varsR {n}) i j).evalF
        (Sum.elim (fun q : Fin {n} × Fin {n} => A q.1 q.2) fun q => C q.1 q.2) = {M}.mul A C i j := by
      fin_cases i <;> fin_cases j <;> rfl
    have e2 : ({M}.mul (varsL {n}) (varsR {n}) i j).evalR
        (Ex.vals (Sum.elim (fun q : Fin {n} × Fin {n} => A q.1 q.2) fun q => C q.1 q.2)) = {M}.mul A.re C.re i j := by
      fin_cases i <;> fin_cases j <;> rfl
    rwa [e, e2, C01_mul_{M}] at h1
  · have h1 := Ex.exact_of hK (x := Sum.elim (fun q : Fin {n} × Fin {n} => A q.1 q.2) fun q => v q)
      (fun q => by rcases q with q | q <;> [exact hA _ _; exact hv _])
      ({M}.mulVec (varsM {n}) (varsV {n}) i) (t := {n}) (d := 2)
      (by revert i; decide +kernel) (by revert i; decide +kernel) h
    have e : ({M}.mulVec (varsM {n}) (varsV {n}) i).evalF
        (Sum.elim (fun q : Fin {n} × Fin {n} => A q.1 q.2) fun q => v q) = {M}.mulVec A v i := by
      fin_cases i <;> rfl
    have e2 : ({M}.mulVec (varsM {n}) (varsV {n}) i).evalR
        (Ex.vals (Sum.elim (fun q : Fin {n} × Fin {n} => A q.1 q.2) fun q => v q)) = {M}.mulVec A.re v.re i := by
      fin_cases i <;> rfl
    rwa [e, e2, (C03_mulVec_{M} A.re A.re v.re v.re 0).1 i] at h1
  · have h1 := Ex.exact_of hK (x := Sum.elim (fun q : Fin {n} => v q) fun q => w q)
      (fun q => by rcases q with q | q <;> [exact hv _; exact hw _])
      ({V}.dot (varsA {n}) (varsB {n})) (t := {n}) (d := 2) (by decide +kernel) (by decide +kernel) h
    have e2 : ({V}.dot (varsA {n}) (varsB {n})).evalR (Ex.vals (Sum.elim (fun q : Fin {n} => v q) fun q => w q)) =
        {V}.dot v.re w.re := rfl
    rw [e2, {V}.dot_eq] at h1
    exact h1
  · have h1 := Ex.exact_of hK (x := Sum.elim (fun q : Fin {n} × Fin {n} => A q.1 q.2) fun q => C q.1 q.2)
      (fun q => by rcases q with q | q <;> [exact hA _ _; exact hC _ _])
      (.add (.var (.inl (i, j))) (.var (.inr (i, j)))) (t := 2) (d := 1) rfl rfl (by simpa using h)
    have h2 := Ex.exact_of hK (x := Sum.elim (fun q : Fin {n} × Fin {n} => A q.1 q.2) fun q => C q.1 q.2)
      (fun q => by rcases q with q | q <;> [exact hA _ _; exact hC _ _])
      (.sub (.var (.inl (i, j))) (.var (.inr (i, j)))) (t := 2) (d := 1) rfl rfl (by simpa using h)
    have e1 : {M}.add A C i j = A i j + C i j := by fin_cases i <;> fin_cases j <;> rfl
    have e2 : {M}.sub A C i j = A i j - C i j := by fin_cases i <;> fin_cases j <;> rfl
    rw [e1, e2]
    exact ⟨h1.1, h2.1, h1.2, h2.2⟩
''')
out.append('''/-- Single precision `3x3` matrices with integer entries up to a hundred have exact determinants; the
all-ones matrix is one of them. -/
example (A : Mat 3 (Flt Fmt.f32)) (hA : ∀ i j, (A i j).IntLe 100) :
    (M33.det A).toReal = (Matrix.of fun i j => (A i j).toReal).det :=
  ((C104_integers_M33 A A ⟨fun i => A i 0⟩ ⟨fun i => A i 0⟩ 100 (by norm_num) hA hA (fun i => hA i 0)
    (fun i => hA i 0)).1 (by norm_num [Fmt.f32])).2

example : ((⟨fun _ _ => 1⟩ : Mat 3 (Flt Fmt.f32)) 2 1).IntLe 100 :=
  ⟨isFin_one, 1, by rw [toReal_one]; norm_num, by norm_num⟩

end StaticMath
''')
open('/verif/lean/Verif/Props/IeeeDet.lean','w').write('\n'.join(out))
