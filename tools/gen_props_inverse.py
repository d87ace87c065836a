#!/usr/bin/env python3
"""Generate lean/Verif/Props/Inverse.lean (C08-C11), one theorem per size."""
import sys
NS = range(2, 7)
out = ['''import Verif.Lemmas.Inverse
import Mathlib.Tactic.NormNum

/-!
# C08-C11: matrix inverse

Generated by `tools/gen_props_inverse.py` (the same statement for every size 2..6). The entries are
exact reals; the threshold `T::epsilon()` is any positive number at most `1e-6`.
-/

namespace StaticMath

variable [P : RealParams]

omit P in
private theorem inv_aux {n : ℕ} (A : Mat n ℝ) (d : ℝ) (hd : d = A.toM.det) (h0 : d ≠ 0) (B : Mat n ℝ)
    (hB : B = ⟨fun i j => A.toM.adjugate i j * d⁻¹⟩) : A.toM * B.toM = 1 ∧ B.toM * A.toM = 1 := by
  have hBM : B.toM = d⁻¹ • A.toM.adjugate := by
    rw [hB]; ext i j; simp [Mat.toM, mul_comm]
  subst hd
  rw [hBM, Matrix.mul_smul, Matrix.smul_mul, Matrix.mul_adjugate, Matrix.adjugate_mul, smul_smul,
    inv_mul_cancel₀ h0, one_smul]
  exact ⟨rfl, rfl⟩
''']
def sec(t): out.append('\n/-! ' + t + ' -/\n')
sec('## C09 `inverse` never panics; `None` exactly below the threshold')
for n in NS:
    M = f'M{n}{n}'
    out.append(f'''
theorem C09_inverse_{M} (A : Mat {n} ℝ) :
    ∃ o, {M}.inverse A = .ok o ∧ (o = none ↔ |A.toM.det| < P.eps) ∧ (A.toM.det = 0 → o = none) := by
  have hd : {M}.det A = A.toM.det := {M}.det_eq A
  refine ⟨_, {M}.inverse_eq A, ?_, fun h => ?_⟩
  · rw [hd]; split <;> simp_all
  · rw [hd, h, if_pos (by simpa using P.eps_pos)]
''')
sec('## C08 A returned inverse is two-sided')
for n in NS:
    M = f'M{n}{n}'
    out.append(f'''
theorem C08_inverse_{M} (A B : Mat {n} ℝ) (h : {M}.inverse A = .ok (some B)) :
    {M}.mul A B = {M}.one ∧ {M}.mul B A = {M}.one := by
  rw [{M}.inverse_eq] at h
  have h' := Except.ok.inj h
  split at h'
  · simp at h'
  · rename_i hlt
    have h0 : {M}.det A ≠ 0 := fun h0 => hlt (by rw [h0, abs_zero]; exact P.eps_pos)
    have := inv_aux A _ ({M}.det_eq A) h0 B (Option.some.inj h').symm
    rw [← Mat.toM_inj, ← Mat.toM_inj, {M}.toM_mul, {M}.toM_mul, {M}.toM_one]
    exact this
''')
out.append('''
/-- the hypothesis can be met: `diag(2, 1)` has an inverse -/
example : ∃ B, M22.inverse (⟨![![2, 0], ![0, 1]]⟩ : Mat 2 ℝ) = .ok (some B) := by
  have h := P.eps_le
  have hd : M22.det (⟨![![2, 0], ![0, 1]]⟩ : Mat 2 ℝ) = 2 := by
    rw [M22.det_eq, Matrix.det_fin_two]; simp
  rw [M22.inverse_eq, hd, if_neg (by norm_num at h ⊢; linarith)]
  exact ⟨_, rfl⟩
''')
sec('''## C10 `inverse` fails only for singular matrices

False: the determinant is compared with an absolute threshold. -/

/-- The identity with its first entry replaced by `c`. -/
def almostOne (n : ℕ) (c : ℝ) : Mat n ℝ := ⟨fun i j => if i = j then (if i.val = 0 then c else 1) else 0⟩

omit P in
theorem almostOne_det (n : ℕ) (c : ℝ) : (almostOne (n + 1) c).toM.det = c := by
  have : (almostOne (n + 1) c).toM = Matrix.diagonal (fun i => if i.val = 0 then c else 1) := by
    ext i j; simp [almostOne, Mat.toM, Matrix.diagonal]
  rw [this, Matrix.det_diagonal, Fin.prod_univ_succ]
  simp

/-! One counterexample and one positive statement per size.''')
for n in NS:
    M = f'M{n}{n}'
    out.append(f'''
/-- C10 is false: a matrix with determinant `ε/2 ≠ 0` is refused. -/
theorem C10_inverse_{M}_false : ∃ A : Mat {n} ℝ, A.toM.det ≠ 0 ∧ {M}.inverse A = .ok none := by
  have h := P.eps_pos
  refine ⟨almostOne {n} (P.eps / 2), by rw [almostOne_det]; positivity, ?_⟩
  rw [{M}.inverse_eq, if_pos]
  rw [show {M}.det _ = _ from {M}.det_eq _, ← Mat.toM, almostOne_det, abs_of_pos (by positivity)]
  linarith

/-- What holds: an inverse is returned when `|det| ≥ ε`. Missing: `0 < |det| < ε` (false there). -/
theorem C10_inverse_{M}_partial (A : Mat {n} ℝ) (h : P.eps ≤ |A.toM.det|) :
    ∃ B, {M}.inverse A = .ok (some B) := by
  rw [{M}.inverse_eq, if_neg (not_lt.2 (by rwa [show {M}.det A = _ from {M}.det_eq A]))]
  exact ⟨_, rfl⟩
''')
out.append('''
example : P.eps ≤ |(almostOne 3 7).toM.det| := by
  have h := P.eps_le
  rw [almostOne_det]; norm_num at h ⊢; linarith

omit P in
/-- With the double-precision epsilon `2^-52`, a rotation-free uniform scaling by `1/1000` of 6-space
(perfectly conditioned, determinant `10^-18`) is refused. -/
theorem C10_scaling_false : @M66.inverse ℝ _ _ _ _ _ _ _ _ _ (@instRFloatReal f64Params) (⟨fun i j => if i = j then 1 / 1000 else 0⟩ : Mat 6 ℝ) = .ok none := by
  letI : RealParams := f64Params
  rw [M66.inverse_eq, if_pos]
  have : (Matrix.of fun i j : Fin 6 => if i = j then (1 / 1000 : ℝ) else 0)
      = Matrix.diagonal (fun _ => (1 / 1000 : ℝ)) := by
    ext i j; simp [Matrix.diagonal]
  rw [M66.det_eq, this, Matrix.det_diagonal, Finset.prod_const]
  change _ < 1 / (2 : ℝ) ^ 52
  norm_num
''')
sec('## C11 The inverse solves linear systems')
for n in NS:
    M = f'M{n}{n}'
    out.append(f'''
theorem C11_solve_{M} (A B : Mat {n} ℝ) (h : {M}.inverse A = .ok (some B)) (b : Vec {n} ℝ) :
    {M}.mulVec A ({M}.mulVec B b) = b ∧ ∀ x, {M}.mulVec A x = b → x = {M}.mulVec B b := by
  obtain ⟨h1, h2⟩ := C08_inverse_{M} A B h
  rw [← Mat.toM_inj, {M}.toM_mul, {M}.toM_one] at h1 h2
  have e (C : Mat {n} ℝ) (v : Vec {n} ℝ) : ({M}.mulVec C v).val = C.toM.mulVec v.val := {M}.val_mulVec C v
  refine ⟨Vec.ext ?_, fun x hx => Vec.ext ?_⟩
  · rw [e, e, Matrix.mulVec_mulVec, h1, Matrix.one_mulVec]
  · rw [e, ← hx, e, Matrix.mulVec_mulVec, h2, Matrix.one_mulVec]
''')
out.append('\nend StaticMath\n')
open(sys.argv[1], 'w').write(''.join(out))
