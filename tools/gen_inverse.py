#!/usr/bin/env python3
"""Generate lean/Verif/Lemmas/Inverse.lean (closed form of inverse())."""
import sys
out = ['''import Verif.Lemmas.Views
import Verif.Lemmas.Det
import Verif.Lemmas.Transfer
import Verif.Exact
import Verif.Spec.Basic
import Mathlib.LinearAlgebra.Matrix.Adjugate
import Mathlib.LinearAlgebra.Matrix.NonsingularInverse

/-!
# `inverse()` is the adjugate divided by the determinant

Generated by `tools/gen_inverse.py`.
-/

namespace StaticMath

theorem nearly_zero_iff [P : RealParams] (a : ℝ) : nearly_zero a = true ↔ |a| < P.eps := by
  have := P.eps_pos
  unfold nearly_zero nearly_equal
  by_cases h : a = 0
  · simp [h, this]
  · simp [h]

theorem nearly_zero_eq [P : RealParams] (a : ℝ) : nearly_zero a = decide (|a| < P.eps) := by
  by_cases h : |a| < P.eps
  · simp [h, (nearly_zero_iff a).2 h]
  · simp only [h, decide_false]
    exact Bool.eq_false_iff.2 fun hh => h ((nearly_zero_iff a).1 hh)

/-- A double loop writing every entry (transposed). -/
theorem forRange_set_mat {T : Type} {n : ℕ} (m : Mat n T) (g : Fin n → Fin n → T)
    (body : ℕ → ℕ → Mat n T → MayPanic (Mat n T))
    (hb : ∀ i j (hi : i < n) (hj : j < n) r, body i j r = r.set j i (g ⟨j, hj⟩ ⟨i, hi⟩)) :
    forRange 0 n m (fun i r => forRange 0 n r (body i)) = .ok ⟨g⟩ := by
  obtain ⟨s', hs, hP⟩ := forRange_invariant
    (fun k (r : Mat n T) => ∀ a b : Fin n, b.val < k → r.val a b = g a b) 0 n (Nat.zero_le _) m
    (fun i r => forRange 0 n r (body i))
    (fun a b h => absurd h (Nat.not_lt_zero _))
    (fun i s _ hi hinv => by
      obtain ⟨s', hs, hP⟩ := forRange_invariant
        (fun k (r : Mat n T) => ∀ a b : Fin n, (b.val < i ∨ b.val = i ∧ a.val < k) →
          r.val a b = g a b) 0 n (Nat.zero_le _) s (body i)
        (fun a b h => hinv a b (by omega))
        (fun j s _ hj hinv => by
          refine ⟨_, by rw [hb i j hi hj, Mat.set_ok _ _ _ hj hi], fun a b h => ?_⟩
          by_cases hab : a = ⟨j, hj⟩ ∧ b = ⟨i, hi⟩
          · simp only [hab.1, hab.2, and_self, if_true]
          · simp only [hab, if_false]
            have hne : ¬(a.val = j ∧ b.val = i) := fun h => hab ⟨Fin.ext h.1, Fin.ext h.2⟩
            exact hinv a b (by omega))
      exact ⟨s', hs, fun a b h => hP a b (by have := a.isLt; omega)⟩)
  rw [hs]
  congr 1
  exact Mat.ext (funext fun a => funext fun b => hP a b b.isLt)

variable [P : RealParams]

theorem M22.inverse_eq (A : Mat 2 ℝ) :
    M22.inverse A = .ok (if |M22.det A| < P.eps then none
      else some ⟨fun i j => A.toM.adjugate i j * (M22.det A)⁻¹⟩) := by
  unfold M22.inverse
  by_cases h : |M22.det A| < P.eps
  · simp only [nearly_zero_eq, h, decide_true, if_true]; rfl
  · simp only [nearly_zero_eq, h, decide_false, if_false, Bool.not_false, if_true]
    refine Eq.trans (b := Except.ok (some _)) rfl (congrArg _ (congrArg _ (Mat.ext
      (funext fun i => funext fun j => ?_))))
    rw [Matrix.adjugate_fin_two]
    fin_cases i <;> fin_cases j <;> rfl

theorem M33.inverse_eq (A : Mat 3 ℝ) :
    M33.inverse A = .ok (if |M33.det A| < P.eps then none
      else some ⟨fun i j => A.toM.adjugate i j * (M33.det A)⁻¹⟩) := by
  unfold M33.inverse
  by_cases h : |M33.det A| < P.eps
  · simp only [nearly_zero_eq, h, decide_true, if_true]; rfl
  · simp only [nearly_zero_eq, h, decide_false, if_false, Bool.not_false, if_true]
    refine Eq.trans (b := Except.ok (some _)) rfl (congrArg _ (congrArg _ (Mat.ext
      (funext fun i => funext fun j => ?_))))
    rw [Matrix.adjugate_fin_three]
    fin_cases i <;> fin_cases j
''']
# entries of M33 inverse, as in the model, for the change tactic
ent = [[((1,1),(2,2),(2,1),(1,2)), ((0,2),(2,1),(0,1),(2,2)), ((0,1),(1,2),(0,2),(1,1))],
       [((1,2),(2,0),(1,0),(2,2)), ((0,0),(2,2),(0,2),(2,0)), ((1,0),(0,2),(0,0),(1,2))],
       [((1,0),(2,1),(2,0),(1,1)), ((2,0),(0,1),(0,0),(2,1)), ((0,0),(1,1),(1,0),(0,1))]]
a = lambda p: f'A.val {p[0]} {p[1]}'
# Mathlib adjugate_fin_three
adj = [[((1,1),(2,2),(1,2),(2,1),1), ((0,1),(2,2),(0,2),(2,1),-1), ((0,1),(1,2),(0,2),(1,1),1)],
       [((1,0),(2,2),(1,2),(2,0),-1), ((0,0),(2,2),(0,2),(2,0),1), ((0,0),(1,2),(0,2),(1,0),-1)],
       [((1,0),(2,1),(1,1),(2,0),1), ((0,0),(2,1),(0,1),(2,0),-1), ((0,0),(1,1),(0,1),(1,0),1)]]
for i in range(3):
    for j in range(3):
        p, q, r, s = ent[i][j]
        p2, q2, r2, s2, sg = adj[i][j]
        rhs = f'{a(p2)} * {a(q2)} - {a(r2)} * {a(s2)}' if sg > 0 else f'-({a(p2)} * {a(q2)}) + {a(r2)} * {a(s2)}'
        out.append(f'''    · change ({a(p)} * {a(q)} - {a(r)} * {a(s)}) * (M33.det A)⁻¹
        = ({rhs}) * (M33.det A)⁻¹
      ring
''')
# M44
out.append('''
theorem M44.inverse_eq (A : Mat 4 ℝ) :
    M44.inverse A = .ok (if |M44.det A| < P.eps then none
      else some ⟨fun i j => A.toM.adjugate i j * (M44.det A)⁻¹⟩) := by
  unfold M44.inverse
  by_cases h : |M44.det A| < P.eps
  · simp only [nearly_zero_eq, h, decide_true, if_true]; rfl
  · simp only [nearly_zero_eq, h, decide_false, if_false, Bool.not_false, if_true]
''')
for i in range(4):
    for j in range(4):
        out.append(f'    rw [show M44.get_submatrix A ({i}, {j}) = _ from M44.get_submatrix_eq A {i} {j}]\n')
out.append('''    refine Eq.trans (b := Except.ok (some _)) rfl (congrArg _ (congrArg _ (Mat.ext
      (funext fun i => funext fun j => ?_))))
    have key (i j : Fin 4) : A.toM.adjugate i j = (-1) ^ (j + i : ℕ) *
        M33.det ⟨fun r c => A (j.succAbove r) (i.succAbove c)⟩ := by
      rw [Matrix.adjugate_fin_succ_eq_det_submatrix, M33.det_eq]; rfl
    have hp (k : ℕ) (x : ℝ) (hk : k % 2 = 0) : x = (-1) ^ k * x := by
      rw [Even.neg_one_pow (Nat.even_iff.2 hk), one_mul]
    have hm (k : ℕ) (x : ℝ) (hk : k % 2 = 1) : -x = (-1) ^ k * x := by
      rw [Odd.neg_one_pow (Nat.odd_iff.2 hk), neg_one_mul]
    refine Eq.trans ?_ (congrArg (fun y => y * (M44.det A)⁻¹) (key i j).symm)
    fin_cases i <;> fin_cases j <;>
      first
      | exact congrArg (fun y => y * (M44.det A)⁻¹) (hp _ _ rfl)
      | exact congrArg (fun y => y * (M44.det A)⁻¹) (hm _ _ rfl)
''')
for n in (5, 6):
    M = f'M{n}{n}'; m = f'M{n-1}{n-1}'
    fin = (f'{M}.sdiv_apply', 'div_eq_mul_inv') if n == 5 else (f'{M}.smul_apply', 'rfloat_recip')
    out.append(f'''
theorem {M}.inverse_eq (A : Mat {n} ℝ) :
    {M}.inverse A = .ok (if |{M}.det A| < P.eps then none
      else some ⟨fun i j => A.toM.adjugate i j * ({M}.det A)⁻¹⟩) := by
  unfold {M}.inverse
  by_cases h : |{M}.det A| < P.eps
  · simp only [nearly_zero_eq, h, decide_true, if_true]; rfl
  · simp only [nearly_zero_eq, h, decide_false, if_false, Bool.not_false, if_true]
    rw [forRange_set_mat _ (fun i j => A.toM.adjugate i j)]
    · refine Eq.trans (b := Except.ok (some _)) rfl (congrArg _ (congrArg _ (Mat.ext
        (funext fun i => funext fun j => ?_))))
      exact ({fin[0]} _ _ i j).trans (by rw [{fin[1]}])
    · intro i j hi hj r
      rw [show {M}.get_submatrix A (i, j) = _ from {M}.get_submatrix_eq A ⟨i, hi⟩ ⟨j, hj⟩]
      refine congrArg (Mat.set r j i) ?_
      rw [Matrix.adjugate_fin_succ_eq_det_submatrix, {m}.det_eq]
      refine congrArg₂ (· * ·) ?_ rfl
      change _ = (-1 : ℝ) ^ (i + j)
      rcases Nat.mod_two_eq_zero_or_one (i + j) with h0 | h0
      · rw [if_pos h0, Even.neg_one_pow (Nat.even_iff.2 h0)]
      · rw [if_neg (by omega), Odd.neg_one_pow (Nat.odd_iff.2 h0)]
''')
out.append('\nend StaticMath\n')
open(sys.argv[1], 'w').write(''.join(out))
