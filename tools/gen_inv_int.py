#!/usr/bin/env python3
"""Writes lean/Verif/Lemmas/InvInt.lean: exact cofactors of integer-valued float matrices."""
import math
out = ['''import Verif.Lemmas.InvFlt

/-!
# Cofactors of float matrices with integer entries

Generated by `tools/gen_inv_int.py`. The numerators computed by `inverse()` are the exact entries of
the adjugate when all minors fit in the mantissa.
-/

namespace StaticMath
open Flt
variable {f : Fmt}

private theorem neg_one_mul_val (x : Flt f) : (-1 : Flt f) * x = -x := by
  cases x with
  | nan => rfl
  | inf s =>
    change (if (1 : ℝ) = 0 then nan else inf (true != s)) = inf (!s)
    rw [if_neg one_ne_zero]
    cases s <;> rfl
  | fin s x hx =>
    change pack f (true != s) (1 * x) = fin (!s) x hx
    rw [one_mul, pack_rep hx]
    cases s <;> rfl

private theorem sign_int (k : ℕ) (x : Flt f) (h : x.IsFin) :
    ((if k % 2 = 0 then (1 : Flt f) else -1) * x).IsFin ∧
      ((if k % 2 = 0 then (1 : Flt f) else -1) * x).toReal = (-1) ^ k * x.toReal := by
  rcases Nat.mod_two_eq_zero_or_one k with h0 | h0
  · rw [if_pos h0, one_mul']
    exact ⟨h, by rw [Even.neg_one_pow (Nat.even_iff.2 h0), one_mul]⟩
  · rw [if_neg (by omega), neg_one_mul_val]
    exact ⟨isFin_neg.2 h, by rw [toReal_neg, Odd.neg_one_pow (Nat.odd_iff.2 h0), neg_one_mul]⟩

private theorem minor_int {n : ℕ} (A : Mat (n + 1) (Flt f)) (i j : Fin (n + 1)) (C : Flt f) (y : ℝ)
    (hC : C.toReal = (-1) ^ (j.val + i.val) * y)
    (hy : y = (Matrix.of fun r c => (A (j.succAbove r) (i.succAbove c)).toReal).det) :
    C.toReal = A.reM'.adjugate i j := by
  rw [Matrix.adjugate_fin_succ_eq_det_submatrix, hC, hy]
  rfl

private theorem minor2_int {a b c d : Flt f} (K : ℕ) (hK : 1 ≤ K) (ha : a.IntLe K) (hb : b.IntLe K) (hc : c.IntLe K)
    (hd : d.IntLe K) (h : 2 * K ^ 2 ≤ 2 ^ f.p) :
    (a * b - c * d).IsFin ∧ (a * b - c * d).toReal = a.toReal * b.toReal - c.toReal * d.toReal := by
  have := (C104_integers_M22 (⟨![![a, d], ![c, b]]⟩ : Mat 2 (Flt f)) ⟨![![a, d], ![c, b]]⟩ ⟨![a, b]⟩ ⟨![a, b]⟩ K hK
    (fun i j => by fin_cases i <;> fin_cases j <;> assumption) (fun i j => by fin_cases i <;> fin_cases j <;> assumption)
    (fun i => by fin_cases i <;> assumption) (fun i => by fin_cases i <;> assumption)).1 h
  refine ⟨this.1, this.2.trans ?_⟩
  rw [Matrix.det_fin_two]
  change a.toReal * b.toReal - d.toReal * c.toReal = _
  ring
''']
def head(n, op):
    m = n-1
    return f'''
{"set_option maxRecDepth 8000 in" + chr(10) if n>=5 else ""}theorem M{n}{n}.inv_int [Libm f] (A B : Mat {n} (Flt f)) (h : M{n}{n}.inverse A = .ok (some B)) (K : ℕ) ({'_hK' if n==2 else 'hK'} : 1 ≤ K)
    (hA : ∀ i j, (A i j).IntLe K) {"(_hfit" if n==2 else "(hfit"} : {math.factorial(m)} * K ^ {m} ≤ 2 ^ f.p) (i j : Fin {n}) :
    ∃ C : Flt f, B i j = {op(n)} ∧ C.IsFin ∧ C.toReal = A.reM'.adjugate i j := by
  unfold M{n}{n}.inverse at h
  by_cases h0 : nearly_zero (M{n}{n}.det A) = true
  · simp only [h0] at h
    cases h
  have h' : nearly_zero (M{n}{n}.det A) = false := by simpa using h0
  simp only [h', Bool.not_false, if_true] at h
'''
mul = lambda n: f"C * (1 / M{n}{n}.det A)"
div = lambda n: f"C / M{n}{n}.det A"
tail = '''  have e : B = _ := (Option.some.inj (Except.ok.inj h)).symm
  clear h
  subst e
'''
out.append(head(2, mul) + tail + '''  have ha : A.reM'.adjugate = !![(A 1 1).toReal, -(A 0 1).toReal; -(A 1 0).toReal, (A 0 0).toReal] :=
    Matrix.adjugate_fin_two A.reM'
  rw [ha]
  fin_cases i <;> fin_cases j
  · exact ⟨_, rfl, (hA _ _).1, rfl⟩
  · exact ⟨_, rfl, isFin_neg.2 (hA _ _).1, toReal_neg _⟩
  · exact ⟨_, rfl, isFin_neg.2 (hA _ _).1, toReal_neg _⟩
  · exact ⟨_, rfl, (hA _ _).1, rfl⟩
''')
out.append(head(3, mul) + tail + '''  have ha := Matrix.adjugate_fin_three A.reM'
  rw [ha]
  have key : ∀ (a b c d : Flt f) (y : ℝ), a.IntLe K → b.IntLe K → c.IntLe K → d.IntLe K →
      y = a.toReal * b.toReal - c.toReal * d.toReal → (a * b - c * d).IsFin ∧ (a * b - c * d).toReal = y := by
    rintro a b c d _ h1 h2 h3 h4 rfl
    exact minor2_int K hK h1 h2 h3 h4 hfit
''' + '  fin_cases i <;> fin_cases j\n' + '''  · refine ⟨_, rfl, key _ _ _ _ _ (hA _ _) (hA _ _) (hA _ _) (hA _ _) ?_⟩
    simp [Mat.reM']
    try ring
'''*9)
rw = ''.join(f"  rw [show M44.get_submatrix A ({i}, {j}) = _ from M44.get_submatrix_eq A {i} {j}] at h\n" for i in range(4) for j in range(4))
b = ''.join(f"  · exact key {i} {j} _ _ rfl (Or.{'inl' if (i+j)%2==0 else 'inr'} ⟨rfl, rfl⟩)\n" for i in range(4) for j in range(4))
out.append(head(4, mul) + rw + tail + '''  have key : ∀ (i j : Fin 4) (C X : Flt f), X = C * (1 / M44.det A) →
      (C = M33.det ⟨fun r c => A (j.succAbove r) (i.succAbove c)⟩ ∧ (j.val + i.val) % 2 = 0 ∨
        C = -M33.det ⟨fun r c => A (j.succAbove r) (i.succAbove c)⟩ ∧ (j.val + i.val) % 2 = 1) →
      ∃ C : Flt f, X = C * (1 / M44.det A) ∧ C.IsFin ∧ C.toReal = A.reM'.adjugate i j := by
    intro i j C X hX hC
    have hd := (C104_integers_M33 ⟨fun r c => A (j.succAbove r) (i.succAbove c)⟩ ⟨fun _ _ => A 0 0⟩ ⟨fun _ => A 0 0⟩
      ⟨fun _ => A 0 0⟩ K hK (fun _ _ => hA _ _) (fun _ _ => hA _ _) (fun _ => hA _ _) (fun _ => hA _ _)).1 hfit
    refine ⟨C, hX, ?_⟩
    rcases hC with ⟨rfl, h⟩ | ⟨rfl, h⟩
    · exact ⟨hd.1, minor_int A i j _ _ (by rw [Even.neg_one_pow (Nat.even_iff.2 h), one_mul]) hd.2⟩
    · exact ⟨isFin_neg.2 hd.1, minor_int A i j _ _ (by rw [toReal_neg, Odd.neg_one_pow (Nat.odd_iff.2 h), neg_one_mul]) hd.2⟩
  fin_cases i <;> fin_cases j
''' + b)
for n, op, ap in ((5, div, 'sdiv'), (6, mul, 'smul')):
    m = n-1
    out.append(head(n, op) + f'''  rw [forRange_set_mat _ (fun j i => (if (i.val + j.val) % 2 = 0 then (1 : Flt f) else -1) *
    M{m}{m}.det ⟨fun r c => A (i.succAbove r) (j.succAbove c)⟩) _ (by
      intro i j hi hj r
      rw [show M{n}{n}.get_submatrix A (i, j) = _ from M{n}{n}.get_submatrix_eq A ⟨i, hi⟩ ⟨j, hj⟩]
      rfl)] at h
''' + tail + f'''  have hd := (C104_integers_M{m}{m} ⟨fun r c => A (j.succAbove r) (i.succAbove c)⟩ ⟨fun _ _ => A 0 0⟩ ⟨fun _ => A 0 0⟩
      ⟨fun _ => A 0 0⟩ K hK (fun _ _ => hA _ _) (fun _ _ => hA _ _) (fun _ => hA _ _) (fun _ => hA _ _)).1 hfit
  have hs := sign_int (j.val + i.val) _ hd.1
  exact ⟨_, M{n}{n}.{ap}_apply _ _ i j, hs.1, minor_int A i j _ _ hs.2 hd.2⟩
''')
out.append('\nend StaticMath\n')
import os
open(os.path.join(os.path.dirname(__file__), '../lean/Verif/Lemmas/InvInt.lean'), 'w').write(''.join(out))
