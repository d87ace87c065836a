#!/usr/bin/env python3
"""Write lean/Verif/Props/Checked.lean (C94)."""
o = ['''import Verif.Checked.Int

/-!
# C94: overflow-checked integers

Generated by `tools/gen_props_checked.py`. `of t z` is the value `z` of the integer type `t`; every
operation that overflows yields the mark of a panic, which is different from all `of t z`.
-/

namespace StaticMath
open CInt

private theorem chk_iff {t : IntTy} {z w : ℤ} : chk t w = of t z ↔ z = w ∧ t.lo ≤ w ∧ w ≤ t.hi :=
  ⟨fun h => ⟨(chk_some h).1.symm, (chk_some h).2⟩, fun h => by rw [h.1]; exact chk_ok h.2.1 h.2.2⟩
''']
for n in range(2, 7):
    M = f'M{n}{n}'
    V = f'V{n}'
    LA = f'⟨fun i j => of t (A i j)⟩'
    LB = f'⟨fun i j => of t (B i j)⟩'
    Lv = f'⟨fun i => of t (v i)⟩'
    Lw = f'⟨fun i => of t (w i)⟩'
    for op, sym, name in (('add', '+', 'sum'), ('sub', '-', 'difference')):
        o.append(f'''
/-- An entry of the {name} of two matrices is computed exactly when it fits, and is then exact. -/
theorem C94_{op}_{M} (t : IntTy) (A B : Mat {n} ℤ) (i j : Fin {n}) (z : ℤ) :
    {M}.{op} {LA} {LB} i j = of t z ↔
      z = A i j {sym} B i j ∧ t.lo ≤ A i j {sym} B i j ∧ A i j {sym} B i j ≤ t.hi := by
  fin_cases i <;> fin_cases j <;> exact chk_iff

/-- An entry of the {name} of two vectors is computed exactly when it fits, and is then exact. -/
theorem C94_{op}_{V} (t : IntTy) (v w : Vec {n} ℤ) (i : Fin {n}) (z : ℤ) :
    {V}.{op} {Lv} {Lw} i = of t z ↔ z = v i {sym} w i ∧ t.lo ≤ v i {sym} w i ∧ v i {sym} w i ≤ t.hi := by
  fin_cases i <;> exact chk_iff
''')
    def thm(name, args, lhs, a, b, order, doc):
        return f'''
/-- {doc} that is returned is exact, and one whose positive and negative terms each fit is
returned. -/
theorem C94_{name} (t : IntTy) {args} :
    (∀ z, {lhs} = of t z → z = ∑ k, {a} * {b}) ∧
    (∑ k, max ({a} * {b}) 0 ≤ t.hi → ∑ k, max (-({a} * {b})) 0 ≤ -t.lo →
      {lhs} = of t (∑ k, {a} * {b})) :=
  ⟨orderedSum_exact ({order}), orderedSum_ok ({order})⟩
'''
    o.append(thm(f'dot_{V}', f'(v w : Vec {n} ℤ)', f'{V}.dot {Lv} {Lw}', 'v k', 'w k', f'{V}.dot_order _ _', 'A dot product'))
    o.append(thm(f'mulVec_{M}', f'(A : Mat {n} ℤ) (v : Vec {n} ℤ) (i : Fin {n})', f'{M}.mulVec {LA} {Lv} i', 'A i k', 'v k', f'{M}.mulVec_order _ _ i', 'An entry of a matrix-vector product'))
    o.append(thm(f'mul_{M}', f'(A B : Mat {n} ℤ) (i j : Fin {n})', f'{M}.mul {LA} {LB} i j', 'A i k', 'B k j', f'{M}.mul_order _ _ i j', 'An entry of a matrix product'))
    o.append(f'''
/-- A product that fits into `i8`, and one that does not although its exact value is zero. -/
example : {V}.dot ⟨fun _ => of IntTy.i8 4⟩ ⟨fun _ => of IntTy.i8 (-5)⟩ = of IntTy.i8 ({n} * (4 * -5)) ∧
    ∀ z, {V}.dot ⟨fun _ => of IntTy.i8 100⟩ ⟨fun i => of IntTy.i8 (if i = 0 then 2 else if i = 1 then -2 else 0)⟩ ≠
      of IntTy.i8 z := by
  refine ⟨by decide, fun z h => ?_⟩
  have : ({V}.dot ⟨fun _ => of IntTy.i8 100⟩
    ⟨fun i => of IntTy.i8 (if i = 0 then 2 else if i = 1 then -2 else 0)⟩).val = none := by decide
  rw [h] at this
  cases this
''')
o.append('\nend StaticMath\n')
open('/verif/lean/Verif/Props/Checked.lean', 'w').write(''.join(o))
