#!/usr/bin/env python3
"""Write lean/Verif/Lemmas/SumOrder.lean: every entry of a product is a left-to-right sum of products,
without using any arithmetic law."""
out = ['''import Verif.Model.GenVec
import Verif.Model.GenM22
import Verif.Model.GenM33
import Verif.Model.GenM44
import Verif.Model.GenM55
import Verif.Model.GenM66
import Mathlib.Data.List.FinRange
import Mathlib.Data.Fintype.Basic
import Mathlib.Tactic.FinCases

/-!
# Evaluation order of dot products and matrix products

Generated by `tools/gen_sumorder.py`. For any element type, with no law about its operations: each
dot product and each entry of a matrix-vector or matrix-matrix product is the left-to-right sum of
its `n` products, taken in some order of the index. All facts about rounded or overflow-checked
arithmetic follow from this shape.
-/

namespace StaticMath

/-- `x` is the sum, from left to right and in some order of the index, of the terms `g k`. -/
def IsOrderedSum {T : Type} [Add T] {n : ℕ} (x : T) (g : Fin n → T) : Prop :=
  ∃ (k : Fin n) (l : List (Fin n)), (k :: l).Perm (List.finRange n) ∧
    x = l.foldl (fun s j => s + g j) (g k)

variable {T : Type} [Add T] [Mul T]
''']
for n in range(2, 7):
    o = '0, [%s]' % ', '.join(map(str, range(1, n)))
    M = f'M{n}{n}'
    out.append(f'''
theorem V{n}.dot_order (v w : Vec {n} T) : IsOrderedSum (V{n}.dot v w) (fun k => v k * w k) :=
  ⟨{o}, by decide, rfl⟩

theorem {M}.mulVec_order (A : Mat {n} T) (v : Vec {n} T) (i : Fin {n}) :
    IsOrderedSum ({M}.mulVec A v i) (fun k => A i k * v k) := by
  fin_cases i <;> exact ⟨{o}, by decide, rfl⟩

theorem {M}.mul_order (A B : Mat {n} T) (i j : Fin {n}) :
    IsOrderedSum ({M}.mul A B i j) (fun k => A i k * B k j) := by
  fin_cases i <;> fin_cases j <;>
''' + (f'''  exact ⟨{o}, by decide, rfl⟩
''' if n != 4 else f'''  first
  | exact ⟨{o}, by decide, rfl⟩
  | exact ⟨1, [2, 3, 0], by decide, rfl⟩
'''))
out.append('\nend StaticMath\n')
open('/verif/lean/Verif/Lemmas/SumOrder.lean', 'w').write(''.join(out))
