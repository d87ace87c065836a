#!/usr/bin/env python3
"""Generate lean/Verif/Lemmas/Transfer.lean: entry lemmas of the straight-line functions."""
import sys
W = {2: 'two', 3: 'three', 4: 'four', 5: 'five', 6: 'six'}
out = ['''import Verif.Model.Linear
import Verif.Spec.Basic
import Mathlib.Tactic.FinCases
import Mathlib.Tactic.Ring
import Mathlib.Algebra.BigOperators.Fin
import Mathlib.Data.Fintype.Fin

/-! Generated by `tools/gen_transfer.py`: entry lemmas for the vector and matrix functions. -/

namespace StaticMath

set_option linter.unusedSectionVars false

theorem iterSum_eq_sum {R : Type} [CommRing R] (l : List R) : iterSum l = l.sum :=
  List.sum_eq_foldl.symm

theorem iterSum_toSlice {R : Type} [CommRing R] {n : ℕ} (f : R → R) (A : Mat n R) :
    iterSum (A.toSlice.map f) = ∑ i, ∑ j, f (A i j) := by
  rw [iterSum_eq_sum, Mat.toSlice, List.map_flatten, List.sum_flatten, List.map_map, List.map_ofFn,
    List.sum_ofFn]
  refine Finset.sum_congr rfl fun i _ => ?_
  simp only [Function.comp, List.map_ofFn, List.sum_ofFn]

theorem iterSum_vec {R : Type} [CommRing R] {n : ℕ} (f : R → R) (v : Vec n R) :
    iterSum (v.toSlice.map f) = ∑ i, f (v i) := by
  rw [iterSum_eq_sum, Vec.toSlice, List.map_ofFn, List.sum_ofFn]
  rfl
''']
for n in range(2, 7):
    M = f'M{n}{n}'; V = f'V{n}'; w = W[n]
    ij = 'fin_cases i <;> fin_cases j <;> rfl'
    out.append(f'''
section S{n}
section anyT
variable {{T : Type}}

theorem {M}.add_apply [Add T] (A B : Mat {n} T) (i j : Fin {n}) : {M}.add A B i j = A i j + B i j := by
  {ij}
theorem {M}.sub_apply [Sub T] (A B : Mat {n} T) (i j : Fin {n}) : {M}.sub A B i j = A i j - B i j := by
  {ij}
theorem {M}.neg_apply [Neg T] (A : Mat {n} T) (i j : Fin {n}) : {M}.neg A i j = -A i j := by
  {ij}
theorem {M}.smul_apply [Mul T] (A : Mat {n} T) (c : T) (i j : Fin {n}) : {M}.smul A c i j = A i j * c := by
  {ij}
theorem {M}.sdiv_apply [Div T] (A : Mat {n} T) (c : T) (i j : Fin {n}) : {M}.sdiv A c i j = A i j / c := by
  {ij}
theorem {M}.transpose_apply (A : Mat {n} T) (i j : Fin {n}) : {M}.transpose A i j = A j i := by
  {ij}
theorem {M}.zero_apply [Zero T] (i j : Fin {n}) : ({M}.zero : Mat {n} T) i j = 0 := by
  {ij}
theorem {M}.one_apply [Zero T] [One T] (i j : Fin {n}) : ({M}.one : Mat {n} T) i j = if i = j then 1 else 0 := by
  {ij}
theorem {V}.add_apply [Add T] (v w : Vec {n} T) (i : Fin {n}) : {V}.add v w i = v i + w i := by
  fin_cases i <;> rfl
theorem {V}.sub_apply [Sub T] (v w : Vec {n} T) (i : Fin {n}) : {V}.sub v w i = v i - w i := by
  fin_cases i <;> rfl
theorem {V}.neg_apply [Neg T] (v : Vec {n} T) (i : Fin {n}) : {V}.neg v i = -v i := by
  fin_cases i <;> rfl
theorem {V}.smul_apply [Mul T] (v : Vec {n} T) (c : T) (i : Fin {n}) : {V}.smul v c i = v i * c := by
  fin_cases i <;> rfl
theorem {V}.sdiv_apply [Div T] (v : Vec {n} T) (c : T) (i : Fin {n}) : {V}.sdiv v c i = v i / c := by
  fin_cases i <;> rfl
theorem {V}.zero_apply [Zero T] (i : Fin {n}) : ({V}.zero : Vec {n} T) i = 0 := by
  fin_cases i <;> rfl
theorem {V}.ones_apply [One T] (i : Fin {n}) : ({V}.ones : Vec {n} T) i = 1 := by
  fin_cases i <;> rfl
end anyT

section ring
variable {{R : Type}} [CommRing R]
''')
    if n == 4:
        out.append(f'''theorem {M}.mul_apply (A B : Mat {n} R) (i j : Fin {n}) :
    {M}.mul A B i j = ∑ k, A i k * B k j := by
  have h (a b c d : R) : a + b + c + d = d + a + b + c := by ring
  rw [Fin.sum_univ_{w}]
  fin_cases i <;> fin_cases j <;> first | rfl | exact (h _ _ _ _)
''')
    else:
        out.append(f'''theorem {M}.mul_apply (A B : Mat {n} R) (i j : Fin {n}) :
    {M}.mul A B i j = ∑ k, A i k * B k j := by
  rw [Fin.sum_univ_{w}]
  {ij}
''')
    out.append(f'''theorem {M}.mulVec_apply (A : Mat {n} R) (v : Vec {n} R) (i : Fin {n}) :
    {M}.mulVec A v i = ∑ k, A i k * v k := by
  rw [Fin.sum_univ_{w}]
  fin_cases i <;> rfl
theorem {V}.dot_eq (v w : Vec {n} R) : {V}.dot v w = ∑ k, v k * w k := by
  rw [Fin.sum_univ_{w}]
  rfl
theorem {M}.trace_eq (A : Mat {n} R) : {M}.trace A = ∑ k, A k k := by
  rw [Fin.sum_univ_{w}]
  rfl
''')
    if n in (2, 4):
        out.append(f'''theorem {V}.mulMat_apply (v : Vec {n} R) (A : Mat {n} R) (j : Fin {n}) :
    {V}.mulMat v A j = ∑ k, v k * A k j := by
  rw [Fin.sum_univ_{w}]
  fin_cases j <;> rfl
''')
    if n in (5, 6):
        out.append(f'''theorem {V}.mulMat_apply (v : Vec {n} R) (A : Mat {n} R) (j : Fin {n}) :
    {V}.mulMat v A j = ∑ k, v k * A k j := by
  rw [Finset.sum_congr rfl fun k _ => mul_comm (v k) (A k j), Fin.sum_univ_{w}]
  fin_cases j <;> rfl
''')
    out.append(f'''theorem {V}.norm2_eq [RFloat R] (v : Vec {n} R) :
    {V}.norm2 v = RFloat.sqrt (∑ k, v k * v k) := by
  rw [Fin.sum_univ_{w}]
  rfl
''')
    if n in (2, 3, 4):
        out.append(f'''theorem {M}.norm2_eq [RFloat R] (A : Mat {n} R) :
    {M}.norm2 A = RFloat.sqrt (∑ i, ∑ j, A i j * A i j) := by
  simp only [Fin.sum_univ_{w}, {M}.norm2]
  congr 1
  ring
''')
    else:
        out.append(f'''theorem {M}.norm2_eq [RFloat R] (A : Mat {n} R) :
    {M}.norm2 A = RFloat.sqrt (∑ i, ∑ j, A i j * A i j) := by
  rw [{M}.norm2, iterSum_toSlice]
''')
    out.append(f'''
theorem {M}.toM_mul (A B : Mat {n} R) : ({M}.mul A B).toM = A.toM * B.toM :=
  Matrix.ext fun i j => {M}.mul_apply A B i j
theorem {M}.toM_add (A B : Mat {n} R) : ({M}.add A B).toM = A.toM + B.toM :=
  Matrix.ext fun i j => {M}.add_apply A B i j
theorem {M}.toM_sub (A B : Mat {n} R) : ({M}.sub A B).toM = A.toM - B.toM :=
  Matrix.ext fun i j => {M}.sub_apply A B i j
theorem {M}.toM_neg (A : Mat {n} R) : ({M}.neg A).toM = -A.toM :=
  Matrix.ext fun i j => {M}.neg_apply A i j
theorem {M}.toM_smul (A : Mat {n} R) (c : R) : ({M}.smul A c).toM = c • A.toM :=
  Matrix.ext fun i j => ({M}.smul_apply A c i j).trans (mul_comm _ _)
theorem {M}.toM_transpose (A : Mat {n} R) : ({M}.transpose A).toM = A.toM.transpose :=
  Matrix.ext fun i j => {M}.transpose_apply A i j
theorem {M}.toM_zero : ({M}.zero : Mat {n} R).toM = 0 :=
  Matrix.ext fun i j => {M}.zero_apply i j
theorem {M}.toM_one : ({M}.one : Mat {n} R).toM = 1 :=
  Matrix.ext fun i j => ({M}.one_apply i j).trans Matrix.one_apply.symm
theorem {M}.val_mulVec (A : Mat {n} R) (v : Vec {n} R) :
    ({M}.mulVec A v).val = A.toM.mulVec v.val :=
  funext fun i => {M}.mulVec_apply A v i
theorem {M}.trace_toM (A : Mat {n} R) : {M}.trace A = A.toM.trace := {M}.trace_eq A
theorem {V}.dot_dotProduct (v w : Vec {n} R) : {V}.dot v w = v.val ⬝ᵥ w.val := {V}.dot_eq v w
end ring
end S{n}
''')
out.append('end StaticMath\n')
open(sys.argv[1], 'w').write(''.join(out))
