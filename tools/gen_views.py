#!/usr/bin/env python3
"""Generate lean/Verif/Lemmas/Views.lean (closed forms of the loops that read out a matrix)."""
import sys
out = ['''import Verif.Lemmas.Loop
import Mathlib.Tactic.FinCases
import Mathlib.Data.Fintype.Fin
import Mathlib.Tactic.IntervalCases

/-!
# Closed forms of the view functions

Generated by `tools/gen_views.py`. Every statement holds for all element types.
-/

namespace StaticMath

variable {T : Type}

/-- Two loops whose bodies agree on the range. -/
theorem forRange_congr {σ : Type} (lo hi : ℕ) (s : σ) (b b' : ℕ → σ → MayPanic σ)
    (h : ∀ i, lo ≤ i → i < hi → ∀ s, b i s = b' i s) : forRange lo hi s b = forRange lo hi s b' := by
  by_cases hle : lo ≤ hi
  · obtain ⟨d, rfl⟩ := Nat.exists_eq_add_of_le hle
    clear hle
    induction d generalizing lo s with
    | zero => rw [forRange_self _ _ (by omega), forRange_self _ _ (by omega)]
    | succ d ih =>
      rw [forRange_step _ _ (by omega), forRange_step lo _ (by omega), h lo le_rfl (by omega) s]
      congr 1
      funext s'
      have := ih (lo + 1) s' (fun i h1 h2 s => h i (by omega) (by omega) s)
      rwa [show lo + 1 + d = lo + (d + 1) by omega] at this
  · rw [forRange_self _ _ (by omega), forRange_self _ _ (by omega)]

/-- Writing the elements of a list of the right length one after the other. -/
theorem foldlM_set_eq {len : ℕ} (l : List T) (hl : l.length = len) (init : Vec len T) :
    l.zipIdx.foldlM (fun (r : Vec len T) p => r.set p.2 p.1) init
      = (.ok ⟨fun k => l[k.val]'(hl ▸ k.isLt)⟩ : MayPanic (Vec len T)) := by
  have key : ∀ (m : List T) (o : ℕ) (init : Vec len T), o + m.length ≤ len →
      (m.zipIdx o).foldlM (fun (r : Vec len T) p => r.set p.2 p.1) init
        = (.ok ⟨fun k => if h : o ≤ k.val ∧ k.val < o + m.length then m[k.val - o]'(by omega)
            else init.val k⟩ : MayPanic (Vec len T)) := by
    intro m
    induction m with
    | nil =>
      intro o init _
      refine congrArg Except.ok (Vec.ext (funext fun k => ?_))
      dsimp only
      rw [dif_neg (by simp)]
    | cons x m ih =>
      intro o init ho
      simp only [List.length_cons] at ho
      rw [List.zipIdx_cons, List.foldlM_cons, Vec.set_ok _ _ (by omega : o < len)]
      refine (ih (o + 1) _ (by omega)).trans (congrArg Except.ok (Vec.ext (funext fun k => ?_)))
      dsimp only
      by_cases hk : k.val = o
      · rw [dif_neg (by omega), if_pos (Fin.ext hk), dif_pos (by simp; omega)]
        simp [hk]
      · have hk' : k ≠ ⟨o, by omega⟩ := fun h => hk (congrArg Fin.val h)
        by_cases hr : o + 1 ≤ k.val ∧ k.val < o + 1 + m.length
        · rw [dif_pos hr, dif_pos (by simp; omega)]
          have : k.val - o = (k.val - (o + 1)) + 1 := by omega
          simp only [this, List.getElem_cons_succ]
        · rw [dif_neg hr, if_neg hk', dif_neg (by simp; omega)]
  rw [key l 0 init (by omega)]
  refine congrArg Except.ok (Vec.ext (funext fun k => ?_))
  dsimp only
  rw [dif_pos ⟨Nat.zero_le _, by rw [Nat.zero_add, hl]; exact k.isLt⟩]
  rfl

theorem Mat.toSlice_eq {n : ℕ} (A : Mat n T) :
    A.toSlice = List.ofFn (fun k : Fin (n * n) =>
      A.val ⟨k.val / n, Nat.div_lt_of_lt_mul k.isLt⟩
        ⟨k.val % n, Nat.mod_lt _ (Nat.pos_of_mul_pos_right (Nat.zero_lt_of_lt k.isLt))⟩) := by
  rw [List.ofFn_mul, Mat.toSlice]
  congr 2
  funext i
  congr 1
  funext j
  have hn : 0 < n := Nat.zero_lt_of_lt j.isLt
  congr 1
  · refine Fin.ext ?_
    simp only [Nat.mul_comm, Nat.add_comm, Nat.add_mul_div_left _ _ hn, Nat.div_eq_of_lt j.isLt,
      Nat.add_zero]
  · refine Fin.ext ?_
    simp only [Nat.mul_comm, Nat.mul_add_mod, Nat.mod_eq_of_lt j.isLt]

theorem asVecGen_eq {n : ℕ} [Zero T] (len : ℕ) (h : n * n = len) (A : Mat n T) :
    asVecGen len A = .ok ⟨fun k => A.val ⟨k.val / n, Nat.div_lt_of_lt_mul (by omega)⟩
      ⟨k.val % n, Nat.mod_lt _ (Nat.pos_of_mul_pos_right (a := n) (b := n) (by have := k.isLt; omega))⟩⟩ := by
  subst h
  rw [asVecGen, foldlM_set_eq _ (by rw [Mat.toSlice_eq, List.length_ofFn])]
  refine congrArg Except.ok (Vec.ext (funext fun k => ?_))
  dsimp only
  simp only [Mat.toSlice_eq, List.getElem_ofFn]
''']
L2 = '''  refine Eq.trans (b := Except.ok _) rfl
    (congrArg _ (Vec.ext (funext fun i => Vec.ext (funext fun j => ?_))))
  fin_cases i <;> fin_cases j <;> rfl
'''
L2M = '''  refine Eq.trans (b := Except.ok _) rfl
    (congrArg _ (Mat.ext (funext fun i => funext fun j => ?_)))
  fin_cases i <;> fin_cases j <;> rfl
'''
L1 = '''  refine Eq.trans (b := Except.ok _) rfl
    (congrArg _ (Vec.ext (funext fun i => ?_)))
  fin_cases i <;> rfl
'''
for n in range(2, 7):
    M = f'M{n}{n}'
    out.append(f'''
theorem {M}.get_rows_eq [Zero T] (A : Mat {n} T) :
    {M}.get_rows A = .ok ⟨fun i => ⟨fun j => A i j⟩⟩ := by
{L2}
theorem {M}.get_cols_eq [Zero T] (A : Mat {n} T) :
    {M}.get_cols A = .ok ⟨fun j => ⟨fun i => A i j⟩⟩ := by
{L2}
theorem {M}.new_from_vecs_eq [Zero T] (c : Vec {n} (Vec {n} T)) :
    {M}.new_from_vecs c = .ok ⟨fun i j => (c j) i⟩ := by
{L2M}
theorem {M}.for_each_eq [Zero T] (A : Mat {n} T) (f : T → T) :
    {M}.for_each A f = .ok ⟨fun i j => f (A i j)⟩ := by
{L2M}
theorem {M}.get_diagonal_eq [Zero T] (A : Mat {n} T) :
    {M}.get_diagonal A = .ok ⟨fun i => A i i⟩ := by
{L1}''')
    if n >= 3:
        k = n*(n-1)//2
        up = 'get_upper_triangular' if n == 6 else 'get_upper_triagular'
        ups = ', '.join(f'A {i} {j}' for i in range(n) for j in range(n) if i < j)
        los = ', '.join(f'A {i} {j}' for i in range(n) for j in range(n) if i > j)
        out.append(f'''
theorem {M}.{up}_eq [Zero T] (A : Mat {n} T) :
    {M}.{up} A = .ok ⟨![{ups}]⟩ := by
{L1}
theorem {M}.get_lower_triangular_eq [Zero T] (A : Mat {n} T) :
    {M}.get_lower_triangular A = .ok ⟨![{los}]⟩ := by
{L1}''')
    if n >= 4:
        out.append(f'''
theorem {M}.get_submatrix_eq [Zero T] (A : Mat {n} T) (i j : Fin {n}) :
    {M}.get_submatrix A (i, j) = .ok ⟨fun r c => A (i.succAbove r) (j.succAbove c)⟩ := by
  fin_cases i <;> fin_cases j <;>
  refine Eq.trans (b := Except.ok _) rfl
    (congrArg _ (Mat.ext (funext fun i => (funext fun j => ?_))))
  all_goals (fin_cases i <;> fin_cases j <;> rfl)

theorem {M}.get_submatrix_min [Zero T] (A : Mat {n} T) (a b : ℕ) :
    {M}.get_submatrix A (a, b) = {M}.get_submatrix A (min a {n}, min b {n}) := by
  unfold {M}.get_submatrix
  dsimp only
  congr 1
  refine forRange_congr _ _ _ _ _ fun i _ hi s => ?_
  congr 1
  refine forRange_congr _ _ _ _ _ fun j _ hj s => ?_
  have h1 : (i = min a {n}) = (i = a) := propext (by omega)
  have h2 : (j = min b {n}) = (j = b) := propext (by omega)
  simp only [h1, h2]

theorem {M}.get_submatrix_panics [Zero T] (A : Mat {n} T) (a b : ℕ) (h : {n} ≤ a ∨ {n} ≤ b) :
    {M}.get_submatrix A (a, b) = .error .indexOutOfBounds := by
  rw [{M}.get_submatrix_min]
  have ha : min a {n} ≤ {n} := min_le_right _ _
  have hb : min b {n} ≤ {n} := min_le_right _ _
  have hab : min a {n} = {n} ∨ min b {n} = {n} := by omega
  generalize min a {n} = a' at *
  generalize min b {n} = b' at *
  rcases hab with rfl | rfl
  · interval_cases b' <;> rfl
  · interval_cases a' <;> rfl
''')
out.append('\nend StaticMath\n')
open(sys.argv[1], 'w').write(''.join(out))
