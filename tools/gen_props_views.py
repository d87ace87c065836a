#!/usr/bin/env python3
"""Generate lean/Verif/Props/Views.lean (C21-C25, C27), one theorem per size."""
import sys
NS = range(2, 7)
out = ['''import Verif.Lemmas.Views
import Verif.Lemmas.Transfer
import Verif.Spec.Basic

/-!
# C21-C25, C27: views, indexing, in-place copies

Generated by `tools/gen_props_views.py` (the same statement for every size 2..6). `T` is any type
(the code needs a zero to initialise its buffers, no law is used).
-/

namespace StaticMath

variable {T : Type}

/-! ## C21 Views -/
''']
for n in NS:
    M = f'M{n}{n}'; k = n*n
    out.append(f'''
theorem C21_views_{M} [Zero T] (A : Mat {n} T) :
    (∃ v, {M}.as_vec A = .ok v ∧ ∀ i j : Fin {n}, v ⟨{n} * i.val + j.val, by omega⟩ = A i j) ∧
    (∃ r, {M}.get_rows A = .ok r ∧ (∀ i j, r i j = A i j) ∧
      {M}.new_from_vecs r = .ok ({M}.transpose A)) ∧
    (∃ c, {M}.get_cols A = .ok c ∧ (∀ i j, c j i = A i j) ∧ {M}.new_from_vecs c = .ok A) := by
  refine ⟨⟨_, asVecGen_eq {k} (by norm_num) A, fun i j => ?_⟩, ⟨_, {M}.get_rows_eq A, fun _ _ => rfl, ?_⟩,
    ⟨_, {M}.get_cols_eq A, fun _ _ => rfl, ?_⟩⟩
  · refine congrArg₂ A.val (Fin.ext ?_) (Fin.ext ?_) <;> simp only <;> omega
  · rw [{M}.new_from_vecs_eq]
    exact congrArg _ (Mat.ext (funext fun i => funext fun j => ({M}.transpose_apply A i j).symm))
  · rw [{M}.new_from_vecs_eq]
''')
out.append('''
example : ∃ v, M22.as_vec (⟨![![1, 2], ![3, 4]]⟩ : Mat 2 ℤ) = .ok v ∧ v 2 = 3 :=
  ⟨_, rfl, rfl⟩

/-! ## C22 Diagonal and triangles

`entriesWhere p A`: the entries of `A` at the positions `(i, j)` with `p i j`, in row-major order.
-/

def entriesWhere {n : ℕ} (p : Fin n → Fin n → Bool) (A : Mat n T) : List T :=
  (List.finRange n).flatMap fun i => ((List.finRange n).filter (p i)).map fun j => A i j

theorem entriesWhere_inj {n : ℕ} {p : Fin n → Fin n → Bool} {A B : Mat n T}
    (h : entriesWhere p A = entriesWhere p B) (i j : Fin n) (hp : p i j = true) : A i j = B i j := by
  have key : ∀ l : List (Fin n),
      (l.flatMap fun i => ((List.finRange n).filter (p i)).map fun j => A i j)
        = (l.flatMap fun i => ((List.finRange n).filter (p i)).map fun j => B i j) →
      ∀ i ∈ l, ((List.finRange n).filter (p i)).map (fun j => A i j)
        = ((List.finRange n).filter (p i)).map fun j => B i j := by
    intro l
    induction l with
    | nil => intro _ i hi; simp at hi
    | cons a l ih =>
      intro h i hi
      rw [List.flatMap_cons, List.flatMap_cons] at h
      obtain ⟨h1, h2⟩ := List.append_inj h (by simp)
      rcases List.mem_cons.1 hi with rfl | hi
      · exact h1
      · exact ih h2 i hi
  have := key _ h i (List.mem_finRange i)
  rw [List.map_inj_left] at this
  exact this j (List.mem_filter.2 ⟨List.mem_finRange j, hp⟩)
''')
for n in NS:
    M = f'M{n}{n}'
    if n == 2:
        out.append(f'''
theorem C22_diag_{M} [Zero T] (A : Mat {n} T) :
    ∃ d, {M}.get_diagonal A = .ok d ∧ d.toSlice = entriesWhere (fun i j => i = j) A :=
  ⟨_, {M}.get_diagonal_eq A, rfl⟩
''')
        continue
    up = 'get_upper_triangular' if n == 6 else 'get_upper_triagular'
    out.append(f'''
theorem C22_diag_tri_{M} [Zero T] (A : Mat {n} T) :
    (∃ d, {M}.get_diagonal A = .ok d ∧ d.toSlice = entriesWhere (fun i j => i = j) A) ∧
    (∃ u, {M}.{up} A = .ok u ∧ u.toSlice = entriesWhere (fun i j => i < j) A) ∧
    (∃ l, {M}.get_lower_triangular A = .ok l ∧ l.toSlice = entriesWhere (fun i j => j < i) A) :=
  ⟨⟨_, {M}.get_diagonal_eq A, rfl⟩, ⟨_, {M}.{up}_eq A, rfl⟩,
    ⟨_, {M}.get_lower_triangular_eq A, rfl⟩⟩

/-- Diagonal and triangles together determine the matrix. -/
theorem C22_determine_{M} [Zero T] (A B : Mat {n} T)
    (hd : {M}.get_diagonal A = {M}.get_diagonal B) (hu : {M}.{up} A = {M}.{up} B)
    (hl : {M}.get_lower_triangular A = {M}.get_lower_triangular B) : A = B := by
  obtain ⟨⟨d, a1, a2⟩, ⟨u, a3, a4⟩, ⟨l, a5, a6⟩⟩ := C22_diag_tri_{M} A
  obtain ⟨⟨d', b1, b2⟩, ⟨u', b3, b4⟩, ⟨l', b5, b6⟩⟩ := C22_diag_tri_{M} B
  obtain rfl : d = d' := by rw [a1, b1] at hd; exact Except.ok.inj hd
  obtain rfl : u = u' := by rw [a3, b3] at hu; exact Except.ok.inj hu
  obtain rfl : l = l' := by rw [a5, b5] at hl; exact Except.ok.inj hl
  refine Mat.ext (funext fun i => funext fun j => ?_)
  rcases lt_trichotomy i j with h | h | h
  · exact entriesWhere_inj (a4.symm.trans b4) i j (by simpa using h)
  · exact entriesWhere_inj (a2.symm.trans b2) i j (by simpa using h)
  · exact entriesWhere_inj (a6.symm.trans b6) i j (by simpa using h)
''')
out.append('''
example : ∃ u, M33.get_upper_triagular (⟨![![1, 2, 3], ![4, 5, 6], ![7, 8, 9]]⟩ : Mat 3 ℤ) = .ok u ∧
    u.toSlice = [2, 3, 6] := ⟨_, rfl, rfl⟩

/-! ## C23 Submatrix -/
''')
for n in (4, 5, 6):
    M = f'M{n}{n}'
    out.append(f'''
theorem C23_submatrix_{M} [Zero T] (A : Mat {n} T) :
    (∀ i j : Fin {n}, ∃ S, {M}.get_submatrix A (i, j) = .ok S ∧
      S.toM = A.toM.submatrix i.succAbove j.succAbove) ∧
    (∀ a b : ℕ, {M}.get_submatrix A (a, b) = .error .indexOutOfBounds ↔ {n} ≤ a ∨ {n} ≤ b) := by
  refine ⟨fun i j => ⟨_, {M}.get_submatrix_eq A i j, rfl⟩, fun a b => ⟨fun h => ?_,
    {M}.get_submatrix_panics A a b⟩⟩
  by_contra hc
  have := {M}.get_submatrix_eq A ⟨a, by omega⟩ ⟨b, by omega⟩
  rw [h] at this
  exact absurd this (by simp)
''')
out.append('''
example : ∃ S, M44.get_submatrix (⟨![![1, 2, 3, 4], ![5, 6, 7, 8], ![9, 10, 11, 12],
      ![13, 14, 15, 16]]⟩ : Mat 4 ℤ) (1, 2) = .ok S ∧ S.toSlice = [1, 2, 4, 9, 10, 12, 13, 14, 16] :=
  ⟨_, rfl, rfl⟩

/-! ## C24 for_each -/
''')
for n in NS:
    M = f'M{n}{n}'
    out.append(f'''
theorem C24_for_each_{M} [Zero T] (A : Mat {n} T) (f g : T → T) :
    (∃ B, {M}.for_each A f = .ok B ∧ ∀ i j, B i j = f (A i j)) ∧
    {M}.for_each A (fun x => x) = .ok A ∧
    ({M}.for_each A f >>= fun B => {M}.for_each B g) = {M}.for_each A (fun x => g (f x)) := by
  refine ⟨⟨_, {M}.for_each_eq A f, fun _ _ => rfl⟩, {M}.for_each_eq A _, ?_⟩
  rw [{M}.for_each_eq, {M}.for_each_eq]
  exact {M}.for_each_eq _ g
''')
out.append('''
example : ∃ B, M22.for_each (⟨![![1, 2], ![3, 4]]⟩ : Mat 2 ℤ) (fun x => x * x) = .ok B ∧
    B.toSlice = [1, 4, 9, 16] := ⟨_, rfl, rfl⟩

/-! ## C25 Indexing (any size) -/

theorem C25_vec {n : ℕ} (v : Vec n T) (i k : ℕ) (x : T) :
    (v.get i = .error .indexOutOfBounds ↔ n ≤ i) ∧ (∀ h : i < n, v.get i = .ok (v ⟨i, h⟩)) ∧
    (v.set i x = .error .indexOutOfBounds ↔ n ≤ i) ∧
    (i < n → ∃ w, v.set i x = .ok w ∧ w.get i = .ok x ∧ (k ≠ i → w.get k = v.get k)) := by
  refine ⟨?_, fun h => Vec.get_ok v i h, ?_, fun h => ⟨_, Vec.set_ok v i h x, ?_, fun hk => ?_⟩⟩
  · unfold Vec.get; split <;> simp <;> omega
  · unfold Vec.set; split <;> simp <;> omega
  · simp [Vec.get_ok _ _ h]
  · unfold Vec.get
    split
    · simp [hk]
    · rfl

theorem C25_mat {n : ℕ} (m : Mat n T) (i j r c : ℕ) (x : T) :
    (m.get i j = .error .indexOutOfBounds ↔ n ≤ i ∨ n ≤ j) ∧
    (∀ (hi : i < n) (hj : j < n), m.get i j = .ok (m ⟨i, hi⟩ ⟨j, hj⟩)) ∧
    (m.set i j x = .error .indexOutOfBounds ↔ n ≤ i ∨ n ≤ j) ∧
    (i < n → j < n → ∃ m', m.set i j x = .ok m' ∧ m'.get i j = .ok x ∧
      (r ≠ i ∨ c ≠ j → m'.get r c = m.get r c)) := by
  refine ⟨?_, fun hi hj => Mat.get_ok m i j hi hj, ?_,
    fun hi hj => ⟨_, Mat.set_ok m i j hi hj x, ?_, fun hk => ?_⟩⟩
  · unfold Mat.get; split <;> simp <;> omega
  · unfold Mat.set; split <;> simp <;> omega
  · simp [Mat.get_ok _ _ _ hi hj]
  · unfold Mat.get
    split
    · simp only [Fin.mk.injEq]
      rw [if_neg (by omega)]
    · rfl

/-- Row indexing: `m[i][j]` agrees with `m[(i, j)]`, and writing through a row,
`m[i][j] = x`, agrees with `m[(i, j)] = x`, including when they panic. -/
theorem C25_rows {n : ℕ} (m : Mat n T) (i j : ℕ) (x : T) :
    (m.getRow i >>= fun r => r.get j) = m.get i j ∧
    (m.getRow i >>= fun r => r.set j x >>= fun r' => m.setRow i r') = m.set i j x := by
  unfold Mat.getRow Mat.get Mat.set Mat.setRow
  constructor
  · by_cases hi : i < n
    · by_cases hj : j < n
      · simp [hi, hj, Vec.get, bind, Except.bind]
      · simp [hi, hj, Vec.get, bind, Except.bind]
    · simp [hi, bind, Except.bind]
  · by_cases hi : i < n
    · by_cases hj : j < n
      · simp only [hi, hj, Vec.set, dif_pos, and_self, bind, Except.bind]
        refine congrArg Except.ok (Mat.ext (funext fun a => funext fun b => ?_))
        by_cases ha : a = ⟨i, hi⟩
        · simp [ha]
        · simp [ha]
      · simp [hi, hj, Vec.set, bind, Except.bind]
    · simp [hi, bind, Except.bind]

example : ∃ m', (⟨![![1, 2], ![3, 4]]⟩ : Mat 2 ℤ).set 1 0 9 = .ok m' ∧ m'.toSlice = [1, 2, 9, 4] :=
  ⟨_, rfl, rfl⟩

/-! ## C27 copy_elements_from

Quadrant `q` has its upper left corner at row `3 * ((q - 1) / 2)`, column `3 * ((q - 1) % 2)`. -/

theorem C27_copy_elements_from (m : Mat 6 T) (r : Mat 3 T) (q : ℕ) :
    ((∃ e, M66.copy_elements_from m r q = .error e) ↔ ¬(1 ≤ q ∧ q ≤ 4)) ∧
    (1 ≤ q → q ≤ 4 → ∃ m', M66.copy_elements_from m r q = .ok m' ∧
      (∀ a b : Fin 3, m'.get (3 * ((q - 1) / 2) + a) (3 * ((q - 1) % 2) + b) = .ok (r a b)) ∧
      ∀ i j : Fin 6, ¬(i.val / 3 = (q - 1) / 2 ∧ j.val / 3 = (q - 1) % 2) → m' i j = m i j) := by
  have ok : 1 ≤ q → q ≤ 4 → ∃ m', M66.copy_elements_from m r q = .ok m' ∧
      (∀ a b : Fin 3, m'.get (3 * ((q - 1) / 2) + a) (3 * ((q - 1) % 2) + b) = .ok (r a b)) ∧
      ∀ i j : Fin 6, ¬(i.val / 3 = (q - 1) / 2 ∧ j.val / 3 = (q - 1) % 2) → m' i j = m i j := by
    intro h1 h2
    interval_cases q <;> refine ⟨_, rfl, fun a b => ?_, fun i j => ?_⟩
    all_goals first
      | (fin_cases a <;> fin_cases b <;> rfl)
      | (fin_cases i <;> fin_cases j <;> first | exact fun _ => rfl | (intro h; exact absurd h (by decide)))
  refine ⟨⟨fun ⟨e, he⟩ ⟨h1, h2⟩ => ?_, fun h => ?_⟩, ok⟩
  · obtain ⟨m', hm, -⟩ := ok h1 h2
    rw [he] at hm
    exact absurd hm (by simp)
  · refine ⟨.explicit "no more than 4 quadrants !!!", ?_⟩
    match q, h with
    | 0, _ => rfl
    | 1, h => exact absurd ⟨le_rfl, by norm_num⟩ h
    | 2, h => exact absurd ⟨by norm_num, by norm_num⟩ h
    | 3, h => exact absurd ⟨by norm_num, by norm_num⟩ h
    | 4, h => exact absurd ⟨by norm_num, by norm_num⟩ h
    | _ + 5, _ => rfl

example : ∃ m', M66.copy_elements_from (⟨fun _ _ => 0⟩ : Mat 6 ℤ) ⟨fun _ _ => 1⟩ 3 = .ok m' ∧
    m' 3 0 = 1 ∧ m' 0 3 = 0 := ⟨_, rfl, rfl, rfl⟩

end StaticMath
''')
open(sys.argv[1], 'w').write(''.join(out))
