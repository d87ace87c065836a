import Verif.Lemmas.Loop
import Mathlib.Tactic.FinCases
import Mathlib.Data.Fintype.Fin
import Mathlib.Tactic.IntervalCases

/-!
# Closed forms of the view functions

Generated by `tools/gen_views.py`. Every statement holds for all element types.
-/

namespace StaticMath

variable {T : Type}

/-- Two loops whose bodies agree on the range. -/
theorem forRange_congr {σ : Type} (lo hi : ℕ) (s : σ) (b b' : ℕ → σ → MayPanic σ)
    (h : ∀ i, lo ≤ i → i < hi → ∀ s, b i s = b' i s) : forRange lo hi s b = forRange lo hi s b' := by
  by_cases hle : lo ≤ hi
  · obtain ⟨d, rfl⟩ := Nat.exists_eq_add_of_le hle
    clear hle
    induction d generalizing lo s with
    | zero => rw [forRange_self _ _ (by omega), forRange_self _ _ (by omega)]
    | succ d ih =>
      rw [forRange_step _ _ (by omega), forRange_step lo _ (by omega), h lo le_rfl (by omega) s]
      congr 1
      funext s'
      have := ih (lo + 1) s' (fun i h1 h2 s => h i (by omega) (by omega) s)
      rwa [show lo + 1 + d = lo + (d + 1) by omega] at this
  · rw [forRange_self _ _ (by omega), forRange_self _ _ (by omega)]

/-- Writing the elements of a list of the right length one after the other. -/
theorem foldlM_set_eq {len : ℕ} (l : List T) (hl : l.length = len) (init : Vec len T) :
    l.zipIdx.foldlM (fun (r : Vec len T) p => r.set p.2 p.1) init
      = (.ok ⟨fun k => l[k.val]'(hl ▸ k.isLt)⟩ : MayPanic (Vec len T)) := by
  have key : ∀ (m : List T) (o : ℕ) (init : Vec len T), o + m.length ≤ len →
      (m.zipIdx o).foldlM (fun (r : Vec len T) p => r.set p.2 p.1) init
        = (.ok ⟨fun k => if h : o ≤ k.val ∧ k.val < o + m.length then m[k.val - o]'(by omega)
            else init.val k⟩ : MayPanic (Vec len T)) := by
    intro m
    induction m with
    | nil =>
      intro o init _
      refine congrArg Except.ok (Vec.ext (funext fun k => ?_))
      dsimp only
      rw [dif_neg (by simp)]
    | cons x m ih =>
      intro o init ho
      simp only [List.length_cons] at ho
      rw [List.zipIdx_cons, List.foldlM_cons, Vec.set_ok _ _ (by omega : o < len)]
      refine (ih (o + 1) _ (by omega)).trans (congrArg Except.ok (Vec.ext (funext fun k => ?_)))
      dsimp only
      by_cases hk : k.val = o
      · rw [dif_neg (by omega), if_pos (Fin.ext hk), dif_pos (by simp; omega)]
        simp [hk]
      · have hk' : k ≠ ⟨o, by omega⟩ := fun h => hk (congrArg Fin.val h)
        by_cases hr : o + 1 ≤ k.val ∧ k.val < o + 1 + m.length
        · rw [dif_pos hr, dif_pos (by simp; omega)]
          have : k.val - o = (k.val - (o + 1)) + 1 := by omega
          simp only [this, List.getElem_cons_succ]
        · rw [dif_neg hr, if_neg hk', dif_neg (by simp; omega)]
  rw [key l 0 init (by omega)]
  refine congrArg Except.ok (Vec.ext (funext fun k => ?_))
  dsimp only
  rw [dif_pos ⟨Nat.zero_le _, by rw [Nat.zero_add, hl]; exact k.isLt⟩]
  rfl

theorem Mat.toSlice_eq {n : ℕ} (A : Mat n T) :
    A.toSlice = List.ofFn (fun k : Fin (n * n) =>
      A.val ⟨k.val / n, Nat.div_lt_of_lt_mul k.isLt⟩
        ⟨k.val % n, Nat.mod_lt _ (Nat.pos_of_mul_pos_right (Nat.zero_lt_of_lt k.isLt))⟩) := by
  rw [List.ofFn_mul, Mat.toSlice]
  congr 2
  funext i
  congr 1
  funext j
  have hn : 0 < n := Nat.zero_lt_of_lt j.isLt
  congr 1
  · refine Fin.ext ?_
    simp only [Nat.mul_comm, Nat.add_comm, Nat.add_mul_div_left _ _ hn, Nat.div_eq_of_lt j.isLt,
      Nat.add_zero]
  · refine Fin.ext ?_
    simp only [Nat.mul_comm, Nat.mul_add_mod, Nat.mod_eq_of_lt j.isLt]

theorem asVecGen_eq {n : ℕ} [Zero T] (len : ℕ) (h : n * n = len) (A : Mat n T) :
    asVecGen len A = .ok ⟨fun k => A.val ⟨k.val / n, Nat.div_lt_of_lt_mul (by omega)⟩
      ⟨k.val % n, Nat.mod_lt _ (Nat.pos_of_mul_pos_right (a := n) (b := n) (by have := k.isLt; omega))⟩⟩ := by
  subst h
  rw [asVecGen, foldlM_set_eq _ (by rw [Mat.toSlice_eq, List.length_ofFn])]
  refine congrArg Except.ok (Vec.ext (funext fun k => ?_))
  dsimp only
  simp only [Mat.toSlice_eq, List.getElem_ofFn]

theorem M22.get_rows_eq [Zero T] (A : Mat 2 T) :
    M22.get_rows A = .ok ⟨fun i => ⟨fun j => A i j⟩⟩ := by
  refine Eq.trans (b := Except.ok _) rfl
    (congrArg _ (Vec.ext (funext fun i => Vec.ext (funext fun j => ?_))))
  fin_cases i <;> fin_cases j <;> rfl

theorem M22.get_cols_eq [Zero T] (A : Mat 2 T) :
    M22.get_cols A = .ok ⟨fun j => ⟨fun i => A i j⟩⟩ := by
  refine Eq.trans (b := Except.ok _) rfl
    (congrArg _ (Vec.ext (funext fun i => Vec.ext (funext fun j => ?_))))
  fin_cases i <;> fin_cases j <;> rfl

theorem M22.new_from_vecs_eq [Zero T] (c : Vec 2 (Vec 2 T)) :
    M22.new_from_vecs c = .ok ⟨fun i j => (c j) i⟩ := by
  refine Eq.trans (b := Except.ok _) rfl
    (congrArg _ (Mat.ext (funext fun i => funext fun j => ?_)))
  fin_cases i <;> fin_cases j <;> rfl

theorem M22.for_each_eq [Zero T] (A : Mat 2 T) (f : T → T) :
    M22.for_each A f = .ok ⟨fun i j => f (A i j)⟩ := by
  refine Eq.trans (b := Except.ok _) rfl
    (congrArg _ (Mat.ext (funext fun i => funext fun j => ?_)))
  fin_cases i <;> fin_cases j <;> rfl

theorem M22.get_diagonal_eq [Zero T] (A : Mat 2 T) :
    M22.get_diagonal A = .ok ⟨fun i => A i i⟩ := by
  refine Eq.trans (b := Except.ok _) rfl
    (congrArg _ (Vec.ext (funext fun i => ?_)))
  fin_cases i <;> rfl

theorem M33.get_rows_eq [Zero T] (A : Mat 3 T) :
    M33.get_rows A = .ok ⟨fun i => ⟨fun j => A i j⟩⟩ := by
  refine Eq.trans (b := Except.ok _) rfl
    (congrArg _ (Vec.ext (funext fun i => Vec.ext (funext fun j => ?_))))
  fin_cases i <;> fin_cases j <;> rfl

theorem M33.get_cols_eq [Zero T] (A : Mat 3 T) :
    M33.get_cols A = .ok ⟨fun j => ⟨fun i => A i j⟩⟩ := by
  refine Eq.trans (b := Except.ok _) rfl
    (congrArg _ (Vec.ext (funext fun i => Vec.ext (funext fun j => ?_))))
  fin_cases i <;> fin_cases j <;> rfl

theorem M33.new_from_vecs_eq [Zero T] (c : Vec 3 (Vec 3 T)) :
    M33.new_from_vecs c = .ok ⟨fun i j => (c j) i⟩ := by
  refine Eq.trans (b := Except.ok _) rfl
    (congrArg _ (Mat.ext (funext fun i => funext fun j => ?_)))
  fin_cases i <;> fin_cases j <;> rfl

theorem M33.for_each_eq [Zero T] (A : Mat 3 T) (f : T → T) :
    M33.for_each A f = .ok ⟨fun i j => f (A i j)⟩ := by
  refine Eq.trans (b := Except.ok _) rfl
    (congrArg _ (Mat.ext (funext fun i => funext fun j => ?_)))
  fin_cases i <;> fin_cases j <;> rfl

theorem M33.get_diagonal_eq [Zero T] (A : Mat 3 T) :
    M33.get_diagonal A = .ok ⟨fun i => A i i⟩ := by
  refine Eq.trans (b := Except.ok _) rfl
    (congrArg _ (Vec.ext (funext fun i => ?_)))
  fin_cases i <;> rfl

theorem M33.get_upper_triagular_eq [Zero T] (A : Mat 3 T) :
    M33.get_upper_triagular A = .ok ⟨![A 0 1, A 0 2, A 1 2]⟩ := by
  refine Eq.trans (b := Except.ok _) rfl
    (congrArg _ (Vec.ext (funext fun i => ?_)))
  fin_cases i <;> rfl

theorem M33.get_lower_triangular_eq [Zero T] (A : Mat 3 T) :
    M33.get_lower_triangular A = .ok ⟨![A 1 0, A 2 0, A 2 1]⟩ := by
  refine Eq.trans (b := Except.ok _) rfl
    (congrArg _ (Vec.ext (funext fun i => ?_)))
  fin_cases i <;> rfl

theorem M44.get_rows_eq [Zero T] (A : Mat 4 T) :
    M44.get_rows A = .ok ⟨fun i => ⟨fun j => A i j⟩⟩ := by
  refine Eq.trans (b := Except.ok _) rfl
    (congrArg _ (Vec.ext (funext fun i => Vec.ext (funext fun j => ?_))))
  fin_cases i <;> fin_cases j <;> rfl

theorem M44.get_cols_eq [Zero T] (A : Mat 4 T) :
    M44.get_cols A = .ok ⟨fun j => ⟨fun i => A i j⟩⟩ := by
  refine Eq.trans (b := Except.ok _) rfl
    (congrArg _ (Vec.ext (funext fun i => Vec.ext (funext fun j => ?_))))
  fin_cases i <;> fin_cases j <;> rfl

theorem M44.new_from_vecs_eq [Zero T] (c : Vec 4 (Vec 4 T)) :
    M44.new_from_vecs c = .ok ⟨fun i j => (c j) i⟩ := by
  refine Eq.trans (b := Except.ok _) rfl
    (congrArg _ (Mat.ext (funext fun i => funext fun j => ?_)))
  fin_cases i <;> fin_cases j <;> rfl

theorem M44.for_each_eq [Zero T] (A : Mat 4 T) (f : T → T) :
    M44.for_each A f = .ok ⟨fun i j => f (A i j)⟩ := by
  refine Eq.trans (b := Except.ok _) rfl
    (congrArg _ (Mat.ext (funext fun i => funext fun j => ?_)))
  fin_cases i <;> fin_cases j <;> rfl

theorem M44.get_diagonal_eq [Zero T] (A : Mat 4 T) :
    M44.get_diagonal A = .ok ⟨fun i => A i i⟩ := by
  refine Eq.trans (b := Except.ok _) rfl
    (congrArg _ (Vec.ext (funext fun i => ?_)))
  fin_cases i <;> rfl

theorem M44.get_upper_triagular_eq [Zero T] (A : Mat 4 T) :
    M44.get_upper_triagular A = .ok ⟨![A 0 1, A 0 2, A 0 3, A 1 2, A 1 3, A 2 3]⟩ := by
  refine Eq.trans (b := Except.ok _) rfl
    (congrArg _ (Vec.ext (funext fun i => ?_)))
  fin_cases i <;> rfl

theorem M44.get_lower_triangular_eq [Zero T] (A : Mat 4 T) :
    M44.get_lower_triangular A = .ok ⟨![A 1 0, A 2 0, A 2 1, A 3 0, A 3 1, A 3 2]⟩ := by
  refine Eq.trans (b := Except.ok _) rfl
    (congrArg _ (Vec.ext (funext fun i => ?_)))
  fin_cases i <;> rfl

theorem M44.get_submatrix_eq [Zero T] (A : Mat 4 T) (i j : Fin 4) :
    M44.get_submatrix A (i, j) = .ok ⟨fun r c => A (i.succAbove r) (j.succAbove c)⟩ := by
  fin_cases i <;> fin_cases j <;>
  refine Eq.trans (b := Except.ok _) rfl
    (congrArg _ (Mat.ext (funext fun i => (funext fun j => ?_))))
  all_goals (fin_cases i <;> fin_cases j <;> rfl)

theorem M44.get_submatrix_min [Zero T] (A : Mat 4 T) (a b : ℕ) :
    M44.get_submatrix A (a, b) = M44.get_submatrix A (min a 4, min b 4) := by
  unfold M44.get_submatrix
  dsimp only
  congr 1
  refine forRange_congr _ _ _ _ _ fun i _ hi s => ?_
  congr 1
  refine forRange_congr _ _ _ _ _ fun j _ hj s => ?_
  have h1 : (i = min a 4) = (i = a) := propext (by omega)
  have h2 : (j = min b 4) = (j = b) := propext (by omega)
  simp only [h1, h2]

theorem M44.get_submatrix_panics [Zero T] (A : Mat 4 T) (a b : ℕ) (h : 4 ≤ a ∨ 4 ≤ b) :
    M44.get_submatrix A (a, b) = .error .indexOutOfBounds := by
  rw [M44.get_submatrix_min]
  have ha : min a 4 ≤ 4 := min_le_right _ _
  have hb : min b 4 ≤ 4 := min_le_right _ _
  have hab : min a 4 = 4 ∨ min b 4 = 4 := by omega
  generalize min a 4 = a' at *
  generalize min b 4 = b' at *
  rcases hab with rfl | rfl
  · interval_cases b' <;> rfl
  · interval_cases a' <;> rfl

theorem M55.get_rows_eq [Zero T] (A : Mat 5 T) :
    M55.get_rows A = .ok ⟨fun i => ⟨fun j => A i j⟩⟩ := by
  refine Eq.trans (b := Except.ok _) rfl
    (congrArg _ (Vec.ext (funext fun i => Vec.ext (funext fun j => ?_))))
  fin_cases i <;> fin_cases j <;> rfl

theorem M55.get_cols_eq [Zero T] (A : Mat 5 T) :
    M55.get_cols A = .ok ⟨fun j => ⟨fun i => A i j⟩⟩ := by
  refine Eq.trans (b := Except.ok _) rfl
    (congrArg _ (Vec.ext (funext fun i => Vec.ext (funext fun j => ?_))))
  fin_cases i <;> fin_cases j <;> rfl

theorem M55.new_from_vecs_eq [Zero T] (c : Vec 5 (Vec 5 T)) :
    M55.new_from_vecs c = .ok ⟨fun i j => (c j) i⟩ := by
  refine Eq.trans (b := Except.ok _) rfl
    (congrArg _ (Mat.ext (funext fun i => funext fun j => ?_)))
  fin_cases i <;> fin_cases j <;> rfl

theorem M55.for_each_eq [Zero T] (A : Mat 5 T) (f : T → T) :
    M55.for_each A f = .ok ⟨fun i j => f (A i j)⟩ := by
  refine Eq.trans (b := Except.ok _) rfl
    (congrArg _ (Mat.ext (funext fun i => funext fun j => ?_)))
  fin_cases i <;> fin_cases j <;> rfl

theorem M55.get_diagonal_eq [Zero T] (A : Mat 5 T) :
    M55.get_diagonal A = .ok ⟨fun i => A i i⟩ := by
  refine Eq.trans (b := Except.ok _) rfl
    (congrArg _ (Vec.ext (funext fun i => ?_)))
  fin_cases i <;> rfl

theorem M55.get_upper_triagular_eq [Zero T] (A : Mat 5 T) :
    M55.get_upper_triagular A = .ok ⟨![A 0 1, A 0 2, A 0 3, A 0 4, A 1 2, A 1 3, A 1 4, A 2 3, A 2 4, A 3 4]⟩ := by
  refine Eq.trans (b := Except.ok _) rfl
    (congrArg _ (Vec.ext (funext fun i => ?_)))
  fin_cases i <;> rfl

theorem M55.get_lower_triangular_eq [Zero T] (A : Mat 5 T) :
    M55.get_lower_triangular A = .ok ⟨![A 1 0, A 2 0, A 2 1, A 3 0, A 3 1, A 3 2, A 4 0, A 4 1, A 4 2, A 4 3]⟩ := by
  refine Eq.trans (b := Except.ok _) rfl
    (congrArg _ (Vec.ext (funext fun i => ?_)))
  fin_cases i <;> rfl

theorem M55.get_submatrix_eq [Zero T] (A : Mat 5 T) (i j : Fin 5) :
    M55.get_submatrix A (i, j) = .ok ⟨fun r c => A (i.succAbove r) (j.succAbove c)⟩ := by
  fin_cases i <;> fin_cases j <;>
  refine Eq.trans (b := Except.ok _) rfl
    (congrArg _ (Mat.ext (funext fun i => (funext fun j => ?_))))
  all_goals (fin_cases i <;> fin_cases j <;> rfl)

theorem M55.get_submatrix_min [Zero T] (A : Mat 5 T) (a b : ℕ) :
    M55.get_submatrix A (a, b) = M55.get_submatrix A (min a 5, min b 5) := by
  unfold M55.get_submatrix
  dsimp only
  congr 1
  refine forRange_congr _ _ _ _ _ fun i _ hi s => ?_
  congr 1
  refine forRange_congr _ _ _ _ _ fun j _ hj s => ?_
  have h1 : (i = min a 5) = (i = a) := propext (by omega)
  have h2 : (j = min b 5) = (j = b) := propext (by omega)
  simp only [h1, h2]

theorem M55.get_submatrix_panics [Zero T] (A : Mat 5 T) (a b : ℕ) (h : 5 ≤ a ∨ 5 ≤ b) :
    M55.get_submatrix A (a, b) = .error .indexOutOfBounds := by
  rw [M55.get_submatrix_min]
  have ha : min a 5 ≤ 5 := min_le_right _ _
  have hb : min b 5 ≤ 5 := min_le_right _ _
  have hab : min a 5 = 5 ∨ min b 5 = 5 := by omega
  generalize min a 5 = a' at *
  generalize min b 5 = b' at *
  rcases hab with rfl | rfl
  · interval_cases b' <;> rfl
  · interval_cases a' <;> rfl

theorem M66.get_rows_eq [Zero T] (A : Mat 6 T) :
    M66.get_rows A = .ok ⟨fun i => ⟨fun j => A i j⟩⟩ := by
  refine Eq.trans (b := Except.ok _) rfl
    (congrArg _ (Vec.ext (funext fun i => Vec.ext (funext fun j => ?_))))
  fin_cases i <;> fin_cases j <;> rfl

theorem M66.get_cols_eq [Zero T] (A : Mat 6 T) :
    M66.get_cols A = .ok ⟨fun j => ⟨fun i => A i j⟩⟩ := by
  refine Eq.trans (b := Except.ok _) rfl
    (congrArg _ (Vec.ext (funext fun i => Vec.ext (funext fun j => ?_))))
  fin_cases i <;> fin_cases j <;> rfl

theorem M66.new_from_vecs_eq [Zero T] (c : Vec 6 (Vec 6 T)) :
    M66.new_from_vecs c = .ok ⟨fun i j => (c j) i⟩ := by
  refine Eq.trans (b := Except.ok _) rfl
    (congrArg _ (Mat.ext (funext fun i => funext fun j => ?_)))
  fin_cases i <;> fin_cases j <;> rfl

theorem M66.for_each_eq [Zero T] (A : Mat 6 T) (f : T → T) :
    M66.for_each A f = .ok ⟨fun i j => f (A i j)⟩ := by
  refine Eq.trans (b := Except.ok _) rfl
    (congrArg _ (Mat.ext (funext fun i => funext fun j => ?_)))
  fin_cases i <;> fin_cases j <;> rfl

theorem M66.get_diagonal_eq [Zero T] (A : Mat 6 T) :
    M66.get_diagonal A = .ok ⟨fun i => A i i⟩ := by
  refine Eq.trans (b := Except.ok _) rfl
    (congrArg _ (Vec.ext (funext fun i => ?_)))
  fin_cases i <;> rfl

theorem M66.get_upper_triangular_eq [Zero T] (A : Mat 6 T) :
    M66.get_upper_triangular A = .ok ⟨![A 0 1, A 0 2, A 0 3, A 0 4, A 0 5, A 1 2, A 1 3, A 1 4, A 1 5, A 2 3, A 2 4, A 2 5, A 3 4, A 3 5, A 4 5]⟩ := by
  refine Eq.trans (b := Except.ok _) rfl
    (congrArg _ (Vec.ext (funext fun i => ?_)))
  fin_cases i <;> rfl

theorem M66.get_lower_triangular_eq [Zero T] (A : Mat 6 T) :
    M66.get_lower_triangular A = .ok ⟨![A 1 0, A 2 0, A 2 1, A 3 0, A 3 1, A 3 2, A 4 0, A 4 1, A 4 2, A 4 3, A 5 0, A 5 1, A 5 2, A 5 3, A 5 4]⟩ := by
  refine Eq.trans (b := Except.ok _) rfl
    (congrArg _ (Vec.ext (funext fun i => ?_)))
  fin_cases i <;> rfl

theorem M66.get_submatrix_eq [Zero T] (A : Mat 6 T) (i j : Fin 6) :
    M66.get_submatrix A (i, j) = .ok ⟨fun r c => A (i.succAbove r) (j.succAbove c)⟩ := by
  fin_cases i <;> fin_cases j <;>
  refine Eq.trans (b := Except.ok _) rfl
    (congrArg _ (Mat.ext (funext fun i => (funext fun j => ?_))))
  all_goals (fin_cases i <;> fin_cases j <;> rfl)

theorem M66.get_submatrix_min [Zero T] (A : Mat 6 T) (a b : ℕ) :
    M66.get_submatrix A (a, b) = M66.get_submatrix A (min a 6, min b 6) := by
  unfold M66.get_submatrix
  dsimp only
  congr 1
  refine forRange_congr _ _ _ _ _ fun i _ hi s => ?_
  congr 1
  refine forRange_congr _ _ _ _ _ fun j _ hj s => ?_
  have h1 : (i = min a 6) = (i = a) := propext (by omega)
  have h2 : (j = min b 6) = (j = b) := propext (by omega)
  simp only [h1, h2]

theorem M66.get_submatrix_panics [Zero T] (A : Mat 6 T) (a b : ℕ) (h : 6 ≤ a ∨ 6 ≤ b) :
    M66.get_submatrix A (a, b) = .error .indexOutOfBounds := by
  rw [M66.get_submatrix_min]
  have ha : min a 6 ≤ 6 := min_le_right _ _
  have hb : min b 6 ≤ 6 := min_le_right _ _
  have hab : min a 6 = 6 ∨ min b 6 = 6 := by omega
  generalize min a 6 = a' at *
  generalize min b 6 = b' at *
  rcases hab with rfl | rfl
  · interval_cases b' <;> rfl
  · interval_cases a' <;> rfl

end StaticMath
