import Verif.Exact
import Verif.Lemmas.Transfer
import Mathlib.Data.List.Induction

/-! # Lemmas on `find_max_min` and the slice functions -/

namespace StaticMath

variable {T : Type}

/-- `(x, i)` is an element of `l` at position `i`, at least as large as all elements and strictly
larger than all earlier ones. -/
def IsFirstMax [LinearOrder T] (l : List T) (p : T × ℕ) : Prop :=
  l[p.2]? = some p.1 ∧ (∀ y ∈ l, y ≤ p.1) ∧ ∀ i, i < p.2 → ∀ y, l[i]? = some y → y < p.1

/-- Same for the minimum. -/
def IsFirstMin [LinearOrder T] (l : List T) (p : T × ℕ) : Prop :=
  l[p.2]? = some p.1 ∧ (∀ y ∈ l, p.1 ≤ y) ∧ ∀ i, i < p.2 → ∀ y, l[i]? = some y → p.1 < y

theorem IsFirstMax.snoc [LinearOrder T] {l : List T} {p : T × ℕ} (h : IsFirstMax l p) (y : T) :
    IsFirstMax (l ++ [y]) (if p.1 < y then (y, l.length) else p) := by
  obtain ⟨h1, h2, h3⟩ := h
  have hp : p.2 < l.length := (List.getElem?_eq_some_iff.1 h1).1
  split
  · rename_i hlt
    refine ⟨by simp, fun z hz => ?_, fun i hi z hz => ?_⟩
    · rcases List.mem_append.1 hz with hz | hz
      · exact (h2 z hz).trans hlt.le
      · simp at hz; simp [hz]
    · have : i < l.length := hi
      rw [List.getElem?_append_left this] at hz
      exact lt_of_le_of_lt (h2 z (List.mem_of_getElem? hz)) hlt
  · rename_i hlt
    refine ⟨by rw [List.getElem?_append_left hp]; exact h1, fun z hz => ?_, fun i hi z hz => ?_⟩
    · rcases List.mem_append.1 hz with hz | hz
      · exact h2 z hz
      · simp at hz; rw [hz]; exact not_lt.1 hlt
    · rw [List.getElem?_append_left (by omega)] at hz
      exact h3 i hi z hz

theorem IsFirstMin.snoc [LinearOrder T] {l : List T} {p : T × ℕ} (h : IsFirstMin l p) (y : T) :
    IsFirstMin (l ++ [y]) (if y < p.1 then (y, l.length) else p) := by
  obtain ⟨h1, h2, h3⟩ := h
  have hp : p.2 < l.length := (List.getElem?_eq_some_iff.1 h1).1
  split
  · rename_i hlt
    refine ⟨by simp, fun z hz => ?_, fun i hi z hz => ?_⟩
    · rcases List.mem_append.1 hz with hz | hz
      · exact hlt.le.trans (h2 z hz)
      · simp at hz; simp [hz]
    · have : i < l.length := hi
      rw [List.getElem?_append_left this] at hz
      exact lt_of_lt_of_le hlt (h2 z (List.mem_of_getElem? hz))
  · rename_i hlt
    refine ⟨by rw [List.getElem?_append_left hp]; exact h1, fun z hz => ?_, fun i hi z hz => ?_⟩
    · rcases List.mem_append.1 hz with hz | hz
      · exact h2 z hz
      · simp at hz; rw [hz]; exact not_lt.1 hlt
    · rw [List.getElem?_append_left (by omega)] at hz
      exact h3 i hi z hz

theorem find_max_min_step_eq [LinearOrder T] (s : MaxMin T) (p : T × ℕ) :
    find_max_min_step s p =
      { max := if s.max.1 < p.1 then p else s.max, min := if p.1 < s.min.1 then p else s.min } := by
  unfold find_max_min_step
  by_cases h1 : p.1 < s.min.1 <;> by_cases h2 : s.max.1 < p.1 <;> simp [h1, h2]

theorem find_max_min_foldl [LinearOrder T] (x : T) (xs : List T) :
    IsFirstMax (x :: xs)
      ((((x :: xs).zipIdx.drop 1).foldl find_max_min_step ⟨(x, 0), (x, 0)⟩).max) ∧
    IsFirstMin (x :: xs)
      ((((x :: xs).zipIdx.drop 1).foldl find_max_min_step ⟨(x, 0), (x, 0)⟩).min) := by
  induction xs using List.reverseRecOn with
  | nil => simp [IsFirstMax, IsFirstMin]
  | append_singleton xs y ih =>
    have e : (x :: (xs ++ [y])).zipIdx.drop 1 = (x :: xs).zipIdx.drop 1 ++ [(y, (x :: xs).length)] := by
      rw [← List.cons_append, List.zipIdx_append, List.drop_append_of_le_length (by simp)]
      simp
    rw [e, List.foldl_append]
    simp only [List.foldl_cons, List.foldl_nil, find_max_min_step_eq]
    rw [← List.cons_append]
    exact ⟨ih.1.snoc y, ih.2.snoc y⟩

theorem slice_norm2_eq [RealParams] (l : List ℝ) :
    slice_norm2 l = √((l.map fun x => x ^ 2).sum) := by
  rw [slice_norm2]
  simp only [rfloat_sqrt]
  congr 1
  have : ∀ (l : List ℝ) (a : ℝ), l.foldl (fun n i => i * i + n) a = a + (l.map fun x => x ^ 2).sum := by
    intro l
    induction l with
    | nil => simp
    | cons x l ih => intro a; rw [List.foldl_cons, ih]; simp; ring
  rw [this]; ring

end StaticMath
