import Verif.Ieee.Sqrt
import Verif.Ieee.ExprBounds
import Verif.Ieee.Near
import Verif.Props.Ieee
import Verif.Model.Utils
import Mathlib.Data.EReal.Basic

/-!
# C147: functions of slices of any length in floating point
-/

namespace StaticMath
open Flt

section
variable {f : Fmt}

/-! ## `find_max_min` -/

private noncomputable def key : Flt f → EReal
  | .nan => 0
  | .inf s => if s then ⊥ else ⊤
  | .fin s x h => (((Flt.fin s x h).toReal : ℝ) : EReal)

private theorem lt_key (a b : Flt f) : ROrd.lt a b = true ↔ a ≠ .nan ∧ b ≠ .nan ∧ key a < key b := by
  cases a with
  | nan => exact ⟨(fun h => by cases h), fun h => absurd rfl h.1⟩
  | inf s =>
    cases b with
    | nan => exact ⟨(fun h => by cases h), fun h => absurd rfl h.2.1⟩
    | inf t =>
      refine Iff.trans (b := (s && !t) = true) Iff.rfl ?_
      cases s <;> cases t <;> simp [key]
    | fin t y hy =>
      refine Iff.trans (b := s = true) Iff.rfl ?_
      cases s <;> simp [key, EReal.bot_lt_coe]
  | fin s x hx =>
    cases b with
    | nan => exact ⟨(fun h => by cases h), fun h => absurd rfl h.2.1⟩
    | inf t =>
      refine Iff.trans (b := (!t) = true) Iff.rfl ?_
      cases t <;> simp [key, EReal.coe_lt_top]
    | fin t y hy =>
      rw [lt_iff (a := fin s x hx) (b := fin t y hy) trivial trivial]
      simp [key]

/-- `p` is the first extremal element of `l`, NaN elements being skipped unless the first one is NaN. -/
private def Ext (lt : Flt f → Flt f → Bool) (l : List (Flt f)) (p : Flt f × ℕ) : Prop :=
  l[p.2]? = some p.1 ∧ (l[0]? = some .nan → p = (.nan, 0)) ∧
    (l[0]? ≠ some .nan → p.1 ≠ .nan ∧ (∀ y ∈ l, lt p.1 y = false) ∧
      ∀ i, i < p.2 → ∀ y, l[i]? = some y → y ≠ .nan → lt y p.1 = true)

private theorem Ext.snoc {α : Type} [LinearOrder α] (κ : Flt f → α) (lt : Flt f → Flt f → Bool)
    (hlt : ∀ a b, lt a b = true ↔ a ≠ .nan ∧ b ≠ .nan ∧ κ a < κ b) {l : List (Flt f)} (hl : l ≠ []) {p : Flt f × ℕ}
    (h : Ext lt l p) (y : Flt f) : Ext lt (l ++ [y]) (if lt p.1 y then (y, l.length) else p) := by
  obtain ⟨h1, h2, h3⟩ := h
  have hpos : 0 < l.length := List.length_pos_iff.2 hl
  have hp2 : p.2 < l.length := (List.getElem?_eq_some_iff.1 h1).1
  have e0 : (l ++ [y])[0]? = l[0]? := List.getElem?_append_left hpos
  have hF : ∀ a b, lt a b = false ↔ ¬ (a ≠ .nan ∧ b ≠ .nan ∧ κ a < κ b) := fun a b => by
    rw [← hlt, Bool.not_eq_true]
  unfold Ext
  rw [e0]
  by_cases hc : lt p.1 y = true
  · rw [if_pos hc]
    obtain ⟨c1, c2, c3⟩ := (hlt _ _).1 hc
    refine ⟨by simp, fun h0 => absurd (by rw [h2 h0]) c1, fun h0 => ⟨c2, fun z hz => ?_, fun i hi z hz hzn => ?_⟩⟩
    · obtain ⟨-, k2, -⟩ := h3 h0
      rcases List.mem_append.1 hz with hz | hz
      · have := k2 z hz
        rw [hF] at this ⊢
        rintro ⟨-, z1, z2⟩
        exact this ⟨c1, z1, c3.trans z2⟩
      · rw [List.mem_singleton.1 hz, hF]
        rintro ⟨-, -, z2⟩
        exact lt_irrefl _ z2
    · obtain ⟨-, k2, -⟩ := h3 h0
      rw [List.getElem?_append_left hi] at hz
      have := k2 z (List.mem_of_getElem? hz)
      rw [hF] at this
      rw [hlt]
      exact ⟨hzn, c2, lt_of_le_of_lt (not_lt.1 fun h => this ⟨c1, hzn, h⟩) c3⟩
  · rw [if_neg hc]
    refine ⟨by rw [List.getElem?_append_left hp2]; exact h1, h2, fun h0 => ?_⟩
    obtain ⟨k1, k2, k3⟩ := h3 h0
    refine ⟨k1, fun z hz => ?_, fun i hi z hz hzn => ?_⟩
    · rcases List.mem_append.1 hz with hz | hz
      · exact k2 z hz
      · rw [List.mem_singleton.1 hz]; simpa using hc
    · rw [List.getElem?_append_left (hi.trans hp2)] at hz
      exact k3 i hi z hz hzn

private theorem step_eq (s : MaxMin (Flt f)) (p : Flt f × ℕ) :
    find_max_min_step s p = ⟨if ROrd.lt s.max.1 p.1 then p else s.max, if ROrd.lt p.1 s.min.1 then p else s.min⟩ := by
  unfold find_max_min_step
  by_cases h1 : ROrd.lt p.1 s.min.1 = true <;> by_cases h2 : ROrd.lt s.max.1 p.1 = true <;> simp [h1, h2]

private theorem fold_ext (x : Flt f) (xs : List (Flt f)) :
    Ext ROrd.lt (x :: xs) ((((x :: xs).zipIdx.drop 1).foldl find_max_min_step ⟨(x, 0), (x, 0)⟩).max) ∧
    Ext (fun a b => ROrd.lt b a) (x :: xs)
      ((((x :: xs).zipIdx.drop 1).foldl find_max_min_step ⟨(x, 0), (x, 0)⟩).min) := by
  induction xs using List.reverseRecOn with
  | nil =>
    have hx : ∀ a : Flt f, ROrd.lt a a = false := fun a => by
      rw [← Bool.not_eq_true, lt_key]; rintro ⟨-, -, h⟩; exact lt_irrefl _ h
    constructor <;>
    · refine ⟨rfl, fun h => ?_, fun h => ⟨fun e => h (by rw [← e]; rfl), fun y hy => ?_, fun i hi => absurd hi (Nat.not_lt_zero i)⟩⟩
      · have : x = .nan := by simpa using h
        rw [this]; rfl
      · rw [List.mem_singleton.1 hy]; exact hx x
  | append_singleton xs y ih =>
    have e : (x :: (xs ++ [y])).zipIdx.drop 1 = (x :: xs).zipIdx.drop 1 ++ [(y, (x :: xs).length)] := by
      rw [← List.cons_append, List.zipIdx_append, List.drop_append_of_le_length (by simp)]
      simp
    rw [e, List.foldl_append]
    simp only [List.foldl_cons, List.foldl_nil, step_eq]
    rw [← List.cons_append]
    exact ⟨ih.1.snoc key _ lt_key (by simp) y, ih.2.snoc (fun a => OrderDual.toDual (key a)) _
      (fun a b => by rw [lt_key, OrderDual.toDual_lt_toDual]; tauto) (by simp) y⟩

/-- `find_max_min` on floats: the empty slice panics; if the first element is NaN both results are that
element; otherwise NaN elements are skipped, and each result is the first of the largest (smallest)
remaining elements with its position. -/
theorem C147_find_max_min (l : List (Flt f)) :
    (find_max_min l = .error .indexOutOfBounds ↔ l = []) ∧
    (l ≠ [] → ∃ r, find_max_min l = .ok r ∧ l[r.max.2]? = some r.max.1 ∧ l[r.min.2]? = some r.min.1 ∧
      (l[0]? = some .nan → r.max = (.nan, 0) ∧ r.min = (.nan, 0)) ∧
      (l[0]? ≠ some .nan →
        (r.max.1 ≠ .nan ∧ (∀ y ∈ l, ROrd.lt r.max.1 y = false) ∧
          ∀ i, i < r.max.2 → ∀ y, l[i]? = some y → y ≠ .nan → ROrd.lt y r.max.1 = true) ∧
        (r.min.1 ≠ .nan ∧ (∀ y ∈ l, ROrd.lt y r.min.1 = false) ∧
          ∀ i, i < r.min.2 → ∀ y, l[i]? = some y → y ≠ .nan → ROrd.lt r.min.1 y = true))) := by
  cases l with
  | nil => exact ⟨⟨fun _ => rfl, fun _ => rfl⟩, fun h => absurd rfl h⟩
  | cons x xs =>
    refine ⟨⟨fun h => (by simp [find_max_min] at h), fun h => (by simp at h)⟩, fun _ => ?_⟩
    obtain ⟨⟨a1, a2, a3⟩, b1, b2, b3⟩ := fold_ext x xs
    exact ⟨_, rfl, a1, b1, fun h => ⟨a2 h, b2 h⟩, fun h => ⟨a3 h, b3 h⟩⟩

/-! ## Sums -/

/-- Neither NaN nor negative. -/
private def NN (a : Flt f) : Prop := a = .inf false ∨ ∃ x h, a = .fin false x h

private theorem NN.val {a : Flt f} (h : NN a) : a ≠ .nan ∧ 0 ≤ a.toReal := by
  rcases h with rfl | ⟨x, hx, rfl⟩
  · exact ⟨by simp, le_rfl⟩
  · exact ⟨by simp, hx.nonneg⟩

private theorem NN.pack (x : ℝ) : NN (Flt.pack f false x) := by
  unfold Flt.pack
  split
  · exact Or.inr ⟨_, _, rfl⟩
  · exact Or.inl rfl

private theorem NN.abs {a : Flt f} (h : a ≠ .nan) : NN (RAbs.abs a) := by
  rcases a with _ | s | ⟨s, x, hx⟩
  · exact absurd rfl h
  · exact Or.inl rfl
  · exact Or.inr ⟨x, hx, rfl⟩

private theorem NN.sq {a : Flt f} (h : a ≠ .nan) : NN (a * a) := by
  rcases a with _ | s | ⟨s, x, hx⟩
  · exact absurd rfl h
  · exact Or.inl (congrArg Flt.inf (by simp))
  · have : (Flt.fin s x hx * Flt.fin s x hx : Flt f) = Flt.pack f (s != s) (x * x) := rfl
    rw [this, bne_self_eq_false]
    exact NN.pack _

private theorem NN.add {a b : Flt f} (ha : NN a) (hb : NN b) : NN (a + b) := by
  rcases ha with rfl | ⟨x, hx, rfl⟩ <;> rcases hb with rfl | ⟨y, hy, rfl⟩
  · exact Or.inl rfl
  · exact Or.inl rfl
  · exact Or.inl rfl
  · have e : (Flt.fin false x hx + Flt.fin false y hy : Flt f) = Flt.ofReal f false (x + y) := rfl
    have h0 : ¬ (x + y < 0) := not_lt.2 (add_nonneg hx.nonneg hy.nonneg)
    rw [e, Flt.ofReal]
    simp only [h0, decide_false, ite_self]
    exact NN.pack _

private theorem fold_nn (l : List (Flt f)) (a : Flt f) (ha : NN a) (h : ∀ x ∈ l, NN x) :
    NN (l.foldl (· + ·) a) := by
  induction l generalizing a with
  | nil => exact ha
  | cons x l ih => exact ih _ (ha.add (h x (by simp))) fun y hy => h y (by simp [hy])

private theorem fold_nan (l : List (Flt f)) (a : Flt f) (h : a = .nan ∨ Flt.nan ∈ l) :
    l.foldl (· + ·) a = .nan := by
  induction l generalizing a with
  | nil => simpa using h
  | cons x l ih =>
    refine ih _ ?_
    rcases h with rfl | h
    · exact Or.inl rfl
    · rcases List.mem_cons.1 h with rfl | h
      · exact Or.inl (add_nan a)
      · exact Or.inr h

private theorem zero_nn : NN (0 : Flt f) := Or.inr ⟨0, f.rep_zero, rfl⟩

/-- A sum of floats without products. -/
private theorem fold_err (l : List (Flt f)) (a : Flt f) (h : (l.foldl (· + ·) a).IsFin) :
    |(l.foldl (· + ·) a).toReal - (a.toReal + (l.map toReal).sum)| ≤
      ((1 + f.u) ^ l.length - 1) * (|a.toReal| + (l.map fun x => |x.toReal|).sum) := by
  induction l generalizing a with
  | nil => simp
  | cons x l ih =>
    have hu := f.u_pos
    have hfin := (isFin_of_foldl id l (a + x) h).1
    have h1 := add_rel hfin
    have h2 := ih (a + x) h
    simp only [List.map_cons, List.sum_cons, List.length_cons, List.foldl_cons]
    have hS : 0 ≤ (l.map fun x => |x.toReal|).sum := List.sum_nonneg (by simp)
    have hP : 1 ≤ (1 + f.u) ^ l.length := one_le_pow₀ (by linarith)
    set P := (1 + f.u) ^ l.length
    set S := (l.map fun x => |x.toReal|).sum
    set T := (l.map toReal).sum
    set r := (l.foldl (· + ·) (a + x)).toReal
    have h3 := abs_add_le a.toReal x.toReal
    have h4 : |(a + x).toReal| ≤ (1 + f.u) * (|a.toReal| + |x.toReal|) := by
      have := abs_sub_abs_le_abs_sub (a + x).toReal (a.toReal + x.toReal)
      nlinarith
    have h5 := abs_add_le (r - ((a + x).toReal + T)) ((a + x).toReal - (a.toReal + x.toReal))
    rw [show r - ((a + x).toReal + T) + ((a + x).toReal - (a.toReal + x.toReal)) = r - (a.toReal + (x.toReal + T)) by ring] at h5
    have h6 := mul_le_mul_of_nonneg_left h4 (show 0 ≤ P - 1 by linarith)
    have h7 := mul_le_mul_of_nonneg_left h3 hu.le
    have h8 : 0 ≤ P * f.u * S := by positivity
    rw [pow_succ]
    nlinarith

private theorem abs_sum {α : Type} (g : α → ℝ) (l : List α) : |(l.map g).sum| ≤ (l.map fun x => |g x|).sum := by
  induction l with
  | nil => simp
  | cons x l ih =>
    simp only [List.map_cons, List.sum_cons]
    exact (abs_add_le _ _).trans (by linarith)

/-- `norm_l` of a float slice of any length `n`: it is NaN only if an element is; a finite result is within
`n - 1` roundings of the sum of the magnitudes; it does not depend on the signs of the elements at all. -/
theorem C147_norm_l (l : List (Flt f)) :
    (norm_l l = .nan ↔ Flt.nan ∈ l) ∧ norm_l (l.map fun x => -x) = norm_l l ∧
    ((norm_l l).IsFin → |(norm_l l).toReal - (l.map fun x => |x.toReal|).sum| ≤
      ((1 + f.u) ^ (l.length - 1) - 1) * (l.map fun x => |x.toReal|).sum) := by
  refine ⟨⟨fun h => ?_, fun h => ?_⟩, ?_, fun h => ?_⟩
  · by_contra hn
    refine (fold_nn (l.map fun x => RAbs.abs x) 0 zero_nn fun x hx => ?_).val.1 h
    obtain ⟨y, hy, rfl⟩ := List.mem_map.1 hx
    exact NN.abs fun e => hn (e ▸ hy)
  · exact fold_nan _ _ (Or.inr (List.mem_map.2 ⟨_, h, rfl⟩))
  · unfold norm_l
    rw [List.map_map]
    congr 1
    refine List.map_congr_left fun x _ => ?_
    rcases x with _ | s | ⟨s, x, hx⟩ <;> rfl
  · cases l with
    | nil => simp [norm_l, iterSum]
    | cons x l =>
      have e : norm_l (x :: l) = (l.map fun x => RAbs.abs x).foldl (· + ·) (0 + RAbs.abs x) := rfl
      rw [e] at h ⊢
      have h0 := (isFin_of_foldl id _ _ h).1
      have h1 := fold_err _ _ h
      obtain ⟨-, h3⟩ := zero_add_val isFin_zero (isFin_of_add h0).2 toReal_zero
      rw [h3, toReal_abs, abs_abs, List.length_map, List.map_map, List.map_map] at h1
      have e1 : (toReal ∘ fun x : Flt f => RAbs.abs x) = fun x : Flt f => |x.toReal| := by
        funext x; exact toReal_abs x
      have e2 : ((fun x : Flt f => |x.toReal|) ∘ fun x : Flt f => RAbs.abs x) = fun x : Flt f => |x.toReal| := by
        funext x; simp [toReal_abs]
      rw [e1, e2] at h1
      simpa using h1

/-- A sum of products of a list of pairs. -/
private theorem pair_err (l : List (Flt f × Flt f)) (h : (l.foldl (fun s p => s + p.1 * p.2) (0 : Flt f)).IsFin) :
    |(l.foldl (fun s p => s + p.1 * p.2) (0 : Flt f)).toReal - (l.map fun p => p.1.toReal * p.2.toReal).sum| ≤
      ((1 + f.u) ^ l.length - 1) * (l.map fun p => |p.1.toReal * p.2.toReal|).sum + (1 + f.u) ^ l.length * (l.length * f.eta) ∧
    ((∀ p ∈ l, p.1.toReal * p.2.toReal = 0 ∨ (2 : ℝ) ^ f.emin ≤ |p.1.toReal * p.2.toReal|) →
      |(l.foldl (fun s p => s + p.1 * p.2) (0 : Flt f)).toReal - (l.map fun p => p.1.toReal * p.2.toReal).sum| ≤
      ((1 + f.u) ^ l.length - 1) * (l.map fun p => |p.1.toReal * p.2.toReal|).sum) := by
  cases l with
  | nil => simp
  | cons q l =>
    change (l.foldl (fun s p => s + p.1 * p.2) (0 + q.1 * q.2)).IsFin at h
    obtain ⟨h1, h2⟩ := isFin_of_foldl (fun p : Flt f × Flt f => p.1 * p.2) l _ h
    have hq := (isFin_of_add h1).2
    have hv := (zero_add_val isFin_zero hq toReal_zero).2
    simp only [List.foldl_cons]
    have tr : ∀ {c : ℝ}, Approx 1 (q.1 * q.2) (q.1.toReal * q.2.toReal) |q.1.toReal * q.2.toReal| c →
        Approx 1 (0 + q.1 * q.2) (q.1.toReal * q.2.toReal) |q.1.toReal * q.2.toReal| c := fun h =>
      ⟨by rw [hv]; exact h.err, h.mag, h.cnn⟩
    constructor
    · have H := (approx_foldl (fun p : Flt f × Flt f => p.1 * p.2) (fun p => p.1.toReal * p.2.toReal)
        (fun p => |p.1.toReal * p.2.toReal|) (fun _ => f.eta) l 1 le_rfl _ _ _ _
        (tr (Approx.mul_any hq)) (fun j hj => Approx.mul_any (h2 j hj)) h).err
      have e : (List.map (fun _ : Flt f × Flt f => f.eta) l).sum = l.length * f.eta := by simp
      rw [e] at H
      rw [Nat.add_comm] at H
      simp only [List.map_cons, List.sum_cons, List.length_cons]
      refine H.trans_eq ?_
      push_cast
      ring
    · intro hn
      have H := (approx_foldl (fun p : Flt f × Flt f => p.1 * p.2) (fun p => p.1.toReal * p.2.toReal)
        (fun p => |p.1.toReal * p.2.toReal|) (fun _ => (0 : ℝ)) l 1 le_rfl _ _ _ _
        (tr (Approx.mul_normal hq (hn q (by simp)))) (fun j hj => Approx.mul_normal (h2 j hj) (hn j (by simp [hj]))) h).err
      rw [Nat.add_comm] at H
      simpa using H

private theorem dot_fold (x y : List (Flt f)) (h : x.length = y.length) :
    slice_dot x y = .ok ((x.zip y).foldl (fun s p => s + p.1 * p.2) (0 : Flt f)) := by
  unfold slice_dot iterSum
  rw [if_pos h, List.foldl_map]

/-- `dot` of two float slices of any length: different lengths panic, equal ones give the sum of the
products up to one rounding per element (and underflows of products). -/
theorem C147_slice_dot (x y : List (Flt f)) :
    (x.length ≠ y.length → slice_dot x y = .error .assertFailed) ∧
    (x.length = y.length → ∃ r, slice_dot x y = .ok r ∧ (r.IsFin →
      |r.toReal - ((x.zip y).map fun p => p.1.toReal * p.2.toReal).sum| ≤
        ((1 + f.u) ^ x.length - 1) * ((x.zip y).map fun p => |p.1.toReal * p.2.toReal|).sum +
          (1 + f.u) ^ x.length * (x.length * f.eta) ∧
      ((∀ p ∈ x.zip y, p.1.toReal * p.2.toReal = 0 ∨ (2 : ℝ) ^ f.emin ≤ |p.1.toReal * p.2.toReal|) →
        |r.toReal - ((x.zip y).map fun p => p.1.toReal * p.2.toReal).sum| ≤
          ((1 + f.u) ^ x.length - 1) * ((x.zip y).map fun p => |p.1.toReal * p.2.toReal|).sum))) := by
  refine ⟨fun h => if_neg h, fun h => ⟨_, dot_fold x y h, fun hr => ?_⟩⟩
  have := pair_err _ hr
  rw [List.length_zip, ← h, min_self] at this
  exact this

private theorem zip_self (x : List (Flt f)) : x.zip x = x.map fun a => (a, a) := by
  induction x with
  | nil => rfl
  | cons a x ih => rw [List.zip_cons_cons, ih, List.map_cons]

private theorem norm2_fold [Libm f] (l : List (Flt f)) :
    slice_norm2 l = Flt.sqrt ((l.map fun a => (a, a)).foldl (fun s p => s + p.1 * p.2) (0 : Flt f)) := by
  unfold slice_norm2
  rw [List.foldl_map]
  congr 2
  funext s a
  exact add_comm' _ _

private theorem squares_nn (l : List (Flt f)) (h : Flt.nan ∉ l) :
    NN ((l.map fun a => (a, a)).foldl (fun s p => s + p.1 * p.2) (0 : Flt f)) := by
  have := fold_nn (l.map fun a => a * a) 0 zero_nn fun x hx => by
    obtain ⟨y, hy, rfl⟩ := List.mem_map.1 hx
    exact NN.sq fun e => h (e ▸ hy)
  rw [List.foldl_map] at this ⊢
  exact this

private theorem squares_nan (l : List (Flt f)) (h : Flt.nan ∈ l) :
    (l.map fun a => (a, a)).foldl (fun s p => s + p.1 * p.2) (0 : Flt f) = .nan := by
  have := fold_nan (l.map fun a => a * a) 0 (Or.inr (List.mem_map.2 ⟨_, h, rfl⟩))
  rw [List.foldl_map] at this ⊢
  exact this

private theorem sqrt_pert {r : Flt f} {s κ : ℝ} (hr : r.IsFin) (hr0 : 0 ≤ r.toReal) (hs0 : 0 ≤ s)
    (h1 : |r.toReal - s| ≤ κ * s) :
    (sqrt r).IsFin ∧ 0 ≤ (sqrt r).toReal ∧ |(sqrt r).toReal - √s| ≤ (f.u * (1 + κ) + κ) * √s := by
  have hu := f.u_pos
  obtain ⟨g1, g2, g3⟩ := sqrt_rel hr hr0
  refine ⟨g1, g3, ?_⟩
  have hd : |√r.toReal - √s| ≤ κ * √s := by
    rcases hs0.eq_or_lt with h0 | h0
    · rw [← h0] at h1 ⊢
      have : r.toReal = 0 := by simpa using h1
      rw [this]; simp
    · have hsp : 0 < √s := Real.sqrt_pos.mpr h0
      have e3 : (√r.toReal - √s) * (√r.toReal + √s) = r.toReal - s := by
        have := Real.mul_self_sqrt hr0
        have := Real.mul_self_sqrt hs0
        nlinarith
      have e4 : |√r.toReal - √s| * (√r.toReal + √s) = |r.toReal - s| := by
        rw [← e3, abs_mul, abs_of_nonneg (a := √r.toReal + √s) (by positivity)]
      have e5 : |√r.toReal - √s| * √s ≤ κ * √s * √s := by
        have h6 : |√r.toReal - √s| * √s ≤ |√r.toReal - √s| * (√r.toReal + √s) :=
          mul_le_mul_of_nonneg_left (by linarith [Real.sqrt_nonneg r.toReal]) (abs_nonneg _)
        rw [mul_assoc, Real.mul_self_sqrt hs0]
        linarith
      exact le_of_mul_le_mul_right e5 hsp
  have h7 : |(sqrt r).toReal - √s| ≤ |(sqrt r).toReal - √r.toReal| + |√r.toReal - √s| := abs_sub_le _ _ _
  have h8 : √r.toReal ≤ √s + κ * √s := by have := (abs_le.1 hd).2; linarith
  have h9 := mul_le_mul_of_nonneg_left h8 hu.le
  linarith

private theorem sum_sq (l : List (Flt f)) : ((l.map fun a => (a, a)).map fun p : Flt f × Flt f => p.1.toReal * p.2.toReal) =
    l.map fun a => a.toReal ^ 2 := by
  rw [List.map_map]
  exact List.map_congr_left fun a _ => (sq _).symm

private theorem sum_sq' (l : List (Flt f)) : ((l.map fun a => (a, a)).map fun p : Flt f × Flt f => |p.1.toReal * p.2.toReal|) =
    l.map fun a => a.toReal ^ 2 := by
  rw [List.map_map]
  refine List.map_congr_left fun a _ => ?_
  change |a.toReal * a.toReal| = _
  rw [← sq, abs_of_nonneg (sq_nonneg _)]

private theorem squares_err (l : List (Flt f)) (h : ((l.map fun a => (a, a)).foldl (fun s p => s + p.1 * p.2) (0 : Flt f)).IsFin)
    (hn : ∀ a ∈ l, a.toReal = 0 ∨ (2 : ℝ) ^ f.emin ≤ a.toReal ^ 2) :
    |((l.map fun a => (a, a)).foldl (fun s p => s + p.1 * p.2) (0 : Flt f)).toReal - (l.map fun a => a.toReal ^ 2).sum| ≤
      ((1 + f.u) ^ l.length - 1) * (l.map fun a => a.toReal ^ 2).sum := by
  have := (pair_err _ h).2 fun p hp => by
    obtain ⟨a, ha, rfl⟩ := List.mem_map.1 hp
    rcases hn a ha with h0 | h0
    · left; change a.toReal * a.toReal = 0; rw [h0, mul_zero]
    · right; change _ ≤ |a.toReal * a.toReal|; rw [← sq, abs_of_nonneg (sq_nonneg _)]; exact h0
  rw [sum_sq, sum_sq', List.length_map] at this
  exact this

/-- `norm2` of a float slice of any length `n`: it is NaN only if an element is; unless the sum of squares
overflows or a square underflows it is within `n + 1` roundings of the Euclidean norm. -/
theorem C147_slice_norm2 [Libm f] (l : List (Flt f)) :
    (slice_norm2 l = .nan ↔ Flt.nan ∈ l) ∧
    ((slice_norm2 l).IsFin → (∀ a ∈ l, a.toReal = 0 ∨ (2 : ℝ) ^ f.emin ≤ a.toReal ^ 2) →
      0 ≤ (slice_norm2 l).toReal ∧
      |(slice_norm2 l).toReal - √(l.map fun a => a.toReal ^ 2).sum| ≤
        ((1 + f.u) ^ (l.length + 1) - 1) * √(l.map fun a => a.toReal ^ 2).sum) := by
  rw [norm2_fold]
  have hfin : ∀ r : Flt f, (sqrt r).IsFin → r.IsFin := fun r h => by
    rcases r with _ | s | ⟨s, x, hx⟩
    · exact h
    · cases s <;> exact h
    · trivial
  refine ⟨⟨fun h => ?_, fun h => by rw [squares_nan l h]; rfl⟩, fun h hn => ?_⟩
  · by_contra hc
    rcases squares_nn l hc with e | ⟨x, hx, e⟩
    · rw [e] at h; cases h
    · rw [e] at h
      have := (sqrt_rel (a := (Flt.fin false x hx : Flt f)) trivial hx.nonneg).1
      rw [h] at this
      exact this
  · have h1 := hfin _ h
    have hc : Flt.nan ∉ l := fun hc => by rw [squares_nan l hc] at h1; exact h1
    have hu := f.u_pos
    have hP : 1 ≤ (1 + f.u) ^ l.length := one_le_pow₀ (by linarith)
    obtain ⟨-, g2, g3⟩ := sqrt_pert h1 (squares_nn l hc).val.2 (List.sum_nonneg (by
      intro x hx
      obtain ⟨a, -, rfl⟩ := List.mem_map.1 hx
      exact sq_nonneg _)) (squares_err l h1 hn)
    refine ⟨g2, g3.trans_eq ?_⟩
    rw [pow_succ]
    ring

/-- `normalize` of a float slice of any length `n`: every element is within the stated relative error of the
element of the unit vector. -/
theorem C147_slice_normalize [Libm f] (l : List (Flt f)) (hN : (slice_norm2 l).IsFin)
    (hn : ∀ a ∈ l, a.toReal = 0 ∨ (2 : ℝ) ^ f.emin ≤ a.toReal ^ 2) (hl : (1 + f.u) ^ (l.length + 1) < 2)
    (h0 : 0 < (l.map fun a => a.toReal ^ 2).sum) (i : ℕ) (w : Flt f) (hw : (slice_normalize l)[i]? = some w) (hf : w.IsFin) :
    ∃ a, l[i]? = some a ∧
      |w.toReal - a.toReal / √(l.map fun a => a.toReal ^ 2).sum| ≤
        ((1 + f.u) ^ (l.length + 1) - 1 + f.u) / (1 - ((1 + f.u) ^ (l.length + 1) - 1)) *
          (|a.toReal| / √(l.map fun a => a.toReal ^ 2).sum) + f.eta := by
  unfold slice_normalize at hw
  rw [List.getElem?_map] at hw
  obtain ⟨a, ha, rfl⟩ := Option.map_eq_some_iff.1 hw
  refine ⟨a, ha, ?_⟩
  exact unit_err (Real.sqrt_pos.2 h0) (by linarith) hN ((C147_slice_norm2 l).2 hN hn).2 hf rfl

/-- `project_x_over_y` of float slices of any length: within the stated error of `(x·y) / (y·y)`, and exactly
one for the projection of a slice over itself. -/
theorem C147_project (x y : List (Flt f)) (hxy : x.length = y.length) :
    ∃ r, project_x_over_y x y = .ok r ∧
    (x = y → ∀ d, slice_dot y y = .ok d → d.IsFin → d.toReal ≠ 0 → r = 1) ∧
    (r.IsFin → (∀ d, slice_dot y y = .ok d → d.IsFin) →
      (∀ a ∈ y, a.toReal = 0 ∨ (2 : ℝ) ^ f.emin ≤ a.toReal ^ 2) →
      (∀ p ∈ x.zip y, p.1.toReal * p.2.toReal = 0 ∨ (2 : ℝ) ^ f.emin ≤ |p.1.toReal * p.2.toReal|) →
      (1 + f.u) ^ x.length < 2 → 0 < (y.map fun a => a.toReal ^ 2).sum →
      let κ := (1 + f.u) ^ x.length - 1
      |r.toReal - ((x.zip y).map fun p => p.1.toReal * p.2.toReal).sum / (y.map fun a => a.toReal ^ 2).sum| ≤
        (2 * κ + f.u * (1 + κ)) / (1 - κ) *
          (((x.zip y).map fun p => |p.1.toReal * p.2.toReal|).sum / (y.map fun a => a.toReal ^ 2).sum) + f.eta) := by
  have e1 := dot_fold x y hxy
  have e2 := dot_fold y y rfl
  rw [zip_self] at e2
  set a := (x.zip y).foldl (fun s p => s + p.1 * p.2) (0 : Flt f) with ha
  set b := (y.map fun a => (a, a)).foldl (fun s p => s + p.1 * p.2) (0 : Flt f) with hb
  refine ⟨a / b, ?_, fun h d hd hdf hd0 => ?_, fun hr hbf hy hz hκ1 hY => ?_⟩
  · unfold project_x_over_y
    rw [e1, e2]
    rfl
  · rw [e2] at hd
    cases hd
    have hab : a = b := by rw [ha, hb, h, zip_self]
    rw [hab]
    rcases hbb : b with _ | s | ⟨s, v, hv⟩
    · rw [hbb] at hdf; exact absurd hdf id
    · rw [hbb] at hdf; exact absurd hdf id
    · have hv0 : v ≠ 0 := fun h0 => hd0 (by rw [hbb]; exact sgn_eq_zero.2 h0)
      have : (Flt.fin s v hv / Flt.fin s v hv : Flt f) = Flt.pack f (s != s) (v / v) := if_neg hv0
      rw [this, bne_self_eq_false, div_self hv0]
      have h1 : f.rnd 1 = 1 := f.rnd_rep (rep_one f)
      unfold Flt.pack
      rw [dif_pos ⟨zero_le_one, by rw [h1]; exact (rep_one f).lt⟩]
      change _ = Flt.fin false 1 _
      congr 1
  · intro κ
    have hu := f.u_pos
    have hbF := hbf b e2
    obtain ⟨hb0, hdiv⟩ := div_err hbF hr
    have haF : a.IsFin := by
      rcases haa : a with _ | s | ⟨s, v, hv⟩
      · rw [haa] at hr; exact absurd hr id
      · rw [haa] at hr
        rcases hbb : b with _ | s | ⟨s, v, hv⟩ <;> rw [hbb] at hr <;> exact absurd hr id
      · trivial
    have hA := (pair_err _ haF).2 hz
    have hB := squares_err y hbF hy
    have hlen : (x.zip y).length = x.length := by rw [List.length_zip, ← hxy, min_self]
    rw [hlen] at hA
    rw [← hxy] at hB
    set X := ((x.zip y).map fun p => p.1.toReal * p.2.toReal).sum
    set S := ((x.zip y).map fun p => |p.1.toReal * p.2.toReal|).sum with hS
    set Y := (y.map fun a => a.toReal ^ 2).sum
    change |a.toReal - X| ≤ κ * S at hA
    change |b.toReal - Y| ≤ κ * Y at hB
    have hκ0 : 0 ≤ κ := by
      have : 1 ≤ (1 + f.u) ^ x.length := one_le_pow₀ (by linarith)
      simp only [κ]; linarith
    have hκ1' : 0 < 1 - κ := by simp only [κ]; linarith
    have hXS : |X| ≤ S := abs_sum _ _
    have hS0 : 0 ≤ S := (abs_nonneg _).trans hXS
    have hbl : (1 - κ) * Y ≤ b.toReal := by have := (_root_.abs_le.1 hB).1; linarith
    have hbp : 0 < b.toReal := (mul_pos hκ1' hY).trans_le hbl
    have haS : |a.toReal| ≤ (1 + κ) * S := by
      have := abs_sub_abs_le_abs_sub a.toReal X
      linarith
    have h1 : |a.toReal / b.toReal| ≤ (1 + κ) / (1 - κ) * (S / Y) := by
      rw [abs_div, abs_of_pos hbp, div_mul_div_comm]
      exact div_le_div₀ (by positivity) haS (mul_pos hκ1' hY) hbl
    have h2 : |a.toReal / b.toReal - X / Y| ≤ 2 * κ / (1 - κ) * (S / Y) := by
      have e : a.toReal / b.toReal - X / Y = ((a.toReal - X) - X / Y * (b.toReal - Y)) / b.toReal := by
        field_simp
        ring
      have h3 : |(a.toReal - X) - X / Y * (b.toReal - Y)| ≤ 2 * κ * S := by
        refine (abs_sub _ _).trans ?_
        rw [abs_mul, abs_div, abs_of_pos hY]
        have h4 : |X| / Y * |b.toReal - Y| ≤ S / Y * (κ * Y) :=
          mul_le_mul ((div_le_div_iff_of_pos_right hY).2 hXS) hB (abs_nonneg _) (by positivity)
        have h5 : S / Y * (κ * Y) = κ * S := by field_simp
        linarith
      rw [e, abs_div, abs_of_pos hbp, div_mul_div_comm]
      exact div_le_div₀ (by positivity) h3 (mul_pos hκ1' hY) hbl
    have h3 := abs_add_le ((a / b).toReal - a.toReal / b.toReal) (a.toReal / b.toReal - X / Y)
    rw [sub_add_sub_cancel] at h3
    have h4 := mul_le_mul_of_nonneg_left h1 hu.le
    have h5 : (2 * κ + f.u * (1 + κ)) / (1 - κ) * (S / Y) = 2 * κ / (1 - κ) * (S / Y) + f.u * ((1 + κ) / (1 - κ) * (S / Y)) := by
      ring
    rw [h5]
    linarith

/-! ## Concrete cases -/

private theorem one_mul_one : (1 * 1 : Flt Fmt.f32).IsFin ∧ (1 * 1 : Flt Fmt.f32).toReal = 1 := by
  have := mul_exact (f := Fmt.f32) (a := 1) (b := 1) isFin_one isFin_one
    (by rw [toReal_one, mul_one, abs_one]; exact rep_one _)
  rwa [toReal_one, mul_one] at this

private theorem zero_add_one : (0 + 1 * 1 : Flt Fmt.f32).IsFin ∧ (0 + 1 * 1 : Flt Fmt.f32).toReal = 1 := by
  have := zero_add_val isFin_zero one_mul_one.1 (toReal_zero (f := Fmt.f32))
  rwa [one_mul_one.2] at this

private theorem dot_11 : ((0 + 1 * 1) + 1 * 1 : Flt Fmt.f32).IsFin ∧ ((0 + 1 * 1) + 1 * 1 : Flt Fmt.f32).toReal = 2 := by
  have := add_exact zero_add_one.1 one_mul_one.1 (by
    rw [zero_add_one.2, one_mul_one.2]
    have := Fmt.rep_nat (f := Fmt.f32) (k := 2) (by decide)
    norm_num at this ⊢
    exact this)
  rw [zero_add_one.2, one_mul_one.2] at this
  exact ⟨this.1, this.2.trans (by norm_num)⟩

/-- The largest element of `[1, NaN, ∞, 0]` is `∞`; NaN is skipped, but it hides everything if it comes first. -/
example : (∃ r, find_max_min [(1 : Flt Fmt.f32), nan, inf false, 0] = .ok r ∧ r.max.1 ≠ nan) ∧
    (∃ r, find_max_min [(nan : Flt Fmt.f32), inf false, 0] = .ok r ∧ r.max = (nan, 0) ∧ r.min = (nan, 0)) := by
  constructor
  · obtain ⟨r, h1, -, -, -, h2⟩ := (C147_find_max_min [(1 : Flt Fmt.f32), nan, inf false, 0]).2 (by simp)
    exact ⟨r, h1, (h2 (fun h => by cases h)).1.1⟩
  · obtain ⟨r, h1, -, -, h2, -⟩ := (C147_find_max_min [(nan : Flt Fmt.f32), inf false, 0]).2 (by simp)
    exact ⟨r, h1, h2 rfl⟩

/-- `[∞, -∞]` has an infinite 1-norm, not NaN. -/
example [Libm Fmt.f32] : norm_l [(inf false : Flt Fmt.f32), inf true] ≠ nan ∧ slice_norm2 [(inf false : Flt Fmt.f32), inf true] ≠ nan ∧
    norm_l [(1 : Flt Fmt.f32), nan] = nan :=
  ⟨fun h => by simpa using (C147_norm_l _).1.1 h, fun h => by simpa using (C147_slice_norm2 _).1.1 h,
    (C147_norm_l _).1.2 (by simp)⟩

/-- A finite 1-norm: the hypotheses of the error bound hold for `[1]`. -/
example : (norm_l [(1 : Flt Fmt.f32)]).IsFin := (zero_add_val isFin_zero isFin_one (toReal_zero (f := Fmt.f32))).1

/-- The hypotheses of the bounds on `dot`, `norm2`, `normalize` and `project_x_over_y` hold for `[1, 1]`. -/
example [Libm Fmt.f32] : slice_dot [(1 : Flt Fmt.f32), 1] [1, 1] = .ok (0 + 1 * 1 + 1 * 1) ∧
    (0 + 1 * 1 + 1 * 1 : Flt Fmt.f32).IsFin ∧ (slice_norm2 [(1 : Flt Fmt.f32), 1]).IsFin ∧
    (∀ a ∈ [(1 : Flt Fmt.f32), 1], a.toReal = 0 ∨ (2 : ℝ) ^ Fmt.f32.emin ≤ a.toReal ^ 2) ∧
    (1 + Fmt.f32.u) ^ 3 < 2 ∧ project_x_over_y [(1 : Flt Fmt.f32), 1] [1, 1] = .ok 1 ∧
    ∀ w, (slice_normalize [(1 : Flt Fmt.f32), 1])[1]? = some w →
      |w.toReal - 1 / √2| ≤ ((1 + Fmt.f32.u) ^ 3 - 1 + Fmt.f32.u) / (1 - ((1 + Fmt.f32.u) ^ 3 - 1)) * (1 / √2) + Fmt.f32.eta := by
  have hd : slice_dot [(1 : Flt Fmt.f32), 1] [1, 1] = .ok (0 + 1 * 1 + 1 * 1) := rfl
  have e : slice_norm2 [(1 : Flt Fmt.f32), 1] = sqrt (0 + 1 * 1 + 1 * 1) := norm2_fold _
  have hN := (sqrt_rel dot_11.1 (by rw [dot_11.2]; norm_num)).1
  rw [← e] at hN
  have hn : ∀ a ∈ [(1 : Flt Fmt.f32), 1], a.toReal = 0 ∨ (2 : ℝ) ^ Fmt.f32.emin ≤ a.toReal ^ 2 := by
    intro a ha
    have : a = 1 := by simpa using ha
    rw [this, toReal_one, one_pow]
    exact Or.inr (zpow_le_one_of_nonpos₀ (by norm_num) (by decide))
  have hu0 := Fmt.f32.u_pos
  have hu : Fmt.f32.u ≤ 1 / 256 := Fmt.u_le_of_p (by decide)
  have hlt : (1 + Fmt.f32.u) ^ 3 < 2 := by
    refine (pow_le_pow_left₀ (by linarith) (show 1 + Fmt.f32.u ≤ 1 + 1 / 256 by linarith) 3).trans_lt (by norm_num)
  refine ⟨hd, dot_11.1, hN, hn, hlt, ?_, fun w hw => ?_⟩
  · obtain ⟨r, h1, h2, -⟩ := C147_project [(1 : Flt Fmt.f32), 1] [1, 1] rfl
    rw [h1, h2 rfl _ hd dot_11.1 (by rw [dot_11.2]; norm_num)]
  · have es : ([(1 : Flt Fmt.f32), 1].map fun a => a.toReal ^ 2).sum = 2 := by
      simp only [List.map_cons, List.map_nil, List.sum_cons, List.sum_nil, toReal_one]; norm_num
    have hb := (C147_slice_norm2 [(1 : Flt Fmt.f32), 1]).2 hN hn
    rw [es] at hb
    have hr2 : 1 ≤ √2 := Real.one_le_sqrt.2 (by norm_num)
    have hbp : (1 : ℝ) / 2 ≤ (slice_norm2 [(1 : Flt Fmt.f32), 1]).toReal := by
      have h3 := (_root_.abs_le.1 hb.2).1
      have h4 : (1 + Fmt.f32.u) ^ 3 ≤ 5 / 4 :=
        (pow_le_pow_left₀ (by linarith) (show 1 + Fmt.f32.u ≤ 1 + 1 / 256 by linarith) 3).trans (by norm_num)
      have h5 : ((1 + Fmt.f32.u) ^ ([(1 : Flt Fmt.f32), 1].length + 1) - 1) * √2 ≤ 1 / 4 * √2 :=
        mul_le_mul_of_nonneg_right (by simpa using by linarith) (by positivity)
      linarith
    have hw' : w = 1 / slice_norm2 [(1 : Flt Fmt.f32), 1] := by
      have : (slice_normalize [(1 : Flt Fmt.f32), 1])[1]? = some (1 / slice_norm2 [(1 : Flt Fmt.f32), 1]) := rfl
      rw [this] at hw
      exact (Option.some.inj hw).symm
    have hf : w.IsFin := by
      rw [hw']
      refine div_isFin isFin_one hN (by linarith) ?_
      rw [toReal_one, abs_of_pos (by positivity)]
      have h6 : 1 / (slice_norm2 [(1 : Flt Fmt.f32), 1]).toReal ≤ 2 := by
        rw [div_le_iff₀ (by linarith)]; linarith
      have h7 : (2 : ℝ) ^ (2 : ℤ) ≤ (2 : ℝ) ^ (Fmt.f32.emax + 1) := zpow_le_zpow_right₀ (by norm_num) (by decide)
      have h8 : (1 + Fmt.f32.u) * (1 / (slice_norm2 [(1 : Flt Fmt.f32), 1]).toReal) ≤ (1 + Fmt.f32.u) * 2 :=
        mul_le_mul_of_nonneg_left h6 (by linarith)
      norm_num at h7
      linarith
    obtain ⟨a, ha, h⟩ := C147_slice_normalize [(1 : Flt Fmt.f32), 1] hN hn hlt (by rw [es]; norm_num) 1 w hw hf
    have : a = 1 := by simpa using ha.symm
    rw [es, this, toReal_one, abs_one] at h
    exact h

end
end StaticMath
