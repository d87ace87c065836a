import Verif.Ieee.Sum
import Verif.Model.GenLoops
import Verif.Lemmas.Inverse

/-!
# Comparisons, square roots and the smallest and largest magnitudes
-/

namespace StaticMath
namespace Flt
variable {f : Fmt}

theorem abs_sub_comm' (a b : Flt f) : RAbs.abs (a - b) = RAbs.abs (b - a) := by
  have hp : ∀ (s t : Bool) (x : ℝ), abs (pack f s x) = abs (pack f t x) := by
    intro s t x
    unfold pack
    split_ifs <;> rfl
  cases a with
  | nan => cases b <;> rfl
  | inf s => cases b with
    | nan => rfl
    | inf t => cases s <;> cases t <;> rfl
    | fin t y hy => rfl
  | fin s x hx => cases b with
    | nan => rfl
    | inf t => rfl
    | fin t y hy =>
      change abs (pack f _ |sgn s x + sgn (!t) y|) = abs (pack f _ |sgn t y + sgn (!s) x|)
      have e : |sgn s x + sgn (!t) y| = |sgn t y + sgn (!s) x| := by
        rw [sgn_not, sgn_not, ← sub_eq_add_neg, ← sub_eq_add_neg, abs_sub_comm]
      rw [e]
      exact hp _ _ _

theorem beq_comm' (a b : Flt f) : ROrd.beq a b = ROrd.beq b a := by
  cases a with
  | nan => cases b <;> rfl
  | inf s => cases b with
    | nan => rfl
    | inf t => cases s <;> cases t <;> rfl
    | fin t y hy => rfl
  | fin s x hx => cases b with
    | nan => rfl
    | inf t => rfl
    | fin t y hy =>
      change decide _ = decide _
      rw [decide_eq_decide]
      exact eq_comm

theorem beq_self_iff (a : Flt f) : ROrd.beq a a = true ↔ a ≠ nan := by
  cases a with
  | nan => exact ⟨fun h => Bool.false_ne_true h |>.elim, fun h => absurd rfl h⟩
  | inf s => cases s <;> exact ⟨fun _ => nofun, fun _ => rfl⟩
  | fin s x hx => exact ⟨fun _ => nofun, fun _ => decide_eq_true rfl⟩

theorem beq_nan (b : Flt f) : ROrd.beq nan b = false := rfl
theorem lt_nan (b : Flt f) : ROrd.lt nan b = false := rfl

theorem isFin_zero : (0 : Flt f).IsFin := trivial
theorem isFin_one : (1 : Flt f).IsFin := trivial

theorem isFin_abs {a : Flt f} (ha : a.IsFin) : (RAbs.abs a : Flt f).IsFin := by
  cases a with
  | nan => exact ha
  | inf s => exact ha
  | fin s x h => trivial

theorem toReal_abs (a : Flt f) : (RAbs.abs a : Flt f).toReal = |a.toReal| := by
  cases a with
  | nan => exact abs_zero.symm
  | inf s => exact abs_zero.symm
  | fin s x h => exact (sgn_abs s h.nonneg).symm

theorem nearly_zero_flt [Libm f] (a : Flt f) :
    nearly_zero a = true ↔ a.IsFin ∧ |a.toReal| < (2 : ℝ) ^ (1 - (f.p : ℤ)) := by
  have hz : ROrd.beq (0 : Flt f) 0 = true := (beq_iff isFin_zero isFin_zero).2 rfl
  unfold nearly_zero nearly_equal
  have hpos : (0 : ℝ) < (2 : ℝ) ^ (1 - (f.p : ℤ)) := by positivity
  by_cases ha : a.IsFin
  · by_cases h0 : ROrd.beq a 0 = true
    · have := (beq_iff ha isFin_zero).1 h0
      simp only [toReal_zero] at this
      simp [h0, this, ha, hpos]
    · simp only [h0, hz, Bool.or_true, Bool.true_or, if_true, ha, true_and]
      obtain ⟨h1, h2⟩ : (a - 0).IsFin ∧ (a - 0).toReal = a.toReal :=
        add_zero_val ha (b := -0) trivial (by simp)
      simp only [Bool.false_eq_true, if_false]
      change ROrd.lt (RAbs.abs (a - 0)) (epsilon f) = true ↔ _
      rw [lt_iff (b := epsilon f) (isFin_abs h1) trivial, toReal_abs, h2]
      rfl
  · simp only [ha, false_and, iff_false, Bool.not_eq_true]
    cases a with
    | nan => simp only [hz]; rfl
    | inf s => cases s <;> simp only [hz] <;> rfl
    | fin s x h => exact absurd trivial ha

theorem notFin_cases {a : Flt f} (h : ¬a.IsFin) : a = nan ∨ ∃ s, a = inf s := by
  cases a with
  | nan => exact Or.inl rfl
  | inf s => exact Or.inr ⟨s, rfl⟩
  | fin s x hx => exact absurd trivial h

theorem div_inf {a : Flt f} (ha : a.IsFin) (s : Bool) : (a / inf s).IsFin ∧ (a / inf s).toReal = 0 := by
  cases a with
  | nan => exact ha.elim
  | inf t => exact ha.elim
  | fin t x h =>
    refine ⟨trivial, ?_⟩
    change sgn _ 0 = 0
    rw [sgn_eq_zero]

/-- The smallest positive number of the format. -/
theorem rep_tiny (f : Fmt) : f.Rep ((2 : ℝ) ^ (f.emin - f.p + 1)) := by
  have := f.hp
  have := f.hmin
  have := f.hmax
  exact f.rep_two_zpow _ (by omega) (by omega)

noncomputable def tiny (f : Fmt) : Flt f := fin false _ (rep_tiny f)

theorem tiny_mul_tiny (f : Fmt) : (tiny f * tiny f).IsFin ∧ (tiny f * tiny f).toReal = 0 := by
  have h1 := f.hp
  have h2 := f.hmin
  have hr : f.rnd ((2 : ℝ) ^ (f.emin - f.p + 1) * (2 : ℝ) ^ (f.emin - f.p + 1)) = 0 := by
    apply f.rnd_eq_zero (by positivity)
    rw [← zpow_add₀ (by norm_num)]
    exact zpow_lt_zpow_right₀ (by norm_num) (by omega)
  change (pack f _ _).IsFin ∧ (pack f _ _).toReal = 0
  unfold pack
  rw [dif_pos ⟨by positivity, by rw [hr]; positivity⟩]
  refine ⟨trivial, ?_⟩
  change sgn _ _ = 0
  rw [sgn_eq_zero, hr]

theorem pack_big {s : Bool} {x : ℝ} (h : (2 : ℝ) ^ (f.emax + 1) * (4 / 3) ≤ x) : pack f s x = inf s := by
  unfold pack
  rw [dif_neg]
  rintro ⟨h0, h1⟩
  have h2 : (2 : ℝ) ^ f.emin ≤ x := by
    have := f.hmin
    have := f.hmax
    refine le_trans (zpow_le_zpow_right₀ (by norm_num) (show f.emin ≤ f.emax + 1 by omega)) ?_
    have : (0 : ℝ) < (2 : ℝ) ^ (f.emax + 1) := by positivity
    linarith
  have h3 := abs_le.1 (f.rnd_rel h2)
  have h4 := f.u_le
  nlinarith [h3.1]

theorem max_val (f : Fmt) : (maxValue f).toReal = ((2 : ℝ) ^ f.p - 1) * (2 : ℝ) ^ (f.emax - f.p + 1) := by
  change ((2 ^ f.p - 1 : ℕ) : ℝ) * _ = _
  rw [Nat.cast_sub (Nat.one_le_two_pow)]
  push_cast
  rfl

theorem max_ge (f : Fmt) : (2 : ℝ) ^ (f.emax + 1) * (3 / 4) ≤ (maxValue f).toReal := by
  rw [max_val]
  have h1 : (2 : ℝ) ^ (f.emax + 1) = (2 : ℝ) ^ f.p * (2 : ℝ) ^ (f.emax - f.p + 1) := by
    rw [← zpow_natCast, ← zpow_add₀ (by norm_num)]
    congr 1
    ring
  rw [h1]
  have h2 : (4 : ℝ) ≤ 2 ^ f.p := by
    calc (4 : ℝ) = 2 ^ 2 := by norm_num
      _ ≤ _ := pow_le_pow_right₀ (by norm_num) f.hp
  have h3 : (0 : ℝ) < (2 : ℝ) ^ (f.emax - f.p + 1) := by positivity
  nlinarith

theorem max_add_max (f : Fmt) : maxValue f + maxValue f = inf false := by
  have h := max_ge f
  have hp : (0 : ℝ) < (2 : ℝ) ^ (f.emax + 1) := by positivity
  change ofReal f _ ((maxValue f).toReal + (maxValue f).toReal) = _
  have h0 : 0 < (maxValue f).toReal + (maxValue f).toReal := by linarith
  unfold ofReal
  rw [if_neg h0.ne', decide_eq_false (not_lt.2 h0.le)]
  apply pack_big
  rw [abs_of_pos h0]
  linarith

theorem max_mul_max (f : Fmt) : maxValue f * maxValue f = inf false := by
  have h := max_ge f
  have hh := f.hmax
  have hp1 := f.hp
  have hp : (4 : ℝ) ≤ (2 : ℝ) ^ (f.emax + 1) := by
    calc (4 : ℝ) = (2 : ℝ) ^ (2 : ℤ) := by norm_num
      _ ≤ _ := zpow_le_zpow_right₀ (by norm_num) (by omega)
  change pack f _ ((maxValue f).toReal * (maxValue f).toReal) = _
  apply pack_big
  nlinarith

theorem sqrt_inf : sqrt (inf false : Flt f) = inf false := rfl

theorem sqrt_zero_val {a : Flt f} (ha : a.IsFin) (h : a.toReal = 0) : (sqrt a).IsFin ∧ (sqrt a).toReal = 0 := by
  cases a with
  | nan => exact ha.elim
  | inf s => exact ha.elim
  | fin s x hx =>
    have hx0 : x = 0 := sgn_eq_zero.1 h
    unfold sqrt
    simp only [hx0, if_true]
    exact ⟨trivial, sgn_eq_zero.2 rfl⟩

theorem inf_add_fin {a : Flt f} (ha : a.IsFin) (s : Bool) : inf s + a = inf s := by
  cases a with
  | nan => exact ha.elim
  | inf s => exact ha.elim
  | fin s x hx => rfl

theorem foldl_inf {ι : Type} (g : ι → Flt f) (l : List ι) (s : Bool) (h : ∀ j ∈ l, (g j).IsFin) :
    l.foldl (fun s j => s + g j) (inf s) = inf s := by
  induction l with
  | nil => rfl
  | cons j l ih =>
    rw [List.foldl_cons, inf_add_fin (h j (by simp))]
    exact ih (fun i hi => h i (by simp [hi]))

theorem fin_add_inf {a : Flt f} (ha : a.IsFin) (s : Bool) : a + inf s = inf s := by
  rw [add_comm', inf_add_fin ha]

theorem foldl_zeros_inf {ι : Type} (g : ι → Flt f) (l : List ι) (a : Flt f) (i : ι) (s : Bool)
    (ha : a.IsFin) (ha0 : a.toReal = 0) (hl : l.Nodup) (hi : i ∈ l) (hgi : g i = inf s)
    (h : ∀ j ∈ l, j ≠ i → (g j).IsFin ∧ (g j).toReal = 0) :
    l.foldl (fun s j => s + g j) a = inf s := by
  induction l generalizing a with
  | nil => simp at hi
  | cons j l ih =>
    rw [List.nodup_cons] at hl
    by_cases e : j = i
    · subst e
      rw [List.foldl_cons, hgi, fin_add_inf ha]
      exact foldl_inf g l s (fun k hk => (h k (by simp [hk]) (fun e => hl.1 (e ▸ hk))).1)
    · have hj := h j (by simp) e
      obtain ⟨h1, h2⟩ := add_zero_val ha hj.1 hj.2
      exact ih (a + g j) h1 (h2.trans ha0) hl.2
        ((List.mem_cons.1 hi).resolve_left (fun e' => e e'.symm))
        (fun k hk => h k (by simp [hk]))

theorem orderedSum_inf {n : ℕ} {r : Flt f} {g : Fin n → Flt f} (hs : IsOrderedSum r g) (i : Fin n)
    (s : Bool) (hgi : g i = inf s) (h : ∀ j, j ≠ i → (g j).IsFin ∧ (g j).toReal = 0) : r = inf s := by
  obtain ⟨k, l, hp, rfl⟩ := hs
  have hnd : (k :: l).Nodup := hp.nodup_iff.2 (List.nodup_finRange n)
  have hmem : i ∈ k :: l := hp.mem_iff.2 (List.mem_finRange i)
  rw [List.nodup_cons] at hnd
  by_cases e : k = i
  · subst e
    rw [hgi]
    exact foldl_inf g l s (fun j hj => (h j (fun e => hnd.1 (e ▸ hj))).1)
  · exact foldl_zeros_inf g l (g k) i s (h k e).1 (h k e).2 hnd.2
      ((List.mem_cons.1 hmem).resolve_left (fun e' => e e'.symm)) hgi (fun j _ => h j)

end Flt
end StaticMath
