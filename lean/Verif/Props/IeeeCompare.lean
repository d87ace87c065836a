import Verif.Ieee.Mono
import Verif.Ieee.QrRel
import Verif.Ieee.QrCol
import Verif.Ieee.ExprBounds
import Verif.Props.Ieee
import Verif.Props.IeeeDet
import Verif.Model.Rotation
import Mathlib.LinearAlgebra.UnitaryGroup

/-!
# C125: approximate comparison and the rotation test on floats

`compare_floats` and `nearly_equal` decide with rounded differences, sums and quotients; what their answers say about
the exact values. `is_rotation` compares determinants with 1 up to the machine epsilon, which rounding alone exceeds.
-/

namespace StaticMath
open Flt

namespace Flt
variable {f : Fmt}

private theorem rep_of_pos {t : Flt f} (h : 0 < t.toReal) : f.Rep t.toReal := by
  have := rep_abs_toReal t
  rwa [abs_of_pos h] at this

/-- A magnitude that compares below a finite float is finite. -/
private theorem isFin_of_abs_lt {x e : Flt f} (he : e.IsFin) (h : ROrd.lt (RAbs.abs x) e = true) : x.IsFin := by
  rcases e with _ | _ | ⟨t, y, hy⟩
  · exact absurd he id
  · exact absurd he id
  rcases x with _ | s | ⟨s, x, hx⟩
  · exact absurd h Bool.false_ne_true
  · exact absurd h Bool.false_ne_true
  · trivial

private theorem abs_lt_of {a b e : Flt f} (he : e.IsFin) (h : ROrd.lt (RAbs.abs (a - b)) e = true) :
    a.IsFin ∧ b.IsFin ∧ |(a - b).toReal| < e.toReal ∧ |a.toReal - b.toReal| < e.toReal := by
  have hf := isFin_of_abs_lt he h
  rw [lt_iff (isFin_abs hf) he, toReal_abs] at h
  obtain ⟨ha, hb⟩ := isFin_of_sub hf
  refine ⟨ha, hb, h, ?_⟩
  have hp := (abs_nonneg _).trans_lt h
  rw [abs_sub_val hf] at h
  exact f.lt_of_rnd_lt (rep_of_pos hp) h

private theorem rep_lt_top {x : ℝ} (h : f.Rep x) : x < (2 : ℝ) ^ (f.emax + 1) := h.lt

private theorem le_max {x : ℝ} (h : f.Rep x) : x ≤ (maxValue f).toReal := by
  obtain ⟨m, e, rfl, hm, -, he⟩ := h
  rw [max_val]
  have h1 : (m : ℝ) ≤ 2 ^ f.p - 1 := by
    have : m + 1 ≤ 2 ^ f.p := hm
    have : ((m + 1 : ℕ) : ℝ) ≤ ((2 ^ f.p : ℕ) : ℝ) := Nat.cast_le.2 this
    push_cast at this
    linarith
  have h2 : (2 : ℝ) ^ e ≤ (2 : ℝ) ^ (f.emax - f.p + 1) := zpow_le_zpow_right₀ (by norm_num) (by omega)
  have h3 : (0 : ℝ) ≤ m := Nat.cast_nonneg m
  exact mul_le_mul h1 h2 (by positivity) (h3.trans h1)

private theorem max_pos (f : Fmt) : 0 < (maxValue f).toReal := by
  have := max_ge f
  have h : (0 : ℝ) < (2 : ℝ) ^ (f.emax + 1) * (3 / 4) := by positivity
  linarith

/-- A positive finite float. -/
private theorem pos_cases {m : Flt f} (hm : m.IsFin) (h : 0 < m.toReal) : ∃ y hy, m = fin false y hy ∧ 0 < y := by
  rcases m with _ | _ | ⟨t, y, hy⟩
  · exact absurd hm id
  · exact absurd hm id
  · have h0 := hy.nonneg
    cases t
    · exact ⟨y, hy, rfl, h⟩
    · change 0 < sgn true y at h
      simp only [sgn, if_true] at h
      linarith

/-- A magnitude divided by a positive float compares below a finite float. -/
private theorem div_lt_of {x m e : Flt f} (he : e.IsFin) (hm : m.IsFin) (hm0 : 0 < m.toReal)
    (h : ROrd.lt (RAbs.abs x / m) e = true) : x.IsFin ∧ |x.toReal| < e.toReal * m.toReal := by
  obtain ⟨y, hy, rfl, hy0⟩ := pos_cases hm hm0
  rcases e with _ | _ | ⟨t, z, hz⟩
  · exact absurd he id
  · exact absurd he id
  rcases x with _ | s | ⟨s, x, hx⟩
  · exact absurd h Bool.false_ne_true
  · exact absurd h Bool.false_ne_true
  refine ⟨trivial, ?_⟩
  have e1 : (RAbs.abs (fin s x hx) / fin false y hy : Flt f) = pack f false (x / y) := if_neg hy0.ne'
  rw [e1] at h
  have hxy : 0 ≤ x / y := div_nonneg hx.nonneg hy.nonneg
  rcases pack_cases (f := f) false (x / y) with e2 | ⟨hr, e2⟩
  · rw [e2] at h
    exact absurd h Bool.false_ne_true
  · rw [e2, lt_iff (a := fin false _ hr) (b := fin t z hz) trivial trivial] at h
    change f.rnd (x / y) < sgn t z at h
    have hp : 0 < (fin t z hz : Flt f).toReal := (f.rnd_nonneg hxy).trans_lt h
    have h2 := f.lt_of_rnd_lt (rep_of_pos hp) h
    change |sgn s x| < (fin t z hz : Flt f).toReal * y
    rw [abs_sgn, abs_of_nonneg hx.nonneg]
    rwa [div_lt_iff₀ hy0] at h2

private theorem min_inf [Libm f] : RFloat.min (inf false : Flt f) RFloat.max_value = maxValue f := rfl

private theorem min_fin [Libm f] {s : Flt f} (h : s.IsFin) :
    (RFloat.min s RFloat.max_value : Flt f) = s := by
  have h1 : ROrd.lt (maxValue f) s = false := by
    rw [← Bool.not_eq_true, lt_iff (a := maxValue f) trivial h, not_lt]
    exact (le_abs_self _).trans (le_max (rep_abs_toReal s))
  rcases s with _ | _ | ⟨t, y, hy⟩
  · exact absurd h id
  · exact absurd h id
  change (if ROrd.lt (maxValue f) (fin t y hy) then maxValue f else fin t y hy) = fin t y hy
  rw [h1]
  rfl

end Flt

/-! ## compare_floats -/

/-- `compare_floats`: a positive answer is exact (the true distance is below the tolerance), and a distance that is
below the tolerance by one rounding is accepted. -/
theorem C125_compare_floats {f : Fmt} (a b tol : Flt f) (ht : tol.IsFin) :
    (compare_floats a b tol = true → a.IsFin ∧ b.IsFin ∧ |a.toReal - b.toReal| < tol.toReal) ∧
    (a.IsFin → b.IsFin → (1 + f.u) * |a.toReal - b.toReal| < tol.toReal → compare_floats a b tol = true) := by
  refine ⟨fun h => ?_, fun ha hb h => ?_⟩
  · obtain ⟨ha, hb, -, h1⟩ := abs_lt_of ht h
    exact ⟨ha, hb, h1⟩
  · have hu := f.u_pos
    have hp : 0 < tol.toReal := lt_of_le_of_lt (by positivity) h
    have hf := sub_isFin ha hb (h.trans (rep_of_pos hp).lt)
    change ROrd.lt (RAbs.abs (a - b)) tol = true
    rw [lt_iff (isFin_abs hf) ht, toReal_abs]
    have h1 := sub_rel hf
    have h2 := abs_sub_abs_le_abs_sub (a - b).toReal (a.toReal - b.toReal)
    linarith

/-- Non-trivial instance: 1 and 2 with tolerance 3/2 (and the exact distance 1 below it). -/
example : compare_floats (1 : Flt Fmt.f32) (fin false 2 (by simpa using Fmt.f32.rep_nat (k := 2) (by decide)))
    (fin false (3 / 2) ⟨3, -1, by norm_num, by decide, by decide, by decide⟩) = true := by
  refine (C125_compare_floats _ _ (fin _ _ _) trivial).2 trivial trivial ?_
  have := Fmt.f32.u_le
  simp only [toReal, sgn, Bool.false_eq_true, if_false]
  norm_num
  linarith

/-! ## nearly_equal -/

/-- What a positive answer of `nearly_equal` means on floats, overflow of the sum of the magnitudes included: the same
infinity, or finite numbers that are equal, or one of them zero and the other below the tolerance, or the relative
test holds up to two roundings. -/
theorem C125_nearly_equal_sound {f : Fmt} [Libm f] (a b eps : Flt f) (he : eps.IsFin)
    (h : nearly_equal a b eps = true) :
    (∃ s, a = inf s ∧ b = inf s) ∨
    (a.IsFin ∧ b.IsFin ∧ (a.toReal = b.toReal ∨
      ((a.toReal = 0 ∨ b.toReal = 0) ∧ |a.toReal - b.toReal| < eps.toReal) ∨
      (a.toReal ≠ 0 ∧ b.toReal ≠ 0 ∧
        (1 - f.u) * |a.toReal - b.toReal| < eps.toReal * ((1 + f.u) * (|a.toReal| + |b.toReal|))))) := by
  by_cases hna : a = nan
  · rw [hna, (C34_nearly_equal_nan _ _).1] at h
    exact absurd h Bool.false_ne_true
  by_cases hnb : b = nan
  · rw [hnb, (C34_nearly_equal_nan _ _).2] at h
    exact absurd h Bool.false_ne_true
  by_cases hab : a.IsFin ∧ b.IsFin
  swap
  · rcases eps with _ | _ | ⟨t, z, hz⟩
    · exact absurd he id
    · exact absurd he id
    rcases a with _ | s | ⟨s, x, hx⟩
    · exact absurd rfl hna
    · rcases b with _ | t | ⟨t, y, hy⟩
      · exact absurd rfl hnb
      · left
        cases s <;> cases t
        · exact ⟨_, rfl, rfl⟩
        · exact absurd h Bool.false_ne_true
        · exact absurd h Bool.false_ne_true
        · exact ⟨_, rfl, rfl⟩
      · exfalso
        unfold nearly_equal at h
        dsimp only at h
        cases s <;> (split_ifs at h with e1 <;> first | exact absurd h Bool.false_ne_true | exact absurd e1 Bool.false_ne_true)
    · rcases b with _ | t | ⟨t, y, hy⟩
      · exact absurd rfl hnb
      · exfalso
        unfold nearly_equal at h
        dsimp only at h
        cases t <;> (split_ifs at h with e1 <;> first | exact absurd h Bool.false_ne_true | exact absurd e1 Bool.false_ne_true)
      · exact absurd ⟨trivial, trivial⟩ hab
  obtain ⟨ha, hb⟩ := hab
  refine Or.inr ⟨ha, hb, ?_⟩
  unfold nearly_equal at h
  dsimp only at h
  by_cases e1 : ROrd.beq a b = true
  · exact Or.inl ((beq_iff ha hb).1 e1)
  rw [if_neg e1] at h
  by_cases hz : ROrd.beq a 0 = true ∨ ROrd.beq b 0 = true
  · rw [if_pos (by rcases hz with hz | hz <;> simp [hz])] at h
    refine Or.inr (Or.inl ⟨?_, (abs_lt_of he h).2.2.2⟩)
    rw [beq_iff ha isFin_zero, beq_iff hb isFin_zero] at hz
    simpa using hz
  push Not at hz
  have za : a.toReal ≠ 0 := fun e => hz.1 ((beq_iff ha isFin_zero).2 (by simpa using e))
  have zb : b.toReal ≠ 0 := fun e => hz.2 ((beq_iff hb isFin_zero).2 (by simpa using e))
  have hu := f.u_pos
  have hu4 := f.u_le
  have pa := abs_pos.2 za
  have pb := abs_pos.2 zb
  have hfa := isFin_abs ha
  have hfb := isFin_abs hb
  refine Or.inr (Or.inr ⟨za, zb, ?_⟩)
  have hsum : (RAbs.abs a + RAbs.abs b : Flt f).IsFin ∨ (RAbs.abs a + RAbs.abs b : Flt f) = inf false := by
    rcases a with _ | s | ⟨s, x, hx⟩
    · exact absurd ha id
    · exact absurd ha id
    rcases b with _ | t | ⟨t, y, hy⟩
    · exact absurd hb id
    · exact absurd hb id
    have e : (RAbs.abs (fin s x hx) + RAbs.abs (fin t y hy) : Flt f) = pack f
        (open Classical in if x + y = 0 then false else decide (x + y < 0)) |x + y| := rfl
    rw [e]
    have h0 : ¬(x + y < 0) := not_lt.2 (add_nonneg hx.nonneg hy.nonneg)
    have : (open Classical in if x + y = 0 then false else decide (x + y < 0)) = false := by
      split_ifs
      · rfl
      · exact decide_eq_false h0
    rw [this]
    rcases pack_cases (f := f) false |x + y| with e2 | ⟨hr, e2⟩ <;> rw [e2]
    · exact Or.inr rfl
    · exact Or.inl trivial
  have hdead : ¬((ROrd.beq a 0 || ROrd.beq b 0 || ROrd.lt (RAbs.abs a + RAbs.abs b) RFloat.min_value) = true) := by
    rw [Bool.or_eq_true, Bool.or_eq_true]
    rintro ((h1 | h1) | h1)
    · exact hz.1 h1
    · exact hz.2 h1
    · rcases hsum with hs | hs
      · change ROrd.lt (RAbs.abs a + RAbs.abs b) (-maxValue f) = true at h1
        rw [lt_iff (b := -maxValue f) hs trivial, toReal_neg] at h1
        have h2 := add_rel hs
        rw [toReal_abs, toReal_abs, abs_of_nonneg (by positivity : 0 ≤ |a.toReal| + |b.toReal|), abs_le] at h2
        have h3 := max_pos f
        have h4 : f.u * (|a.toReal| + |b.toReal|) ≤ 1 / 4 * (|a.toReal| + |b.toReal|) :=
          mul_le_mul_of_nonneg_right hu4 (by positivity)
        linarith
      · rw [hs] at h1
        exact absurd h1 Bool.false_ne_true
  rw [if_neg hdead] at h
  obtain ⟨hmf, hm0, hm1⟩ : (RFloat.min (RAbs.abs a + RAbs.abs b) RFloat.max_value : Flt f).IsFin ∧
      0 < (RFloat.min (RAbs.abs a + RAbs.abs b) RFloat.max_value : Flt f).toReal ∧
      (RFloat.min (RAbs.abs a + RAbs.abs b) RFloat.max_value : Flt f).toReal ≤ (1 + f.u) * (|a.toReal| + |b.toReal|) := by
    rcases hsum with hs | hs
    · rw [min_fin hs]
      have h2 := add_rel hs
      rw [toReal_abs, toReal_abs, abs_of_nonneg (by positivity : 0 ≤ |a.toReal| + |b.toReal|), abs_le] at h2
      have h4 : f.u * (|a.toReal| + |b.toReal|) ≤ 1 / 4 * (|a.toReal| + |b.toReal|) :=
        mul_le_mul_of_nonneg_right hu4 (by positivity)
      exact ⟨hs, by linarith, by linarith⟩
    · rw [hs, min_inf]
      refine ⟨trivial, max_pos f, ?_⟩
      by_contra hc
      have h3 := (not_le.1 hc).trans (rep_of_pos (max_pos f)).lt
      have h4 : (RAbs.abs a + RAbs.abs b : Flt f).IsFin := add_isFin hfa hfb (by
        rw [toReal_abs, toReal_abs, abs_of_nonneg (by positivity : 0 ≤ |a.toReal| + |b.toReal|)]
        exact h3)
      rw [hs] at h4
      exact h4
  obtain ⟨hd, h5⟩ := div_lt_of he hmf hm0 h
  have h6 := sub_rel hd
  have h7 := abs_sub_abs_le_abs_sub (a.toReal - b.toReal) (a - b).toReal
  rw [abs_sub_comm (a.toReal - b.toReal) (a - b).toReal] at h7
  have hep : 0 < eps.toReal := by
    by_contra hc
    have := mul_nonpos_of_nonpos_of_nonneg (not_lt.1 hc) hm0.le
    have := abs_nonneg (a - b).toReal
    linarith
  have h8 := mul_le_mul_of_nonneg_left hm1 hep.le
  linarith

/-- Conversely the relative test with a margin of four roundings (and one unit of underflow) is accepted, as long as
the sum of the magnitudes does not overflow. -/
theorem C125_nearly_equal_complete {f : Fmt} [Libm f] (a b eps : Flt f) (he : eps.IsFin) (ha : a.IsFin) (hb : b.IsFin)
    (za : a.toReal ≠ 0) (zb : b.toReal ≠ 0) (hs : (1 + f.u) * (|a.toReal| + |b.toReal|) < (2 : ℝ) ^ (f.emax + 1))
    (h : (1 + f.u) ^ 2 * |a.toReal - b.toReal| < (eps.toReal - f.eta) * ((1 - f.u) * (|a.toReal| + |b.toReal|))) :
    nearly_equal a b eps = true := by
  have hu := f.u_pos
  have hu4 := f.u_le
  have heta := f.eta_pos
  have pa := abs_pos.2 za
  have pb := abs_pos.2 zb
  have hsum0 : 0 < |a.toReal| + |b.toReal| := by positivity
  have hS : (RAbs.abs a + RAbs.abs b : Flt f).IsFin := add_isFin (isFin_abs ha) (isFin_abs hb) (by
    rwa [toReal_abs, toReal_abs, abs_of_pos hsum0])
  have hD : (a - b).IsFin := sub_isFin ha hb (lt_of_le_of_lt
    (mul_le_mul_of_nonneg_left (abs_sub _ _) (by positivity)) hs)
  have r1 := add_rel hS
  rw [toReal_abs, toReal_abs, abs_of_pos hsum0, abs_le] at r1
  have r2 := sub_rel hD
  have r3 := abs_sub_abs_le_abs_sub (a - b).toReal (a.toReal - b.toReal)
  have hS0 : 0 < (RAbs.abs a + RAbs.abs b : Flt f).toReal := by
    have : f.u * (|a.toReal| + |b.toReal|) ≤ 1 / 4 * (|a.toReal| + |b.toReal|) := mul_le_mul_of_nonneg_right hu4 hsum0.le
    linarith
  have hed : 0 < eps.toReal - f.eta := by
    by_contra hc
    have h1 : 0 ≤ (1 - f.u) * (|a.toReal| + |b.toReal|) := mul_nonneg (by linarith) hsum0.le
    have h2 := mul_nonpos_of_nonpos_of_nonneg (not_lt.1 hc) h1
    have h3 : 0 ≤ (1 + f.u) ^ 2 * |a.toReal - b.toReal| := by positivity
    linarith
  have hq : (1 + f.u) * (|(a - b).toReal| / (RAbs.abs a + RAbs.abs b : Flt f).toReal) < eps.toReal - f.eta := by
    rw [← mul_div_assoc, div_lt_iff₀ hS0]
    have h1 : (1 - f.u) * (|a.toReal| + |b.toReal|) ≤ (RAbs.abs a + RAbs.abs b : Flt f).toReal := by linarith
    have h2 := mul_le_mul_of_nonneg_left h1 hed.le
    have h3 : |(a - b).toReal| ≤ (1 + f.u) * |a.toReal - b.toReal| := by linarith
    have h4 := mul_le_mul_of_nonneg_left h3 (by linarith : 0 ≤ 1 + f.u)
    have h5 : (1 + f.u) * ((1 + f.u) * |a.toReal - b.toReal|) = (1 + f.u) ^ 2 * |a.toReal - b.toReal| := by ring
    linarith
  have hqa : (RAbs.abs (a - b) : Flt f).toReal / (RAbs.abs a + RAbs.abs b : Flt f).toReal =
      |(a - b).toReal| / (RAbs.abs a + RAbs.abs b : Flt f).toReal := by rw [toReal_abs]
  have hq0 : 0 ≤ |(a - b).toReal| / (RAbs.abs a + RAbs.abs b : Flt f).toReal := div_nonneg (abs_nonneg _) hS0.le
  have hep : 0 < eps.toReal := by linarith
  have hQ : (RAbs.abs (a - b) / (RAbs.abs a + RAbs.abs b) : Flt f).IsFin :=
    div_isFin (isFin_abs hD) hS hS0.ne' (by
      rw [hqa, abs_of_nonneg hq0]
      have := (rep_of_pos hep).lt
      linarith)
  have r4 := (div_err hS hQ).2
  rw [hqa, abs_of_nonneg hq0, abs_le] at r4
  unfold nearly_equal
  dsimp only
  split_ifs with e1 e2
  · rfl
  · exfalso
    rw [Bool.or_eq_true, Bool.or_eq_true, beq_iff ha isFin_zero, beq_iff hb isFin_zero] at e2
    rcases e2 with (e2 | e2) | e2
    · exact za (by simpa using e2)
    · exact zb (by simpa using e2)
    · change ROrd.lt (RAbs.abs a + RAbs.abs b) (-maxValue f) = true at e2
      rw [lt_iff (b := -maxValue f) hS trivial, toReal_neg] at e2
      have h3 := max_pos f
      linarith
  · rw [min_fin hS, lt_iff hQ he]
    linarith

/-- Non-trivial instance: 1 and 2 are nearly equal with tolerance 1 (the relative distance is 1/3), so the hypothesis of
`C125_nearly_equal_sound` holds too. -/
example [Libm Fmt.f32] : nearly_equal (1 : Flt Fmt.f32) (fin false 2 (by simpa using Fmt.f32.rep_nat (k := 2) (by decide))) 1 = true := by
  have hu : Fmt.f32.u ≤ 1 / 2048 := u_small (by decide)
  have hu0 := Fmt.f32.u_pos
  have he : Fmt.f32.eta ≤ 1 / 4 := by
    have : Fmt.f32.eta = (2 : ℝ) ^ (-150 : ℤ) := rfl
    rw [this]; norm_num
  have e2 : (fin false 2 (by simpa using Fmt.f32.rep_nat (k := 2) (by decide)) : Flt Fmt.f32).toReal = 2 := rfl
  refine C125_nearly_equal_complete _ _ _ trivial trivial trivial (by norm_num) (by rw [e2]; norm_num) ?_ ?_
  · rw [e2]
    have : ((2 : ℝ) ^ (Fmt.f32.emax + 1)) = (2 : ℝ) ^ (128 : ℤ) := rfl
    rw [this]
    norm_num
    linarith
  · rw [e2]
    norm_num
    nlinarith

/-! ## is_rotation -/

theorem nearly_equal_one_flt {f : Fmt} [Libm f] (hp : 11 ≤ f.p) (d : Flt f) (h : nearly_equal d 1 RFloat.epsilon = true) :
    d.IsFin ∧ |d.toReal - 1| ≤ 5 * f.u := by
  have hu := f.u_pos
  have hu' := u_small hp
  have ee : (epsilon f).toReal = 2 * f.u := by
    change (2 : ℝ) ^ (1 - (f.p : ℤ)) = 2 * (2 : ℝ) ^ (-(f.p : ℤ))
    rw [sub_eq_add_neg, zpow_add₀ (by norm_num), zpow_one]
  rcases C125_nearly_equal_sound d 1 (epsilon f) trivial h with ⟨s, -, h1⟩ | ⟨hd, -, h1⟩
  · cases h1
  refine ⟨hd, ?_⟩
  rw [ee, toReal_one, abs_one] at h1
  rcases h1 with h1 | ⟨h1 | h1, h2⟩ | ⟨-, -, h2⟩
  · rw [h1, sub_self, abs_zero]; linarith
  · rw [h1, zero_sub, abs_neg, abs_one] at h2
    linarith
  · exact absurd h1 one_ne_zero
  · have h3 : |d.toReal| ≤ |d.toReal - 1| + 1 := by
      have := abs_add_le (d.toReal - 1) 1
      rwa [sub_add_cancel, abs_one] at this
    have h4 := abs_nonneg (d.toReal - 1)
    by_contra hc
    push Not at hc
    have h5 : 2 * f.u * ((1 + f.u) * (|d.toReal| + 1)) ≤ 2 * f.u * ((1 + 1 / 2048) * (|d.toReal - 1| + 2)) :=
      mul_le_mul_of_nonneg_left (mul_le_mul (by linarith) (by linarith) (by positivity) (by norm_num)) (by linarith)
    have h6 : (1 - 1 / 2048) * |d.toReal - 1| ≤ (1 - f.u) * |d.toReal - 1| := mul_le_mul_of_nonneg_right (by linarith) h4
    have h7 : 2 * f.u * ((1 + 1 / 2048) * |d.toReal - 1|) ≤ 2 * (1 / 2048) * ((1 + 1 / 2048) * |d.toReal - 1|) :=
      mul_le_mul_of_nonneg_right (by linarith) (by positivity)
    nlinarith

/-- What `is_rotation` guarantees on floats: no NaN and no infinity, and both determinants it computes are within
`5 u` of 1; so the exact determinant is within that and the rounding error of the determinant (C102) of 1. -/
theorem C125_is_rotation_det {f : Fmt} [Libm f] (hp : 11 ≤ f.p) (r : Mat 3 (Flt f)) (h : is_rotation r = true) :
    (∀ i j, (r i j).IsFin) ∧ |(M33.det r).toReal - 1| ≤ 5 * f.u ∧ |(M33.det (M33.mul r r)).toReal - 1| ≤ 5 * f.u ∧
    ∀ B, (∀ i j, |(r i j).toReal| ≤ B) → |(Matrix.of fun i j => (r i j).toReal).det - 1| ≤
      5 * f.u + ((1 + f.u) ^ 5 - 1) * (Matrix.of fun i j => |(r i j).toReal|).permanent +
      (1 + f.u) ^ 5 * (f.eta * (3 + 6 * B)) := by
  unfold is_rotation at h
  rw [Bool.and_eq_true] at h
  obtain ⟨f1, d1⟩ := nearly_equal_one_flt hp _ h.1
  obtain ⟨f2, d2⟩ := nearly_equal_one_flt hp _ h.2
  refine ⟨?_, d1, d2, fun B hB => ?_⟩
  · unfold M33.det at f1
    obtain ⟨g1, g2⟩ := isFin_of_add f1
    obtain ⟨g3, g4⟩ := isFin_of_sub g1
    obtain ⟨a00, g5⟩ := isFin_of_mul g3
    obtain ⟨a01, g6⟩ := isFin_of_mul g4
    obtain ⟨a02, g7⟩ := isFin_of_mul g2
    obtain ⟨g8, g9⟩ := isFin_of_sub g5
    obtain ⟨g10, g11⟩ := isFin_of_sub g6
    obtain ⟨a11, a22⟩ := isFin_of_mul g8
    obtain ⟨a21, a12⟩ := isFin_of_mul g9
    obtain ⟨a10, -⟩ := isFin_of_mul g10
    obtain ⟨-, a20⟩ := isFin_of_mul g11
    intro i j
    fin_cases i <;> fin_cases j <;> assumption
  · have h1 := C102_det_M33 r B hB f1
    have h2 := abs_sub_le (Matrix.of fun i j => (r i j).toReal).det (M33.det r).toReal 1
    rw [abs_sub_comm (Matrix.of fun i j => (r i j).toReal).det (M33.det r).toReal] at h2
    linarith

/-- C125 holds for the rotations with entries 0, 1 and -1: nothing is rounded and they are accepted. Missing: all
other rotations, for which it can fail, see the negations. -/
theorem C125_rounded_rotation_partial {f : Fmt} [Libm f] (hp : 8 ≤ f.p) (r : Mat 3 (Flt f))
    (hr : ∀ i j, (r i j).IsFin ∧ ∃ z : ℤ, (r i j).toReal = z ∧ |z| ≤ 1)
    (hd : (Matrix.of fun i j => (r i j).toReal).det = 1) : is_rotation r = true := by
  have h256 : 256 ≤ 2 ^ f.p := by
    calc 256 = 2 ^ 8 := by norm_num
      _ ≤ 2 ^ f.p := Nat.pow_le_pow_right (by norm_num) hp
  have h1 := C104_integers_M33 r r ⟨fun _ => 0⟩ ⟨fun _ => 0⟩ 1 le_rfl hr hr
    (fun _ => ⟨trivial, 0, by simp, by simp⟩) (fun _ => ⟨trivial, 0, by simp, by simp⟩)
  have hm := (h1.2.1 (by omega)).1
  have hm3 : ∀ i j, (M33.mul r r i j).IntLe 3 := by
    intro i j
    refine ⟨(hm i j).1, ?_⟩
    choose z hz1 hz2 using fun i j => (hr i j).2
    refine ⟨∑ k, z i k * z k j, ?_, ?_⟩
    · rw [(hm i j).2]
      push_cast
      exact Finset.sum_congr rfl fun k _ => by rw [hz1, hz1]
    · refine (Finset.abs_sum_le_sum_abs _ _).trans ?_
      have : ∀ k ∈ Finset.univ, |z i k * z k j| ≤ 1 := fun k _ => by
        rw [abs_mul]
        exact mul_le_one₀ (hz2 i k) (abs_nonneg _) (hz2 k j)
      exact (Finset.sum_le_sum this).trans (by simp)
  have h3 := C104_integers_M33 (M33.mul r r) r ⟨fun _ => 0⟩ ⟨fun _ => 0⟩ 3 (by norm_num) hm3
    (fun i j => ⟨(hr i j).1, by
      obtain ⟨z, e1, e2⟩ := (hr i j).2
      exact ⟨z, e1, e2.trans (by norm_num)⟩⟩)
    (fun _ => ⟨trivial, 0, by simp, by simp⟩) (fun _ => ⟨trivial, 0, by simp, by simp⟩)
  have hdet2 : (Matrix.of fun i j => (M33.mul r r i j).toReal).det = 1 := by
    have : (Matrix.of fun i j => (M33.mul r r i j).toReal) =
        (Matrix.of fun i j => (r i j).toReal) * (Matrix.of fun i j => (r i j).toReal) := by
      ext i j
      rw [Matrix.mul_apply]
      exact (hm i j).2
    rw [this, Matrix.det_mul, hd, one_mul]
  have key : ∀ d : Flt f, d.IsFin → d.toReal = 1 → nearly_equal d 1 RFloat.epsilon = true := by
    intro d h1 h2
    unfold nearly_equal
    dsimp only
    rw [if_pos ((beq_iff h1 isFin_one).2 (by rw [h2, toReal_one]))]
  obtain ⟨f1, e1⟩ := h1.1 (by omega)
  obtain ⟨f2, e2⟩ := h3.1 (by omega)
  unfold is_rotation
  rw [Bool.and_eq_true]
  exact ⟨key _ f1 (e1.trans hd), key _ f2 (e2.trans hdet2)⟩

/-- A quarter turn about the third axis. -/
example [Libm Fmt.f32] : is_rotation (⟨![![0, -1, 0], ![1, 0, 0], ![0, 0, 1]]⟩ : Mat 3 (Flt Fmt.f32)) = true := by
  refine C125_rounded_rotation_partial (by decide) _ (fun i j => ?_) ?_
  · fin_cases i <;> fin_cases j <;> refine ⟨trivial, ?_⟩
    · exact ⟨0, by simp, by simp⟩
    · exact ⟨-1, by simp, by simp⟩
    · exact ⟨0, by simp, by simp⟩
    · exact ⟨1, by simp, by simp⟩
    · exact ⟨0, by simp, by simp⟩
    · exact ⟨0, by simp, by simp⟩
    · exact ⟨0, by simp, by simp⟩
    · exact ⟨0, by simp, by simp⟩
    · exact ⟨1, by simp, by simp⟩
  · rw [Matrix.det_fin_three]
    simp

section
variable {T S : Type} [Add T] [Sub T] [Mul T] [Div T] [Neg T] [Zero T] [One T] [RAbs T] [ROrd T] [RFloat T]
  [Add S] [Sub S] [Mul S] [Div S] [Neg S] [Zero S] [One S] [RAbs S] [ROrd S] [RFloat S] {R : T → S → Prop}

private theorem nearly_equal_related (H : Related T S R) {a b e : T} {x y z : S} (h : R a x) (h' : R b y) (he : R e z) :
    nearly_equal a b e = nearly_equal x y z := by
  have e1 := H.abs h
  have e2 := H.abs h'
  have e3 := H.abs (H.sub h h')
  unfold nearly_equal
  simp only [H.beq h h', H.beq h H.zero, H.beq h' H.zero, H.lt (H.add e1 e2) H.minv, H.lt e3 he,
    H.lt (H.div e3 (H.min (H.add e1 e2) H.maxv)) he]

private theorem is_rotation_related (H : Related T S R) {A : Mat 3 T} {B : Mat 3 S} (h : MRel R A B) :
    is_rotation A = is_rotation B := by
  unfold is_rotation
  dsimp only
  rw [nearly_equal_related H (M33.det_related H h) H.one H.eps,
    nearly_equal_related H (M33.det_related H (M33.mul_related H h h)) H.one H.eps]

end

/-- A matrix of integers divided by `N`, as computed in floating point. -/
private def quot (f : Fmt) (N : ℕ) (z : Fin 3 → Fin 3 → ℤ) : Mat 3 (BF f) :=
  ⟨fun i j => .fin (decide (z i j < 0)) (z i j).natAbs 0 / .fin false N 0⟩

private theorem rotation_witness {f : Fmt} [Libm f] (N : ℕ) (z : Fin 3 → Fin 3 → ℤ) (hN : 0 < N) (hNp : N ≤ 2 ^ f.p)
    (hz : ∀ i j, (z i j).natAbs ≤ N) (hn : ∀ i j, z i j ≠ 0) (hlow : (2 : ℝ) ^ f.emin * N ≤ 1)
    (h : is_rotation (quot f N z) = false) :
    ∃ A : Mat 3 (Flt f), (∀ i j, (A i j).IsFin ∧ |(A i j).toReal - (z i j : ℝ) / N| ≤ f.u * |(z i j : ℝ) / N|) ∧
      is_rotation A = false := by
  let a (i j : Fin 3) : Flt f := fin (decide (z i j < 0)) (z i j).natAbs (f.rep_nat ((hz i j).trans hNp))
  let b : Flt f := fin false N (f.rep_nat hNp)
  have hNr : (0 : ℝ) < N := Nat.cast_pos.2 hN
  refine ⟨⟨fun i j => a i j / b⟩, fun i j => ?_, ?_⟩
  · have e : a i j / b = pack f (decide (z i j < 0)) ((z i j).natAbs / N) := by
      have : a i j / b = pack f (decide (z i j < 0) != false) ((z i j).natAbs / N) := if_neg hNr.ne'
      rwa [Bool.bne_false] at this
    have hx0 : (0 : ℝ) ≤ (z i j).natAbs / N := by positivity
    have hx1 : ((z i j).natAbs : ℝ) / N ≤ 1 := by
      rw [div_le_one hNr]
      exact_mod_cast hz i j
    have hu := f.u_le
    have hlow' : (2 : ℝ) ^ f.emin ≤ (z i j).natAbs / N := by
      rw [le_div_iff₀ hNr]
      refine hlow.trans ?_
      have : 1 ≤ (z i j).natAbs := Int.natAbs_pos.2 (hn i j)
      exact_mod_cast this
    have hfin : (pack f (decide (z i j < 0)) ((z i j).natAbs / N)).IsFin := by
      refine pack_isFin hx0 ?_
      have h4 : (2 : ℝ) ^ (2 : ℤ) ≤ (2 : ℝ) ^ (f.emax + 1) := by
        have := f.hp
        have := f.hmax
        exact zpow_le_zpow_right₀ (by norm_num) (by omega)
      have h5 : (1 + f.u) * ((z i j).natAbs / N) ≤ (1 + 1 / 4) * 1 := mul_le_mul (by linarith) hx1 hx0 (by norm_num)
      norm_num at h4
      linarith
    obtain ⟨hr, e2⟩ := pack_fin hfin
    have e3 : (z i j : ℝ) / N = sgn (decide (z i j < 0)) ((z i j).natAbs / N) := by
      rw [Nat.cast_natAbs]
      by_cases hneg : z i j < 0
      · simp [sgn, hneg, abs_of_neg hneg, neg_div]
      · simp [sgn, hneg, abs_of_nonneg (not_lt.1 hneg)]
    change (a i j / b).IsFin ∧ |(a i j / b).toReal - _| ≤ _
    rw [e]
    refine ⟨hfin, ?_⟩
    rw [e2, e3]
    change |sgn _ _ - sgn _ _| ≤ _
    rw [sgn_sub, abs_sgn, abs_sgn, abs_of_nonneg hx0]
    exact f.rnd_rel hlow'
  · rw [← h]
    refine (is_rotation_related (BF.related f) fun i j => ?_).symm
    exact BF.den_div ⟨rfl, by simp⟩ ⟨rfl, by simp⟩

private def zmat32 : Fin 3 → Fin 3 → ℤ := ![![1, -2, 2], ![2, -1, -2], ![2, 2, 1]]
private def zmat64 : Fin 3 → Fin 3 → ℤ := ![![3, -2, 6], ![6, 3, -2], ![-2, 6, 3]]

/-- C125 is false of the code: the rotation `1/3 [[1, -2, 2], [2, -1, -2], [2, 2, 1]]`, every entry correctly rounded
to `f32`, is not recognised by `is_rotation`. -/
theorem C125_rounded_rotation_f32_false [Libm Fmt.f32] :
    ∃ R ∈ Matrix.specialOrthogonalGroup (Fin 3) ℝ, ∃ A : Mat 3 (Flt Fmt.f32),
      (∀ i j, (A i j).IsFin ∧ |(A i j).toReal - R i j| ≤ Fmt.f32.u * |R i j|) ∧ is_rotation A = false := by
  obtain ⟨A, h1, h2⟩ := rotation_witness (f := Fmt.f32) 3 zmat32 (by norm_num) (by decide +kernel) (by decide +kernel)
    (by decide +kernel) (by change (2 : ℝ) ^ (-126 : ℤ) * _ ≤ 1; norm_num) (by decide +kernel)
  refine ⟨Matrix.of fun i j => (zmat32 i j : ℝ) / (3 : ℕ), ?_, A, h1, h2⟩
  rw [Matrix.mem_specialOrthogonalGroup_iff, Matrix.mem_orthogonalGroup_iff]
  constructor
  · ext i j
    fin_cases i <;> fin_cases j <;> simp [Matrix.mul_apply, Fin.sum_univ_three, zmat32] <;> norm_num
  · rw [Matrix.det_fin_three]
    simp [zmat32]
    norm_num

/-- The same in `f64` for `1/7 [[3, -2, 6], [6, 3, -2], [-2, 6, 3]]`. -/
theorem C125_rounded_rotation_f64_false [Libm Fmt.f64] :
    ∃ R ∈ Matrix.specialOrthogonalGroup (Fin 3) ℝ, ∃ A : Mat 3 (Flt Fmt.f64),
      (∀ i j, (A i j).IsFin ∧ |(A i j).toReal - R i j| ≤ Fmt.f64.u * |R i j|) ∧ is_rotation A = false := by
  obtain ⟨A, h1, h2⟩ := rotation_witness (f := Fmt.f64) 7 zmat64 (by norm_num) (by decide +kernel) (by decide +kernel)
    (by decide +kernel) (by
      change (2 : ℝ) ^ (-1022 : ℤ) * _ ≤ 1
      have : (2 : ℝ) ^ (-1022 : ℤ) ≤ (2 : ℝ) ^ (-3 : ℤ) := zpow_le_zpow_right₀ (by norm_num) (by norm_num)
      have h3 : (2 : ℝ) ^ (-3 : ℤ) = 1 / 8 := by norm_num
      rw [h3] at this
      push_cast
      linarith) (by decide +kernel)
  refine ⟨Matrix.of fun i j => (zmat64 i j : ℝ) / (7 : ℕ), ?_, A, h1, h2⟩
  rw [Matrix.mem_specialOrthogonalGroup_iff, Matrix.mem_orthogonalGroup_iff]
  constructor
  · ext i j
    fin_cases i <;> fin_cases j <;> simp [Matrix.mul_apply, Fin.sum_univ_three, zmat64] <;> norm_num
  · rw [Matrix.det_fin_three]
    simp [zmat64]
    norm_num

end StaticMath
