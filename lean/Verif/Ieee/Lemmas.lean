import Verif.Ieee.Float

/-! # Facts about the float operations -/

namespace StaticMath
namespace Flt
variable {f : Fmt}

/-- The float is neither NaN nor infinite. -/
def IsFin : Flt f → Prop
  | fin _ _ _ => True
  | _ => False

/-- The real number a finite float stands for (0 for the others). -/
noncomputable def toReal : Flt f → ℝ
  | fin s x _ => sgn s x
  | _ => 0

theorem fin_congr {s : Bool} {x y : ℝ} (e : x = y) (hx : f.Rep x) (hy : f.Rep y) :
    (fin s x hx : Flt f) = fin s y hy := by subst e; rfl

theorem add_comm' (a b : Flt f) : a + b = b + a := by
  change add a b = add b a
  rcases a with _ | s | ⟨s, x, hx⟩ <;> rcases b with _ | t | ⟨t, y, hy⟩ <;> try rfl
  · simp only [add]
    by_cases h : s = t
    · rw [if_pos h, if_pos h.symm, h]
    · rw [if_neg h, if_neg (Ne.symm h)]
  · simp only [add]
    rw [Bool.and_comm, add_comm]

theorem mul_comm' (a b : Flt f) : a * b = b * a := by
  change mul a b = mul b a
  have hb (s t : Bool) : (s != t) = (t != s) := by cases s <;> cases t <;> rfl
  rcases a with _ | s | ⟨s, x, hx⟩ <;> rcases b with _ | t | ⟨t, y, hy⟩ <;> try rfl
  all_goals simp only [mul, hb s t]
  rw [mul_comm]

theorem sgn_abs (s : Bool) {x : ℝ} (hx : 0 ≤ x) : |sgn s x| = x := by
  cases s
  · exact abs_of_nonneg hx
  · change |-x| = x
    rw [abs_neg, abs_of_nonneg hx]

theorem sgn_not (s : Bool) (x : ℝ) : sgn (!s) x = -sgn s x := by
  cases s <;> simp [sgn]

theorem sgn_xor (s t : Bool) (x y : ℝ) : sgn (s != t) (x * y) = sgn s x * sgn t y := by
  cases s <;> cases t <;> simp [sgn]

theorem sgn_eq_zero {s : Bool} {x : ℝ} : sgn s x = 0 ↔ x = 0 := by
  cases s <;> simp [sgn]

@[simp] theorem toReal_neg (a : Flt f) : (-a).toReal = -a.toReal := by
  change (neg a).toReal = _
  rcases a with _ | s | ⟨s, x, hx⟩
  · simp [neg, toReal]
  · simp [neg, toReal]
  · exact sgn_not s x

@[simp] theorem toReal_zero : (0 : Flt f).toReal = 0 := rfl
@[simp] theorem toReal_one : (1 : Flt f).toReal = 1 := rfl

theorem isFin_neg {a : Flt f} : (-a).IsFin ↔ a.IsFin := by
  rcases a with _ | s | ⟨s, x, hx⟩ <;> exact Iff.rfl

theorem pack_rep {s : Bool} {x : ℝ} (h : f.Rep x) : pack f s x = fin s x h := by
  unfold pack
  have hr := f.rnd_rep h
  rw [dif_pos ⟨h.nonneg, by rw [hr]; exact h.lt⟩]
  exact fin_congr hr _ _

theorem pack_fin {s : Bool} {x : ℝ} (h : (pack f s x).IsFin) :
    ∃ hr, pack f s x = fin s (f.rnd x) hr := by
  unfold pack at *
  by_cases hc : 0 ≤ x ∧ f.rnd x < (2 : ℝ) ^ (f.emax + 1)
  · rw [dif_pos hc]
    exact ⟨f.rep_rnd hc.1 hc.2, rfl⟩
  · rw [dif_neg hc] at h
    exact absurd h id

/-- Either way the sign is kept. -/
theorem pack_cases (s : Bool) (x : ℝ) : pack f s x = inf s ∨ ∃ hr, pack f s x = fin s (f.rnd x) hr := by
  unfold pack
  by_cases hc : 0 ≤ x ∧ f.rnd x < (2 : ℝ) ^ (f.emax + 1)
  · rw [dif_pos hc]
    exact Or.inr ⟨f.rep_rnd hc.1 hc.2, rfl⟩
  · rw [dif_neg hc]
    exact Or.inl rfl

theorem isFin_of_add {a b : Flt f} (h : (a + b).IsFin) : a.IsFin ∧ b.IsFin := by
  change (add a b).IsFin at h
  rcases a with _ | s | ⟨s, x, hx⟩ <;> rcases b with _ | t | ⟨t, y, hy⟩ <;> simp only [add] at h
  all_goals first
    | exact absurd h id
    | exact ⟨trivial, trivial⟩
    | (split at h <;> exact absurd h id)

theorem isFin_of_sub {a b : Flt f} (h : (a - b).IsFin) : a.IsFin ∧ b.IsFin := by
  have := isFin_of_add (a := a) (b := -b) h
  exact ⟨this.1, isFin_neg.1 this.2⟩

theorem isFin_of_mul {a b : Flt f} (h : (a * b).IsFin) : a.IsFin ∧ b.IsFin := by
  change (mul a b).IsFin at h
  rcases a with _ | s | ⟨s, x, hx⟩ <;> rcases b with _ | t | ⟨t, y, hy⟩ <;> simp only [mul] at h
  all_goals first
    | exact absurd h id
    | exact ⟨trivial, trivial⟩
    | (split at h <;> exact absurd h id)

/-- The value of a rounded real. -/
theorem toReal_ofReal {s : Bool} {r : ℝ} (h : (ofReal f s r).IsFin) :
    (ofReal f s r).toReal = sgn (decide (r < 0)) (f.rnd |r|) := by
  unfold ofReal at *
  obtain ⟨hr, e⟩ := pack_fin h
  rw [e]
  change sgn _ _ = _
  by_cases h0 : r = 0
  · rw [h0, abs_zero, f.rnd_zero]
    rw [sgn_eq_zero.2 rfl, sgn_eq_zero.2 rfl]
  · rw [if_neg h0]

theorem sgn_lt_abs (r : ℝ) : sgn (decide (r < 0)) |r| = r := by
  by_cases h : r < 0
  · simp [sgn, h, abs_of_neg h]
  · simp [sgn, h, abs_of_nonneg (not_lt.1 h)]

theorem sgn_sub (s : Bool) (x y : ℝ) : sgn s x - sgn s y = sgn s (x - y) := by
  cases s <;> simp [sgn]; ring

theorem abs_sgn (s : Bool) (x : ℝ) : |sgn s x| = |x| := by
  cases s <;> simp [sgn]

/-- Any multiple of the smallest positive number below the normal range is representable. -/
theorem rep_of_small {k : ℕ} (h : (k : ℝ) * (2 : ℝ) ^ (f.emin - f.p + 1) < (2 : ℝ) ^ f.emin) :
    f.Rep ((k : ℝ) * (2 : ℝ) ^ (f.emin - f.p + 1)) := by
  have := f.hp
  have := f.hmin
  have := f.hmax
  refine ⟨k, _, rfl, ?_, le_rfl, by omega⟩
  have e : (2 : ℝ) ^ f.emin = (2 : ℝ) ^ (f.p - 1 : ℕ) * (2 : ℝ) ^ (f.emin - f.p + 1) := by
    rw [← zpow_natCast, ← zpow_add₀ (by norm_num)]
    congr 1
    push_cast [Nat.cast_sub (by omega : 1 ≤ f.p)]
    ring
  rw [e] at h
  have h1 : (k : ℝ) < (2 : ℝ) ^ (f.p - 1 : ℕ) := lt_of_mul_lt_mul_right h (by positivity)
  have h2 : k < 2 ^ (f.p - 1) := by exact_mod_cast h1
  exact h2.trans (Nat.pow_lt_pow_right (by norm_num) (by omega))

/-- Sums have relative error at most `u` in every range. -/
theorem add_rel {a b : Flt f} (h : (a + b).IsFin) :
    |(a + b).toReal - (a.toReal + b.toReal)| ≤ f.u * |a.toReal + b.toReal| := by
  obtain ⟨ha, hb⟩ := isFin_of_add h
  rcases a with _ | s | ⟨s, x, hx⟩
  · exact absurd ha id
  · exact absurd ha id
  rcases b with _ | t | ⟨t, y, hy⟩
  · exact absurd hb id
  · exact absurd hb id
  change (ofReal f (s && t) (sgn s x + sgn t y)).IsFin at h
  change |(ofReal f (s && t) (sgn s x + sgn t y)).toReal - (sgn s x + sgn t y)| ≤
    f.u * |sgn s x + sgn t y|
  rw [toReal_ofReal h]
  obtain ⟨r, hr⟩ : ∃ r, r = sgn s x + sgn t y := ⟨_, rfl⟩
  rw [← hr]
  have e : sgn (decide (r < 0)) (f.rnd |r|) - r = sgn (decide (r < 0)) (f.rnd |r| - |r|) := by
    rw [← sgn_sub, sgn_lt_abs]
  rw [e, abs_sgn]
  by_cases hn : (2 : ℝ) ^ f.emin ≤ |r|
  · exact f.rnd_rel hn
  · push Not at hn
    obtain ⟨kx, hkx⟩ := f.rep_mul_ulp hx
    obtain ⟨ky, hky⟩ := f.rep_mul_ulp hy
    have : ∃ k : ℕ, |r| = k * (2 : ℝ) ^ (f.emin - f.p + 1) := by
      have hpos : (0 : ℝ) < (2 : ℝ) ^ (f.emin - f.p + 1) := by positivity
      obtain ⟨z, hz⟩ : ∃ z : ℤ, r = z * (2 : ℝ) ^ (f.emin - f.p + 1) := by
        refine ⟨(if s then -(kx : ℤ) else kx) + (if t then -(ky : ℤ) else ky), ?_⟩
        rw [hr, hkx, hky]
        cases s <;> cases t <;> simp [sgn] <;> ring
      refine ⟨z.natAbs, ?_⟩
      rw [hz, abs_mul, abs_of_pos hpos, Nat.cast_natAbs, Int.cast_abs]
    obtain ⟨k, hk⟩ := this
    rw [hk] at hn
    have hrep := rep_of_small hn
    rw [← hk] at hrep
    rw [f.rnd_rep hrep, sub_self, abs_zero]
    exact mul_nonneg f.u_pos.le (abs_nonneg _)

theorem sub_rel {a b : Flt f} (h : (a - b).IsFin) :
    |(a - b).toReal - (a.toReal - b.toReal)| ≤ f.u * |a.toReal - b.toReal| := by
  have := add_rel (a := a) (b := -b) h
  rw [toReal_neg, ← sub_eq_add_neg] at this
  exact this

private theorem mul_val {a b : Flt f} (h : (a * b).IsFin) :
    ∃ s, (a * b).toReal - a.toReal * b.toReal =
      sgn s (f.rnd |a.toReal * b.toReal| - |a.toReal * b.toReal|) := by
  obtain ⟨ha, hb⟩ := isFin_of_mul h
  rcases a with _ | s | ⟨s, x, hx⟩
  · exact absurd ha id
  · exact absurd ha id
  rcases b with _ | t | ⟨t, y, hy⟩
  · exact absurd hb id
  · exact absurd hb id
  change (pack f (s != t) (x * y)).IsFin at h
  obtain ⟨hr, e⟩ := pack_fin h
  refine ⟨s != t, ?_⟩
  change (pack f (s != t) (x * y)).toReal - sgn s x * sgn t y = sgn (s != t) (f.rnd |sgn s x * sgn t y| -
    |sgn s x * sgn t y|)
  rw [e, abs_mul, sgn_abs s hx.nonneg, sgn_abs t hy.nonneg, ← sgn_xor, ← sgn_sub]
  rfl

/-- Products have relative error at most `u` in the normal range. -/
theorem mul_rel {a b : Flt f} (h : (a * b).IsFin)
    (hn : a.toReal * b.toReal = 0 ∨ (2 : ℝ) ^ f.emin ≤ |a.toReal * b.toReal|) :
    |(a * b).toReal - a.toReal * b.toReal| ≤ f.u * |a.toReal * b.toReal| := by
  obtain ⟨s, e⟩ := mul_val h
  rw [e, abs_sgn]
  rcases hn with h0 | hn
  · rw [h0, abs_zero, f.rnd_zero, sub_zero, abs_zero, mul_zero]
  · exact f.rnd_rel hn

/-- Products in every range: one more half of the smallest positive number. -/
theorem mul_err {a b : Flt f} (h : (a * b).IsFin) :
    |(a * b).toReal - a.toReal * b.toReal| ≤ f.u * |a.toReal * b.toReal| + f.eta := by
  obtain ⟨s, e⟩ := mul_val h
  rw [e, abs_sgn]
  exact f.rnd_err (abs_nonneg _)

/-! ### exact operations -/

theorem beq_iff {a b : Flt f} (ha : a.IsFin) (hb : b.IsFin) : ROrd.beq a b = true ↔ a.toReal = b.toReal := by
  change beq a b = true ↔ _
  rcases a with _ | s | ⟨s, x, hx⟩
  · exact absurd ha id
  · exact absurd ha id
  rcases b with _ | t | ⟨t, y, hy⟩
  · exact absurd hb id
  · exact absurd hb id
  simp only [beq, toReal, decide_eq_true_eq]

theorem lt_iff {a b : Flt f} (ha : a.IsFin) (hb : b.IsFin) : ROrd.lt a b = true ↔ a.toReal < b.toReal := by
  change lt a b = true ↔ _
  rcases a with _ | s | ⟨s, x, hx⟩
  · exact absurd ha id
  · exact absurd ha id
  rcases b with _ | t | ⟨t, y, hy⟩
  · exact absurd hb id
  · exact absurd hb id
  simp only [lt, toReal, decide_eq_true_eq]

theorem mul_one' {a : Flt f} : a * 1 = a := by
  change mul a (fin false 1 (rep_one f)) = a
  rcases a with _ | s | ⟨s, x, hx⟩
  · rfl
  · simp [mul]
  · simp only [mul, mul_one, Bool.bne_false]
    exact pack_rep hx

theorem one_mul' {a : Flt f} : 1 * a = a := by rw [mul_comm', mul_one']

theorem mul_zero_fin {a : Flt f} (ha : a.IsFin) : (a * 0).IsFin ∧ (a * 0).toReal = 0 := by
  rcases a with _ | s | ⟨s, x, hx⟩
  · exact absurd ha id
  · exact absurd ha id
  have e : (fin s x hx * 0 : Flt f) = fin (s != false) 0 f.rep_zero := by
    change pack f (s != false) (x * 0) = _
    simp only [mul_zero]
    exact pack_rep f.rep_zero
  rw [e]
  exact ⟨trivial, sgn_eq_zero.2 rfl⟩

theorem zero_mul_fin {a : Flt f} (ha : a.IsFin) : (0 * a).IsFin ∧ (0 * a).toReal = 0 := by
  rw [mul_comm']; exact mul_zero_fin ha

theorem rep_abs_toReal (a : Flt f) : f.Rep |a.toReal| := by
  rcases a with _ | s | ⟨s, x, hx⟩
  · simpa [toReal] using f.rep_zero
  · simpa [toReal] using f.rep_zero
  · change f.Rep |sgn s x|
    rw [sgn_abs s hx.nonneg]; exact hx

/-- A sum whose exact value is representable is exact. -/
theorem add_exact {a b : Flt f} (ha : a.IsFin) (hb : b.IsFin) (h : f.Rep |a.toReal + b.toReal|) :
    (a + b).IsFin ∧ (a + b).toReal = a.toReal + b.toReal := by
  rcases a with _ | s | ⟨s, x, hx⟩
  · exact absurd ha id
  · exact absurd ha id
  rcases b with _ | t | ⟨t, y, hy⟩
  · exact absurd hb id
  · exact absurd hb id
  change f.Rep |sgn s x + sgn t y| at h
  have hf : (ofReal f (s && t) (sgn s x + sgn t y)).IsFin := by
    unfold ofReal
    rw [pack_rep h]; trivial
  refine ⟨hf, ?_⟩
  change (ofReal f (s && t) (sgn s x + sgn t y)).toReal = sgn s x + sgn t y
  rw [toReal_ofReal hf, f.rnd_rep h, sgn_lt_abs]

theorem add_zero_val {a b : Flt f} (ha : a.IsFin) (hb : b.IsFin) (h : b.toReal = 0) :
    (a + b).IsFin ∧ (a + b).toReal = a.toReal := by
  have := add_exact ha hb (by rw [h, add_zero]; exact rep_abs_toReal a)
  rwa [h, add_zero] at this

theorem zero_add_val {a b : Flt f} (ha : a.IsFin) (hb : b.IsFin) (h : a.toReal = 0) :
    (a + b).IsFin ∧ (a + b).toReal = b.toReal := by
  rw [add_comm']; exact add_zero_val hb ha h

end Flt
end StaticMath
