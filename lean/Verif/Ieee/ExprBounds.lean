import Verif.Ieee.Expr
import Verif.Ieee.Facts

/-!
# Consequences for expressions: underflow term, absence of overflow, exactness on integers
-/

namespace StaticMath

namespace Fmt
variable (f : Fmt)

theorem rnd_lt {x : ℝ} (hx : 0 ≤ x) (h : (1 + f.u) * x < (2 : ℝ) ^ (f.emax + 1)) :
    f.rnd x < (2 : ℝ) ^ (f.emax + 1) := by
  by_cases hc : (2 : ℝ) ^ f.emin ≤ x
  · have := (abs_le.1 (f.rnd_rel hc)).2
    linarith
  · push Not at hc
    have h1 := (abs_le.1 (f.rnd_err hx)).2
    have hp := f.hp
    have h2 := f.hmin
    have h3 := f.hmax
    have hu := f.u_le
    have hu0 := f.u_pos
    have h4 : f.eta ≤ (2 : ℝ) ^ f.emin := zpow_le_zpow_right₀ (by norm_num) (by omega)
    have h5 : (2 : ℝ) ^ (f.emin + 2) ≤ (2 : ℝ) ^ (f.emax + 1) := zpow_le_zpow_right₀ (by norm_num) (by omega)
    rw [zpow_add₀ (by norm_num)] at h5
    have h6 : (0 : ℝ) < (2 : ℝ) ^ f.emin := by positivity
    norm_num at h5
    nlinarith

theorem rep_nat {k : ℕ} (h : k ≤ 2 ^ f.p) : f.Rep (k : ℝ) := by
  have hp := f.hp
  have h2 := f.hmin
  have h3 := f.hmax
  rcases h.lt_or_eq with h | h
  · exact ⟨k, 0, by simp, h, by omega, by omega⟩
  · refine ⟨2 ^ (f.p - 1), 1, ?_, Nat.pow_lt_pow_right (by norm_num) (by omega), by omega, by omega⟩
    rw [h, zpow_one]
    have : f.p = (f.p - 1) + 1 := by omega
    conv_lhs => rw [this, pow_succ]
    push_cast
    ring

theorem eta_le_one : f.eta ≤ 1 := by
  have hp := f.hp
  have h2 := f.hmin
  have := zpow_le_zpow_right₀ (a := (2 : ℝ)) (by norm_num) (show f.emin - f.p ≤ 0 by omega)
  rwa [zpow_zero] at this

end Fmt

namespace Flt
variable {f : Fmt}

theorem pack_isFin {s : Bool} {x : ℝ} (hx : 0 ≤ x) (h : (1 + f.u) * x < (2 : ℝ) ^ (f.emax + 1)) :
    (pack f s x).IsFin := by
  unfold pack
  rw [dif_pos ⟨hx, f.rnd_lt hx h⟩]
  trivial

theorem add_isFin {a b : Flt f} (ha : a.IsFin) (hb : b.IsFin)
    (h : (1 + f.u) * |a.toReal + b.toReal| < (2 : ℝ) ^ (f.emax + 1)) : (a + b).IsFin := by
  rcases a with _ | s | ⟨s, x, hx⟩
  · exact absurd ha id
  · exact absurd ha id
  rcases b with _ | t | ⟨t, y, hy⟩
  · exact absurd hb id
  · exact absurd hb id
  exact pack_isFin (abs_nonneg _) h

theorem sub_isFin {a b : Flt f} (ha : a.IsFin) (hb : b.IsFin)
    (h : (1 + f.u) * |a.toReal - b.toReal| < (2 : ℝ) ^ (f.emax + 1)) : (a - b).IsFin :=
  add_isFin (b := -b) ha (isFin_neg.2 hb) (by rwa [toReal_neg, ← sub_eq_add_neg])

theorem mul_isFin {a b : Flt f} (ha : a.IsFin) (hb : b.IsFin)
    (h : (1 + f.u) * |a.toReal * b.toReal| < (2 : ℝ) ^ (f.emax + 1)) : (a * b).IsFin := by
  rcases a with _ | s | ⟨s, x, hx⟩
  · exact absurd ha id
  · exact absurd ha id
  rcases b with _ | t | ⟨t, y, hy⟩
  · exact absurd hb id
  · exact absurd hb id
  have e : |(fin s x hx : Flt f).toReal * (fin t y hy : Flt f).toReal| = x * y := by
    rw [abs_mul]
    change |sgn s x| * |sgn t y| = _
    rw [sgn_abs s hx.nonneg, sgn_abs t hy.nonneg]
  rw [e] at h
  exact pack_isFin (mul_nonneg hx.nonneg hy.nonneg) h

theorem sub_exact {a b : Flt f} (ha : a.IsFin) (hb : b.IsFin) (h : f.Rep |a.toReal - b.toReal|) :
    (a - b).IsFin ∧ (a - b).toReal = a.toReal - b.toReal := by
  have := add_exact ha (isFin_neg.2 hb) (by rwa [toReal_neg, ← sub_eq_add_neg])
  rw [toReal_neg, ← sub_eq_add_neg] at this
  exact this

theorem mul_exact {a b : Flt f} (ha : a.IsFin) (hb : b.IsFin) (h : f.Rep |a.toReal * b.toReal|) :
    (a * b).IsFin ∧ (a * b).toReal = a.toReal * b.toReal := by
  rcases a with _ | s | ⟨s, x, hx⟩
  · exact absurd ha id
  · exact absurd ha id
  rcases b with _ | t | ⟨t, y, hy⟩
  · exact absurd hb id
  · exact absurd hb id
  have e : |(fin s x hx : Flt f).toReal * (fin t y hy : Flt f).toReal| = x * y := by
    rw [abs_mul]
    change |sgn s x| * |sgn t y| = _
    rw [sgn_abs s hx.nonneg, sgn_abs t hy.nonneg]
  rw [e] at h
  have e2 : (fin s x hx * fin t y hy : Flt f) = fin (s != t) (x * y) h := pack_rep h
  rw [e2]
  exact ⟨trivial, sgn_xor s t x y⟩

end Flt

namespace Ex
variable {ι : Type} {f : Fmt}

/-! ## the underflow term -/

theorem polyL_nonneg {B : ℝ} (hB : 0 ≤ B) (l : List ℕ) : 0 ≤ polyL B l := by
  induction l with
  | nil => exact le_rfl
  | cons a l ih => exact add_nonneg (Nat.cast_nonneg _) (mul_nonneg hB ih)

theorem polyL_addL (B : ℝ) (l m : List ℕ) : polyL B (addL l m) = polyL B l + polyL B m := by
  induction l generalizing m with
  | nil => simp [addL, polyL]
  | cons a l ih =>
    cases m with
    | nil => simp [addL, polyL]
    | cons b m => simp only [addL, polyL, ih]; push_cast; ring

/-- For expressions in which every product has a variable factor, the underflow term is a polynomial
in the bound of the variables. -/
theorem absE_linear {η B : ℝ} (hη : 0 ≤ η) (x : ι → ℝ) (hx : ∀ i, |x i| ≤ B) (e : Ex ι) (h : linear e = true) :
    absE η x e ≤ absE 0 x e + η * polyL B (und e) := by
  have key : ∀ (i : ι) (e : Ex ι), absE η x e ≤ absE 0 x e + η * polyL B (und e) →
      |x i| * absE η x e + η ≤ |x i| * absE 0 x e + 0 + η * (1 + B * polyL B (und e)) := by
    intro i e he
    have hB : 0 ≤ B := (abs_nonneg _).trans (hx i)
    have h1 := mul_le_mul_of_nonneg_left he (abs_nonneg (x i))
    have h2 : |x i| * (η * polyL B (und e)) ≤ B * (η * polyL B (und e)) :=
      mul_le_mul_of_nonneg_right (hx i) (mul_nonneg hη (polyL_nonneg hB _))
    nlinarith
  induction e with
  | var i => simp [absE, und, polyL]
  | zero => simp [absE, und, polyL]
  | one => simp [absE, und, polyL]
  | neg a iha => exact iha h
  | add a b iha ihb =>
    simp only [linear, Bool.and_eq_true] at h
    simp only [absE, und, polyL_addL]
    linarith [iha h.1, ihb h.2]
  | sub a b iha ihb =>
    simp only [linear, Bool.and_eq_true] at h
    simp only [absE, und, polyL_addL]
    linarith [iha h.1, ihb h.2]
  | mul a b iha ihb =>
    have hr (i : ι) (e : Ex ι) (he : absE η x e ≤ absE 0 x e + η * polyL B (und e)) :
        absE η x (mul e (var i)) ≤ absE 0 x (mul e (var i)) + η * polyL B (und (mul e (var i))) := by
      simp only [absE, und, polyL_addL, polyL, Nat.cast_one, add_zero]
      rw [mul_comm (absE η x e), mul_comm (absE 0 x e)]
      have := key i e he
      rwa [add_zero] at this
    cases a with
    | var i =>
      simp only [absE, und, polyL_addL, polyL, Nat.cast_one, zero_add]
      exact key i b (ihb h)
    | _ =>
      cases b with
      | var i => exact hr i _ (iha h)
      | _ => exact absurd h (by simp [linear])

/-! ## crude bounds in terms of one bound `B ≥ 1` of all variables -/

theorem le_pos (k : ℕ) : k ≤ pos k := by unfold pos; split <;> omega
theorem one_le_pos (k : ℕ) : 1 ≤ pos k := by unfold pos; split <;> omega

theorem deg_add (a b : Ex ι) : deg (add a b) = max (deg a) (deg b) := by rw [deg]; split <;> omega
theorem deg_sub (a b : Ex ι) : deg (sub a b) = max (deg a) (deg b) := by rw [deg]; split <;> omega

theorem crude {B : ℝ} (hB : 1 ≤ B) {k l : ℕ} (hk : k ≤ l) {c : ℝ} (hc : 0 ≤ c) : c * B ^ k ≤ c * B ^ l :=
  mul_le_mul_of_nonneg_left (pow_le_pow_right₀ hB hk) hc

theorem absE_zero_le {B : ℝ} (hB : 1 ≤ B) (x : ι → ℝ) (hx : ∀ i, |x i| ≤ B) (e : Ex ι) :
    absE 0 x e ≤ terms e * B ^ deg e := by
  induction e with
  | var i => simpa [absE, terms, deg] using hx i
  | zero => simp [absE, terms, deg]
  | one => simp [absE, terms, deg]
  | neg a iha => exact iha
  | add a b iha ihb =>
    rw [deg_add]
    simp only [absE, terms]
    push_cast
    have h1 := crude hB (le_max_left (deg a) (deg b)) (Nat.cast_nonneg (α := ℝ) (terms a))
    have h2 := crude hB (le_max_right (deg a) (deg b)) (Nat.cast_nonneg (α := ℝ) (terms b))
    linarith
  | sub a b iha ihb =>
    rw [deg_sub]
    simp only [absE, terms]
    push_cast
    have h1 := crude hB (le_max_left (deg a) (deg b)) (Nat.cast_nonneg (α := ℝ) (terms a))
    have h2 := crude hB (le_max_right (deg a) (deg b)) (Nat.cast_nonneg (α := ℝ) (terms b))
    linarith
  | mul a b iha ihb =>
    simp only [absE, terms, deg, pow_add, add_zero]
    push_cast
    have h1 : (terms a : ℝ) * B ^ deg a ≤ pos (terms a) * B ^ deg a :=
      mul_le_mul_of_nonneg_right (by exact_mod_cast le_pos _) (by positivity)
    have h2 : (terms b : ℝ) * B ^ deg b ≤ pos (terms b) * B ^ deg b :=
      mul_le_mul_of_nonneg_right (by exact_mod_cast le_pos _) (by positivity)
    calc _ ≤ (pos (terms a) * B ^ deg a) * (pos (terms b) * B ^ deg b) :=
          mul_le_mul (iha.trans h1) (ihb.trans h2) (absE_nonneg le_rfl _ _) (by positivity)
      _ = _ := by ring

theorem absE_le {η B : ℝ} (hη : 0 ≤ η) (hη1 : η ≤ 1) (hB : 1 ≤ B) (x : ι → ℝ) (hx : ∀ i, |x i| ≤ B) (e : Ex ι) :
    absE η x e ≤ cnt e * B ^ deg e := by
  induction e with
  | var i => simpa [absE, cnt, deg] using hx i
  | zero => simp [absE, cnt, deg]
  | one => simp [absE, cnt, deg]
  | neg a iha => exact iha
  | add a b iha ihb =>
    rw [deg_add]
    simp only [absE, cnt]
    push_cast
    have h1 := crude hB (le_max_left (deg a) (deg b)) (Nat.cast_nonneg (α := ℝ) (cnt a))
    have h2 := crude hB (le_max_right (deg a) (deg b)) (Nat.cast_nonneg (α := ℝ) (cnt b))
    linarith
  | sub a b iha ihb =>
    rw [deg_sub]
    simp only [absE, cnt]
    push_cast
    have h1 := crude hB (le_max_left (deg a) (deg b)) (Nat.cast_nonneg (α := ℝ) (cnt a))
    have h2 := crude hB (le_max_right (deg a) (deg b)) (Nat.cast_nonneg (α := ℝ) (cnt b))
    linarith
  | mul a b iha ihb =>
    simp only [absE, cnt, deg, pow_add]
    push_cast
    have h1 : (cnt a : ℝ) * B ^ deg a ≤ pos (cnt a) * B ^ deg a :=
      mul_le_mul_of_nonneg_right (by exact_mod_cast le_pos _) (by positivity)
    have h2 : (cnt b : ℝ) * B ^ deg b ≤ pos (cnt b) * B ^ deg b :=
      mul_le_mul_of_nonneg_right (by exact_mod_cast le_pos _) (by positivity)
    have h3 : η ≤ B ^ deg a * B ^ deg b := by
      rw [← pow_add]; exact hη1.trans (one_le_pow₀ hB)
    calc _ ≤ (pos (cnt a) * B ^ deg a) * (pos (cnt b) * B ^ deg b) + η := by
          have := mul_le_mul (iha.trans h1) (ihb.trans h2) (absE_nonneg hη _ _) (by positivity)
          linarith
      _ ≤ _ := by linarith

/-! ## no overflow -/

/-- With all variables finite and bounded by `B ≥ 1`, nothing overflows if the crude bound of the result
stays below the range. -/
theorem evalF_isFin {x : ι → Flt f} {B : ℝ} (hB : 1 ≤ B) (hf : ∀ i, (x i).IsFin) (hx : ∀ i, |(x i).toReal| ≤ B)
    (e : Ex ι) (h : (1 + f.u) ^ depth e * (cnt e * B ^ deg e) < (2 : ℝ) ^ (f.emax + 1)) :
    (evalF x e).IsFin := by
  have hu := f.u_pos
  have he := f.eta_pos
  have hmono : ∀ {k l c d m n : ℕ}, k ≤ l → c ≤ d → m ≤ n →
      (1 + f.u) ^ k * (c * B ^ m) ≤ (1 + f.u) ^ l * (d * B ^ n) := by
    intro k l c d m n hk hc hm
    have hcd : (c : ℝ) ≤ d := by exact_mod_cast hc
    have := pow_le_pow_right₀ hB hm
    have := pow_depth (f := f) k l hk
    gcongr
  have hab := fun e => absE_le he.le f.eta_le_one hB (vals x) hx e
  have hm : ∀ e, (evalF x e).IsFin → |(evalF x e).toReal| ≤ (1 + f.u) ^ depth e * (cnt e * B ^ deg e) := fun e hfin =>
    (evalF_err x e hfin).mag.trans (mul_le_mul_of_nonneg_left (hab e) (by positivity))
  induction e with
  | var i => exact hf i
  | zero => exact Flt.isFin_zero
  | one => exact Flt.isFin_one
  | neg a iha => exact Flt.isFin_neg.2 (iha h)
  | add a b iha ihb =>
    rw [depth_add, deg_add, cnt] at h
    have h1 := iha ((hmono (by omega) (by omega) (le_max_left _ _)).trans_lt h)
    have h2 := ihb ((hmono (by omega) (by omega) (le_max_right _ _)).trans_lt h)
    refine Flt.add_isFin h1 h2 (lt_of_le_of_lt ?_ h)
    have ka := (hm a h1).trans (hmono (le_max_left (depth a) (depth b)) le_rfl (le_max_left (deg a) (deg b)))
    have kb := (hm b h2).trans (hmono (le_max_right (depth a) (depth b)) le_rfl (le_max_right (deg a) (deg b)))
    have := abs_add_le (evalF x a).toReal (evalF x b).toReal
    rw [pow_succ', mul_assoc]
    refine mul_le_mul_of_nonneg_left ?_ (by linarith)
    push_cast
    linarith
  | sub a b iha ihb =>
    rw [depth_sub, deg_sub, cnt] at h
    have h1 := iha ((hmono (by omega) (by omega) (le_max_left _ _)).trans_lt h)
    have h2 := ihb ((hmono (by omega) (by omega) (le_max_right _ _)).trans_lt h)
    refine Flt.sub_isFin h1 h2 (lt_of_le_of_lt ?_ h)
    have ka := (hm a h1).trans (hmono (le_max_left (depth a) (depth b)) le_rfl (le_max_left (deg a) (deg b)))
    have kb := (hm b h2).trans (hmono (le_max_right (depth a) (depth b)) le_rfl (le_max_right (deg a) (deg b)))
    have := abs_sub (evalF x a).toReal (evalF x b).toReal
    rw [pow_succ', mul_assoc]
    refine mul_le_mul_of_nonneg_left ?_ (by linarith)
    push_cast
    linarith
  | mul a b iha ihb =>
    rw [depth, deg, cnt] at h
    have p1 := le_pos (cnt a)
    have p2 := le_pos (cnt b)
    have q1 := one_le_pos (cnt a)
    have q2 := one_le_pos (cnt b)
    have h1 := iha ((hmono (by omega) (by nlinarith) (by omega)).trans_lt h)
    have h2 := ihb ((hmono (by omega) (by nlinarith) (by omega)).trans_lt h)
    refine Flt.mul_isFin h1 h2 (lt_of_le_of_lt ?_ h)
    have ka := hm a h1
    have kb := hm b h2
    rw [pow_succ', mul_assoc]
    refine mul_le_mul_of_nonneg_left ?_ (by linarith)
    rw [abs_mul]
    refine (mul_le_mul ka kb (abs_nonneg _) ((abs_nonneg _).trans ka)).trans ?_
    rw [pow_add, pow_add]
    have c1 : (cnt a : ℝ) * cnt b ≤ (pos (cnt a) * pos (cnt b) + 1 : ℕ) := by
      have : cnt a * cnt b ≤ pos (cnt a) * pos (cnt b) + 1 := by nlinarith
      exact_mod_cast this
    calc _ = ((cnt a : ℝ) * cnt b) * ((1 + f.u) ^ depth a * (1 + f.u) ^ depth b * (B ^ deg a * B ^ deg b)) := by ring
      _ ≤ (pos (cnt a) * pos (cnt b) + 1 : ℕ) * ((1 + f.u) ^ depth a * (1 + f.u) ^ depth b * (B ^ deg a * B ^ deg b)) :=
          mul_le_mul_of_nonneg_right c1 (by positivity)
      _ = _ := by ring

/-! ## exactness on integers -/

/-- Integer valued variables bounded by `B ≥ 1`: the value is computed exactly as long as the crude
bound of the result does not exceed `2^p`. -/
theorem evalF_exact {x : ι → Flt f} {B : ℕ} (hB : 1 ≤ B) (z : ι → ℤ) (hf : ∀ i, (x i).IsFin)
    (hz : ∀ i, (x i).toReal = z i) (hx : ∀ i, |(x i).toReal| ≤ B) (e : Ex ι)
    (h : terms e * B ^ deg e ≤ 2 ^ f.p) :
    (evalF x e).IsFin ∧ (evalF x e).toReal = evalR (vals x) e ∧ ∃ k : ℤ, evalR (vals x) e = k := by
  have hBR : (1 : ℝ) ≤ B := by exact_mod_cast hB
  have hint : ∀ e, ∃ k : ℤ, evalR (vals x) e = k := by
    intro e
    induction e with
    | var i => exact ⟨z i, hz i⟩
    | zero => exact ⟨0, by simp [evalR]⟩
    | one => exact ⟨1, by simp [evalR]⟩
    | neg a iha => obtain ⟨k, hk⟩ := iha; exact ⟨-k, by simp [evalR, hk]⟩
    | add a b iha ihb => obtain ⟨k, hk⟩ := iha; obtain ⟨l, hl⟩ := ihb; exact ⟨k + l, by simp [evalR, hk, hl]⟩
    | sub a b iha ihb => obtain ⟨k, hk⟩ := iha; obtain ⟨l, hl⟩ := ihb; exact ⟨k - l, by simp [evalR, hk, hl]⟩
    | mul a b iha ihb => obtain ⟨k, hk⟩ := iha; obtain ⟨l, hl⟩ := ihb; exact ⟨k * l, by simp [evalR, hk, hl]⟩
  have hrep : ∀ e, terms e * B ^ deg e ≤ 2 ^ f.p → f.Rep |evalR (vals x) e| := by
    intro e he
    obtain ⟨k, hk⟩ := hint e
    have h1 := (abs_evalR_le (vals x) e).trans (absE_zero_le hBR (vals x) hx e)
    rw [hk] at h1 ⊢
    have h2 : |(k : ℝ)| = (k.natAbs : ℝ) := by rw [Nat.cast_natAbs, Int.cast_abs]
    rw [h2] at h1 ⊢
    exact f.rep_nat (le_trans (by exact_mod_cast h1) he)
  have hmono : ∀ {c d m n : ℕ}, c ≤ d → m ≤ n → c * B ^ m ≤ d * B ^ n := fun hc hm =>
    Nat.mul_le_mul hc (Nat.pow_le_pow_right hB hm)
  refine ⟨?_, ?_, hint e⟩ <;> revert h
  all_goals
    suffices H : terms e * B ^ deg e ≤ 2 ^ f.p →
      (evalF x e).IsFin ∧ (evalF x e).toReal = evalR (vals x) e from fun h => by
        first | exact (H h).1 | exact (H h).2
    induction e with
    | var i => exact fun _ => ⟨hf i, rfl⟩
    | zero => exact fun _ => ⟨Flt.isFin_zero, Flt.toReal_zero⟩
    | one => exact fun _ => ⟨Flt.isFin_one, Flt.toReal_one⟩
    | neg a iha =>
      intro h
      obtain ⟨h1, h2⟩ := iha h
      exact ⟨Flt.isFin_neg.2 h1, by rw [evalF, Flt.toReal_neg, h2, evalR]⟩
    | add a b iha ihb =>
      intro h
      have hr := hrep _ h
      rw [deg_add, terms] at h
      obtain ⟨h1, h2⟩ := iha ((hmono (by omega) (le_max_left _ _)).trans h)
      obtain ⟨h3, h4⟩ := ihb ((hmono (by omega) (le_max_right _ _)).trans h)
      have := Flt.add_exact h1 h3 (by rw [h2, h4]; exact hr)
      rw [h2, h4] at this
      exact this
    | sub a b iha ihb =>
      intro h
      have hr := hrep _ h
      rw [deg_sub, terms] at h
      obtain ⟨h1, h2⟩ := iha ((hmono (by omega) (le_max_left _ _)).trans h)
      obtain ⟨h3, h4⟩ := ihb ((hmono (by omega) (le_max_right _ _)).trans h)
      have := Flt.sub_exact h1 h3 (by rw [h2, h4]; exact hr)
      rw [h2, h4] at this
      exact this
    | mul a b iha ihb =>
      intro h
      have hr := hrep _ h
      rw [deg, terms] at h
      have p1 := le_pos (terms a)
      have p2 := le_pos (terms b)
      have q1 := one_le_pos (terms a)
      have q2 := one_le_pos (terms b)
      obtain ⟨h1, h2⟩ := iha ((hmono (by nlinarith) (by omega)).trans h)
      obtain ⟨h3, h4⟩ := ihb ((hmono (by nlinarith) (by omega)).trans h)
      have := Flt.mul_exact h1 h3 (by rw [h2, h4]; exact hr)
      rw [h2, h4] at this
      exact this

end Ex
end StaticMath
