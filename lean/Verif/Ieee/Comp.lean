import Verif.Ieee.Float

/-!
# A computable copy of the floats

`BF f` has the same values as `Flt f`, written as `± m * 2^e` with integers, and its operations run.
Each of them is proved to give the value of the corresponding operation of `Flt f`; so what the model
computes on concrete floats can be found by evaluation and is then a theorem about `Flt f`.
-/

namespace StaticMath

/-- A float as data: magnitude `m * 2^e`. -/
inductive BF (f : Fmt) where
  | nan
  | inf (neg : Bool)
  | fin (neg : Bool) (m : ℕ) (e : ℤ)
  deriving DecidableEq

namespace BF
variable {f : Fmt}

/-- The magnitude `x` with `N * 2^e ≤ x < (N+1) * 2^e` rounded to nearest even; `st` tells whether
`x` differs from `N * 2^e`. -/
def roundN (f : Fmt) (N : ℕ) (e : ℤ) (st : Bool) : ℕ × ℤ :=
  if N = 0 then (0, 0)
  else
    let E := max (e + N.log2) f.emin - f.p + 1
    if E ≤ e then (N, e)
    else
      let d := (E - e).toNat
      let q := N / 2 ^ d
      let r := N % 2 ^ d
      let h := 2 ^ (d - 1)
      (if r < h then q else if h < r || st then q + 1 else if q % 2 = 0 then q else q + 1, E)

private theorem log_eq {x : ℝ} {k : ℤ} (h1 : (2 : ℝ) ^ k ≤ x) (h2 : x < (2 : ℝ) ^ (k + 1)) : Int.log 2 x = k := by
  have hx : 0 < x := lt_of_lt_of_le (by positivity) h1
  have a := Fmt.log_le hx
  have b : x < (2 : ℝ) ^ (Int.log 2 x + 1) := by
    exact_mod_cast Int.lt_zpow_succ_log_self (b := 2) (by norm_num) x
  have c := (zpow_lt_zpow_iff_right₀ (by norm_num : (1 : ℝ) < 2)).1 (lt_of_le_of_lt h1 b)
  have d := (zpow_lt_zpow_iff_right₀ (by norm_num : (1 : ℝ) < 2)).1 (lt_of_le_of_lt a h2)
  omega

theorem rnd_roundN {N : ℕ} {e : ℤ} {st : Bool} {x : ℝ} (h1 : (N : ℝ) * 2 ^ e ≤ x) (h2 : x < (N + 1) * (2 : ℝ) ^ e)
    (h3 : st = false ↔ x = N * (2 : ℝ) ^ e) (h4 : st = false ∨ 2 ^ (f.p + 1) ≤ N) :
    f.rnd x = (roundN f N e st).1 * (2 : ℝ) ^ (roundN f N e st).2 := by
  have h2e : (0 : ℝ) < (2 : ℝ) ^ e := by positivity
  unfold roundN
  by_cases hN : N = 0
  · subst hN
    have hs : st = false := by
      rcases h4 with h | h
      · exact h
      · have : 0 < 2 ^ (f.p + 1) := by positivity
        omega
    rw [h3.1 hs, if_pos rfl]
    simp [f.rnd_zero]
  rw [if_neg hN]
  have hl1 := Nat.log2_self_le hN
  have hl2 := Nat.lt_log2_self (n := N)
  have hxl : Int.log 2 x = e + N.log2 := by
    apply log_eq
    · refine le_trans ?_ h1
      rw [add_comm, zpow_add₀ (by norm_num), zpow_natCast]
      exact mul_le_mul_of_nonneg_right (by exact_mod_cast hl1) h2e.le
    · refine lt_of_lt_of_le h2 ?_
      rw [show e + (N.log2 : ℤ) + 1 = ((N.log2 + 1 : ℕ) : ℤ) + e by push_cast; ring, zpow_add₀ (by norm_num), zpow_natCast]
      exact mul_le_mul_of_nonneg_right (by exact_mod_cast hl2) h2e.le
  have hexpo : f.expo x = max (e + N.log2) f.emin := by rw [Fmt.expo, hxl]
  set E := max (e + (N.log2 : ℤ)) f.emin - f.p + 1 with hE
  have hulp : f.ulp x = (2 : ℝ) ^ E := by rw [Fmt.ulp, hexpo]
  by_cases hEe : E ≤ e
  · simp only [if_pos hEe]
    have hs : st = false := by
      rcases h4 with h | h
      · exact h
      · exfalso
        have : f.p + 1 ≤ N.log2 := (Nat.le_log2 hN).2 h
        have := le_max_left (e + (N.log2 : ℤ)) f.emin
        omega
    rw [Fmt.rnd, hulp, h3.1 hs]
    have hz : (N : ℝ) * 2 ^ e / 2 ^ E = ((N * 2 ^ (e - E).toNat : ℕ) : ℤ) := by
      rw [mul_div_assoc, ← zpow_sub₀ (by norm_num)]
      push_cast
      rw [← zpow_natCast, Int.toNat_of_nonneg (by omega)]
    rw [hz, rne_int, ← hz]
    field_simp
  · simp only [if_neg hEe]
    push Not at hEe
    set d := (E - e).toNat with hd
    have hdE : E = d + e := by omega
    have hd1 : 1 ≤ d := by omega
    set q := N / 2 ^ d
    set r := N % 2 ^ d
    have hqr : 2 ^ d * q + r = N := Nat.div_add_mod N (2 ^ d)
    have hr : r < 2 ^ d := Nat.mod_lt _ (by positivity)
    have hh : 2 * 2 ^ (d - 1) = 2 ^ d := by rw [← pow_succ']; congr 1; omega
    have hpow : (0 : ℝ) < 2 ^ d := by positivity
    rw [Fmt.rnd, hulp]
    congr 1
    -- the scaled value
    set y := x / (2 : ℝ) ^ E with hy
    have hyx : x = y * 2 ^ d * 2 ^ e := by
      rw [hy, hdE, zpow_add₀ (by norm_num), zpow_natCast]; field_simp
    rw [hyx] at h1 h2
    have h1' : (N : ℝ) ≤ y * 2 ^ d := le_of_mul_le_mul_right h1 h2e
    have h2' : y * 2 ^ d < N + 1 := lt_of_mul_lt_mul_right h2 h2e.le
    have h3' : st = false ↔ y * 2 ^ d = N := by
      rw [h3, hyx]; exact ⟨fun h => mul_right_cancel₀ h2e.ne' h, fun h => by rw [h]⟩
    have hNr : (N : ℝ) = 2 ^ d * q + r := by exact_mod_cast hqr.symm
    have hr' : (r : ℝ) + 1 ≤ 2 ^ d := by exact_mod_cast hr
    have hhr : (2 : ℝ) * 2 ^ (d - 1) = 2 ^ d := by exact_mod_cast hh
    have hfl : ⌊y⌋ = (q : ℤ) := by
      rw [Int.floor_eq_iff]
      push_cast
      constructor
      · by_contra hc
        push Not at hc
        have : y * 2 ^ d < q * 2 ^ d := mul_lt_mul_of_pos_right hc hpow
        have : (0 : ℝ) ≤ r := by positivity
        linarith
      · by_contra hc
        push Not at hc
        have : (q + 1) * (2 : ℝ) ^ d ≤ y * 2 ^ d := mul_le_mul_of_nonneg_right hc hpow.le
        linarith
    have hfr : Int.fract y * 2 ^ d = y * 2 ^ d - q * 2 ^ d := by
      rw [← Int.self_sub_floor, hfl]; push_cast; ring
    have lt1 : Int.fract y < 1 / 2 ↔ r < 2 ^ (d - 1) := by
      rw [← mul_lt_mul_iff_left₀ hpow, hfr]
      constructor
      · intro h
        have : (r : ℝ) < 2 ^ (d - 1) := by linarith
        exact_mod_cast this
      · intro h
        have : (r : ℝ) + 1 ≤ 2 ^ (d - 1) := by exact_mod_cast h
        linarith
    have lt2 : 1 / 2 < Int.fract y ↔ (2 ^ (d - 1) < r ∨ (2 ^ (d - 1) = r ∧ st = true)) := by
      rw [← mul_lt_mul_iff_left₀ hpow, hfr]
      constructor
      · intro h
        have h5 : ((2 : ℕ) ^ (d - 1) : ℝ) < r + 1 := by push_cast; linarith
        have h6 : 2 ^ (d - 1) < r + 1 := by exact_mod_cast h5
        rcases Nat.lt_or_ge (2 ^ (d - 1)) r with h7 | h7
        · exact Or.inl h7
        · have h8 : 2 ^ (d - 1) = r := by omega
          refine Or.inr ⟨h8, ?_⟩
          by_contra hst
          have := h3'.1 (by simpa using hst)
          have h9 : (2 : ℝ) ^ (d - 1) = r := by exact_mod_cast h8
          linarith
      · rintro (h | ⟨h, hs⟩)
        · have : (2 : ℝ) ^ (d - 1) + 1 ≤ r := by exact_mod_cast h
          linarith
        · have h9 : (2 : ℝ) ^ (d - 1) = r := by exact_mod_cast h
          have : (N : ℝ) ≠ y * 2 ^ d := by
            intro h10
            rw [h3'.2 h10.symm] at hs
            exact Bool.false_ne_true hs
          have := lt_of_le_of_ne h1' this
          linarith
    unfold rne
    rw [hfl]
    by_cases c1 : r < 2 ^ (d - 1)
    · rw [if_pos (lt1.2 c1), if_pos c1]; simp
    · rw [if_neg (fun h => c1 (lt1.1 h)), if_neg c1]
      by_cases c2 : 1 / 2 < Int.fract y
      · rw [if_pos c2, if_pos]
        · push_cast; rfl
        · rcases lt2.1 c2 with h | ⟨-, h⟩
          · simp [h]
          · simp [h]
      · have hne : ¬ (decide (2 ^ (d - 1) < r) || st) = true := by
          intro h
          apply c2
          rw [lt2]
          simp only [Bool.or_eq_true, decide_eq_true_eq] at h
          rcases h with h | h
          · exact Or.inl h
          · rcases Nat.lt_or_ge (2 ^ (d - 1)) r with h7 | h7
            · exact Or.inl h7
            · exact Or.inr ⟨by omega, h⟩
        rw [if_neg c2, if_neg hne]
        · by_cases c3 : q % 2 = 0
          · rw [if_pos c3, if_pos (by exact_mod_cast Nat.even_iff.2 c3)]; simp
          · rw [if_neg c3, if_neg (by rw [Int.even_coe_nat, Nat.even_iff]; exact c3)]; push_cast; rfl

/-- Is `m * 2^E` too large? -/
def big (f : Fmt) (m : ℕ) (E : ℤ) : Bool :=
  if f.emax + 1 ≤ E then decide (m ≠ 0) else decide (2 ^ (f.emax + 1 - E).toNat ≤ m)

theorem big_iff (m : ℕ) (E : ℤ) : big f m E = true ↔ (2 : ℝ) ^ (f.emax + 1) ≤ m * (2 : ℝ) ^ E := by
  unfold big
  split_ifs with h
  · rw [decide_eq_true_eq]
    constructor
    · intro hm
      have : (1 : ℝ) ≤ m := by exact_mod_cast Nat.one_le_iff_ne_zero.2 hm
      calc (2 : ℝ) ^ (f.emax + 1) ≤ (2 : ℝ) ^ E := zpow_le_zpow_right₀ (by norm_num) h
        _ = 1 * (2 : ℝ) ^ E := (one_mul _).symm
        _ ≤ _ := mul_le_mul_of_nonneg_right this (by positivity)
    · rintro hm rfl
      have : (0 : ℝ) < (2 : ℝ) ^ (f.emax + 1) := by positivity
      simp at hm
      linarith
  · have e : (2 : ℝ) ^ (f.emax + 1) = ((2 ^ (f.emax + 1 - E).toNat : ℕ) : ℝ) * (2 : ℝ) ^ E := by
      push_cast
      rw [← zpow_natCast, Int.toNat_of_nonneg (by omega), ← zpow_add₀ (by norm_num)]
      congr 1; ring
    rw [decide_eq_true_eq, e, mul_le_mul_iff_left₀ (by positivity)]
    exact Nat.cast_le.symm

/-- `b` is the float `x`. -/
def Den : BF f → Flt f → Prop
  | nan, .nan => True
  | inf s, .inf t => s = t
  | fin s m e, .fin t x _ => s = t ∧ x = m * (2 : ℝ) ^ e
  | _, _ => False

/-- The magnitude described as in `roundN`, rounded, with a sign. -/
def pack (f : Fmt) (s : Bool) (N : ℕ) (e : ℤ) (st : Bool) : BF f :=
  if big f (roundN f N e st).1 (roundN f N e st).2 then inf s
  else fin s (roundN f N e st).1 (roundN f N e st).2

theorem den_pack (s : Bool) {N : ℕ} {e : ℤ} {st : Bool} {x : ℝ} (h1 : (N : ℝ) * 2 ^ e ≤ x)
    (h2 : x < (N + 1) * (2 : ℝ) ^ e) (h3 : st = false ↔ x = N * (2 : ℝ) ^ e) (h4 : st = false ∨ 2 ^ (f.p + 1) ≤ N) :
    Den (pack f s N e st) (Flt.pack f s x) := by
  have hx : 0 ≤ x := le_trans (by positivity) h1
  have hr := rnd_roundN (f := f) h1 h2 h3 h4
  unfold pack Flt.pack
  by_cases hb : big f (roundN f N e st).1 (roundN f N e st).2 = true
  · rw [if_pos hb, dif_neg]
    · rfl
    · rintro ⟨-, h⟩
      rw [big_iff, ← hr] at hb
      linarith
  · rw [if_neg hb, dif_pos]
    · exact ⟨rfl, hr⟩
    · refine ⟨hx, ?_⟩
      rw [big_iff, ← hr] at hb
      linarith

theorem den_pack_exact (s : Bool) (N : ℕ) (e : ℤ) :
    Den (pack f s N e false) (Flt.pack f s (N * (2 : ℝ) ^ e)) := by
  have : (0 : ℝ) < (2 : ℝ) ^ e := by positivity
  exact den_pack s le_rfl (by nlinarith) ⟨fun _ => rfl, fun _ => rfl⟩ (Or.inl rfl)

protected def neg : BF f → BF f
  | nan => nan
  | inf s => inf (!s)
  | fin s m e => fin (!s) m e

protected def abs : BF f → BF f
  | nan => nan
  | inf _ => inf false
  | fin _ m e => fin false m e

/-- `±m` -/
def sg (s : Bool) (m : ℕ) : ℤ := if s then -m else m

/-- `m * 2^(e - E)` for `E ≤ e` -/
def lift (m : ℕ) (e E : ℤ) : ℕ := m * 2 ^ (e - E).toNat

protected def add : BF f → BF f → BF f
  | nan, _ => nan
  | _, nan => nan
  | inf s, inf t => if s = t then inf s else nan
  | inf s, fin _ _ _ => inf s
  | fin _ _ _, inf t => inf t
  | fin s m e, fin t n g =>
    let E := min e g
    let z := sg s (lift m e E) + sg t (lift n g E)
    pack f (if z = 0 then s && t else decide (z < 0)) z.natAbs E false

protected def mul : BF f → BF f → BF f
  | nan, _ => nan
  | _, nan => nan
  | inf s, inf t => inf (s != t)
  | inf s, fin t n _ => if n = 0 then nan else inf (s != t)
  | fin s m _, inf t => if m = 0 then nan else inf (s != t)
  | fin s m e, fin t n g => pack f (s != t) (m * n) (e + g) false

protected def div : BF f → BF f → BF f
  | nan, _ => nan
  | _, nan => nan
  | inf _, inf _ => nan
  | inf s, fin t _ _ => inf (s != t)
  | fin s _ _, inf t => fin (s != t) 0 0
  | fin s m e, fin t n g =>
    if n = 0 then (if m = 0 then nan else inf (s != t))
    else
      let k := f.p + 2 + n.log2
      pack f (s != t) (m * 2 ^ k / n) (e - g - k) (decide (m * 2 ^ k % n ≠ 0))

/-- Newton iteration for the integer square root. -/
def isqrtLoop : ℕ → ℕ → ℕ → ℕ
  | 0, _, g => g
  | k + 1, n, g => if (g + n / g) / 2 < g then isqrtLoop k n ((g + n / g) / 2) else g

/-- Integer square root (the loop's result is used only if it is right). -/
def isqrt (n : ℕ) : ℕ :=
  let g := isqrtLoop 2000 n (2 ^ (n.log2 / 2 + 1))
  if g * g ≤ n ∧ n < (g + 1) * (g + 1) then g else Nat.sqrt n

theorem isqrt_spec (n : ℕ) : isqrt n * isqrt n ≤ n ∧ n < (isqrt n + 1) * (isqrt n + 1) := by
  unfold isqrt
  simp only
  split_ifs with h
  · exact h
  · exact ⟨Nat.sqrt_le n, Nat.lt_succ_sqrt n⟩

protected def sqrt : BF f → BF f
  | nan => nan
  | inf s => if s then nan else inf false
  | fin s m e =>
    if m = 0 then fin s m e
    else if s then nan
    else
      let k := 2 * f.p + 4 + (e % 2).toNat
      let N := isqrt (m * 2 ^ k)
      pack f false N ((e - k) / 2) (decide (N * N ≠ m * 2 ^ k))

/-- `±m * 2^e < ±n * 2^g` -/
def cmpLt (s : Bool) (m : ℕ) (e : ℤ) (t : Bool) (n : ℕ) (g : ℤ) : Bool :=
  decide (sg s (lift m e (min e g)) < sg t (lift n g (min e g)))

def cmpEq (s : Bool) (m : ℕ) (e : ℤ) (t : Bool) (n : ℕ) (g : ℤ) : Bool :=
  decide (sg s (lift m e (min e g)) = sg t (lift n g (min e g)))

protected def lt : BF f → BF f → Bool
  | nan, _ => false
  | _, nan => false
  | inf s, inf t => s && !t
  | inf s, fin _ _ _ => s
  | fin _ _ _, inf t => !t
  | fin s m e, fin t n g => cmpLt s m e t n g

protected def beq : BF f → BF f → Bool
  | nan, _ => false
  | _, nan => false
  | inf s, inf t => s == t
  | inf _, fin _ _ _ => false
  | fin _ _ _, inf _ => false
  | fin s m e, fin t n g => cmpEq s m e t n g

instance : Add (BF f) := ⟨BF.add⟩
instance : Neg (BF f) := ⟨BF.neg⟩
instance : Sub (BF f) := ⟨fun a b => BF.add a (BF.neg b)⟩
instance : Mul (BF f) := ⟨BF.mul⟩
instance : Div (BF f) := ⟨BF.div⟩
instance : Zero (BF f) := ⟨fin false 0 0⟩
instance : One (BF f) := ⟨fin false 1 0⟩
instance : RAbs (BF f) := ⟨BF.abs⟩
instance : ROrd (BF f) := ⟨BF.lt, fun a b => BF.lt a b || BF.beq a b, BF.beq⟩

theorem lift_eq {m : ℕ} {e E : ℤ} (h : E ≤ e) : (m : ℝ) * (2 : ℝ) ^ e = (lift m e E : ℕ) * (2 : ℝ) ^ E := by
  unfold lift
  push_cast
  rw [mul_assoc, ← zpow_natCast, Int.toNat_of_nonneg (by omega), ← zpow_add₀ (by norm_num)]
  congr 2; ring

theorem sgn_eq (s : Bool) {m : ℕ} {e E : ℤ} (h : E ≤ e) :
    Flt.sgn s ((m : ℝ) * (2 : ℝ) ^ e) = (sg s (lift m e E) : ℤ) * (2 : ℝ) ^ E := by
  rw [lift_eq h]
  cases s <;> simp [Flt.sgn, sg]

theorem den_neg {a : BF f} {x : Flt f} (h : Den a x) : Den (-a) (-x) := by
  rcases a with _ | s | ⟨s, m, e⟩ <;> rcases x with _ | t | ⟨t, y, hy⟩ <;>
    first | exact h.elim | trivial | (exact congrArg (!·) h) | exact ⟨congrArg (!·) h.1, h.2⟩

theorem den_abs {a : BF f} {x : Flt f} (h : Den a x) : Den (RAbs.abs a) (RAbs.abs x) := by
  rcases a with _ | s | ⟨s, m, e⟩ <;> rcases x with _ | t | ⟨t, y, hy⟩ <;>
    first | exact h.elim | trivial | exact rfl | exact ⟨rfl, h.2⟩

theorem den_zero : Den (0 : BF f) (0 : Flt f) := ⟨rfl, by simp⟩
theorem den_one : Den (1 : BF f) (1 : Flt f) := ⟨rfl, by simp⟩

theorem den_add {a b : BF f} {x y : Flt f} (ha : Den a x) (hb : Den b y) : Den (a + b) (x + y) := by
  rcases a with _ | s | ⟨s, m, e⟩ <;> rcases x with _ | s' | ⟨s', x, hx⟩ <;> first | exact ha.elim | skip
  all_goals
    rcases b with _ | t | ⟨t, n, g⟩ <;> rcases y with _ | t' | ⟨t', y, hy⟩ <;> first | exact hb.elim | skip
  all_goals try trivial
  · cases ha; cases hb
    change Den (if s = t then inf s else nan) (if s = t then Flt.inf s else Flt.nan)
    split_ifs <;> trivial
  · obtain ⟨rfl, rfl⟩ := ha
    obtain ⟨rfl, rfl⟩ := hb
    set E := min e g with hE
    set z := sg s (lift m e E) + sg t (lift n g E) with hz
    have hr : Flt.sgn s ((m : ℝ) * 2 ^ e) + Flt.sgn t ((n : ℝ) * 2 ^ g) = (z : ℝ) * (2 : ℝ) ^ E := by
      rw [sgn_eq s (min_le_left e g), sgn_eq t (min_le_right e g), hz]
      push_cast
      ring
    change Den (pack f (if z = 0 then s && t else decide (z < 0)) z.natAbs E false)
      (Flt.ofReal f (s && t) (Flt.sgn s ((m : ℝ) * 2 ^ e) + Flt.sgn t ((n : ℝ) * 2 ^ g)))
    rw [hr]
    unfold Flt.ofReal
    have hE2 : (0 : ℝ) < (2 : ℝ) ^ E := by positivity
    have e1 : |(z : ℝ) * (2 : ℝ) ^ E| = (z.natAbs : ℝ) * (2 : ℝ) ^ E := by
      rw [abs_mul, abs_of_pos hE2, Nat.cast_natAbs, Int.cast_abs]
    have e2 : ((z : ℝ) * (2 : ℝ) ^ E = 0) ↔ z = 0 := by simp [hE2.ne']
    have e3 : ((z : ℝ) * (2 : ℝ) ^ E < 0) ↔ z < 0 := by
      rw [mul_neg_iff]
      constructor
      · rintro (⟨-, h⟩ | ⟨h, -⟩)
        · linarith
        · exact_mod_cast h
      · intro h
        exact Or.inr ⟨by exact_mod_cast h, hE2⟩
    rw [e1]
    simp only [e2, e3]
    convert den_pack_exact (f := f) (if z = 0 then s && t else decide (z < 0)) z.natAbs E

theorem den_sub {a b : BF f} {x y : Flt f} (ha : Den a x) (hb : Den b y) : Den (a - b) (x - y) :=
  den_add ha (den_neg hb)

theorem den_mul {a b : BF f} {x y : Flt f} (ha : Den a x) (hb : Den b y) : Den (a * b) (x * y) := by
  have zero_iff (n : ℕ) (g : ℤ) : ((n : ℝ) * 2 ^ g = 0) ↔ n = 0 := by
    have : (2 : ℝ) ^ g ≠ 0 := by positivity
    simp [this]
  rcases a with _ | s | ⟨s, m, e⟩ <;> rcases x with _ | s' | ⟨s', x, hx⟩ <;> first | exact ha.elim | skip
  all_goals
    rcases b with _ | t | ⟨t, n, g⟩ <;> rcases y with _ | t' | ⟨t', y, hy⟩ <;> first | exact hb.elim | skip
  all_goals try trivial
  · cases ha; cases hb; rfl
  · cases ha; obtain ⟨rfl, rfl⟩ := hb
    change Den (if n = 0 then nan else inf (s != t)) (@ite _ _ (_) Flt.nan (Flt.inf (s != t)))
    by_cases h : n = 0
    · rw [if_pos h, if_pos ((zero_iff n g).2 h)]; trivial
    · rw [if_neg h, if_neg (fun h' => h ((zero_iff n g).1 h'))]; rfl
  · cases hb; obtain ⟨rfl, rfl⟩ := ha
    change Den (if m = 0 then nan else inf (s != t)) (@ite _ _ (_) Flt.nan (Flt.inf (s != t)))
    by_cases h : m = 0
    · rw [if_pos h, if_pos ((zero_iff m e).2 h)]; trivial
    · rw [if_neg h, if_neg (fun h' => h ((zero_iff m e).1 h'))]; rfl
  · obtain ⟨rfl, rfl⟩ := ha
    obtain ⟨rfl, rfl⟩ := hb
    have := den_pack_exact (f := f) (s != t) (m * n) (e + g)
    rwa [Nat.cast_mul, zpow_add₀ (by norm_num), mul_mul_mul_comm] at this

private theorem div_bounds {A n : ℕ} (hn : n ≠ 0) : ((A / n : ℕ) : ℝ) ≤ (A : ℝ) / n ∧ (A : ℝ) / n < ((A / n : ℕ) : ℝ) + 1 ∧
    (decide (A % n ≠ 0) = false ↔ (A : ℝ) / n = ((A / n : ℕ) : ℝ)) := by
  have hn' : (0 : ℝ) < n := by exact_mod_cast Nat.pos_of_ne_zero hn
  have h := Nat.div_add_mod A n
  have h' : (n : ℝ) * (A / n : ℕ) + (A % n : ℕ) = A := by exact_mod_cast h
  have hm : ((A % n : ℕ) : ℝ) < n := by exact_mod_cast Nat.mod_lt A (Nat.pos_of_ne_zero hn)
  have hm0 : (0 : ℝ) ≤ ((A % n : ℕ) : ℝ) := by positivity
  refine ⟨?_, ?_, ?_⟩
  · rw [le_div_iff₀ hn']; linarith
  · rw [div_lt_iff₀ hn']; linarith
  · rw [div_eq_iff hn'.ne', decide_eq_false_iff_not, not_not]
    constructor
    · intro h0
      rw [h0] at h'
      push_cast at h'
      linarith
    · intro h0
      have : ((A % n : ℕ) : ℝ) = 0 := by linarith
      exact_mod_cast this

theorem den_div {a b : BF f} {x y : Flt f} (ha : Den a x) (hb : Den b y) : Den (a / b) (x / y) := by
  have zero_iff (n : ℕ) (g : ℤ) : ((n : ℝ) * 2 ^ g = 0) ↔ n = 0 := by
    have : (2 : ℝ) ^ g ≠ 0 := by positivity
    simp [this]
  rcases a with _ | s | ⟨s, m, e⟩ <;> rcases x with _ | s' | ⟨s', x, hx⟩ <;> first | exact ha.elim | skip
  all_goals
    rcases b with _ | t | ⟨t, n, g⟩ <;> rcases y with _ | t' | ⟨t', y, hy⟩ <;> first | exact hb.elim | skip
  all_goals try trivial
  · cases ha; obtain ⟨rfl, rfl⟩ := hb; rfl
  · cases hb; obtain ⟨rfl, rfl⟩ := ha; exact ⟨rfl, by simp⟩
  · obtain ⟨rfl, rfl⟩ := ha
    obtain ⟨rfl, rfl⟩ := hb
    set k := f.p + 2 + n.log2 with hk
    change Den (if n = 0 then (if m = 0 then nan else inf (s != t)) else
        pack f (s != t) (m * 2 ^ k / n) (e - g - k) (decide (m * 2 ^ k % n ≠ 0)))
      (@ite _ _ (_) (@ite _ _ (_) Flt.nan (Flt.inf (s != t))) (Flt.pack f (s != t) ((m : ℝ) * 2 ^ e / ((n : ℝ) * 2 ^ g))))
    by_cases hn : n = 0
    · rw [if_pos hn, if_pos ((zero_iff n g).2 hn)]
      by_cases h : m = 0
      · rw [if_pos h, if_pos ((zero_iff m e).2 h)]; trivial
      · rw [if_neg h, if_neg (fun h' => h ((zero_iff m e).1 h'))]; rfl
    · rw [if_neg hn, if_neg (fun h' => hn ((zero_iff n g).1 h'))]
      obtain ⟨b1, b2, b3⟩ := div_bounds (A := m * 2 ^ k) hn
      have hv : (m : ℝ) * 2 ^ e / ((n : ℝ) * 2 ^ g) = ((m * 2 ^ k : ℕ) : ℝ) / n * (2 : ℝ) ^ (e - g - k) := by
        rw [zpow_sub₀ (by norm_num), zpow_sub₀ (by norm_num), zpow_natCast]
        push_cast
        field_simp
      have hz : (0 : ℝ) < (2 : ℝ) ^ (e - g - k : ℤ) := by positivity
      rw [hv]
      refine den_pack _ (mul_le_mul_of_nonneg_right b1 hz.le) (mul_lt_mul_of_pos_right b2 hz)
        (b3.trans ⟨fun h => by rw [h], fun h => mul_right_cancel₀ hz.ne' h⟩) ?_
      by_cases hm : m = 0
      · left; subst hm; simp
      · right
        rw [Nat.le_div_iff_mul_le (Nat.pos_of_ne_zero hn)]
        have hl := (Nat.lt_log2_self (n := n)).le
        calc 2 ^ (f.p + 1) * n ≤ 2 ^ (f.p + 1) * 2 ^ (n.log2 + 1) := Nat.mul_le_mul_left _ hl
          _ = 2 ^ k := by rw [← pow_add]; congr 1; omega
          _ ≤ m * 2 ^ k := Nat.le_mul_of_pos_left _ (Nat.pos_of_ne_zero hm)

theorem den_sqrt {a : BF f} {x : Flt f} (h : Den a x) : Den (BF.sqrt a) (Flt.sqrt x) := by
  rcases a with _ | s | ⟨s, m, e⟩ <;> rcases x with _ | t | ⟨t, y, hy⟩ <;> first | exact h.elim | trivial | skip
  · cases h
    cases s <;> trivial
  · obtain ⟨rfl, rfl⟩ := h
    have hz : ((m : ℝ) * 2 ^ e = 0) ↔ m = 0 := by
      have : (2 : ℝ) ^ e ≠ 0 := by positivity
      simp [this]
    unfold BF.sqrt Flt.sqrt
    simp only
    by_cases hm : m = 0
    · rw [if_pos hm, if_pos (hz.2 hm)]; exact ⟨rfl, rfl⟩
    rw [if_neg hm, if_neg (fun h => hm (hz.1 h))]
    cases s
    swap
    · trivial
    simp only [Bool.false_eq_true, if_false]
    set k := 2 * f.p + 4 + (e % 2).toNat with hk
    set A := m * 2 ^ k with hA
    obtain ⟨s1, s2⟩ := isqrt_spec A
    set N := isqrt A
    have hev : e - k = 2 * ((e - k) / 2) := by
      have : (e - k) % 2 = 0 := by omega
      omega
    set g := (e - (k : ℤ)) / 2 with hg
    have hpos : (0 : ℝ) < (2 : ℝ) ^ g := by positivity
    have hv : (m : ℝ) * 2 ^ e = (A : ℝ) * ((2 : ℝ) ^ g) ^ 2 := by
      have : e = k + (g + g) := by omega
      rw [this, zpow_add₀ (by norm_num), zpow_add₀ (by norm_num), zpow_natCast, hA]
      push_cast
      ring
    have hsq : √((m : ℝ) * 2 ^ e) = √(A : ℝ) * (2 : ℝ) ^ g := by
      rw [hv, Real.sqrt_mul (by positivity), Real.sqrt_sq hpos.le]
    have r1 : (N : ℝ) ≤ √(A : ℝ) := Real.le_sqrt_of_sq_le (by rw [sq]; exact_mod_cast s1)
    have r2 : √(A : ℝ) < N + 1 := by
      rw [Real.sqrt_lt' (by positivity), sq]
      exact_mod_cast s2
    have r3 : decide (N * N ≠ A) = false ↔ √(A : ℝ) = N := by
      rw [decide_eq_false_iff_not, not_not, Real.sqrt_eq_iff_mul_self_eq (by positivity) (by positivity)]
      constructor
      · intro h; exact_mod_cast h.symm
      · intro h; exact_mod_cast h.symm
    rw [hsq]
    refine den_pack _ (mul_le_mul_of_nonneg_right r1 hpos.le) (mul_lt_mul_of_pos_right r2 hpos)
      (r3.trans ⟨fun h => by rw [h], fun h => mul_right_cancel₀ hpos.ne' h⟩) (Or.inr ?_)
    by_contra hc
    push Not at hc
    have h1 : (N + 1) * (N + 1) ≤ 2 ^ (f.p + 1) * 2 ^ (f.p + 1) := Nat.mul_le_mul hc hc
    have h2 : 2 ^ (f.p + 1) * 2 ^ (f.p + 1) ≤ 2 ^ k := by
      rw [← pow_add]; exact Nat.pow_le_pow_right (by norm_num) (by omega)
    have h3 : 2 ^ k ≤ A := Nat.le_mul_of_pos_left _ (Nat.pos_of_ne_zero hm)
    omega

theorem lt_eq {a b : BF f} {x y : Flt f} (ha : Den a x) (hb : Den b y) : ROrd.lt a b = ROrd.lt x y := by
  rcases a with _ | s | ⟨s, m, e⟩ <;> rcases x with _ | s' | ⟨s', x, hx⟩ <;> first | exact ha.elim | skip
  all_goals
    rcases b with _ | t | ⟨t, n, g⟩ <;> rcases y with _ | t' | ⟨t', y, hy⟩ <;> first | exact hb.elim | skip
  all_goals try rfl
  · cases ha; cases hb; rfl
  · cases ha; rfl
  · cases hb; rfl
  · obtain ⟨rfl, rfl⟩ := ha
    obtain ⟨rfl, rfl⟩ := hb
    change cmpLt s m e t n g = @decide _ (_)
    rw [cmpLt, decide_eq_decide, sgn_eq s (min_le_left e g), sgn_eq t (min_le_right e g),
      mul_lt_mul_iff_left₀ (by positivity), Int.cast_lt]

theorem beq_eq {a b : BF f} {x y : Flt f} (ha : Den a x) (hb : Den b y) : ROrd.beq a b = ROrd.beq x y := by
  rcases a with _ | s | ⟨s, m, e⟩ <;> rcases x with _ | s' | ⟨s', x, hx⟩ <;> first | exact ha.elim | skip
  all_goals
    rcases b with _ | t | ⟨t, n, g⟩ <;> rcases y with _ | t' | ⟨t', y, hy⟩ <;> first | exact hb.elim | skip
  all_goals try rfl
  · cases ha; cases hb; rfl
  · obtain ⟨rfl, rfl⟩ := ha
    obtain ⟨rfl, rfl⟩ := hb
    have hp : (2 : ℝ) ^ (min e g) ≠ 0 := by positivity
    change cmpEq s m e t n g = @decide _ (_)
    rw [cmpEq, decide_eq_decide, sgn_eq s (min_le_left e g), sgn_eq t (min_le_right e g), mul_left_inj' hp, Int.cast_inj]

theorem le_eq {a b : BF f} {x y : Flt f} (ha : Den a x) (hb : Den b y) : ROrd.le a b = ROrd.le x y := by
  have h1 := lt_eq ha hb
  have h2 := beq_eq ha hb
  change (ROrd.lt a b || ROrd.beq a b) = (ROrd.lt x y || ROrd.beq x y)
  rw [h1, h2]

end BF
end StaticMath
