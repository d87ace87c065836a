import Mathlib.Data.Int.Log
import Mathlib.Algebra.Order.Field.Power
import Mathlib.Analysis.Real.Sqrt
import Mathlib.Algebra.Order.Floor.Ring
import Mathlib.Tactic.Linarith
import Mathlib.Tactic.Ring
import Mathlib.Tactic.NormNum
import Mathlib.Tactic.Positivity
import Mathlib.Tactic.FieldSimp

/-!
# Binary floating point formats and rounding to nearest, ties to even

The part of IEEE 754 that `f32`/`f64` arithmetic in Rust is specified by. Not modelled: NaN sign and
payload, exception flags.
-/

namespace StaticMath

/-- A binary interchange format: precision, least and greatest exponent of a normal number. -/
structure Fmt where
  p : ℕ
  emin : ℤ
  emax : ℤ
  hp : 2 ≤ p
  hmin : emin ≤ -(p : ℤ)
  hmax : (p : ℤ) ≤ emax

/-- `f32` -/
def Fmt.f32 : Fmt := ⟨24, -126, 127, by norm_num, by norm_num, by norm_num⟩
/-- `f64` -/
def Fmt.f64 : Fmt := ⟨53, -1022, 1023, by norm_num, by norm_num, by norm_num⟩

namespace Fmt
variable (f : Fmt)

/-- The magnitudes that the format can represent: `m * 2^e` with `m < 2^p` and `e` in range. -/
def Rep (x : ℝ) : Prop :=
  ∃ (m : ℕ) (e : ℤ), x = m * (2 : ℝ) ^ e ∧ m < 2 ^ f.p ∧ f.emin - f.p + 1 ≤ e ∧ e + f.p ≤ f.emax + 1

end Fmt

/-- Nearest integer, ties to even. -/
noncomputable def rne (x : ℝ) : ℤ :=
  if Int.fract x < 1 / 2 then ⌊x⌋
  else if 1 / 2 < Int.fract x then ⌊x⌋ + 1
  else if Even ⌊x⌋ then ⌊x⌋ else ⌊x⌋ + 1

namespace Fmt
variable (f : Fmt)

/-- Exponent used for the magnitude `x`: that of its leading bit, at least `emin`. -/
noncomputable def expo (x : ℝ) : ℤ := max (Int.log 2 x) f.emin

/-- Unit in the last place at the magnitude `x`. -/
noncomputable def ulp (x : ℝ) : ℝ := (2 : ℝ) ^ (f.expo x - f.p + 1)

/-- The magnitude `x` rounded with unbounded exponent above. -/
noncomputable def rnd (x : ℝ) : ℝ := rne (x / f.ulp x) * f.ulp x

/-- The unit roundoff. -/
noncomputable def u : ℝ := (2 : ℝ) ^ (-(f.p : ℤ))

/-- Half the smallest positive number. -/
noncomputable def eta : ℝ := (2 : ℝ) ^ (f.emin - f.p)

end Fmt

theorem rne_cases (x : ℝ) : rne x = ⌊x⌋ ∨ rne x = ⌊x⌋ + 1 := by
  unfold rne
  split_ifs <;> simp

theorem rne_int (n : ℤ) : rne (n : ℝ) = n := by
  unfold rne
  rw [Int.fract_intCast, if_pos (by norm_num), Int.floor_intCast]

theorem le_rne {x : ℝ} {n : ℤ} (h : (n : ℝ) ≤ x) : n ≤ rne x := by
  have h1 : n ≤ ⌊x⌋ := Int.le_floor.2 h
  rcases rne_cases x with h2 | h2 <;> omega

theorem rne_le {x : ℝ} {n : ℤ} (h : x ≤ (n : ℝ)) : rne x ≤ n := by
  rcases h.eq_or_lt with h1 | h1
  · rw [h1, rne_int]
  · have h2 : ⌊x⌋ < n := Int.floor_lt.2 h1
    rcases rne_cases x with h3 | h3 <;> omega

theorem abs_rne_sub (x : ℝ) : |(rne x : ℝ) - x| ≤ 1 / 2 := by
  have h1 := Int.floor_add_fract x
  have h2 := Int.fract_nonneg x
  have h3 := Int.fract_lt_one x
  unfold rne
  split_ifs with h4 h5 h6
  · rw [abs_le]; constructor <;> linarith
  · rw [abs_le]; push_cast; constructor <;> linarith
  · rw [abs_le]; constructor <;> linarith
  · rw [abs_le]; push_cast; constructor <;> linarith

theorem rne_mono {x y : ℝ} (h : x ≤ y) : rne x ≤ rne y := by
  by_cases hf : ⌊x⌋ = ⌊y⌋
  · have hx := Int.floor_add_fract x
    have hy := Int.floor_add_fract y
    have hfr : Int.fract x ≤ Int.fract y := by
      rw [← hf] at hy; linarith
    unfold rne
    rw [hf]
    split_ifs <;> first | omega | (exfalso; linarith)
  · have h1 : ⌊x⌋ ≤ ⌊y⌋ := Int.floor_le_floor h
    have h2 : ⌊x⌋ + 1 ≤ ⌊y⌋ := by omega
    rcases rne_cases x with h3 | h3 <;> rcases rne_cases y with h4 | h4 <;> omega

namespace Fmt
variable (f : Fmt)

theorem ulp_pos (x : ℝ) : 0 < f.ulp x := by unfold ulp; positivity

theorem u_pos : 0 < f.u := by unfold u; positivity

theorem eta_pos : 0 < f.eta := by unfold eta; positivity

theorem u_le : f.u ≤ 1 / 4 := by
  unfold u
  rw [zpow_neg, zpow_natCast]
  have h : (2 : ℝ) ^ 2 ≤ 2 ^ f.p := pow_le_pow_right₀ (by norm_num) f.hp
  rw [inv_le_comm₀ (by positivity) (by norm_num)]
  norm_num at h ⊢
  exact h

theorem Rep.nonneg {f : Fmt} {x : ℝ} (h : f.Rep x) : 0 ≤ x := by
  obtain ⟨m, e, rfl, -⟩ := h
  positivity

theorem rnd_zero : f.rnd 0 = 0 := by
  unfold rnd
  have : rne (0 : ℝ) = 0 := by exact_mod_cast rne_int 0
  rw [zero_div, this, Int.cast_zero, zero_mul]

theorem rnd_nonneg {x : ℝ} (hx : 0 ≤ x) : 0 ≤ f.rnd x := by
  unfold rnd
  have h : (0 : ℤ) ≤ rne (x / f.ulp x) := le_rne (by push_cast; exact div_nonneg hx (f.ulp_pos x).le)
  exact mul_nonneg (by exact_mod_cast h) (f.ulp_pos x).le

theorem lt_expo {x : ℝ} : x < (2 : ℝ) ^ (f.expo x + 1) := by
  have h : x < (2 : ℝ) ^ (Int.log 2 x + 1) := by
    have := Int.lt_zpow_succ_log_self (b := 2) (by norm_num) x
    exact_mod_cast this
  refine h.trans_le (zpow_le_zpow_right₀ (by norm_num) ?_)
  unfold expo
  have := le_max_left (Int.log 2 x) f.emin
  omega

theorem log_le {x : ℝ} (hx : 0 < x) : (2 : ℝ) ^ Int.log 2 x ≤ x := by
  exact_mod_cast Int.zpow_log_le_self (b := 2) (by norm_num) hx

theorem two_zpow_ne (e : ℤ) : (2 : ℝ) ^ e ≠ 0 := by positivity

/-- `x / ulp x < 2^p` -/
theorem div_ulp_lt (x : ℝ) : x / f.ulp x < 2 ^ f.p := by
  rw [div_lt_iff₀ (f.ulp_pos x)]
  refine f.lt_expo.trans_le (le_of_eq ?_)
  unfold ulp
  rw [← zpow_natCast, ← zpow_add₀ (by norm_num)]
  congr 1
  ring

/-- `2^(p-1) ≤ x / ulp x` for normal `x` -/
theorem le_div_ulp {x : ℝ} (hx : 0 < x) (h : f.emin < Int.log 2 x) : (2 : ℝ) ^ (f.p - 1) ≤ x / f.ulp x := by
  rw [le_div_iff₀ (f.ulp_pos x)]
  refine le_trans (le_of_eq ?_) (log_le hx)
  have hp := f.hp
  unfold ulp expo
  rw [max_eq_left h.le, ← zpow_natCast, ← zpow_add₀ (by norm_num)]
  congr 1
  push_cast [Nat.cast_sub (by omega : 1 ≤ f.p)]
  ring

/-- Rounding yields a representable number unless it overflows. -/
theorem rep_rnd {x : ℝ} (hx : 0 ≤ x) (h : f.rnd x < (2 : ℝ) ^ (f.emax + 1)) : f.Rep (f.rnd x) := by
  have hp := f.hp
  have hmin := f.hmin
  have hmax := f.hmax
  have hn0 : (0 : ℤ) ≤ rne (x / f.ulp x) := le_rne (by push_cast; exact div_nonneg hx (f.ulp_pos x).le)
  have hnp : rne (x / f.ulp x) ≤ ((2 ^ f.p : ℕ) : ℤ) :=
    rne_le (by push_cast; exact (f.div_ulp_lt x).le)
  obtain ⟨n, hn⟩ : ∃ n : ℕ, (n : ℤ) = rne (x / f.ulp x) := ⟨_, Int.toNat_of_nonneg hn0⟩
  have hr : f.rnd x = (n : ℝ) * (2 : ℝ) ^ (f.expo x - f.p + 1) := by
    unfold rnd ulp at *
    rw [← hn]
    push_cast
    rfl
  have hge : f.emin ≤ f.expo x := le_max_right _ _
  rcases Nat.eq_zero_or_pos n with h0 | h0
  · rw [hr, h0]
    exact ⟨0, f.emin - f.p + 1, by simp, by positivity, le_rfl, by omega⟩
  have hle : n ≤ 2 ^ f.p := by rw [← hn] at hnp; exact_mod_cast hnp
  -- the exponent is in range
  have he : f.expo x ≤ f.emax := by
    by_cases hc : Int.log 2 x ≤ f.emin
    · unfold expo
      rw [max_eq_right hc]
      omega
    · push Not at hc
      have hxp : 0 < x := by
        rcases hx.eq_or_lt with h1 | h1
        · exfalso
          have : rne (x / f.ulp x) = 0 := by
            rw [← h1, zero_div]; exact_mod_cast rne_int 0
          omega
        · exact h1
      have h1 : ((2 ^ (f.p - 1) : ℕ) : ℤ) ≤ rne (x / f.ulp x) :=
        le_rne (by push_cast; exact f.le_div_ulp hxp hc)
      have h2 : 2 ^ (f.p - 1) ≤ n := by rw [← hn] at h1; exact_mod_cast h1
      have h3 : (2 : ℝ) ^ f.expo x ≤ f.rnd x := by
        rw [hr]
        calc (2 : ℝ) ^ f.expo x = ((2 ^ (f.p - 1) : ℕ) : ℝ) * (2 : ℝ) ^ (f.expo x - f.p + 1) := by
              push_cast
              rw [← zpow_natCast, ← zpow_add₀ (by norm_num)]
              congr 1
              push_cast [Nat.cast_sub (by omega : 1 ≤ f.p)]
              ring
          _ ≤ _ := by
              refine mul_le_mul_of_nonneg_right ?_ (by positivity)
              exact_mod_cast h2
      have h4 := h3.trans_lt h
      rw [zpow_lt_zpow_iff_right₀ (by norm_num)] at h4
      omega
  rcases hle.lt_or_eq with h1 | h1
  · exact ⟨n, _, hr, h1, by omega, by omega⟩
  · have hr2 : f.rnd x = (2 : ℝ) ^ (f.expo x + 1) := by
      rw [hr, h1]
      push_cast
      rw [← zpow_natCast, ← zpow_add₀ (by norm_num)]
      congr 1
      ring
    rw [hr2, zpow_lt_zpow_iff_right₀ (by norm_num)] at h
    refine ⟨2 ^ (f.p - 1), f.expo x - f.p + 2, ?_, ?_, by omega, by omega⟩
    · rw [hr2]
      push_cast
      rw [← zpow_natCast, ← zpow_add₀ (by norm_num)]
      congr 1
      push_cast [Nat.cast_sub (by omega : 1 ≤ f.p)]
      ring
    · exact Nat.pow_lt_pow_right (by norm_num) (by omega)

theorem ulp_exp_le {x : ℝ} (hx : 0 < x) {m : ℕ} {e : ℤ} (h : x = m * (2 : ℝ) ^ e) (hm : m < 2 ^ f.p)
    (he : f.emin - f.p + 1 ≤ e) : f.expo x - f.p + 1 ≤ e := by
  have h1 : x < (2 : ℝ) ^ (e + f.p) := by
    rw [h, zpow_add₀ (by norm_num), mul_comm]
    refine mul_lt_mul_of_pos_left ?_ (by positivity)
    rw [zpow_natCast]
    exact_mod_cast hm
  have h2 := (log_le hx).trans_lt h1
  rw [zpow_lt_zpow_iff_right₀ (by norm_num)] at h2
  unfold expo
  rcases max_cases (Int.log 2 x) f.emin with ⟨h3, -⟩ | ⟨h3, -⟩ <;> omega

/-- Representable numbers are not changed by rounding. -/
theorem rnd_rep {x : ℝ} (h : f.Rep x) : f.rnd x = x := by
  rcases h.nonneg.eq_or_lt with h0 | hx
  · rw [← h0, rnd_zero]
  obtain ⟨m, e, hm, hlt, he, -⟩ := h
  have hle := f.ulp_exp_le hx hm hlt he
  obtain ⟨k, hk⟩ := Int.eq_ofNat_of_zero_le (sub_nonneg.2 hle)
  have hdiv : x / f.ulp x = (((m * 2 ^ k : ℕ) : ℤ) : ℝ) := by
    rw [div_eq_iff (f.ulp_pos x).ne']
    unfold ulp
    push_cast
    rw [mul_assoc, ← zpow_natCast, ← zpow_add₀ (by norm_num), ← hk, sub_add_cancel]
    exact hm
  unfold rnd
  rw [hdiv, rne_int, ← hdiv, div_mul_cancel₀ _ (f.ulp_pos x).ne']

theorem abs_rnd_sub (x : ℝ) : |f.rnd x - x| ≤ f.ulp x / 2 := by
  have h := abs_rne_sub (x / f.ulp x)
  have hu := f.ulp_pos x
  have e : f.rnd x - x = (rne (x / f.ulp x) - x / f.ulp x) * f.ulp x := by
    unfold rnd
    field_simp
  rw [e, abs_mul, abs_of_pos hu]
  nlinarith

/-- Relative error in the normal range. -/
theorem rnd_rel {x : ℝ} (hx : (2 : ℝ) ^ f.emin ≤ x) : |f.rnd x - x| ≤ f.u * x := by
  have hx0 : 0 < x := lt_of_lt_of_le (by positivity) hx
  have hlog : f.emin ≤ Int.log 2 x := by
    have h := f.lt_expo (x := x)
    by_contra hc
    push Not at hc
    have h1 : x < (2 : ℝ) ^ (Int.log 2 x + 1) := by
      exact_mod_cast Int.lt_zpow_succ_log_self (b := 2) (by norm_num) x
    have h2 := hx.trans_lt h1
    rw [zpow_lt_zpow_iff_right₀ (by norm_num)] at h2
    omega
  refine (f.abs_rnd_sub x).trans ?_
  have e : f.ulp x / 2 = f.u * (2 : ℝ) ^ Int.log 2 x := by
    unfold ulp u expo
    rw [max_eq_left hlog, ← zpow_add₀ (by norm_num), div_eq_iff (by norm_num),
      ← zpow_add_one₀ (by norm_num)]
    congr 1
    ring
  rw [e]
  exact mul_le_mul_of_nonneg_left (log_le hx0) f.u_pos.le

/-- Error in every range. -/
theorem rnd_err {x : ℝ} (hx : 0 ≤ x) : |f.rnd x - x| ≤ f.u * x + f.eta := by
  by_cases h : (2 : ℝ) ^ f.emin ≤ x
  · have := f.rnd_rel h
    have := f.eta_pos
    linarith
  · push Not at h
    rcases hx.eq_or_lt with h0 | h0
    · rw [← h0, rnd_zero, sub_zero, abs_zero, mul_zero, zero_add]
      exact f.eta_pos.le
    have hlog : Int.log 2 x ≤ f.emin := by
      have := (log_le h0).trans_lt h
      rw [zpow_lt_zpow_iff_right₀ (by norm_num)] at this
      exact this.le
    refine (f.abs_rnd_sub x).trans ?_
    have e : f.ulp x / 2 = f.eta := by
      unfold ulp eta expo
      rw [max_eq_right hlog, div_eq_iff (by norm_num), ← zpow_add_one₀ (by norm_num)]
    rw [e]
    have := mul_nonneg f.u_pos.le hx
    linarith

/-- Below half the smallest positive number everything rounds to zero. -/
theorem rnd_eq_zero {x : ℝ} (hx : 0 ≤ x) (h : x < f.eta) : f.rnd x = 0 := by
  rcases hx.eq_or_lt with h0 | h0
  · rw [← h0, rnd_zero]
  have hlog : Int.log 2 x ≤ f.emin := by
    have := (log_le h0).trans_lt h
    unfold eta at this
    rw [zpow_lt_zpow_iff_right₀ (by norm_num)] at this
    have := f.hp
    omega
  have e : f.ulp x = 2 * f.eta := by
    unfold ulp eta expo
    rw [max_eq_right hlog, mul_comm, ← zpow_add_one₀ (by norm_num)]
  have hlt : x / f.ulp x < 1 / 2 := by
    rw [e, div_lt_iff₀ (by have := f.eta_pos; linarith)]
    linarith
  have h0' : 0 ≤ x / f.ulp x := div_nonneg hx (f.ulp_pos x).le
  have hfl : ⌊x / f.ulp x⌋ = 0 := Int.floor_eq_iff.2 ⟨by push_cast; exact h0', by push_cast; linarith⟩
  have hfr : Int.fract (x / f.ulp x) = x / f.ulp x := by
    rw [Int.fract, hfl]; simp
  unfold rnd rne
  rw [hfr, if_pos hlt, hfl]
  simp

theorem rep_mul_ulp {x : ℝ} (h : f.Rep x) : ∃ k : ℕ, x = k * (2 : ℝ) ^ (f.emin - f.p + 1) := by
  obtain ⟨m, e, hm, -, he, -⟩ := h
  obtain ⟨k, hk⟩ := Int.eq_ofNat_of_zero_le (sub_nonneg.2 he)
  refine ⟨m * 2 ^ k, ?_⟩
  push_cast
  rw [mul_assoc, ← zpow_natCast, ← zpow_add₀ (by norm_num), hm]
  congr 2
  rw [← hk]
  ring

theorem rep_zero : f.Rep 0 := by
  have := f.hmin
  have := f.hmax
  exact ⟨0, f.emin - f.p + 1, by simp, by positivity, le_rfl, by omega⟩

/-- Powers of two in range. -/
theorem rep_two_zpow (e : ℤ) (h1 : f.emin - f.p + 1 ≤ e) (h2 : e ≤ f.emax) : f.Rep ((2 : ℝ) ^ e) := by
  have hp := f.hp
  have hmin := f.hmin
  have hmax := f.hmax
  by_cases h : e + f.p ≤ f.emax + 1
  · exact ⟨1, e, by simp, Nat.one_lt_two_pow (by omega), h1, h⟩
  · refine ⟨2 ^ (f.p - 1), e - f.p + 1, ?_, Nat.pow_lt_pow_right (by norm_num) (by omega), by omega, by omega⟩
    push_cast
    rw [← zpow_natCast, ← zpow_add₀ (by norm_num)]
    congr 1
    push_cast [Nat.cast_sub (by omega : 1 ≤ f.p)]
    ring

theorem Rep.lt {f : Fmt} {x : ℝ} (h : f.Rep x) : x < (2 : ℝ) ^ (f.emax + 1) := by
  obtain ⟨m, e, rfl, hm, -, he⟩ := h
  calc (m : ℝ) * 2 ^ e < (2 : ℝ) ^ (f.p : ℤ) * 2 ^ e := by
        refine mul_lt_mul_of_pos_right ?_ (by positivity)
        rw [zpow_natCast]
        exact_mod_cast hm
    _ = (2 : ℝ) ^ (e + f.p) := by rw [← zpow_add₀ (by norm_num), add_comm]
    _ ≤ _ := zpow_le_zpow_right₀ (by norm_num) he

end Fmt

end StaticMath
