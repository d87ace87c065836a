import Verif.Ieee.ExprBounds
import Mathlib.Analysis.Real.Sqrt
import Mathlib.Analysis.InnerProductSpace.PiL2

/-!
# Square roots, quotients and norms in floating point
-/

namespace StaticMath
namespace Flt
variable {f : Fmt} {n : ℕ}

/-- Square roots never under- or overflow. -/
theorem sqrt_rel {a : Flt f} (ha : a.IsFin) (h0 : 0 ≤ a.toReal) :
    (sqrt a).IsFin ∧ |(sqrt a).toReal - √a.toReal| ≤ f.u * √a.toReal ∧ 0 ≤ (sqrt a).toReal := by
  have hu := f.u_pos
  rcases a with _ | s | ⟨s, x, hx⟩
  · exact absurd ha id
  · exact absurd ha id
  by_cases hx0 : x = 0
  · have e : sqrt (fin s x hx) = fin s x hx := if_pos hx0
    have e2 : (fin s x hx : Flt f).toReal = 0 := by cases s <;> simp [toReal, sgn, hx0]
    rw [e, e2]
    exact ⟨trivial, by simp, le_rfl⟩
  have hx1 : 0 < x := lt_of_le_of_ne hx.nonneg (Ne.symm hx0)
  have hs : s = false := by
    cases s
    · rfl
    · have : -x ≥ 0 := h0
      linarith
  subst hs
  have e : sqrt (fin false x hx) = pack f false (√x) := (if_neg hx0).trans rfl
  have e2 : (fin false x hx : Flt f).toReal = x := rfl
  have hlow : (2 : ℝ) ^ f.emin ≤ √x := by
    apply Real.le_sqrt_of_sq_le
    obtain ⟨k, hk⟩ := f.rep_mul_ulp hx
    have hk1 : (1 : ℝ) ≤ k := by
      rcases Nat.eq_zero_or_pos k with h | h
      · rw [h] at hk; simp at hk; exact absurd hk hx0
      · exact_mod_cast h
    rw [hk, ← zpow_natCast, ← zpow_mul]
    calc (2 : ℝ) ^ (f.emin * (2 : ℕ)) ≤ 2 ^ (f.emin - f.p + 1) :=
          zpow_le_zpow_right₀ (by norm_num) (by have := f.hmin; push_cast; omega)
      _ = 1 * 2 ^ (f.emin - f.p + 1) := (one_mul _).symm
      _ ≤ _ := mul_le_mul_of_nonneg_right hk1 (by positivity)
  have hfin : (pack f false (√x)).IsFin := by
    apply pack_isFin (Real.sqrt_nonneg _)
    have h2 : √x < (2 : ℝ) ^ (f.emax) := by
      rw [Real.sqrt_lt' (by positivity), ← zpow_natCast, ← zpow_mul]
      refine hx.lt.trans_le (zpow_le_zpow_right₀ (by norm_num) ?_)
      have := f.hmax; have := f.hp; push_cast; omega
    have h3 : (1 + f.u) ≤ 2 := by have := f.u_le; linarith
    calc (1 + f.u) * √x ≤ 2 * √x := mul_le_mul_of_nonneg_right h3 (Real.sqrt_nonneg _)
      _ < 2 * 2 ^ f.emax := by linarith
      _ = _ := by rw [zpow_add₀ (by norm_num), zpow_one, mul_comm]
  obtain ⟨hr, e3⟩ := pack_fin hfin
  rw [e, e2]
  refine ⟨hfin, ?_, ?_⟩
  · rw [e3]; exact f.rnd_rel hlow
  · rw [e3]; exact hr.nonneg

/-- Quotients in every range. -/
theorem div_err {a b : Flt f} (hb : b.IsFin) (h : (a / b).IsFin) :
    b.toReal ≠ 0 ∧ |(a / b).toReal - a.toReal / b.toReal| ≤ f.u * |a.toReal / b.toReal| + f.eta := by
  change (div a b).IsFin at h
  rcases b with _ | t | ⟨t, y, hy⟩
  · exact absurd hb id
  · exact absurd hb id
  rcases a with _ | s | ⟨s, x, hx⟩
  · exact absurd h id
  · exact absurd h id
  by_cases hy0 : y = 0
  · simp only [div, hy0, if_true] at h
    split at h <;> exact absurd h id
  have e : div (fin s x hx) (fin t y hy) = pack f (s != t) (x / y) := if_neg hy0
  rw [e] at h
  obtain ⟨hr, e3⟩ := pack_fin h
  refine ⟨?_, ?_⟩
  · change sgn t y ≠ 0
    cases t <;> simpa [sgn] using hy0
  change |(div (fin s x hx) (fin t y hy)).toReal - sgn s x / sgn t y| ≤ f.u * |sgn s x / sgn t y| + _
  have e4 : sgn s x / sgn t y = sgn (s != t) (x / y) := by
    cases s <;> cases t <;> simp [sgn, neg_div, div_neg]
  have hxy : 0 ≤ x / y := div_nonneg hx.nonneg hy.nonneg
  have e5 : (fin (s != t) (f.rnd (x / y)) hr : Flt f).toReal = sgn (s != t) (f.rnd (x / y)) := rfl
  rw [e, e3, e4, sgn_abs _ hxy, e5, sgn_sub, abs_sgn]
  exact f.rnd_err hxy

/-- A finite quotient by a finite nonzero number not overflowing. -/
theorem div_isFin {a b : Flt f} (ha : a.IsFin) (hb : b.IsFin) (h0 : b.toReal ≠ 0)
    (h : (1 + f.u) * |a.toReal / b.toReal| < (2 : ℝ) ^ (f.emax + 1)) : (a / b).IsFin := by
  change (div a b).IsFin
  rcases a with _ | s | ⟨s, x, hx⟩
  · exact absurd ha id
  · exact absurd ha id
  rcases b with _ | t | ⟨t, y, hy⟩
  · exact absurd hb id
  · exact absurd hb id
  have hy0 : y ≠ 0 := by
    intro hy0
    apply h0
    change sgn t y = 0
    cases t <;> simp [sgn, hy0]
  have e : div (fin s x hx) (fin t y hy) = pack f (s != t) (x / y) := if_neg hy0
  have e4 : (fin s x hx : Flt f).toReal / (fin t y hy : Flt f).toReal = sgn (s != t) (x / y) := by
    cases s <;> cases t <;> simp [toReal, sgn, neg_div, div_neg]
  have hxy : 0 ≤ x / y := div_nonneg hx.nonneg hy.nonneg
  rw [e4, sgn_abs _ hxy] at h
  rw [e]
  exact pack_isFin hxy h

/-- Sums of squares: relative error of the square root, if no square underflows. -/
theorem norm_rel {r : Flt f} {a : Fin n → Flt f} (hs : IsOrderedSum r (fun k => a k * a k)) (h : r.IsFin)
    (hn : ∀ k, (a k).toReal = 0 ∨ (2 : ℝ) ^ f.emin ≤ (a k).toReal ^ 2) (hκ : (1 + f.u) ^ n ≤ 2) :
    (sqrt r).IsFin ∧ 0 ≤ (sqrt r).toReal ∧
    |(sqrt r).toReal - √(∑ k, (a k).toReal ^ 2)| ≤ ((1 + f.u) ^ (n + 1) - 1) * √(∑ k, (a k).toReal ^ 2) := by
  have hu := f.u_pos
  have h1 := orderedSum_rel hs h (fun k => by
    rcases hn k with h | h
    · left; rw [h, mul_zero]
    · right; rw [← sq, abs_of_nonneg (sq_nonneg _)]; exact h)
  have e1 : ∀ k, (a k).toReal * (a k).toReal = (a k).toReal ^ 2 := fun k => (sq _).symm
  have e2 : ∀ k, |(a k).toReal ^ 2| = (a k).toReal ^ 2 := fun k => abs_of_nonneg (sq_nonneg _)
  simp only [e1, e2] at h1
  set s := ∑ k, (a k).toReal ^ 2
  have hs0 : 0 ≤ s := Finset.sum_nonneg fun k _ => sq_nonneg _
  set κ := (1 + f.u) ^ n - 1 with hκd
  have hκ0 : 0 ≤ κ := by
    have : (1 : ℝ) ≤ (1 + f.u) ^ n := one_le_pow₀ (by linarith)
    linarith
  have hr0 : 0 ≤ r.toReal := by
    have := (abs_le.1 h1).1
    nlinarith
  obtain ⟨g1, g2, g3⟩ := sqrt_rel h hr0
  refine ⟨g1, g3, ?_⟩
  have hd : |√r.toReal - √s| ≤ κ * √s := by
    rcases hs0.eq_or_lt with h0 | h0
    · rw [← h0] at h1 ⊢
      have : r.toReal = 0 := by simpa using h1
      rw [this]; simp
    · have hsp : 0 < √s := Real.sqrt_pos.mpr h0
      have e3 : (√r.toReal - √s) * (√r.toReal + √s) = r.toReal - s := by
        have := Real.mul_self_sqrt hr0
        have := Real.mul_self_sqrt hs0
        nlinarith
      have e4 : |√r.toReal - √s| * (√r.toReal + √s) = |r.toReal - s| := by
        rw [← e3, abs_mul, abs_of_nonneg (a := √r.toReal + √s) (by positivity)]
      have e5 : |√r.toReal - √s| * √s ≤ κ * √s * √s := by
        have h6 : |√r.toReal - √s| * √s ≤ |√r.toReal - √s| * (√r.toReal + √s) :=
          mul_le_mul_of_nonneg_left (by linarith [Real.sqrt_nonneg r.toReal]) (abs_nonneg _)
        rw [mul_assoc, Real.mul_self_sqrt hs0]
        linarith
      exact le_of_mul_le_mul_right e5 hsp
  have h7 : |(sqrt r).toReal - √s| ≤ |(sqrt r).toReal - √r.toReal| + |√r.toReal - √s| := abs_sub_le _ _ _
  have h8 : √r.toReal ≤ √s + κ * √s := by have := (abs_le.1 hd).2; linarith
  have h9 := mul_le_mul_of_nonneg_left h8 hu.le
  have h10 : (1 + f.u) ^ (n + 1) - 1 = f.u * (1 + κ) + κ := by rw [hκd]; ring
  rw [h10]
  linarith

/-- Dividing a vector by its computed norm. -/
theorem unit_err {w : ℝ} {r : Flt f} {a : Flt f} {N κ : ℝ} (hN : 0 < N) (hκ : κ < 1) (hr : r.IsFin)
    (h1 : |r.toReal - N| ≤ κ * N) (h : (a / r).IsFin) (hw : (a / r).toReal = w) :
    |w - a.toReal / N| ≤ (κ + f.u) / (1 - κ) * (|a.toReal| / N) + f.eta := by
  have hu := f.u_pos
  obtain ⟨h0, h2⟩ := div_err hr h
  rw [hw] at h2
  have hlow : (1 - κ) * N ≤ r.toReal := by have := (abs_le.1 h1).1; linarith
  have hpos : 0 < (1 - κ) * N := mul_pos (by linarith) hN
  have hrp : 0 < r.toReal := hpos.trans_le hlow
  have e1 : |a.toReal / r.toReal - a.toReal / N| ≤ κ / (1 - κ) * (|a.toReal| / N) := by
    have : a.toReal / r.toReal - a.toReal / N = a.toReal / N * ((N - r.toReal) / r.toReal) := by
      field_simp
    rw [this, abs_mul, abs_div, abs_of_pos hN, abs_div, abs_of_pos hrp, abs_sub_comm, mul_comm]
    refine mul_le_mul_of_nonneg_right ?_ (by positivity)
    calc |r.toReal - N| / r.toReal ≤ κ * N / ((1 - κ) * N) :=
          div_le_div₀ ((abs_nonneg _).trans h1) h1 hpos hlow
      _ = κ / (1 - κ) := mul_div_mul_right _ _ hN.ne'
  have e2 : |a.toReal / r.toReal| ≤ 1 / (1 - κ) * (|a.toReal| / N) := by
    rw [abs_div, abs_of_pos hrp, div_mul_div_comm, one_mul]
    exact div_le_div_of_nonneg_left (abs_nonneg _) hpos hlow
  have e3 := mul_le_mul_of_nonneg_left e2 hu.le
  have e4 : |w - a.toReal / N| ≤ |w - a.toReal / r.toReal| + |a.toReal / r.toReal - a.toReal / N| := abs_sub_le _ _ _
  have e5 : (κ + f.u) / (1 - κ) * (|a.toReal| / N) =
      κ / (1 - κ) * (|a.toReal| / N) + f.u * (1 / (1 - κ) * (|a.toReal| / N)) := by ring
  rw [e5]
  linarith

/-- Norm of a vector close to a unit vector. -/
theorem norm_drift {w v : Fin n → ℝ} {c e : ℝ} (hc : 0 ≤ c) (he : 0 ≤ e) (hv : ∑ k, v k ^ 2 = 1)
    (h : ∀ k, |w k - v k| ≤ c * |v k| + e) : |√(∑ k, w k ^ 2) - 1| ≤ c + √n * e := by
  have tri (x y : Fin n → ℝ) : √(∑ k, (x k + y k) ^ 2) ≤ √(∑ k, x k ^ 2) + √(∑ k, y k ^ 2) := by
    have := norm_add_le (WithLp.toLp 2 x : EuclideanSpace ℝ (Fin n)) (WithLp.toLp 2 y)
    simpa [EuclideanSpace.norm_eq] using this
  have hmono (x y : Fin n → ℝ) (hxy : ∀ k, |x k| ≤ y k) : √(∑ k, x k ^ 2) ≤ √(∑ k, y k ^ 2) := by
    refine Real.sqrt_le_sqrt (Finset.sum_le_sum fun k _ => ?_)
    exact sq_le_sq' (by linarith [neg_abs_le (x k), hxy k]) ((le_abs_self _).trans (hxy k))
  have hd : √(∑ k, (w k - v k) ^ 2) ≤ c + √n * e := by
    refine (hmono (fun k => w k - v k) (fun k => c * |v k| + e) h).trans ((tri _ _).trans ?_)
    have e1 : √(∑ k, (c * |v k|) ^ 2) = c := by
      simp only [mul_pow, sq_abs, ← Finset.mul_sum, hv, mul_one]
      exact Real.sqrt_sq hc
    have e2 : √(∑ _k : Fin n, e ^ 2) = √n * e := by
      rw [Finset.sum_const, Finset.card_univ, Fintype.card_fin, nsmul_eq_mul, Real.sqrt_mul (by positivity),
        Real.sqrt_sq he]
    rw [e1, e2]
  have h1 := tri v (fun k => w k - v k)
  have h2 := tri w (fun k => v k - w k)
  simp only [add_sub_cancel] at h1 h2
  rw [hv, Real.sqrt_one] at h1 h2
  have e3 : ∑ k, (v k - w k) ^ 2 = ∑ k, (w k - v k) ^ 2 := Finset.sum_congr rfl fun k _ => by ring
  rw [e3] at h2
  rw [abs_le]
  constructor <;> linarith

theorem isFin_of_sqrt {a : Flt f} (h : (sqrt a).IsFin) : a.IsFin := by
  rcases a with _ | s | ⟨s, x, hx⟩
  · exact absurd h id
  · cases s <;> exact absurd h id
  · trivial

/-- Dividing by the computed norm gives nearly a unit vector. -/
theorem normalize_core {r : Flt f} {a : Fin n → Flt f} (hs : IsOrderedSum r (fun k => a k * a k))
    (ha : ∀ k, (a k).IsFin) (h : (sqrt r).IsFin) (hn : ∀ k, (a k).toReal = 0 ∨ (2 : ℝ) ^ f.emin ≤ (a k).toReal ^ 2)
    (hκ : (1 + f.u) ^ (n + 1) ≤ 3 / 2) (h0 : 0 < ∑ k, (a k).toReal ^ 2) :
    let N := √(∑ k, (a k).toReal ^ 2)
    let κ := (1 + f.u) ^ (n + 1) - 1
    let c := (κ + f.u) / (1 - κ)
    N / 2 ≤ (sqrt r).toReal ∧
    (∀ k, (a k / sqrt r).IsFin ∧
      |(a k / sqrt r).toReal - (a k).toReal / N| ≤ c * (|(a k).toReal| / N) + f.eta) ∧
    |√(∑ k, (a k / sqrt r).toReal ^ 2) - 1| ≤ c + √n * f.eta := by
  intro N κ c
  have hu := f.u_pos
  have hu4 := f.u_le
  have hle : (1 + f.u) ^ n ≤ (1 + f.u) ^ (n + 1) := pow_le_pow_right₀ (by linarith) (by omega)
  obtain ⟨h1, -, h3⟩ := norm_rel hs (isFin_of_sqrt h) hn (by linarith)
  have hN : 0 < N := Real.sqrt_pos.mpr h0
  have hκ1 : κ ≤ 1 / 2 := by simp only [κ]; linarith
  have hκ0 : 0 ≤ κ := by
    have : (1 : ℝ) ≤ (1 + f.u) ^ (n + 1) := one_le_pow₀ (by linarith)
    simp only [κ]; linarith
  have hc : 0 ≤ c := div_nonneg (by linarith) (by linarith)
  have hlow : N / 2 ≤ (sqrt r).toReal := by
    have h4 := (abs_le.1 h3).1
    have h5 : κ * N ≤ 1 / 2 * N := mul_le_mul_of_nonneg_right hκ1 hN.le
    have h6 : -(κ * N) ≤ (sqrt r).toReal - N := h4
    linarith
  have hle1 (k : Fin n) : |(a k).toReal| ≤ N := by
    apply Real.le_sqrt_of_sq_le
    rw [sq_abs]
    exact Finset.single_le_sum (f := fun k => (a k).toReal ^ 2) (fun _ _ => sq_nonneg _) (Finset.mem_univ k)
  have hfin (k : Fin n) : (a k / sqrt r).IsFin := by
    have hp : 0 < (sqrt r).toReal := (half_pos hN).trans_le hlow
    refine div_isFin (ha k) h1 hp.ne' ?_
    have h7 : |(a k).toReal / (sqrt r).toReal| ≤ 2 := by
      rw [abs_div, abs_of_pos hp, div_le_iff₀ hp]
      linarith [hle1 k]
    have h8 : (8 : ℝ) ≤ 2 ^ (f.emax + 1) := by
      have := f.hmax
      have := f.hp
      calc (8 : ℝ) = 2 ^ (3 : ℤ) := by norm_num
        _ ≤ _ := zpow_le_zpow_right₀ (by norm_num) (by omega)
    have h9 : (1 + f.u) * |(a k).toReal / (sqrt r).toReal| ≤ (1 + f.u) * 2 :=
      mul_le_mul_of_nonneg_left h7 (by linarith)
    linarith
  have herr (k : Fin n) := unit_err (a := a k) hN (by linarith : κ < 1) h1 h3 (hfin k) rfl
  refine ⟨hlow, fun k => ⟨hfin k, herr k⟩, ?_⟩
  refine norm_drift (v := fun k => (a k).toReal / N) hc f.eta_pos.le ?_ fun k => ?_
  · simp only [div_pow, ← Finset.sum_div]
    rw [Real.sq_sqrt h0.le, div_self h0.ne']
  · rw [abs_div, abs_of_pos hN]
    exact herr k

end Flt
end StaticMath
