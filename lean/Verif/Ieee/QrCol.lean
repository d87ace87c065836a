import Verif.Ieee.Sqrt
import Verif.Ieee.Facts
import Verif.Lemmas.QrFree
import Verif.Lemmas.Norm

/-! # A vector divided by its computed norm, whatever the range of its elements -/

namespace StaticMath
namespace Flt
variable {f : Fmt} {n : ℕ}

theorem eta_le_sq (f : Fmt) : f.eta ≤ f.u * f.u := by
  unfold Fmt.eta Fmt.u
  rw [← zpow_add₀ (by norm_num)]
  exact zpow_le_zpow_right₀ (by norm_num) (by have := f.hmin; omega)

theorem u_small (hp : 11 ≤ f.p) : f.u ≤ 1 / 2048 := by
  unfold Fmt.u
  calc (2 : ℝ) ^ (-(f.p : ℤ)) ≤ (2 : ℝ) ^ (-11 : ℤ) := zpow_le_zpow_right₀ (by norm_num) (by omega)
    _ = 1 / 2048 := by norm_num

private theorem pow7 (hp : 11 ≤ f.p) (hn : n ≤ 6) : (1 + f.u) ^ (1 + n) - 1 ≤ 1 / 250 := by
  have hu := f.u_pos
  have h1 : (1 + f.u) ^ (1 + n) ≤ (1 + f.u) ^ 7 := pow_le_pow_right₀ (by linarith) (by omega)
  have h2 : (1 + f.u) ^ 7 ≤ (1 + 1 / 2048) ^ 7 := pow_le_pow_left₀ (by linarith) (by have := u_small hp; linarith) 7
  have h3 : ((1 : ℝ) + 1 / 2048) ^ 7 ≤ 1 + 1 / 250 := by norm_num
  linarith

/-- The computed sum of squares, compared with the sum of the computed squares. -/
theorem sumsq_err (t : Vec n (Flt f)) (h : (t.toSlice.foldl (fun n i => i * i + n) 0).IsFin) :
    (∀ k, (t k * t k).IsFin) ∧
    |(t.toSlice.foldl (fun n i => i * i + n) 0).toReal - ∑ k, (t k * t k).toReal| ≤
      ((1 + f.u) ^ (1 + n) - 1) * ∑ k, |(t k * t k).toReal| := by
  have e : (fun (n i : Flt f) => i * i + n) = fun s i => s + (fun i => i * i) i := by
    funext s i; exact add_comm' _ _
  rw [e] at h ⊢
  have h2 := (isFin_of_foldl _ _ _ h).2
  refine ⟨fun k => h2 (t k) (by simp [Vec.toSlice]), ?_⟩
  have H := (approx_foldl (fun i : Flt f => i * i) (fun i => (i * i).toReal) (fun i => |(i * i).toReal|) (fun _ => 0)
    t.toSlice 1 le_rfl (0 : Flt f) 0 0 0 ⟨by simp, by simp, le_rfl⟩
    (fun j _ => ⟨by simp; exact mul_nonneg f.u_pos.le (abs_nonneg _), le_rfl, le_rfl⟩) h).err
  have hl : t.toSlice.length = n := by simp [Vec.toSlice]
  rw [hl] at H
  simpa [Vec.toSlice, List.sum_ofFn] using H

private theorem sq_facts {x : Flt f} (h : (x * x).IsFin) :
    0 ≤ (x * x).toReal ∧ |(x * x).toReal - x.toReal ^ 2| ≤ f.u * x.toReal ^ 2 + f.eta ∧
    ((x * x).toReal = 0 ∨ 2 * f.eta ≤ (x * x).toReal) := by
  have h1 := mul_err h
  rw [← sq, abs_of_nonneg (sq_nonneg x.toReal)] at h1
  have h0 : 0 ≤ (x * x).toReal := by
    rcases x with _ | s | ⟨s, y, hy⟩
    · exact absurd h id
    · exact absurd h id
    · change (pack f (s != s) (y * y)).IsFin at h
      change 0 ≤ (pack f (s != s) (y * y)).toReal
      obtain ⟨hr, e⟩ := pack_fin h
      rw [e]
      rw [bne_self_eq_false] at e ⊢
      exact hr.nonneg
  refine ⟨h0, h1, ?_⟩
  have hr := rep_abs_toReal (x * x)
  rw [abs_of_nonneg h0] at hr
  obtain ⟨k, hk⟩ := f.rep_mul_ulp hr
  rcases Nat.eq_zero_or_pos k with h | h
  · left; rw [hk, h]; simp
  · right
    have hk1 : (1 : ℝ) ≤ k := by exact_mod_cast h
    have e : 2 * f.eta = (2 : ℝ) ^ (f.emin - f.p + 1) := by
      rw [Fmt.eta, zpow_add₀ (by norm_num), zpow_one, mul_comm]
    rw [e, hk]
    have : (0 : ℝ) < (2 : ℝ) ^ (f.emin - f.p + 1) := by positivity
    nlinarith

set_option maxHeartbeats 1000000 in
/-- What the division by the computed norm gives, under- and overflow included. -/
theorem unit_col [Libm f] (hp : 11 ≤ f.p) (hn : n ≤ 6) (t : Vec n (Flt f)) :
    (∀ k, (gsUnit t k).IsFin → |(gsUnit t k).toReal| ≤ 5 / 4) ∧
    ((∀ k, (gsUnit t k).IsFin) → (∀ k, (gsUnit t k).toReal = 0) ∨
      (7 / 10 ≤ √(∑ k, (gsUnit t k).toReal ^ 2) ∧ √(∑ k, (gsUnit t k).toReal ^ 2) ≤ 21 / 10)) := by
  have hu := f.u_pos
  have hus := u_small hp
  have heta := f.eta_pos
  have hes : f.eta ≤ 1 / 2048 * (1 / 2048) := (eta_le_sq f).trans (mul_le_mul hus hus hu.le (by norm_num))
  obtain ⟨r, hr⟩ : ∃ r, r = t.toSlice.foldl (fun n i => i * i + n) 0 := ⟨_, rfl⟩
  have hq (k : Fin n) : gsUnit t k = t k / sqrt r := by rw [hr]; rfl
  simp only [hq]
  by_cases hs : (sqrt r).IsFin
  swap
  · -- the norm is NaN or infinite
    have hz : ∀ k, (t k / sqrt r).IsFin → (t k / sqrt r).toReal = 0 := by
      intro k hk
      rcases notFin_cases hs with h | ⟨s, h⟩
      · rw [h] at hk
        have : t k / nan = nan := by
          cases t k <;> rfl
        rw [this] at hk
        exact absurd hk id
      · rw [h] at hk ⊢
        have hf : (t k).IsFin := by
          cases htk : t k with
          | nan => rw [htk] at hk; exact absurd hk id
          | inf s => rw [htk] at hk; exact absurd hk id
          | fin s x hx => trivial
        exact (div_inf hf s).2
    exact ⟨fun k hk => by rw [hz k hk]; norm_num, fun h => Or.inl fun k => hz k (h k)⟩
  have hrf := isFin_of_sqrt hs
  rw [hr] at hrf
  obtain ⟨hfin, herr⟩ := sumsq_err t hrf
  rw [← hr] at herr hrf
  have hy (k : Fin n) := sq_facts (hfin k)
  obtain ⟨Y, hY⟩ : ∃ Y, Y = ∑ k, (t k * t k).toReal := ⟨_, rfl⟩
  have hYabs : ∑ k, |(t k * t k).toReal| = Y := by
    rw [hY]; exact Finset.sum_congr rfl fun k _ => abs_of_nonneg (hy k).1
  have hY0 : 0 ≤ Y := by rw [hY]; exact Finset.sum_nonneg fun k _ => (hy k).1
  rw [hYabs, ← hY] at herr
  have hκ := pow7 (f := f) hp hn
  have herr' : |r.toReal - Y| ≤ 1 / 250 * Y := herr.trans (mul_le_mul_of_nonneg_right hκ hY0)
  rw [abs_le] at herr'
  have hr0 : 0 ≤ r.toReal := by linarith
  obtain ⟨-, hse, hs0⟩ := sqrt_rel hrf hr0
  obtain ⟨N, hN⟩ : ∃ N, N = √r.toReal := ⟨_, rfl⟩
  have hN0 : 0 ≤ N := by rw [hN]; exact Real.sqrt_nonneg _
  have hNN : N * N = r.toReal := by rw [hN]; exact Real.mul_self_sqrt hr0
  obtain ⟨s, hsd⟩ : ∃ s, s = (sqrt r).toReal := ⟨_, rfl⟩
  rw [← hN, ← hsd, abs_le] at hse
  rw [← hsd] at hs0
  have hsu : s ≤ (1 + 1 / 2048) * N := by nlinarith
  have hsl : (1 - 1 / 2048) * N ≤ s := by nlinarith
  -- a finite quotient has a nonzero divisor
  have hpos : ∀ k, (t k / sqrt r).IsFin → 0 < Y ∧ 0 < N ∧ 2 * f.eta ≤ Y := by
    intro k hk
    have h1 := (div_err hs hk).1
    rw [← hsd] at h1
    have hNp : 0 < N := by
      rcases hN0.eq_or_lt with h | h
      · exfalso; apply h1; rw [← h] at hsu hsl; linarith
      · exact h
    have hYp : 0 < Y := by
      rcases hY0.eq_or_lt with h | h
      · exfalso
        rw [← h] at herr'
        have : r.toReal = 0 := by linarith [herr'.1, herr'.2]
        rw [this] at hNN
        nlinarith
      · exact h
    refine ⟨hYp, hNp, ?_⟩
    by_contra hc
    push Not at hc
    have hall : ∀ k, (t k * t k).toReal = 0 := by
      intro k
      rcases (hy k).2.2 with h | h
      · exact h
      · exfalso
        have : (t k * t k).toReal ≤ Y := by
          rw [hY]
          exact Finset.single_le_sum (f := fun k => (t k * t k).toReal) (fun j _ => (hy j).1) (Finset.mem_univ k)
        linarith
    rw [hY, Finset.sum_eq_zero fun k _ => hall k] at hYp
    exact lt_irrefl _ hYp
  have hrY : Y ≤ 250 / 249 * (N * N) := by rw [hNN]; linarith [herr'.1]
  have hYr : N * N ≤ 251 / 250 * Y := by rw [hNN]; linarith [herr'.2]
  constructor
  · intro k hk
    obtain ⟨hYp, hNp, h2e⟩ := hpos k hk
    have hyk : (t k * t k).toReal ≤ Y := by
      rw [hY]
      exact Finset.single_le_sum (f := fun k => (t k * t k).toReal) (fun j _ => (hy j).1) (Finset.mem_univ k)
    have h1 := (abs_le.1 (hy k).2.1).1
    have hx2 : (t k).toReal ^ 2 ≤ (123 / 100 * N) ^ 2 := by
      have : f.u * (t k).toReal ^ 2 ≤ 1 / 2048 * (t k).toReal ^ 2 := mul_le_mul_of_nonneg_right hus (sq_nonneg _)
      nlinarith
    have hx : |(t k).toReal| ≤ 123 / 100 * N := abs_le_of_sq_le_sq hx2 (by linarith)
    have hsp : 0 < s := by nlinarith
    have hw : |(t k).toReal / s| ≤ 1235 / 1000 := by
      rw [abs_div, abs_of_pos hsp, div_le_iff₀ hsp]
      nlinarith
    have h3 := (div_err hs hk).2
    rw [← hsd] at h3
    have h4 := abs_sub_abs_le_abs_sub (t k / sqrt r).toReal ((t k).toReal / s)
    have h5 : f.u * |(t k).toReal / s| ≤ 1 / 2048 * (1235 / 1000) := mul_le_mul hus hw (abs_nonneg _) (by norm_num)
    linarith
  · intro hall
    rcases Nat.eq_zero_or_pos n with hn0 | hn0
    · left; intro k; exact absurd k.isLt (by omega)
    right
    obtain ⟨hYp, hNp, h2e⟩ := hpos ⟨0, hn0⟩ (hall _)
    have hsp : 0 < s := by nlinarith
    obtain ⟨S, hS⟩ : ∃ S, S = ∑ k, (t k).toReal ^ 2 := ⟨_, rfl⟩
    have hS0 : 0 ≤ S := by rw [hS]; exact Finset.sum_nonneg fun k _ => sq_nonneg _
    have hnR : (n : ℝ) ≤ 6 := by exact_mod_cast hn
    have hSup : (1 - 1 / 2048) * S ≤ Y + 6 * f.eta := by
      have : ∑ k, ((t k).toReal ^ 2 - 1 / 2048 * (t k).toReal ^ 2) ≤ ∑ k, ((t k * t k).toReal + f.eta) := by
        refine Finset.sum_le_sum fun k _ => ?_
        have h1 := (abs_le.1 (hy k).2.1).1
        have : f.u * (t k).toReal ^ 2 ≤ 1 / 2048 * (t k).toReal ^ 2 := mul_le_mul_of_nonneg_right hus (sq_nonneg _)
        linarith
      rw [Finset.sum_sub_distrib, ← Finset.mul_sum, ← hS, Finset.sum_add_distrib, ← hY, Finset.sum_const,
        Finset.card_univ, Fintype.card_fin, nsmul_eq_mul] at this
      nlinarith
    have hSlow : Y ≤ 2 * (1 + 1 / 2048) * S := by
      rw [hY, hS, Finset.mul_sum]
      refine Finset.sum_le_sum fun k _ => ?_
      have hsq := sq_nonneg (t k).toReal
      have h1 := (abs_le.1 (hy k).2.1).2
      have : f.u * (t k).toReal ^ 2 ≤ 1 / 2048 * (t k).toReal ^ 2 := mul_le_mul_of_nonneg_right hus hsq
      rcases (hy k).2.2 with h | h
      · rw [h]; nlinarith
      · linarith
    -- the exact quotients
    obtain ⟨w, hw⟩ : ∃ w : Fin n → ℝ, w = fun k => (t k).toReal / s := ⟨_, rfl⟩
    obtain ⟨W, hW⟩ : ∃ W, W = √(∑ k, w k * w k) := ⟨_, rfl⟩
    have hW0 : 0 ≤ W := by rw [hW]; exact Real.sqrt_nonneg _
    have hWW : W * W * (s * s) = S := by
      rw [hW, Real.mul_self_sqrt (Finset.sum_nonneg fun k _ => mul_self_nonneg _), Finset.sum_mul, hS]
      refine Finset.sum_congr rfl fun k _ => ?_
      rw [hw]
      field_simp
    have hNNp : 0 < N * N := mul_pos hNp hNp
    have hss1 : s * s ≤ (1 + 1 / 2048) ^ 2 * (N * N) := by
      have := mul_self_le_mul_self hsp.le hsu
      linarith
    have hss2 : (1 - 1 / 2048) ^ 2 * (N * N) ≤ s * s := by
      have := mul_self_le_mul_self (by linarith) hsl
      linarith
    have hWu : W ≤ 202 / 100 := by
      by_contra hc
      push Not at hc
      have h1 := mul_self_le_mul_self (by norm_num) hc.le
      have : 202 / 100 * (202 / 100) * (s * s) ≤ W * W * (s * s) := mul_le_mul_of_nonneg_right h1 (mul_self_nonneg s)
      linarith
    have hWl : 7015 / 10000 ≤ W := by
      by_contra hc
      push Not at hc
      have h1 := mul_self_le_mul_self hW0 hc.le
      have : W * W * (s * s) ≤ 7015 / 10000 * (7015 / 10000) * (s * s) := mul_le_mul_of_nonneg_right h1 (mul_self_nonneg s)
      linarith
    -- the rounded quotients
    obtain ⟨d, hd⟩ : ∃ d : Fin n → ℝ, d = fun k => (t k / sqrt r).toReal - w k := ⟨_, rfl⟩
    have hdk (k : Fin n) : |d k| ≤ 1 / 2048 * |w k| + 1 / 2048 * (1 / 2048) := by
      have h3 := (div_err hs (hall k)).2
      rw [← hsd] at h3
      rw [hd, hw]
      dsimp only
      have : f.u * |(t k).toReal / s| ≤ 1 / 2048 * |(t k).toReal / s| := mul_le_mul_of_nonneg_right hus (abs_nonneg _)
      linarith
    have hD : √(∑ k, d k * d k) ≤ 1 / 700 := by
      refine Real.sqrt_le_iff.2 ⟨by norm_num, ?_⟩
      have hwsum : ∑ k, w k * w k = W * W := by
        rw [hW, Real.mul_self_sqrt (Finset.sum_nonneg fun k _ => mul_self_nonneg _)]
      have hb (k : Fin n) : d k * d k ≤ 2 * (1 / 2048) ^ 2 * (w k * w k) + 2 * (1 / 2048) ^ 4 := by
        have h1 := hdk k
        have e1 : d k * d k = |d k| * |d k| := (abs_mul_abs_self _).symm
        have e2 : w k * w k = |w k| * |w k| := (abs_mul_abs_self _).symm
        rw [e1, e2]
        have h2 : |d k| * |d k| ≤ (1 / 2048 * |w k| + 1 / 2048 * (1 / 2048)) * (1 / 2048 * |w k| + 1 / 2048 * (1 / 2048)) :=
          mul_le_mul h1 h1 (abs_nonneg _) (by positivity)
        linarith [sq_nonneg (1 / 2048 * |w k| - 1 / 2048 * (1 / 2048))]
      have := Finset.sum_le_sum fun k (_ : k ∈ Finset.univ) => hb k
      rw [Finset.sum_add_distrib, ← Finset.mul_sum, hwsum, Finset.sum_const, Finset.card_univ, Fintype.card_fin,
        nsmul_eq_mul] at this
      have h1 := mul_self_le_mul_self hW0 hWu
      have h2 : (n : ℝ) * (2 * (1 / 2048) ^ 4) ≤ 6 * (2 * (1 / 2048) ^ 4) := mul_le_mul_of_nonneg_right hnR (by norm_num)
      have h3 : 2 * (1 / 2048) ^ 2 * (W * W) ≤ 2 * (1 / 2048) ^ 2 * (202 / 100 * (202 / 100)) :=
        mul_le_mul_of_nonneg_left h1 (by norm_num)
      refine this.trans ((add_le_add h3 h2).trans ?_)
      norm_num
    have hqs : ∑ k, (t k / sqrt r).toReal ^ 2 = ∑ k, (w k + d k) * (w k + d k) := by
      refine Finset.sum_congr rfl fun k _ => ?_
      rw [hd]; ring
    have ht1 := euclid_triangle w d
    have ht2 := euclid_triangle (fun k => w k + d k) (fun k => -d k)
    simp only [add_neg_cancel_right, neg_mul_neg] at ht2
    rw [hqs]
    rw [← hW] at ht1 ht2
    exact ⟨by linarith, by linarith⟩

end Flt
end StaticMath
