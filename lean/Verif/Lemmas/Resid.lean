import Verif.Props.IeeeInv
import Mathlib.Analysis.SpecialFunctions.Exponential

/-!
# Residuals of computed inverses: the part that does not depend on the size
-/

namespace StaticMath
open Flt

variable {f : Fmt}

theorem Fmt.u_le_16 (hp : 16 ≤ f.p) : f.u ≤ 1 / 65536 := by
  have h : f.u = 1 / (2 : ℝ) ^ f.p := by
    rw [Fmt.u, zpow_neg, zpow_natCast, one_div]
  rw [h]
  refine one_div_le_one_div_of_le (by norm_num) ?_
  calc (65536 : ℝ) = 2 ^ 16 := by norm_num
    _ ≤ 2 ^ f.p := pow_le_pow_right₀ (by norm_num) hp

theorem Fmt.pow_u_le (hp : 16 ≤ f.p) {m : ℕ} (hm : m ≤ 724) : (1 + f.u) ^ m - 1 ≤ 1012 / 1000 * (m * f.u) ∧ (1 + f.u) ^ m ≤ 11 / 10 := by
  have hu0 := f.u_pos
  have hu := Fmt.u_le_16 hp
  have hm' : (m : ℝ) ≤ 724 := by exact_mod_cast hm
  have hmu : (m : ℝ) * f.u ≤ 724 * (1 / 65536) := mul_le_mul hm' hu hu0.le (by norm_num)
  have hmu0 : 0 ≤ (m : ℝ) * f.u := by positivity
  have h1 : (1 + f.u) ^ m ≤ Real.exp (m * f.u) := by
    rw [Real.exp_nat_mul]
    refine pow_le_pow_left₀ (by linarith) ?_ m
    linarith [Real.add_one_le_exp f.u]
  have h2 := (abs_le.1 (Real.abs_exp_sub_one_sub_id_le (x := m * f.u) (by rw [abs_of_nonneg hmu0]; linarith))).2
  have h3 : ((m : ℝ) * f.u) ^ 2 ≤ 12 / 1000 * (m * f.u) := by
    rw [sq]
    exact mul_le_mul_of_nonneg_right (by linarith) hmu0
  constructor <;> linarith

/-- The exact residuals of a matrix close to the adjugate over the determinant. -/
theorem resid_real {n : ℕ} (A B : Matrix (Fin n) (Fin n) ℝ) {D b c E : ℝ} (hb : ∀ i j, |A i j| ≤ b) (hD : D ≠ 0)
    (he : ∀ i j, |B i j - A.adjugate i j / D| ≤ c) (hE : |D - A.det| ≤ E) (i j : Fin n) :
    |(A * B) i j - (1 : Matrix (Fin n) (Fin n) ℝ) i j| ≤ n * (b * c) + E / |D| ∧
    |(B * A) i j - (1 : Matrix (Fin n) (Fin n) ℝ) i j| ≤ n * (b * c) + E / |D| := by
  have b0 : 0 ≤ b := (abs_nonneg _).trans (hb i j)
  have hdiag : |(A.det / D - 1) * (1 : Matrix (Fin n) (Fin n) ℝ) i j| ≤ E / |D| := by
    have h1 : |A.det / D - 1| ≤ E / |D| := by
      rw [show A.det / D - 1 = (A.det - D) / D by field_simp, abs_div, abs_sub_comm]
      exact div_le_div_of_nonneg_right hE (abs_nonneg _)
    have h2 : |(1 : Matrix (Fin n) (Fin n) ℝ) i j| ≤ 1 := by
      rw [Matrix.one_apply]; split <;> simp
    rw [abs_mul]
    have := mul_le_mul h1 h2 (abs_nonneg _) ((abs_nonneg _).trans h1)
    linarith
  have hsum (g : Fin n → ℝ) (hg : ∀ k, |g k| ≤ b * c) : |∑ k, g k| ≤ n * (b * c) := by
    refine (Finset.abs_sum_le_sum_abs _ _).trans ?_
    have := Finset.sum_le_sum fun k (_ : k ∈ Finset.univ) => hg k
    rwa [Finset.sum_const, Finset.card_univ, Fintype.card_fin, nsmul_eq_mul] at this
  constructor
  · have e : (A * B) i j - (1 : Matrix (Fin n) (Fin n) ℝ) i j =
        ∑ k, A i k * (B k j - A.adjugate k j / D) + (A.det / D - 1) * (1 : Matrix (Fin n) (Fin n) ℝ) i j := by
      have h3 : ∑ k, A i k * A.adjugate k j = A.det * (1 : Matrix (Fin n) (Fin n) ℝ) i j := by
        rw [← Matrix.mul_apply, Matrix.mul_adjugate, Matrix.smul_apply, smul_eq_mul]
      rw [Matrix.mul_apply]
      simp only [mul_sub, Finset.sum_sub_distrib, mul_div_assoc']
      rw [← Finset.sum_div, h3]
      ring
    rw [e]
    refine (abs_add_le _ _).trans (add_le_add (hsum _ fun k => ?_) hdiag)
    rw [abs_mul]
    exact mul_le_mul (hb i k) (he k j) (abs_nonneg _) b0
  · have e : (B * A) i j - (1 : Matrix (Fin n) (Fin n) ℝ) i j =
        ∑ k, (B i k - A.adjugate i k / D) * A k j + (A.det / D - 1) * (1 : Matrix (Fin n) (Fin n) ℝ) i j := by
      have h3 : ∑ k, A.adjugate i k * A k j = A.det * (1 : Matrix (Fin n) (Fin n) ℝ) i j := by
        rw [← Matrix.mul_apply, Matrix.adjugate_mul, Matrix.smul_apply, smul_eq_mul]
      rw [Matrix.mul_apply]
      simp only [sub_mul, Finset.sum_sub_distrib, div_mul_eq_mul_div]
      rw [← Finset.sum_div, h3]
      ring
    rw [e]
    refine (abs_add_le _ _).trans (add_le_add (hsum _ fun k => ?_) hdiag)
    rw [abs_mul, mul_comm b c]
    exact mul_le_mul (he i k) (hb k j) (abs_nonneg _) ((abs_nonneg _).trans (he i k))

/-- The numerical part: error of an entry, of the determinant, size of the determinant. -/
theorem resid_num {u η F N D mp U UE g g' gE κ κE per : ℝ} (hu0 : 0 < u) (hu : u ≤ 1 / 65536) (hη0 : 0 < η) (hF : 1 ≤ F) (hFN : F ≤ N)
    (hmp0 : 0 ≤ mp) (hmp : mp ≤ F) (hper : per ≤ N) (hU0 : 0 ≤ U) (hU : U ≤ 4 * F) (hUE : UE ≤ 5 * N)
    (hg0 : 1 ≤ g) (hgE0 : 1 ≤ gE) (hg : g - 1 ≤ κ) (hg1 : g ≤ 11 / 10) (hg' : g' ≤ 11 / 10) (hgE : gE - 1 ≤ κE) (hgE1 : gE ≤ 11 / 10)
    (hs : 64 * N * η ≤ u) (d : ℝ) (hd : |d| ≤ per) (hDd : |D - d| ≤ (gE - 1) * per + gE * (η * UE)) (hD : 0 < |D|) :
    (gE - 1) * per + gE * (η * UE) ≤ (κE + 9 / 100 * u) * N ∧ |D| ≤ 12 / 10 * N ∧
    ((g - 1) * mp + g * (η * U)) / |D| + η * (1 + g' * (mp + η * U)) ≤ (κ + u / 8) * F / |D| := by
  have hN1 : 1 ≤ N := hF.trans hFN
  have hN0 : 0 < N := by linarith
  have hF0 : 0 < F := by linarith
  have per0 : 0 ≤ per := (abs_nonneg _).trans hd
  have hη : 64 * η ≤ u := by nlinarith
  have κE0 : 0 ≤ κE := by linarith
  have κ0 : 0 ≤ κ := by linarith
  have h1 : (gE - 1) * per + gE * (η * UE) ≤ (κE + 9 / 100 * u) * N := by
    have a1 : (gE - 1) * per ≤ κE * N := mul_le_mul hgE hper per0 κE0
    have a2 : gE * (η * UE) ≤ 11 / 10 * (η * (5 * N)) := by
      have b1 : η * UE ≤ η * (5 * N) := mul_le_mul_of_nonneg_left hUE hη0.le
      have b2 : 0 ≤ η * (5 * N) := by positivity
      have b3 := mul_le_mul_of_nonneg_left b1 (show 0 ≤ gE by linarith)
      have b4 := mul_le_mul_of_nonneg_right hgE1 b2
      linarith
    have a3 : η * N ≤ u / 64 * N := mul_le_mul_of_nonneg_right (by linarith) hN0.le
    have a4 : 0 ≤ u * N := by positivity
    linarith
  have h2 : |D| ≤ 12 / 10 * N := by
    have a1 := abs_sub_abs_le_abs_sub D d
    have a2 : (gE - 1) * per ≤ 1 / 10 * N := mul_le_mul (by linarith) hper per0 (by norm_num)
    have a3 : gE * (η * UE) ≤ 11 / 10 * (η * (5 * N)) := by
      have b1 : η * UE ≤ η * (5 * N) := mul_le_mul_of_nonneg_left hUE hη0.le
      have b2 : 0 ≤ η * (5 * N) := by positivity
      have b3 := mul_le_mul_of_nonneg_left b1 (show 0 ≤ gE by linarith)
      have b4 := mul_le_mul_of_nonneg_right hgE1 b2
      linarith
    linarith
  refine ⟨h1, h2, ?_⟩
  have k1 : (g - 1) * mp ≤ κ * F := mul_le_mul hg hmp hmp0 κ0
  have k2 : g * (η * U) ≤ 11 / 10 * (η * (4 * F)) :=
    mul_le_mul hg1 (mul_le_mul_of_nonneg_left hU hη0.le) (by positivity) (by norm_num)
  have k3 : g' * (mp + η * U) ≤ 11 / 10 * (F + η * (4 * F)) :=
    mul_le_mul hg' (add_le_add hmp (mul_le_mul_of_nonneg_left hU hη0.le)) (by positivity) (by norm_num)
  have k4 : η * (1 + g' * (mp + η * U)) ≤ η * (22 / 10 * F) := by
    refine mul_le_mul_of_nonneg_left ?_ hη0.le
    have : η * (4 * F) ≤ 1 / 1000 * (4 * F) := mul_le_mul_of_nonneg_right (by linarith) (by positivity)
    linarith
  have k5 : η * (22 / 10 * F) ≤ (264 / 6400 * u) * F / |D| := by
    rw [le_div_iff₀ hD]
    have : η * (22 / 10 * F) * |D| ≤ η * (22 / 10 * F) * (12 / 10 * N) := mul_le_mul_of_nonneg_left h2 (by positivity)
    have b := mul_le_mul_of_nonneg_right hs hF0.le
    linarith
  have k6 : ((g - 1) * mp + g * (η * U)) / |D| ≤ ((κ + 7 / 100 * u) * F) / |D| := by
    refine div_le_div_of_nonneg_right ?_ (abs_nonneg _)
    have : η * F ≤ u / 64 * F := mul_le_mul_of_nonneg_right (by linarith) hF0.le
    have : 0 ≤ u * F := by positivity
    linarith
  have k7 : (κ + 7 / 100 * u) * F / |D| + (264 / 6400 * u) * F / |D| ≤ (κ + u / 8) * F / |D| := by
    rw [← add_div]
    refine div_le_div_of_nonneg_right ?_ (abs_nonneg _)
    have : 0 ≤ u * F := by positivity
    linarith
  linarith

/-- All residuals from the errors of the entries and of the determinant. -/
theorem resid_full (hp : 16 ≤ f.p) {n : ℕ} (hn2 : 2 ≤ n) (hn : n ≤ 6) (A B AB : Mat n (Flt f)) {D b F N κ κE E C : ℝ} (hb1 : 1 ≤ b)
    (hb : ∀ i j, |(A i j).toReal| ≤ b) (hN : N = n * (b * F)) (hF : 1 ≤ F) (hs : 64 * N * f.eta ≤ f.u) (hD : 0 < |D|) (hDN : |D| ≤ 12 / 10 * N)
    (hadj : ∀ i j, |A.reM'.adjugate i j| ≤ F) (hκ : κ ≤ 13 / 1000) (hC : κ + κE + 215 / 1000 * f.u ≤ C * f.u)
    (he : ∀ i j, |(B i j).toReal - A.reM'.adjugate i j / D| ≤ (κ + f.u / 8) * F / |D|) (hE : |D - A.reM'.det| ≤ E)
    (hE' : E ≤ (κE + 9 / 100 * f.u) * N)
    (hmul : ∀ i j, (AB i j).IsFin → |(AB i j).toReal - ∑ k, (A i k).toReal * (B k j).toReal| ≤
      ((1 + f.u) ^ n - 1) * ∑ k, |(A i k).toReal * (B k j).toReal| + (1 + f.u) ^ n * (n * f.eta)) :
    (∀ i j, |(A.reM' * B.reM') i j - (1 : Matrix (Fin n) (Fin n) ℝ) i j| ≤ C * f.u * N / |D| ∧
      |(B.reM' * A.reM') i j - (1 : Matrix (Fin n) (Fin n) ℝ) i j| ≤ C * f.u * N / |D| ∧
      ((AB i j).IsFin → |(AB i j).toReal - (1 : Matrix (Fin n) (Fin n) ℝ) i j| ≤ (C + n + 1) * f.u * N / |D|)) ∧
    ∀ (v x : Vec n (Flt f)) (V : ℝ), (∀ j, |(v j).toReal| ≤ V) →
      (∀ i, |(x i).toReal - ∑ k, (B i k).toReal * (v k).toReal| ≤
        ((1 + f.u) ^ n - 1) * ∑ k, |(B i k).toReal * (v k).toReal| + (1 + f.u) ^ n * (n * f.eta)) →
      ∀ i, |∑ k, (A i k).toReal * (x k).toReal - (v i).toReal| ≤ n * (C + n + 1) * f.u * N / |D| * V + 2 * n ^ 2 * b * f.eta := by
  have hu0 := f.u_pos
  have hu := Fmt.u_le_16 hp
  have hη0 := f.eta_pos
  have hF0 : 0 < F := by linarith
  have hb0 : 0 < b := by linarith
  have hnR : (2 : ℝ) ≤ n := by exact_mod_cast hn2
  have hnR6 : (n : ℝ) ≤ 6 := by exact_mod_cast hn
  have hbF : 1 ≤ b * F := by nlinarith
  have hN1 : 2 ≤ N := by rw [hN]; nlinarith
  have hη : 64 * f.eta ≤ f.u := by nlinarith
  obtain ⟨p1, p2⟩ := Fmt.pow_u_le hp (m := n) (by omega)
  have pg : 1 ≤ (1 + f.u) ^ n := one_le_pow₀ (by linarith)
  have hR0 : 0 ≤ N / |D| := by positivity
  have hR1 : 1 ≤ 12 / 10 * (N / |D|) := by
    rw [← mul_div_assoc, le_div_iff₀ hD]; linarith
  have hD0 : D ≠ 0 := abs_pos.1 hD
  have res (i j) := resid_real A.reM' B.reM' (c := (κ + f.u / 8) * F / |D|) hb hD0 he hE i j
  have le1 : n * (b * ((κ + f.u / 8) * F / |D|)) + E / |D| ≤ C * f.u * N / |D| := by
    have e1 : n * (b * ((κ + f.u / 8) * F / |D|)) = (κ + f.u / 8) * (N / |D|) := by rw [hN]; ring
    have e2 : E / |D| ≤ (κE + 9 / 100 * f.u) * (N / |D|) := by
      rw [← mul_div_assoc]; exact div_le_div_of_nonneg_right hE' (abs_nonneg _)
    rw [e1, mul_div_assoc]
    have := mul_le_mul_of_nonneg_right hC hR0
    linarith
  have hB (k j) : |(B k j).toReal| ≤ 102 / 100 * (F / |D|) := by
    have a1 := abs_sub_abs_le_abs_sub (B k j).toReal (A.reM'.adjugate k j / D)
    have a2 : |A.reM'.adjugate k j / D| ≤ F / |D| := by
      rw [abs_div]; exact div_le_div_of_nonneg_right (hadj k j) (abs_nonneg _)
    have a3 : (κ + f.u / 8) * F / |D| ≤ 2 / 100 * (F / |D|) := by
      rw [mul_div_assoc]
      exact mul_le_mul_of_nonneg_right (by linarith) (by positivity)
    linarith [he k j]
  have hsum (g : Fin n → ℝ) (c : ℝ) (hg : ∀ k, |g k| ≤ c) : ∑ k, |g k| ≤ n * c := by
    have := Finset.sum_le_sum fun k (_ : k ∈ Finset.univ) => hg k
    rwa [Finset.sum_const, Finset.card_univ, Fintype.card_fin, nsmul_eq_mul] at this
  have hnη : (1 + f.u) ^ n * (n * f.eta) ≤ 11 / 10 * (n * f.eta) := mul_le_mul_of_nonneg_right p2 (by positivity)
  refine ⟨fun i j => ⟨(res i j).1.trans le1, (res i j).2.trans le1, fun hf => ?_⟩, fun v x V hv hx i => ?_⟩
  · have h1 := hmul i j hf
    have h2 := (res i j).1.trans le1
    have e : (A.reM' * B.reM') i j = ∑ k, (A i k).toReal * (B k j).toReal := Matrix.mul_apply
    rw [e] at h2
    have h3 : ∑ k, |(A i k).toReal * (B k j).toReal| ≤ n * (b * (102 / 100 * (F / |D|))) := hsum _ _ fun k => by
      rw [abs_mul]; exact mul_le_mul (hb i k) (hB k j) (abs_nonneg _) hb0.le
    have e3 : n * (b * (102 / 100 * (F / |D|))) = 102 / 100 * (N / |D|) := by rw [hN]; ring
    rw [e3] at h3
    have h4 : ((1 + f.u) ^ n - 1) * ∑ k, |(A i k).toReal * (B k j).toReal| ≤ 1012 / 1000 * (n * f.u) * (102 / 100 * (N / |D|)) :=
      mul_le_mul p1 h3 (Finset.sum_nonneg fun k _ => abs_nonneg _) (by positivity)
    have h5 : n * f.eta ≤ 6 * (f.u / 64) := mul_le_mul hnR6 (by linarith) hη0.le (by norm_num)
    have h6 := mul_le_mul_of_nonneg_left hR1 hu0.le
    have h7 := abs_sub_le (AB i j).toReal (∑ k, (A i k).toReal * (B k j).toReal) ((1 : Matrix (Fin n) (Fin n) ℝ) i j)
    rw [mul_div_assoc] at h2 ⊢
    have h8 : 0 ≤ f.u * (N / |D|) := by positivity
    have h9 := mul_le_mul_of_nonneg_right hnR6 h8
    linarith
  · have V0 : 0 ≤ V := (abs_nonneg _).trans (hv i)
    have e : ∑ k, (A i k).toReal * (x k).toReal - (v i).toReal =
        ∑ k, (A i k).toReal * ((x k).toReal - ∑ j, (B k j).toReal * (v j).toReal) +
        ∑ j, ((A.reM' * B.reM') i j - (1 : Matrix (Fin n) (Fin n) ℝ) i j) * (v j).toReal := by
      have e1 : ∑ k, (A i k).toReal * ∑ j, (B k j).toReal * (v j).toReal = ∑ j, (A.reM' * B.reM') i j * (v j).toReal := by
        simp only [Matrix.mul_apply, Finset.mul_sum, Finset.sum_mul]
        rw [Finset.sum_comm]
        refine Finset.sum_congr rfl fun j _ => Finset.sum_congr rfl fun k _ => ?_
        rw [mul_assoc]; rfl
      have e2 : ∑ j, (1 : Matrix (Fin n) (Fin n) ℝ) i j * (v j).toReal = (v i).toReal := by
        simp [Matrix.one_apply]
      simp only [mul_sub, sub_mul, Finset.sum_sub_distrib]
      rw [e1, e2]; ring
    rw [e]
    have q1 (k) : |(x k).toReal - ∑ j, (B k j).toReal * (v j).toReal| ≤
        1012 / 1000 * (n * f.u) * (n * (102 / 100 * (F / |D|) * V)) + 11 / 10 * (n * f.eta) := by
      refine (hx k).trans (add_le_add ?_ hnη)
      refine mul_le_mul p1 (hsum _ _ fun j => ?_) (Finset.sum_nonneg fun k _ => abs_nonneg _) (by positivity)
      rw [abs_mul]; exact mul_le_mul (hB k j) (hv j) (abs_nonneg _) (by positivity)
    have q2 : |∑ k, (A i k).toReal * ((x k).toReal - ∑ j, (B k j).toReal * (v j).toReal)| ≤
        n * (b * (1012 / 1000 * (n * f.u) * (n * (102 / 100 * (F / |D|) * V)) + 11 / 10 * (n * f.eta))) := by
      refine (Finset.abs_sum_le_sum_abs _ _).trans (hsum _ _ fun k => ?_)
      rw [abs_mul]; exact mul_le_mul (hb i k) (q1 k) (abs_nonneg _) hb0.le
    have q3 : |∑ j, ((A.reM' * B.reM') i j - (1 : Matrix (Fin n) (Fin n) ℝ) i j) * (v j).toReal| ≤ n * (C * f.u * N / |D| * V) := by
      refine (Finset.abs_sum_le_sum_abs _ _).trans (hsum _ _ fun j => ?_)
      rw [abs_mul]
      exact mul_le_mul ((res i j).1.trans le1) (hv j) (abs_nonneg _) ((abs_nonneg _).trans ((res i j).1.trans le1))
    have e4 : n * (b * (1012 / 1000 * (n * f.u) * (n * (102 / 100 * (F / |D|) * V)) + 11 / 10 * (n * f.eta))) =
        1012 / 1000 * (102 / 100) * (n ^ 2 * (f.u * (N / |D|) * V)) + 11 / 10 * (n ^ 2 * b * f.eta) := by rw [hN]; ring
    rw [e4] at q2
    have e5 : n * (C * f.u * N / |D| * V) = n * C * (f.u * (N / |D|) * V) := by ring
    rw [e5] at q3
    have e6 : n * (C + n + 1) * f.u * N / |D| * V = n * C * (f.u * (N / |D|) * V) + n ^ 2 * (f.u * (N / |D|) * V) + n * (f.u * (N / |D|) * V) := by ring
    rw [e6]
    have w0 : 0 ≤ f.u * (N / |D|) * V := by positivity
    have w1 : (n : ℝ) ^ 2 * (f.u * (N / |D|) * V) ≤ 6 * (n * (f.u * (N / |D|) * V)) := by
      rw [sq, mul_assoc]; exact mul_le_mul_of_nonneg_right hnR6 (by positivity)
    have w2 : 0 ≤ (n : ℝ) ^ 2 * b * f.eta := by positivity
    have w3 : 0 ≤ n * (f.u * (N / |D|) * V) := by positivity
    refine (abs_add_le _ _).trans ?_
    linarith

end StaticMath
