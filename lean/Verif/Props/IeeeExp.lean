import Verif.Props.IeeeAxisAngle
import Verif.Props.Lie

/-!
# C131: the exponential of an antisymmetric matrix in floating point
-/

namespace StaticMath
open Flt

variable {f : Fmt}

private theorem kappa (hp : 8 ≤ f.p) : (1 + f.u) ^ 4 - 1 ≤ 403 / 100 * f.u := by
  have hu := Fmt.u_le_of_p hp
  have hu0 := f.u_pos
  have h2 : f.u * f.u ≤ 1 / 256 * f.u := mul_le_mul_of_nonneg_right hu hu0.le
  have h3 : f.u * f.u * f.u ≤ 1 / 256 * f.u * (1 / 256) := mul_le_mul h2 hu hu0.le (by positivity)
  have h4 : f.u * f.u * f.u * f.u ≤ 1 / 256 * f.u * (1 / 256) * (1 / 256) := mul_le_mul h3 hu hu0.le (by positivity)
  nlinarith

private theorem eta_small (hp : 8 ≤ f.p) : f.eta ≤ f.u / 256 := by
  have h1 := f.eta_le_sq
  have h2 := mul_le_mul_of_nonneg_right (Fmt.u_le_of_p hp) f.u_pos.le
  linarith

private theorem add3 (hp : 8 ≤ f.p) {a b c : Flt f} {v w x e1 e2 e3 : ℝ} (ha : Near a v e1) (hb : Near b w e2)
    (hc : Near c x e3) (he : e1 + e2 + e3 ≤ 235 / 10 * f.u) (h1 : |v + w| ≤ 1) (h2 : |v + w + x| ≤ 1) :
    Near (a + b + c) (v + w + x) (26 * f.u) := by
  have hu := Fmt.u_le_of_p hp
  have hu0 := f.u_pos
  have := ha.nonneg
  have := hb.nonneg
  have := hc.nonneg
  have s := Near.add hp ha hb (B := 11 / 10) (e := e1 + e2 + f.u * (11 / 10)) (by linarith) (by norm_num) le_rfl
  exact Near.add hp s hc (B := 12 / 10) (by linarith) (by norm_num) (by linarith)

private theorem unit_entry {K : Fin 3 → Fin 3 → ℝ} (hK : ∀ i j, K i j = -K j i)
    (hK2 : K 2 1 ^ 2 + K 0 2 ^ 2 + K 1 0 ^ 2 ≤ 1) (i j : Fin 3) : |K i j| ≤ 1 := by
  have hd (i : Fin 3) : K i i = 0 := by linarith [hK i i]
  have q1 := sq_nonneg (K 2 1)
  have q2 := sq_nonneg (K 0 2)
  have q3 := sq_nonneg (K 1 0)
  have a1 : |K 2 1| ≤ 1 := abs_le_one_iff_mul_self_le_one.2 (by nlinarith)
  have a2 : |K 0 2| ≤ 1 := abs_le_one_iff_mul_self_le_one.2 (by nlinarith)
  have a3 : |K 1 0| ≤ 1 := abs_le_one_iff_mul_self_le_one.2 (by nlinarith)
  fin_cases i <;> fin_cases j
  · exact (abs_eq_zero.2 (hd 0)).le.trans zero_le_one
  · exact (congrArg (|·|) (hK 0 1)).le.trans ((abs_neg _).le.trans a3)
  · exact a2
  · exact a3
  · exact (abs_eq_zero.2 (hd 1)).le.trans zero_le_one
  · exact (congrArg (|·|) (hK 1 2)).le.trans ((abs_neg _).le.trans a1)
  · exact (congrArg (|·|) (hK 2 0)).le.trans ((abs_neg _).le.trans a2)
  · exact a1
  · exact (abs_eq_zero.2 (hd 2)).le.trans zero_le_one

set_option linter.unusedSimpArgs false in
/-- The square of a matrix near `K`, itself of the form `S / |S|`. -/
theorem skew_square_near (hp : 8 ≤ f.p) (A : Mat 3 (Flt f)) (K : Fin 3 → Fin 3 → ℝ)
    (hK : ∀ i j, K i j = -K j i) (hK2 : K 2 1 ^ 2 + K 0 2 ^ 2 + K 1 0 ^ 2 ≤ 1)
    (hA : ∀ i j, Near (A i j) (K i j) (52 / 10 * f.u)) (hA0 : ∀ i, Near (A i i) 0 0) (i j : Fin 3) :
    Near (M33.mul A A i j) (K i 0 * K 0 j + K i 1 * K 1 j + K i 2 * K 2 j) (26 * f.u) ∧
      |K i 0 * K 0 j + K i 1 * K 1 j + K i 2 * K 2 j| ≤ 1 := by
  have hu := Fmt.u_le_of_p hp
  have hu0 := f.u_pos
  have hd (i : Fin 3) : K i i = 0 := by linarith [hK i i]
  have q1 := sq_nonneg (K 2 1)
  have q2 := sq_nonneg (K 0 2)
  have q3 := sq_nonneg (K 1 0)
  have hK1 := unit_entry hK hK2
  have pr (i j k : Fin 3) : Near (A i k * A k j) (K i k * K k j) (117 / 10 * f.u) :=
    Near.mul hp (hA i k) (hA k j) (A := 103 / 100) (C := 1) (D := 103 / 100) (B := 107 / 100) (by linarith [hK1 i k])
      (hK1 k j) (by linarith [hK1 k j]) (by norm_num) (by norm_num) (by linarith)
  have z1 (i j : Fin 3) : Near (A i i * A i j) (K i i * K i j) (f.u / 256) := by
    rw [hd i]
    exact Near.mul hp (hA0 i) (hA i j) (A := 0) (C := 1) (D := 103 / 100) (B := 0) (by simp)
      (hK1 i j) (by linarith [hK1 i j]) (by norm_num) (by norm_num) (by linarith)
  have z2 (i j : Fin 3) : Near (A i j * A j j) (K i j * K j j) (f.u / 256) := by
    rw [hd j]
    exact Near.mul hp (hA i j) (hA0 j) (A := 103 / 100) (C := 0) (D := 0) (B := 0) (by linarith [hK1 i j])
      (by simp) (by simp) (by norm_num) (by norm_num) (by linarith)
  have mle (a b c d : Fin 3) : |K a b * K c d| ≤ 1 := by
    rw [abs_mul]
    exact mul_le_one₀ (hK1 _ _) (abs_nonneg _) (hK1 _ _)
  have d01 : K 0 1 = -K 1 0 := hK 0 1
  have d12 : K 1 2 = -K 2 1 := hK 1 2
  have d20 : K 2 0 = -K 0 2 := hK 2 0
  fin_cases i <;> fin_cases j
  · have b1 : |K 0 0 * K 0 0 + K 0 1 * K 1 0| ≤ 1 := by
      simp only [hd 0, d01, d20, abs_le]; constructor <;> nlinarith
    have b2 : |K 0 0 * K 0 0 + K 0 1 * K 1 0 + K 0 2 * K 2 0| ≤ 1 := by
      simp only [hd 0, d01, d20, abs_le]; constructor <;> nlinarith
    exact ⟨add3 hp (z1 0 0) (pr 0 0 1) (pr 0 0 2) (by linarith) b1 b2, b2⟩
  · have b1 : |K 0 0 * K 0 1 + K 0 1 * K 1 1| ≤ 1 := by
      simp only [hd, zero_mul, mul_zero, zero_add, add_zero, abs_zero]
      exact zero_le_one
    have b2 : |K 0 0 * K 0 1 + K 0 1 * K 1 1 + K 0 2 * K 2 1| ≤ 1 := by
      simp only [hd, zero_mul, mul_zero, zero_add, add_zero]
      exact mle 0 2 2 1
    exact ⟨add3 hp (z1 0 1) (z2 0 1) (pr 0 1 2) (by linarith) b1 b2, b2⟩
  · have b1 : |K 0 0 * K 0 2 + K 0 1 * K 1 2| ≤ 1 := by
      simp only [hd, zero_mul, mul_zero, zero_add, add_zero, abs_zero]
      exact mle 0 1 1 2
    have b2 : |K 0 0 * K 0 2 + K 0 1 * K 1 2 + K 0 2 * K 2 2| ≤ 1 := by
      simp only [hd, zero_mul, mul_zero, zero_add, add_zero]
      exact mle 0 1 1 2
    exact ⟨add3 hp (z1 0 2) (pr 0 2 1) (z2 0 2) (by linarith) b1 b2, b2⟩
  · have b1 : |K 1 0 * K 0 0 + K 1 1 * K 1 0| ≤ 1 := by
      simp only [hd, zero_mul, mul_zero, zero_add, add_zero, abs_zero]
      exact zero_le_one
    have b2 : |K 1 0 * K 0 0 + K 1 1 * K 1 0 + K 1 2 * K 2 0| ≤ 1 := by
      simp only [hd, zero_mul, mul_zero, zero_add, add_zero]
      exact mle 1 2 2 0
    exact ⟨add3 hp (z2 1 0) (z1 1 0) (pr 1 0 2) (by linarith) b1 b2, b2⟩
  · have b1 : |K 1 0 * K 0 1 + K 1 1 * K 1 1| ≤ 1 := by
      simp only [hd 1, d01, d12, abs_le]; constructor <;> nlinarith
    have b2 : |K 1 0 * K 0 1 + K 1 1 * K 1 1 + K 1 2 * K 2 1| ≤ 1 := by
      simp only [hd 1, d01, d12, abs_le]; constructor <;> nlinarith
    exact ⟨add3 hp (pr 1 1 0) (z1 1 1) (pr 1 1 2) (by linarith) b1 b2, b2⟩
  · have b1 : |K 1 0 * K 0 2 + K 1 1 * K 1 2| ≤ 1 := by
      simp only [hd, zero_mul, mul_zero, zero_add, add_zero, abs_zero]
      exact mle 1 0 0 2
    have b2 : |K 1 0 * K 0 2 + K 1 1 * K 1 2 + K 1 2 * K 2 2| ≤ 1 := by
      simp only [hd, zero_mul, mul_zero, zero_add, add_zero]
      exact mle 1 0 0 2
    exact ⟨add3 hp (pr 1 2 0) (z1 1 2) (z2 1 2) (by linarith) b1 b2, b2⟩
  · have b1 : |K 2 0 * K 0 0 + K 2 1 * K 1 0| ≤ 1 := by
      simp only [hd, zero_mul, mul_zero, zero_add, add_zero, abs_zero]
      exact mle 2 1 1 0
    have b2 : |K 2 0 * K 0 0 + K 2 1 * K 1 0 + K 2 2 * K 2 0| ≤ 1 := by
      simp only [hd, zero_mul, mul_zero, zero_add, add_zero]
      exact mle 2 1 1 0
    exact ⟨add3 hp (z2 2 0) (pr 2 0 1) (z1 2 0) (by linarith) b1 b2, b2⟩
  · have b1 : |K 2 0 * K 0 1 + K 2 1 * K 1 1| ≤ 1 := by
      simp only [hd, zero_mul, mul_zero, zero_add, add_zero, abs_zero]
      exact mle 2 0 0 1
    have b2 : |K 2 0 * K 0 1 + K 2 1 * K 1 1 + K 2 2 * K 2 1| ≤ 1 := by
      simp only [hd, zero_mul, mul_zero, zero_add, add_zero]
      exact mle 2 0 0 1
    exact ⟨add3 hp (pr 2 1 0) (z2 2 1) (z1 2 1) (by linarith) b1 b2, b2⟩
  · have b1 : |K 2 0 * K 0 2 + K 2 1 * K 1 2| ≤ 1 := by
      simp only [hd 2, d12, d20, abs_le]; constructor <;> nlinarith
    have b2 : |K 2 0 * K 0 2 + K 2 1 * K 1 2 + K 2 2 * K 2 2| ≤ 1 := by
      simp only [hd 2, d12, d20, abs_le]; constructor <;> nlinarith
    exact ⟨add3 hp (pr 2 2 0) (pr 2 2 1) (z1 2 2) (by linarith) b1 b2, b2⟩

/-- The Rodrigues formula evaluated on a matrix near `K`, itself of the form `S / |S|`. -/
private theorem rodrigues_near (hp : 8 ≤ f.p) {ε : ℝ} (hε : ε ≤ 1 / 4) (A : Mat 3 (Flt f)) (K : Fin 3 → Fin 3 → ℝ)
    (hK : ∀ i j, K i j = -K j i) (hK2 : K 2 1 ^ 2 + K 0 2 ^ 2 + K 1 0 ^ 2 ≤ 1)
    (hA : ∀ i j, Near (A i j) (K i j) (52 / 10 * f.u)) (hA0 : ∀ i, Near (A i i) 0 0) {s c : Flt f} {S C : ℝ}
    (hs : Near s S ε) (hc : Near c C ε) (hS : |S| ≤ 1) (hC : |C| ≤ 1) (i j : Fin 3) :
    Near (M33.add (M33.add M33.one (M33.smul A s)) (M33.smul (M33.mul A A) (1 - c)) i j)
      ((1 : Matrix (Fin 3) (Fin 3) ℝ) i j + K i j * S + (K i 0 * K 0 j + K i 1 * K 1 j + K i 2 * K 2 j) * (1 - C))
      (214 / 100 * ε + 71 * f.u) := by
  have hu := Fmt.u_le_of_p hp
  have hu0 := f.u_pos
  have hε0 := hs.nonneg
  have hK1 := unit_entry hK hK2
  obtain ⟨nM, bM⟩ := skew_square_near hp A K hK hK2 hA hA0 i j
  have n1 : Near (1 - c) (1 - C) (ε + 9 / 4 * f.u) :=
    Near.sub hp Near.one hc (B := 9 / 4) (by have := abs_sub (1 : ℝ) C; rw [abs_one] at this; linarith) (by norm_num)
      (by linarith)
  have bC : |1 - C| ≤ 2 := by have := abs_sub (1 : ℝ) C; rw [abs_one] at this; linarith
  have n2 : Near (M33.mul A A i j * (1 - c)) ((K i 0 * K 0 j + K i 1 * K 1 j + K i 2 * K 2 j) * (1 - C))
      (111 / 100 * ε + 57 * f.u + f.u / 16) :=
    Near.mul hp nM n1 (A := 111 / 100) (C := 2) (D := 226 / 100) (B := 251 / 100) (by linarith) bC (by linarith)
      (by norm_num) (by norm_num) (by linarith)
  have n3 : Near (A i j * s) (K i j * S) (103 / 100 * ε + 65 / 10 * f.u) :=
    Near.mul hp (hA i j) hs (A := 103 / 100) (C := 1) (D := 125 / 100) (B := 1288 / 1000) (by linarith [hK1 i j]) hS
      (by linarith) (by norm_num) (by norm_num) (by linarith)
  have b3 : |K i j * S| ≤ 1 := by
    rw [abs_mul]
    exact mul_le_one₀ (hK1 _ _) (abs_nonneg _) hS
  have b4 : |(K i 0 * K 0 j + K i 1 * K 1 j + K i 2 * K 2 j) * (1 - C)| ≤ 2 := by
    rw [abs_mul]
    have := mul_le_mul bM bC (abs_nonneg _) zero_le_one
    linarith
  have no : Near ((M33.one : Mat 3 (Flt f)) i j) ((1 : Matrix (Fin 3) (Fin 3) ℝ) i j) 0 := by
    fin_cases i <;> fin_cases j
    exacts [Near.one, Near.zero, Near.zero, Near.zero, Near.one, Near.zero, Near.zero, Near.zero, Near.one]
  have bo : |(1 : Matrix (Fin 3) (Fin 3) ℝ) i j| ≤ 1 := by
    rw [Matrix.one_apply]
    split <;> simp
  have n4 : Near ((M33.one : Mat 3 (Flt f)) i j + A i j * s) ((1 : Matrix (Fin 3) (Fin 3) ℝ) i j + K i j * S)
      (103 / 100 * ε + 88 / 10 * f.u) :=
    Near.add hp no n3 (B := 23 / 10) (by linarith [abs_add_le ((1 : Matrix (Fin 3) (Fin 3) ℝ) i j) (K i j * S)]) (by norm_num) (by linarith)
  have n5 := Near.add hp n4 n2 (B := 49 / 10) (e := 214 / 100 * ε + 71 * f.u)
    (by linarith [abs_add_le ((1 : Matrix (Fin 3) (Fin 3) ℝ) i j) (K i j * S),
      abs_add_le ((1 : Matrix (Fin 3) (Fin 3) ℝ) i j + K i j * S) ((K i 0 * K 0 j + K i 1 * K 1 j + K i 2 * K 2 j) * (1 - C))])
    (by norm_num) (by linarith)
  have e : M33.add (M33.add M33.one (M33.smul A s)) (M33.smul (M33.mul A A) (1 - c)) i j =
      (M33.one : Mat 3 (Flt f)) i j + A i j * s + M33.mul A A i j * (1 - c) := by
    fin_cases i <;> fin_cases j <;> rfl
  rw [e]
  exact n5

theorem ls (x y : ℝ) : |Real.sin x - Real.sin y| ≤ |x - y| := by
  simpa [Real.dist_eq] using Real.lipschitzWith_sin.dist_le_mul x y

theorem lc (x y : ℝ) : |Real.cos x - Real.cos y| ≤ |x - y| := by
  simpa [Real.dist_eq] using Real.lipschitzWith_cos.dist_le_mul x y

/-- The exponential series of an antisymmetric matrix with vector of length `N > 0`, entry by entry. -/
theorem exp_skew_entry (S : Matrix (Fin 3) (Fin 3) ℝ) (hS : ∀ i j, S i j = -S j i) (N : ℝ) (hN : 0 < N)
    (hN2 : N ^ 2 = S 2 1 ^ 2 + S 0 2 ^ 2 + S 1 0 ^ 2) (i j : Fin 3) :
    NormedSpace.exp S i j = (1 : Matrix (Fin 3) (Fin 3) ℝ) i j + S i j / N * Real.sin N +
      (S i 0 / N * (S 0 j / N) + S i 1 / N * (S 1 j / N) + S i 2 / N * (S 2 j / N)) * (1 - Real.cos N) := by
  let _ : RealParams := f64Params
  let u : Vec 3 ℝ := ⟨![S 2 1 / N, S 0 2 / N, S 1 0 / N]⟩
  have hu : u 0 ^ 2 + u 1 ^ 2 + u 2 ^ 2 = 1 := by
    change (S 2 1 / N) ^ 2 + (S 0 2 / N) ^ 2 + (S 1 0 / N) ^ 2 = 1
    rw [div_pow, div_pow, div_pow, ← add_div, ← add_div, ← hN2, div_self (by positivity)]
  have hd (i : Fin 3) : S i i = 0 := by linarith [hS i i]
  have hk (i j : Fin 3) : (skew_from_vec u).toM i j = S i j / N := by
    fin_cases i <;> fin_cases j
    · exact (by rw [hd 0, zero_div] : (0 : ℝ) = S 0 0 / N)
    · exact (by rw [hS 0 1, neg_div] : -(S 1 0 / N) = S 0 1 / N)
    · rfl
    · rfl
    · exact (by rw [hd 1, zero_div] : (0 : ℝ) = S 1 1 / N)
    · exact (by rw [hS 1 2, neg_div] : -(S 2 1 / N) = S 1 2 / N)
    · exact (by rw [hS 2 0, neg_div] : -(S 0 2 / N) = S 2 0 / N)
    · rfl
    · exact (by rw [hd 2, zero_div] : (0 : ℝ) = S 2 2 / N)
  have hSu : S = N • (skew_from_vec u).toM := by
    ext i j
    rw [Matrix.smul_apply, hk, smul_eq_mul, mul_div_cancel₀ _ hN.ne']
  have h1 := (C78_rodrigues u hu N 0).1
  rw [← hSu, rodrigues_toM] at h1
  rw [← h1, Matrix.add_apply, Matrix.add_apply, Matrix.smul_apply, Matrix.smul_apply, sq, Matrix.mul_apply, Fin.sum_univ_three,
    hk, hk, hk, hk, hk, hk, hk]
  simp only [smul_eq_mul]
  ring

private theorem skew_sq_bound {M : Matrix (Fin 3) (Fin 3) ℝ} (hMa : ∀ i j, M i j = -M j i) {N : ℝ}
    (hMN : N ^ 2 = M 2 1 ^ 2 + M 0 2 ^ 2 + M 1 0 ^ 2) (i j : Fin 3) :
    |M i 0 / N * (M 0 j / N) + M i 1 / N * (M 1 j / N) + M i 2 / N * (M 2 j / N)| ≤ 1 := by
  have h1 : (M i 0 / N) ^ 2 + (M i 1 / N) ^ 2 + (M i 2 / N) ^ 2 ≤ 1 := by
    rw [div_pow, div_pow, div_pow, ← add_div, ← add_div]
    refine div_le_one_of_le₀ ?_ (sq_nonneg N)
    rw [hMN]
    have z (i) : M i i = 0 := by linarith [hMa i i]
    have a01 : M 0 1 = -M 1 0 := hMa 0 1
    have a12 : M 1 2 = -M 2 1 := hMa 1 2
    have a20 : M 2 0 = -M 0 2 := hMa 2 0
    fin_cases i
    · change M 0 0 ^ 2 + M 0 1 ^ 2 + M 0 2 ^ 2 ≤ _
      rw [z, a01]
      nlinarith
    · change M 1 0 ^ 2 + M 1 1 ^ 2 + M 1 2 ^ 2 ≤ _
      rw [z, a12]
      nlinarith
    · change M 2 0 ^ 2 + M 2 1 ^ 2 + M 2 2 ^ 2 ≤ _
      rw [z, a20]
      nlinarith
  have h2 : (M 0 j / N) ^ 2 + (M 1 j / N) ^ 2 + (M 2 j / N) ^ 2 ≤ 1 := by
    rw [div_pow, div_pow, div_pow, ← add_div, ← add_div]
    refine div_le_one_of_le₀ ?_ (sq_nonneg N)
    rw [hMN]
    have z (i) : M i i = 0 := by linarith [hMa i i]
    have a01 : M 0 1 = -M 1 0 := hMa 0 1
    have a12 : M 1 2 = -M 2 1 := hMa 1 2
    have a20 : M 2 0 = -M 0 2 := hMa 2 0
    fin_cases j
    · change M 0 0 ^ 2 + M 1 0 ^ 2 + M 2 0 ^ 2 ≤ _
      rw [z, a20]
      nlinarith
    · change M 0 1 ^ 2 + M 1 1 ^ 2 + M 2 1 ^ 2 ≤ _
      rw [z, a01]
      nlinarith
    · change M 0 2 ^ 2 + M 1 2 ^ 2 + M 2 2 ^ 2 ≤ _
      rw [z, a12]
      nlinarith
  generalize M i 0 / N = a at *
  generalize M i 1 / N = b at *
  generalize M i 2 / N = c at *
  generalize M 0 j / N = d at *
  generalize M 1 j / N = e at *
  generalize M 2 j / N = g at *
  rw [abs_le]
  constructor
  · nlinarith [sq_nonneg (a + d), sq_nonneg (b + e), sq_nonneg (c + g)]
  · nlinarith [sq_nonneg (a - d), sq_nonneg (b - e), sq_nonneg (c - g)]

private theorem move {t N a k k2 : ℝ} (h : |t - N| ≤ a) (hk : |k| ≤ 1) (hk2 : |k2| ≤ 1) (o : ℝ) :
    |o + k * Real.sin t + k2 * (1 - Real.cos t) - (o + k * Real.sin N + k2 * (1 - Real.cos N))| ≤ 2 * a := by
  have m1 := mul_le_mul hk ((ls t N).trans h) (abs_nonneg _) zero_le_one
  have m2 := mul_le_mul hk2 ((lc N t).trans ((abs_sub_comm _ _).le.trans h)) (abs_nonneg _) zero_le_one
  rw [← abs_mul] at m1 m2
  rw [show o + k * Real.sin t + k2 * (1 - Real.cos t) - (o + k * Real.sin N + k2 * (1 - Real.cos N)) =
    k * (Real.sin t - Real.sin N) + k2 * (Real.cos N - Real.cos t) by ring]
  exact (abs_add_le _ _).trans (by linarith)

/-- The norm of the vector of an antisymmetric matrix, and the matrix divided by it. -/
theorem skew_unit [Libm f] (hp : 8 ≤ f.p) (S : Mat 3 (Flt f))
    (hS : ∀ i j, (S i j).IsFin ∧ (S i j).toReal = -(S j i).toReal) (hf : (V3.norm2 (skew_to_vec S)).IsFin)
    (hn : ∀ i j, (S i j).toReal = 0 ∨ (2 : ℝ) ^ f.emin ≤ (S i j).toReal ^ 2) (N : ℝ)
    (hNe : N = √((S 2 1).toReal ^ 2 + (S 0 2).toReal ^ 2 + (S 1 0).toReal ^ 2)) {t : Flt f}
    (ht : t = V3.norm2 (skew_to_vec S)) :
    |t.toReal - N| ≤ 403 / 100 * f.u * N ∧ 0 ≤ t.toReal ∧ (∀ i j, |(S i j).toReal| ≤ N) ∧
    (nearly_zero t = true → N ≤ 21 / 10 * f.u) ∧
    (nearly_zero t = false → 0 < N ∧ 2 * f.u ≤ t.toReal ∧ (∃ w, V3.normalize (skew_to_vec S) = .ok (.ok w)) ∧
      (∀ i j, Near (M33.sdiv S t i j) ((S i j).toReal / N) (52 / 10 * f.u)) ∧ ∀ i, Near (M33.sdiv S t i i) 0 0) := by
  have hu := Fmt.u_le_of_p hp
  have hu0 := f.u_pos
  have hη := eta_small hp
  have hη0 := f.eta_pos
  have hκ := kappa hp
  have hN0 : 0 ≤ N := by rw [hNe]; exact Real.sqrt_nonneg _
  have hNu := mul_nonneg hN0 hu0.le
  have hNsq : N ^ 2 = (S 2 1).toReal ^ 2 + (S 0 2).toReal ^ 2 + (S 1 0).toReal ^ 2 := by
    rw [hNe, Real.sq_sqrt (by positivity)]
  have hd (i : Fin 3) : (S i i).toReal = 0 := by linarith [(hS i i).2]
  have hle (i j : Fin 3) : |(S i j).toReal| ≤ N := by
    have a1 : |(S 2 1).toReal| ≤ N := abs_le_of_sq_le_sq (by nlinarith) hN0
    have a2 : |(S 0 2).toReal| ≤ N := abs_le_of_sq_le_sq (by nlinarith) hN0
    have a3 : |(S 1 0).toReal| ≤ N := abs_le_of_sq_le_sq (by nlinarith) hN0
    fin_cases i <;> fin_cases j
    · exact (abs_eq_zero.2 (hd 0)).le.trans hN0
    · exact (congrArg (|·|) (hS 0 1).2).le.trans ((abs_neg _).le.trans a3)
    · exact a2
    · exact a3
    · exact (abs_eq_zero.2 (hd 1)).le.trans hN0
    · exact (congrArg (|·|) (hS 1 2).2).le.trans ((abs_neg _).le.trans a1)
    · exact (congrArg (|·|) (hS 2 0).2).le.trans ((abs_neg _).le.trans a2)
    · exact a1
    · exact (abs_eq_zero.2 (hd 2)).le.trans hN0
  have hv : ∀ k, (skew_to_vec S k).IsFin := by
    intro k
    fin_cases k
    exacts [(hS 2 1).1, (hS 0 2).1, (hS 1 0).1]
  have hvn : ∀ k, (skew_to_vec S k).toReal = 0 ∨ (2 : ℝ) ^ f.emin ≤ (skew_to_vec S k).toReal ^ 2 := by
    intro k
    fin_cases k
    exacts [hn 2 1, hn 0 2, hn 1 0]
  have hNs : √(∑ k, (skew_to_vec S k).toReal ^ 2) = N := by
    rw [hNe, Fin.sum_univ_three]
    rfl
  obtain ⟨hθ, hw⟩ := C106_V3 (skew_to_vec S) hv hf hvn (by linarith)
  rw [hNs] at hθ hw
  rw [← ht] at hf hθ
  have hθ1 : |t.toReal - N| ≤ 403 / 100 * f.u * N := hθ.trans (mul_le_mul_of_nonneg_right hκ hN0)
  obtain ⟨hθl, hθr⟩ := abs_le.1 hθ1
  have hNs : f.u * N ≤ 1 / 256 * N := mul_le_mul_of_nonneg_right hu hN0
  have ht0 : 0 ≤ t.toReal := by linarith
  have e2u : (2 : ℝ) ^ (1 - (f.p : ℤ)) = 2 * f.u := by
    unfold Fmt.u
    rw [zpow_sub₀ (by norm_num), zpow_neg, zpow_one]
    rfl
  obtain ⟨M, hM⟩ : ∃ M : Matrix (Fin 3) (Fin 3) ℝ, M = Matrix.of fun i j => (S i j).toReal := ⟨_, rfl⟩
  have hMe (i j : Fin 3) : M i j = (S i j).toReal := by rw [hM]; rfl
  have hMa : ∀ i j, M i j = -M j i := fun i j => by rw [hMe, hMe]; exact (hS i j).2
  have hMN : N ^ 2 = M 2 1 ^ 2 + M 0 2 ^ 2 + M 1 0 ^ 2 := by rw [hMe, hMe, hMe]; exact hNsq
  -- the entries of the exact exponential
  have kb (hNp : 0 < N) (i j : Fin 3) : |M i j / N| ≤ 1 := by
    rw [abs_div, abs_of_pos hNp, hMe]
    exact div_le_one_of_le₀ (hle i j) hN0
  refine ⟨hθ1, ht0, hle, fun hz => ?_, fun hz => ?_⟩
  · rw [nearly_zero_flt, e2u, abs_of_nonneg ht0] at hz
    linarith [hz.2]
  · have hz' : 2 * f.u ≤ t.toReal := by
      by_contra hc
      push Not at hc
      rw [(nearly_zero_flt t).2 ⟨hf, by rw [e2u, abs_of_nonneg ht0]; exact hc⟩] at hz
      cases hz
    have htp : 0 < t.toReal := by linarith
    have hNp : 0 < N := by
      rcases hN0.eq_or_lt with h1 | h1
      · rw [← h1] at hθr
        linarith
      · exact h1
    obtain ⟨w, hw1, -⟩ := hw hNp
    have hA (i j : Fin 3) : M33.sdiv S t i j = S i j / t := by fin_cases i <;> fin_cases j <;> rfl
    have hNt : N / t.toReal ≤ 1017 / 1000 := by
      rw [div_le_iff₀ htp]
      linarith
    have hvt (i j : Fin 3) : |(S i j).toReal| / t.toReal ≤ 1017 / 1000 :=
      (div_le_div_of_nonneg_right (hle i j) ht0).trans hNt
    have hfd (i j : Fin 3) : (S i j / t).IsFin := by
      refine div_isFin (hS i j).1 hf htp.ne' (Fmt.range_of_p hp ?_)
      rw [abs_div, abs_of_pos htp]
      linarith [hvt i j]
    have n1 (i j : Fin 3) : Near (M33.sdiv S t i j) ((S i j).toReal / N) (52 / 10 * f.u) := by
      rw [hA, ← hMe]
      refine ⟨hfd i j, ?_⟩
      have h1 := (div_err hf (hfd i j)).2
      rw [abs_div, abs_of_pos htp] at h1
      have h2 := mul_le_mul_of_nonneg_left (hvt i j) hu0.le
      have h3 : |(S i j).toReal / t.toReal - M i j / N| ≤ 41 / 10 * f.u := by
        have e : (S i j).toReal / t.toReal - M i j / N = M i j / N * ((N - t.toReal) / t.toReal) := by
          rw [hMe]
          field_simp
        rw [e, abs_mul, abs_div (N - t.toReal), abs_of_pos htp]
        have m1 : |N - t.toReal| / t.toReal ≤ 41 / 10 * f.u := by
          rw [div_le_iff₀ htp, abs_sub_comm]
          rw [div_le_iff₀ htp] at hNt
          have := mul_le_mul_of_nonneg_left hNt hu0.le
          have := mul_nonneg hu0.le ht0
          nlinarith
        have m2 := mul_le_mul (kb hNp i j) m1 (by positivity) zero_le_one
        linarith
      have h4 := abs_sub_le (S i j / t).toReal ((S i j).toReal / t.toReal) (M i j / N)
      linarith
    have n0 (i : Fin 3) : Near (M33.sdiv S t i i) 0 0 := by
      rw [hA]
      refine ⟨hfd i i, ?_⟩
      have h1 := (abs_div_val hf (hfd i i)).2
      rw [hd i, zero_div, abs_zero, f.rnd_zero] at h1
      rw [sub_zero, h1]
    exact ⟨hNp, hz', ⟨w, hw1⟩, n1, n0⟩

/-- `matrix_exponential` of an antisymmetric matrix whose vector has length `N`: no panic, and within
`2.2 ε + (9 N + 72) u` of the exponential series in every entry, also below the threshold where the code
returns the identity. -/
theorem C131_matrix_exponential [Libm f] (hp : 8 ≤ f.p) {ε : ℝ} (h : SinCosAcc f ε) (hε : ε ≤ 1 / 4)
    (S : Mat 3 (Flt f)) (hS : ∀ i j, (S i j).IsFin ∧ (S i j).toReal = -(S j i).toReal)
    (hf : (V3.norm2 (skew_to_vec S)).IsFin)
    (hn : ∀ i j, (S i j).toReal = 0 ∨ (2 : ℝ) ^ f.emin ≤ (S i j).toReal ^ 2) (N : ℝ)
    (hNe : N = √((S 2 1).toReal ^ 2 + (S 0 2).toReal ^ 2 + (S 1 0).toReal ^ 2)) :
    ∃ R, matrix_exponential S = .ok R ∧ ∀ i j, (R i j).IsFin ∧
      |(R i j).toReal - NormedSpace.exp (Matrix.of fun i j => (S i j).toReal) i j| ≤
        11 / 5 * ε + (9 * N + 72) * f.u := by
  have hu := Fmt.u_le_of_p hp
  have hu0 := f.u_pos
  have hε0 := acc_nonneg h
  obtain ⟨t, ht⟩ : ∃ t, t = V3.norm2 (skew_to_vec S) := ⟨_, rfl⟩
  obtain ⟨hθ1, ht0, hle, hzt, hzf⟩ := skew_unit hp S hS hf hn N hNe ht
  rw [← ht] at hf
  have hN0 : 0 ≤ N := by rw [hNe]; exact Real.sqrt_nonneg _
  have hNu := mul_nonneg hN0 hu0.le
  have hNsq : N ^ 2 = (S 2 1).toReal ^ 2 + (S 0 2).toReal ^ 2 + (S 1 0).toReal ^ 2 := by
    rw [hNe, Real.sq_sqrt (by positivity)]
  obtain ⟨M, hM⟩ : ∃ M : Matrix (Fin 3) (Fin 3) ℝ, M = Matrix.of fun i j => (S i j).toReal := ⟨_, rfl⟩
  have hMe (i j : Fin 3) : M i j = (S i j).toReal := by rw [hM]; rfl
  have hMa : ∀ i j, M i j = -M j i := fun i j => by rw [hMe, hMe]; exact (hS i j).2
  have hMN : N ^ 2 = M 2 1 ^ 2 + M 0 2 ^ 2 + M 1 0 ^ 2 := by rw [hMe, hMe, hMe]; exact hNsq
  -- the entries of the exact exponential
  have kb (hNp : 0 < N) (i j : Fin 3) : |M i j / N| ≤ 1 := by
    rw [abs_div, abs_of_pos hNp, hMe]
    exact div_le_one_of_le₀ (hle i j) hN0
  have k2b := skew_sq_bound hMa hMN
  by_cases hz : nearly_zero t = true
  · refine ⟨M33.one, ?_, fun i j => ?_⟩
    · unfold matrix_exponential
      simp only [← ht, hz]
      rfl
    have hN3 := hzt hz
    have no : ((M33.one : Mat 3 (Flt f)) i j).IsFin ∧
        ((M33.one : Mat 3 (Flt f)) i j).toReal = (1 : Matrix (Fin 3) (Fin 3) ℝ) i j := by
      fin_cases i <;> fin_cases j
      exacts [⟨trivial, toReal_one⟩, ⟨trivial, toReal_zero⟩, ⟨trivial, toReal_zero⟩, ⟨trivial, toReal_zero⟩, ⟨trivial, toReal_one⟩,
        ⟨trivial, toReal_zero⟩, ⟨trivial, toReal_zero⟩, ⟨trivial, toReal_zero⟩, ⟨trivial, toReal_one⟩]
    refine ⟨no.1, ?_⟩
    rw [no.2, ← hM]
    rcases hN0.eq_or_lt with h0 | hNp
    · have : M = 0 := by
        ext i j
        have := hle i j
        rw [← h0] at this
        rw [hMe]
        exact abs_nonpos_iff.1 this
      rw [this, NormedSpace.exp_zero, sub_self, abs_zero]
      nlinarith
    · rw [exp_skew_entry M hMa N hNp hMN]
      have s0 := ls N 0
      rw [Real.sin_zero, sub_zero, sub_zero, abs_of_pos hNp] at s0
      have c0 := lc 0 N
      rw [Real.cos_zero, zero_sub, abs_neg, abs_of_pos hNp] at c0
      have m1 := mul_le_mul (kb hNp i j) s0 (abs_nonneg _) zero_le_one
      have m2 := mul_le_mul (k2b i j) c0 (abs_nonneg _) zero_le_one
      rw [← abs_mul] at m1 m2
      have m3 := abs_add_le (M i j / N * Real.sin N)
        ((M i 0 / N * (M 0 j / N) + M i 1 / N * (M 1 j / N) + M i 2 / N * (M 2 j / N)) * (1 - Real.cos N))
      rw [abs_sub_comm, add_assoc, add_sub_cancel_left]
      linarith
  · rw [Bool.not_eq_true] at hz
    obtain ⟨hNp, hz', ⟨w, hw1⟩, n1, n0⟩ := hzf hz
    refine ⟨M33.add (M33.add M33.one (M33.smul (M33.sdiv S t) (Libm.sin t)))
      (M33.smul (M33.mul (M33.sdiv S t) (M33.sdiv S t)) (1 - Libm.cos t)), ?_, fun i j => ?_⟩
    · unfold matrix_exponential axis_angle
      simp only [← ht, hz]
      rw [hw1]
      rfl
    have hs := h.sin t hf
    have hc := h.cos t hf
    have key := rodrigues_near hp hε (M33.sdiv S t) (fun i j => M i j / N) (fun i j => by rw [hMa i j, neg_div])
      (by rw [div_pow, div_pow, div_pow, ← add_div, ← add_div, ← hMN, div_self (by positivity)]) (fun i j => by rw [hMe]; exact n1 i j) n0
      ⟨hs.1, hs.2⟩ ⟨hc.1, hc.2⟩ (Real.abs_sin_le_one _) (Real.abs_cos_le_one _) i j
    refine ⟨key.fin, ?_⟩
    rw [← hM, exp_skew_entry M hMa N hNp hMN]
    have m4 := move hθ1 (kb hNp i j) (k2b i j) ((1 : Matrix (Fin 3) (Fin 3) ℝ) i j)
    exact (abs_sub_le _ _ _).trans ((add_le_add key.err m4).trans (by linarith))

/-- The exponential of an antisymmetric matrix is a rotation. -/
theorem exp_skew_rot (M : Matrix (Fin 3) (Fin 3) ℝ) (hMa : ∀ i j, M i j = -M j i) :
    ∃ G : Mat 3 ℝ, IsRot G ∧ G.toM = NormedSpace.exp M := by
  let _ : RealParams := f64Params
  obtain ⟨N, hNe⟩ : ∃ N, N = √(M 2 1 ^ 2 + M 0 2 ^ 2 + M 1 0 ^ 2) := ⟨_, rfl⟩
  have hN0 : 0 ≤ N := by rw [hNe]; exact Real.sqrt_nonneg _
  have hMN : N ^ 2 = M 2 1 ^ 2 + M 0 2 ^ 2 + M 1 0 ^ 2 := by
    rw [hNe, Real.sq_sqrt (by positivity)]
  have hd (i : Fin 3) : M i i = 0 := by linarith [hMa i i]
  let w : Vec 3 ℝ := ⟨![M 2 1, M 0 2, M 1 0]⟩
  have hsk : (skew_from_vec w).toM = M := by
    ext i j
    fin_cases i <;> fin_cases j
    exacts [(hd 0).symm, (hMa 0 1).symm, rfl, rfl, (hd 1).symm, (hMa 1 2).symm, (hMa 2 0).symm, rfl, (hd 2).symm]
  rcases hN0.eq_or_lt with h0 | h0
  · refine ⟨M33.one, (mem_SO3_iff _).2 ⟨by rw [M33.toM_one]; simp, by rw [M33.toM_one, Matrix.det_one]⟩, ?_⟩
    have : M = 0 := by
      rw [← h0] at hMN
      have a1 : M 2 1 = 0 := by nlinarith [sq_nonneg (M 2 1), sq_nonneg (M 0 2), sq_nonneg (M 1 0)]
      have a2 : M 0 2 = 0 := by nlinarith [sq_nonneg (M 2 1), sq_nonneg (M 0 2), sq_nonneg (M 1 0)]
      have a3 : M 1 0 = 0 := by nlinarith [sq_nonneg (M 2 1), sq_nonneg (M 0 2), sq_nonneg (M 1 0)]
      rw [← hsk]
      ext i j
      fin_cases i <;> fin_cases j
      exacts [rfl, neg_eq_zero.2 a3, a2, a3, rfl, neg_eq_zero.2 a1, neg_eq_zero.2 a2, a1, rfl]
    rw [this, NormedSpace.exp_zero, M33.toM_one]
  · have hw : V3.norm2 w = N := by
      rw [V3.norm2_eq_sqrt]
      change √(M 2 1 ^ 2 + M 0 2 ^ 2 + M 1 0 ^ 2) = N
      rw [← hMN, Real.sqrt_sq hN0]
    have hpos : 0 < V3.norm2 w := by rw [hw]; exact h0
    obtain ⟨r1, r2, -⟩ := C78_rodrigues ⟨fun i => w i / V3.norm2 w⟩ (unit_of_div w hpos) (V3.norm2 w) 0
    refine ⟨_, r2, r1.trans ?_⟩
    rw [← skew_smul, smul_div_norm w hpos, hsk]

/-- The computed matrix is orthogonal up to `6 E + 3 E^2`, `E` the bound of `C131_matrix_exponential`. -/
theorem C131_orthogonal [Libm f] (hp : 8 ≤ f.p) {ε : ℝ} (h : SinCosAcc f ε) (hε : ε ≤ 1 / 4)
    (S : Mat 3 (Flt f)) (hS : ∀ i j, (S i j).IsFin ∧ (S i j).toReal = -(S j i).toReal)
    (hf : (V3.norm2 (skew_to_vec S)).IsFin)
    (hn : ∀ i j, (S i j).toReal = 0 ∨ (2 : ℝ) ^ f.emin ≤ (S i j).toReal ^ 2) (N : ℝ)
    (hNe : N = √((S 2 1).toReal ^ 2 + (S 0 2).toReal ^ 2 + (S 1 0).toReal ^ 2)) :
    ∃ R, matrix_exponential S = .ok R ∧ ∀ i j,
      let E := 11 / 5 * ε + (9 * N + 72) * f.u
      let A : Matrix (Fin 3) (Fin 3) ℝ := Matrix.of fun i j => (R i j).toReal
      |(A * A.transpose) i j - (1 : Matrix (Fin 3) (Fin 3) ℝ) i j| ≤ 6 * E + 3 * E ^ 2 := by
  obtain ⟨R, h1, h2⟩ := C131_matrix_exponential hp h hε S hS hf hn N hNe
  refine ⟨R, h1, fun i j => ?_⟩
  intro E A
  obtain ⟨M, hM⟩ : ∃ M : Matrix (Fin 3) (Fin 3) ℝ, M = Matrix.of fun i j => (S i j).toReal := ⟨_, rfl⟩
  have hMe (i j : Fin 3) : M i j = (S i j).toReal := by rw [hM]; rfl
  have hMa : ∀ i j, M i j = -M j i := fun i j => by rw [hMe, hMe]; exact (hS i j).2
  obtain ⟨G, hG, hGe⟩ := exp_skew_rot M hMa
  refine near_orth (A := ⟨fun i j => (R i j).toReal⟩) hG (fun i j => ?_) i j
  have h3 := (h2 i j).2
  rw [← hM, ← hGe] at h3
  exact h3

/-- The exponential of the antisymmetric matrix of `(1, 1, 1)` in single precision. -/
example : letI := correctLibm Fmt.f32
    ∃ R, matrix_exponential (skew_from_vec ⟨fun _ => (1 : Flt Fmt.f32)⟩) = .ok R ∧
      ∀ i j, |(R i j).toReal - NormedSpace.exp !![(0 : ℝ), -1, 1; 1, 0, -1; -1, 1, 0] i j| ≤ 2 ^ (-17 : ℤ) := by
  let _ := correctLibm Fmt.f32
  have hu : Fmt.f32.u = (2 : ℝ) ^ (-24 : ℤ) := rfl
  let S : Mat 3 (Flt Fmt.f32) := skew_from_vec ⟨fun _ => (1 : Flt Fmt.f32)⟩
  have n1 : (-1 : Flt Fmt.f32).toReal = -1 := by rw [toReal_neg, toReal_one]
  have hv : (Matrix.of fun i j => (S i j).toReal) = !![(0 : ℝ), -1, 1; 1, 0, -1; -1, 1, 0] := by
    ext i j
    fin_cases i <;> fin_cases j
    exacts [toReal_zero (f := Fmt.f32), n1, toReal_one (f := Fmt.f32), toReal_one (f := Fmt.f32), toReal_zero (f := Fmt.f32), n1, n1,
      toReal_one (f := Fmt.f32), toReal_zero (f := Fmt.f32)]
  have hve (i j : Fin 3) : (S i j).toReal = !![(0 : ℝ), -1, 1; 1, 0, -1; -1, 1, 0] i j := by rw [← hv]; rfl
  have hS : ∀ i j, (S i j).IsFin ∧ (S i j).toReal = -(S j i).toReal := by
    intro i j
    refine ⟨?_, ?_⟩
    · fin_cases i <;> fin_cases j <;> exact trivial
    · rw [hve, hve]
      fin_cases i <;> fin_cases j <;> norm_num
  obtain ⟨R, h1, h2⟩ := C131_matrix_exponential (f := Fmt.f32) (by decide) (correctLibm_sin_cos (by decide))
    (by rw [hu]; norm_num) S hS ones_norm
    (by
      intro i j
      rw [hve]
      change _ ∨ (2 : ℝ) ^ (-126 : ℤ) ≤ _
      fin_cases i <;> fin_cases j <;> norm_num) (√3)
    (by
      have e (i j) : (S i j).toReal = !![(0 : ℝ), -1, 1; 1, 0, -1; -1, 1, 0] i j := hve i j
      rw [e, e, e]
      change √3 = √((1 : ℝ) ^ 2 + 1 ^ 2 + 1 ^ 2)
      norm_num)
  refine ⟨R, h1, fun i j => ?_⟩
  have h3 := (h2 i j).2
  rw [hv] at h3
  refine h3.trans ?_
  have h4 : √3 ≤ 2 := Real.sqrt_le_iff.2 (by norm_num)
  rw [hu]
  nlinarith

end StaticMath
