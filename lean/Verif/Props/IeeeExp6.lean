import Verif.Props.IeeeLog
import Verif.Props.Lie6

/-!
# C133: the exponential of SE(3) in floating point
-/

namespace StaticMath
open Flt

/-! ## The exact exponential -/

theorem exp6_entries (X : Mat 4 ℝ) (hX : IsSe3 X) (N : ℝ) (hN : 0 < N)
    (hN2 : N ^ 2 = X 2 1 ^ 2 + X 0 2 ^ 2 + X 1 0 ^ 2) :
    (∀ i j : Fin 3, NormedSpace.exp X.toM i.castSucc j.castSucc =
      NormedSpace.exp (Matrix.of fun i j : Fin 3 => X i.castSucc j.castSucc) i j) ∧
    (∀ i : Fin 3, NormedSpace.exp X.toM i.castSucc 3 =
      (∑ j : Fin 3, (N * (1 : Matrix (Fin 3) (Fin 3) ℝ) i j + X i.castSucc j.castSucc / N * (1 - Real.cos N) +
        (∑ k : Fin 3, X i.castSucc k.castSucc / N * (X k.castSucc j.castSucc / N)) * (N - Real.sin N)) * X j.castSucc 3) / N) ∧
    ∀ j : Fin 4, NormedSpace.exp X.toM 3 j = if j = 3 then 1 else 0 := by
  let _ : RealParams := f64Params
  have hsk : ∀ i j : Fin 3, X i.castSucc j.castSucc = -X j.castSucc i.castSucc := hX.skew
  have s01 : X 0 1 = -X 1 0 := hsk 0 1
  have s12 : X 1 2 = -X 2 1 := hsk 1 2
  have s20 : X 2 0 = -X 0 2 := hsk 2 0
  have s00 : X 0 0 = 0 := by have : X 0 0 = -X 0 0 := hsk 0 0; linarith
  have s11 : X 1 1 = 0 := by have : X 1 1 = -X 1 1 := hsk 1 1; linarith
  have s22 : X 2 2 = 0 := by have : X 2 2 = -X 2 2 := hsk 2 2; linarith
  have hN0 := hN.ne'
  let u : Vec 3 ℝ := ⟨![X 2 1 / N, X 0 2 / N, X 1 0 / N]⟩
  let v : Vec 3 ℝ := ⟨![X 0 3, X 1 3, X 2 3]⟩
  have hu : u 0 ^ 2 + u 1 ^ 2 + u 2 ^ 2 = 1 := by
    change (X 2 1 / N) ^ 2 + (X 0 2 / N) ^ 2 + (X 1 0 / N) ^ 2 = 1
    rw [div_pow, div_pow, div_pow, ← add_div, ← add_div, ← hN2, div_self (by positivity)]
  have hus : skew_from_vec (V3.smul u N) = ⟨![![0, -X 1 0, X 0 2], ![X 1 0, 0, -X 2 1], ![-X 0 2, X 2 1, 0]]⟩ := by
    have e0 : X 2 1 / N * N = X 2 1 := div_mul_cancel₀ _ hN0
    have e1 : X 0 2 / N * N = X 0 2 := div_mul_cancel₀ _ hN0
    have e2 : X 1 0 / N * N = X 1 0 := div_mul_cancel₀ _ hN0
    refine Mat.ext3 rfl ?_ ?_ ?_ rfl ?_ ?_ ?_ rfl
    exacts [congrArg Neg.neg e2, e1, e2, congrArg Neg.neg e0, congrArg Neg.neg e1, e0]
  have e : X = se3_from_parts (skew_from_vec (V3.smul u N)) v := by
    rw [hus]
    refine Mat.ext4 s00 s01 rfl rfl rfl s11 s12 rfl s20 rfl s22 rfl (hX.last 0) (hX.last 1) (hX.last 2) (hX.last 3)
  have key : NormedSpace.exp X.toM = _ := (congrArg (fun Y : Mat 4 ℝ => NormedSpace.exp Y.toM) e).trans (exp_se3 u v N hN0 hu)
  rw [key]
  refine ⟨fun i j => ?_, fun i => ?_, fun j => ?_⟩
  · have h1 := (C78_rodrigues u hu N 0).1
    have h2 : (Matrix.of fun i j : Fin 3 => X i.castSucc j.castSucc) = (skew_from_vec (V3.smul u N)).toM := by
      rw [hus]
      ext i j
      fin_cases i <;> fin_cases j
      exacts [s00, s01, rfl, rfl, s11, s12, s20, rfl, s22]
    rw [h2, skew_smul, ← h1]
    fin_cases i <;> fin_cases j <;> rfl
  · have hl : ∀ i : Fin 3, (homogeneous_from_rotation (rotation_from_axis_angle u N)
        (V3.sdiv (M33.mulVec (vmap (skew_from_vec u) N) v) N)).toM i.castSucc 3 =
        (∑ j, vmap (skew_from_vec u) N i j * v j) / N := by
      intro i
      rw [Fin.sum_univ_three]
      fin_cases i <;> rfl
    have hK : ∀ i j : Fin 3, skew_from_vec u i j = X i.castSucc j.castSucc / N := by
      intro i j
      fin_cases i <;> fin_cases j
      · change (0 : ℝ) = X 0 0 / N; rw [s00, zero_div]
      · change -(X 1 0 / N) = X 0 1 / N; rw [s01, neg_div]
      · rfl
      · rfl
      · change (0 : ℝ) = X 1 1 / N; rw [s11, zero_div]
      · change -(X 2 1 / N) = X 1 2 / N; rw [s12, neg_div]
      · change -(X 0 2 / N) = X 2 0 / N; rw [s20, neg_div]
      · rfl
      · change (0 : ℝ) = X 2 2 / N; rw [s22, zero_div]
    have hV : ∀ i j : Fin 3, vmap (skew_from_vec u) N i j = N * (1 : Matrix (Fin 3) (Fin 3) ℝ) i j +
        skew_from_vec u i j * (1 - Real.cos N) + (∑ k, skew_from_vec u i k * skew_from_vec u k j) * (N - Real.sin N) := by
      intro i j
      have h1 : vmap (skew_from_vec u) N i j = (vmap (skew_from_vec u) N).toM i j := rfl
      rw [h1, vmap, M33.toM_add, M33.toM_add, M33.toM_smul, M33.toM_smul, M33.toM_smul, M33.toM_one, M33.toM_mul]
      simp only [Matrix.add_apply, Matrix.smul_apply, smul_eq_mul, Matrix.mul_apply, rfloat_sin, rfloat_cos]
      change _ + (1 - Real.cos N) * skew_from_vec u i j + (N - Real.sin N) * ∑ k, skew_from_vec u i k * skew_from_vec u k j = _
      ring
    rw [hl]
    refine congrArg (· / N) (Finset.sum_congr rfl fun j _ => ?_)
    have hv : v j = X j.castSucc 3 := by fin_cases j <;> rfl
    rw [hV, hv]
    simp only [hK]
  · fin_cases j <;> rfl

/-! ## The translation part -/

section
variable {f : Fmt}

/-- One entry of the matrix applied to the translation part. -/
private theorem vmap_near (hp : 8 ≤ f.p) {ε : ℝ} (hε : ε ≤ 1 / 4) (A : Mat 3 (Flt f)) (K : Fin 3 → Fin 3 → ℝ)
    (hK1 : ∀ i j, |K i j| ≤ 1) (i j : Fin 3) {q : ℝ} (nM : Near (M33.mul A A i j) q (26 * f.u)) (bM : |q| ≤ 1)
    (hA : ∀ i j, Near (A i j) (K i j) (52 / 10 * f.u)) {t s c : Flt f} {T S C : ℝ} (ht : Near t T 0) (hT0 : 0 ≤ T)
    (hT : T ≤ 163 / 10) (hs : Near s S ε) (hc : Near c C ε) (hS : |S| ≤ 1) (hC : |C| ≤ 1) :
    Near (M33.add (M33.add (M33.smul M33.one t) (M33.smul A (1 - c))) (M33.smul (M33.mul A A) (t - s)) i j)
      (T * (1 : Matrix (Fin 3) (Fin 3) ℝ) i j + K i j * (1 - C) + q * (T - S)) (214 / 100 * ε + (33 * T + 51) * f.u) ∧
    |T * (1 : Matrix (Fin 3) (Fin 3) ℝ) i j + K i j * (1 - C) + q * (T - S)| ≤ 2 * T + 3 := by
  have hu := Fmt.u_le_of_p hp
  have hu0 := f.u_pos
  have hε0 := hs.nonneg
  have hTu := mul_nonneg hT0 hu0.le
  have hTu2 := mul_le_mul_of_nonneg_left hu hT0
  have bo : |(1 : Matrix (Fin 3) (Fin 3) ℝ) i j| ≤ 1 := by
    rw [Matrix.one_apply]
    split <;> simp
  have no : Near ((M33.one : Mat 3 (Flt f)) i j) ((1 : Matrix (Fin 3) (Fin 3) ℝ) i j) 0 := by
    fin_cases i <;> fin_cases j
    exacts [Near.one, Near.zero, Near.zero, Near.zero, Near.one, Near.zero, Near.zero, Near.zero, Near.one]
  have bC : |1 - C| ≤ 2 := by have := abs_sub (1 : ℝ) C; rw [abs_one] at this; linarith
  have bT : |T - S| ≤ T + 1 := by have := abs_sub T S; rw [abs_of_nonneg hT0] at this; linarith
  have na : Near ((M33.one : Mat 3 (Flt f)) i j * t) ((1 : Matrix (Fin 3) (Fin 3) ℝ) i j * T) (f.u * (T + 1 / 256)) :=
    Near.mul hp no ht (A := 1) (C := T) (D := T) (B := T) (by linarith) (abs_of_nonneg hT0).le
      (by rw [abs_of_nonneg hT0, add_zero]) (by linarith) (by linarith) (by linarith)
  have n1 : Near (1 - c) (1 - C) (ε + 9 / 4 * f.u) :=
    Near.sub hp Near.one hc (B := 9 / 4) (by linarith) (by norm_num) (by linarith)
  have nb : Near (A i j * (1 - c)) (K i j * (1 - C)) (103 / 100 * ε + 151 / 10 * f.u) :=
    Near.mul hp (hA i j) n1 (A := 103 / 100) (C := 2) (D := 226 / 100) (B := 233 / 100) (by linarith [hK1 i j]) bC
      (by linarith) (by norm_num) (by norm_num) (by linarith)
  have nc : Near (t - s) (T - S) (ε + f.u * (T + 5 / 4)) :=
    Near.sub hp ht hs (B := T + 5 / 4) (by linarith) (by linarith) (by linarith)
  have nd : Near (M33.mul A A i j * (t - s)) (q * (T - S)) (111 / 100 * ε + (283 / 10 * T + 288 / 10) * f.u) :=
    Near.mul hp nM nc (A := 111 / 100) (C := T + 1) (D := 1004 / 1000 * T + 1255 / 1000) (B := 1115 / 1000 * T + 1394 / 1000)
      (by linarith) bT (by linarith) (by linarith) (by linarith) (by linarith)
  have b1 : |(1 : Matrix (Fin 3) (Fin 3) ℝ) i j * T| ≤ T := by
    rw [abs_mul, abs_of_nonneg hT0]
    exact mul_le_of_le_one_left hT0 bo
  have b2 : |K i j * (1 - C)| ≤ 2 := by
    rw [abs_mul]
    have := mul_le_mul (hK1 i j) bC (abs_nonneg _) zero_le_one
    linarith
  have b3 : |q * (T - S)| ≤ T + 1 := by
    rw [abs_mul]
    have := mul_le_mul bM bT (abs_nonneg _) zero_le_one
    linarith
  have a1 := abs_add_le ((1 : Matrix (Fin 3) (Fin 3) ℝ) i j * T) (K i j * (1 - C))
  have a2 := abs_add_le ((1 : Matrix (Fin 3) (Fin 3) ℝ) i j * T + K i j * (1 - C)) (q * (T - S))
  have ne := Near.add hp na nb (B := 101 / 100 * T + 235 / 100) (e := 103 / 100 * ε + (201 / 100 * T + 175 / 10) * f.u)
    (by linarith) (by linarith) (by linarith)
  have nf := Near.add hp ne nd (B := 212 / 100 * T + 372 / 100) (e := 214 / 100 * ε + (33 * T + 51) * f.u)
    (by linarith) (by linarith) (by linarith)
  have e : M33.add (M33.add (M33.smul M33.one t) (M33.smul A (1 - c))) (M33.smul (M33.mul A A) (t - s)) i j =
      (M33.one : Mat 3 (Flt f)) i j * t + A i j * (1 - c) + M33.mul A A i j * (t - s) := by
    fin_cases i <;> fin_cases j <;> rfl
  rw [e, mul_comm T]
  exact ⟨nf, by linarith⟩

/-- The row times the translation. -/
private theorem row_near (hp : 8 ≤ f.p) {a b c x y z : Flt f} {p q r e T ε : ℝ} (hT0 : 0 ≤ T) (hT : T ≤ 163 / 10) (_hε0 : 0 ≤ ε)
    (hε : ε ≤ 1 / 4) (he : e = 214 / 100 * ε + (33 * T + 51) * f.u) (ha : Near a p e) (hb : Near b q e) (hc : Near c r e)
    (hp1 : |p| ≤ 2 * T + 3) (hq1 : |q| ≤ 2 * T + 3) (hr1 : |r| ≤ 2 * T + 3)
    (hx : x.IsFin) (hy : y.IsFin) (hz : z.IsFin) (hx1 : |x.toReal| ≤ 1) (hy1 : |y.toReal| ≤ 1) (hz1 : |z.toReal| ≤ 1) :
    Near (a * x + b * y + c * z) (p * x.toReal + q * y.toReal + r * z.toReal) (642 / 100 * ε + (117 * T + 184) * f.u) := by
  have hu := Fmt.u_le_of_p hp
  have hu0 := f.u_pos
  have hTu := mul_nonneg hT0 hu0.le
  have hTu2 := mul_le_mul_of_nonneg_left hu hT0
  have pr {a x : Flt f} {p : ℝ} (ha : Near a p e) (hp1 : |p| ≤ 2 * T + 3) (hx : x.IsFin) (hx1 : |x.toReal| ≤ 1) :
      Near (a * x) (p * x.toReal) (214 / 100 * ε + (3515 / 100 * T + 548 / 10) * f.u) ∧ |p * x.toReal| ≤ 2 * T + 3 := by
    refine ⟨Near.mul hp ha (Near.of_fin hx) (A := 213 / 100 * T + 374 / 100) (C := 1) (D := 1) (B := 213 / 100 * T + 374 / 100)
      (by linarith) hx1 (by linarith) (by linarith) (by linarith) (by linarith), ?_⟩
    rw [abs_mul]
    exact (mul_le_of_le_one_right (abs_nonneg _) hx1).trans hp1
  obtain ⟨n1, b1⟩ := pr ha hp1 hx hx1
  obtain ⟨n2, b2⟩ := pr hb hq1 hy hy1
  obtain ⟨n3, b3⟩ := pr hc hr1 hz hz1
  have a1 := abs_add_le (p * x.toReal) (q * y.toReal)
  have a2 := abs_add_le (p * x.toReal + q * y.toReal) (r * z.toReal)
  have s1 := Near.add hp n1 n2 (B := 43 / 10 * T + 75 / 10) (e := 428 / 100 * ε + (746 / 10 * T + 1171 / 10) * f.u) (by linarith) (by linarith)
    (by linarith)
  exact Near.add hp s1 n3 (B := 645 / 100 * T + 113 / 10) (by linarith) (by linarith) (by linarith)

/-- The exact map as a function of the angle. -/
private theorem angle_move {T N o k q u : ℝ} (hT : 0 < T) (hN : 0 < N) (h : |T - N| ≤ 41 / 10 * u * T) (hk : |k| ≤ 1) (hq : |q| ≤ 1) :
    |(T * o + k * (1 - Real.cos T) + q * (T - Real.sin T)) / T - (N * o + k * (1 - Real.cos N) + q * (N - Real.sin N)) / N| ≤
      164 / 10 * u := by
  have e : (T * o + k * (1 - Real.cos T) + q * (T - Real.sin T)) / T - (N * o + k * (1 - Real.cos N) + q * (N - Real.sin N)) / N =
      k * ((Real.cos N - Real.cos T) / T + (1 - Real.cos N) / N * ((N - T) / T)) +
      q * ((Real.sin N - Real.sin T) / T - Real.sin N / N * ((N - T) / T)) := by
    field_simp
    ring
  have d1 : |N - T| / T ≤ 41 / 10 * u := by
    rw [div_le_iff₀ hT, abs_sub_comm]
    exact h
  have d0 : 0 ≤ |N - T| / T := by positivity
  have c1 : |(Real.cos N - Real.cos T) / T| ≤ |N - T| / T := by
    rw [abs_div, abs_of_pos hT]
    exact div_le_div_of_nonneg_right (lc _ _) hT.le
  have s1 : |(Real.sin N - Real.sin T) / T| ≤ |N - T| / T := by
    rw [abs_div, abs_of_pos hT]
    exact div_le_div_of_nonneg_right (ls _ _) hT.le
  have c2 : |(1 - Real.cos N) / N| ≤ 1 := by
    have := lc 0 N
    rw [Real.cos_zero, zero_sub, abs_neg, abs_of_pos hN] at this
    rw [abs_div, abs_of_pos hN]
    exact div_le_one_of_le₀ this hN.le
  have s2 : |Real.sin N / N| ≤ 1 := by
    have := ls N 0
    rw [Real.sin_zero, sub_zero, sub_zero, abs_of_pos hN] at this
    rw [abs_div, abs_of_pos hN]
    exact div_le_one_of_le₀ this hN.le
  have g : |(N - T) / T| = |N - T| / T := by rw [abs_div, abs_of_pos hT]
  have c3 : |(1 - Real.cos N) / N * ((N - T) / T)| ≤ |N - T| / T := by
    rw [abs_mul, g]
    exact mul_le_of_le_one_left d0 c2
  have s3 : |Real.sin N / N * ((N - T) / T)| ≤ |N - T| / T := by
    rw [abs_mul, g]
    exact mul_le_of_le_one_left d0 s2
  have m1 := mul_le_mul hk (abs_add_le ((Real.cos N - Real.cos T) / T) ((1 - Real.cos N) / N * ((N - T) / T))) (abs_nonneg _) zero_le_one
  have m2 := mul_le_mul hq (abs_sub ((Real.sin N - Real.sin T) / T) (Real.sin N / N * ((N - T) / T))) (abs_nonneg _) zero_le_one
  rw [← abs_mul] at m1 m2
  rw [e]
  refine (abs_add_le _ _).trans ?_
  linarith

/-- The exact map is bounded. -/
theorem exp6_angle_le {T o k q : ℝ} (hT : 0 < T) (ho : |o| ≤ 1) (hk : |k| ≤ 1) (hq : |q| ≤ 1) :
    |(T * o + k * (1 - Real.cos T) + q * (T - Real.sin T)) / T| ≤ 4 := by
  have h1 := lc 0 T
  rw [Real.cos_zero, zero_sub, abs_neg, abs_of_pos hT] at h1
  have h2 := ls T 0
  rw [Real.sin_zero, sub_zero, sub_zero, abs_of_pos hT] at h2
  have h3 := abs_sub T (Real.sin T)
  rw [abs_of_pos hT] at h3
  rw [abs_div, abs_of_pos hT, div_le_iff₀ hT]
  have m0 : |T * o| ≤ T := by
    rw [abs_mul, abs_of_pos hT]
    exact mul_le_of_le_one_right hT.le ho
  have m1 := mul_le_mul hk h1 (abs_nonneg _) zero_le_one
  have m2 := mul_le_mul hq h3 (abs_nonneg _) zero_le_one
  rw [← abs_mul] at m1 m2
  have a1 := abs_add_le (T * o) (k * (1 - Real.cos T))
  have a2 := abs_add_le (T * o + k * (1 - Real.cos T)) (q * (T - Real.sin T))
  linarith

private theorem quot_near (hp : 8 ≤ f.p) {x t : Flt f} {y ε N T : ℝ} (hε0 : 0 ≤ ε) (ht : t.IsFin) (hTe : t.toReal = T) (hT : 0 < T) (hN : 0 < N)
    (hNT : N ≤ 1017 / 1000 * T) (hTN : T ≤ 1016 / 1000 * N)
    (hx : Near x y (642 / 100 * ε + (117 * T + 184) * f.u)) (hy : |y / T| ≤ 12)
    (hE : (7 * ε + (190 * N + 210) * f.u) / N ≤ 100) :
    Near (x / t) (y / T) ((7 * ε + (190 * N + 210) * f.u) / N - 50 * f.u) := by
  have hu := Fmt.u_le_of_p hp
  have hu0 := f.u_pos
  have k1 : (642 / 100 * ε + (117 * T + 184) * f.u) / T ≤ (653 / 100 * ε + (121 * N + 188) * f.u) / N := by
    rw [div_le_div_iff₀ hT hN]
    have a1 := mul_le_mul_of_nonneg_left hNT (by positivity : 0 ≤ 642 / 100 * ε + (117 * T + 184) * f.u)
    refine a1.trans ?_
    rw [← mul_assoc]
    refine mul_le_mul_of_nonneg_right ?_ hT.le
    have := mul_le_mul_of_nonneg_right hTN hu0.le
    have := mul_pos hN hu0
    linarith
  have k2 : (7 * ε + (190 * N + 210) * f.u) / N = (653 / 100 * ε + (121 * N + 188) * f.u) / N + (47 / 100 * ε + 22 * f.u) / N + 69 * f.u := by
    field_simp
    ring
  have k3 : 0 ≤ (47 / 100 * ε + 22 * f.u) / N := by positivity
  have k4 : 0 ≤ (653 / 100 * ε + (121 * N + 188) * f.u) / N := by positivity
  have k5 : f.u * ((653 / 100 * ε + (121 * N + 188) * f.u) / N) ≤ (47 / 100 * ε + 22 * f.u) / N + 2 * f.u := by
    have : f.u * ((653 / 100 * ε + (121 * N + 188) * f.u) / N) ≤ 1 / 256 * ((653 / 100 * ε + (121 * N + 188) * f.u) / N) :=
      mul_le_mul_of_nonneg_right hu k4
    refine this.trans ?_
    rw [show (47 / 100 * ε + 22 * f.u) / N + 2 * f.u = (47 / 100 * ε + 22 * f.u + 2 * f.u * N) / N by field_simp, ← mul_div_assoc]
    refine div_le_div_of_nonneg_right ?_ hN.le
    have := mul_pos hN hu0
    linarith
  refine Near.div hp (c := T) (Q := 12) (B := 12 + (653 / 100 * ε + (121 * N + 188) * f.u) / N) hx
    (⟨ht, by rw [hTe]; simp⟩ : Near t T 0) hT (by rw [abs_of_pos hT]; linarith) hy ?_ (by linarith) ?_
  · rw [mul_zero, add_zero]; linarith
  · rw [mul_zero, add_zero, mul_add f.u, mul_add f.u]
    linarith

private theorem exp6_eq [L : Libm f] (X : Mat 4 (Flt f)) {S R : Mat 3 (Flt f)} {v w : Vec 3 (Flt f)} {t : Flt f}
    (hparts : se3_get_parts X = (S, v)) (ht : t = V3.norm2 (skew_to_vec S)) (hz : nearly_zero t = false)
    (hw : V3.normalize (skew_to_vec S) = .ok (.ok w)) (r1 : matrix_exponential S = .ok R) :
    ∃ E, matrix_exponential6 X = .ok E ∧ (∀ i j : Fin 3, E i.castSucc j.castSucc = R i j) ∧
      (∀ i : Fin 3, E i.castSucc 3 = V3.sdiv (M33.mulVec (M33.add (M33.add (M33.smul M33.one t) (M33.smul (M33.sdiv S t) (1 - L.cos t)))
        (M33.smul (M33.mul (M33.sdiv S t) (M33.sdiv S t)) (t - L.sin t))) v) t i) ∧ ∀ j, E 3 j = if j = 3 then 1 else 0 := by
  have ha : axis_angle (skew_to_vec S) = .ok (w, t) := by
    unfold axis_angle
    rw [hw, ht]
    rfl
  obtain ⟨V, hV⟩ : ∃ V, V = V3.sdiv (M33.mulVec (M33.add (M33.add (M33.smul M33.one t) (M33.smul (M33.sdiv S t) (1 - L.cos t)))
        (M33.smul (M33.mul (M33.sdiv S t) (M33.sdiv S t)) (t - L.sin t))) v) t := ⟨_, rfl⟩
  have key : matrix_exponential6 X = .ok ⟨![![R 0 0, R 0 1, R 0 2, V 0], ![R 1 0, R 1 1, R 1 2, V 1],
      ![R 2 0, R 2 1, R 2 2, V 2], ![0, 0, 0, 1]]⟩ := by
    unfold matrix_exponential6
    rw [hparts]
    simp only [← ht, hz, ha, r1, Bool.false_eq_true, if_false, bind, Except.bind, pure, Except.pure]
    rw [hV]
    rfl
  rw [← hV]
  refine ⟨_, key, fun i j => ?_, fun i => ?_, fun j => ?_⟩
  · fin_cases i <;> fin_cases j <;> rfl
  · fin_cases i <;> rfl
  · fin_cases j <;> rfl

private theorem sum3_le {a b c x y z e : ℝ} (ha : |a| ≤ e) (hb : |b| ≤ e) (hc : |c| ≤ e) (hx : |x| ≤ 1) (hy : |y| ≤ 1) (hz : |z| ≤ 1) :
    |a * x + b * y + c * z| ≤ 3 * e := by
  have pv {a x : ℝ} (h : |a| ≤ e) (k : |x| ≤ 1) : |a * x| ≤ e := by
    rw [abs_mul]
    exact (mul_le_of_le_one_right (abs_nonneg _) k).trans h
  have a1 := abs_add_le (a * x) (b * y)
  have a2 := abs_add_le (a * x + b * y) (c * z)
  linarith [pv ha hx, pv hb hy, pv hc hz]

/-- `matrix_exponential6` of a twist whose rotation part has length `N` between `3 u` and `16` and whose translation part has
entries of size at most `1`: no panic, the rotation block is within `2.2 ε + (9 N + 72) u` and the translation within
`(7 ε + (190 N + 210) u) / N` of the exponential series, and the last row is exactly `(0, 0, 0, 1)`.
What is missing: an error bound for the translation that does not grow for small angles, see
`C133_small_rotation_false`, and rotation parts shorter than `3 u`, see `C81_matrix_exponential6_false`. -/
theorem C133_matrix_exponential6_partial [L : Libm f] (hp : 8 ≤ f.p) {ε : ℝ} (h : SinCosAcc f ε) (hε : ε ≤ 1 / 4)
    (X : Mat 4 (Flt f)) (hXf : ∀ i j, (X i j).IsFin) (hX : IsSe3 ⟨fun i j => (X i j).toReal⟩)
    (hf : (V3.norm2 (skew_to_vec (se3_get_parts X).1)).IsFin)
    (hn : ∀ i j : Fin 3, (X i.castSucc j.castSucc).toReal = 0 ∨ (2 : ℝ) ^ f.emin ≤ (X i.castSucc j.castSucc).toReal ^ 2)
    (hv : ∀ i : Fin 3, |(X i.castSucc 3).toReal| ≤ 1) (N : ℝ)
    (hNe : N = √((X 2 1).toReal ^ 2 + (X 0 2).toReal ^ 2 + (X 1 0).toReal ^ 2)) (hN1 : 3 * f.u ≤ N) (hN2 : N ≤ 16)
    (hE : (7 * ε + (190 * N + 210) * f.u) / N ≤ 100) :
    ∃ E, matrix_exponential6 X = .ok E ∧ (∀ i j, (E i j).IsFin) ∧
      (∀ i j : Fin 3, |(E i.castSucc j.castSucc).toReal -
        NormedSpace.exp (Matrix.of fun i j => (X i j).toReal) i.castSucc j.castSucc| ≤ 11 / 5 * ε + (9 * N + 72) * f.u) ∧
      (∀ i : Fin 3, |(E i.castSucc 3).toReal -
        NormedSpace.exp (Matrix.of fun i j => (X i j).toReal) i.castSucc 3| ≤ (7 * ε + (190 * N + 210) * f.u) / N) ∧
      ∀ j, (E 3 j).toReal = NormedSpace.exp (Matrix.of fun i j => (X i j).toReal) 3 j := by
  have hu := Fmt.u_le_of_p hp
  have hu0 := f.u_pos
  have hε0 := acc_nonneg h
  obtain ⟨S, hSd⟩ : ∃ S, S = (se3_get_parts X).1 := ⟨_, rfl⟩
  obtain ⟨v, hvd⟩ : ∃ v, v = (se3_get_parts X).2 := ⟨_, rfl⟩
  have hSX (i j : Fin 3) : S i j = X i.castSucc j.castSucc := by rw [hSd]; fin_cases i <;> fin_cases j <;> rfl
  have hvX (i : Fin 3) : v i = X i.castSucc 3 := by rw [hvd]; fin_cases i <;> rfl
  rw [← hSd] at hf
  have hS : ∀ i j, (S i j).IsFin ∧ (S i j).toReal = -(S j i).toReal := fun i j => by
    rw [hSX, hSX]
    exact ⟨hXf _ _, hX.skew i j⟩
  have hn' : ∀ i j, (S i j).toReal = 0 ∨ (2 : ℝ) ^ f.emin ≤ (S i j).toReal ^ 2 := fun i j => by
    rw [hSX]
    exact hn i j
  have hNe' : N = √((S 2 1).toReal ^ 2 + (S 0 2).toReal ^ 2 + (S 1 0).toReal ^ 2) := by rw [hSX, hSX, hSX]; exact hNe
  obtain ⟨t, ht⟩ : ∃ t, t = V3.norm2 (skew_to_vec S) := ⟨_, rfl⟩
  obtain ⟨hθ1, ht0, hle, hzt, hzf⟩ := skew_unit hp S hS hf hn' N hNe' ht
  obtain ⟨R, r1, r2⟩ := C131_matrix_exponential hp h hε S hS hf hn' N hNe'
  rw [← ht] at hf
  have hz : nearly_zero t = false := Bool.eq_false_iff.2 fun hc => by
    have := hzt hc
    linarith
  obtain ⟨hN, hT2, ⟨w, hw⟩, n1, n0⟩ := hzf hz
  have hT : 0 < t.toReal := by linarith
  have hNu := mul_le_mul_of_nonneg_right hu hN.le
  obtain ⟨hl, hr⟩ := abs_le.1 hθ1
  have hNT : N ≤ 1017 / 1000 * t.toReal := by linarith
  have hTN : t.toReal ≤ 1016 / 1000 * N := by linarith
  have hNsq : N ^ 2 = (X 2 1).toReal ^ 2 + (X 0 2).toReal ^ 2 + (X 1 0).toReal ^ 2 := by
    rw [hNe, Real.sq_sqrt (by positivity)]
  obtain ⟨x1, x2, x3⟩ := exp6_entries ⟨fun i j => (X i j).toReal⟩ hX N hN hNsq
  let K : Fin 3 → Fin 3 → ℝ := fun i j => (S i j).toReal / N
  have hK : ∀ i j, K i j = -K j i := fun i j => by
    change (S i j).toReal / N = -((S j i).toReal / N)
    rw [(hS i j).2, neg_div]
  have hK2 : K 2 1 ^ 2 + K 0 2 ^ 2 + K 1 0 ^ 2 = 1 := by
    change ((S 2 1).toReal / N) ^ 2 + ((S 0 2).toReal / N) ^ 2 + ((S 1 0).toReal / N) ^ 2 = 1
    rw [hSX, hSX, hSX, div_pow, div_pow, div_pow, ← add_div, ← add_div]
    exact (congrArg (· / N ^ 2) hNsq.symm).trans (div_self (by positivity))
  have hK1 (i j : Fin 3) : |K i j| ≤ 1 := by
    change |(S i j).toReal / N| ≤ 1
    rw [abs_div, abs_of_pos hN]
    exact div_le_one_of_le₀ (hle i j) hN.le
  have hs := h.sin t hf
  have hc := h.cos t hf
  let G : Mat 3 (Flt f) := M33.add (M33.add (M33.smul M33.one t) (M33.smul (M33.sdiv S t) (1 - L.cos t)))
    (M33.smul (M33.mul (M33.sdiv S t) (M33.sdiv S t)) (t - L.sin t))
  let q : Fin 3 → Fin 3 → ℝ := fun i j => K i 0 * K 0 j + K i 1 * K 1 j + K i 2 * K 2 j
  have hq (i j : Fin 3) := skew_square_near hp (M33.sdiv S t) K hK hK2.le n1 n0 i j
  have hG (i j : Fin 3) := vmap_near hp hε (M33.sdiv S t) K hK1 i j (q := q i j) (hq i j).1 (hq i j).2 n1 (Near.of_fin hf) ht0
    (by linarith) ⟨hs.1, hs.2⟩ ⟨hc.1, hc.2⟩ (Real.abs_sin_le_one _) (Real.abs_cos_le_one _)
  let gT : Fin 3 → Fin 3 → ℝ := fun i j => t.toReal * (1 : Matrix (Fin 3) (Fin 3) ℝ) i j + K i j * (1 - Real.cos t.toReal) +
    q i j * (t.toReal - Real.sin t.toReal)
  let gN : Fin 3 → Fin 3 → ℝ := fun i j => N * (1 : Matrix (Fin 3) (Fin 3) ℝ) i j + K i j * (1 - Real.cos N) +
    q i j * (N - Real.sin N)
  have hvf (i : Fin 3) : (v i).IsFin := by rw [hvX]; exact hXf _ _
  have hv1 (i : Fin 3) : |(v i).toReal| ≤ 1 := by rw [hvX]; exact hv i
  have bo (i j : Fin 3) : |(1 : Matrix (Fin 3) (Fin 3) ℝ) i j| ≤ 1 := by
    rw [Matrix.one_apply]
    split <;> simp
  have hgT (i j : Fin 3) : |gT i j / t.toReal| ≤ 4 := exp6_angle_le hT (bo i j) (hK1 i j) (hq i j).2
  have hTu : |t.toReal - N| ≤ 41 / 10 * f.u * t.toReal := by
    refine hθ1.trans ?_
    have := mul_le_mul_of_nonneg_left hNT hu0.le
    linarith
  have hgd (i j : Fin 3) : |gT i j / t.toReal - gN i j / N| ≤ 164 / 10 * f.u := angle_move hT hN hTu (hK1 i j) (hq i j).2
  have row (i : Fin 3) : Near ((G i 0 * v 0 + G i 1 * v 1 + G i 2 * v 2) / t)
      ((gT i 0 * (v 0).toReal + gT i 1 * (v 1).toReal + gT i 2 * (v 2).toReal) / t.toReal)
      ((7 * ε + (190 * N + 210) * f.u) / N - 50 * f.u) := by
    refine quot_near hp hε0 hf rfl hT hN hNT hTN (row_near hp ht0 (by linarith) hε0 hε rfl (hG i 0).1 (hG i 1).1 (hG i 2).1
      (hG i 0).2 (hG i 1).2 (hG i 2).2 (hvf 0) (hvf 1) (hvf 2) (hv1 0) (hv1 1) (hv1 2)) ?_ hE
    rw [show (gT i 0 * (v 0).toReal + gT i 1 * (v 1).toReal + gT i 2 * (v 2).toReal) / t.toReal =
      gT i 0 / t.toReal * (v 0).toReal + gT i 1 / t.toReal * (v 1).toReal + gT i 2 / t.toReal * (v 2).toReal by ring]
    exact (sum3_le (hgT i 0) (hgT i 1) (hgT i 2) (hv1 0) (hv1 1) (hv1 2)).trans (by norm_num)
  have ex (i : Fin 3) : NormedSpace.exp (Matrix.of fun i j => (X i j).toReal) i.castSucc 3 =
      gN i 0 / N * (v 0).toReal + gN i 1 / N * (v 1).toReal + gN i 2 / N * (v 2).toReal := by
    refine (x2 i).trans ?_
    simp only [Fin.sum_univ_three, gN, q, K, hSX, hvX]
    ring
  have hV (i : Fin 3) : V3.sdiv (M33.mulVec G v) t i = (G i 0 * v 0 + G i 1 * v 1 + G i 2 * v 2) / t := by
    fin_cases i <;> rfl
  have hd (i : Fin 3) : |(gT i 0 * (v 0).toReal + gT i 1 * (v 1).toReal + gT i 2 * (v 2).toReal) / t.toReal -
      (gN i 0 / N * (v 0).toReal + gN i 1 / N * (v 1).toReal + gN i 2 / N * (v 2).toReal)| ≤ 3 * (164 / 10 * f.u) := by
    rw [show (gT i 0 * (v 0).toReal + gT i 1 * (v 1).toReal + gT i 2 * (v 2).toReal) / t.toReal -
      (gN i 0 / N * (v 0).toReal + gN i 1 / N * (v 1).toReal + gN i 2 / N * (v 2).toReal) =
      (gT i 0 / t.toReal - gN i 0 / N) * (v 0).toReal + (gT i 1 / t.toReal - gN i 1 / N) * (v 1).toReal +
      (gT i 2 / t.toReal - gN i 2 / N) * (v 2).toReal by ring]
    exact sum3_le (hgd i 0) (hgd i 1) (hgd i 2) (hv1 0) (hv1 1) (hv1 2)
  obtain ⟨E, e0, e1, e2, e3⟩ := exp6_eq X (Prod.ext hSd.symm hvd.symm : se3_get_parts X = (S, v)) ht hz hw r1
  have e2' (i : Fin 3) : E i.castSucc 3 = (G i 0 * v 0 + G i 1 * v 1 + G i 2 * v 2) / t := (e2 i).trans (hV i)
  clear_value gT gN q K G
  refine ⟨E, e0, fun i => ?_, fun i j => ?_, fun i => ?_, fun j => ?_⟩
  · induction i using Fin.lastCases with
    | last =>
      intro j
      have h1 : E (Fin.last 3) j = if j = 3 then 1 else 0 := e3 j
      rw [h1]
      split <;> trivial
    | cast i =>
      intro j
      induction j using Fin.lastCases with
      | last =>
        have h1 : E i.castSucc (Fin.last 3) = _ := e2' i
        rw [h1]
        exact (row i).fin
      | cast j =>
        rw [e1]
        exact (r2 i j).1
  · have h1 := (r2 i j).2
    have h2 : (Matrix.of fun i j => (S i j).toReal) = Matrix.of fun i j : Fin 3 => (X i.castSucc j.castSucc).toReal := by
      ext i j
      exact congrArg Flt.toReal (hSX i j)
    rw [h2] at h1
    rw [e1]
    exact le_trans (le_of_eq (congrArg (|·|) (congrArg₂ (· - ·) rfl (x1 i j)))) h1
  · have h1 := (row i).err
    have h2 := hd i
    rw [← e2'] at h1
    rw [← ex] at h2
    refine (abs_sub_le _ _ _).trans ((add_le_add h1 h2).trans (by linarith))
  · refine Eq.trans ?_ (x3 j).symm
    rw [e3]
    split
    · exact toReal_one
    · exact toReal_zero

end

/-- A screw motion in single precision. -/
example : letI := correctLibm Fmt.f32
    ∃ E, matrix_exponential6 (twist_to_se3 ⟨fun _ => (1 : Flt Fmt.f32)⟩) = .ok E ∧ ∀ i : Fin 3, |(E i.castSucc 3).toReal -
      NormedSpace.exp !![(0 : ℝ), -1, 1, 1; 1, 0, -1, 1; -1, 1, 0, 1; 0, 0, 0, 0] i.castSucc 3| ≤ 2 ^ (-15 : ℤ) := by
  let _ := correctLibm Fmt.f32
  have hu : Fmt.f32.u = (2 : ℝ) ^ (-24 : ℤ) := rfl
  let X : Mat 4 (Flt Fmt.f32) := twist_to_se3 ⟨fun _ => (1 : Flt Fmt.f32)⟩
  have n1 : (-1 : Flt Fmt.f32).toReal = -1 := by rw [toReal_neg, toReal_one]
  have p1 := toReal_one (f := Fmt.f32)
  have z := toReal_zero (f := Fmt.f32)
  have hv : (Matrix.of fun i j => (X i j).toReal) = !![(0 : ℝ), -1, 1, 1; 1, 0, -1, 1; -1, 1, 0, 1; 0, 0, 0, 0] := by
    ext i j
    fin_cases i <;> fin_cases j
    exacts [z, n1, p1, p1, p1, z, n1, p1, n1, p1, z, p1, z, z, z, z]
  have hve (i j : Fin 4) : (X i j).toReal = !![(0 : ℝ), -1, 1, 1; 1, 0, -1, 1; -1, 1, 0, 1; 0, 0, 0, 0] i j := by rw [← hv]; rfl
  have h3a : 17 / 10 ≤ √3 := Real.le_sqrt_of_sq_le (by norm_num)
  have h3b : √3 ≤ 18 / 10 := Real.sqrt_le_iff.2 (by norm_num)
  have hE : (7 * (257 / 256 * Fmt.f32.u) + (190 * √3 + 210) * Fmt.f32.u) / √3 ≤ 2 ^ (-15 : ℤ) := by
    rw [hu, div_le_iff₀ (by linarith)]
    norm_num
    linarith
  obtain ⟨E, h1, -, -, h2, -⟩ := C133_matrix_exponential6_partial (f := Fmt.f32) (by decide) (correctLibm_sin_cos (by decide))
    (by rw [hu]; norm_num) X (by intro i j; fin_cases i <;> fin_cases j <;> exact trivial)
    ⟨fun i j => by
      change (X _ _).toReal = -(X _ _).toReal
      rw [hve, hve]
      fin_cases i <;> fin_cases j <;> norm_num, fun j => by fin_cases j <;> exact z⟩ ones_norm
    (by
      intro i j
      rw [hve]
      change _ ∨ (2 : ℝ) ^ (-126 : ℤ) ≤ _
      fin_cases i <;> fin_cases j <;> norm_num)
    (by
      intro i
      rw [hve]
      fin_cases i <;> (change |(1 : ℝ)| ≤ 1; norm_num)) (√3)
    (by
      rw [hve, hve, hve]
      change √3 = √((1 : ℝ) ^ 2 + 1 ^ 2 + 1 ^ 2)
      norm_num) (by rw [hu]; norm_num; linarith) (by linarith) (hE.trans (by norm_num))
  refine ⟨E, h1, fun i => ?_⟩
  have := (h2 i).trans hE
  rwa [hv] at this

/-! ## Small angles -/

/-- The twist with rotation vector `(0, 0, 2^-27)` and translation `(1, 0, 0)`. -/
noncomputable def tinyTwist : Mat 4 (Flt Fmt.f64) := twist_to_se3 ⟨![0, 0, tiny, 1, 0, 0]⟩

def vtB : Vec 3 (BF Fmt.f64) :=
  let t := V3.norm2 vB
  let K := M33.sdiv (skew_from_vec vB) t
  V3.sdiv (M33.mulVec (M33.add (M33.add (M33.smul M33.one t) (M33.smul K (1 - cosB))) (M33.smul (M33.mul K K) (t - sinB)))
    ⟨![1, 0, 0]⟩) t

attribute [local irreducible] BF.Den

/-- C133 is false of the code: in double precision, with correctly rounded sine and cosine, the second translation component of
the exponential of `tinyTwist` is computed as zero. Its true value is above `2^-29`, although no entry of the twist is above one
and the unit roundoff is `2^-53`. -/
theorem C133_small_rotation_false :
    letI := correctLibm Fmt.f64
    ∃ E, matrix_exponential6 tinyTwist = .ok E ∧ (E 1 3).toReal = 0 ∧
      2 ^ (-29 : ℤ) ≤ NormedSpace.exp (Matrix.of fun i j => (tinyTwist i j).toReal) 1 3 ∧
      ∀ i j, |(tinyTwist i j).toReal| ≤ 1 := by
  let _ := correctLibm Fmt.f64
  have z := toReal_zero (f := Fmt.f64)
  have nz : (-0 : Flt Fmt.f64).toReal = 0 := by rw [toReal_neg, z, neg_zero]
  have nt : (-tiny).toReal = -2 ^ (-27 : ℤ) := by rw [toReal_neg, tiny_toReal]
  have hx : ∀ i j, (tinyTwist i j).toReal =
      !![(0 : ℝ), -2 ^ (-27 : ℤ), 0, 1; 2 ^ (-27 : ℤ), 0, 0, 0; 0, 0, 0, 0; 0, 0, 0, 0] i j := by
    intro i j
    fin_cases i <;> fin_cases j
    exacts [z, nt, z, toReal_one, tiny_toReal, z, nz, z, nz, z, z, z, z, z, z, z]
  obtain ⟨t, w, R, ht, hn, hr, hz, hw, r1, -⟩ := exp_tiny
  obtain ⟨E, e0, -, e2, -⟩ := exp6_eq tinyTwist (S := skew_from_vec ⟨![0, 0, tiny]⟩) (v := ⟨![1, 0, 0]⟩)
    (Prod.ext (Mat.ext3 rfl rfl rfl rfl rfl rfl rfl rfl rfl) (Vec.ext3 rfl rfl rfl)) ht hz hw r1
  refine ⟨E, e0, ?_, ?_, ?_⟩
  · have hk : DM (M33.sdiv (skew_from_vec vB) (V3.norm2 vB)) (M33.sdiv (skew_from_vec ⟨![0, 0, tiny]⟩) t) := (DM.skew den_vB).sdiv hn
    have h1 := BF.den_one (f := Fmt.f64)
    have h0 := BF.den_zero (f := Fmt.f64)
    have hG := ((DM.one.smul hn).add (hk.smul (BF.den_sub h1 (den_cos hr)))).add ((hk.mul hk).smul (BF.den_sub hn (den_sin hr)))
    have hV := BF.den_div (BF.den_add (BF.den_add (BF.den_mul (hG 1 0) h1) (BF.den_mul (hG 1 1) h0)) (BF.den_mul (hG 1 2) h0)) hn
    have e : E 1 3 = _ := e2 1
    rw [e]
    exact (toReal_den (b := vtB 1) hV (s := false) (m := 0) (e := 0) (by decide +kernel)).trans (by simp [sgn])
  · have h0 : (0 : ℝ) < 2 ^ (-27 : ℤ) := by positivity
    have hX : IsSe3 ⟨fun i j => (tinyTwist i j).toReal⟩ :=
      ⟨fun i j => by
        change (tinyTwist _ _).toReal = -(tinyTwist _ _).toReal
        rw [hx, hx]
        fin_cases i <;> fin_cases j <;> norm_num, fun j => by fin_cases j <;> exact z⟩
    have := (exp6_entries ⟨fun i j => (tinyTwist i j).toReal⟩ hX (2 ^ (-27 : ℤ)) h0 (by
      change _ = (tinyTwist 2 1).toReal ^ 2 + (tinyTwist 0 2).toReal ^ 2 + (tinyTwist 1 0).toReal ^ 2
      rw [hx, hx, hx]
      change _ = (0 : ℝ) ^ 2 + 0 ^ 2 + (2 ^ (-27 : ℤ)) ^ 2
      norm_num)).2.1 1
    rw [Fin.sum_univ_three, Fin.sum_univ_three] at this
    have e10 : (tinyTwist 1 0).toReal = 2 ^ (-27 : ℤ) := tiny_toReal
    have e00 : (tinyTwist 0 0).toReal = 0 := z
    have e11 : (tinyTwist 1 1).toReal = 0 := z
    have e12 : (tinyTwist 1 2).toReal = 0 := nz
    have v0 : (tinyTwist 0 3).toReal = 1 := toReal_one
    have v1 : (tinyTwist 1 3).toReal = 0 := z
    have v2 : (tinyTwist 2 3).toReal = 0 := z
    have key : NormedSpace.exp (Matrix.of fun i j => (tinyTwist i j).toReal) 1 3 =
        (1 - Real.cos (2 ^ (-27 : ℤ))) / 2 ^ (-27 : ℤ) := by
      refine this.trans (congrArg (· / (2 : ℝ) ^ (-27 : ℤ)) ?_)
      change (2 ^ (-27 : ℤ) * (1 : Matrix (Fin 3) (Fin 3) ℝ) 1 0 + (tinyTwist 1 0).toReal / 2 ^ (-27 : ℤ) * _ +
        ((tinyTwist 1 0).toReal / 2 ^ (-27 : ℤ) * ((tinyTwist 0 0).toReal / 2 ^ (-27 : ℤ)) +
          (tinyTwist 1 1).toReal / 2 ^ (-27 : ℤ) * _ + (tinyTwist 1 2).toReal / 2 ^ (-27 : ℤ) * _) * _) *
        (tinyTwist 0 3).toReal + _ * (tinyTwist 1 3).toReal + _ * (tinyTwist 2 3).toReal = _
      rw [e10, e00, e11, e12, v0, v1, v2, Matrix.one_apply_ne (by decide), div_self h0.ne']
      ring
    have hc := (_root_.abs_le.1 (Real.cos_bound (x := 2 ^ (-27 : ℤ)) (by norm_num))).2
    rw [abs_of_pos h0] at hc
    rw [key, le_div_iff₀ h0]
    norm_num at hc ⊢
    linarith
  · intro i j
    rw [hx]
    fin_cases i <;> fin_cases j <;> norm_num

end StaticMath
