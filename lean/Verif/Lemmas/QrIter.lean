import Mathlib.LinearAlgebra.UnitaryGroup
import Mathlib.LinearAlgebra.Matrix.NonsingularInverse
import Mathlib.Topology.Instances.Matrix
import Mathlib.Analysis.SpecificLimits.Normed
import Mathlib.Topology.MetricSpace.ProperSpace.Real

/-!
# The unshifted QR iteration on real matrices

`A_{k+1} = R_k Q_k` with `A_k = Q_k R_k`: all iterates are orthogonally similar to `A_0`, and for eigenvalues
of different moduli they converge to an upper triangular matrix.
-/

namespace StaticMath.QrIter

open Matrix Filter Topology

variable {n : ℕ}

/-- `R` is upper triangular with positive diagonal. -/
structure Upper (R : Matrix (Fin n) (Fin n) ℝ) : Prop where
  low : ∀ i j, j < i → R i j = 0
  pos : ∀ i, 0 < R i i

/-- `R` is upper triangular. -/
def Up (R : Matrix (Fin n) (Fin n) ℝ) : Prop := ∀ i j, j < i → R i j = 0

theorem Up.mul {R S : Matrix (Fin n) (Fin n) ℝ} (hR : Up R) (hS : Up S) : Up (R * S) := by
  intro i j hij
  rw [Matrix.mul_apply]
  refine Finset.sum_eq_zero fun k _ => ?_
  by_cases h : k < i
  · rw [hR i k h, zero_mul]
  · rw [hS k j (lt_of_lt_of_le hij (not_lt.1 h)), mul_zero]

theorem Up.mul_diag {R S : Matrix (Fin n) (Fin n) ℝ} (hR : Up R) (hS : Up S) (i : Fin n) :
    (R * S) i i = R i i * S i i := by
  rw [Matrix.mul_apply]
  refine Finset.sum_eq_single i (fun k _ hk => ?_) (fun h => absurd (Finset.mem_univ i) h)
  rcases lt_or_gt_of_ne hk with h | h
  · rw [hR i k h, zero_mul]
  · rw [hS k i h, mul_zero]

theorem Up.block {R : Matrix (Fin n) (Fin n) ℝ} (hR : Up R) : R.BlockTriangular id := fun i j h => hR i j h

theorem Up.inv {R : Matrix (Fin n) (Fin n) ℝ} (hR : Up R) (hd : IsUnit R.det) : Up R⁻¹ := by
  have : Invertible R := Matrix.invertibleOfIsUnitDet R hd
  have h := Matrix.blockTriangular_inv_of_blockTriangular hR.block
  exact fun i j hij => h hij

/-- An orthogonal upper triangular matrix with nonnegative diagonal is the identity. -/
theorem orth_upper {R : Matrix (Fin n) (Fin n) ℝ} (ho : Rᵀ * R = 1) (hR : Up R) (hd : ∀ i, 0 ≤ R i i) : R = 1 := by
  have hu : IsUnit R.det := by
    have h := congrArg Matrix.det ho
    rw [Matrix.det_mul, Matrix.det_one] at h
    exact IsUnit.of_mul_eq_one_right _ h
  have hi : R⁻¹ = Rᵀ := Matrix.inv_eq_left_inv ho
  have hl : ∀ i j, i < j → R i j = 0 := fun i j hij => by
    have := hR.inv hu j i hij
    rwa [hi] at this
  have hoff : ∀ i j, i ≠ j → R i j = 0 := fun i j h => by
    rcases lt_or_gt_of_ne h with h | h
    · exact hl i j h
    · exact hR i j h
  ext i j
  by_cases h : i = j
  · subst h
    have h1 := congrFun (congrFun ho i) i
    rw [Matrix.mul_apply, Finset.sum_eq_single i (fun k _ hk => by
      rw [hoff k i hk, mul_zero]) (fun h => absurd (Finset.mem_univ i) h), Matrix.one_apply_eq,
      Matrix.transpose_apply] at h1
    rw [Matrix.one_apply_eq]
    nlinarith [hd i]
  · rw [hoff i j h, Matrix.one_apply_ne h]

theorem orth_entry {Q : Matrix (Fin n) (Fin n) ℝ} (ho : Qᵀ * Q = 1) (i j : Fin n) : Q i j ∈ Set.Icc (-1 : ℝ) 1 := by
  have h := congrFun (congrFun ho j) j
  rw [Matrix.mul_apply, Matrix.one_apply_eq] at h
  have h1 : Q i j ^ 2 ≤ 1 := by
    rw [← h]
    have := Finset.single_le_sum (f := fun k => Qᵀ j k * Q k j)
      (fun k _ => mul_self_nonneg (Q k j)) (Finset.mem_univ i)
    calc Q i j ^ 2 = Qᵀ j i * Q i j := by rw [sq]; rfl
      _ ≤ _ := this
  exact abs_le.1 (abs_le_one_iff_mul_self_le_one.2 (by rw [← sq]; exact h1))

/-- The orthogonal factor depends continuously on the matrix at the identity. -/
theorem tendsto_orth {P S : ℕ → Matrix (Fin n) (Fin n) ℝ} (hP : ∀ k, (P k)ᵀ * P k = 1) (hS : ∀ k, Upper (S k))
    (h : Tendsto (fun k => P k * S k) atTop (𝓝 1)) : Tendsto P atTop (𝓝 1) := by
  have hc : IsCompact {Q : Matrix (Fin n) (Fin n) ℝ | ∀ i j, Q i j ∈ Set.Icc (-1 : ℝ) 1} := by
    have h1 : IsCompact (Set.univ.pi fun _ : Fin n => Set.univ.pi fun _ : Fin n => Set.Icc (-1 : ℝ) 1) :=
      isCompact_univ_pi fun _ => isCompact_univ_pi fun _ => isCompact_Icc
    have e : ({Q | ∀ i j, Q i j ∈ Set.Icc (-1 : ℝ) 1} : Set (Fin n → Fin n → ℝ))
        = Set.univ.pi fun _ : Fin n => Set.univ.pi fun _ : Fin n => Set.Icc (-1 : ℝ) 1 := by
      ext Q
      simp only [Set.mem_ofPred_eq, Set.mem_pi, Set.mem_univ, forall_true_left]
    rw [← e] at h1
    exact h1
  refine hc.tendsto_nhds_of_unique_mapClusterPt (Eventually.of_forall fun k => orth_entry (hP k)) ?_
  intro Q _ hQ
  obtain ⟨u, hu, hlim⟩ := mapClusterPt_iff_ultrafilter.1 hQ
  have hPt : Tendsto (fun k => (P k)ᵀ) u (𝓝 Qᵀ) :=
    (continuous_id.matrix_transpose.tendsto Q).comp hlim
  have ho : Qᵀ * Q = 1 := by
    have h1 : Tendsto (fun k => (P k)ᵀ * P k) u (𝓝 (Qᵀ * Q)) := hPt.mul hlim
    refine tendsto_nhds_unique h1 ?_
    simp only [hP]
    exact tendsto_const_nhds
  have hSl : Tendsto S u (𝓝 Qᵀ) := by
    have h1 : Tendsto (fun k => (P k)ᵀ * (P k * S k)) u (𝓝 (Qᵀ * 1)) := hPt.mul (h.mono_left hu)
    rw [mul_one] at h1
    refine h1.congr fun k => ?_
    rw [← mul_assoc, hP, one_mul]
  have he (i j : Fin n) : Tendsto (fun k => S k i j) u (𝓝 (Qᵀ i j)) :=
    ((continuous_id.matrix_elem i j).tendsto _).comp hSl
  have hQt : Qᵀ = 1 := by
    refine orth_upper ?_ ?_ ?_
    · rw [Matrix.transpose_transpose]; exact mul_eq_one_comm.1 ho
    · intro i j hij
      refine tendsto_nhds_unique (he i j) ?_
      simp only [(hS _).low i j hij]
      exact tendsto_const_nhds
    · intro i
      exact ge_of_tendsto (he i i) (Eventually.of_forall fun k => ((hS k).pos i).le)
  rw [← Matrix.transpose_transpose Q, hQt, Matrix.transpose_one]

/-- A run of the QR iteration. -/
structure Run (A : Matrix (Fin n) (Fin n) ℝ) (Ak Q R : ℕ → Matrix (Fin n) (Fin n) ℝ) : Prop where
  zero : Ak 0 = A
  orth : ∀ k, (Q k)ᵀ * Q k = 1
  upper : ∀ k, Upper (R k)
  qr : ∀ k, Q k * R k = Ak k
  step : ∀ k, Ak (k + 1) = R k * Q k

/-- The product of the first `k` orthogonal factors. -/
def prodQ (Q : ℕ → Matrix (Fin n) (Fin n) ℝ) : ℕ → Matrix (Fin n) (Fin n) ℝ
  | 0 => 1
  | k + 1 => prodQ Q k * Q k

/-- The product of the first `k` triangular factors, the latest first. -/
def prodR (R : ℕ → Matrix (Fin n) (Fin n) ℝ) : ℕ → Matrix (Fin n) (Fin n) ℝ
  | 0 => 1
  | k + 1 => R k * prodR R k

section run
variable {A : Matrix (Fin n) (Fin n) ℝ} {Ak Q R : ℕ → Matrix (Fin n) (Fin n) ℝ} (h : Run A Ak Q R)
include h

theorem Run.orthP (k : ℕ) : (prodQ Q k)ᵀ * prodQ Q k = 1 := by
  induction k with
  | zero => rw [prodQ, Matrix.transpose_one, mul_one]
  | succ k ih => rw [prodQ, Matrix.transpose_mul, mul_assoc, ← mul_assoc _ (prodQ Q k), ih, one_mul, h.orth]

theorem Run.orthP' (k : ℕ) : prodQ Q k * (prodQ Q k)ᵀ = 1 := mul_eq_one_comm.1 (h.orthP k)

theorem Run.upperP (k : ℕ) : Upper (prodR R k) := by
  induction k with
  | zero =>
    refine ⟨fun i j hij => Matrix.one_apply_ne hij.ne', fun i => ?_⟩
    rw [prodR, Matrix.one_apply_eq]; exact one_pos
  | succ k ih =>
    refine ⟨Up.mul (h.upper k).low ih.low, fun i => ?_⟩
    rw [prodR, Up.mul_diag (h.upper k).low ih.low]
    exact mul_pos ((h.upper k).pos i) (ih.pos i)

/-- All iterates are orthogonally similar to the start. -/
theorem Run.similar (k : ℕ) : Ak k = (prodQ Q k)ᵀ * A * prodQ Q k := by
  induction k with
  | zero => rw [prodQ, Matrix.transpose_one, one_mul, mul_one, h.zero]
  | succ k ih =>
    have h1 : R k = (Q k)ᵀ * Ak k := by rw [← h.qr, ← mul_assoc, h.orth, one_mul]
    rw [h.step, h1, ih, prodQ, Matrix.transpose_mul]
    simp only [mul_assoc]

theorem Run.pow (k : ℕ) : A ^ k = prodQ Q k * prodR R k := by
  induction k with
  | zero => rw [pow_zero, prodQ, prodR, mul_one]
  | succ k ih =>
    have h1 : A * prodQ Q k = prodQ Q k * Ak k := by
      rw [h.similar k, ← mul_assoc, ← mul_assoc, h.orthP', one_mul]
    rw [pow_succ', ih, ← mul_assoc, h1, ← h.qr k, prodQ, prodR]
    simp only [mul_assoc]

/-- Eigenvalues of different moduli: the part below the diagonal vanishes in the limit and the diagonal
converges to the eigenvalues in the order of their moduli. -/
theorem Run.tendsto {X Xi L U Q0 R0 : Matrix (Fin n) (Fin n) ℝ} {lam : Fin n → ℝ}
    (hX : X * Xi = 1) (hA : A = X * diagonal lam * Xi) (hLU : Xi = L * U) (hL : ∀ i j, i < j → L i j = 0)
    (hL1 : ∀ i, L i i = 1) (hU : Up U) (hlam : ∀ i j, i < j → |lam j| < |lam i|) (hlam0 : ∀ i, lam i ≠ 0)
    (hQ0 : Q0ᵀ * Q0 = 1) (hR0 : Upper R0) (hX0 : Q0 * R0 = X) :
    (∀ i j, j < i → Tendsto (fun k => Ak k i j) atTop (𝓝 0)) ∧
      ∀ i, Tendsto (fun k => Ak k i i) atTop (𝓝 (lam i)) := by
  have hXi : Xi * X = 1 := mul_eq_one_comm.1 hX
  have hQ0' : Q0 * Q0ᵀ = 1 := mul_eq_one_comm.1 hQ0
  have hdet {R : Matrix (Fin n) (Fin n) ℝ} (hR : Up R) (hd : ∀ i, R i i ≠ 0) : IsUnit R.det := by
    rw [Matrix.det_of_isUpperTriangular hR.block]
    exact (Finset.prod_ne_zero_iff.2 fun i _ => hd i).isUnit
  have hdiag {R : Matrix (Fin n) (Fin n) ℝ} (hR : Up R) (hd : IsUnit R.det) (i : Fin n) : R i i ≠ 0 := by
    rw [Matrix.det_of_isUpperTriangular hR.block] at hd
    exact Finset.prod_ne_zero_iff.1 hd.ne_zero i (Finset.mem_univ i)
  have hR0u : IsUnit R0.det := hdet hR0.low fun i => (hR0.pos i).ne'
  have hR0i : R0 * R0⁻¹ = 1 := Matrix.mul_nonsing_inv _ hR0u
  have hR0i' : R0⁻¹ * R0 = 1 := Matrix.nonsing_inv_mul _ hR0u
  have hUd : IsUnit U.det := by
    have h1 := congrArg Matrix.det hXi
    rw [hLU, Matrix.det_mul, Matrix.det_mul, Matrix.det_one, mul_comm L.det, mul_assoc] at h1
    exact IsUnit.of_mul_eq_one _ h1
  -- powers
  let Lam : ℕ → Matrix (Fin n) (Fin n) ℝ := fun k => diagonal fun i => lam i ^ k
  have hpow (k : ℕ) : A ^ k = X * Lam k * Xi := by
    induction k with
    | zero =>
      have : Lam 0 = 1 := by simp [Lam]
      rw [pow_zero, this, mul_one, hX]
    | succ k ih =>
      have h1 : Lam (k + 1) = Lam k * diagonal lam := by
        simp only [Lam, Matrix.diagonal_mul_diagonal, pow_succ]
      rw [pow_succ, ih, hA, h1]
      calc X * Lam k * Xi * (X * diagonal lam * Xi) = X * Lam k * (Xi * X) * diagonal lam * Xi := by
            simp only [mul_assoc]
        _ = _ := by rw [hXi, mul_one]; simp only [mul_assoc]
  let M : ℕ → Matrix (Fin n) (Fin n) ℝ := fun k => Matrix.of fun i j => (lam i / lam j) ^ k * L i j
  have hM (k : ℕ) : Lam k * L = M k * Lam k := by
    ext i j
    simp only [Lam, M, Matrix.diagonal_mul, Matrix.mul_diagonal, Matrix.of_apply, div_pow]
    have := pow_ne_zero k (hlam0 j)
    field_simp
  have hMlim : Tendsto M atTop (𝓝 1) := by
    refine tendsto_pi_nhds.2 fun i => tendsto_pi_nhds.2 fun j => ?_
    change Tendsto (fun k => (lam i / lam j) ^ k * L i j) atTop (𝓝 ((1 : Matrix (Fin n) (Fin n) ℝ) i j))
    rcases lt_trichotomy i j with hij | hij | hij
    · rw [hL i j hij, Matrix.one_apply_ne hij.ne]
      simp only [mul_zero]
      exact tendsto_const_nhds
    · subst hij
      rw [hL1, Matrix.one_apply_eq, div_self (hlam0 i)]
      simp only [one_pow, mul_one]
      exact tendsto_const_nhds
    · rw [Matrix.one_apply_ne hij.ne']
      have h1 : |lam i / lam j| < 1 := by
        rw [abs_div, div_lt_one (abs_pos.2 (hlam0 j))]
        exact hlam j i hij
      have h2 := (tendsto_pow_atTop_nhds_zero_of_abs_lt_one h1).mul_const (L i j)
      rwa [zero_mul] at h2
  let N : ℕ → Matrix (Fin n) (Fin n) ℝ := fun k => R0 * M k * R0⁻¹
  have hNlim : Tendsto N atTop (𝓝 1) := by
    have h1 : Tendsto (fun k => R0 * M k * R0⁻¹) atTop (𝓝 (R0 * 1 * R0⁻¹)) :=
      (tendsto_const_nhds.mul hMlim).mul tendsto_const_nhds
    rwa [mul_one, hR0i] at h1
  let W : ℕ → Matrix (Fin n) (Fin n) ℝ := fun k => R0 * Lam k * U
  have hLamUp (k : ℕ) : Up (Lam k) := fun i j hij => Matrix.diagonal_apply_ne _ hij.ne'
  have hWup (k : ℕ) : Up (W k) := (Up.mul hR0.low (hLamUp k)).mul hU
  have hWd (k : ℕ) : IsUnit (W k).det := by
    refine hdet (hWup k) fun i => ?_
    change (R0 * Lam k * U) i i ≠ 0
    rw [Up.mul_diag (Up.mul hR0.low (hLamUp k)) hU, Up.mul_diag hR0.low (hLamUp k)]
    refine mul_ne_zero (mul_ne_zero (hR0.pos i).ne' ?_) (hdiag hU hUd i)
    simp only [Lam, Matrix.diagonal_apply_eq]
    exact pow_ne_zero _ (hlam0 i)
  have hWi (k : ℕ) : W k * (W k)⁻¹ = 1 := Matrix.mul_nonsing_inv _ (hWd k)
  have hfac (k : ℕ) : Q0 * N k * W k = prodQ Q k * prodR R k := by
    rw [← h.pow, hpow, hLU, ← hX0]
    calc Q0 * (R0 * M k * R0⁻¹) * (R0 * Lam k * U) = Q0 * R0 * M k * (R0⁻¹ * R0) * Lam k * U := by
          simp only [mul_assoc]
      _ = Q0 * R0 * (M k * Lam k) * U := by rw [hR0i', mul_one]; simp only [mul_assoc]
      _ = _ := by rw [← hM]; simp only [mul_assoc]
  let V : ℕ → Matrix (Fin n) (Fin n) ℝ := fun k => prodR R k * (W k)⁻¹
  have hWiu (k : ℕ) : Up (W k)⁻¹ := (hWup k).inv (hWd k)
  have hVup (k : ℕ) : Up (V k) := Up.mul (h.upperP k).low (hWiu k)
  have hVd (k : ℕ) (i : Fin n) : V k i i ≠ 0 := by
    change (prodR R k * (W k)⁻¹) i i ≠ 0
    rw [Up.mul_diag (h.upperP k).low (hWiu k)]
    refine mul_ne_zero ((h.upperP k).pos i).ne' (hdiag (hWiu k) ?_ i)
    exact (Matrix.isUnit_nonsing_inv_det_iff).2 (hWd k)
  have hV (k : ℕ) : Q0 * N k = prodQ Q k * V k := by
    calc Q0 * N k = Q0 * N k * (W k * (W k)⁻¹) := by rw [hWi, mul_one]
      _ = Q0 * N k * W k * (W k)⁻¹ := by simp only [mul_assoc]
      _ = _ := by rw [hfac, mul_assoc]
  -- signs
  let d : ℕ → Fin n → ℝ := fun k i => if 0 < V k i i then 1 else -1
  have hd2 (k : ℕ) (i : Fin n) : d k i * d k i = 1 := by
    simp only [d]; split <;> norm_num
  let D : ℕ → Matrix (Fin n) (Fin n) ℝ := fun k => diagonal (d k)
  have hDD (k : ℕ) : D k * D k = 1 := by
    simp only [D, Matrix.diagonal_mul_diagonal, hd2]
    exact Matrix.diagonal_one
  have hDt (k : ℕ) : (D k)ᵀ = D k := Matrix.diagonal_transpose _
  let P : ℕ → Matrix (Fin n) (Fin n) ℝ := fun k => Q0ᵀ * prodQ Q k * D k
  have hPo (k : ℕ) : (P k)ᵀ * P k = 1 := by
    simp only [P, Matrix.transpose_mul, hDt, Matrix.transpose_transpose]
    calc D k * ((prodQ Q k)ᵀ * Q0) * (Q0ᵀ * prodQ Q k * D k)
        = D k * ((prodQ Q k)ᵀ * (Q0 * Q0ᵀ) * prodQ Q k) * D k := by simp only [mul_assoc]
      _ = 1 := by rw [hQ0', mul_one, h.orthP, mul_one, hDD]
  have hSu (k : ℕ) : Upper (D k * V k) := by
    refine ⟨fun i j hij => ?_, fun i => ?_⟩
    · rw [Matrix.diagonal_mul, hVup k i j hij, mul_zero]
    · rw [Matrix.diagonal_mul]
      simp only [d]
      split
      · rename_i hp; rw [one_mul]; exact hp
      · rename_i hp
        have := lt_of_le_of_ne (not_lt.1 hp) (hVd k i)
        linarith
  have hPS (k : ℕ) : P k * (D k * V k) = N k := by
    calc P k * (D k * V k) = Q0ᵀ * (prodQ Q k * ((D k * D k) * V k)) := by
          simp only [P, mul_assoc]
      _ = Q0ᵀ * (Q0 * N k) := by rw [hDD, one_mul, hV]
      _ = N k := by rw [← mul_assoc, hQ0, one_mul]
  have hPlim : Tendsto P atTop (𝓝 1) := by
    refine tendsto_orth hPo hSu ?_
    simp only [hPS]
    exact hNlim
  let T : Matrix (Fin n) (Fin n) ℝ := Q0ᵀ * A * Q0
  have hT : T = R0 * diagonal lam * R0⁻¹ := by
    have h1 : Xi = R0⁻¹ * Q0ᵀ := by
      have h2 : R0⁻¹ * Q0ᵀ * X = 1 := by
        rw [← hX0, mul_assoc, ← mul_assoc Q0ᵀ, hQ0, one_mul, hR0i']
      calc Xi = R0⁻¹ * Q0ᵀ * X * Xi := by rw [h2, one_mul]
        _ = _ := by rw [mul_assoc, hX, mul_one]
    calc T = Q0ᵀ * Q0 * R0 * diagonal lam * R0⁻¹ * (Q0ᵀ * Q0) := by
          simp only [T, hA, ← hX0, h1, mul_assoc]
      _ = _ := by rw [hQ0, one_mul, mul_one]
  have hlamUp : Up (diagonal lam) := fun i j hij => Matrix.diagonal_apply_ne _ hij.ne'
  have hTup : Up T := by
    rw [hT]
    exact (Up.mul hR0.low hlamUp).mul (Up.inv hR0.low hR0u)
  have hTd (i : Fin n) : T i i = lam i := by
    have h1 : R0 i i * R0⁻¹ i i = 1 := by
      rw [← Up.mul_diag hR0.low (Up.inv hR0.low hR0u), hR0i, Matrix.one_apply_eq]
    rw [hT, Up.mul_diag (Up.mul hR0.low hlamUp) (Up.inv hR0.low hR0u), Up.mul_diag hR0.low hlamUp,
      Matrix.diagonal_apply_eq, mul_right_comm, h1, one_mul]
  have hB : Tendsto (fun k => (P k)ᵀ * T * P k) atTop (𝓝 T) := by
    have h1 : Tendsto (fun k => (P k)ᵀ) atTop (𝓝 (1 : Matrix (Fin n) (Fin n) ℝ)ᵀ) :=
      (continuous_id.matrix_transpose.tendsto _).comp hPlim
    have h2 := (h1.mul (tendsto_const_nhds (x := T))).mul hPlim
    rwa [Matrix.transpose_one, one_mul, mul_one] at h2
  have hAk (k : ℕ) : Ak k = D k * ((P k)ᵀ * T * P k) * D k := by
    have h1 : Q0 * P k * D k = prodQ Q k := by
      calc Q0 * P k * D k = (Q0 * Q0ᵀ) * prodQ Q k * (D k * D k) := by simp only [P, mul_assoc]
        _ = _ := by rw [hQ0', one_mul, hDD, mul_one]
    rw [h.similar, ← h1]
    simp only [Matrix.transpose_mul, hDt, T, mul_assoc]
  have hent (k : ℕ) (i j : Fin n) : Ak k i j = d k i * ((P k)ᵀ * T * P k) i j * d k j := by
    rw [hAk, Matrix.mul_diagonal, Matrix.diagonal_mul]
  have hBe (i j : Fin n) : Tendsto (fun k => ((P k)ᵀ * T * P k) i j) atTop (𝓝 (T i j)) :=
    ((continuous_id.matrix_elem i j).tendsto _).comp hB
  refine ⟨fun i j hij => ?_, fun i => ?_⟩
  · have h1 := hBe i j
    rw [hTup i j hij] at h1
    refine squeeze_zero_norm (fun k => ?_) (tendsto_norm_zero.comp h1)
    have habs (k : ℕ) (i : Fin n) : |d k i| = 1 := by
      simp only [d]; split <;> norm_num
    rw [hent, norm_mul, norm_mul, Real.norm_eq_abs (d k i), Real.norm_eq_abs (d k j), habs, habs, one_mul, mul_one]
    exact le_rfl
  · have h1 := hBe i i
    rw [hTd] at h1
    refine h1.congr fun k => ?_
    rw [hent, mul_right_comm, hd2, one_mul]

end run

end StaticMath.QrIter
