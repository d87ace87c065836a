import Verif.Model.Examples
import Verif.Lemmas.QrIter
import Verif.Props.Qr
import Verif.Props.Laws
import Verif.Props.Views
import Verif.Props.ZeroTests
import Mathlib.LinearAlgebra.Matrix.Charpoly.Basic
import Mathlib.LinearAlgebra.Matrix.Charpoly.Coeff

/-!
# C122: the QR iteration of `examples/eigenvalues.rs`
-/

namespace StaticMath

open Matrix Topology Examples

section
variable [P : RealParams]

/-- One step: the next matrix is `Qᵀ A Q`. -/
private theorem step_eq (A : Mat 3 ℝ) :
    ∃ B : Mat 3 ℝ, convert_to_similar A = .ok B ∧
      ∃ Q : Matrix (Fin 3) (Fin 3) ℝ, Qᵀ * Q = 1 ∧ B.toM = Qᵀ * A.toM * Q := by
  unfold convert_to_similar
  by_cases h : |M33.det A| < P.eps
  · rw [(C32_qr_M33 A).1.2 h]
    exact ⟨A, rfl, 1, by rw [Matrix.transpose_one, mul_one], by
      rw [Matrix.transpose_one, mul_one, one_mul]⟩
  · obtain ⟨Q, R, e, h1, h2, -, -⟩ := (C32_qr_M33 A).2 (not_lt.1 h)
    rw [e]
    rw [← Mat.toM_inj, M33.toM_mul, M33.toM_transpose, M33.toM_one] at h1
    rw [← Mat.toM_inj, M33.toM_mul] at h2
    refine ⟨M33.mul R Q, rfl, Q.toM, h1, ?_⟩
    rw [M33.toM_mul, ← h2, ← mul_assoc, h1, one_mul]

/-- What the example leaves in `m` is orthogonally similar to the start. -/
private def Sim (A B : Mat 3 ℝ) : Prop :=
  ∃ Q : Matrix (Fin 3) (Fin 3) ℝ, Qᵀ * Q = 1 ∧ B.toM = Qᵀ * A.toM * Q

omit P in
private theorem Sim.refl (A : Mat 3 ℝ) : Sim A A :=
  ⟨1, by rw [Matrix.transpose_one, mul_one], by rw [Matrix.transpose_one, mul_one, one_mul]⟩

omit P in
private theorem Sim.trans {A B C : Mat 3 ℝ} (h : Sim A B) (h' : Sim B C) : Sim A C := by
  obtain ⟨Q, h1, h2⟩ := h
  obtain ⟨S, h3, h4⟩ := h'
  refine ⟨Q * S, ?_, ?_⟩
  · rw [Matrix.transpose_mul, mul_assoc, ← mul_assoc Qᵀ, h1, one_mul, h3]
  · rw [h4, h2, Matrix.transpose_mul]
    simp only [mul_assoc]

/-- Some entry below the diagonal is zero or smaller than the tolerance. -/
private def LowSmall (B : Mat 3 ℝ) (tol : ℝ) : Prop :=
  ∃ i j : Fin 3, j < i ∧ (B i j = 0 ∨ |B i j| < tol)

private theorem check_low (B : Mat 3 ℝ) (tol : ℝ) :
    check_elements (⟨![B 1 0, B 2 0, B 2 1]⟩ : Vec 3 ℝ).toSlice tol = true ↔ LowSmall B tol := by
  rw [C98_check_elements]
  have e : (⟨![B 1 0, B 2 0, B 2 1]⟩ : Vec 3 ℝ).toSlice = [B 1 0, B 2 0, B 2 1] := rfl
  rw [e]
  constructor
  · rintro ⟨x, hx, h⟩
    simp only [List.mem_cons, List.not_mem_nil, or_false] at hx
    rcases hx with rfl | rfl | rfl
    · exact ⟨1, 0, by decide, h⟩
    · exact ⟨2, 0, by decide, h⟩
    · exact ⟨2, 1, by decide, h⟩
  · rintro ⟨i, j, hij, h⟩
    refine ⟨B i j, ?_, h⟩
    fin_cases i <;> fin_cases j <;> first | (exact absurd hij (by decide)) | simp

private theorem loop_step (tol : ℝ) (k c : ℕ) (A B : Mat 3 ℝ) (h : convert_to_similar A = .ok B) :
    eigen_loop tol (k + 1) (A, c, false)
      = eigen_loop tol k (B, c + 1, check_elements (⟨![B 1 0, B 2 0, B 2 1]⟩ : Vec 3 ℝ).toSlice tol) := by
  rw [eigen_loop]
  simp only [Bool.not_false, if_true, h, bind, Except.bind, M33.get_lower_triangular_eq]

private theorem loop_true (tol : ℝ) (k c : ℕ) (A : Mat 3 ℝ) :
    eigen_loop tol k (A, c, true) = .ok (A, c, true) := by
  cases k <;> rfl

private theorem loop_spec (tol : ℝ) (k : ℕ) : ∀ (c : ℕ) (A : Mat 3 ℝ),
    ∃ c' B r, eigen_loop tol k (A, c, false) = .ok (B, c', r) ∧ c' ≤ c + k ∧ Sim A B ∧
      (r = false → c' = c + k) ∧ (r = true → LowSmall B tol) ∧ (0 < k → r = false → ¬ LowSmall B tol) ∧
      (0 < k → c < c') := by
  induction k with
  | zero =>
    intro c A
    exact ⟨c, A, false, rfl, le_rfl, Sim.refl A, fun _ => rfl, nofun,
      fun h => absurd h (lt_irrefl 0), fun h => absurd h (lt_irrefl 0)⟩
  | succ k ih =>
    intro c A
    obtain ⟨B, hB, hs⟩ := step_eq A
    rw [loop_step tol k c A B hB]
    by_cases hl : LowSmall B tol
    · rw [(check_low B tol).2 hl, loop_true]
      exact ⟨c + 1, B, true, rfl, by omega, hs, nofun, fun _ => hl, nofun,
        fun _ => by omega⟩
    · rw [Bool.eq_false_iff.2 fun h => hl ((check_low B tol).1 h)]
      obtain ⟨c', C, r, e, h1, h2, h3, h4, h5, h6⟩ := ih (c + 1) B
      refine ⟨c', C, r, e, by omega, Sim.trans hs h2, fun h => ?_, h4, fun _ hr => ?_, fun _ => ?_⟩
      · rw [h3 h]; omega
      · rcases Nat.eq_zero_or_pos k with h0 | h0
        · subst h0
          have := Except.ok.inj e
          obtain ⟨rfl, -⟩ := Prod.mk.inj this
          exact hl
        · exact h5 h0 hr
      · rcases Nat.eq_zero_or_pos k with h0 | h0
        · subst h0
          have := Except.ok.inj e
          obtain ⟨-, e2⟩ := Prod.mk.inj this
          obtain ⟨e3, -⟩ := Prod.mk.inj e2
          omega
        · have := h6 h0; omega

private theorem eigenvalues_spec (A : Mat 3 ℝ) (tol : ℝ) (N : ℕ) :
    ∃ c v m r, eigenvalues A tol N = .ok (c, v, m, r) ∧ c ≤ N ∧ (∀ i, v i = m i i) ∧ Sim A m ∧
      (r = false → c = N) ∧ (r = true → LowSmall m tol) ∧ (0 < N → r = false → ¬ LowSmall m tol) ∧
      (0 < N → 0 < c) := by
  obtain ⟨c, m, r, e, h1, h2, h3, h4, h5, h6⟩ := loop_spec tol N 0 A
  rw [zero_add] at h1 h3
  refine ⟨c, ⟨fun i => m i i⟩, m, r, ?_, h1, fun _ => rfl, h2, h3, h4, h5, h6⟩
  unfold eigenvalues
  simp only [e, bind, Except.bind, M33.get_diagonal_eq]
  rfl

omit P in
private theorem Sim.charpoly {A B : Mat 3 ℝ} (h : Sim A B) : B.toM.charpoly = A.toM.charpoly := by
  obtain ⟨Q, h1, h2⟩ := h
  rw [h2, Matrix.charpoly_mul_comm, ← mul_assoc, mul_eq_one_comm.1 h1, one_mul]

/-- The example never panics, does at most `max_iterations` steps (at least one), prints the diagonal of a
matrix that is orthogonally similar to the start (same characteristic polynomial, symmetric if the start
is), and stops early exactly when some entry below the diagonal is zero or smaller than the tolerance. -/
theorem C122_similar (A : Mat 3 ℝ) (tol : ℝ) (N : ℕ) (hN : 0 < N) :
    ∃ c v m r, eigenvalues A tol N = .ok (c, v, m, r) ∧ 0 < c ∧ c ≤ N ∧ (∀ i, v i = m i i) ∧
      (∃ Q : Matrix (Fin 3) (Fin 3) ℝ, Qᵀ * Q = 1 ∧ m.toM = Qᵀ * A.toM * Q) ∧
      m.toM.charpoly = A.toM.charpoly ∧ (A.toMᵀ = A.toM → m.toMᵀ = m.toM) ∧
      (r = true ↔ ∃ i j : Fin 3, j < i ∧ (m i j = 0 ∨ |m i j| < tol)) ∧ (r = false → c = N) := by
  obtain ⟨c, v, m, r, e, h1, h2, h3, h4, h5, h6, h7⟩ := eigenvalues_spec A tol N
  refine ⟨c, v, m, r, e, h7 hN, h1, h2, h3, h3.charpoly, fun hs => ?_, ⟨h5, fun h => ?_⟩, h4⟩
  · obtain ⟨Q, -, hm⟩ := h3
    rw [hm, Matrix.transpose_mul, Matrix.transpose_mul, Matrix.transpose_transpose, hs, mul_assoc]
  · by_contra hr
    exact h6 hN (Bool.eq_false_iff.2 hr) h

/-- Backward error: the printed values are exactly the eigenvalues of a matrix whose distance from the
start, in the Frobenius norm, is that of the entries left below the diagonal. -/
theorem C122_backward (A : Mat 3 ℝ) (tol : ℝ) (N : ℕ) (c : ℕ) (v : Vec 3 ℝ) (m : Mat 3 ℝ) (r : Bool)
    (h : eigenvalues A tol N = .ok (c, v, m, r)) :
    ∃ E : Matrix (Fin 3) (Fin 3) ℝ,
      (∑ i, ∑ j, E i j ^ 2 = m 1 0 ^ 2 + m 2 0 ^ 2 + m 2 1 ^ 2) ∧
      (A.toM + E).charpoly = (Polynomial.X - Polynomial.C (v 0)) * (Polynomial.X - Polynomial.C (v 1))
        * (Polynomial.X - Polynomial.C (v 2)) := by
  obtain ⟨c', v', m', r', e, -, hv, ⟨Q, hQ, hm⟩, -⟩ := eigenvalues_spec A tol N
  rw [h] at e
  obtain ⟨rfl, e1⟩ := Prod.mk.inj (Except.ok.inj e)
  obtain ⟨rfl, e2⟩ := Prod.mk.inj e1
  obtain ⟨rfl, rfl⟩ := Prod.mk.inj e2
  have hQ' : Q * Qᵀ = 1 := mul_eq_one_comm.1 hQ
  let Low : Matrix (Fin 3) (Fin 3) ℝ := Matrix.of fun i j => if j < i then m i j else 0
  have hfro (B : Matrix (Fin 3) (Fin 3) ℝ) : ∑ i, ∑ j, B i j ^ 2 = (Bᵀ * B).trace := by
    rw [Matrix.trace, Finset.sum_comm]
    refine Finset.sum_congr rfl fun j _ => ?_
    rw [Matrix.diag_apply, Matrix.mul_apply]
    exact Finset.sum_congr rfl fun i _ => by rw [Matrix.transpose_apply, sq]
  refine ⟨-(Q * Low * Qᵀ), ?_, ?_⟩
  · rw [hfro]
    have e1 : (-(Q * Low * Qᵀ))ᵀ * -(Q * Low * Qᵀ) = Q * (Lowᵀ * Low) * Qᵀ := by
      rw [Matrix.transpose_neg, neg_mul_neg, Matrix.transpose_mul, Matrix.transpose_mul,
        Matrix.transpose_transpose]
      calc Q * (Lowᵀ * Qᵀ) * (Q * Low * Qᵀ) = Q * (Lowᵀ * (Qᵀ * Q) * Low) * Qᵀ := by
            simp only [mul_assoc]
        _ = _ := by rw [hQ, mul_one]
    rw [e1, Matrix.trace_mul_comm, ← mul_assoc, hQ, one_mul, ← hfro]
    simp only [Fin.sum_univ_three, Low, Matrix.of_apply]
    simp
    ring
  · have e2 : A.toM + -(Q * Low * Qᵀ) = Q * (m.toM - Low) * Qᵀ := by
      have : A.toM = Q * m.toM * Qᵀ := by
        rw [hm]
        calc A.toM = (Q * Qᵀ) * A.toM * (Q * Qᵀ) := by rw [hQ', one_mul, mul_one]
          _ = _ := by simp only [mul_assoc]
      rw [mul_sub, sub_mul, ← this, sub_eq_add_neg]
    have hup : (m.toM - Low).IsUpperTriangular := by
      intro i j hij
      have hij : j < i := hij
      simp only [Matrix.sub_apply, Low, Matrix.of_apply, hij, if_true]
      exact sub_self _
    rw [e2, Matrix.charpoly_mul_comm, ← mul_assoc, hQ, one_mul,
      Matrix.charpoly_of_isUpperTriangular _ hup, Fin.prod_univ_three]
    have hd (i : Fin 3) : (m.toM - Low) i i = v i := by
      rw [hv, Matrix.sub_apply]
      simp only [Low, Matrix.of_apply, lt_irrefl, if_false, sub_zero]
      rfl
    rw [hd, hd, hd]


/-! ### Convergence -/

/-- The matrices the loop goes through. -/
private noncomputable def seqQ (A : Mat 3 ℝ) : ℕ → Mat 3 ℝ
  | 0 => A
  | k + 1 => Classical.choose (step_eq (seqQ A k))

private theorem seqQ_step (A : Mat 3 ℝ) (k : ℕ) : convert_to_similar (seqQ A k) = .ok (seqQ A (k + 1)) :=
  (Classical.choose_spec (step_eq (seqQ A k))).1

private theorem seqQ_sim (A : Mat 3 ℝ) (k : ℕ) : Sim A (seqQ A k) := by
  induction k with
  | zero => exact Sim.refl A
  | succ k ih => exact Sim.trans ih (Classical.choose_spec (step_eq (seqQ A k))).2

omit P in
private theorem Sim.det {A B : Mat 3 ℝ} (h : Sim A B) : M33.det B = M33.det A := by
  obtain ⟨Q, h1, h2⟩ := h
  rw [M33.det_eq, M33.det_eq]
  change B.toM.det = A.toM.det
  rw [h2, Matrix.det_mul, Matrix.det_mul, mul_right_comm, ← Matrix.det_mul, h1,
    Matrix.det_one, one_mul]

private theorem seqQ_qr (A : Mat 3 ℝ) (hd : P.eps ≤ |M33.det A|) (k : ℕ) :
    ∃ Q R : Matrix (Fin 3) (Fin 3) ℝ, Qᵀ * Q = 1 ∧ QrIter.Upper R ∧ Q * R = (seqQ A k).toM ∧
      (seqQ A (k + 1)).toM = R * Q := by
  have hd' : P.eps ≤ |M33.det (seqQ A k)| := by rw [(seqQ_sim A k).det]; exact hd
  obtain ⟨Q, R, e, h1, h2, h3, h4⟩ := (C32_qr_M33 (seqQ A k)).2 hd'
  have hs := seqQ_step A k
  unfold convert_to_similar at hs
  rw [e] at hs
  have hs : M33.mul R Q = seqQ A (k + 1) := Except.ok.inj hs
  rw [← Mat.toM_inj, M33.toM_mul, M33.toM_transpose, M33.toM_one] at h1
  rw [← Mat.toM_inj, M33.toM_mul] at h2
  refine ⟨Q.toM, R.toM, h1, ⟨fun i j hij => h3 i j hij, fun i => h4 i⟩, h2, ?_⟩
  rw [← hs, M33.toM_mul]

/-- Every invertible matrix is orthogonal times upper triangular. -/
private theorem exists_qr (X Xi : Matrix (Fin 3) (Fin 3) ℝ) (hX : X * Xi = 1) :
    ∃ Q R : Matrix (Fin 3) (Fin 3) ℝ, Qᵀ * Q = 1 ∧ QrIter.Upper R ∧ Q * R = X := by
  have hdet : X.det ≠ 0 := by
    intro h
    have := congrArg Matrix.det hX
    rw [Matrix.det_mul, h, zero_mul, Matrix.det_one] at this
    exact zero_ne_one this
  obtain ⟨c, hc1, hc2⟩ : ∃ c : ℝ, 1 ≤ c ∧ P.eps ≤ c * |X.det| :=
    ⟨max 1 (P.eps / |X.det|), le_max_left _ _, by
      rw [← div_le_iff₀ (abs_pos.2 hdet)]; exact le_max_right _ _⟩
  have hc0 : 0 < c := by linarith
  let Y : Mat 3 ℝ := ⟨fun i j => c * X i j⟩
  have hY : Y.toM = c • X := rfl
  have hd : P.eps ≤ |M33.det Y| := by
    rw [M33.det_eq]
    change P.eps ≤ |Y.toM.det|
    rw [hY, Matrix.det_smul, abs_mul, Fintype.card_fin, abs_of_pos (by positivity)]
    refine hc2.trans (mul_le_mul_of_nonneg_right ?_ (abs_nonneg _))
    nlinarith [mul_self_nonneg (c - 1), mul_nonneg hc0.le (sub_nonneg.2 hc1)]
  obtain ⟨Q, R, -, h1, h2, h3, h4⟩ := (C32_qr_M33 Y).2 hd
  rw [← Mat.toM_inj, M33.toM_mul, M33.toM_transpose, M33.toM_one] at h1
  rw [← Mat.toM_inj, M33.toM_mul, hY] at h2
  refine ⟨Q.toM, c⁻¹ • R.toM, h1, ⟨fun i j hij => ?_, fun i => ?_⟩, ?_⟩
  · rw [Matrix.smul_apply, smul_eq_mul, show R.toM i j = 0 from h3 i j hij, mul_zero]
  · rw [Matrix.smul_apply, smul_eq_mul]
    exact mul_pos (inv_pos.2 hc0) (h4 i)
  · rw [Matrix.mul_smul, h2, smul_smul, inv_mul_cancel₀ hc0.ne', one_smul]

omit P in
/-- Crout factors of a 3x3 matrix with non-zero leading minors. -/
private theorem exists_lu (Z : Matrix (Fin 3) (Fin 3) ℝ) (h1 : Z 0 0 ≠ 0)
    (h2 : Z 0 0 * Z 1 1 - Z 0 1 * Z 1 0 ≠ 0) :
    ∃ L U : Matrix (Fin 3) (Fin 3) ℝ, Z = L * U ∧ (∀ i j, i < j → L i j = 0) ∧ (∀ i, L i i = 1) ∧
      QrIter.Up U := by
  let a := Z 1 0 / Z 0 0
  let b := Z 2 0 / Z 0 0
  let u := Z 1 1 - a * Z 0 1
  have hu : u ≠ 0 := by
    intro h
    apply h2
    have : Z 0 0 * u = 0 := by rw [h, mul_zero]
    simp only [u, a] at this
    rw [← this]
    field_simp
  let c := (Z 2 1 - b * Z 0 1) / u
  have ha : a * Z 0 0 = Z 1 0 := div_mul_cancel₀ _ h1
  have hb : b * Z 0 0 = Z 2 0 := div_mul_cancel₀ _ h1
  have hc : c * u = Z 2 1 - b * Z 0 1 := div_mul_cancel₀ _ hu
  refine ⟨!![1, 0, 0; a, 1, 0; b, c, 1],
    !![Z 0 0, Z 0 1, Z 0 2; 0, u, Z 1 2 - a * Z 0 2; 0, 0, Z 2 2 - b * Z 0 2 - c * (Z 1 2 - a * Z 0 2)],
    ?_, ?_, ?_, ?_⟩
  · ext i j
    fin_cases i <;> fin_cases j <;>
      simp [Matrix.mul_apply, Fin.sum_univ_three, ha, hb, hc, u]
  · intro i j hij
    fin_cases i <;> fin_cases j <;> first | (exact absurd hij (by decide)) | rfl
  · intro i
    fin_cases i <;> rfl
  · intro i j hij
    fin_cases i <;> fin_cases j <;> first | (exact absurd hij (by decide)) | rfl

/-- Convergence: if the start has three real eigenvalues of different sizes, with eigenvectors in general
position, then the matrices the loop goes through tend to an upper triangular matrix with the eigenvalues
on the diagonal, the largest first. -/
theorem C122_converges (A : Mat 3 ℝ) (hd : P.eps ≤ |M33.det A|) (X Xi : Matrix (Fin 3) (Fin 3) ℝ)
    (lam : Fin 3 → ℝ) (hX : X * Xi = 1) (hA : A.toM * X = X * diagonal lam)
    (h01 : |lam 1| < |lam 0|) (h12 : |lam 2| < |lam 1|)
    (hm1 : Xi 0 0 ≠ 0) (hm2 : Xi 0 0 * Xi 1 1 - Xi 0 1 * Xi 1 0 ≠ 0) :
    ∃ M : ℕ → Mat 3 ℝ, M 0 = A ∧ (∀ k, convert_to_similar (M k) = .ok (M (k + 1))) ∧
      (∀ i j : Fin 3, j < i → Filter.Tendsto (fun k => M k i j) Filter.atTop (𝓝 0)) ∧
      ∀ i : Fin 3, Filter.Tendsto (fun k => M k i i) Filter.atTop (𝓝 (lam i)) := by
  choose Q R hQ hR hQR hst using seqQ_qr A hd
  obtain ⟨Q0, R0, hQ0, hR0, hX0⟩ := exists_qr X Xi hX
  obtain ⟨L, U, hLU, hL, hL1, hU⟩ := exists_lu Xi hm1 hm2
  have hA' : A.toM = X * diagonal lam * Xi := by rw [← hA, mul_assoc, hX, mul_one]
  have hrun : QrIter.Run A.toM (fun k => (seqQ A k).toM) Q R := ⟨rfl, hQ, hR, hQR, hst⟩
  have hdl : lam 0 * lam 1 * lam 2 ≠ 0 := by
    have e : M33.det A = lam 0 * lam 1 * lam 2 := by
      rw [M33.det_eq]
      change A.toM.det = _
      rw [hA', Matrix.det_mul, Matrix.det_mul, mul_right_comm, ← Matrix.det_mul, hX,
        Matrix.det_one, one_mul, Matrix.det_diagonal, Fin.prod_univ_three]
    rw [← e]
    exact abs_pos.1 (lt_of_lt_of_le P.eps_pos hd)
  have hl0 (i : Fin 3) : lam i ≠ 0 := by
    intro h
    apply hdl
    fin_cases i <;> (simp only [Fin.mk_zero, Fin.mk_one, Fin.reduceFinMk] at h; rw [h]; ring)
  have hlt (i j : Fin 3) (hij : i < j) : |lam j| < |lam i| := by
    fin_cases i <;> fin_cases j <;>
      first | (exact absurd hij (by decide)) | exact h01 | exact h12 | exact h12.trans h01
  obtain ⟨c1, c2⟩ := hrun.tendsto hX hA' hLU hL hL1 hU hlt hl0 hQ0 hR0 hX0
  exact ⟨seqQ A, rfl, seqQ_step A, c1, c2⟩

private theorem loop_stops (tol : ℝ) (M : ℕ → Mat 3 ℝ)
    (hM : ∀ k, convert_to_similar (M k) = .ok (M (k + 1))) (N : ℕ) : ∀ (s c : ℕ),
    LowSmall (M (s + N + 1)) tol → ∀ n, N < n →
      ∃ c' k, eigen_loop tol n (M s, c, false) = .ok (M k, c', true) ∧ c' ≤ c + (N + 1) := by
  induction N with
  | zero =>
    intro s c h n hn
    obtain ⟨n, rfl⟩ := Nat.exists_eq_succ_of_ne_zero (by omega : n ≠ 0)
    rw [loop_step tol n c _ _ (hM s), (check_low _ tol).2 h, loop_true]
    exact ⟨c + 1, s + 1, rfl, by omega⟩
  | succ N ih =>
    intro s c h n hn
    obtain ⟨n, rfl⟩ := Nat.exists_eq_succ_of_ne_zero (by omega : n ≠ 0)
    rw [loop_step tol n c _ _ (hM s)]
    by_cases hl : LowSmall (M (s + 1)) tol
    · rw [(check_low _ tol).2 hl, loop_true]
      exact ⟨c + 1, s + 1, rfl, by omega⟩
    · rw [Bool.eq_false_iff.2 fun h => hl ((check_low _ tol).1 h)]
      obtain ⟨c', k, e, h'⟩ := ih (s + 1) (c + 1)
        (by rw [show s + 1 + N + 1 = s + (N + 1) + 1 by omega]; exact h) n (by omega)
      exact ⟨c', k, e, by omega⟩

/-- Termination: for the same matrices and every positive tolerance there is a number of iterations after
which the loop has stopped because of the tolerance, whatever the maximum. -/
theorem C122_terminates (A : Mat 3 ℝ) (hd : P.eps ≤ |M33.det A|) (X Xi : Matrix (Fin 3) (Fin 3) ℝ)
    (lam : Fin 3 → ℝ) (hX : X * Xi = 1) (hA : A.toM * X = X * diagonal lam)
    (h01 : |lam 1| < |lam 0|) (h12 : |lam 2| < |lam 1|)
    (hm1 : Xi 0 0 ≠ 0) (hm2 : Xi 0 0 * Xi 1 1 - Xi 0 1 * Xi 1 0 ≠ 0) (tol : ℝ) (htol : 0 < tol) :
    ∃ K, ∀ N, K ≤ N → ∃ c v m, eigenvalues A tol N = .ok (c, v, m, true) ∧ c ≤ K := by
  obtain ⟨M, h0, hM, hlow, -⟩ := C122_converges A hd X Xi lam hX hA h01 h12 hm1 hm2
  obtain ⟨K, hK⟩ := Filter.eventually_atTop.1
    ((Metric.tendsto_nhds.1 (hlow 1 0 (by decide)) tol htol))
  have hs : LowSmall (M (0 + K + 1)) tol := by
    refine ⟨1, 0, by decide, Or.inr ?_⟩
    have := hK (0 + K + 1) (by omega)
    rwa [Real.dist_eq, sub_zero] at this
  refine ⟨K + 1, fun N hN => ?_⟩
  obtain ⟨c, k, e, hc⟩ := loop_stops tol M hM K 0 0 hs N (by omega)
  rw [h0] at e
  refine ⟨c, ⟨fun i => M k i i⟩, M k, ?_, by omega⟩
  unfold eigenvalues
  simp only [e, bind, Except.bind, M33.get_diagonal_eq]
  rfl

/-- The matrix written in the example meets the hypotheses: eigenvalues 7, 6, 3. -/
example :
    let A : Mat 3 ℝ := ⟨![![5, 2, 0], ![2, 5, 0], ![-3, 4, 6]]⟩
    ∃ X Xi : Matrix (Fin 3) (Fin 3) ℝ, ∃ lam : Fin 3 → ℝ, P.eps ≤ |M33.det A| ∧ X * Xi = 1 ∧
      A.toM * X = X * diagonal lam ∧ lam = ![7, 6, 3] ∧ |lam 1| < |lam 0| ∧ |lam 2| < |lam 1| ∧
      Xi 0 0 ≠ 0 ∧ Xi 0 0 * Xi 1 1 - Xi 0 1 * Xi 1 0 ≠ 0 := by
  intro A
  refine ⟨!![1, 0, 3; 1, 0, -3; 1, 1, 7], !![1/2, 1/2, 0; -5/3, 2/3, 1; 1/6, -1/6, 0], ![7, 6, 3], ?_, ?_, ?_,
    rfl, ?_, ?_, ?_, ?_⟩
  · have : M33.det A = 126 := by simp [M33.det, A]; norm_num
    rw [this]
    have := P.eps_le
    norm_num at this ⊢
    linarith
  · ext i j
    fin_cases i <;> fin_cases j <;> simp [Matrix.mul_apply, Fin.sum_univ_three] <;> norm_num
  · ext i j
    fin_cases i <;> fin_cases j <;>
      simp [Matrix.mul_apply, Fin.sum_univ_three, Mat.toM, A] <;> norm_num
  · norm_num [abs_of_pos]
  · change |(3 : ℝ)| < |6|
    norm_num [abs_of_pos]
  all_goals norm_num

/-! ### The stopping test -/

/-- The stopping test accepts one small entry below the diagonal. For the matrix of the cyclic permutation
the loop stops after one iteration, whatever the tolerance, and prints `0, 0, 0`; none of them is an
eigenvalue. -/
theorem C122_reported_false (tol : ℝ) (N : ℕ) (hN : 0 < N) :
    let A : Mat 3 ℝ := ⟨![![0, 0, 1], ![1, 0, 0], ![0, 1, 0]]⟩
    ∃ v : Vec 3 ℝ, eigenvalues A tol N = .ok (1, v, A, true) ∧ (∀ i, v i = 0) ∧
      ∀ i, ¬ ∃ x : Fin 3 → ℝ, x ≠ 0 ∧ A.toM *ᵥ x = v i • x := by
  intro A
  have hdet : M33.det A = 1 := by simp [M33.det, A]
  have hstep : convert_to_similar A = .ok A := by
    obtain ⟨Q, R, e, h1, h2, h3, h4⟩ := (C32_qr_M33 A).2 (by
      rw [hdet, abs_one]
      have := P.eps_le
      norm_num at this
      linarith)
    unfold convert_to_similar
    rw [e]
    rw [← Mat.toM_inj, M33.toM_mul, M33.toM_transpose, M33.toM_one] at h1
    rw [← Mat.toM_inj, M33.toM_mul] at h2
    have hAo : A.toMᵀ * A.toM = 1 := by
      ext i j
      fin_cases i <;> fin_cases j <;> simp [Matrix.mul_apply, Fin.sum_univ_three, Mat.toM, A]
    have hR : R.toM = 1 := by
      refine QrIter.orth_upper ?_ (fun i j hij => h3 i j hij) fun i => (h4 i).le
      have : R.toM = Q.toMᵀ * A.toM := by rw [← h2, ← mul_assoc, h1, one_mul]
      rw [this, Matrix.transpose_mul, Matrix.transpose_transpose, mul_assoc, ← mul_assoc Q.toM,
        mul_eq_one_comm.1 h1, one_mul, hAo]
    have hQ : Q = A := by rw [← Mat.toM_inj, ← h2, hR, mul_one]
    have : M33.mul R Q = A := by rw [← Mat.toM_inj, M33.toM_mul, hR, one_mul, hQ]
    exact congrArg Except.ok this
  obtain ⟨n, rfl⟩ := Nat.exists_eq_succ_of_ne_zero hN.ne'
  refine ⟨⟨fun i => A i i⟩, ?_, ?_, ?_⟩
  · unfold eigenvalues
    have hl : LowSmall A tol := ⟨2, 0, by decide, Or.inl rfl⟩
    rw [loop_step tol n 0 A A hstep, (check_low A tol).2 hl, loop_true]
    simp only [bind, Except.bind, M33.get_diagonal_eq]
    rfl
  · intro i
    fin_cases i <;> rfl
  · rintro i ⟨x, hx, h⟩
    apply hx
    have hv : (⟨fun i => A i i⟩ : Vec 3 ℝ) i = 0 := by fin_cases i <;> rfl
    rw [hv, zero_smul] at h
    have e0 := congrFun h 0
    have e1 := congrFun h 1
    have e2 := congrFun h 2
    simp [Matrix.mulVec, dotProduct, Fin.sum_univ_three, Mat.toM, A] at e0 e1 e2
    ext j
    fin_cases j
    · exact e1
    · exact e2
    · exact e0

/-- What remains of "when the loop stops before the maximum, the printed values are the eigenvalues": it
holds when every entry below the diagonal is zero. Missing: small entries (see `C122_backward`), and the
test of the code asks for one small entry only. -/
theorem C122_reported_partial (A : Mat 3 ℝ) (tol : ℝ) (N : ℕ) (c : ℕ) (v : Vec 3 ℝ) (m : Mat 3 ℝ) (r : Bool)
    (h : eigenvalues A tol N = .ok (c, v, m, r)) (h10 : m 1 0 = 0) (h20 : m 2 0 = 0) (h21 : m 2 1 = 0) :
    (∀ μ : ℝ, (∃ x : Fin 3 → ℝ, x ≠ 0 ∧ A.toM *ᵥ x = μ • x) ↔ ∃ i, μ = v i) ∧
      A.toM.charpoly = (Polynomial.X - Polynomial.C (v 0)) * (Polynomial.X - Polynomial.C (v 1))
        * (Polynomial.X - Polynomial.C (v 2)) := by
  obtain ⟨E, hE, hc⟩ := C122_backward A tol N c v m r h
  rw [h10, h20, h21] at hE
  have hE0 : E = 0 := by
    ext i j
    have h1 : ∑ i, ∑ j, E i j ^ 2 = 0 := by rw [hE]; ring
    have h2 := (Finset.sum_eq_zero_iff_of_nonneg
      fun i _ => Finset.sum_nonneg fun j _ => sq_nonneg (E i j)).1 h1 i (Finset.mem_univ i)
    have h3 := (Finset.sum_eq_zero_iff_of_nonneg fun j _ => sq_nonneg (E i j)).1 h2 j (Finset.mem_univ j)
    exact pow_eq_zero_iff (two_ne_zero) |>.1 h3
  rw [hE0, add_zero] at hc
  refine ⟨fun μ => ?_, hc⟩
  have key : (∃ x : Fin 3 → ℝ, x ≠ 0 ∧ A.toM *ᵥ x = μ • x) ↔ A.toM.charpoly.eval μ = 0 := by
    rw [Matrix.eval_charpoly, ← Matrix.exists_mulVec_eq_zero_iff]
    refine exists_congr fun x => and_congr_right fun _ => ?_
    rw [Matrix.sub_mulVec, sub_eq_zero, eq_comm]
    have : (Matrix.scalar (Fin 3)) μ *ᵥ x = μ • x := by
      ext i
      simp [Matrix.scalar_apply, Matrix.mulVec_diagonal]
    rw [this]
  rw [key, hc]
  simp only [Polynomial.eval_mul, Polynomial.eval_sub, Polynomial.eval_X, Polynomial.eval_C, mul_eq_zero,
    sub_eq_zero, Fin.exists_fin_succ, Fin.exists_fin_zero]
  constructor
  · rintro ((h | h) | h)
    · exact Or.inl h
    · exact Or.inr (Or.inl h)
    · exact Or.inr (Or.inr (Or.inl h))
  · rintro (h | h | h | h)
    · exact Or.inl (Or.inl h)
    · exact Or.inl (Or.inr h)
    · exact Or.inr h
    · exact absurd h (by simp)

/-- The hypotheses are met by every upper triangular start with a positive diagonal: here the loop stops after
one iteration with `2, 3, 5`. -/
example (tol : ℝ) (N : ℕ) :
    let A : Mat 3 ℝ := ⟨![![2, 1, 4], ![0, 3, 1], ![0, 0, 5]]⟩
    ∃ v, eigenvalues A tol (N + 1) = .ok (1, v, A, true) ∧ v = ⟨![2, 3, 5]⟩ ∧ A 1 0 = 0 ∧ A 2 0 = 0 ∧
      A 2 1 = 0 := by
  intro A
  have hdet : M33.det A = 30 := by simp [M33.det, A]; norm_num
  have hstep : convert_to_similar A = .ok A := by
    obtain ⟨Q, R, e, -⟩ := (C32_qr_M33 A).2 (by
      rw [hdet]
      have := P.eps_le
      norm_num at this ⊢
      linarith)
    have hone (B : Mat 3 ℝ) : M33.mul M33.one B = B := by
      rw [← Mat.toM_inj, M33.toM_mul, M33.toM_one, one_mul]
    obtain ⟨hQ, hR⟩ := C116_qr_unique_M33 A Q R M33.one A e
      (by rw [← Mat.toM_inj, M33.toM_mul, M33.toM_transpose, M33.toM_one, Matrix.transpose_one, one_mul])
      (hone A)
      (fun i j hij => by
        fin_cases i <;> fin_cases j <;> first | (exact absurd hij (by decide)) | rfl)
      (fun i => by fin_cases i <;> simp [A])
    unfold convert_to_similar
    rw [e, ← hQ, ← hR]
    refine congrArg Except.ok ?_
    rw [← Mat.toM_inj, M33.toM_mul, M33.toM_one, mul_one]
  refine ⟨⟨fun i => A i i⟩, ?_, ?_, rfl, rfl, rfl⟩
  · unfold eigenvalues
    have hl : LowSmall A tol := ⟨2, 0, by decide, Or.inl rfl⟩
    rw [loop_step tol N 0 A A hstep, (check_low A tol).2 hl, loop_true]
    simp only [bind, Except.bind, M33.get_diagonal_eq]
    rfl
  · refine Vec.ext3 ?_ ?_ ?_ <;> rfl

end

end StaticMath
