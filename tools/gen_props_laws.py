#!/usr/bin/env python3
"""Props/Laws.lean: consequences a user relies on (inverse laws, similarity invariants, QR uniqueness)."""
P='''import Verif.Props.Inverse
import Verif.Props.Qr
import Verif.Props.Compare
import Mathlib.LinearAlgebra.Matrix.Block

/-!
# C114–C116: laws of inverses, invariants under change of basis, uniqueness of QR

Generated by `tools/gen_props_laws.py` (the same statement for every size 2..6).
-/

namespace StaticMath

variable [P : RealParams]

omit P in
private theorem inv_unique {n : ℕ} {A X Y : Matrix (Fin n) (Fin n) ℝ} (h : X * A = 1) (h' : A * Y = 1) : X = Y := by
  calc X = X * (A * Y) := by rw [h', mul_one]
    _ = Y := by rw [← mul_assoc, h, one_mul]

'''
for n in range(2,7):
    N=f'M{n}{n}'
    P+=f'''private theorem {N}.inverse_of (A X : Mat {n} ℝ) (h : P.eps ≤ |A.toM.det|) (hX : X.toM * A.toM = 1) :
    {N}.inverse A = .ok (some X) := by
  obtain ⟨B, hB⟩ := C10_inverse_{N}_partial A h
  have h1 := (C08_inverse_{N} A B hB).1
  rw [← Mat.toM_inj, {N}.toM_mul, {N}.toM_one] at h1
  rw [hB, show B = X from Mat.toM_injective (inv_unique hX h1).symm]

private theorem {N}.of_inverse (A X : Mat {n} ℝ) (h : {N}.inverse A = .ok (some X)) :
    P.eps ≤ |A.toM.det| ∧ X.toM * A.toM = 1 ∧ A.toM * X.toM = 1 := by
  have h1 := C08_inverse_{N} A X h
  rw [← Mat.toM_inj, ← Mat.toM_inj, {N}.toM_mul, {N}.toM_mul, {N}.toM_one] at h1
  obtain ⟨o, ho, hn, -⟩ := C09_inverse_{N} A
  refine ⟨?_, h1.2, h1.1⟩
  by_contra hc
  rw [hn.2 (not_le.1 hc)] at ho
  rw [ho] at h
  cases h

'''
P+='/-! ## C114 laws of the inverse -/\n\n'
for n in range(2,7):
    N=f'M{n}{n}'
    P+=f'''/-- The inverse of a transpose, of an inverse, of a product and of a multiple; its determinant. `inverse`
refuses determinants below EPSILON, hence the conditions on determinants. -/
theorem C114_inverse_laws_{N} (A B X Y : Mat {n} ℝ) (c : ℝ) (hA : {N}.inverse A = .ok (some X))
    (hB : {N}.inverse B = .ok (some Y)) :
    {N}.det A * {N}.det X = 1 ∧
    {N}.inverse ({N}.transpose A) = .ok (some ({N}.transpose X)) ∧
    (P.eps ≤ |1 / {N}.det A| → {N}.inverse X = .ok (some A)) ∧
    (P.eps ≤ |{N}.det A * {N}.det B| → {N}.inverse ({N}.mul A B) = .ok (some ({N}.mul Y X))) ∧
    (P.eps ≤ |c ^ {n} * {N}.det A| → {N}.inverse ({N}.smul A c) = .ok (some ({N}.sdiv X c))) ∧
    {N}.inverse ({N}.neg A) = .ok (some ({N}.neg X)) ∧
    {N}.inverse ({N}.one : Mat {n} ℝ) = .ok (some {N}.one) := by
  obtain ⟨a1, a2, a3⟩ := {N}.of_inverse A X hA
  obtain ⟨b1, b2, b3⟩ := {N}.of_inverse B Y hB
  have dA : {N}.det A = A.toM.det := {N}.det_eq A
  have dX : {N}.det X = X.toM.det := {N}.det_eq X
  have dB : {N}.det B = B.toM.det := {N}.det_eq B
  rw [dA, dX, dB]
  have hdet : A.toM.det * X.toM.det = 1 := by rw [← Matrix.det_mul, a3, Matrix.det_one]
  refine ⟨hdet, ?_, fun h => ?_, fun h => ?_, fun h => ?_, ?_, ?_⟩
  · refine {N}.inverse_of _ _ ?_ ?_
    · rw [{N}.toM_transpose, Matrix.det_transpose]
      exact a1
    · rw [{N}.toM_transpose, {N}.toM_transpose, ← Matrix.transpose_mul, a3, Matrix.transpose_one]
  · refine {N}.inverse_of _ _ ?_ a3
    rwa [eq_one_div_of_mul_eq_one_right hdet]
  · refine {N}.inverse_of _ _ ?_ ?_
    · rwa [{N}.toM_mul, Matrix.det_mul]
    · rw [{N}.toM_mul, {N}.toM_mul, mul_assoc, ← mul_assoc X.toM, a2, one_mul, b2]
  · have hc : c ≠ 0 := by
      rintro rfl
      rw [zero_pow (by norm_num), zero_mul, abs_zero] at h
      exact absurd P.eps_pos (not_lt.2 h)
    have hs : ({N}.sdiv X c).toM = c⁻¹ • X.toM := by
      ext i j
      exact ({N}.sdiv_apply X c i j).trans (div_eq_inv_mul _ _)
    refine {N}.inverse_of _ _ ?_ ?_
    · rw [{N}.toM_smul, Matrix.det_smul, Fintype.card_fin]
      exact h
    · rw [hs, {N}.toM_smul, Matrix.smul_mul, Matrix.mul_smul, smul_smul, a2, inv_mul_cancel₀ hc, one_smul]
  · refine {N}.inverse_of _ _ ?_ ?_
    · rw [{N}.toM_neg, Matrix.det_neg, abs_mul, abs_pow, abs_neg, abs_one, one_pow, one_mul]
      exact a1
    · rw [{N}.toM_neg, {N}.toM_neg, neg_mul_neg, a2]
  · refine {N}.inverse_of _ _ ?_ ?_
    · rw [{N}.toM_one, Matrix.det_one, abs_one]
      have := P.eps_le
      norm_num at this ⊢
      linarith
    · rw [{N}.toM_one, one_mul]

'''
P+='''/-- The hypotheses are met, and the conditions too. -/
example : M22.inverse (⟨![![2, 1], ![1, 1]]⟩ : Mat 2 ℝ) = .ok (some ⟨![![1, -1], ![-1, 2]]⟩) := by
  refine M22.inverse_of _ _ ?_ ?_
  · have : (⟨![![2, 1], ![1, 1]]⟩ : Mat 2 ℝ).toM.det = 1 := by
      rw [Matrix.det_fin_two]
      change (2 : ℝ) * 1 - 1 * 1 = 1
      norm_num
    rw [this, abs_one]
    have := P.eps_le
    norm_num at this ⊢
    linarith
  · ext i j
    rw [Matrix.mul_apply, Fin.sum_univ_two]
    fin_cases i <;> fin_cases j <;> simp [Mat.toM] <;> norm_num

/-! ## C115 change of basis -/

'''
for n in range(2,7):
    N=f'M{n}{n}'
    P+=f'''/-- With `X = A.inverse()`: `X*M*A` has the determinant and the trace of `M`, and products and inverses of
conjugated matrices are the conjugated products and inverses. -/
theorem C115_similar_{N} (A X M M' : Mat {n} ℝ) (hA : {N}.inverse A = .ok (some X)) :
    {N}.det ({N}.mul ({N}.mul X M) A) = {N}.det M ∧
    {N}.trace ({N}.mul ({N}.mul X M) A) = {N}.trace M ∧
    {N}.mul ({N}.mul ({N}.mul X M) A) ({N}.mul ({N}.mul X M') A) = {N}.mul ({N}.mul X ({N}.mul M M')) A ∧
    (∀ W, {N}.inverse M = .ok (some W) →
      {N}.inverse ({N}.mul ({N}.mul X M) A) = .ok (some ({N}.mul ({N}.mul X W) A))) ∧
    ({N}.inverse M = .ok none → {N}.inverse ({N}.mul ({N}.mul X M) A) = .ok none) := by
  obtain ⟨a1, a2, a3⟩ := {N}.of_inverse A X hA
  have hdet : X.toM.det * A.toM.det = 1 := by rw [← Matrix.det_mul, a2, Matrix.det_one]
  have hd : ({N}.mul ({N}.mul X M) A).toM.det = M.toM.det := by
    rw [{N}.toM_mul, {N}.toM_mul, Matrix.det_mul, Matrix.det_mul, mul_right_comm, hdet, one_mul]
  refine ⟨?_, ?_, ?_, fun W hW => ?_, fun hN => ?_⟩
  · have e1 : {N}.det ({N}.mul ({N}.mul X M) A) = ({N}.mul ({N}.mul X M) A).toM.det := {N}.det_eq _
    have e2 : {N}.det M = M.toM.det := {N}.det_eq _
    rw [e1, e2, hd]
  · rw [{N}.trace_toM, {N}.trace_toM, {N}.toM_mul, {N}.toM_mul, Matrix.trace_mul_comm, ← mul_assoc, a3, one_mul]
  · rw [← Mat.toM_inj]
    simp only [{N}.toM_mul]
    rw [show X.toM * M.toM * A.toM * (X.toM * M'.toM * A.toM) = X.toM * M.toM * (A.toM * X.toM) * M'.toM * A.toM by
      simp only [mul_assoc], a3, mul_one, mul_assoc X.toM]
  · obtain ⟨w1, w2, w3⟩ := {N}.of_inverse M W hW
    refine {N}.inverse_of _ _ (by rwa [hd]) ?_
    simp only [{N}.toM_mul]
    rw [show X.toM * W.toM * A.toM * (X.toM * M.toM * A.toM) = X.toM * W.toM * (A.toM * X.toM) * M.toM * A.toM by
      simp only [mul_assoc], a3, mul_one, mul_assoc X.toM, w2, mul_one, a2]
  · obtain ⟨o, ho, hn, -⟩ := C09_inverse_{N} M
    obtain ⟨o', ho', hn', -⟩ := C09_inverse_{N} ({N}.mul ({N}.mul X M) A)
    rw [ho] at hN
    have h0 : o = none := Except.ok.inj hN
    rw [ho', hn'.2 (by rw [hd]; exact hn.1 h0)]

'''
P+='''/-- The eigenvalues of a 2x2 matrix do not depend on the basis. -/
theorem C115_eigenvals (A X M : Mat 2 ℝ) (hA : M22.inverse A = .ok (some X)) :
    M22.real_eigenvals (M22.mul (M22.mul X M) A) = M22.real_eigenvals M ∧
    M22.real_eigenvals (M22.transpose M) = M22.real_eigenvals M := by
  have key : ∀ M N : Mat 2 ℝ, M.toM.trace = N.toM.trace → M.toM.det = N.toM.det →
      M22.real_eigenvals M = M22.real_eigenvals N := by
    intro M N ht hd
    have ev : ∀ (M N : Mat 2 ℝ), M.toM.trace = N.toM.trace → M.toM.det = N.toM.det → ∀ x : ℝ,
        (∃ v : Fin 2 → ℝ, v ≠ 0 ∧ M.toM.mulVec v = x • v) → ∃ v : Fin 2 → ℝ, v ≠ 0 ∧ N.toM.mulVec v = x • v := by
      intro M N ht hd x hx
      have h1 : ∀ K : Mat 2 ℝ, (∃ v : Fin 2 → ℝ, v ≠ 0 ∧ K.toM.mulVec v = x • v) ↔
          x ^ 2 - K.toM.trace * x + K.toM.det = 0 := by
        intro K
        have e : (∃ v : Fin 2 → ℝ, v ≠ 0 ∧ K.toM.mulVec v = x • v) ↔
            ∃ v : Fin 2 → ℝ, v ≠ 0 ∧ (K.toM - Matrix.scalar (Fin 2) x).mulVec v = 0 := by
          refine exists_congr fun v => and_congr_right fun _ => ?_
          rw [Matrix.sub_mulVec, sub_eq_zero]
          rw [show (Matrix.scalar (Fin 2) x).mulVec v = x • v by
            ext i
            simp [Matrix.scalar_apply, Matrix.mulVec_diagonal]]
        rw [e, Matrix.exists_mulVec_eq_zero_iff, Matrix.det_fin_two, Matrix.det_fin_two, Matrix.trace_fin_two]
        simp only [Matrix.sub_apply, Matrix.scalar_apply, Matrix.diagonal_apply]
        norm_num
        constructor <;> intro h <;> linarith
      rw [h1] at hx ⊢
      rw [← ht, ← hd]
      exact hx
    obtain ⟨m1, m2⟩ := C33_real_eigenvals M
    obtain ⟨n1, n2⟩ := C33_real_eigenvals N
    cases hM : M22.real_eigenvals M with
    | none =>
      have h2 := m1.1 hM
      rw [n1.2 fun ⟨x, hx⟩ => h2 ⟨x, ev N M ht.symm hd.symm x hx⟩]
    | some l =>
      cases hN : M22.real_eigenvals N with
      | none =>
        have h2 := n1.1 hN
        have h3 : ¬M22.real_eigenvals M = none := by rw [hM]; simp
        rw [m1, not_not] at h3
        obtain ⟨x, hx⟩ := h3
        exact absurd ⟨x, ev M N ht hd x hx⟩ h2
      | some k =>
        obtain ⟨p1, p2, p3, -⟩ := m2 l hM
        obtain ⟨q1, q2, q3, -⟩ := n2 k hN
        have hs : (l 0 - l 1) ^ 2 = (k 0 - k 1) ^ 2 := by
          have e1 : (l 0 - l 1) ^ 2 = (l 0 + l 1) ^ 2 - 4 * (l 0 * l 1) := by ring
          have e2 : (k 0 - k 1) ^ 2 = (k 0 + k 1) ^ 2 - 4 * (k 0 * k 1) := by ring
          rw [e1, e2, p1, p2, q1, q2, ht, hd]
        have h0 : l 0 - l 1 = k 0 - k 1 := by
          rwa [sq_eq_sq₀ (by linarith) (by linarith)] at hs
        have hlk : l = k := by
          ext i
          fin_cases i
          · change l 0 = k 0
            linarith
          · change l 1 = k 1
            linarith
        rw [hlk]
  refine ⟨key _ _ ?_ ?_, key _ _ ?_ ?_⟩
  · rw [← M22.trace_toM, ← M22.trace_toM]
    exact (C115_similar_M22 A X M M hA).2.1
  · have e1 : M22.det (M22.mul (M22.mul X M) A) = (M22.mul (M22.mul X M) A).toM.det := M22.det_eq _
    have e2 : M22.det M = M.toM.det := M22.det_eq _
    rw [← e1, ← e2]
    exact (C115_similar_M22 A X M M hA).1
  · rw [M22.toM_transpose, Matrix.trace_transpose]
  · rw [M22.toM_transpose, Matrix.det_transpose]

/-! ## C116 the QR factorisation is the only one -/

omit P in
/-- An orthogonal upper triangular matrix with positive diagonal is the identity. -/
private theorem ortho_upper {n : ℕ} (M : Matrix (Fin n) (Fin n) ℝ) (ho : M.transpose * M = 1)
    (hu : ∀ i j, j < i → M i j = 0) (hd : ∀ i, 0 < M i i) : M = 1 := by
  have h : ∀ i j, ∑ k, M k i * M k j = if i = j then 1 else 0 := fun i j => by
    rw [← Matrix.one_apply, ← ho, Matrix.mul_apply]
    rfl
  have key : ∀ k : ℕ, ∀ hk : k < n, ∀ i, M i ⟨k, hk⟩ = if i = ⟨k, hk⟩ then 1 else 0 := by
    intro k
    induction k using Nat.strong_induction_on with
    | _ k ih =>
      intro hk
      have off : ∀ i, i ≠ ⟨k, hk⟩ → M i ⟨k, hk⟩ = 0 := by
        intro i hi
        rcases lt_or_gt_of_ne hi with hlt | hgt
        · have h1 := h i ⟨k, hk⟩
          rw [if_neg hi, Finset.sum_eq_single i] at h1
          · rwa [show M i i = 1 from (ih i.val hlt i.isLt i).trans (if_pos rfl), one_mul] at h1
          · intro l _ hl
            rw [show M l i = 0 from (ih i.val hlt i.isLt l).trans (if_neg hl), zero_mul]
          · intro hn
            exact absurd (Finset.mem_univ _) hn
        · exact hu i _ hgt
      intro i
      split
      · next e =>
        subst e
        have h1 := h ⟨k, hk⟩ ⟨k, hk⟩
        rw [if_pos rfl, Finset.sum_eq_single ⟨k, hk⟩] at h1
        · nlinarith [hd ⟨k, hk⟩]
        · intro l _ hl
          rw [off l hl, zero_mul]
        · intro hn
          exact absurd (Finset.mem_univ _) hn
      · next hi => exact off i hi
  ext i j
  rw [Matrix.one_apply]
  exact key j.val j.isLt i

omit P in
private theorem qr_unique {n : ℕ} (Q R Q' R' : Matrix (Fin n) (Fin n) ℝ) (hQ : Q.transpose * Q = 1)
    (hQ' : Q'.transpose * Q' = 1) (he : Q * R = Q' * R') (hu : ∀ i j, j < i → R i j = 0) (hd : ∀ i, 0 < R i i)
    (hu' : ∀ i j, j < i → R' i j = 0) (hd' : ∀ i, 0 < R' i i) : Q' = Q ∧ R' = R := by
  have hQ2 : Q * Q.transpose = 1 := mul_eq_one_comm.1 hQ
  have hM : Q.transpose * Q' * R' = R := by rw [mul_assoc, ← he, ← mul_assoc, hQ, one_mul]
  have hMo : (Q.transpose * Q').transpose * (Q.transpose * Q') = 1 := by
    rw [Matrix.transpose_mul, Matrix.transpose_transpose, mul_assoc, ← mul_assoc Q, hQ2, one_mul, hQ']
  obtain ⟨M, hMd⟩ : ∃ M, M = Q.transpose * Q' := ⟨_, rfl⟩
  rw [← hMd] at hM hMo
  have hs : ∀ i k, ∑ j, M i j * R' j k = R i k := fun i k => by rw [← hM, Matrix.mul_apply]
  have up : ∀ k : ℕ, ∀ hk : k < n, ∀ i : Fin n, k < i.val → M i ⟨k, hk⟩ = 0 := by
    intro k
    induction k using Nat.strong_induction_on with
    | _ k ih =>
      intro hk i hi
      have h1 := hs i ⟨k, hk⟩
      rw [hu i ⟨k, hk⟩ hi, Finset.sum_eq_single ⟨k, hk⟩] at h1
      · rcases mul_eq_zero.1 h1 with h | h
        · exact h
        · exact absurd h (hd' _).ne'
      · intro j _ hj
        rcases lt_or_gt_of_ne hj with hlt | hgt
        · rw [show M i j = 0 from ih j.val hlt j.isLt i (lt_trans hlt hi), zero_mul]
        · rw [hu' j _ hgt, mul_zero]
      · intro hn
        exact absurd (Finset.mem_univ _) hn
  have hpos : ∀ k, 0 < M k k := by
    intro k
    have h1 := hs k k
    rw [Finset.sum_eq_single k] at h1
    · have h2 := hd k
      rw [← h1] at h2
      exact pos_of_mul_pos_left h2 (hd' k).le
    · intro j _ hj
      rcases lt_or_gt_of_ne hj with hlt | hgt
      · rw [show M k j = 0 from up j.val j.isLt k hlt, zero_mul]
      · rw [hu' j _ hgt, mul_zero]
    · intro hn
      exact absurd (Finset.mem_univ _) hn
  have hM1 : M = 1 := ortho_upper M hMo (fun i j hij => up j.val j.isLt i hij) hpos
  refine ⟨?_, by rw [← hM, hM1, one_mul]⟩
  calc Q' = Q * Q.transpose * Q' := by rw [hQ2, one_mul]
    _ = Q := by rw [mul_assoc, ← hMd, hM1, mul_one]

'''
for n in range(2,7):
    N=f'M{n}{n}'
    P+=f'''/-- Any factorisation into an orthogonal matrix and an upper triangular one with positive diagonal is the one
that `qr` returns. -/
theorem C116_qr_unique_{N} (A Q R Q' R' : Mat {n} ℝ) (h : {N}.qr A = .ok (some (Q, R)))
    (hQ : {N}.mul ({N}.transpose Q') Q' = {N}.one) (hA : {N}.mul Q' R' = A) (hu : ∀ i j, j < i → R' i j = 0)
    (hd : ∀ i, 0 < R' i i) : Q' = Q ∧ R' = R := by
  obtain ⟨h1, h2⟩ := C32_qr_{N} A
  have hdet : P.eps ≤ |{N}.det A| := by
    by_contra hc
    rw [h1.2 (not_le.1 hc)] at h
    cases h
  obtain ⟨Q₁, R₁, e, k1, k2, k3, k4⟩ := h2 hdet
  rw [e] at h
  obtain ⟨rfl, rfl⟩ := Prod.mk.inj (Option.some.inj (Except.ok.inj h))
  rw [← Mat.toM_inj] at hQ hA k1 k2
  simp only [{N}.toM_mul, {N}.toM_transpose, {N}.toM_one] at hQ hA k1 k2
  obtain ⟨r1, r2⟩ := qr_unique Q₁.toM R₁.toM Q'.toM R'.toM k1 hQ (k2.trans hA.symm) k3 k4 hu hd
  exact ⟨Mat.toM_injective r1, Mat.toM_injective r2⟩

'''
P+='''/-- An upper triangular matrix with positive diagonal (and determinant above the threshold) is its own `R`:
`qr` returns the identity and the matrix. -/
example (a b c : ℝ) (ha : 1 ≤ a) (hc : 1 ≤ c) :
    M22.qr (⟨![![a, b], ![0, c]]⟩ : Mat 2 ℝ) = .ok (some (M22.one, ⟨![![a, b], ![0, c]]⟩)) := by
  have hd : M22.det (⟨![![a, b], ![0, c]]⟩ : Mat 2 ℝ) = a * c := by
    change a * c - 0 * b = a * c
    ring
  obtain ⟨-, h2⟩ := C32_qr_M22 (⟨![![a, b], ![0, c]]⟩ : Mat 2 ℝ)
  obtain ⟨Q, R, h, -⟩ := h2 (by
    rw [hd, abs_of_pos (by positivity)]
    have := P.eps_le
    norm_num at this
    nlinarith)
  obtain ⟨e1, e2⟩ := C116_qr_unique_M22 _ Q R M22.one ⟨![![a, b], ![0, c]]⟩ h
    (by rw [← Mat.toM_inj, M22.toM_mul, M22.toM_transpose, M22.toM_one, Matrix.transpose_one, one_mul])
    (by rw [← Mat.toM_inj, M22.toM_mul, M22.toM_one, one_mul])
    (by
      intro i j hij
      fin_cases i <;> fin_cases j <;> first | rfl | exact absurd hij (by decide))
    (by
      intro i
      fin_cases i
      · exact lt_of_lt_of_le one_pos ha
      · exact lt_of_lt_of_le one_pos hc)
  rw [h, ← e1, ← e2]

end StaticMath
'''
import os
open(os.path.join(os.path.dirname(os.path.abspath(__file__)),'../lean/Verif/Props/Laws.lean'),'w').write(P)
