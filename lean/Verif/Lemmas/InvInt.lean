import Verif.Lemmas.InvFlt

/-!
# Cofactors of float matrices with integer entries

Generated by `tools/gen_inv_int.py`. The numerators computed by `inverse()` are the exact entries of
the adjugate when all minors fit in the mantissa.
-/

namespace StaticMath
open Flt
variable {f : Fmt}

private theorem neg_one_mul_val (x : Flt f) : (-1 : Flt f) * x = -x := by
  cases x with
  | nan => rfl
  | inf s =>
    change (if (1 : ℝ) = 0 then nan else inf (true != s)) = inf (!s)
    rw [if_neg one_ne_zero]
    cases s <;> rfl
  | fin s x hx =>
    change pack f (true != s) (1 * x) = fin (!s) x hx
    rw [one_mul, pack_rep hx]
    cases s <;> rfl

private theorem sign_int (k : ℕ) (x : Flt f) (h : x.IsFin) :
    ((if k % 2 = 0 then (1 : Flt f) else -1) * x).IsFin ∧
      ((if k % 2 = 0 then (1 : Flt f) else -1) * x).toReal = (-1) ^ k * x.toReal := by
  rcases Nat.mod_two_eq_zero_or_one k with h0 | h0
  · rw [if_pos h0, one_mul']
    exact ⟨h, by rw [Even.neg_one_pow (Nat.even_iff.2 h0), one_mul]⟩
  · rw [if_neg (by omega), neg_one_mul_val]
    exact ⟨isFin_neg.2 h, by rw [toReal_neg, Odd.neg_one_pow (Nat.odd_iff.2 h0), neg_one_mul]⟩

private theorem minor_int {n : ℕ} (A : Mat (n + 1) (Flt f)) (i j : Fin (n + 1)) (C : Flt f) (y : ℝ)
    (hC : C.toReal = (-1) ^ (j.val + i.val) * y)
    (hy : y = (Matrix.of fun r c => (A (j.succAbove r) (i.succAbove c)).toReal).det) :
    C.toReal = A.reM'.adjugate i j := by
  rw [Matrix.adjugate_fin_succ_eq_det_submatrix, hC, hy]
  rfl

private theorem minor2_int {a b c d : Flt f} (K : ℕ) (hK : 1 ≤ K) (ha : a.IntLe K) (hb : b.IntLe K) (hc : c.IntLe K)
    (hd : d.IntLe K) (h : 2 * K ^ 2 ≤ 2 ^ f.p) :
    (a * b - c * d).IsFin ∧ (a * b - c * d).toReal = a.toReal * b.toReal - c.toReal * d.toReal := by
  have := (C104_integers_M22 (⟨![![a, d], ![c, b]]⟩ : Mat 2 (Flt f)) ⟨![![a, d], ![c, b]]⟩ ⟨![a, b]⟩ ⟨![a, b]⟩ K hK
    (fun i j => by fin_cases i <;> fin_cases j <;> assumption) (fun i j => by fin_cases i <;> fin_cases j <;> assumption)
    (fun i => by fin_cases i <;> assumption) (fun i => by fin_cases i <;> assumption)).1 h
  refine ⟨this.1, this.2.trans ?_⟩
  rw [Matrix.det_fin_two]
  change a.toReal * b.toReal - d.toReal * c.toReal = _
  ring

theorem M22.inv_int [Libm f] (A B : Mat 2 (Flt f)) (h : M22.inverse A = .ok (some B)) (K : ℕ) (_hK : 1 ≤ K)
    (hA : ∀ i j, (A i j).IntLe K) (_hfit : 1 * K ^ 1 ≤ 2 ^ f.p) (i j : Fin 2) :
    ∃ C : Flt f, B i j = C * (1 / M22.det A) ∧ C.IsFin ∧ C.toReal = A.reM'.adjugate i j := by
  unfold M22.inverse at h
  by_cases h0 : nearly_zero (M22.det A) = true
  · simp only [h0] at h
    cases h
  have h' : nearly_zero (M22.det A) = false := by simpa using h0
  simp only [h', Bool.not_false, if_true] at h
  have e : B = _ := (Option.some.inj (Except.ok.inj h)).symm
  clear h
  subst e
  have ha : A.reM'.adjugate = !![(A 1 1).toReal, -(A 0 1).toReal; -(A 1 0).toReal, (A 0 0).toReal] :=
    Matrix.adjugate_fin_two A.reM'
  rw [ha]
  fin_cases i <;> fin_cases j
  · exact ⟨_, rfl, (hA _ _).1, rfl⟩
  · exact ⟨_, rfl, isFin_neg.2 (hA _ _).1, toReal_neg _⟩
  · exact ⟨_, rfl, isFin_neg.2 (hA _ _).1, toReal_neg _⟩
  · exact ⟨_, rfl, (hA _ _).1, rfl⟩

theorem M33.inv_int [Libm f] (A B : Mat 3 (Flt f)) (h : M33.inverse A = .ok (some B)) (K : ℕ) (hK : 1 ≤ K)
    (hA : ∀ i j, (A i j).IntLe K) (hfit : 2 * K ^ 2 ≤ 2 ^ f.p) (i j : Fin 3) :
    ∃ C : Flt f, B i j = C * (1 / M33.det A) ∧ C.IsFin ∧ C.toReal = A.reM'.adjugate i j := by
  unfold M33.inverse at h
  by_cases h0 : nearly_zero (M33.det A) = true
  · simp only [h0] at h
    cases h
  have h' : nearly_zero (M33.det A) = false := by simpa using h0
  simp only [h', Bool.not_false, if_true] at h
  have e : B = _ := (Option.some.inj (Except.ok.inj h)).symm
  clear h
  subst e
  have ha := Matrix.adjugate_fin_three A.reM'
  rw [ha]
  have key : ∀ (a b c d : Flt f) (y : ℝ), a.IntLe K → b.IntLe K → c.IntLe K → d.IntLe K →
      y = a.toReal * b.toReal - c.toReal * d.toReal → (a * b - c * d).IsFin ∧ (a * b - c * d).toReal = y := by
    rintro a b c d _ h1 h2 h3 h4 rfl
    exact minor2_int K hK h1 h2 h3 h4 hfit
  fin_cases i <;> fin_cases j
  · refine ⟨_, rfl, key _ _ _ _ _ (hA _ _) (hA _ _) (hA _ _) (hA _ _) ?_⟩
    simp [Mat.reM']
    try ring
  · refine ⟨_, rfl, key _ _ _ _ _ (hA _ _) (hA _ _) (hA _ _) (hA _ _) ?_⟩
    simp [Mat.reM']
    try ring
  · refine ⟨_, rfl, key _ _ _ _ _ (hA _ _) (hA _ _) (hA _ _) (hA _ _) ?_⟩
    simp [Mat.reM']
    try ring
  · refine ⟨_, rfl, key _ _ _ _ _ (hA _ _) (hA _ _) (hA _ _) (hA _ _) ?_⟩
    simp [Mat.reM']
    try ring
  · refine ⟨_, rfl, key _ _ _ _ _ (hA _ _) (hA _ _) (hA _ _) (hA _ _) ?_⟩
    simp [Mat.reM']
    try ring
  · refine ⟨_, rfl, key _ _ _ _ _ (hA _ _) (hA _ _) (hA _ _) (hA _ _) ?_⟩
    simp [Mat.reM']
    try ring
  · refine ⟨_, rfl, key _ _ _ _ _ (hA _ _) (hA _ _) (hA _ _) (hA _ _) ?_⟩
    simp [Mat.reM']
    try ring
  · refine ⟨_, rfl, key _ _ _ _ _ (hA _ _) (hA _ _) (hA _ _) (hA _ _) ?_⟩
    simp [Mat.reM']
    try ring
  · refine ⟨_, rfl, key _ _ _ _ _ (hA _ _) (hA _ _) (hA _ _) (hA _ _) ?_⟩
    simp [Mat.reM']
    try ring

theorem M44.inv_int [Libm f] (A B : Mat 4 (Flt f)) (h : M44.inverse A = .ok (some B)) (K : ℕ) (hK : 1 ≤ K)
    (hA : ∀ i j, (A i j).IntLe K) (hfit : 6 * K ^ 3 ≤ 2 ^ f.p) (i j : Fin 4) :
    ∃ C : Flt f, B i j = C * (1 / M44.det A) ∧ C.IsFin ∧ C.toReal = A.reM'.adjugate i j := by
  unfold M44.inverse at h
  by_cases h0 : nearly_zero (M44.det A) = true
  · simp only [h0] at h
    cases h
  have h' : nearly_zero (M44.det A) = false := by simpa using h0
  simp only [h', Bool.not_false, if_true] at h
  rw [show M44.get_submatrix A (0, 0) = _ from M44.get_submatrix_eq A 0 0] at h
  rw [show M44.get_submatrix A (0, 1) = _ from M44.get_submatrix_eq A 0 1] at h
  rw [show M44.get_submatrix A (0, 2) = _ from M44.get_submatrix_eq A 0 2] at h
  rw [show M44.get_submatrix A (0, 3) = _ from M44.get_submatrix_eq A 0 3] at h
  rw [show M44.get_submatrix A (1, 0) = _ from M44.get_submatrix_eq A 1 0] at h
  rw [show M44.get_submatrix A (1, 1) = _ from M44.get_submatrix_eq A 1 1] at h
  rw [show M44.get_submatrix A (1, 2) = _ from M44.get_submatrix_eq A 1 2] at h
  rw [show M44.get_submatrix A (1, 3) = _ from M44.get_submatrix_eq A 1 3] at h
  rw [show M44.get_submatrix A (2, 0) = _ from M44.get_submatrix_eq A 2 0] at h
  rw [show M44.get_submatrix A (2, 1) = _ from M44.get_submatrix_eq A 2 1] at h
  rw [show M44.get_submatrix A (2, 2) = _ from M44.get_submatrix_eq A 2 2] at h
  rw [show M44.get_submatrix A (2, 3) = _ from M44.get_submatrix_eq A 2 3] at h
  rw [show M44.get_submatrix A (3, 0) = _ from M44.get_submatrix_eq A 3 0] at h
  rw [show M44.get_submatrix A (3, 1) = _ from M44.get_submatrix_eq A 3 1] at h
  rw [show M44.get_submatrix A (3, 2) = _ from M44.get_submatrix_eq A 3 2] at h
  rw [show M44.get_submatrix A (3, 3) = _ from M44.get_submatrix_eq A 3 3] at h
  have e : B = _ := (Option.some.inj (Except.ok.inj h)).symm
  clear h
  subst e
  have key : ∀ (i j : Fin 4) (C X : Flt f), X = C * (1 / M44.det A) →
      (C = M33.det ⟨fun r c => A (j.succAbove r) (i.succAbove c)⟩ ∧ (j.val + i.val) % 2 = 0 ∨
        C = -M33.det ⟨fun r c => A (j.succAbove r) (i.succAbove c)⟩ ∧ (j.val + i.val) % 2 = 1) →
      ∃ C : Flt f, X = C * (1 / M44.det A) ∧ C.IsFin ∧ C.toReal = A.reM'.adjugate i j := by
    intro i j C X hX hC
    have hd := (C104_integers_M33 ⟨fun r c => A (j.succAbove r) (i.succAbove c)⟩ ⟨fun _ _ => A 0 0⟩ ⟨fun _ => A 0 0⟩
      ⟨fun _ => A 0 0⟩ K hK (fun _ _ => hA _ _) (fun _ _ => hA _ _) (fun _ => hA _ _) (fun _ => hA _ _)).1 hfit
    refine ⟨C, hX, ?_⟩
    rcases hC with ⟨rfl, h⟩ | ⟨rfl, h⟩
    · exact ⟨hd.1, minor_int A i j _ _ (by rw [Even.neg_one_pow (Nat.even_iff.2 h), one_mul]) hd.2⟩
    · exact ⟨isFin_neg.2 hd.1, minor_int A i j _ _ (by rw [toReal_neg, Odd.neg_one_pow (Nat.odd_iff.2 h), neg_one_mul]) hd.2⟩
  fin_cases i <;> fin_cases j
  · exact key 0 0 _ _ rfl (Or.inl ⟨rfl, rfl⟩)
  · exact key 0 1 _ _ rfl (Or.inr ⟨rfl, rfl⟩)
  · exact key 0 2 _ _ rfl (Or.inl ⟨rfl, rfl⟩)
  · exact key 0 3 _ _ rfl (Or.inr ⟨rfl, rfl⟩)
  · exact key 1 0 _ _ rfl (Or.inr ⟨rfl, rfl⟩)
  · exact key 1 1 _ _ rfl (Or.inl ⟨rfl, rfl⟩)
  · exact key 1 2 _ _ rfl (Or.inr ⟨rfl, rfl⟩)
  · exact key 1 3 _ _ rfl (Or.inl ⟨rfl, rfl⟩)
  · exact key 2 0 _ _ rfl (Or.inl ⟨rfl, rfl⟩)
  · exact key 2 1 _ _ rfl (Or.inr ⟨rfl, rfl⟩)
  · exact key 2 2 _ _ rfl (Or.inl ⟨rfl, rfl⟩)
  · exact key 2 3 _ _ rfl (Or.inr ⟨rfl, rfl⟩)
  · exact key 3 0 _ _ rfl (Or.inr ⟨rfl, rfl⟩)
  · exact key 3 1 _ _ rfl (Or.inl ⟨rfl, rfl⟩)
  · exact key 3 2 _ _ rfl (Or.inr ⟨rfl, rfl⟩)
  · exact key 3 3 _ _ rfl (Or.inl ⟨rfl, rfl⟩)

set_option maxRecDepth 8000 in
theorem M55.inv_int [Libm f] (A B : Mat 5 (Flt f)) (h : M55.inverse A = .ok (some B)) (K : ℕ) (hK : 1 ≤ K)
    (hA : ∀ i j, (A i j).IntLe K) (hfit : 24 * K ^ 4 ≤ 2 ^ f.p) (i j : Fin 5) :
    ∃ C : Flt f, B i j = C / M55.det A ∧ C.IsFin ∧ C.toReal = A.reM'.adjugate i j := by
  unfold M55.inverse at h
  by_cases h0 : nearly_zero (M55.det A) = true
  · simp only [h0] at h
    cases h
  have h' : nearly_zero (M55.det A) = false := by simpa using h0
  simp only [h', Bool.not_false, if_true] at h
  rw [forRange_set_mat _ (fun j i => (if (i.val + j.val) % 2 = 0 then (1 : Flt f) else -1) *
    M44.det ⟨fun r c => A (i.succAbove r) (j.succAbove c)⟩) _ (by
      intro i j hi hj r
      rw [show M55.get_submatrix A (i, j) = _ from M55.get_submatrix_eq A ⟨i, hi⟩ ⟨j, hj⟩]
      rfl)] at h
  have e : B = _ := (Option.some.inj (Except.ok.inj h)).symm
  clear h
  subst e
  have hd := (C104_integers_M44 ⟨fun r c => A (j.succAbove r) (i.succAbove c)⟩ ⟨fun _ _ => A 0 0⟩ ⟨fun _ => A 0 0⟩
      ⟨fun _ => A 0 0⟩ K hK (fun _ _ => hA _ _) (fun _ _ => hA _ _) (fun _ => hA _ _) (fun _ => hA _ _)).1 hfit
  have hs := sign_int (j.val + i.val) _ hd.1
  exact ⟨_, M55.sdiv_apply _ _ i j, hs.1, minor_int A i j _ _ hs.2 hd.2⟩

set_option maxRecDepth 8000 in
theorem M66.inv_int [Libm f] (A B : Mat 6 (Flt f)) (h : M66.inverse A = .ok (some B)) (K : ℕ) (hK : 1 ≤ K)
    (hA : ∀ i j, (A i j).IntLe K) (hfit : 120 * K ^ 5 ≤ 2 ^ f.p) (i j : Fin 6) :
    ∃ C : Flt f, B i j = C * (1 / M66.det A) ∧ C.IsFin ∧ C.toReal = A.reM'.adjugate i j := by
  unfold M66.inverse at h
  by_cases h0 : nearly_zero (M66.det A) = true
  · simp only [h0] at h
    cases h
  have h' : nearly_zero (M66.det A) = false := by simpa using h0
  simp only [h', Bool.not_false, if_true] at h
  rw [forRange_set_mat _ (fun j i => (if (i.val + j.val) % 2 = 0 then (1 : Flt f) else -1) *
    M55.det ⟨fun r c => A (i.succAbove r) (j.succAbove c)⟩) _ (by
      intro i j hi hj r
      rw [show M66.get_submatrix A (i, j) = _ from M66.get_submatrix_eq A ⟨i, hi⟩ ⟨j, hj⟩]
      rfl)] at h
  have e : B = _ := (Option.some.inj (Except.ok.inj h)).symm
  clear h
  subst e
  have hd := (C104_integers_M55 ⟨fun r c => A (j.succAbove r) (i.succAbove c)⟩ ⟨fun _ _ => A 0 0⟩ ⟨fun _ => A 0 0⟩
      ⟨fun _ => A 0 0⟩ K hK (fun _ _ => hA _ _) (fun _ _ => hA _ _) (fun _ => hA _ _) (fun _ => hA _ _)).1 hfit
  have hs := sign_int (j.val + i.val) _ hd.1
  exact ⟨_, M66.smul_apply _ _ i j, hs.1, minor_int A i j _ _ hs.2 hd.2⟩

end StaticMath
