import Verif.Lemmas.Qr
import Verif.Props.Inverse

/-!
# QR factorisation: C32

Exact arithmetic; the threshold `T::epsilon()` is any positive number at most `1e-6`.
-/

namespace StaticMath

section
variable [P : RealParams]

set_option maxRecDepth 8000 in
omit P in
private theorem ok_M22 : QrOk (⟨M22.det, M22.zero, M22.get_cols, M22.new_from_vecs, M22.transpose, M22.mul,
    V2.sub, V2.smul⟩ : QrOps 2 ℝ) where
  det A := M22.det_eq A
  cols A := M22.get_cols_eq A
  vecs c := M22.new_from_vecs_eq c
  tr A := M22.toM_transpose A
  mul A B := M22.toM_mul A B
  sub u v k := by fin_cases k <;> rfl
  smul u c k := by fin_cases k <;> rfl

/-- C32: `None` exactly when `|det| < ε`; otherwise an orthogonal `Q` and an upper triangular `R` with
positive diagonal and `Q*R = A`. -/
theorem C32_qr_M22 (A : Mat 2 ℝ) :
    (M22.qr A = .ok none ↔ |M22.det A| < P.eps) ∧
    (P.eps ≤ |M22.det A| → ∃ Q R, M22.qr A = .ok (some (Q, R)) ∧
      M22.mul (M22.transpose Q) Q = M22.one ∧ M22.mul Q R = A ∧
      (∀ i j, j < i → R i j = 0) ∧ ∀ i, 0 < R i i) := by
  have hd : M22.det A = A.toM.det := M22.det_eq A
  have h2 : P.eps ≤ |M22.det A| → ∃ Q R, M22.qr A = .ok (some (Q, R)) ∧
      M22.mul (M22.transpose Q) Q = M22.one ∧ M22.mul Q R = A ∧
      (∀ i j, j < i → R i j = 0) ∧ ∀ i, 0 < R i i := by
    intro h
    rw [hd] at h
    obtain ⟨Q, R, h1, h2, h3, h4, h5⟩ := qrGen_ok ok_M22 A h
    refine ⟨Q, R, h1, ?_, ?_, h4, h5⟩
    · rw [← Mat.toM_inj, M22.toM_mul, M22.toM_transpose, M22.toM_one]
      exact h2
    · rw [← Mat.toM_inj, M22.toM_mul]
      exact h3
  refine ⟨⟨fun h => ?_, fun h => qrGen_none ok_M22 A (hd ▸ h)⟩, h2⟩
  by_contra hc
  obtain ⟨Q, R, h1, -⟩ := h2 (not_lt.1 hc)
  rw [h1] at h
  cases h

/-- both cases occur -/
example : P.eps ≤ |M22.det (almostOne 2 2)| ∧ |M22.det (almostOne 2 0)| < P.eps := by
  have h := P.eps_le
  rw [show M22.det (almostOne 2 2) = _ from M22.det_eq _, show M22.det (almostOne 2 0) = _ from M22.det_eq _,
    ← Mat.toM, ← Mat.toM, almostOne_det, almostOne_det, abs_zero]
  refine ⟨?_, P.eps_pos⟩
  norm_num at h ⊢
  linarith

set_option maxRecDepth 8000 in
omit P in
private theorem ok_M33 : QrOk (⟨M33.det, M33.zero, M33.get_cols, M33.new_from_vecs, M33.transpose, M33.mul,
    V3.sub, V3.smul⟩ : QrOps 3 ℝ) where
  det A := M33.det_eq A
  cols A := M33.get_cols_eq A
  vecs c := M33.new_from_vecs_eq c
  tr A := M33.toM_transpose A
  mul A B := M33.toM_mul A B
  sub u v k := by fin_cases k <;> rfl
  smul u c k := by fin_cases k <;> rfl

/-- C32: `None` exactly when `|det| < ε`; otherwise an orthogonal `Q` and an upper triangular `R` with
positive diagonal and `Q*R = A`. -/
theorem C32_qr_M33 (A : Mat 3 ℝ) :
    (M33.qr A = .ok none ↔ |M33.det A| < P.eps) ∧
    (P.eps ≤ |M33.det A| → ∃ Q R, M33.qr A = .ok (some (Q, R)) ∧
      M33.mul (M33.transpose Q) Q = M33.one ∧ M33.mul Q R = A ∧
      (∀ i j, j < i → R i j = 0) ∧ ∀ i, 0 < R i i) := by
  have hd : M33.det A = A.toM.det := M33.det_eq A
  have h2 : P.eps ≤ |M33.det A| → ∃ Q R, M33.qr A = .ok (some (Q, R)) ∧
      M33.mul (M33.transpose Q) Q = M33.one ∧ M33.mul Q R = A ∧
      (∀ i j, j < i → R i j = 0) ∧ ∀ i, 0 < R i i := by
    intro h
    rw [hd] at h
    obtain ⟨Q, R, h1, h2, h3, h4, h5⟩ := qrGen_ok ok_M33 A h
    refine ⟨Q, R, h1, ?_, ?_, h4, h5⟩
    · rw [← Mat.toM_inj, M33.toM_mul, M33.toM_transpose, M33.toM_one]
      exact h2
    · rw [← Mat.toM_inj, M33.toM_mul]
      exact h3
  refine ⟨⟨fun h => ?_, fun h => qrGen_none ok_M33 A (hd ▸ h)⟩, h2⟩
  by_contra hc
  obtain ⟨Q, R, h1, -⟩ := h2 (not_lt.1 hc)
  rw [h1] at h
  cases h

/-- both cases occur -/
example : P.eps ≤ |M33.det (almostOne 3 2)| ∧ |M33.det (almostOne 3 0)| < P.eps := by
  have h := P.eps_le
  rw [show M33.det (almostOne 3 2) = _ from M33.det_eq _, show M33.det (almostOne 3 0) = _ from M33.det_eq _,
    ← Mat.toM, ← Mat.toM, almostOne_det, almostOne_det, abs_zero]
  refine ⟨?_, P.eps_pos⟩
  norm_num at h ⊢
  linarith

set_option maxRecDepth 8000 in
omit P in
private theorem ok_M44 : QrOk (⟨M44.det, M44.zero, M44.get_cols, M44.new_from_vecs, M44.transpose, M44.mul,
    V4.sub, V4.smul⟩ : QrOps 4 ℝ) where
  det A := M44.det_eq A
  cols A := M44.get_cols_eq A
  vecs c := M44.new_from_vecs_eq c
  tr A := M44.toM_transpose A
  mul A B := M44.toM_mul A B
  sub u v k := by fin_cases k <;> rfl
  smul u c k := by fin_cases k <;> rfl

/-- C32: `None` exactly when `|det| < ε`; otherwise an orthogonal `Q` and an upper triangular `R` with
positive diagonal and `Q*R = A`. -/
theorem C32_qr_M44 (A : Mat 4 ℝ) :
    (M44.qr A = .ok none ↔ |M44.det A| < P.eps) ∧
    (P.eps ≤ |M44.det A| → ∃ Q R, M44.qr A = .ok (some (Q, R)) ∧
      M44.mul (M44.transpose Q) Q = M44.one ∧ M44.mul Q R = A ∧
      (∀ i j, j < i → R i j = 0) ∧ ∀ i, 0 < R i i) := by
  have hd : M44.det A = A.toM.det := M44.det_eq A
  have h2 : P.eps ≤ |M44.det A| → ∃ Q R, M44.qr A = .ok (some (Q, R)) ∧
      M44.mul (M44.transpose Q) Q = M44.one ∧ M44.mul Q R = A ∧
      (∀ i j, j < i → R i j = 0) ∧ ∀ i, 0 < R i i := by
    intro h
    rw [hd] at h
    obtain ⟨Q, R, h1, h2, h3, h4, h5⟩ := qrGen_ok ok_M44 A h
    refine ⟨Q, R, h1, ?_, ?_, h4, h5⟩
    · rw [← Mat.toM_inj, M44.toM_mul, M44.toM_transpose, M44.toM_one]
      exact h2
    · rw [← Mat.toM_inj, M44.toM_mul]
      exact h3
  refine ⟨⟨fun h => ?_, fun h => qrGen_none ok_M44 A (hd ▸ h)⟩, h2⟩
  by_contra hc
  obtain ⟨Q, R, h1, -⟩ := h2 (not_lt.1 hc)
  rw [h1] at h
  cases h

/-- both cases occur -/
example : P.eps ≤ |M44.det (almostOne 4 2)| ∧ |M44.det (almostOne 4 0)| < P.eps := by
  have h := P.eps_le
  rw [show M44.det (almostOne 4 2) = _ from M44.det_eq _, show M44.det (almostOne 4 0) = _ from M44.det_eq _,
    ← Mat.toM, ← Mat.toM, almostOne_det, almostOne_det, abs_zero]
  refine ⟨?_, P.eps_pos⟩
  norm_num at h ⊢
  linarith

set_option maxRecDepth 8000 in
omit P in
private theorem ok_M55 : QrOk (⟨M55.det, M55.zero, M55.get_cols, M55.new_from_vecs, M55.transpose, M55.mul,
    V5.sub, V5.smul⟩ : QrOps 5 ℝ) where
  det A := M55.det_eq A
  cols A := M55.get_cols_eq A
  vecs c := M55.new_from_vecs_eq c
  tr A := M55.toM_transpose A
  mul A B := M55.toM_mul A B
  sub u v k := by fin_cases k <;> rfl
  smul u c k := by fin_cases k <;> rfl

/-- C32: `None` exactly when `|det| < ε`; otherwise an orthogonal `Q` and an upper triangular `R` with
positive diagonal and `Q*R = A`. -/
theorem C32_qr_M55 (A : Mat 5 ℝ) :
    (M55.qr A = .ok none ↔ |M55.det A| < P.eps) ∧
    (P.eps ≤ |M55.det A| → ∃ Q R, M55.qr A = .ok (some (Q, R)) ∧
      M55.mul (M55.transpose Q) Q = M55.one ∧ M55.mul Q R = A ∧
      (∀ i j, j < i → R i j = 0) ∧ ∀ i, 0 < R i i) := by
  have hd : M55.det A = A.toM.det := M55.det_eq A
  have h2 : P.eps ≤ |M55.det A| → ∃ Q R, M55.qr A = .ok (some (Q, R)) ∧
      M55.mul (M55.transpose Q) Q = M55.one ∧ M55.mul Q R = A ∧
      (∀ i j, j < i → R i j = 0) ∧ ∀ i, 0 < R i i := by
    intro h
    rw [hd] at h
    obtain ⟨Q, R, h1, h2, h3, h4, h5⟩ := qrGen_ok ok_M55 A h
    refine ⟨Q, R, h1, ?_, ?_, h4, h5⟩
    · rw [← Mat.toM_inj, M55.toM_mul, M55.toM_transpose, M55.toM_one]
      exact h2
    · rw [← Mat.toM_inj, M55.toM_mul]
      exact h3
  refine ⟨⟨fun h => ?_, fun h => qrGen_none ok_M55 A (hd ▸ h)⟩, h2⟩
  by_contra hc
  obtain ⟨Q, R, h1, -⟩ := h2 (not_lt.1 hc)
  rw [h1] at h
  cases h

/-- both cases occur -/
example : P.eps ≤ |M55.det (almostOne 5 2)| ∧ |M55.det (almostOne 5 0)| < P.eps := by
  have h := P.eps_le
  rw [show M55.det (almostOne 5 2) = _ from M55.det_eq _, show M55.det (almostOne 5 0) = _ from M55.det_eq _,
    ← Mat.toM, ← Mat.toM, almostOne_det, almostOne_det, abs_zero]
  refine ⟨?_, P.eps_pos⟩
  norm_num at h ⊢
  linarith

set_option maxRecDepth 8000 in
omit P in
private theorem ok_M66 : QrOk (⟨M66.det, M66.zero, M66.get_cols, M66.new_from_vecs, M66.transpose, M66.mul,
    V6.sub, V6.smul⟩ : QrOps 6 ℝ) where
  det A := M66.det_eq A
  cols A := M66.get_cols_eq A
  vecs c := M66.new_from_vecs_eq c
  tr A := M66.toM_transpose A
  mul A B := M66.toM_mul A B
  sub u v k := by fin_cases k <;> rfl
  smul u c k := by fin_cases k <;> rfl

/-- C32: `None` exactly when `|det| < ε`; otherwise an orthogonal `Q` and an upper triangular `R` with
positive diagonal and `Q*R = A`. -/
theorem C32_qr_M66 (A : Mat 6 ℝ) :
    (M66.qr A = .ok none ↔ |M66.det A| < P.eps) ∧
    (P.eps ≤ |M66.det A| → ∃ Q R, M66.qr A = .ok (some (Q, R)) ∧
      M66.mul (M66.transpose Q) Q = M66.one ∧ M66.mul Q R = A ∧
      (∀ i j, j < i → R i j = 0) ∧ ∀ i, 0 < R i i) := by
  have hd : M66.det A = A.toM.det := M66.det_eq A
  have h2 : P.eps ≤ |M66.det A| → ∃ Q R, M66.qr A = .ok (some (Q, R)) ∧
      M66.mul (M66.transpose Q) Q = M66.one ∧ M66.mul Q R = A ∧
      (∀ i j, j < i → R i j = 0) ∧ ∀ i, 0 < R i i := by
    intro h
    rw [hd] at h
    obtain ⟨Q, R, h1, h2, h3, h4, h5⟩ := qrGen_ok ok_M66 A h
    refine ⟨Q, R, h1, ?_, ?_, h4, h5⟩
    · rw [← Mat.toM_inj, M66.toM_mul, M66.toM_transpose, M66.toM_one]
      exact h2
    · rw [← Mat.toM_inj, M66.toM_mul]
      exact h3
  refine ⟨⟨fun h => ?_, fun h => qrGen_none ok_M66 A (hd ▸ h)⟩, h2⟩
  by_contra hc
  obtain ⟨Q, R, h1, -⟩ := h2 (not_lt.1 hc)
  rw [h1] at h
  cases h

/-- both cases occur -/
example : P.eps ≤ |M66.det (almostOne 6 2)| ∧ |M66.det (almostOne 6 0)| < P.eps := by
  have h := P.eps_le
  rw [show M66.det (almostOne 6 2) = _ from M66.det_eq _, show M66.det (almostOne 6 0) = _ from M66.det_eq _,
    ← Mat.toM, ← Mat.toM, almostOne_det, almostOne_det, abs_zero]
  refine ⟨?_, P.eps_pos⟩
  norm_num at h ⊢
  linarith

end

end StaticMath
