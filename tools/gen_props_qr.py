#!/usr/bin/env python3
"""Writes lean/Verif/Props/Qr.lean (C32 for the five sizes)."""
import os
out = '''import Verif.Lemmas.Qr
import Verif.Props.Inverse

/-!
# QR factorisation: C32

Exact arithmetic; the threshold `T::epsilon()` is any positive number at most `1e-6`.
-/

namespace StaticMath

section
variable [P : RealParams]

'''
for n in range(2, 7):
    M = f"M{n}{n}"
    V = f"V{n}"
    out += f'''set_option maxRecDepth 8000 in
omit P in
private theorem ok_{M} : QrOk (⟨{M}.det, {M}.zero, {M}.get_cols, {M}.new_from_vecs, {M}.transpose, {M}.mul,
    {V}.sub, {V}.smul⟩ : QrOps {n} ℝ) where
  det A := {M}.det_eq A
  cols A := {M}.get_cols_eq A
  vecs c := {M}.new_from_vecs_eq c
  tr A := {M}.toM_transpose A
  mul A B := {M}.toM_mul A B
  sub u v k := by fin_cases k <;> rfl
  smul u c k := by fin_cases k <;> rfl

/-- C32: `None` exactly when `|det| < ε`; otherwise an orthogonal `Q` and an upper triangular `R` with
positive diagonal and `Q*R = A`. -/
theorem C32_qr_{M} (A : Mat {n} ℝ) :
    ({M}.qr A = .ok none ↔ |{M}.det A| < P.eps) ∧
    (P.eps ≤ |{M}.det A| → ∃ Q R, {M}.qr A = .ok (some (Q, R)) ∧
      {M}.mul ({M}.transpose Q) Q = {M}.one ∧ {M}.mul Q R = A ∧
      (∀ i j, j < i → R i j = 0) ∧ ∀ i, 0 < R i i) := by
  have hd : {M}.det A = A.toM.det := {M}.det_eq A
  have h2 : P.eps ≤ |{M}.det A| → ∃ Q R, {M}.qr A = .ok (some (Q, R)) ∧
      {M}.mul ({M}.transpose Q) Q = {M}.one ∧ {M}.mul Q R = A ∧
      (∀ i j, j < i → R i j = 0) ∧ ∀ i, 0 < R i i := by
    intro h
    rw [hd] at h
    obtain ⟨Q, R, h1, h2, h3, h4, h5⟩ := qrGen_ok ok_{M} A h
    refine ⟨Q, R, h1, ?_, ?_, h4, h5⟩
    · rw [← Mat.toM_inj, {M}.toM_mul, {M}.toM_transpose, {M}.toM_one]
      exact h2
    · rw [← Mat.toM_inj, {M}.toM_mul]
      exact h3
  refine ⟨⟨fun h => ?_, fun h => qrGen_none ok_{M} A (hd ▸ h)⟩, h2⟩
  by_contra hc
  obtain ⟨Q, R, h1, -⟩ := h2 (not_lt.1 hc)
  rw [h1] at h
  cases h

/-- both cases occur -/
example : P.eps ≤ |{M}.det (almostOne {n} 2)| ∧ |{M}.det (almostOne {n} 0)| < P.eps := by
  have h := P.eps_le
  rw [show {M}.det (almostOne {n} 2) = _ from {M}.det_eq _, show {M}.det (almostOne {n} 0) = _ from {M}.det_eq _,
    ← Mat.toM, ← Mat.toM, almostOne_det, almostOne_det, abs_zero]
  refine ⟨?_, P.eps_pos⟩
  norm_num at h ⊢
  linarith

'''
out += "end\n\nend StaticMath\n"
open(os.path.join(os.path.dirname(__file__), '../lean/Verif/Props/Qr.lean'), 'w').write(out)
