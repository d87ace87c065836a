import Verif.Lemmas.Inverse
import Mathlib.Tactic.NormNum

/-!
# C08-C11: matrix inverse

Generated by `tools/gen_props_inverse.py` (the same statement for every size 2..6). The entries are
exact reals; the threshold `T::epsilon()` is any positive number at most `1e-6`.
-/

namespace StaticMath

variable [P : RealParams]

omit P in
private theorem inv_aux {n : ℕ} (A : Mat n ℝ) (d : ℝ) (hd : d = A.toM.det) (h0 : d ≠ 0) (B : Mat n ℝ)
    (hB : B = ⟨fun i j => A.toM.adjugate i j * d⁻¹⟩) : A.toM * B.toM = 1 ∧ B.toM * A.toM = 1 := by
  have hBM : B.toM = d⁻¹ • A.toM.adjugate := by
    rw [hB]; ext i j; simp [Mat.toM, mul_comm]
  subst hd
  rw [hBM, Matrix.mul_smul, Matrix.smul_mul, Matrix.mul_adjugate, Matrix.adjugate_mul, smul_smul,
    inv_mul_cancel₀ h0, one_smul]
  exact ⟨rfl, rfl⟩

/-! ## C09 `inverse` never panics; `None` exactly below the threshold -/

theorem C09_inverse_M22 (A : Mat 2 ℝ) :
    ∃ o, M22.inverse A = .ok o ∧ (o = none ↔ |A.toM.det| < P.eps) ∧ (A.toM.det = 0 → o = none) := by
  have hd : M22.det A = A.toM.det := M22.det_eq A
  refine ⟨_, M22.inverse_eq A, ?_, fun h => ?_⟩
  · rw [hd]; split <;> simp_all
  · rw [hd, h, if_pos (by simpa using P.eps_pos)]

theorem C09_inverse_M33 (A : Mat 3 ℝ) :
    ∃ o, M33.inverse A = .ok o ∧ (o = none ↔ |A.toM.det| < P.eps) ∧ (A.toM.det = 0 → o = none) := by
  have hd : M33.det A = A.toM.det := M33.det_eq A
  refine ⟨_, M33.inverse_eq A, ?_, fun h => ?_⟩
  · rw [hd]; split <;> simp_all
  · rw [hd, h, if_pos (by simpa using P.eps_pos)]

theorem C09_inverse_M44 (A : Mat 4 ℝ) :
    ∃ o, M44.inverse A = .ok o ∧ (o = none ↔ |A.toM.det| < P.eps) ∧ (A.toM.det = 0 → o = none) := by
  have hd : M44.det A = A.toM.det := M44.det_eq A
  refine ⟨_, M44.inverse_eq A, ?_, fun h => ?_⟩
  · rw [hd]; split <;> simp_all
  · rw [hd, h, if_pos (by simpa using P.eps_pos)]

theorem C09_inverse_M55 (A : Mat 5 ℝ) :
    ∃ o, M55.inverse A = .ok o ∧ (o = none ↔ |A.toM.det| < P.eps) ∧ (A.toM.det = 0 → o = none) := by
  have hd : M55.det A = A.toM.det := M55.det_eq A
  refine ⟨_, M55.inverse_eq A, ?_, fun h => ?_⟩
  · rw [hd]; split <;> simp_all
  · rw [hd, h, if_pos (by simpa using P.eps_pos)]

theorem C09_inverse_M66 (A : Mat 6 ℝ) :
    ∃ o, M66.inverse A = .ok o ∧ (o = none ↔ |A.toM.det| < P.eps) ∧ (A.toM.det = 0 → o = none) := by
  have hd : M66.det A = A.toM.det := M66.det_eq A
  refine ⟨_, M66.inverse_eq A, ?_, fun h => ?_⟩
  · rw [hd]; split <;> simp_all
  · rw [hd, h, if_pos (by simpa using P.eps_pos)]

/-! ## C08 A returned inverse is two-sided -/

theorem C08_inverse_M22 (A B : Mat 2 ℝ) (h : M22.inverse A = .ok (some B)) :
    M22.mul A B = M22.one ∧ M22.mul B A = M22.one := by
  rw [M22.inverse_eq] at h
  have h' := Except.ok.inj h
  split at h'
  · simp at h'
  · rename_i hlt
    have h0 : M22.det A ≠ 0 := fun h0 => hlt (by rw [h0, abs_zero]; exact P.eps_pos)
    have := inv_aux A _ (M22.det_eq A) h0 B (Option.some.inj h').symm
    rw [← Mat.toM_inj, ← Mat.toM_inj, M22.toM_mul, M22.toM_mul, M22.toM_one]
    exact this

theorem C08_inverse_M33 (A B : Mat 3 ℝ) (h : M33.inverse A = .ok (some B)) :
    M33.mul A B = M33.one ∧ M33.mul B A = M33.one := by
  rw [M33.inverse_eq] at h
  have h' := Except.ok.inj h
  split at h'
  · simp at h'
  · rename_i hlt
    have h0 : M33.det A ≠ 0 := fun h0 => hlt (by rw [h0, abs_zero]; exact P.eps_pos)
    have := inv_aux A _ (M33.det_eq A) h0 B (Option.some.inj h').symm
    rw [← Mat.toM_inj, ← Mat.toM_inj, M33.toM_mul, M33.toM_mul, M33.toM_one]
    exact this

theorem C08_inverse_M44 (A B : Mat 4 ℝ) (h : M44.inverse A = .ok (some B)) :
    M44.mul A B = M44.one ∧ M44.mul B A = M44.one := by
  rw [M44.inverse_eq] at h
  have h' := Except.ok.inj h
  split at h'
  · simp at h'
  · rename_i hlt
    have h0 : M44.det A ≠ 0 := fun h0 => hlt (by rw [h0, abs_zero]; exact P.eps_pos)
    have := inv_aux A _ (M44.det_eq A) h0 B (Option.some.inj h').symm
    rw [← Mat.toM_inj, ← Mat.toM_inj, M44.toM_mul, M44.toM_mul, M44.toM_one]
    exact this

theorem C08_inverse_M55 (A B : Mat 5 ℝ) (h : M55.inverse A = .ok (some B)) :
    M55.mul A B = M55.one ∧ M55.mul B A = M55.one := by
  rw [M55.inverse_eq] at h
  have h' := Except.ok.inj h
  split at h'
  · simp at h'
  · rename_i hlt
    have h0 : M55.det A ≠ 0 := fun h0 => hlt (by rw [h0, abs_zero]; exact P.eps_pos)
    have := inv_aux A _ (M55.det_eq A) h0 B (Option.some.inj h').symm
    rw [← Mat.toM_inj, ← Mat.toM_inj, M55.toM_mul, M55.toM_mul, M55.toM_one]
    exact this

theorem C08_inverse_M66 (A B : Mat 6 ℝ) (h : M66.inverse A = .ok (some B)) :
    M66.mul A B = M66.one ∧ M66.mul B A = M66.one := by
  rw [M66.inverse_eq] at h
  have h' := Except.ok.inj h
  split at h'
  · simp at h'
  · rename_i hlt
    have h0 : M66.det A ≠ 0 := fun h0 => hlt (by rw [h0, abs_zero]; exact P.eps_pos)
    have := inv_aux A _ (M66.det_eq A) h0 B (Option.some.inj h').symm
    rw [← Mat.toM_inj, ← Mat.toM_inj, M66.toM_mul, M66.toM_mul, M66.toM_one]
    exact this

/-- the hypothesis can be met: `diag(2, 1)` has an inverse -/
example : ∃ B, M22.inverse (⟨![![2, 0], ![0, 1]]⟩ : Mat 2 ℝ) = .ok (some B) := by
  have h := P.eps_le
  have hd : M22.det (⟨![![2, 0], ![0, 1]]⟩ : Mat 2 ℝ) = 2 := by
    rw [M22.det_eq, Matrix.det_fin_two]; simp
  rw [M22.inverse_eq, hd, if_neg (by norm_num at h ⊢; linarith)]
  exact ⟨_, rfl⟩

/-! ## C10 `inverse` fails only for singular matrices

False: the determinant is compared with an absolute threshold. -/

/-- The identity with its first entry replaced by `c`. -/
def almostOne (n : ℕ) (c : ℝ) : Mat n ℝ := ⟨fun i j => if i = j then (if i.val = 0 then c else 1) else 0⟩

omit P in
theorem almostOne_det (n : ℕ) (c : ℝ) : (almostOne (n + 1) c).toM.det = c := by
  have : (almostOne (n + 1) c).toM = Matrix.diagonal (fun i => if i.val = 0 then c else 1) := by
    ext i j; simp [almostOne, Mat.toM, Matrix.diagonal]
  rw [this, Matrix.det_diagonal, Fin.prod_univ_succ]
  simp

/-! One counterexample and one positive statement per size. -/

/-- C10 is false: a matrix with determinant `ε/2 ≠ 0` is refused. -/
theorem C10_inverse_M22_false : ∃ A : Mat 2 ℝ, A.toM.det ≠ 0 ∧ M22.inverse A = .ok none := by
  have h := P.eps_pos
  refine ⟨almostOne 2 (P.eps / 2), by rw [almostOne_det]; positivity, ?_⟩
  rw [M22.inverse_eq, if_pos]
  rw [show M22.det _ = _ from M22.det_eq _, ← Mat.toM, almostOne_det, abs_of_pos (by positivity)]
  linarith

/-- What holds: an inverse is returned when `|det| ≥ ε`. Missing: `0 < |det| < ε` (false there). -/
theorem C10_inverse_M22_partial (A : Mat 2 ℝ) (h : P.eps ≤ |A.toM.det|) :
    ∃ B, M22.inverse A = .ok (some B) := by
  rw [M22.inverse_eq, if_neg (not_lt.2 (by rwa [show M22.det A = _ from M22.det_eq A]))]
  exact ⟨_, rfl⟩

/-- C10 is false: a matrix with determinant `ε/2 ≠ 0` is refused. -/
theorem C10_inverse_M33_false : ∃ A : Mat 3 ℝ, A.toM.det ≠ 0 ∧ M33.inverse A = .ok none := by
  have h := P.eps_pos
  refine ⟨almostOne 3 (P.eps / 2), by rw [almostOne_det]; positivity, ?_⟩
  rw [M33.inverse_eq, if_pos]
  rw [show M33.det _ = _ from M33.det_eq _, ← Mat.toM, almostOne_det, abs_of_pos (by positivity)]
  linarith

/-- What holds: an inverse is returned when `|det| ≥ ε`. Missing: `0 < |det| < ε` (false there). -/
theorem C10_inverse_M33_partial (A : Mat 3 ℝ) (h : P.eps ≤ |A.toM.det|) :
    ∃ B, M33.inverse A = .ok (some B) := by
  rw [M33.inverse_eq, if_neg (not_lt.2 (by rwa [show M33.det A = _ from M33.det_eq A]))]
  exact ⟨_, rfl⟩

/-- C10 is false: a matrix with determinant `ε/2 ≠ 0` is refused. -/
theorem C10_inverse_M44_false : ∃ A : Mat 4 ℝ, A.toM.det ≠ 0 ∧ M44.inverse A = .ok none := by
  have h := P.eps_pos
  refine ⟨almostOne 4 (P.eps / 2), by rw [almostOne_det]; positivity, ?_⟩
  rw [M44.inverse_eq, if_pos]
  rw [show M44.det _ = _ from M44.det_eq _, ← Mat.toM, almostOne_det, abs_of_pos (by positivity)]
  linarith

/-- What holds: an inverse is returned when `|det| ≥ ε`. Missing: `0 < |det| < ε` (false there). -/
theorem C10_inverse_M44_partial (A : Mat 4 ℝ) (h : P.eps ≤ |A.toM.det|) :
    ∃ B, M44.inverse A = .ok (some B) := by
  rw [M44.inverse_eq, if_neg (not_lt.2 (by rwa [show M44.det A = _ from M44.det_eq A]))]
  exact ⟨_, rfl⟩

/-- C10 is false: a matrix with determinant `ε/2 ≠ 0` is refused. -/
theorem C10_inverse_M55_false : ∃ A : Mat 5 ℝ, A.toM.det ≠ 0 ∧ M55.inverse A = .ok none := by
  have h := P.eps_pos
  refine ⟨almostOne 5 (P.eps / 2), by rw [almostOne_det]; positivity, ?_⟩
  rw [M55.inverse_eq, if_pos]
  rw [show M55.det _ = _ from M55.det_eq _, ← Mat.toM, almostOne_det, abs_of_pos (by positivity)]
  linarith

/-- What holds: an inverse is returned when `|det| ≥ ε`. Missing: `0 < |det| < ε` (false there). -/
theorem C10_inverse_M55_partial (A : Mat 5 ℝ) (h : P.eps ≤ |A.toM.det|) :
    ∃ B, M55.inverse A = .ok (some B) := by
  rw [M55.inverse_eq, if_neg (not_lt.2 (by rwa [show M55.det A = _ from M55.det_eq A]))]
  exact ⟨_, rfl⟩

/-- C10 is false: a matrix with determinant `ε/2 ≠ 0` is refused. -/
theorem C10_inverse_M66_false : ∃ A : Mat 6 ℝ, A.toM.det ≠ 0 ∧ M66.inverse A = .ok none := by
  have h := P.eps_pos
  refine ⟨almostOne 6 (P.eps / 2), by rw [almostOne_det]; positivity, ?_⟩
  rw [M66.inverse_eq, if_pos]
  rw [show M66.det _ = _ from M66.det_eq _, ← Mat.toM, almostOne_det, abs_of_pos (by positivity)]
  linarith

/-- What holds: an inverse is returned when `|det| ≥ ε`. Missing: `0 < |det| < ε` (false there). -/
theorem C10_inverse_M66_partial (A : Mat 6 ℝ) (h : P.eps ≤ |A.toM.det|) :
    ∃ B, M66.inverse A = .ok (some B) := by
  rw [M66.inverse_eq, if_neg (not_lt.2 (by rwa [show M66.det A = _ from M66.det_eq A]))]
  exact ⟨_, rfl⟩

example : P.eps ≤ |(almostOne 3 7).toM.det| := by
  have h := P.eps_le
  rw [almostOne_det]; norm_num at h ⊢; linarith

omit P in
/-- With the double-precision epsilon `2^-52`, a rotation-free uniform scaling by `1/1000` of 6-space
(perfectly conditioned, determinant `10^-18`) is refused. -/
theorem C10_scaling_false : @M66.inverse ℝ _ _ _ _ _ _ _ _ _ (@instRFloatReal f64Params) (⟨fun i j => if i = j then 1 / 1000 else 0⟩ : Mat 6 ℝ) = .ok none := by
  letI : RealParams := f64Params
  rw [M66.inverse_eq, if_pos]
  have : (Matrix.of fun i j : Fin 6 => if i = j then (1 / 1000 : ℝ) else 0)
      = Matrix.diagonal (fun _ => (1 / 1000 : ℝ)) := by
    ext i j; simp [Matrix.diagonal]
  rw [M66.det_eq, this, Matrix.det_diagonal, Finset.prod_const]
  change _ < 1 / (2 : ℝ) ^ 52
  norm_num

/-! ## C11 The inverse solves linear systems -/

theorem C11_solve_M22 (A B : Mat 2 ℝ) (h : M22.inverse A = .ok (some B)) (b : Vec 2 ℝ) :
    M22.mulVec A (M22.mulVec B b) = b ∧ ∀ x, M22.mulVec A x = b → x = M22.mulVec B b := by
  obtain ⟨h1, h2⟩ := C08_inverse_M22 A B h
  rw [← Mat.toM_inj, M22.toM_mul, M22.toM_one] at h1 h2
  have e (C : Mat 2 ℝ) (v : Vec 2 ℝ) : (M22.mulVec C v).val = C.toM.mulVec v.val := M22.val_mulVec C v
  refine ⟨Vec.ext ?_, fun x hx => Vec.ext ?_⟩
  · rw [e, e, Matrix.mulVec_mulVec, h1, Matrix.one_mulVec]
  · rw [e, ← hx, e, Matrix.mulVec_mulVec, h2, Matrix.one_mulVec]

theorem C11_solve_M33 (A B : Mat 3 ℝ) (h : M33.inverse A = .ok (some B)) (b : Vec 3 ℝ) :
    M33.mulVec A (M33.mulVec B b) = b ∧ ∀ x, M33.mulVec A x = b → x = M33.mulVec B b := by
  obtain ⟨h1, h2⟩ := C08_inverse_M33 A B h
  rw [← Mat.toM_inj, M33.toM_mul, M33.toM_one] at h1 h2
  have e (C : Mat 3 ℝ) (v : Vec 3 ℝ) : (M33.mulVec C v).val = C.toM.mulVec v.val := M33.val_mulVec C v
  refine ⟨Vec.ext ?_, fun x hx => Vec.ext ?_⟩
  · rw [e, e, Matrix.mulVec_mulVec, h1, Matrix.one_mulVec]
  · rw [e, ← hx, e, Matrix.mulVec_mulVec, h2, Matrix.one_mulVec]

theorem C11_solve_M44 (A B : Mat 4 ℝ) (h : M44.inverse A = .ok (some B)) (b : Vec 4 ℝ) :
    M44.mulVec A (M44.mulVec B b) = b ∧ ∀ x, M44.mulVec A x = b → x = M44.mulVec B b := by
  obtain ⟨h1, h2⟩ := C08_inverse_M44 A B h
  rw [← Mat.toM_inj, M44.toM_mul, M44.toM_one] at h1 h2
  have e (C : Mat 4 ℝ) (v : Vec 4 ℝ) : (M44.mulVec C v).val = C.toM.mulVec v.val := M44.val_mulVec C v
  refine ⟨Vec.ext ?_, fun x hx => Vec.ext ?_⟩
  · rw [e, e, Matrix.mulVec_mulVec, h1, Matrix.one_mulVec]
  · rw [e, ← hx, e, Matrix.mulVec_mulVec, h2, Matrix.one_mulVec]

theorem C11_solve_M55 (A B : Mat 5 ℝ) (h : M55.inverse A = .ok (some B)) (b : Vec 5 ℝ) :
    M55.mulVec A (M55.mulVec B b) = b ∧ ∀ x, M55.mulVec A x = b → x = M55.mulVec B b := by
  obtain ⟨h1, h2⟩ := C08_inverse_M55 A B h
  rw [← Mat.toM_inj, M55.toM_mul, M55.toM_one] at h1 h2
  have e (C : Mat 5 ℝ) (v : Vec 5 ℝ) : (M55.mulVec C v).val = C.toM.mulVec v.val := M55.val_mulVec C v
  refine ⟨Vec.ext ?_, fun x hx => Vec.ext ?_⟩
  · rw [e, e, Matrix.mulVec_mulVec, h1, Matrix.one_mulVec]
  · rw [e, ← hx, e, Matrix.mulVec_mulVec, h2, Matrix.one_mulVec]

theorem C11_solve_M66 (A B : Mat 6 ℝ) (h : M66.inverse A = .ok (some B)) (b : Vec 6 ℝ) :
    M66.mulVec A (M66.mulVec B b) = b ∧ ∀ x, M66.mulVec A x = b → x = M66.mulVec B b := by
  obtain ⟨h1, h2⟩ := C08_inverse_M66 A B h
  rw [← Mat.toM_inj, M66.toM_mul, M66.toM_one] at h1 h2
  have e (C : Mat 6 ℝ) (v : Vec 6 ℝ) : (M66.mulVec C v).val = C.toM.mulVec v.val := M66.val_mulVec C v
  refine ⟨Vec.ext ?_, fun x hx => Vec.ext ?_⟩
  · rw [e, e, Matrix.mulVec_mulVec, h1, Matrix.one_mulVec]
  · rw [e, ← hx, e, Matrix.mulVec_mulVec, h2, Matrix.one_mulVec]

end StaticMath
