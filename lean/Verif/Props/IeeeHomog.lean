import Verif.Props.IeeeMotionBuild

/-!
# C137: chains of homogeneous matrices in floating point

The matrices of a kinematic chain, their product, its inverse and points moved by them. `u` is the roundoff of the format.
-/

namespace StaticMath
open Flt

variable {f : Fmt}

/-- The rotation block of a homogeneous matrix. -/
def rot3 (M : Matrix (Fin 4) (Fin 4) ℝ) : Matrix (Fin 3) (Fin 3) ℝ := Matrix.of fun i j => M i.castSucc j.castSucc

/-- The translation of a homogeneous matrix, as the first column of a matrix that is zero elsewhere: its Frobenius norm is the
Euclidean length. -/
def tr3 (M : Matrix (Fin 4) (Fin 4) ℝ) : Matrix (Fin 3) (Fin 3) ℝ := Matrix.of fun i j => if j = 0 then M i.castSucc 3 else 0

/-- A float matrix `A` is close to the rigid motion (or reflection) `M`: last row `0 0 0 1`, rotation block within `ε`, translation
within `P ε`, where `P` bounds the length of the translation of `M`. -/
structure Mat.HClose (A : Mat 4 (Flt f)) (M : Matrix (Fin 4) (Fin 4) ℝ) (P ε : ℝ) : Prop where
  fin : ∀ i j, (A i j).IsFin
  last : ∀ j, (A 3 j).toReal = if j = 3 then 1 else 0
  orth : rot3 M ∈ Matrix.orthogonalGroup (Fin 3) ℝ
  row : ∀ j, M 3 j = if j = 3 then 1 else 0
  size : frob (tr3 M) ≤ P
  rot : frob (rot3 A.reM - rot3 M) ≤ ε
  trans : frob (tr3 A.reM - tr3 M) ≤ P * ε

private theorem frob_zero3 : frob (0 : Matrix (Fin 3) (Fin 3) ℝ) = 0 := by
  have h := frob_const (n := 3) (le_refl (0 : ℝ))
  rw [mul_zero] at h
  exact h

private theorem frob_neg (M : Matrix (Fin 3) (Fin 3) ℝ) : frob (-M) = frob M := by
  simp only [frob, Matrix.neg_apply, neg_sq]

private theorem castSucc_ne (j : Fin 3) : j.castSucc ≠ (3 : Fin 4) := by
  fin_cases j <;> decide

private theorem rot3_mul {A B : Matrix (Fin 4) (Fin 4) ℝ} (hB : ∀ j, B 3 j = if j = 3 then 1 else 0) :
    rot3 (A * B) = rot3 A * rot3 B := by
  ext i j
  change (A * B) i.castSucc j.castSucc = _
  rw [Matrix.mul_apply, Matrix.mul_apply, Fin.sum_univ_castSucc]
  rw [show B (Fin.last 3) j.castSucc = 0 from (hB _).trans (if_neg (castSucc_ne j)), mul_zero, add_zero]
  rfl

private theorem tr3_mul {A B : Matrix (Fin 4) (Fin 4) ℝ} (hB : ∀ j, B 3 j = if j = 3 then 1 else 0) :
    tr3 (A * B) = rot3 A * tr3 B + tr3 A := by
  ext i j
  change (if j = 0 then (A * B) i.castSucc 3 else 0) = _
  rw [Matrix.add_apply, Matrix.mul_apply, Matrix.mul_apply, Fin.sum_univ_castSucc]
  rw [show B (Fin.last 3) 3 = 1 from (hB _).trans (if_pos rfl), mul_one]
  simp only [rot3, tr3, Matrix.of_apply]
  split_ifs
  · rfl
  · simp

private theorem row_mul {A B : Matrix (Fin 4) (Fin 4) ℝ} (hA : ∀ j, A 3 j = if j = 3 then 1 else 0)
    (hB : ∀ j, B 3 j = if j = 3 then 1 else 0) (j : Fin 4) : (A * B) 3 j = if j = 3 then 1 else 0 := by
  rw [Matrix.mul_apply, Fin.sum_univ_four, hA, hA, hA, hA, hB]
  simp

theorem Mat.HClose.norms {A : Mat 4 (Flt f)} {M : Matrix (Fin 4) (Fin 4) ℝ} {P ε : ℝ} (h : A.HClose M P ε) :
    frob (rot3 A.reM) ≤ 174 / 100 * (1 + ε) ∧ frob (tr3 A.reM) ≤ P * (1 + ε) ∧ 0 ≤ ε ∧ 0 ≤ P := by
  have h1 := frob_sub_le (rot3 A.reM) (rot3 M)
  have h2 := frob_sub_le (tr3 A.reM) (tr3 M)
  rw [frob_of_orth h.orth] at h1
  have h0 : 0 ≤ ε := (frob_nonneg _).trans h.rot
  have h3 : √((3 : ℕ) : ℝ) ≤ 174 / 100 := Real.sqrt_le_iff.2 ⟨by norm_num, by norm_num⟩
  have h4 := h.rot
  generalize √((3 : ℕ) : ℝ) = s at h1 h3
  exact ⟨by linarith, by linarith [h.trans, h.size], h0, (frob_nonneg _).trans h.size⟩

theorem Mat.HClose.bound {A : Mat 4 (Flt f)} {M : Matrix (Fin 4) (Fin 4) ℝ} {P ε B : ℝ} (h : A.HClose M P ε)
    (h1 : 1 + ε ≤ 2) (hB : 2 + 2 * P ≤ B) : ∀ i j, (A i j).FinLe B := by
  obtain ⟨-, n2, n3, n4⟩ := h.norms
  intro i j
  refine ⟨h.fin i j, ?_⟩
  induction i using Fin.lastCases with
  | last =>
    rw [show A (Fin.last 3) j = A 3 j from rfl, h.last]
    split_ifs
    · rw [abs_one]; linarith
    · rw [abs_zero]; linarith
  | cast i =>
    induction j using Fin.lastCases with
    | last =>
      have := frob_entry_le (tr3 A.reM) i 0
      change |(A i.castSucc 3).toReal| ≤ _ at this
      refine this.trans (n2.trans ?_)
      nlinarith
    | cast j =>
      have k1 := frob_entry_le (rot3 A.reM - rot3 M) i j
      have k2 : |rot3 M i j| ≤ 1 := by
        have h := congrFun (congrFun ((Matrix.mem_orthogonalGroup_iff (Fin 3) ℝ).1 h.orth) i) i
        rw [Matrix.mul_apply, Matrix.one_apply_eq] at h
        simp only [Matrix.transpose_apply] at h
        have := Finset.single_le_sum (f := fun j => rot3 M i j * rot3 M i j) (fun _ _ => mul_self_nonneg _) (Finset.mem_univ j)
        exact abs_le_one_iff_mul_self_le_one.2 (this.trans h.le)
      rw [Matrix.sub_apply] at k1
      have k3 := abs_sub_abs_le_abs_sub (rot3 A.reM i j) (rot3 M i j)
      change |rot3 A.reM i j| ≤ B
      linarith [h.rot]

/-- The last row of a product is exact. -/
private theorem last_row {A B : Mat 4 (Flt f)} (hA : ∀ j, (A 3 j).toReal = if j = 3 then 1 else 0)
    (hB : ∀ j, (B 3 j).toReal = if j = 3 then 1 else 0) (fA : ∀ i j, (A i j).IsFin) (fB : ∀ i j, (B i j).IsFin) (j : Fin 4) :
    (M44.mul A B 3 j).toReal = if j = 3 then 1 else 0 := by
  have r0 : f.Rep |(0 : ℝ)| := by rw [abs_zero]; exact f.rep_zero
  have r1 : f.Rep |(1 : ℝ)| := by rw [abs_one]; exact rep_one f
  have z (k : Fin 4) (hk : k ≠ 3) : (A 3 k * B k j).IsFin ∧ (A 3 k * B k j).toReal = 0 := by
    have e : (A 3 k).toReal * (B k j).toReal = 0 := by rw [hA, if_neg hk, zero_mul]
    have := mul_exact (fA 3 k) (fB k j) (by rw [e]; exact r0)
    exact ⟨this.1, this.2.trans e⟩
  have t : (A 3 3 * B 3 j).IsFin ∧ (A 3 3 * B 3 j).toReal = if j = 3 then 1 else 0 := by
    have e : (A 3 3).toReal * (B 3 j).toReal = if j = 3 then 1 else 0 := by rw [hA, if_pos rfl, one_mul, hB]
    have := mul_exact (fA 3 3) (fB 3 j) (by rw [e]; split_ifs <;> assumption)
    exact ⟨this.1, this.2.trans e⟩
  have add {a b : Flt f} {v : ℝ} (ha : a.IsFin ∧ a.toReal = 0) (hb : b.IsFin ∧ b.toReal = v) (hv : f.Rep |v|) :
      (a + b).IsFin ∧ (a + b).toReal = v := by
    have := add_exact ha.1 hb.1 (by rw [ha.2, hb.2, zero_add]; exact hv)
    exact ⟨this.1, by rw [this.2, ha.2, hb.2, zero_add]⟩
  have hh := (add (add (add (z 0 (by decide)) (z 1 (by decide)) r0) (z 2 (by decide)) r0) t (by split_ifs <;> assumption)).2
  fin_cases j <;> exact hh

private theorem step_real {P k G δ u γ η e1 e2 a b t s : ℝ} (hP : 1 / 8 ≤ P) (hk : 0 ≤ k) (hG : 1 ≤ G) (hδ : 0 ≤ δ) (hu : 0 ≤ u)
    (hγ : γ ≤ 404 / 100 * u) (hγ0 : 0 ≤ γ) (hη : η ≤ 17 / 1000 * u) (b0 : 0 ≤ b) (t0 : 0 ≤ t)
    (ha : a ≤ 174 / 100 * G) (hb : b ≤ 174 / 100 * (1 + δ)) (ht : t ≤ P * (1 + δ)) (hs : s ≤ k * P * G)
    (h1 : e1 ≤ γ * (a * b) + 3 * η) (h2 : e2 ≤ γ * (a * t + s) + 3 * η) :
    e1 ≤ 13 * u * (G * (1 + δ)) ∧ e2 ≤ 13 * u * ((k + 1) * P * (G * (1 + δ))) := by
  have g1 : 1 ≤ G * (1 + δ) := by nlinarith
  have p1 : 0 < P := by linarith
  have kp : 0 ≤ k * P := by positivity
  have c1 : a * b ≤ 303 / 100 * (G * (1 + δ)) := by
    have := mul_le_mul ha hb b0 (by linarith)
    nlinarith
  have c2 : a * t + s ≤ 174 / 100 * ((k + 1) * P * (G * (1 + δ))) := by
    have h3 := mul_le_mul ha ht t0 (by linarith)
    have h4 : k * P * G ≤ k * P * (G * (1 + δ)) := mul_le_mul_of_nonneg_left (by nlinarith) kp
    have h5 : 0 ≤ k * P * (G * (1 + δ)) := by positivity
    nlinarith
  have c3 : u ≤ u * (G * (1 + δ)) := le_mul_of_one_le_right hu g1
  have c4 : u ≤ 8 * (u * ((k + 1) * P * (G * (1 + δ)))) := by
    have h3 : 1 ≤ 8 * ((k + 1) * P * (G * (1 + δ))) := by
      have : 1 / 8 ≤ (k + 1) * P := by nlinarith
      nlinarith
    have := mul_le_mul_of_nonneg_left h3 hu
    linarith
  have d1 := mul_le_mul_of_nonneg_left c1 hγ0
  have d2 := mul_le_mul_of_nonneg_left c2 hγ0
  have d3 := mul_le_mul_of_nonneg_right hγ (show 0 ≤ G * (1 + δ) by linarith)
  have d4 := mul_le_mul_of_nonneg_right hγ (show 0 ≤ (k + 1) * P * (G * (1 + δ)) by positivity)
  constructor
  · nlinarith
  · nlinarith

/-- Rounding of a product plus a sum. -/
private theorem frob_round_add (F A B C : Matrix (Fin 3) (Fin 3) ℝ) {γ ε : ℝ} (hγ : 0 ≤ γ) (hε : 0 ≤ ε)
    (h : ∀ i j, |F i j - (∑ k, A i k * B k j + C i j)| ≤ γ * (∑ k, |A i k * B k j| + |C i j|) + ε) :
    frob (F - (A * B + C)) ≤ γ * (frob A * frob B + frob C) + 3 * ε := by
  have h1 : frob (F - (A * B + C)) ≤ frob (γ • (((Matrix.of fun i j => |A i j|) * (Matrix.of fun i j => |B i j|)) +
      Matrix.of fun i j => |C i j|) + Matrix.of fun _ _ => ε) := by
    refine frob_le_of_le fun i j => ?_
    rw [Matrix.sub_apply, Matrix.add_apply, Matrix.mul_apply, Matrix.add_apply, Matrix.smul_apply, Matrix.add_apply, Matrix.mul_apply,
      smul_eq_mul]
    simpa only [Matrix.of_apply, abs_mul] using h i j
  refine h1.trans ((frob_add_le _ _).trans ?_)
  rw [frob_smul' _ hγ, frob_const hε]
  have := frob_mul_le (Matrix.of fun i j => |A i j|) (Matrix.of fun i j => |B i j|)
  rw [frob_abs, frob_abs] at this
  have h2 := frob_add_le ((Matrix.of fun i j => |A i j|) * (Matrix.of fun i j => |B i j|)) (Matrix.of fun i j => |C i j|)
  rw [frob_abs] at h2
  push_cast
  gcongr
  linarith

/-- Frobenius distance of products, the first factor of the exact product being orthogonal. -/
private theorem dist_rot {A M B N : Matrix (Fin 3) (Fin 3) ℝ} {a b : ℝ} (hM : M ∈ Matrix.orthogonalGroup (Fin 3) ℝ)
    (hN : N ∈ Matrix.orthogonalGroup (Fin 3) ℝ) (ha : frob (A - M) ≤ a) (hb : frob (B - N) ≤ b) :
    frob (A * B - M * N) ≤ a + a * b + b := by
  have e : A * B - M * N = ((A - M) * N + (A - M) * (B - N)) + M * (B - N) := by noncomm_ring
  rw [e]
  refine (frob_add_le _ _).trans (add_le_add ((frob_add_le _ _).trans (add_le_add ?_ ?_)) ?_)
  · rwa [frob_mul_orth hN]
  · exact (frob_mul_le _ _).trans (mul_le_mul ha hb (frob_nonneg _) ((frob_nonneg _).trans ha))
  · rwa [frob_orth_mul hM]

private theorem dist_tr {A M T t S s : Matrix (Fin 3) (Fin 3) ℝ} {a b c P : ℝ} (hM : M ∈ Matrix.orthogonalGroup (Fin 3) ℝ)
    (ht : frob t ≤ P) (ha : frob (A - M) ≤ a) (hb : frob (T - t) ≤ b) (hc : frob (S - s) ≤ c) :
    frob ((A * T + S) - (M * t + s)) ≤ a * P + a * b + b + c := by
  have e : (A * T + S) - (M * t + s) = (((A - M) * t + (A - M) * (T - t)) + M * (T - t)) + (S - s) := by noncomm_ring
  rw [e]
  have a0 := (frob_nonneg _).trans ha
  refine (frob_add_le _ _).trans (add_le_add ((frob_add_le _ _).trans (add_le_add ((frob_add_le _ _).trans (add_le_add ?_ ?_)) ?_)) hc)
  · exact (frob_mul_le _ _).trans (mul_le_mul ha ht (frob_nonneg _) a0)
  · exact (frob_mul_le _ _).trans (mul_le_mul ha hb (frob_nonneg _) a0)
  · rwa [frob_orth_mul hM]

/-- The rounding errors of one product. -/
private theorem mul_round {A B : Mat 4 (Flt f)} (hB : ∀ j, (B 3 j).toReal = if j = 3 then 1 else 0)
    (hf : ∀ i j, (M44.mul A B i j).IsFin) :
    frob (rot3 (M44.mul A B).reM - rot3 A.reM * rot3 B.reM) ≤
      ((1 + f.u) ^ 4 - 1) * (frob (rot3 A.reM) * frob (rot3 B.reM)) + 3 * ((1 + f.u) ^ 4 * (4 * f.eta)) ∧
    frob (tr3 (M44.mul A B).reM - (rot3 A.reM * tr3 B.reM + tr3 A.reM)) ≤
      ((1 + f.u) ^ 4 - 1) * (frob (rot3 A.reM) * frob (tr3 B.reM) + frob (tr3 A.reM)) + 3 * ((1 + f.u) ^ 4 * (4 * f.eta)) := by
  have hu0 := f.u_pos
  have hη0 := f.eta_pos
  have p4 : 1 ≤ (1 + f.u) ^ 4 := one_le_pow₀ (by linarith)
  have hε : 0 ≤ (1 + f.u) ^ 4 * (4 * f.eta) := by positivity
  constructor
  · refine frob_round _ _ _ (by linarith) hε fun i j => ?_
    have h := (C93_mul_M44 A B i.castSucc j.castSucc (hf _ _)).1
    rw [Fin.sum_univ_castSucc (n := 3), Fin.sum_univ_castSucc (n := 3)] at h
    rw [show (B (Fin.last 3) j.castSucc).toReal = 0 from (hB _).trans (if_neg (castSucc_ne j)), mul_zero, add_zero, abs_zero,
      add_zero] at h
    exact h
  · refine frob_round_add _ _ _ _ (by linarith) hε fun i j => ?_
    by_cases hj : j = 0
    · have h := (C93_mul_M44 A B i.castSucc 3 (hf _ _)).1
      rw [Fin.sum_univ_castSucc (n := 3), Fin.sum_univ_castSucc (n := 3)] at h
      rw [show (B (Fin.last 3) 3).toReal = 1 from (hB _).trans (if_pos rfl), mul_one] at h
      simp only [tr3, Matrix.of_apply, if_pos hj]
      exact h
    · simp only [tr3, Matrix.of_apply, if_neg hj, mul_zero, Finset.sum_const_zero, abs_zero, add_zero, sub_zero, zero_add]
      exact hε

theorem hclose_mul (hp : 8 ≤ f.p) {A B : Mat 4 (Flt f)} {M N : Matrix (Fin 4) (Fin 4) ℝ} {P k G δ : ℝ} (hk : 0 ≤ k)
    (hP : 1 / 8 ≤ P) (hA : A.HClose M (k * P) (G - 1)) (hB : B.HClose N P δ) (hn : G * ((1 + δ) * (1 + 13 * f.u)) ≤ 2)
    (hov : 16 * (2 + 2 * ((k + 1) * P)) ^ 2 ≤ (2 : ℝ) ^ f.emax) :
    (M44.mul A B).HClose (M * N) ((k + 1) * P) (G * ((1 + δ) * (1 + 13 * f.u)) - 1) := by
  have hu0 := f.u_pos
  have hη := Fmt.eta_small hp
  have hη0 := f.eta_pos
  obtain ⟨k4, -, -⟩ := Fmt.kappa456 hp
  have hu := Fmt.u_le_of_p hp
  obtain ⟨a1, a2, a3, a4⟩ := hA.norms
  obtain ⟨b1, b2, b3, b4⟩ := hB.norms
  have hG : 1 ≤ G := by linarith
  have kP : 0 ≤ k * P := a4
  have g2 : G * (1 + δ) ≤ 2 := by
    refine le_trans ?_ hn
    rw [← mul_assoc]
    exact le_mul_of_one_le_right (by positivity) (by linarith)
  have p4 : 1 ≤ (1 + f.u) ^ 4 := one_le_pow₀ (by linarith)
  have hfin : ∀ i j, (M44.mul A B i j).IsFin := by
    have fA := hA.bound (B := 2 + 2 * ((k + 1) * P)) (by nlinarith) (by nlinarith)
    have fB := hB.bound (B := 2 + 2 * ((k + 1) * P)) (by nlinarith) (by nlinarith)
    refine ((C103_no_overflow_M44 A B ⟨fun i => B 3 i⟩ ⟨fun i => B 3 i⟩ (2 + 2 * ((k + 1) * P)) (by nlinarith) fA fB (fB 3) (fB 3)).2 ?_).1
    have h2 : (2 : ℝ) ^ (f.emax + 1) = 2 ^ f.emax * 2 := zpow_add_one₀ (by norm_num) _
    have h3 : (0 : ℝ) < 2 ^ f.emax := by positivity
    rw [h2]
    have h4 : (1 + f.u) ^ 4 * (8 * (2 + 2 * ((k + 1) * P)) ^ 2) ≤ 2 * (8 * (2 + 2 * ((k + 1) * P)) ^ 2) :=
      mul_le_mul_of_nonneg_right (by linarith) (by positivity)
    linarith
  obtain ⟨r1, r2⟩ := mul_round hB.last hfin
  have hη' : (1 + f.u) ^ 4 * (4 * f.eta) ≤ 17 / 1000 * f.u := by
    have := mul_le_mul (show (1 + f.u) ^ 4 ≤ 102 / 100 by linarith) (show 4 * f.eta ≤ 4 * (f.u / 256) by linarith) (by positivity)
      (by norm_num)
    linarith
  obtain ⟨e1, e2⟩ := step_real hP hk hG b3 hu0.le k4 (by linarith) hη' (frob_nonneg _) (frob_nonneg _)
    (by linarith) b1 b2 (by linarith) r1 r2
  have d1 := dist_rot hA.orth hB.orth hA.rot hB.rot
  have d2 := dist_tr hA.orth hB.size hA.rot hB.trans hA.trans
  refine ⟨hfin, last_row hA.last hB.last hA.fin hB.fin, ?_, row_mul hA.row hB.row, ?_, ?_, ?_⟩
  · rw [rot3_mul hB.row]; exact mul_mem hA.orth hB.orth
  · rw [tr3_mul hB.row]
    refine (frob_add_le _ _).trans ?_
    rw [frob_orth_mul hA.orth]
    linarith [hA.size, hB.size]
  · rw [rot3_mul hB.row]
    have := frob_add_le (rot3 (M44.mul A B).reM - rot3 A.reM * rot3 B.reM) (rot3 A.reM * rot3 B.reM - rot3 M * rot3 N)
    rw [sub_add_sub_cancel] at this
    linarith
  · rw [tr3_mul hB.row]
    have := frob_add_le (tr3 (M44.mul A B).reM - (rot3 A.reM * tr3 B.reM + tr3 A.reM))
      (rot3 A.reM * tr3 B.reM + tr3 A.reM - (rot3 M * tr3 N + tr3 M))
    rw [sub_add_sub_cancel] at this
    have : 0 ≤ k * P * (G * δ) := by positivity
    linarith

private theorem hclose_one : (M44.one : Mat 4 (Flt f)).HClose 1 0 0 := by
  have e : (M44.one : Mat 4 (Flt f)).reM = 1 := by
    ext i j
    fin_cases i <;> fin_cases j <;> first | exact toReal_one (f := f) | exact toReal_zero (f := f)
  have r1 : rot3 1 = 1 := by
    ext i j
    fin_cases i <;> fin_cases j <;> rfl
  have t1 : tr3 1 = 0 := by
    ext i j
    fin_cases i <;> fin_cases j <;> rfl
  refine ⟨fun i j => ?_, fun j => ?_, ?_, fun j => ?_, ?_, ?_, ?_⟩
  · fin_cases i <;> fin_cases j <;> exact isFin_one (f := f)
  · fin_cases j <;> first | exact toReal_one (f := f) | exact toReal_zero (f := f)
  · rw [r1]; exact one_mem _
  · fin_cases j <;> rfl
  · rw [t1, frob_zero3]
  · rw [e, sub_self, frob_zero3]
  · rw [e, sub_self, frob_zero3, mul_zero]

/-- **C137 (chains of homogeneous matrices).** The float product of `n` matrices, each within `δ` of a rigid motion with a translation
no longer than `P`, is within `gⁿ - 1` of the product of the motions, `g = (1 + δ)(1 + 13u)`: rotation block in the Frobenius norm,
translation relative to `n P`; the last row is exactly `0 0 0 1`. -/
theorem C137_chain (hp : 8 ≤ f.p) (l : List (Mat 4 (Flt f) × Matrix (Fin 4) (Fin 4) ℝ)) {P δ : ℝ} (hδ : 0 ≤ δ) (hP : 1 / 8 ≤ P)
    (hl : ∀ x ∈ l, x.1.HClose x.2 P δ) (hn : ((1 + δ) * (1 + 13 * f.u)) ^ l.length ≤ 2)
    (hov : 16 * (2 + 2 * l.length * P) ^ 2 ≤ (2 : ℝ) ^ f.emax) :
    ((l.map Prod.fst).foldl M44.mul M44.one).HClose (l.map Prod.snd).prod (l.length * P)
      (((1 + δ) * (1 + 13 * f.u)) ^ l.length - 1) := by
  have hu0 := f.u_pos
  have hg : 1 ≤ (1 + δ) * (1 + 13 * f.u) := by nlinarith
  induction l using List.reverseRecOn with
  | nil => simpa using hclose_one
  | append_singleton l x ih =>
    rw [List.length_append, List.length_singleton] at hov ⊢
    rw [List.length_append, List.length_singleton, pow_succ] at hn
    push_cast at hov ⊢
    have hgn : ((1 + δ) * (1 + 13 * f.u)) ^ l.length ≤ 2 := (le_mul_of_one_le_right (by positivity) hg).trans hn
    have h1 : (l.length : ℝ) * P ≤ (l.length + 1) * P := by linarith
    have h2 := ih (fun y hy => hl y (by simp [hy])) hgn (le_trans (by gcongr; linarith) hov)
    have h3 := hclose_mul hp (Nat.cast_nonneg _) hP h2 (hl x (by simp)) hn (by rwa [← mul_assoc])
    simp only [List.map_append, List.map_cons, List.map_nil, List.foldl_append, List.foldl_cons, List.foldl_nil, List.prod_append,
      List.prod_cons, List.prod_nil, mul_one]
    rw [pow_succ]
    exact h3

/-- A float point `(x, y, z, 1)` of length at most `Q` moved by a float matrix close to a rigid motion; the fourth coordinate stays
exactly `1`. -/
theorem C137_point (hp : 8 ≤ f.p) {A : Mat 4 (Flt f)} {M : Matrix (Fin 4) (Fin 4) ℝ} {P Q ε : ℝ} (h : A.HClose M P ε)
    (hP : 1 / 8 ≤ P) (hε : ε ≤ 1) (v : Vec 4 (Flt f)) (hv : ∀ i, (v i).IsFin) (hv3 : (v 3).toReal = 1) (hQ : 0 ≤ Q)
    (hvQ : (v 0).toReal ^ 2 + (v 1).toReal ^ 2 + (v 2).toReal ^ 2 ≤ Q ^ 2)
    (hov : 16 * (2 + 2 * (P + Q)) ^ 2 ≤ (2 : ℝ) ^ f.emax) :
    (∀ i, (M44.mulVec A v i).IsFin) ∧ (M44.mulVec A v 3).toReal = 1 ∧
    ∀ i : Fin 3, |(M44.mulVec A v i.castSucc).toReal - ∑ k, M i.castSucc k * (v k).toReal| ≤ (P + Q) * (ε + 15 * f.u) := by
  have hu0 := f.u_pos
  have hη := Fmt.eta_small hp
  have hη0 := f.eta_pos
  obtain ⟨k4, -, -⟩ := Fmt.kappa456 hp
  have hu := Fmt.u_le_of_p hp
  obtain ⟨a1, a2, a3, a4⟩ := h.norms
  have p4 : 1 ≤ (1 + f.u) ^ 4 := one_le_pow₀ (by linarith)
  have v0 : |(v 0).toReal| ≤ Q := abs_le_of_sq_le_sq (by nlinarith [sq_nonneg (v 1).toReal, sq_nonneg (v 2).toReal]) hQ
  have v1 : |(v 1).toReal| ≤ Q := abs_le_of_sq_le_sq (by nlinarith [sq_nonneg (v 0).toReal, sq_nonneg (v 2).toReal]) hQ
  have v2 : |(v 2).toReal| ≤ Q := abs_le_of_sq_le_sq (by nlinarith [sq_nonneg (v 0).toReal, sq_nonneg (v 1).toReal]) hQ
  have fv : ∀ i, (v i).FinLe (2 + 2 * (P + Q)) := fun i => ⟨hv i, by
    fin_cases i
    · exact v0.trans (by linarith)
    · exact v1.trans (by linarith)
    · exact v2.trans (by linarith)
    · change |(v 3).toReal| ≤ _
      rw [hv3, abs_one]; linarith⟩
  have fA := h.bound (B := 2 + 2 * (P + Q)) (by linarith) (by linarith)
  have hfin : ∀ i, (M44.mulVec A v i).IsFin := by
    refine ((C103_no_overflow_M44 A A v v (2 + 2 * (P + Q)) (by linarith) fA fA fv fv).2 ?_).2.1
    have h2 : (2 : ℝ) ^ (f.emax + 1) = 2 ^ f.emax * 2 := zpow_add_one₀ (by norm_num) _
    have h3 : (0 : ℝ) < 2 ^ f.emax := by positivity
    rw [h2]
    have h4 : (1 + f.u) ^ 4 * (8 * (2 + 2 * (P + Q)) ^ 2) ≤ 2 * (8 * (2 + 2 * (P + Q)) ^ 2) :=
      mul_le_mul_of_nonneg_right (by linarith) (by positivity)
    linarith
  refine ⟨hfin, ?_, fun i => ?_⟩
  · have r0 : f.Rep |(0 : ℝ)| := by rw [abs_zero]; exact f.rep_zero
    have r1 : f.Rep |(1 : ℝ)| := by rw [abs_one]; exact rep_one f
    have z (k : Fin 4) (hk : k ≠ 3) : (A 3 k * v k).IsFin ∧ (A 3 k * v k).toReal = 0 := by
      have e : (A 3 k).toReal * (v k).toReal = 0 := by rw [h.last, if_neg hk, zero_mul]
      have := mul_exact (h.fin 3 k) (hv k) (by rw [e]; exact r0)
      exact ⟨this.1, this.2.trans e⟩
    have t : (A 3 3 * v 3).IsFin ∧ (A 3 3 * v 3).toReal = 1 := by
      have e : (A 3 3).toReal * (v 3).toReal = 1 := by rw [h.last, if_pos rfl, one_mul, hv3]
      have := mul_exact (h.fin 3 3) (hv 3) (by rw [e]; exact r1)
      exact ⟨this.1, this.2.trans e⟩
    have add {a b : Flt f} {w : ℝ} (ha : a.IsFin ∧ a.toReal = 0) (hb : b.IsFin ∧ b.toReal = w) (hw : f.Rep |w|) :
        (a + b).IsFin ∧ (a + b).toReal = w := by
      have := add_exact ha.1 hb.1 (by rw [ha.2, hb.2, zero_add]; exact hw)
      exact ⟨this.1, by rw [this.2, ha.2, hb.2, zero_add]⟩
    exact (add (add (add (z 0 (by decide)) (z 1 (by decide)) r0) (z 2 (by decide)) r0) t r1).2
  · obtain ⟨V, hV⟩ : ∃ V : Matrix (Fin 3) (Fin 3) ℝ, V = Matrix.of fun k j => if j = 0 then (v k.castSucc).toReal else 0 := ⟨_, rfl⟩
    have nV : frob V ≤ Q := by
      refine Real.sqrt_le_iff.2 ⟨hQ, ?_⟩
      simp only [hV, Matrix.of_apply, Fin.sum_univ_three]
      refine le_trans (le_of_eq ?_) hvQ
      simp
    have e1 : (∑ k, (A i.castSucc k).toReal * (v k).toReal) - ∑ k, M i.castSucc k * (v k).toReal =
        ((rot3 A.reM - rot3 M) * V + (tr3 A.reM - tr3 M)) i 0 := by
      rw [← Finset.sum_sub_distrib, Fin.sum_univ_castSucc, Matrix.add_apply, Matrix.mul_apply]
      rw [show (v (Fin.last 3)).toReal = 1 from hv3]
      simp only [hV, Matrix.of_apply, if_pos, Matrix.sub_apply, rot3, tr3, sub_mul, mul_one]
      rfl
    have n1 : |(∑ k, (A i.castSucc k).toReal * (v k).toReal) - ∑ k, M i.castSucc k * (v k).toReal| ≤ ε * Q + P * ε := by
      rw [e1]
      refine (frob_entry_le _ i 0).trans ((frob_add_le _ _).trans (add_le_add ?_ h.trans))
      exact (frob_mul_le _ _).trans (mul_le_mul h.rot nV (frob_nonneg _) a3)
    have n2 : ∑ k, |(A i.castSucc k).toReal * (v k).toReal| ≤ 174 / 100 * (1 + ε) * Q + P * (1 + ε) := by
      have e2 : ∑ k, |(A i.castSucc k).toReal * (v k).toReal| =
          ((Matrix.of fun i j => |rot3 A.reM i j|) * (Matrix.of fun i j => |V i j|)) i 0 + |tr3 A.reM i 0| := by
        rw [Fin.sum_univ_castSucc, Matrix.mul_apply]
        rw [show (v (Fin.last 3)).toReal = 1 from hv3]
        simp only [hV, Matrix.of_apply, if_pos, rot3, tr3, mul_one, abs_mul]
        rfl
      rw [e2]
      refine add_le_add ((le_abs_self _).trans ((frob_entry_le _ i 0).trans ((frob_mul_le _ _).trans ?_))) ((frob_entry_le _ i 0).trans a2)
      rw [frob_abs, frob_abs]
      exact mul_le_mul a1 nV (frob_nonneg _) (by positivity)
    have n3 := (C93_mulVec_M44 A v i.castSucc (hfin _)).1
    have n4 : ((1 + f.u) ^ 4 - 1) * ∑ k, |(A i.castSucc k).toReal * (v k).toReal| + (1 + f.u) ^ 4 * (4 * f.eta) ≤
        15 * f.u * (P + Q) := by
      have c1 : ∑ k, |(A i.castSucc k).toReal * (v k).toReal| ≤ 348 / 100 * (P + Q) := by nlinarith
      have c2 := mul_le_mul k4 c1 (Finset.sum_nonneg fun _ _ => abs_nonneg _) (by positivity)
      have c3 := mul_le_mul (show (1 + f.u) ^ 4 ≤ 102 / 100 by linarith) (show 4 * f.eta ≤ 4 * (f.u / 256) by linarith) (by positivity)
        (by norm_num)
      have c4 : f.u ≤ 8 * (f.u * (P + Q)) := by nlinarith
      nlinarith
    have := abs_sub_le (M44.mulVec A v i.castSucc).toReal (∑ k, (A i.castSucc k).toReal * (v k).toReal)
      (∑ k, M i.castSucc k * (v k).toReal)
    linarith

private theorem hom_ext {A B : Matrix (Fin 4) (Fin 4) ℝ} (h1 : rot3 A = rot3 B) (h2 : tr3 A = tr3 B) (h3 : ∀ j, A 3 j = B 3 j) : A = B := by
  ext i j
  induction i using Fin.lastCases with
  | last => exact h3 j
  | cast i =>
    induction j using Fin.lastCases with
    | last => exact congrFun (congrFun h2 i) 0
    | cast j => exact congrFun (congrFun h1 i) j

/-- The inverse of an exact rigid motion. -/
private theorem hom_inv {M : Matrix (Fin 4) (Fin 4) ℝ} (ho : rot3 M ∈ Matrix.orthogonalGroup (Fin 3) ℝ)
    (hr : ∀ j, M 3 j = if j = 3 then 1 else 0) :
    rot3 M⁻¹ = (rot3 M).transpose ∧ tr3 M⁻¹ = -((rot3 M).transpose * tr3 M) ∧ ∀ j, M⁻¹ 3 j = if j = 3 then 1 else 0 := by
  obtain ⟨T, hT⟩ : ∃ T, T = (rot3 M).transpose * tr3 M := ⟨_, rfl⟩
  obtain ⟨N, hN⟩ : ∃ N : Matrix (Fin 4) (Fin 4) ℝ, N = Matrix.of ![![M 0 0, M 1 0, M 2 0, -T 0 0], ![M 0 1, M 1 1, M 2 1, -T 1 0],
    ![M 0 2, M 1 2, M 2 2, -T 2 0], ![0, 0, 0, 1]] := ⟨_, rfl⟩
  have n1 : rot3 N = (rot3 M).transpose := by
    subst hN
    ext i j
    fin_cases i <;> fin_cases j <;> rfl
  have t0 : ∀ i j, j ≠ 0 → T i j = 0 := by
    intro i j hj
    rw [hT, Matrix.mul_apply]
    exact Finset.sum_eq_zero fun k _ => by simp [tr3, hj]
  have n2 : tr3 N = -T := by
    ext i j
    by_cases hj : j = 0
    · subst hj hN
      fin_cases i <;> rfl
    · rw [Matrix.neg_apply, t0 i j hj, neg_zero]
      simp [tr3, hj]
  have n3 : ∀ j, N 3 j = if j = 3 then 1 else 0 := by
    subst hN
    intro j
    fin_cases j <;> rfl
  have h : N * M = 1 := by
    refine hom_ext ?_ ?_ ?_
    · rw [rot3_mul hr, n1, (Matrix.mem_orthogonalGroup_iff' (Fin 3) ℝ).1 ho]
      ext i j
      fin_cases i <;> fin_cases j <;> rfl
    · rw [tr3_mul hr, n1, n2, ← hT, add_neg_cancel]
      ext i j
      fin_cases i <;> fin_cases j <;> rfl
    · intro j
      rw [row_mul n3 hr]
      fin_cases j <;> rfl
  rw [Matrix.inv_eq_left_inv h, ← hT]
  exact ⟨n1, n2, n3⟩

/-- The float inverse of a float matrix close to a rigid motion is close to the inverse motion. -/
theorem C137_inverse (hp : 8 ≤ f.p) {A : Mat 4 (Flt f)} {M : Matrix (Fin 4) (Fin 4) ℝ} {P ε : ℝ} (h : A.HClose M P ε)
    (hP : 1 / 8 ≤ P) (hε : ε ≤ 1) (hov : 16 * (2 + 2 * P) ^ 2 ≤ (2 : ℝ) ^ f.emax) :
    (homogeneous_inverse A).HClose M⁻¹ P ((1 + ε) ^ 2 * (1 + 6 * f.u) - 1) := by
  have hu0 := f.u_pos
  have hη := Fmt.eta_small hp
  have hη0 := f.eta_pos
  have hu := Fmt.u_le_of_p hp
  obtain ⟨a1, a2, a3, a4⟩ := h.norms
  obtain ⟨m1, m2, m3⟩ := hom_inv h.orth h.row
  obtain ⟨r1, r2, r3, r4, r5, r6⟩ := C120_homogeneous_inverse A
  have fA := h.bound (B := 2 + 2 * P) (by linarith) (by linarith)
  have hz : (0 : Flt f).FinLe (2 + 2 * P) := ⟨isFin_zero, by rw [toReal_zero, abs_zero]; linarith⟩
  have hfin : ∀ i j, (homogeneous_inverse A i j).IsFin := by
    refine (C120_no_overflow (2 + 2 * P) (by linarith) ?_ ⟨Quat.zero, Quat.zero, false⟩ ⟨Quat.zero, Quat.zero, false⟩ A ⟨fun _ => 0⟩ ⟨fun _ => 0⟩ 0
      (fun i => by fin_cases i <;> exact ⟨hz, hz⟩) (fun i => by fin_cases i <;> exact ⟨hz, hz⟩) fA (fun _ => hz) (fun _ => hz) hz).2.2.2.1
    rw [zpow_add₀ (by norm_num), zpow_one]
    have h6 := (Fmt.kappa456 hp).2.2
    have := mul_le_mul_of_nonneg_right h6 (by positivity : 0 ≤ 16 * (2 + 2 * P) ^ 2)
    have : 0 < (2 + 2 * P) ^ 2 := by positivity
    linarith
  have s1 : rot3 (homogeneous_inverse A).reM = (rot3 A.reM).transpose := by
    ext i j
    exact congrArg toReal (r1 i j)
  have k3 : (1 + f.u) ^ 3 - 1 ≤ 303 / 100 * f.u := by
    have h2 := mul_le_mul_of_nonneg_right hu hu0.le
    have h3 := mul_le_mul_of_nonneg_right h2 hu0.le
    nlinarith
  have p3 : 1 ≤ (1 + f.u) ^ 3 := one_le_pow₀ (by linarith)
  have s2 : frob (-tr3 (homogeneous_inverse A).reM - (rot3 A.reM).transpose * tr3 A.reM) ≤
      ((1 + f.u) ^ 3 - 1) * (frob (rot3 A.reM).transpose * frob (tr3 A.reM)) + (3 : ℕ) * ((1 + f.u) ^ 3 * (f.eta * 3)) := by
    refine frob_round _ _ _ (by linarith) (by positivity) fun i j => ?_
    by_cases hj : j = 0
    · have := r6 i (hfin _ _)
      rw [← abs_neg, neg_add'] at this
      simp only [tr3, Matrix.of_apply, if_pos hj, Matrix.neg_apply, Matrix.transpose_apply, abs_mul]
      exact this
    · simp only [tr3, Matrix.of_apply, if_neg hj, mul_zero, Finset.sum_const_zero, abs_zero, zero_add, Matrix.neg_apply, neg_zero, sub_zero]
      positivity
  rw [frob_transpose] at s2
  have hot : (rot3 M).transpose ∈ Matrix.orthogonalGroup (Fin 3) ℝ := by
    rw [Matrix.mem_orthogonalGroup_iff, Matrix.transpose_transpose]
    exact (Matrix.mem_orthogonalGroup_iff' (Fin 3) ℝ).1 h.orth
  have hrot : frob ((rot3 A.reM).transpose - (rot3 M).transpose) ≤ ε := by
    rw [← Matrix.transpose_sub, frob_transpose]
    exact h.rot
  refine ⟨hfin, ?_, ?_, m3, ?_, ?_, ?_⟩
  · intro j
    fin_cases j
    · exact (congrArg toReal r2).trans toReal_zero
    · exact (congrArg toReal r3).trans toReal_zero
    · exact (congrArg toReal r4).trans toReal_zero
    · exact (congrArg toReal r5).trans toReal_one
  · rw [m1]; exact hot
  · rw [m2, frob_neg, frob_orth_mul hot]; exact h.size
  · rw [s1, m1]
    refine hrot.trans ?_
    nlinarith
  · have d := dist_tr (S := 0) (s := 0) (c := 0) hot h.size hrot h.trans (by rw [sub_self, frob_zero3])
    rw [add_zero, add_zero] at d
    have e : tr3 (homogeneous_inverse A).reM - tr3 M⁻¹ = -((-tr3 (homogeneous_inverse A).reM - (rot3 A.reM).transpose * tr3 A.reM) +
        ((rot3 A.reM).transpose * tr3 A.reM - (rot3 M).transpose * tr3 M)) := by
      rw [m2]; abel
    rw [e, frob_neg]
    refine (frob_add_le _ _).trans ((add_le_add s2 d).trans ?_)
    have c1 : frob (rot3 A.reM) * frob (tr3 A.reM) ≤ 174 / 100 * (P * (1 + ε) ^ 2) :=
      (mul_le_mul a1 a2 (frob_nonneg _) (by positivity)).trans (le_of_eq (by ring))
    have c2 := mul_le_mul k3 c1 (mul_nonneg (frob_nonneg _) (frob_nonneg _)) (by positivity)
    have c3 := mul_le_mul (show (1 + f.u) ^ 3 ≤ 102 / 100 by linarith) (show f.eta * 3 ≤ f.u / 256 * 3 by linarith) (by positivity)
      (by norm_num)
    have c4 : f.u ≤ 8 * (f.u * (P * (1 + ε) ^ 2)) := by
      have : 1 ≤ 8 * (P * (1 + ε) ^ 2) := by nlinarith
      nlinarith
    push_cast
    nlinarith

private theorem col_le {v : Fin 3 → ℝ} {Q : ℝ} (hQ : 0 ≤ Q) (h : v 0 ^ 2 + v 1 ^ 2 + v 2 ^ 2 ≤ Q ^ 2) :
    frob (Matrix.of fun k j : Fin 3 => if j = 0 then v k else 0) ≤ Q := by
  refine Real.sqrt_le_iff.2 ⟨hQ, ?_⟩
  simp only [Matrix.of_apply, Fin.sum_univ_three]
  refine le_trans (le_of_eq ?_) h
  simp

private theorem tail_real {P Q ε u γ η g : ℝ} (hP : 1 / 8 ≤ P) (hQ : 0 ≤ Q) (hε0 : 0 ≤ ε) (hε : ε ≤ 1) (hu : 0 ≤ u)
    (hγ : γ ≤ 404 / 100 * u) (hη : η ≤ u / 256) (hη0 : 0 ≤ η) (hg : g ≤ 102 / 100) :
    γ * (174 / 100 * (1 + ε) * (101 / 100 * (Q + P * (1 + ε)))) + g * (4 * η) +
      (ε * (101 / 100 * (Q + P * (1 + ε))) + (u * (Q + P * (1 + ε)) + P * ε)) ≤ (P + Q) * (4 * ε + 31 * u) := by
  have q1 : Q + P * (1 + ε) ≤ 2 * (P + Q) := by nlinarith
  have q0 : 0 ≤ Q + P * (1 + ε) := by positivity
  have c0 : 174 / 100 * (1 + ε) * (101 / 100 * (Q + P * (1 + ε))) ≤ 704 / 100 * (P + Q) := by
    have := mul_le_mul (show 174 / 100 * (1 + ε) ≤ 348 / 100 by linarith)
      (show 101 / 100 * (Q + P * (1 + ε)) ≤ 202 / 100 * (P + Q) by linarith) (by positivity) (by norm_num)
    linarith
  have c1 := mul_le_mul hγ c0 (by positivity) (by positivity)
  have c3 := mul_le_mul hg (show 4 * η ≤ 4 * (u / 256) by linarith) (by positivity) (by norm_num)
  have c4 : u ≤ 8 * (u * (P + Q)) := by nlinarith
  have c5 : ε * (101 / 100 * (Q + P * (1 + ε))) ≤ ε * (202 / 100 * (P + Q)) := mul_le_mul_of_nonneg_left (by linarith) hε0
  have c6 : u * (Q + P * (1 + ε)) ≤ u * (2 * (P + Q)) := mul_le_mul_of_nonneg_left q1 hu
  have c7 : P * ε ≤ (P + Q) * ε := mul_le_mul_of_nonneg_right (by linarith) hε0
  have c8 : 0 ≤ (P + Q) * ε := by positivity
  linarith

private theorem inv_bound (hp : 8 ≤ f.p) {A : Mat 4 (Flt f)} {M : Matrix (Fin 4) (Fin 4) ℝ} {P Q ε : ℝ} (h : A.HClose M P ε)
    (hI : (homogeneous_inverse A).HClose M⁻¹ P ((1 + ε) ^ 2 * (1 + 6 * f.u) - 1)) (hP : 1 / 8 ≤ P) (hQ : 0 ≤ Q) (hε : ε ≤ 1) :
    ∀ k j, (homogeneous_inverse A k j).FinLe (2 + 5 * (P + Q)) := by
  have hu0 := f.u_pos
  have hu := Fmt.u_le_of_p hp
  obtain ⟨-, -, a3, a4⟩ := h.norms
  intro k j
  refine ⟨hI.fin k j, ?_⟩
  induction k using Fin.lastCases with
  | last =>
    rw [show homogeneous_inverse A (Fin.last 3) j = homogeneous_inverse A 3 j from rfl, hI.last]
    split_ifs
    · rw [abs_one]; linarith
    · rw [abs_zero]; linarith
  | cast k =>
    induction j using Fin.lastCases with
    | last =>
      have h1 := (frob_entry_le (tr3 (homogeneous_inverse A).reM) k 0).trans hI.norms.2.1
      change |(homogeneous_inverse A k.castSucc 3).toReal| ≤ _ at h1
      have h2 : (1 + ε) ^ 2 * (1 + 6 * f.u) ≤ 4 * (1 + 6 * f.u) := mul_le_mul_of_nonneg_right (by nlinarith) (by positivity)
      have h3 : P * (1 + ((1 + ε) ^ 2 * (1 + 6 * f.u) - 1)) ≤ P * 5 := mul_le_mul_of_nonneg_left (by linarith) a4
      exact h1.trans (by linarith)
    | cast j =>
      rw [(C120_homogeneous_inverse A).1 k j]
      exact (h.bound (B := 2 + 2 * P) (by linarith) le_rfl _ _).2.trans (by linarith)

/-- `homogeneous_inverse_transform` applied to a float point: the point moved by the inverse motion. -/
theorem C137_inverse_transform [Libm f] (hp : 8 ≤ f.p) {A : Mat 4 (Flt f)} {M : Matrix (Fin 4) (Fin 4) ℝ} {P Q ε : ℝ}
    (h : A.HClose M P ε) (hP : 1 / 8 ≤ P) (hε : ε ≤ 1) (v : Vec 3 (Flt f)) (hv : ∀ i, (v i).IsFin) (hQ : 0 ≤ Q)
    (hvQ : (v 0).toReal ^ 2 + (v 1).toReal ^ 2 + (v 2).toReal ^ 2 ≤ Q ^ 2)
    (hov : 16 * (2 + 5 * (P + Q)) ^ 2 ≤ (2 : ℝ) ^ f.emax) (i : Fin 3) :
    (homogeneous_inverse_transform A v i).IsFin ∧
    |(homogeneous_inverse_transform A v i).toReal -
      (∑ k : Fin 3, M⁻¹ i.castSucc k.castSucc * (v k).toReal + M⁻¹ i.castSucc 3)| ≤ (P + Q) * (4 * ε + 31 * f.u) := by
  have hu0 := f.u_pos
  have hη := Fmt.eta_small hp
  have hη0 := f.eta_pos
  obtain ⟨k4, -, -⟩ := Fmt.kappa456 hp
  have hu := Fmt.u_le_of_p hp
  obtain ⟨a1, a2, a3, a4⟩ := h.norms
  obtain ⟨m1, m2, m3⟩ := hom_inv h.orth h.row
  have hPQ : 0 < P + Q := by linarith
  have p4 : 1 ≤ (1 + f.u) ^ 4 := one_le_pow₀ (by linarith)
  have hI := C137_inverse hp h hP hε (le_trans (mul_le_mul_of_nonneg_left
    (pow_le_pow_left₀ (by linarith) (by linarith) 2) (by norm_num)) hov)
  obtain ⟨r1, r2, r3, r4, r5, r6⟩ := C120_homogeneous_inverse A
  -- the difference
  obtain ⟨V, hV⟩ : ∃ V : Matrix (Fin 3) (Fin 3) ℝ, V = Matrix.of fun k j => if j = 0 then (v k).toReal else 0 := ⟨_, rfl⟩
  have nV : frob V ≤ Q := by rw [hV]; exact col_le (v := fun k => (v k).toReal) hQ hvQ
  have nS : frob (V - tr3 A.reM) ≤ Q + P * (1 + ε) := by
    rw [sub_eq_add_neg]
    refine (frob_add_le _ _).trans ?_
    rw [frob_neg]
    exact add_le_add nV a2
  have hS (k : Fin 3) : |(v k).toReal - (A k.castSucc 3).toReal| ≤ Q + P * (1 + ε) := by
    have := (frob_entry_le (V - tr3 A.reM) k 0).trans nS
    rw [hV] at this
    exact this
  have hB : 4 * (P + Q) ≤ (2 : ℝ) ^ f.emax := le_trans (by nlinarith) hov
  have hB2 : (2 : ℝ) ^ (f.emax + 1) = 2 ^ f.emax * 2 := zpow_add_one₀ (by norm_num) _
  have fd (k : Fin 3) : (v k - A k.castSucc 3).IsFin := by
    refine sub_isFin (hv k) (h.fin _ _) ?_
    have := mul_le_mul (show 1 + f.u ≤ 101 / 100 by linarith) (hS k) (abs_nonneg _) (by norm_num)
    rw [hB2]
    nlinarith
  obtain ⟨D, hD⟩ : ∃ D : Matrix (Fin 3) (Fin 3) ℝ, D = Matrix.of fun k j => if j = 0 then (v k - A k.castSucc 3).toReal else 0 := ⟨_, rfl⟩
  have nD1 : frob (D - (V - tr3 A.reM)) ≤ f.u * (Q + P * (1 + ε)) := by
    have h1 : frob (D - (V - tr3 A.reM)) ≤ frob (f.u • (Matrix.of fun i j => |(V - tr3 A.reM) i j|)) := by
      refine frob_le_of_le fun k j => ?_
      simp only [hD, hV, tr3, Matrix.sub_apply, Matrix.of_apply, Matrix.smul_apply, smul_eq_mul]
      by_cases hj : j = 0
      · simp only [if_pos hj]
        exact sub_rel (fd k)
      · simp [if_neg hj]
    rw [frob_smul' _ hu0.le, frob_abs] at h1
    exact h1.trans (mul_le_mul_of_nonneg_left nS hu0.le)
  have nD : frob D ≤ 101 / 100 * (Q + P * (1 + ε)) := by
    have := frob_sub_le D (V - tr3 A.reM)
    have : 0 ≤ Q + P * (1 + ε) := by positivity
    nlinarith
  have nD2 : frob (D - (V - tr3 M)) ≤ f.u * (Q + P * (1 + ε)) + P * ε := by
    have e : D - (V - tr3 M) = (D - (V - tr3 A.reM)) + -(tr3 A.reM - tr3 M) := by abel
    rw [e]
    refine (frob_add_le _ _).trans ?_
    rw [frob_neg]
    exact add_le_add nD1 h.trans
  obtain ⟨w, hw⟩ : ∃ w : Vec 4 (Flt f), w = ⟨![v 0 - A 0 3, v 1 - A 1 3, v 2 - A 2 3, 0]⟩ := ⟨_, rfl⟩
  have hwk (k : Fin 3) : w k.castSucc = v k - A k.castSucc 3 := by subst hw; fin_cases k <;> rfl
  have hw3 : w 3 = 0 := by subst hw; rfl
  have hres : homogeneous_inverse_transform A v i = M44.mulVec (homogeneous_inverse A) w i.castSucc := by
    subst hw
    fin_cases i <;> rfl
  have fw : ∀ k, (w k).FinLe (2 + 5 * (P + Q)) := by
    intro k
    induction k using Fin.lastCases with
    | last => rw [show w (Fin.last 3) = 0 from hw3]; exact ⟨isFin_zero, by rw [toReal_zero, abs_zero]; linarith⟩
    | cast k =>
      refine ⟨by rw [hwk]; exact fd k, ?_⟩
      have := (frob_entry_le D k 0).trans nD
      rw [hD] at this
      change |(v k - A k.castSucc 3).toReal| ≤ _ at this
      rw [hwk]
      nlinarith
  have fI := inv_bound hp h hI hP hQ hε
  have hfin : ∀ k, (M44.mulVec (homogeneous_inverse A) w k).IsFin := by
    refine ((C103_no_overflow_M44 _ _ w w (2 + 5 * (P + Q)) (by linarith) fI fI fw fw).2 ?_).2.1
    rw [hB2]
    have h4 : (1 + f.u) ^ 4 * (8 * (2 + 5 * (P + Q)) ^ 2) ≤ 102 / 100 * (8 * (2 + 5 * (P + Q)) ^ 2) :=
      mul_le_mul_of_nonneg_right (by linarith) (by positivity)
    have : 0 < (2 + 5 * (P + Q)) ^ 2 := by positivity
    linarith
  rw [hres]
  refine ⟨hfin _, ?_⟩
  have n3 := (C93_mulVec_M44 (homogeneous_inverse A) w i.castSucc (hfin _)).1
  rw [Fin.sum_univ_castSucc (n := 3), Fin.sum_univ_castSucc (n := 3), show w (Fin.last 3) = 0 from hw3, toReal_zero, mul_zero, add_zero,
    abs_zero, add_zero] at n3
  have e1 : ∑ k : Fin 3, (homogeneous_inverse A i.castSucc k.castSucc).toReal * (w k.castSucc).toReal =
      ((rot3 A.reM).transpose * D) i 0 := by
    rw [Matrix.mul_apply]
    refine Finset.sum_congr rfl fun k _ => ?_
    rw [hwk, r1 i k, hD]
    rfl
  have e2 : ∑ k : Fin 3, |(homogeneous_inverse A i.castSucc k.castSucc).toReal * (w k.castSucc).toReal| =
      ((Matrix.of fun i j => |(rot3 A.reM).transpose i j|) * (Matrix.of fun i j => |D i j|)) i 0 := by
    rw [Matrix.mul_apply]
    refine Finset.sum_congr rfl fun k _ => ?_
    rw [hwk, r1 i k, hD, abs_mul]
    rfl
  have e3 : ∑ k : Fin 3, M⁻¹ i.castSucc k.castSucc * (v k).toReal + M⁻¹ i.castSucc 3 = ((rot3 M).transpose * (V - tr3 M)) i 0 := by
    rw [Matrix.mul_sub, sub_eq_add_neg, ← m2, ← m1, Matrix.add_apply, Matrix.mul_apply, hV]
    rfl
  rw [e1, e2] at n3
  rw [e3]
  have n4 : ((Matrix.of fun i j => |(rot3 A.reM).transpose i j|) * (Matrix.of fun i j => |D i j|)) i 0 ≤
      174 / 100 * (1 + ε) * (101 / 100 * (Q + P * (1 + ε))) := by
    refine (le_abs_self _).trans ((frob_entry_le _ i 0).trans ((frob_mul_le _ _).trans ?_))
    rw [frob_abs, frob_abs, frob_transpose]
    exact mul_le_mul a1 nD (frob_nonneg _) (by positivity)
  have hot : (rot3 M).transpose ∈ Matrix.orthogonalGroup (Fin 3) ℝ := by
    rw [Matrix.mem_orthogonalGroup_iff, Matrix.transpose_transpose]
    exact (Matrix.mem_orthogonalGroup_iff' (Fin 3) ℝ).1 h.orth
  have n5 : |((rot3 A.reM).transpose * D) i 0 - ((rot3 M).transpose * (V - tr3 M)) i 0| ≤
      ε * (101 / 100 * (Q + P * (1 + ε))) + (f.u * (Q + P * (1 + ε)) + P * ε) := by
    have e : (rot3 A.reM).transpose * D - (rot3 M).transpose * (V - tr3 M) =
        ((rot3 A.reM).transpose - (rot3 M).transpose) * D + (rot3 M).transpose * (D - (V - tr3 M)) := by noncomm_ring
    rw [← Matrix.sub_apply, e]
    refine (frob_entry_le _ i 0).trans ((frob_add_le _ _).trans (add_le_add ((frob_mul_le _ _).trans ?_) ?_))
    · refine mul_le_mul ?_ nD (frob_nonneg _) a3
      rw [← Matrix.transpose_sub, frob_transpose]
      exact h.rot
    · rw [frob_orth_mul hot]
      exact nD2
  have c1 := mul_le_mul_of_nonneg_left n4 (show 0 ≤ (1 + f.u) ^ 4 - 1 by linarith)
  have := abs_sub_le (M44.mulVec (homogeneous_inverse A) w i.castSucc).toReal (((rot3 A.reM).transpose * D) i 0)
    (((rot3 M).transpose * (V - tr3 M)) i 0)
  refine this.trans ((add_le_add (n3.trans (add_le_add_left c1 _)) n5).trans ?_)
  exact tail_real hP hQ a3 hε hu0.le k4 hη hη0.le (by linarith)

/-- Entrywise closeness to a rigid transform. -/
theorem Mat.HClose.of_rigid {H : Mat 4 (Flt f)} {G : Mat 4 ℝ} {P ε : ℝ} (hP : 0 ≤ P) (hε : 0 ≤ ε) (hG : IsRigid G)
    (hG' : G 0 3 ^ 2 + G 1 3 ^ 2 + G 2 3 ^ 2 ≤ P ^ 2) (hl : ∀ j, (H 3 j).IsFin ∧ (H 3 j).toReal = if j = 3 then 1 else 0)
    (hH : ∀ i j : Fin 3, (H i.castSucc j.castSucc).IsFin ∧ |(H i.castSucc j.castSucc).toReal - G i.castSucc j.castSucc| ≤ ε / 3)
    (hT : ∀ i : Fin 3, (H i.castSucc 3).IsFin ∧ |(H i.castSucc 3).toReal - G i.castSucc 3| ≤ P * ε / 3) :
    H.HClose G.toM P ε := by
  have hb : rot3 G.toM = G.block3.toM := by
    ext i j
    fin_cases i <;> fin_cases j <;> rfl
  have c3 {c : ℝ} (hc : 0 ≤ c) {D : Matrix (Fin 3) (Fin 3) ℝ} (h : ∀ i j, |D i j| ≤ c / 3) : frob D ≤ c := by
    have h1 : frob D ≤ frob (Matrix.of fun _ _ : Fin 3 => c / 3) := frob_le_of_le h
    rw [frob_const (by positivity)] at h1
    push_cast at h1
    linarith
  refine ⟨fun i j => ?_, fun j => (hl j).2, ?_, fun j => ?_, ?_, c3 hε fun i j => (hH i j).2, c3 (by positivity) fun i j => ?_⟩
  · induction i using Fin.lastCases with
    | last => exact (hl j).1
    | cast i =>
      induction j using Fin.lastCases with
      | last => exact (hT i).1
      | cast j => exact (hH i j).1
  · rw [hb]
    exact hG.rot.1
  · have := hG.last j
    fin_cases j <;> exact this
  · exact col_le (v := fun k => G k.castSucc 3) hP hG'
  · by_cases hj : j = 0
    · subst hj
      exact (hT i).2
    · simp only [tr3, Matrix.sub_apply, Matrix.of_apply, if_neg hj, sub_zero, abs_zero]
      positivity

/-- Two quarter turns about `z`, each followed by the translation `(1, 0, 1)`. -/
def hT {T : Type} [Zero T] [One T] [Neg T] : Mat 4 T :=
  ⟨![![0, -1, 0, 1], ![1, 0, 0, 0], ![0, 0, 1, 1], ![0, 0, 0, 1]]⟩

theorem hT_rigid : IsRigid (hT : Mat 4 ℝ) := by
  refine ⟨?_, fun j => by fin_cases j <;> rfl⟩
  unfold IsRot
  rw [Matrix.mem_specialOrthogonalGroup_iff, Matrix.mem_orthogonalGroup_iff]
  constructor
  · ext i j
    fin_cases i <;> fin_cases j <;> simp [Mat.toM, Matrix.mul_apply, Fin.sum_univ_three, Mat.block3, hT]
  · simp [Mat.toM, Matrix.det_fin_three, Mat.block3, hT]

theorem hT_close : (hT : Mat 4 (Flt f)).HClose (hT : Mat 4 ℝ).toM 2 0 := by
  have z : ((0 : Flt f)).IsFin ∧ |(0 : Flt f).toReal - 0| ≤ 0 / 3 := ⟨isFin_zero, by rw [toReal_zero, sub_self, abs_zero, zero_div]⟩
  have o : ((1 : Flt f)).IsFin ∧ |(1 : Flt f).toReal - 1| ≤ 0 / 3 := ⟨isFin_one, by rw [toReal_one, sub_self, abs_zero, zero_div]⟩
  have m : ((-1 : Flt f)).IsFin ∧ |(-1 : Flt f).toReal - -1| ≤ 0 / 3 :=
    ⟨isFin_one (f := f), by rw [toReal_neg, toReal_one, sub_self, abs_zero, zero_div]⟩
  refine .of_rigid (by norm_num) le_rfl hT_rigid ?_ ?_ ?_ ?_
  · change (1 : ℝ) ^ 2 + 0 ^ 2 + 1 ^ 2 ≤ _
    norm_num
  · intro j
    fin_cases j
    exacts [⟨isFin_zero, toReal_zero⟩, ⟨isFin_zero, toReal_zero⟩, ⟨isFin_zero, toReal_zero⟩, ⟨isFin_one, toReal_one⟩]
  · intro i j
    fin_cases i <;> fin_cases j
    exacts [z, m, z, o, z, z, z, z, o]
  · intro i
    rw [mul_zero]
    fin_cases i
    exacts [o, z, o]

/-- A thousand such transforms multiplied in `f64`: every entry of the translation is right to within `10⁻⁸`. -/
example : ∀ i : Fin 3, |(((List.replicate 1000 (hT : Mat 4 (Flt Fmt.f64))).foldl M44.mul M44.one) i.castSucc 3).toReal -
    ((hT : Mat 4 ℝ).toM ^ 1000) i.castSucc 3| ≤ 1 / 10 ^ 8 := by
  intro i
  have hu : Fmt.f64.u = 1 / 2 ^ 53 := by
    change (2 : ℝ) ^ (-(53 : ℤ)) = _
    norm_num
  have hg : ((1 + 0) * (1 + 13 * Fmt.f64.u)) ^ 1000 ≤ 1 + 1 / 10 ^ 11 * (1 / 2) := by
    rw [add_zero, one_mul, hu]
    have h := one_add_mul_le_pow (a := (-(13 / 2 ^ 53 * 2) : ℝ)) (by norm_num) 1000
    have h2 : (1 + 13 * (1 / 2 ^ 53) : ℝ) * (1 + -(13 / 2 ^ 53 * 2)) ≤ 1 := by norm_num
    have h3 := pow_le_one₀ (n := 1000) (by norm_num) h2
    rw [mul_pow] at h3
    have h4 : (0 : ℝ) ≤ (1 + 13 * (1 / 2 ^ 53)) ^ 1000 := by positivity
    have h5 := (mul_le_mul_of_nonneg_left h h4).trans h3
    generalize ((1 + 13 * (1 / 2 ^ 53) : ℝ)) ^ 1000 = g at *
    push_cast at h5
    norm_num at h5 ⊢
    linarith
  have h := C137_chain (f := Fmt.f64) (by decide) (List.replicate 1000 ((hT : Mat 4 (Flt Fmt.f64)), (hT : Mat 4 ℝ).toM)) (P := 2) (δ := 0)
    le_rfl (by norm_num) (fun x hx => by rw [List.eq_of_mem_replicate hx]; exact hT_close)
    (by rw [List.length_replicate]; exact hg.trans (by norm_num)) (by
      rw [List.length_replicate]
      calc (16 : ℝ) * (2 + 2 * (1000 : ℕ) * 2) ^ 2 ≤ (2 : ℝ) ^ (30 : ℤ) := by norm_num
        _ ≤ _ := zpow_le_zpow_right₀ (by norm_num) (by decide))
  rw [List.length_replicate, List.map_replicate, List.map_replicate, List.prod_replicate] at h
  generalize (List.replicate 1000 (hT : Mat 4 (Flt Fmt.f64))).foldl M44.mul M44.one = A at h ⊢
  generalize (hT : Mat 4 ℝ).toM ^ 1000 = M at h ⊢
  generalize ((1 + 0) * (1 + 13 * Fmt.f64.u)) ^ 1000 = g at h hg
  have h1 := (frob_entry_le (tr3 A.reM - tr3 M) i 0).trans h.trans
  refine (show |(A i.castSucc 3).toReal - M i.castSucc 3| ≤ _ from h1).trans ?_
  push_cast
  linarith

/-- The inverse of that transform, and the inverse transform of the point `(1, 1, 1)`, meet the hypotheses too. -/
example [Libm Fmt.f32] : (homogeneous_inverse (hT : Mat 4 (Flt Fmt.f32))).HClose (hT : Mat 4 ℝ).toM⁻¹ 2 (6 * Fmt.f32.u) ∧
    ∀ i, (homogeneous_inverse_transform (hT : Mat 4 (Flt Fmt.f32)) ⟨fun _ => 1⟩ i).IsFin := by
  have hov : (16 : ℝ) * (2 + 5 * (2 + 2)) ^ 2 ≤ (2 : ℝ) ^ Fmt.f32.emax := by
    calc (16 : ℝ) * (2 + 5 * (2 + 2)) ^ 2 ≤ (2 : ℝ) ^ (20 : ℤ) := by norm_num
      _ ≤ _ := zpow_le_zpow_right₀ (by norm_num) (by decide)
  have h := C137_inverse (f := Fmt.f32) (by decide) hT_close (by norm_num) (by norm_num) (le_trans (by norm_num) hov)
  refine ⟨?_, fun i => (C137_inverse_transform (f := Fmt.f32) (Q := 2) (by decide) hT_close (by norm_num) (by norm_num) _
    (fun _ => isFin_one) (by norm_num) ?_ hov i).1⟩
  · rw [add_zero, one_pow, one_mul, add_sub_cancel_left] at h
    exact h
  · change (1 : Flt Fmt.f32).toReal ^ 2 + (1 : Flt Fmt.f32).toReal ^ 2 + (1 : Flt Fmt.f32).toReal ^ 2 ≤ 2 ^ 2
    rw [toReal_one]
    norm_num

/-- The point `(1, 1, 1)` moved by it in `f32`. -/
example : (M44.mulVec (hT : Mat 4 (Flt Fmt.f32)) ⟨fun _ => 1⟩ 3).toReal = 1 := by
  have hov : (16 : ℝ) * (2 + 2 * (2 + 2)) ^ 2 ≤ (2 : ℝ) ^ Fmt.f32.emax := by
    calc (16 : ℝ) * (2 + 2 * (2 + 2)) ^ 2 ≤ (2 : ℝ) ^ (20 : ℤ) := by norm_num
      _ ≤ _ := zpow_le_zpow_right₀ (by norm_num) (by decide)
  refine (C137_point (f := Fmt.f32) (Q := 2) (by decide) hT_close (by norm_num) (by norm_num) _ (fun _ => isFin_one) toReal_one
    (by norm_num) ?_ hov).2.1
  change (1 : Flt Fmt.f32).toReal ^ 2 + (1 : Flt Fmt.f32).toReal ^ 2 + (1 : Flt Fmt.f32).toReal ^ 2 ≤ 2 ^ 2
  rw [toReal_one]
  norm_num

end StaticMath
