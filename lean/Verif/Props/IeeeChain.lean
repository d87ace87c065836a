import Verif.Props.IeeeQuat
import Verif.Props.IeeeDet
import Verif.Props.Ieee
import Verif.Ieee.Near
import Verif.Lemmas.FrobCert
import Mathlib.LinearAlgebra.UnitaryGroup

/-!
# C128: long chains of rotations in floating point stay close to the exact product
-/

namespace StaticMath
open Flt Quaternion

variable {f : Fmt}

private theorem eta_small (hp : 8 ≤ f.p) : f.eta ≤ f.u / 256 := by
  have h1 := f.eta_le_sq
  have h2 := mul_le_mul_of_nonneg_right (Fmt.u_le_of_p hp) f.u_pos.le
  linarith

private theorem kappa2 (hp : 8 ≤ f.p) : (1 + f.u) ^ 2 - 1 ≤ 201 / 100 * f.u := by
  have h2 := mul_le_mul_of_nonneg_right (Fmt.u_le_of_p hp) f.u_pos.le
  linarith [f.u_pos]

private theorem kappa_succ {k : ℕ} {c d : ℝ} (hp : 8 ≤ f.p) (h : (1 + f.u) ^ k - 1 ≤ c * f.u) (hd : c + 1 + c / 256 ≤ d)
    (hc : 0 ≤ c) : (1 + f.u) ^ (k + 1) - 1 ≤ d * f.u := by
  have hu0 := f.u_pos
  have h2 := mul_le_mul_of_nonneg_right (Fmt.u_le_of_p hp) f.u_pos.le
  have h3 := mul_le_mul_of_nonneg_left h2 hc
  have h4 := mul_le_mul_of_nonneg_right h (by linarith : 0 ≤ 1 + f.u)
  have h5 := mul_le_mul_of_nonneg_right hd hu0.le
  rw [pow_succ]
  linarith

private theorem kappa3 (hp : 8 ≤ f.p) : (1 + f.u) ^ 3 - 1 ≤ 302 / 100 * f.u :=
  kappa_succ hp (kappa2 hp) (by norm_num) (by norm_num)

private theorem kappa4 (hp : 8 ≤ f.p) : (1 + f.u) ^ 4 - 1 ≤ 404 / 100 * f.u :=
  kappa_succ hp (kappa3 hp) (by norm_num) (by norm_num)

private theorem kappa5 (hp : 8 ≤ f.p) : (1 + f.u) ^ 5 - 1 ≤ 506 / 100 * f.u :=
  kappa_succ hp (kappa4 hp) (by norm_num) (by norm_num)

private theorem kappa6 (hp : 8 ≤ f.p) : (1 + f.u) ^ 6 - 1 ≤ 608 / 100 * f.u :=
  kappa_succ hp (kappa5 hp) (by norm_num) (by norm_num)

private theorem Quat.comp_le (q : Quat (Flt f)) (i : Fin 4) : |(q.comp i).toReal| ≤ ‖q.reH‖ := by
  refine abs_le_of_sq_le_sq ?_ (norm_nonneg _)
  rw [sq ‖q.reH‖, ← Quaternion.normSq_eq_norm_mul_self, Quaternion.normSq_def']
  have h0 := sq_nonneg q.reH.re
  have h1 := sq_nonneg q.reH.imI
  have h2 := sq_nonneg q.reH.imJ
  have h3 := sq_nonneg q.reH.imK
  fin_cases i
  · change q.reH.re ^ 2 ≤ _; linarith
  · change q.reH.imI ^ 2 ≤ _; linarith
  · change q.reH.imJ ^ 2 ≤ _; linarith
  · change q.reH.imK ^ 2 ≤ _; linarith

/-- The product of `n` float quaternions, each within `δ` of a unit quaternion, is finite and within
`((1 + δ) (1 + 9 u)) ^ n - 1` of the exact product of these unit quaternions. -/
theorem C128_quaternions (hp : 8 ≤ f.p) (l : List (Quat (Flt f) × ℍ[ℝ])) {δ : ℝ} (hδ : 0 ≤ δ)
    (hl : ∀ x ∈ l, (∀ i, (x.1.comp i).IsFin) ∧ ‖x.2‖ = 1 ∧ ‖x.1.reH - x.2‖ ≤ δ)
    (hn : ((1 + δ) * (1 + 9 * f.u)) ^ l.length ≤ 2) :
    let q := (l.map Prod.fst).foldl Quat.mul Quat.one
    (∀ i, (q.comp i).IsFin) ∧ ‖q.reH - (l.map Prod.snd).prod‖ ≤ ((1 + δ) * (1 + 9 * f.u)) ^ l.length - 1 := by
  have hu := Fmt.u_le_of_p hp
  have hu0 := f.u_pos
  have hη := eta_small hp
  have hη0 := f.eta_pos
  have hκ := kappa4 hp
  have hg : 1 ≤ (1 + δ) * (1 + 9 * f.u) := by nlinarith
  obtain ⟨g, hge⟩ : ∃ g, g = (1 + δ) * (1 + 9 * f.u) := ⟨_, rfl⟩
  rw [← hge] at hn hg ⊢
  induction l using List.reverseRecOn with
  | nil =>
    refine ⟨fun i => ?_, ?_⟩
    · fin_cases i
      exacts [isFin_one, isFin_zero, isFin_zero, isFin_zero]
    · have : (Quat.one : Quat (Flt f)).reH = 1 := by
        ext
        exacts [toReal_one (f := f), toReal_zero (f := f), toReal_zero (f := f), toReal_zero (f := f)]
      simp [this]
  | append_singleton l x ih =>
    rw [List.length_append, List.length_singleton, pow_succ] at hn ⊢
    have hgn : g ^ l.length ≤ 2 := (le_mul_of_one_le_right (by positivity) hg).trans hn
    obtain ⟨ih1, ih2⟩ := ih (fun y hy => hl y (by simp [hy])) hgn
    obtain ⟨hx1, hx2, hx3⟩ := hl x (by simp)
    intro q
    have hq : q = ((l.map Prod.fst).foldl Quat.mul Quat.one).mul x.1 := by
      simp only [q, List.map_append, List.map_cons, List.map_nil, List.foldl_append, List.foldl_cons, List.foldl_nil]
    have hpr : ((l ++ [x]).map Prod.snd).prod = (l.map Prod.snd).prod * x.2 := by simp
    rw [hpr, hq]
    have hP1 : ‖(l.map Prod.snd).prod‖ = 1 := by
      have : ∀ l' : List (Quat (Flt f) × ℍ[ℝ]), (∀ y ∈ l', ‖y.2‖ = 1) → ‖(l'.map Prod.snd).prod‖ = 1 := by
        intro l' h
        induction l' with
        | nil => simp
        | cons a b ih =>
          rw [List.map_cons, List.prod_cons, norm_mul, h a (by simp), ih (fun y hy => h y (by simp [hy])), one_mul]
      exact this l fun y hy => (hl y (by simp [hy])).2.1
    obtain ⟨P, hP⟩ : ∃ P, P = (l.map Prod.fst).foldl Quat.mul Quat.one := ⟨_, rfl⟩
    obtain ⟨P', hP'⟩ : ∃ P', P' = (l.map Prod.snd).prod := ⟨_, rfl⟩
    rw [← hP] at ih1 ih2 ⊢
    rw [← hP'] at ih2 hP1 ⊢
    have e0 := norm_nonneg (P.reH - P')
    have d0 := norm_nonneg (x.1.reH - x.2)
    have hPn : ‖P.reH‖ ≤ g ^ l.length := by
      have := norm_le_norm_add_norm_sub' P.reH P'
      linarith
    have hxn : ‖x.1.reH‖ ≤ 1 + δ := by
      have := norm_le_norm_add_norm_sub' x.1.reH x.2
      linarith
    have hg1 : 1 ≤ g ^ l.length := one_le_pow₀ hg
    have hδ2 : 1 + δ ≤ 2 := by nlinarith
    have hfin : ∀ i, ((P.mul x.1).comp i).IsFin := by
      refine (C105_no_overflow P x.1 ⟨fun _ => 0⟩ 2 (by norm_num) (fun i => ⟨ih1 i, (P.comp_le i).trans (hPn.trans hgn)⟩)
        (fun i => ⟨hx1 i, (x.1.comp_le i).trans (hxn.trans hδ2)⟩) fun i => ⟨?_, ?_⟩).1 ?_
      · exact isFin_zero
      · change |(0 : Flt f).toReal| ≤ 2
        rw [toReal_zero]; norm_num
      · have h1 : (2 : ℝ) ^ (9 : ℤ) ≤ (2 : ℝ) ^ (f.emax + 1) :=
          zpow_le_zpow_right₀ (by norm_num) (by have := f.hmax; omega)
        have h2 : (2 : ℝ) ^ (9 : ℤ) = 512 := by norm_num
        linarith
    refine ⟨hfin, ?_⟩
    have hE := (C105_product P x.1 hfin).2.1
    have hNN : ‖P.reH‖ * ‖x.1.reH‖ ≤ g ^ l.length * (1 + δ) :=
      mul_le_mul hPn hxn (norm_nonneg _) (by positivity)
    have hdec : (P.mul x.1).reH - P' * x.2 =
        ((P.mul x.1).reH - P.reH * x.1.reH) + ((P.reH - P') * x.1.reH + P' * (x.1.reH - x.2)) := by noncomm_ring
    have n1 : ‖(P.reH - P') * x.1.reH + P' * (x.1.reH - x.2)‖ ≤ (g ^ l.length - 1) * (1 + δ) + δ := by
      refine (norm_add_le _ _).trans ?_
      rw [norm_mul, norm_mul, hP1, one_mul]
      exact add_le_add (mul_le_mul ih2 hxn (norm_nonneg _) (by linarith)) hx3
    have n2 : ‖(P.mul x.1).reH - P.reH * x.1.reH‖ ≤ 9 * f.u * (g ^ l.length * (1 + δ)) := by
      refine hE.trans ?_
      have hk0 : 0 ≤ (1 + f.u) ^ 4 - 1 := by
        have : 1 ≤ (1 + f.u) ^ 4 := one_le_pow₀ (by linarith)
        linarith
      have a1 : ((1 + f.u) ^ 4 - 1) * (‖P.reH‖ * ‖x.1.reH‖) ≤ 404 / 100 * f.u * (g ^ l.length * (1 + δ)) :=
        mul_le_mul hκ hNN (by positivity) (by positivity)
      have a2 : (1 + f.u) ^ 4 * (f.eta * 4) ≤ 2 * (f.u / 256 * 4) :=
        mul_le_mul (by linarith) (by linarith) (by positivity) (by norm_num)
      have a3 : 1 ≤ g ^ l.length * (1 + δ) := by nlinarith
      have a4 := mul_le_mul_of_nonneg_left a3 hu0.le
      linarith
    rw [hdec]
    refine (norm_add_le _ _).trans ?_
    calc _ ≤ 9 * f.u * (g ^ l.length * (1 + δ)) + ((g ^ l.length - 1) * (1 + δ) + δ) := add_le_add n2 n1
      _ = g ^ l.length * ((1 + δ) * (1 + 9 * f.u)) - 1 := by ring
      _ = _ := by rw [← hge]

/-! ## Matrices -/

theorem frob_orth_mul {n : ℕ} {U : Matrix (Fin n) (Fin n) ℝ} (hU : U ∈ Matrix.orthogonalGroup (Fin n) ℝ)
    (M : Matrix (Fin n) (Fin n) ℝ) : frob (U * M) = frob M := by
  have h : frob (U * M) ^ 2 = frob M ^ 2 := by
    rw [frob_sq, frob_sq, Matrix.transpose_mul, Matrix.mul_assoc, Matrix.trace_mul_comm]
    have h1 := (Matrix.mem_orthogonalGroup_iff' (Fin n) ℝ).1 hU
    rw [Matrix.mul_assoc, Matrix.mul_assoc, h1, Matrix.mul_one]
  exact (pow_left_inj₀ (frob_nonneg _) (frob_nonneg _) (by norm_num)).1 h

theorem frob_mul_orth {n : ℕ} {U : Matrix (Fin n) (Fin n) ℝ} (hU : U ∈ Matrix.orthogonalGroup (Fin n) ℝ)
    (M : Matrix (Fin n) (Fin n) ℝ) : frob (M * U) = frob M := by
  have h : frob (M * U) ^ 2 = frob M ^ 2 := by
    rw [frob_sq, frob_sq, Matrix.transpose_mul]
    have h1 := (Matrix.mem_orthogonalGroup_iff (Fin n) ℝ).1 hU
    rw [Matrix.mul_assoc, ← Matrix.mul_assoc U, h1, Matrix.one_mul]
  exact (pow_left_inj₀ (frob_nonneg _) (frob_nonneg _) (by norm_num)).1 h

private theorem frob_one {n : ℕ} : frob (1 : Matrix (Fin n) (Fin n) ℝ) = √n := by
  rw [← Real.sqrt_sq (frob_nonneg _), frob_sq]
  simp

theorem frob_of_orth {n : ℕ} {U : Matrix (Fin n) (Fin n) ℝ} (hU : U ∈ Matrix.orthogonalGroup (Fin n) ℝ) :
    frob U = √n := by
  rw [← frob_one, ← frob_orth_mul hU 1, Matrix.mul_one]

theorem frob_sub_le {n : ℕ} (M N : Matrix (Fin n) (Fin n) ℝ) : frob M ≤ frob N + frob (M - N) := by
  have := frob_add_le N (M - N)
  rwa [add_sub_cancel] at this

theorem frob_entry_le {n : ℕ} (M : Matrix (Fin n) (Fin n) ℝ) (i j : Fin n) : |M i j| ≤ frob M := by
  refine abs_le_of_sq_le_sq ?_ (frob_nonneg _)
  refine le_trans ?_
    (Real.sq_sqrt (Finset.sum_nonneg fun i _ => Finset.sum_nonneg fun j _ => sq_nonneg (M i j))).ge
  exact (Finset.single_le_sum (f := fun j => M i j ^ 2) (fun _ _ => sq_nonneg _) (Finset.mem_univ j)).trans
    (Finset.single_le_sum (f := fun i => ∑ j, M i j ^ 2) (fun _ _ => Finset.sum_nonneg fun _ _ => sq_nonneg _)
      (Finset.mem_univ i))

private theorem orth_entry_le {n : ℕ} {U : Matrix (Fin n) (Fin n) ℝ} (hU : U ∈ Matrix.orthogonalGroup (Fin n) ℝ)
    (i j : Fin n) : |U i j| ≤ 1 := by
  have h := congrFun (congrFun ((Matrix.mem_orthogonalGroup_iff (Fin n) ℝ).1 hU) i) i
  rw [Matrix.mul_apply, Matrix.one_apply_eq] at h
  simp only [Matrix.transpose_apply] at h
  have := Finset.single_le_sum (f := fun j => U i j * U i j) (fun _ _ => mul_self_nonneg _) (Finset.mem_univ j)
  exact abs_le_one_iff_mul_self_le_one.2 (this.trans h.le)

/-- The rounding errors of one product, in the Frobenius norm. -/
theorem frob_round {n : ℕ} (F A B : Matrix (Fin n) (Fin n) ℝ) {γ ε : ℝ} (hγ : 0 ≤ γ) (hε : 0 ≤ ε)
    (h : ∀ i j, |F i j - ∑ k, A i k * B k j| ≤ γ * ∑ k, |A i k * B k j| + ε) :
    frob (F - A * B) ≤ γ * (frob A * frob B) + n * ε := by
  have h1 : frob (F - A * B) ≤ frob (γ • ((Matrix.of fun i j => |A i j|) * (Matrix.of fun i j => |B i j|)) +
      Matrix.of fun _ _ => ε) := by
    refine frob_le_of_le fun i j => ?_
    rw [Matrix.sub_apply, Matrix.mul_apply, Matrix.add_apply, Matrix.smul_apply, Matrix.mul_apply, smul_eq_mul]
    simpa only [Matrix.of_apply, abs_mul] using h i j
  refine h1.trans ((frob_add_le _ _).trans ?_)
  rw [frob_smul' _ hγ, frob_const hε]
  have := frob_mul_le (Matrix.of fun i j => |A i j|) (Matrix.of fun i j => |B i j|)
  rw [frob_abs, frob_abs] at this
  gcongr

/-- The real matrix of the values. -/
noncomputable def Mat.reM {n : ℕ} (A : Mat n (Flt f)) : Matrix (Fin n) (Fin n) ℝ := Matrix.of fun i j => (A i j).toReal

private theorem chain_mat {n : ℕ} (hn1 : 1 ≤ n) (mul : Mat n (Flt f) → Mat n (Flt f) → Mat n (Flt f)) (one : Mat n (Flt f))
    (hone : ∀ i j, one i j = if i = j then 1 else 0) {γ ε K : ℝ} (hγ : 0 ≤ γ) (hε : 0 ≤ ε) (hK : n * γ + n * ε ≤ K)
    (hfin : ∀ A B : Mat n (Flt f), (∀ i j, (A i j).FinLe 2) → (∀ i j, (B i j).FinLe 2) → ∀ i j, (mul A B i j).IsFin)
    (herr : ∀ (A B : Mat n (Flt f)) i j, (mul A B i j).IsFin →
      |(mul A B i j).toReal - ∑ k, (A i k).toReal * (B k j).toReal| ≤ γ * ∑ k, |(A i k).toReal * (B k j).toReal| + ε)
    (l : List (Mat n (Flt f) × Matrix (Fin n) (Fin n) ℝ)) {δ : ℝ} (hδ : 0 ≤ δ)
    (hl : ∀ x ∈ l, (∀ i j, (x.1 i j).IsFin) ∧ x.2 ∈ Matrix.orthogonalGroup (Fin n) ℝ ∧ frob (x.1.reM - x.2) ≤ δ)
    (hn : ((1 + δ) * (1 + K)) ^ l.length ≤ 2) :
    (∀ i j, ((l.map Prod.fst).foldl mul one i j).IsFin) ∧
      frob (((l.map Prod.fst).foldl mul one).reM - (l.map Prod.snd).prod) ≤ ((1 + δ) * (1 + K)) ^ l.length - 1 := by
  have hnr : (1 : ℝ) ≤ n := by exact_mod_cast hn1
  have hK0 : 0 ≤ K := le_trans (by positivity) hK
  have hg : 1 ≤ (1 + δ) * (1 + K) := by nlinarith
  obtain ⟨g, hge⟩ : ∃ g, g = (1 + δ) * (1 + K) := ⟨_, rfl⟩
  rw [← hge] at hn hg ⊢
  induction l using List.reverseRecOn with
  | nil =>
    refine ⟨fun i j => ?_, ?_⟩
    · change (one i j).IsFin
      rw [hone]
      split_ifs
      exacts [isFin_one, isFin_zero]
    · have : one.reM = 1 := by
        ext i j
        change (one i j).toReal = _
        rw [hone, Matrix.one_apply]
        split_ifs
        exacts [toReal_one, toReal_zero]
      simp [this, frob]
  | append_singleton l x ih =>
    rw [List.length_append, List.length_singleton, pow_succ] at hn ⊢
    have hgn : g ^ l.length ≤ 2 := (le_mul_of_one_le_right (by positivity) hg).trans hn
    obtain ⟨ih1, ih2⟩ := ih (fun y hy => hl y (by simp [hy])) hgn
    obtain ⟨hx1, hx2, hx3⟩ := hl x (by simp)
    have hq : ((l ++ [x]).map Prod.fst).foldl mul one = mul ((l.map Prod.fst).foldl mul one) x.1 := by
      simp only [List.map_append, List.map_cons, List.map_nil, List.foldl_append, List.foldl_cons, List.foldl_nil]
    have hpr : ((l ++ [x]).map Prod.snd).prod = (l.map Prod.snd).prod * x.2 := by simp
    rw [hpr, hq]
    have hP1 : (l.map Prod.snd).prod ∈ Matrix.orthogonalGroup (Fin n) ℝ := by
      refine Submonoid.list_prod_mem _ fun y hy => ?_
      obtain ⟨z, hz, rfl⟩ := List.mem_map.1 hy
      exact (hl z (by simp [hz])).2.1
    obtain ⟨P, hP⟩ : ∃ P, P = (l.map Prod.fst).foldl mul one := ⟨_, rfl⟩
    obtain ⟨P', hP'⟩ : ∃ P', P' = (l.map Prod.snd).prod := ⟨_, rfl⟩
    rw [← hP] at ih1 ih2 ⊢
    rw [← hP'] at ih2 hP1 ⊢
    have e0 := frob_nonneg (P.reM - P')
    have d0 := frob_nonneg (x.1.reM - x.2)
    have hsn : 1 ≤ √(n : ℝ) := Real.one_le_sqrt.2 hnr
    have hss : √(n : ℝ) * √n = n := Real.mul_self_sqrt (by linarith)
    have hg1 : 1 ≤ g ^ l.length := one_le_pow₀ hg
    have hPn : frob P.reM ≤ √n * g ^ l.length := by
      have := frob_sub_le P.reM P'
      rw [frob_of_orth hP1] at this
      nlinarith
    have hxn : frob x.1.reM ≤ √n * (1 + δ) := by
      have := frob_sub_le x.1.reM x.2
      rw [frob_of_orth hx2] at this
      nlinarith
    have hδ2 : 1 + δ ≤ 2 := by nlinarith
    have hfin' : ∀ i j, (mul P x.1 i j).IsFin := by
      refine hfin P x.1 (fun i j => ⟨ih1 i j, ?_⟩) (fun i j => ⟨hx1 i j, ?_⟩)
      · have h1 := frob_entry_le (P.reM - P') i j
        have h2 := orth_entry_le hP1 i j
        have h3 := abs_sub_abs_le_abs_sub (P.reM i j) (P' i j)
        change |P.reM i j| ≤ 2
        rw [Matrix.sub_apply] at h1
        linarith
      · have h1 := frob_entry_le (x.1.reM - x.2) i j
        have h2 := orth_entry_le hx2 i j
        have h3 := abs_sub_abs_le_abs_sub (x.1.reM i j) (x.2 i j)
        change |x.1.reM i j| ≤ 2
        rw [Matrix.sub_apply] at h1
        linarith
    refine ⟨hfin', ?_⟩
    have hE := frob_round (mul P x.1).reM P.reM x.1.reM hγ hε (fun i j => herr P x.1 i j (hfin' i j))
    have hNN : frob P.reM * frob x.1.reM ≤ n * (g ^ l.length * (1 + δ)) := by
      refine (mul_le_mul hPn hxn (frob_nonneg _) (by positivity)).trans (le_of_eq ?_)
      rw [mul_mul_mul_comm, hss]
    have hdec : (mul P x.1).reM - P' * x.2 = ((mul P x.1).reM - P.reM * x.1.reM) +
        (((P.reM - P') * x.2 + (P.reM - P') * (x.1.reM - x.2)) + P' * (x.1.reM - x.2)) := by noncomm_ring
    have n1 : frob (((P.reM - P') * x.2 + (P.reM - P') * (x.1.reM - x.2)) + P' * (x.1.reM - x.2)) ≤
        (g ^ l.length - 1) * (1 + δ) + δ := by
      refine (frob_add_le _ _).trans (add_le_add ((frob_add_le _ _).trans ?_) ((frob_orth_mul hP1 _).le.trans hx3))
      rw [frob_mul_orth hx2, mul_add, mul_one]
      exact add_le_add ih2 ((frob_mul_le _ _).trans (mul_le_mul ih2 hx3 d0 (by linarith)))
    have n2 : frob ((mul P x.1).reM - P.reM * x.1.reM) ≤ K * (g ^ l.length * (1 + δ)) := by
      refine hE.trans ?_
      have a1 := mul_le_mul_of_nonneg_left hNN hγ
      have a3 : 1 ≤ g ^ l.length * (1 + δ) := by nlinarith
      have a4 : n * ε ≤ n * ε * (g ^ l.length * (1 + δ)) := le_mul_of_one_le_right (by positivity) a3
      have a5 := mul_le_mul_of_nonneg_right hK (zero_le_one.trans a3)
      linarith
    rw [hdec]
    refine (frob_add_le _ _).trans ?_
    calc _ ≤ K * (g ^ l.length * (1 + δ)) + ((g ^ l.length - 1) * (1 + δ) + δ) := add_le_add n2 n1
      _ = g ^ l.length * ((1 + δ) * (1 + K)) - 1 := by ring
      _ = _ := by rw [← hge]

/-- The product of `n` float matrices, each within `δ` (in the Frobenius norm) of an orthogonal matrix, is finite and
within `((1 + δ) (1 + 5 u)) ^ n - 1` of the exact product of these orthogonal matrices. -/
theorem C128_M22 (hp : 8 ≤ f.p) (l : List (Mat 2 (Flt f) × Matrix (Fin 2) (Fin 2) ℝ)) {δ : ℝ} (hδ : 0 ≤ δ)
    (hl : ∀ x ∈ l, (∀ i j, (x.1 i j).IsFin) ∧ x.2 ∈ Matrix.orthogonalGroup (Fin 2) ℝ ∧ frob (x.1.reM - x.2) ≤ δ)
    (hn : ((1 + δ) * (1 + 5 * f.u)) ^ l.length ≤ 2) :
    let P := (l.map Prod.fst).foldl M22.mul M22.one
    (∀ i j, (P i j).IsFin) ∧ frob (P.reM - (l.map Prod.snd).prod) ≤ ((1 + δ) * (1 + 5 * f.u)) ^ l.length - 1 := by
  have hu := Fmt.u_le_of_p hp
  have hu0 := f.u_pos
  have hη := eta_small hp
  have hη0 := f.eta_pos
  have hk0 : 1 ≤ (1 + f.u) ^ 2 := one_le_pow₀ (by linarith)
  have hk := kappa2 hp
  refine chain_mat (by norm_num) M22.mul M22.one M22.one_apply (γ := (1 + f.u) ^ 2 - 1) (ε := (1 + f.u) ^ 2 * (2 * f.eta))
    (by linarith) (by positivity) ?_ (fun A B hA hB => ?_) (fun A B i j h => (C93_mul_M22 A B i j h).1) l hδ hl hn
  · have : (1 + f.u) ^ 2 * (2 * f.eta) ≤ 2 * (2 * (f.u / 256)) :=
      mul_le_mul (by linarith) (by linarith) (by positivity) (by norm_num)
    push_cast
    linarith
  · refine ((C103_no_overflow_M22 A B ⟨fun _ => 0⟩ ⟨fun _ => 0⟩ 2 (by norm_num) hA hB (fun _ => ?_) fun _ => ?_).2 ?_).1
    · exact ⟨isFin_zero, by rw [toReal_zero]; norm_num⟩
    · exact ⟨isFin_zero, by rw [toReal_zero]; norm_num⟩
    · have h1 : (2 : ℝ) ^ (9 : ℤ) ≤ (2 : ℝ) ^ (f.emax + 1) :=
        zpow_le_zpow_right₀ (by norm_num) (by have := f.hmax; omega)
      have h2 : (2 : ℝ) ^ (9 : ℤ) = 512 := by norm_num
      linarith

/-- The product of `n` float matrices, each within `δ` (in the Frobenius norm) of an orthogonal matrix, is finite and
within `((1 + δ) (1 + 10 u)) ^ n - 1` of the exact product of these orthogonal matrices. -/
theorem C128_M33 (hp : 8 ≤ f.p) (l : List (Mat 3 (Flt f) × Matrix (Fin 3) (Fin 3) ℝ)) {δ : ℝ} (hδ : 0 ≤ δ)
    (hl : ∀ x ∈ l, (∀ i j, (x.1 i j).IsFin) ∧ x.2 ∈ Matrix.orthogonalGroup (Fin 3) ℝ ∧ frob (x.1.reM - x.2) ≤ δ)
    (hn : ((1 + δ) * (1 + 10 * f.u)) ^ l.length ≤ 2) :
    let P := (l.map Prod.fst).foldl M33.mul M33.one
    (∀ i j, (P i j).IsFin) ∧ frob (P.reM - (l.map Prod.snd).prod) ≤ ((1 + δ) * (1 + 10 * f.u)) ^ l.length - 1 := by
  have hu := Fmt.u_le_of_p hp
  have hu0 := f.u_pos
  have hη := eta_small hp
  have hη0 := f.eta_pos
  have hk0 : 1 ≤ (1 + f.u) ^ 3 := one_le_pow₀ (by linarith)
  have hk := kappa3 hp
  refine chain_mat (by norm_num) M33.mul M33.one M33.one_apply (γ := (1 + f.u) ^ 3 - 1) (ε := (1 + f.u) ^ 3 * (3 * f.eta))
    (by linarith) (by positivity) ?_ (fun A B hA hB => ?_) (fun A B i j h => (C93_mul_M33 A B i j h).1) l hδ hl hn
  · have : (1 + f.u) ^ 3 * (3 * f.eta) ≤ 2 * (3 * (f.u / 256)) :=
      mul_le_mul (by linarith) (by linarith) (by positivity) (by norm_num)
    push_cast
    linarith
  · refine ((C103_no_overflow_M33 A B ⟨fun _ => 0⟩ ⟨fun _ => 0⟩ 2 (by norm_num) hA hB (fun _ => ?_) fun _ => ?_).2 ?_).1
    · exact ⟨isFin_zero, by rw [toReal_zero]; norm_num⟩
    · exact ⟨isFin_zero, by rw [toReal_zero]; norm_num⟩
    · have h1 : (2 : ℝ) ^ (9 : ℤ) ≤ (2 : ℝ) ^ (f.emax + 1) :=
        zpow_le_zpow_right₀ (by norm_num) (by have := f.hmax; omega)
      have h2 : (2 : ℝ) ^ (9 : ℤ) = 512 := by norm_num
      linarith

/-- The product of `n` float matrices, each within `δ` (in the Frobenius norm) of an orthogonal matrix, is finite and
within `((1 + δ) (1 + 17 u)) ^ n - 1` of the exact product of these orthogonal matrices. -/
theorem C128_M44 (hp : 8 ≤ f.p) (l : List (Mat 4 (Flt f) × Matrix (Fin 4) (Fin 4) ℝ)) {δ : ℝ} (hδ : 0 ≤ δ)
    (hl : ∀ x ∈ l, (∀ i j, (x.1 i j).IsFin) ∧ x.2 ∈ Matrix.orthogonalGroup (Fin 4) ℝ ∧ frob (x.1.reM - x.2) ≤ δ)
    (hn : ((1 + δ) * (1 + 17 * f.u)) ^ l.length ≤ 2) :
    let P := (l.map Prod.fst).foldl M44.mul M44.one
    (∀ i j, (P i j).IsFin) ∧ frob (P.reM - (l.map Prod.snd).prod) ≤ ((1 + δ) * (1 + 17 * f.u)) ^ l.length - 1 := by
  have hu := Fmt.u_le_of_p hp
  have hu0 := f.u_pos
  have hη := eta_small hp
  have hη0 := f.eta_pos
  have hk0 : 1 ≤ (1 + f.u) ^ 4 := one_le_pow₀ (by linarith)
  have hk := kappa4 hp
  refine chain_mat (by norm_num) M44.mul M44.one M44.one_apply (γ := (1 + f.u) ^ 4 - 1) (ε := (1 + f.u) ^ 4 * (4 * f.eta))
    (by linarith) (by positivity) ?_ (fun A B hA hB => ?_) (fun A B i j h => (C93_mul_M44 A B i j h).1) l hδ hl hn
  · have : (1 + f.u) ^ 4 * (4 * f.eta) ≤ 2 * (4 * (f.u / 256)) :=
      mul_le_mul (by linarith) (by linarith) (by positivity) (by norm_num)
    push_cast
    linarith
  · refine ((C103_no_overflow_M44 A B ⟨fun _ => 0⟩ ⟨fun _ => 0⟩ 2 (by norm_num) hA hB (fun _ => ?_) fun _ => ?_).2 ?_).1
    · exact ⟨isFin_zero, by rw [toReal_zero]; norm_num⟩
    · exact ⟨isFin_zero, by rw [toReal_zero]; norm_num⟩
    · have h1 : (2 : ℝ) ^ (9 : ℤ) ≤ (2 : ℝ) ^ (f.emax + 1) :=
        zpow_le_zpow_right₀ (by norm_num) (by have := f.hmax; omega)
      have h2 : (2 : ℝ) ^ (9 : ℤ) = 512 := by norm_num
      linarith

/-- The product of `n` float matrices, each within `δ` (in the Frobenius norm) of an orthogonal matrix, is finite and
within `((1 + δ) (1 + 26 u)) ^ n - 1` of the exact product of these orthogonal matrices. -/
theorem C128_M55 (hp : 8 ≤ f.p) (l : List (Mat 5 (Flt f) × Matrix (Fin 5) (Fin 5) ℝ)) {δ : ℝ} (hδ : 0 ≤ δ)
    (hl : ∀ x ∈ l, (∀ i j, (x.1 i j).IsFin) ∧ x.2 ∈ Matrix.orthogonalGroup (Fin 5) ℝ ∧ frob (x.1.reM - x.2) ≤ δ)
    (hn : ((1 + δ) * (1 + 26 * f.u)) ^ l.length ≤ 2) :
    let P := (l.map Prod.fst).foldl M55.mul M55.one
    (∀ i j, (P i j).IsFin) ∧ frob (P.reM - (l.map Prod.snd).prod) ≤ ((1 + δ) * (1 + 26 * f.u)) ^ l.length - 1 := by
  have hu := Fmt.u_le_of_p hp
  have hu0 := f.u_pos
  have hη := eta_small hp
  have hη0 := f.eta_pos
  have hk0 : 1 ≤ (1 + f.u) ^ 5 := one_le_pow₀ (by linarith)
  have hk := kappa5 hp
  refine chain_mat (by norm_num) M55.mul M55.one M55.one_apply (γ := (1 + f.u) ^ 5 - 1) (ε := (1 + f.u) ^ 5 * (5 * f.eta))
    (by linarith) (by positivity) ?_ (fun A B hA hB => ?_) (fun A B i j h => (C93_mul_M55 A B i j h).1) l hδ hl hn
  · have : (1 + f.u) ^ 5 * (5 * f.eta) ≤ 2 * (5 * (f.u / 256)) :=
      mul_le_mul (by linarith) (by linarith) (by positivity) (by norm_num)
    push_cast
    linarith
  · refine ((C103_no_overflow_M55 A B ⟨fun _ => 0⟩ ⟨fun _ => 0⟩ 2 (by norm_num) hA hB (fun _ => ?_) fun _ => ?_).2 ?_).1
    · exact ⟨isFin_zero, by rw [toReal_zero]; norm_num⟩
    · exact ⟨isFin_zero, by rw [toReal_zero]; norm_num⟩
    · have h1 : (2 : ℝ) ^ (9 : ℤ) ≤ (2 : ℝ) ^ (f.emax + 1) :=
        zpow_le_zpow_right₀ (by norm_num) (by have := f.hmax; omega)
      have h2 : (2 : ℝ) ^ (9 : ℤ) = 512 := by norm_num
      linarith

/-- The product of `n` float matrices, each within `δ` (in the Frobenius norm) of an orthogonal matrix, is finite and
within `((1 + δ) (1 + 37 u)) ^ n - 1` of the exact product of these orthogonal matrices. -/
theorem C128_M66 (hp : 8 ≤ f.p) (l : List (Mat 6 (Flt f) × Matrix (Fin 6) (Fin 6) ℝ)) {δ : ℝ} (hδ : 0 ≤ δ)
    (hl : ∀ x ∈ l, (∀ i j, (x.1 i j).IsFin) ∧ x.2 ∈ Matrix.orthogonalGroup (Fin 6) ℝ ∧ frob (x.1.reM - x.2) ≤ δ)
    (hn : ((1 + δ) * (1 + 37 * f.u)) ^ l.length ≤ 2) :
    let P := (l.map Prod.fst).foldl M66.mul M66.one
    (∀ i j, (P i j).IsFin) ∧ frob (P.reM - (l.map Prod.snd).prod) ≤ ((1 + δ) * (1 + 37 * f.u)) ^ l.length - 1 := by
  have hu := Fmt.u_le_of_p hp
  have hu0 := f.u_pos
  have hη := eta_small hp
  have hη0 := f.eta_pos
  have hk0 : 1 ≤ (1 + f.u) ^ 6 := one_le_pow₀ (by linarith)
  have hk := kappa6 hp
  refine chain_mat (by norm_num) M66.mul M66.one M66.one_apply (γ := (1 + f.u) ^ 6 - 1) (ε := (1 + f.u) ^ 6 * (6 * f.eta))
    (by linarith) (by positivity) ?_ (fun A B hA hB => ?_) (fun A B i j h => (C93_mul_M66 A B i j h).1) l hδ hl hn
  · have : (1 + f.u) ^ 6 * (6 * f.eta) ≤ 2 * (6 * (f.u / 256)) :=
      mul_le_mul (by linarith) (by linarith) (by positivity) (by norm_num)
    push_cast
    linarith
  · refine ((C103_no_overflow_M66 A B ⟨fun _ => 0⟩ ⟨fun _ => 0⟩ 2 (by norm_num) hA hB (fun _ => ?_) fun _ => ?_).2 ?_).1
    · exact ⟨isFin_zero, by rw [toReal_zero]; norm_num⟩
    · exact ⟨isFin_zero, by rw [toReal_zero]; norm_num⟩
    · have h1 : (2 : ℝ) ^ (9 : ℤ) ≤ (2 : ℝ) ^ (f.emax + 1) :=
        zpow_le_zpow_right₀ (by norm_num) (by have := f.hmax; omega)
      have h2 : (2 : ℝ) ^ (9 : ℤ) = 512 := by norm_num
      linarith

private theorem pow_bound {x c : ℝ} (hx : 0 ≤ x) (n : ℕ) (h : n * x ≤ 1) (hc : 2 * (n * x) ≤ c) :
    ((1 + 0) * (1 + x)) ^ n - 1 ≤ c := by
  have h3 : (1 + x) ^ n ≤ Real.exp (n * x) := by
    have := pow_le_pow_left₀ (by linarith) (by linarith [Real.add_one_le_exp x] : 1 + x ≤ Real.exp x) n
    rwa [← Real.exp_nat_mul] at this
  have h0 : 0 ≤ n * x := by positivity
  have h4 := (abs_le.1 (Real.abs_exp_sub_one_le (x := n * x) (by rwa [abs_of_nonneg h0]))).2
  rw [abs_of_nonneg h0] at h4
  rw [add_zero, one_mul]
  linarith

/-! ## Concrete cases: a thousand turns by 120 degrees in double precision -/

example : ∃ q : ℍ[ℝ], ‖q‖ = 1 ∧
    ‖((List.replicate 1000 (⟨1 / (1 + 1), ⟨fun _ => 1 / (1 + 1)⟩, true⟩ : Quat (Flt Fmt.f64))).foldl Quat.mul Quat.one).reH
      - q ^ 1000‖ ≤ 2 ^ (-38 : ℤ) := by
  have hu : Fmt.f64.u = (2 : ℝ) ^ (-53 : ℤ) := rfl
  have hh := Near.half (f := Fmt.f64)
  have hv : ((1 : Flt Fmt.f64) / (1 + 1)).toReal = 1 / 2 := by
    have := abs_nonpos_iff.1 hh.err
    linarith
  have hq : (⟨1 / (1 + 1), ⟨fun _ => 1 / (1 + 1)⟩, true⟩ : Quat (Flt Fmt.f64)).reH = ⟨1 / 2, 1 / 2, 1 / 2, 1 / 2⟩ := by
    ext <;> exact hv
  obtain ⟨w, hw⟩ : ∃ w : ℍ[ℝ], w = ⟨1 / 2, 1 / 2, 1 / 2, 1 / 2⟩ := ⟨_, rfl⟩
  rw [← hw] at hq
  have h1 : ‖w‖ = 1 := by
    have : ‖w‖ ^ 2 = 1 := by
      rw [sq, ← Quaternion.normSq_eq_norm_mul_self, Quaternion.normSq_def', hw]
      norm_num
    exact (pow_eq_one_iff_of_nonneg (norm_nonneg _) two_ne_zero).1 this
  have hb : ((1 + 0) * (1 + 9 * Fmt.f64.u)) ^ 1000 - 1 ≤ (2 : ℝ) ^ (-38 : ℤ) := by
    refine pow_bound (by rw [hu]; norm_num) 1000 ?_ ?_ <;> rw [hu] <;> norm_num
  refine ⟨w, h1, ?_⟩
  have h := (C128_quaternions (f := Fmt.f64) (by decide) (List.replicate 1000
    ((⟨1 / (1 + 1), ⟨fun _ => 1 / (1 + 1)⟩, true⟩ : Quat (Flt Fmt.f64)), w)) le_rfl
    (fun x hx => by
      rw [List.eq_of_mem_replicate hx]
      refine ⟨fun i => ?_, h1, ?_⟩
      · fin_cases i
        exacts [hh.fin, hh.fin, hh.fin, hh.fin]
      · rw [hq, sub_self, norm_zero])
    (by
      rw [List.length_replicate]
      exact (sub_le_iff_le_add.1 hb).trans (by norm_num))).2
  rw [List.length_replicate, List.map_replicate, List.map_replicate, List.prod_replicate] at h
  exact h.trans hb

example :
    frob (((List.replicate 1000 (⟨![![0, 0, 1], ![1, 0, 0], ![0, 1, 0]]⟩ : Mat 3 (Flt Fmt.f64))).foldl M33.mul M33.one).reM
      - !![0, 0, 1; 1, 0, 0; 0, 1, 0] ^ 1000) ≤ 2 ^ (-38 : ℤ) := by
  have hu : Fmt.f64.u = (2 : ℝ) ^ (-53 : ℤ) := rfl
  have hq : (⟨![![0, 0, 1], ![1, 0, 0], ![0, 1, 0]]⟩ : Mat 3 (Flt Fmt.f64)).reM = !![0, 0, 1; 1, 0, 0; 0, 1, 0] := by
    ext i j
    fin_cases i <;> fin_cases j <;> first | exact (toReal_one (f := Fmt.f64)) | exact (toReal_zero (f := Fmt.f64))
  have h1 : !![(0 : ℝ), 0, 1; 1, 0, 0; 0, 1, 0] ∈ Matrix.orthogonalGroup (Fin 3) ℝ := by
    rw [Matrix.mem_orthogonalGroup_iff]
    ext i j
    fin_cases i <;> fin_cases j <;> simp [Matrix.mul_apply, Fin.sum_univ_three]
  have hb : ((1 + 0) * (1 + 10 * Fmt.f64.u)) ^ 1000 - 1 ≤ (2 : ℝ) ^ (-38 : ℤ) := by
    refine pow_bound (by rw [hu]; norm_num) 1000 ?_ ?_ <;> rw [hu] <;> norm_num
  have h := (C128_M33 (f := Fmt.f64) (by decide) (List.replicate 1000
    ((⟨![![0, 0, 1], ![1, 0, 0], ![0, 1, 0]]⟩ : Mat 3 (Flt Fmt.f64)), !![(0 : ℝ), 0, 1; 1, 0, 0; 0, 1, 0])) le_rfl
    (fun x hx => by
      rw [List.eq_of_mem_replicate hx]
      refine ⟨fun i j => ?_, h1, ?_⟩
      · fin_cases i <;> fin_cases j <;> first | exact isFin_one | exact isFin_zero
      · rw [hq, sub_self]
        simp [frob])
    (by
      rw [List.length_replicate]
      exact (sub_le_iff_le_add.1 hb).trans (by norm_num))).2
  rw [List.length_replicate, List.map_replicate, List.map_replicate, List.prod_replicate] at h
  exact h.trans hb

end StaticMath
