import Verif.Props.IeeeMatNorm
import Verif.Props.IeeePose
import Verif.Lemmas.Resid

/-!
# C155: the distance to the rotations, `distance_to_manifold`, in floating point
-/

namespace StaticMath
open Flt

variable {f : Fmt}

private theorem dist_of_fin [Libm f] {A : Mat 3 (Flt f)} (h : (distance_to_manifold A).IsFin) :
    ROrd.lt 0 (M33.det A) = true ∧
      distance_to_manifold A = M33.norm2 (M33.sub (M33.mul A (M33.transpose A)) M33.one) := by
  unfold distance_to_manifold at *
  by_cases hd : ROrd.lt 0 (M33.det A) = true
  · exact ⟨hd, if_pos hd⟩
  · rw [if_neg hd] at h
    exact absurd h id

private theorem one_val (i j : Fin 3) : ((M33.one : Mat 3 (Flt f)) i j).IsFin ∧
    ((M33.one : Mat 3 (Flt f)) i j).toReal = (1 : Matrix (Fin 3) (Fin 3) ℝ) i j := by
  fin_cases i <;> fin_cases j <;> first | exact ⟨isFin_one, toReal_one⟩ | exact ⟨isFin_zero, toReal_zero⟩

/-- The gap `A Aᵀ - 1` as computed. -/
private theorem gap_err {A : Mat 3 (Flt f)} (h : ∀ i j, (M33.sub (M33.mul A (M33.transpose A)) M33.one i j).IsFin) :
    frob ((M33.sub (M33.mul A (M33.transpose A)) M33.one).reM - (A.reM * A.reM.transpose - 1)) ≤
      f.u * frob (A.reM * A.reM.transpose - 1) +
      (1 + f.u) * (((1 + f.u) ^ 3 - 1) * frob A.reM ^ 2 + 9 * ((1 + f.u) ^ 3 * f.eta)) := by
  have hu := f.u_pos
  have hη := f.eta_pos
  have hp1 : (1 : ℝ) ≤ (1 + f.u) ^ 3 := one_le_pow₀ (by linarith)
  have hmf (i j : Fin 3) : (M33.mul A (M33.transpose A) i j).IsFin := by
    have := h i j
    rw [M33.sub_apply] at this
    exact (isFin_of_sub this).1
  have h1 : frob ((M33.mul A (M33.transpose A)).reM - A.reM * A.reM.transpose) ≤
      ((1 + f.u) ^ 3 - 1) * (frob A.reM * frob A.reM.transpose) + (3 : ℕ) * ((1 + f.u) ^ 3 * (3 * f.eta)) := by
    refine frob_round _ _ _ (by linarith) (by positivity) fun i j => ?_
    have := (C93_mul_M33 A (M33.transpose A) i j (hmf i j)).1
    simp only [M33.transpose_apply] at this
    exact this
  rw [frob_transpose, ← sq] at h1
  have h2 : frob ((M33.sub (M33.mul A (M33.transpose A)) M33.one).reM - ((M33.mul A (M33.transpose A)).reM - 1)) ≤
      f.u * frob ((M33.mul A (M33.transpose A)).reM - 1) := by
    rw [← frob_abs ((M33.mul A (M33.transpose A)).reM - 1), ← frob_smul' _ hu.le]
    refine frob_le_of_le fun i j => ?_
    have h3 := h i j
    rw [M33.sub_apply] at h3
    have h4 := sub_rel h3
    rw [(one_val i j).2] at h4
    have e : (M33.sub (M33.mul A (M33.transpose A)) M33.one).reM i j =
        (M33.mul A (M33.transpose A) i j - (M33.one : Mat 3 (Flt f)) i j).toReal := by rw [← M33.sub_apply]; rfl
    simp only [Matrix.sub_apply, Matrix.smul_apply, Matrix.of_apply, smul_eq_mul]
    rw [e]
    exact h4
  have h3 := frob_sub_le ((M33.mul A (M33.transpose A)).reM - 1) (A.reM * A.reM.transpose - 1)
  rw [sub_sub_sub_cancel_right] at h3
  have h5 := frob_add_le ((M33.sub (M33.mul A (M33.transpose A)) M33.one).reM - ((M33.mul A (M33.transpose A)).reM - 1))
    ((M33.mul A (M33.transpose A)).reM - A.reM * A.reM.transpose)
  have e5 : (M33.sub (M33.mul A (M33.transpose A)) M33.one).reM - ((M33.mul A (M33.transpose A)).reM - 1) +
      ((M33.mul A (M33.transpose A)).reM - A.reM * A.reM.transpose) =
      (M33.sub (M33.mul A (M33.transpose A)) M33.one).reM - (A.reM * A.reM.transpose - 1) := by abel
  rw [e5] at h5
  have h6 := mul_le_mul_of_nonneg_left h3 hu.le
  have h7 := mul_le_mul_of_nonneg_left h1 hu.le
  push_cast at h1 h7
  generalize (1 + f.u) ^ 3 = p at *
  nlinarith

private theorem norm_entries [Libm f] {A : Mat 3 (Flt f)} (h : (M33.norm2 A).IsFin) (i j : Fin 3) : (A i j).IsFin := by
  obtain ⟨r, hr, k, l, hpm, e⟩ := M33.norm2_order A
  rw [hr] at h
  have h2 := isFin_of_sqrt h
  rw [e] at h2
  obtain ⟨h3, h4⟩ := isFin_of_foldl _ _ _ h2
  obtain ⟨m, hm⟩ : ∃ m : Fin (3 * 3), A m.modNat m.divNat = A i j := by
    fin_cases i <;> fin_cases j
    exacts [⟨0, rfl⟩, ⟨3, rfl⟩, ⟨6, rfl⟩, ⟨1, rfl⟩, ⟨4, rfl⟩, ⟨7, rfl⟩, ⟨2, rfl⟩, ⟨5, rfl⟩, ⟨8, rfl⟩]
  rw [← hm]
  have hmem : m ∈ k :: l := hpm.mem_iff.2 (List.mem_finRange m)
  rcases List.mem_cons.1 hmem with rfl | hmem
  · exact (isFin_of_mul h3).1
  · exact (isFin_of_mul (h4 m hmem)).1

private theorem pos_of_lt {a : Flt f} (h : ROrd.lt 0 a = true) : a = inf false ∨ 0 < a.toReal := by
  rcases a with _ | s | ⟨s, x, hx⟩
  · exact absurd h Bool.false_ne_true
  · cases s
    · exact .inl rfl
    · exact absurd h Bool.false_ne_true
  · right
    have := (lt_iff (a := (0 : Flt f)) (b := fin s x hx) isFin_zero trivial).1 h
    rwa [toReal_zero] at this

private theorem frob_sub_comm {n : ℕ} (M N : Matrix (Fin n) (Fin n) ℝ) : frob (M - N) = frob (N - M) := by
  unfold frob
  congr 1
  exact Finset.sum_congr rfl fun i _ => Finset.sum_congr rfl fun j _ => by rw [Matrix.sub_apply, Matrix.sub_apply]; ring

/-- A finite `distance_to_manifold` is the Frobenius norm of `A Aᵀ - 1` up to relative rounding and an absolute term that is
proportional to the squared norm of `A`; its computed determinant was positive. -/
theorem C155_distance [Libm f] (hp : 8 ≤ f.p) (A : Mat 3 (Flt f)) (h : (distance_to_manifold A).IsFin) :
    (∀ i j, (A i j).IsFin) ∧ (M33.det A = inf false ∨ 0 < (M33.det A).toReal) ∧ 0 ≤ (distance_to_manifold A).toReal ∧
    |(distance_to_manifold A).toReal -
        √(∑ i, ∑ j, ((∑ k, (A i k).toReal * (A j k).toReal) - if i = j then 1 else 0) ^ 2)| ≤
      ((1 + f.u) ^ 11 - 1) * √(∑ i, ∑ j, ((∑ k, (A i k).toReal * (A j k).toReal) - if i = j then 1 else 0) ^ 2) +
      (1 + f.u) ^ 11 * (((1 + f.u) ^ 3 - 1) * (∑ i, ∑ j, (A i j).toReal ^ 2) + 9 * ((1 + f.u) ^ 3 * f.eta)) +
      (1 + f.u) * √((1 + f.u) ^ 9 * (9 * f.eta)) := by
  obtain ⟨hd, e⟩ := dist_of_fin h
  rw [e] at h ⊢
  have hu := f.u_pos
  have hG := norm_entries h
  have hA (i j : Fin 3) : (A i j).IsFin := by
    have h1 := hG i i
    rw [M33.sub_apply] at h1
    have h2 := (isFin_of_sub h1).1
    obtain ⟨k, l, hpm, hr⟩ := M33.mul_order A (M33.transpose A) i i
    rw [hr] at h2
    obtain ⟨h3, h4⟩ := isFin_of_foldl _ _ _ h2
    have hm : j ∈ k :: l := hpm.mem_iff.2 (List.mem_finRange j)
    rcases List.mem_cons.1 hm with rfl | hm
    · exact (isFin_of_mul h3).1
    · exact (isFin_of_mul (h4 j hm)).1
  obtain ⟨n0, n1⟩ := C154_norm2_M33 hp _ h
  refine ⟨hA, pos_of_lt hd, n0, ?_⟩
  have hg := gap_err hG
  have eF : frob A.reM ^ 2 = ∑ i, ∑ j, (A i j).toReal ^ 2 :=
    Real.sq_sqrt (Finset.sum_nonneg fun i _ => Finset.sum_nonneg fun j _ => sq_nonneg _)
  have eD : √(∑ i, ∑ j, ((∑ k, (A i k).toReal * (A j k).toReal) - if i = j then 1 else 0) ^ 2) =
      frob (A.reM * A.reM.transpose - 1) := by
    simp only [frob, Matrix.sub_apply, Matrix.mul_apply, Matrix.one_apply, Matrix.transpose_apply, Mat.reM, Matrix.of_apply]
  rw [eD, ← eF]
  have eG : √(∑ i, ∑ j, ((M33.sub (M33.mul A (M33.transpose A)) M33.one) i j).toReal ^ 2) =
      frob (M33.sub (M33.mul A (M33.transpose A)) M33.one).reM := rfl
  rw [eG] at n1
  have t1 := frob_sub_le (M33.sub (M33.mul A (M33.transpose A)) M33.one).reM (A.reM * A.reM.transpose - 1)
  have t2 := frob_sub_le (A.reM * A.reM.transpose - 1) (M33.sub (M33.mul A (M33.transpose A)) M33.one).reM
  rw [frob_sub_comm (A.reM * A.reM.transpose - 1)] at t2
  have hq : (1 + f.u) ^ 11 = (1 + f.u) ^ 10 * (1 + f.u) := pow_succ _ _
  have hq1 : (1 : ℝ) ≤ (1 + f.u) ^ 10 := one_le_pow₀ (by linarith)
  have hE0 : 0 ≤ ((1 + f.u) ^ 3 - 1) * frob A.reM ^ 2 + 9 * ((1 + f.u) ^ 3 * f.eta) := by
    have hp1 : (1 : ℝ) ≤ (1 + f.u) ^ 3 := one_le_pow₀ (by linarith)
    have := f.eta_pos
    have : 0 ≤ (1 + f.u) ^ 3 - 1 := by linarith
    positivity
  have hd0 := frob_nonneg (A.reM * A.reM.transpose - 1)
  rw [hq]
  generalize (1 + f.u) ^ 10 = q at *
  generalize ((1 + f.u) ^ 3 - 1) * frob A.reM ^ 2 + 9 * ((1 + f.u) ^ 3 * f.eta) = E at *
  generalize frob (A.reM * A.reM.transpose - 1) = d at *
  generalize frob ((M33.sub (M33.mul A (M33.transpose A)) M33.one).reM - (A.reM * A.reM.transpose - 1)) = g at *
  generalize frob (M33.sub (M33.mul A (M33.transpose A)) M33.one).reM = D at *
  generalize (1 + f.u) * √((1 + f.u) ^ 9 * (9 * f.eta)) = τ at *
  obtain ⟨l1, l2⟩ := _root_.abs_le.1 n1
  have k1 : (q - 1) * D ≤ (q - 1) * (d + (f.u * d + (1 + f.u) * E)) := mul_le_mul_of_nonneg_left (by linarith) (by linarith)
  rw [_root_.abs_le]
  constructor <;> nlinarith

private theorem perm3_le (A : Fin 3 → Fin 3 → ℝ) {c : ℝ} (h : ∀ i j, |A i j| ≤ c) : (Matrix.of fun i j => |A i j|).permanent ≤ 6 * c ^ 3 := by
  rw [Matrix.permanent]
  have key (σ : Equiv.Perm (Fin 3)) : ∏ i, (Matrix.of fun i j => |A i j|) (σ i) i ≤ c ^ 3 := by
    refine (Finset.prod_le_prod (fun _ _ => abs_nonneg _) fun j _ => h (σ j) j).trans ?_
    simp
  refine (Finset.sum_le_sum fun σ _ => key σ).trans ?_
  rw [Finset.sum_const, Finset.card_univ, Fintype.card_perm, Fintype.card_fin, nsmul_eq_mul]
  norm_num [Nat.factorial]

private theorem tau_le (hp : 16 ≤ f.p) : (1 + f.u) * √((1 + f.u) ^ 9 * (9 * f.eta)) ≤ 33 / 10 * f.u := by
  have hu0 := f.u_pos
  have hu := Fmt.u_le_16 hp
  have hη := f.eta_pos
  have hη2 : f.eta ≤ f.u * f.u := f.eta_le_sq
  obtain ⟨-, p9'⟩ := Fmt.pow_u_le hp (m := 9) (by norm_num)
  have h1 : √((1 + f.u) ^ 9 * (9 * f.eta)) ≤ 32 / 10 * f.u := by
    rw [Real.sqrt_le_left (by positivity)]
    have h2 := mul_le_mul p9' (show 9 * f.eta ≤ 9 * (f.u * f.u) by linarith) (by positivity) (by norm_num)
    have h3 : 0 ≤ f.u * f.u := by positivity
    generalize (1 + f.u) ^ 9 = g at *
    have e : (32 / 10 * f.u) ^ 2 = 1024 / 100 * (f.u * f.u) := by ring
    rw [e]
    linarith
  have := mul_le_mul (show 1 + f.u ≤ 1001 / 1000 by linarith) h1 (Real.sqrt_nonneg _) (by norm_num)
  linarith

set_option maxHeartbeats 400000 in
/-- A float matrix within `ε` of a rotation gets a finite distance of at most `2.01 ε` and a few roundings. -/
theorem C155_near [Libm f] (hp : 16 ≤ f.p) (A : Mat 3 (Flt f)) (hA : ∀ i j, (A i j).IsFin) (Q : Matrix (Fin 3) (Fin 3) ℝ)
    (hQ : Q ∈ Matrix.orthogonalGroup (Fin 3) ℝ) (hQ1 : Q.det = 1) {ε : ℝ}
    (hε : √(∑ i, ∑ j, ((A i j).toReal - Q i j) ^ 2) ≤ ε) (hε1 : ε ≤ 1 / 1000) :
    (distance_to_manifold A).IsFin ∧ (distance_to_manifold A).toReal ≤ 201 / 100 * ε + 13 * f.u := by
  have hu0 := f.u_pos
  have hu := Fmt.u_le_16 hp
  have hη := f.eta_pos
  have hη2 : f.eta ≤ f.u * f.u := f.eta_le_sq
  have hη3 : f.eta ≤ f.u / 65536 := by
    have := mul_le_mul_of_nonneg_left hu hu0.le
    linarith
  replace hε : frob (A.reM - Q) ≤ ε := hε
  have hε0 : 0 ≤ ε := (frob_nonneg _).trans hε
  have hQe (i j : Fin 3) : |Q i j| ≤ 1 := by
    have h := congrFun (congrFun ((Matrix.mem_orthogonalGroup_iff (Fin 3) ℝ).1 hQ) i) i
    rw [Matrix.mul_apply, Matrix.one_apply_eq] at h
    have hs : Q i j * Q i j ≤ ∑ k, Q i k * Q.transpose k i :=
      Finset.single_le_sum (f := fun k => Q i k * Q.transpose k i) (fun k _ => mul_self_nonneg (Q i k)) (Finset.mem_univ j)
    exact abs_le_one_iff_mul_self_le_one.2 (hs.trans_eq h)
  have hAQ (i j : Fin 3) : |A.reM i j - Q i j| ≤ ε := (frob_entry_le (A.reM - Q) i j).trans hε
  have hAe (i j : Fin 3) : |(A i j).toReal| ≤ 1 + ε := by
    have h1 := hAQ i j
    have h2 := abs_sub_abs_le_abs_sub (A.reM i j) (Q i j)
    have h3 := hQe i j
    change |A.reM i j| ≤ _
    linarith
  have h2e : (2 : ℝ) ^ (17 : ℤ) ≤ 2 ^ (f.emax + 1) := by
    have := f.hmax
    exact zpow_le_zpow_right₀ (by norm_num) (by omega)
  norm_num at h2e
  obtain ⟨p5, p5'⟩ := Fmt.pow_u_le hp (m := 5) (by norm_num)
  obtain ⟨p3, p3'⟩ := Fmt.pow_u_le hp (m := 3) (by norm_num)
  obtain ⟨p9, p9'⟩ := Fmt.pow_u_le hp (m := 9) (by norm_num)
  obtain ⟨p11, p11'⟩ := Fmt.pow_u_le hp (m := 11) (by norm_num)
  have q3 : (1 : ℝ) ≤ (1 + f.u) ^ 3 := one_le_pow₀ (by linarith)
  have hB (i j : Fin 3) : (A i j).FinLe 2 := ⟨hA i j, (hAe i j).trans (by linarith)⟩
  have hT (i j : Fin 3) : (M33.transpose A i j).FinLe 2 := by rw [M33.transpose_apply]; exact hB j i
  have hz : ∀ k, ((⟨fun _ => 0⟩ : Vec 3 (Flt f)) k).FinLe 2 := fun _ => ⟨isFin_zero, by rw [toReal_zero, abs_zero]; norm_num⟩
  obtain ⟨c1, c2⟩ := C103_no_overflow_M33 A (M33.transpose A) ⟨fun _ => 0⟩ ⟨fun _ => 0⟩ 2 (by norm_num) hB hT hz hz
  have hdf := c1 (by norm_num; linarith)
  have hmf := (c2 (by norm_num; linarith)).1
  have hdet : 0 < (M33.det A).toReal := by
    have h1 := C102_det_M33 A 2 (fun i j => (hB i j).2) hdf
    have h2 := det3_near (R := Q) (S := A.reM) hQe hAQ hε1
    rw [hQ1] at h2
    have h3 : (Matrix.of fun i j => |(A i j).toReal|).permanent ≤ 6 * (1 + ε) ^ 3 := perm3_le _ hAe
    have h4 : (1 + ε) ^ 3 ≤ (1 + 1 / 1000) ^ 3 := pow_le_pow_left₀ (by linarith) (by linarith) 3
    have h5 : ((1 + f.u) ^ 5 - 1) * (Matrix.of fun i j => |(A i j).toReal|).permanent ≤ 1012 / 1000 * (5 * f.u) * 7 := by
      have h0 : 0 ≤ (Matrix.of fun i j => |(A i j).toReal|).permanent :=
        Finset.sum_nonneg fun σ _ => Finset.prod_nonneg fun i _ => abs_nonneg _
      push_cast at p5
      refine mul_le_mul p5 ?_ h0 (by positivity)
      norm_num at h4
      linarith
    have h6 : (1 + f.u) ^ 5 * (f.eta * (3 + 6 * 2)) ≤ 11 / 10 * (f.eta * 15) := by
      refine mul_le_mul p5' (by linarith) (by positivity) (by norm_num)
    have h7 := (_root_.abs_le.1 h1).1
    have h8 := (_root_.abs_le.1 h2).1
    change -_ ≤ A.reM.det - 1 at h8
    change -_ ≤ _ - A.reM.det at h7
    generalize (1 + f.u) ^ 5 = g at *
    linarith
  have hlt : ROrd.lt 0 (M33.det A) = true := (lt_iff isFin_zero hdf).2 (by rwa [toReal_zero])
  have e : distance_to_manifold A = M33.norm2 (M33.sub (M33.mul A (M33.transpose A)) M33.one) := if_pos hlt
  have hF : frob A.reM ≤ 1734 / 1000 := by
    have h1 := frob_sub_le A.reM Q
    rw [frob_of_orth hQ] at h1
    have h3 : √((3 : ℕ) : ℝ) ≤ 1733 / 1000 := Real.sqrt_le_iff.2 ⟨by norm_num, by norm_num⟩
    generalize √((3 : ℕ) : ℝ) = s at h1 h3
    linarith
  have hF2 : frob A.reM ^ 2 ≤ 3007 / 1000 := by
    have := pow_le_pow_left₀ (frob_nonneg _) hF 2
    norm_num at this
    linarith
  have hd : frob (A.reM * A.reM.transpose - 1) ≤ 2001 / 1000 * ε := by
    have e1 : A.reM * A.reM.transpose - 1 = (A.reM - Q) * (A.reM - Q).transpose + (A.reM - Q) * Q.transpose + Q * (A.reM - Q).transpose := by
      have := (Matrix.mem_orthogonalGroup_iff (Fin 3) ℝ).1 hQ
      change Q * Q.transpose = 1 at this
      rw [← this, Matrix.transpose_sub]
      noncomm_ring
    have hQt : Q.transpose ∈ Matrix.orthogonalGroup (Fin 3) ℝ := by
      rw [Matrix.mem_orthogonalGroup_iff]
      exact (Matrix.mem_orthogonalGroup_iff' (Fin 3) ℝ).1 hQ
    have h1 := frob_add_le ((A.reM - Q) * (A.reM - Q).transpose + (A.reM - Q) * Q.transpose) (Q * (A.reM - Q).transpose)
    have h2 := frob_add_le ((A.reM - Q) * (A.reM - Q).transpose) ((A.reM - Q) * Q.transpose)
    have h3 := frob_mul_le (A.reM - Q) (A.reM - Q).transpose
    rw [frob_orth_mul hQ, frob_transpose] at h1
    rw [frob_mul_orth hQt] at h2
    rw [frob_transpose] at h3
    rw [e1]
    have h4 : frob (A.reM - Q) * frob (A.reM - Q) ≤ 1 / 1000 * ε :=
      mul_le_mul (hε.trans hε1) hε (frob_nonneg _) (by norm_num)
    linarith
  have hGf (i j : Fin 3) : (M33.sub (M33.mul A (M33.transpose A)) M33.one i j).IsFin := by
    rw [M33.sub_apply]
    refine sub_isFin (hmf i j) (one_val i j).1 ?_
    rw [(one_val i j).2]
    have h1 := (C93_mul_M33 A (M33.transpose A) i j (hmf i j)).1
    have h2 : ∑ k, |(A i k).toReal * (M33.transpose A k j).toReal| ≤ 12 := by
      refine (Finset.sum_le_sum (g := fun _ => (4 : ℝ)) fun k _ => ?_).trans (by norm_num)
      rw [abs_mul]
      calc _ ≤ (2 : ℝ) * 2 := mul_le_mul (hB i k).2 (hT k j).2 (abs_nonneg _) (by norm_num)
        _ = 4 := by norm_num
    have h3 := Finset.abs_sum_le_sum_abs (fun k => (A i k).toReal * (M33.transpose A k j).toReal) Finset.univ
    have h4 : |(1 : Matrix (Fin 3) (Fin 3) ℝ) i j| ≤ 1 := by
      rw [Matrix.one_apply]
      split <;> norm_num
    have h5 : ((1 + f.u) ^ 3 - 1) * ∑ k, |(A i k).toReal * (M33.transpose A k j).toReal| ≤ 1 / 10 * 12 :=
      mul_le_mul (by linarith) h2 (Finset.sum_nonneg fun _ _ => abs_nonneg _) (by norm_num)
    have h6 : (1 + f.u) ^ 3 * (3 * f.eta) ≤ 11 / 10 * (3 * f.eta) := mul_le_mul_of_nonneg_right p3' (by positivity)
    have h7 := abs_sub_abs_le_abs_sub (M33.mul A (M33.transpose A) i j).toReal (∑ k, (A i k).toReal * (M33.transpose A k j).toReal)
    have h8 := abs_sub (M33.mul A (M33.transpose A) i j).toReal ((1 : Matrix (Fin 3) (Fin 3) ℝ) i j)
    generalize (1 + f.u) ^ 3 = g at *
    have h9 : |(M33.mul A (M33.transpose A) i j).toReal - (1 : Matrix (Fin 3) (Fin 3) ℝ) i j| ≤ 16 := by linarith
    have := mul_le_mul (show 1 + f.u ≤ 2 by linarith) h9 (abs_nonneg _) (by norm_num)
    linarith
  have hg := gap_err hGf
  push_cast at p3 p11
  have p11'' : (1 + f.u) ^ 11 ≤ 1001 / 1000 := by linarith
  have hE : ((1 + f.u) ^ 3 - 1) * frob A.reM ^ 2 + 9 * ((1 + f.u) ^ 3 * f.eta) ≤ 914 / 100 * f.u := by
    have h1 : ((1 + f.u) ^ 3 - 1) * frob A.reM ^ 2 ≤ 1012 / 1000 * (3 * f.u) * (3007 / 1000) :=
      mul_le_mul p3 hF2 (sq_nonneg _) (by positivity)
    have h2 := mul_le_mul_of_nonneg_right p3' hη.le
    linarith
  have hE0 : 0 ≤ ((1 + f.u) ^ 3 - 1) * frob A.reM ^ 2 + 9 * ((1 + f.u) ^ 3 * f.eta) := by
    have : 0 ≤ (1 + f.u) ^ 3 - 1 := by linarith
    positivity
  have hd0 := frob_nonneg (A.reM * A.reM.transpose - 1)
  have hGn : frob (M33.sub (M33.mul A (M33.transpose A)) M33.one).reM ≤ 2 := by
    have h1 := frob_sub_le (M33.sub (M33.mul A (M33.transpose A)) M33.one).reM (A.reM * A.reM.transpose - 1)
    have h2 := mul_le_mul_of_nonneg_left hd hu0.le
    have h3 := mul_le_mul (show 1 + f.u ≤ 2 by linarith) hE hE0 (by norm_num)
    have h4 : f.u * (2001 / 1000 * ε) ≤ 1 * (2001 / 1000 * ε) := mul_le_mul_of_nonneg_right (by linarith) (by positivity)
    linarith
  have hN := C154_norm2_no_overflow_M33 (M33.sub (M33.mul A (M33.transpose A)) M33.one) 2
    (fun i j => ⟨hGf i j, (frob_entry_le _ i j).trans hGn⟩) (by
      have h1 : 9 * ((1 + f.u) * 2 ^ 2 + f.eta) ≤ 9 * (2 * 2 ^ 2 + 1) := by nlinarith
      have h2 := mul_le_mul p9' h1 (by positivity) (by norm_num)
      linarith)
  have hdist : (distance_to_manifold A).IsFin := e ▸ hN
  refine ⟨hdist, ?_⟩
  obtain ⟨-, -, -, hD⟩ := C155_distance (by omega) A hdist
  have eF : frob A.reM ^ 2 = ∑ i, ∑ j, (A i j).toReal ^ 2 :=
    Real.sq_sqrt (Finset.sum_nonneg fun i _ => Finset.sum_nonneg fun j _ => sq_nonneg _)
  have eD : √(∑ i, ∑ j, ((∑ k, (A i k).toReal * (A j k).toReal) - if i = j then 1 else 0) ^ 2) =
      frob (A.reM * A.reM.transpose - 1) := by
    simp only [frob, Matrix.sub_apply, Matrix.mul_apply, Matrix.one_apply, Matrix.transpose_apply, Mat.reM, Matrix.of_apply]
  rw [eD, ← eF] at hD
  have hτ := tau_le hp
  have k1 : ((1 + f.u) ^ 11 - 1) * frob (A.reM * A.reM.transpose - 1) ≤ 1 / 1000 * (2001 / 1000 * ε) :=
    mul_le_mul (by linarith) hd hd0 (by norm_num)
  have k2 := mul_le_mul p11'' hE hE0 (by norm_num)
  have k3 := (_root_.abs_le.1 hD).2
  linarith

/-- The hypotheses hold for a quarter turn, which floats represent exactly; its distance is only roundings. -/
example [Libm f] (hp : 16 ≤ f.p) :
    (distance_to_manifold (⟨![![0, -1, 0], ![1, 0, 0], ![0, 0, 1]]⟩ : Mat 3 (Flt f))).IsFin ∧
    (distance_to_manifold (⟨![![0, -1, 0], ![1, 0, 0], ![0, 0, 1]]⟩ : Mat 3 (Flt f))).toReal ≤ 13 * f.u := by
  have h := C155_near hp (⟨![![0, -1, 0], ![1, 0, 0], ![0, 0, 1]]⟩ : Mat 3 (Flt f))
    (fun i j => by fin_cases i <;> fin_cases j <;> first | exact isFin_zero | exact isFin_one | exact isFin_neg.2 isFin_one)
    !![0, -1, 0; 1, 0, 0; 0, 0, 1]
    (by
      rw [Matrix.mem_orthogonalGroup_iff]
      ext i j
      fin_cases i <;> fin_cases j <;>
        simp [Matrix.mul_apply, Fin.sum_univ_succ])
    (by rw [Matrix.det_fin_three]; simp) (ε := 0)
    (by
      apply le_of_eq
      rw [Real.sqrt_eq_zero']
      apply le_of_eq
      refine Finset.sum_eq_zero fun i _ => Finset.sum_eq_zero fun j _ => ?_
      fin_cases i <;> fin_cases j <;> simp [toReal_neg, toReal_one, toReal_zero])
    (by norm_num)
  simpa using h

end StaticMath
