import Verif.Lemmas.Lu
import Verif.Ieee.Back
import Verif.Ieee.Facts
import Verif.Spec.Same

/-! # Rounding errors of the loops of `lu`, for every size -/

namespace StaticMath
variable {n : ℕ}

/-- One elimination step changes the represented product by the local residuals only. -/
theorem Fk_step (k : ℕ) (hk : k < n) (M2 M3 : Mat n ℝ)
    (hrow : ∀ i j, i.val ≤ k → M3 i j = M2 i j) (hcol : ∀ i j, j.val < k → M3 i j = M2 i j)
    (i j : Fin n) : Fk (k + 1) M3 i j = Fk k M2 i j +
      if k < i.val ∧ k ≤ j.val then
        (if j.val = k then M3 i ⟨k, hk⟩ * M2 ⟨k, hk⟩ ⟨k, hk⟩ - M2 i ⟨k, hk⟩
          else M3 i j + M3 i ⟨k, hk⟩ * M2 ⟨k, hk⟩ j - M2 i j) else 0 := by
  have hsplit : (∑ m : Fin n, if m.val < k + 1 ∧ m < i ∧ m ≤ j then M3 i m * M3 m j else 0) =
      (∑ m : Fin n, if m.val < k ∧ m < i ∧ m ≤ j then M2 i m * M2 m j else 0) +
        if k < i.val ∧ k ≤ j.val then M3 i ⟨k, hk⟩ * M2 ⟨k, hk⟩ j else 0 := by
    have hterm (m : Fin n) : (if m.val < k + 1 ∧ m < i ∧ m ≤ j then M3 i m * M3 m j else 0) =
        (if m.val < k ∧ m < i ∧ m ≤ j then M2 i m * M2 m j else 0) +
        (if m = ⟨k, hk⟩ then
          (if k < i.val ∧ k ≤ j.val then M3 i ⟨k, hk⟩ * M2 ⟨k, hk⟩ j else 0) else 0) := by
      by_cases hm : m = ⟨k, hk⟩
      · subst hm
        have e0 : ¬ (k < k ∧ (⟨k, hk⟩ : Fin n) < i ∧ ⟨k, hk⟩ ≤ j) := fun e => absurd e.1 (lt_irrefl _)
        rw [if_pos rfl, if_neg e0, zero_add]
        by_cases hc : k < i.val ∧ k ≤ j.val
        · rw [if_pos hc, if_pos ⟨Nat.lt_succ_self _, hc.1, hc.2⟩, hrow ⟨k, hk⟩ j le_rfl]
        · rw [if_neg hc, if_neg (fun e => hc ⟨e.2.1, e.2.2⟩)]
      · rw [if_neg hm, add_zero]
        have hmv : m.val ≠ k := fun e => hm (Fin.ext e)
        by_cases hlt : m.val < k
        · simp only [hlt, Nat.lt_succ_of_lt hlt, hcol i m hlt, hrow m j hlt.le]
        · have : ¬ m.val < k + 1 := by omega
          rw [if_neg (fun e => this e.1), if_neg (fun e => hlt e.1)]
    rw [Finset.sum_congr rfl (fun m _ => hterm m), Finset.sum_add_distrib, Finset.sum_ite_eq']
    simp
  unfold Fk
  rw [hsplit, add_assoc, add_assoc]
  congr 1
  simp only [Fin.lt_def]
  by_cases hi : k < i.val
  · rcases lt_trichotomy j.val k with hj | hj | hj
    · have h1 : j.val < k + 1 ∧ j.val < i.val := by omega
      have h2 : j.val < k ∧ j.val < i.val := by omega
      have h3 : ¬ (k < i.val ∧ k ≤ j.val) := by omega
      rw [if_pos h1, if_pos h2, if_neg h3, if_neg h3]
    · have hj' : j = ⟨k, hk⟩ := Fin.ext hj
      subst hj'
      have h1 : k < k + 1 ∧ k < i.val := by omega
      have h2 : ¬ (k < k ∧ k < i.val) := by omega
      rw [if_pos h1, if_neg h2, if_pos ⟨hi, le_rfl⟩, if_pos ⟨hi, le_rfl⟩, if_pos rfl]
      ring
    · have h1 : ¬ (j.val < k + 1 ∧ j.val < i.val) := by omega
      have h2 : ¬ (j.val < k ∧ j.val < i.val) := by omega
      rw [if_neg h1, if_neg h2, if_pos ⟨hi, hj.le⟩, if_pos ⟨hi, hj.le⟩, if_neg (by omega)]
      ring
  · have h1 : (j.val < k + 1 ∧ j.val < i.val) ↔ (j.val < k ∧ j.val < i.val) := by omega
    have h3 : ¬ (k < i.val ∧ k ≤ j.val) := by omega
    rw [if_neg h3, if_neg h3, zero_add, add_zero, hrow i j (by omega)]
    simp only [h1]

/-- The entrywise absolute value. -/
def absM (M : Mat n ℝ) : Mat n ℝ := ⟨fun i j => |M i j|⟩

theorem absM_apply (M : Mat n ℝ) (i j : Fin n) : absM M i j = |M i j| := rfl

theorem Fk_abs_nonneg (k : ℕ) (M : Mat n ℝ) (i j : Fin n) : 0 ≤ Fk k (absM M) i j := by
  unfold Fk
  refine add_nonneg (Finset.sum_nonneg fun m _ => ?_) ?_
  · split
    · exact mul_nonneg (abs_nonneg _) (abs_nonneg _)
    · exact le_rfl
  · split
    · exact le_rfl
    · exact abs_nonneg _

/-- The part of the step that is active is below the whole. -/
theorem Fk_abs_active (k : ℕ) (hk : k < n) (M2 M3 : Mat n ℝ)
    (hrow : ∀ i j, i.val ≤ k → M3 i j = M2 i j) (hcol : ∀ i j, j.val < k → M3 i j = M2 i j)
    (i j : Fin n) (hi : k < i.val) (hj : k ≤ j.val) :
    (if j.val = k then |M3 i ⟨k, hk⟩| * |M2 ⟨k, hk⟩ ⟨k, hk⟩| else
      |M3 i j| + |M3 i ⟨k, hk⟩| * |M2 ⟨k, hk⟩ j|) ≤ Fk (k + 1) (absM M3) i j := by
  rw [Fk_step k hk (absM M2) (absM M3) (fun i j h => by rw [absM_apply, absM_apply, hrow i j h])
    (fun i j h => by rw [absM_apply, absM_apply, hcol i j h]),
    if_pos (show k < i.val ∧ k ≤ j.val from ⟨hi, hj⟩)]
  have h0 : |M2 i j| ≤ Fk k (absM M2) i j := by
    unfold Fk
    have h2 : ¬ (j.val < k ∧ j < i) := by omega
    rw [if_neg h2, absM_apply]
    refine le_add_of_nonneg_left (Finset.sum_nonneg fun m _ => ?_)
    split
    · exact mul_nonneg (abs_nonneg _) (abs_nonneg _)
    · exact le_rfl
  simp only [absM_apply]
  by_cases hjk : j.val = k
  · have hj' : j = ⟨k, hk⟩ := Fin.ext hjk
    subst hj'
    rw [if_pos rfl, if_pos rfl]
    linarith
  · rw [if_neg hjk, if_neg hjk]
    linarith

variable {f : Fmt}

/-- Real values of the entries. -/
noncomputable def reM (M : Mat n (Flt f)) : Mat n ℝ := ⟨fun i j => (M i j).toReal⟩

theorem reM_apply (M : Mat n (Flt f)) (i j : Fin n) : reM M i j = (M i j).toReal := rfl

/-- The error allowance of entry `(i, j)` after `k` steps. -/
noncomputable def luB (k : ℕ) (M : Mat n (Flt f)) (i j : Fin n) : ℝ :=
  ((1 + f.u) ^ min k (min i.val (j.val + 1)) - 1) * Fk k (absM (reM M)) i j +
    (1 + f.u) ^ min k (min i.val (j.val + 1)) * (f.eta *
      ((min k (min i.val (j.val + 1)) : ℕ) + if j.val < k ∧ j < i then |(M j j).toReal| else 0))

/-- What is preserved by the main loop. -/
def FInv [L : Libm f] (A : Mat n (Flt f)) (k : ℕ)
    (s : Flt f × Mat n (Flt f) × Flt f × Vec n (Flt f) × Vec n ℕ) : Prop :=
  (∀ j : Fin n, j.val < k → j.val ≤ s.2.2.2.2 j ∧ s.2.2.2.2 j < n) ∧
  (s.2.2.1.IsFin ∧ s.2.2.1.toReal = ((Equiv.Perm.sign (pivotPerm n s.2.2.2.2.at k) : ℤ) : ℝ)) ∧
  (s.2.1.AllFin → A.AllFin ∧
    ∃ δ : Fin n → ℝ, (∀ i, δ i = 0 ∨ (δ i = (L.lit1em40 : Flt f).toReal ∧ s.2.1 i i = L.lit1em40)) ∧
      (∀ i : Fin n, k ≤ i.val → δ i = 0) ∧
      ∀ i j, |Fk k (reM s.2.1) i j - ((A (pivotPerm n s.2.2.2.2.at k i) j).toReal +
        (if i = j then δ i else 0))| ≤ luB k s.2.1 i j)

theorem FInv_step [L : Libm f] (A : Mat n (Flt f)) (k : ℕ) (hk : k < n)
    (s : Flt f × Mat n (Flt f) × Flt f × Vec n (Flt f) × Vec n ℕ) (h : FInv A k s) :
    ∃ s', luStep (RFloat.lit1em40 : Flt f) k s = .ok s' ∧ FInv A (k + 1) s' := by
  obtain ⟨b, M, d, vv, indx⟩ := s
  obtain ⟨hidx, ⟨hdf, hd⟩, hM⟩ := h
  dsimp only at hidx hdf hd hM
  obtain ⟨m, b', vv', hm, hkm, M1, M2, M3, h1, h2, h3, hstep⟩ :=
    luStep_gen (RFloat.lit1em40 : Flt f) k hk b d M vv indx
  refine ⟨_, hstep, ?_⟩
  obtain ⟨indx', hindx'⟩ : ∃ indx' : Vec n ℕ, indx' = ⟨fun i => if i = ⟨k, hk⟩ then m else indx.val i⟩ :=
    ⟨_, rfl⟩
  rw [← hindx']
  have hi' (j : Fin n) : indx' j = if j = ⟨k, hk⟩ then m else indx j := by rw [hindx']
  have hat (j : ℕ) (hj : j < k) : indx'.at j = indx.at j := by
    unfold Vec.at
    have hjn : j < n := hj.trans hk
    rw [dif_pos hjn, dif_pos hjn, hi', if_neg (fun e => by have := congrArg Fin.val e; simp at this; omega)]
  have hatk : indx'.at k = m := by
    unfold Vec.at
    rw [dif_pos hk, hi', if_pos rfl]
  have hperm : pivotPerm n indx'.at (k + 1) = pivotPerm n indx.at k * rowSwap n k m := by
    rw [pivotPerm, hatk, pivotPerm_congr _ _ k hat]
  have hlow := rowSwap_low k m hk hm hkm
  have hhigh := rowSwap_high k m hk hm hkm
  refine ⟨fun j hj => ?_, ?_, fun hfin => ?_⟩
  · change j.val ≤ indx' j ∧ indx' j < n
    rw [hi']
    by_cases hjk : j = ⟨k, hk⟩
    · rw [if_pos hjk, hjk]
      exact ⟨hkm, hm⟩
    · rw [if_neg hjk]
      have : j.val ≠ k := fun e => hjk (Fin.ext e)
      exact hidx j (by omega)
  · change (if k = m then d else -d).IsFin ∧ (if k = m then d else -d).toReal =
      ((Equiv.Perm.sign (pivotPerm n indx'.at (k + 1)) : ℤ) : ℝ)
    rw [hperm, Equiv.Perm.sign_mul, rowSwap_eq k m hk hm]
    by_cases heq : k = m
    · subst heq
      rw [if_pos rfl, Equiv.swap_self]
      refine ⟨hdf, ?_⟩
      rw [hd]
      simp
    · have hne : (⟨k, hk⟩ : Fin n) ≠ ⟨m, hm⟩ := fun h => heq (congrArg Fin.val h)
      rw [if_neg heq, Equiv.Perm.sign_swap hne]
      refine ⟨Flt.isFin_neg.2 hdf, ?_⟩
      rw [Flt.toReal_neg, hd]
      simp
  change M3.AllFin at hfin
  change A.AllFin ∧ ∃ δ : Fin n → ℝ, (∀ i, δ i = 0 ∨ (δ i = (L.lit1em40 : Flt f).toReal ∧
    M3 i i = L.lit1em40)) ∧ (∀ i : Fin n, k + 1 ≤ i.val → δ i = 0) ∧
      ∀ i j, |Fk (k + 1) (reM M3) i j - ((A (pivotPerm n indx'.at (k + 1) i) j).toReal +
        (if i = j then δ i else 0))| ≤ luB (k + 1) M3 i j
  -- values of the third matrix
  have hrow (i j : Fin n) (hi : i.val ≤ k) : M3 i j = M2 i j := by
    rw [h3, if_neg (by omega)]
  have hcol (i j : Fin n) (hj : j.val < k) : M3 i j = M2 i j := by
    rw [h3, if_pos hj, ite_self]
  have hdiv (i : Fin n) (hi : k < i.val) : M3 i ⟨k, hk⟩ = M2 i ⟨k, hk⟩ / M2 ⟨k, hk⟩ ⟨k, hk⟩ := by
    rw [h3, if_pos hi, if_neg (lt_irrefl _), if_pos rfl]
  have hsub (i j : Fin n) (hi : k < i.val) (hj : k < j.val) :
      M3 i j = M2 i j - M3 i ⟨k, hk⟩ * M2 ⟨k, hk⟩ j := by
    rw [hdiv i hi, h3, if_pos hi, if_neg (by omega), if_neg (by omega)]
  have hpf : (M2 ⟨k, hk⟩ ⟨k, hk⟩).IsFin := by
    rw [← hrow _ _ le_rfl]; exact hfin _ _
  have hfin2 : M2.AllFin := by
    intro i j
    by_cases hi : k < i.val
    · rcases lt_trichotomy j.val k with hj | hj | hj
      · rw [← hcol i j hj]; exact hfin i j
      · have hj' : j = ⟨k, hk⟩ := Fin.ext hj
        rw [hj']
        have := hfin i ⟨k, hk⟩
        rw [hdiv i hi] at this
        exact (Flt.div_err' hpf this).1
      · have := hfin i j
        rw [hsub i j hi hj] at this
        exact (Flt.isFin_of_sub this).1
    · rw [← hrow i j (not_lt.1 hi)]; exact hfin i j
  have hz : ROrd.beq (M1 ⟨k, hk⟩ ⟨k, hk⟩) 0 = true →
      (M1 ⟨k, hk⟩ ⟨k, hk⟩).IsFin ∧ (M1 ⟨k, hk⟩ ⟨k, hk⟩).toReal = 0 := by
    intro hb
    have hf1 : (M1 ⟨k, hk⟩ ⟨k, hk⟩).IsFin := by
      generalize M1 ⟨k, hk⟩ ⟨k, hk⟩ = x at hb
      rcases x with _ | s | ⟨s, x, hx⟩
      · exact absurd hb (by rw [Flt.beq_nan]; exact Bool.false_ne_true)
      · cases s <;> exact absurd hb Bool.false_ne_true
      · trivial
    exact ⟨hf1, by simpa using (Flt.beq_iff hf1 Flt.isFin_zero).1 hb⟩
  have hfin1 : M1.AllFin := by
    intro i j
    by_cases hb : ROrd.beq (M1 ⟨k, hk⟩ ⟨k, hk⟩) 0 = true
    · by_cases hij : i = ⟨k, hk⟩ ∧ j = ⟨k, hk⟩
      · rw [hij.1, hij.2]; exact (hz hb).1
      · have := hfin2 i j
        rwa [h2, if_neg hij] at this
    · have := hfin2 i j
      rw [h2, if_neg hb] at this
      by_cases hij : i = ⟨k, hk⟩ ∧ j = ⟨k, hk⟩
      · rw [hij.1, hij.2] at this ⊢
        rwa [if_pos ⟨rfl, rfl⟩] at this
      · rwa [if_neg hij] at this
  have hfin0 : M.AllFin := by
    intro i j
    have := hfin1 ((rowSwap n k m).symm i) j
    rwa [h1, Equiv.apply_symm_apply] at this
  obtain ⟨hA, δ, hδ, hδk, hF⟩ := hM hfin0
  refine ⟨hA, fun i => δ i + if i = ⟨k, hk⟩ then (M2 ⟨k, hk⟩ ⟨k, hk⟩).toReal -
    (M1 ⟨k, hk⟩ ⟨k, hk⟩).toReal else 0, fun i => ?_, fun i hi => ?_, fun i j => ?_⟩
  · dsimp only
    by_cases hi : i = ⟨k, hk⟩
    · rw [if_pos hi, hδk i (by rw [hi]), zero_add, hi, hrow _ _ le_rfl]
      by_cases hb : ROrd.beq (M1 ⟨k, hk⟩ ⟨k, hk⟩) 0 = true
      · right
        rw [h2, if_pos ⟨rfl, rfl⟩, if_pos hb, (hz hb).2, sub_zero]
        exact ⟨rfl, rfl⟩
      · left
        rw [h2, if_pos ⟨rfl, rfl⟩, if_neg hb, sub_self]
    · rw [if_neg hi, add_zero]
      by_cases hik : i.val < k
      · rw [hrow i i hik.le, h2, if_neg (fun e => hi e.1), h1, hlow i hik]
        exact hδ i
      · exact Or.inl (hδk i (not_lt.1 hik))
  · have hi2 : k + 1 ≤ i.val := hi
    dsimp only
    rw [hδk i (by omega), if_neg (fun e => by rw [e] at hi2; simp at hi2), add_zero]
  have hF1 : |Fk k (reM M1) i j - ((A ((pivotPerm n indx.at k * rowSwap n k m) i) j).toReal +
      (if i = j then δ i else 0))| ≤ luB k M1 i j := by
    have hh := hF (rowSwap n k m i) j
    have e1 := Fk_swap k m hk hm hkm (reM M) (reM M1) (fun i j => by rw [reM_apply, h1, reM_apply]) i j
    have e2 := Fk_swap k m hk hm hkm (absM (reM M)) (absM (reM M1))
      (fun i j => by rw [absM_apply, absM_apply, reM_apply, h1, reM_apply]) i j
    rw [e1, Equiv.Perm.mul_apply]
    have e3 : (if rowSwap n k m i = j then δ (rowSwap n k m i) else 0) = if i = j then δ i else 0 := by
      by_cases hi : i.val < k
      · rw [hlow i hi]
      · rw [hδk i (not_lt.1 hi), hδk _ (hhigh i (not_lt.1 hi))]
        simp
    rw [e3] at hh
    refine hh.trans (le_of_eq ?_)
    unfold luB
    have e4 : min k (min (rowSwap n k m i).val (j.val + 1)) = min k (min i.val (j.val + 1)) := by
      by_cases hi : i.val < k
      · rw [hlow i hi]
      · have := hhigh i (not_lt.1 hi)
        omega
    have e5 : (if j.val < k ∧ j < rowSwap n k m i then |(M j j).toReal| else 0) =
        if j.val < k ∧ j < i then |(M1 j j).toReal| else 0 := by
      by_cases hj : j.val < k
      · rw [h1, hlow j hj]
        by_cases hi : i.val < k
        · rw [hlow i hi]
        · have := hhigh i (not_lt.1 hi)
          rw [if_pos ⟨hj, by rw [Fin.lt_def]; omega⟩, if_pos ⟨hj, by rw [Fin.lt_def]; omega⟩]
      · rw [if_neg (fun e => hj e.1), if_neg (fun e => hj e.1)]
    rw [e4, e5, ← e2]
  have hp2 : (M1 ⟨k, hk⟩ ⟨k, hk⟩).toReal = 0 ∨
      (M2 ⟨k, hk⟩ ⟨k, hk⟩).toReal = (M1 ⟨k, hk⟩ ⟨k, hk⟩).toReal := by
    by_cases hb : ROrd.beq (M1 ⟨k, hk⟩ ⟨k, hk⟩) 0 = true
    · exact Or.inl (hz hb).2
    · right
      rw [h2, if_pos ⟨rfl, rfl⟩, if_neg hb]
  have hM2r (i j : Fin n) : reM M2 i j = if i = ⟨k, hk⟩ ∧ j = ⟨k, hk⟩ then
      (M2 ⟨k, hk⟩ ⟨k, hk⟩).toReal else reM M1 i j := by
    split
    · rename_i e; rw [e.1, e.2]; rfl
    · rename_i e; rw [reM_apply, h2, if_neg e]; rfl
  have hS := Fk_set k hk _ (reM M1) (reM M2) hM2r i j
  have hSa := Fk_set k hk |(M2 ⟨k, hk⟩ ⟨k, hk⟩).toReal| (absM (reM M1)) (absM (reM M2))
    (fun i j => by
      rw [absM_apply, hM2r]
      split
      · rfl
      · rfl) i j
  have hSle : Fk k (absM (reM M1)) i j ≤ Fk k (absM (reM M2)) i j := by
    rw [hSa]
    refine le_add_of_nonneg_right ?_
    split
    · split
      · rw [absM_apply, reM_apply]
        rcases hp2 with e | e
        · rw [e, abs_zero, sub_zero]; exact abs_nonneg _
        · rw [e, sub_self]
      · exact le_rfl
    · exact le_rfl
  have hrowR (i j : Fin n) (hi : i.val ≤ k) : reM M3 i j = reM M2 i j := by
    rw [reM_apply, hrow i j hi, reM_apply]
  have hcolR (i j : Fin n) (hj : j.val < k) : reM M3 i j = reM M2 i j := by
    rw [reM_apply, hcol i j hj, reM_apply]
  have hT := Fk_step k hk (reM M2) (reM M3) hrowR hcolR i j
  have hTa := Fk_step k hk (absM (reM M2)) (absM (reM M3))
    (fun i j h => by rw [absM_apply, hrowR i j h, absM_apply])
    (fun i j h => by rw [absM_apply, hcolR i j h, absM_apply]) i j
  rw [hperm]
  have hE : Fk (k + 1) (reM M3) i j - ((A ((pivotPerm n indx.at k * rowSwap n k m) i) j).toReal +
      (if i = j then δ i + (if i = ⟨k, hk⟩ then (M2 ⟨k, hk⟩ ⟨k, hk⟩).toReal -
        (M1 ⟨k, hk⟩ ⟨k, hk⟩).toReal else 0) else 0)) =
      (Fk k (reM M1) i j - ((A ((pivotPerm n indx.at k * rowSwap n k m) i) j).toReal +
        (if i = j then δ i else 0))) + (Fk (k + 1) (reM M3) i j - Fk k (reM M2) i j) := by
    rw [hS, reM_apply]
    by_cases hij : i = j
    · rw [if_pos hij, if_pos hij, if_pos hij]; ring
    · rw [if_neg hij, if_neg hij, if_neg hij]; ring
  rw [hE]
  refine (abs_add_le _ _).trans ?_
  have hu := f.u_pos
  have he := f.eta_pos
  by_cases hact : k < i.val ∧ k ≤ j.val
  · have hG := Fk_abs_active k hk (reM M2) (reM M3) hrowR hcolR i j hact.1 hact.2
    have hc0 : ¬ (j.val < k ∧ j < i) := by omega
    have e0 : min k (min i.val (j.val + 1)) = k := by omega
    have e1 : min (k + 1) (min i.val (j.val + 1)) = k + 1 := by omega
    rw [if_pos hact] at hT hTa
    unfold luB at hF1 ⊢
    rw [e0, if_neg hc0, add_zero] at hF1
    rw [e1]
    have hpk : 1 ≤ (1 + f.u) ^ k := one_le_pow₀ (by linarith)
    have hG0 := Fk_abs_nonneg (k + 1) (reM M3) i j
    obtain ⟨G', hG'⟩ : ∃ G', G' = Fk (k + 1) (absM (reM M3)) i j := ⟨_, rfl⟩
    obtain ⟨G1, hG1⟩ : ∃ G1, G1 = Fk k (absM (reM M1)) i j := ⟨_, rfl⟩
    rw [← hG'] at hG hTa hG0 ⊢
    rw [← hG1] at hSle hF1
    -- the common estimate
    have hfinal (H ηx c r : ℝ) (hr : |r| ≤ f.u * H + ηx) (hH : H ≤ G')
        (hG1le : G1 ≤ G' + f.u * H + ηx)
        (hcx : ηx + f.eta * k ≤ f.eta * ((k + 1 : ℕ) + c)) (hx : 0 ≤ ηx)
        (hE1 : |Fk k (reM M1) i j - ((A ((pivotPerm n indx.at k * rowSwap n k m) i) j).toReal +
          (if i = j then δ i else 0))| ≤ ((1 + f.u) ^ k - 1) * G1 + (1 + f.u) ^ k * (f.eta * k)) :
        |Fk k (reM M1) i j - ((A ((pivotPerm n indx.at k * rowSwap n k m) i) j).toReal +
          (if i = j then δ i else 0))| + |r| ≤
        ((1 + f.u) ^ (k + 1) - 1) * G' + (1 + f.u) ^ (k + 1) * (f.eta * ((k + 1 : ℕ) + c)) := by
      have t1 : ((1 + f.u) ^ k - 1) * G1 ≤ ((1 + f.u) ^ k - 1) * (G' + f.u * G' + ηx) := by
        refine mul_le_mul_of_nonneg_left (hG1le.trans ?_) (by linarith)
        have := mul_le_mul_of_nonneg_left hH hu.le
        linarith
      have t2 := mul_le_mul_of_nonneg_left hH hu.le
      have t3 : (1 + f.u) ^ k * (ηx + f.eta * k) ≤ (1 + f.u) ^ (k + 1) * (f.eta * ((k + 1 : ℕ) + c)) := by
        refine mul_le_mul ?_ hcx (add_nonneg hx (mul_nonneg he.le (Nat.cast_nonneg _))) (by positivity)
        exact pow_le_pow_right₀ (by linarith) (Nat.le_succ _)
      have t4 : ((1 + f.u) ^ (k + 1) - 1) * G' = ((1 + f.u) ^ k - 1) * (G' + f.u * G') + f.u * G' := by
        rw [pow_succ]; ring
      rw [t4]
      calc _ ≤ ((1 + f.u) ^ k - 1) * (G' + f.u * G' + ηx) + (1 + f.u) ^ k * (f.eta * k) +
            (f.u * G' + ηx) := by linarith
        _ = ((1 + f.u) ^ k - 1) * (G' + f.u * G') + f.u * G' + (1 + f.u) ^ k * (ηx + f.eta * k) := by ring
        _ ≤ _ := by linarith
    by_cases hjk : j.val = k
    · have hj' : j = ⟨k, hk⟩ := Fin.ext hjk
      subst hj'
      rw [if_pos rfl] at hT hTa hG
      rw [if_pos (show (⟨k, hk⟩ : Fin n).val < k + 1 ∧ (⟨k, hk⟩ : Fin n) < i from
        ⟨Nat.lt_succ_self _, hact.1⟩), hrow ⟨k, hk⟩ ⟨k, hk⟩ le_rfl]
      have hl := hfin i ⟨k, hk⟩
      rw [hdiv i hact.1] at hl
      obtain ⟨-, hp0, hq⟩ := Flt.div_err' hpf hl
      rw [← hdiv i hact.1] at hq
      have hr : |reM M3 i ⟨k, hk⟩ * reM M2 ⟨k, hk⟩ ⟨k, hk⟩ - reM M2 i ⟨k, hk⟩| ≤
          f.u * (|reM M3 i ⟨k, hk⟩| * |reM M2 ⟨k, hk⟩ ⟨k, hk⟩|) + f.eta * |reM M2 ⟨k, hk⟩ ⟨k, hk⟩| := by
        have e : reM M3 i ⟨k, hk⟩ * reM M2 ⟨k, hk⟩ ⟨k, hk⟩ - reM M2 i ⟨k, hk⟩ =
            ((M3 i ⟨k, hk⟩).toReal - (M2 i ⟨k, hk⟩).toReal / (M2 ⟨k, hk⟩ ⟨k, hk⟩).toReal) *
              (M2 ⟨k, hk⟩ ⟨k, hk⟩).toReal := by
          rw [sub_mul, div_mul_cancel₀ _ hp0]; rfl
        rw [e, abs_mul]
        have := mul_le_mul_of_nonneg_right hq (abs_nonneg (M2 ⟨k, hk⟩ ⟨k, hk⟩).toReal)
        refine this.trans (le_of_eq ?_)
        simp only [reM_apply]
        ring
      refine hfinal (|reM M3 i ⟨k, hk⟩| * |reM M2 ⟨k, hk⟩ ⟨k, hk⟩|)
        (f.eta * |reM M2 ⟨k, hk⟩ ⟨k, hk⟩|) _ _ ?_ hG ?_ ?_ (by positivity) hF1
      · rw [hT, add_sub_cancel_left]; exact hr
      · refine hSle.trans ?_
        simp only [absM_apply] at hTa
        have := abs_sub_abs_le_abs_sub (reM M2 i ⟨k, hk⟩) (reM M3 i ⟨k, hk⟩ * reM M2 ⟨k, hk⟩ ⟨k, hk⟩)
        rw [abs_sub_comm, abs_mul] at this
        linarith
      · rw [reM_apply]
        push_cast
        nlinarith
    · rw [if_neg hjk] at hT hTa hG
      have hjk' : k < j.val := by omega
      have hc1 : ¬ (j.val < k + 1 ∧ j < i) := by omega
      rw [if_neg hc1]
      have hs := hfin i j
      rw [hsub i j hact.1 hjk'] at hs
      have hs1 := Flt.sub_rel' hs
      have hs2 := Flt.mul_err (Flt.isFin_of_sub hs).2
      rw [← hsub i j hact.1 hjk'] at hs1
      have hr : |reM M3 i j + reM M3 i ⟨k, hk⟩ * reM M2 ⟨k, hk⟩ j - reM M2 i j| ≤
          f.u * (|reM M3 i j| + |reM M3 i ⟨k, hk⟩| * |reM M2 ⟨k, hk⟩ j|) + f.eta := by
        have e : reM M3 i j + reM M3 i ⟨k, hk⟩ * reM M2 ⟨k, hk⟩ j - reM M2 i j =
            ((M3 i j).toReal - ((M2 i j).toReal - (M3 i ⟨k, hk⟩ * M2 ⟨k, hk⟩ j).toReal)) -
            ((M3 i ⟨k, hk⟩ * M2 ⟨k, hk⟩ j).toReal - (M3 i ⟨k, hk⟩).toReal * (M2 ⟨k, hk⟩ j).toReal) := by
          simp only [reM_apply]; ring
        rw [e]
        refine (abs_sub _ _).trans ?_
        simp only [reM_apply]
        rw [abs_mul] at hs2
        linarith
      refine hfinal (|reM M3 i j| + |reM M3 i ⟨k, hk⟩| * |reM M2 ⟨k, hk⟩ j|) f.eta _ _ ?_ hG ?_ ?_
        he.le hF1
      · rw [hT, add_sub_cancel_left]; exact hr
      · refine hSle.trans ?_
        simp only [absM_apply] at hTa
        have h5 := abs_sub_abs_le_abs_sub (reM M2 i j)
          (reM M3 i j + reM M3 i ⟨k, hk⟩ * reM M2 ⟨k, hk⟩ j)
        rw [abs_sub_comm] at h5
        have h6 := abs_add_le (reM M3 i j) (reM M3 i ⟨k, hk⟩ * reM M2 ⟨k, hk⟩ j)
        rw [abs_mul] at h6
        linarith
      · push_cast
        linarith
  · rw [if_neg hact, add_zero] at hT hTa
    rw [hT, sub_self, abs_zero, add_zero]
    refine hF1.trans ?_
    have e0 : min (k + 1) (min i.val (j.val + 1)) = min k (min i.val (j.val + 1)) := by omega
    unfold luB
    rw [e0, hTa]
    have hp1 : 1 ≤ (1 + f.u) ^ min k (min i.val (j.val + 1)) := one_le_pow₀ (by linarith)
    have e5 : (if j.val < k ∧ j < i then |(M1 j j).toReal| else 0) =
        if j.val < k + 1 ∧ j < i then |(M3 j j).toReal| else 0 := by
      by_cases hj : j.val < k
      · have hjk : ¬ (j = ⟨k, hk⟩ ∧ j = ⟨k, hk⟩) := fun e => by rw [e.1] at hj; exact lt_irrefl _ hj
        rw [hrow j j hj.le, h2 j j, if_neg hjk]
        simp only [hj, Nat.lt_succ_of_lt hj]
      · rw [if_neg (fun e => hj e.1), if_neg (fun e => by
          have : j.val < i.val := e.2
          omega)]
    rw [e5]
    have := mul_le_mul_of_nonneg_left hSle (by linarith :
      0 ≤ (1 + f.u) ^ min k (min i.val (j.val + 1)) - 1)
    linarith

/-- What the main loop of `lu` computes in floating point, for every size. -/
theorem luLoop_flt [L : Libm f] (A : Mat n (Flt f)) (b : Flt f) (vv : Vec n (Flt f)) (indx : Vec n ℕ) :
    ∃ b' M d vv' indx', forRange 0 n (b, A, 1, vv, indx) (luStep (RFloat.lit1em40 : Flt f)) =
        .ok (b', M, d, vv', indx') ∧
      (∀ j : Fin n, j.val ≤ indx' j ∧ indx' j < n) ∧
      (d.IsFin ∧ d.toReal = ((Equiv.Perm.sign (pivotPerm n indx'.at n) : ℤ) : ℝ)) ∧
      (M.AllFin → A.AllFin ∧ ∃ δ : Fin n → ℝ,
        (∀ i, δ i = 0 ∨ (δ i = (L.lit1em40 : Flt f).toReal ∧ M i i = L.lit1em40)) ∧
        ∀ i j, |((reM M).lowerUnit * (reM M).upper) i j -
            ((A (pivotPerm n indx'.at n i) j).toReal + (if i = j then δ i else 0))| ≤
          ((1 + f.u) ^ min i.val (j.val + 1) - 1) *
            ((absM (reM M)).lowerUnit * (absM (reM M)).upper) i j +
          (1 + f.u) ^ min i.val (j.val + 1) * (f.eta *
            ((min i.val (j.val + 1) : ℕ) + if j < i then |(M j j).toReal| else 0))) := by
  obtain ⟨⟨b', M, d, vv', indx'⟩, hs, hidx, hd, hF⟩ :=
    forRange_invariant (FInv A) 0 n (Nat.zero_le _) (b, A, 1, vv, indx) (luStep (RFloat.lit1em40 : Flt f))
      ⟨fun j hj => absurd hj (Nat.not_lt_zero _), ⟨Flt.isFin_one, by simp [pivotPerm]⟩,
        fun hA => ⟨hA, 0, fun _ => Or.inl rfl, fun _ _ => rfl, fun i j => by
          have e : Fk 0 (reM A) i j = (A i j).toReal := by simp [Fk, reM_apply]
          dsimp only
          rw [e]
          simp [pivotPerm, luB]⟩⟩
      (fun k s _ hk h => FInv_step A k hk s h)
  dsimp only at hidx hd hF
  refine ⟨b', M, d, vv', indx', hs, fun j => hidx j j.isLt, hd, fun hM => ?_⟩
  obtain ⟨hA, δ, hδ, -, hE⟩ := hF hM
  refine ⟨hA, δ, hδ, fun i j => ?_⟩
  have h := hE i j
  unfold luB at h
  have e : min n (min i.val (j.val + 1)) = min i.val (j.val + 1) := by omega
  rw [e, ← Lk_mul_Wk, ← Lk_mul_Wk, Lk_full, Wk_full, Lk_full, Wk_full] at h
  simpa only [j.isLt, true_and] using h

/-- A product of floats, from the left. -/
theorem prod_flt_err (d : Flt f) (B : ℝ) (l : List (Flt f)) (hl : ∀ x ∈ l, |x.toReal| ≤ B)
    (h : (l.foldl (· * ·) d).IsFin) :
    |(l.foldl (· * ·) d).toReal - d.toReal * (l.map Flt.toReal).prod| ≤
      ((1 + f.u) ^ l.length - 1) * |d.toReal * (l.map Flt.toReal).prod| +
        (1 + f.u) ^ l.length * (f.eta * ∑ t ∈ Finset.range l.length, B ^ t) := by
  have hu := f.u_pos
  have he := f.eta_pos
  induction l using List.reverseRecOn with
  | nil => simp
  | append_singleton l y ih =>
    rw [List.foldl_append] at h ⊢
    change (l.foldl (· * ·) d * y).IsFin at h
    change |(l.foldl (· * ·) d * y).toReal - _| ≤ _
    have hy : |y.toReal| ≤ B := hl y (by simp)
    have hB : 0 ≤ B := (abs_nonneg _).trans hy
    have h0 := ih (fun x hx => hl x (by simp [hx])) (Flt.isFin_of_mul h).1
    have h1 := Flt.mul_err h
    rw [List.map_append, List.prod_append, List.length_append, List.length_singleton]
    simp only [List.map_cons, List.map_nil, List.prod_cons, List.prod_nil, mul_one]
    generalize (l.foldl (· * ·) d).toReal = x at h0 h1
    generalize (l.foldl (· * ·) d * y).toReal = z at h1
    rw [← mul_assoc]
    generalize d.toReal * (l.map Flt.toReal).prod = X at h0
    generalize y.toReal = w at h1 hy
    rw [Finset.sum_range_succ']
    have e2 : ∑ t ∈ Finset.range l.length, B ^ (t + 1) = (∑ t ∈ Finset.range l.length, B ^ t) * B := by
      rw [Finset.sum_mul]
      exact Finset.sum_congr rfl fun t _ => pow_succ B t
    rw [e2]
    have hS : 0 ≤ ∑ t ∈ Finset.range l.length, B ^ t := Finset.sum_nonneg fun t _ => pow_nonneg hB t
    generalize ∑ t ∈ Finset.range l.length, B ^ t = S at h0 hS
    rw [pow_zero, pow_succ]
    have hP : 1 ≤ (1 + f.u) ^ l.length := one_le_pow₀ (by linarith)
    generalize (1 + f.u) ^ l.length = p at h0 hP
    have t1 : |z - X * w| ≤ |z - x * w| + |x - X| * |w| := by
      have : z - X * w = (z - x * w) + (x - X) * w := by ring
      rw [this, ← abs_mul]
      exact abs_add_le _ _
    have t2 : |x * w| ≤ |X * w| + |x - X| * |w| := by
      have : x * w = X * w + (x - X) * w := by ring
      rw [this, ← abs_mul]
      exact abs_add_le _ _
    have t3 : |x - X| * |w| ≤ (p - 1) * |X * w| + p * (f.eta * (S * B)) := by
      have a1 := mul_le_mul_of_nonneg_right h0 (abs_nonneg w)
      have a2 : p * (f.eta * S) * |w| ≤ p * (f.eta * S) * B :=
        mul_le_mul_of_nonneg_left hy (by positivity)
      rw [abs_mul]
      nlinarith
    have t4 : f.u * |x * w| ≤ f.u * (|X * w| + |x - X| * |w|) := mul_le_mul_of_nonneg_left t2 hu.le
    have t5 : (1 + f.u) * (|x - X| * |w|) ≤ (1 + f.u) * ((p - 1) * |X * w| + p * (f.eta * (S * B))) :=
      mul_le_mul_of_nonneg_left t3 (by linarith)
    have t6 : f.eta ≤ p * (1 + f.u) * f.eta := by
      have : 1 ≤ p * (1 + f.u) := by nlinarith
      nlinarith
    nlinarith

/-! ## When the first loop panics -/

namespace Flt

theorem beq_zero_iff (a : Flt f) : ROrd.beq a 0 = true ↔ a.IsFin ∧ a.toReal = 0 := by
  constructor
  · intro hb
    have hf1 : a.IsFin := by
      rcases a with _ | s | ⟨s, x, hx⟩
      · exact absurd hb Bool.false_ne_true
      · cases s <;> exact absurd hb Bool.false_ne_true
      · trivial
    exact ⟨hf1, by simpa using (Flt.beq_iff hf1 Flt.isFin_zero).1 hb⟩
  · rintro ⟨h1, h2⟩
    exact (Flt.beq_iff h1 Flt.isFin_zero).2 (by simpa using h2)

theorem lt_zero_abs (a : Flt f) : ROrd.lt 0 (RAbs.abs a) = true ↔ a ≠ nan ∧ ¬ ROrd.beq a 0 = true := by
  rw [beq_zero_iff]
  rcases a with _ | s | ⟨s, x, hx⟩
  · exact ⟨fun h => absurd h Bool.false_ne_true, fun h => absurd rfl h.1⟩
  · exact ⟨fun _ => ⟨(fun h => by cases h), fun h => h.1⟩, fun _ => rfl⟩
  · have h0 := hx.nonneg
    have e : ROrd.lt (0 : Flt f) (RAbs.abs (fin s x hx)) = true ↔ (0 : ℝ) < x := by
      refine (lt_iff (a := (0 : Flt f)) (b := fin false x hx) isFin_zero trivial).trans ?_
      simp [toReal, sgn]
    rw [e]
    constructor
    · intro h
      refine ⟨(fun h => by cases h), fun h' => ?_⟩
      exact h.ne' (sgn_eq_zero.1 h'.2)
    · rintro ⟨-, h⟩
      refine lt_of_le_of_ne h0 (fun e => h ⟨trivial, sgn_eq_zero.2 e.symm⟩)

theorem lt_of_beq_zero {b : Flt f} (hb : ROrd.beq b 0 = true) (t : Flt f) :
    ROrd.lt b t = ROrd.lt 0 t := by
  obtain ⟨h1, h2⟩ := (beq_zero_iff b).1 hb
  rcases b with _ | s | ⟨s, x, hx⟩
  · exact absurd h1 id
  · exact absurd h1 id
  · rcases t with _ | t | ⟨t, y, hy⟩
    · rfl
    · rfl
    · have : (ROrd.lt (fin s x hx) (fin t y hy) = true) ↔ (ROrd.lt (0 : Flt f) (fin t y hy) = true) := by
        rw [lt_iff (a := fin s x hx) (b := fin t y hy) trivial trivial,
          lt_iff (b := fin t y hy) isFin_zero trivial, h2, toReal_zero]
      rw [Bool.eq_iff_iff]
      exact this

theorem lt_zero_trans {b t : Flt f} (hb : ROrd.lt 0 b = true) (h : ROrd.lt b t = true) :
    ROrd.lt 0 t = true := by
  rcases b with _ | s | ⟨s, x, hx⟩
  · exact absurd h Bool.false_ne_true
  · rcases t with _ | t | ⟨t, y, hy⟩
    · exact absurd h Bool.false_ne_true
    · cases s <;> cases t <;> first | rfl | exact absurd h Bool.false_ne_true
    · cases s
      · exact absurd h Bool.false_ne_true
      · exact absurd hb Bool.false_ne_true
  · rcases t with _ | t | ⟨t, y, hy⟩
    · exact absurd h Bool.false_ne_true
    · cases t
      · rfl
      · exact absurd h Bool.false_ne_true
    · have h1 := (lt_iff (b := fin s x hx) isFin_zero trivial).1 hb
      have h2 := (lt_iff (a := fin s x hx) (b := fin t y hy) trivial trivial).1 h
      exact (lt_iff (b := fin t y hy) isFin_zero trivial).2 (h1.trans h2)

theorem not_beq_of_lt {t : Flt f} (h : ROrd.lt 0 t = true) : ¬ ROrd.beq t 0 = true := by
  intro hb
  rw [beq_zero_iff] at hb
  have := (lt_iff isFin_zero hb.1).1 h
  rw [hb.2, toReal_zero] at this
  exact lt_irrefl _ this

end Flt

private def Zp (b : Flt f) : Prop := ROrd.beq b 0 = true ∨ ROrd.lt 0 b = true

private theorem row_flt (lu : Mat n (Flt f)) (i : ℕ) (hi : i < n) (big : Flt f) (h0 : Zp big) :
    ∃ b, forRange 0 n big (fun j big => do
        let temp := RAbs.abs (← lu.get i j)
        let big ← if ROrd.lt big temp then do
            let big := temp
            pure big
          else pure big
        pure big) = .ok b ∧ Zp b ∧ (ROrd.beq b 0 = true ↔ ROrd.beq big 0 = true ∧
          ∀ c, ¬ ROrd.lt 0 (RAbs.abs (lu ⟨i, hi⟩ c)) = true) := by
  obtain ⟨b, hb, hb0, hP⟩ := forRange_invariant
    (fun j (b : Flt f) => Zp b ∧ (ROrd.beq b 0 = true ↔ ROrd.beq big 0 = true ∧
      ∀ c : Fin n, c.val < j → ¬ ROrd.lt 0 (RAbs.abs (lu ⟨i, hi⟩ c)) = true)) 0 n
    (Nat.zero_le _) big (fun j big => do
        let temp := RAbs.abs (← lu.get i j)
        let big ← if ROrd.lt big temp then do
            let big := temp
            pure big
          else pure big
        pure big)
    ⟨h0, fun h => ⟨h, fun c hc => absurd hc (Nat.not_lt_zero _)⟩, fun h => h.1⟩
    (fun j b _ hj hinv => by
      rw [Mat.get_ok _ _ _ hi hj]
      by_cases hlt : ROrd.lt b (RAbs.abs (lu.val ⟨i, hi⟩ ⟨j, hj⟩)) = true
      · have hpos : ROrd.lt 0 (RAbs.abs (lu.val ⟨i, hi⟩ ⟨j, hj⟩)) = true := by
          rcases hinv.1 with h | h
          · rwa [Flt.lt_of_beq_zero h] at hlt
          · exact Flt.lt_zero_trans h hlt
        refine ⟨RAbs.abs (lu.val ⟨i, hi⟩ ⟨j, hj⟩), ?_, Or.inr hpos, ?_⟩
        · simp only [hlt, if_true, bind, Except.bind, pure, Except.pure]
        · exact ⟨fun h => absurd h (Flt.not_beq_of_lt hpos),
            fun h => absurd hpos (h.2 ⟨j, hj⟩ (Nat.lt_succ_self _))⟩
      · refine ⟨b, ?_, hinv.1, ?_⟩
        · simp only [hlt, Bool.false_eq_true, if_false, bind, Except.bind, pure, Except.pure]
        · constructor
          · intro hb
            obtain ⟨h1, h2⟩ := hinv.2.1 hb
            refine ⟨h1, fun c hc => ?_⟩
            rcases Nat.lt_succ_iff_lt_or_eq.1 hc with h | h
            · exact h2 c h
            · have : c = ⟨j, hj⟩ := Fin.ext h
              rw [this, ← Flt.lt_of_beq_zero hb]
              exact hlt
          · rintro ⟨h1, h2⟩
            exact hinv.2.2 ⟨h1, fun c hc => h2 c (Nat.lt_succ_of_lt hc)⟩)
  refine ⟨b, hb, hb0, hP.trans ?_⟩
  exact ⟨fun h => ⟨h.1, fun c => h.2 c c.isLt⟩, fun h => ⟨h.1, fun c _ => h.2 c⟩⟩

/-- In floating point the first loop panics exactly when the first row has only zeros and NaNs. -/
theorem luScale_flt [Libm f] (lu : Mat n (Flt f)) (vv : Vec n (Flt f)) (hn : 0 < n) :
    ((∀ c, lu ⟨0, hn⟩ c = .nan ∨ ROrd.beq (lu ⟨0, hn⟩ c) 0 = true) →
      luScale lu 0 vv = .error (Panic.explicit "the matrix should be non zero")) ∧
    (¬ (∀ c, lu ⟨0, hn⟩ c = .nan ∨ ROrd.beq (lu ⟨0, hn⟩ c) 0 = true) → ∃ r, luScale lu 0 vv = .ok r) := by
  have h00 : ROrd.beq (0 : Flt f) 0 = true := (Flt.beq_zero_iff _).2 ⟨Flt.isFin_zero, rfl⟩
  have hrow : (∀ c, ¬ ROrd.lt 0 (RAbs.abs (lu ⟨0, hn⟩ c)) = true) ↔
      ∀ c, lu ⟨0, hn⟩ c = .nan ∨ ROrd.beq (lu ⟨0, hn⟩ c) 0 = true := by
    refine forall_congr' fun c => ?_
    rw [Flt.lt_zero_abs]
    tauto
  constructor
  · intro h
    obtain ⟨b, hb, -, hbz⟩ := row_flt lu 0 hn 0 (Or.inl h00)
    have hbz' := hbz.2 ⟨h00, hrow.2 h⟩
    unfold luScale
    rw [forRange_step _ _ hn]
    dsimp only
    rw [hb]
    simp only [bind, Except.bind, hbz', if_true]
    rfl
  · intro h
    rw [← hrow] at h
    obtain ⟨r, hs, -⟩ := forRange_invariant
      (fun i (s : Flt f × Vec n (Flt f)) => Zp s.1 ∧ (0 < i → ¬ ROrd.beq s.1 0 = true)) 0 n
      (Nat.zero_le _) ((0 : Flt f), vv)
      (fun i (big, vv) => do
        let big ← forRange 0 n big fun j big => do
          let temp := RAbs.abs (← lu.get i j)
          let big ← if ROrd.lt big temp then do
              let big := temp
              pure big
            else pure big
          pure big
        if ROrd.beq big 0 then do
          throw (Panic.explicit "the matrix should be non zero")
        let vv ← vv.set i (RFloat.recip big)
        pure (big, vv))
      ⟨Or.inl h00, fun h => absurd h (lt_irrefl _)⟩
      (fun i s _ hi hinv => by
        obtain ⟨big, vv⟩ := s
        obtain ⟨b, hb, hb0, hbz⟩ := row_flt lu i hi big hinv.1
        have hne : ¬ ROrd.beq b 0 = true := by
          intro hz
          obtain ⟨h1, h2⟩ := hbz.1 hz
          rcases Nat.eq_zero_or_pos i with h0 | h0
          · subst h0
            exact h h2
          · exact hinv.2 h0 h1
        refine ⟨(b, ⟨fun k => if k = ⟨i, hi⟩ then RFloat.recip b else vv.val k⟩), ?_, hb0, fun _ => hne⟩
        dsimp only
        rw [hb]
        simp only [bind, Except.bind, pure, Except.pure, hne,
          Bool.false_eq_true, if_false, Vec.set_ok _ _ hi])
    exact ⟨r, hs⟩

/-! ## A family of examples: all entries 1 -/

/-- All entries 1. -/
noncomputable def onesM (f : Fmt) (n : ℕ) : Mat n (Flt f) := ⟨fun _ _ => 1⟩

private theorem one_div_one : (1 : Flt f) / 1 = 1 := by
  change (open Classical in if (1 : ℝ) = 0 then _ else Flt.pack f (false != false) (1 / 1)) = _
  rw [if_neg one_ne_zero, div_one]
  exact Flt.pack_rep (Flt.rep_one f)

private theorem zero_div_fin {a b : Flt f} (ha : a.IsFin) (ha0 : a.toReal = 0) (hb : b.IsFin)
    (hb0 : b.toReal ≠ 0) : (a / b).IsFin ∧ (a / b).toReal = 0 := by
  have h1 : (a / b).IsFin := Flt.div_isFin ha hb hb0 (by rw [ha0]; simp; positivity)
  refine ⟨h1, ?_⟩
  rcases a with _ | s | ⟨s, x, hx⟩
  · exact absurd ha id
  · exact absurd ha id
  rcases b with _ | t | ⟨t, y, hy⟩
  · exact absurd hb id
  · exact absurd hb id
  have hx0 : x = 0 := Flt.sgn_eq_zero.1 ha0
  have hy0 : y ≠ 0 := fun h => hb0 (Flt.sgn_eq_zero.2 h)
  subst hx0
  change (open Classical in if y = 0 then _ else Flt.pack f (s != t) (0 / y) : Flt f).toReal = 0
  rw [if_neg hy0, zero_div, Flt.pack_rep f.rep_zero]
  exact Flt.sgn_eq_zero.2 rfl

private theorem zero_mul_zero {a b : Flt f} (ha : a.IsFin) (ha0 : a.toReal = 0) (hb : b.IsFin) :
    (a * b).IsFin ∧ (a * b).toReal = 0 := by
  rcases a with _ | s | ⟨s, x, hx⟩
  · exact absurd ha id
  · exact absurd ha id
  rcases b with _ | t | ⟨t, y, hy⟩
  · exact absurd hb id
  · exact absurd hb id
  have hx0 : x = 0 := Flt.sgn_eq_zero.1 ha0
  subst hx0
  change (Flt.pack f (s != t) (0 * y)).IsFin ∧ (Flt.pack f (s != t) (0 * y)).toReal = 0
  rw [zero_mul, Flt.pack_rep f.rep_zero]
  exact ⟨trivial, Flt.sgn_eq_zero.2 rfl⟩

private theorem sub_self_fin {a b : Flt f} (ha : a.IsFin) (hb : b.IsFin) (h : a.toReal = b.toReal) :
    (a - b).IsFin ∧ (a - b).toReal = 0 := by
  have := Flt.add_exact ha (Flt.isFin_neg.2 hb) (by
    rw [Flt.toReal_neg, h, add_neg_cancel, abs_zero]; exact f.rep_zero)
  rw [Flt.toReal_neg, h, add_neg_cancel] at this
  exact this

/-- On the matrix of ones the main loop ends with finite entries (for `n ≥ 2` with replaced pivots). -/
theorem luLoop_ones [L : Libm f] (ht : (L.lit1em40 : Flt f).IsFin) (h0 : (L.lit1em40 : Flt f).toReal ≠ 0)
    (b : Flt f) (vv : Vec n (Flt f)) (indx : Vec n ℕ) :
    ∃ b' M d vv' indx', forRange 0 n (b, onesM f n, 1, vv, indx) (luStep (RFloat.lit1em40 : Flt f)) =
        .ok (b', M, d, vv', indx') ∧ M.AllFin := by
  obtain ⟨⟨b', M, d, vv', indx'⟩, hs, hM, -⟩ :=
    forRange_invariant (fun k (s : Flt f × Mat n (Flt f) × Flt f × Vec n (Flt f) × Vec n ℕ) =>
      s.2.1.AllFin ∧ (k = 0 → s.2.1 = onesM f n) ∧
        (k ≠ 0 → ∀ i j : Fin n, k ≤ i.val → k ≤ j.val → (s.2.1 i j).toReal = 0))
      0 n (Nat.zero_le _) (b, onesM f n, 1, vv, indx) (luStep (RFloat.lit1em40 : Flt f))
      ⟨fun _ _ => trivial, fun _ => rfl, fun h => absurd rfl h⟩
      (fun k s _ hk hinv => by
        obtain ⟨b, M, d, vv, indx⟩ := s
        obtain ⟨hf, hz, hs⟩ := hinv
        dsimp only at hf hz hs
        obtain ⟨m, b', vv', hm, hkm, M1, M2, M3, h1, h2, h3, hstep⟩ :=
          luStep_gen (RFloat.lit1em40 : Flt f) k hk b d M vv indx
        refine ⟨_, hstep, ?_⟩
        dsimp only
        have hhigh := rowSwap_high k m hk hm hkm
        by_cases hk0 : k = 0
        · subst hk0
          have e1 (i j) : M1 i j = 1 := by rw [h1, hz rfl]; rfl
          have e2 (i j) : M2 i j = 1 := by
            have hb : ¬ ROrd.beq (1 : Flt f) 0 = true := by
              rw [Flt.beq_zero_iff]; simp
            rw [h2, e1, if_neg hb, e1, ite_self]
          have e3 (i j) : M3 i j = if 0 < i.val ∧ 0 < j.val then (1 : Flt f) - 1 else 1 := by
            rw [h3]
            simp only [e2, one_div_one, Flt.mul_one']
            by_cases hi : 0 < i.val
            · by_cases hj : j.val = 0
              · rw [if_pos hi, if_neg (by omega), if_pos hj, if_neg (by omega)]
              · rw [if_pos hi, if_neg (by omega), if_neg hj, if_pos (by omega)]
            · rw [if_neg hi, if_neg (by omega)]
          have e4 := sub_self_fin (f := f) (a := 1) (b := 1) trivial trivial rfl
          refine ⟨fun i j => ?_, fun h => absurd h (by omega), fun _ i j hi hj => ?_⟩
          · rw [e3]
            split
            · exact e4.1
            · trivial
          · rw [e3, if_pos ⟨by omega, by omega⟩]
            exact e4.2
        · have e1 (i j : Fin n) (hi : k ≤ i.val) (hj : k ≤ j.val) : (M1 i j).IsFin ∧ (M1 i j).toReal = 0 := by
            rw [h1]
            exact ⟨hf _ _, hs hk0 _ j (hhigh i hi) hj⟩
          have e2 : M2 ⟨k, hk⟩ ⟨k, hk⟩ = L.lit1em40 := by
            rw [h2, if_pos ⟨rfl, rfl⟩, if_pos ((Flt.beq_zero_iff _).2 (e1 _ _ le_rfl le_rfl))]
            rfl
          have e2f (i j : Fin n) : (M2 i j).IsFin := by
            by_cases hij : i = ⟨k, hk⟩ ∧ j = ⟨k, hk⟩
            · rw [hij.1, hij.2, e2]; exact ht
            · rw [h2, if_neg hij, h1]; exact hf _ _
          have e2z (i j : Fin n) (hi : k ≤ i.val) (hj : k ≤ j.val) (hij : ¬ (i = ⟨k, hk⟩ ∧ j = ⟨k, hk⟩)) :
              (M2 i j).toReal = 0 := by
            rw [h2, if_neg hij]; exact (e1 i j hi hj).2
          have ed (i : Fin n) (hi : k < i.val) : (M2 i ⟨k, hk⟩ / M2 ⟨k, hk⟩ ⟨k, hk⟩).IsFin ∧
              (M2 i ⟨k, hk⟩ / M2 ⟨k, hk⟩ ⟨k, hk⟩).toReal = 0 :=
            zero_div_fin (e2f _ _) (e2z _ _ hi.le le_rfl fun e => by rw [e.1] at hi; exact lt_irrefl _ hi)
              (e2f _ _) (by rw [e2]; exact h0)
          have es (i j : Fin n) (hi : k < i.val) (hj : k < j.val) :
              (M2 i j - M2 i ⟨k, hk⟩ / M2 ⟨k, hk⟩ ⟨k, hk⟩ * M2 ⟨k, hk⟩ j).IsFin ∧
              (M2 i j - M2 i ⟨k, hk⟩ / M2 ⟨k, hk⟩ ⟨k, hk⟩ * M2 ⟨k, hk⟩ j).toReal = 0 := by
            have := zero_mul_zero (ed i hi).1 (ed i hi).2 (e2f ⟨k, hk⟩ j)
            refine sub_self_fin (e2f _ _) this.1 ?_
            rw [this.2, e2z i j hi.le hj.le fun e => by rw [e.1] at hi; exact lt_irrefl _ hi]
          refine ⟨fun i j => ?_, fun h => absurd h (by omega), fun _ i j hi hj => ?_⟩
          · rw [h3]
            by_cases hi : k < i.val
            · rcases lt_trichotomy j.val k with hj | hj | hj
              · rw [if_pos hi, if_pos hj]; exact e2f _ _
              · have hj' : j = ⟨k, hk⟩ := Fin.ext hj
                rw [if_pos hi, if_neg (by omega), if_pos hj, hj']; exact (ed i hi).1
              · rw [if_pos hi, if_neg (by omega), if_neg (by omega)]; exact (es i j hi hj).1
            · rw [if_neg hi]; exact e2f _ _
          · have hi2 : k + 1 ≤ i.val := hi
            have hj2 : k + 1 ≤ j.val := hj
            rw [h3, if_pos (by omega), if_neg (by omega), if_neg (by omega)]
            exact (es i j (by omega) (by omega)).2)
  exact ⟨b', M, d, vv', indx', hs, hM⟩

end StaticMath
