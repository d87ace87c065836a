import Verif.Props.IeeeHomog
import Verif.Props.IeeeCompare
import Verif.Ieee.Rounded

/-!
# C153: the test for poses, `is_rotation_h`, in floating point

Its tolerance is `10⁻⁶`, so unlike `is_rotation` (C125) it leaves room for rounding. The literal `1e-6` is a float within `u` of
`10⁻⁶`.
-/

namespace StaticMath
open Flt

variable {f : Fmt}

private theorem det_block (M : Matrix (Fin 4) (Fin 4) ℝ) (h : ∀ j, M 3 j = if j = 3 then 1 else 0) : M.det = (rot3 M).det := by
  rw [Matrix.det_succ_row M 3, Fin.sum_univ_four, h, h, h, h]
  have e : M.submatrix (Fin.succAbove 3) (Fin.succAbove 3) = rot3 M := by
    ext i j
    fin_cases i <;> fin_cases j <;> rfl
  norm_num [Fin.ext_iff, e]

private theorem prod3_near {a b c x y z e : ℝ} (ha : |a| ≤ 1) (hb : |b| ≤ 1) (hc : |c| ≤ 1) (hx : |x - a| ≤ e) (hy : |y - b| ≤ e)
    (hz : |z - c| ≤ e) (he : e ≤ 1 / 1000) : |x * y * z - a * b * c| ≤ 301 / 100 * e := by
  have he0 : 0 ≤ e := (abs_nonneg _).trans hx
  have hx' : |x| ≤ 1 + e := by have := abs_sub_abs_le_abs_sub x a; linarith
  have hy' : |y| ≤ 1 + e := by have := abs_sub_abs_le_abs_sub y b; linarith
  have e1 : x * y * z - a * b * c = x * y * (z - c) + x * (y - b) * c + (x - a) * b * c := by ring
  have h1 : |x * y * (z - c)| ≤ (1 + e) * (1 + e) * e := by
    rw [abs_mul, abs_mul]
    exact mul_le_mul (mul_le_mul hx' hy' (abs_nonneg _) (by linarith)) hz (abs_nonneg _) (by positivity)
  have h2 : |x * (y - b) * c| ≤ (1 + e) * e * 1 := by
    rw [abs_mul, abs_mul]
    exact mul_le_mul (mul_le_mul hx' hy (abs_nonneg _) (by linarith)) hc (abs_nonneg _) (by positivity)
  have h3 : |(x - a) * b * c| ≤ e * 1 * 1 := by
    rw [abs_mul, abs_mul]
    exact mul_le_mul (mul_le_mul hx hb (abs_nonneg _) he0) hc (abs_nonneg _) (by positivity)
  have h4 := (abs_add_le (x * y * (z - c) + x * (y - b) * c) ((x - a) * b * c)).trans (add_le_add_left (abs_add_le _ _) _)
  rw [← e1] at h4
  have h5 : e * e ≤ 1 / 1000 * e := mul_le_mul_of_nonneg_right he he0
  have h6 : e * e * e ≤ 1 / 1000 * e := by
    calc e * e * e ≤ (1 / 1000 * e) * 1 := mul_le_mul h5 (by linarith) he0 (by positivity)
      _ = _ := mul_one _
  nlinarith

theorem det3_near {R S : Matrix (Fin 3) (Fin 3) ℝ} {e : ℝ} (hR : ∀ i j, |R i j| ≤ 1) (h : ∀ i j, |S i j - R i j| ≤ e)
    (he : e ≤ 1 / 1000) : |S.det - R.det| ≤ 1806 / 100 * e := by
  have t (i j k : Fin 3) (a b c : Fin 3) := prod3_near (hR i a) (hR j b) (hR k c) (h i a) (h j b) (h k c) he
  have t1 := abs_le.1 (t 0 1 2 0 1 2)
  have t2 := abs_le.1 (t 0 1 2 0 2 1)
  have t3 := abs_le.1 (t 0 1 2 1 0 2)
  have t4 := abs_le.1 (t 0 1 2 1 2 0)
  have t5 := abs_le.1 (t 0 1 2 2 0 1)
  have t6 := abs_le.1 (t 0 1 2 2 1 0)
  rw [Matrix.det_fin_three, Matrix.det_fin_three, abs_le]
  constructor <;> nlinarith

private theorem perm_pose (M : Fin 4 → Fin 4 → ℝ) {c : ℝ} (hc : 1 ≤ c) (hl : ∀ j, M 3 j = if j = 3 then 1 else 0)
    (hM : ∀ i j : Fin 3, |M i.castSucc j.castSucc| ≤ c) : (Matrix.of fun i j => |M i j|).permanent ≤ 24 * c ^ 3 := by
  rw [Matrix.permanent]
  have key (σ : Equiv.Perm (Fin 4)) : ∏ i, (Matrix.of fun i j => |M i j|) (σ i) i ≤ c ^ 3 := by
    by_cases h3 : σ 3 = 3
    · have hk (j : Fin 3) : |M (σ j.castSucc) j.castSucc| ≤ c := by
        have hne : σ j.castSucc ≠ 3 := fun h => by
          have : j.castSucc = (3 : Fin 4) := σ.injective (h.trans h3.symm)
          exact Fin.castSucc_ne_last j this
        obtain ⟨i, hi⟩ := Fin.exists_castSucc_eq.2 hne
        rw [← hi]
        exact hM i j
      rw [Fin.prod_univ_castSucc]
      have hl' : |M (σ (Fin.last 3)) (Fin.last 3)| = 1 := by
        rw [show σ (Fin.last 3) = 3 from h3, hl]
        exact (congrArg _ (if_pos rfl)).trans abs_one
      simp only [Matrix.of_apply]
      rw [hl', mul_one]
      refine (Finset.prod_le_prod (fun _ _ => abs_nonneg _) fun j _ => hk j).trans ?_
      simp
    · have : (Matrix.of fun i j => |M i j|) (σ (σ.symm 3)) (σ.symm 3) = 0 := by
        rw [Equiv.apply_symm_apply, Matrix.of_apply, hl, if_neg, abs_zero]
        intro h
        exact h3 (by rw [← h, Equiv.apply_symm_apply, h])
      have hz : ∏ i, (Matrix.of fun i j => |M i j|) (σ i) i = 0 :=
        Finset.prod_eq_zero (f := fun i => (Matrix.of fun i j => |M i j|) (σ i) i) (Finset.mem_univ (σ.symm 3)) this
      rw [hz]
      positivity
  refine (Finset.sum_le_sum fun σ _ => key σ).trans ?_
  rw [Finset.sum_const, Finset.card_univ, Fintype.card_perm, Fintype.card_fin, nsmul_eq_mul]
  norm_num [Nat.factorial]

private theorem u32 (hp : 32 ≤ f.p) : f.u ≤ 1 / 2 ^ 32 := by
  have : (2 : ℝ) ^ (-(f.p : ℤ)) ≤ (2 : ℝ) ^ (-(32 : ℤ)) := zpow_le_zpow_right₀ (by norm_num) (by omega)
  refine (show f.u ≤ (2 : ℝ) ^ (-(32 : ℤ)) from this).trans ?_
  norm_num

private theorem pow26 {u : ℝ} (h0 : 0 ≤ u) (h : u ≤ 1 / 2 ^ 32) : (1 + u) ^ 26 - 1 ≤ 27 * u ∧ (1 + u) ^ 26 ≤ 2 := by
  have h2 : (1 + u) ^ 26 ≤ 1 + 27 * u := by
    have h1 : 1 + u ≤ Real.exp u := by linarith [Real.add_one_le_exp u]
    have h3 : (1 + u) ^ 26 ≤ Real.exp (26 * u) := by
      rw [show (26 : ℝ) * u = ((26 : ℕ) : ℝ) * u by norm_num, Real.exp_nat_mul]
      exact pow_le_pow_left₀ (by linarith) h1 _
    have h4 := Real.abs_exp_sub_one_sub_id_le (x := 26 * u) (by rw [abs_of_nonneg (by positivity)]; norm_num at h ⊢; linarith)
    have h5 := (abs_le.1 h4).2
    nlinarith
  constructor
  · linarith
  · norm_num at h ⊢; linarith

/-- The computed determinant of a pose. -/
private theorem pose_det (hp : 32 ≤ f.p) {A : Mat 4 (Flt f)} {M : Matrix (Fin 4) (Fin 4) ℝ} {P ε : ℝ} (h : A.HClose M P ε)
    (hM : (rot3 M).det = 1) (hε : ε ≤ 3 / 10 ^ 8) (hov : 192 * (2 + 2 * P) ^ 4 ≤ (2 : ℝ) ^ f.emax)
    (hun : 72 * (2 + 2 * P) ^ 2 * f.eta ≤ f.u) : (M44.det A).IsFin ∧ |(M44.det A).toReal - 1| ≤ 8 / 10 ^ 7 := by
  obtain ⟨-, -, h0, hP⟩ := h.norms
  have hu0 := f.u_pos
  have hu := u32 hp
  obtain ⟨p1, p2⟩ := pow26 hu0.le hu
  have hB := h.bound (B := 2 + 2 * P) (by linarith) le_rfl
  have hfin : (M44.det A).IsFin := by
    refine (C103_no_overflow_M44 A A ⟨fun _ => 0⟩ ⟨fun _ => 0⟩ (2 + 2 * P) (by linarith) hB hB
      (fun _ => ⟨isFin_zero, by rw [toReal_zero, abs_zero]; linarith⟩) (fun _ => ⟨isFin_zero, by rw [toReal_zero, abs_zero]; linarith⟩)).1 ?_
    have h2 : (2 : ℝ) ^ (f.emax + 1) = (2 : ℝ) ^ f.emax * 2 := by rw [zpow_add₀ (by norm_num), zpow_one]
    have h3 : 0 < (2 + 2 * P) ^ 4 := by positivity
    have h4 : (1 + f.u) ^ 26 * (96 * (2 + 2 * P) ^ 4) ≤ 2 * (96 * (2 + 2 * P) ^ 4) := mul_le_mul_of_nonneg_right p2 (by positivity)
    rw [h2]
    linarith
  refine ⟨hfin, ?_⟩
  have hd := C102_det_M44 A (2 + 2 * P) (fun i j => (hB i j).2) hfin
  have hR1 (i j : Fin 3) : |rot3 M i j| ≤ 1 := by
    have h := congrFun (congrFun ((Matrix.mem_orthogonalGroup_iff (Fin 3) ℝ).1 h.orth) i) i
    rw [Matrix.mul_apply, Matrix.one_apply_eq] at h
    have hs : rot3 M i j * rot3 M i j ≤ ∑ k, rot3 M i k * (rot3 M).transpose k i :=
      Finset.single_le_sum (f := fun k => rot3 M i k * (rot3 M).transpose k i) (fun k _ => mul_self_nonneg (rot3 M i k)) (Finset.mem_univ j)
    exact abs_le_one_iff_mul_self_le_one.2 (hs.trans_eq h)
  have hS (i j : Fin 3) : |rot3 A.reM i j - rot3 M i j| ≤ ε := (frob_entry_le (rot3 A.reM - rot3 M) i j).trans h.rot
  have hdet : |(rot3 A.reM).det - 1| ≤ 1806 / 100 * ε := hM ▸ det3_near hR1 hS (by norm_num at hε ⊢; linarith)
  have hblk : (Matrix.of fun i j => (A i j).toReal).det = (rot3 A.reM).det := det_block A.reM h.last
  have hper : (Matrix.of fun i j => |(A i j).toReal|).permanent ≤ 24 * (1 + ε) ^ 3 := by
    refine perm_pose (fun i j => (A i j).toReal) (by linarith) h.last fun i j => ?_
    have h1 := hS i j
    have h2 := abs_sub_abs_le_abs_sub (rot3 A.reM i j) (rot3 M i j)
    have h3 := hR1 i j
    change |rot3 A.reM i j| ≤ _
    linarith
  have hc3 : (1 + ε) ^ 3 ≤ 101 / 100 := by
    calc (1 + ε) ^ 3 ≤ (1 + 3 / 10 ^ 8) ^ 3 := pow_le_pow_left₀ (by linarith) (by linarith) 3
      _ ≤ _ := by norm_num
  have t1 : ((1 + f.u) ^ 26 - 1) * (Matrix.of fun i j => |(A i j).toReal|).permanent ≤ 27 * f.u * (24 * (101 / 100)) :=
    mul_le_mul p1 (by linarith) (Finset.sum_nonneg fun σ _ => Finset.prod_nonneg fun i _ => abs_nonneg _) (by positivity)
  have t2 : (1 + f.u) ^ 26 * (f.eta * (24 * (1 + (2 + 2 * P) + (2 + 2 * P) ^ 2))) ≤ 2 * f.u := by
    have hη := f.eta_pos
    have : f.eta * (24 * (1 + (2 + 2 * P) + (2 + 2 * P) ^ 2)) ≤ f.u := by
      refine le_trans ?_ hun
      rw [mul_comm]
      refine mul_le_mul_of_nonneg_right ?_ hη.le
      nlinarith
    exact mul_le_mul p2 this (by positivity) (by norm_num)
  generalize (1 + f.u) ^ 26 = g at *
  rw [hblk] at hd
  have := abs_sub_le (M44.det A).toReal (rot3 A.reM).det 1
  norm_num at hu hε ⊢
  linarith

private theorem near_one [Libm f] (hp : 32 ≤ f.p) (hl : (RFloat.lit1em6 : Flt f).IsFin)
    (hl' : |(RFloat.lit1em6 : Flt f).toReal - 1 / 10 ^ 6| ≤ f.u) {d : Flt f} (hd : d.IsFin) (h : |d.toReal - 1| ≤ 8 / 10 ^ 7) :
    nearly_equal d 1 RFloat.lit1em6 = true := by
  have hu0 := f.u_pos
  have hu := u32 hp
  have hη := Fmt.eta_small (f := f) (by omega)
  have hη0 := f.eta_pos
  have h1 := abs_le.1 h
  have h2 := abs_le.1 hl'
  norm_num at h1 h2 hu
  have hd0 : 0 < d.toReal := by linarith
  refine C125_nearly_equal_complete d 1 _ hl hd isFin_one hd0.ne' (by rw [toReal_one]; exact one_ne_zero) ?_ ?_
  · rw [toReal_one, abs_one, abs_of_pos hd0]
    have h4 : (2 : ℝ) ^ (3 : ℤ) ≤ (2 : ℝ) ^ (f.emax + 1) := by
      have := f.hmax
      exact zpow_le_zpow_right₀ (by norm_num) (by omega)
    norm_num at h4
    have : (1 + f.u) * (d.toReal + 1) ≤ (1 + 1) * (2 + 1) := mul_le_mul (by linarith) (by linarith) (by linarith) (by norm_num)
    linarith
  · rw [toReal_one, abs_one, abs_of_pos hd0]
    have a1 : (1 + f.u) ^ 2 * |d.toReal - 1| ≤ (101 / 100) * (8 / 10 ^ 7) := by
      refine mul_le_mul ?_ h (abs_nonneg _) (by norm_num)
      nlinarith
    have a2 : (9 / 10 ^ 7 : ℝ) * (99 / 100 * (19 / 10)) ≤
        ((RFloat.lit1em6 : Flt f).toReal - f.eta) * ((1 - f.u) * (d.toReal + 1)) := by
      refine mul_le_mul ?_ (mul_le_mul (by linarith) (by linarith) (by norm_num) (by linarith)) (by norm_num) ?_
      · norm_num; linarith
      · linarith
    refine a1.trans_lt (lt_of_lt_of_le ?_ a2)
    norm_num

/-- In a format with at least 32 bits (`f64`), `is_rotation_h` accepts every float matrix that is a pose up to `10⁻⁸`: last row
`0 0 0 1`, rotation block within `10⁻⁸` of a rotation, any translation within the stated range. -/
theorem C153_accepts [Libm f] (hp : 32 ≤ f.p) (hl : (RFloat.lit1em6 : Flt f).IsFin)
    (hl' : |(RFloat.lit1em6 : Flt f).toReal - 1 / 10 ^ 6| ≤ f.u) (A : Mat 4 (Flt f)) (M : Matrix (Fin 4) (Fin 4) ℝ) {P ε : ℝ}
    (h : A.HClose M P ε) (hM : (rot3 M).det = 1) (hP : 1 / 8 ≤ P) (hε : ε ≤ 1 / 10 ^ 8)
    (hov : 192 * (2 + 4 * P) ^ 4 ≤ (2 : ℝ) ^ f.emax) (hun : 72 * (2 + 4 * P) ^ 2 * f.eta ≤ f.u) : is_rotation_h A = true := by
  obtain ⟨-, -, h0, -⟩ := h.norms
  have hu0 := f.u_pos
  have hu := u32 hp
  have hη := f.eta_pos
  have m2 : (2 + 2 * P) ^ 2 ≤ (2 + 4 * P) ^ 2 := pow_le_pow_left₀ (by linarith) (by linarith) 2
  have m4 : (2 + 2 * P) ^ 4 ≤ (2 + 4 * P) ^ 4 := pow_le_pow_left₀ (by linarith) (by linarith) 4
  have m6 : (2 + 4 * P) ^ 2 ≤ (2 + 4 * P) ^ 4 := pow_le_pow_right₀ (by linarith) (by norm_num)
  obtain ⟨f1, d1⟩ := pose_det hp h hM (hε.trans (by norm_num)) (by linarith)
    (le_trans (mul_le_mul_of_nonneg_right (mul_le_mul_of_nonneg_left m2 (by norm_num)) hη.le) hun)
  have hε2 : (1 + ε) * ((1 + ε) * (1 + 13 * f.u)) - 1 ≤ 3 / 10 ^ 8 := by
    norm_num at hu
    have : (1 + ε) * ((1 + ε) * (1 + 13 * f.u)) ≤ (1 + 1 / 10 ^ 8) * ((1 + 1 / 10 ^ 8) * (1 + 13 * (1 / 4294967296))) := by
      gcongr
    refine (sub_le_sub_right this 1).trans ?_
    norm_num
  have h2 : (M44.mul A A).HClose (M * M) ((1 + 1) * P) ((1 + ε) * ((1 + ε) * (1 + 13 * f.u)) - 1) := by
    refine hclose_mul (by omega) (by norm_num) hP (by rw [one_mul, add_sub_cancel_left]; exact h) h ?_ ?_
    · norm_num at hε2 ⊢; linarith
    · have : (2 + 2 * ((1 + 1) * P)) ^ 2 = (2 + 4 * P) ^ 2 := by ring
      rw [this]
      have : 0 ≤ (2 + 4 * P) ^ 4 := by positivity
      linarith
  have hMM : (rot3 (M * M)).det = 1 := by
    have hr : ∀ j, (M * M) 3 j = if j = 3 then 1 else 0 := h2.row
    rw [← det_block _ hr, Matrix.det_mul, det_block _ h.row, hM, one_mul]
  have e2 : (2 + 2 * ((1 + 1) * P)) = 2 + 4 * P := by ring
  obtain ⟨f2, d2⟩ := pose_det hp h2 hMM hε2 (by rw [e2]; exact hov) (by rw [e2]; exact hun)
  unfold is_rotation_h
  rw [Bool.and_eq_true]
  exact ⟨near_one hp hl hl' f1 d1, near_one hp hl hl' f2 d2⟩

/-- What a positive answer tells on floats: both determinants it computes are finite and within `2.01 10⁻⁶` of 1, and so is the
exact determinant up to its rounding error (C102). -/
theorem C153_sound [Libm f] (hp : 24 ≤ f.p) (hl : (RFloat.lit1em6 : Flt f).IsFin)
    (hl' : |(RFloat.lit1em6 : Flt f).toReal - 1 / 10 ^ 6| ≤ f.u / 200) (A : Mat 4 (Flt f)) (h : is_rotation_h A = true) :
    (M44.det A).IsFin ∧ |(M44.det A).toReal - 1| ≤ 201 / 10 ^ 8 ∧
    (M44.det (M44.mul A A)).IsFin ∧ |(M44.det (M44.mul A A)).toReal - 1| ≤ 201 / 10 ^ 8 ∧
    ∀ B, (∀ i j, |(A i j).toReal| ≤ B) → |(Matrix.of fun i j => (A i j).toReal).det - 1| ≤ 201 / 10 ^ 8 +
      (((1 + f.u) ^ 26 - 1) * (Matrix.of fun i j => |(A i j).toReal|).permanent +
        (1 + f.u) ^ 26 * (f.eta * (24 * (1 + B + B ^ 2)))) := by
  have hu0 := f.u_pos
  have hu : f.u ≤ 1 / 2 ^ 24 := by
    have : (2 : ℝ) ^ (-(f.p : ℤ)) ≤ (2 : ℝ) ^ (-(24 : ℤ)) := zpow_le_zpow_right₀ (by norm_num) (by omega)
    refine (show f.u ≤ (2 : ℝ) ^ (-(24 : ℤ)) from this).trans ?_
    norm_num
  have key (d : Flt f) (h : nearly_equal d 1 RFloat.lit1em6 = true) : d.IsFin ∧ |d.toReal - 1| ≤ 201 / 10 ^ 8 := by
    have e := abs_le.1 hl'
    rcases C125_nearly_equal_sound d 1 _ hl h with ⟨s, -, h1⟩ | ⟨hd, -, h1⟩
    · cases h1
    refine ⟨hd, ?_⟩
    rw [toReal_one, abs_one] at h1
    norm_num at e hu
    rcases h1 with h1 | ⟨h1 | h1, h2⟩ | ⟨-, -, h2⟩
    · rw [h1, sub_self, abs_zero]; norm_num
    · rw [h1, zero_sub, abs_neg, abs_one] at h2
      linarith
    · exact absurd h1 one_ne_zero
    · have h3 : |d.toReal| ≤ |d.toReal - 1| + 1 := by
        have := abs_add_le (d.toReal - 1) 1
        rwa [sub_add_cancel, abs_one] at this
      have h4 := abs_nonneg (d.toReal - 1)
      have h5 : (RFloat.lit1em6 : Flt f).toReal * ((1 + f.u) * (|d.toReal| + 1)) ≤
          1001 / 10 ^ 9 * ((1 + 1 / 65536) * (|d.toReal - 1| + 2)) := by
        refine mul_le_mul ?_ (mul_le_mul (by linarith) (by linarith) (by positivity) (by norm_num)) (by positivity) (by norm_num)
        norm_num
        linarith
      have h6 : (1 - 1 / 65536) * |d.toReal - 1| ≤ (1 - f.u) * |d.toReal - 1| := mul_le_mul_of_nonneg_right (by linarith) h4
      norm_num at h5 h6 ⊢
      linarith
  unfold is_rotation_h at h
  rw [Bool.and_eq_true] at h
  obtain ⟨f1, d1⟩ := key _ h.1
  obtain ⟨f2, d2⟩ := key _ h.2
  refine ⟨f1, d1, f2, d2, fun B hB => ?_⟩
  have h1 := C102_det_M44 A B hB f1
  have h2 := abs_sub_le (Matrix.of fun i j => (A i j).toReal).det (M44.det A).toReal 1
  rw [abs_sub_comm (Matrix.of fun i j => (A i j).toReal).det (M44.det A).toReal] at h2
  linarith

/-- A quarter turn with the translation `(1, 0, 1)` meets the hypotheses in `f64`. -/
example [Libm Fmt.f64] (hl : (RFloat.lit1em6 : Flt Fmt.f64).IsFin) (hl' : |(RFloat.lit1em6 : Flt Fmt.f64).toReal - 1 / 10 ^ 6| ≤ Fmt.f64.u) :
    is_rotation_h (hT : Mat 4 (Flt Fmt.f64)) = true := by
  refine C153_accepts (by decide) hl hl' _ _ hT_close ?_ (by norm_num) (by norm_num) ?_ ?_
  · simp [rot3, Mat.toM, Matrix.det_fin_three, hT]
  · calc (192 : ℝ) * (2 + 4 * 2) ^ 4 ≤ (2 : ℝ) ^ (30 : ℤ) := by norm_num
      _ ≤ _ := zpow_le_zpow_right₀ (by norm_num) (by decide)
  · have e1 : Fmt.f64.eta ≤ Fmt.f64.u * Fmt.f64.u := Fmt.eta_le_sq _
    have e2 : Fmt.f64.u ≤ 1 / 2 ^ 32 := u32 (by decide)
    have e3 := mul_le_mul_of_nonneg_right e2 Fmt.f64.u_pos.le
    norm_num at e3 ⊢
    linarith [Fmt.f64.u_pos]

/-- The correctly rounded literal meets the hypotheses about it. -/
example : let := correctLibm f; 8 ≤ f.p → (RFloat.lit1em6 : Flt f).IsFin ∧ |(RFloat.lit1em6 : Flt f).toReal - 1 / 10 ^ 6| ≤ f.u / 200 := by
  intro _ hp
  have h := Flt.Near.of_real (f := f) hp (r := 1 / 10 ^ 6) (B := 1 / 10 ^ 6) (by rw [abs_of_pos (by norm_num)]) (by norm_num)
  refine ⟨h.fin, h.err.trans ?_⟩
  have := f.u_pos
  norm_num
  linarith

end StaticMath
