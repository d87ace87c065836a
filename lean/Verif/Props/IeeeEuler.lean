import Verif.Props.IeeeExp
import Verif.Props.IeeeCompare
import Verif.Props.IeeeRot
import Verif.Props.Euler
import Verif.Ieee.Rounded
import Verif.Spec.LibmTurn

/-!
# C134: Euler angles of a rotation matrix in floating point
-/

namespace StaticMath
open Flt

section
variable {f : Fmt}

/-- Lengths in the plane differ by at most the distance. -/
private theorem len_sub (a b x y : ℝ) : |√(a ^ 2 + b ^ 2) - √(x ^ 2 + y ^ 2)| ≤ |a - x| + |b - y| := by
  have h := abs_norm_sub_norm_le (⟨a, b⟩ : ℂ) ⟨x, y⟩
  rw [Complex.norm_eq_sqrt_sq_add_sq, Complex.norm_eq_sqrt_sq_add_sq] at h
  exact h.trans (Complex.norm_le_abs_re_add_abs_im _)

/-- The direction of a perturbed point. -/
private theorem dir_near {a b x y s d : ℝ} (hs : 0 < s) (hxy : x ^ 2 + y ^ 2 = s ^ 2) (ha : |a - x| ≤ d) (hb : |b - y| ≤ d)
    (hd : 4 * d ≤ s) :
    |Real.cos (Complex.arg ⟨a, b⟩) - x / s| ≤ 3 * d / s ∧ |Real.sin (Complex.arg ⟨a, b⟩) - y / s| ≤ 3 * d / s := by
  obtain ⟨r, hr⟩ : ∃ r, r = √(a ^ 2 + b ^ 2) := ⟨_, rfl⟩
  have hr2 : r ^ 2 = a ^ 2 + b ^ 2 := by rw [hr, Real.sq_sqrt (by positivity)]
  have hrs : |r - s| ≤ 2 * d := by
    have := len_sub a b x y
    rw [hxy, Real.sqrt_sq hs.le, ← hr] at this
    linarith
  have h1 := abs_le.1 hrs
  have hr0 : 0 < r := by linarith
  obtain ⟨e1, e2⟩ := arg_sin_cos' a b r hr0 hr2.symm
  have key (u v : ℝ) (huv : |u - v| ≤ d) (hu : u ^ 2 ≤ r ^ 2) : |u / r - v / s| ≤ 3 * d / s := by
    have e : u / r - v / s = ((u - v) - u / r * (r - s)) / s := by field_simp; ring
    have h2 : |u / r| ≤ 1 := by
      rw [abs_div, abs_of_pos hr0, div_le_one hr0]
      exact abs_le_of_sq_le_sq hu hr0.le
    rw [e, abs_div, abs_of_pos hs, div_le_div_iff_of_pos_right hs]
    have h3 := abs_sub (u - v) (u / r * (r - s))
    rw [abs_mul] at h3
    have h4 := mul_le_mul h2 hrs (abs_nonneg _) zero_le_one
    linarith
  rw [e1, e2]
  exact ⟨key a x ha (by nlinarith [sq_nonneg b]), key b y hb (by nlinarith [sq_nonneg a])⟩

/-- Sine and cosine of a computed angle. -/
private theorem turn_near [L : Libm f] {ε : ℝ} (h : Atan2Turn f ε) (b a : Flt f) (hb : b.IsFin) (ha : a.IsFin)
    (h0 : b.toReal ≠ 0 ∨ a.toReal ≠ 0) :
    (L.atan2 b a).IsFin ∧
      |Real.cos (L.atan2 b a).toReal - Real.cos (Complex.arg ⟨a.toReal, b.toReal⟩)| ≤ ε ∧
      |Real.sin (L.atan2 b a).toReal - Real.sin (Complex.arg ⟨a.toReal, b.toReal⟩)| ≤ ε := by
  obtain ⟨h1, k, h2⟩ := h b a hb ha h0
  refine ⟨h1, ?_, ?_⟩
  · have := lc (L.atan2 b a).toReal (Complex.arg ⟨a.toReal, b.toReal⟩ + k * (2 * Real.pi))
    rw [Real.cos_add_int_mul_two_pi] at this
    exact this.trans h2
  · have := ls (L.atan2 b a).toReal (Complex.arg ⟨a.toReal, b.toReal⟩ + k * (2 * Real.pi))
    rw [Real.sin_add_int_mul_two_pi] at this
    exact this.trans h2

/-- Length of the first column without its last entry, as computed. -/
private theorem len_near (hp : 8 ≤ f.p) {a b : Flt f} (ha : a.IsFin) (hb : b.IsFin) (ha1 : |a.toReal| ≤ 2) (hb1 : |b.toReal| ≤ 2)
    (hn : 16 * f.u ≤ √(a.toReal ^ 2 + b.toReal ^ 2)) :
    Near (Flt.sqrt (a * a + b * b)) √(a.toReal ^ 2 + b.toReal ^ 2) (4 * f.u * √(a.toReal ^ 2 + b.toReal ^ 2) + f.u) := by
  have hu := f.u_pos
  have hu2 := Fmt.u_le_of_p hp
  have hη := f.eta_le_sq
  have hη0 := f.eta_pos
  have q (x : ℝ) (h : |x| ≤ 2) : x ^ 2 ≤ 4 := by
    rw [← sq_abs]; nlinarith [abs_nonneg x]
  have qa := q _ ha1
  have qb := q _ hb1
  have sqm {x : Flt f} (hx : x.IsFin) (h : x.toReal ^ 2 ≤ 4) :
      (x * x).IsFin ∧ |(x * x).toReal - x.toReal ^ 2| ≤ f.u * x.toReal ^ 2 + f.eta := by
    have e : |x.toReal * x.toReal| = x.toReal ^ 2 := by rw [← sq, abs_of_nonneg (sq_nonneg _)]
    have h1 : (x * x).IsFin := mul_isFin hx hx (by rw [e]; exact Fmt.range_of_p hp (by linarith))
    have h2 := mul_err h1
    rw [e, ← sq] at h2
    exact ⟨h1, h2⟩
  obtain ⟨fa, ea⟩ := sqm ha qa
  obtain ⟨fb, eb⟩ := sqm hb qb
  obtain ⟨W, hW⟩ : ∃ W, W = a.toReal ^ 2 + b.toReal ^ 2 := ⟨_, rfl⟩
  have hW8 : W ≤ 8 := by linarith
  have hW0 : 0 ≤ W := by rw [hW]; positivity
  have e1 : |(a * a).toReal + (b * b).toReal - W| ≤ f.u * W + 2 * f.eta := by
    have := abs_add_le ((a * a).toReal - a.toReal ^ 2) ((b * b).toReal - b.toReal ^ 2)
    rw [show (a * a).toReal - a.toReal ^ 2 + ((b * b).toReal - b.toReal ^ 2) = (a * a).toReal + (b * b).toReal - W by
      rw [hW]; ring] at this
    have e : f.u * W = f.u * a.toReal ^ 2 + f.u * b.toReal ^ 2 := by rw [hW]; ring
    linarith
  obtain ⟨N, hN⟩ : ∃ N, N = √W := ⟨_, rfl⟩
  have hN2 : N ^ 2 = W := by rw [hN, Real.sq_sqrt hW0]
  rw [← hW, ← hN] at hn ⊢
  have hN0 : 0 < N := by linarith
  have uW : f.u * W ≤ 1 / 256 * W := mul_le_mul_of_nonneg_right hu2 hW0
  have uu : f.u * f.u ≤ W / 256 := by nlinarith
  have e2 : |(a * a).toReal + (b * b).toReal| ≤ W * (3 / 2) := by
    have := abs_sub_abs_le_abs_sub ((a * a).toReal + (b * b).toReal) W
    rw [abs_of_nonneg hW0] at this
    linarith
  have f1 : (a * a + b * b).IsFin := add_isFin fa fb (Fmt.range_of_p hp (by linarith))
  have e3 := add_rel f1
  have e4 : |(a * a + b * b).toReal - W| ≤ 5 / 2 * f.u * W + 2 * f.eta := by
    have := abs_sub_le (a * a + b * b).toReal ((a * a).toReal + (b * b).toReal) W
    have h5 := mul_le_mul_of_nonneg_left e2 hu.le
    linarith
  have hnear : Near (a * a + b * b) W (5 / 2 * f.u * W + 2 * f.eta) := ⟨f1, e4⟩
  rw [hN]
  refine hnear.sqrt (c := N) (B := N * (5 / 4)) hN0 (by rw [hN2]) (by linarith) (by linarith) ?_ ?_
  · rw [mul_pow, hN2]
    linarith
  · rw [← hN]
    have e5 : (5 / 2 * f.u * W + 2 * f.eta) / N = 5 / 2 * f.u * N + 2 * f.eta / N := by
      rw [← hN2]; field_simp
    have e6 : 2 * f.eta / N ≤ f.u := by
      rw [div_le_iff₀ hN0]
      nlinarith
    have : 0 ≤ f.u * N := by positivity
    rw [e5]
    linarith

/-- A computed angle that compares equal to a quarter turn has a small cosine. -/
private theorem quarter [L : Libm f] (hp : 8 ≤ f.p) {ε : ℝ} (h2 : |ε| ≤ 1 / 64) (p h : Flt f) (c : ℝ)
    (hc : c = Real.pi / 2 ∨ c = -(Real.pi / 2)) (hh : |h.toReal - c| ≤ ε) (hhf : h.IsFin)
    (hn : nearly_equal p h RFloat.epsilon = true) : Real.cos p.toReal ≤ 8 * f.u + ε := by
  have hu := f.u_pos
  have hu2 := Fmt.u_le_of_p hp
  have hpi := Real.pi_lt_d2
  have hpi3 := Real.pi_gt_three
  have h2' := (abs_le.1 h2).2
  have ee : (epsilon f).toReal = 2 * f.u := by
    change (2 : ℝ) ^ (1 - (f.p : ℤ)) = 2 * (2 : ℝ) ^ (-(f.p : ℤ))
    rw [sub_eq_add_neg, zpow_add₀ (by norm_num), zpow_one]
  have hc' : |c| = Real.pi / 2 := by
    rcases hc with rfl | rfl
    · exact abs_of_pos (by linarith)
    · rw [abs_neg, abs_of_pos (by linarith)]
  have hb1 : |h.toReal| ≤ 8 / 5 := by
    have := abs_sub_abs_le_abs_sub h.toReal c
    rw [hc'] at this
    linarith
  have hb2 : 1 ≤ |h.toReal| := by
    have := abs_sub_abs_le_abs_sub c h.toReal
    rw [hc', abs_sub_comm] at this
    linarith
  have hd : |p.toReal - h.toReal| ≤ 8 * f.u := by
    rcases C125_nearly_equal_sound p h (epsilon f) trivial hn with ⟨s, -, h1⟩ | ⟨hd, -, h1⟩
    · rw [h1] at hhf; exact absurd hhf id
    rw [ee] at h1
    rcases h1 with h1 | ⟨h1 | h1, h3⟩ | ⟨-, -, h3⟩
    · rw [h1, sub_self, abs_zero]; linarith
    · linarith
    · linarith
    · have h4 : |p.toReal| ≤ |p.toReal - h.toReal| + |h.toReal| := by
        have := abs_add_le (p.toReal - h.toReal) h.toReal
        rwa [sub_add_cancel] at this
      have h5 := abs_nonneg (p.toReal - h.toReal)
      by_contra hcon
      push Not at hcon
      have h6 : 2 * f.u * ((1 + f.u) * (|p.toReal| + |h.toReal|)) ≤
          2 * f.u * ((1 + 1 / 256) * (|p.toReal - h.toReal| + 16 / 5)) :=
        mul_le_mul_of_nonneg_left (mul_le_mul (by linarith) (by linarith) (by positivity) (by norm_num)) (by linarith)
      have h7 : (1 - 1 / 256) * |p.toReal - h.toReal| ≤ (1 - f.u) * |p.toReal - h.toReal| :=
        mul_le_mul_of_nonneg_right (by linarith) h5
      have h8 : 2 * f.u * ((1 + 1 / 256) * |p.toReal - h.toReal|) ≤ 2 * (1 / 256) * ((1 + 1 / 256) * |p.toReal - h.toReal|) :=
        mul_le_mul_of_nonneg_right (by linarith) (by positivity)
      nlinarith
  have h9 : |p.toReal - c| ≤ 8 * f.u + ε := (abs_sub_le _ h.toReal _).trans (by linarith)
  refine le_trans ?_ h9
  rcases hc with rfl | rfl
  · rw [← Real.sin_pi_div_two_sub, abs_sub_comm]
    exact (le_abs_self _).trans Real.abs_sin_le_abs
  · rw [← Real.sin_add_pi_div_two, sub_neg_eq_add]
    exact (le_abs_self _).trans Real.abs_sin_le_abs

private theorem neg_one_mul_val (x : Flt f) : (-1 : Flt f) * x = -x := by
  change Flt.mul (fin true 1 (rep_one f)) x = Flt.neg x
  rcases x with _ | s | ⟨s, x, hx⟩
  · rfl
  · simp [Flt.mul, Flt.neg]
  · simp only [Flt.mul, Flt.neg, one_mul]
    rw [pack_rep hx]
    cases s <;> rfl

/-- The branch taken when the cosine of the pitch is not small. -/
private theorem generic_flt [L : Libm f] (hp : 8 ≤ f.p) {ε : ℝ} (h2 : |ε| ≤ 1 / 64) (hπ : FracPi2Acc f ε) (A : Mat 3 (Flt f))
    (hc : 8 * f.u + ε < Real.cos (L.atan2 (-A 2 0) (Flt.sqrt (A 0 0 * A 0 0 + A 1 0 * A 1 0))).toReal) :
    rotation_to_euler A = (L.atan2 (A 1 0) (A 0 0), L.atan2 (-A 2 0) (Flt.sqrt (A 0 0 * A 0 0 + A 1 0 * A 1 0)),
      L.atan2 (A 2 1) (A 2 2)) := by
  have e1 := neg_one_mul_val L.frac_pi_2
  unfold rotation_to_euler
  dsimp only
  rw [if_neg, if_neg]
  · rfl
  · intro h
    exact absurd (quarter hp h2 _ L.frac_pi_2 _ (Or.inl rfl) hπ.2 hπ.1 h) (not_le.2 hc)
  · intro h
    refine absurd (quarter hp h2 _ (-L.frac_pi_2) _ (Or.inr rfl) ?_ (isFin_neg.2 hπ.1) (e1 ▸ h)) (not_le.2 hc)
    rw [toReal_neg, ← neg_sub', abs_neg]
    exact hπ.2

/-- Entries of the product of the three rotations, for sines and cosines known up to an error. -/
private theorem euler_move [RealParams] (y p r cy sy cp sp cr sr ey ep er : ℝ)
    (bcp : |cp| ≤ 1) (bsp : |sp| ≤ 1) (bcr : |cr| ≤ 1) (bsr : |sr| ≤ 1)
    (hcy : |Real.cos y - cy| ≤ ey) (hsy : |Real.sin y - sy| ≤ ey) (hcp : |Real.cos p - cp| ≤ ep) (hsp : |Real.sin p - sp| ≤ ep)
    (hcr : |Real.cos r - cr| ≤ er) (hsr : |Real.sin r - sr| ≤ er) (R : Mat 3 ℝ)
    (h00 : cy * cp = R 0 0) (h01 : cy * sp * sr - sy * cr = R 0 1) (h02 : cy * sp * cr + sy * sr = R 0 2)
    (h10 : sy * cp = R 1 0) (h11 : sy * sp * sr + cy * cr = R 1 1) (h12 : sy * sp * cr - cy * sr = R 1 2)
    (h20 : -sp = R 2 0) (h21 : cp * sr = R 2 1) (h22 : cp * cr = R 2 2) (i j : Fin 3) :
    |euler_to_rotation y p r none i j - R i j| ≤ 2 * ey + ep + 2 * er := by
  have y0 := (abs_nonneg _).trans hcy
  have p0 := (abs_nonneg _).trans hcp
  have r0 := (abs_nonneg _).trans hcr
  have Cy := Real.abs_cos_le_one y
  have Sy := Real.abs_sin_le_one y
  have Cp := Real.abs_cos_le_one p
  have Sp := Real.abs_sin_le_one p
  have two (a b c d e e' : ℝ) (ha : |a| ≤ 1) (hd : |d| ≤ 1) (h : |a - c| ≤ e) (h' : |b - d| ≤ e') :
      |a * b - c * d| ≤ e + e' := by
    have e1 : a * b - c * d = a * (b - d) + (a - c) * d := by ring
    rw [e1]
    refine (abs_add_le _ _).trans ?_
    rw [abs_mul, abs_mul]
    have m1 := mul_le_mul ha h' (abs_nonneg _) zero_le_one
    have m2 := mul_le_mul h hd (abs_nonneg _) ((abs_nonneg _).trans h)
    linarith
  have le1 (a b : ℝ) (ha : |a| ≤ 1) (hb : |b| ≤ 1) : |a * b| ≤ 1 := by
    rw [abs_mul]
    exact mul_le_one₀ ha (abs_nonneg _) hb
  have add' (a b c d e e' B : ℝ) (h : |a - c| ≤ e) (h' : |b - d| ≤ e') (hB : e + e' ≤ B) : |a + b - (c + d)| ≤ B := by
    rw [show a + b - (c + d) = (a - c) + (b - d) by ring]
    exact (abs_add_le _ _).trans (by linarith)
  have sub' (a b c d e e' B : ℝ) (h : |a - c| ≤ e) (h' : |b - d| ≤ e') (hB : e + e' ≤ B) : |a - b - (c - d)| ≤ B := by
    rw [show a - b - (c - d) = (a - c) - (b - d) by ring]
    exact (abs_sub _ _).trans (by linarith)
  have e : euler_to_rotation y p r none = ⟨![
      ![Real.cos y * Real.cos p, Real.cos y * Real.sin p * Real.sin r - Real.sin y * Real.cos r,
        Real.cos y * Real.sin p * Real.cos r + Real.sin y * Real.sin r],
      ![Real.sin y * Real.cos p, Real.sin y * Real.sin p * Real.sin r + Real.cos y * Real.cos r,
        Real.sin y * Real.sin p * Real.cos r - Real.cos y * Real.sin r],
      ![-Real.sin p, Real.cos p * Real.sin r, Real.cos p * Real.cos r]]⟩ :=
    euler_entries y p r _ rfl rfl rfl rfl rfl rfl rfl rfl rfl
  rw [e]
  have syp := two _ _ _ _ _ _ Sy bsp hsy hsp
  have cyp := two _ _ _ _ _ _ Cy bsp hcy hsp
  fin_cases i <;> fin_cases j
  · change |Real.cos y * Real.cos p - R 0 0| ≤ _
    rw [← h00]
    exact (two _ _ _ _ _ _ Cy bcp hcy hcp).trans (by linarith)
  · change |Real.cos y * Real.sin p * Real.sin r - Real.sin y * Real.cos r - R 0 1| ≤ _
    rw [← h01]
    exact sub' _ _ _ _ _ _ _ (two _ _ _ _ _ _ (le1 _ _ Cy Sp) bsr cyp hsr) (two _ _ _ _ _ _ Sy bcr hsy hcr) (by linarith)
  · change |Real.cos y * Real.sin p * Real.cos r + Real.sin y * Real.sin r - R 0 2| ≤ _
    rw [← h02]
    exact add' _ _ _ _ _ _ _ (two _ _ _ _ _ _ (le1 _ _ Cy Sp) bcr cyp hcr) (two _ _ _ _ _ _ Sy bsr hsy hsr) (by linarith)
  · change |Real.sin y * Real.cos p - R 1 0| ≤ _
    rw [← h10]
    exact (two _ _ _ _ _ _ Sy bcp hsy hcp).trans (by linarith)
  · change |Real.sin y * Real.sin p * Real.sin r + Real.cos y * Real.cos r - R 1 1| ≤ _
    rw [← h11]
    exact add' _ _ _ _ _ _ _ (two _ _ _ _ _ _ (le1 _ _ Sy Sp) bsr syp hsr) (two _ _ _ _ _ _ Cy bcr hcy hcr) (by linarith)
  · change |Real.sin y * Real.sin p * Real.cos r - Real.cos y * Real.sin r - R 1 2| ≤ _
    rw [← h12]
    exact sub' _ _ _ _ _ _ _ (two _ _ _ _ _ _ (le1 _ _ Sy Sp) bcr syp hcr) (two _ _ _ _ _ _ Cy bsr hcy hsr) (by linarith)
  · change |-Real.sin p - R 2 0| ≤ _
    rw [← h20, ← neg_sub', abs_neg]
    linarith
  · change |Real.cos p * Real.sin r - R 2 1| ≤ _
    rw [← h21]
    exact (two _ _ _ _ _ _ Cp bsr hcp hsr).trans (by linarith)
  · change |Real.cos p * Real.cos r - R 2 2| ≤ _
    rw [← h22]
    exact (two _ _ _ _ _ _ Cp bcr hcp hcr).trans (by linarith)

private theorem rot_facts (R : Mat 3 ℝ) (hR : IsRot R) {s : ℝ} (hs2 : s ^ 2 = R 0 0 ^ 2 + R 1 0 ^ 2) :
    s ≤ 1 ∧ R 2 2 ^ 2 + R 2 1 ^ 2 = s ^ 2 ∧ s ^ 2 + (-R 2 0) ^ 2 = 1 ^ 2 ∧ |R 0 0| ≤ 1 ∧ |R 1 0| ≤ 1 ∧ |R 2 0| ≤ 1 := by
  have h1 := (SO3Rels.of_mem hR).c00
  have h2 := (SO3Rels.of_mem hR).r22
  have one (x : ℝ) (h : x ^ 2 ≤ 1) : |x| ≤ 1 := (sq_le_one_iff_abs_le_one x).1 h
  have a := sq_nonneg (R 0 0)
  have b := sq_nonneg (R 1 0)
  have c := sq_nonneg (R 2 0)
  exact ⟨(le_abs_self s).trans (one s (by linarith)), by linarith, by rw [neg_sq]; linarith, one _ (by linarith),
    one _ (by linarith), one _ (by linarith)⟩

private theorem rot_angles (R : Mat 3 ℝ) (hR : IsRot R) {s : ℝ} (hs0 : 0 < s) (hs2 : s ^ 2 = R 0 0 ^ 2 + R 1 0 ^ 2) :
    (R 0 0 / s * -R 2 0 * (R 2 1 / s) - R 1 0 / s * (R 2 2 / s) = R 0 1 ∧
      R 0 0 / s * -R 2 0 * (R 2 2 / s) + R 1 0 / s * (R 2 1 / s) = R 0 2) ∧
    (R 1 0 / s * -R 2 0 * (R 2 1 / s) + R 0 0 / s * (R 2 2 / s) = R 1 1 ∧
      R 1 0 / s * -R 2 0 * (R 2 2 / s) - R 0 0 / s * (R 2 1 / s) = R 1 2) := by
  obtain ⟨r00, r11, r22, r01, r02, r12, c00, c11, c22, c01, c02, c12, k00, k01, k02, k10, k11, k12,
    k20, k21, k22, -⟩ := SO3Rels.of_mem hR
  have hne := hs0.ne'
  refine ⟨⟨?_, ?_⟩, ?_, ?_⟩
  · field_simp
    rw [hs2]
    linear_combination -R 0 0 * c01 - R 1 0 * k22
  · field_simp
    rw [hs2]
    linear_combination -R 0 0 * c02 + R 1 0 * k21
  · field_simp
    rw [hs2]
    linear_combination -R 1 0 * c01 + R 0 0 * k22
  · field_simp
    rw [hs2]
    linear_combination -R 1 0 * c02 - R 0 0 * k21

/-- Sine and cosine of the three computed angles. -/
theorem rotation_to_euler_near [Libm f] (hp : 8 ≤ f.p) {δ ε : ℝ} (hA2 : Atan2Turn f ε)
    (hπ : FracPi2Acc f ε) (R : Mat 3 ℝ) (hR : IsRot R) (A : Mat 3 (Flt f)) (hA : ∀ i j, (A i j).IsFin ∧ |(A i j).toReal - R i j| ≤ δ)
    {s : ℝ} (hs' : s = √(R 0 0 ^ 2 + R 1 0 ^ 2)) (hs : 64 * (δ + ε + f.u) ≤ s) :
    let e := rotation_to_euler A
    (e.1.IsFin ∧ e.2.1.IsFin ∧ e.2.2.IsFin) ∧
    (|Real.cos e.1.toReal - R 0 0 / s| ≤ ε + 3 * δ / s ∧ |Real.sin e.1.toReal - R 1 0 / s| ≤ ε + 3 * δ / s) ∧
    (|Real.cos e.2.1.toReal - s| ≤ ε + 3 * (2 * δ + 12 * f.u) ∧ |Real.sin e.2.1.toReal - -R 2 0| ≤ ε + 3 * (2 * δ + 12 * f.u)) ∧
    (|Real.cos e.2.2.toReal - R 2 2 / s| ≤ ε + 3 * δ / s ∧ |Real.sin e.2.2.toReal - R 2 1 / s| ≤ ε + 3 * δ / s) := by
  have hu := f.u_pos
  have hε0 : 0 ≤ ε := (abs_nonneg _).trans hπ.2
  have hδ0 : 0 ≤ δ := (abs_nonneg _).trans (hA 0 0).2
  have hs2 : s ^ 2 = R 0 0 ^ 2 + R 1 0 ^ 2 := by rw [hs', Real.sq_sqrt (by positivity)]
  have hs0 : 0 < s := by linarith
  obtain ⟨hs1, hr2, hunit, b00, b10, b20⟩ := rot_facts R hR hs2
  have le2 (i j : Fin 3) (h : |R i j| ≤ 1) : |(A i j).toReal| ≤ 2 := by
    have := abs_sub_abs_le_abs_sub (A i j).toReal (R i j)
    linarith [(hA i j).2]
  -- the computed length
  have hlen := len_sub (A 0 0).toReal (A 1 0).toReal (R 0 0) (R 1 0)
  rw [← hs'] at hlen
  have hlen' := _root_.abs_le.1 hlen
  have h00 := (hA 0 0).2
  have h10 := (hA 1 0).2
  have hl := len_near hp (hA 0 0).1 (hA 1 0).1 (le2 _ _ b00) (le2 _ _ b10) (by linarith)
  obtain ⟨N, hN⟩ : ∃ N, N = √((A 0 0).toReal ^ 2 + (A 1 0).toReal ^ 2) := ⟨_, rfl⟩
  rw [← hN] at hl hlen hlen'
  have hN2 : f.u * N ≤ f.u * (33 / 32) := mul_le_mul_of_nonneg_left (by linarith) hu.le
  obtain ⟨x, hx⟩ : ∃ x, x = Flt.sqrt (A 0 0 * A 0 0 + A 1 0 * A 1 0) := ⟨_, rfl⟩
  rw [← hx] at hl
  have hxs : |x.toReal - s| ≤ 2 * δ + 12 * f.u := by
    have := abs_sub_le x.toReal N s
    linarith [hl.err]
  have hy20 : |(-A 2 0).toReal - -R 2 0| ≤ 2 * δ + 12 * f.u := by
    rw [toReal_neg, ← neg_sub', abs_neg]
    linarith [(hA 2 0).2]
  obtain ⟨dc, ds⟩ := dir_near one_pos hunit hxs hy20 (by linarith)
  rw [div_one, div_one] at dc ds
  have hx0 : x.toReal ≠ 0 := by
    have := (_root_.abs_le.1 hxs).1
    intro h
    rw [h] at this
    linarith
  obtain ⟨fp, tc, ts⟩ := turn_near hA2 (-A 2 0) x (isFin_neg.2 (hA 2 0).1) hl.fin (Or.inr hx0)
  have pc := (abs_sub_le _ _ _).trans (add_le_add tc dc)
  have ps := (abs_sub_le _ _ _).trans (add_le_add ts ds)
  have hgen := generic_flt hp (by rw [abs_of_nonneg hε0]; linarith) hπ A (by
    rw [← hx]
    have := (_root_.abs_le.1 pc).1
    linarith)
  intro e
  have he : e = _ := hgen
  rw [← hx] at he
  clear_value e
  subst he
  -- yaw and roll
  have hne (i j k l : Fin 3) (h : R i j ^ 2 + R k l ^ 2 = s ^ 2) : (A k l).toReal ≠ 0 ∨ (A i j).toReal ≠ 0 := by
    by_contra hcon
    push Not at hcon
    have e1 := (hA i j).2
    have e2 := (hA k l).2
    have e3 := len_sub (A i j).toReal (A k l).toReal (R i j) (R k l)
    rw [h, Real.sqrt_sq hs0.le, hcon.1, hcon.2] at e3
    rw [hcon.2] at e1
    rw [hcon.1] at e2
    simp only [ne_eq, OfNat.ofNat_ne_zero, not_false_eq_true, zero_pow, add_zero, Real.sqrt_zero, zero_sub, abs_neg] at e1 e2 e3
    rw [abs_of_pos hs0] at e3
    linarith
  obtain ⟨fy, yc, ys⟩ := turn_near hA2 (A 1 0) (A 0 0) (hA 1 0).1 (hA 0 0).1 (hne 0 0 1 0 hs2.symm)
  obtain ⟨fr, rc, rs⟩ := turn_near hA2 (A 2 1) (A 2 2) (hA 2 1).1 (hA 2 2).1 (hne 2 2 2 1 hr2)
  obtain ⟨ydc, yds⟩ := dir_near hs0 hs2.symm h00 h10 (by linarith)
  obtain ⟨rdc, rds⟩ := dir_near hs0 hr2 (hA 2 2).2 (hA 2 1).2 (by linarith)
  exact ⟨⟨fy, fp, fr⟩, ⟨(abs_sub_le _ _ _).trans (add_le_add yc ydc), (abs_sub_le _ _ _).trans (add_le_add ys yds)⟩, ⟨pc, ps⟩,
    (abs_sub_le _ _ _).trans (add_le_add rc rdc), (abs_sub_le _ _ _).trans (add_le_add rs rds)⟩

/-- Missing with respect to C134: matrices closer to gimbal lock than `64 (δ + ε + u)`; there the result may be any rotation
with the right pitch (`C134_near_gimbal_lock_false`).

A float matrix within `δ` of a rotation `R` whose pitch `p` has cosine `s = √(R₀₀² + R₁₀²)`: the three angles are finite, and
the rotation they stand for is within `18 δ / s + 5 ε + 36 u` of `R` in every entry; here `ε` bounds the error of `atan2` and of
the constant `FRAC_PI_2`. -/
theorem C134_rotation_to_euler_partial [Libm f] [RealParams] (hp : 8 ≤ f.p) {δ ε : ℝ} (hA2 : Atan2Turn f ε)
    (hπ : FracPi2Acc f ε) (R : Mat 3 ℝ) (hR : IsRot R) (A : Mat 3 (Flt f)) (hA : ∀ i j, (A i j).IsFin ∧ |(A i j).toReal - R i j| ≤ δ)
    (hs : 64 * (δ + ε + f.u) ≤ √(R 0 0 ^ 2 + R 1 0 ^ 2)) :
    let e := rotation_to_euler A
    e.1.IsFin ∧ e.2.1.IsFin ∧ e.2.2.IsFin ∧
    ∀ i j, |euler_to_rotation e.1.toReal e.2.1.toReal e.2.2.toReal none i j - R i j| ≤
      18 * δ / √(R 0 0 ^ 2 + R 1 0 ^ 2) + 5 * ε + 36 * f.u := by
  have hu := f.u_pos
  have hε0 : 0 ≤ ε := (abs_nonneg _).trans hπ.2
  have hδ0 : 0 ≤ δ := (abs_nonneg _).trans (hA 0 0).2
  obtain ⟨s, hs'⟩ : ∃ s, s = √(R 0 0 ^ 2 + R 1 0 ^ 2) := ⟨_, rfl⟩
  rw [← hs'] at hs ⊢
  have hs2 : s ^ 2 = R 0 0 ^ 2 + R 1 0 ^ 2 := by rw [hs', Real.sq_sqrt (by positivity)]
  have hs0 : 0 < s := by linarith
  obtain ⟨hs1, hr2, hunit, b00, b10, b20⟩ := rot_facts R hR hs2
  obtain ⟨⟨fy, fp, fr⟩, ⟨yc, ys⟩, ⟨pc, ps⟩, rc, rs⟩ := rotation_to_euler_near hp hA2 hπ R hR A hA hs' hs
  refine ⟨fy, fp, fr, fun i j => ?_⟩
  obtain ⟨⟨e01, e02⟩, e11, e12⟩ := rot_angles R hR hs0 hs2
  have q (x : ℝ) (h : x ^ 2 ≤ s ^ 2) : |x / s| ≤ 1 := by
    rw [abs_div, abs_of_pos hs0, div_le_one hs0]
    exact abs_le_of_sq_le_sq h hs0.le
  have hne' := hs0.ne'
  refine (euler_move _ _ _ (R 0 0 / s) (R 1 0 / s) s (-R 2 0) (R 2 2 / s) (R 2 1 / s) (ε + 3 * δ / s)
    (ε + 3 * (2 * δ + 12 * f.u)) (ε + 3 * δ / s) (by rwa [abs_of_pos hs0]) (by rwa [abs_neg])
    (q _ (by rw [← hr2]; exact le_add_of_nonneg_right (sq_nonneg _)))
    (q _ (by rw [← hr2]; exact le_add_of_nonneg_left (sq_nonneg _)))
    yc ys pc ps rc rs R
    (div_mul_cancel₀ _ hne') e01 e02 (div_mul_cancel₀ _ hne') e11 e12 (neg_neg _) (mul_div_cancel₀ _ hne')
    (mul_div_cancel₀ _ hne') i j).trans ?_
  · have e1 : 18 * δ / s = 12 * δ / s + 6 * δ / s := by ring
    have e2 : 6 * δ ≤ 6 * δ / s := by
      rw [le_div_iff₀ hs0]
      exact mul_le_of_le_one_right (by linarith) hs1
    rw [e1]
    have e3 : 12 * δ / s = 4 * (3 * δ / s) := by ring
    rw [e3]
    linarith

private theorem small_pow (u ε : ℝ) (hu : 0 ≤ u) (hu2 : u ≤ 1 / 256) (hε : 0 ≤ ε) (hε2 : ε ≤ 1 / 64) :
    (1 + u) ^ 6 * (1 + ε) ^ 3 - 1 ≤ 61 / 10 * u + 32 / 10 * ε := by
  have h1 : (1 + u) ^ 2 ≤ 1 + 2.01 * u := by nlinarith
  have h2 : (1 + u) ^ 6 ≤ 1 + 6.09 * u := by
    have h3 : (1 + u) ^ 4 ≤ 1 + 4.05 * u := by
      have := pow_le_pow_left₀ (by positivity) h1 2
      nlinarith
    have := mul_le_mul h1 h3 (by positivity) (by positivity)
    nlinarith
  have h4 : (1 + ε) ^ 3 ≤ 1 + 3.05 * ε := by
    have h5 : (1 + ε) ^ 2 ≤ 1 + (2 + 1 / 64) * ε := by nlinarith
    nlinarith
  have := mul_le_mul h2 h4 (by positivity) (by positivity)
  nlinarith

/-- The whole round trip in floating point: the matrix built from the computed angles is within
`19 δ / s + 12 ε + 49 u` of the matrix the angles were taken from (same restriction as `C134_rotation_to_euler_partial`). -/
theorem C134_round_trip_partial [Libm f] [RealParams] (hp : 9 ≤ f.p) {δ ε : ℝ} (hsc : SinCosAcc f ε) (hA2 : Atan2Turn f ε)
    (hπ : FracPi2Acc f ε) (R : Mat 3 ℝ) (hR : IsRot R) (A : Mat 3 (Flt f)) (hA : ∀ i j, (A i j).IsFin ∧ |(A i j).toReal - R i j| ≤ δ)
    (hs : 64 * (δ + ε + f.u) ≤ √(R 0 0 ^ 2 + R 1 0 ^ 2)) (i j : Fin 3) :
    let B := euler_to_rotation (rotation_to_euler A).1 (rotation_to_euler A).2.1 (rotation_to_euler A).2.2 none
    (B i j).IsFin ∧ |(B i j).toReal - (A i j).toReal| ≤ 19 * δ / √(R 0 0 ^ 2 + R 1 0 ^ 2) + 12 * ε + 49 * f.u := by
  obtain ⟨fy, fp, fr, h⟩ := C134_rotation_to_euler_partial (by omega) hA2 hπ R hR A hA hs
  have hu := f.u_pos
  have hu2 := Fmt.u_le_of_p (by omega : 8 ≤ f.p)
  have hη := f.eta_le_sq
  have hη0 := f.eta_pos
  have hε0 : 0 ≤ ε := (abs_nonneg _).trans hπ.2
  have hδ0 : 0 ≤ δ := (abs_nonneg _).trans (hA 0 0).2
  obtain ⟨s, hs'⟩ : ∃ s, s = √(R 0 0 ^ 2 + R 1 0 ^ 2) := ⟨_, rfl⟩
  have hs2 : s ^ 2 = R 0 0 ^ 2 + R 1 0 ^ 2 := by rw [hs', Real.sq_sqrt (by positivity)]
  have hs1 := (rot_facts R hR hs2).1
  rw [← hs'] at hs h ⊢
  have hs0 : 0 < s := by linarith
  have hε1 : ε ≤ 1 / 64 := by linarith
  obtain ⟨g1, g2⟩ := C109_euler hsc (by linarith) (by have := f.hmax; omega) _ _ _ fy fp fr none i j
  refine ⟨g1, ?_⟩
  have k1 := h i j
  have k2 := (hA i j).2
  rw [abs_sub_comm] at k2
  have k3 := abs_sub_le (euler_to_rotation (rotation_to_euler A).1 (rotation_to_euler A).2.1 (rotation_to_euler A).2.2 none
    i j).toReal (euler_to_rotation (rotation_to_euler A).1.toReal (rotation_to_euler A).2.1.toReal
    (rotation_to_euler A).2.2.toReal none i j) (A i j).toReal
  have k4 := abs_sub_le (euler_to_rotation (rotation_to_euler A).1.toReal (rotation_to_euler A).2.1.toReal
    (rotation_to_euler A).2.2.toReal none i j) (R i j) (A i j).toReal
  have e1 : 19 * δ / s = 18 * δ / s + δ / s := by ring
  have e2 : δ ≤ δ / s := by
    rw [le_div_iff₀ hs0]
    exact mul_le_of_le_one_right hδ0 hs1
  have e3 := small_pow f.u ε hu.le hu2 hε0 hε1
  have e4 : (1 + f.u) ^ 6 * (f.eta * 15) ≤ 1 / 10 * f.u := by
    have h1 : (1 + f.u) ^ 6 ≤ (1 + 1 / 256) ^ 6 := pow_le_pow_left₀ (by linarith) (by linarith) 6
    have h2 : f.eta ≤ 1 / 256 * f.u := hη.trans (mul_le_mul_of_nonneg_right hu2 hu.le)
    have h3 := mul_le_mul h1 (mul_le_mul_of_nonneg_right h2 (by norm_num : (0 : ℝ) ≤ 15)) (by positivity) (by positivity)
    norm_num at h3
    linarith
  linarith

/-- Gimbal lock perturbed by `t`. -/
private noncomputable def lockA (t : Flt f) : Mat 3 (Flt f) := ⟨![![t, 0, 1], ![0, 1, 0], ![-1, 0, -t]]⟩

/-- What C134 would claim without restriction is false: close to gimbal lock the angles can describe a rotation that has
nothing to do with the matrix. For every format of 11 bits or more and every library accurate to `4 u` there is a float matrix
within `32 u` of a rotation, in each entry, such that the rotation described by the computed angles is off by more than 1 in
an entry. -/
theorem C134_near_gimbal_lock_false [Libm f] [RealParams] (hp : 11 ≤ f.p) (hA2 : Atan2Turn f (4 * f.u))
    (hπ : FracPi2Acc f (4 * f.u)) :
    ∃ (R : Mat 3 ℝ) (A : Mat 3 (Flt f)), IsRot R ∧ (∀ i j, (A i j).IsFin ∧ |(A i j).toReal - R i j| ≤ 32 * f.u) ∧
      let e := rotation_to_euler A
      e.1.IsFin ∧ e.2.1.IsFin ∧ e.2.2.IsFin ∧
      1 < |euler_to_rotation e.1.toReal e.2.1.toReal e.2.2.toReal none 0 2 - R 0 2| := by
  have hp8 : 8 ≤ f.p := by omega
  have hu := f.u_pos
  have hu2 : f.u ≤ 1 / 2048 := by
    unfold Fmt.u
    calc (2 : ℝ) ^ (-(f.p : ℤ)) ≤ 2 ^ (-11 : ℤ) := zpow_le_zpow_right₀ (by norm_num) (by omega)
      _ = _ := by norm_num
  have ht : f.Rep (32 * f.u) := by
    have e : 32 * f.u = (2 : ℝ) ^ (5 - (f.p : ℤ)) := by
      unfold Fmt.u
      rw [sub_eq_add_neg, zpow_add₀ (by norm_num)]
      norm_num
    rw [e]
    have h1 := f.hmin
    have h2 := f.hmax
    exact f.rep_two_zpow _ (by omega) (by omega)
  let t : Flt f := fin false (32 * f.u) ht
  have tr : t.toReal = 32 * f.u := rfl
  have tf : t.IsFin := trivial
  let A : Mat 3 (Flt f) := lockA t
  let R : Mat 3 ℝ := roty (Real.pi / 2)
  have hR : R = ⟨![![0, 0, 1], ![0, 1, 0], ![-1, 0, 0]]⟩ := by
    refine Mat.ext3 ?_ ?_ ?_ ?_ ?_ ?_ ?_ ?_ ?_ <;>
      simp only [R, entries, rfloat_sin, rfloat_cos, Real.sin_pi_div_two, Real.cos_pi_div_two]
  refine ⟨R, A, isRot_roty _, fun i j => ?_, ?_⟩
  · rw [hR]
    have z : |(0 : Flt f).toReal - 0| ≤ 32 * f.u := by rw [toReal_zero, sub_zero, abs_zero]; linarith
    have o : |(1 : Flt f).toReal - 1| ≤ 32 * f.u := by rw [toReal_one, sub_self, abs_zero]; linarith
    fin_cases i <;> fin_cases j
    · exact ⟨tf, by change |t.toReal - 0| ≤ _; rw [tr, sub_zero, abs_of_pos (by linarith)]⟩
    · exact ⟨trivial, z⟩
    · exact ⟨trivial, o⟩
    · exact ⟨trivial, z⟩
    · exact ⟨trivial, o⟩
    · exact ⟨trivial, z⟩
    · refine ⟨trivial, ?_⟩
      change |(-1 : Flt f).toReal - -1| ≤ _
      rw [toReal_neg, toReal_one, sub_self, abs_zero]; linarith
    · exact ⟨trivial, z⟩
    · refine ⟨trivial, ?_⟩
      change |(-t).toReal - 0| ≤ _
      rw [toReal_neg, tr, sub_zero, abs_neg, abs_of_pos (by linarith)]
  -- the length
  have e00 : A 0 0 = t := rfl
  have e10 : A 1 0 = 0 := rfl
  have e20 : A 2 0 = -1 := rfl
  have e21 : A 2 1 = 0 := rfl
  have e22 : A 2 2 = -t := rfl
  have hN : √((A 0 0).toReal ^ 2 + (A 1 0).toReal ^ 2) = 32 * f.u := by
    rw [e00, e10, tr, toReal_zero, zero_pow two_ne_zero, add_zero, Real.sqrt_sq (by linarith)]
  have hl := len_near hp8 (a := A 0 0) (b := A 1 0) tf trivial
    (by rw [e00, tr, abs_of_pos (by linarith)]; linarith) (by rw [e10, toReal_zero, abs_zero]; norm_num) (by rw [hN]; linarith)
  rw [hN] at hl
  obtain ⟨x, hx⟩ : ∃ x, x = Flt.sqrt (A 0 0 * A 0 0 + A 1 0 * A 1 0) := ⟨_, rfl⟩
  rw [← hx] at hl
  have hxe := _root_.abs_le.1 hl.err
  have huu : f.u * (32 * f.u) ≤ 1 / 2048 * (32 * f.u) := mul_le_mul_of_nonneg_right hu2 (by linarith)
  have x1 : 30 * f.u ≤ x.toReal := by linarith
  have x2 : x.toReal ≤ 34 * f.u := by linarith
  have em20 : (-A 2 0).toReal = 1 := by rw [e20, toReal_neg, toReal_neg, toReal_one, neg_neg]
  obtain ⟨fp, tc, ts⟩ := turn_near hA2 (-A 2 0) x (isFin_neg.2 (isFin_neg.2 trivial)) hl.fin
    (Or.inr (by intro h; rw [h] at x1; linarith))
  rw [em20] at tc ts
  obtain ⟨dc, ds⟩ := dir_near (a := x.toReal) (b := 1) (x := 0) (y := 1) (s := 1) (d := 34 * f.u) one_pos (by norm_num)
    (by rw [sub_zero, abs_of_pos (by linarith)]; exact x2) (by rw [sub_self, abs_zero]; linarith) (by linarith)
  rw [div_one, div_one] at dc ds
  have hgen := generic_flt hp8 (by rw [abs_of_pos (by linarith)]; linarith) hπ A (by
    rw [← hx]
    obtain ⟨r, hr⟩ : ∃ r, r = √(x.toReal ^ 2 + 1 ^ 2) := ⟨_, rfl⟩
    have hr2 : r ^ 2 = x.toReal ^ 2 + 1 ^ 2 := by rw [hr, Real.sq_sqrt (by positivity)]
    have hr0 : 0 < r := by rw [hr]; positivity
    have hr3 : r ≤ 3 / 2 := by
      rw [hr, Real.sqrt_le_iff]
      exact ⟨by norm_num, by nlinarith⟩
    have e1 := (arg_sin_cos' x.toReal 1 r hr0 hr2.symm).2
    rw [e1] at tc
    have e2 : 20 * f.u ≤ x.toReal / r := by
      rw [le_div_iff₀ hr0]
      nlinarith
    linarith [(_root_.abs_le.1 tc).1])
  intro e
  have he : e = _ := hgen
  rw [← hx] at he
  clear_value e
  subst he
  have t0 : t.toReal ≠ 0 := by rw [tr]; linarith
  obtain ⟨fy, yc, ys⟩ := turn_near hA2 (A 1 0) (A 0 0) trivial tf (Or.inr t0)
  obtain ⟨fr, rc, rs⟩ := turn_near hA2 (A 2 1) (A 2 2) trivial (isFin_neg.2 tf) (Or.inr (by
    rw [e22, toReal_neg]; exact neg_ne_zero.2 t0))
  obtain ⟨Y, hY⟩ : ∃ Y, Y = Libm.atan2 (A 1 0) (A 0 0) := ⟨_, rfl⟩
  obtain ⟨Z, hZ⟩ : ∃ Z, Z = Libm.atan2 (A 2 1) (A 2 2) := ⟨_, rfl⟩
  rw [← hY] at fy yc ys ⊢
  rw [← hZ] at fr rc rs ⊢
  have tp : 0 < t.toReal := by rw [tr]; linarith
  obtain ⟨y1, y2⟩ := arg_sin_cos' (A 0 0).toReal (A 1 0).toReal t.toReal tp (by
    rw [e00, e10, toReal_zero]; ring)
  obtain ⟨r1, r2⟩ := arg_sin_cos' (A 2 2).toReal (A 2 1).toReal t.toReal tp (by
    rw [e22, e21, toReal_zero, toReal_neg]; ring)
  rw [y2, e00, div_self t0] at yc
  rw [y1, e10, toReal_zero, zero_div] at ys
  rw [r2, e22, toReal_neg, neg_div, div_self t0] at rc
  rw [r1, e21, toReal_zero, zero_div] at rs
  refine ⟨fy, fp, fr, ?_⟩
  have key := euler_move _ _ _ 1 0 0 1 (-1) 0 (4 * f.u) (4 * f.u + 3 * (34 * f.u)) (4 * f.u) (by norm_num) (by norm_num)
    (by norm_num) (by norm_num) yc ys ((abs_sub_le _ _ _).trans (add_le_add tc dc)) ((abs_sub_le _ _ _).trans (add_le_add ts ds))
    rc rs ⟨![![0, 0, -1], ![0, -1, 0], ![-1, 0, 0]]⟩ (by change (1 : ℝ) * 0 = 0; norm_num)
    (by change (1 : ℝ) * 1 * 0 - 0 * -1 = 0; norm_num) (by change (1 : ℝ) * 1 * -1 + 0 * 0 = -1; norm_num)
    (by change (0 : ℝ) * 0 = 0; norm_num) (by change (0 : ℝ) * 1 * 0 + 1 * -1 = -1; norm_num)
    (by change (0 : ℝ) * 1 * -1 - 1 * 0 = 0; norm_num) rfl (by change (0 : ℝ) * 0 = 0; norm_num)
    (by change (0 : ℝ) * -1 = 0; norm_num) 0 2
  rw [hR]
  change 1 < |_ - (1 : ℝ)|
  change |_ - (-1 : ℝ)| ≤ _ at key
  have k2 := (_root_.abs_le.1 key).2
  rw [lt_abs]
  right
  linarith

end

theorem correctLibm_turn {f : Fmt} (hp : 8 ≤ f.p) : @Atan2Turn f (correctLibm f) (4 * f.u) := by
  intro y x _ _ _
  have hu := f.u_pos
  have := Near.of_real (f := f) (B := 3.15) hp ((Complex.abs_arg_le_pi ⟨x.toReal, y.toReal⟩).trans Real.pi_lt_d2.le) (by norm_num)
  exact ⟨this.fin, 0, by rw [Int.cast_zero, zero_mul, add_zero]; exact this.err.trans (by linarith)⟩

theorem correctLibm_frac_pi_2 {f : Fmt} (hp : 8 ≤ f.p) : @FracPi2Acc f (correctLibm f) (4 * f.u) := by
  have hu := f.u_pos
  have h1 := Real.pi_lt_d2
  have h2 := Real.pi_pos
  have := Near.of_real (f := f) (r := Real.pi / 2) (B := 3.15) hp (by rw [abs_of_pos (by linarith)]; linarith) (by norm_num)
  exact ⟨this.fin, this.err.trans (by linarith)⟩

/-- The hypotheses can be met: `f32`, a correctly rounded library, and the rotation by a half turn about the `z` axis, which is
a matrix of floats; the angles give it back up to `116 u`. -/
example [RealParams] : ∃ (_ : Libm Fmt.f32) (R : Mat 3 ℝ) (A : Mat 3 (Flt Fmt.f32)), SinCosAcc Fmt.f32 (4 * Fmt.f32.u) ∧
    Atan2Turn Fmt.f32 (4 * Fmt.f32.u) ∧ FracPi2Acc Fmt.f32 (4 * Fmt.f32.u) ∧ IsRot R ∧
    (∀ i j, (A i j).IsFin ∧ |(A i j).toReal - R i j| ≤ Fmt.f32.u) ∧
    64 * (Fmt.f32.u + 4 * Fmt.f32.u + Fmt.f32.u) ≤ √(R 0 0 ^ 2 + R 1 0 ^ 2) := by
  have hp : 8 ≤ Fmt.f32.p := by decide
  have hu := Fmt.f32.u_pos
  refine ⟨correctLibm _, rotz Real.pi, ⟨![![-1, 0, 0], ![0, -1, 0], ![0, 0, 1]]⟩, ?_, correctLibm_turn hp,
    correctLibm_frac_pi_2 hp, isRot_rotz _, fun i j => ?_, ?_⟩
  · let := correctLibm Fmt.f32
    have h := correctLibm_sin_cos hp
    exact ⟨fun x hx => ⟨(h.sin x hx).1, (h.sin x hx).2.trans (by linarith)⟩,
      fun x hx => ⟨(h.cos x hx).1, (h.cos x hx).2.trans (by linarith)⟩⟩
  · have z : |(0 : Flt Fmt.f32).toReal - 0| ≤ Fmt.f32.u := by rw [toReal_zero, sub_zero, abs_zero]; linarith
    have o : |(1 : Flt Fmt.f32).toReal - 1| ≤ Fmt.f32.u := by rw [toReal_one, sub_self, abs_zero]; linarith
    have m : |(-1 : Flt Fmt.f32).toReal - -1| ≤ Fmt.f32.u := by rw [toReal_neg, toReal_one, sub_self, abs_zero]; linarith
    have e : (rotz Real.pi : Mat 3 ℝ) = ⟨![![-1, 0, 0], ![0, -1, 0], ![0, 0, 1]]⟩ := by
      refine Mat.ext3 ?_ ?_ ?_ ?_ ?_ ?_ ?_ ?_ ?_ <;>
        simp only [entries, rfloat_sin, rfloat_cos, Real.sin_pi, Real.cos_pi, neg_zero]
    rw [e]
    fin_cases i <;> fin_cases j <;> first | exact ⟨trivial, z⟩ | exact ⟨trivial, o⟩ | exact ⟨trivial, m⟩
  · have h0 : (rotz Real.pi : Mat 3 ℝ) 0 0 = -1 := by simp only [entries, rfloat_cos, Real.cos_pi]
    have h1 : (rotz Real.pi : Mat 3 ℝ) 1 0 = 0 := by simp only [entries, rfloat_sin, Real.sin_pi]
    have hu2 : Fmt.f32.u ≤ 1 / 1024 := by
      change (2 : ℝ) ^ (-24 : ℤ) ≤ _
      norm_num
    rw [h0, h1]
    norm_num
    linarith

end StaticMath
