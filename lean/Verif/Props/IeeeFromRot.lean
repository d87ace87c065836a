import Verif.Ieee.Near
import Verif.Props.QuatRotation
import Verif.Props.IeeeQuat

/-!
# C126: the quaternion of a floating point rotation matrix
-/

namespace StaticMath
open Flt Quaternion

variable {f : Fmt}

/-- One component: `n` is near `4 a b` and `t` near `4 a^2`. -/
private theorem comp_core [Libm f] (hp : 8 ≤ f.p) {n t : Flt f} {a b x y δ : ℝ} (hδ : δ ≤ 1 / 50) (hδ0 : 0 ≤ δ)
    (ha : 0 ≤ a) (ha1 : a ≤ 1) (hb : |b| ≤ 1) (hn : Near n x (3 * δ + 10 * f.u)) (ht : Near t y (3 * δ + 10 * f.u))
    (hx : x = 4 * a * b) (hy : y = 4 * a ^ 2) (hlo : 1 - 3 * δ ≤ y) :
    Near (n * ((1 : Flt f) / (1 + 1)) / RFloat.sqrt t) b (6 * δ + 25 * f.u) := by
  subst hx hy
  have hu := Fmt.u_le_of_p hp
  have hu0 := f.u_pos
  have hab : |4 * a * b| ≤ 4 := by
    rw [abs_mul, abs_of_nonneg (by linarith)]
    nlinarith [abs_nonneg b]
  have hN : Near (n * ((1 : Flt f) / (1 + 1))) (4 * a * b * (1 / 2)) (3 / 2 * δ + 72 / 10 * f.u) :=
    Near.mul hp hn Near.half (A := 42 / 10) (C := 1 / 2) (D := 1 / 2) (B := 21 / 10) (by linarith)
      (by norm_num) (by norm_num) (by norm_num) (by norm_num) (by linarith)
  have ha2 : a ^ 2 ≤ 1 := by nlinarith
  have hS : Near (Flt.sqrt t) (√(4 * a ^ 2)) (25 / 8 * δ + 125 / 10 * f.u) :=
    Near.sqrt ht (c := 96 / 100) (B := 203 / 100) (by norm_num) (by linarith) (by linarith) (by norm_num)
      (by linarith) (by linarith)
  have e : √(4 * a ^ 2) = 2 * a := by
    rw [show 4 * a ^ 2 = (2 * a) ^ 2 by ring, Real.sqrt_sq (by linarith)]
  rw [e] at hS
  have ha3 : 969 / 1000 ≤ 2 * a := by
    by_contra hc
    push Not at hc
    nlinarith
  have hv : 4 * a * b * (1 / 2) / (2 * a) = b := by
    have : a ≠ 0 := by linarith
    field_simp
    ring
  change Near (n * ((1 : Flt f) / (1 + 1)) / Flt.sqrt t) b (6 * δ + 25 * f.u)
  refine (Near.div hp hN hS (c := 855 / 1000) (Q := 1) (B := 13 / 10) (by norm_num) ?_ (by rw [hv]; exact hb)
    ?_ (by norm_num) ?_).congr hv
  · rw [abs_of_nonneg (by linarith)]
    linarith
  · linarith
  · linarith

private theorem pair (hp : 8 ≤ f.p) {a b : Flt f} {v w δ : ℝ} (hδ : δ ≤ 1 / 50) (ha : Near a v δ) (hb : Near b w δ)
    (hv : |v| ≤ 1) (hw : |w| ≤ 1) : Near (a + b) (v + w) (3 * δ + 10 * f.u) := by
  have := ha.nonneg
  have hu0 := f.u_pos
  exact Near.add hp ha hb (B := 204 / 100) (by linarith [abs_add_le v w]) (by norm_num) (by linarith)

private theorem triple (hp : 8 ≤ f.p) {a b c : Flt f} {v w z δ : ℝ} (hδ : δ ≤ 1 / 50) (ha : Near a v δ) (hb : Near b w δ)
    (hc : Near c z δ) (hv : |v| ≤ 1) (hw : |w| ≤ 1) (hz : |z| ≤ 1) :
    Near (1 + a + b + c) (1 + v + w + z) (3 * δ + 10 * f.u) := by
  have := ha.nonneg
  have hu0 := f.u_pos
  have hu := Fmt.u_le_of_p hp
  have e1 := abs_add_le 1 v
  have e2 := abs_add_le (1 + v) w
  have e3 := abs_add_le (1 + v + w) z
  rw [abs_one] at e1
  have h1 : Near (1 + a) (1 + v) (δ + 203 / 100 * f.u) :=
    Near.add hp Near.one ha (B := 202 / 100) (by linarith) (by norm_num) (by linarith)
  have h2 : Near (1 + a + b) (1 + v + w) (2 * δ + 52 / 10 * f.u) :=
    Near.add hp h1 hb (B := 31 / 10) (by linarith) (by norm_num) (by linarith)
  exact Near.add hp h2 hc (B := 42 / 10) (by linarith) (by norm_num) (by linarith)

private theorem pick {q : Quat ℝ} {R : Mat 3 ℝ} (h1 : normSq q.toH = 1) (h2 : q.to_rotation = R) (g : Quat ℝ → ℝ)
    (hg : g q.neg = -g q) : ∃ q : Quat ℝ, normSq q.toH = 1 ∧ q.to_rotation = R ∧ 0 ≤ g q := by
  rcases le_total 0 (g q) with h | h
  · exact ⟨q, h1, h2, h⟩
  · have e := (C48_double_cover q.neg q (by
      rw [Quat.unit_iff] at h1 ⊢
      change (-q.q0) ^ 2 + (-q.q 0) ^ 2 + (-q.q 1) ^ 2 + (-q.q 2) ^ 2 = 1
      linarith) h1).2 (Or.inr (by ext <;> rfl))
    refine ⟨q.neg, ?_, e.trans h2, by rw [hg]; linarith⟩
    rw [Quat.unit_iff] at h1 ⊢
    change (-q.q0) ^ 2 + (-q.q 0) ^ 2 + (-q.q 1) ^ 2 + (-q.q 2) ^ 2 = 1
    linarith

private theorem three_le {a b c : ℝ} (h : a * a + b * b + c * c = 1) : |a| ≤ 1 ∧ |b| ≤ 1 ∧ |c| ≤ 1 := by
  have h1 := mul_self_nonneg a
  have h2 := mul_self_nonneg b
  have h3 := mul_self_nonneg c
  refine ⟨?_, ?_, ?_⟩ <;> apply abs_le_one_iff_mul_self_le_one.2 <;> linarith

private theorem entry_le {R : Mat 3 ℝ} (hR : R.toM ∈ Matrix.specialOrthogonalGroup (Fin 3) ℝ) (i j : Fin 3) :
    |R i j| ≤ 1 := by
  obtain ⟨r00, r11, r22, -⟩ := SO3Rels.of_mem hR
  have h0 := three_le r00
  have h1 := three_le r11
  have h2 := three_le r22
  fin_cases i <;> fin_cases j
  exacts [h0.1, h0.2.1, h0.2.2, h1.1, h1.2.1, h1.2.2, h2.1, h2.2.1, h2.2.2]

private theorem comp_le {q : Quat ℝ} (h1 : normSq q.toH = 1) : |q.q0| ≤ 1 ∧ |q.q 0| ≤ 1 ∧ |q.q 1| ≤ 1 ∧ |q.q 2| ≤ 1 := by
  rw [Quat.unit_iff] at h1
  have k0 := sq_nonneg q.q0
  have k1 := sq_nonneg (q.q 0)
  have k2 := sq_nonneg (q.q 1)
  have k3 := sq_nonneg (q.q 2)
  refine ⟨?_, ?_, ?_, ?_⟩ <;> apply abs_le_one_iff_mul_self_le_one.2 <;> linarith

/-- A floating point matrix whose entries are within `δ` of a rotation: every component of `from_rotation` is
finite and within `6 δ + 25 u` of that of a unit quaternion of that rotation. -/
theorem C126_from_rotation [Libm f] (hp : 8 ≤ f.p) (M : Mat 3 (Flt f)) (R : Mat 3 ℝ) (δ : ℝ) (hδ : δ ≤ 1 / 50)
    (hR : R.toM ∈ Matrix.specialOrthogonalGroup (Fin 3) ℝ)
    (hM : ∀ i j, (M i j).IsFin ∧ |(M i j).toReal - R i j| ≤ δ) :
    ∃ q : Quat ℝ, normSq q.toH = 1 ∧ q.to_rotation = R ∧
      ∀ i, ((Quat.from_rotation M).comp i).IsFin ∧
        |((Quat.from_rotation M).comp i).toReal - q.comp i| ≤ 6 * δ + 25 * f.u := by
  let _ : RealParams := f64Params
  obtain ⟨g1, g2⟩ := C49_from_rotation R hR
  have hN (i j : Fin 3) : Near (M i j) (R i j) δ := ⟨(hM i j).1, (hM i j).2⟩
  have hδ0 := (hN 0 0).nonneg
  have hRle := entry_le hR
  have hnle (i j : Fin 3) : |-R i j| ≤ 1 := by rw [abs_neg]; exact hRle i j
  have hv (i j : Fin 3) := abs_le.1 (hN i j).err
  have hz : ((0 : Flt f)).toReal = 0 := toReal_zero
  unfold Quat.from_rotation
  simp only [M33.transpose_apply]
  split_ifs with h1 h2 h3
  · have k1 := (lt_iff (hN 2 2).fin isFin_zero).1 h1
    have k2 := (lt_iff (hN 1 1).fin (hN 0 0).fin).1 h2
    obtain ⟨q, u1, u2, hq⟩ := pick g1 g2 (fun q => q.q 0) rfl
    have hu1 := (Quat.unit_iff q).1 u1
    obtain ⟨b0, b1, b2, b3⟩ := comp_le u1
    have ht := triple hp hδ (hN 0 0) (hN 1 1).neg (hN 2 2).neg (hRle 0 0) (hnle 1 1) (hnle 2 2)
    have hlo : 1 - 3 * δ ≤ 1 + R 0 0 + -R 1 1 + -R 2 2 := by linarith [(hv 0 0).2, (hv 1 1).1, (hv 2 2).1]
    have en (i j : Fin 3) : R i j = q.to_rotation i j := by rw [u2]
    have hy : 1 + R 0 0 + -R 1 1 + -R 2 2 = 4 * q.q 0 ^ 2 := by
      rw [en, en, en, Quat.rot00, Quat.rot11, Quat.rot22]
      linear_combination -hu1
    refine ⟨q, u1, u2, fun i => ?_⟩
    fin_cases i
    · have := comp_core hp hδ hδ0 hq (abs_le.1 b1).2 b0
        (pair hp hδ (hN 2 1) (hN 1 2).neg (hRle 2 1) (hnle 1 2)) ht
        (by rw [en, en, Quat.rot21, Quat.rot12]; ring) hy hlo
      exact ⟨this.fin, this.err⟩
    · have := comp_core hp hδ hδ0 hq (abs_le.1 b1).2 b1 ht ht (by rw [hy]; ring) hy hlo
      exact ⟨this.fin, this.err⟩
    · have := comp_core hp hδ hδ0 hq (abs_le.1 b1).2 b2
        (pair hp hδ (hN 1 0) (hN 0 1) (hRle 1 0) (hRle 0 1)) ht
        (by rw [en, en, Quat.rot10, Quat.rot01]; ring) hy hlo
      exact ⟨this.fin, this.err⟩
    · have := comp_core hp hδ hδ0 hq (abs_le.1 b1).2 b3
        (pair hp hδ (hN 0 2) (hN 2 0) (hRle 0 2) (hRle 2 0)) ht
        (by rw [en, en, Quat.rot02, Quat.rot20]; ring) hy hlo
      exact ⟨this.fin, this.err⟩
  · have k1 := (lt_iff (hN 2 2).fin isFin_zero).1 h1
    have k2 := not_lt.1 (fun h => h2 ((lt_iff (hN 1 1).fin (hN 0 0).fin).2 h))
    obtain ⟨q, u1, u2, hq⟩ := pick g1 g2 (fun q => q.q 1) rfl
    have hu1 := (Quat.unit_iff q).1 u1
    obtain ⟨b0, b1, b2, b3⟩ := comp_le u1
    have ht := triple hp hδ (hN 0 0).neg (hN 1 1) (hN 2 2).neg (hnle 0 0) (hRle 1 1) (hnle 2 2)
    have hlo : 1 - 3 * δ ≤ 1 + -R 0 0 + R 1 1 + -R 2 2 := by linarith [(hv 0 0).1, (hv 1 1).2, (hv 2 2).1]
    have en (i j : Fin 3) : R i j = q.to_rotation i j := by rw [u2]
    have hy : 1 + -R 0 0 + R 1 1 + -R 2 2 = 4 * q.q 1 ^ 2 := by
      rw [en, en, en, Quat.rot00, Quat.rot11, Quat.rot22]
      linear_combination -hu1
    refine ⟨q, u1, u2, fun i => ?_⟩
    fin_cases i
    · have := comp_core hp hδ hδ0 hq (abs_le.1 b2).2 b0
        (pair hp hδ (hN 0 2) (hN 2 0).neg (hRle 0 2) (hnle 2 0)) ht
        (by rw [en, en, Quat.rot02, Quat.rot20]; ring) hy hlo
      exact ⟨this.fin, this.err⟩
    · have := comp_core hp hδ hδ0 hq (abs_le.1 b2).2 b1
        (pair hp hδ (hN 1 0) (hN 0 1) (hRle 1 0) (hRle 0 1)) ht
        (by rw [en, en, Quat.rot10, Quat.rot01]; ring) hy hlo
      exact ⟨this.fin, this.err⟩
    · have := comp_core hp hδ hδ0 hq (abs_le.1 b2).2 b2 ht ht (by rw [hy]; ring) hy hlo
      exact ⟨this.fin, this.err⟩
    · have := comp_core hp hδ hδ0 hq (abs_le.1 b2).2 b3
        (pair hp hδ (hN 2 1) (hN 1 2) (hRle 2 1) (hRle 1 2)) ht
        (by rw [en, en, Quat.rot21, Quat.rot12]; ring) hy hlo
      exact ⟨this.fin, this.err⟩
  · have k1 := not_lt.1 (fun h => h1 ((lt_iff (hN 2 2).fin isFin_zero).2 h))
    have k2 := (lt_iff (hN 0 0).fin (hN 1 1).neg.fin).1 h3
    rw [toReal_neg] at k2
    obtain ⟨q, u1, u2, hq⟩ := pick g1 g2 (fun q => q.q 2) rfl
    have hu1 := (Quat.unit_iff q).1 u1
    obtain ⟨b0, b1, b2, b3⟩ := comp_le u1
    have ht := triple hp hδ (hN 0 0).neg (hN 1 1).neg (hN 2 2) (hnle 0 0) (hnle 1 1) (hRle 2 2)
    have hlo : 1 - 3 * δ ≤ 1 + -R 0 0 + -R 1 1 + R 2 2 := by linarith [(hv 0 0).1, (hv 1 1).1, (hv 2 2).2]
    have en (i j : Fin 3) : R i j = q.to_rotation i j := by rw [u2]
    have hy : 1 + -R 0 0 + -R 1 1 + R 2 2 = 4 * q.q 2 ^ 2 := by
      rw [en, en, en, Quat.rot00, Quat.rot11, Quat.rot22]
      linear_combination -hu1
    refine ⟨q, u1, u2, fun i => ?_⟩
    fin_cases i
    · have := comp_core hp hδ hδ0 hq (abs_le.1 b3).2 b0
        (pair hp hδ (hN 1 0) (hN 0 1).neg (hRle 1 0) (hnle 0 1)) ht
        (by rw [en, en, Quat.rot10, Quat.rot01]; ring) hy hlo
      exact ⟨this.fin, this.err⟩
    · have := comp_core hp hδ hδ0 hq (abs_le.1 b3).2 b1
        (pair hp hδ (hN 0 2) (hN 2 0) (hRle 0 2) (hRle 2 0)) ht
        (by rw [en, en, Quat.rot02, Quat.rot20]; ring) hy hlo
      exact ⟨this.fin, this.err⟩
    · have := comp_core hp hδ hδ0 hq (abs_le.1 b3).2 b2
        (pair hp hδ (hN 2 1) (hN 1 2) (hRle 2 1) (hRle 1 2)) ht
        (by rw [en, en, Quat.rot21, Quat.rot12]; ring) hy hlo
      exact ⟨this.fin, this.err⟩
    · have := comp_core hp hδ hδ0 hq (abs_le.1 b3).2 b3 ht ht (by rw [hy]; ring) hy hlo
      exact ⟨this.fin, this.err⟩
  · have k1 := not_lt.1 (fun h => h1 ((lt_iff (hN 2 2).fin isFin_zero).2 h))
    have k2 := not_lt.1 (fun h => h3 ((lt_iff (hN 0 0).fin (hN 1 1).neg.fin).2 h))
    rw [toReal_neg] at k2
    obtain ⟨q, u1, u2, hq⟩ := pick g1 g2 (fun q => q.q0) rfl
    have hu1 := (Quat.unit_iff q).1 u1
    obtain ⟨b0, b1, b2, b3⟩ := comp_le u1
    have ht := triple hp hδ (hN 0 0) (hN 1 1) (hN 2 2) (hRle 0 0) (hRle 1 1) (hRle 2 2)
    have hlo : 1 - 3 * δ ≤ 1 + R 0 0 + R 1 1 + R 2 2 := by linarith [(hv 0 0).2, (hv 1 1).2, (hv 2 2).2]
    have en (i j : Fin 3) : R i j = q.to_rotation i j := by rw [u2]
    have hy : 1 + R 0 0 + R 1 1 + R 2 2 = 4 * q.q0 ^ 2 := by
      rw [en, en, en, Quat.rot00, Quat.rot11, Quat.rot22]
      linear_combination -hu1
    refine ⟨q, u1, u2, fun i => ?_⟩
    fin_cases i
    · have := comp_core hp hδ hδ0 hq (abs_le.1 b0).2 b0 ht ht (by rw [hy]; ring) hy hlo
      exact ⟨this.fin, this.err⟩
    · have := comp_core hp hδ hδ0 hq (abs_le.1 b0).2 b1
        (pair hp hδ (hN 2 1) (hN 1 2).neg (hRle 2 1) (hnle 1 2)) ht
        (by rw [en, en, Quat.rot21, Quat.rot12]; ring) hy hlo
      exact ⟨this.fin, this.err⟩
    · have := comp_core hp hδ hδ0 hq (abs_le.1 b0).2 b2
        (pair hp hδ (hN 0 2) (hN 2 0).neg (hRle 0 2) (hnle 2 0)) ht
        (by rw [en, en, Quat.rot02, Quat.rot20]; ring) hy hlo
      exact ⟨this.fin, this.err⟩
    · have := comp_core hp hδ hδ0 hq (abs_le.1 b0).2 b3
        (pair hp hδ (hN 1 0) (hN 0 1).neg (hRle 1 0) (hnle 0 1)) ht
        (by rw [en, en, Quat.rot10, Quat.rot01]; ring) hy hlo
      exact ⟨this.fin, this.err⟩

private theorem l1_le {a b c d : ℝ} (h : a ^ 2 + b ^ 2 + c ^ 2 + d ^ 2 = 1) : |a| + |b| + |c| + |d| ≤ 2 := by
  apply abs_le_of_sq_le_sq' _ (by norm_num) |>.2
  rw [← sq_abs a, ← sq_abs b, ← sq_abs c, ← sq_abs d] at h
  nlinarith [sq_nonneg (|a| - |b|), sq_nonneg (|a| - |c|), sq_nonneg (|a| - |d|), sq_nonneg (|b| - |c|),
    sq_nonneg (|b| - |d|), sq_nonneg (|c| - |d|)]

private theorem sq_near (hp : 8 ≤ f.p) {x : Flt f} {a ε : ℝ} (hε : ε ≤ 1 / 4) (hx : Near x a ε) (ha : |a| ≤ 1) :
    Near (x * x) (a * a) (2 * (|a| * ε) + ε / 4 + 157 / 100 * f.u) := by
  have hu0 := f.u_pos
  have := hx.nonneg
  have := abs_nonneg a
  refine Near.mul hp hx hx (A := |a| + 1 / 4) (C := |a|) (D := 5 / 4) (B := 25 / 16) (by linarith) le_rfl (by linarith)
    (by linarith) (by norm_num) ?_
  linarith

private theorem dbl_near (hp : 8 ≤ f.p) {x y : Flt f} {a b ε : ℝ} (hε : ε ≤ 22 / 100) (hx : Near x a ε) (hy : Near y b ε)
    (ha : |a| ≤ 1) (hb : |b| ≤ 1) :
    Near ((1 + 1) * x * y) (2 * a * b) (2 * (|a| * ε) + 2 * (|b| * ε) + ε / 2 + 57 / 10 * f.u) := by
  have hu0 := f.u_pos
  have hu := Fmt.u_le_of_p hp
  have := hx.nonneg
  have := abs_nonneg a
  have h1 : Near ((1 + 1) * x) (2 * a) (2 * ε + 25 / 10 * f.u) :=
    Near.mul hp Near.two hx (A := 2) (C := 1) (D := 122 / 100) (B := 244 / 100) (by norm_num) ha (by linarith)
      (by norm_num) (by norm_num) (by linarith)
  have e2 : |2 * a| = 2 * |a| := by rw [abs_mul, abs_two]
  have hb2 := mul_le_mul_of_nonneg_right hb hu0.le
  refine Near.mul hp h1 hy (A := 2 * |a| + 1 / 2) (C := |b|) (D := 122 / 100) (B := 305 / 100) (by rw [e2]; linarith) le_rfl
    (by linarith) (by linarith) (by norm_num) ?_
  nlinarith

private theorem off_near (hp : 8 ≤ f.p) {x y : Flt f} {v w a b c d ε : ℝ} (hε : ε ≤ 22 / 100) (hε0 : 0 ≤ ε)
    (h1 : a ^ 2 + b ^ 2 + c ^ 2 + d ^ 2 = 1)
    (hx : Near x v (2 * (|a| * ε) + 2 * (|b| * ε) + ε / 2 + 57 / 10 * f.u))
    (hy : Near y w (2 * (|c| * ε) + 2 * (|d| * ε) + ε / 2 + 57 / 10 * f.u))
    (hvw : |v + w| ≤ 1) : Near (x + y) (v + w) (5 * ε + 17 * f.u) := by
  have hl := mul_le_mul_of_nonneg_right (l1_le h1) hε0
  have hu0 := f.u_pos
  have hu := Fmt.u_le_of_p hp
  exact Near.add hp hx hy (B := 22 / 10) (by linarith) (by norm_num) (by linarith)

private theorem diag_near (hp : 8 ≤ f.p) {x y z t : Flt f} {v w r s a b c d ε : ℝ} (hε : ε ≤ 22 / 100) (hε0 : 0 ≤ ε)
    (h1 : a ^ 2 + b ^ 2 + c ^ 2 + d ^ 2 = 1)
    (hx : Near x v (2 * (|a| * ε) + ε / 4 + 157 / 100 * f.u))
    (hy : Near y w (2 * (|b| * ε) + ε / 4 + 157 / 100 * f.u))
    (hz : Near z r (2 * (|c| * ε) + ε / 4 + 157 / 100 * f.u))
    (ht : Near t s (2 * (|d| * ε) + ε / 4 + 157 / 100 * f.u))
    (hv : |v + w| ≤ 1) (hr : |v + w + r| ≤ 1) (hs : |v + w + r + s| ≤ 1) :
    Near (x + y + z + t) (v + w + r + s) (5 * ε + 17 * f.u) := by
  have hl := mul_le_mul_of_nonneg_right (l1_le h1) hε0
  have hu0 := f.u_pos
  have hu := Fmt.u_le_of_p hp
  have a0 := mul_nonneg (abs_nonneg a) hε0
  have b0 := mul_nonneg (abs_nonneg b) hε0
  have c0 := mul_nonneg (abs_nonneg c) hε0
  have d0 := mul_nonneg (abs_nonneg d) hε0
  have k1 := Near.add hp hx hy (B := 23 / 10) (by linarith) (by norm_num) le_rfl
  have k2 := Near.add hp k1 hz (B := 23 / 10) (by linarith) (by norm_num) le_rfl
  exact Near.add hp k2 ht (B := 23 / 10) (by linarith) (by norm_num) (by linarith)

/-- `to_rotation` of a quaternion whose components are within `ε` of those of a unit quaternion. -/
theorem C126_to_rotation (hp : 8 ≤ f.p) (q : Quat (Flt f)) (q' : Quat ℝ) (ε : ℝ) (hε : ε ≤ 22 / 100)
    (h1 : normSq q'.toH = 1) (hq : ∀ i, (q.comp i).IsFin ∧ |(q.comp i).toReal - q'.comp i| ≤ ε) (i j : Fin 3) :
    (q.to_rotation i j).IsFin ∧ |(q.to_rotation i j).toReal - q'.to_rotation i j| ≤ 5 * ε + 17 * f.u := by
  have n0 : Near q.q0 q'.q0 ε := ⟨(hq 0).1, (hq 0).2⟩
  have n1 : Near (q.q 0) (q'.q 0) ε := ⟨(hq 1).1, (hq 1).2⟩
  have n2 : Near (q.q 1) (q'.q 1) ε := ⟨(hq 2).1, (hq 2).2⟩
  have n3 : Near (q.q 2) (q'.q 2) ε := ⟨(hq 3).1, (hq 3).2⟩
  obtain ⟨b0, b1, b2, b3⟩ := comp_le h1
  have hu1 := (Quat.unit_iff q').1 h1
  have s0 := mul_self_nonneg q'.q0
  have s1 := mul_self_nonneg (q'.q 0)
  have s2 := mul_self_nonneg (q'.q 1)
  have s3 := mul_self_nonneg (q'.q 2)
  have hu2 : q'.q0 * q'.q0 + q'.q 0 * q'.q 0 + q'.q 1 * q'.q 1 + q'.q 2 * q'.q 2 = 1 := by linarith
  have fin {x : Flt f} {v e : ℝ} (h : Near x v e) : x.IsFin ∧ |x.toReal - v| ≤ e := ⟨h.fin, h.err⟩
  fin_cases i <;> fin_cases j
  · have := diag_near hp hε n0.nonneg hu1 (sq_near hp (by linarith) n0 b0) (sq_near hp (by linarith) n1 b1)
      (sq_near hp (by linarith) n2 b2).neg (sq_near hp (by linarith) n3 b3).neg
      (by apply abs_le.2; constructor <;> linarith) (by apply abs_le.2; constructor <;> linarith)
      (by apply abs_le.2; constructor <;> linarith)
    exact fin (this.congr (Eq.trans (by ring) (Quat.rot00 q').symm))
  · have := off_near hp hε n0.nonneg (a := q'.q 0) (b := q'.q 1) (c := q'.q0) (d := q'.q 2) (by linarith)
      (dbl_near hp hε n1 n2 b1 b2) (dbl_near hp hε n0 n3 b0 b3).neg
      (by apply abs_le.2; constructor <;> linarith [sq_nonneg (q'.q 0 - q'.q 1), sq_nonneg (q'.q 0 + q'.q 1),
            sq_nonneg (q'.q0 - q'.q 2), sq_nonneg (q'.q0 + q'.q 2)])
    exact fin (this.congr (Eq.trans (by ring) (Quat.rot01 q').symm))
  · have := off_near hp hε n0.nonneg (a := q'.q 0) (b := q'.q 2) (c := q'.q0) (d := q'.q 1) (by linarith)
      (dbl_near hp hε n1 n3 b1 b3) (dbl_near hp hε n0 n2 b0 b2)
      (by apply abs_le.2; constructor <;> linarith [sq_nonneg (q'.q 0 - q'.q 2), sq_nonneg (q'.q 0 + q'.q 2),
            sq_nonneg (q'.q0 - q'.q 1), sq_nonneg (q'.q0 + q'.q 1)])
    exact fin (this.congr (Eq.trans (by ring) (Quat.rot02 q').symm))
  · have := off_near hp hε n0.nonneg (a := q'.q 0) (b := q'.q 1) (c := q'.q0) (d := q'.q 2) (by linarith)
      (dbl_near hp hε n1 n2 b1 b2) (dbl_near hp hε n0 n3 b0 b3)
      (by apply abs_le.2; constructor <;> linarith [sq_nonneg (q'.q 0 - q'.q 1), sq_nonneg (q'.q 0 + q'.q 1),
            sq_nonneg (q'.q0 - q'.q 2), sq_nonneg (q'.q0 + q'.q 2)])
    exact fin (this.congr (Eq.trans (by ring) (Quat.rot10 q').symm))
  · have := diag_near hp hε n0.nonneg hu1 (sq_near hp (by linarith) n0 b0) (sq_near hp (by linarith) n1 b1).neg
      (sq_near hp (by linarith) n2 b2) (sq_near hp (by linarith) n3 b3).neg
      (by apply abs_le.2; constructor <;> linarith) (by apply abs_le.2; constructor <;> linarith)
      (by apply abs_le.2; constructor <;> linarith)
    exact fin (this.congr (Eq.trans (by ring) (Quat.rot11 q').symm))
  · have := off_near hp hε n0.nonneg (a := q'.q 1) (b := q'.q 2) (c := q'.q0) (d := q'.q 0) (by linarith)
      (dbl_near hp hε n2 n3 b2 b3) (dbl_near hp hε n0 n1 b0 b1).neg
      (by apply abs_le.2; constructor <;> linarith [sq_nonneg (q'.q 1 - q'.q 2), sq_nonneg (q'.q 1 + q'.q 2),
            sq_nonneg (q'.q0 - q'.q 0), sq_nonneg (q'.q0 + q'.q 0)])
    exact fin (this.congr (Eq.trans (by ring) (Quat.rot12 q').symm))
  · have := off_near hp hε n0.nonneg (a := q'.q 0) (b := q'.q 2) (c := q'.q0) (d := q'.q 1) (by linarith)
      (dbl_near hp hε n1 n3 b1 b3) (dbl_near hp hε n0 n2 b0 b2).neg
      (by apply abs_le.2; constructor <;> linarith [sq_nonneg (q'.q 0 - q'.q 2), sq_nonneg (q'.q 0 + q'.q 2),
            sq_nonneg (q'.q0 - q'.q 1), sq_nonneg (q'.q0 + q'.q 1)])
    exact fin (this.congr (Eq.trans (by ring) (Quat.rot20 q').symm))
  · have := off_near hp hε n0.nonneg (a := q'.q 1) (b := q'.q 2) (c := q'.q0) (d := q'.q 0) (by linarith)
      (dbl_near hp hε n2 n3 b2 b3) (dbl_near hp hε n0 n1 b0 b1)
      (by apply abs_le.2; constructor <;> linarith [sq_nonneg (q'.q 1 - q'.q 2), sq_nonneg (q'.q 1 + q'.q 2),
            sq_nonneg (q'.q0 - q'.q 0), sq_nonneg (q'.q0 + q'.q 0)])
    exact fin (this.congr (Eq.trans (by ring) (Quat.rot21 q').symm))
  · have := diag_near hp hε n0.nonneg hu1 (sq_near hp (by linarith) n0 b0) (sq_near hp (by linarith) n1 b1).neg
      (sq_near hp (by linarith) n2 b2).neg (sq_near hp (by linarith) n3 b3)
      (by apply abs_le.2; constructor <;> linarith) (by apply abs_le.2; constructor <;> linarith)
      (by apply abs_le.2; constructor <;> linarith)
    exact fin (this.congr (Eq.trans (by ring) (Quat.rot22 q').symm))

/-- From a matrix to a quaternion and back, all in floating point. -/
theorem C126_matrix_round_trip [Libm f] (hp : 8 ≤ f.p) (M : Mat 3 (Flt f)) (R : Mat 3 ℝ) (δ : ℝ) (hδ : δ ≤ 1 / 50)
    (hR : R.toM ∈ Matrix.specialOrthogonalGroup (Fin 3) ℝ)
    (hM : ∀ i j, (M i j).IsFin ∧ |(M i j).toReal - R i j| ≤ δ) (i j : Fin 3) :
    ((Quat.from_rotation M).to_rotation i j).IsFin ∧
      |((Quat.from_rotation M).to_rotation i j).toReal - R i j| ≤ 30 * δ + 142 * f.u := by
  obtain ⟨q, h1, h2, h3⟩ := C126_from_rotation hp M R δ hδ hR hM
  have hu := Fmt.u_le_of_p hp
  have h := C126_to_rotation hp (Quat.from_rotation M) q _ (by linarith) h1 h3 i j
  rw [h2] at h
  exact ⟨h.1, h.2.trans (by linarith)⟩

/-- From a quaternion to a matrix and back, all in floating point: the quaternion up to sign. -/
theorem C126_quaternion_round_trip [Libm f] (hp : 11 ≤ f.p) (q : Quat (Flt f)) (q' : Quat ℝ) (ε : ℝ) (hε : ε ≤ 1 / 500)
    (h1 : normSq q'.toH = 1) (hq : ∀ i, (q.comp i).IsFin ∧ |(q.comp i).toReal - q'.comp i| ≤ ε) :
    (∀ i, ((Quat.from_rotation q.to_rotation).comp i).IsFin) ∧ ∃ s : ℝ, (s = 1 ∨ s = -1) ∧
      ∀ i, |((Quat.from_rotation q.to_rotation).comp i).toReal - s * q'.comp i| ≤ 30 * ε + 127 * f.u := by
  have hu : f.u ≤ 1 / 2048 := by
    unfold Fmt.u
    calc (2 : ℝ) ^ (-(f.p : ℤ)) ≤ 2 ^ (-11 : ℤ) := zpow_le_zpow_right₀ (by norm_num) (by omega)
      _ = _ := by norm_num
  have ha := C126_to_rotation (by omega) q q' ε (by linarith) h1 hq
  have hs := C48_to_rotation q' q' h1
  obtain ⟨r, g1, g2, g3⟩ := C126_from_rotation (by omega) q.to_rotation q'.to_rotation _ (by linarith)
    ((mem_SO3_iff _).2 ⟨hs.1, hs.2.1⟩) ha
  refine ⟨fun i => (g3 i).1, ?_⟩
  rcases (C48_double_cover r q' g1 h1).1 g2 with e | e
  · refine ⟨1, Or.inl rfl, fun i => ?_⟩
    have e2 : r.comp i = 1 * q'.comp i := by
      rw [one_mul]
      fin_cases i
      exacts [congrArg QuaternionAlgebra.re e, congrArg QuaternionAlgebra.imI e, congrArg QuaternionAlgebra.imJ e,
        congrArg QuaternionAlgebra.imK e]
    rw [← e2]
    exact (g3 i).2.trans (by linarith)
  · refine ⟨-1, Or.inr rfl, fun i => ?_⟩
    have e2 : r.comp i = -1 * q'.comp i := by
      rw [neg_one_mul]
      fin_cases i
      exacts [congrArg QuaternionAlgebra.re e, congrArg QuaternionAlgebra.imI e, congrArg QuaternionAlgebra.imJ e,
        congrArg QuaternionAlgebra.imK e]
    rw [← e2]
    exact (g3 i).2.trans (by linarith)

/-- The result is almost of norm 1. -/
theorem C126_norm [Libm f] (hp : 8 ≤ f.p) (M : Mat 3 (Flt f)) (R : Mat 3 ℝ) (δ : ℝ) (hδ : δ ≤ 1 / 50)
    (hR : R.toM ∈ Matrix.specialOrthogonalGroup (Fin 3) ℝ)
    (hM : ∀ i j, (M i j).IsFin ∧ |(M i j).toReal - R i j| ≤ δ) :
    |‖(Quat.from_rotation M).reH‖ - 1| ≤ 12 * δ + 50 * f.u := by
  obtain ⟨q, h1, -, h3⟩ := C126_from_rotation hp M R δ hδ hR hM
  have hn : ‖q.toH‖ = 1 := by
    rw [normSq_eq_norm_mul_self] at h1
    nlinarith [norm_nonneg q.toH]
  rw [← hn]
  refine (abs_norm_sub_norm_le _ _).trans ?_
  have hE : 0 ≤ 6 * δ + 25 * f.u := (abs_nonneg _).trans (h3 0).2
  refine abs_le_of_sq_le_sq' ?_ (by linarith) |>.2
  rw [sq ‖_‖, ← normSq_eq_norm_mul_self, normSq_def']
  have k (i : Fin 4) := sq_le_sq' (abs_le.1 (h3 i).2).1 (abs_le.1 (h3 i).2).2
  have k0 : (((Quat.from_rotation M).reH - q.toH).re) ^ 2 ≤ _ := k 0
  have k1 : (((Quat.from_rotation M).reH - q.toH).imI) ^ 2 ≤ _ := k 1
  have k2 : (((Quat.from_rotation M).reH - q.toH).imJ) ^ 2 ≤ _ := k 2
  have k3 : (((Quat.from_rotation M).reH - q.toH).imK) ^ 2 ≤ _ := k 3
  nlinarith

/-- A cyclic permutation of the axes in `f32`, no entry off by anything. -/
example [RealParams] : 8 ≤ Fmt.f32.p ∧ (0 : ℝ) ≤ 1 / 50 ∧
    (⟨![![0, 0, 1], ![1, 0, 0], ![0, 1, 0]]⟩ : Mat 3 ℝ).toM ∈ Matrix.specialOrthogonalGroup (Fin 3) ℝ ∧
    ∀ i j, ((⟨![![0, 0, 1], ![1, 0, 0], ![0, 1, 0]]⟩ : Mat 3 (Flt Fmt.f32)) i j).IsFin ∧
      |((⟨![![0, 0, 1], ![1, 0, 0], ![0, 1, 0]]⟩ : Mat 3 (Flt Fmt.f32)) i j).toReal -
        (⟨![![0, 0, 1], ![1, 0, 0], ![0, 1, 0]]⟩ : Mat 3 ℝ) i j| ≤ 0 := by
  refine ⟨by decide, by norm_num, ?_, ?_⟩
  · rw [Matrix.mem_specialOrthogonalGroup_iff, Matrix.mem_orthogonalGroup_iff]
    constructor
    · ext i j
      fin_cases i <;> fin_cases j <;> simp [Mat.toM, Matrix.mul_apply, Fin.sum_univ_three]
    · simp [Mat.toM, Matrix.det_fin_three]
  · intro i j
    fin_cases i <;> fin_cases j <;> exact ⟨trivial, by simp [toReal_zero, toReal_one]⟩

/-- The quaternion of a third of a turn in `f64`, exactly representable. -/
example : ∃ h : Fmt.f64.Rep (1 / 2), normSq (Quat.new_from (1 / 2) (1 / 2) (1 / 2) (1 / 2) : Quat ℝ).toH = 1 ∧
    ∀ i, ((Quat.new_from (fin false (1 / 2) h) (fin false (1 / 2) h) (fin false (1 / 2) h) (fin false (1 / 2) h) :
        Quat (Flt Fmt.f64)).comp i).IsFin ∧
      |((Quat.new_from (fin false (1 / 2) h) (fin false (1 / 2) h) (fin false (1 / 2) h) (fin false (1 / 2) h) :
        Quat (Flt Fmt.f64)).comp i).toReal -
        (Quat.new_from (1 / 2) (1 / 2) (1 / 2) (1 / 2) : Quat ℝ).comp i| ≤ 0 := by
  have h : Fmt.f64.Rep (1 / 2) := by
    have := Fmt.f64.rep_two_zpow (-1) (by decide) (by decide)
    norm_num at this ⊢
    exact this
  refine ⟨h, ?_, fun i => ?_⟩
  · rw [Quat.unit_iff]
    change (1 / 2 : ℝ) ^ 2 + (1 / 2) ^ 2 + (1 / 2) ^ 2 + (1 / 2) ^ 2 = 1
    norm_num
  · have e : (fin false (1 / 2) h : Flt Fmt.f64).toReal = 1 / 2 := rfl
    fin_cases i <;> exact ⟨trivial, (by rw [e, sub_self, abs_zero] :
      |(fin false (1 / 2) h : Flt Fmt.f64).toReal - 1 / 2| ≤ 0)⟩

end StaticMath
