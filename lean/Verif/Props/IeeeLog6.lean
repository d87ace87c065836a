import Verif.Lemmas.Log6
import Verif.Props.IeeeExp6
import Verif.Props.IeeeLog
import Verif.Props.IeeeScrewPar
import Verif.Props.ZeroTests

/-!
# C156: the logarithm of a rigid motion in floating point
-/

namespace StaticMath
open Flt

section
variable {f : Fmt}

/-- The angle of the rotation block, as computed by `matrix_log` and `matrix_log6`. -/
private theorem theta_near [L : Libm f] (hp : 8 ≤ f.p) {d ε : ℝ} (hacos : AcosAcc f ε)
    (R : Mat 3 (Flt f)) (q : Fin 3 → Fin 3 → ℝ) {n s : ℝ} (hR : ∀ i j, Near (R i j) (q i j) d) (h0 : 0 ≤ n) (hpi : n ≤ Real.pi)
    (hq1 : ∀ i j, |q i j| ≤ 1) (htr : q 0 0 + q 1 1 + q 2 2 = 1 + 2 * Real.cos n)
    (hs : s = Real.sin n) (hs0 : 0 < s) (hu : f.u ≤ d) (hε : ε ≤ d) (hd : d ≤ s ^ 2 / 200) :
    Near (L.acos ((M33.trace R - 1) / (1 + 1))) n (11 * (d / s)) := by
  have hu0 := f.u_pos
  have hs1 : s ≤ 1 := hs ▸ Real.sin_le_one n
  have hd1 : d ≤ 1 / 200 := by nlinarith
  have hdd : d ≤ d / s := by rw [le_div_iff₀ hs0]; nlinarith
  have tr : Near ((M33.trace R - 1) / (1 + 1)) (Real.cos n) (8 * d) := by
    have ht : |q 0 0 + q 1 1 + q 2 2 - 1| ≤ 2 := by
      rw [htr, add_sub_cancel_left, abs_mul, abs_two]
      linarith [Real.abs_cos_le_one n]
    have h1 := Near.add hp (B := 201 / 100) (e := 5 * d) (hR 0 0) (hR 1 1)
      (by linarith [abs_add_le (q 0 0) (q 1 1), hq1 0 0, hq1 1 1]) (by norm_num) (by linarith)
    have h2 := Near.add hp (B := 31 / 10) (e := 10 * d) h1 (hR 2 2)
      (by linarith [abs_add_le (q 0 0 + q 1 1) (q 2 2), abs_add_le (q 0 0) (q 1 1), hq1 0 0, hq1 1 1, hq1 2 2]) (by norm_num) (by linarith)
    have h3 := Near.sub hp (B := 21 / 10) (e := 13 * d) h2 Near.one (by linarith) (by norm_num) (by linarith)
    have h4 := Near.div hp (c := 2) (Q := 1) (B := 21 / 20) (e := 8 * d) h3 Near.two (by norm_num) (by norm_num)
      (by rw [abs_div, abs_two]; linarith) (by linarith) (by norm_num) (by linarith)
    rw [htr, show (1 + 2 * Real.cos n - 1) / 2 = Real.cos n by ring] at h4
    exact h4
  obtain ⟨k1, k2⟩ := arccos_near h0 hpi hs hs0 hd tr.err
  have hs2 : 0 < s ^ 2 := by positivity
  have ac := hacos _ tr.fin (by linarith)
  refine ⟨ac.1, (abs_sub_le _ _ _).trans ((add_le_add ac.2 k2).trans ?_)⟩
  rw [mul_div_assoc]
  linarith

set_option maxHeartbeats 400000 in
/-- The cotangent of half the angle. -/
private theorem cot_near [L : Libm f] (hp : 8 ≤ f.p) {s n K ε : ℝ} (s0 : 0 < s) (sn : s ≤ n) (hpi : n ≤ Real.pi) (n64 : 1 / 64 ≤ n)
    (hs : s = Real.sin n) (hK0 : 0 ≤ K) (hK : K ≤ s / 400) (hε0 : 0 ≤ ε) (hε : ε ≤ K * s ^ 2) (hu : f.u ≤ K * s ^ 2)
    (hT : TanAcc f ε) {x : Flt f} (hx : Near x (n / 2) (72 / 10 * (K * s))) :
    Near (1 / L.tan x) (1 / Real.tan (n / 2)) (84 * (K / n)) := by
  have u0 := f.u_pos
  have s1 : s ≤ 1 := hs ▸ Real.sin_le_one n
  have n0 : 0 < n := by linarith
  have hpi2 := Real.pi_lt_d2
  have Ks : K * s ≤ K := mul_le_of_le_one_right hK0 s1
  have Ks0 : 0 ≤ K * s := mul_nonneg hK0 s0.le
  have Kss : K * s ^ 2 ≤ K * s := by nlinarith
  obtain ⟨σ, hσ⟩ : ∃ σ, σ = Real.sin (n / 2) := ⟨_, rfl⟩
  obtain ⟨cs, hcs⟩ : ∃ cs, cs = Real.cos (n / 2) := ⟨_, rfl⟩
  have σn : n ≤ 315 / 100 * σ := by
    have := Real.mul_le_sin (x := n / 2) (by linarith) (by linarith)
    rw [← hσ] at this
    have e : 2 / Real.pi * (n / 2) = n / Real.pi := by field_simp
    rw [e, div_le_iff₀ Real.pi_pos] at this
    nlinarith [Real.pi_pos]
  have σ0 : 0 < σ := by linarith
  have σ1 : σ ≤ 1 := hσ ▸ Real.sin_le_one _
  have hsc : s = 2 * σ * cs := by
    rw [hs, hσ, hcs, ← Real.sin_two_mul, mul_div_cancel₀ n two_ne_zero]
  have hc0 : 1 / 2 * s ≤ cs := by
    have : 0 ≤ cs := by rw [hcs]; exact Real.cos_nonneg_of_neg_pi_div_two_le_of_le (by linarith) (by linarith)
    nlinarith
  have ht : 1 / Real.tan (n / 2) = cs / σ := by rw [Real.tan_eq_sin_div_cos, one_div_div, hcs, hσ]
  rw [ht]
  obtain ⟨y, hy⟩ : ∃ y, y = Real.sin x.toReal := ⟨_, rfl⟩
  obtain ⟨c, hc⟩ : ∃ c, c = Real.cos x.toReal := ⟨_, rfl⟩
  have y1 : |y - σ| ≤ 72 / 10 * (K * s) := by rw [hy, hσ]; exact (ls _ _).trans hx.err
  have c2 : |c - cs| ≤ 72 / 10 * (K * s) := by rw [hc, hcs]; exact (lc _ _).trans hx.err
  obtain ⟨y2, y3⟩ := _root_.abs_le.1 y1
  have y9 : 943 / 1000 * σ ≤ y := by linarith
  have y0 : 0 < y := by linarith
  have ay : |y| = y := abs_of_pos y0
  have y11 : y ≤ 1 := by rw [hy]; exact Real.sin_le_one _
  have c1 : |c| ≤ 1 := by rw [hc]; exact Real.abs_cos_le_one _
  have e1 : |c / y - cs / σ| ≤ 77 * (K / n) := by
    have e : c / y - cs / σ = Real.sin (n / 2 - x.toReal) / (y * σ) := by
      rw [Real.sin_sub, ← hσ, ← hcs, ← hc, ← hy]
      field_simp
    rw [e, abs_div, abs_of_pos (by positivity : 0 < y * σ), div_le_iff₀ (by positivity)]
    have h1 : |Real.sin (n / 2 - x.toReal)| ≤ 72 / 10 * (K * s) := by
      have := ls (n / 2 - x.toReal) 0
      rw [Real.sin_zero, sub_zero, sub_zero, abs_sub_comm (n / 2)] at this
      exact this.trans hx.err
    refine h1.trans ?_
    have h2 : 943 / 1000 * σ * σ ≤ y * σ := mul_le_mul_of_nonneg_right y9 σ0.le
    have h3 := mul_le_mul_of_nonneg_left h2 (by positivity : 0 ≤ 77 * (K / n))
    refine le_trans ?_ h3
    have h4 : 72 / 10 * (K * s) ≤ 72 / 10 * (K * n) := by nlinarith
    refine h4.trans ?_
    have e5 : 77 * (K / n) * (943 / 1000 * σ * σ) = K * (77 * 943 / 1000 * σ ^ 2) / n := by field_simp
    rw [e5, le_div_iff₀ n0]
    have h6 : n ^ 2 ≤ (315 / 100 * σ) ^ 2 := pow_le_pow_left₀ n0.le σn 2
    have h7 : 72 / 10 * n ^ 2 ≤ 77 * 943 / 1000 * σ ^ 2 := by nlinarith
    have := mul_le_mul_of_nonneg_left h7 hK0
    linarith
  have K400 : K ≤ 1 / 400 := by linarith
  have hε4 : ε ≤ 1 / 400 := by linarith
  rcases hT x hx.fin (by rw [← hy, ay]; linarith) with ⟨t1, t2⟩ | ⟨⟨sg, hti⟩, t2⟩
  · rw [← hy, ← hc, ay] at t2
    generalize L.tan x = t at *
    obtain ⟨t3, t4⟩ := _root_.abs_le.1 t2
    have hεy : ε * y ≤ 1 / 400 * y := mul_le_mul_of_nonneg_right hε4 y0.le
    have htc : 94 / 100 * σ ≤ t.toReal * c := by linarith
    have ht0 : t.toReal ≠ 0 := by
      intro h
      rw [h, zero_mul] at htc
      linarith
    have at0 : 0 < |t.toReal| := abs_pos.2 ht0
    have at1 : 94 / 100 * σ ≤ |t.toReal| := by
      have h1 : |t.toReal * c| ≤ |t.toReal| := by rw [abs_mul]; exact mul_le_of_le_one_right at0.le c1
      linarith [le_abs_self (t.toReal * c)]
    have hQ : |1 / t.toReal| ≤ 3352 / 1000 / n := by
      rw [abs_div, abs_one, div_le_div_iff₀ at0 n0]
      linarith
    have e2 : |1 / t.toReal - c / y| ≤ ε * (3352 / 1000 / n) := by
      have e : 1 / t.toReal - c / y = (y - t.toReal * c) / y * (1 / t.toReal) := by field_simp
      rw [e, abs_mul]
      refine mul_le_mul ?_ hQ (abs_nonneg _) hε0
      rw [abs_div, ay, abs_sub_comm, div_le_iff₀ y0]
      exact t2
    have n64' : 1 / n ≤ 64 := by rw [div_le_iff₀ n0]; linarith
    have n3' : 1 ≤ 315 / 100 * (1 / n) := by rw [mul_one_div, le_div_iff₀ n0]; linarith
    have eQ : 3352 / 1000 / n = 3352 / 1000 * (1 / n) := by ring
    have n1 := Near.div hp (c := |t.toReal|) (Q := 3352 / 1000 / n) (B := 3352 / 1000 / n)
      (e := f.u * (3352 / 1000 / n + 1 / 256)) Near.one (Near.of_fin t1) at0 (by rw [add_zero]) hQ
      (by rw [mul_zero, add_zero, zero_div, add_zero]) (by rw [eQ]; linarith) (by rw [mul_zero, add_zero, zero_div, zero_add])
    have hKn : K / n = K * (1 / n) := by ring
    have g1 : ε * (3352 / 1000 / n) ≤ 3352 / 1000 * (K / n) := by
      rw [hKn, eQ]
      have := mul_le_mul_of_nonneg_right (by linarith : ε ≤ K) (by positivity : 0 ≤ 1 / n)
      linarith
    have g2 : f.u * (3352 / 1000 / n + 1 / 256) ≤ 34 / 10 * (K / n) := by
      rw [hKn, eQ]
      have h1 := mul_le_mul_of_nonneg_right (by linarith : f.u ≤ K) (by positivity : 0 ≤ 1 / n)
      have h2 := mul_le_mul_of_nonneg_left n3' u0.le
      linarith
    refine ⟨n1.fin, ?_⟩
    have k1 := n1.err
    have k2 := abs_sub_le (1 / t : Flt f).toReal (1 / t.toReal) (c / y)
    have k3 := abs_sub_le (1 / t : Flt f).toReal (c / y) (cs / σ)
    have k4 : 0 ≤ K / n := by positivity
    linarith
  · exfalso
    rw [← hy, ← hc, ay] at t2
    have h1 : ε * y ≤ ε := mul_le_of_le_one_right hε0 y11
    have h2 := (_root_.abs_le.1 c2).1
    have h3 := le_abs_self c
    have h4 : K * s ≤ 1 / 400 * s := mul_le_mul_of_nonneg_right K400 s0.le
    linarith

/-- The coefficient of the square in the inverse of the exponential's translation map. -/
private theorem gamma_le {n : ℝ} (n0 : 0 < n) (hpi : n < Real.pi) : |1 / n - 1 / Real.tan (n / 2) / 2| ≤ n / 5 := by
  have hpi2 := Real.pi_lt_d2
  obtain ⟨σ, hσ⟩ : ∃ σ, σ = Real.sin (n / 2) := ⟨_, rfl⟩
  obtain ⟨c, hc⟩ : ∃ c, c = Real.cos (n / 2) := ⟨_, rfl⟩
  have σn : n ≤ 315 / 100 * σ := by
    have := Real.mul_le_sin (x := n / 2) (by linarith) (by linarith)
    rw [← hσ] at this
    have e : 2 / Real.pi * (n / 2) = n / Real.pi := by field_simp
    rw [e, div_le_iff₀ Real.pi_pos] at this
    nlinarith [Real.pi_pos]
  have σ0 : 0 < σ := by linarith
  have hc0 : 0 < c := by rw [hc]; exact Real.cos_pos_of_mem_Ioo ⟨by linarith, by linarith⟩
  have e : 1 / n - 1 / Real.tan (n / 2) / 2 = (σ - n / 2 * c) / (n * σ) := by
    rw [Real.tan_eq_sin_div_cos, one_div_div, ← hc, ← hσ]
    field_simp
  have lo : 0 ≤ σ - n / 2 * c := by
    have := Real.lt_tan (x := n / 2) (by linarith) (by linarith)
    rw [Real.tan_eq_sin_div_cos, ← hσ, ← hc, lt_div_iff₀ hc0] at this
    linarith
  have hi : σ - n / 2 * c ≤ n ^ 3 / 16 := by
    have h1 : σ ≤ n / 2 := by rw [hσ]; exact Real.sin_le (by linarith)
    have h2 : 1 - (n / 2) ^ 2 / 2 ≤ c := by rw [hc]; exact Real.one_sub_sq_div_two_le_cos
    have h3 := mul_le_mul_of_nonneg_left h2 (by linarith : 0 ≤ n / 2)
    linarith
  rw [e, abs_of_nonneg (by positivity), div_le_iff₀ (by positivity)]
  have h4 : n ^ 2 * n ≤ n ^ 2 * (315 / 100 * σ) := mul_le_mul_of_nonneg_left σn (by positivity)
  have h5 : 0 ≤ n ^ 2 * σ := by positivity
  linarith

/-- The computed coefficient. -/
private theorem coef_near [L : Libm f] (hp : 8 ≤ f.p) {s n K ε : ℝ} (s0 : 0 < s) (sn : s ≤ n) (hpi : n < Real.pi) (n64 : 1 / 64 ≤ n)
    (hs : s = Real.sin n) (hK0 : 0 ≤ K) (hK : K ≤ s / 400) (hε0 : 0 ≤ ε) (hε : ε ≤ K * s ^ 2) (hu : f.u ≤ K * s ^ 2)
    (hT : TanAcc f ε) {th : Flt f} (hx : Near th n (11 * (K * s))) :
    Near (1 / th - 1 / L.tan (th / (1 + 1)) / (1 + 1)) (1 / n - 1 / Real.tan (n / 2) / 2) (62 * (K / n)) := by
  have u0 := f.u_pos
  have s1 : s ≤ 1 := hs ▸ Real.sin_le_one n
  have n0 : 0 < n := by linarith
  have hpi2 := Real.pi_lt_d2
  have n3 : n ≤ 315 / 100 := by linarith
  have Ks : K * s ≤ K := mul_le_of_le_one_right hK0 s1
  have Ks0 : 0 ≤ K * s := mul_nonneg hK0 s0.le
  have Kss : K * s ^ 2 ≤ K * s := by nlinarith
  have K400 : K ≤ 1 / 400 := by linarith
  have Kn : K / n ≤ 1 / 400 := by rw [div_le_iff₀ n0]; linarith
  have Kn0 : 0 ≤ K / n := by positivity
  have an : |n| = n := abs_of_pos n0
  have hg := gamma_le n0 hpi
  have n64' : 1 / n ≤ 64 := by rw [div_le_iff₀ n0]; linarith
  have n3' : 1 ≤ 315 / 100 * (1 / n) := by rw [mul_one_div, le_div_iff₀ n0]; linarith
  have n0' : 0 < 1 / n := by positivity
  have hKn : K / n = K * (1 / n) := by ring
  have uK : f.u * (1 / n) ≤ K / n := by
    rw [hKn]
    exact mul_le_mul_of_nonneg_right (by linarith) n0'.le
  have u3 : f.u ≤ 315 / 100 * (K / n) := by
    have := mul_le_mul_of_nonneg_left n3' u0.le
    linarith
  -- half the angle
  have h2 : Near (th / (1 + 1)) (n / 2) (72 / 10 * (K * s)) :=
    Near.div hp (c := 2) (Q := n / 2) (B := 163 / 100) hx Near.two (by norm_num) (by norm_num)
      (by rw [abs_of_pos (by positivity)]) (by linarith) (by norm_num) (by linarith)
  have h3 := cot_near hp s0 sn hpi.le n64 hs hK0 hK hε0 hε hu hT h2
  -- the reciprocal of the angle
  have h4 : Near (1 / th) (1 / n) (127 / 10 * (K / n)) := by
    have e1 : (0 + 1 / n * (11 * (K * s))) / (97 / 100 * n) ≤ 1135 / 100 * (K / n) := by
      rw [div_le_iff₀ (by positivity)]
      have e2 : 1135 / 100 * (K / n) * (97 / 100 * n) = 1135 * 97 / 10000 * K := by field_simp; ring
      have e3 : 0 + 1 / n * (11 * (K * s)) = 11 * K * (s / n) := by field_simp; ring
      have e4 : s / n ≤ 1 := (div_le_one n0).2 sn
      rw [e2, e3]
      have := mul_le_mul_of_nonneg_left e4 (by positivity : 0 ≤ 11 * K)
      linarith
    exact Near.div hp (c := 97 / 100 * n) (Q := 1 / n) (B := 1 / n + 1 / 30) Near.one hx (by positivity)
      (by rw [an]; linarith) (by rw [abs_of_pos n0']) (by linarith) (by linarith) (by linarith)
  -- the halved cotangent
  have hcb : |1 / Real.tan (n / 2) / 2| ≤ 1 / n + n / 5 := by
    have := abs_sub_abs_le_abs_sub (1 / Real.tan (n / 2) / 2) (1 / n)
    rw [abs_sub_comm, abs_of_pos n0'] at this
    linarith
  have nn : n / 5 ≤ 2 * (1 / n) := by
    rw [mul_one_div, div_le_div_iff₀ (by norm_num) n0]
    nlinarith
  have h5 : Near (1 / L.tan (th / (1 + 1)) / (1 + 1)) (1 / Real.tan (n / 2) / 2) (46 * (K / n)) := by
    refine Near.div hp (c := 2) (Q := 1 / n + n / 5) (B := 1 / n + n / 5 + 2 / 10) h3 Near.two (by norm_num) (by norm_num)
      hcb (by linarith) (by linarith) ?_
    have := mul_le_mul_of_nonneg_left nn u0.le
    linarith
  refine Near.sub hp (B := n / 5 + 15 / 100) h4 h5 (by linarith) (by linarith) ?_
  have := mul_le_mul_of_nonneg_left n3 u0.le
  linarith

/-- The square of the computed rotation part. -/
private theorem sq_near (hp : 8 ≤ f.p) {n K : ℝ} (n64 : 1 / 64 ≤ n) (n3 : n ≤ 315 / 100) (hK0 : 0 ≤ K) (hK : K ≤ n / 400) (hu : f.u ≤ K)
    (A : Mat 3 (Flt f)) (M : Matrix (Fin 3) (Fin 3) ℝ) (hA : ∀ i j, Near (A i j) (M i j) (74 * K)) (hM : ∀ i j, |M i j| ≤ n)
    (i j : Fin 3) (hq : |M i 0 * M 0 j + M i 1 * M 1 j + M i 2 * M 2 j| ≤ n ^ 2) :
    Near (M33.mul A A i j) (M i 0 * M 0 j + M i 1 * M 1 j + M i 2 * M 2 j) (518 * (n * K)) := by
  have u0 := f.u_pos
  have n0 : 0 < n := by linarith
  have nK0 : 0 ≤ n * K := by positivity
  have nKn : n * K ≤ n ^ 2 / 400 := by nlinarith
  have n2 : n ^ 2 ≤ 9923 / 1000 := by nlinarith
  have un : f.u * n ^ 2 ≤ 315 / 100 * (n * K) := by
    have h1 := mul_le_mul_of_nonneg_right hu (sq_nonneg n)
    have h2 := mul_le_mul_of_nonneg_left n3 nK0
    nlinarith
  have u256 : f.u * (1 / 256) ≤ n * K := by
    have h1 := mul_le_mul_of_nonneg_right n64 hK0
    linarith
  have pr (k : Fin 3) : Near (A i k * A k j) (M i k * M k j) (1672 / 10 * (n * K)) ∧ |M i k * M k j| ≤ n ^ 2 := by
    refine ⟨Near.mul hp (A := 1185 / 1000 * n) (C := n) (D := 1185 / 1000 * n) (B := 1405 / 1000 * n ^ 2) (hA i k) (hA k j)
      (by linarith [hM i k]) (hM k j) (by linarith [hM k j]) (by nlinarith) (by linarith) (by nlinarith), ?_⟩
    rw [abs_mul, sq]
    exact mul_le_mul (hM i k) (hM k j) (abs_nonneg _) n0.le
  have uK : f.u * (n * K) ≤ f.u * (n ^ 2 / 400) := mul_le_mul_of_nonneg_left nKn u0.le
  have h1 := Near.add hp (B := 284 / 100 * n ^ 2) (e := 3435 / 10 * (n * K)) (pr 0).1 (pr 1).1
    (by linarith [abs_add_le (M i 0 * M 0 j) (M i 1 * M 1 j), (pr 0).2, (pr 1).2]) (by linarith) (by linarith)
  have h2 := Near.add hp (B := 229 / 100 * n ^ 2) (e := 518 * (n * K)) h1 (pr 2).1 (by linarith) (by linarith) (by linarith)
  have e : M33.mul A A i j = A i 0 * A 0 j + A i 1 * A 1 j + A i 2 * A 2 j := by
    fin_cases i <;> fin_cases j <;> rfl
  rw [e]
  exact h2

/-- One entry of the matrix applied to the translation. -/
private theorem inv_near (hp : 8 ≤ f.p) {s n K γ q m o : ℝ} (s0 : 0 ≤ s) (s1 : s ≤ 1) (n64 : 1 / 64 ≤ n) (n3 : n ≤ 315 / 100) (hK0 : 0 ≤ K)
    (hK : K ≤ n / 400) (hK4 : K ≤ 1 / 400) (hu : f.u ≤ K) {w W c th a : Flt f} (hw : Near w m (74 * K)) (hm : |m| ≤ n) (hW : Near W q (518 * (n * K)))
    (hq : |q| ≤ n ^ 2) (hc : Near c γ (62 * (K / n))) (hγ : |γ| ≤ n / 5) (hth : Near th n (11 * (K * s))) (ha : Near a o 0) (ho : |o| ≤ 1) :
    Near (a - w / (1 + 1) + W * c / th) (o - m / 2 + q * γ / n) (550 * K) ∧ |o - m / 2 + q * γ / n| ≤ 456 / 100 := by
  have u0 := f.u_pos
  have n0 : 0 < n := by linarith
  have an : |n| = n := abs_of_pos n0
  have nK0 : 0 ≤ n * K := by positivity
  have nKn : n * K ≤ n ^ 2 / 400 := by nlinarith
  have nK3 : n * K ≤ 315 / 100 * K := mul_le_mul_of_nonneg_right n3 hK0
  have n2 : n ^ 2 ≤ 9923 / 1000 := by nlinarith
  have Ks : K * s ≤ K := mul_le_of_le_one_right hK0 s1
  have Ks0 : 0 ≤ K * s := mul_nonneg hK0 s0
  have Kn : K / n ≤ 1 / 400 := by rw [div_le_iff₀ n0]; linarith
  have un : f.u * n ^ 2 ≤ 315 / 100 * (n * K) := by
    have h1 := mul_le_mul_of_nonneg_right hu (sq_nonneg n)
    have h2 := mul_le_mul_of_nonneg_left n3 nK0
    nlinarith
  have u256 : f.u * (1 / 256) ≤ n * K := by
    have h1 := mul_le_mul_of_nonneg_right n64 hK0
    linarith
  have h1 : Near (w / (1 + 1)) (m / 2) (39 * K) :=
    Near.div hp (c := 2) (Q := n / 2) (B := 168 / 100) hw Near.two (by norm_num) (by norm_num)
      (by rw [abs_div, abs_two]; linarith) (by linarith) (by norm_num) (by linarith)
  have m2 : |m / 2| ≤ 1575 / 1000 := by rw [abs_div, abs_two]; linarith
  have b1 := abs_sub o (m / 2)
  have h2 := Near.sub hp (B := 27 / 10) (e := 42 * K) ha h1 (by linarith) (by norm_num) (by linarith)
  have nn : n ^ 2 * (62 * (K / n)) = 62 * (n * K) := by field_simp
  have h3 : Near (W * c) (q * γ) (476 * (n * K)) := by
    refine Near.mul hp (A := 2295 / 1000 * n ^ 2) (C := n / 5) (D := 785 / 1000) (B := 1802 / 1000 * n ^ 2) hW hc
      (by linarith) hγ (by linarith) (by linarith) (by linarith) ?_
    have g1 : n / 5 * (518 * (n * K)) ≤ 63 / 100 * (518 * (n * K)) := mul_le_mul_of_nonneg_right (by linarith) (by positivity)
    have g2 : 2295 / 1000 * n ^ 2 * (62 * (K / n)) = 2295 / 1000 * (62 * (n * K)) := by rw [← nn]; ring
    rw [g2]
    linarith
  have bQ : |q * γ / n| ≤ n ^ 2 / 5 := by
    rw [abs_div, an, abs_mul, div_le_iff₀ n0]
    refine (mul_le_mul hq hγ (abs_nonneg _) (sq_nonneg n)).trans (le_of_eq ?_)
    ring
  have h4 : Near (W * c / th) (q * γ / n) (502 * K) := by
    have k1 : (476 * (n * K) + n ^ 2 / 5 * (11 * (K * s))) / (97 / 100 * n) ≤ 498 * K := by
      rw [div_le_iff₀ (by positivity)]
      have k2 : n ^ 2 / 5 * (11 * (K * s)) ≤ n ^ 2 / 5 * (11 * K) := mul_le_mul_of_nonneg_left (by linarith) (by positivity)
      have k3 : n ^ 2 / 5 * (11 * K) = 11 / 5 * n * (n * K) := by ring
      have k4 : 11 / 5 * n * (n * K) ≤ 693 / 100 * (n * K) := mul_le_mul_of_nonneg_right (by linarith) nK0
      linarith
    exact Near.div hp (c := 97 / 100 * n) (Q := n ^ 2 / 5) (B := 324 / 100) h3 hth (by positivity) (by rw [an]; linarith) bQ
      (by linarith) (by norm_num) (by linarith)
  have b2 := abs_add_le (o - m / 2) (q * γ / n)
  exact ⟨Near.add hp (B := 594 / 100) h2 h4 (by linarith) (by norm_num) (by linarith), by linarith⟩

/-- The row times the translation. -/
private theorem row3_near (hp : 8 ≤ f.p) {a b c x y z : Flt f} {g0 g1 g2 p0 p1 p2 K P : ℝ} (P1 : 1 ≤ P) (P2 : P ≤ 12) (hK0 : 0 ≤ K)
    (hK : K ≤ 1 / 400) (hu : f.u ≤ K) (ha : Near a g0 (550 * K)) (hb : Near b g1 (550 * K)) (hc : Near c g2 (550 * K))
    (b0 : |g0| ≤ 456 / 100) (b1 : |g1| ≤ 456 / 100) (b2 : |g2| ≤ 456 / 100) (hx : Near x p0 K) (hy : Near y p1 K) (hz : Near z p2 K)
    (q0 : |p0| ≤ P) (q1 : |p1| ≤ P) (q2 : |p2| ≤ P) :
    Near (a * x + b * y + c * z) (g0 * p0 + g1 * p1 + g2 * p2) (1720 * (P * K)) := by
  have u0 := f.u_pos
  have PK : K ≤ P * K := le_mul_of_one_le_left hK0 P1
  have PK4 : P * K ≤ P / 400 := by nlinarith
  have uP : f.u * P ≤ P * K := by nlinarith
  have pr {a x : Flt f} {g p : ℝ} (ha : Near a g (550 * K)) (hg : |g| ≤ 456 / 100) (hx : Near x p K) (hp1 : |p| ≤ P) :
      Near (a * x) (g * p) (563 * (P * K)) ∧ |g * p| ≤ 456 / 100 * P := by
    refine ⟨Near.mul hp ha hx (A := 597 / 100) (C := P) (D := 1003 / 1000 * P) (B := 5989 / 1000 * P)
      (by linarith) hp1 (by linarith) (by linarith) (by linarith) (by linarith), ?_⟩
    rw [abs_mul]
    exact mul_le_mul hg hp1 (abs_nonneg _) (by norm_num)
  obtain ⟨n1, k1⟩ := pr ha b0 hx q0
  obtain ⟨n2, k2⟩ := pr hb b1 hy q1
  obtain ⟨n3, k3⟩ := pr hc b2 hz q2
  have a1 := abs_add_le (g0 * p0) (g1 * p1)
  have a2 := abs_add_le (g0 * p0 + g1 * p1) (g2 * p2)
  have s1 := Near.add hp n1 n2 (B := 12 * P) (e := 1138 * (P * K)) (by linarith) (by linarith) (by linarith)
  exact Near.add hp s1 n3 (B := 1795 / 100 * P) (by linarith) (by linarith) (by linarith)

/-- The trace of the exponential of an antisymmetric matrix of angle `N`, and the bound on the entries of its square. -/
private theorem skew_facts (M : Matrix (Fin 3) (Fin 3) ℝ) (hM : ∀ i j, M i j = -M j i) {N : ℝ} (hNp : 0 < N)
    (hN2 : N ^ 2 = M 2 1 ^ 2 + M 0 2 ^ 2 + M 1 0 ^ 2) :
    NormedSpace.exp M 0 0 + NormedSpace.exp M 1 1 + NormedSpace.exp M 2 2 = 1 + 2 * Real.cos N ∧
    (∀ i j, |NormedSpace.exp M i j| ≤ 1) ∧ (∀ i j, |M i j| ≤ N) ∧
    ∀ i j, |M i 0 * M 0 j + M i 1 * M 1 j + M i 2 * M 2 j| ≤ N ^ 2 := by
  have hd' (i : Fin 3) : M i i = 0 := by linarith [hM i i]
  have hq := exp_skew_entry M hM N hNp hN2
  obtain ⟨G, hG, hGe⟩ := exp_skew_rot M hM
  refine ⟨?_, fun i j => ?_, fun i j => ?_, fun i j => ?_⟩
  · rw [hq, hq, hq, hd', hd', hd', hM 0 1, hM 1 2, hM 2 0]
    have h1 : (M 2 1 / N) ^ 2 + (M 0 2 / N) ^ 2 + (M 1 0 / N) ^ 2 = 1 := by
      rw [div_pow, div_pow, div_pow, ← add_div, ← add_div, ← hN2, div_self (by positivity)]
    simp only [Matrix.one_apply_eq]
    linear_combination (-2 + 2 * Real.cos N) * h1
  · rw [← hGe]
    exact rot_entry hG i j
  · exact abs_le_of_sq_le_sq (skew_entry hM hN2 i j) hNp.le
  · have a := sq_nonneg (M 2 1)
    have b := sq_nonneg (M 0 2)
    have c := sq_nonneg (M 1 0)
    have d1 := sq_nonneg (M 2 1 - M 0 2)
    have d2 := sq_nonneg (M 2 1 - M 1 0)
    have d3 := sq_nonneg (M 0 2 - M 1 0)
    have d4 := sq_nonneg (M 2 1 + M 0 2)
    have d5 := sq_nonneg (M 2 1 + M 1 0)
    have d6 := sq_nonneg (M 0 2 + M 1 0)
    rw [hN2]
    fin_cases i <;> fin_cases j <;> simp only [Fin.zero_eta, Fin.mk_one, Fin.reduceFinMk, hd', hM 0 1, hM 1 2, hM 2 0] <;>
      rw [_root_.abs_le] <;> constructor <;> nlinarith

set_option maxHeartbeats 800000 in
/-- `matrix_log6` of a float pose within `δ` of the exponential of a twist `X` of angle `N < π` gives back `X`: the rotation
block up to `74 (δ + ε + u) / sin² N` and the translation up to `1720 P (δ + ε + u) / sin² N`, where `P` bounds the
translation of the pose, and the last row is exactly zero. The angle has `sin N ≥ 1/64`. -/
theorem C156_matrix_log6 [L : Libm f] (hp : 8 ≤ f.p) {ε δ P : ℝ} (h : SinCosAcc f ε) (hacos : AcosAcc f ε) (hT : TanAcc f ε)
    (X : Mat 4 ℝ) (hX : IsSe3 X) (N : ℝ) (hN : N = √(X 2 1 ^ 2 + X 0 2 ^ 2 + X 1 0 ^ 2)) (hpi : N ≤ Real.pi)
    (hs : 1 / 64 ≤ Real.sin N) (P1 : 1 ≤ P) (P2 : P ≤ 12) (hP : ∀ i : Fin 3, |NormedSpace.exp X.toM i.castSucc 3| ≤ P)
    (H : Mat 4 (Flt f)) (hH : ∀ (i : Fin 3) (j : Fin 4),
      (H i.castSucc j).IsFin ∧ |(H i.castSucc j).toReal - NormedSpace.exp X.toM i.castSucc j| ≤ δ)
    (hd : δ + ε + f.u ≤ Real.sin N ^ 3 / 400) :
    (∀ i j : Fin 3, (matrix_log6 H i.castSucc j.castSucc).IsFin ∧
      |(matrix_log6 H i.castSucc j.castSucc).toReal - X i.castSucc j.castSucc| ≤ 74 * (δ + ε + f.u) / Real.sin N ^ 2) ∧
    (∀ i : Fin 3, (matrix_log6 H i.castSucc 3).IsFin ∧
      |(matrix_log6 H i.castSucc 3).toReal - X i.castSucc 3| ≤ 1720 * P * (δ + ε + f.u) / Real.sin N ^ 2) ∧
    ∀ j, matrix_log6 H 3 j = 0 := by
  have u0 := f.u_pos
  have hε0 := acc_nonneg h
  have hδ0 : 0 ≤ δ := (abs_nonneg _).trans (hH 0 0).2
  have hNn : 0 ≤ N := by rw [hN]; exact Real.sqrt_nonneg _
  have hN2 : N ^ 2 = X 2 1 ^ 2 + X 0 2 ^ 2 + X 1 0 ^ 2 := by rw [hN, Real.sq_sqrt (by positivity)]
  have hpi1 : N < Real.pi := lt_of_le_of_ne hpi fun hc => by rw [hc, Real.sin_pi] at hs; norm_num at hs
  have sN : Real.sin N ≤ N := Real.sin_le hNn
  have n64 : 1 / 64 ≤ N := hs.trans sN
  have hNp : 0 < N := by linarith
  have hpi2 := Real.pi_lt_d2
  have n3 : N ≤ 315 / 100 := by linarith
  let M : Matrix (Fin 3) (Fin 3) ℝ := Matrix.of fun i j => X i.castSucc j.castSucc
  have hMs : ∀ i j, M i j = -M j i := hX.skew
  obtain ⟨x1, -, -⟩ := exp6_entries X hX N hNp hN2
  obtain ⟨f1, f2, f3, f4⟩ := skew_facts M hMs hNp hN2
  have htr : NormedSpace.exp X.toM 0 0 + NormedSpace.exp X.toM 1 1 + NormedSpace.exp X.toM 2 2 = 1 + 2 * Real.cos N := by
    rw [← f1]
    exact congrArg₂ (· + ·) (congrArg₂ (· + ·) (x1 0 0) (x1 1 1)) (x1 2 2)
  have hlog : ∀ i : Fin 3, X i.castSucc 3 = _ := fun i => by
    let _ : RealParams := f64Params
    exact log6_entry X hX N (RealParams.eps_le.trans (by norm_num at n64 ⊢; linarith)) hpi1 hN2 htr i
  obtain ⟨R, hR⟩ : ∃ R, R = (get_parts_raw H).1 := ⟨_, rfl⟩
  have hRe : ∀ i j : Fin 3, R i j = H i.castSucc j.castSucc := by
    intro i j
    rw [hR]
    fin_cases i <;> fin_cases j <;> rfl
  obtain ⟨s, hse⟩ : ∃ s, s = Real.sin N := ⟨_, rfl⟩
  obtain ⟨d, hde⟩ : ∃ d, d = δ + ε + f.u := ⟨_, rfl⟩
  have s1 : s ≤ 1 := hse ▸ Real.sin_le_one N
  rw [← hse] at hs sN
  have s0 : 0 < s := by linarith
  have hd2 : d ≤ s ^ 2 / 200 := by
    rw [hde]
    refine hd.trans ?_
    rw [← hse]
    nlinarith [pow_pos s0 2]
  have hRn : ∀ i j, (R i j).IsFin ∧ |(R i j).toReal - NormedSpace.exp M i j| ≤ δ := fun i j => by
    rw [hRe, ← x1]
    exact hH i j.castSucc
  have hl := C132_matrix_log_partial hp h hacos M hMs N hN hpi (by rw [← hse]; exact hs) R hRn (by rw [← hse, ← hde]; exact hd2)
  obtain ⟨W, hW⟩ : ∃ W, W = matrix_log R := ⟨_, rfl⟩
  rw [← hW] at hl
  obtain ⟨K, hKe⟩ : ∃ K, K = d / s ^ 2 := ⟨_, rfl⟩
  have hKd : K * s ^ 2 = d := by rw [hKe]; field_simp
  rw [← hse, ← hde] at hd hl ⊢
  have d0 : 0 < d := by linarith
  have hK0 : 0 ≤ K := by rw [hKe]; positivity
  have hK : K ≤ s / 400 := by
    rw [hKe, div_le_iff₀ (by positivity)]
    linarith
  have hKs : K * s = d / s := by rw [hKe]; field_simp
  have dK : d ≤ K := by rw [← hKd]; exact mul_le_of_le_one_right hK0 (by nlinarith)
  have eK : 74 * d / s ^ 2 = 74 * K := by rw [hKe]; ring
  rw [eK] at hl ⊢
  have hWn : ∀ i j, Near (W i j) (M i j) (74 * K) := fun i j => ⟨(hl i j).1, (hl i j).2⟩
  -- the computed logarithm is not zero
  have hz : W.is_zero = false := by
    rw [Bool.eq_false_iff, ne_eq, (C97_mat_float W W).2.2]
    intro hc
    have k (i j : Fin 3) : M i j ^ 2 ≤ (1 / 4 * N) ^ 2 := by
      have := (hl i j).2
      rw [(hc i j).2, zero_sub, abs_neg] at this
      have h1 : |M i j| ≤ 1 / 4 * N := by linarith
      rw [← sq_abs]
      exact pow_le_pow_left₀ (abs_nonneg _) h1 2
    have k1 : X 2 1 ^ 2 ≤ (1 / 4 * N) ^ 2 := k 2 1
    have k2 : X 0 2 ^ 2 ≤ (1 / 4 * N) ^ 2 := k 0 2
    have k3 : X 1 0 ^ 2 ≤ (1 / 4 * N) ^ 2 := k 1 0
    have := pow_pos hNp 2
    linarith
  obtain ⟨th, hth⟩ : ∃ th, th = L.acos ((M33.trace R - 1) / (1 + 1)) := ⟨_, rfl⟩
  have nth : Near th N (11 * (K * s)) := by
    rw [hth, hKs]
    exact theta_near hp hacos R (fun i j => NormedSpace.exp M i j) (fun i j => ⟨(hRn i j).1, (hRn i j).2.trans (by linarith)⟩) hNn hpi f2 f1
      hse s0 (by linarith) (by linarith) hd2
  have nc := coef_near hp s0 sN hpi1 n64 hse hK0 hK hε0 (by rw [hKd]; linarith) (by rw [hKd]; linarith) hT nth
  obtain ⟨c, hc⟩ : ∃ c, c = 1 / th - 1 / L.tan (th / (1 + 1)) / (1 + 1) := ⟨_, rfl⟩
  rw [← hc] at nc
  have hγ := gamma_le hNp hpi1
  obtain ⟨γ, hγe⟩ : ∃ γ, γ = 1 / N - 1 / Real.tan (N / 2) / 2 := ⟨_, rfl⟩
  rw [← hγe] at nc hγ hlog
  have e : matrix_log6 H = se3_from_parts W (M33.mulVec (M33.add (M33.sub M33.one (M33.sdiv W (1 + 1)))
      (M33.sdiv (M33.smul (M33.mul W W) c) th)) (get_parts_raw H).2) := by
    unfold matrix_log6
    simp only [← hR, ← hW, hz]
    rw [hc, hth]
    exact Mat.ext4 rfl rfl rfl rfl rfl rfl rfl rfl rfl rfl rfl rfl rfl rfl rfl rfl
  refine ⟨fun i j => ?_, fun i => ?_, fun j => ?_⟩
  · have e1 : matrix_log6 H i.castSucc j.castSucc = W i j := by
      rw [e]
      fin_cases i <;> fin_cases j <;> rfl
    rw [e1]
    exact hl i j
  · have hu : f.u ≤ K := by linarith
    have K4 : K ≤ 1 / 400 := by linarith
    have ent (j : Fin 3) : Near ((M33.one : Mat 3 (Flt f)) i j - W i j / (1 + 1) + M33.mul W W i j * c / th)
        ((1 : Matrix (Fin 3) (Fin 3) ℝ) i j - M i j / 2 + (M i 0 * M 0 j + M i 1 * M 1 j + M i 2 * M 2 j) * γ / N) (550 * K) ∧
        |(1 : Matrix (Fin 3) (Fin 3) ℝ) i j - M i j / 2 + (M i 0 * M 0 j + M i 1 * M 1 j + M i 2 * M 2 j) * γ / N| ≤ 456 / 100 := by
      refine inv_near hp s0.le s1 n64 n3 hK0 (by linarith) K4 hu (hWn i j) (f3 i j)
        (sq_near hp n64 n3 hK0 (by linarith) hu W M hWn f3 i j (f4 i j)) (f4 i j) nc hγ nth ?_ ?_
      · fin_cases i <;> fin_cases j
        exacts [Near.one, Near.zero, Near.zero, Near.zero, Near.one, Near.zero, Near.zero, Near.zero, Near.one]
      · rw [Matrix.one_apply]
        split <;> simp
    have tr (j : Fin 3) : Near (H j.castSucc 3) (NormedSpace.exp X.toM j.castSucc 3) K :=
      ⟨(hH j 3).1, (hH j 3).2.trans (by linarith)⟩
    have n := row3_near hp P1 P2 hK0 K4 hu (ent 0).1 (ent 1).1 (ent 2).1 (ent 0).2 (ent 1).2 (ent 2).2 (tr 0) (tr 1) (tr 2) (hP 0) (hP 1) (hP 2)
    have e1 : matrix_log6 H i.castSucc 3 =
        ((M33.one : Mat 3 (Flt f)) i 0 - W i 0 / (1 + 1) + M33.mul W W i 0 * c / th) * H (Fin.castSucc 0) 3 +
        ((M33.one : Mat 3 (Flt f)) i 1 - W i 1 / (1 + 1) + M33.mul W W i 1 * c / th) * H (Fin.castSucc 1) 3 +
        ((M33.one : Mat 3 (Flt f)) i 2 - W i 2 / (1 + 1) + M33.mul W W i 2 * c / th) * H (Fin.castSucc 2) 3 := by
      rw [e]
      fin_cases i <;> rfl
    have e2 := hlog i
    rw [Fin.sum_univ_three] at e2
    rw [e1, e2, show 1720 * P * d / s ^ 2 = 1720 * (P * K) by rw [hKe]; ring]
    exact ⟨n.fin, n.err⟩
  · rw [e]
    fin_cases j <;> rfl

/-- The translation of the exponential of a twist with translation entries of size at most `1`. -/
private theorem exp6_col_le (X : Mat 4 ℝ) (hX : IsSe3 X) {N : ℝ} (hNp : 0 < N) (hN2 : N ^ 2 = X 2 1 ^ 2 + X 0 2 ^ 2 + X 1 0 ^ 2)
    (hv : ∀ i : Fin 3, |X i.castSucc 3| ≤ 1) (i : Fin 3) : |NormedSpace.exp X.toM i.castSucc 3| ≤ 12 := by
  obtain ⟨-, x2, -⟩ := exp6_entries X hX N hNp hN2
  let M : Matrix (Fin 3) (Fin 3) ℝ := Matrix.of fun i j => X i.castSucc j.castSucc
  obtain ⟨-, -, f3, f4⟩ := skew_facts M hX.skew hNp hN2
  have b (j : Fin 3) : |(N * (1 : Matrix (Fin 3) (Fin 3) ℝ) i j + X i.castSucc j.castSucc / N * (1 - Real.cos N) +
        (∑ k : Fin 3, X i.castSucc k.castSucc / N * (X k.castSucc j.castSucc / N)) * (N - Real.sin N)) / N| ≤ 4 := by
    refine exp6_angle_le hNp ?_ ?_ ?_
    · rw [Matrix.one_apply]
      split <;> simp
    · rw [abs_div, abs_of_pos hNp]
      exact div_le_one_of_le₀ (f3 i j) hNp.le
    · have e : ∑ k : Fin 3, X i.castSucc k.castSucc / N * (X k.castSucc j.castSucc / N) =
          (M i 0 * M 0 j + M i 1 * M 1 j + M i 2 * M 2 j) / N ^ 2 := by
        rw [Fin.sum_univ_three]
        change M i 0 / N * (M 0 j / N) + M i 1 / N * (M 1 j / N) + M i 2 / N * (M 2 j / N) = _
        field_simp
      rw [e, abs_div, abs_of_pos (by positivity : 0 < N ^ 2)]
      exact div_le_one_of_le₀ (f4 i j) (by positivity)
  rw [x2, Finset.sum_div, Fin.sum_univ_three]
  have g (j : Fin 3) : |(N * (1 : Matrix (Fin 3) (Fin 3) ℝ) i j + X i.castSucc j.castSucc / N * (1 - Real.cos N) +
        (∑ k : Fin 3, X i.castSucc k.castSucc / N * (X k.castSucc j.castSucc / N)) * (N - Real.sin N)) * X j.castSucc 3 / N| ≤ 4 := by
    rw [mul_div_right_comm, abs_mul]
    exact (mul_le_of_le_one_right (abs_nonneg _) (hv j)).trans (b j)
  refine (abs_add_le _ _).trans ?_
  refine (add_le_add (abs_add_le _ _) le_rfl).trans ?_
  linarith [g 0, g 1, g 2]

/-- `matrix_log6` after `matrix_exponential6` gives back a twist of angle `N` with `sin N ≥ 1/64` and translation entries of size at
most `1`: with `e = (7 ε + (190 N + 210) u) / N + ε + u`, the rotation part up to `74 e / sin² N` and the translation
part up to `20640 e / sin² N`. -/
theorem C156_round_trip [L : Libm f] (hp : 8 ≤ f.p) {ε : ℝ} (h : SinCosAcc f ε) (hacos : AcosAcc f ε) (hT : TanAcc f ε)
    (X : Mat 4 (Flt f)) (hXf : ∀ i j, (X i j).IsFin) (hX : IsSe3 ⟨fun i j => (X i j).toReal⟩)
    (hf : (V3.norm2 (skew_to_vec (se3_get_parts X).1)).IsFin)
    (hn : ∀ i j : Fin 3, (X i.castSucc j.castSucc).toReal = 0 ∨ (2 : ℝ) ^ f.emin ≤ (X i.castSucc j.castSucc).toReal ^ 2)
    (hv : ∀ i : Fin 3, |(X i.castSucc 3).toReal| ≤ 1) (N : ℝ)
    (hN : N = √((X 2 1).toReal ^ 2 + (X 0 2).toReal ^ 2 + (X 1 0).toReal ^ 2)) (hpi : N ≤ Real.pi) (hs : 1 / 64 ≤ Real.sin N)
    {e : ℝ} (he : e = (7 * ε + (190 * N + 210) * f.u) / N + ε + f.u) (hd : e ≤ Real.sin N ^ 3 / 400) :
    ∃ E, matrix_exponential6 X = .ok E ∧
      (∀ i j : Fin 3, (matrix_log6 E i.castSucc j.castSucc).IsFin ∧
        |(matrix_log6 E i.castSucc j.castSucc).toReal - (X i.castSucc j.castSucc).toReal| ≤ 74 * e / Real.sin N ^ 2) ∧
      (∀ i : Fin 3, (matrix_log6 E i.castSucc 3).IsFin ∧
        |(matrix_log6 E i.castSucc 3).toReal - (X i.castSucc 3).toReal| ≤ 20640 * e / Real.sin N ^ 2) ∧
      ∀ j, matrix_log6 E 3 j = 0 := by
  have u0 := f.u_pos
  have hε0 := acc_nonneg h
  have hNn : 0 ≤ N := by rw [hN]; exact Real.sqrt_nonneg _
  have n64 : 1 / 64 ≤ N := hs.trans (Real.sin_le hNn)
  have hNp : 0 < N := by linarith
  have hpi2 := Real.pi_lt_d2
  have s1 : Real.sin N ^ 3 ≤ 1 := pow_le_one₀ (by linarith) (Real.sin_le_one N)
  have hq0 : 0 ≤ (7 * ε + (190 * N + 210) * f.u) / N := by positivity
  obtain ⟨E, h1, h2, h3, h4, -⟩ := C133_matrix_exponential6_partial hp h (by linarith) X hXf hX hf hn hv N hN
    (by
      have : 210 / N * f.u ≤ (7 * ε + (190 * N + 210) * f.u) / N := by
        rw [div_mul_eq_mul_div]
        refine div_le_div_of_nonneg_right ?_ hNp.le
        have := mul_pos hNp u0
        linarith
      have h5 : 66 ≤ 210 / N := by rw [le_div_iff₀ hNp]; linarith
      have h6 := mul_le_mul_of_nonneg_right h5 u0.le
      linarith) (by linarith) (by linarith)
  have hrot : 11 / 5 * ε + (9 * N + 72) * f.u ≤ (7 * ε + (190 * N + 210) * f.u) / N := by
    rw [le_div_iff₀ hNp]
    have a1 := mul_le_mul_of_nonneg_left (hpi.trans hpi2.le) hε0
    have a2 := mul_le_mul_of_nonneg_left (hpi.trans hpi2.le) u0.le
    have a3 := mul_le_mul_of_nonneg_left a2 hNp.le
    have a4 := mul_pos hNp u0
    linarith
  have hN2 : N ^ 2 = (X 2 1).toReal ^ 2 + (X 0 2).toReal ^ 2 + (X 1 0).toReal ^ 2 := by rw [hN, Real.sq_sqrt (by positivity)]
  obtain ⟨k1, k2, k3⟩ := C156_matrix_log6 hp h hacos hT ⟨fun i j => (X i j).toReal⟩ hX N hN hpi hs (P := 12) (by norm_num) le_rfl
    (exp6_col_le _ hX hNp hN2 hv) E (δ := (7 * ε + (190 * N + 210) * f.u) / N)
    (fun i j => ⟨h2 _ _, by
      refine Fin.lastCases ?_ (fun j => ?_) j
      · exact h4 i
      · exact (h3 i j).trans hrot⟩) (by rw [← he]; exact hd)
  rw [← he] at k1 k2
  refine ⟨E, h1, k1, fun i => ⟨(k2 i).1, (k2 i).2.trans (le_of_eq ?_)⟩, k3⟩
  ring

/-- The structure of `matrix_log6` for all floats, NaN and infinities included: the last row of the pose is not read, the last row
of the result is zero, and the rotation block is that of `matrix_log`, except that a negative zero may become a positive one. -/
theorem C156_structure [Libm f] (H : Mat 4 (Flt f)) :
    (∀ H' : Mat 4 (Flt f), (∀ (i : Fin 3) (j : Fin 4), H i.castSucc j = H' i.castSucc j) → matrix_log6 H = matrix_log6 H') ∧
    (∀ j, matrix_log6 H 3 j = 0) ∧
    ∀ R : Mat 3 (Flt f), (∀ i j : Fin 3, R i j = H i.castSucc j.castSucc) → ∀ i j : Fin 3,
      matrix_log6 H i.castSucc j.castSucc = matrix_log R i j ∨
      matrix_log6 H i.castSucc j.castSucc = 0 ∧ (matrix_log R i j).IsFin ∧ (matrix_log R i j).toReal = 0 := by
  refine ⟨fun H' hH => ?_, fun j => ?_, fun R hR i j => ?_⟩
  · have e : get_parts_raw H = get_parts_raw H' := by
      refine Prod.ext (Mat.ext3 ?_ ?_ ?_ ?_ ?_ ?_ ?_ ?_ ?_) (Vec.ext3 ?_ ?_ ?_)
      exacts [hH 0 0, hH 0 1, hH 0 2, hH 1 0, hH 1 1, hH 1 2, hH 2 0, hH 2 1, hH 2 2, hH 0 3, hH 1 3, hH 2 3]
    unfold matrix_log6
    rw [e]
  · unfold matrix_log6
    dsimp only
    split <;> fin_cases j <;> rfl
  · have e : (get_parts_raw H).1 = R := by
      refine Mat.ext3 ?_ ?_ ?_ ?_ ?_ ?_ ?_ ?_ ?_
      exacts [(hR 0 0).symm, (hR 0 1).symm, (hR 0 2).symm, (hR 1 0).symm, (hR 1 1).symm, (hR 1 2).symm, (hR 2 0).symm, (hR 2 1).symm,
        (hR 2 2).symm]
    by_cases hz : (matrix_log R).is_zero = true
    · right
      refine ⟨?_, ((C97_mat_float (matrix_log R) (matrix_log R)).2.2).1 hz i j⟩
      unfold matrix_log6
      simp only [e, hz]
      fin_cases i <;> fin_cases j <;> rfl
    · left
      unfold matrix_log6
      simp only [e, hz]
      fin_cases i <;> fin_cases j <;> rfl

/-- The logarithm of a pose whose rotation block is exactly the identity is the pure translation, copied bit for bit, NaN and
infinities included, whatever the library's accuracy. -/
theorem C156_translation [Libm f] (H : Mat 4 (Flt f))
    (hR : ∀ i j : Fin 3, H i.castSucc j.castSucc = if i = j then 1 else 0) :
    (∀ i : Fin 3, matrix_log6 H i.castSucc 3 = H i.castSucc 3) ∧
    (∀ i j : Fin 3, matrix_log6 H i.castSucc j.castSucc = 0) ∧ ∀ j, matrix_log6 H 3 j = 0 := by
  have hp := f.hp
  have e : (get_parts_raw H).1 = M33.one := by
    refine Mat.ext3 ?_ ?_ ?_ ?_ ?_ ?_ ?_ ?_ ?_
    exacts [hR 0 0, hR 0 1, hR 0 2, hR 1 0, hR 1 1, hR 1 2, hR 2 0, hR 2 1, hR 2 2]
  have p2 : 2 ^ 2 ≤ 2 ^ f.p := Nat.pow_le_pow_right (by norm_num) hp
  have r2 := Near.two (f := f)
  have e2 : ((1 : Flt f) + 1).toReal = 2 := sub_eq_zero.1 (abs_eq_zero.1 (le_antisymm r2.err (abs_nonneg _)))
  obtain ⟨a1, a2⟩ := add_exact (f := f) (a := 1 + 1) (b := 1) r2.fin trivial (by
    rw [e2, toReal_one, show |(2 : ℝ) + 1| = ((3 : ℕ) : ℝ) by norm_num]
    exact f.rep_nat (by omega))
  rw [e2, toReal_one] at a2
  obtain ⟨b1, b2⟩ := sub_exact (f := f) (a := 1 + 1 + 1) (b := 1) a1 trivial (by
    rw [a2, toReal_one, show |(2 : ℝ) + 1 - 1| = ((2 : ℕ) : ℝ) by norm_num]
    exact f.rep_nat (by omega))
  rw [a2, toReal_one] at b2
  have hang : ROrd.le (1 : Flt f) ((M33.trace (M33.one : Mat 3 (Flt f)) - 1) / (1 + 1)) = true := by
    change ROrd.le (1 : Flt f) ((1 + 1 + 1 - 1) / (1 + 1)) = true
    generalize (1 : Flt f) + 1 + 1 - 1 = a at b1 b2
    norm_num at b2
    have hfin : (a / (1 + 1)).IsFin := by
      refine div_isFin b1 r2.fin (by rw [e2]; norm_num) ?_
      have hmax := f.hmax
      have h1 : (2 : ℝ) ^ (1 : ℤ) ≤ (2 : ℝ) ^ (f.emax + 1) := zpow_le_zpow_right₀ (by norm_num) (by omega)
      have hu := f.u_le
      rw [b2, e2]
      norm_num at h1 ⊢
      linarith
    have h3 := (abs_div_val r2.fin hfin).2
    have h4 := (div_err r2.fin hfin).2
    rw [b2, e2, div_self two_ne_zero, abs_one] at h3 h4
    have hr1 : f.Rep 1 := by simpa using f.rep_nat (k := 1) (by omega)
    rw [f.rnd_rep hr1] at h3
    have h5 : 0 ≤ (a / (1 + 1)).toReal := by
      have h6 := (_root_.abs_le.1 h4).1
      have hu := f.u_le
      have h7 := f.eta_le_sq
      have hu0 := f.u_pos
      nlinarith
    rw [abs_of_nonneg h5] at h3
    have h8 : ROrd.beq (1 : Flt f) (a / (1 + 1)) = true := (beq_iff (a := 1) trivial hfin).2 (by rw [toReal_one, h3])
    change (ROrd.lt (1 : Flt f) (a / (1 + 1)) || ROrd.beq (1 : Flt f) (a / (1 + 1))) = true
    rw [h8, Bool.or_true]
  have hl : matrix_log (M33.one : Mat 3 (Flt f)) = M33.zero := by
    unfold matrix_log
    rw [if_pos hang]
  have hz : (M33.zero : Mat 3 (Flt f)).is_zero = true := by
    rw [(C97_mat_float M33.zero M33.zero).2.2]
    intro i j
    fin_cases i <;> fin_cases j <;> exact ⟨trivial, toReal_zero⟩
  unfold matrix_log6
  simp only [e, hl, hz]
  refine ⟨fun i => ?_, fun i j => ?_, fun j => ?_⟩
  · fin_cases i <;> rfl
  · fin_cases i <;> fin_cases j <;> rfl
  · fin_cases j <;> rfl

/-- The logarithm of the exponential of the twist with all components `1` in double precision. -/
example : letI := correctLibm Fmt.f64
    ∃ E, matrix_exponential6 (twist_to_se3 ⟨fun _ => (1 : Flt Fmt.f64)⟩) = .ok E ∧ ∀ i j,
      |(matrix_log6 E i j).toReal - !![(0 : ℝ), -1, 1, 1; 1, 0, -1, 1; -1, 1, 0, 1; 0, 0, 0, 0] i j| ≤ 2 ^ (-29 : ℤ) := by
  let _ := correctLibm Fmt.f64
  have hu : Fmt.f64.u = (2 : ℝ) ^ (-53 : ℤ) := rfl
  have u0 := Fmt.f64.u_pos
  let X : Mat 4 (Flt Fmt.f64) := twist_to_se3 ⟨fun _ => (1 : Flt Fmt.f64)⟩
  have n1 : (-1 : Flt Fmt.f64).toReal = -1 := by rw [toReal_neg, toReal_one]
  have p1 := toReal_one (f := Fmt.f64)
  have z := toReal_zero (f := Fmt.f64)
  have hv : (Matrix.of fun i j => (X i j).toReal) = !![(0 : ℝ), -1, 1, 1; 1, 0, -1, 1; -1, 1, 0, 1; 0, 0, 0, 0] := by
    ext i j
    fin_cases i <;> fin_cases j
    exacts [z, n1, p1, p1, p1, z, n1, p1, n1, p1, z, p1, z, z, z, z]
  have hve (i j : Fin 4) : (X i j).toReal = !![(0 : ℝ), -1, 1, 1; 1, 0, -1, 1; -1, 1, 0, 1; 0, 0, 0, 0] i j := by rw [← hv]; rfl
  have h3a : 17 / 10 ≤ √3 := Real.le_sqrt_of_sq_le (by norm_num)
  have h3b : √3 ≤ 18 / 10 := Real.sqrt_le_iff.2 (by norm_num)
  have hpa := Real.pi_gt_d2
  have hpb := Real.pi_lt_d2
  have hsin : 9 / 10 ≤ Real.sin √3 := by
    rw [← Real.cos_sub_pi_div_two]
    refine le_trans ?_ Real.one_sub_sq_div_two_le_cos
    nlinarith
  have hsq : 8 / 10 ≤ Real.sin √3 ^ 2 := by nlinarith
  have hcu : 7 / 10 ≤ Real.sin √3 ^ 3 := by nlinarith
  have hε : @SinCosAcc Fmt.f64 (correctLibm Fmt.f64) (4 * Fmt.f64.u) := by
    have h1 := correctLibm_sin_cos (f := Fmt.f64) (by decide)
    exact ⟨fun x hx => ⟨(h1.sin x hx).1, (h1.sin x hx).2.trans (by linarith)⟩,
      fun x hx => ⟨(h1.cos x hx).1, (h1.cos x hx).2.trans (by linarith)⟩⟩
  have hE : (7 * (4 * Fmt.f64.u) + (190 * √3 + 210) * Fmt.f64.u) / √3 + 4 * Fmt.f64.u + Fmt.f64.u ≤ 350 * Fmt.f64.u := by
    have : (7 * (4 * Fmt.f64.u) + (190 * √3 + 210) * Fmt.f64.u) / √3 ≤ 345 * Fmt.f64.u := by
      rw [div_le_iff₀ (by linarith), hu]
      norm_num
      linarith
    linarith
  have hnorm : (V3.norm2 (skew_to_vec (se3_get_parts X).1)).IsFin := by
    have m : Near ((1 : Flt Fmt.f64) * 1) (1 * 1) (1 / 100) :=
      Near.mul (by decide) Near.one Near.one (A := 1) (C := 1) (D := 1) (B := 1) (by norm_num) (by norm_num) (by norm_num) (by norm_num) (by norm_num)
        (by rw [hu]; norm_num)
    have a := Near.add (by decide) m m (B := 3) (e := 1 / 10) (by norm_num) (by norm_num) (by rw [hu]; norm_num)
    have b := Near.add (by decide) a m (B := 4) (e := 1 / 5) (by norm_num) (by norm_num) (by rw [hu]; norm_num)
    exact (Near.sqrt b (c := 1) (B := 2) (e := 1) (by norm_num) (by norm_num) (by norm_num) (by norm_num) (by norm_num) (by rw [hu]; norm_num)).fin
  obtain ⟨E, h1, k1, k2, k3⟩ := C156_round_trip (f := Fmt.f64) (by decide) hε (correctLibm_acos (by decide)) (correctLibm_tan Fmt.f64_wide)
    X (by intro i j; fin_cases i <;> fin_cases j <;> exact trivial)
    ⟨fun i j => by
      change (X _ _).toReal = -(X _ _).toReal
      rw [hve, hve]
      fin_cases i <;> fin_cases j <;> norm_num, fun j => by fin_cases j <;> exact z⟩ hnorm
    (by
      intro i j
      rw [hve]
      change _ ∨ (2 : ℝ) ^ (-1022 : ℤ) ≤ _
      have : (2 : ℝ) ^ (-1022 : ℤ) ≤ 1 := zpow_le_one_of_nonpos₀ (by norm_num) (by norm_num)
      generalize (2 : ℝ) ^ (-1022 : ℤ) = t at this
      fin_cases i <;> fin_cases j <;> norm_num <;> exact this)
    (by
      intro i
      have e : X i.castSucc 3 = 1 := by fin_cases i <;> rfl
      rw [e, p1, abs_one]) (√3)
    (by
      rw [hve, hve, hve]
      change √3 = √((1 : ℝ) ^ 2 + 1 ^ 2 + 1 ^ 2)
      norm_num) (by linarith) (by linarith) rfl (hE.trans (by rw [hu]; norm_num; linarith))
  have key {x : ℝ} {c : ℝ} (hc0 : 0 ≤ c) (hc : c ≤ 20640)
      (hx : |x| ≤ c * ((7 * (4 * Fmt.f64.u) + (190 * √3 + 210) * Fmt.f64.u) / √3 + 4 * Fmt.f64.u + Fmt.f64.u) / Real.sin √3 ^ 2) :
      |x| ≤ 2 ^ (-29 : ℤ) := by
    refine hx.trans ?_
    rw [div_le_iff₀ (by linarith)]
    refine (mul_le_mul_of_nonneg_left hE hc0).trans ((mul_le_mul_of_nonneg_right hc (by linarith)).trans ?_)
    rw [hu]
    norm_num
    linarith
  refine ⟨E, h1, fun i j => ?_⟩
  rw [← hve]
  refine Fin.lastCases ?_ (fun i => ?_) i
  · have e : (X 3 j).toReal = 0 := by fin_cases j <;> exact z
    change |(matrix_log6 E 3 j).toReal - (X 3 j).toReal| ≤ _
    rw [k3 j, e, z, sub_zero, abs_zero]
    positivity
  · refine Fin.lastCases ?_ (fun j => ?_) j
    · exact key (by norm_num) le_rfl (k2 i).2
    · exact key (by norm_num) (by norm_num) (k1 i j).2

end
end StaticMath
