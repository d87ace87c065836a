import Verif.Props.IeeeMotionBuild
import Verif.Spec.Libm
import Verif.Ieee.Rounded
import Verif.Spec.LibmExp
import Mathlib.Analysis.SpecialFunctions.Trigonometric.Bounds
import Mathlib.Analysis.Normed.Algebra.QuaternionExponential

/-!
# C138: exponential of quaternions in floating point
-/

namespace StaticMath
open Flt Quaternion

variable {f : Fmt}

private theorem mul_self_nonneg' {a : Flt f} (h : (a * a).IsFin) : 0 ≤ (a * a).toReal := by
  obtain ⟨ha, -⟩ := isFin_of_mul h
  rcases a with _ | s | ⟨s, x, hx⟩
  · exact absurd ha id
  · exact absurd ha id
  change (pack f (s != s) (x * x)).IsFin at h
  change 0 ≤ (pack f (s != s) (x * x)).toReal
  rw [bne_self_eq_false] at h ⊢
  unfold pack at h ⊢
  split_ifs at h ⊢ with h1
  · exact f.rnd_nonneg (mul_self_nonneg x)
  · exact absurd h id

private theorem sqrt_pert {S T a b : ℝ} (hS : 0 ≤ S) (ha : 0 ≤ a) (ha1 : a ≤ 1) (hb : 0 ≤ b) (hT : 0 ≤ T) (h : |T - S ^ 2| ≤ a * S ^ 2 + b ^ 2) :
    |√T - S| ≤ a * S + b := by
  obtain ⟨h1, h2⟩ := abs_le.1 h
  have t0 := Real.sqrt_nonneg T
  have t2 := Real.sq_sqrt hT
  generalize √T = t at *
  subst t2
  have s1 : t ≤ S * (1 + a) + b := by
    refine abs_le_of_sq_le_sq' ?_ (by positivity) |>.2
    have : 0 ≤ a * S ^ 2 + (S * a) ^ 2 + 2 * (S * (1 + a) * b) := by positivity
    linarith
  have s2 : S * (1 - a) ≤ t + b := by
    refine abs_le_of_sq_le_sq' ?_ (by positivity) |>.2
    have h3 : 0 ≤ 2 * (t * b) + S ^ 2 * (a * (1 - a)) := by
      have := sub_nonneg.2 ha1
      positivity
    linarith
  rw [abs_le]
  constructor <;> linarith

private theorem kappa3 (hp : 8 ≤ f.p) : (1 + f.u) ^ 3 - 1 ≤ 302 / 100 * f.u := by
  have hu0 := f.u_pos
  have h2 := mul_le_mul_of_nonneg_right (Fmt.u_le_of_p hp) hu0.le
  have h3 := mul_le_mul_of_nonneg_right h2 hu0.le
  nlinarith

/-- The computed length of a vector: relative error `5u` and absolute error `2u²`, without a condition on the size of the components. -/
theorem norm2_V3_near [Libm f] (hp : 8 ≤ f.p) (hη : f.eta ≤ f.u ^ 4) (v : Vec 3 (Flt f)) (hv : ∀ i, (v i).IsFin) {N : ℝ} (hN0 : 0 ≤ N)
    (hN : N ^ 2 = (v 0).toReal ^ 2 + (v 1).toReal ^ 2 + (v 2).toReal ^ 2) (hN8 : N ≤ 9) :
    (V3.norm2 v).IsFin ∧ 0 ≤ (V3.norm2 v).toReal ∧ |(V3.norm2 v).toReal - N| ≤ 5 * f.u * N + 2 * f.u ^ 2 := by
  have hu0 := f.u_pos
  have hu := Fmt.u_le_of_p hp
  have hη0 := f.eta_pos
  have hk := kappa3 hp
  have p3 : 1 ≤ (1 + f.u) ^ 3 := one_le_pow₀ (by linarith)
  have s0 := sq_nonneg (v 0).toReal
  have s1 := sq_nonneg (v 1).toReal
  have s2 := sq_nonneg (v 2).toReal
  have hN2 : N ^ 2 ≤ 81 := by nlinarith
  have m (i : Fin 3) (h : (v i).toReal ^ 2 ≤ 81) : (v i * v i).IsFin ∧ |(v i * v i).toReal - (v i).toReal ^ 2| ≤ 1 := by
    have h1 : (v i * v i).IsFin := mul_isFin (hv i) (hv i) (Fmt.range_of_p hp (by rw [abs_mul_self]; nlinarith))
    have h2 := mul_err h1
    rw [abs_mul_self, ← sq] at h2
    refine ⟨h1, h2.trans ?_⟩
    have : f.eta ≤ f.u / 256 := Fmt.eta_small hp
    nlinarith
  obtain ⟨f0, e0⟩ := m 0 (by linarith)
  obtain ⟨f1, e1⟩ := m 1 (by linarith)
  obtain ⟨f2, e2⟩ := m 2 (by linarith)
  have a01 : (v 0 * v 0 + v 1 * v 1).IsFin := by
    refine add_isFin f0 f1 (Fmt.range_of_p hp ?_)
    rw [abs_le] at *
    constructor <;> linarith
  have e01 := add_rel a01
  have b01 : |(v 0 * v 0).toReal + (v 1 * v 1).toReal| ≤ 83 := by
    rw [abs_le] at *
    constructor <;> linarith
  have c01 : f.u * |(v 0 * v 0).toReal + (v 1 * v 1).toReal| ≤ 1 := by nlinarith
  have hd : (V3.dot v v).IsFin := by
    refine add_isFin a01 f2 (Fmt.range_of_p hp ?_)
    have := e01.trans c01
    rw [abs_le] at *
    constructor <;> linarith
  have h1 := (C93_dot_V3 v v hd).1
  rw [Fin.sum_univ_three, Fin.sum_univ_three, abs_mul_self, abs_mul_self, abs_mul_self, ← sq, ← sq, ← sq, ← hN] at h1
  have h2 : |(V3.dot v v).toReal - N ^ 2| ≤ 302 / 100 * f.u * N ^ 2 + (18 / 10 * f.u ^ 2) ^ 2 := by
    refine h1.trans (add_le_add (mul_le_mul_of_nonneg_right hk (sq_nonneg _)) ?_)
    have h3 : (1 + f.u) ^ 3 * (3 * f.eta) ≤ 102 / 100 * (3 * f.u ^ 4) := mul_le_mul (by linarith) (by linarith) (by positivity) (by norm_num)
    have h4 : 0 ≤ f.u ^ 4 := by positivity
    nlinarith
  have d0 : 0 ≤ (V3.dot v v).toReal := by
    have z0 := mul_self_nonneg' f0
    have z1 := mul_self_nonneg' f1
    have z2 := mul_self_nonneg' f2
    have z3 : 0 ≤ (v 0 * v 0 + v 1 * v 1).toReal := by
      rw [abs_of_nonneg (add_nonneg z0 z1)] at e01
      have := (abs_le.1 e01).1
      nlinarith
    have e := add_rel (a := v 0 * v 0 + v 1 * v 1) (b := v 2 * v 2) hd
    rw [abs_of_nonneg (add_nonneg z3 z2)] at e
    have := (abs_le.1 e).1
    change 0 ≤ (v 0 * v 0 + v 1 * v 1 + v 2 * v 2).toReal
    nlinarith
  have h3 := sqrt_pert hN0 (by positivity) (by linarith) (by positivity) d0 h2
  obtain ⟨g1, g2, g3⟩ := sqrt_rel hd d0
  refine ⟨g1, g3, ?_⟩
  change |(Flt.sqrt (V3.dot v v)).toReal - N| ≤ _
  have h4 := abs_sub_le (Flt.sqrt (V3.dot v v)).toReal (√(V3.dot v v).toReal) N
  have h5 := (abs_le.1 h3).2
  have h6 := mul_le_mul_of_nonneg_left (show √(V3.dot v v).toReal ≤ N + (302 / 100 * f.u * N + 18 / 10 * f.u ^ 2) by linarith) hu0.le
  have h7 : f.u * (f.u * N) ≤ 1 / 256 * (f.u * N) := mul_le_mul_of_nonneg_right hu (by positivity)
  have h8 : f.u * f.u ^ 2 ≤ 1 / 256 * f.u ^ 2 := mul_le_mul_of_nonneg_right hu (by positivity)
  have h9 : 0 ≤ f.u * N := by positivity
  have h10 : 0 ≤ f.u ^ 2 := by positivity
  nlinarith

/-- Three roundings in a row: `v * (e * (s / n))`. -/
private theorem three {a A b B c C v e u η : ℝ} (hu : 0 ≤ u) (he : 0 ≤ e) (hA : |A - a| ≤ u * |a| + η) (hb : b = e * A)
    (hB : |B - b| ≤ u * |b| + η) (hc : c = v * B) :
    |c| ≤ (1 + u) ^ 2 * |v * (e * a)| + |v| * ((1 + u) * e + 1) * η ∧ (|C - c| ≤ u * |c| + η →
    |C - v * (e * a)| ≤ ((1 + u) ^ 3 - 1) * |v * (e * a)| + ((1 + u) ^ 2 * |v| * e + (1 + u) * |v| + 1) * η) := by
  have A1 : |A| ≤ (1 + u) * |a| + η := by have := abs_sub_abs_le_abs_sub A a; linarith
  have b1 : |b - e * a| ≤ e * (u * |a| + η) := by
    rw [hb, ← mul_sub, abs_mul, abs_of_nonneg he]; exact mul_le_mul_of_nonneg_left hA he
  have b2 : |b| ≤ e * ((1 + u) * |a| + η) := by
    rw [hb, abs_mul, abs_of_nonneg he]; exact mul_le_mul_of_nonneg_left A1 he
  have B1 : |B - e * a| ≤ u * (e * ((1 + u) * |a| + η)) + η + e * (u * |a| + η) := by
    have := abs_sub_le B b (e * a)
    have := mul_le_mul_of_nonneg_left b2 hu
    linarith
  have B2 : |B| ≤ (1 + u) * (e * ((1 + u) * |a| + η)) + η := by
    have := abs_sub_abs_le_abs_sub B b
    have := mul_le_mul_of_nonneg_left b2 (show 0 ≤ 1 + u by linarith)
    linarith
  have c1 : |c - v * (e * a)| ≤ |v| * (u * (e * ((1 + u) * |a| + η)) + η + e * (u * |a| + η)) := by
    rw [hc, ← mul_sub, abs_mul]; exact mul_le_mul_of_nonneg_left B1 (abs_nonneg v)
  have c2 : |c| ≤ |v| * ((1 + u) * (e * ((1 + u) * |a| + η)) + η) := by
    rw [hc, abs_mul]; exact mul_le_mul_of_nonneg_left B2 (abs_nonneg v)
  have c3 := mul_le_mul_of_nonneg_left c2 hu
  have c4 := abs_sub_le C c (v * (e * a))
  have e1 : |v * (e * a)| = |v| * (e * |a|) := by rw [abs_mul, abs_mul, abs_of_nonneg he]
  rw [e1]
  refine ⟨c2.trans (le_of_eq (by ring)), fun hC => ?_⟩
  refine (c4.trans (add_le_add (hC.trans (add_le_add_left c3 _)) c1)).trans (le_of_eq ?_)
  ring

/-- Real arithmetic of the vector part, large branch: `v sin(N)/N` from `s`, `n` close to `sin N`, `N`. -/
private theorem ratio {v N n s ε u : ℝ} (hu : 0 ≤ u) (hu2 : u ≤ 1 / 256) (hv : |v| ≤ N) (hN : 0 < N)
    (hn : |n - N| ≤ 61 / 10 * u * N) (hs : |s - Real.sin N| ≤ ε + 61 / 10 * u * N) :
    0 < n ∧ |v * (s / n) - v * (Real.sin N / N)| ≤ 103 / 100 * ε + (63 / 10 * N + 63 / 10) * u := by
  obtain ⟨n1, n2⟩ := abs_le.1 hn
  have uN : u * N ≤ 1 / 256 * N := mul_le_mul_of_nonneg_right hu2 hN.le
  have n3 : 100 / 103 * N ≤ n := by nlinarith
  have n0 : 0 < n := by nlinarith
  refine ⟨n0, ?_⟩
  have e : v * (s / n) - v * (Real.sin N / N) = v / n * ((s - Real.sin N) - Real.sin N / N * (n - N)) := by
    field_simp
    ring
  have h1 : |v / n| ≤ 103 / 100 := by
    rw [abs_div, abs_of_pos n0, div_le_iff₀ n0]; linarith
  have h2 : |Real.sin N / N * (n - N)| ≤ 61 / 10 * u := by
    rw [div_mul_eq_mul_div, abs_div, abs_mul, abs_of_pos hN, div_le_iff₀ hN]
    exact (mul_le_mul (Real.abs_sin_le_one N) hn (abs_nonneg _) zero_le_one).trans (by linarith)
  have h3 : |(s - Real.sin N) - Real.sin N / N * (n - N)| ≤ ε + 61 / 10 * u * N + 61 / 10 * u := by
    have := abs_sub (s - Real.sin N) (Real.sin N / N * (n - N))
    linarith
  rw [e, abs_mul]
  refine (mul_le_mul h1 h3 (abs_nonneg _) (by norm_num)).trans ?_
  nlinarith [mul_nonneg hu hN.le]

/-- The range of a format reaches `2^(-4p)` and `2^(p+8)`; so do `f32` and `f64`. -/
structure Fmt.Wide (f : Fmt) : Prop where
  p : 8 ≤ f.p
  low : f.emin ≤ -(3 * f.p : ℤ)
  high : (f.p + 8 : ℤ) ≤ f.emax

theorem Fmt.f32_wide : Fmt.f32.Wide := ⟨by decide, by decide, by decide⟩

theorem Fmt.f64_wide : Fmt.f64.Wide := ⟨by decide, by decide, by decide⟩

theorem Fmt.Wide.eta (h : f.Wide) : f.eta ≤ f.u ^ 4 := by
  unfold Fmt.eta Fmt.u
  rw [← zpow_natCast, ← zpow_mul]
  exact zpow_le_zpow_right₀ (by norm_num) (by have := h.low; push_cast; omega)

theorem Fmt.Wide.range (h : f.Wide) {x : ℝ} (hx : x * f.u ≤ 256) : (1 + f.u) * x < (2 : ℝ) ^ (f.emax + 1) := by
  have hu0 := f.u_pos
  have hu := Fmt.u_le_of_p h.p
  have h1 : (2 : ℝ) ^ ((f.p : ℤ) + 9) ≤ (2 : ℝ) ^ (f.emax + 1) := zpow_le_zpow_right₀ (by norm_num) (by have := h.high; omega)
  have h2 : (2 : ℝ) ^ ((f.p : ℤ) + 9) * f.u = 512 := by
    unfold Fmt.u
    rw [← zpow_add₀ (by norm_num), show (f.p : ℤ) + 9 + -(f.p : ℤ) = 9 by ring]
    norm_num
  refine lt_of_lt_of_le ?_ h1
  refine lt_of_mul_lt_mul_right ?_ hu0.le
  rw [h2, mul_assoc]
  by_cases h0 : 0 ≤ x * f.u <;> nlinarith

private theorem exp_bounds {r : ℝ} (h : |r| ≤ 4) : Real.exp r ≤ 55 ∧ 1 / 55 ≤ Real.exp r := by
  have h4 : Real.exp 4 ≤ 55 := by
    have h1 := Real.exp_one_lt_d9
    have h2 : Real.exp 4 = Real.exp 1 ^ 4 := by rw [← Real.exp_nat_mul]; norm_num
    rw [h2]
    calc Real.exp 1 ^ 4 ≤ 2.7182818286 ^ 4 := pow_le_pow_left₀ (Real.exp_pos _).le h1.le 4
      _ ≤ 55 := by norm_num
  obtain ⟨h1, h2⟩ := abs_le.1 h
  refine ⟨(Real.exp_le_exp.2 h2).trans h4, ?_⟩
  have h3 : Real.exp r * Real.exp (-r) = 1 := by rw [← Real.exp_add, add_neg_cancel, Real.exp_zero]
  have h5 : Real.exp (-r) ≤ 55 := (Real.exp_le_exp.2 (by linarith)).trans h4
  have h6 := Real.exp_pos r
  nlinarith

private theorem eta_tiny (hw : f.Wide) : f.eta ≤ f.u / 16777216 := by
  have hu0 := f.u_pos
  have hu := Fmt.u_le_of_p hw.p
  have h3 : f.u ^ 3 ≤ (1 / 256) ^ 3 := pow_le_pow_left₀ hu0.le hu 3
  have := hw.eta
  have h4 : f.u ^ 4 = f.u ^ 3 * f.u := by ring
  nlinarith

private theorem real_part {N n c e E ε u η C : ℝ} (hu0 : 0 ≤ u) (hu : u ≤ 1 / 256) (hη : η ≤ u / 16777216) (hε0 : 0 ≤ ε)
    (hε : ε ≤ 1 / 8) (hN0 : 0 ≤ N) (hN8 : N ≤ 8) (hE : 1 / 55 ≤ E) (hn : |n - N| ≤ 5 * u * N + 2 * u ^ 2) (hc : |c - Real.cos n| ≤ ε)
    (he : |e - E| ≤ ε * E) : |e * c| ≤ 3 / 2 * E ∧ (|C - e * c| ≤ u * |e * c| + η → |C - E * Real.cos N| ≤ E * (3 * ε + (8 * N + 14) * u)) := by
  have u2 : u ^ 2 ≤ 1 / 256 * u := by rw [sq]; exact mul_le_mul_of_nonneg_right hu hu0
  have uN : 0 ≤ u * N := by positivity
  have uN2 : u * N ≤ 8 / 256 := by
    have := mul_le_mul hu hN8 hN0 (by norm_num)
    linarith
  have c1 : |c - Real.cos N| ≤ ε + 5 * (u * N) + 1 / 128 * u := by
    have h1 := abs_sub_le c (Real.cos n) (Real.cos N)
    have h2 := Real.abs_cos_sub_cos_le n N
    linarith
  have c2 : |c| ≤ 130 / 100 := by
    have h1 := abs_sub_abs_le_abs_sub c (Real.cos N)
    have h2 := Real.abs_cos_le_one N
    linarith
  have e2 : |e| ≤ 9 / 8 * E := by
    have h1 := abs_sub_abs_le_abs_sub e E
    rw [abs_of_pos (by linarith : 0 < E)] at h1
    have : ε * E ≤ 1 / 8 * E := mul_le_mul_of_nonneg_right hε (by linarith)
    linarith
  have ec : |e * c| ≤ 3 / 2 * E := by
    rw [abs_mul]
    have := mul_le_mul e2 c2 (abs_nonneg _) (by linarith)
    linarith
  refine ⟨ec, fun hC => ?_⟩
  have d1 : |e * c - E * Real.cos N| ≤ 9 / 8 * E * (ε + 5 * (u * N) + 1 / 128 * u) + ε * E := by
    have h1 : e * c - E * Real.cos N = e * (c - Real.cos N) + (e - E) * Real.cos N := by ring
    rw [h1]
    refine (abs_add_le _ _).trans (add_le_add ?_ ?_)
    · rw [abs_mul]; exact mul_le_mul e2 c1 (abs_nonneg _) (by linarith)
    · rw [abs_mul]
      exact (mul_le_mul he (Real.abs_cos_le_one N) (abs_nonneg _) (by positivity)).trans (by linarith)
  have h3 := abs_sub_le C (e * c) (E * Real.cos N)
  have h4 := mul_le_mul_of_nonneg_left ec hu0
  have h5 : u ≤ 55 * (E * u) := by nlinarith
  have h6 : 0 ≤ E * ε := by positivity
  have h7 : 0 ≤ E * (u * N) := by positivity
  have h8 : 0 ≤ E * u := by positivity
  nlinarith

private theorem small_part {N v e E ε u η C n : ℝ} (hu0 : 0 ≤ u) (hu : u ≤ 1 / 256) (hη : η ≤ u / 16777216) (hε0 : 0 ≤ ε)
    (hε : ε ≤ 1 / 8) (hN0 : 0 ≤ N) (hE : 1 / 55 ≤ E) (hE2 : E ≤ 55) (hn : |n - N| ≤ 5 * u * N + 2 * u ^ 2) (hn2 : n ≤ 2 * u) (hv : |v| ≤ N)
    (he : |e - E| ≤ ε * E) :
    |v * e| ≤ 2 ∧ (|C - v * e| ≤ u * |v * e| + η → |C - v * (E * (Real.sin N / N))| ≤ E * (3 * ε + (8 * N + 14) * u)) := by
  have u2 : u ^ 2 ≤ 1 / 256 * u := by rw [sq]; exact mul_le_mul_of_nonneg_right hu hu0
  have uN : u * N ≤ 1 / 256 * N := mul_le_mul_of_nonneg_right hu hN0
  have N2 : N ≤ 22 / 10 * u := by
    have := (abs_le.1 hn).1
    linarith
  have e2 : |e| ≤ 9 / 8 * E := by
    have h1 := abs_sub_abs_le_abs_sub e E
    rw [abs_of_pos (by linarith : 0 < E)] at h1
    have : ε * E ≤ 1 / 8 * E := mul_le_mul_of_nonneg_right hε (by linarith)
    linarith
  have ve : |v * e| ≤ 5 / 2 * (E * u) := by
    rw [abs_mul]
    refine (mul_le_mul (hv.trans N2) e2 (abs_nonneg _) (by positivity)).trans ?_
    have : 0 ≤ E * u := mul_nonneg (by linarith) hu0
    nlinarith
  have Eu : E * u ≤ 55 / 256 := by
    have := mul_le_mul hE2 hu hu0 (by norm_num)
    linarith
  refine ⟨by linarith, fun hC => ?_⟩
  have d1 : |v * (E * (Real.sin N / N))| ≤ 22 / 10 * (E * u) := by
    have h1 : |Real.sin N / N| ≤ 1 := by
      rw [abs_div]
      refine div_le_one_of_le₀ ?_ (abs_nonneg _)
      exact Real.abs_sin_le_abs
    rw [abs_mul, abs_mul, abs_of_pos (by linarith : 0 < E)]
    have h2 : E * |Real.sin N / N| ≤ E := mul_le_of_le_one_right (by linarith) h1
    refine (mul_le_mul (hv.trans N2) h2 (by positivity) (by positivity)).trans (le_of_eq (by ring))
  have d2 : |C| ≤ u * |v * e| + η + |v * e| := by
    have := abs_sub_abs_le_abs_sub C (v * e)
    linarith
  have h3 := abs_sub C (v * (E * (Real.sin N / N)))
  have h4 := mul_le_mul_of_nonneg_right hu (abs_nonneg (v * e))
  have h5 : u ≤ 55 * (E * u) := by nlinarith
  have h6 : 0 ≤ E * ε := by positivity
  have h7 : 0 ≤ E * (u * N) := by positivity
  nlinarith

private theorem large_final {N E ε u η A B D : ℝ} (hu0 : 0 < u) (hη : η ≤ u / 16777216) (hε0 : 0 ≤ ε) (hN0 : 0 ≤ N)
    (hE : 1 / 55 ≤ E) (hA : A ≤ 302 / 100 * u * B + 600 * η) (hB : B ≤ 2 * E)
    (hD : D ≤ 9 / 8 * E * (103 / 100 * ε + (63 / 10 * N + 63 / 10) * u) + ε * E) :
    A + D ≤ E * (3 * ε + (8 * N + 14) * u) := by
  have h4 : 302 / 100 * u * B ≤ 302 / 100 * u * (2 * E) := mul_le_mul_of_nonneg_left hB (by linarith)
  have Eu : 1 / 55 * u ≤ E * u := mul_le_mul_of_nonneg_right hE hu0.le
  have h6 : 0 ≤ E * ε := mul_nonneg (by linarith) hε0
  have h7 : 0 ≤ E * (N * u) := mul_nonneg (by linarith) (by positivity)
  have e1 : E * (3 * ε + (8 * N + 14) * u) = 3 * (E * ε) + 8 * (E * (N * u)) + 14 * (E * u) := by ring
  have e2 : 9 / 8 * E * (103 / 100 * ε + (63 / 10 * N + 63 / 10) * u) + ε * E =
      (9 / 8 * (103 / 100) + 1) * (E * ε) + 9 / 8 * (63 / 10) * (E * (N * u)) + 9 / 8 * (63 / 10) * (E * u) := by ring
  have e3 : 302 / 100 * u * (2 * E) = 604 / 100 * (E * u) := by ring
  rw [e1]; rw [e2] at hD; rw [e3] at h4
  linarith

private theorem large_part {N v e E ε u η C n s : ℝ} (hu0 : 0 < u) (hu : u ≤ 1 / 256) (hη : η ≤ u / 16777216) (hε0 : 0 ≤ ε)
    (hε : ε ≤ 1 / 8) (hN0 : 0 ≤ N) (hN8 : N ≤ 8) (hE : 1 / 55 ≤ E) (hE2 : E ≤ 55) (hn : |n - N| ≤ 5 * u * N + 2 * u ^ 2)
    (hn2 : 2 * u < n) (hv : |v| ≤ N) (he : |e - E| ≤ ε * E) (hs : |s - Real.sin n| ≤ ε) :
    0 < e ∧ e ≤ 62 ∧ 0 < n ∧ |s / n| * u ≤ 1 ∧ |v * (e * (s / n))| ≤ 2 * E ∧
    (|C - v * (e * (s / n))| ≤ 302 / 100 * u * |v * (e * (s / n))| + 600 * η →
      |C - v * (E * (Real.sin N / N))| ≤ E * (3 * ε + (8 * N + 14) * u)) := by
  have u2 : u ^ 2 ≤ 1 / 256 * u := by rw [sq]; exact mul_le_mul_of_nonneg_right hu hu0.le
  have uN : u * N ≤ 1 / 256 * N := mul_le_mul_of_nonneg_right hu hN0
  obtain ⟨hn3, hn4⟩ := abs_le.1 hn
  have N2 : 19 / 10 * u ≤ N := by linarith
  have Np : 0 < N := by linarith
  have hn' : |n - N| ≤ 61 / 10 * u * N := by
    have : u * (19 / 10 * u) ≤ u * N := mul_le_mul_of_nonneg_left N2 hu0.le
    nlinarith
  have hs' : |s - Real.sin N| ≤ ε + 61 / 10 * u * N := by
    have h1 := abs_sub_le s (Real.sin n) (Real.sin N)
    have h2 := Real.abs_sin_sub_sin_le n N
    linarith
  obtain ⟨n0, hr⟩ := ratio hu0.le hu hv Np hn' hs'
  have eE : ε * E ≤ 1 / 8 * E := mul_le_mul_of_nonneg_right hε (by linarith)
  obtain ⟨e1, e2⟩ := abs_le.1 he
  have e0 : 0 < e := by linarith
  have hsa : |s| ≤ 9 / 8 := by
    have h1 := abs_sub_abs_le_abs_sub s (Real.sin n)
    have h2 := Real.abs_sin_le_one n
    linarith
  have sn : |s / n| * u ≤ 1 := by
    rw [abs_div, abs_of_pos n0, div_mul_eq_mul_div, div_le_one n0]
    have := mul_le_mul_of_nonneg_right hsa hu0.le
    linarith
  have vs : |v * (Real.sin N / N)| ≤ 1 := by
    rw [mul_div_assoc', abs_div, abs_of_pos Np, div_le_one Np, abs_mul]
    exact (mul_le_mul hv (Real.abs_sin_le_one N) (abs_nonneg _) hN0).trans (by linarith)
  have vsn : |v * (s / n)| ≤ 7 / 5 := by
    have h1 := abs_sub_abs_le_abs_sub (v * (s / n)) (v * (Real.sin N / N))
    have h2 : (63 / 10 * N + 63 / 10) * u ≤ (63 / 10 * 8 + 63 / 10) * (1 / 256) :=
      mul_le_mul (by linarith) hu hu0.le (by norm_num)
    linarith
  have big : |v * (e * (s / n))| ≤ 2 * E := by
    rw [show v * (e * (s / n)) = e * (v * (s / n)) by ring, abs_mul, abs_of_pos e0]
    have := mul_le_mul (show e ≤ 9 / 8 * E by linarith) vsn (abs_nonneg _) (by linarith)
    linarith
  refine ⟨e0, by linarith, n0, sn, big, fun hC => ?_⟩
  have d1 : |v * (e * (s / n)) - v * (E * (Real.sin N / N))| ≤
      9 / 8 * E * (103 / 100 * ε + (63 / 10 * N + 63 / 10) * u) + ε * E := by
    have h1 : v * (e * (s / n)) - v * (E * (Real.sin N / N)) =
        e * (v * (s / n) - v * (Real.sin N / N)) + (e - E) * (v * (Real.sin N / N)) := by ring
    rw [h1]
    refine (abs_add_le _ _).trans (add_le_add ?_ ?_)
    · rw [abs_mul, abs_of_pos e0]; exact mul_le_mul (by linarith) hr (abs_nonneg _) (by linarith)
    · rw [abs_mul]
      exact (mul_le_mul he vs (abs_nonneg _) (by positivity)).trans (by linarith)
  exact (abs_sub_le C (v * (e * (s / n))) (v * (E * (Real.sin N / N)))).trans (large_final hu0 hη hε0 hN0 hE hC big d1)

private theorem three_simple {X v e u η : ℝ} (hu0 : 0 < u) (hu : u ≤ 1 / 256) (hη0 : 0 ≤ η) (hη : η ≤ u / 16777216) (hX0 : 0 ≤ X)
    (hX : X ≤ 110) (hv : |v| ≤ 8) (he0 : 0 < e) (he : e ≤ 62) :
    (1 + u) ^ 2 * X + |v| * ((1 + u) * e + 1) * η ≤ 256 ∧
    ((1 + u) ^ 3 - 1) * X + ((1 + u) ^ 2 * |v| * e + (1 + u) * |v| + 1) * η ≤ 302 / 100 * u * X + 600 * η := by
  have u2 : u ^ 2 ≤ 1 / 256 * u := by rw [sq]; exact mul_le_mul_of_nonneg_right hu hu0.le
  have u3 : u ^ 3 ≤ 1 / 256 * u ^ 2 := by
    rw [pow_succ, mul_comm]; exact mul_le_mul_of_nonneg_right hu (by positivity)
  have a1 : (1 + u) ^ 2 ≤ 101 / 100 := by nlinarith
  have a2 : (1 + u) ^ 3 - 1 ≤ 302 / 100 * u := by nlinarith
  have ve : |v| * e ≤ 8 * 62 := mul_le_mul hv he he0.le (by norm_num)
  have ve0 : 0 ≤ |v| * e := mul_nonneg (abs_nonneg _) he0.le
  have b1 : (1 + u) ^ 2 * |v| * e ≤ 501 := by
    rw [mul_assoc]
    refine (mul_le_mul a1 ve ve0 (by norm_num)).trans (by norm_num)
  have b2 : (1 + u) * |v| ≤ 9 := (mul_le_mul (show 1 + u ≤ 257 / 256 by linarith) hv (abs_nonneg _) (by norm_num)).trans (by norm_num)
  have b3 : |v| * ((1 + u) * e + 1) ≤ 600 := by
    have : (1 + u) * e ≤ 257 / 256 * 62 := mul_le_mul (by linarith) he he0.le (by norm_num)
    refine (mul_le_mul hv (show (1 + u) * e + 1 ≤ 257 / 256 * 62 + 1 by linarith) (by positivity) (by norm_num)).trans (by norm_num)
  constructor
  · have := mul_le_mul a1 hX hX0 (by norm_num)
    have := mul_le_mul_of_nonneg_right b3 hη0
    linarith
  · have := mul_le_mul_of_nonneg_right a2 hX0
    have := mul_le_mul_of_nonneg_right (show (1 + u) ^ 2 * |v| * e + (1 + u) * |v| + 1 ≤ 600 by linarith) hη0
    linarith

/-- The components of the computed exponential. -/
private theorem exp_comps [L : Libm f] (hw : f.Wide) {ε : ℝ} (hsc : SinCosAcc f ε) (he : ExpAcc f ε) (hε : ε ≤ 1 / 8) (q : Quat (Flt f))
    (h0 : q.q0.IsFin) (hv : ∀ i, (q.q i).IsFin) (hr : |q.q0.toReal| ≤ 4) {N : ℝ} (hN0 : 0 ≤ N)
    (hN : N ^ 2 = (q.q 0).toReal ^ 2 + (q.q 1).toReal ^ 2 + (q.q 2).toReal ^ 2) (hN8 : N ≤ 8) :
    Near q.exp.q0 (Real.exp q.q0.toReal * Real.cos N) (Real.exp q.q0.toReal * (3 * ε + (8 * N + 14) * f.u)) ∧
    ∀ i, Near (q.exp.q i) ((q.q i).toReal * (Real.exp q.q0.toReal * (Real.sin N / N)))
      (Real.exp q.q0.toReal * (3 * ε + (8 * N + 14) * f.u)) := by
  have hp := hw.p
  have hu0 := f.u_pos
  have hu := Fmt.u_le_of_p hp
  have hη0 := f.eta_pos
  have hη := eta_tiny hw
  obtain ⟨n1, -, n2⟩ := norm2_V3_near hp hw.eta q.q hv hN0 hN (by linarith)
  obtain ⟨e1, e2⟩ := he q.q0 h0 hr
  obtain ⟨E2, E1⟩ := exp_bounds hr
  obtain ⟨c1, c2⟩ := hsc.cos _ n1
  obtain ⟨s1, s2⟩ := hsc.sin _ n1
  have hε0 : 0 ≤ ε := (abs_nonneg _).trans c2
  have hvi (i : Fin 3) : |(q.q i).toReal| ≤ N := by
    refine abs_le_of_sq_le_sq ?_ hN0
    have s0 := sq_nonneg (q.q 0).toReal
    have s1 := sq_nonneg (q.q 1).toReal
    have s2 := sq_nonneg (q.q 2).toReal
    rw [hN]
    fin_cases i
    · change (q.q 0).toReal ^ 2 ≤ _; linarith
    · change (q.q 1).toReal ^ 2 ≤ _; linarith
    · change (q.q 2).toReal ^ 2 ≤ _; linarith
  have hEv : q.exp.q0 = L.exp q.q0 * L.cos (V3.norm2 q.q) := rfl
  have hQv (i : Fin 3) : q.exp.q i = q.q i * (if ROrd.lt (epsilon f) (V3.norm2 q.q) = true then
      L.exp q.q0 * (L.sin (V3.norm2 q.q) / V3.norm2 q.q) else L.exp q.q0) := by fin_cases i <;> rfl
  rw [hEv]
  simp only [hQv]
  generalize V3.norm2 q.q = n at *
  generalize Real.exp q.q0.toReal = E at *
  generalize L.exp q.q0 = e at *
  generalize L.cos n = c at *
  generalize L.sin n = s at *
  clear hEv hQv
  have ee : (epsilon f).toReal = 2 * f.u := by
    change (2 : ℝ) ^ (1 - (f.p : ℤ)) = 2 * (2 : ℝ) ^ (-(f.p : ℤ))
    rw [sub_eq_add_neg, zpow_add₀ (by norm_num), zpow_one]
  constructor
  · obtain ⟨m, h⟩ := real_part (C := (e * c).toReal) hu0.le hu hη hε0 hε hN0 hN8 E1 n2 c2 e2
    have fin := mul_isFin e1 c1 (Fmt.range_of_p hp (by linarith))
    exact ⟨fin, h (mul_err fin)⟩
  intro i
  have hw1 := hv i
  have hw2 := hvi i
  by_cases hlt : (epsilon f).toReal < n.toReal
  · rw [if_pos ((lt_iff (a := epsilon f) (show (epsilon f).IsFin from trivial) n1).2 hlt)]
    rw [ee] at hlt
    generalize q.q i = w at *
    obtain ⟨k1, k2, k3, k4, k5, k6⟩ := large_part (C := (w * (e * (s / n))).toReal) hu0 hu hη hε0 hε hN0 hN8 E1 E2 n2 hlt hw2 e2 s2
    have finA := div_isFin s1 n1 k3.ne' (hw.range (by linarith))
    obtain ⟨-, hA⟩ := div_err n1 finA
    have hA2 : |(s / n).toReal| * f.u ≤ 2 := by
      have h1 := abs_sub_abs_le_abs_sub (s / n).toReal (s.toReal / n.toReal)
      have h2 : |(s / n).toReal| ≤ (1 + f.u) * |s.toReal / n.toReal| + f.eta := by linarith
      have h3 := mul_le_mul_of_nonneg_right h2 hu0.le
      have h4 : (1 + f.u) * |s.toReal / n.toReal| * f.u ≤ (1 + f.u) * 1 := by
        rw [mul_assoc]; exact mul_le_mul_of_nonneg_left k4 (by linarith)
      have h5 : f.eta * f.u ≤ f.eta * 1 := mul_le_mul_of_nonneg_left (by linarith) hη0.le
      linarith
    have finB := mul_isFin e1 finA (hw.range (by
      rw [abs_mul, abs_of_pos k1, mul_assoc]
      exact (mul_le_mul k2 hA2 (by positivity) (by norm_num)).trans (by norm_num)))
    have hB := mul_err finB
    obtain ⟨t1, t2⟩ := three (v := w.toReal) (c := w.toReal * (e * (s / n)).toReal) (C := (w * (e * (s / n))).toReal)
      hu0.le k1.le hA rfl hB rfl
    obtain ⟨r1, r2⟩ := three_simple (v := w.toReal) hu0 hu hη0.le hη (abs_nonneg (w.toReal * (e.toReal * (s.toReal / n.toReal))))
      (by linarith) (by linarith) k1 k2
    have finC := mul_isFin hw1 finB (Fmt.range_of_p hp (t1.trans r1))
    exact ⟨finC, k6 ((t2 (mul_err finC)).trans r2)⟩
  · rw [if_neg (fun h => hlt ((lt_iff (a := epsilon f) (show (epsilon f).IsFin from trivial) n1).1 h))]
    rw [ee] at hlt
    obtain ⟨m, h⟩ := small_part (C := ((q.q i) * e).toReal) hu0.le hu hη hε0 hε hN0 E1 E2 n2 (not_lt.1 hlt) hw2 e2
    have fin := mul_isFin hw1 e1 (Fmt.range_of_p hp (by linarith))
    exact ⟨fin, h (mul_err fin)⟩

private theorem norm_im_sq (q : Quat (Flt f)) :
    ‖q.reH.im‖ ^ 2 = (q.q 0).toReal ^ 2 + (q.q 1).toReal ^ 2 + (q.q 2).toReal ^ 2 := by
  rw [sq ‖q.reH.im‖, ← Quaternion.normSq_eq_norm_mul_self, Quaternion.normSq_def', Quaternion.re_im, Quaternion.imI_im, Quaternion.imJ_im, Quaternion.imK_im]
  change (0 : ℝ) ^ 2 + (q.q 0).toReal ^ 2 + (q.q 1).toReal ^ 2 + (q.q 2).toReal ^ 2 = _
  ring

/-- **C138.** The exponential of a finite quaternion whose real part is at most 4 in absolute value and whose vector part
has length at most 8 is finite, and is the exponential of the exact quaternion up to `6ε + (16 ‖im q‖ + 28) u` relative to
its norm `e^(re q)`, where `ε` bounds the error of `sin`, `cos` and the relative error of `exp`. -/
theorem C138_exp [L : Libm f] (hw : f.Wide) {ε : ℝ} (hsc : SinCosAcc f ε) (he : ExpAcc f ε) (hε : ε ≤ 1 / 8) (q : Quat (Flt f))
    (hq : ∀ i, (q.comp i).IsFin) (hr : |q.reH.re| ≤ 4) (hv : ‖q.reH.im‖ ≤ 8) :
    (∀ i, (q.exp.comp i).IsFin) ∧
    ‖q.exp.reH - NormedSpace.exp q.reH‖ ≤ Real.exp q.reH.re * (6 * ε + (16 * ‖q.reH.im‖ + 28) * f.u) := by
  obtain ⟨h0, hi⟩ := exp_comps hw hsc he hε q (hq 0)
    (fun i => by fin_cases i; exacts [hq 1, hq 2, hq 3]) hr (norm_nonneg _) (norm_im_sq q) hv
  constructor
  · intro i
    fin_cases i
    exacts [h0.fin, (hi 0).fin, (hi 1).fin, (hi 2).fin]
  rw [Quaternion.exp_eq, ← Real.exp_eq_exp_ℝ]
  obtain ⟨N, hN⟩ : ∃ N, N = ‖q.reH.im‖ := ⟨_, rfl⟩
  rw [← hN] at h0 hi ⊢
  have e1 : Real.exp q.reH.re * (6 * ε + (16 * N + 28) * f.u) =
      2 * (Real.exp q.reH.re * (3 * ε + (8 * N + 14) * f.u)) := by ring
  rw [e1]
  have k := h0.err
  have k0 := (hi 0).err
  have k1 := (hi 1).err
  have k2 := (hi 2).err
  refine Quat.norm_le_two ?_ ?_ ?_ ?_
  · have e2 : (Real.exp q.reH.re • ((Real.cos N : ℍ[ℝ]) + (Real.sin N / N) • q.reH.im)).re = Real.exp q.q0.toReal * Real.cos N := by
      rw [re_smul, re_add, re_coe, re_smul, re_im, smul_zero, add_zero]; rfl
    rw [re_sub, e2]; exact k
  · have e2 : (Real.exp q.reH.re • ((Real.cos N : ℍ[ℝ]) + (Real.sin N / N) • q.reH.im)).imI =
        (q.q 0).toReal * (Real.exp q.q0.toReal * (Real.sin N / N)) := by
      rw [imI_smul, imI_add, imI_coe, imI_smul, imI_im, zero_add]
      change Real.exp q.q0.toReal * (Real.sin N / N * (q.q 0).toReal) = _; ring
    rw [imI_sub, e2]; exact k0
  · have e2 : (Real.exp q.reH.re • ((Real.cos N : ℍ[ℝ]) + (Real.sin N / N) • q.reH.im)).imJ =
        (q.q 1).toReal * (Real.exp q.q0.toReal * (Real.sin N / N)) := by
      rw [imJ_smul, imJ_add, imJ_coe, imJ_smul, imJ_im, zero_add]
      change Real.exp q.q0.toReal * (Real.sin N / N * (q.q 1).toReal) = _; ring
    rw [imJ_sub, e2]; exact k1
  · have e2 : (Real.exp q.reH.re • ((Real.cos N : ℍ[ℝ]) + (Real.sin N / N) • q.reH.im)).imK =
        (q.q 2).toReal * (Real.exp q.q0.toReal * (Real.sin N / N)) := by
      rw [imK_smul, imK_add, imK_coe, imK_smul, imK_im, zero_add]
      change Real.exp q.q0.toReal * (Real.sin N / N * (q.q 2).toReal) = _; ring
    rw [imK_sub, e2]; exact k2

/-- **C138.** The exponential of a pure quaternion is a unit quaternion up to rounding. -/
theorem C138_exp_unit [L : Libm f] (hw : f.Wide) {ε : ℝ} (hsc : SinCosAcc f ε) (he : ExpAcc f ε) (hε : ε ≤ 1 / 8) (q : Quat (Flt f))
    (hq : ∀ i, (q.comp i).IsFin) (hr : q.reH.re = 0) (hv : ‖q.reH.im‖ ≤ 8) :
    |‖q.exp.reH‖ - 1| ≤ 6 * ε + (16 * ‖q.reH.im‖ + 28) * f.u := by
  obtain ⟨-, h⟩ := C138_exp hw hsc he hε q hq (by rw [hr, abs_zero]; norm_num) hv
  have h1 := abs_norm_sub_norm_le q.exp.reH (NormedSpace.exp q.reH)
  rw [Quaternion.norm_exp, ← Real.exp_eq_exp_ℝ, hr, Real.exp_zero, norm_one] at h1
  rw [hr, Real.exp_zero, one_mul] at h
  exact h1.trans h

/-- A correctly rounded `exp` has relative error at most `5/4 u` between `-4` and `4`. -/
theorem correctLibm_exp (hp : 8 ≤ f.p) : @ExpAcc f (correctLibm f) (5 / 4 * f.u) := by
  intro x _ hx
  obtain ⟨h1, h2⟩ := exp_bounds hx
  have hu := f.u_pos
  have h3 := Near.of_real (f := f) hp (r := Real.exp x.toReal) (abs_of_pos (Real.exp_pos _)).le (by linarith)
  refine ⟨h3.fin, h3.err.trans ?_⟩
  have := mul_le_mul_of_nonneg_left h2 hu.le
  linarith

theorem correctLibm_sin_cos' (hp : 8 ≤ f.p) : @SinCosAcc f (correctLibm f) (5 / 4 * f.u) := by
  let := correctLibm f
  have hu := f.u_pos
  obtain ⟨h1, h2⟩ := correctLibm_sin_cos hp
  exact ⟨fun x hx => ⟨(h1 x hx).1, (h1 x hx).2.trans (by linarith)⟩, fun x hx => ⟨(h2 x hx).1, (h2 x hx).2.trans (by linarith)⟩⟩

/-- The pure quaternion `i` in `f64` with a correctly rounded library: `exp` is `cos 1 + sin 1 i` up to `52 u`, and unit. -/
example : let := correctLibm Fmt.f64
    let q : Quat (Flt Fmt.f64) := ⟨0, ⟨![1, 0, 0]⟩, false⟩
    ‖q.exp.reH - NormedSpace.exp q.reH‖ ≤ 52 * Fmt.f64.u := by
  let := correctLibm Fmt.f64
  have hu := Fmt.f64.u_pos
  have hu2 := Fmt.u_le_of_p Fmt.f64_wide.p
  obtain ⟨q, hq⟩ : ∃ q : Quat (Flt Fmt.f64), q = ⟨0, ⟨![1, 0, 0]⟩, false⟩ := ⟨_, rfl⟩
  have e1 : q.reH = (⟨0, 1, 0, 0⟩ : ℍ[ℝ]) := by
    rw [hq]; change (⟨(0 : Flt Fmt.f64).toReal, (1 : Flt Fmt.f64).toReal, (0 : Flt Fmt.f64).toReal, (0 : Flt Fmt.f64).toReal⟩ : ℍ[ℝ]) = _
    rw [toReal_one, toReal_zero]
  have e2 : ‖q.reH.im‖ = 1 := by
    rw [← sq_eq_sq₀ (norm_nonneg _) zero_le_one, sq, ← Quaternion.normSq_eq_norm_mul_self, Quaternion.normSq_def', re_im, imI_im, imJ_im, imK_im, e1]
    norm_num
  have fin : ∀ i, (q.comp i).IsFin := by
    intro i; rw [hq]; fin_cases i <;> trivial
  have e3 : q.reH.re = 0 := by rw [e1]
  obtain ⟨-, h⟩ := C138_exp Fmt.f64_wide (correctLibm_sin_cos' Fmt.f64_wide.p) (correctLibm_exp Fmt.f64_wide.p) (by linarith) q fin
    (by rw [e3, abs_zero]; norm_num) (by rw [e2]; norm_num)
  rw [e2, e3, Real.exp_zero, hq] at h
  refine h.trans ?_
  linarith

end StaticMath
