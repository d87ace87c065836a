import Verif.Props.IeeeExp
import Verif.Ieee.Param
import Verif.Ieee.Rounded
import Verif.Spec.LibmAcos
import Mathlib.Analysis.SpecialFunctions.Trigonometric.Bounds
import Mathlib.Analysis.SpecialFunctions.Trigonometric.InverseDeriv

/-!
# C132, C133: small rotations in floating point
-/

namespace StaticMath
open Flt

/-! ## Running the exponential on computable floats -/

section
variable {f : Fmt}

/-- Two matrices, entry by entry. -/
def DM (A : Mat 3 (BF f)) (B : Mat 3 (Flt f)) : Prop := ∀ i j, BF.Den (A i j) (B i j)

theorem DM.add {A B : Mat 3 (BF f)} {C D : Mat 3 (Flt f)} (h : DM A C) (k : DM B D) : DM (M33.add A B) (M33.add C D) := by
  intro i j
  fin_cases i <;> fin_cases j <;> exact BF.den_add (h _ _) (k _ _)

theorem DM.smul {A : Mat 3 (BF f)} {C : Mat 3 (Flt f)} (h : DM A C) {a : BF f} {x : Flt f} (k : BF.Den a x) :
    DM (M33.smul A a) (M33.smul C x) := by
  intro i j
  fin_cases i <;> fin_cases j <;> exact BF.den_mul (h _ _) k

theorem DM.sdiv {A : Mat 3 (BF f)} {C : Mat 3 (Flt f)} (h : DM A C) {a : BF f} {x : Flt f} (k : BF.Den a x) :
    DM (M33.sdiv A a) (M33.sdiv C x) := by
  intro i j
  fin_cases i <;> fin_cases j <;> exact BF.den_div (h _ _) k

theorem DM.mul {A B : Mat 3 (BF f)} {C D : Mat 3 (Flt f)} (h : DM A C) (k : DM B D) : DM (M33.mul A B) (M33.mul C D) := by
  intro i j
  fin_cases i <;> fin_cases j <;>
    exact BF.den_add (BF.den_add (BF.den_mul (h _ _) (k _ _)) (BF.den_mul (h _ _) (k _ _))) (BF.den_mul (h _ _) (k _ _))

theorem DM.one : DM (M33.one : Mat 3 (BF f)) M33.one := by
  intro i j
  fin_cases i <;> fin_cases j <;> first | exact BF.den_one | exact BF.den_zero

theorem DM.skew {v : Vec 3 (BF f)} {w : Vec 3 (Flt f)} (h : ∀ k, BF.Den (v k) (w k)) :
    DM (skew_from_vec v) (skew_from_vec w) := by
  intro i j
  fin_cases i <;> fin_cases j <;> first | exact BF.den_zero | exact h _ | exact BF.den_neg (h _)

theorem den_norm2 {v : Vec 3 (BF f)} {w : Vec 3 (Flt f)} [Libm f] (h : ∀ k, BF.Den (v k) (w k)) :
    BF.Den (V3.norm2 v) (V3.norm2 w) :=
  BF.den_sqrt (BF.den_add (BF.den_add (BF.den_mul (h 0) (h 0)) (BF.den_mul (h 1) (h 1))) (BF.den_mul (h 2) (h 2)))

end

theorem toReal_den {b : BF Fmt.f64} {x : Flt Fmt.f64} (h : BF.Den b x) {s : Bool} {m : ℕ} {e : ℤ}
    (hb : b = .fin s m e) : x.toReal = sgn s (m * (2 : ℝ) ^ e) := by
  subst hb
  rcases x with _ | t | ⟨t, y, hy⟩
  · exact absurd h id
  · exact absurd h id
  · obtain ⟨rfl, rfl⟩ := h
    rfl

/-- `2^-27` in double precision -/
noncomputable def tiny : Flt Fmt.f64 :=
  .fin false ((1 : ℕ) * (2 : ℝ) ^ (-27 : ℤ)) ⟨1, -27, rfl, by decide +kernel, by decide +kernel, by decide +kernel⟩

theorem tiny_toReal : tiny.toReal = 2 ^ (-27 : ℤ) := by simp [tiny, toReal, sgn]

def tinyB : BF Fmt.f64 := .fin false 1 (-27)

theorem den_tiny : BF.Den tinyB tiny := ⟨rfl, rfl⟩

/-- The rotation vector, and its sine and cosine. -/
def vB : Vec 3 (BF Fmt.f64) := ⟨![0, 0, tinyB]⟩
def sinB : BF Fmt.f64 := BF.pack Fmt.f64 false (2 ^ 56 - 1) (-83) true
def cosB : BF Fmt.f64 := BF.pack Fmt.f64 false (2 ^ 60 - 2 ^ 5) (-60) true

theorem den_real {f : Fmt} {r : ℝ} {N : ℕ} {e : ℤ} (h1 : (N : ℝ) * 2 ^ e < r) (h2 : r < (N + 1) * (2 : ℝ) ^ e)
    (h3 : 2 ^ (f.p + 1) ≤ N) : BF.Den (BF.pack f false N e true) (ofReal f false r) := by
  have hp : 0 < r := lt_of_le_of_lt (by positivity) h1
  unfold ofReal
  rw [if_neg hp.ne', decide_eq_false (not_lt.2 hp.le), abs_of_pos hp]
  exact BF.den_pack false h1.le h2 ⟨fun h => absurd h (by decide), fun h => absurd h h1.ne'⟩ (Or.inr h3)

attribute [local irreducible] BF.Den

theorem den_sin {t : Flt Fmt.f64} (h : t.toReal = 2 ^ (-27 : ℤ)) : BF.Den sinB (ofReal Fmt.f64 false (Real.sin t.toReal)) := by
  have h0 : (0 : ℝ) < 2 ^ (-27 : ℤ) := by positivity
  have h1 := Real.sin_lt h0
  have h2 := Real.sin_gt_sub_cube h0
  have h3 : ((2 ^ 56 - 1 : ℕ) : ℝ) * 2 ^ (-83 : ℤ) < Real.sin (2 ^ (-27 : ℤ)) := lt_of_le_of_lt (by norm_num) h2
  have h4 : Real.sin (2 ^ (-27 : ℤ)) < ((2 ^ 56 - 1 : ℕ) + 1) * (2 : ℝ) ^ (-83 : ℤ) := lt_of_lt_of_le h1 (by norm_num)
  rw [h]
  exact den_real h3 h4 (by decide +kernel)

theorem den_cos {t : Flt Fmt.f64} (h : t.toReal = 2 ^ (-27 : ℤ)) : BF.Den cosB (ofReal Fmt.f64 false (Real.cos t.toReal)) := by
  have h0 : (0 : ℝ) < 2 ^ (-27 : ℤ) := by positivity
  have h1 := Real.cos_bound (x := 2 ^ (-27 : ℤ)) (by norm_num)
  have h2 := Real.one_sub_sq_div_two_lt_cos (x := 2 ^ (-27 : ℤ)) h0.ne'
  have h3 : ((2 ^ 60 - 2 ^ 5 : ℕ) : ℝ) * 2 ^ (-60 : ℤ) < Real.cos (2 ^ (-27 : ℤ)) := lt_of_le_of_lt (by norm_num) h2
  have h4 : Real.cos (2 ^ (-27 : ℤ)) < ((2 ^ 60 - 2 ^ 5 : ℕ) + 1) * (2 : ℝ) ^ (-60 : ℤ) := by
    refine lt_of_le_of_lt (sub_le_iff_le_add.1 (_root_.abs_le.1 h1).2) ?_
    rw [abs_of_pos h0]
    norm_num
  rw [h]
  exact den_real h3 h4 (by decide +kernel)

def expB : Mat 3 (BF Fmt.f64) :=
  let K := M33.sdiv (skew_from_vec vB) (V3.norm2 vB)
  M33.add (M33.add M33.one (M33.smul K sinB)) (M33.smul (M33.mul K K) (1 - cosB))

theorem den_vB : ∀ k, BF.Den (vB k) ((⟨![0, 0, tiny]⟩ : Vec 3 (Flt Fmt.f64)) k) := by
  intro k
  fin_cases k
  exacts [BF.den_zero, BF.den_zero, den_tiny]

/-- The norm of the rotation vector, and the exponential of its antisymmetric matrix. -/
theorem exp_tiny :
    letI := correctLibm Fmt.f64
    ∃ (t : Flt Fmt.f64) (w : Vec 3 (Flt Fmt.f64)) (R : Mat 3 (Flt Fmt.f64)),
      t = V3.norm2 (skew_to_vec (skew_from_vec ⟨![0, 0, tiny]⟩)) ∧ BF.Den (V3.norm2 vB) t ∧ t.toReal = 2 ^ (-27 : ℤ) ∧
      nearly_zero t = false ∧ V3.normalize (skew_to_vec (skew_from_vec (⟨![0, 0, tiny]⟩ : Vec 3 (Flt Fmt.f64)))) = .ok (.ok w) ∧
      matrix_exponential (skew_from_vec ⟨![0, 0, tiny]⟩) = .ok R ∧ DM expB R := by
  let := correctLibm Fmt.f64
  obtain ⟨t, ht⟩ : ∃ t, t = V3.norm2 (⟨![0, 0, tiny]⟩ : Vec 3 (Flt Fmt.f64)) := ⟨_, rfl⟩
  have hn := den_norm2 den_vB
  rw [← ht] at hn
  have hr : t.toReal = 2 ^ (-27 : ℤ) :=
    (toReal_den hn (s := false) (m := 2 ^ 52) (e := -79) (by decide +kernel)).trans (by norm_num [sgn])
  have hz : nearly_zero t = false := by
    rw [← (BF.related _).nearly_zero hn]
    decide +kernel
  have hb : ROrd.beq t 0 = false := by
    rw [← BF.beq_eq hn BF.den_zero]
    decide +kernel
  have hw : skew_to_vec (skew_from_vec (⟨![0, 0, tiny]⟩ : Vec 3 (Flt Fmt.f64))) = ⟨![0, 0, tiny]⟩ := Vec.ext3 rfl rfl rfl
  have hk : DM (M33.sdiv (skew_from_vec vB) (V3.norm2 vB)) (M33.sdiv (skew_from_vec ⟨![0, 0, tiny]⟩) t) := (DM.skew den_vB).sdiv hn
  have hno : V3.normalize (⟨![0, 0, tiny]⟩ : Vec 3 (Flt Fmt.f64)) =
      .ok (.ok ⟨fun i => (⟨![0, 0, tiny]⟩ : Vec 3 (Flt Fmt.f64)) i / t⟩) := by
    unfold V3.normalize
    rw [normalizeGen_eq, ← ht, if_neg (by rw [hb]; decide)]
  refine ⟨t, _, _, by rw [hw]; exact ht, hn, hr, hz, by rw [hw]; exact hno, ?_,
    (DM.one.add (hk.smul (den_sin hr))).add ((hk.mul hk).smul (BF.den_sub BF.den_one (den_cos hr)))⟩
  unfold matrix_exponential axis_angle
  rw [hw]
  simp only [hno, ← ht, hz]
  rfl

/-- C132 is false of the code: in double precision, with correctly rounded sine and cosine, the exponential of the rotation
vector `(0, 0, 2^-27)` is not the identity matrix, yet `matrix_log` of it is the zero matrix. -/
theorem C132_small_rotation_false :
    letI := correctLibm Fmt.f64
    ∃ R : Mat 3 (Flt Fmt.f64), matrix_exponential (skew_from_vec ⟨![0, 0, tiny]⟩) = .ok R ∧
      (R 1 0).toReal = 2 ^ (-27 : ℤ) ∧ (∀ i j, (matrix_log R i j).toReal = 0) ∧
      (skew_from_vec ⟨![0, 0, tiny]⟩ : Mat 3 (Flt Fmt.f64)) 1 0 = tiny := by
  let := correctLibm Fmt.f64
  obtain ⟨-, -, R, -, -, -, -, -, h, k⟩ := exp_tiny
  refine ⟨R, h, ?_, ?_, rfl⟩
  · exact (toReal_den (k 1 0) (s := false) (m := 2 ^ 52) (e := -79) (by decide +kernel)).trans (by norm_num [sgn])
  · have ht : BF.Den (M33.trace expB) (M33.trace R) := BF.den_add (BF.den_add (k 0 0) (k 1 1)) (k 2 2)
    have h1 := BF.den_one (f := Fmt.f64)
    have ha : ROrd.le (1 : Flt Fmt.f64) ((M33.trace R - 1) / (1 + 1)) = true := by
      rw [← BF.le_eq h1 (BF.den_div (BF.den_sub ht h1) (BF.den_add h1 h1))]
      decide +kernel
    intro i j
    unfold matrix_log
    rw [if_pos ha]
    fin_cases i <;> fin_cases j <;> exact toReal_zero

/-! ## The error of the logarithm -/

section
variable {f : Fmt}

/-- The inverse cosine of a value near `cos θ`. -/
theorem arccos_near {θ a s d : ℝ} (h0 : 0 ≤ θ) (hpi : θ ≤ Real.pi) (hs : s = Real.sin θ) (hs0 : 0 < s)
    (hd : d ≤ s ^ 2 / 200) (ha : |a - Real.cos θ| ≤ 8 * d) :
    |a| ≤ 1 - 46 / 100 * s ^ 2 ∧ |Real.arccos a - θ| ≤ 10 * d / s := by
  have hs1 : s ≤ 1 := hs ▸ Real.sin_le_one θ
  have hsc := Real.sin_sq_add_cos_sq θ
  rw [← hs] at hsc
  have hc : |Real.cos θ| ≤ 1 - s ^ 2 / 2 := by
    refine abs_le_of_sq_le_sq (by nlinarith [sq_nonneg (s ^ 2)]) (by nlinarith)
  have hab : |a| ≤ 1 - 46 / 100 * s ^ 2 := by
    have := abs_sub_abs_le_abs_sub a (Real.cos θ)
    linarith
  refine ⟨hab, ?_⟩
  have hs2 : s ^ 2 ≤ 1 := by nlinarith
  have key : ∀ x ∈ Set.Icc (-(1 - 46 / 100 * s ^ 2)) (1 - 46 / 100 * s ^ 2), HasDerivWithinAt Real.arccos (-(1 / √(1 - x ^ 2)))
      (Set.Icc (-(1 - 46 / 100 * s ^ 2)) (1 - 46 / 100 * s ^ 2)) x := by
    intro x hx
    have hs3 : 0 < s ^ 2 := by positivity
    exact (Real.hasDerivAt_arccos (by intro h; rw [h] at hx; linarith [hx.1]) (by intro h; rw [h] at hx; linarith [hx.2])).hasDerivWithinAt
  have bound : ∀ x ∈ Set.Icc (-(1 - 46 / 100 * s ^ 2)) (1 - 46 / 100 * s ^ 2), ‖-(1 / √(1 - x ^ 2))‖ ≤ 5 / (4 * s) := by
    intro x hx
    have hx2 : x ^ 2 ≤ (1 - 46 / 100 * s ^ 2) ^ 2 := sq_le_sq' (by linarith [hx.1]) hx.2
    have h1 : 4 / 5 * s ≤ √(1 - x ^ 2) := Real.le_sqrt_of_sq_le (by nlinarith [sq_nonneg s])
    rw [norm_neg, Real.norm_eq_abs, abs_of_nonneg (by positivity), div_le_div_iff₀ (by linarith) (by positivity)]
    linarith
  have h1 := (convex_Icc _ _).norm_image_sub_le_of_norm_hasDerivWithin_le (f := Real.arccos) key bound
    (abs_le.1 (hc.trans (by nlinarith : _ ≤ 1 - 46 / 100 * s ^ 2))) (abs_le.1 hab)
  rw [Real.arccos_cos h0 hpi, Real.norm_eq_abs, Real.norm_eq_abs] at h1
  refine h1.trans ((mul_le_mul_of_nonneg_left ha (by positivity)).trans (le_of_eq ?_))
  field_simp
  ring

private theorem trace_near (hp : 8 ≤ f.p) {a b c : Flt f} {x y z d : ℝ} (hu : f.u ≤ d) (hd : d ≤ 1 / 200) (ha : Near a x d)
    (hb : Near b y d) (hc : Near c z d) (hx : |x| ≤ 1) (hy : |y| ≤ 1) (hz : |z| ≤ 1) (ht : |x + y + z - 1| ≤ 2) :
    Near ((a + b + c - 1) / (1 + 1)) ((x + y + z - 1) / 2) (8 * d) := by
  have hu0 := f.u_pos
  have h1 := Near.add hp (B := 201 / 100) (e := 5 * d) ha hb (by linarith [abs_add_le x y]) (by norm_num) (by linarith)
  have h2 := Near.add hp (B := 31 / 10) (e := 10 * d) h1 hc (by linarith [abs_add_le (x + y) z, abs_add_le x y]) (by norm_num) (by linarith)
  have h3 := Near.sub hp (B := 21 / 10) (e := 13 * d) h2 Near.one (by linarith) (by norm_num) (by linarith)
  refine Near.div hp (c := 2) (Q := 1) (B := 21 / 20) h3 Near.two (by norm_num) (by norm_num) ?_ ?_ (by norm_num) ?_
  · rw [abs_div, abs_two]; linarith
  · linarith
  · linarith

private theorem log_eq [L : Libm f] (R : Mat 3 (Flt f)) {a : Flt f} (ha : a = (M33.trace R - 1) / (1 + 1))
    (h1 : ROrd.le (1 : Flt f) a = false) (h2 : ROrd.le a (-1 : Flt f) = false) (i j : Fin 3) :
    matrix_log R i j = (R i j - R j i) * (L.acos a / (1 + 1) / L.sin (L.acos a)) := by
  have : matrix_log R = M33.smul (M33.sub R (M33.transpose R)) (L.acos a / (1 + 1) / L.sin (L.acos a)) := by
    unfold matrix_log
    rw [ha] at h1 h2 ⊢
    rw [if_neg (by rw [h1]; decide), if_neg (by rw [h2]; decide)]
    rfl
  rw [this]
  fin_cases i <;> fin_cases j <;> rfl

theorem le_false {a b : Flt f} (ha : a.IsFin) (hb : b.IsFin) (h : b.toReal < a.toReal) : ROrd.le a b = false := by
  have h1 : ROrd.lt a b = false := Bool.eq_false_iff.2 fun h2 => absurd ((lt_iff ha hb).1 h2) (not_lt.2 h.le)
  have h2 : ROrd.beq a b = false := Bool.eq_false_iff.2 fun h2 => absurd ((beq_iff ha hb).1 h2) h.ne'
  change (ROrd.lt a b || ROrd.beq a b) = false
  rw [h1, h2]
  rfl

/-- The last steps of `matrix_log`. -/
private theorem log_quot (hp : 8 ≤ f.p) {th sn x : Flt f} {θ s v d : ℝ} (hu : f.u ≤ d) (hs : 1 / 64 ≤ s) (hs1 : s ≤ 1)
    (hd : d ≤ s ^ 2 / 200) (h0 : 0 ≤ θ) (hpi : θ ≤ 315 / 100) (n2 : Near th θ (11 * (d / s))) (n3 : Near sn s (12 * (d / s)))
    (n6 : Near x v (41 / 10 * d)) (hv : |v| ≤ 2 * s) :
    Near (x * (th / (1 + 1) / sn)) (v * (θ / 2 / s)) (74 * (d / s / s)) := by
  have hu0 := f.u_pos
  have hs0 : 0 < s := by linarith
  have hd0 : 0 < d := by linarith
  have hds : d / s ≤ s / 200 := by rw [div_le_div_iff₀ hs0 (by norm_num)]; nlinarith
  have hdd : d ≤ d / s := by rw [le_div_iff₀ hs0]; nlinarith
  have hds' : d / s ≤ 1 / 200 := hds.trans (by linarith)
  have hθ : |θ / 2| ≤ 158 / 100 := by rw [abs_of_nonneg (by linarith)]; linarith
  have n4 : Near (th / (1 + 1)) (θ / 2) (72 / 10 * (d / s)) := by
    refine Near.div hp (c := 2) (Q := 158 / 100) (B := 161 / 100) n2 Near.two (by norm_num) (by norm_num) hθ ?_ (by norm_num) ?_
    · linarith
    · linarith
  have e3 : d / s ^ 3 = d / s / s / s := by field_simp
  have e2 : d / s ^ 2 = d / s / s := by field_simp
  have i1 : 1 ≤ 1 / s := by rw [le_div_iff₀ hs0]; linarith
  have i64 : 1 / s ≤ 64 := by rw [div_le_iff₀ hs0]; linarith
  have hd2 : d / s / s ≤ 1 / 200 := by rw [div_le_iff₀ hs0]; linarith
  have hd20 : 0 < d / s / s := by positivity
  have hd3 : d / s ^ 3 ≤ 1 / 200 * (1 / s) := by
    rw [e3, div_eq_mul_one_div (d / s / s) s]
    exact mul_le_mul_of_nonneg_right hd2 (by positivity)
  have hd30 : 0 < d / s ^ 3 := by positivity
  have hdd2 : d / s ≤ d / s / s := by rw [le_div_iff₀ hs0]; nlinarith [div_pos hd0 hs0]
  have hdd3 : d / s / s ≤ d / s ^ 3 := by rw [e3, le_div_iff₀ hs0]; nlinarith
  have hud : f.u * (1 / s) ≤ d / s := by
    rw [← div_eq_mul_one_div]
    exact div_le_div_of_nonneg_right hu hs0.le
  have qe : (72 / 10 * (d / s) + 158 / 100 * (1 / s) * (12 * (d / s))) / (9 / 10 * s) ≤ 291 / 10 * (d / s ^ 3) := by
    have : (72 / 10 * (d / s) + 158 / 100 * (1 / s) * (12 * (d / s))) / (9 / 10 * s) =
        8 * (d / s / s) + 316 / 15 * (d / s ^ 3) := by field_simp; ring
    rw [this]
    linarith
  have n5 : Near (th / (1 + 1) / sn) (θ / 2 / s) (31 * (d / s ^ 3)) := by
    refine Near.div hp (c := 9 / 10 * s) (Q := 158 / 100 * (1 / s)) (B := 1735 / 1000 * (1 / s)) n4 n3 (by positivity) ?_ ?_ ?_ ?_ ?_
    · rw [abs_of_pos hs0]; linarith
    · rw [abs_div, abs_of_pos hs0, div_eq_mul_one_div]
      exact mul_le_mul_of_nonneg_right hθ (by positivity)
    · linarith
    · linarith
    · refine (add_le_add qe (?_ : f.u * (1735 / 1000 * (1 / s) + 1 / 256) ≤ 19 / 10 * (d / s ^ 3))).trans (by linarith)
      linarith
  have hw : |θ / 2 / s| ≤ 158 / 100 * (1 / s) := by
    rw [abs_div, abs_of_pos hs0, div_eq_mul_one_div]
    exact mul_le_mul_of_nonneg_right hθ (by positivity)
  refine Near.mul hp (A := 203 / 100 * s) (C := 158 / 100 * (1 / s)) (D := 174 / 100 * (1 / s)) (B := 354 / 100) n6 n5 ?_ hw ?_ ?_ (by norm_num) ?_
  · nlinarith
  · linarith
  · have : 203 / 100 * s * (174 / 100 * (1 / s)) = 203 / 100 * (174 / 100) := by field_simp
    rw [this]
    norm_num
  · have g1 : 203 / 100 * s * (31 * (d / s ^ 3)) = 6293 / 100 * (d / s / s) := by field_simp; norm_num
    have g2 : 158 / 100 * (1 / s) * (41 / 10 * d) = 6478 / 1000 * (d / s) := by field_simp; norm_num
    rw [g1, g2]
    linarith

/-- `matrix_log` of a matrix near values `q` with trace `1 + 2 cos θ`. -/
private theorem log_near [L : Libm f] (hp : 8 ≤ f.p) {ε δ : ℝ} (h : SinCosAcc f ε) (hacos : AcosAcc f ε)
    (R : Mat 3 (Flt f)) (q : Fin 3 → Fin 3 → ℝ) {θ : ℝ} (hR : ∀ i j, Near (R i j) (q i j) δ) (h0 : 0 ≤ θ) (hpi : θ ≤ Real.pi)
    (hq1 : ∀ i j, |q i j| ≤ 1) (htr : q 0 0 + q 1 1 + q 2 2 = 1 + 2 * Real.cos θ)
    (hq2 : ∀ i j, |q i j - q j i| ≤ 2 * Real.sin θ) (hs : 1 / 64 ≤ Real.sin θ)
    (hd : δ + ε + f.u ≤ Real.sin θ ^ 2 / 200) (i j : Fin 3) :
    Near (matrix_log R i j) ((q i j - q j i) * (θ / 2 / Real.sin θ)) (74 * (δ + ε + f.u) / Real.sin θ ^ 2) := by
  have hu0 := f.u_pos
  have hε0 := acc_nonneg h
  have hδ0 := (hR 0 0).nonneg
  obtain ⟨s, hse⟩ : ∃ s, s = Real.sin θ := ⟨_, rfl⟩
  obtain ⟨d, hde⟩ : ∃ d, d = δ + ε + f.u := ⟨_, rfl⟩
  have hs1 : s ≤ 1 := hse ▸ Real.sin_le_one θ
  have hpi2 := Real.pi_lt_d2
  rw [← hse] at hs
  rw [← hde, ← hse] at hd ⊢
  have hs0 : 0 < s := by linarith
  have hdu : f.u ≤ d := by linarith
  have hdε : ε ≤ d := by linarith
  have hdδ : δ ≤ d := by linarith
  have hd0 : 0 < d := by linarith
  have hd1 : d ≤ 1 / 200 := by nlinarith
  have hds : d / s ≤ s / 200 := by rw [div_le_div_iff₀ hs0 (by norm_num)]; nlinarith
  have hdd : d ≤ d / s := by rw [le_div_iff₀ hs0]; nlinarith
  have hR' : ∀ i j, Near (R i j) (q i j) d := fun i j => (hR i j).mono hdδ
  have ht : |q 0 0 + q 1 1 + q 2 2 - 1| ≤ 2 := by
    rw [htr, add_sub_cancel_left, abs_mul, abs_two]
    linarith [Real.abs_cos_le_one θ]
  have n1 := trace_near hp hdu hd1 (hR' 0 0) (hR' 1 1) (hR' 2 2) (hq1 0 0) (hq1 1 1) (hq1 2 2) ht
  rw [htr, show (1 + 2 * Real.cos θ - 1) / 2 = Real.cos θ by ring] at n1
  obtain ⟨a, ha⟩ : ∃ a, a = (M33.trace R - 1) / (1 + 1) := ⟨_, rfl⟩
  have n1' : Near a (Real.cos θ) (8 * d) := by rw [ha]; exact n1
  obtain ⟨k1, k2⟩ := arccos_near h0 hpi hse hs0 hd n1'.err
  have hs2 : 0 < s ^ 2 := by positivity
  have a1 : |a.toReal| ≤ 1 := by linarith
  have ac := hacos a n1'.fin a1
  obtain ⟨th, hth⟩ : ∃ th, th = L.acos a := ⟨_, rfl⟩
  rw [← hth] at ac
  have hds' : d / s ≤ 1 / 200 := hds.trans (by linarith)
  have n2 : Near th θ (11 * (d / s)) := by
    refine ⟨ac.1, (abs_sub_le _ _ _).trans ((add_le_add ac.2 k2).trans ?_)⟩
    rw [mul_div_assoc]
    linarith
  have sn := h.sin th ac.1
  have n3 : Near (L.sin th) s (12 * (d / s)) := by
    refine ⟨sn.1, (abs_sub_le _ _ _).trans ((add_le_add sn.2 ?_).trans (?_ : ε + 11 * (d / s) ≤ _))⟩
    · have := (ls th.toReal θ).trans n2.err
      rwa [← hse] at this
    · linarith
  have hdss : d ≤ s / 200 := by nlinarith
  have hqs := hq2 i j
  rw [← hse] at hqs
  have n6 : Near (R i j - R j i) (q i j - q j i) (41 / 10 * d) := by
    refine Near.sub hp (B := 201 / 100) (hR' i j) (hR' j i) ?_ (by norm_num) (by linarith)
    linarith
  have hle1 : ROrd.le (1 : Flt f) a = false :=
    le_false trivial n1'.fin (by rw [toReal_one]; linarith [le_abs_self a.toReal])
  have hle2 : ROrd.le a (-1 : Flt f) = false :=
    le_false n1'.fin trivial (by rw [toReal_neg, toReal_one]; linarith [neg_abs_le a.toReal])
  have hL : matrix_log R i j = (R i j - R j i) * (th / (1 + 1) / L.sin th) := by
    rw [hth]
    exact log_eq R ha hle1 hle2 i j
  rw [hL, mul_div_assoc, show d / s ^ 2 = d / s / s by field_simp]
  exact log_quot hp hdu hs hs1 hd h0 (by linarith) n2 n3 n6 hqs

theorem correctLibm_acos (hp : 8 ≤ f.p) : @AcosAcc f (correctLibm f) (4 * f.u) := by
  intro x _ _
  have hu := f.u_pos
  have h0 : |Real.arccos x.toReal| ≤ 3.15 := by
    rw [abs_of_nonneg (Real.arccos_nonneg _)]
    exact (Real.arccos_le_pi _).trans Real.pi_lt_d2.le
  have := Near.of_real (f := f) (B := 3.15) hp h0 (by norm_num)
  exact ⟨this.fin, this.err.trans (by linarith)⟩

theorem rot_entry {G : Mat 3 ℝ} (hG : IsRot G) (i j : Fin 3) : |G.toM i j| ≤ 1 := by
  have h := congrFun (congrFun ((mem_SO3_iff _).1 hG).1 i) i
  rw [Matrix.mul_apply, Matrix.one_apply_eq] at h
  refine abs_le_of_sq_le_sq ?_ zero_le_one
  rw [one_pow, ← h, sq]
  exact Finset.single_le_sum (f := fun k => G.toM i k * G.toM.transpose k i) (fun k _ => mul_self_nonneg _) (Finset.mem_univ j)

theorem skew_entry {M : Matrix (Fin 3) (Fin 3) ℝ} (hM : ∀ i j, M i j = -M j i) {N : ℝ}
    (hN2 : N ^ 2 = M 2 1 ^ 2 + M 0 2 ^ 2 + M 1 0 ^ 2) (i j : Fin 3) : M i j ^ 2 ≤ N ^ 2 := by
  have hd' (i : Fin 3) : M i i = 0 := by linarith [hM i i]
  have a := sq_nonneg (M 2 1)
  have b := sq_nonneg (M 0 2)
  have c := sq_nonneg (M 1 0)
  rw [hN2]
  fin_cases i <;> fin_cases j
  · change M 0 0 ^ 2 ≤ _; rw [hd']; linarith
  · change M 0 1 ^ 2 ≤ _; rw [hM 0 1, neg_sq]; linarith
  · change M 0 2 ^ 2 ≤ _; linarith
  · change M 1 0 ^ 2 ≤ _; linarith
  · change M 1 1 ^ 2 ≤ _; rw [hd']; linarith
  · change M 1 2 ^ 2 ≤ _; rw [hM 1 2, neg_sq]; linarith
  · change M 2 0 ^ 2 ≤ _; rw [hM 2 0, neg_sq]; linarith
  · change M 2 1 ^ 2 ≤ _; linarith
  · change M 2 2 ^ 2 ≤ _; rw [hd']; linarith

/-- `matrix_log` of a float matrix within `δ` of the exponential of an antisymmetric matrix `M` of angle `N < π` gives
back `M` up to `74 (δ + ε + u) / sin² N`, as long as `sin N ≥ 1/64` and the error bound is below about a third.
What is missing: small angles and angles near `π` (see `C132_small_rotation_false`). -/
theorem C132_matrix_log_partial [Libm f] (hp : 8 ≤ f.p) {ε δ : ℝ} (h : SinCosAcc f ε) (hacos : AcosAcc f ε)
    (M : Matrix (Fin 3) (Fin 3) ℝ) (hM : ∀ i j, M i j = -M j i) (N : ℝ)
    (hN : N = √(M 2 1 ^ 2 + M 0 2 ^ 2 + M 1 0 ^ 2)) (hpi : N ≤ Real.pi) (hs : 1 / 64 ≤ Real.sin N)
    (R : Mat 3 (Flt f)) (hR : ∀ i j, (R i j).IsFin ∧ |(R i j).toReal - NormedSpace.exp M i j| ≤ δ)
    (hd : δ + ε + f.u ≤ Real.sin N ^ 2 / 200) (i j : Fin 3) :
    (matrix_log R i j).IsFin ∧ |(matrix_log R i j).toReal - M i j| ≤ 74 * (δ + ε + f.u) / Real.sin N ^ 2 := by
  have hN0 : 0 ≤ N := by rw [hN]; exact Real.sqrt_nonneg _
  have hNp : 0 < N := by
    rcases hN0.eq_or_lt with h0 | h0
    · rw [← h0, Real.sin_zero] at hs
      norm_num at hs
    · exact h0
  have hN2 : N ^ 2 = M 2 1 ^ 2 + M 0 2 ^ 2 + M 1 0 ^ 2 := by rw [hN, Real.sq_sqrt (by positivity)]
  have hd' (i : Fin 3) : M i i = 0 := by linarith [hM i i]
  have hq := exp_skew_entry M hM N hNp hN2
  have hdiff (i j : Fin 3) : NormedSpace.exp M i j - NormedSpace.exp M j i = 2 * (M i j / N) * Real.sin N := by
    rw [hq, hq, show (1 : Matrix (Fin 3) (Fin 3) ℝ) j i = (1 : Matrix (Fin 3) (Fin 3) ℝ) i j by
      simp only [Matrix.one_apply, eq_comm], hM j i, hM j 0, hM j 1, hM j 2, hM 0 i, hM 1 i, hM 2 i]
    ring
  have hM1 (i j : Fin 3) : |M i j / N| ≤ 1 := by
    rw [abs_div, abs_of_pos hNp, div_le_one hNp]
    exact abs_le_of_sq_le_sq (skew_entry hM hN2 i j) hN0
  have hs0 : 0 < Real.sin N := by linarith
  obtain ⟨G, hG, hGe⟩ := exp_skew_rot M hM
  have hG1 (i j : Fin 3) : |NormedSpace.exp M i j| ≤ 1 := by
    rw [← hGe]
    exact rot_entry hG i j
  have htr : NormedSpace.exp M 0 0 + NormedSpace.exp M 1 1 + NormedSpace.exp M 2 2 = 1 + 2 * Real.cos N := by
    rw [hq, hq, hq, hd', hd', hd', hM 0 1, hM 1 2, hM 2 0]
    have h1 : (M 2 1 / N) ^ 2 + (M 0 2 / N) ^ 2 + (M 1 0 / N) ^ 2 = 1 := by
      rw [div_pow, div_pow, div_pow, ← add_div, ← add_div, ← hN2, div_self (by positivity)]
    simp only [Matrix.one_apply_eq]
    linear_combination (-2 + 2 * Real.cos N) * h1
  have := log_near hp h hacos R (fun i j => NormedSpace.exp M i j) (fun i j => ⟨(hR i j).1, (hR i j).2⟩) hN0 hpi hG1 htr
    (fun i j => by
      rw [hdiff, abs_mul, abs_mul, abs_two, abs_of_pos hs0]
      nlinarith [hM1 i j]) hs hd i j
  refine ⟨this.fin, ?_⟩
  have e := this.err
  rw [hdiff, show 2 * (M i j / N) * Real.sin N * (N / 2 / Real.sin N) = M i j by field_simp] at e
  exact e

/-- `matrix_log` after `matrix_exponential` gives back an antisymmetric matrix of angle `N < π` with `sin N ≥ 1/64` up to
`74 (3.2 ε + 102 u) / sin² N`. What is missing: small angles and angles near `π`. -/
theorem C132_round_trip_partial [Libm f] (hp : 8 ≤ f.p) {ε : ℝ} (h : SinCosAcc f ε) (hacos : AcosAcc f ε)
    (S : Mat 3 (Flt f)) (hS : ∀ i j, (S i j).IsFin ∧ (S i j).toReal = -(S j i).toReal)
    (hf : (V3.norm2 (skew_to_vec S)).IsFin)
    (hn : ∀ i j, (S i j).toReal = 0 ∨ (2 : ℝ) ^ f.emin ≤ (S i j).toReal ^ 2) (N : ℝ)
    (hN : N = √((S 2 1).toReal ^ 2 + (S 0 2).toReal ^ 2 + (S 1 0).toReal ^ 2)) (hpi : N ≤ Real.pi)
    (hs : 1 / 64 ≤ Real.sin N) (hd : 16 / 5 * ε + 102 * f.u ≤ Real.sin N ^ 2 / 200) :
    ∃ R, matrix_exponential S = .ok R ∧ ∀ i j, (matrix_log R i j).IsFin ∧
      |(matrix_log R i j).toReal - (S i j).toReal| ≤ 74 * (16 / 5 * ε + 102 * f.u) / Real.sin N ^ 2 := by
  have hu0 := f.u_pos
  have hpi2 := Real.pi_lt_d2
  have hs2 : Real.sin N ^ 2 ≤ 1 := Real.sin_sq_le_one N
  obtain ⟨R, h1, h2⟩ := C131_matrix_exponential hp h (by linarith) S hS hf hn N hN
  have hNu := mul_le_mul_of_nonneg_right (hpi.trans hpi2.le) hu0.le
  refine ⟨R, h1, fun i j => C132_matrix_log_partial hp h hacos (Matrix.of fun i j => (S i j).toReal)
    (fun i j => (hS i j).2) N hN hpi hs R (δ := 11 / 5 * ε + 101 * f.u) ?_ ?_ i j |>.imp_right fun k => k.trans (le_of_eq ?_)⟩
  · intro i j
    exact ⟨(h2 i j).1, (h2 i j).2.trans (by linarith)⟩
  · linarith
  · ring_nf

/-- The logarithm of the exponential of the antisymmetric matrix of `(1, 1, 1)` in single precision. -/
example : letI := correctLibm Fmt.f32
    ∃ R, matrix_exponential (skew_from_vec ⟨fun _ => (1 : Flt Fmt.f32)⟩) = .ok R ∧
      ∀ i j, |(matrix_log R i j).toReal - !![(0 : ℝ), -1, 1; 1, 0, -1; -1, 1, 0] i j| ≤ 2 ^ (-10 : ℤ) := by
  let _ := correctLibm Fmt.f32
  have hu : Fmt.f32.u = (2 : ℝ) ^ (-24 : ℤ) := rfl
  let S : Mat 3 (Flt Fmt.f32) := skew_from_vec ⟨fun _ => (1 : Flt Fmt.f32)⟩
  have n1 : (-1 : Flt Fmt.f32).toReal = -1 := by rw [toReal_neg, toReal_one]
  have hv : (Matrix.of fun i j => (S i j).toReal) = !![(0 : ℝ), -1, 1; 1, 0, -1; -1, 1, 0] := by
    ext i j
    fin_cases i <;> fin_cases j
    exacts [toReal_zero (f := Fmt.f32), n1, toReal_one (f := Fmt.f32), toReal_one (f := Fmt.f32), toReal_zero (f := Fmt.f32), n1, n1,
      toReal_one (f := Fmt.f32), toReal_zero (f := Fmt.f32)]
  have hve (i j : Fin 3) : (S i j).toReal = !![(0 : ℝ), -1, 1; 1, 0, -1; -1, 1, 0] i j := by rw [← hv]; rfl
  have hS : ∀ i j, (S i j).IsFin ∧ (S i j).toReal = -(S j i).toReal := by
    intro i j
    refine ⟨?_, ?_⟩
    · fin_cases i <;> fin_cases j <;> exact trivial
    · rw [hve, hve]
      fin_cases i <;> fin_cases j <;> norm_num
  have h3a : 17 / 10 ≤ √3 := Real.le_sqrt_of_sq_le (by norm_num)
  have h3b : √3 ≤ 18 / 10 := Real.sqrt_le_iff.2 (by norm_num)
  have hpa := Real.pi_gt_d2
  have hpb := Real.pi_lt_d2
  have hsin : 9 / 10 ≤ Real.sin √3 := by
    rw [← Real.cos_sub_pi_div_two]
    refine le_trans ?_ Real.one_sub_sq_div_two_le_cos
    nlinarith
  have hsq : 8 / 10 ≤ Real.sin √3 ^ 2 := by nlinarith
  have hε : @SinCosAcc Fmt.f32 (correctLibm Fmt.f32) (4 * Fmt.f32.u) := by
    have h1 := correctLibm_sin_cos (f := Fmt.f32) (by decide)
    have := Fmt.f32.u_pos
    exact ⟨fun x hx => ⟨(h1.sin x hx).1, (h1.sin x hx).2.trans (by linarith)⟩,
      fun x hx => ⟨(h1.cos x hx).1, (h1.cos x hx).2.trans (by linarith)⟩⟩
  obtain ⟨R, h1, h2⟩ := C132_round_trip_partial (f := Fmt.f32) (by decide) hε (correctLibm_acos (by decide)) S hS ones_norm
    (by
      intro i j
      rw [hve]
      change _ ∨ (2 : ℝ) ^ (-126 : ℤ) ≤ _
      fin_cases i <;> fin_cases j <;> norm_num) (√3)
    (by
      have e (i j) : (S i j).toReal = !![(0 : ℝ), -1, 1; 1, 0, -1; -1, 1, 0] i j := hve i j
      rw [e, e, e]
      change √3 = √((1 : ℝ) ^ 2 + 1 ^ 2 + 1 ^ 2)
      norm_num) (by linarith) (by linarith) (by rw [hu]; linarith)
  refine ⟨R, h1, fun i j => ?_⟩
  have h4 := (h2 i j).2
  rw [hve, hu] at h4
  refine h4.trans ?_
  rw [div_le_iff₀ (by linarith)]
  norm_num
  linarith

end

end StaticMath
