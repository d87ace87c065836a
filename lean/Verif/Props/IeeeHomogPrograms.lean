import Verif.Props.IeeeHomog
import Verif.Props.IeeeMotionPrograms

/-!
# C168: every program of homogeneous matrices in floating point
-/

namespace StaticMath
open Flt Quaternion

variable {f : Fmt}

/-- Programs that combine homogeneous matrices. A leaf is a float matrix together with the rigid motion it stands for. -/
inductive HomProgram (f : Fmt) : Type
  | leaf (A : Mat 4 (Flt f)) (M : Matrix (Fin 4) (Fin 4) ℝ)
  | mul (a b : HomProgram f)
  | inverse (a : HomProgram f)

namespace HomProgram

/-- The program run on floats. -/
noncomputable def run : HomProgram f → Mat 4 (Flt f)
  | leaf A _ => A
  | mul a b => M44.mul a.run b.run
  | inverse a => homogeneous_inverse a.run

/-- The rigid motion it stands for. -/
noncomputable def exact : HomProgram f → Matrix (Fin 4) (Fin 4) ℝ
  | leaf _ M => M
  | mul a b => a.exact * b.exact
  | inverse a => (a.exact)⁻¹

/-- Number of leaves. -/
def leaves : HomProgram f → ℕ
  | leaf _ _ => 1
  | mul a b => a.leaves + b.leaves
  | inverse a => a.leaves

/-- Number of leaves, where an inverse multiplies by 2. -/
def weight : HomProgram f → ℕ
  | leaf _ _ => 1
  | mul a b => a.weight + b.weight
  | inverse a => 2 * a.weight

/-- The leaves are within `δ` of rigid motions with translations of length at most `P`. -/
def Valid (P δ : ℝ) : HomProgram f → Prop
  | leaf A M => A.HClose M P δ
  | mul a b => a.Valid P δ ∧ b.Valid P δ
  | inverse a => a.Valid P δ

theorem leaves_pos (e : HomProgram f) : 1 ≤ e.leaves := by
  induction e <;> simp only [leaves] <;> omega

end HomProgram

private theorem Mat.HClose.mono {A : Mat 4 (Flt f)} {M : Matrix (Fin 4) (Fin 4) ℝ} {P ε ε' : ℝ} (h : A.HClose M P ε) (he : ε ≤ ε') :
    A.HClose M P ε' :=
  ⟨h.fin, h.last, h.orth, h.row, h.size, h.rot.trans he, h.trans.trans (mul_le_mul_of_nonneg_left he h.norms.2.2.2)⟩

/-- **C168.** Every program of products and homogeneous inverses of float matrices that are within `δ` of rigid motions runs without
overflow, and its result is within `((1 + δ) (1 + 13 u)) ^ weight - 1` of the exact motion (translation: times `P` and the number of
leaves); the last row is exactly `0 0 0 1`. -/
theorem C168_programs (hp : 8 ≤ f.p) {P δ : ℝ} (hδ : 0 ≤ δ) (hP : 1 / 8 ≤ P) (e : HomProgram f) (he : e.Valid P δ)
    (hn : ((1 + δ) * (1 + 13 * f.u)) ^ e.weight ≤ 2) (hov : 16 * (2 + 2 * (e.leaves * P)) ^ 2 ≤ (2 : ℝ) ^ f.emax) :
    e.run.HClose e.exact (e.leaves * P) (((1 + δ) * (1 + 13 * f.u)) ^ e.weight - 1) := by
  have hu0 := f.u_pos
  obtain ⟨w, hw⟩ : ∃ w, w = 1 + 13 * f.u := ⟨_, rfl⟩
  obtain ⟨G, hG⟩ : ∃ G, G = (1 + δ) * w := ⟨_, rfl⟩
  rw [← hw, ← hG] at hn ⊢
  have w1 : 1 ≤ w := by linarith
  have w0 : 1 + 6 * f.u ≤ w := by linarith
  have wp : 0 < w := by linarith
  have G1 : 1 ≤ G := by rw [hG]; nlinarith
  have Gp : 0 < G := by linarith
  have up {m n : ℕ} (h : m ≤ n) : G ^ m ≤ G ^ n := pow_le_pow_right₀ G1 h
  have le (x : ℝ) (h : 0 ≤ x) : x / w ≤ x := div_le_self h w1
  suffices h : e.run.HClose e.exact (e.leaves * P) (G ^ e.weight / w - 1) by
    have := le (G ^ e.weight) (by positivity)
    exact h.mono (by linarith)
  have P0 : 0 ≤ P := by linarith
  have lP (a : HomProgram f) : 1 / 8 ≤ a.leaves * P := by
    have h1 : (1 : ℝ) ≤ a.leaves := by exact_mod_cast a.leaves_pos
    have := mul_le_mul_of_nonneg_right h1 P0
    linarith
  induction e with
  | leaf A M =>
    change A.HClose M ((1 : ℕ) * P) (G ^ 1 / w - 1)
    rw [pow_one, hG, mul_div_assoc, div_self wp.ne', mul_one, add_sub_cancel_left, Nat.cast_one, one_mul]
    exact he
  | mul a b iha ihb =>
    rw [HomProgram.weight] at hn ⊢
    rw [HomProgram.leaves] at hov ⊢
    push_cast at hov ⊢
    have la := lP a
    have lb := lP b
    have ova : 16 * (2 + 2 * (a.leaves * P)) ^ 2 ≤ (2 : ℝ) ^ f.emax := le_trans (by gcongr; linarith) hov
    have ovb : 16 * (2 + 2 * (b.leaves * P)) ^ 2 ≤ (2 : ℝ) ^ f.emax := le_trans (by gcongr; linarith) hov
    have h2 := iha he.1 ova ((up (Nat.le_add_right _ _)).trans hn)
    have k2 := ihb he.2 ovb ((up (Nat.le_add_left _ _)).trans hn)
    have bp : (0 : ℝ) < b.leaves := by exact_mod_cast b.leaves_pos
    have e1 : (a.leaves : ℝ) / b.leaves * (b.leaves * P) = a.leaves * P := by field_simp
    have e2 : ((a.leaves : ℝ) / b.leaves + 1) * (b.leaves * P) = (a.leaves + b.leaves) * P := by field_simp
    have e3 : G ^ a.weight / w * ((1 + (G ^ b.weight / w - 1)) * w) = G ^ (a.weight + b.weight) / w := by
      rw [pow_add]
      field_simp
      ring
    have b1 := le _ (pow_nonneg Gp.le (a.weight + b.weight))
    have m := hclose_mul hp (k := (a.leaves : ℝ) / b.leaves) (P := b.leaves * P) (G := G ^ a.weight / w)
      (δ := G ^ b.weight / w - 1) (by positivity) lb (by rw [e1]; exact h2) k2 (by rw [← hw, e3]; linarith) (by rw [e2]; exact hov)
    rw [e2, ← hw, e3] at m
    exact m
  | inverse a ih =>
    rw [HomProgram.weight] at hn ⊢
    have h2 := ih he hov ((up (by omega)).trans hn)
    have e3 : (G ^ a.weight / w) ^ 2 * w = G ^ (2 * a.weight) / w := by
      rw [mul_comm 2, pow_mul]
      field_simp
    have b0 := le _ (pow_nonneg Gp.le a.weight)
    have b1 := (up (by omega : a.weight ≤ 2 * a.weight)).trans hn
    have b2 : (G ^ a.weight / w) ^ 2 * (1 + 6 * f.u) ≤ (G ^ a.weight / w) ^ 2 * w :=
      mul_le_mul_of_nonneg_left w0 (by positivity)
    have m := C137_inverse hp h2 (lP a) (by linarith) hov
    rw [add_sub_cancel] at m
    exact m.mono (by linarith)

/-- The same program on homogeneous matrices. -/
noncomputable def DualProgram.matrix [Libm f] : DualProgram f → HomProgram f
  | leaf x y => .leaf x.to_homogeneous y.to_homogeneous.toM
  | mul a b => .mul a.matrix b.matrix
  | conj a => .inverse a.matrix
  | neg a => a.matrix
  | inverse a => .inverse a.matrix
  | normalize a => a.matrix

private theorem translation_le {x : DQuat (Flt f)} {y : DQuat ℝ} {P δ : ℝ} (h : x.Close y P δ) :
    y.get_translation 0 ^ 2 + y.get_translation 1 ^ 2 + y.get_translation 2 ^ 2 ≤ (2 * P) ^ 2 := by
  obtain ⟨z, hz⟩ : ∃ z, z = 2 * y.q_dual.toH * star y.q_real.toH := ⟨_, rfl⟩
  have t := DQuat.translation_toH y
  rw [← hz] at t
  have n : ‖z‖ ≤ 2 * P := by
    have e2 : (2 : ℍ[ℝ]) = ((2 : ℝ) : ℍ[ℝ]) := rfl
    rw [hz, norm_mul, norm_mul, Quaternion.norm_star, Quat.unit_norm h.motion.norm, mul_one, e2, Quaternion.norm_coe]
    have := h.size
    norm_num
    exact this
  have e := Quaternion.normSq_eq_norm_mul_self z
  rw [Quaternion.normSq_def'] at e
  have t0 : y.get_translation 0 = z.imI := congrArg QuaternionAlgebra.imI t
  have t1 : y.get_translation 1 = z.imJ := congrArg QuaternionAlgebra.imJ t
  have t2 : y.get_translation 2 = z.imK := congrArg QuaternionAlgebra.imK t
  rw [t0, t1, t2]
  have := mul_le_mul n n (norm_nonneg _) (by have := h.norms.2.2.2; linarith)
  have := sq_nonneg z.re
  linarith

/-- Float matrix of a float dual quaternion near a motion. -/
private theorem hom_close [Libm f] (hp : 8 ≤ f.p) {x : DQuat (Flt f)} {y : DQuat ℝ} {P δ : ℝ} (h : x.Close y P δ) (hP : 1 / 8 ≤ P)
    (hδ : δ ≤ 22 / 100) (hov : 16 * (2 + 2 * P) ^ 2 ≤ (2 : ℝ) ^ f.emax) :
    x.to_homogeneous.HClose y.to_homogeneous.toM (2 * P) (15 * δ + 51 * f.u) := by
  have hu0 := f.u_pos
  have hδ0 := h.norms.2.2.1
  have key := C136_to_homogeneous hp h hP hδ hov
  refine .of_rigid (by linarith) (by positivity) h.motion.rigid ?_ ?_ (fun i j => ⟨(key i j).1.1, (key i j).1.2.trans (by linarith)⟩)
    (fun i => ⟨(key i 0).2.1.1, (key i 0).2.1.2.trans ?_⟩)
  · have t := translation_le h
    change y.get_translation 0 ^ 2 + y.get_translation 1 ^ 2 + y.get_translation 2 ^ 2 ≤ _
    exact t
  · intro j
    induction j using Fin.lastCases with
    | last =>
      change (x.to_homogeneous 3 3).IsFin ∧ (x.to_homogeneous 3 3).toReal = 1
      rw [(key 0 0).2.2.2]
      exact ⟨isFin_one, toReal_one⟩
    | cast j =>
      rw [(key 0 j).2.2.1, if_neg (by fin_cases j <;> decide)]
      exact ⟨isFin_zero, toReal_zero⟩
  · have : 0 ≤ P * (5 * δ + 17 * f.u) := by positivity
    linarith

private theorem matrix_facts [Libm f] (e : DualProgram f) : e.matrix.leaves = e.leaves ∧ e.matrix.exact = e.hom := by
  induction e with
  | leaf x y => exact ⟨rfl, rfl⟩
  | mul a b iha ihb =>
    refine ⟨congrArg₂ (· + ·) iha.1 ihb.1, ?_⟩
    change a.matrix.exact * b.matrix.exact = a.hom * b.hom
    rw [iha.2, ihb.2]
  | conj a ih => exact ⟨ih.1, congrArg (·⁻¹) ih.2⟩
  | neg a ih => exact ih
  | inverse a ih => exact ⟨ih.1, congrArg (·⁻¹) ih.2⟩
  | normalize a ih => exact ih

private theorem matrix_valid [Libm f] (hp : 8 ≤ f.p) {P δ : ℝ} (hP : 1 / 8 ≤ P) (hδ : δ ≤ 22 / 100)
    (hov : 16 * (2 + 2 * P) ^ 2 ≤ (2 : ℝ) ^ f.emax) (e : DualProgram f) (he : e.Valid P δ) :
    e.matrix.Valid (2 * P) (15 * δ + 51 * f.u) := by
  induction e with
  | leaf x y => exact hom_close hp he hP hδ hov
  | mul a b iha ihb => exact ⟨iha he.1, ihb he.2⟩
  | conj a ih => exact ih he
  | neg a ih => exact ih he
  | inverse a ih => exact ih he
  | normalize a ih => exact ih he

/-- The two representations agree: a program run on float dual quaternions and converted at the end, and the same program run on the
float matrices of the leaves, give nearly the same homogeneous matrix. -/
theorem C168_agree [Libm f] (hp : 8 ≤ f.p) {P δ : ℝ} (hδ : 0 ≤ δ) (hδ' : δ ≤ 22 / 100) (hP : 1 / 8 ≤ P) (e : DualProgram f)
    (he : e.Valid P δ) {D E : ℝ} (hD : D = ((1 + δ) * (1 + 11 * f.u)) ^ e.weight - 1) (hD' : D ≤ 22 / 100)
    (hE : E = ((1 + (15 * δ + 51 * f.u)) * (1 + 13 * f.u)) ^ e.matrix.weight - 1) (hE' : E ≤ 1)
    (hov : 16 * (2 + 2 * (e.leaves * (2 * P))) ^ 2 ≤ (2 : ℝ) ^ f.emax) :
    ∃ x, e.run = .ok x ∧ ∀ i j : Fin 3,
      |(x.to_homogeneous i.castSucc j.castSucc).toReal - (e.matrix.run i.castSucc j.castSucc).toReal| ≤ 5 * D + 17 * f.u + E ∧
      |(x.to_homogeneous i.castSucc 3).toReal - (e.matrix.run i.castSucc 3).toReal| ≤ e.leaves * P * (5 * D + 17 * f.u + 2 * E) ∧
      (x.to_homogeneous 3 j.castSucc).toReal = (e.matrix.run 3 j.castSucc).toReal ∧
      (x.to_homogeneous 3 3).toReal = (e.matrix.run 3 3).toReal := by
  have hu0 := f.u_pos
  have P0 : 0 ≤ P := by linarith
  have l1 : (1 : ℝ) ≤ e.leaves := by exact_mod_cast e.leaves_pos
  have lP : P ≤ e.leaves * P := le_mul_of_one_le_left P0 l1
  obtain ⟨m1, m2⟩ := matrix_facts e
  obtain ⟨x, h1, h2⟩ := C166_matrix hp hδ hP e he (by linarith) (le_trans (by gcongr; linarith) hov)
  have h3 := C168_programs hp (by positivity) (by linarith) e.matrix
    (matrix_valid hp hP hδ' (le_trans (by gcongr; linarith) hov) e he) (by linarith) (by rw [m1]; exact hov)
  rw [m1, m2, ← hE] at h3
  rw [← hD] at h2
  refine ⟨x, h1, fun i j => ?_⟩
  obtain ⟨⟨-, a1⟩, ⟨-, a2⟩, a3, a4⟩ := h2 i j
  refine ⟨?_, ?_, ?_, ?_⟩
  · have k := (frob_entry_le (rot3 e.matrix.run.reM - rot3 e.hom) i j).trans h3.rot
    change |(e.matrix.run i.castSucc j.castSucc).toReal - e.hom i.castSucc j.castSucc| ≤ _ at k
    rw [abs_sub_comm] at k
    exact (abs_sub_le _ _ _).trans (add_le_add a1 k)
  · have k := (frob_entry_le (tr3 e.matrix.run.reM - tr3 e.hom) i 0).trans h3.trans
    change |(e.matrix.run i.castSucc 3).toReal - e.hom i.castSucc 3| ≤ _ at k
    rw [abs_sub_comm] at k
    exact (abs_sub_le _ _ _).trans ((add_le_add a2 k).trans (by linarith))
  · rw [a3, h3.last, if_neg (by fin_cases j <;> decide), toReal_zero]
  · rw [a4, h3.last, if_pos rfl, toReal_one]

private theorem u32 : Fmt.f32.u = 1 / 2 ^ 24 := by
  change (2 : ℝ) ^ (-24 : ℤ) = _
  norm_num

/-- The hypotheses hold: a turn by 120 degrees about a line, inverted, normalized and multiplied by the turn, in single precision.
The two representations differ by at most 1/1000. -/
example [RealParams] [Libm .f32] : ∃ y : DQuat ℝ, let t : DualProgram .f32 := .leaf (turn120 .f32) y
    let e : DualProgram .f32 := .mul (.normalize (.inverse t)) (.neg (.conj t))
    ∃ x, e.run = .ok x ∧ ∀ i j : Fin 3,
      |(x.to_homogeneous i.castSucc j.castSucc).toReal - (e.matrix.run i.castSucc j.castSucc).toReal| ≤ 1 / 1000 := by
  obtain ⟨l, hl⟩ : ∃ l : Vec 3 ℝ, l = ⟨fun _ => √3 / 3⟩ := ⟨_, rfl⟩
  obtain ⟨m, hm⟩ : ∃ m : Vec 3 ℝ, m = ⟨![2 * √3 / 3, -(2 * √3 / 3), 0]⟩ := ⟨_, rfl⟩
  obtain ⟨-, -, -, b⟩ := turn120_close Fmt.f32 hl hm
  obtain ⟨y, hy⟩ : ∃ y, y = DQuat.new_from_screw_parameters l m (2 * Real.pi / 3) 0 := ⟨_, rfl⟩
  rw [← hy] at b
  refine ⟨y, ?_⟩
  intro t e
  have d : ((1 + 0) * (1 + 11 * Fmt.f32.u)) ^ e.weight - 1 ≤ 1 / 10000 := by
    rw [u32]
    change ((1 + 0) * (1 + 11 * (1 / 2 ^ 24 : ℝ))) ^ 21 - 1 ≤ _
    norm_num
  have d2 : ((1 + (15 * 0 + 51 * Fmt.f32.u)) * (1 + 13 * Fmt.f32.u)) ^ e.matrix.weight - 1 ≤ 1 / 10000 := by
    rw [u32]
    change ((1 + (15 * 0 + 51 * (1 / 2 ^ 24 : ℝ))) * (1 + 13 * (1 / 2 ^ 24 : ℝ))) ^ 4 - 1 ≤ _
    norm_num
  obtain ⟨x, h1, h2⟩ := C168_agree (by decide) (P := 2) (δ := 0) le_rfl (by norm_num) (by norm_num) e ⟨b, b⟩ rfl (d.trans (by norm_num)) rfl
    (d2.trans (by norm_num)) (by
      change 16 * (2 + 2 * (((2 : ℕ) : ℝ) * (2 * 2))) ^ 2 ≤ (2 : ℝ) ^ (127 : ℤ)
      norm_num)
  have hu := u32
  refine ⟨x, h1, fun i j => (h2 i j).1.trans ?_⟩
  norm_num at hu
  linarith

/-- The hypotheses of `C168_programs` hold: the inverse of a quarter turn with a translation, times a product, in single precision. -/
example : (M44.mul (homogeneous_inverse (M44.mul hT hT)) (hT : Mat 4 (Flt .f32))).HClose (((hT : Mat 4 ℝ).toM * (hT : Mat 4 ℝ).toM)⁻¹ * (hT : Mat 4 ℝ).toM)
    ((3 : ℕ) * 2) (((1 + 0) * (1 + 13 * Fmt.f32.u)) ^ 5 - 1) := by
  let t : HomProgram .f32 := .leaf hT (hT : Mat 4 ℝ).toM
  refine C168_programs (by decide) le_rfl (by norm_num) (.mul (.inverse (.mul t t)) t) ⟨⟨hT_close, hT_close⟩, hT_close⟩ ?_ ?_
  · rw [u32]
    change ((1 + 0) * (1 + 13 * (1 / 2 ^ 24 : ℝ))) ^ 5 ≤ _
    norm_num
  · change 16 * (2 + 2 * (((3 : ℕ) : ℝ) * 2)) ^ 2 ≤ (2 : ℝ) ^ (127 : ℤ)
    norm_num

end StaticMath
