import Verif.Props.IeeeChain
import Verif.Props.IeeeFromRot
import Verif.Props.IeeeMotion
import Verif.Props.IeeeQuatPrograms

/-!
# C169: every program of rotation matrices in floating point
-/

namespace StaticMath
open Flt Quaternion

variable {f : Fmt}

/-- Programs that combine rotation matrices. A leaf is a float matrix together with the orthogonal matrix it stands for. -/
inductive RotProgram (f : Fmt) : Type
  | leaf (A : Mat 3 (Flt f)) (M : Matrix (Fin 3) (Fin 3) ℝ)
  | mul (a b : RotProgram f)
  | transpose (a : RotProgram f)
  | inverse (a : RotProgram f)

namespace RotProgram

/-- The program run on floats. -/
noncomputable def run : RotProgram f → Mat 3 (Flt f)
  | leaf A _ => A
  | mul a b => M33.mul a.run b.run
  | transpose a => M33.transpose a.run
  | inverse a => rotation_inverse a.run

/-- The orthogonal matrix it stands for. -/
noncomputable def exact : RotProgram f → Matrix (Fin 3) (Fin 3) ℝ
  | leaf _ M => M
  | mul a b => a.exact * b.exact
  | transpose a => (a.exact)⁻¹
  | inverse a => (a.exact)⁻¹

/-- Number of leaves. -/
def leaves : RotProgram f → ℕ
  | leaf _ _ => 1
  | mul a b => a.leaves + b.leaves
  | transpose a => a.leaves
  | inverse a => a.leaves

/-- The leaves are finite and within `δ` of orthogonal matrices, in the Frobenius norm. -/
def Valid (δ : ℝ) : RotProgram f → Prop
  | leaf A M => (∀ i j, (A i j).IsFin) ∧ M ∈ Matrix.orthogonalGroup (Fin 3) ℝ ∧ frob (A.reM - M) ≤ δ
  | mul a b => a.Valid δ ∧ b.Valid δ
  | transpose a => a.Valid δ
  | inverse a => a.Valid δ

end RotProgram

private theorem orth_entry {U : Matrix (Fin 3) (Fin 3) ℝ} (hU : U ∈ Matrix.orthogonalGroup (Fin 3) ℝ) (i j : Fin 3) : |U i j| ≤ 1 := by
  have h := congrFun (congrFun ((Matrix.mem_orthogonalGroup_iff (Fin 3) ℝ).1 hU) i) i
  rw [Matrix.mul_apply, Matrix.one_apply_eq] at h
  simp only [Matrix.transpose_apply] at h
  have := Finset.single_le_sum (f := fun j => U i j * U i j) (fun _ _ => mul_self_nonneg _) (Finset.mem_univ j)
  exact abs_le_one_iff_mul_self_le_one.2 (this.trans h.le)

private theorem mul_step (hp : 8 ≤ f.p) {A B : Mat 3 (Flt f)} {M N : Matrix (Fin 3) (Fin 3) ℝ} {g k : ℝ} (hA : ∀ i j, (A i j).IsFin)
    (hB : ∀ i j, (B i j).IsFin) (hM : M ∈ Matrix.orthogonalGroup (Fin 3) ℝ) (hN : N ∈ Matrix.orthogonalGroup (Fin 3) ℝ)
    (h1 : frob (A.reM - M) ≤ g - 1) (h2 : frob (B.reM - N) ≤ k - 1) (hg : g ≤ 2) (hk : k ≤ 2) :
    (∀ i j, (M33.mul A B i j).IsFin) ∧ frob ((M33.mul A B).reM - M * N) ≤ g * k * (1 + 10 * f.u) - 1 := by
  have hu := Fmt.u_le_of_p hp
  have hu0 := f.u_pos
  have hη := Fmt.eta_small hp
  have hη0 := f.eta_pos
  have hk0 : 1 ≤ (1 + f.u) ^ 3 := one_le_pow₀ (by linarith)
  have hk3 : (1 + f.u) ^ 3 - 1 ≤ 304 / 100 * f.u := by
    have q1 := mul_le_mul_of_nonneg_right hu hu0.le
    have q2 := mul_le_mul_of_nonneg_right q1 hu0.le
    have e : (1 + f.u) ^ 3 - 1 = 3 * f.u + 3 * (f.u * f.u) + f.u * f.u * f.u := by ring
    linarith
  have g1 : 1 ≤ g := by have := frob_nonneg (A.reM - M); linarith
  have k1 : 1 ≤ k := by have := frob_nonneg (B.reM - N); linarith
  have hsn : 1 ≤ √((3 : ℕ) : ℝ) := Real.one_le_sqrt.2 (by norm_num)
  have hss : √((3 : ℕ) : ℝ) * √((3 : ℕ) : ℝ) = (3 : ℕ) := Real.mul_self_sqrt (by norm_num)
  have hAn : frob A.reM ≤ √((3 : ℕ) : ℝ) * g := by
    have := frob_sub_le A.reM M
    rw [frob_of_orth hM] at this
    nlinarith
  have hBn : frob B.reM ≤ √((3 : ℕ) : ℝ) * k := by
    have := frob_sub_le B.reM N
    rw [frob_of_orth hN] at this
    nlinarith
  have small {C : Mat 3 (Flt f)} {L : Matrix (Fin 3) (Fin 3) ℝ} {c : ℝ} (hL : L ∈ Matrix.orthogonalGroup (Fin 3) ℝ)
      (h : frob (C.reM - L) ≤ c - 1) (hc : c ≤ 2) (i j : Fin 3) : |(C i j).toReal| ≤ 2 := by
    have h1 := frob_entry_le (C.reM - L) i j
    have h2 := orth_entry hL i j
    have h3 := abs_sub_abs_le_abs_sub (C.reM i j) (L i j)
    change |C.reM i j| ≤ 2
    rw [Matrix.sub_apply] at h1
    linarith
  have hfin : ∀ i j, (M33.mul A B i j).IsFin := by
    refine ((C103_no_overflow_M33 A B ⟨fun _ => 0⟩ ⟨fun _ => 0⟩ 2 (by norm_num) (fun i j => ⟨hA i j, small hM h1 hg i j⟩)
      (fun i j => ⟨hB i j, small hN h2 hk i j⟩) (fun _ => ?_) fun _ => ?_).2 ?_).1
    · exact ⟨isFin_zero, by rw [toReal_zero]; norm_num⟩
    · exact ⟨isFin_zero, by rw [toReal_zero]; norm_num⟩
    · have h1 : (2 : ℝ) ^ (9 : ℤ) ≤ (2 : ℝ) ^ (f.emax + 1) :=
        zpow_le_zpow_right₀ (by norm_num) (by have := f.hmax; omega)
      have h2 : (2 : ℝ) ^ (9 : ℤ) = 512 := by norm_num
      linarith
  refine ⟨hfin, ?_⟩
  have hE := frob_round (M33.mul A B).reM A.reM B.reM (γ := (1 + f.u) ^ 3 - 1) (ε := (1 + f.u) ^ 3 * (3 * f.eta)) (by linarith)
    (by positivity) (fun i j => (C93_mul_M33 A B i j (hfin i j)).1)
  have gk : 1 ≤ g * k := by nlinarith
  have hNN : frob A.reM * frob B.reM ≤ 3 * (g * k) := by
    refine (mul_le_mul hAn hBn (frob_nonneg _) (by positivity)).trans (le_of_eq ?_)
    rw [mul_mul_mul_comm, hss]
    norm_num
  have n2 : frob ((M33.mul A B).reM - A.reM * B.reM) ≤ 10 * f.u * (g * k) := by
    refine hE.trans ?_
    have a1 : ((1 + f.u) ^ 3 - 1) * (frob A.reM * frob B.reM) ≤ 304 / 100 * f.u * (3 * (g * k)) :=
      mul_le_mul hk3 hNN (mul_nonneg (frob_nonneg _) (frob_nonneg _)) (by positivity)
    have a2 : (1 + f.u) ^ 3 * (3 * f.eta) ≤ 2 * (3 * (f.u / 256)) :=
      mul_le_mul (by linarith) (by linarith) (by positivity) (by norm_num)
    have a4 := mul_le_mul_of_nonneg_left gk hu0.le
    push_cast
    linarith
  have hdec : (M33.mul A B).reM - M * N = ((M33.mul A B).reM - A.reM * B.reM) +
      (((A.reM - M) * N + (A.reM - M) * (B.reM - N)) + M * (B.reM - N)) := by noncomm_ring
  have n1 : frob (((A.reM - M) * N + (A.reM - M) * (B.reM - N)) + M * (B.reM - N)) ≤ ((g - 1) + (g - 1) * (k - 1)) + (k - 1) := by
    refine (frob_add_le _ _).trans (add_le_add ((frob_add_le _ _).trans ?_) ((frob_orth_mul hM _).le.trans h2))
    rw [frob_mul_orth hN]
    exact add_le_add h1 ((frob_mul_le _ _).trans (mul_le_mul h1 h2 (frob_nonneg _) (by linarith)))
  rw [hdec]
  refine (frob_add_le _ _).trans ?_
  linarith

private theorem inv_orth {M : Matrix (Fin 3) (Fin 3) ℝ} (hM : M ∈ Matrix.orthogonalGroup (Fin 3) ℝ) : M⁻¹ = M.transpose :=
  Matrix.inv_eq_right_inv ((Matrix.mem_orthogonalGroup_iff (Fin 3) ℝ).1 hM)

private theorem transpose_step {A : Mat 3 (Flt f)} {M : Matrix (Fin 3) (Fin 3) ℝ} {g : ℝ} (hA : ∀ i j, (A i j).IsFin)
    (hM : M ∈ Matrix.orthogonalGroup (Fin 3) ℝ) (h : frob (A.reM - M) ≤ g) :
    (∀ i j, (M33.transpose A i j).IsFin) ∧ M⁻¹ ∈ Matrix.orthogonalGroup (Fin 3) ℝ ∧ frob ((M33.transpose A).reM - M⁻¹) ≤ g := by
  have e : (M33.transpose A).reM = A.reM.transpose := by
    ext i j
    fin_cases i <;> fin_cases j <;> rfl
  refine ⟨fun i j => ?_, ?_, ?_⟩
  · fin_cases i <;> fin_cases j <;> exact hA _ _
  · rw [inv_orth hM, Matrix.mem_orthogonalGroup_iff]
    simpa using (Matrix.mem_orthogonalGroup_iff' (Fin 3) ℝ).1 hM
  · rw [inv_orth hM, e, ← Matrix.transpose_sub, frob_transpose]
    exact h

/-- **C169.** Every program of products, transposes and `rotation_inverse` of float matrices that are within `δ` of orthogonal
matrices runs without overflow, and its result is within `((1 + δ) (1 + 10 u)) ^ leaves - 1` of the exact one, an orthogonal matrix,
as long as this bound is at most 1. -/
theorem C169_programs (hp : 8 ≤ f.p) {δ : ℝ} (hδ : 0 ≤ δ) (e : RotProgram f) (he : e.Valid δ)
    (hn : ((1 + δ) * (1 + 10 * f.u)) ^ e.leaves ≤ 2) :
    (∀ i j, (e.run i j).IsFin) ∧ e.exact ∈ Matrix.orthogonalGroup (Fin 3) ℝ ∧
      frob (e.run.reM - e.exact) ≤ ((1 + δ) * (1 + 10 * f.u)) ^ e.leaves - 1 := by
  have hu0 := f.u_pos
  obtain ⟨w, hw⟩ : ∃ w, w = 1 + 10 * f.u := ⟨_, rfl⟩
  obtain ⟨G, hG⟩ : ∃ G, G = (1 + δ) * w := ⟨_, rfl⟩
  rw [← hw, ← hG] at hn ⊢
  have w1 : 1 ≤ w := by linarith
  have wp : 0 < w := by linarith
  have G1 : 1 ≤ G := by rw [hG]; nlinarith
  have up {m n : ℕ} (h : m ≤ n) : G ^ m ≤ G ^ n := pow_le_pow_right₀ G1 h
  have le (x : ℝ) (h : 0 ≤ x) : x / w ≤ x := div_le_self h w1
  suffices h : (∀ i j, (e.run i j).IsFin) ∧ e.exact ∈ Matrix.orthogonalGroup (Fin 3) ℝ ∧ frob (e.run.reM - e.exact) ≤ G ^ e.leaves / w - 1 by
    have := le (G ^ e.leaves) (by positivity)
    exact ⟨h.1, h.2.1, by linarith [h.2.2]⟩
  induction e with
  | leaf A M =>
    refine ⟨he.1, he.2.1, ?_⟩
    change frob (A.reM - M) ≤ G ^ 1 / w - 1
    rw [pow_one, hG, mul_div_assoc, div_self wp.ne']
    linarith [he.2.2]
  | mul a b iha ihb =>
    rw [RotProgram.leaves] at hn ⊢
    obtain ⟨h2, h3, h4⟩ := iha he.1 ((up (Nat.le_add_right _ _)).trans hn)
    obtain ⟨k2, k3, k4⟩ := ihb he.2 ((up (Nat.le_add_left _ _)).trans hn)
    have b1 := le _ (pow_nonneg (by linarith : 0 ≤ G) a.leaves)
    have b2 := le _ (pow_nonneg (by linarith : 0 ≤ G) b.leaves)
    have b3 := (up (Nat.le_add_right a.leaves b.leaves)).trans hn
    have b4 := (up (Nat.le_add_left b.leaves a.leaves)).trans hn
    obtain ⟨m1, m2⟩ := mul_step hp h2 k2 h3 k3 h4 k4 (by linarith) (by linarith)
    refine ⟨m1, mul_mem h3 k3, ?_⟩
    rw [← hw] at m2
    refine m2.trans (le_of_eq ?_)
    rw [pow_add]
    field_simp
  | transpose a ih =>
    obtain ⟨h2, h3, h4⟩ := ih he hn
    exact transpose_step h2 h3 h4
  | inverse a ih =>
    obtain ⟨h2, h3, h4⟩ := ih he hn
    exact transpose_step h2 h3 h4

/-- The quaternion of the model with the given parts. -/
private def ofH (z : ℍ[ℝ]) : Quat ℝ := ⟨z.re, ⟨![z.imI, z.imJ, z.imK]⟩, false⟩

private theorem ofH_toH (z : ℍ[ℝ]) : (ofH z).toH = z := rfl

/-- The same program on rotation matrices. -/
noncomputable def QuatProgram.matrix : QuatProgram f → RotProgram f
  | leaf q z => .leaf q.to_rotation (Quat.to_rotation ⟨z.re, ⟨![z.imI, z.imJ, z.imK]⟩, false⟩).toM
  | mul a b => .mul a.matrix b.matrix
  | div a b => .mul a.matrix (.inverse b.matrix)
  | conj a => .transpose a.matrix
  | neg a => a.matrix
  | inverse a => .inverse a.matrix
  | normalize a => a.matrix

private theorem unit_ofH {z : ℍ[ℝ]} (hz : ‖z‖ = 1) : normSq (ofH z).toH = 1 := by
  rw [ofH_toH, normSq_eq_norm_mul_self, hz, one_mul]

private theorem rot_mul (z w : ℍ[ℝ]) (hw : ‖w‖ = 1) :
    (ofH (z * w)).to_rotation.toM = (ofH z).to_rotation.toM * (ofH w).to_rotation.toM := by
  have h := (C48_to_rotation (ofH z) (ofH w) (unit_ofH hw)).2.2.1
  rw [← M33.toM_mul, ← h]
  exact congrArg _ (Quat.to_rotation_congr (by rw [Quat.toH_mul]; rfl))

private theorem rot_inv (z : ℍ[ℝ]) (hz : ‖z‖ = 1) : (ofH z⁻¹).to_rotation.toM = ((ofH z).to_rotation.toM)⁻¹ := by
  obtain ⟨h1, -, -, h2⟩ := C48_to_rotation (ofH z) (ofH z) (unit_ofH hz)
  have e : (ofH z⁻¹).toH = (ofH z).conj.toH := by
    have e : z⁻¹ = (normSq z)⁻¹ • star z := rfl
    rw [Quat.toH_conj, ofH_toH, ofH_toH, e, normSq_eq_norm_mul_self, hz, one_mul, inv_one, one_smul]
  rw [Quat.to_rotation_congr e, h2, M33.toM_transpose, Matrix.inv_eq_right_inv h1]

private theorem rot_neg (z : ℍ[ℝ]) (hz : ‖z‖ = 1) : (ofH (-z)).to_rotation.toM = (ofH z).to_rotation.toM :=
  congrArg _ ((C48_double_cover _ _ (unit_ofH (by rw [norm_neg, hz])) (unit_ofH hz)).2 (Or.inr rfl))

/-- A float quaternion near a unit quaternion gives a float matrix near its rotation. -/
private theorem rot_close (hp : 8 ≤ f.p) {q : Quat (Flt f)} {z : ℍ[ℝ]} {δ : ℝ} (hδ : δ ≤ 22 / 100) (hq : ∀ i, (q.comp i).IsFin)
    (hz : ‖z‖ = 1) (h : ‖q.reH - z‖ ≤ δ) (i j : Fin 3) :
    (q.to_rotation i j).IsFin ∧ |(q.to_rotation i j).toReal - (ofH z).to_rotation i j| ≤ 5 * δ + 17 * f.u :=
  C126_to_rotation hp q (ofH z) δ hδ (unit_ofH hz) (fun i => ⟨hq i, (Quat.comp_sub_le q (ofH z) i).trans h⟩) i j

private theorem matrix_facts (e : QuatProgram f) {δ : ℝ} (he : e.Valid δ) :
    ‖e.exact‖ = 1 ∧ e.matrix.exact = (ofH e.exact).to_rotation.toM := by
  induction e with
  | leaf q z => exact ⟨he.2.1, rfl⟩
  | mul a b iha ihb =>
    obtain ⟨a1, a2⟩ := iha he.1
    obtain ⟨b1, b2⟩ := ihb he.2
    refine ⟨by rw [QuatProgram.exact, norm_mul, a1, b1, one_mul], ?_⟩
    rw [QuatProgram.matrix, RotProgram.exact, QuatProgram.exact, rot_mul _ _ b1, a2, b2]
  | div a b iha ihb =>
    obtain ⟨a1, a2⟩ := iha he.1
    obtain ⟨b1, b2⟩ := ihb he.2
    have b3 : ‖(b.exact)⁻¹‖ = 1 := by rw [norm_inv, b1, inv_one]
    refine ⟨by rw [QuatProgram.exact, norm_mul, a1, b3, one_mul], ?_⟩
    rw [QuatProgram.matrix, RotProgram.exact, RotProgram.exact, QuatProgram.exact, rot_mul _ _ b3, rot_inv _ b1, a2, b2]
  | conj a ih =>
    obtain ⟨a1, a2⟩ := ih he
    refine ⟨by rw [QuatProgram.exact, norm_inv, a1, inv_one], ?_⟩
    rw [QuatProgram.matrix, RotProgram.exact, QuatProgram.exact, rot_inv _ a1, a2]
  | neg a ih =>
    obtain ⟨a1, a2⟩ := ih he
    refine ⟨by rw [QuatProgram.exact, norm_neg, a1], ?_⟩
    rw [QuatProgram.matrix, QuatProgram.exact, rot_neg _ a1, a2]
  | inverse a ih =>
    obtain ⟨a1, a2⟩ := ih he
    refine ⟨by rw [QuatProgram.exact, norm_inv, a1, inv_one], ?_⟩
    rw [QuatProgram.matrix, RotProgram.exact, QuatProgram.exact, rot_inv _ a1, a2]
  | normalize a ih => exact ih he

private theorem matrix_valid (hp : 8 ≤ f.p) {δ : ℝ} (hδ0 : 0 ≤ δ) (hδ : δ ≤ 22 / 100) (e : QuatProgram f) (he : e.Valid δ) :
    e.matrix.Valid (15 * δ + 51 * f.u) := by
  have hu0 := f.u_pos
  induction e with
  | leaf q z =>
    have k := rot_close hp hδ he.1 he.2.1 he.2.2
    refine ⟨fun i j => (k i j).1, (Matrix.mem_orthogonalGroup_iff (Fin 3) ℝ).2 (C48_to_rotation (ofH z) (ofH z) (unit_ofH he.2.1)).1, ?_⟩
    refine (frob_le_of_le (N := Matrix.of fun _ _ => 5 * δ + 17 * f.u) fun i j => (k i j).2).trans ?_
    rw [frob_const (by positivity)]
    push_cast
    linarith
  | mul a b iha ihb => exact ⟨iha he.1, ihb he.2⟩
  | div a b iha ihb => exact ⟨iha he.1, ihb he.2⟩
  | conj a ih => exact ih he
  | neg a ih => exact ih he
  | inverse a ih => exact ih he
  | normalize a ih => exact ih he

/-- The two representations agree: a program run on float quaternions and converted at the end, and the same program run on the float
rotation matrices of the leaves, give nearly the same matrix. -/
theorem C169_agree [Libm f] (hp : 8 ≤ f.p) {δ : ℝ} (hδ : 0 ≤ δ) (hδ' : δ ≤ 22 / 100) (e : QuatProgram f) (he : e.Valid δ) {D E : ℝ}
    (hD : D = ((1 + δ) * (1 + 9 * f.u)) ^ e.weight - 1) (hD' : D ≤ 22 / 100)
    (hE : E = ((1 + (15 * δ + 51 * f.u)) * (1 + 10 * f.u)) ^ e.matrix.leaves - 1) (hE' : E ≤ 1) :
    ∃ q, e.run = .ok q ∧ ∀ i j, (q.to_rotation i j).IsFin ∧ (e.matrix.run i j).IsFin ∧
      |(q.to_rotation i j).toReal - (e.matrix.run i j).toReal| ≤ 5 * D + 17 * f.u + E := by
  have hu0 := f.u_pos
  obtain ⟨m1, m2⟩ := matrix_facts e he
  obtain ⟨q, h1, h2, h3, h4⟩ := C165_programs hp hδ e he (by linarith)
  obtain ⟨k1, -, k3⟩ := C169_programs hp (by positivity) e.matrix (matrix_valid hp hδ hδ' e he) (by linarith)
  rw [← hE] at k3
  rw [← hD] at h4
  refine ⟨q, h1, fun i j => ?_⟩
  obtain ⟨a1, a2⟩ := rot_close hp hD' h2 h3 h4 i j
  refine ⟨a1, k1 i j, ?_⟩
  have k := (frob_entry_le (e.matrix.run.reM - e.matrix.exact) i j).trans k3
  rw [m2] at k
  change |(e.matrix.run i j).toReal - (ofH e.exact).to_rotation i j| ≤ _ at k
  rw [abs_sub_comm] at k
  exact (abs_sub_le _ _ _).trans (add_le_add a2 k)

private theorem u32 : Fmt.f32.u = 1 / 2 ^ 24 := by
  change (2 : ℝ) ^ (-24 : ℤ) = _
  norm_num

/-- The hypotheses hold: the program `(i * j / k).normalize().inverse()` in single precision, on quaternions and on matrices. The two
results differ by at most 1/1000. -/
example [Libm .f32] : let i : Quat (Flt .f32) := ⟨0, ⟨![1, 0, 0]⟩, true⟩
    let j : Quat (Flt .f32) := ⟨0, ⟨![0, 1, 0]⟩, false⟩
    let k : Quat (Flt .f32) := ⟨0, ⟨![0, 0, 1]⟩, false⟩
    let e : QuatProgram .f32 := .inverse (.normalize (.div (.mul (.leaf i ⟨0, 1, 0, 0⟩) (.leaf j ⟨0, 0, 1, 0⟩)) (.leaf k ⟨0, 0, 0, 1⟩)))
    ∃ q, e.run = .ok q ∧ ∀ i j, |(q.to_rotation i j).toReal - (e.matrix.run i j).toReal| ≤ 1 / 1000 := by
  intro i j k e
  have n (q : ℍ[ℝ]) (h : q.re ^ 2 + q.imI ^ 2 + q.imJ ^ 2 + q.imK ^ 2 = 1) : ‖q‖ = 1 := by
    have h1 := Quaternion.normSq_eq_norm_mul_self q
    rw [Quaternion.normSq_def', h] at h1
    have h2 := norm_nonneg q
    nlinarith
  have o : (1 : Flt .f32).toReal = 1 := toReal_one
  have z : (0 : Flt .f32).toReal = 0 := toReal_zero
  have four {P : Fin 4 → Prop} (h0 : P 0) (h1 : P 1) (h2 : P 2) (h3 : P 3) : ∀ i, P i := by
    intro i
    fin_cases i
    exacts [h0, h1, h2, h3]
  have hv : e.Valid 0 := by
    refine ⟨⟨⟨four isFin_zero isFin_one isFin_zero isFin_zero, n _ (by norm_num), ?_⟩,
      ⟨four isFin_zero isFin_zero isFin_one isFin_zero, n _ (by norm_num), ?_⟩⟩,
      ⟨four isFin_zero isFin_zero isFin_zero isFin_one, n _ (by norm_num), ?_⟩⟩
    · refine (norm_eq_zero.2 (sub_eq_zero.2 ?_)).le
      ext
      exacts [z, o, z, z]
    · refine (norm_eq_zero.2 (sub_eq_zero.2 ?_)).le
      ext
      exacts [z, z, o, z]
    · refine (norm_eq_zero.2 (sub_eq_zero.2 ?_)).le
      ext
      exacts [z, z, z, o]
  have d : ((1 + 0) * (1 + 9 * Fmt.f32.u)) ^ e.weight - 1 ≤ 1 / 10000 := by
    rw [u32]
    change ((1 + 0) * (1 + 9 * (1 / 2 ^ 24 : ℝ))) ^ 16 - 1 ≤ _
    norm_num
  have d2 : ((1 + (15 * 0 + 51 * Fmt.f32.u)) * (1 + 10 * Fmt.f32.u)) ^ e.matrix.leaves - 1 ≤ 1 / 10000 := by
    rw [u32]
    change ((1 + (15 * 0 + 51 * (1 / 2 ^ 24 : ℝ))) * (1 + 10 * (1 / 2 ^ 24 : ℝ))) ^ 3 - 1 ≤ _
    norm_num
  obtain ⟨q, h1, h2⟩ := C169_agree (by decide) le_rfl (by norm_num) e hv rfl (d.trans (by norm_num)) rfl (d2.trans (by norm_num))
  have hu := u32
  refine ⟨q, h1, fun i j => (h2 i j).2.2.trans ?_⟩
  norm_num at hu
  linarith

/-- The hypotheses of `C169_programs` hold: a reflected permutation of the axes, transposed, squared and inverted in single precision. -/
example : let A : Mat 3 (Flt .f32) := ⟨![![0, 0, -1], ![1, 0, 0], ![0, 1, 0]]⟩
    let M : Matrix (Fin 3) (Fin 3) ℝ := !![0, 0, -1; 1, 0, 0; 0, 1, 0]
    frob ((rotation_inverse (M33.mul (M33.transpose A) A)).reM - (M⁻¹ * M)⁻¹) ≤ 1 / 100000 := by
  intro A M
  have o : (1 : Flt .f32).toReal = 1 := toReal_one
  have z : (0 : Flt .f32).toReal = 0 := toReal_zero
  have m : (-1 : Flt .f32).toReal = -1 := by rw [toReal_neg, o]
  have hA : ∀ i j, (A i j).IsFin := by
    intro i j
    fin_cases i <;> fin_cases j <;> first | exact isFin_one | exact isFin_zero | exact isFin_neg.2 isFin_one
  have hM : M ∈ Matrix.orthogonalGroup (Fin 3) ℝ := by
    rw [Matrix.mem_orthogonalGroup_iff]
    ext i j
    fin_cases i <;> fin_cases j <;> simp [M, Matrix.mul_apply, Fin.sum_univ_three]
  have hAM : A.reM = M := by
    ext i j
    fin_cases i <;> fin_cases j <;> first | exact o | exact z | exact m
  have v : (RotProgram.leaf A M).Valid 0 := ⟨hA, hM, by rw [hAM, sub_self]; simp [frob]⟩
  have d : ((1 + 0) * (1 + 10 * Fmt.f32.u)) ^ 2 - 1 ≤ 1 / 100000 := by
    rw [u32]
    norm_num
  exact (C169_programs (by decide) le_rfl (.inverse (.mul (.transpose (.leaf A M)) (.leaf A M))) ⟨v, v⟩
    ((sub_le_iff_le_add.1 d).trans (by norm_num))).2.2.trans d

end StaticMath
