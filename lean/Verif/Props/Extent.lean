import Verif.Props.Ring
import Verif.Props.Inverse
import Verif.Props.Slices
import Verif.Props.Compare
import Verif.Props.Lu
import Verif.Props.DualAlgebra
import Verif.Props.DualScrew
import Verif.Props.Lie
import Verif.Props.Lie6
import Verif.Props.QuatAnalysis

/-!
# C148: exactly where the functions that deviate from their description are right

Several properties (C04, C10, C18, C30, C39, C58, C61, C66, C67, C70, C80, C81) are false of the code.
Here each of them gets an equivalence: the description is met if and only if the stated condition holds.
-/

namespace StaticMath
open Quaternion NormedSpace

/-- `v * M` for 3-vectors is the row-vector product exactly when `v` is in the kernel of `M - Mᵀ`. -/
theorem C148_V3_mulMat {R : Type} [CommRing R] (v : Vec 3 R) (A : Mat 3 R) :
    (∀ j, V3.mulMat v A j = ∑ i, v i * A i j) ↔ ∀ j, ∑ i, (A j i - A i j) * v i = 0 := by
  refine forall_congr' fun j => ?_
  rw [C04_vecMul_V3_is_mulVec]
  have h : M33.mulVec A v j = ∑ i, A j i * v i := congrFun (M33.val_mulVec A v) j
  rw [h, ← sub_eq_zero, ← Finset.sum_sub_distrib]
  refine Eq.congr_left (Finset.sum_congr rfl fun i _ => ?_)
  ring

/-- Symmetric matrices are fine, `(1, 0, 0)` times an elementary matrix is not. -/
example : (∀ j, ∑ i, ((⟨![![1, 2, 3], ![2, 0, 5], ![3, 5, 7]]⟩ : Mat 3 ℤ) j i
      - (⟨![![1, 2, 3], ![2, 0, 5], ![3, 5, 7]]⟩ : Mat 3 ℤ) i j) * (⟨![1, 2, 3]⟩ : Vec 3 ℤ) i = 0) ∧
    ¬ ∀ j, ∑ i, ((⟨![![0, 1, 0], ![0, 0, 0], ![0, 0, 0]]⟩ : Mat 3 ℤ) j i
      - (⟨![![0, 1, 0], ![0, 0, 0], ![0, 0, 0]]⟩ : Mat 3 ℤ) i j) * (⟨![1, 0, 0]⟩ : Vec 3 ℤ) i = 0 := by decide

section Inverse
variable [P : RealParams]

private theorem ite_none {n : ℕ} {d : ℝ} {B : Mat n ℝ} :
    (Except.ok (if |d| < P.eps then none else some B) : MayPanic (Option (Mat n ℝ))) = .ok none ↔ |d| < P.eps := by
  by_cases h : |d| < P.eps <;> simp [h]

/-- `inverse` returns `None` exactly when the determinant is below EPSILON in magnitude. -/
theorem C148_inverse_none (A2 : Mat 2 ℝ) (A3 : Mat 3 ℝ) (A4 : Mat 4 ℝ) (A5 : Mat 5 ℝ) (A6 : Mat 6 ℝ) :
    (M22.inverse A2 = .ok none ↔ |A2.toM.det| < P.eps) ∧ (M33.inverse A3 = .ok none ↔ |A3.toM.det| < P.eps) ∧
    (M44.inverse A4 = .ok none ↔ |A4.toM.det| < P.eps) ∧ (M55.inverse A5 = .ok none ↔ |A5.toM.det| < P.eps) ∧
    (M66.inverse A6 = .ok none ↔ |A6.toM.det| < P.eps) := by
  refine ⟨?_, ?_, ?_, ?_, ?_⟩
  · rw [M22.inverse_eq, ite_none, show M22.det A2 = _ from M22.det_eq A2]; rfl
  · rw [M33.inverse_eq, ite_none, show M33.det A3 = _ from M33.det_eq A3]; rfl
  · rw [M44.inverse_eq, ite_none, show M44.det A4 = _ from M44.det_eq A4]; rfl
  · rw [M55.inverse_eq, ite_none, show M55.det A5 = _ from M55.det_eq A5]; rfl
  · rw [M66.inverse_eq, ite_none, show M66.det A6 = _ from M66.det_eq A6]; rfl

end Inverse

/-- `norm_inf` is the infinity norm exactly when no component is further below zero than the largest
component is above. -/
theorem C148_norm_inf {T : Type} {n : ℕ} [AddCommGroup T] [LinearOrder T] [IsOrderedAddMonoid T] (hn : 0 < n)
    (v : Vec n T) :
    ∃ m, v.norm_inf = .ok m ∧ (((∃ i, |v i| = m) ∧ ∀ i, |v i| ≤ m) ↔ ∀ i, ∃ j, -v i ≤ v j) := by
  obtain ⟨m, h1, ⟨k, hk⟩, h2, -⟩ := C18_norm_inf_partial hn v
  refine ⟨m, h1, fun h i => ⟨k, ?_⟩, fun h => ?_⟩
  · rw [hk]; exact (neg_le_abs _).trans (h.2 i)
  · have hle : ∀ i, |v i| ≤ m := fun i => by
      obtain ⟨j, hj⟩ := h i
      exact abs_le.2 ⟨neg_le.1 (hj.trans (h2 j)), h2 i⟩
    exact ⟨⟨k, le_antisymm (hle k) (hk ▸ le_abs_self _)⟩, hle⟩

example : (∀ i, ∃ j, -(⟨![3, -2, 1]⟩ : Vec 3 ℤ) i ≤ (⟨![3, -2, 1]⟩ : Vec 3 ℤ) j) ∧
    ¬ ∀ i, ∃ j, -(⟨![3, -4, 1]⟩ : Vec 3 ℤ) i ≤ (⟨![3, -4, 1]⟩ : Vec 3 ℤ) j := by decide

section Lu
variable [RealParams]

/-- Where `lu` returns, the reported determinant is the determinant exactly for regular matrices. -/
theorem C148_lu_det :
    (∀ (A M : Mat 2 ℝ) d indx, M22.lu A = .ok (M, d, indx) → (d = A.toM.det ↔ A.toM.det ≠ 0)) ∧
    (∀ (A M : Mat 3 ℝ) d indx, M33.lu A = .ok (M, d, indx) → (d = A.toM.det ↔ A.toM.det ≠ 0)) ∧
    (∀ (A M : Mat 4 ℝ) d indx, M44.lu A = .ok (M, d, indx) → (d = A.toM.det ↔ A.toM.det ≠ 0)) ∧
    (∀ (A M : Mat 5 ℝ) d indx, M55.lu A = .ok (M, d, indx) → (d = A.toM.det ↔ A.toM.det ≠ 0)) ∧
    (∀ (A M : Mat 6 ℝ) d indx, M66.lu A = .ok (M, d, indx) → (d = A.toM.det ↔ A.toM.det ≠ 0)) := by
  refine ⟨fun A M d indx h => ⟨fun e h0 => C30_lu_M22_false.1 A M d indx h (e.trans h0), fun h0 => ?_⟩,
    fun A M d indx h => ⟨fun e h0 => C30_lu_M33_false.1 A M d indx h (e.trans h0), fun h0 => ?_⟩,
    fun A M d indx h => ⟨fun e h0 => C30_lu_M44_false.1 A M d indx h (e.trans h0), fun h0 => ?_⟩,
    fun A M d indx h => ⟨fun e h0 => C30_lu_M55_false.1 A M d indx h (e.trans h0), fun h0 => ?_⟩,
    fun A M d indx h => ⟨fun e h0 => C30_lu_M66_false.1 A M d indx h (e.trans h0), fun h0 => ?_⟩⟩
  · obtain ⟨M', d', i', e1, -, e2, -⟩ := C28_lu_M22 A h0
    rw [h] at e1; cases e1; exact e2
  · obtain ⟨M', d', i', e1, -, e2, -⟩ := C28_lu_M33 A h0
    rw [h] at e1; cases e1; exact e2
  · obtain ⟨M', d', i', e1, -, e2, -⟩ := C28_lu_M44 A h0
    rw [h] at e1; cases e1; exact e2
  · obtain ⟨M', d', i', e1, -, e2, -⟩ := C28_lu_M55 A h0
    rw [h] at e1; cases e1; exact e2
  · obtain ⟨M', d', i', e1, -, e2, -⟩ := C28_lu_M66 A h0
    rw [h] at e1; cases e1; exact e2

/-- `lu` returns for the identity. -/
example : ∃ M d indx, M22.lu (M22.one : Mat 2 ℝ) = .ok (M, d, indx) := by
  obtain ⟨M, d, i, h, -⟩ := C28_lu_M22 (M22.one : Mat 2 ℝ) (by rw [M22.toM_one, Matrix.det_one]; norm_num)
  exact ⟨M, d, i, h⟩

end Lu

section Reals
variable [P : RealParams]

private theorem near_one (d : ℝ) : nearly_equal d 1 P.eps = true ↔ |d - 1| < P.eps * (|d| + 1) := by
  have he := P.eps_pos
  have he1 := P.eps_le
  have hM := P.maxVal_ge
  norm_num at he1 hM
  rw [C35_nearly_equal, abs_one]
  constructor
  · rintro (h | ⟨h | h, h'⟩ | ⟨-, -, h⟩)
    · rw [h, sub_self, abs_zero]; positivity
    · rw [h] at h' ⊢
      rw [zero_sub, abs_neg, abs_one] at h'
      linarith
    · norm_num at h
    · exact h.trans_le (mul_le_mul_of_nonneg_left (min_le_left _ _) he.le)
  · intro h
    have hd : |d| ≤ 2 := by
      have := abs_sub_abs_le_abs_sub d 1
      rw [abs_one] at this
      nlinarith [abs_nonneg d]
    have h0 : d ≠ 0 := by
      rintro rfl
      rw [zero_sub, abs_neg, abs_one, abs_zero] at h
      linarith
    exact Or.inr (Or.inr ⟨h0, one_ne_zero, by rwa [min_eq_left (by linarith)]⟩)

/-- `is_rotation` is a test of the determinant: it accepts exactly the matrices whose determinant `d` is
positive with `|d² - 1| < EPSILON (d² + 1)`. -/
theorem C148_is_rotation (r : Mat 3 ℝ) :
    is_rotation r = true ↔ 0 < r.toM.det ∧ |r.toM.det ^ 2 - 1| < P.eps * (r.toM.det ^ 2 + 1) := by
  have he := P.eps_pos
  have he1 := P.eps_le
  norm_num at he1
  have e1 : M33.det r = r.toM.det := M33.det_eq r
  have e2 : M33.det (M33.mul r r) = r.toM.det ^ 2 := by
    rw [M33.det_eq, ← Mat.toM, M33.toM_mul, Matrix.det_mul, sq]
  rw [is_rotation, Bool.and_eq_true, e1, e2]
  change nearly_equal r.toM.det 1 P.eps = true ∧ nearly_equal (r.toM.det ^ 2) 1 P.eps = true ↔ _
  rw [near_one, near_one, abs_of_nonneg (sq_nonneg r.toM.det)]
  generalize r.toM.det = d
  refine ⟨fun ⟨h1, h2⟩ => ⟨?_, h2⟩, fun ⟨h1, h2⟩ => ⟨?_, h2⟩⟩
  · by_contra h
    rw [not_lt] at h
    rw [abs_of_nonpos h, abs_of_neg (by linarith)] at h1
    nlinarith
  · rw [abs_of_pos h1]
    have e : |d ^ 2 - 1| = |d - 1| * (d + 1) := by
      rw [show d ^ 2 - 1 = (d - 1) * (d + 1) by ring, abs_mul, abs_of_pos (show 0 < d + 1 by linarith)]
    rw [e] at h2
    have h3 : |d - 1| * (d + 1) < P.eps * (d + 1) * (d + 1) := h2.trans_le (by nlinarith)
    exact lt_of_mul_lt_mul_right h3 (by linarith)

/-- The zero matrix is refused, every matrix of determinant one accepted. -/
example : is_rotation (⟨![![2, 7, 0], ![0, 1 / 2, 5], ![0, 0, 1]]⟩ : Mat 3 ℝ) = true := by
  rw [C148_is_rotation]
  have hd : (⟨![![2, 7, 0], ![0, 1 / 2, 5], ![0, 0, 1]]⟩ : Mat 3 ℝ).toM.det = 1 := by
    rw [Matrix.det_fin_three]; simp [Mat.toM]
  rw [hd]
  have := P.eps_pos
  constructor <;> norm_num
  exact this

/-- Slerp between nearly parallel unit quaternions (sine of the angle below 0.001): the end point is right
exactly when the dot product is not negative and the last two components of `b` agree. -/
theorem C148_slerp_end (a b : Quat ℝ) (hb : normSq b.toH = 1)
    (h1 : |a.dot b| < 1) (h2 : 1 - a.dot b ^ 2 < (1 / 1000) ^ 2) :
    (Quat.slerp a b 1).toH = (if a.dot b < 0 then -b.toH else b.toH) ↔ 0 ≤ a.dot b ∧ b.q 1 = b.q 2 := by
  have hv := (Quat.unit_iff b).1 hb
  have hs : ∀ c : ℝ, c ^ 2 = a.dot b ^ 2 → |√(1 - c * c)| < 1 / 1000 := fun c hc => by
    rw [abs_of_nonneg (Real.sqrt_nonneg _), Real.sqrt_lt' (by norm_num), ← sq, hc]
    exact h2
  unfold Quat.slerp
  simp only [rord_le, rord_lt, rfloat_sqrt, rfloat_lit0001, rabs_abs]
  rw [if_neg (by simpa using h1)]
  by_cases h0 : a.dot b < 0
  · simp only [h0, decide_true, if_true]
    rw [if_pos (by simpa using hs _ (by ring))]
    simp only [Bool.not_true, Bool.false_eq_true, if_false]
    refine ⟨fun h => ?_, fun h => absurd h0 (not_lt.2 h.1)⟩
    rw [Quat.toH_zero, eq_comm, neg_eq_zero] at h
    rw [h] at hb
    simp at hb
  · simp only [h0, decide_false, Bool.false_eq_true, if_false]
    rw [if_pos (by simpa using hs _ rfl)]
    simp only [Bool.not_false, if_true]
    rw [H_ext_iff]
    refine ⟨fun h => ⟨not_lt.1 h0, ?_⟩, fun h => ⟨?_, ?_, ?_, ?_⟩⟩
    · have := h.2.2.1
      simp only [Quat.toH_imJ, Matrix.cons_val_one, Matrix.cons_val_zero] at this
      linarith
    · simp only [Quat.toH_re]; ring
    · simp only [Quat.toH_imI, Matrix.cons_val_zero]; ring
    · simp only [Quat.toH_imJ, Matrix.cons_val_one, Matrix.cons_val_zero, h.2]; ring
    · simp only [Quat.toH_imK, Matrix.cons_val, h.2]; ring

/-- Two nearly parallel unit quaternions whose last components differ: the end point is missed. -/
example : ∃ a b : Quat ℝ, normSq b.toH = 1 ∧ |a.dot b| < 1 ∧ 1 - a.dot b ^ 2 < (1 / 1000) ^ 2 ∧
    (Quat.slerp a b 1).toH ≠ (if a.dot b < 0 then -b.toH else b.toH) := by
  have hb : normSq (Quat.new_from (99999999 / 100000001) 0 (20000 / 100000001) 0 : Quat ℝ).toH = 1 := by
    rw [Quat.unit_iff]
    simp only [Quat.new_from_0, Quat.new_from_1, Quat.new_from_2, Quat.new_from_3]
    norm_num
  have hd : Quat.dot (Quat.new_from 1 0 0 0 : Quat ℝ)
      (Quat.new_from (99999999 / 100000001) 0 (20000 / 100000001) 0) = 99999999 / 100000001 := by
    simp only [Quat.dot, Quat.new_from, V3.dot, Matrix.cons_val_zero, Matrix.cons_val_one, Matrix.cons_val]
    norm_num
  have h1 : |(99999999 / 100000001 : ℝ)| < 1 := by rw [abs_of_pos] <;> norm_num
  have h2 : 1 - (99999999 / 100000001 : ℝ) ^ 2 < (1 / 1000) ^ 2 := by norm_num
  refine ⟨_, _, hb, by rw [hd]; exact h1, by rw [hd]; exact h2, fun h => ?_⟩
  have := ((C148_slerp_end _ _ hb (by rw [hd]; exact h1) (by rw [hd]; exact h2)).1 h).2
  simp only [Quat.new_from, Matrix.cons_val_one, Matrix.cons_val_zero, Matrix.cons_val] at this
  norm_num at this

omit P in
/-- `transform_point` is the motion that `to_homogeneous` describes exactly when there is no translation. -/
theorem C148_transform_point (a : DQuat ℝ) (ha : a.IsMotion) :
    (∀ p : Vec 3 ℝ, M44.mulVec a.to_homogeneous p.point = (a.transform_point p).point) ↔ a.get_translation = V3.zero := by
  have key : ∀ p : Vec 3 ℝ, M44.mulVec a.to_homogeneous p.point = (V3.add (a.transform_point p) a.get_translation).point :=
    fun p => (C62_product_partial a a ha ha p).2.2.2
  constructor
  · intro h
    have h0 := (key V3.zero).symm.trans (h V3.zero)
    have c (i : Fin 4) := congrArg (fun v : Vec 4 ℝ => v i) h0
    have c0 := c 0; have c1 := c 1; have c2 := c 2
    change (a.transform_point V3.zero) 0 + a.get_translation 0 = (a.transform_point V3.zero) 0 at c0
    change (a.transform_point V3.zero) 1 + a.get_translation 1 = (a.transform_point V3.zero) 1 at c1
    change (a.transform_point V3.zero) 2 + a.get_translation 2 = (a.transform_point V3.zero) 2 at c2
    refine Vec.ext3 ?_ ?_ ?_
    · change _ = (0 : ℝ); linarith
    · change _ = (0 : ℝ); linarith
    · change _ = (0 : ℝ); linarith
  · intro h p
    rw [key p, h]
    congr 1
    refine Vec.ext3 ?_ ?_ ?_
    · exact add_zero _
    · exact add_zero _
    · exact add_zero _

omit P in
/-- A translation by one: `transform_point` is wrong for some point. -/
example : ¬ ∀ p : Vec 3 ℝ, M44.mulVec (DQuat.new_from_translation (⟨![1, 0, 0]⟩ : Vec 3 ℝ)).to_homogeneous p.point
    = ((DQuat.new_from_translation (⟨![1, 0, 0]⟩ : Vec 3 ℝ)).transform_point p).point := by
  obtain ⟨hm, -, ht, -⟩ := (C61_translation_rotation_partial Quat.one (⟨![1, 0, 0]⟩ : Vec 3 ℝ) V3.zero).1
  rw [C148_transform_point _ hm, ht]
  exact fun h => one_ne_zero (congrArg (fun v : Vec 3 ℝ => v 0) h)

/-- Division undoes multiplication, `(a * b) / b = a`, exactly when the stated commutators cancel. -/
theorem C148_div (a b c : DQuat ℝ) (hc : (a.mul b).div b = .ok c) :
    c.toD = a.toD ↔
      (b.q_real.toH * a.q_real.toH - a.q_real.toH * b.q_real.toH) * b.q_dual.toH +
        (b.q_real.toH * a.q_dual.toH - a.q_dual.toH * b.q_real.toH) * b.q_real.toH = 0 := by
  obtain ⟨-, -, h3⟩ := DQuat.div_form (a.mul b) b
  obtain ⟨p, hp, hr, hd⟩ := h3 c hc
  have er : (a.mul b).q_real.toH = a.q_real.toH * b.q_real.toH := Quat.toH_mul _ _
  have ed : (a.mul b).q_dual.toH = a.q_real.toH * b.q_dual.toH + a.q_dual.toH * b.q_real.toH := by
    change ((a.q_real.mul b.q_dual).add (a.q_dual.mul b.q_real)).toH = _
    rw [Quat.toH_add, Quat.toH_mul, Quat.toH_mul]
  have hr2 : c.q_real.toH = a.q_real.toH := by
    rw [hr, er, mul_assoc a.q_real.toH, mul_assoc, hp, mul_one]
  have hp0 : p ≠ 0 := by rintro rfl; rw [mul_zero] at hp; exact zero_ne_one hp
  rw [DQuat.toD_inj]
  have e : c.q_dual.toH - a.q_dual.toH =
      ((b.q_real.toH * a.q_real.toH - a.q_real.toH * b.q_real.toH) * b.q_dual.toH +
        (b.q_real.toH * a.q_dual.toH - a.q_dual.toH * b.q_real.toH) * b.q_real.toH) * p := by
    rw [hd, er, ed]
    have h1 : a.q_dual.toH = a.q_dual.toH * (b.q_real.toH * b.q_real.toH * p) := by rw [hp, mul_one]
    generalize b.q_real.toH = B at *
    generalize b.q_dual.toH = D at *
    generalize a.q_real.toH = A at *
    generalize a.q_dual.toH = E at *
    calc (B * (A * D + E * B) - A * B * D) * p - E = (B * (A * D + E * B) - A * B * D) * p - E * (B * B * p) := by rw [hp, mul_one]
      _ = _ := by noncomm_ring
  constructor
  · rintro ⟨-, h⟩
    rw [h, sub_self, eq_comm, mul_eq_zero] at e
    exact e.resolve_right hp0
  · intro h
    rw [h, zero_mul, sub_eq_zero] at e
    exact ⟨hr2, e⟩

/-- Dividing by a real dual quaternion: the commutators vanish. -/
example (a : DQuat ℝ) (b : DQuat ℝ) (hr : b.q_real.toH = 2) (hd : b.q_dual.toH = 0) :
    (b.q_real.toH * a.q_real.toH - a.q_real.toH * b.q_real.toH) * b.q_dual.toH +
      (b.q_real.toH * a.q_dual.toH - a.q_dual.toH * b.q_real.toH) * b.q_real.toH = 0 := by
  rw [hr, hd]
  noncomm_ring

/-- Powers of motions that turn by less than EPSILON: the translation is `e` times the translation exactly
for `e = 0` and without translation. -/
theorem C148_pow_translation (x : DQuat ℝ) (h : 2 * Real.arccos x.q_real.q0 < P.eps) (e : ℝ) :
    (x.pow e).get_translation = V3.smul x.get_translation e ↔ e = 0 ∨ x.get_translation = V3.zero := by
  rw [(C67_pow_translation_partial x h e).2]
  constructor
  · intro h1
    by_cases he : e = 0
    · exact Or.inl he
    have c (i : Fin 3) : x.get_translation i = 0 := by
      have := congrArg (fun v : Vec 3 ℝ => v i) h1
      simp only [V3.smul_apply] at this
      have h2 : x.get_translation i * e = 0 := by linarith
      exact (mul_eq_zero.1 h2).resolve_right he
    exact Or.inr (Vec.ext3 (c 0) (c 1) (c 2))
  · rintro (h1 | h1)
    · rw [h1, mul_zero]
    · rw [h1]
      refine Vec.ext3 ?_ ?_ ?_ <;> simp only [entries] <;> ring

/-- A translation by one has no correct first power. -/
example : (DQuat.new_from_translation (⟨![1, 0, 0]⟩ : Vec 3 ℝ)).IsMotion ∧
    ((DQuat.new_from_translation (⟨![1, 0, 0]⟩ : Vec 3 ℝ)).pow 1).get_translation
      ≠ V3.smul (DQuat.new_from_translation (⟨![1, 0, 0]⟩ : Vec 3 ℝ)).get_translation 1 := by
  obtain ⟨hm, -, ht, -⟩ := (C61_translation_rotation_partial Quat.one (⟨![1, 0, 0]⟩ : Vec 3 ℝ) V3.zero).1
  refine ⟨hm, fun h => ?_⟩
  rcases (C148_pow_translation _ (by
    change 2 * Real.arccos 1 < P.eps
    rw [Real.arccos_one, mul_zero]
    exact P.eps_pos) 1).1 h with h | h
  · exact one_ne_zero h
  · rw [ht] at h
    exact one_ne_zero (congrArg (fun v : Vec 3 ℝ => v 0) h)

/-- `matrix_exponential6` is the exponential of an element of se(3) exactly when its rotation part has
norm at least EPSILON. -/
theorem C148_matrix_exponential6 (X : Mat 4 ℝ) (hX : IsSe3 X) :
    (∃ E, matrix_exponential6 X = .ok E ∧ E.toM = exp X.toM) ↔ P.eps ≤ √(X 2 1 ^ 2 + X 0 2 ^ 2 + X 1 0 ^ 2) := by
  constructor
  · rintro ⟨E, hE, he⟩
    by_contra hlt
    rw [not_le] at hlt
    obtain ⟨E', hE', h⟩ := (C81_matrix_exponential6_partial X).2.1 hlt
    rw [hE] at hE'
    cases hE'
    have h2 : E 0 2 = 1 := (h 0 2).trans (by simp)
    have h0 : E 0 0 = 1 := (h 0 0).trans (by simp)
    have h1 : E 0 1 = 0 := (h 0 1).trans (by simp)
    rcases (Real.sqrt_nonneg (X 2 1 ^ 2 + X 0 2 ^ 2 + X 1 0 ^ 2)).eq_or_lt with hz | hpos
    · have hz' : X 2 1 ^ 2 + X 0 2 ^ 2 + X 1 0 ^ 2 = 0 := by
        rw [eq_comm, Real.sqrt_eq_zero'] at hz
        nlinarith [sq_nonneg (X 2 1), sq_nonneg (X 0 2), sq_nonneg (X 1 0)]
      have z21 : X 2 1 = 0 := by nlinarith [sq_nonneg (X 2 1), sq_nonneg (X 0 2), sq_nonneg (X 1 0)]
      have z02 : X 0 2 = 0 := by nlinarith [sq_nonneg (X 2 1), sq_nonneg (X 0 2), sq_nonneg (X 1 0)]
      have z10 : X 1 0 = 0 := by nlinarith [sq_nonneg (X 2 1), sq_nonneg (X 0 2), sq_nonneg (X 1 0)]
      have hsk (i j : Fin 3) := hX.skew i j
      have s00 : X 0 0 = -X 0 0 := hsk 0 0
      have s11 : X 1 1 = -X 1 1 := hsk 1 1
      have s22 : X 2 2 = -X 2 2 := hsk 2 2
      have s12 : X 1 2 = -X 2 1 := hsk 1 2
      have s20 : X 2 0 = -X 0 2 := hsk 2 0
      have s01 : X 0 1 = -X 1 0 := hsk 0 1
      have hl (j : Fin 4) := hX.last j
      have eX : X = twist_to_se3 ⟨![0, 0, 0, X 0 3, X 1 3, X 2 3]⟩ := by
        refine Mat.ext4 ?_ ?_ ?_ ?_ ?_ ?_ ?_ ?_ ?_ ?_ ?_ ?_ ?_ ?_ ?_ ?_ <;>
          simp only [entries, hl, z21, z02, z10, s12, s20, s01] <;> linarith
      obtain ⟨E'', g1, -, g3⟩ := C81_matrix_exponential6_false (X 0 3) (X 1 3) (X 2 3)
      rw [← eX] at g1 g3
      rw [hE] at g1
      cases g1
      exact g3 he
    · -- the same function with a smaller EPSILON is the exponential
      let P' : RealParams := { P with
        eps := √(X 2 1 ^ 2 + X 0 2 ^ 2 + X 1 0 ^ 2)
        eps_pos := hpos
        eps_le := hlt.le.trans P.eps_le }
      obtain ⟨E', -, g2, g3⟩ := (@C81_matrix_exponential6_partial P' X).2.2 hX le_rfl
      have : E' = E := by rw [← Mat.toM_inj, g3, he]
      subst this
      have := (SO3Rels.of_mem g2.rot).r00
      change E' 0 0 * E' 0 0 + E' 0 1 * E' 0 1 + E' 0 2 * E' 0 2 = 1 at this
      rw [h0, h1, h2] at this
      norm_num at this
  · intro h
    obtain ⟨E, h1, -, h3⟩ := (C81_matrix_exponential6_partial X).2.2 hX h
    exact ⟨E, h1, h3⟩

/-- The twist with rotation vector (0, 0, 1) is in se(3) and above the threshold. -/
example : IsSe3 (twist_to_se3 (⟨![0, 0, 1, 2, 3, 4]⟩ : Vec 6 ℝ)) ∧
    ∃ E, matrix_exponential6 (twist_to_se3 (⟨![0, 0, 1, 2, 3, 4]⟩ : Vec 6 ℝ)) = .ok E ∧
      E.toM = exp (twist_to_se3 (⟨![0, 0, 1, 2, 3, 4]⟩ : Vec 6 ℝ)).toM := by
  have h := (C84_twists (⟨![0, 0, 1, 2, 3, 4]⟩ : Vec 6 ℝ) M44.zero).1
  refine ⟨h, (C148_matrix_exponential6 _ h).2 ?_⟩
  have := P.eps_le
  change P.eps ≤ √((0 : ℝ) ^ 2 + (0 : ℝ) ^ 2 + (1 : ℝ) ^ 2)
  norm_num at this ⊢
  linarith

private theorem exp_fixes (w : Vec 3 ℝ) : (exp (skew_from_vec w).toM).mulVec w.val = w.val := by
  rcases (V3.norm2_nonneg w).eq_or_lt with h | h
  · have hw : w = V3.zero := by
      have := V3.norm2_sq w
      rw [← h] at this
      have c (x y z : ℝ) (h : (0 : ℝ) ^ 2 = x ^ 2 + y ^ 2 + z ^ 2) : x = 0 := by
        nlinarith [sq_nonneg x, sq_nonneg y, sq_nonneg z]
      refine Vec.ext3 (c _ _ _ this) (c (w 1) (w 0) (w 2) (by linarith)) (c (w 2) (w 0) (w 1) (by linarith))
    rw [hw]
    have : (V3.zero : Vec 3 ℝ).val = 0 := by
      funext i; fin_cases i <;> rfl
    rw [this, Matrix.mulVec_zero]
  · obtain ⟨h1, -, h3, -⟩ := C78_rodrigues ⟨fun i => w i / V3.norm2 w⟩ (unit_of_div w h) (V3.norm2 w) 0
    rw [← skew_smul, smul_div_norm w h] at h1
    rw [← h1, ← M33.val_mulVec]
    have h4 := congrArg (fun v => V3.smul v (V3.norm2 w)) h3
    simp only [smul_div_norm w h] at h4
    have e : M33.mulVec (rotation_from_axis_angle ⟨fun i => w i / V3.norm2 w⟩ (V3.norm2 w)) w
        = V3.smul (M33.mulVec (rotation_from_axis_angle ⟨fun i => w i / V3.norm2 w⟩ (V3.norm2 w))
          ⟨fun i => w i / V3.norm2 w⟩) (V3.norm2 w) := by
      generalize rotation_from_axis_angle ⟨fun i => w i / V3.norm2 w⟩ (V3.norm2 w) = A
      have hn := h.ne'
      generalize V3.norm2 w = t at *
      refine Vec.ext3 ?_ ?_ ?_ <;> simp only [entries] <;> field_simp
    rw [e, h4]

theorem log_near_half_turn (R : Mat 3 ℝ) (hR : IsRot R) (h : NearXHalfTurn R) : exp (matrix_log R).toM ≠ R.toM := by
  obtain ⟨hh, h22, h11⟩ := h
  have he := P.eps_le
  norm_num at he
  have hs := SO3Rels.of_mem hR
  obtain ⟨w00, w11, w22, -, -, -⟩ := rot_vec hs
  have sq0 (x : ℝ) (hx : x ^ 2 = 0) : x = 0 := (pow_eq_zero_iff two_ne_zero).1 hx
  have hh' : 1 + (R 0 0 + R 1 1 + R 2 2) = 0 := by linarith
  have s12 : R 2 1 = R 1 2 := sub_eq_zero.1 (sq0 _ (by rw [w00, hh', zero_mul]))
  have s02 : R 2 0 = R 0 2 := (sub_eq_zero.1 (sq0 _ (by rw [w11, hh', zero_mul]))).symm
  have s01 : R 1 0 = R 0 1 := sub_eq_zero.1 (sq0 _ (by rw [w22, hh', zero_mul]))
  have g1 := (unit_bounds hs.r11).2.1
  have g2 := (unit_bounds hs.r22).2.2
  have h00 : 0 < 1 + R 0 0 := by linarith
  obtain ⟨k, hk⟩ : ∃ k, k = 1 / √(2 * (1 + R 0 0)) := ⟨_, rfl⟩
  have hk0 : 0 < k := by rw [hk]; positivity
  have hl : matrix_log R = skew_from_vec (V3.smul (V3.smul ⟨![1 + R 0 0, 1 + R 1 0, R 2 0]⟩ k) Real.pi) := by
    unfold matrix_log
    simp only [trace3, one_add_one_eq_two, rord_le, nearly_zero_eq, rfloat_sqrt, rfloat_pi]
    rw [if_neg (by rw [hh]; norm_num), if_pos (by rw [hh]; norm_num),
      if_neg (by simp [abs_of_nonneg g2, h22]), if_neg (by simp [abs_of_nonneg g1, h11]), hk]
  intro hexp
  have hf := exp_fixes (V3.smul (V3.smul (⟨![1 + R 0 0, 1 + R 1 0, R 2 0]⟩ : Vec 3 ℝ) k) Real.pi)
  rw [← hl, hexp] at hf
  have hm : M33.mulVec R (V3.smul (V3.smul (⟨![1 + R 0 0, 1 + R 1 0, R 2 0]⟩ : Vec 3 ℝ) k) Real.pi)
      = V3.smul (V3.smul (⟨![1 + R 0 0, 1 + R 1 0, R 2 0]⟩ : Vec 3 ℝ) k) Real.pi :=
    Vec.ext (by rw [M33.val_mulVec]; exact hf)
  have c1 := congrArg (fun v : Vec 3 ℝ => v 1) hm
  simp only [entries] at c1
  have hkp : k * Real.pi ≠ 0 := (mul_pos hk0 Real.pi_pos).ne'
  have c2 : R 1 0 * (1 + R 0 0) + R 1 1 * (1 + R 1 0) + R 1 2 * R 2 0 = 1 + R 1 0 := by
    refine mul_right_cancel₀ hkp ?_
    linear_combination c1
  have r01 := hs.r01
  rw [s01, s02] at *
  nlinarith

/-- The matrix logarithm of a rotation is a logarithm exactly outside the half turns about (nearly) the x
axis, and `matrix_exponential` undoes it exactly when, in addition, the rotation is the identity or turns by
at least EPSILON. -/
theorem C148_matrix_log (R : Mat 3 ℝ) (hR : IsRot R) :
    (exp (matrix_log R).toM = R.toM ↔
      ¬ (R 0 0 + R 1 1 + R 2 2 = -1 ∧ 1 + R 2 2 < P.eps ∧ 1 + R 1 1 < P.eps)) ∧
    (matrix_exponential (matrix_log R) = .ok R ↔
      ¬ (R 0 0 + R 1 1 + R 2 2 = -1 ∧ 1 + R 2 2 < P.eps ∧ 1 + R 1 1 < P.eps) ∧
      (R = M33.one ∨ P.eps ≤ Real.arccos ((R 0 0 + R 1 1 + R 2 2 - 1) / 2))) := by
  obtain ⟨ha, hp⟩ := C80_matrix_log_partial R hR
  refine ⟨⟨fun h hx => log_near_half_turn R hR hx h, fun h => (hp h).1⟩, fun h => ?_, fun h => (hp h.1).2 h.2⟩
  obtain ⟨c1, c2⟩ := C79_matrix_exponential (matrix_log R) ha
  have hx : ¬ NearXHalfTurn R := by
    intro hx
    by_cases hn : P.eps ≤ √(matrix_log R 2 1 ^ 2 + matrix_log R 0 2 ^ 2 + matrix_log R 1 0 ^ 2)
    · obtain ⟨E, e1, -, e3⟩ := c2 (Or.inr hn)
      rw [h] at e1
      cases e1
      exact log_near_half_turn R hR hx e3.symm
    · rw [c1 (not_le.1 hn)] at h
      cases h
      have h1 := hx.1
      simp only [entries] at h1
      norm_num at h1
  refine ⟨hx, ?_⟩
  by_contra hc
  push Not at hc
  obtain ⟨hc1, hc2⟩ := hc
  have h3 : R 0 0 + R 1 1 + R 2 2 < 3 := by
    by_contra h3
    exact hc1 (log_one R hR (not_lt.1 h3)).1
  obtain ⟨u, t, ht, hpos, -, hu, hl, -⟩ := log_form R hR h3 hx
  have hn : √(matrix_log R 2 1 ^ 2 + matrix_log R 0 2 ^ 2 + matrix_log R 1 0 ^ 2) = t := by
    have := norm_unit_smul u t hpos.le hu
    rw [V3.norm2_eq_sqrt] at this
    rw [hl]
    exact this
  rw [trace3] at ht
  rw [c1 (by rw [hn, ht]; exact hc2)] at h
  exact hc1 (Except.ok.inj h).symm

/-- The rotation about the third axis by 1 meets both conditions, the half turn about the x axis neither. -/
example : exp (matrix_log (rotz (T := ℝ) 1)).toM = (rotz (T := ℝ) 1).toM ∧
    exp (matrix_log (rotx (T := ℝ) Real.pi)).toM ≠ (rotx (T := ℝ) Real.pi).toM := by
  have he := P.eps_le
  norm_num at he
  refine ⟨(C148_matrix_log _ (isRot_rotz 1)).1.2 fun h => ?_, fun h => (C148_matrix_log _ (isRot_rotx _)).1.1 h ?_⟩
  · have := h.2.1
    simp only [entries] at this
    linarith
  · have := P.eps_pos
    simp only [entries, rfloat_cos, Real.cos_pi]
    refine ⟨by norm_num, ?_, ?_⟩ <;> linarith

end Reals

end StaticMath
