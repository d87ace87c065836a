import Verif.Ieee.Facts
import Verif.Lemmas.InverseFree
import Verif.Model.Linear

/-!
# C34, C37, C89–C93: floating point

Generated by `tools/gen_props_ieee.py`. `Flt f` is the set of IEEE 754 values of the binary format
`f` (`Fmt.f32`, `Fmt.f64` or any other), with correctly rounded operations. `a.toReal` is the value
of a finite float, `a.IsFin` says that it is neither NaN nor an infinity.
-/

namespace StaticMath
open Flt

/-- Any choice of the functions IEEE 754 leaves open, for the examples. -/
@[reducible] private noncomputable def anyLibm (f : Fmt) : Libm f :=
  ⟨id, id, id, id, id, id, fun a _ => a, 1, 1, 1, 1, 1⟩

/-! ## C34 nearly_equal -/

/-- `nearly_equal` is symmetric for all floats. -/
theorem C34_nearly_equal_symm {f : Fmt} [Libm f] (a b eps : Flt f) :
    nearly_equal a b eps = nearly_equal b a eps := by
  unfold nearly_equal
  dsimp only
  rw [abs_sub_comm' b a, beq_comm' b a, add_comm' (RAbs.abs b) (RAbs.abs a),
    Bool.or_comm (ROrd.beq b 0) (ROrd.beq a 0)]

/-- `nearly_equal(a, a, eps)` is true exactly when `a` is not NaN, whatever `eps` is. -/
theorem C34_nearly_equal_refl {f : Fmt} [Libm f] (a eps : Flt f) :
    nearly_equal a a eps = true ↔ a ≠ nan := by
  constructor
  · rintro h rfl
    exact Bool.false_ne_true h
  · intro h
    unfold nearly_equal
    simp only [(beq_self_iff a).2 h, if_true]

/-- NaN is nearly equal to nothing. -/
theorem C34_nearly_equal_nan {f : Fmt} [Libm f] (b eps : Flt f) :
    nearly_equal nan b eps = false ∧ nearly_equal b nan eps = false := by
  have h : nearly_equal nan b eps = false := by
    unfold nearly_equal
    dsimp only
    rw [beq_nan, beq_nan]
    by_cases hb : ROrd.beq b 0 = true
    · simp only [hb]; rfl
    · simp only [hb]; rfl
  exact ⟨h, by rw [C34_nearly_equal_symm, h]⟩

/-- Signed zeros, infinities and NaN. -/
example : let _ := anyLibm Fmt.f32
    nearly_equal (0 : Flt Fmt.f32) (-0) 0 = true ∧ nearly_equal (inf true : Flt Fmt.f32) (inf true) 0 = true ∧
    nearly_equal (nan : Flt Fmt.f32) nan 1 = false := by
  intro _
  refine ⟨?_, (C34_nearly_equal_refl _ _).2 nofun, (C34_nearly_equal_nan _ _).1⟩
  unfold nearly_equal
  have h : ROrd.beq (0 : Flt Fmt.f32) (-0) = true :=
    (beq_iff isFin_zero (isFin_neg.2 isFin_zero)).2 (by rw [toReal_neg, toReal_zero, neg_zero])
  simp only [h, if_true]

/-! ## C37 nearly_zero -/

/-- `nearly_zero(a)` holds exactly when `a` is finite and `|a| < EPSILON`. -/
theorem C37_nearly_zero_float {f : Fmt} [Libm f] (a : Flt f) :
    nearly_zero a = true ↔ a.IsFin ∧ |a.toReal| < (2 : ℝ) ^ (1 - (f.p : ℤ)) := nearly_zero_flt a

/-- The smallest subnormal number is nearly zero, 1 is not. -/
example : let _ := anyLibm Fmt.f64
    nearly_zero (tiny Fmt.f64) = true ∧ nearly_zero (1 : Flt Fmt.f64) = false := by
  intro _
  refine ⟨(C37_nearly_zero_float _).2 ⟨trivial, ?_⟩,
    Bool.eq_false_iff.2 fun h => absurd ((C37_nearly_zero_float _).1 h).2 ?_⟩
  · change |(2 : ℝ) ^ _| < _
    rw [abs_of_pos (by positivity)]
    exact zpow_lt_zpow_right₀ (by norm_num) (by decide)
  · rw [toReal_one, abs_one, not_lt]
    exact zpow_le_one_of_nonpos₀ (by norm_num) (by decide)

/-! ## C89 multiplication by the identity -/

private theorem one_2 {f : Fmt} (i j : Fin 2) :
    (M22.one : Mat 2 (Flt f)) i j = if i = j then 1 else 0 := by
  fin_cases i <;> fin_cases j <;> rfl

/-- `M * identity() == M` when all entries are finite; every other entry of a row of the product
that meets an infinity or a NaN is NaN. -/
theorem C89_mul_one_M22 {f : Fmt} (A : Mat 2 (Flt f)) :
    ((∀ i j, (A i j).IsFin) → (M22.mul A M22.one).beq A = true) ∧
    ∀ i k, ¬(A i k).IsFin → ∀ j, j ≠ k → M22.mul A M22.one i j = nan := by
  refine ⟨fun hA => ?_, fun i k h j hj => ?_⟩
  · simp only [Mat.beq, List.all_eq_true, List.mem_finRange, true_imp_iff]
    intro i j
    obtain ⟨h1, h2⟩ := orderedSum_single (M22.mul_order A M22.one i j) j
      (by rw [one_2, if_pos rfl, mul_one']; exact hA i j)
      (fun k hk => by rw [one_2, if_neg hk]; exact mul_zero_fin (hA i k))
    refine (beq_iff h1 (hA i j)).2 (h2.trans ?_)
    rw [one_2, if_pos rfl, mul_one']
  · refine orderedSum_nan (M22.mul_order A M22.one i j) k ?_
    rw [one_2, if_neg hj.symm, mul_zero_notFin h]

/-- `identity() * M == M` when all entries are finite; every other entry of a column of the product
that meets an infinity or a NaN is NaN. -/
theorem C89_one_mul_M22 {f : Fmt} (A : Mat 2 (Flt f)) :
    ((∀ i j, (A i j).IsFin) → (M22.mul M22.one A).beq A = true) ∧
    ∀ k j, ¬(A k j).IsFin → ∀ i, i ≠ k → M22.mul M22.one A i j = nan := by
  refine ⟨fun hA => ?_, fun k j h i hi => ?_⟩
  · simp only [Mat.beq, List.all_eq_true, List.mem_finRange, true_imp_iff]
    intro i j
    obtain ⟨h1, h2⟩ := orderedSum_single (M22.mul_order M22.one A i j) i
      (by rw [one_2, if_pos rfl, one_mul']; exact hA i j)
      (fun k hk => by rw [one_2, if_neg hk.symm]; exact zero_mul_fin (hA k j))
    refine (beq_iff h1 (hA i j)).2 (h2.trans ?_)
    rw [one_2, if_pos rfl, one_mul']
  · refine orderedSum_nan (M22.mul_order M22.one A i j) k ?_
    rw [one_2, if_neg hi, zero_mul_notFin h]

/-- `identity() * v == v` when all entries are finite; an infinity or a NaN makes every other entry
of the product NaN. -/
theorem C89_one_mulVec_M22 {f : Fmt} (v : Vec 2 (Flt f)) :
    ((∀ i, (v i).IsFin) → (M22.mulVec M22.one v).beq v = true) ∧
    ∀ k, ¬(v k).IsFin → ∀ i, i ≠ k → M22.mulVec M22.one v i = nan := by
  refine ⟨fun hv => ?_, fun k h i hi => ?_⟩
  · simp only [Vec.beq, List.all_eq_true, List.mem_finRange, true_imp_iff]
    intro i
    obtain ⟨h1, h2⟩ := orderedSum_single (M22.mulVec_order M22.one v i) i
      (by rw [one_2, if_pos rfl, one_mul']; exact hv i)
      (fun k hk => by rw [one_2, if_neg hk.symm]; exact zero_mul_fin (hv k))
    refine (beq_iff h1 (hv i)).2 (h2.trans ?_)
    rw [one_2, if_pos rfl, one_mul']
  · refine orderedSum_nan (M22.mulVec_order M22.one v i) k ?_
    rw [one_2, if_neg hi, zero_mul_notFin h]

/-- The smallest and the largest numbers survive; an infinity does not. -/
example : (M22.mul ⟨fun i j => if i = j then maxValue Fmt.f32 else -tiny Fmt.f32⟩ M22.one).beq
      ⟨fun i j => if i = j then maxValue Fmt.f32 else -tiny Fmt.f32⟩ = true ∧
    M22.mul ⟨fun _ _ => inf false⟩ (M22.one : Mat 2 (Flt Fmt.f64)) 0 0 = nan ∧
    (M22.mulVec M22.one ⟨fun _ => tiny Fmt.f32⟩).beq ⟨fun _ => tiny Fmt.f32⟩ = true :=
  ⟨(C89_mul_one_M22 _).1 fun i j => by
      by_cases h : i = j
      · simp only [h, if_true]; trivial
      · simp only [h, if_false]; trivial,
    (C89_mul_one_M22 _).2 0 1 id 0 (by decide), (C89_one_mulVec_M22 _).1 fun _ => trivial⟩

private theorem one_3 {f : Fmt} (i j : Fin 3) :
    (M33.one : Mat 3 (Flt f)) i j = if i = j then 1 else 0 := by
  fin_cases i <;> fin_cases j <;> rfl

/-- `M * identity() == M` when all entries are finite; every other entry of a row of the product
that meets an infinity or a NaN is NaN. -/
theorem C89_mul_one_M33 {f : Fmt} (A : Mat 3 (Flt f)) :
    ((∀ i j, (A i j).IsFin) → (M33.mul A M33.one).beq A = true) ∧
    ∀ i k, ¬(A i k).IsFin → ∀ j, j ≠ k → M33.mul A M33.one i j = nan := by
  refine ⟨fun hA => ?_, fun i k h j hj => ?_⟩
  · simp only [Mat.beq, List.all_eq_true, List.mem_finRange, true_imp_iff]
    intro i j
    obtain ⟨h1, h2⟩ := orderedSum_single (M33.mul_order A M33.one i j) j
      (by rw [one_3, if_pos rfl, mul_one']; exact hA i j)
      (fun k hk => by rw [one_3, if_neg hk]; exact mul_zero_fin (hA i k))
    refine (beq_iff h1 (hA i j)).2 (h2.trans ?_)
    rw [one_3, if_pos rfl, mul_one']
  · refine orderedSum_nan (M33.mul_order A M33.one i j) k ?_
    rw [one_3, if_neg hj.symm, mul_zero_notFin h]

/-- `identity() * M == M` when all entries are finite; every other entry of a column of the product
that meets an infinity or a NaN is NaN. -/
theorem C89_one_mul_M33 {f : Fmt} (A : Mat 3 (Flt f)) :
    ((∀ i j, (A i j).IsFin) → (M33.mul M33.one A).beq A = true) ∧
    ∀ k j, ¬(A k j).IsFin → ∀ i, i ≠ k → M33.mul M33.one A i j = nan := by
  refine ⟨fun hA => ?_, fun k j h i hi => ?_⟩
  · simp only [Mat.beq, List.all_eq_true, List.mem_finRange, true_imp_iff]
    intro i j
    obtain ⟨h1, h2⟩ := orderedSum_single (M33.mul_order M33.one A i j) i
      (by rw [one_3, if_pos rfl, one_mul']; exact hA i j)
      (fun k hk => by rw [one_3, if_neg hk.symm]; exact zero_mul_fin (hA k j))
    refine (beq_iff h1 (hA i j)).2 (h2.trans ?_)
    rw [one_3, if_pos rfl, one_mul']
  · refine orderedSum_nan (M33.mul_order M33.one A i j) k ?_
    rw [one_3, if_neg hi, zero_mul_notFin h]

/-- `identity() * v == v` when all entries are finite; an infinity or a NaN makes every other entry
of the product NaN. -/
theorem C89_one_mulVec_M33 {f : Fmt} (v : Vec 3 (Flt f)) :
    ((∀ i, (v i).IsFin) → (M33.mulVec M33.one v).beq v = true) ∧
    ∀ k, ¬(v k).IsFin → ∀ i, i ≠ k → M33.mulVec M33.one v i = nan := by
  refine ⟨fun hv => ?_, fun k h i hi => ?_⟩
  · simp only [Vec.beq, List.all_eq_true, List.mem_finRange, true_imp_iff]
    intro i
    obtain ⟨h1, h2⟩ := orderedSum_single (M33.mulVec_order M33.one v i) i
      (by rw [one_3, if_pos rfl, one_mul']; exact hv i)
      (fun k hk => by rw [one_3, if_neg hk.symm]; exact zero_mul_fin (hv k))
    refine (beq_iff h1 (hv i)).2 (h2.trans ?_)
    rw [one_3, if_pos rfl, one_mul']
  · refine orderedSum_nan (M33.mulVec_order M33.one v i) k ?_
    rw [one_3, if_neg hi, zero_mul_notFin h]

/-- The smallest and the largest numbers survive; an infinity does not. -/
example : (M33.mul ⟨fun i j => if i = j then maxValue Fmt.f32 else -tiny Fmt.f32⟩ M33.one).beq
      ⟨fun i j => if i = j then maxValue Fmt.f32 else -tiny Fmt.f32⟩ = true ∧
    M33.mul ⟨fun _ _ => inf false⟩ (M33.one : Mat 3 (Flt Fmt.f64)) 0 0 = nan ∧
    (M33.mulVec M33.one ⟨fun _ => tiny Fmt.f32⟩).beq ⟨fun _ => tiny Fmt.f32⟩ = true :=
  ⟨(C89_mul_one_M33 _).1 fun i j => by
      by_cases h : i = j
      · simp only [h, if_true]; trivial
      · simp only [h, if_false]; trivial,
    (C89_mul_one_M33 _).2 0 1 id 0 (by decide), (C89_one_mulVec_M33 _).1 fun _ => trivial⟩

private theorem one_4 {f : Fmt} (i j : Fin 4) :
    (M44.one : Mat 4 (Flt f)) i j = if i = j then 1 else 0 := by
  fin_cases i <;> fin_cases j <;> rfl

/-- `M * identity() == M` when all entries are finite; every other entry of a row of the product
that meets an infinity or a NaN is NaN. -/
theorem C89_mul_one_M44 {f : Fmt} (A : Mat 4 (Flt f)) :
    ((∀ i j, (A i j).IsFin) → (M44.mul A M44.one).beq A = true) ∧
    ∀ i k, ¬(A i k).IsFin → ∀ j, j ≠ k → M44.mul A M44.one i j = nan := by
  refine ⟨fun hA => ?_, fun i k h j hj => ?_⟩
  · simp only [Mat.beq, List.all_eq_true, List.mem_finRange, true_imp_iff]
    intro i j
    obtain ⟨h1, h2⟩ := orderedSum_single (M44.mul_order A M44.one i j) j
      (by rw [one_4, if_pos rfl, mul_one']; exact hA i j)
      (fun k hk => by rw [one_4, if_neg hk]; exact mul_zero_fin (hA i k))
    refine (beq_iff h1 (hA i j)).2 (h2.trans ?_)
    rw [one_4, if_pos rfl, mul_one']
  · refine orderedSum_nan (M44.mul_order A M44.one i j) k ?_
    rw [one_4, if_neg hj.symm, mul_zero_notFin h]

/-- `identity() * M == M` when all entries are finite; every other entry of a column of the product
that meets an infinity or a NaN is NaN. -/
theorem C89_one_mul_M44 {f : Fmt} (A : Mat 4 (Flt f)) :
    ((∀ i j, (A i j).IsFin) → (M44.mul M44.one A).beq A = true) ∧
    ∀ k j, ¬(A k j).IsFin → ∀ i, i ≠ k → M44.mul M44.one A i j = nan := by
  refine ⟨fun hA => ?_, fun k j h i hi => ?_⟩
  · simp only [Mat.beq, List.all_eq_true, List.mem_finRange, true_imp_iff]
    intro i j
    obtain ⟨h1, h2⟩ := orderedSum_single (M44.mul_order M44.one A i j) i
      (by rw [one_4, if_pos rfl, one_mul']; exact hA i j)
      (fun k hk => by rw [one_4, if_neg hk.symm]; exact zero_mul_fin (hA k j))
    refine (beq_iff h1 (hA i j)).2 (h2.trans ?_)
    rw [one_4, if_pos rfl, one_mul']
  · refine orderedSum_nan (M44.mul_order M44.one A i j) k ?_
    rw [one_4, if_neg hi, zero_mul_notFin h]

/-- `identity() * v == v` when all entries are finite; an infinity or a NaN makes every other entry
of the product NaN. -/
theorem C89_one_mulVec_M44 {f : Fmt} (v : Vec 4 (Flt f)) :
    ((∀ i, (v i).IsFin) → (M44.mulVec M44.one v).beq v = true) ∧
    ∀ k, ¬(v k).IsFin → ∀ i, i ≠ k → M44.mulVec M44.one v i = nan := by
  refine ⟨fun hv => ?_, fun k h i hi => ?_⟩
  · simp only [Vec.beq, List.all_eq_true, List.mem_finRange, true_imp_iff]
    intro i
    obtain ⟨h1, h2⟩ := orderedSum_single (M44.mulVec_order M44.one v i) i
      (by rw [one_4, if_pos rfl, one_mul']; exact hv i)
      (fun k hk => by rw [one_4, if_neg hk.symm]; exact zero_mul_fin (hv k))
    refine (beq_iff h1 (hv i)).2 (h2.trans ?_)
    rw [one_4, if_pos rfl, one_mul']
  · refine orderedSum_nan (M44.mulVec_order M44.one v i) k ?_
    rw [one_4, if_neg hi, zero_mul_notFin h]

/-- The smallest and the largest numbers survive; an infinity does not. -/
example : (M44.mul ⟨fun i j => if i = j then maxValue Fmt.f32 else -tiny Fmt.f32⟩ M44.one).beq
      ⟨fun i j => if i = j then maxValue Fmt.f32 else -tiny Fmt.f32⟩ = true ∧
    M44.mul ⟨fun _ _ => inf false⟩ (M44.one : Mat 4 (Flt Fmt.f64)) 0 0 = nan ∧
    (M44.mulVec M44.one ⟨fun _ => tiny Fmt.f32⟩).beq ⟨fun _ => tiny Fmt.f32⟩ = true :=
  ⟨(C89_mul_one_M44 _).1 fun i j => by
      by_cases h : i = j
      · simp only [h, if_true]; trivial
      · simp only [h, if_false]; trivial,
    (C89_mul_one_M44 _).2 0 1 id 0 (by decide), (C89_one_mulVec_M44 _).1 fun _ => trivial⟩

private theorem one_5 {f : Fmt} (i j : Fin 5) :
    (M55.one : Mat 5 (Flt f)) i j = if i = j then 1 else 0 := by
  fin_cases i <;> fin_cases j <;> rfl

/-- `M * identity() == M` when all entries are finite; every other entry of a row of the product
that meets an infinity or a NaN is NaN. -/
theorem C89_mul_one_M55 {f : Fmt} (A : Mat 5 (Flt f)) :
    ((∀ i j, (A i j).IsFin) → (M55.mul A M55.one).beq A = true) ∧
    ∀ i k, ¬(A i k).IsFin → ∀ j, j ≠ k → M55.mul A M55.one i j = nan := by
  refine ⟨fun hA => ?_, fun i k h j hj => ?_⟩
  · simp only [Mat.beq, List.all_eq_true, List.mem_finRange, true_imp_iff]
    intro i j
    obtain ⟨h1, h2⟩ := orderedSum_single (M55.mul_order A M55.one i j) j
      (by rw [one_5, if_pos rfl, mul_one']; exact hA i j)
      (fun k hk => by rw [one_5, if_neg hk]; exact mul_zero_fin (hA i k))
    refine (beq_iff h1 (hA i j)).2 (h2.trans ?_)
    rw [one_5, if_pos rfl, mul_one']
  · refine orderedSum_nan (M55.mul_order A M55.one i j) k ?_
    rw [one_5, if_neg hj.symm, mul_zero_notFin h]

/-- `identity() * M == M` when all entries are finite; every other entry of a column of the product
that meets an infinity or a NaN is NaN. -/
theorem C89_one_mul_M55 {f : Fmt} (A : Mat 5 (Flt f)) :
    ((∀ i j, (A i j).IsFin) → (M55.mul M55.one A).beq A = true) ∧
    ∀ k j, ¬(A k j).IsFin → ∀ i, i ≠ k → M55.mul M55.one A i j = nan := by
  refine ⟨fun hA => ?_, fun k j h i hi => ?_⟩
  · simp only [Mat.beq, List.all_eq_true, List.mem_finRange, true_imp_iff]
    intro i j
    obtain ⟨h1, h2⟩ := orderedSum_single (M55.mul_order M55.one A i j) i
      (by rw [one_5, if_pos rfl, one_mul']; exact hA i j)
      (fun k hk => by rw [one_5, if_neg hk.symm]; exact zero_mul_fin (hA k j))
    refine (beq_iff h1 (hA i j)).2 (h2.trans ?_)
    rw [one_5, if_pos rfl, one_mul']
  · refine orderedSum_nan (M55.mul_order M55.one A i j) k ?_
    rw [one_5, if_neg hi, zero_mul_notFin h]

/-- `identity() * v == v` when all entries are finite; an infinity or a NaN makes every other entry
of the product NaN. -/
theorem C89_one_mulVec_M55 {f : Fmt} (v : Vec 5 (Flt f)) :
    ((∀ i, (v i).IsFin) → (M55.mulVec M55.one v).beq v = true) ∧
    ∀ k, ¬(v k).IsFin → ∀ i, i ≠ k → M55.mulVec M55.one v i = nan := by
  refine ⟨fun hv => ?_, fun k h i hi => ?_⟩
  · simp only [Vec.beq, List.all_eq_true, List.mem_finRange, true_imp_iff]
    intro i
    obtain ⟨h1, h2⟩ := orderedSum_single (M55.mulVec_order M55.one v i) i
      (by rw [one_5, if_pos rfl, one_mul']; exact hv i)
      (fun k hk => by rw [one_5, if_neg hk.symm]; exact zero_mul_fin (hv k))
    refine (beq_iff h1 (hv i)).2 (h2.trans ?_)
    rw [one_5, if_pos rfl, one_mul']
  · refine orderedSum_nan (M55.mulVec_order M55.one v i) k ?_
    rw [one_5, if_neg hi, zero_mul_notFin h]

/-- The smallest and the largest numbers survive; an infinity does not. -/
example : (M55.mul ⟨fun i j => if i = j then maxValue Fmt.f32 else -tiny Fmt.f32⟩ M55.one).beq
      ⟨fun i j => if i = j then maxValue Fmt.f32 else -tiny Fmt.f32⟩ = true ∧
    M55.mul ⟨fun _ _ => inf false⟩ (M55.one : Mat 5 (Flt Fmt.f64)) 0 0 = nan ∧
    (M55.mulVec M55.one ⟨fun _ => tiny Fmt.f32⟩).beq ⟨fun _ => tiny Fmt.f32⟩ = true :=
  ⟨(C89_mul_one_M55 _).1 fun i j => by
      by_cases h : i = j
      · simp only [h, if_true]; trivial
      · simp only [h, if_false]; trivial,
    (C89_mul_one_M55 _).2 0 1 id 0 (by decide), (C89_one_mulVec_M55 _).1 fun _ => trivial⟩

private theorem one_6 {f : Fmt} (i j : Fin 6) :
    (M66.one : Mat 6 (Flt f)) i j = if i = j then 1 else 0 := by
  fin_cases i <;> fin_cases j <;> rfl

/-- `M * identity() == M` when all entries are finite; every other entry of a row of the product
that meets an infinity or a NaN is NaN. -/
theorem C89_mul_one_M66 {f : Fmt} (A : Mat 6 (Flt f)) :
    ((∀ i j, (A i j).IsFin) → (M66.mul A M66.one).beq A = true) ∧
    ∀ i k, ¬(A i k).IsFin → ∀ j, j ≠ k → M66.mul A M66.one i j = nan := by
  refine ⟨fun hA => ?_, fun i k h j hj => ?_⟩
  · simp only [Mat.beq, List.all_eq_true, List.mem_finRange, true_imp_iff]
    intro i j
    obtain ⟨h1, h2⟩ := orderedSum_single (M66.mul_order A M66.one i j) j
      (by rw [one_6, if_pos rfl, mul_one']; exact hA i j)
      (fun k hk => by rw [one_6, if_neg hk]; exact mul_zero_fin (hA i k))
    refine (beq_iff h1 (hA i j)).2 (h2.trans ?_)
    rw [one_6, if_pos rfl, mul_one']
  · refine orderedSum_nan (M66.mul_order A M66.one i j) k ?_
    rw [one_6, if_neg hj.symm, mul_zero_notFin h]

/-- `identity() * M == M` when all entries are finite; every other entry of a column of the product
that meets an infinity or a NaN is NaN. -/
theorem C89_one_mul_M66 {f : Fmt} (A : Mat 6 (Flt f)) :
    ((∀ i j, (A i j).IsFin) → (M66.mul M66.one A).beq A = true) ∧
    ∀ k j, ¬(A k j).IsFin → ∀ i, i ≠ k → M66.mul M66.one A i j = nan := by
  refine ⟨fun hA => ?_, fun k j h i hi => ?_⟩
  · simp only [Mat.beq, List.all_eq_true, List.mem_finRange, true_imp_iff]
    intro i j
    obtain ⟨h1, h2⟩ := orderedSum_single (M66.mul_order M66.one A i j) i
      (by rw [one_6, if_pos rfl, one_mul']; exact hA i j)
      (fun k hk => by rw [one_6, if_neg hk.symm]; exact zero_mul_fin (hA k j))
    refine (beq_iff h1 (hA i j)).2 (h2.trans ?_)
    rw [one_6, if_pos rfl, one_mul']
  · refine orderedSum_nan (M66.mul_order M66.one A i j) k ?_
    rw [one_6, if_neg hi, zero_mul_notFin h]

/-- `identity() * v == v` when all entries are finite; an infinity or a NaN makes every other entry
of the product NaN. -/
theorem C89_one_mulVec_M66 {f : Fmt} (v : Vec 6 (Flt f)) :
    ((∀ i, (v i).IsFin) → (M66.mulVec M66.one v).beq v = true) ∧
    ∀ k, ¬(v k).IsFin → ∀ i, i ≠ k → M66.mulVec M66.one v i = nan := by
  refine ⟨fun hv => ?_, fun k h i hi => ?_⟩
  · simp only [Vec.beq, List.all_eq_true, List.mem_finRange, true_imp_iff]
    intro i
    obtain ⟨h1, h2⟩ := orderedSum_single (M66.mulVec_order M66.one v i) i
      (by rw [one_6, if_pos rfl, one_mul']; exact hv i)
      (fun k hk => by rw [one_6, if_neg hk.symm]; exact zero_mul_fin (hv k))
    refine (beq_iff h1 (hv i)).2 (h2.trans ?_)
    rw [one_6, if_pos rfl, one_mul']
  · refine orderedSum_nan (M66.mulVec_order M66.one v i) k ?_
    rw [one_6, if_neg hi, zero_mul_notFin h]

/-- The smallest and the largest numbers survive; an infinity does not. -/
example : (M66.mul ⟨fun i j => if i = j then maxValue Fmt.f32 else -tiny Fmt.f32⟩ M66.one).beq
      ⟨fun i j => if i = j then maxValue Fmt.f32 else -tiny Fmt.f32⟩ = true ∧
    M66.mul ⟨fun _ _ => inf false⟩ (M66.one : Mat 6 (Flt Fmt.f64)) 0 0 = nan ∧
    (M66.mulVec M66.one ⟨fun _ => tiny Fmt.f32⟩).beq ⟨fun _ => tiny Fmt.f32⟩ = true :=
  ⟨(C89_mul_one_M66 _).1 fun i j => by
      by_cases h : i = j
      · simp only [h, if_true]; trivial
      · simp only [h, if_false]; trivial,
    (C89_mul_one_M66 _).2 0 1 id 0 (by decide), (C89_one_mulVec_M66 _).1 fun _ => trivial⟩

/-! ## C90 exact symmetries

No arithmetic law is used but commutativity of a single addition and a single multiplication. -/

/-- Dot product and sum of vectors are bit-identical when the operands are swapped. -/
theorem C90_V2 {f : Fmt} (v w : Vec 2 (Flt f)) : V2.dot v w = V2.dot w v ∧ V2.add v w = V2.add w v := by
  constructor
  · unfold V2.dot
    rw [mul_comm' (v.val 0) (w.val 0), mul_comm' (v.val 1) (w.val 1)]
  · refine Vec.ext (funext fun i => ?_)
    fin_cases i <;> exact add_comm' _ _

/-- Transposition commutes bit for bit with `+`, `-` and scaling, and `A + B` with `B + A`. -/
theorem C90_transpose_M22 {f : Fmt} (A B : Mat 2 (Flt f)) (s : Flt f) :
    M22.add A B = M22.add B A ∧
    M22.transpose (M22.add A B) = M22.add (M22.transpose A) (M22.transpose B) ∧
    M22.transpose (M22.sub A B) = M22.sub (M22.transpose A) (M22.transpose B) ∧
    M22.transpose (M22.smul A s) = M22.smul (M22.transpose A) s := by
  refine ⟨Mat.ext (funext fun i => funext fun j => ?_), Mat.ext (funext fun i => funext fun j => ?_),
    Mat.ext (funext fun i => funext fun j => ?_), Mat.ext (funext fun i => funext fun j => ?_)⟩
  · fin_cases i <;> fin_cases j <;> exact add_comm' _ _
  all_goals (fin_cases i <;> fin_cases j <;> rfl)

/-- `(A * B)ᵀ` and `Bᵀ * Aᵀ` are bit-identical. -/
theorem C90_transpose_mul_M22 {f : Fmt} (A B : Mat 2 (Flt f)) :
    M22.transpose (M22.mul A B) = M22.mul (M22.transpose B) (M22.transpose A) := by
  refine Mat.ext (funext fun i => funext fun j => ?_)
  fin_cases i <;> fin_cases j <;>
    exact congrArg₂ (· + ·) (mul_comm' _ _) (mul_comm' _ _)

/-- Dot product and sum of vectors are bit-identical when the operands are swapped. -/
theorem C90_V3 {f : Fmt} (v w : Vec 3 (Flt f)) : V3.dot v w = V3.dot w v ∧ V3.add v w = V3.add w v := by
  constructor
  · unfold V3.dot
    rw [mul_comm' (v.val 0) (w.val 0), mul_comm' (v.val 1) (w.val 1), mul_comm' (v.val 2) (w.val 2)]
  · refine Vec.ext (funext fun i => ?_)
    fin_cases i <;> exact add_comm' _ _

/-- Transposition commutes bit for bit with `+`, `-` and scaling, and `A + B` with `B + A`. -/
theorem C90_transpose_M33 {f : Fmt} (A B : Mat 3 (Flt f)) (s : Flt f) :
    M33.add A B = M33.add B A ∧
    M33.transpose (M33.add A B) = M33.add (M33.transpose A) (M33.transpose B) ∧
    M33.transpose (M33.sub A B) = M33.sub (M33.transpose A) (M33.transpose B) ∧
    M33.transpose (M33.smul A s) = M33.smul (M33.transpose A) s := by
  refine ⟨Mat.ext (funext fun i => funext fun j => ?_), Mat.ext (funext fun i => funext fun j => ?_),
    Mat.ext (funext fun i => funext fun j => ?_), Mat.ext (funext fun i => funext fun j => ?_)⟩
  · fin_cases i <;> fin_cases j <;> exact add_comm' _ _
  all_goals (fin_cases i <;> fin_cases j <;> rfl)

/-- `(A * B)ᵀ` and `Bᵀ * Aᵀ` are bit-identical. -/
theorem C90_transpose_mul_M33 {f : Fmt} (A B : Mat 3 (Flt f)) :
    M33.transpose (M33.mul A B) = M33.mul (M33.transpose B) (M33.transpose A) := by
  refine Mat.ext (funext fun i => funext fun j => ?_)
  fin_cases i <;> fin_cases j <;>
    exact congrArg₂ (· + ·) (congrArg₂ (· + ·) (mul_comm' _ _) (mul_comm' _ _)) (mul_comm' _ _)

/-- Dot product and sum of vectors are bit-identical when the operands are swapped. -/
theorem C90_V4 {f : Fmt} (v w : Vec 4 (Flt f)) : V4.dot v w = V4.dot w v ∧ V4.add v w = V4.add w v := by
  constructor
  · unfold V4.dot
    rw [mul_comm' (v.val 0) (w.val 0), mul_comm' (v.val 1) (w.val 1), mul_comm' (v.val 2) (w.val 2), mul_comm' (v.val 3) (w.val 3)]
  · refine Vec.ext (funext fun i => ?_)
    fin_cases i <;> exact add_comm' _ _

/-- Transposition commutes bit for bit with `+`, `-` and scaling, and `A + B` with `B + A`. -/
theorem C90_transpose_M44 {f : Fmt} (A B : Mat 4 (Flt f)) (s : Flt f) :
    M44.add A B = M44.add B A ∧
    M44.transpose (M44.add A B) = M44.add (M44.transpose A) (M44.transpose B) ∧
    M44.transpose (M44.sub A B) = M44.sub (M44.transpose A) (M44.transpose B) ∧
    M44.transpose (M44.smul A s) = M44.smul (M44.transpose A) s := by
  refine ⟨Mat.ext (funext fun i => funext fun j => ?_), Mat.ext (funext fun i => funext fun j => ?_),
    Mat.ext (funext fun i => funext fun j => ?_), Mat.ext (funext fun i => funext fun j => ?_)⟩
  · fin_cases i <;> fin_cases j <;> exact add_comm' _ _
  all_goals (fin_cases i <;> fin_cases j <;> rfl)

/-- The 4x4 product adds the terms of its third row in another order, so that the same statement is
false there: in every format, one of the two products overflows where the other does not. -/
theorem C90_transpose_mul_M44_differs (f : Fmt) : ∃ A B : Mat 4 (Flt f),
    M44.transpose (M44.mul A B) ≠ M44.mul (M44.transpose B) (M44.transpose A) := by
  refine ⟨⟨![0, 0, ![maxValue f, maxValue f, -maxValue f, 0], 0]⟩, ⟨fun _ _ => 1⟩, fun h => ?_⟩
  have h' := congrFun (congrFun (congrArg Mat.val h) 0) 2
  have e1 : (M44.transpose (M44.mul (⟨![0, 0, ![maxValue f, maxValue f, -maxValue f, 0], 0]⟩ : Mat 4 (Flt f))
      ⟨fun _ _ => 1⟩)).val 0 2
      = maxValue f * 1 + -maxValue f * 1 + 0 * 1 + maxValue f * 1 := rfl
  have e2 : (M44.mul (M44.transpose (⟨fun _ _ => 1⟩ : Mat 4 (Flt f)))
      (M44.transpose ⟨![0, 0, ![maxValue f, maxValue f, -maxValue f, 0], 0]⟩)).val 0 2
      = 1 * maxValue f + 1 * maxValue f + 1 * -maxValue f + 1 * 0 := rfl
  rw [e1, e2] at h'
  simp only [mul_one', one_mul', max_add_max] at h'
  rw [inf_add_fin (show (-maxValue f).IsFin from trivial), inf_add_fin isFin_zero] at h'
  have hz : (maxValue f + -maxValue f).IsFin ∧ (maxValue f + -maxValue f).toReal = 0 := by
    have := add_exact (a := maxValue f) (b := -maxValue f) trivial trivial
      (by rw [toReal_neg, add_neg_cancel, abs_zero]; exact f.rep_zero)
    exact ⟨this.1, by rw [this.2, toReal_neg, add_neg_cancel]⟩
  have hz2 := add_zero_val hz.1 isFin_zero toReal_zero
  have hz3 := (zero_add_val hz2.1 (show (maxValue f).IsFin from trivial) (hz2.2.trans hz.2)).1
  rw [h'] at hz3
  exact hz3

/-- Dot product and sum of vectors are bit-identical when the operands are swapped. -/
theorem C90_V5 {f : Fmt} (v w : Vec 5 (Flt f)) : V5.dot v w = V5.dot w v ∧ V5.add v w = V5.add w v := by
  constructor
  · unfold V5.dot
    rw [mul_comm' (v.val 0) (w.val 0), mul_comm' (v.val 1) (w.val 1), mul_comm' (v.val 2) (w.val 2), mul_comm' (v.val 3) (w.val 3), mul_comm' (v.val 4) (w.val 4)]
  · refine Vec.ext (funext fun i => ?_)
    fin_cases i <;> exact add_comm' _ _

/-- Transposition commutes bit for bit with `+`, `-` and scaling, and `A + B` with `B + A`. -/
theorem C90_transpose_M55 {f : Fmt} (A B : Mat 5 (Flt f)) (s : Flt f) :
    M55.add A B = M55.add B A ∧
    M55.transpose (M55.add A B) = M55.add (M55.transpose A) (M55.transpose B) ∧
    M55.transpose (M55.sub A B) = M55.sub (M55.transpose A) (M55.transpose B) ∧
    M55.transpose (M55.smul A s) = M55.smul (M55.transpose A) s := by
  refine ⟨Mat.ext (funext fun i => funext fun j => ?_), Mat.ext (funext fun i => funext fun j => ?_),
    Mat.ext (funext fun i => funext fun j => ?_), Mat.ext (funext fun i => funext fun j => ?_)⟩
  · fin_cases i <;> fin_cases j <;> exact add_comm' _ _
  all_goals (fin_cases i <;> fin_cases j <;> rfl)

/-- `(A * B)ᵀ` and `Bᵀ * Aᵀ` are bit-identical. -/
theorem C90_transpose_mul_M55 {f : Fmt} (A B : Mat 5 (Flt f)) :
    M55.transpose (M55.mul A B) = M55.mul (M55.transpose B) (M55.transpose A) := by
  refine Mat.ext (funext fun i => funext fun j => ?_)
  fin_cases i <;> fin_cases j <;>
    exact congrArg₂ (· + ·) (congrArg₂ (· + ·) (congrArg₂ (· + ·) (congrArg₂ (· + ·) (mul_comm' _ _) (mul_comm' _ _)) (mul_comm' _ _)) (mul_comm' _ _)) (mul_comm' _ _)

/-- Dot product and sum of vectors are bit-identical when the operands are swapped. -/
theorem C90_V6 {f : Fmt} (v w : Vec 6 (Flt f)) : V6.dot v w = V6.dot w v ∧ V6.add v w = V6.add w v := by
  constructor
  · unfold V6.dot
    rw [mul_comm' (v.val 0) (w.val 0), mul_comm' (v.val 1) (w.val 1), mul_comm' (v.val 2) (w.val 2), mul_comm' (v.val 3) (w.val 3), mul_comm' (v.val 4) (w.val 4), mul_comm' (v.val 5) (w.val 5)]
  · refine Vec.ext (funext fun i => ?_)
    fin_cases i <;> exact add_comm' _ _

/-- Transposition commutes bit for bit with `+`, `-` and scaling, and `A + B` with `B + A`. -/
theorem C90_transpose_M66 {f : Fmt} (A B : Mat 6 (Flt f)) (s : Flt f) :
    M66.add A B = M66.add B A ∧
    M66.transpose (M66.add A B) = M66.add (M66.transpose A) (M66.transpose B) ∧
    M66.transpose (M66.sub A B) = M66.sub (M66.transpose A) (M66.transpose B) ∧
    M66.transpose (M66.smul A s) = M66.smul (M66.transpose A) s := by
  refine ⟨Mat.ext (funext fun i => funext fun j => ?_), Mat.ext (funext fun i => funext fun j => ?_),
    Mat.ext (funext fun i => funext fun j => ?_), Mat.ext (funext fun i => funext fun j => ?_)⟩
  · fin_cases i <;> fin_cases j <;> exact add_comm' _ _
  all_goals (fin_cases i <;> fin_cases j <;> rfl)

/-- `(A * B)ᵀ` and `Bᵀ * Aᵀ` are bit-identical. -/
theorem C90_transpose_mul_M66 {f : Fmt} (A B : Mat 6 (Flt f)) :
    M66.transpose (M66.mul A B) = M66.mul (M66.transpose B) (M66.transpose A) := by
  refine Mat.ext (funext fun i => funext fun j => ?_)
  fin_cases i <;> fin_cases j <;>
    exact congrArg₂ (· + ·) (congrArg₂ (· + ·) (congrArg₂ (· + ·) (congrArg₂ (· + ·) (congrArg₂ (· + ·) (mul_comm' _ _) (mul_comm' _ _)) (mul_comm' _ _)) (mul_comm' _ _)) (mul_comm' _ _)) (mul_comm' _ _)

/-- A case with NaN, an infinity and signed zeros. -/
example : V2.dot ⟨![nan, -0]⟩ (⟨![1, inf true]⟩ : Vec 2 (Flt Fmt.f32)) = V2.dot ⟨![1, inf true]⟩ ⟨![nan, -0]⟩ ∧
    M33.transpose (M33.mul ⟨fun _ _ => inf true⟩ (⟨fun _ _ => tiny Fmt.f64⟩ : Mat 3 (Flt Fmt.f64))) =
      M33.mul (M33.transpose ⟨fun _ _ => tiny Fmt.f64⟩) (M33.transpose ⟨fun _ _ => inf true⟩) :=
  ⟨(C90_V2 _ _).1, C90_transpose_mul_M33 _ _⟩

/-! ## C91 inverse and NaN -/

/-- `inverse()` never panics; it returns `Some` when the computed determinant is NaN or infinite,
and `None` exactly when the computed determinant is finite and smaller than `EPSILON`. -/
theorem C91_M22 {f : Fmt} [Libm f] (A : Mat 2 (Flt f)) :
    ((M22.det A = nan ∨ ∃ s, M22.det A = inf s) → ∃ B, M22.inverse A = .ok (some B)) ∧
    (M22.inverse A = .ok none ↔ (M22.det A).IsFin ∧ |(M22.det A).toReal| < (2 : ℝ) ^ (1 - (f.p : ℤ))) ∧
    ∃ r, M22.inverse A = .ok r := by
  rw [← nearly_zero_flt]
  rcases M22.inverse_cases A with ⟨h, e⟩ | ⟨h, B, e⟩
  · refine ⟨fun hd => absurd ((nearly_zero_flt _).1 h).1 ?_, by simp [h, e], _, e⟩
    rcases hd with hd | ⟨s, hd⟩ <;> (rw [hd]; exact id)
  · exact ⟨fun _ => ⟨B, e⟩, by simp [h, e], _, e⟩

/-- `inverse()` never panics; it returns `Some` when the computed determinant is NaN or infinite,
and `None` exactly when the computed determinant is finite and smaller than `EPSILON`. -/
theorem C91_M33 {f : Fmt} [Libm f] (A : Mat 3 (Flt f)) :
    ((M33.det A = nan ∨ ∃ s, M33.det A = inf s) → ∃ B, M33.inverse A = .ok (some B)) ∧
    (M33.inverse A = .ok none ↔ (M33.det A).IsFin ∧ |(M33.det A).toReal| < (2 : ℝ) ^ (1 - (f.p : ℤ))) ∧
    ∃ r, M33.inverse A = .ok r := by
  rw [← nearly_zero_flt]
  rcases M33.inverse_cases A with ⟨h, e⟩ | ⟨h, B, e⟩
  · refine ⟨fun hd => absurd ((nearly_zero_flt _).1 h).1 ?_, by simp [h, e], _, e⟩
    rcases hd with hd | ⟨s, hd⟩ <;> (rw [hd]; exact id)
  · exact ⟨fun _ => ⟨B, e⟩, by simp [h, e], _, e⟩

/-- `inverse()` never panics; it returns `Some` when the computed determinant is NaN or infinite,
and `None` exactly when the computed determinant is finite and smaller than `EPSILON`. -/
theorem C91_M44 {f : Fmt} [Libm f] (A : Mat 4 (Flt f)) :
    ((M44.det A = nan ∨ ∃ s, M44.det A = inf s) → ∃ B, M44.inverse A = .ok (some B)) ∧
    (M44.inverse A = .ok none ↔ (M44.det A).IsFin ∧ |(M44.det A).toReal| < (2 : ℝ) ^ (1 - (f.p : ℤ))) ∧
    ∃ r, M44.inverse A = .ok r := by
  rw [← nearly_zero_flt]
  rcases M44.inverse_cases A with ⟨h, e⟩ | ⟨h, B, e⟩
  · refine ⟨fun hd => absurd ((nearly_zero_flt _).1 h).1 ?_, by simp [h, e], _, e⟩
    rcases hd with hd | ⟨s, hd⟩ <;> (rw [hd]; exact id)
  · exact ⟨fun _ => ⟨B, e⟩, by simp [h, e], _, e⟩

set_option maxRecDepth 8000 in
/-- `inverse()` never panics; it returns `Some` when the computed determinant is NaN or infinite,
and `None` exactly when the computed determinant is finite and smaller than `EPSILON`. -/
theorem C91_M55 {f : Fmt} [Libm f] (A : Mat 5 (Flt f)) :
    ((M55.det A = nan ∨ ∃ s, M55.det A = inf s) → ∃ B, M55.inverse A = .ok (some B)) ∧
    (M55.inverse A = .ok none ↔ (M55.det A).IsFin ∧ |(M55.det A).toReal| < (2 : ℝ) ^ (1 - (f.p : ℤ))) ∧
    ∃ r, M55.inverse A = .ok r := by
  rw [← nearly_zero_flt]
  rcases M55.inverse_cases A with ⟨h, e⟩ | ⟨h, B, e⟩
  · refine ⟨fun hd => absurd ((nearly_zero_flt _).1 h).1 ?_, by simp [h, e], _, e⟩
    rcases hd with hd | ⟨s, hd⟩ <;> (rw [hd]; exact id)
  · exact ⟨fun _ => ⟨B, e⟩, by simp [h, e], _, e⟩

set_option maxRecDepth 8000 in
/-- `inverse()` never panics; it returns `Some` when the computed determinant is NaN or infinite,
and `None` exactly when the computed determinant is finite and smaller than `EPSILON`. -/
theorem C91_M66 {f : Fmt} [Libm f] (A : Mat 6 (Flt f)) :
    ((M66.det A = nan ∨ ∃ s, M66.det A = inf s) → ∃ B, M66.inverse A = .ok (some B)) ∧
    (M66.inverse A = .ok none ↔ (M66.det A).IsFin ∧ |(M66.det A).toReal| < (2 : ℝ) ^ (1 - (f.p : ℤ))) ∧
    ∃ r, M66.inverse A = .ok r := by
  rw [← nearly_zero_flt]
  rcases M66.inverse_cases A with ⟨h, e⟩ | ⟨h, B, e⟩
  · refine ⟨fun hd => absurd ((nearly_zero_flt _).1 h).1 ?_, by simp [h, e], _, e⟩
    rcases hd with hd | ⟨s, hd⟩ <;> (rw [hd]; exact id)
  · exact ⟨fun _ => ⟨B, e⟩, by simp [h, e], _, e⟩

/-- The matrix of NaNs is reported invertible, the zero matrix is not. -/
example : let _ := anyLibm Fmt.f64
    (∃ B, M22.inverse (⟨fun _ _ => nan⟩ : Mat 2 (Flt Fmt.f64)) = .ok (some B)) ∧
    M22.inverse (M22.zero : Mat 2 (Flt Fmt.f64)) = .ok none := by
  intro _
  refine ⟨(C91_M22 _).1 (Or.inl rfl), (C91_M22 _).2.1.2 ?_⟩
  have hz := mul_zero_fin (isFin_zero (f := Fmt.f64))
  have hs : (0 * 0 - 0 * 0 : Flt Fmt.f64).IsFin ∧ (0 * 0 - 0 * 0 : Flt Fmt.f64).toReal = 0 := by
    have := add_zero_val (a := (0 * 0 : Flt Fmt.f64)) (b := -(0 * 0)) hz.1 (isFin_neg.2 hz.1)
      (by rw [toReal_neg, hz.2, neg_zero])
    exact ⟨this.1, this.2.trans hz.2⟩
  refine ⟨hs.1, ?_⟩
  change |(0 * 0 - 0 * 0 : Flt Fmt.f64).toReal| < _
  rw [hs.2, abs_zero]
  positivity

/-! ## C92 normalize on extreme magnitudes -/

private theorem norm2_2 {f : Fmt} [Libm f] (v : Vec 2 (Flt f)) : V2.norm2 v = Flt.sqrt (V2.dot v v) := rfl

/-- `normalize()` never panics and returns `Err` exactly when the computed norm is a zero. When the norm
overflows, a finite vector is "normalised" to a vector of zeros. -/
theorem C92_V2 {f : Fmt} [Libm f] (v : Vec 2 (Flt f)) :
    (V2.normalize v = .ok (.error .Norm2IsZero) ↔ (V2.norm2 v).IsFin ∧ (V2.norm2 v).toReal = 0) ∧
    (∃ r, V2.normalize v = .ok r) ∧
    ((∀ i, (v i).IsFin) → V2.norm2 v = inf false →
      ∃ w, V2.normalize v = .ok (.ok w) ∧ ∀ i, (w i).IsFin ∧ (w i).toReal = 0) := by
  have hb : ROrd.beq (V2.norm2 v) 0 = true ↔ (V2.norm2 v).IsFin ∧ (V2.norm2 v).toReal = 0 := by
    by_cases h : (V2.norm2 v).IsFin
    · rw [beq_iff h isFin_zero]
      simp [h]
    · simp only [h, false_and, iff_false, Bool.not_eq_true]
      rcases notFin_cases h with e | ⟨s, e⟩ <;> rw [e] <;> rfl
  unfold V2.normalize
  rw [normalizeGen_eq]
  refine ⟨?_, ?_, fun hv hi => ?_⟩
  · rw [← hb]
    by_cases h : ROrd.beq (V2.norm2 v) 0 = true <;> simp [h]
  · by_cases h : ROrd.beq (V2.norm2 v) 0 = true
    · exact ⟨_, if_pos h⟩
    · exact ⟨_, if_neg h⟩
  · have h : ¬ROrd.beq (V2.norm2 v) 0 = true := by
      rw [hb, hi]
      exact fun h => h.1
    refine ⟨_, if_neg h, fun i => ?_⟩
    rw [hi]
    exact div_inf (hv i) false

/-- In every format a non-zero vector exists whose normalisation is refused (its norm underflows),
and a finite vector whose norm overflows. -/
theorem C92_witness_V2 (f : Fmt) [Libm f] :
    (∃ v : Vec 2 (Flt f), (∀ i, (v i).IsFin) ∧ (v 0).toReal ≠ 0 ∧
      V2.normalize v = .ok (.error .Norm2IsZero)) ∧
    ∃ v : Vec 2 (Flt f), (∀ i, (v i).IsFin) ∧ V2.norm2 v = inf false := by
  have hz := mul_zero_fin (isFin_zero (f := f))
  refine ⟨⟨⟨fun i => if i = 0 then tiny f else 0⟩, fun i => ?_, ?_, ?_⟩,
    ⟨⟨fun i => if i = 0 then maxValue f else 0⟩, fun i => ?_, ?_⟩⟩
  · by_cases h : i = 0
    · simp only [h, if_true]; trivial
    · simp only [h, if_false]; trivial
  · change (2 : ℝ) ^ _ ≠ 0
    positivity
  · rw [(C92_V2 _).1, norm2_2]
    have hd := orderedSum_single (V2.dot_order (⟨fun i => if i = 0 then tiny f else 0⟩ : Vec 2 (Flt f))
      ⟨fun i => if i = 0 then tiny f else 0⟩) 0 (tiny_mul_tiny f).1
      (fun j hj => by simp only [hj, if_false]; exact hz)
    exact sqrt_zero_val hd.1 (hd.2.trans (tiny_mul_tiny f).2)
  · by_cases h : i = 0
    · simp only [h, if_true]; trivial
    · simp only [h, if_false]; trivial
  · rw [norm2_2, orderedSum_inf (V2.dot_order (⟨fun i => if i = 0 then maxValue f else 0⟩ : Vec 2 (Flt f))
      ⟨fun i => if i = 0 then maxValue f else 0⟩) 0 false (max_mul_max f)
      (fun j hj => by simp only [hj, if_false]; exact hz)]
    rfl

example : let _ := anyLibm Fmt.f32
    ∃ v w : Vec 2 (Flt Fmt.f32), (∀ i, (v i).IsFin) ∧ V2.normalize v = .ok (.ok w) ∧ (w 0).toReal = 0 := by
  intro _
  obtain ⟨v, hv, hn⟩ := (C92_witness_V2 Fmt.f32).2
  obtain ⟨w, hw, h⟩ := (C92_V2 v).2.2 hv hn
  exact ⟨v, w, hv, hw, (h 0).2⟩

private theorem norm2_3 {f : Fmt} [Libm f] (v : Vec 3 (Flt f)) : V3.norm2 v = Flt.sqrt (V3.dot v v) := rfl

/-- `normalize()` never panics and returns `Err` exactly when the computed norm is a zero. When the norm
overflows, a finite vector is "normalised" to a vector of zeros. -/
theorem C92_V3 {f : Fmt} [Libm f] (v : Vec 3 (Flt f)) :
    (V3.normalize v = .ok (.error .Norm2IsZero) ↔ (V3.norm2 v).IsFin ∧ (V3.norm2 v).toReal = 0) ∧
    (∃ r, V3.normalize v = .ok r) ∧
    ((∀ i, (v i).IsFin) → V3.norm2 v = inf false →
      ∃ w, V3.normalize v = .ok (.ok w) ∧ ∀ i, (w i).IsFin ∧ (w i).toReal = 0) := by
  have hb : ROrd.beq (V3.norm2 v) 0 = true ↔ (V3.norm2 v).IsFin ∧ (V3.norm2 v).toReal = 0 := by
    by_cases h : (V3.norm2 v).IsFin
    · rw [beq_iff h isFin_zero]
      simp [h]
    · simp only [h, false_and, iff_false, Bool.not_eq_true]
      rcases notFin_cases h with e | ⟨s, e⟩ <;> rw [e] <;> rfl
  unfold V3.normalize
  rw [normalizeGen_eq]
  refine ⟨?_, ?_, fun hv hi => ?_⟩
  · rw [← hb]
    by_cases h : ROrd.beq (V3.norm2 v) 0 = true <;> simp [h]
  · by_cases h : ROrd.beq (V3.norm2 v) 0 = true
    · exact ⟨_, if_pos h⟩
    · exact ⟨_, if_neg h⟩
  · have h : ¬ROrd.beq (V3.norm2 v) 0 = true := by
      rw [hb, hi]
      exact fun h => h.1
    refine ⟨_, if_neg h, fun i => ?_⟩
    rw [hi]
    exact div_inf (hv i) false

/-- In every format a non-zero vector exists whose normalisation is refused (its norm underflows),
and a finite vector whose norm overflows. -/
theorem C92_witness_V3 (f : Fmt) [Libm f] :
    (∃ v : Vec 3 (Flt f), (∀ i, (v i).IsFin) ∧ (v 0).toReal ≠ 0 ∧
      V3.normalize v = .ok (.error .Norm2IsZero)) ∧
    ∃ v : Vec 3 (Flt f), (∀ i, (v i).IsFin) ∧ V3.norm2 v = inf false := by
  have hz := mul_zero_fin (isFin_zero (f := f))
  refine ⟨⟨⟨fun i => if i = 0 then tiny f else 0⟩, fun i => ?_, ?_, ?_⟩,
    ⟨⟨fun i => if i = 0 then maxValue f else 0⟩, fun i => ?_, ?_⟩⟩
  · by_cases h : i = 0
    · simp only [h, if_true]; trivial
    · simp only [h, if_false]; trivial
  · change (2 : ℝ) ^ _ ≠ 0
    positivity
  · rw [(C92_V3 _).1, norm2_3]
    have hd := orderedSum_single (V3.dot_order (⟨fun i => if i = 0 then tiny f else 0⟩ : Vec 3 (Flt f))
      ⟨fun i => if i = 0 then tiny f else 0⟩) 0 (tiny_mul_tiny f).1
      (fun j hj => by simp only [hj, if_false]; exact hz)
    exact sqrt_zero_val hd.1 (hd.2.trans (tiny_mul_tiny f).2)
  · by_cases h : i = 0
    · simp only [h, if_true]; trivial
    · simp only [h, if_false]; trivial
  · rw [norm2_3, orderedSum_inf (V3.dot_order (⟨fun i => if i = 0 then maxValue f else 0⟩ : Vec 3 (Flt f))
      ⟨fun i => if i = 0 then maxValue f else 0⟩) 0 false (max_mul_max f)
      (fun j hj => by simp only [hj, if_false]; exact hz)]
    rfl

example : let _ := anyLibm Fmt.f32
    ∃ v w : Vec 3 (Flt Fmt.f32), (∀ i, (v i).IsFin) ∧ V3.normalize v = .ok (.ok w) ∧ (w 0).toReal = 0 := by
  intro _
  obtain ⟨v, hv, hn⟩ := (C92_witness_V3 Fmt.f32).2
  obtain ⟨w, hw, h⟩ := (C92_V3 v).2.2 hv hn
  exact ⟨v, w, hv, hw, (h 0).2⟩

private theorem norm2_4 {f : Fmt} [Libm f] (v : Vec 4 (Flt f)) : V4.norm2 v = Flt.sqrt (V4.dot v v) := rfl

/-- `normalize()` never panics and returns `Err` exactly when the computed norm is a zero. When the norm
overflows, a finite vector is "normalised" to a vector of zeros. -/
theorem C92_V4 {f : Fmt} [Libm f] (v : Vec 4 (Flt f)) :
    (V4.normalize v = .ok (.error .Norm2IsZero) ↔ (V4.norm2 v).IsFin ∧ (V4.norm2 v).toReal = 0) ∧
    (∃ r, V4.normalize v = .ok r) ∧
    ((∀ i, (v i).IsFin) → V4.norm2 v = inf false →
      ∃ w, V4.normalize v = .ok (.ok w) ∧ ∀ i, (w i).IsFin ∧ (w i).toReal = 0) := by
  have hb : ROrd.beq (V4.norm2 v) 0 = true ↔ (V4.norm2 v).IsFin ∧ (V4.norm2 v).toReal = 0 := by
    by_cases h : (V4.norm2 v).IsFin
    · rw [beq_iff h isFin_zero]
      simp [h]
    · simp only [h, false_and, iff_false, Bool.not_eq_true]
      rcases notFin_cases h with e | ⟨s, e⟩ <;> rw [e] <;> rfl
  unfold V4.normalize
  rw [normalizeGen_eq]
  refine ⟨?_, ?_, fun hv hi => ?_⟩
  · rw [← hb]
    by_cases h : ROrd.beq (V4.norm2 v) 0 = true <;> simp [h]
  · by_cases h : ROrd.beq (V4.norm2 v) 0 = true
    · exact ⟨_, if_pos h⟩
    · exact ⟨_, if_neg h⟩
  · have h : ¬ROrd.beq (V4.norm2 v) 0 = true := by
      rw [hb, hi]
      exact fun h => h.1
    refine ⟨_, if_neg h, fun i => ?_⟩
    rw [hi]
    exact div_inf (hv i) false

/-- In every format a non-zero vector exists whose normalisation is refused (its norm underflows),
and a finite vector whose norm overflows. -/
theorem C92_witness_V4 (f : Fmt) [Libm f] :
    (∃ v : Vec 4 (Flt f), (∀ i, (v i).IsFin) ∧ (v 0).toReal ≠ 0 ∧
      V4.normalize v = .ok (.error .Norm2IsZero)) ∧
    ∃ v : Vec 4 (Flt f), (∀ i, (v i).IsFin) ∧ V4.norm2 v = inf false := by
  have hz := mul_zero_fin (isFin_zero (f := f))
  refine ⟨⟨⟨fun i => if i = 0 then tiny f else 0⟩, fun i => ?_, ?_, ?_⟩,
    ⟨⟨fun i => if i = 0 then maxValue f else 0⟩, fun i => ?_, ?_⟩⟩
  · by_cases h : i = 0
    · simp only [h, if_true]; trivial
    · simp only [h, if_false]; trivial
  · change (2 : ℝ) ^ _ ≠ 0
    positivity
  · rw [(C92_V4 _).1, norm2_4]
    have hd := orderedSum_single (V4.dot_order (⟨fun i => if i = 0 then tiny f else 0⟩ : Vec 4 (Flt f))
      ⟨fun i => if i = 0 then tiny f else 0⟩) 0 (tiny_mul_tiny f).1
      (fun j hj => by simp only [hj, if_false]; exact hz)
    exact sqrt_zero_val hd.1 (hd.2.trans (tiny_mul_tiny f).2)
  · by_cases h : i = 0
    · simp only [h, if_true]; trivial
    · simp only [h, if_false]; trivial
  · rw [norm2_4, orderedSum_inf (V4.dot_order (⟨fun i => if i = 0 then maxValue f else 0⟩ : Vec 4 (Flt f))
      ⟨fun i => if i = 0 then maxValue f else 0⟩) 0 false (max_mul_max f)
      (fun j hj => by simp only [hj, if_false]; exact hz)]
    rfl

example : let _ := anyLibm Fmt.f32
    ∃ v w : Vec 4 (Flt Fmt.f32), (∀ i, (v i).IsFin) ∧ V4.normalize v = .ok (.ok w) ∧ (w 0).toReal = 0 := by
  intro _
  obtain ⟨v, hv, hn⟩ := (C92_witness_V4 Fmt.f32).2
  obtain ⟨w, hw, h⟩ := (C92_V4 v).2.2 hv hn
  exact ⟨v, w, hv, hw, (h 0).2⟩

private theorem norm2_5 {f : Fmt} [Libm f] (v : Vec 5 (Flt f)) : V5.norm2 v = Flt.sqrt (V5.dot v v) := rfl

/-- `normalize()` never panics and returns `Err` exactly when the computed norm is a zero. When the norm
overflows, a finite vector is "normalised" to a vector of zeros. -/
theorem C92_V5 {f : Fmt} [Libm f] (v : Vec 5 (Flt f)) :
    (V5.normalize v = .ok (.error .Norm2IsZero) ↔ (V5.norm2 v).IsFin ∧ (V5.norm2 v).toReal = 0) ∧
    (∃ r, V5.normalize v = .ok r) ∧
    ((∀ i, (v i).IsFin) → V5.norm2 v = inf false →
      ∃ w, V5.normalize v = .ok (.ok w) ∧ ∀ i, (w i).IsFin ∧ (w i).toReal = 0) := by
  have hb : ROrd.beq (V5.norm2 v) 0 = true ↔ (V5.norm2 v).IsFin ∧ (V5.norm2 v).toReal = 0 := by
    by_cases h : (V5.norm2 v).IsFin
    · rw [beq_iff h isFin_zero]
      simp [h]
    · simp only [h, false_and, iff_false, Bool.not_eq_true]
      rcases notFin_cases h with e | ⟨s, e⟩ <;> rw [e] <;> rfl
  unfold V5.normalize
  rw [normalizeGen_eq]
  refine ⟨?_, ?_, fun hv hi => ?_⟩
  · rw [← hb]
    by_cases h : ROrd.beq (V5.norm2 v) 0 = true <;> simp [h]
  · by_cases h : ROrd.beq (V5.norm2 v) 0 = true
    · exact ⟨_, if_pos h⟩
    · exact ⟨_, if_neg h⟩
  · have h : ¬ROrd.beq (V5.norm2 v) 0 = true := by
      rw [hb, hi]
      exact fun h => h.1
    refine ⟨_, if_neg h, fun i => ?_⟩
    rw [hi]
    exact div_inf (hv i) false

/-- In every format a non-zero vector exists whose normalisation is refused (its norm underflows),
and a finite vector whose norm overflows. -/
theorem C92_witness_V5 (f : Fmt) [Libm f] :
    (∃ v : Vec 5 (Flt f), (∀ i, (v i).IsFin) ∧ (v 0).toReal ≠ 0 ∧
      V5.normalize v = .ok (.error .Norm2IsZero)) ∧
    ∃ v : Vec 5 (Flt f), (∀ i, (v i).IsFin) ∧ V5.norm2 v = inf false := by
  have hz := mul_zero_fin (isFin_zero (f := f))
  refine ⟨⟨⟨fun i => if i = 0 then tiny f else 0⟩, fun i => ?_, ?_, ?_⟩,
    ⟨⟨fun i => if i = 0 then maxValue f else 0⟩, fun i => ?_, ?_⟩⟩
  · by_cases h : i = 0
    · simp only [h, if_true]; trivial
    · simp only [h, if_false]; trivial
  · change (2 : ℝ) ^ _ ≠ 0
    positivity
  · rw [(C92_V5 _).1, norm2_5]
    have hd := orderedSum_single (V5.dot_order (⟨fun i => if i = 0 then tiny f else 0⟩ : Vec 5 (Flt f))
      ⟨fun i => if i = 0 then tiny f else 0⟩) 0 (tiny_mul_tiny f).1
      (fun j hj => by simp only [hj, if_false]; exact hz)
    exact sqrt_zero_val hd.1 (hd.2.trans (tiny_mul_tiny f).2)
  · by_cases h : i = 0
    · simp only [h, if_true]; trivial
    · simp only [h, if_false]; trivial
  · rw [norm2_5, orderedSum_inf (V5.dot_order (⟨fun i => if i = 0 then maxValue f else 0⟩ : Vec 5 (Flt f))
      ⟨fun i => if i = 0 then maxValue f else 0⟩) 0 false (max_mul_max f)
      (fun j hj => by simp only [hj, if_false]; exact hz)]
    rfl

example : let _ := anyLibm Fmt.f32
    ∃ v w : Vec 5 (Flt Fmt.f32), (∀ i, (v i).IsFin) ∧ V5.normalize v = .ok (.ok w) ∧ (w 0).toReal = 0 := by
  intro _
  obtain ⟨v, hv, hn⟩ := (C92_witness_V5 Fmt.f32).2
  obtain ⟨w, hw, h⟩ := (C92_V5 v).2.2 hv hn
  exact ⟨v, w, hv, hw, (h 0).2⟩

private theorem norm2_6 {f : Fmt} [Libm f] (v : Vec 6 (Flt f)) : V6.norm2 v = Flt.sqrt (V6.dot v v) := rfl

/-- `normalize()` never panics and returns `Err` exactly when the computed norm is a zero. When the norm
overflows, a finite vector is "normalised" to a vector of zeros. -/
theorem C92_V6 {f : Fmt} [Libm f] (v : Vec 6 (Flt f)) :
    (V6.normalize v = .ok (.error .Norm2IsZero) ↔ (V6.norm2 v).IsFin ∧ (V6.norm2 v).toReal = 0) ∧
    (∃ r, V6.normalize v = .ok r) ∧
    ((∀ i, (v i).IsFin) → V6.norm2 v = inf false →
      ∃ w, V6.normalize v = .ok (.ok w) ∧ ∀ i, (w i).IsFin ∧ (w i).toReal = 0) := by
  have hb : ROrd.beq (V6.norm2 v) 0 = true ↔ (V6.norm2 v).IsFin ∧ (V6.norm2 v).toReal = 0 := by
    by_cases h : (V6.norm2 v).IsFin
    · rw [beq_iff h isFin_zero]
      simp [h]
    · simp only [h, false_and, iff_false, Bool.not_eq_true]
      rcases notFin_cases h with e | ⟨s, e⟩ <;> rw [e] <;> rfl
  unfold V6.normalize
  rw [normalizeGen_eq]
  refine ⟨?_, ?_, fun hv hi => ?_⟩
  · rw [← hb]
    by_cases h : ROrd.beq (V6.norm2 v) 0 = true <;> simp [h]
  · by_cases h : ROrd.beq (V6.norm2 v) 0 = true
    · exact ⟨_, if_pos h⟩
    · exact ⟨_, if_neg h⟩
  · have h : ¬ROrd.beq (V6.norm2 v) 0 = true := by
      rw [hb, hi]
      exact fun h => h.1
    refine ⟨_, if_neg h, fun i => ?_⟩
    rw [hi]
    exact div_inf (hv i) false

/-- In every format a non-zero vector exists whose normalisation is refused (its norm underflows),
and a finite vector whose norm overflows. -/
theorem C92_witness_V6 (f : Fmt) [Libm f] :
    (∃ v : Vec 6 (Flt f), (∀ i, (v i).IsFin) ∧ (v 0).toReal ≠ 0 ∧
      V6.normalize v = .ok (.error .Norm2IsZero)) ∧
    ∃ v : Vec 6 (Flt f), (∀ i, (v i).IsFin) ∧ V6.norm2 v = inf false := by
  have hz := mul_zero_fin (isFin_zero (f := f))
  refine ⟨⟨⟨fun i => if i = 0 then tiny f else 0⟩, fun i => ?_, ?_, ?_⟩,
    ⟨⟨fun i => if i = 0 then maxValue f else 0⟩, fun i => ?_, ?_⟩⟩
  · by_cases h : i = 0
    · simp only [h, if_true]; trivial
    · simp only [h, if_false]; trivial
  · change (2 : ℝ) ^ _ ≠ 0
    positivity
  · rw [(C92_V6 _).1, norm2_6]
    have hd := orderedSum_single (V6.dot_order (⟨fun i => if i = 0 then tiny f else 0⟩ : Vec 6 (Flt f))
      ⟨fun i => if i = 0 then tiny f else 0⟩) 0 (tiny_mul_tiny f).1
      (fun j hj => by simp only [hj, if_false]; exact hz)
    exact sqrt_zero_val hd.1 (hd.2.trans (tiny_mul_tiny f).2)
  · by_cases h : i = 0
    · simp only [h, if_true]; trivial
    · simp only [h, if_false]; trivial
  · rw [norm2_6, orderedSum_inf (V6.dot_order (⟨fun i => if i = 0 then maxValue f else 0⟩ : Vec 6 (Flt f))
      ⟨fun i => if i = 0 then maxValue f else 0⟩) 0 false (max_mul_max f)
      (fun j hj => by simp only [hj, if_false]; exact hz)]
    rfl

example : let _ := anyLibm Fmt.f32
    ∃ v w : Vec 6 (Flt Fmt.f32), (∀ i, (v i).IsFin) ∧ V6.normalize v = .ok (.ok w) ∧ (w 0).toReal = 0 := by
  intro _
  obtain ⟨v, hv, hn⟩ := (C92_witness_V6 Fmt.f32).2
  obtain ⟨w, hw, h⟩ := (C92_V6 v).2.2 hv hn
  exact ⟨v, w, hv, hw, (h 0).2⟩

/-! ## C93 forward error

`f.u = 2^(-p)` is the unit roundoff and `f.eta = 2^(emin-p)` half the smallest positive number. The
only hypothesis of the general bound is that the computed result is finite; the bound of the claim
follows when no product falls into the subnormal range. -/

/-- Forward error of the dot product. -/
theorem C93_dot_V2 {f : Fmt} (v w : Vec 2 (Flt f)) (h : (V2.dot v w).IsFin) :
    (|(V2.dot v w).toReal - ∑ k, (v k).toReal * (w k).toReal| ≤
      ((1 + f.u) ^ 2 - 1) * ∑ k, |(v k).toReal * (w k).toReal| + (1 + f.u) ^ 2 * (2 * f.eta)) ∧
    ((∀ k, (v k).toReal * (w k).toReal = 0 ∨ (2 : ℝ) ^ f.emin ≤ |(v k).toReal * (w k).toReal|) →
      |(V2.dot v w).toReal - ∑ k, (v k).toReal * (w k).toReal| ≤
        ((1 + f.u) ^ 2 - 1) * ∑ k, |(v k).toReal * (w k).toReal|) :=
  ⟨by simpa using orderedSum_err (V2.dot_order v w) h, orderedSum_rel (V2.dot_order v w) h⟩

/-- Forward error of each entry of a matrix-vector product. -/
theorem C93_mulVec_M22 {f : Fmt} (A : Mat 2 (Flt f)) (v : Vec 2 (Flt f)) (i : Fin 2) (h : (M22.mulVec A v i).IsFin) :
    (|(M22.mulVec A v i).toReal - ∑ k, (A i k).toReal * (v k).toReal| ≤
      ((1 + f.u) ^ 2 - 1) * ∑ k, |(A i k).toReal * (v k).toReal| + (1 + f.u) ^ 2 * (2 * f.eta)) ∧
    ((∀ k, (A i k).toReal * (v k).toReal = 0 ∨ (2 : ℝ) ^ f.emin ≤ |(A i k).toReal * (v k).toReal|) →
      |(M22.mulVec A v i).toReal - ∑ k, (A i k).toReal * (v k).toReal| ≤
        ((1 + f.u) ^ 2 - 1) * ∑ k, |(A i k).toReal * (v k).toReal|) :=
  ⟨by simpa using orderedSum_err (M22.mulVec_order A v i) h, orderedSum_rel (M22.mulVec_order A v i) h⟩

/-- Forward error of each entry of a matrix product. -/
theorem C93_mul_M22 {f : Fmt} (A B : Mat 2 (Flt f)) (i j : Fin 2) (h : (M22.mul A B i j).IsFin) :
    (|(M22.mul A B i j).toReal - ∑ k, (A i k).toReal * (B k j).toReal| ≤
      ((1 + f.u) ^ 2 - 1) * ∑ k, |(A i k).toReal * (B k j).toReal| + (1 + f.u) ^ 2 * (2 * f.eta)) ∧
    ((∀ k, (A i k).toReal * (B k j).toReal = 0 ∨ (2 : ℝ) ^ f.emin ≤ |(A i k).toReal * (B k j).toReal|) →
      |(M22.mul A B i j).toReal - ∑ k, (A i k).toReal * (B k j).toReal| ≤
        ((1 + f.u) ^ 2 - 1) * ∑ k, |(A i k).toReal * (B k j).toReal|) :=
  ⟨by simpa using orderedSum_err (M22.mul_order A B i j) h, orderedSum_rel (M22.mul_order A B i j) h⟩

/-- A computed product that is finite and whose terms do not underflow. -/
example (i : Fin 2) : (M22.mulVec M22.one ⟨fun _ => maxValue Fmt.f32⟩ i).IsFin ∧
    ∀ k, ((M22.one : Mat 2 (Flt Fmt.f32)) i k).toReal * (maxValue Fmt.f32).toReal = 0 ∨
      (2 : ℝ) ^ Fmt.f32.emin ≤ |((M22.one : Mat 2 (Flt Fmt.f32)) i k).toReal * (maxValue Fmt.f32).toReal| := by
  refine ⟨(orderedSum_single (M22.mulVec_order _ _ i) i (by rw [one_2, if_pos rfl, one_mul']; trivial)
      (fun k hk => by rw [one_2, if_neg hk.symm]; exact zero_mul_fin trivial)).1, fun k => ?_⟩
  rw [one_2]
  by_cases h : i = k
  · refine Or.inr ?_
    rw [if_pos h, toReal_one, one_mul]
    refine le_trans ?_ (le_abs_self _)
    refine le_trans ?_ (max_ge _)
    have h1 : (2 : ℝ) ^ Fmt.f32.emin ≤ 2 ^ Fmt.f32.emax := zpow_le_zpow_right₀ (by norm_num) (by decide)
    have h2 : (2 : ℝ) ^ (Fmt.f32.emax + 1) = 2 ^ Fmt.f32.emax * 2 := zpow_add_one₀ (by norm_num) _
    have h3 : (0 : ℝ) < 2 ^ Fmt.f32.emax := by positivity
    linarith
  · exact Or.inl (by rw [if_neg h, toReal_zero, zero_mul])

/-- Forward error of the dot product. -/
theorem C93_dot_V3 {f : Fmt} (v w : Vec 3 (Flt f)) (h : (V3.dot v w).IsFin) :
    (|(V3.dot v w).toReal - ∑ k, (v k).toReal * (w k).toReal| ≤
      ((1 + f.u) ^ 3 - 1) * ∑ k, |(v k).toReal * (w k).toReal| + (1 + f.u) ^ 3 * (3 * f.eta)) ∧
    ((∀ k, (v k).toReal * (w k).toReal = 0 ∨ (2 : ℝ) ^ f.emin ≤ |(v k).toReal * (w k).toReal|) →
      |(V3.dot v w).toReal - ∑ k, (v k).toReal * (w k).toReal| ≤
        ((1 + f.u) ^ 3 - 1) * ∑ k, |(v k).toReal * (w k).toReal|) :=
  ⟨by simpa using orderedSum_err (V3.dot_order v w) h, orderedSum_rel (V3.dot_order v w) h⟩

/-- Forward error of each entry of a matrix-vector product. -/
theorem C93_mulVec_M33 {f : Fmt} (A : Mat 3 (Flt f)) (v : Vec 3 (Flt f)) (i : Fin 3) (h : (M33.mulVec A v i).IsFin) :
    (|(M33.mulVec A v i).toReal - ∑ k, (A i k).toReal * (v k).toReal| ≤
      ((1 + f.u) ^ 3 - 1) * ∑ k, |(A i k).toReal * (v k).toReal| + (1 + f.u) ^ 3 * (3 * f.eta)) ∧
    ((∀ k, (A i k).toReal * (v k).toReal = 0 ∨ (2 : ℝ) ^ f.emin ≤ |(A i k).toReal * (v k).toReal|) →
      |(M33.mulVec A v i).toReal - ∑ k, (A i k).toReal * (v k).toReal| ≤
        ((1 + f.u) ^ 3 - 1) * ∑ k, |(A i k).toReal * (v k).toReal|) :=
  ⟨by simpa using orderedSum_err (M33.mulVec_order A v i) h, orderedSum_rel (M33.mulVec_order A v i) h⟩

/-- Forward error of each entry of a matrix product. -/
theorem C93_mul_M33 {f : Fmt} (A B : Mat 3 (Flt f)) (i j : Fin 3) (h : (M33.mul A B i j).IsFin) :
    (|(M33.mul A B i j).toReal - ∑ k, (A i k).toReal * (B k j).toReal| ≤
      ((1 + f.u) ^ 3 - 1) * ∑ k, |(A i k).toReal * (B k j).toReal| + (1 + f.u) ^ 3 * (3 * f.eta)) ∧
    ((∀ k, (A i k).toReal * (B k j).toReal = 0 ∨ (2 : ℝ) ^ f.emin ≤ |(A i k).toReal * (B k j).toReal|) →
      |(M33.mul A B i j).toReal - ∑ k, (A i k).toReal * (B k j).toReal| ≤
        ((1 + f.u) ^ 3 - 1) * ∑ k, |(A i k).toReal * (B k j).toReal|) :=
  ⟨by simpa using orderedSum_err (M33.mul_order A B i j) h, orderedSum_rel (M33.mul_order A B i j) h⟩

/-- A computed product that is finite and whose terms do not underflow. -/
example (i : Fin 3) : (M33.mulVec M33.one ⟨fun _ => maxValue Fmt.f32⟩ i).IsFin ∧
    ∀ k, ((M33.one : Mat 3 (Flt Fmt.f32)) i k).toReal * (maxValue Fmt.f32).toReal = 0 ∨
      (2 : ℝ) ^ Fmt.f32.emin ≤ |((M33.one : Mat 3 (Flt Fmt.f32)) i k).toReal * (maxValue Fmt.f32).toReal| := by
  refine ⟨(orderedSum_single (M33.mulVec_order _ _ i) i (by rw [one_3, if_pos rfl, one_mul']; trivial)
      (fun k hk => by rw [one_3, if_neg hk.symm]; exact zero_mul_fin trivial)).1, fun k => ?_⟩
  rw [one_3]
  by_cases h : i = k
  · refine Or.inr ?_
    rw [if_pos h, toReal_one, one_mul]
    refine le_trans ?_ (le_abs_self _)
    refine le_trans ?_ (max_ge _)
    have h1 : (2 : ℝ) ^ Fmt.f32.emin ≤ 2 ^ Fmt.f32.emax := zpow_le_zpow_right₀ (by norm_num) (by decide)
    have h2 : (2 : ℝ) ^ (Fmt.f32.emax + 1) = 2 ^ Fmt.f32.emax * 2 := zpow_add_one₀ (by norm_num) _
    have h3 : (0 : ℝ) < 2 ^ Fmt.f32.emax := by positivity
    linarith
  · exact Or.inl (by rw [if_neg h, toReal_zero, zero_mul])

/-- Forward error of the dot product. -/
theorem C93_dot_V4 {f : Fmt} (v w : Vec 4 (Flt f)) (h : (V4.dot v w).IsFin) :
    (|(V4.dot v w).toReal - ∑ k, (v k).toReal * (w k).toReal| ≤
      ((1 + f.u) ^ 4 - 1) * ∑ k, |(v k).toReal * (w k).toReal| + (1 + f.u) ^ 4 * (4 * f.eta)) ∧
    ((∀ k, (v k).toReal * (w k).toReal = 0 ∨ (2 : ℝ) ^ f.emin ≤ |(v k).toReal * (w k).toReal|) →
      |(V4.dot v w).toReal - ∑ k, (v k).toReal * (w k).toReal| ≤
        ((1 + f.u) ^ 4 - 1) * ∑ k, |(v k).toReal * (w k).toReal|) :=
  ⟨by simpa using orderedSum_err (V4.dot_order v w) h, orderedSum_rel (V4.dot_order v w) h⟩

/-- Forward error of each entry of a matrix-vector product. -/
theorem C93_mulVec_M44 {f : Fmt} (A : Mat 4 (Flt f)) (v : Vec 4 (Flt f)) (i : Fin 4) (h : (M44.mulVec A v i).IsFin) :
    (|(M44.mulVec A v i).toReal - ∑ k, (A i k).toReal * (v k).toReal| ≤
      ((1 + f.u) ^ 4 - 1) * ∑ k, |(A i k).toReal * (v k).toReal| + (1 + f.u) ^ 4 * (4 * f.eta)) ∧
    ((∀ k, (A i k).toReal * (v k).toReal = 0 ∨ (2 : ℝ) ^ f.emin ≤ |(A i k).toReal * (v k).toReal|) →
      |(M44.mulVec A v i).toReal - ∑ k, (A i k).toReal * (v k).toReal| ≤
        ((1 + f.u) ^ 4 - 1) * ∑ k, |(A i k).toReal * (v k).toReal|) :=
  ⟨by simpa using orderedSum_err (M44.mulVec_order A v i) h, orderedSum_rel (M44.mulVec_order A v i) h⟩

/-- Forward error of each entry of a matrix product. -/
theorem C93_mul_M44 {f : Fmt} (A B : Mat 4 (Flt f)) (i j : Fin 4) (h : (M44.mul A B i j).IsFin) :
    (|(M44.mul A B i j).toReal - ∑ k, (A i k).toReal * (B k j).toReal| ≤
      ((1 + f.u) ^ 4 - 1) * ∑ k, |(A i k).toReal * (B k j).toReal| + (1 + f.u) ^ 4 * (4 * f.eta)) ∧
    ((∀ k, (A i k).toReal * (B k j).toReal = 0 ∨ (2 : ℝ) ^ f.emin ≤ |(A i k).toReal * (B k j).toReal|) →
      |(M44.mul A B i j).toReal - ∑ k, (A i k).toReal * (B k j).toReal| ≤
        ((1 + f.u) ^ 4 - 1) * ∑ k, |(A i k).toReal * (B k j).toReal|) :=
  ⟨by simpa using orderedSum_err (M44.mul_order A B i j) h, orderedSum_rel (M44.mul_order A B i j) h⟩

/-- A computed product that is finite and whose terms do not underflow. -/
example (i : Fin 4) : (M44.mulVec M44.one ⟨fun _ => maxValue Fmt.f32⟩ i).IsFin ∧
    ∀ k, ((M44.one : Mat 4 (Flt Fmt.f32)) i k).toReal * (maxValue Fmt.f32).toReal = 0 ∨
      (2 : ℝ) ^ Fmt.f32.emin ≤ |((M44.one : Mat 4 (Flt Fmt.f32)) i k).toReal * (maxValue Fmt.f32).toReal| := by
  refine ⟨(orderedSum_single (M44.mulVec_order _ _ i) i (by rw [one_4, if_pos rfl, one_mul']; trivial)
      (fun k hk => by rw [one_4, if_neg hk.symm]; exact zero_mul_fin trivial)).1, fun k => ?_⟩
  rw [one_4]
  by_cases h : i = k
  · refine Or.inr ?_
    rw [if_pos h, toReal_one, one_mul]
    refine le_trans ?_ (le_abs_self _)
    refine le_trans ?_ (max_ge _)
    have h1 : (2 : ℝ) ^ Fmt.f32.emin ≤ 2 ^ Fmt.f32.emax := zpow_le_zpow_right₀ (by norm_num) (by decide)
    have h2 : (2 : ℝ) ^ (Fmt.f32.emax + 1) = 2 ^ Fmt.f32.emax * 2 := zpow_add_one₀ (by norm_num) _
    have h3 : (0 : ℝ) < 2 ^ Fmt.f32.emax := by positivity
    linarith
  · exact Or.inl (by rw [if_neg h, toReal_zero, zero_mul])

/-- Forward error of the dot product. -/
theorem C93_dot_V5 {f : Fmt} (v w : Vec 5 (Flt f)) (h : (V5.dot v w).IsFin) :
    (|(V5.dot v w).toReal - ∑ k, (v k).toReal * (w k).toReal| ≤
      ((1 + f.u) ^ 5 - 1) * ∑ k, |(v k).toReal * (w k).toReal| + (1 + f.u) ^ 5 * (5 * f.eta)) ∧
    ((∀ k, (v k).toReal * (w k).toReal = 0 ∨ (2 : ℝ) ^ f.emin ≤ |(v k).toReal * (w k).toReal|) →
      |(V5.dot v w).toReal - ∑ k, (v k).toReal * (w k).toReal| ≤
        ((1 + f.u) ^ 5 - 1) * ∑ k, |(v k).toReal * (w k).toReal|) :=
  ⟨by simpa using orderedSum_err (V5.dot_order v w) h, orderedSum_rel (V5.dot_order v w) h⟩

/-- Forward error of each entry of a matrix-vector product. -/
theorem C93_mulVec_M55 {f : Fmt} (A : Mat 5 (Flt f)) (v : Vec 5 (Flt f)) (i : Fin 5) (h : (M55.mulVec A v i).IsFin) :
    (|(M55.mulVec A v i).toReal - ∑ k, (A i k).toReal * (v k).toReal| ≤
      ((1 + f.u) ^ 5 - 1) * ∑ k, |(A i k).toReal * (v k).toReal| + (1 + f.u) ^ 5 * (5 * f.eta)) ∧
    ((∀ k, (A i k).toReal * (v k).toReal = 0 ∨ (2 : ℝ) ^ f.emin ≤ |(A i k).toReal * (v k).toReal|) →
      |(M55.mulVec A v i).toReal - ∑ k, (A i k).toReal * (v k).toReal| ≤
        ((1 + f.u) ^ 5 - 1) * ∑ k, |(A i k).toReal * (v k).toReal|) :=
  ⟨by simpa using orderedSum_err (M55.mulVec_order A v i) h, orderedSum_rel (M55.mulVec_order A v i) h⟩

/-- Forward error of each entry of a matrix product. -/
theorem C93_mul_M55 {f : Fmt} (A B : Mat 5 (Flt f)) (i j : Fin 5) (h : (M55.mul A B i j).IsFin) :
    (|(M55.mul A B i j).toReal - ∑ k, (A i k).toReal * (B k j).toReal| ≤
      ((1 + f.u) ^ 5 - 1) * ∑ k, |(A i k).toReal * (B k j).toReal| + (1 + f.u) ^ 5 * (5 * f.eta)) ∧
    ((∀ k, (A i k).toReal * (B k j).toReal = 0 ∨ (2 : ℝ) ^ f.emin ≤ |(A i k).toReal * (B k j).toReal|) →
      |(M55.mul A B i j).toReal - ∑ k, (A i k).toReal * (B k j).toReal| ≤
        ((1 + f.u) ^ 5 - 1) * ∑ k, |(A i k).toReal * (B k j).toReal|) :=
  ⟨by simpa using orderedSum_err (M55.mul_order A B i j) h, orderedSum_rel (M55.mul_order A B i j) h⟩

/-- A computed product that is finite and whose terms do not underflow. -/
example (i : Fin 5) : (M55.mulVec M55.one ⟨fun _ => maxValue Fmt.f32⟩ i).IsFin ∧
    ∀ k, ((M55.one : Mat 5 (Flt Fmt.f32)) i k).toReal * (maxValue Fmt.f32).toReal = 0 ∨
      (2 : ℝ) ^ Fmt.f32.emin ≤ |((M55.one : Mat 5 (Flt Fmt.f32)) i k).toReal * (maxValue Fmt.f32).toReal| := by
  refine ⟨(orderedSum_single (M55.mulVec_order _ _ i) i (by rw [one_5, if_pos rfl, one_mul']; trivial)
      (fun k hk => by rw [one_5, if_neg hk.symm]; exact zero_mul_fin trivial)).1, fun k => ?_⟩
  rw [one_5]
  by_cases h : i = k
  · refine Or.inr ?_
    rw [if_pos h, toReal_one, one_mul]
    refine le_trans ?_ (le_abs_self _)
    refine le_trans ?_ (max_ge _)
    have h1 : (2 : ℝ) ^ Fmt.f32.emin ≤ 2 ^ Fmt.f32.emax := zpow_le_zpow_right₀ (by norm_num) (by decide)
    have h2 : (2 : ℝ) ^ (Fmt.f32.emax + 1) = 2 ^ Fmt.f32.emax * 2 := zpow_add_one₀ (by norm_num) _
    have h3 : (0 : ℝ) < 2 ^ Fmt.f32.emax := by positivity
    linarith
  · exact Or.inl (by rw [if_neg h, toReal_zero, zero_mul])

/-- Forward error of the dot product. -/
theorem C93_dot_V6 {f : Fmt} (v w : Vec 6 (Flt f)) (h : (V6.dot v w).IsFin) :
    (|(V6.dot v w).toReal - ∑ k, (v k).toReal * (w k).toReal| ≤
      ((1 + f.u) ^ 6 - 1) * ∑ k, |(v k).toReal * (w k).toReal| + (1 + f.u) ^ 6 * (6 * f.eta)) ∧
    ((∀ k, (v k).toReal * (w k).toReal = 0 ∨ (2 : ℝ) ^ f.emin ≤ |(v k).toReal * (w k).toReal|) →
      |(V6.dot v w).toReal - ∑ k, (v k).toReal * (w k).toReal| ≤
        ((1 + f.u) ^ 6 - 1) * ∑ k, |(v k).toReal * (w k).toReal|) :=
  ⟨by simpa using orderedSum_err (V6.dot_order v w) h, orderedSum_rel (V6.dot_order v w) h⟩

/-- Forward error of each entry of a matrix-vector product. -/
theorem C93_mulVec_M66 {f : Fmt} (A : Mat 6 (Flt f)) (v : Vec 6 (Flt f)) (i : Fin 6) (h : (M66.mulVec A v i).IsFin) :
    (|(M66.mulVec A v i).toReal - ∑ k, (A i k).toReal * (v k).toReal| ≤
      ((1 + f.u) ^ 6 - 1) * ∑ k, |(A i k).toReal * (v k).toReal| + (1 + f.u) ^ 6 * (6 * f.eta)) ∧
    ((∀ k, (A i k).toReal * (v k).toReal = 0 ∨ (2 : ℝ) ^ f.emin ≤ |(A i k).toReal * (v k).toReal|) →
      |(M66.mulVec A v i).toReal - ∑ k, (A i k).toReal * (v k).toReal| ≤
        ((1 + f.u) ^ 6 - 1) * ∑ k, |(A i k).toReal * (v k).toReal|) :=
  ⟨by simpa using orderedSum_err (M66.mulVec_order A v i) h, orderedSum_rel (M66.mulVec_order A v i) h⟩

/-- Forward error of each entry of a matrix product. -/
theorem C93_mul_M66 {f : Fmt} (A B : Mat 6 (Flt f)) (i j : Fin 6) (h : (M66.mul A B i j).IsFin) :
    (|(M66.mul A B i j).toReal - ∑ k, (A i k).toReal * (B k j).toReal| ≤
      ((1 + f.u) ^ 6 - 1) * ∑ k, |(A i k).toReal * (B k j).toReal| + (1 + f.u) ^ 6 * (6 * f.eta)) ∧
    ((∀ k, (A i k).toReal * (B k j).toReal = 0 ∨ (2 : ℝ) ^ f.emin ≤ |(A i k).toReal * (B k j).toReal|) →
      |(M66.mul A B i j).toReal - ∑ k, (A i k).toReal * (B k j).toReal| ≤
        ((1 + f.u) ^ 6 - 1) * ∑ k, |(A i k).toReal * (B k j).toReal|) :=
  ⟨by simpa using orderedSum_err (M66.mul_order A B i j) h, orderedSum_rel (M66.mul_order A B i j) h⟩

/-- A computed product that is finite and whose terms do not underflow. -/
example (i : Fin 6) : (M66.mulVec M66.one ⟨fun _ => maxValue Fmt.f32⟩ i).IsFin ∧
    ∀ k, ((M66.one : Mat 6 (Flt Fmt.f32)) i k).toReal * (maxValue Fmt.f32).toReal = 0 ∨
      (2 : ℝ) ^ Fmt.f32.emin ≤ |((M66.one : Mat 6 (Flt Fmt.f32)) i k).toReal * (maxValue Fmt.f32).toReal| := by
  refine ⟨(orderedSum_single (M66.mulVec_order _ _ i) i (by rw [one_6, if_pos rfl, one_mul']; trivial)
      (fun k hk => by rw [one_6, if_neg hk.symm]; exact zero_mul_fin trivial)).1, fun k => ?_⟩
  rw [one_6]
  by_cases h : i = k
  · refine Or.inr ?_
    rw [if_pos h, toReal_one, one_mul]
    refine le_trans ?_ (le_abs_self _)
    refine le_trans ?_ (max_ge _)
    have h1 : (2 : ℝ) ^ Fmt.f32.emin ≤ 2 ^ Fmt.f32.emax := zpow_le_zpow_right₀ (by norm_num) (by decide)
    have h2 : (2 : ℝ) ^ (Fmt.f32.emax + 1) = 2 ^ Fmt.f32.emax * 2 := zpow_add_one₀ (by norm_num) _
    have h3 : (0 : ℝ) < 2 ^ Fmt.f32.emax := by positivity
    linarith
  · exact Or.inl (by rw [if_neg h, toReal_zero, zero_mul])

end StaticMath
