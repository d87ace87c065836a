import Verif.Exact
import Verif.Ieee.Facts
import Verif.Lemmas.Inverse
import Verif.Props.Compare
import Verif.Props.Ieee
import Verif.Props.Inverse
import Verif.Props.QuatAlgebra
import Verif.Spec.Rigid

/-!
# C97–C99: zero tests and equality, comparison helpers, inverse of a rotation
-/

namespace StaticMath
open Flt

/-! ## C97 zero tests and derived equality -/

/-- For every element type `==` of vectors and of matrices is `==` of all pairs of elements. -/
theorem C97_elementwise {T : Type} [ROrd T] {n : ℕ} (v w : Vec n T) (a b : Mat n T) :
    (v.beq w = true ↔ ∀ i, ROrd.beq (v i) (w i) = true) ∧
    (a.beq b = true ↔ ∀ i j, ROrd.beq (a i j) (b i j) = true) := by
  simp only [Vec.beq, Mat.beq, List.all_eq_true, List.mem_finRange, true_implies, and_self]

/-- `==` of vectors is equality of all components (exact numbers). -/
theorem C97_vec_eq {T : Type} [LinearOrder T] {n : ℕ} (v w : Vec n T) : v.beq w = true ↔ v = w := by
  rw [Vec.beq, List.all_eq_true]
  constructor
  · intro h
    ext i
    simpa using h i (List.mem_finRange i)
  · rintro rfl i _
    simp

/-- `==` of matrices is equality of all entries (exact numbers). -/
theorem C97_mat_eq {T : Type} [LinearOrder T] {n : ℕ} (v w : Mat n T) : v.beq w = true ↔ v = w := by
  rw [Mat.beq, List.all_eq_true]
  constructor
  · intro h
    ext i j
    have := h i (List.mem_finRange i)
    rw [List.all_eq_true] at this
    simpa using this j (List.mem_finRange j)
  · rintro rfl i _
    simp

/-- For floats `==` compares values: NaN differs from everything, the two zeros are equal. -/
theorem C97_vec_eq_float {f : Fmt} {n : ℕ} (v w : Vec n (Flt f)) (hv : ∀ i, (v i).IsFin) (hw : ∀ i, (w i).IsFin) :
    (v.beq w = true ↔ ∀ i, (v i).toReal = (w i).toReal) ∧
    ∀ (x y : Vec n (Flt f)) (i : Fin n), x i = nan ∨ y i = nan → x.beq y = false := by
  refine ⟨?_, ?_⟩
  · rw [Vec.beq, List.all_eq_true]
    exact ⟨fun h i => (beq_iff (hv i) (hw i)).1 (h i (List.mem_finRange i)),
      fun h i _ => (beq_iff (hv i) (hw i)).2 (h i)⟩
  · intro x y i h
    rw [Vec.beq, List.all_eq_false]
    refine ⟨i, List.mem_finRange i, ?_⟩
    rcases h with h | h
    · rw [h, beq_nan]; exact Bool.false_ne_true
    · rw [h, beq_comm', beq_nan]; exact Bool.false_ne_true

/-- `is_zero` of a vector holds exactly for the zero vector. -/
theorem C97_vec_is_zero {T : Type} [LinearOrder T] [Zero T] {n : ℕ} (v : Vec n T) :
    v.is_zero = true ↔ ∀ i, v i = 0 := by
  rw [Vec.is_zero, C97_vec_eq, Vec.ext_iff, funext_iff]

/-- `is_zero` of a matrix holds exactly for the zero matrix. -/
theorem C97_mat_is_zero {T : Type} [LinearOrder T] [Zero T] {n : ℕ} (m : Mat n T) :
    m.is_zero = true ↔ ∀ i j, m i j = 0 := by
  rw [Mat.is_zero, C97_mat_eq, Mat.ext_iff, funext_iff]
  exact forall_congr' fun i => funext_iff

/-- For floats `is_zero` accepts both zeros and nothing else. -/
theorem C97_vec_is_zero_float {f : Fmt} {n : ℕ} (v : Vec n (Flt f)) :
    v.is_zero = true ↔ ∀ i, (v i).IsFin ∧ (v i).toReal = 0 := by
  rw [Vec.is_zero, Vec.beq, List.all_eq_true]
  refine ⟨fun h i => ?_, fun h i _ => (beq_iff (h i).1 isFin_zero).2 (by rw [toReal_zero]; exact (h i).2)⟩
  have hi := h i (List.mem_finRange i)
  have hf : (v i).IsFin := by
    cases e : v i with
    | nan => change ROrd.beq (v i) 0 = true at hi; rw [e] at hi; exact (Bool.false_ne_true hi).elim
    | inf s => change ROrd.beq (v i) 0 = true at hi; rw [e] at hi; exact (Bool.false_ne_true hi).elim
    | fin s x h => trivial
  have := (beq_iff hf isFin_zero).1 hi
  exact ⟨hf, by rw [this, toReal_zero]⟩

/-- Matrices likewise: entrywise comparison of values, NaN differs from everything, and `is_zero`
accepts both zeros and nothing else. -/
theorem C97_mat_float {f : Fmt} {n : ℕ} (a b : Mat n (Flt f)) :
    ((∀ i j, (a i j).IsFin ∧ (b i j).IsFin) → (a.beq b = true ↔ ∀ i j, (a i j).toReal = (b i j).toReal)) ∧
    (∀ i j, a i j = nan ∨ b i j = nan → a.beq b = false) ∧
    (a.is_zero = true ↔ ∀ i j, (a i j).IsFin ∧ (a i j).toReal = 0) := by
  have key : ∀ x y : Mat n (Flt f), x.beq y = true ↔ ∀ i, (⟨x.val i⟩ : Vec n (Flt f)).beq ⟨y.val i⟩ = true := by
    intro x y
    rw [Mat.beq, List.all_eq_true]
    exact ⟨fun h i => h i (List.mem_finRange i), fun h i _ => h i⟩
  refine ⟨fun h => ?_, fun i j h => ?_, ?_⟩
  · rw [key]
    exact forall_congr' fun i =>
      (C97_vec_eq_float (⟨a.val i⟩ : Vec n (Flt f)) ⟨b.val i⟩ (fun j => (h i j).1) (fun j => (h i j).2)).1
  · rw [Bool.eq_false_iff, Ne, key]
    intro hc
    have h2 : (⟨a.val i⟩ : Vec n (Flt f)).beq ⟨b.val i⟩ = false := by
      rw [Vec.beq, List.all_eq_false]
      refine ⟨j, List.mem_finRange j, ?_⟩
      rcases h with h | h
      · change ¬ROrd.beq (a.val i j) _ = true
        rw [h, beq_nan]; exact Bool.false_ne_true
      · change ¬ROrd.beq _ (b.val i j) = true
        rw [h, beq_comm', beq_nan]; exact Bool.false_ne_true
    exact Bool.false_ne_true (h2 ▸ hc i)
  · rw [Mat.is_zero, key]
    exact forall_congr' fun i => C97_vec_is_zero_float (⟨a.val i⟩ : Vec n (Flt f))

/-- A vector with a negative zero is zero; one with a NaN is not. -/
example : (⟨![0, -0]⟩ : Vec 2 (Flt Fmt.f32)).is_zero = true ∧ (⟨![nan, 0]⟩ : Vec 2 (Flt Fmt.f32)).is_zero = false := by
  refine ⟨(C97_vec_is_zero_float _).2 fun i => ?_, Bool.eq_false_iff.2 fun h => ((C97_vec_is_zero_float _).1 h 0).1⟩
  fin_cases i
  · exact ⟨trivial, toReal_zero⟩
  · exact ⟨trivial, by change (-0 : Flt _).toReal = 0; rw [toReal_neg, toReal_zero, neg_zero]⟩

/-- `&` of boolean vectors is the elementwise conjunction. -/
theorem C97_bitand (v w : Vec 4 Bool) (i : Fin 4) : V4.bitand v w i = (v i && w i) := by
  fin_cases i <;> rfl

/-- FALSE of the code: "is_zero tests the value". A dual quaternion all of whose components are zero,
built by the public constructor `new_from_rotation` from `Quaternion::zero()`, is not `is_zero`,
because the derived `==` also compares the `normalized` flags. -/
theorem C97_is_zero_false :
    ((DQuat.new_from_rotation Quat.zero : DQuat ℝ).q_real.toH = 0 ∧
      (DQuat.new_from_rotation Quat.zero : DQuat ℝ).q_dual.toH = 0) ∧
    (DQuat.new_from_rotation Quat.zero : DQuat ℝ).is_zero = false := by
  have hz : (Quat.zero : Quat ℝ).toH = 0 := Quat.toH_zero
  refine ⟨⟨hz, hz⟩, ?_⟩
  simp [DQuat.is_zero, DQuat.beq, DQuat.new_from_rotation, DQuat.zero, DQuat.new]

/-- What holds: a quaternion is `is_zero` exactly when its components are zero and its flag is not
set; a dual quaternion exactly when all components are zero and none of the three flags is set; two
dual quaternions are `==` exactly when the components and the three flags agree. Missing: zero
values with a flag set (false). -/
theorem C97_is_zero_partial {R : Type} [CommRing R] [LinearOrder R] (q : Quat R) (a b : DQuat R) :
    (q.is_zero = true ↔ q.toH = 0 ∧ q.normalized = false) ∧
    (a.is_zero = true ↔ a.q_real.toH = 0 ∧ a.q_dual.toH = 0 ∧ a.q_real.normalized = false ∧
      a.q_dual.normalized = false ∧ a.normalized = false) ∧
    (a.beq b = true ↔ a.q_real.toH = b.q_real.toH ∧ a.q_dual.toH = b.q_dual.toH ∧
      a.q_real.normalized = b.q_real.normalized ∧ a.q_dual.normalized = b.q_dual.normalized ∧
      a.normalized = b.normalized) := by
  have hz : (Quat.zero : Quat R).toH = 0 := Quat.toH_zero
  have h1 : ∀ q : Quat R, q.is_zero = true ↔ q.toH = 0 ∧ q.normalized = false := fun q => by
    rw [Quat.is_zero, (C43_eq_partial q Quat.zero).1, hz]; rfl
  have h2 : ∀ a b : DQuat R, a.beq b = true ↔ a.q_real.toH = b.q_real.toH ∧ a.q_dual.toH = b.q_dual.toH ∧
      a.q_real.normalized = b.q_real.normalized ∧ a.q_dual.normalized = b.q_dual.normalized ∧
      a.normalized = b.normalized := fun a b => by
    rw [DQuat.beq, Bool.and_eq_true, Bool.and_eq_true, (C43_eq_partial _ _).1, (C43_eq_partial _ _).1,
      beq_iff_eq]
    tauto
  refine ⟨h1 q, ?_, h2 a b⟩
  rw [DQuat.is_zero, h2]
  change a.q_real.toH = (Quat.zero : Quat R).toH ∧ a.q_dual.toH = (Quat.zero : Quat R).toH ∧ _ ↔ _
  rw [hz]
  rfl

/-- Zero and a non-zero value. -/
example : (DQuat.zero : DQuat ℝ).is_zero = true ∧ (Quat.new_from 0 0 0 2 : Quat ℝ).is_zero = false := by
  constructor
  · simp [DQuat.is_zero, DQuat.beq, DQuat.zero, DQuat.new, Quat.beq, Vec.beq]
  · rw [Bool.eq_false_iff]
    intro h
    have := ((C97_is_zero_partial _ DQuat.zero DQuat.zero).1.1 h).1
    have h2 : (2 : ℝ) = 0 := congrArg QuaternionAlgebra.imK this
    norm_num at h2

/-! ## C98 comparison helpers -/

/-- `compare_floats(a, b, tol)` tests `|a - b| < tol`. -/
theorem C98_compare_floats (a b tol : ℝ) : compare_floats a b tol = true ↔ |a - b| < tol := by
  simp [compare_floats]

/-- On floats it is symmetric, and false when an argument is NaN. -/
theorem C98_compare_floats_float {f : Fmt} (a b tol : Flt f) :
    compare_floats a b tol = compare_floats b a tol ∧ compare_floats nan b tol = false ∧
    compare_floats a b nan = false := by
  refine ⟨by rw [compare_floats, compare_floats, abs_sub_comm'], rfl, ?_⟩
  change Flt.lt _ nan = false
  cases RAbs.abs (a - b) <;> rfl

example : compare_floats (1 : ℝ) (3 / 2) 1 = true ∧ compare_floats (1 : ℝ) 3 1 = false := by
  rw [Bool.eq_false_iff]
  refine ⟨(C98_compare_floats _ _ _).2 ?_, fun h => absurd ((C98_compare_floats _ _ _).1 h) ?_⟩
  · rw [abs_lt]; constructor <;> norm_num
  · rw [abs_sub_comm, abs_of_pos] <;> norm_num

/-- `check_elements(v, tol)` says whether some element is nearly zero: exactly zero, or smaller than
`tol` in magnitude. -/
theorem C98_check_elements [P : RealParams] (v : List ℝ) (tol : ℝ) :
    check_elements v tol = true ↔ ∃ x ∈ v, x = 0 ∨ |x| < tol := by
  have key : ∀ (l : List ℝ) (b : Bool), l.foldl (fun result num => result || nearly_equal num 0 tol) b = true ↔
      b = true ∨ ∃ x ∈ l, x = 0 ∨ |x| < tol := by
    intro l
    induction l with
    | nil => simp
    | cons x l ih =>
      intro b
      rw [List.foldl_cons, ih, Bool.or_eq_true, C35_nearly_equal]
      simp only [List.mem_cons, exists_eq_or_imp, sub_zero, or_true, true_and, ne_eq, not_true_eq_false,
        false_and, and_false, or_false, or_assoc]
  rw [check_elements, key]
  simp

/-- The same for floats: an element that is a zero, or finite and smaller than a finite `tol`. -/
theorem C98_check_elements_float {f : Fmt} [Libm f] (v : List (Flt f)) (tol : Flt f) (ht : tol.IsFin) :
    check_elements v tol = true ↔ ∃ x ∈ v, x.IsFin ∧ (x.toReal = 0 ∨ |x.toReal| < tol.toReal) := by
  have hz : ROrd.beq (0 : Flt f) 0 = true := (beq_iff isFin_zero isFin_zero).2 rfl
  have hne : ∀ x : Flt f, nearly_equal x 0 tol = true ↔ x.IsFin ∧ (x.toReal = 0 ∨ |x.toReal| < tol.toReal) := by
    intro x
    unfold nearly_equal
    by_cases hx : x.IsFin
    · by_cases h0 : ROrd.beq x 0 = true
      · have := (beq_iff hx isFin_zero).1 h0
        simp only [toReal_zero] at this
        simp [h0, this, hx]
      · have h0' : x.toReal ≠ 0 := fun e => h0 ((beq_iff hx isFin_zero).2 (by rw [e, toReal_zero]))
        obtain ⟨h1, h2⟩ : (x - 0).IsFin ∧ (x - 0).toReal = x.toReal :=
          add_zero_val hx (b := -0) trivial (by simp)
        simp only [h0, hz, Bool.or_true, Bool.true_or, if_true, hx, true_and, Bool.false_eq_true, if_false,
          h0', false_or]
        rw [lt_iff (isFin_abs h1) ht, toReal_abs, h2]
    · simp only [hx, false_and, iff_false, Bool.not_eq_true]
      have hl : ∀ s, ROrd.lt (inf s : Flt f) tol = s := fun s => by
        cases tol with
        | nan => exact ht.elim
        | inf t => exact ht.elim
        | fin t y h => rfl
      cases x with
      | nan => simp only [hz]; rfl
      | inf s => cases s <;> simp only [hz] <;> exact hl false
      | fin s x h => exact absurd trivial hx
  have key : ∀ (l : List (Flt f)) (b : Bool), l.foldl (fun result num => result || nearly_equal num 0 tol) b = true ↔
      b = true ∨ ∃ x ∈ l, x.IsFin ∧ (x.toReal = 0 ∨ |x.toReal| < tol.toReal) := by
    intro l
    induction l with
    | nil => simp
    | cons x l ih =>
      intro b
      rw [List.foldl_cons, ih, Bool.or_eq_true, hne]
      simp only [List.mem_cons, exists_eq_or_imp, or_assoc]
  rw [check_elements, key]
  simp

example [RealParams] : check_elements [5, (1 : ℝ) / 4] 1 = true ∧ check_elements [5, (-2 : ℝ)] 1 = false := by
  rw [Bool.eq_false_iff, Ne, C98_check_elements, C98_check_elements]
  constructor
  · exact ⟨1 / 4, by simp, Or.inr (by rw [abs_of_pos] <;> norm_num)⟩
  · rintro ⟨x, hx, h⟩
    simp only [List.mem_cons, List.not_mem_nil, or_false] at hx
    rcases hx with rfl | rfl
    · norm_num at h
    · norm_num at h

/-- `compare_dual_quaternions` holds exactly when each of the eight pairs of components is nearly
equal (the rule of C35); the `normalized` flags play no role. -/
theorem C98_compare_dual_quaternions [P : RealParams] (a b : DQuat ℝ) (eps : ℝ) :
    compare_dual_quaternions a b eps = true ↔
      ∀ c ∈ [(a.q_real.q0, b.q_real.q0), (a.q_real.q 0, b.q_real.q 0), (a.q_real.q 1, b.q_real.q 1),
        (a.q_real.q 2, b.q_real.q 2), (a.q_dual.q0, b.q_dual.q0), (a.q_dual.q 0, b.q_dual.q 0),
        (a.q_dual.q 1, b.q_dual.q 1), (a.q_dual.q 2, b.q_dual.q 2)],
        c.1 = c.2 ∨ ((c.1 = 0 ∨ c.2 = 0) ∧ |c.1 - c.2| < eps) ∨
          (c.1 ≠ 0 ∧ c.2 ≠ 0 ∧ |c.1 - c.2| < eps * min (|c.1| + |c.2|) P.maxVal) := by
  simp only [List.forall_mem_cons, List.not_mem_nil, false_imp_iff, implies_true, and_true,
    ← C35_nearly_equal, compare_dual_quaternions, DQuat.real, DQuat.dual, Quat.real, Quat.imag, Bool.and_eq_true,
    and_assoc]

/-- On floats it is symmetric, reflexive exactly on NaN-free values, and false as soon as one
component of one argument is NaN. -/
theorem C98_compare_dual_quaternions_float {f : Fmt} [Libm f] (a b : DQuat (Flt f)) (eps : Flt f) :
    compare_dual_quaternions a b eps = compare_dual_quaternions b a eps ∧
    (compare_dual_quaternions a a eps = true ↔ a.q_real.q0 ≠ nan ∧ (∀ i, a.q_real.q i ≠ nan) ∧
      a.q_dual.q0 ≠ nan ∧ ∀ i, a.q_dual.q i ≠ nan) ∧
    (a.q_real.q0 = nan ∨ (∃ i, a.q_real.q i = nan) ∨ a.q_dual.q0 = nan ∨ (∃ i, a.q_dual.q i = nan) →
      compare_dual_quaternions a b eps = false) := by
  refine ⟨?_, ?_, ?_⟩
  · unfold compare_dual_quaternions
    simp only [DQuat.real, DQuat.dual, Quat.real, Quat.imag]
    rw [C34_nearly_equal_symm a.q_real.q0, C34_nearly_equal_symm (a.q_real.q 0), C34_nearly_equal_symm (a.q_real.q 1),
      C34_nearly_equal_symm (a.q_real.q 2), C34_nearly_equal_symm a.q_dual.q0, C34_nearly_equal_symm (a.q_dual.q 0),
      C34_nearly_equal_symm (a.q_dual.q 1), C34_nearly_equal_symm (a.q_dual.q 2)]
  · simp only [compare_dual_quaternions, DQuat.real, DQuat.dual, Quat.real, Quat.imag, Bool.and_eq_true,
      C34_nearly_equal_refl, Fin.forall_fin_succ, Fin.isValue, and_assoc]
    simp
  · intro h
    rw [Bool.eq_false_iff]
    intro hc
    simp only [compare_dual_quaternions, DQuat.real, DQuat.dual, Quat.real, Quat.imag, Bool.and_eq_true,
      and_assoc] at hc
    obtain ⟨h0, h1, h2, h3, h4, h5, h6, h7⟩ := hc
    have no : ∀ x y : Flt f, nearly_equal x y eps = true → x ≠ nan := by
      rintro x y h rfl
      rw [(C34_nearly_equal_nan y eps).1] at h
      exact Bool.false_ne_true h
    rcases h with h | ⟨i, h⟩ | h | ⟨i, h⟩
    · exact no _ _ h0 h
    · fin_cases i
      · exact no _ _ h1 h
      · exact no _ _ h2 h
      · exact no _ _ h3 h
    · exact no _ _ h4 h
    · fin_cases i
      · exact no _ _ h5 h
      · exact no _ _ h6 h
      · exact no _ _ h7 h

/-- Two dual quaternions that differ in one dual component and in the flags. -/
example [P : RealParams] : compare_dual_quaternions (DQuat.one : DQuat ℝ) (DQuat.new Quat.one (Quat.new_from 0 0 0 (1 / 2))) 1 = true ∧
    compare_dual_quaternions (DQuat.one : DQuat ℝ) (DQuat.new Quat.one (Quat.new_from 0 0 0 2)) 1 = false := by
  rw [Bool.eq_false_iff, Ne, C98_compare_dual_quaternions, C98_compare_dual_quaternions]
  constructor
  · intro c hc
    simp only [DQuat.one, DQuat.new, Quat.one, Quat.zero, Quat.new, Quat.new_from, V3.zero, List.mem_cons,
      List.not_mem_nil, or_false] at hc
    rcases hc with rfl | rfl | rfl | rfl | rfl | rfl | rfl | rfl <;> first | exact Or.inl rfl | skip
    refine Or.inr (Or.inl ⟨Or.inl rfl, ?_⟩)
    change |(0 : ℝ) - 1 / 2| < 1
    norm_num [abs_lt]
  · intro h
    have := h ((DQuat.one : DQuat ℝ).q_dual.q 2, (2 : ℝ)) (by simp [DQuat.new, Quat.new_from])
    simp [DQuat.one, Quat.zero, Quat.new, V3.zero] at this

/-! ## C99 rotation_inverse -/

/-- On rotations `rotation_inverse` is the two-sided inverse, undoes the action on vectors, is again
a rotation, and is what the general `inverse` returns. -/
theorem C99_rotation_inverse [P : RealParams] (R : Mat 3 ℝ) (h : IsRot R) (v : Vec 3 ℝ) :
    (M33.mul R (rotation_inverse R)).toM = 1 ∧ (M33.mul (rotation_inverse R) R).toM = 1 ∧
    M33.mulVec (rotation_inverse R) (M33.mulVec R v) = v ∧ IsRot (rotation_inverse R) ∧
    M33.inverse R = .ok (some (rotation_inverse R)) := by
  obtain ⟨ho, hd⟩ := Matrix.mem_specialOrthogonalGroup_iff.1 h
  have h1 : R.toM * R.toM.transpose = 1 := (Matrix.mem_orthogonalGroup_iff _ _).1 ho
  have h2 : R.toM.transpose * R.toM = 1 := (Matrix.mem_orthogonalGroup_iff' _ _).1 ho
  have e : (rotation_inverse R).toM = R.toM.transpose := M33.toM_transpose R
  have e2 : (M33.mul (rotation_inverse R) R).toM = 1 := by rw [M33.toM_mul, e, h2]
  refine ⟨by rw [M33.toM_mul, e, h1], e2, ?_, ?_, ?_⟩
  · rw [Vec.ext_iff, M33.val_mulVec, M33.val_mulVec, Matrix.mulVec_mulVec, e, h2, Matrix.one_mulVec]
  · refine Matrix.mem_specialOrthogonalGroup_iff.2 ⟨(Matrix.mem_orthogonalGroup_iff _ _).2 ?_, ?_⟩
    · rw [e]; change _ * (R.toM.transpose).transpose = 1
      rw [Matrix.transpose_transpose, h2]
    · rw [e, Matrix.det_transpose, hd]
  · obtain ⟨o, ho, hn, _⟩ := C09_inverse_M33 R
    rw [ho]
    cases o with
    | none =>
      have := hn.1 rfl
      rw [hd, abs_one] at this
      have := P.eps_le
      norm_num at this
      linarith
    | some B =>
      have hB := (C08_inverse_M33 R B ho).1
      rw [← Mat.toM_inj, M33.toM_mul, M33.toM_one] at hB
      congr 2
      rw [← Mat.toM_inj, e]
      calc B.toM = R.toM.transpose * R.toM * B.toM := by rw [h2, one_mul]
        _ = R.toM.transpose := by rw [mul_assoc, hB, mul_one]

/-- A quarter turn about z. -/
example [P : RealParams] : M33.inverse (⟨![![0, -1, 0], ![1, 0, 0], ![0, 0, 1]]⟩ : Mat 3 ℝ) =
    .ok (some ⟨![![0, 1, 0], ![-1, 0, 0], ![0, 0, 1]]⟩) := by
  have h : IsRot (⟨![![0, -1, 0], ![1, 0, 0], ![0, 0, 1]]⟩ : Mat 3 ℝ) := by
    refine Matrix.mem_specialOrthogonalGroup_iff.2 ⟨(Matrix.mem_orthogonalGroup_iff _ _).2 ?_, ?_⟩
    · ext i j
      fin_cases i <;> fin_cases j <;> simp [Mat.toM, Matrix.mul_apply, Fin.sum_univ_three]
    · simp [Mat.toM, Matrix.det_fin_three]
  rw [(C99_rotation_inverse _ h ⟨0⟩).2.2.2.2]
  rfl

end StaticMath
