#!/usr/bin/env python3
"""Write lean/Verif/Lemmas/InverseFree.lean and lean/Verif/Props/Ieee.lean."""
sizes = range(2, 7)

# ---------------------------------------------------------------- law-free shape of inverse()
lf = ['''import Verif.Lemmas.Inverse

/-!
# `inverse()` for any element type

Generated by `tools/gen_props_ieee.py`. No law about the operations is used.
-/

namespace StaticMath

variable {T : Type} [Add T] [Sub T] [Neg T] [Mul T] [Div T] [Zero T] [One T] [RAbs T] [ROrd T] [RFloat T]

set_option linter.unusedSectionVars false
''']
for n in sizes:
    M = f'M{n}{n}'
    lf.append(f'''
theorem {M}.inverse_cases (A : Mat {n} T) :
    (nearly_zero ({M}.det A) = true ∧ {M}.inverse A = .ok none) ∨
    (nearly_zero ({M}.det A) = false ∧ ∃ B, {M}.inverse A = .ok (some B)) := by
  unfold {M}.inverse
  by_cases h : nearly_zero ({M}.det A) = true
  · refine Or.inl ⟨h, ?_⟩
    simp only [h]
    rfl
  · have h' : nearly_zero ({M}.det A) = false := by simpa using h
    refine Or.inr ⟨h', ?_⟩
    simp only [h', Bool.not_false, if_true]
''')
    if n <= 3:
        lf.append('    exact ⟨_, rfl⟩\n')
    elif n == 4:
        for i in range(4):
            for j in range(4):
                lf.append(f'    rw [show M44.get_submatrix A ({i}, {j}) = _ from M44.get_submatrix_eq A {i} {j}]\n')
        lf.append('    exact ⟨_, rfl⟩\n')
    else:
        s = f'M{n-1}{n-1}'
        lf.append(f'''    rw [forRange_set_mat _ (fun j i => (if (i.val + j.val) % 2 = 0 then (1 : T) else -1) *
      {s}.det ⟨fun r c => A (i.succAbove r) (j.succAbove c)⟩)]
    · exact ⟨_, rfl⟩
    · intro i j hi hj r
      rw [show {M}.get_submatrix A (i, j) = _ from {M}.get_submatrix_eq A ⟨i, hi⟩ ⟨j, hj⟩]
      rfl
''')
lf.append('\nend StaticMath\n')
open('/verif/lean/Verif/Lemmas/InverseFree.lean', 'w').write(''.join(lf))

# ---------------------------------------------------------------- properties
o = ['''import Verif.Ieee.Facts
import Verif.Lemmas.InverseFree
import Verif.Model.Linear

/-!
# C34, C37, C89–C93: floating point

Generated by `tools/gen_props_ieee.py`. `Flt f` is the set of IEEE 754 values of the binary format
`f` (`Fmt.f32`, `Fmt.f64` or any other), with correctly rounded operations. `a.toReal` is the value
of a finite float, `a.IsFin` says that it is neither NaN nor an infinity.
-/

namespace StaticMath
open Flt

/-- Any choice of the functions IEEE 754 leaves open, for the examples. -/
@[reducible] private noncomputable def anyLibm (f : Fmt) : Libm f :=
  ⟨id, id, id, id, id, id, fun a _ => a, 1, 1, 1, 1, 1⟩

/-! ## C34 nearly_equal -/

/-- `nearly_equal` is symmetric for all floats. -/
theorem C34_nearly_equal_symm {f : Fmt} [Libm f] (a b eps : Flt f) :
    nearly_equal a b eps = nearly_equal b a eps := by
  unfold nearly_equal
  dsimp only
  rw [abs_sub_comm' b a, beq_comm' b a, add_comm' (RAbs.abs b) (RAbs.abs a),
    Bool.or_comm (ROrd.beq b 0) (ROrd.beq a 0)]

/-- `nearly_equal(a, a, eps)` is true exactly when `a` is not NaN, whatever `eps` is. -/
theorem C34_nearly_equal_refl {f : Fmt} [Libm f] (a eps : Flt f) :
    nearly_equal a a eps = true ↔ a ≠ nan := by
  constructor
  · rintro h rfl
    exact Bool.false_ne_true h
  · intro h
    unfold nearly_equal
    simp only [(beq_self_iff a).2 h, if_true]

/-- NaN is nearly equal to nothing. -/
theorem C34_nearly_equal_nan {f : Fmt} [Libm f] (b eps : Flt f) :
    nearly_equal nan b eps = false ∧ nearly_equal b nan eps = false := by
  have h : nearly_equal nan b eps = false := by
    unfold nearly_equal
    dsimp only
    rw [beq_nan, beq_nan]
    by_cases hb : ROrd.beq b 0 = true
    · simp only [hb]; rfl
    · simp only [hb]; rfl
  exact ⟨h, by rw [C34_nearly_equal_symm, h]⟩

/-- Signed zeros, infinities and NaN. -/
example : let _ := anyLibm Fmt.f32
    nearly_equal (0 : Flt Fmt.f32) (-0) 0 = true ∧ nearly_equal (inf true : Flt Fmt.f32) (inf true) 0 = true ∧
    nearly_equal (nan : Flt Fmt.f32) nan 1 = false := by
  intro _
  refine ⟨?_, (C34_nearly_equal_refl _ _).2 nofun, (C34_nearly_equal_nan _ _).1⟩
  unfold nearly_equal
  have h : ROrd.beq (0 : Flt Fmt.f32) (-0) = true :=
    (beq_iff isFin_zero (isFin_neg.2 isFin_zero)).2 (by rw [toReal_neg, toReal_zero, neg_zero])
  simp only [h, if_true]

/-! ## C37 nearly_zero -/

/-- `nearly_zero(a)` holds exactly when `a` is finite and `|a| < EPSILON`. -/
theorem C37_nearly_zero_float {f : Fmt} [Libm f] (a : Flt f) :
    nearly_zero a = true ↔ a.IsFin ∧ |a.toReal| < (2 : ℝ) ^ (1 - (f.p : ℤ)) := nearly_zero_flt a

/-- The smallest subnormal number is nearly zero, 1 is not. -/
example : let _ := anyLibm Fmt.f64
    nearly_zero (tiny Fmt.f64) = true ∧ nearly_zero (1 : Flt Fmt.f64) = false := by
  intro _
  refine ⟨(C37_nearly_zero_float _).2 ⟨trivial, ?_⟩,
    Bool.eq_false_iff.2 fun h => absurd ((C37_nearly_zero_float _).1 h).2 ?_⟩
  · change |(2 : ℝ) ^ _| < _
    rw [abs_of_pos (by positivity)]
    exact zpow_lt_zpow_right₀ (by norm_num) (by decide)
  · rw [toReal_one, abs_one, not_lt]
    exact zpow_le_one_of_nonpos₀ (by norm_num) (by decide)

/-! ## C89 multiplication by the identity -/
''']
for n in sizes:
    M = f'M{n}{n}'
    o.append(f'''
private theorem one_{n} {{f : Fmt}} (i j : Fin {n}) :
    ({M}.one : Mat {n} (Flt f)) i j = if i = j then 1 else 0 := by
  fin_cases i <;> fin_cases j <;> rfl

/-- `M * identity() == M` when all entries are finite; every other entry of a row of the product
that meets an infinity or a NaN is NaN. -/
theorem C89_mul_one_{M} {{f : Fmt}} (A : Mat {n} (Flt f)) :
    ((∀ i j, (A i j).IsFin) → ({M}.mul A {M}.one).beq A = true) ∧
    ∀ i k, ¬(A i k).IsFin → ∀ j, j ≠ k → {M}.mul A {M}.one i j = nan := by
  refine ⟨fun hA => ?_, fun i k h j hj => ?_⟩
  · simp only [Mat.beq, List.all_eq_true, List.mem_finRange, true_imp_iff]
    intro i j
    obtain ⟨h1, h2⟩ := orderedSum_single ({M}.mul_order A {M}.one i j) j
      (by rw [one_{n}, if_pos rfl, mul_one']; exact hA i j)
      (fun k hk => by rw [one_{n}, if_neg hk]; exact mul_zero_fin (hA i k))
    refine (beq_iff h1 (hA i j)).2 (h2.trans ?_)
    rw [one_{n}, if_pos rfl, mul_one']
  · refine orderedSum_nan ({M}.mul_order A {M}.one i j) k ?_
    rw [one_{n}, if_neg hj.symm, mul_zero_notFin h]

/-- `identity() * M == M` when all entries are finite; every other entry of a column of the product
that meets an infinity or a NaN is NaN. -/
theorem C89_one_mul_{M} {{f : Fmt}} (A : Mat {n} (Flt f)) :
    ((∀ i j, (A i j).IsFin) → ({M}.mul {M}.one A).beq A = true) ∧
    ∀ k j, ¬(A k j).IsFin → ∀ i, i ≠ k → {M}.mul {M}.one A i j = nan := by
  refine ⟨fun hA => ?_, fun k j h i hi => ?_⟩
  · simp only [Mat.beq, List.all_eq_true, List.mem_finRange, true_imp_iff]
    intro i j
    obtain ⟨h1, h2⟩ := orderedSum_single ({M}.mul_order {M}.one A i j) i
      (by rw [one_{n}, if_pos rfl, one_mul']; exact hA i j)
      (fun k hk => by rw [one_{n}, if_neg hk.symm]; exact zero_mul_fin (hA k j))
    refine (beq_iff h1 (hA i j)).2 (h2.trans ?_)
    rw [one_{n}, if_pos rfl, one_mul']
  · refine orderedSum_nan ({M}.mul_order {M}.one A i j) k ?_
    rw [one_{n}, if_neg hi, zero_mul_notFin h]

/-- `identity() * v == v` when all entries are finite; an infinity or a NaN makes every other entry
of the product NaN. -/
theorem C89_one_mulVec_{M} {{f : Fmt}} (v : Vec {n} (Flt f)) :
    ((∀ i, (v i).IsFin) → ({M}.mulVec {M}.one v).beq v = true) ∧
    ∀ k, ¬(v k).IsFin → ∀ i, i ≠ k → {M}.mulVec {M}.one v i = nan := by
  refine ⟨fun hv => ?_, fun k h i hi => ?_⟩
  · simp only [Vec.beq, List.all_eq_true, List.mem_finRange, true_imp_iff]
    intro i
    obtain ⟨h1, h2⟩ := orderedSum_single ({M}.mulVec_order {M}.one v i) i
      (by rw [one_{n}, if_pos rfl, one_mul']; exact hv i)
      (fun k hk => by rw [one_{n}, if_neg hk.symm]; exact zero_mul_fin (hv k))
    refine (beq_iff h1 (hv i)).2 (h2.trans ?_)
    rw [one_{n}, if_pos rfl, one_mul']
  · refine orderedSum_nan ({M}.mulVec_order {M}.one v i) k ?_
    rw [one_{n}, if_neg hi, zero_mul_notFin h]

/-- The smallest and the largest numbers survive; an infinity does not. -/
example : ({M}.mul ⟨fun i j => if i = j then maxValue Fmt.f32 else -tiny Fmt.f32⟩ {M}.one).beq
      ⟨fun i j => if i = j then maxValue Fmt.f32 else -tiny Fmt.f32⟩ = true ∧
    {M}.mul ⟨fun _ _ => inf false⟩ ({M}.one : Mat {n} (Flt Fmt.f64)) 0 0 = nan ∧
    ({M}.mulVec {M}.one ⟨fun _ => tiny Fmt.f32⟩).beq ⟨fun _ => tiny Fmt.f32⟩ = true :=
  ⟨(C89_mul_one_{M} _).1 fun i j => by
      by_cases h : i = j
      · simp only [h, if_true]; trivial
      · simp only [h, if_false]; trivial,
    (C89_mul_one_{M} _).2 0 1 id 0 (by decide), (C89_one_mulVec_{M} _).1 fun _ => trivial⟩
''')
o.append('''
/-! ## C90 exact symmetries

No arithmetic law is used but commutativity of a single addition and a single multiplication. -/
''')
for n in sizes:
    M = f'M{n}{n}'
    V = f'V{n}'
    comm = ', '.join(f'mul_comm\' (v.val {k}) (w.val {k})' for k in range(n))
    o.append(f'''
/-- Dot product and sum of vectors are bit-identical when the operands are swapped. -/
theorem C90_{V} {{f : Fmt}} (v w : Vec {n} (Flt f)) : {V}.dot v w = {V}.dot w v ∧ {V}.add v w = {V}.add w v := by
  constructor
  · unfold {V}.dot
    rw [{comm}]
  · refine Vec.ext (funext fun i => ?_)
    fin_cases i <;> exact add_comm' _ _

/-- Transposition commutes bit for bit with `+`, `-` and scaling, and `A + B` with `B + A`. -/
theorem C90_transpose_{M} {{f : Fmt}} (A B : Mat {n} (Flt f)) (s : Flt f) :
    {M}.add A B = {M}.add B A ∧
    {M}.transpose ({M}.add A B) = {M}.add ({M}.transpose A) ({M}.transpose B) ∧
    {M}.transpose ({M}.sub A B) = {M}.sub ({M}.transpose A) ({M}.transpose B) ∧
    {M}.transpose ({M}.smul A s) = {M}.smul ({M}.transpose A) s := by
  refine ⟨Mat.ext (funext fun i => funext fun j => ?_), Mat.ext (funext fun i => funext fun j => ?_),
    Mat.ext (funext fun i => funext fun j => ?_), Mat.ext (funext fun i => funext fun j => ?_)⟩
  · fin_cases i <;> fin_cases j <;> exact add_comm' _ _
  all_goals (fin_cases i <;> fin_cases j <;> rfl)
''')
    if n != 4:
        term = 'mul_comm\' _ _'
        for _ in range(n - 1):
            term = f'congrArg₂ (· + ·) ({term}) (mul_comm\' _ _)'
        o.append(f'''
/-- `(A * B)ᵀ` and `Bᵀ * Aᵀ` are bit-identical. -/
theorem C90_transpose_mul_{M} {{f : Fmt}} (A B : Mat {n} (Flt f)) :
    {M}.transpose ({M}.mul A B) = {M}.mul ({M}.transpose B) ({M}.transpose A) := by
  refine Mat.ext (funext fun i => funext fun j => ?_)
  fin_cases i <;> fin_cases j <;>
    exact {term}
''')
    else:
        o.append('''
/-- The 4x4 product adds the terms of its third row in another order, so that the same statement is
false there: in every format, one of the two products overflows where the other does not. -/
theorem C90_transpose_mul_M44_differs (f : Fmt) : ∃ A B : Mat 4 (Flt f),
    M44.transpose (M44.mul A B) ≠ M44.mul (M44.transpose B) (M44.transpose A) := by
  refine ⟨⟨![0, 0, ![maxValue f, maxValue f, -maxValue f, 0], 0]⟩, ⟨fun _ _ => 1⟩, fun h => ?_⟩
  have h' := congrFun (congrFun (congrArg Mat.val h) 0) 2
  have e1 : (M44.transpose (M44.mul (⟨![0, 0, ![maxValue f, maxValue f, -maxValue f, 0], 0]⟩ : Mat 4 (Flt f))
      ⟨fun _ _ => 1⟩)).val 0 2
      = maxValue f * 1 + -maxValue f * 1 + 0 * 1 + maxValue f * 1 := rfl
  have e2 : (M44.mul (M44.transpose (⟨fun _ _ => 1⟩ : Mat 4 (Flt f)))
      (M44.transpose ⟨![0, 0, ![maxValue f, maxValue f, -maxValue f, 0], 0]⟩)).val 0 2
      = 1 * maxValue f + 1 * maxValue f + 1 * -maxValue f + 1 * 0 := rfl
  rw [e1, e2] at h'
  simp only [mul_one', one_mul', max_add_max] at h'
  rw [inf_add_fin (show (-maxValue f).IsFin from trivial), inf_add_fin isFin_zero] at h'
  have hz : (maxValue f + -maxValue f).IsFin ∧ (maxValue f + -maxValue f).toReal = 0 := by
    have := add_exact (a := maxValue f) (b := -maxValue f) trivial trivial
      (by rw [toReal_neg, add_neg_cancel, abs_zero]; exact f.rep_zero)
    exact ⟨this.1, by rw [this.2, toReal_neg, add_neg_cancel]⟩
  have hz2 := add_zero_val hz.1 isFin_zero toReal_zero
  have hz3 := (zero_add_val hz2.1 (show (maxValue f).IsFin from trivial) (hz2.2.trans hz.2)).1
  rw [h'] at hz3
  exact hz3
''')
o.append('''
/-- A case with NaN, an infinity and signed zeros. -/
example : V2.dot ⟨![nan, -0]⟩ (⟨![1, inf true]⟩ : Vec 2 (Flt Fmt.f32)) = V2.dot ⟨![1, inf true]⟩ ⟨![nan, -0]⟩ ∧
    M33.transpose (M33.mul ⟨fun _ _ => inf true⟩ (⟨fun _ _ => tiny Fmt.f64⟩ : Mat 3 (Flt Fmt.f64))) =
      M33.mul (M33.transpose ⟨fun _ _ => tiny Fmt.f64⟩) (M33.transpose ⟨fun _ _ => inf true⟩) :=
  ⟨(C90_V2 _ _).1, C90_transpose_mul_M33 _ _⟩

/-! ## C91 inverse and NaN -/
''')
for n in sizes:
    M = f'M{n}{n}'
    o.append(('' if n < 5 else '\nset_option maxRecDepth 8000 in') + f'''
/-- `inverse()` never panics; it returns `Some` when the computed determinant is NaN or infinite,
and `None` exactly when the computed determinant is finite and smaller than `EPSILON`. -/
theorem C91_{M} {{f : Fmt}} [Libm f] (A : Mat {n} (Flt f)) :
    (({M}.det A = nan ∨ ∃ s, {M}.det A = inf s) → ∃ B, {M}.inverse A = .ok (some B)) ∧
    ({M}.inverse A = .ok none ↔ ({M}.det A).IsFin ∧ |({M}.det A).toReal| < (2 : ℝ) ^ (1 - (f.p : ℤ))) ∧
    ∃ r, {M}.inverse A = .ok r := by
  rw [← nearly_zero_flt]
  rcases {M}.inverse_cases A with ⟨h, e⟩ | ⟨h, B, e⟩
  · refine ⟨fun hd => absurd ((nearly_zero_flt _).1 h).1 ?_, by simp [h, e], _, e⟩
    rcases hd with hd | ⟨s, hd⟩ <;> (rw [hd]; exact id)
  · exact ⟨fun _ => ⟨B, e⟩, by simp [h, e], _, e⟩
''')
o.append('''
/-- The matrix of NaNs is reported invertible, the zero matrix is not. -/
example : let _ := anyLibm Fmt.f64
    (∃ B, M22.inverse (⟨fun _ _ => nan⟩ : Mat 2 (Flt Fmt.f64)) = .ok (some B)) ∧
    M22.inverse (M22.zero : Mat 2 (Flt Fmt.f64)) = .ok none := by
  intro _
  refine ⟨(C91_M22 _).1 (Or.inl rfl), (C91_M22 _).2.1.2 ?_⟩
  have hz := mul_zero_fin (isFin_zero (f := Fmt.f64))
  have hs : (0 * 0 - 0 * 0 : Flt Fmt.f64).IsFin ∧ (0 * 0 - 0 * 0 : Flt Fmt.f64).toReal = 0 := by
    have := add_zero_val (a := (0 * 0 : Flt Fmt.f64)) (b := -(0 * 0)) hz.1 (isFin_neg.2 hz.1)
      (by rw [toReal_neg, hz.2, neg_zero])
    exact ⟨this.1, this.2.trans hz.2⟩
  refine ⟨hs.1, ?_⟩
  change |(0 * 0 - 0 * 0 : Flt Fmt.f64).toReal| < _
  rw [hs.2, abs_zero]
  positivity

/-! ## C92 normalize on extreme magnitudes -/
''')
for n in sizes:
    V = f'V{n}'
    o.append(f'''
private theorem norm2_{n} {{f : Fmt}} [Libm f] (v : Vec {n} (Flt f)) : {V}.norm2 v = Flt.sqrt ({V}.dot v v) := rfl

/-- `normalize()` never panics and returns `Err` exactly when the computed norm is a zero. When the norm
overflows, a finite vector is "normalised" to a vector of zeros. -/
theorem C92_{V} {{f : Fmt}} [Libm f] (v : Vec {n} (Flt f)) :
    ({V}.normalize v = .ok (.error .Norm2IsZero) ↔ ({V}.norm2 v).IsFin ∧ ({V}.norm2 v).toReal = 0) ∧
    (∃ r, {V}.normalize v = .ok r) ∧
    ((∀ i, (v i).IsFin) → {V}.norm2 v = inf false →
      ∃ w, {V}.normalize v = .ok (.ok w) ∧ ∀ i, (w i).IsFin ∧ (w i).toReal = 0) := by
  have hb : ROrd.beq ({V}.norm2 v) 0 = true ↔ ({V}.norm2 v).IsFin ∧ ({V}.norm2 v).toReal = 0 := by
    by_cases h : ({V}.norm2 v).IsFin
    · rw [beq_iff h isFin_zero]
      simp [h]
    · simp only [h, false_and, iff_false, Bool.not_eq_true]
      rcases notFin_cases h with e | ⟨s, e⟩ <;> rw [e] <;> rfl
  unfold {V}.normalize
  rw [normalizeGen_eq]
  refine ⟨?_, ?_, fun hv hi => ?_⟩
  · rw [← hb]
    by_cases h : ROrd.beq ({V}.norm2 v) 0 = true <;> simp [h]
  · by_cases h : ROrd.beq ({V}.norm2 v) 0 = true
    · exact ⟨_, if_pos h⟩
    · exact ⟨_, if_neg h⟩
  · have h : ¬ROrd.beq ({V}.norm2 v) 0 = true := by
      rw [hb, hi]
      exact fun h => h.1
    refine ⟨_, if_neg h, fun i => ?_⟩
    rw [hi]
    exact div_inf (hv i) false

/-- In every format a non-zero vector exists whose normalisation is refused (its norm underflows),
and a finite vector whose norm overflows. -/
theorem C92_witness_{V} (f : Fmt) [Libm f] :
    (∃ v : Vec {n} (Flt f), (∀ i, (v i).IsFin) ∧ (v 0).toReal ≠ 0 ∧
      {V}.normalize v = .ok (.error .Norm2IsZero)) ∧
    ∃ v : Vec {n} (Flt f), (∀ i, (v i).IsFin) ∧ {V}.norm2 v = inf false := by
  have hz := mul_zero_fin (isFin_zero (f := f))
  refine ⟨⟨⟨fun i => if i = 0 then tiny f else 0⟩, fun i => ?_, ?_, ?_⟩,
    ⟨⟨fun i => if i = 0 then maxValue f else 0⟩, fun i => ?_, ?_⟩⟩
  · by_cases h : i = 0
    · simp only [h, if_true]; trivial
    · simp only [h, if_false]; trivial
  · change (2 : ℝ) ^ _ ≠ 0
    positivity
  · rw [(C92_{V} _).1, norm2_{n}]
    have hd := orderedSum_single ({V}.dot_order (⟨fun i => if i = 0 then tiny f else 0⟩ : Vec {n} (Flt f))
      ⟨fun i => if i = 0 then tiny f else 0⟩) 0 (tiny_mul_tiny f).1
      (fun j hj => by simp only [hj, if_false]; exact hz)
    exact sqrt_zero_val hd.1 (hd.2.trans (tiny_mul_tiny f).2)
  · by_cases h : i = 0
    · simp only [h, if_true]; trivial
    · simp only [h, if_false]; trivial
  · rw [norm2_{n}, orderedSum_inf ({V}.dot_order (⟨fun i => if i = 0 then maxValue f else 0⟩ : Vec {n} (Flt f))
      ⟨fun i => if i = 0 then maxValue f else 0⟩) 0 false (max_mul_max f)
      (fun j hj => by simp only [hj, if_false]; exact hz)]
    rfl

example : let _ := anyLibm Fmt.f32
    ∃ v w : Vec {n} (Flt Fmt.f32), (∀ i, (v i).IsFin) ∧ {V}.normalize v = .ok (.ok w) ∧ (w 0).toReal = 0 := by
  intro _
  obtain ⟨v, hv, hn⟩ := (C92_witness_{V} Fmt.f32).2
  obtain ⟨w, hw, h⟩ := (C92_{V} v).2.2 hv hn
  exact ⟨v, w, hv, hw, (h 0).2⟩
''')
o.append('''
/-! ## C93 forward error

`f.u = 2^(-p)` is the unit roundoff and `f.eta = 2^(emin-p)` half the smallest positive number. The
only hypothesis of the general bound is that the computed result is finite; the bound of the claim
follows when no product falls into the subnormal range. -/
''')
for n in sizes:
    M = f'M{n}{n}'
    V = f'V{n}'
    def thm(name, args, r, a, b, order, doc):
        s = f'∑ k, ({a}).toReal * ({b}).toReal'
        sa = f'∑ k, |({a}).toReal * ({b}).toReal|'
        return f'''
/-- {doc} -/
theorem C93_{name} {{f : Fmt}} {args} (h : ({r}).IsFin) :
    (|({r}).toReal - {s}| ≤
      ((1 + f.u) ^ {n} - 1) * {sa} + (1 + f.u) ^ {n} * ({n} * f.eta)) ∧
    ((∀ k, ({a}).toReal * ({b}).toReal = 0 ∨ (2 : ℝ) ^ f.emin ≤ |({a}).toReal * ({b}).toReal|) →
      |({r}).toReal - {s}| ≤
        ((1 + f.u) ^ {n} - 1) * {sa}) :=
  ⟨by simpa using orderedSum_err ({order}) h, orderedSum_rel ({order}) h⟩
'''
    o.append(thm(f'dot_{V}', f'(v w : Vec {n} (Flt f))', f'{V}.dot v w', 'v k', 'w k', f'{V}.dot_order v w',
                 'Forward error of the dot product.'))
    o.append(thm(f'mulVec_{M}', f'(A : Mat {n} (Flt f)) (v : Vec {n} (Flt f)) (i : Fin {n})', f'{M}.mulVec A v i', 'A i k', 'v k', f'{M}.mulVec_order A v i',
                 'Forward error of each entry of a matrix-vector product.'))
    o.append(thm(f'mul_{M}', f'(A B : Mat {n} (Flt f)) (i j : Fin {n})', f'{M}.mul A B i j', 'A i k', 'B k j', f'{M}.mul_order A B i j',
                 'Forward error of each entry of a matrix product.'))
    o.append(f'''
/-- A computed product that is finite and whose terms do not underflow. -/
example (i : Fin {n}) : ({M}.mulVec {M}.one ⟨fun _ => maxValue Fmt.f32⟩ i).IsFin ∧
    ∀ k, (({M}.one : Mat {n} (Flt Fmt.f32)) i k).toReal * (maxValue Fmt.f32).toReal = 0 ∨
      (2 : ℝ) ^ Fmt.f32.emin ≤ |(({M}.one : Mat {n} (Flt Fmt.f32)) i k).toReal * (maxValue Fmt.f32).toReal| := by
  refine ⟨(orderedSum_single ({M}.mulVec_order _ _ i) i (by rw [one_{n}, if_pos rfl, one_mul']; trivial)
      (fun k hk => by rw [one_{n}, if_neg hk.symm]; exact zero_mul_fin trivial)).1, fun k => ?_⟩
  rw [one_{n}]
  by_cases h : i = k
  · refine Or.inr ?_
    rw [if_pos h, toReal_one, one_mul]
    refine le_trans ?_ (le_abs_self _)
    refine le_trans ?_ (max_ge _)
    have h1 : (2 : ℝ) ^ Fmt.f32.emin ≤ 2 ^ Fmt.f32.emax := zpow_le_zpow_right₀ (by norm_num) (by decide)
    have h2 : (2 : ℝ) ^ (Fmt.f32.emax + 1) = 2 ^ Fmt.f32.emax * 2 := zpow_add_one₀ (by norm_num) _
    have h3 : (0 : ℝ) < 2 ^ Fmt.f32.emax := by positivity
    linarith
  · exact Or.inl (by rw [if_neg h, toReal_zero, zero_mul])
''')
o.append('\nend StaticMath\n')
open('/verif/lean/Verif/Props/Ieee.lean', 'w').write(''.join(o))
