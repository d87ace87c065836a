#!/usr/bin/env python3
"""Generate lean/Verif/Props/Vector.lean (C13-C17), one theorem per size where needed."""
import sys
NS = range(2, 7)
out = ['''import Verif.Lemmas.Transfer
import Verif.Lemmas.Loop
import Verif.Lemmas.Norm
import Mathlib.LinearAlgebra.Matrix.Notation
import Mathlib.LinearAlgebra.Matrix.Determinant.Basic
import Verif.Lemmas.Det

/-!
# C13-C17: norms, dot product, normalization, vector space laws, cross product

Generated by `tools/gen_props_vector.py` (the same statement for every size 2..6).
-/

namespace StaticMath

variable {R : Type} [CommRing R]
''']

def sec(t): out.append('\n/-! ' + t + ' -/\n')

sec('## C13 Matrix norm2 is the Frobenius norm')
for n in NS:
    M = f'M{n}{n}'
    out.append(f'''
theorem C13_norm2_{M} [RealParams] (A B : Mat {n} ℝ) (c : ℝ) :
    {M}.norm2 A = √(∑ i, ∑ j, A i j ^ 2) ∧
    0 ≤ {M}.norm2 A ∧
    ({M}.norm2 A = 0 ↔ A = {M}.zero) ∧
    {M}.norm2 ({M}.smul A c) = |c| * {M}.norm2 A ∧
    {M}.norm2 ({M}.add A B) ≤ {M}.norm2 A + {M}.norm2 B ∧
    {M}.norm2 ({M}.mul A B) ≤ {M}.norm2 A * {M}.norm2 B ∧
    {M}.norm2 ({M}.transpose A) = {M}.norm2 A := by
  have hn (X : Mat {n} ℝ) : {M}.norm2 X = √(∑ i, ∑ j, X.toM i j * X.toM i j) := {M}.norm2_eq X
  refine ⟨by simp only [hn, Mat.toM_apply, sq], by rw [hn]; exact Real.sqrt_nonneg _, ?_, ?_, ?_, ?_,
    ?_⟩
  · rw [hn, frob_zero, ← Mat.toM_inj, {M}.toM_zero]
    exact ⟨fun h => Matrix.ext h, fun h i j => by rw [h]; rfl⟩
  · rw [hn, hn, ← frob_smul]
    simp only [Mat.toM_apply, {M}.smul_apply]
  · rw [hn, hn, hn, {M}.toM_add]
    exact frob_triangle A.toM B.toM
  · rw [hn, hn, hn, {M}.toM_mul]
    exact frob_mul A.toM B.toM
  · rw [hn, hn, {M}.toM_transpose, Finset.sum_comm]
    rfl
''')
out.append('''
example [RealParams] : M22.norm2 (⟨![![1, 2], ![4, 2]]⟩ : Mat 2 ℝ) = 5 := by
  rw [(C13_norm2_M22 _ ⟨![![0, 0], ![0, 0]]⟩ 0).1, Real.sqrt_eq_iff_mul_self_eq_of_pos] <;>
    simp [Fin.sum_univ_two] <;> norm_num
''')

sec('## C14 Vector norm2 and dot are the Euclidean ones')
for n in NS:
    V = f'V{n}'
    out.append(f'''
theorem C14_dot_{V} (u v w : Vec {n} R) (c : R) :
    {V}.dot v w = ∑ k, v k * w k ∧
    {V}.dot v w = {V}.dot w v ∧
    {V}.dot ({V}.add u v) w = {V}.dot u w + {V}.dot v w ∧
    {V}.dot ({V}.smul v c) w = {V}.dot v w * c := by
  simp only [{V}.dot_eq, {V}.add_apply, {V}.smul_apply, Finset.sum_mul, ← Finset.sum_add_distrib]
  refine ⟨trivial, Finset.sum_congr rfl fun k _ => mul_comm _ _,
    Finset.sum_congr rfl fun k _ => add_mul _ _ _, Finset.sum_congr rfl fun k _ => by ring⟩

theorem C14_norm2_{V} [RealParams] (v w : Vec {n} ℝ) (c : ℝ) :
    {V}.norm2 v = √(∑ k, v k ^ 2) ∧
    {V}.norm2 v ^ 2 = {V}.dot v v ∧
    0 ≤ {V}.norm2 v ∧
    ({V}.norm2 v = 0 ↔ v = {V}.zero) ∧
    {V}.norm2 ({V}.smul v c) = |c| * {V}.norm2 v ∧
    {V}.norm2 ({V}.add v w) ≤ {V}.norm2 v + {V}.norm2 w ∧
    |{V}.dot v w| ≤ {V}.norm2 v * {V}.norm2 w := by
  have hn (x : Vec {n} ℝ) : {V}.norm2 x = √(∑ k, x k * x k) := {V}.norm2_eq x
  refine ⟨by simp only [hn, sq], ?_, by rw [hn]; exact Real.sqrt_nonneg _, ?_, ?_, ?_, ?_⟩
  · rw [hn, Real.sq_sqrt (Finset.sum_nonneg fun k _ => mul_self_nonneg _), {V}.dot_eq]
  · rw [hn, euclid_zero]
    refine ⟨fun h => Vec.ext (funext fun k => by rw [h k, {V}.zero_apply]), fun h k => ?_⟩
    rw [h, {V}.zero_apply]
  · rw [hn, hn, ← euclid_smul]
    simp only [{V}.smul_apply]
  · rw [hn, hn, hn]
    simp only [{V}.add_apply]
    exact euclid_triangle v.val w.val
  · rw [hn, hn, {V}.dot_eq]
    exact euclid_cauchy v.val w.val
''')
out.append('''
example : V3.dot ⟨![1, 2, 3]⟩ ⟨![4, 5, 6]⟩ = (32 : ℤ) := by decide
example [RealParams] : V2.norm2 (⟨![3, 4]⟩ : Vec 2 ℝ) = 5 := by
  rw [(C14_norm2_V2 _ ⟨![0, 0]⟩ 0).1, Real.sqrt_eq_iff_mul_self_eq_of_pos] <;>
    simp [Fin.sum_univ_two] <;> norm_num
''')

sec('## C15 Vector normalize')
for n in NS:
    V = f'V{n}'
    out.append(f'''
theorem C15_normalize_{V} [RealParams] (v : Vec {n} ℝ) :
    (v = {V}.zero → {V}.normalize v = .ok (.error .Norm2IsZero)) ∧
    (v ≠ {V}.zero → ∃ u, {V}.normalize v = .ok (.ok u) ∧ {V}.norm2 u = 1 ∧
      v = {V}.smul u ({V}.norm2 v)) := by
  obtain ⟨-, -, hnn, hz, -⟩ := C14_norm2_{V} v v 0
  rw [{V}.normalize, normalizeGen_eq]
  refine ⟨fun h => ?_, fun h => ?_⟩
  · have : {V}.norm2 v = 0 := hz.2 h
    simp [this]
  · have hne : {V}.norm2 v ≠ 0 := fun h' => h (hz.1 h')
    refine ⟨⟨fun i => v i / {V}.norm2 v⟩, by simp [hne], ?_, ?_⟩
    · have e : (⟨fun i => v i / {V}.norm2 v⟩ : Vec {n} ℝ) = {V}.smul v ({V}.norm2 v)⁻¹ :=
        Vec.ext (funext fun i => by rw [{V}.smul_apply]; exact div_eq_mul_inv _ _)
      rw [e, (C14_norm2_{V} v v ({V}.norm2 v)⁻¹).2.2.2.2.1, abs_of_nonneg (inv_nonneg.2 hnn),
        inv_mul_cancel₀ hne]
    · exact Vec.ext (funext fun i => by rw [{V}.smul_apply]; exact (div_mul_cancel₀ _ hne).symm)
''')
out.append('''
example : (⟨![3, 4]⟩ : Vec 2 ℝ) ≠ V2.zero := fun h => by
  have := congrArg (fun v : Vec 2 ℝ => v 0) h
  simp [V2.zero] at this
''')

sec('## C16 Vector space laws')
for n in NS:
    V = f'V{n}'
    out.append(f'''
theorem C16_module_{V} (u v w : Vec {n} R) (a b : R) :
    {V}.add ({V}.add u v) w = {V}.add u ({V}.add v w) ∧
    {V}.add v w = {V}.add w v ∧
    {V}.add v {V}.zero = v ∧
    {V}.add v ({V}.neg v) = {V}.zero ∧
    {V}.sub v w = {V}.add v ({V}.neg w) ∧
    {V}.smul ({V}.add v w) a = {V}.add ({V}.smul v a) ({V}.smul w a) ∧
    {V}.smul v (a + b) = {V}.add ({V}.smul v a) ({V}.smul v b) ∧
    {V}.smul ({V}.smul v a) b = {V}.smul v (a * b) ∧
    {V}.smul v 1 = v ∧
    {V}.add_assign v w = {V}.add v w ∧ {V}.sub_assign v w = {V}.sub v w ∧
    {V}.f32mul a v = {V}.smul v a{' ∧ V3.f64mul a v = V3.smul v a' if n == 3 else ''} := by
  refine ⟨?_, ?_, ?_, ?_, ?_, ?_, ?_, ?_, ?_, rfl, rfl, ?_{', ?_' if n == 3 else ''}⟩ <;> refine Vec.ext (funext fun i => ?_)
  all_goals first
    | (simp only [{V}.add_apply, {V}.sub_apply, {V}.neg_apply, {V}.smul_apply, {V}.zero_apply]; ring)
    | (fin_cases i <;> first | rfl | exact mul_comm _ _)

theorem C16_sdiv_{V} {{F : Type}} [Field F] (v : Vec {n} F) (c : F) :
    {V}.sdiv v c = {V}.smul v (1 / c) ∧ (c ≠ 0 → {V}.smul ({V}.sdiv v c) c = v) := by
  refine ⟨Vec.ext (funext fun i => ?_), fun h => Vec.ext (funext fun i => ?_)⟩
  · rw [{V}.sdiv_apply, {V}.smul_apply, mul_one_div]
  · rw [{V}.smul_apply, {V}.sdiv_apply, div_mul_cancel₀ _ h]
''')
out.append('''
example : V3.sub ⟨![5, 7, 9]⟩ ⟨![4, 5, 6]⟩ = (⟨![1, 2, 3]⟩ : Vec 3 ℤ) := by
  ext i; fin_cases i <;> rfl
''')

sec('## C17 Cross product')
out.append('''
theorem C17_cross (a b c : Vec 3 R) (t : R) :
    V3.cross (V3.add a b) c = V3.add (V3.cross a c) (V3.cross b c) ∧
    V3.cross (V3.smul a t) b = V3.smul (V3.cross a b) t ∧
    V3.cross a b = V3.neg (V3.cross b a) ∧
    V3.cross a a = V3.zero ∧
    V3.dot a (V3.cross a b) = 0 ∧ V3.dot b (V3.cross a b) = 0 ∧
    V3.add (V3.add (V3.cross a (V3.cross b c)) (V3.cross b (V3.cross c a)))
      (V3.cross c (V3.cross a b)) = V3.zero ∧
    V3.dot (V3.cross a b) (V3.cross a b) = V3.dot a a * V3.dot b b - V3.dot a b * V3.dot a b ∧
    V3.dot a (V3.cross b c) = (Matrix.of ![a.val, b.val, c.val]).det ∧
    V3.cross V3.x_axis V3.y_axis = (V3.z_axis : Vec 3 R) := by
  have e0 (a b : Vec 3 R) : V3.cross a b 0 = a 1 * b 2 - a 2 * b 1 := rfl
  have e1 (a b : Vec 3 R) : V3.cross a b 1 = a 2 * b 0 - a 0 * b 2 := rfl
  have e2 (a b : Vec 3 R) : V3.cross a b 2 = a 0 * b 1 - a 1 * b 0 := rfl
  have ex {x y : Vec 3 R} (h0 : x 0 = y 0) (h1 : x 1 = y 1) (h2 : x 2 = y 2) : x = y :=
    Vec.ext (funext fun i => by fin_cases i <;> assumption)
  refine ⟨?_, ?_, ?_, ?_, ?_, ?_, ?_, ?_, ?_, ?_⟩
  · apply ex <;> simp only [e0, e1, e2, V3.add_apply] <;> ring
  · apply ex <;> simp only [e0, e1, e2, V3.smul_apply] <;> ring
  · apply ex <;> simp only [e0, e1, e2, V3.neg_apply] <;> ring
  · apply ex <;> simp only [e0, e1, e2, V3.zero_apply] <;> ring
  · simp only [V3.dot_eq, Fin.sum_univ_three, e0, e1, e2]; ring
  · simp only [V3.dot_eq, Fin.sum_univ_three, e0, e1, e2]; ring
  · apply ex <;> simp only [e0, e1, e2, V3.add_apply, V3.zero_apply] <;> ring
  · simp only [V3.dot_eq, Fin.sum_univ_three, e0, e1, e2]; ring
  · have hd : (Matrix.of ![a.val, b.val, c.val]).det = M33.det ⟨![a.val, b.val, c.val]⟩ :=
      (M33.det_eq ⟨![a.val, b.val, c.val]⟩).symm
    have hd' : M33.det ⟨![a.val, b.val, c.val]⟩ =
        a 0 * (b 1 * c 2 - c 1 * b 2) - a 1 * (b 0 * c 2 - b 2 * c 0)
          + a 2 * (b 0 * c 1 - b 1 * c 0) := rfl
    rw [hd, hd']
    simp only [V3.dot_eq, Fin.sum_univ_three, e0, e1, e2]
    ring
  · have hx : (V3.x_axis : Vec 3 R) = ⟨![1, 0, 0]⟩ := rfl
    have hy : (V3.y_axis : Vec 3 R) = ⟨![0, 1, 0]⟩ := rfl
    rw [hx, hy]
    apply ex <;> simp [V3.cross, V3.z_axis]

example : V3.cross ⟨![1, 2, 3]⟩ ⟨![4, 5, 6]⟩ = (⟨![-3, 6, -3]⟩ : Vec 3 ℤ) := by
  ext i; fin_cases i <;> rfl
''')

out.append('\nend StaticMath\n')
open(sys.argv[1], 'w').write(''.join(out))
