import Verif.Lemmas.Transfer
import Verif.Lemmas.Loop
import Verif.Lemmas.Norm
import Mathlib.LinearAlgebra.Matrix.Notation
import Mathlib.LinearAlgebra.Matrix.Determinant.Basic
import Verif.Lemmas.Det

/-!
# C13-C17: norms, dot product, normalization, vector space laws, cross product

Generated by `tools/gen_props_vector.py` (the same statement for every size 2..6).
-/

namespace StaticMath

variable {R : Type} [CommRing R]

/-! ## C13 Matrix norm2 is the Frobenius norm -/

theorem C13_norm2_M22 [RealParams] (A B : Mat 2 ℝ) (c : ℝ) :
    M22.norm2 A = √(∑ i, ∑ j, A i j ^ 2) ∧
    0 ≤ M22.norm2 A ∧
    (M22.norm2 A = 0 ↔ A = M22.zero) ∧
    M22.norm2 (M22.smul A c) = |c| * M22.norm2 A ∧
    M22.norm2 (M22.add A B) ≤ M22.norm2 A + M22.norm2 B ∧
    M22.norm2 (M22.mul A B) ≤ M22.norm2 A * M22.norm2 B ∧
    M22.norm2 (M22.transpose A) = M22.norm2 A := by
  have hn (X : Mat 2 ℝ) : M22.norm2 X = √(∑ i, ∑ j, X.toM i j * X.toM i j) := M22.norm2_eq X
  refine ⟨by simp only [hn, Mat.toM_apply, sq], by rw [hn]; exact Real.sqrt_nonneg _, ?_, ?_, ?_, ?_,
    ?_⟩
  · rw [hn, frob_zero, ← Mat.toM_inj, M22.toM_zero]
    exact ⟨fun h => Matrix.ext h, fun h i j => by rw [h]; rfl⟩
  · rw [hn, hn, ← frob_smul]
    simp only [Mat.toM_apply, M22.smul_apply]
  · rw [hn, hn, hn, M22.toM_add]
    exact frob_triangle A.toM B.toM
  · rw [hn, hn, hn, M22.toM_mul]
    exact frob_mul A.toM B.toM
  · rw [hn, hn, M22.toM_transpose, Finset.sum_comm]
    rfl

theorem C13_norm2_M33 [RealParams] (A B : Mat 3 ℝ) (c : ℝ) :
    M33.norm2 A = √(∑ i, ∑ j, A i j ^ 2) ∧
    0 ≤ M33.norm2 A ∧
    (M33.norm2 A = 0 ↔ A = M33.zero) ∧
    M33.norm2 (M33.smul A c) = |c| * M33.norm2 A ∧
    M33.norm2 (M33.add A B) ≤ M33.norm2 A + M33.norm2 B ∧
    M33.norm2 (M33.mul A B) ≤ M33.norm2 A * M33.norm2 B ∧
    M33.norm2 (M33.transpose A) = M33.norm2 A := by
  have hn (X : Mat 3 ℝ) : M33.norm2 X = √(∑ i, ∑ j, X.toM i j * X.toM i j) := M33.norm2_eq X
  refine ⟨by simp only [hn, Mat.toM_apply, sq], by rw [hn]; exact Real.sqrt_nonneg _, ?_, ?_, ?_, ?_,
    ?_⟩
  · rw [hn, frob_zero, ← Mat.toM_inj, M33.toM_zero]
    exact ⟨fun h => Matrix.ext h, fun h i j => by rw [h]; rfl⟩
  · rw [hn, hn, ← frob_smul]
    simp only [Mat.toM_apply, M33.smul_apply]
  · rw [hn, hn, hn, M33.toM_add]
    exact frob_triangle A.toM B.toM
  · rw [hn, hn, hn, M33.toM_mul]
    exact frob_mul A.toM B.toM
  · rw [hn, hn, M33.toM_transpose, Finset.sum_comm]
    rfl

theorem C13_norm2_M44 [RealParams] (A B : Mat 4 ℝ) (c : ℝ) :
    M44.norm2 A = √(∑ i, ∑ j, A i j ^ 2) ∧
    0 ≤ M44.norm2 A ∧
    (M44.norm2 A = 0 ↔ A = M44.zero) ∧
    M44.norm2 (M44.smul A c) = |c| * M44.norm2 A ∧
    M44.norm2 (M44.add A B) ≤ M44.norm2 A + M44.norm2 B ∧
    M44.norm2 (M44.mul A B) ≤ M44.norm2 A * M44.norm2 B ∧
    M44.norm2 (M44.transpose A) = M44.norm2 A := by
  have hn (X : Mat 4 ℝ) : M44.norm2 X = √(∑ i, ∑ j, X.toM i j * X.toM i j) := M44.norm2_eq X
  refine ⟨by simp only [hn, Mat.toM_apply, sq], by rw [hn]; exact Real.sqrt_nonneg _, ?_, ?_, ?_, ?_,
    ?_⟩
  · rw [hn, frob_zero, ← Mat.toM_inj, M44.toM_zero]
    exact ⟨fun h => Matrix.ext h, fun h i j => by rw [h]; rfl⟩
  · rw [hn, hn, ← frob_smul]
    simp only [Mat.toM_apply, M44.smul_apply]
  · rw [hn, hn, hn, M44.toM_add]
    exact frob_triangle A.toM B.toM
  · rw [hn, hn, hn, M44.toM_mul]
    exact frob_mul A.toM B.toM
  · rw [hn, hn, M44.toM_transpose, Finset.sum_comm]
    rfl

theorem C13_norm2_M55 [RealParams] (A B : Mat 5 ℝ) (c : ℝ) :
    M55.norm2 A = √(∑ i, ∑ j, A i j ^ 2) ∧
    0 ≤ M55.norm2 A ∧
    (M55.norm2 A = 0 ↔ A = M55.zero) ∧
    M55.norm2 (M55.smul A c) = |c| * M55.norm2 A ∧
    M55.norm2 (M55.add A B) ≤ M55.norm2 A + M55.norm2 B ∧
    M55.norm2 (M55.mul A B) ≤ M55.norm2 A * M55.norm2 B ∧
    M55.norm2 (M55.transpose A) = M55.norm2 A := by
  have hn (X : Mat 5 ℝ) : M55.norm2 X = √(∑ i, ∑ j, X.toM i j * X.toM i j) := M55.norm2_eq X
  refine ⟨by simp only [hn, Mat.toM_apply, sq], by rw [hn]; exact Real.sqrt_nonneg _, ?_, ?_, ?_, ?_,
    ?_⟩
  · rw [hn, frob_zero, ← Mat.toM_inj, M55.toM_zero]
    exact ⟨fun h => Matrix.ext h, fun h i j => by rw [h]; rfl⟩
  · rw [hn, hn, ← frob_smul]
    simp only [Mat.toM_apply, M55.smul_apply]
  · rw [hn, hn, hn, M55.toM_add]
    exact frob_triangle A.toM B.toM
  · rw [hn, hn, hn, M55.toM_mul]
    exact frob_mul A.toM B.toM
  · rw [hn, hn, M55.toM_transpose, Finset.sum_comm]
    rfl

theorem C13_norm2_M66 [RealParams] (A B : Mat 6 ℝ) (c : ℝ) :
    M66.norm2 A = √(∑ i, ∑ j, A i j ^ 2) ∧
    0 ≤ M66.norm2 A ∧
    (M66.norm2 A = 0 ↔ A = M66.zero) ∧
    M66.norm2 (M66.smul A c) = |c| * M66.norm2 A ∧
    M66.norm2 (M66.add A B) ≤ M66.norm2 A + M66.norm2 B ∧
    M66.norm2 (M66.mul A B) ≤ M66.norm2 A * M66.norm2 B ∧
    M66.norm2 (M66.transpose A) = M66.norm2 A := by
  have hn (X : Mat 6 ℝ) : M66.norm2 X = √(∑ i, ∑ j, X.toM i j * X.toM i j) := M66.norm2_eq X
  refine ⟨by simp only [hn, Mat.toM_apply, sq], by rw [hn]; exact Real.sqrt_nonneg _, ?_, ?_, ?_, ?_,
    ?_⟩
  · rw [hn, frob_zero, ← Mat.toM_inj, M66.toM_zero]
    exact ⟨fun h => Matrix.ext h, fun h i j => by rw [h]; rfl⟩
  · rw [hn, hn, ← frob_smul]
    simp only [Mat.toM_apply, M66.smul_apply]
  · rw [hn, hn, hn, M66.toM_add]
    exact frob_triangle A.toM B.toM
  · rw [hn, hn, hn, M66.toM_mul]
    exact frob_mul A.toM B.toM
  · rw [hn, hn, M66.toM_transpose, Finset.sum_comm]
    rfl

example [RealParams] : M22.norm2 (⟨![![1, 2], ![4, 2]]⟩ : Mat 2 ℝ) = 5 := by
  rw [(C13_norm2_M22 _ ⟨![![0, 0], ![0, 0]]⟩ 0).1, Real.sqrt_eq_iff_mul_self_eq_of_pos] <;>
    simp [Fin.sum_univ_two] <;> norm_num

/-! ## C14 Vector norm2 and dot are the Euclidean ones -/

theorem C14_dot_V2 (u v w : Vec 2 R) (c : R) :
    V2.dot v w = ∑ k, v k * w k ∧
    V2.dot v w = V2.dot w v ∧
    V2.dot (V2.add u v) w = V2.dot u w + V2.dot v w ∧
    V2.dot (V2.smul v c) w = V2.dot v w * c := by
  simp only [V2.dot_eq, V2.add_apply, V2.smul_apply, Finset.sum_mul, ← Finset.sum_add_distrib]
  refine ⟨trivial, Finset.sum_congr rfl fun k _ => mul_comm _ _,
    Finset.sum_congr rfl fun k _ => add_mul _ _ _, Finset.sum_congr rfl fun k _ => by ring⟩

theorem C14_norm2_V2 [RealParams] (v w : Vec 2 ℝ) (c : ℝ) :
    V2.norm2 v = √(∑ k, v k ^ 2) ∧
    V2.norm2 v ^ 2 = V2.dot v v ∧
    0 ≤ V2.norm2 v ∧
    (V2.norm2 v = 0 ↔ v = V2.zero) ∧
    V2.norm2 (V2.smul v c) = |c| * V2.norm2 v ∧
    V2.norm2 (V2.add v w) ≤ V2.norm2 v + V2.norm2 w ∧
    |V2.dot v w| ≤ V2.norm2 v * V2.norm2 w := by
  have hn (x : Vec 2 ℝ) : V2.norm2 x = √(∑ k, x k * x k) := V2.norm2_eq x
  refine ⟨by simp only [hn, sq], ?_, by rw [hn]; exact Real.sqrt_nonneg _, ?_, ?_, ?_, ?_⟩
  · rw [hn, Real.sq_sqrt (Finset.sum_nonneg fun k _ => mul_self_nonneg _), V2.dot_eq]
  · rw [hn, euclid_zero]
    refine ⟨fun h => Vec.ext (funext fun k => by rw [h k, V2.zero_apply]), fun h k => ?_⟩
    rw [h, V2.zero_apply]
  · rw [hn, hn, ← euclid_smul]
    simp only [V2.smul_apply]
  · rw [hn, hn, hn]
    simp only [V2.add_apply]
    exact euclid_triangle v.val w.val
  · rw [hn, hn, V2.dot_eq]
    exact euclid_cauchy v.val w.val

theorem C14_dot_V3 (u v w : Vec 3 R) (c : R) :
    V3.dot v w = ∑ k, v k * w k ∧
    V3.dot v w = V3.dot w v ∧
    V3.dot (V3.add u v) w = V3.dot u w + V3.dot v w ∧
    V3.dot (V3.smul v c) w = V3.dot v w * c := by
  simp only [V3.dot_eq, V3.add_apply, V3.smul_apply, Finset.sum_mul, ← Finset.sum_add_distrib]
  refine ⟨trivial, Finset.sum_congr rfl fun k _ => mul_comm _ _,
    Finset.sum_congr rfl fun k _ => add_mul _ _ _, Finset.sum_congr rfl fun k _ => by ring⟩

theorem C14_norm2_V3 [RealParams] (v w : Vec 3 ℝ) (c : ℝ) :
    V3.norm2 v = √(∑ k, v k ^ 2) ∧
    V3.norm2 v ^ 2 = V3.dot v v ∧
    0 ≤ V3.norm2 v ∧
    (V3.norm2 v = 0 ↔ v = V3.zero) ∧
    V3.norm2 (V3.smul v c) = |c| * V3.norm2 v ∧
    V3.norm2 (V3.add v w) ≤ V3.norm2 v + V3.norm2 w ∧
    |V3.dot v w| ≤ V3.norm2 v * V3.norm2 w := by
  have hn (x : Vec 3 ℝ) : V3.norm2 x = √(∑ k, x k * x k) := V3.norm2_eq x
  refine ⟨by simp only [hn, sq], ?_, by rw [hn]; exact Real.sqrt_nonneg _, ?_, ?_, ?_, ?_⟩
  · rw [hn, Real.sq_sqrt (Finset.sum_nonneg fun k _ => mul_self_nonneg _), V3.dot_eq]
  · rw [hn, euclid_zero]
    refine ⟨fun h => Vec.ext (funext fun k => by rw [h k, V3.zero_apply]), fun h k => ?_⟩
    rw [h, V3.zero_apply]
  · rw [hn, hn, ← euclid_smul]
    simp only [V3.smul_apply]
  · rw [hn, hn, hn]
    simp only [V3.add_apply]
    exact euclid_triangle v.val w.val
  · rw [hn, hn, V3.dot_eq]
    exact euclid_cauchy v.val w.val

theorem C14_dot_V4 (u v w : Vec 4 R) (c : R) :
    V4.dot v w = ∑ k, v k * w k ∧
    V4.dot v w = V4.dot w v ∧
    V4.dot (V4.add u v) w = V4.dot u w + V4.dot v w ∧
    V4.dot (V4.smul v c) w = V4.dot v w * c := by
  simp only [V4.dot_eq, V4.add_apply, V4.smul_apply, Finset.sum_mul, ← Finset.sum_add_distrib]
  refine ⟨trivial, Finset.sum_congr rfl fun k _ => mul_comm _ _,
    Finset.sum_congr rfl fun k _ => add_mul _ _ _, Finset.sum_congr rfl fun k _ => by ring⟩

theorem C14_norm2_V4 [RealParams] (v w : Vec 4 ℝ) (c : ℝ) :
    V4.norm2 v = √(∑ k, v k ^ 2) ∧
    V4.norm2 v ^ 2 = V4.dot v v ∧
    0 ≤ V4.norm2 v ∧
    (V4.norm2 v = 0 ↔ v = V4.zero) ∧
    V4.norm2 (V4.smul v c) = |c| * V4.norm2 v ∧
    V4.norm2 (V4.add v w) ≤ V4.norm2 v + V4.norm2 w ∧
    |V4.dot v w| ≤ V4.norm2 v * V4.norm2 w := by
  have hn (x : Vec 4 ℝ) : V4.norm2 x = √(∑ k, x k * x k) := V4.norm2_eq x
  refine ⟨by simp only [hn, sq], ?_, by rw [hn]; exact Real.sqrt_nonneg _, ?_, ?_, ?_, ?_⟩
  · rw [hn, Real.sq_sqrt (Finset.sum_nonneg fun k _ => mul_self_nonneg _), V4.dot_eq]
  · rw [hn, euclid_zero]
    refine ⟨fun h => Vec.ext (funext fun k => by rw [h k, V4.zero_apply]), fun h k => ?_⟩
    rw [h, V4.zero_apply]
  · rw [hn, hn, ← euclid_smul]
    simp only [V4.smul_apply]
  · rw [hn, hn, hn]
    simp only [V4.add_apply]
    exact euclid_triangle v.val w.val
  · rw [hn, hn, V4.dot_eq]
    exact euclid_cauchy v.val w.val

theorem C14_dot_V5 (u v w : Vec 5 R) (c : R) :
    V5.dot v w = ∑ k, v k * w k ∧
    V5.dot v w = V5.dot w v ∧
    V5.dot (V5.add u v) w = V5.dot u w + V5.dot v w ∧
    V5.dot (V5.smul v c) w = V5.dot v w * c := by
  simp only [V5.dot_eq, V5.add_apply, V5.smul_apply, Finset.sum_mul, ← Finset.sum_add_distrib]
  refine ⟨trivial, Finset.sum_congr rfl fun k _ => mul_comm _ _,
    Finset.sum_congr rfl fun k _ => add_mul _ _ _, Finset.sum_congr rfl fun k _ => by ring⟩

theorem C14_norm2_V5 [RealParams] (v w : Vec 5 ℝ) (c : ℝ) :
    V5.norm2 v = √(∑ k, v k ^ 2) ∧
    V5.norm2 v ^ 2 = V5.dot v v ∧
    0 ≤ V5.norm2 v ∧
    (V5.norm2 v = 0 ↔ v = V5.zero) ∧
    V5.norm2 (V5.smul v c) = |c| * V5.norm2 v ∧
    V5.norm2 (V5.add v w) ≤ V5.norm2 v + V5.norm2 w ∧
    |V5.dot v w| ≤ V5.norm2 v * V5.norm2 w := by
  have hn (x : Vec 5 ℝ) : V5.norm2 x = √(∑ k, x k * x k) := V5.norm2_eq x
  refine ⟨by simp only [hn, sq], ?_, by rw [hn]; exact Real.sqrt_nonneg _, ?_, ?_, ?_, ?_⟩
  · rw [hn, Real.sq_sqrt (Finset.sum_nonneg fun k _ => mul_self_nonneg _), V5.dot_eq]
  · rw [hn, euclid_zero]
    refine ⟨fun h => Vec.ext (funext fun k => by rw [h k, V5.zero_apply]), fun h k => ?_⟩
    rw [h, V5.zero_apply]
  · rw [hn, hn, ← euclid_smul]
    simp only [V5.smul_apply]
  · rw [hn, hn, hn]
    simp only [V5.add_apply]
    exact euclid_triangle v.val w.val
  · rw [hn, hn, V5.dot_eq]
    exact euclid_cauchy v.val w.val

theorem C14_dot_V6 (u v w : Vec 6 R) (c : R) :
    V6.dot v w = ∑ k, v k * w k ∧
    V6.dot v w = V6.dot w v ∧
    V6.dot (V6.add u v) w = V6.dot u w + V6.dot v w ∧
    V6.dot (V6.smul v c) w = V6.dot v w * c := by
  simp only [V6.dot_eq, V6.add_apply, V6.smul_apply, Finset.sum_mul, ← Finset.sum_add_distrib]
  refine ⟨trivial, Finset.sum_congr rfl fun k _ => mul_comm _ _,
    Finset.sum_congr rfl fun k _ => add_mul _ _ _, Finset.sum_congr rfl fun k _ => by ring⟩

theorem C14_norm2_V6 [RealParams] (v w : Vec 6 ℝ) (c : ℝ) :
    V6.norm2 v = √(∑ k, v k ^ 2) ∧
    V6.norm2 v ^ 2 = V6.dot v v ∧
    0 ≤ V6.norm2 v ∧
    (V6.norm2 v = 0 ↔ v = V6.zero) ∧
    V6.norm2 (V6.smul v c) = |c| * V6.norm2 v ∧
    V6.norm2 (V6.add v w) ≤ V6.norm2 v + V6.norm2 w ∧
    |V6.dot v w| ≤ V6.norm2 v * V6.norm2 w := by
  have hn (x : Vec 6 ℝ) : V6.norm2 x = √(∑ k, x k * x k) := V6.norm2_eq x
  refine ⟨by simp only [hn, sq], ?_, by rw [hn]; exact Real.sqrt_nonneg _, ?_, ?_, ?_, ?_⟩
  · rw [hn, Real.sq_sqrt (Finset.sum_nonneg fun k _ => mul_self_nonneg _), V6.dot_eq]
  · rw [hn, euclid_zero]
    refine ⟨fun h => Vec.ext (funext fun k => by rw [h k, V6.zero_apply]), fun h k => ?_⟩
    rw [h, V6.zero_apply]
  · rw [hn, hn, ← euclid_smul]
    simp only [V6.smul_apply]
  · rw [hn, hn, hn]
    simp only [V6.add_apply]
    exact euclid_triangle v.val w.val
  · rw [hn, hn, V6.dot_eq]
    exact euclid_cauchy v.val w.val

example : V3.dot ⟨![1, 2, 3]⟩ ⟨![4, 5, 6]⟩ = (32 : ℤ) := by decide
example [RealParams] : V2.norm2 (⟨![3, 4]⟩ : Vec 2 ℝ) = 5 := by
  rw [(C14_norm2_V2 _ ⟨![0, 0]⟩ 0).1, Real.sqrt_eq_iff_mul_self_eq_of_pos] <;>
    simp [Fin.sum_univ_two] <;> norm_num

/-! ## C15 Vector normalize -/

theorem C15_normalize_V2 [RealParams] (v : Vec 2 ℝ) :
    (v = V2.zero → V2.normalize v = .ok (.error .Norm2IsZero)) ∧
    (v ≠ V2.zero → ∃ u, V2.normalize v = .ok (.ok u) ∧ V2.norm2 u = 1 ∧
      v = V2.smul u (V2.norm2 v)) := by
  obtain ⟨-, -, hnn, hz, -⟩ := C14_norm2_V2 v v 0
  rw [V2.normalize, normalizeGen_eq]
  refine ⟨fun h => ?_, fun h => ?_⟩
  · have : V2.norm2 v = 0 := hz.2 h
    simp [this]
  · have hne : V2.norm2 v ≠ 0 := fun h' => h (hz.1 h')
    refine ⟨⟨fun i => v i / V2.norm2 v⟩, by simp [hne], ?_, ?_⟩
    · have e : (⟨fun i => v i / V2.norm2 v⟩ : Vec 2 ℝ) = V2.smul v (V2.norm2 v)⁻¹ :=
        Vec.ext (funext fun i => by rw [V2.smul_apply]; exact div_eq_mul_inv _ _)
      rw [e, (C14_norm2_V2 v v (V2.norm2 v)⁻¹).2.2.2.2.1, abs_of_nonneg (inv_nonneg.2 hnn),
        inv_mul_cancel₀ hne]
    · exact Vec.ext (funext fun i => by rw [V2.smul_apply]; exact (div_mul_cancel₀ _ hne).symm)

theorem C15_normalize_V3 [RealParams] (v : Vec 3 ℝ) :
    (v = V3.zero → V3.normalize v = .ok (.error .Norm2IsZero)) ∧
    (v ≠ V3.zero → ∃ u, V3.normalize v = .ok (.ok u) ∧ V3.norm2 u = 1 ∧
      v = V3.smul u (V3.norm2 v)) := by
  obtain ⟨-, -, hnn, hz, -⟩ := C14_norm2_V3 v v 0
  rw [V3.normalize, normalizeGen_eq]
  refine ⟨fun h => ?_, fun h => ?_⟩
  · have : V3.norm2 v = 0 := hz.2 h
    simp [this]
  · have hne : V3.norm2 v ≠ 0 := fun h' => h (hz.1 h')
    refine ⟨⟨fun i => v i / V3.norm2 v⟩, by simp [hne], ?_, ?_⟩
    · have e : (⟨fun i => v i / V3.norm2 v⟩ : Vec 3 ℝ) = V3.smul v (V3.norm2 v)⁻¹ :=
        Vec.ext (funext fun i => by rw [V3.smul_apply]; exact div_eq_mul_inv _ _)
      rw [e, (C14_norm2_V3 v v (V3.norm2 v)⁻¹).2.2.2.2.1, abs_of_nonneg (inv_nonneg.2 hnn),
        inv_mul_cancel₀ hne]
    · exact Vec.ext (funext fun i => by rw [V3.smul_apply]; exact (div_mul_cancel₀ _ hne).symm)

theorem C15_normalize_V4 [RealParams] (v : Vec 4 ℝ) :
    (v = V4.zero → V4.normalize v = .ok (.error .Norm2IsZero)) ∧
    (v ≠ V4.zero → ∃ u, V4.normalize v = .ok (.ok u) ∧ V4.norm2 u = 1 ∧
      v = V4.smul u (V4.norm2 v)) := by
  obtain ⟨-, -, hnn, hz, -⟩ := C14_norm2_V4 v v 0
  rw [V4.normalize, normalizeGen_eq]
  refine ⟨fun h => ?_, fun h => ?_⟩
  · have : V4.norm2 v = 0 := hz.2 h
    simp [this]
  · have hne : V4.norm2 v ≠ 0 := fun h' => h (hz.1 h')
    refine ⟨⟨fun i => v i / V4.norm2 v⟩, by simp [hne], ?_, ?_⟩
    · have e : (⟨fun i => v i / V4.norm2 v⟩ : Vec 4 ℝ) = V4.smul v (V4.norm2 v)⁻¹ :=
        Vec.ext (funext fun i => by rw [V4.smul_apply]; exact div_eq_mul_inv _ _)
      rw [e, (C14_norm2_V4 v v (V4.norm2 v)⁻¹).2.2.2.2.1, abs_of_nonneg (inv_nonneg.2 hnn),
        inv_mul_cancel₀ hne]
    · exact Vec.ext (funext fun i => by rw [V4.smul_apply]; exact (div_mul_cancel₀ _ hne).symm)

theorem C15_normalize_V5 [RealParams] (v : Vec 5 ℝ) :
    (v = V5.zero → V5.normalize v = .ok (.error .Norm2IsZero)) ∧
    (v ≠ V5.zero → ∃ u, V5.normalize v = .ok (.ok u) ∧ V5.norm2 u = 1 ∧
      v = V5.smul u (V5.norm2 v)) := by
  obtain ⟨-, -, hnn, hz, -⟩ := C14_norm2_V5 v v 0
  rw [V5.normalize, normalizeGen_eq]
  refine ⟨fun h => ?_, fun h => ?_⟩
  · have : V5.norm2 v = 0 := hz.2 h
    simp [this]
  · have hne : V5.norm2 v ≠ 0 := fun h' => h (hz.1 h')
    refine ⟨⟨fun i => v i / V5.norm2 v⟩, by simp [hne], ?_, ?_⟩
    · have e : (⟨fun i => v i / V5.norm2 v⟩ : Vec 5 ℝ) = V5.smul v (V5.norm2 v)⁻¹ :=
        Vec.ext (funext fun i => by rw [V5.smul_apply]; exact div_eq_mul_inv _ _)
      rw [e, (C14_norm2_V5 v v (V5.norm2 v)⁻¹).2.2.2.2.1, abs_of_nonneg (inv_nonneg.2 hnn),
        inv_mul_cancel₀ hne]
    · exact Vec.ext (funext fun i => by rw [V5.smul_apply]; exact (div_mul_cancel₀ _ hne).symm)

theorem C15_normalize_V6 [RealParams] (v : Vec 6 ℝ) :
    (v = V6.zero → V6.normalize v = .ok (.error .Norm2IsZero)) ∧
    (v ≠ V6.zero → ∃ u, V6.normalize v = .ok (.ok u) ∧ V6.norm2 u = 1 ∧
      v = V6.smul u (V6.norm2 v)) := by
  obtain ⟨-, -, hnn, hz, -⟩ := C14_norm2_V6 v v 0
  rw [V6.normalize, normalizeGen_eq]
  refine ⟨fun h => ?_, fun h => ?_⟩
  · have : V6.norm2 v = 0 := hz.2 h
    simp [this]
  · have hne : V6.norm2 v ≠ 0 := fun h' => h (hz.1 h')
    refine ⟨⟨fun i => v i / V6.norm2 v⟩, by simp [hne], ?_, ?_⟩
    · have e : (⟨fun i => v i / V6.norm2 v⟩ : Vec 6 ℝ) = V6.smul v (V6.norm2 v)⁻¹ :=
        Vec.ext (funext fun i => by rw [V6.smul_apply]; exact div_eq_mul_inv _ _)
      rw [e, (C14_norm2_V6 v v (V6.norm2 v)⁻¹).2.2.2.2.1, abs_of_nonneg (inv_nonneg.2 hnn),
        inv_mul_cancel₀ hne]
    · exact Vec.ext (funext fun i => by rw [V6.smul_apply]; exact (div_mul_cancel₀ _ hne).symm)

example : (⟨![3, 4]⟩ : Vec 2 ℝ) ≠ V2.zero := fun h => by
  have := congrArg (fun v : Vec 2 ℝ => v 0) h
  simp [V2.zero] at this

/-! ## C16 Vector space laws -/

theorem C16_module_V2 (u v w : Vec 2 R) (a b : R) :
    V2.add (V2.add u v) w = V2.add u (V2.add v w) ∧
    V2.add v w = V2.add w v ∧
    V2.add v V2.zero = v ∧
    V2.add v (V2.neg v) = V2.zero ∧
    V2.sub v w = V2.add v (V2.neg w) ∧
    V2.smul (V2.add v w) a = V2.add (V2.smul v a) (V2.smul w a) ∧
    V2.smul v (a + b) = V2.add (V2.smul v a) (V2.smul v b) ∧
    V2.smul (V2.smul v a) b = V2.smul v (a * b) ∧
    V2.smul v 1 = v ∧
    V2.add_assign v w = V2.add v w ∧ V2.sub_assign v w = V2.sub v w ∧
    V2.f32mul a v = V2.smul v a := by
  refine ⟨?_, ?_, ?_, ?_, ?_, ?_, ?_, ?_, ?_, rfl, rfl, ?_⟩ <;> refine Vec.ext (funext fun i => ?_)
  all_goals first
    | (simp only [V2.add_apply, V2.sub_apply, V2.neg_apply, V2.smul_apply, V2.zero_apply]; ring)
    | (fin_cases i <;> first | rfl | exact mul_comm _ _)

theorem C16_sdiv_V2 {F : Type} [Field F] (v : Vec 2 F) (c : F) :
    V2.sdiv v c = V2.smul v (1 / c) ∧ (c ≠ 0 → V2.smul (V2.sdiv v c) c = v) := by
  refine ⟨Vec.ext (funext fun i => ?_), fun h => Vec.ext (funext fun i => ?_)⟩
  · rw [V2.sdiv_apply, V2.smul_apply, mul_one_div]
  · rw [V2.smul_apply, V2.sdiv_apply, div_mul_cancel₀ _ h]

theorem C16_module_V3 (u v w : Vec 3 R) (a b : R) :
    V3.add (V3.add u v) w = V3.add u (V3.add v w) ∧
    V3.add v w = V3.add w v ∧
    V3.add v V3.zero = v ∧
    V3.add v (V3.neg v) = V3.zero ∧
    V3.sub v w = V3.add v (V3.neg w) ∧
    V3.smul (V3.add v w) a = V3.add (V3.smul v a) (V3.smul w a) ∧
    V3.smul v (a + b) = V3.add (V3.smul v a) (V3.smul v b) ∧
    V3.smul (V3.smul v a) b = V3.smul v (a * b) ∧
    V3.smul v 1 = v ∧
    V3.add_assign v w = V3.add v w ∧ V3.sub_assign v w = V3.sub v w ∧
    V3.f32mul a v = V3.smul v a ∧ V3.f64mul a v = V3.smul v a := by
  refine ⟨?_, ?_, ?_, ?_, ?_, ?_, ?_, ?_, ?_, rfl, rfl, ?_, ?_⟩ <;> refine Vec.ext (funext fun i => ?_)
  all_goals first
    | (simp only [V3.add_apply, V3.sub_apply, V3.neg_apply, V3.smul_apply, V3.zero_apply]; ring)
    | (fin_cases i <;> first | rfl | exact mul_comm _ _)

theorem C16_sdiv_V3 {F : Type} [Field F] (v : Vec 3 F) (c : F) :
    V3.sdiv v c = V3.smul v (1 / c) ∧ (c ≠ 0 → V3.smul (V3.sdiv v c) c = v) := by
  refine ⟨Vec.ext (funext fun i => ?_), fun h => Vec.ext (funext fun i => ?_)⟩
  · rw [V3.sdiv_apply, V3.smul_apply, mul_one_div]
  · rw [V3.smul_apply, V3.sdiv_apply, div_mul_cancel₀ _ h]

theorem C16_module_V4 (u v w : Vec 4 R) (a b : R) :
    V4.add (V4.add u v) w = V4.add u (V4.add v w) ∧
    V4.add v w = V4.add w v ∧
    V4.add v V4.zero = v ∧
    V4.add v (V4.neg v) = V4.zero ∧
    V4.sub v w = V4.add v (V4.neg w) ∧
    V4.smul (V4.add v w) a = V4.add (V4.smul v a) (V4.smul w a) ∧
    V4.smul v (a + b) = V4.add (V4.smul v a) (V4.smul v b) ∧
    V4.smul (V4.smul v a) b = V4.smul v (a * b) ∧
    V4.smul v 1 = v ∧
    V4.add_assign v w = V4.add v w ∧ V4.sub_assign v w = V4.sub v w ∧
    V4.f32mul a v = V4.smul v a := by
  refine ⟨?_, ?_, ?_, ?_, ?_, ?_, ?_, ?_, ?_, rfl, rfl, ?_⟩ <;> refine Vec.ext (funext fun i => ?_)
  all_goals first
    | (simp only [V4.add_apply, V4.sub_apply, V4.neg_apply, V4.smul_apply, V4.zero_apply]; ring)
    | (fin_cases i <;> first | rfl | exact mul_comm _ _)

theorem C16_sdiv_V4 {F : Type} [Field F] (v : Vec 4 F) (c : F) :
    V4.sdiv v c = V4.smul v (1 / c) ∧ (c ≠ 0 → V4.smul (V4.sdiv v c) c = v) := by
  refine ⟨Vec.ext (funext fun i => ?_), fun h => Vec.ext (funext fun i => ?_)⟩
  · rw [V4.sdiv_apply, V4.smul_apply, mul_one_div]
  · rw [V4.smul_apply, V4.sdiv_apply, div_mul_cancel₀ _ h]

theorem C16_module_V5 (u v w : Vec 5 R) (a b : R) :
    V5.add (V5.add u v) w = V5.add u (V5.add v w) ∧
    V5.add v w = V5.add w v ∧
    V5.add v V5.zero = v ∧
    V5.add v (V5.neg v) = V5.zero ∧
    V5.sub v w = V5.add v (V5.neg w) ∧
    V5.smul (V5.add v w) a = V5.add (V5.smul v a) (V5.smul w a) ∧
    V5.smul v (a + b) = V5.add (V5.smul v a) (V5.smul v b) ∧
    V5.smul (V5.smul v a) b = V5.smul v (a * b) ∧
    V5.smul v 1 = v ∧
    V5.add_assign v w = V5.add v w ∧ V5.sub_assign v w = V5.sub v w ∧
    V5.f32mul a v = V5.smul v a := by
  refine ⟨?_, ?_, ?_, ?_, ?_, ?_, ?_, ?_, ?_, rfl, rfl, ?_⟩ <;> refine Vec.ext (funext fun i => ?_)
  all_goals first
    | (simp only [V5.add_apply, V5.sub_apply, V5.neg_apply, V5.smul_apply, V5.zero_apply]; ring)
    | (fin_cases i <;> first | rfl | exact mul_comm _ _)

theorem C16_sdiv_V5 {F : Type} [Field F] (v : Vec 5 F) (c : F) :
    V5.sdiv v c = V5.smul v (1 / c) ∧ (c ≠ 0 → V5.smul (V5.sdiv v c) c = v) := by
  refine ⟨Vec.ext (funext fun i => ?_), fun h => Vec.ext (funext fun i => ?_)⟩
  · rw [V5.sdiv_apply, V5.smul_apply, mul_one_div]
  · rw [V5.smul_apply, V5.sdiv_apply, div_mul_cancel₀ _ h]

theorem C16_module_V6 (u v w : Vec 6 R) (a b : R) :
    V6.add (V6.add u v) w = V6.add u (V6.add v w) ∧
    V6.add v w = V6.add w v ∧
    V6.add v V6.zero = v ∧
    V6.add v (V6.neg v) = V6.zero ∧
    V6.sub v w = V6.add v (V6.neg w) ∧
    V6.smul (V6.add v w) a = V6.add (V6.smul v a) (V6.smul w a) ∧
    V6.smul v (a + b) = V6.add (V6.smul v a) (V6.smul v b) ∧
    V6.smul (V6.smul v a) b = V6.smul v (a * b) ∧
    V6.smul v 1 = v ∧
    V6.add_assign v w = V6.add v w ∧ V6.sub_assign v w = V6.sub v w ∧
    V6.f32mul a v = V6.smul v a := by
  refine ⟨?_, ?_, ?_, ?_, ?_, ?_, ?_, ?_, ?_, rfl, rfl, ?_⟩ <;> refine Vec.ext (funext fun i => ?_)
  all_goals first
    | (simp only [V6.add_apply, V6.sub_apply, V6.neg_apply, V6.smul_apply, V6.zero_apply]; ring)
    | (fin_cases i <;> first | rfl | exact mul_comm _ _)

theorem C16_sdiv_V6 {F : Type} [Field F] (v : Vec 6 F) (c : F) :
    V6.sdiv v c = V6.smul v (1 / c) ∧ (c ≠ 0 → V6.smul (V6.sdiv v c) c = v) := by
  refine ⟨Vec.ext (funext fun i => ?_), fun h => Vec.ext (funext fun i => ?_)⟩
  · rw [V6.sdiv_apply, V6.smul_apply, mul_one_div]
  · rw [V6.smul_apply, V6.sdiv_apply, div_mul_cancel₀ _ h]

example : V3.sub ⟨![5, 7, 9]⟩ ⟨![4, 5, 6]⟩ = (⟨![1, 2, 3]⟩ : Vec 3 ℤ) := by
  ext i; fin_cases i <;> rfl

/-! ## C17 Cross product -/

theorem C17_cross (a b c : Vec 3 R) (t : R) :
    V3.cross (V3.add a b) c = V3.add (V3.cross a c) (V3.cross b c) ∧
    V3.cross (V3.smul a t) b = V3.smul (V3.cross a b) t ∧
    V3.cross a b = V3.neg (V3.cross b a) ∧
    V3.cross a a = V3.zero ∧
    V3.dot a (V3.cross a b) = 0 ∧ V3.dot b (V3.cross a b) = 0 ∧
    V3.add (V3.add (V3.cross a (V3.cross b c)) (V3.cross b (V3.cross c a)))
      (V3.cross c (V3.cross a b)) = V3.zero ∧
    V3.dot (V3.cross a b) (V3.cross a b) = V3.dot a a * V3.dot b b - V3.dot a b * V3.dot a b ∧
    V3.dot a (V3.cross b c) = (Matrix.of ![a.val, b.val, c.val]).det ∧
    V3.cross V3.x_axis V3.y_axis = (V3.z_axis : Vec 3 R) := by
  have e0 (a b : Vec 3 R) : V3.cross a b 0 = a 1 * b 2 - a 2 * b 1 := rfl
  have e1 (a b : Vec 3 R) : V3.cross a b 1 = a 2 * b 0 - a 0 * b 2 := rfl
  have e2 (a b : Vec 3 R) : V3.cross a b 2 = a 0 * b 1 - a 1 * b 0 := rfl
  have ex {x y : Vec 3 R} (h0 : x 0 = y 0) (h1 : x 1 = y 1) (h2 : x 2 = y 2) : x = y :=
    Vec.ext (funext fun i => by fin_cases i <;> assumption)
  refine ⟨?_, ?_, ?_, ?_, ?_, ?_, ?_, ?_, ?_, ?_⟩
  · apply ex <;> simp only [e0, e1, e2, V3.add_apply] <;> ring
  · apply ex <;> simp only [e0, e1, e2, V3.smul_apply] <;> ring
  · apply ex <;> simp only [e0, e1, e2, V3.neg_apply] <;> ring
  · apply ex <;> simp only [e0, e1, e2, V3.zero_apply] <;> ring
  · simp only [V3.dot_eq, Fin.sum_univ_three, e0, e1, e2]; ring
  · simp only [V3.dot_eq, Fin.sum_univ_three, e0, e1, e2]; ring
  · apply ex <;> simp only [e0, e1, e2, V3.add_apply, V3.zero_apply] <;> ring
  · simp only [V3.dot_eq, Fin.sum_univ_three, e0, e1, e2]; ring
  · have hd : (Matrix.of ![a.val, b.val, c.val]).det = M33.det ⟨![a.val, b.val, c.val]⟩ :=
      (M33.det_eq ⟨![a.val, b.val, c.val]⟩).symm
    have hd' : M33.det ⟨![a.val, b.val, c.val]⟩ =
        a 0 * (b 1 * c 2 - c 1 * b 2) - a 1 * (b 0 * c 2 - b 2 * c 0)
          + a 2 * (b 0 * c 1 - b 1 * c 0) := rfl
    rw [hd, hd']
    simp only [V3.dot_eq, Fin.sum_univ_three, e0, e1, e2]
    ring
  · have hx : (V3.x_axis : Vec 3 R) = ⟨![1, 0, 0]⟩ := rfl
    have hy : (V3.y_axis : Vec 3 R) = ⟨![0, 1, 0]⟩ := rfl
    rw [hx, hy]
    apply ex <;> simp [V3.cross, V3.z_axis]

example : V3.cross ⟨![1, 2, 3]⟩ ⟨![4, 5, 6]⟩ = (⟨![-3, 6, -3]⟩ : Vec 3 ℤ) := by
  ext i; fin_cases i <;> rfl

end StaticMath
