import Verif.Lemmas.Slices
import Mathlib.Algebra.Order.BigOperators.Group.List

/-!
# C18, C19, C20, C38, C40: functions on slices
-/

namespace StaticMath

variable {T : Type}

/-! ## C20 find_max_min -/

theorem C20_find_max_min [LinearOrder T] (slice : List T) :
    (find_max_min slice = .error .indexOutOfBounds ↔ slice = []) ∧
    (slice ≠ [] → ∃ r, find_max_min slice = .ok r ∧
      (slice[r.max.2]? = some r.max.1 ∧ (∀ y ∈ slice, y ≤ r.max.1) ∧
        ∀ i, i < r.max.2 → ∀ y, slice[i]? = some y → y < r.max.1) ∧
      (slice[r.min.2]? = some r.min.1 ∧ (∀ y ∈ slice, r.min.1 ≤ y) ∧
        ∀ i, i < r.min.2 → ∀ y, slice[i]? = some y → r.min.1 < y)) := by
  cases slice with
  | nil => exact ⟨⟨fun _ => rfl, fun _ => rfl⟩, fun h => absurd rfl h⟩
  | cons x xs =>
    refine ⟨⟨fun h => (by simp [find_max_min] at h), fun h => (by simp at h)⟩, fun _ => ?_⟩
    exact ⟨_, rfl, find_max_min_foldl x xs⟩

example : ∃ r, find_max_min [3, 7, -2, 7, -2] = .ok r ∧ r.max = ((7 : ℤ), 1) ∧ r.min = (-2, 2) :=
  ⟨_, rfl, by decide, by decide⟩

/-! ## C18 norm_inf

The property is false: the code returns the largest component, not the largest absolute value
(`src/slices_methods.rs:67-70`). -/

/-- C18 is false: the "norm" of `(-1, -2)` is `-1`. -/
theorem C18_norm_inf_false :
    ∃ (v : Vec 2 ℤ), v.norm_inf = .ok (-1) ∧ ∀ i, |v i| ≠ -1 :=
  ⟨⟨![-1, -2]⟩, by decide, by decide⟩

/-- What holds: for every size, `norm_inf` returns the largest component, and this is the infinity
norm when no component is negative. Missing: vectors with a negative component (false there). -/
theorem C18_norm_inf_partial {n : ℕ} [AddCommGroup T] [LinearOrder T] [IsOrderedAddMonoid T]
    (hn : 0 < n) (v : Vec n T) :
    ∃ m, v.norm_inf = .ok m ∧ (∃ i, v i = m) ∧ (∀ i, v i ≤ m) ∧
      ((∀ i, 0 ≤ v i) → (∃ i, |v i| = m) ∧ ∀ i, |v i| ≤ m) := by
  have hne : v.toSlice ≠ [] := by
    intro h
    have := congrArg List.length h
    simp [Vec.toSlice] at this
    omega
  obtain ⟨r, hr, ⟨h1, h2, -⟩, -⟩ := (C20_find_max_min v.toSlice).2 hne
  have hmem : ∀ i, v i ∈ v.toSlice := fun i => by
    rw [Vec.toSlice, List.mem_ofFn]; exact ⟨i, rfl⟩
  have hex : ∃ i, v i = r.max.1 := by
    have := List.mem_of_getElem? h1
    rw [Vec.toSlice, List.mem_ofFn] at this
    exact this
  have hle : ∀ i, v i ≤ r.max.1 := fun i => h2 _ (hmem i)
  refine ⟨r.max.1, by rw [Vec.norm_inf, norm_inf, hr]; rfl, hex, hle, fun h => ⟨?_, fun i => ?_⟩⟩
  · obtain ⟨i, hi⟩ := hex
    exact ⟨i, by rw [abs_of_nonneg (h i), hi]⟩
  · rw [abs_of_nonneg (h i)]; exact hle i

example : ∀ i, 0 ≤ (⟨![3, 0, 5]⟩ : Vec 3 ℤ) i := by decide

/-! ## C19 norm_l -/

theorem C19_norm_l_slice [CommRing T] [LinearOrder T] (l : List T) :
    norm_l l = (l.map fun x => |x|).sum := by
  rw [norm_l, iterSum_eq_sum]; rfl

theorem C19_norm_l {n : ℕ} [CommRing T] [LinearOrder T] [IsStrictOrderedRing T] (v w : Vec n T)
    (c : T) :
    v.norm_l = ∑ i, |v i| ∧
    0 ≤ v.norm_l ∧
    (v.norm_l = 0 ↔ ∀ i, v i = 0) ∧
    Vec.norm_l ⟨fun i => v i * c⟩ = |c| * v.norm_l ∧
    Vec.norm_l ⟨fun i => v i + w i⟩ ≤ v.norm_l + w.norm_l := by
  have hn (x : Vec n T) : x.norm_l = ∑ i, |x i| := by
    rw [Vec.norm_l, norm_l]
    exact iterSum_vec (fun y => |y|) x
  simp only [hn]
  refine ⟨trivial, Finset.sum_nonneg fun i _ => abs_nonneg _, ?_, ?_, ?_⟩
  · rw [Finset.sum_eq_zero_iff_of_nonneg fun i _ => abs_nonneg _]
    simp
  · rw [Finset.mul_sum]
    exact Finset.sum_congr rfl fun i _ => by rw [abs_mul, mul_comm]
  · rw [← Finset.sum_add_distrib]
    exact Finset.sum_le_sum fun i _ => abs_add_le _ _

example : (⟨![1, -2, 3]⟩ : Vec 3 ℤ).norm_l = 6 := by decide

/-! ## C38 compare_vecs

False for slices of different length: the comparison stops at the end of the shorter one. -/

/-- C38 is false: `[1]` and `[1, 2]` compare equal, for every tolerance. -/
theorem C38_compare_vecs_false [RealParams] (eps : ℝ) :
    compare_vecs [(1 : ℝ)] [1, 2] eps = true ∧ [(1 : ℝ)].length ≠ [(1 : ℝ), 2].length := by
  simp [compare_vecs, nearly_equal]

/-- What holds, for every element type: slices of equal length compare equal exactly when they are
component-wise nearly equal. Missing: slices of different length (false there). -/
theorem C38_compare_vecs_partial [Add T] [Sub T] [Div T] [Zero T] [RAbs T] [ROrd T] [RFloat T]
    (v w : List T) (eps : T) (h : v.length = w.length) :
    compare_vecs v w eps = true ↔
      ∀ (i : ℕ) (a b : T), v[i]? = some a → w[i]? = some b → nearly_equal a b eps = true := by
  rw [compare_vecs, List.all_eq_true]
  constructor
  · intro H i a b ha hb
    refine H _ (List.mem_map.2 ⟨(a, b), ?_, rfl⟩)
    refine List.mem_iff_getElem?.2 ⟨i, ?_⟩
    rw [List.getElem?_zip_eq_some]
    exact ⟨ha, hb⟩
  · intro H x hx
    obtain ⟨⟨a, b⟩, hab, rfl⟩ := List.mem_map.1 hx
    obtain ⟨i, hi⟩ := List.mem_iff_getElem?.1 hab
    rw [List.getElem?_zip_eq_some] at hi
    exact H i a b hi.1 hi.2

example : [(1 : ℝ), 2].length = [(3 : ℝ), 4].length := rfl

/-! ## C40 dot, norm2, normalize, projection of slices -/

theorem C40_dot [CommRing T] (v w : List T) :
    (slice_dot v w = .error .assertFailed ↔ v.length ≠ w.length) ∧
    (v.length = w.length → slice_dot v w = .ok ((List.zipWith (· * ·) v w).sum)) := by
  unfold slice_dot
  by_cases h : v.length = w.length
  · simp only [h, if_true, iterSum_eq_sum]
    refine ⟨⟨fun h => (by simp at h), fun h => absurd rfl h⟩, fun _ => ?_⟩
    rw [List.zip, List.map_zipWith]
  · simp [h]

theorem C40_norm2 [RealParams] (l : List ℝ) : slice_norm2 l = √((l.map fun x => x ^ 2).sum) :=
  slice_norm2_eq l

/-- Normalizing a slice that is not all zero: unit norm, and the input is the result times the
norm. -/
theorem C40_normalize [RealParams] (l : List ℝ) (h : ∃ x ∈ l, x ≠ 0) :
    slice_norm2 (slice_normalize l) = 1 ∧
    (slice_normalize l).map (fun x => x * slice_norm2 l) = l := by
  have hpos : 0 < (l.map fun x => x ^ 2).sum := by
    obtain ⟨x, hx, hne⟩ := h
    have h1 : x ^ 2 ≤ (l.map fun x => x ^ 2).sum :=
      List.single_le_sum (fun y hy => by
        obtain ⟨z, -, rfl⟩ := List.mem_map.1 hy; positivity) _ (List.mem_map.2 ⟨x, hx, rfl⟩)
    have : 0 < x ^ 2 := by positivity
    linarith
  have hn : 0 < slice_norm2 l := by rw [slice_norm2_eq]; exact Real.sqrt_pos.2 hpos
  have hsq : slice_norm2 l ^ 2 = (l.map fun x => x ^ 2).sum := by
    rw [slice_norm2_eq, Real.sq_sqrt hpos.le]
  constructor
  · rw [slice_norm2_eq, slice_normalize, List.map_map]
    have : (l.map ((fun x => x ^ 2) ∘ fun element => element / slice_norm2 l)).sum
        = (l.map fun x => x ^ 2).sum * ((slice_norm2 l) ^ 2)⁻¹ := by
      rw [← List.sum_map_mul_right]
      congr 1
      refine List.map_congr_left fun x _ => ?_
      simp only [Function.comp]
      field_simp
    rw [this, ← hsq, mul_inv_cancel₀ (by positivity), Real.sqrt_one]
  · rw [slice_normalize, List.map_map]
    conv_rhs => rw [← List.map_id l]
    refine List.map_congr_left fun x _ => ?_
    simp only [Function.comp, id]
    exact div_mul_cancel₀ _ hn.ne'

/-- `x` minus its projection on `y` is orthogonal to `y`. -/
theorem C40_project (x y : List ℝ) (h : x.length = y.length) (hy : ∃ a ∈ y, a ≠ 0) :
    ∃ p, project_x_over_y x y = .ok p ∧
      (List.zipWith (· * ·) (List.zipWith (fun a b => a - b * p) x y) y).sum = 0 := by
  have e : project_x_over_y x y = .ok ((List.zipWith (· * ·) x y).sum / (List.zipWith (· * ·) y y).sum) := by
    rw [project_x_over_y, (C40_dot x y).2 h, (C40_dot y y).2 rfl]; rfl
  refine ⟨_, e, ?_⟩
  have hpos : (List.zipWith (· * ·) y y).sum ≠ 0 := by
    rw [List.zipWith_self]
    obtain ⟨a, ha, hne⟩ := hy
    have h1 : a * a ≤ (y.map fun x => x * x).sum :=
      List.single_le_sum (fun b hb => by
        obtain ⟨z, -, rfl⟩ := List.mem_map.1 hb; exact mul_self_nonneg z) _ (List.mem_map.2 ⟨a, ha, rfl⟩)
    have : 0 < a * a := mul_self_pos.2 hne
    exact (by linarith : 0 < (y.map fun x => x * x).sum).ne'
  have key : ∀ (x y : List ℝ) (p : ℝ), x.length = y.length →
      (List.zipWith (· * ·) (List.zipWith (fun a b => a - b * p) x y) y).sum
        = (List.zipWith (· * ·) x y).sum - (List.zipWith (· * ·) y y).sum * p := by
    intro x
    induction x with
    | nil => intro y p h; cases y <;> simp at h ⊢
    | cons a x ih =>
      intro y p h
      cases y with
      | nil => simp at h
      | cons b y =>
        simp only [List.zipWith_cons_cons, List.sum_cons, ih y p (by simpa using h)]
        ring
  rw [key x y _ h, mul_div_cancel₀ _ hpos, sub_self]

example : (∃ x ∈ [(0 : ℝ), 3, 4], x ≠ 0) := ⟨3, by simp, by norm_num⟩

end StaticMath
