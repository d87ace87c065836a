import Verif.Model.Construct
import Verif.Model.Display
import Verif.Lemmas.Loop
import Mathlib.Tactic.FinCases

/-!
# C100, C101: constructors, sizes and constants; Display

Generated by `tools/gen_props_construct.py`. Reading an element back is `get` (the `Index` impls).
-/

namespace StaticMath

variable {T : Type}

/-! ## C100 constructors -/

/-- Every constructor of `V2` puts each component where indexing finds it; `zeros` and `ones` are
constant. -/
theorem C100_vec_V2 [Zero T] [One T] (x0 x1 : T) (v : Vec 2 T) (k : ℕ) :
    ((V2.new_from x0 x1).get 0 = .ok x0 ∧ (V2.new_from x0 x1).get 1 = .ok x1) ∧
    (V2.new v).get k = v.get k ∧ (V2.from v).get k = v.get k ∧
    (k < 2 → (V2.zeros : Vec 2 T).get k = .ok 0 ∧ (V2.ones : Vec 2 T).get k = .ok 1) := by
  refine ⟨⟨rfl, rfl⟩, rfl, rfl, fun hk => ?_⟩
  rw [Vec.get_ok _ _ hk, Vec.get_ok _ _ hk]
  have : ∀ i : Fin 2, (V2.zeros : Vec 2 T).val i = 0 ∧ (V2.ones : Vec 2 T).val i = 1 := fun i => by
    fin_cases i <;> exact ⟨rfl, rfl⟩
  rw [(this _).1, (this _).2]
  exact ⟨rfl, rfl⟩

/-- Every constructor of `V3` puts each component where indexing finds it; `zeros` and `ones` are
constant. -/
theorem C100_vec_V3 [Zero T] [One T] (x0 x1 x2 : T) (v : Vec 3 T) (k : ℕ) :
    ((V3.new_from x0 x1 x2).get 0 = .ok x0 ∧ (V3.new_from x0 x1 x2).get 1 = .ok x1 ∧ (V3.new_from x0 x1 x2).get 2 = .ok x2) ∧
    (V3.new v).get k = v.get k ∧ (V3.from v).get k = v.get k ∧
    (k < 3 → (V3.zeros : Vec 3 T).get k = .ok 0 ∧ (V3.ones : Vec 3 T).get k = .ok 1) := by
  refine ⟨⟨rfl, rfl, rfl⟩, rfl, rfl, fun hk => ?_⟩
  rw [Vec.get_ok _ _ hk, Vec.get_ok _ _ hk]
  have : ∀ i : Fin 3, (V3.zeros : Vec 3 T).val i = 0 ∧ (V3.ones : Vec 3 T).val i = 1 := fun i => by
    fin_cases i <;> exact ⟨rfl, rfl⟩
  rw [(this _).1, (this _).2]
  exact ⟨rfl, rfl⟩

/-- Every constructor of `V4` puts each component where indexing finds it; `zeros` and `ones` are
constant. -/
theorem C100_vec_V4 [Zero T] [One T] (x0 x1 x2 x3 : T) (v : Vec 4 T) (k : ℕ) :
    ((V4.new_from x0 x1 x2 x3).get 0 = .ok x0 ∧ (V4.new_from x0 x1 x2 x3).get 1 = .ok x1 ∧ (V4.new_from x0 x1 x2 x3).get 2 = .ok x2 ∧ (V4.new_from x0 x1 x2 x3).get 3 = .ok x3) ∧
    (V4.new v).get k = v.get k ∧ (V4.from v).get k = v.get k ∧
    (k < 4 → (V4.zeros : Vec 4 T).get k = .ok 0 ∧ (V4.ones : Vec 4 T).get k = .ok 1) := by
  refine ⟨⟨rfl, rfl, rfl, rfl⟩, rfl, rfl, fun hk => ?_⟩
  rw [Vec.get_ok _ _ hk, Vec.get_ok _ _ hk]
  have : ∀ i : Fin 4, (V4.zeros : Vec 4 T).val i = 0 ∧ (V4.ones : Vec 4 T).val i = 1 := fun i => by
    fin_cases i <;> exact ⟨rfl, rfl⟩
  rw [(this _).1, (this _).2]
  exact ⟨rfl, rfl⟩

/-- Every constructor of `V5` puts each component where indexing finds it; `zeros` and `ones` are
constant. -/
theorem C100_vec_V5 [Zero T] [One T] (x0 x1 x2 x3 x4 : T) (v : Vec 5 T) (k : ℕ) :
    ((V5.new_from x0 x1 x2 x3 x4).get 0 = .ok x0 ∧ (V5.new_from x0 x1 x2 x3 x4).get 1 = .ok x1 ∧ (V5.new_from x0 x1 x2 x3 x4).get 2 = .ok x2 ∧ (V5.new_from x0 x1 x2 x3 x4).get 3 = .ok x3 ∧ (V5.new_from x0 x1 x2 x3 x4).get 4 = .ok x4) ∧
    (V5.new v).get k = v.get k ∧ (V5.from v).get k = v.get k ∧
    (k < 5 → (V5.zeros : Vec 5 T).get k = .ok 0 ∧ (V5.ones : Vec 5 T).get k = .ok 1) := by
  refine ⟨⟨rfl, rfl, rfl, rfl, rfl⟩, rfl, rfl, fun hk => ?_⟩
  rw [Vec.get_ok _ _ hk, Vec.get_ok _ _ hk]
  have : ∀ i : Fin 5, (V5.zeros : Vec 5 T).val i = 0 ∧ (V5.ones : Vec 5 T).val i = 1 := fun i => by
    fin_cases i <;> exact ⟨rfl, rfl⟩
  rw [(this _).1, (this _).2]
  exact ⟨rfl, rfl⟩

/-- Every constructor of `V6` puts each component where indexing finds it; `zeros` and `ones` are
constant. -/
theorem C100_vec_V6 [Zero T] [One T] (x0 x1 x2 x3 x4 x5 : T) (v : Vec 6 T) (k : ℕ) :
    ((V6.new_from x0 x1 x2 x3 x4 x5).get 0 = .ok x0 ∧ (V6.new_from x0 x1 x2 x3 x4 x5).get 1 = .ok x1 ∧ (V6.new_from x0 x1 x2 x3 x4 x5).get 2 = .ok x2 ∧ (V6.new_from x0 x1 x2 x3 x4 x5).get 3 = .ok x3 ∧ (V6.new_from x0 x1 x2 x3 x4 x5).get 4 = .ok x4 ∧ (V6.new_from x0 x1 x2 x3 x4 x5).get 5 = .ok x5) ∧
    (V6.new v).get k = v.get k ∧ (V6.from v).get k = v.get k ∧
    (k < 6 → (V6.zeros : Vec 6 T).get k = .ok 0 ∧ (V6.ones : Vec 6 T).get k = .ok 1) := by
  refine ⟨⟨rfl, rfl, rfl, rfl, rfl, rfl⟩, rfl, rfl, fun hk => ?_⟩
  rw [Vec.get_ok _ _ hk, Vec.get_ok _ _ hk]
  have : ∀ i : Fin 6, (V6.zeros : Vec 6 T).val i = 0 ∧ (V6.ones : Vec 6 T).val i = 1 := fun i => by
    fin_cases i <;> exact ⟨rfl, rfl⟩
  rw [(this _).1, (this _).2]
  exact ⟨rfl, rfl⟩

/-- `new`, `from` and the macro keep rows and columns in place; the reported size is the real one;
`identity` and `zeros` have the entries their names say. -/
theorem C100_mat_M22 [Zero T] [One T] (rows : Vec 2 (Vec 2 T)) (r0 r1 : Vec 2 T) (m : Mat 2 T) (i j : ℕ) :
    (M22.new rows).get i j = (rows.get i >>= fun r => r.get j) ∧
    (M22.from rows).get i j = (rows.get i >>= fun r => r.get j) ∧
    ((m22_new r0 r1).getRow 0 = .ok r0 ∧ (m22_new r0 r1).getRow 1 = .ok r1) ∧
    M22.shape m = (M22.rows m, M22.cols m) ∧ (m.get i j = .error .indexOutOfBounds ↔ M22.rows m ≤ i ∨ M22.cols m ≤ j) ∧
    (i < 2 → j < 2 → (M22.identity : Mat 2 T).get i j = .ok (if i = j then 1 else 0) ∧
      (M22.zeros : Mat 2 T).get i j = .ok 0) := by
  have hnew : (M22.new rows).get i j = (rows.get i >>= fun r => r.get j) := by
    unfold Mat.get Vec.get
    by_cases hi : i < 2
    · by_cases hj : j < 2
      · simp [hi, hj, M22.new, bind, Except.bind]
      · simp [hi, hj, bind, Except.bind]
    · simp [hi, bind, Except.bind]
  refine ⟨hnew, hnew, ⟨rfl, rfl⟩, rfl, ?_, fun hi hj => ?_⟩
  · change _ ↔ 2 ≤ i ∨ 2 ≤ j
    unfold Mat.get
    split <;> simp <;> omega
  · rw [Mat.get_ok _ _ _ hi hj, Mat.get_ok _ _ _ hi hj]
    have : ∀ a b : Fin 2, (M22.identity : Mat 2 T).val a b = (if (a : ℕ) = b then 1 else 0) ∧
        (M22.zeros : Mat 2 T).val a b = 0 := fun a b => by
      fin_cases a <;> fin_cases b <;> exact ⟨rfl, rfl⟩
    rw [(this _ _).1, (this _ _).2]
    exact ⟨rfl, rfl⟩

/-- `new`, `from` and the macro keep rows and columns in place; the reported size is the real one;
`identity` and `zeros` have the entries their names say. -/
theorem C100_mat_M33 [Zero T] [One T] (rows : Vec 3 (Vec 3 T)) (r0 r1 r2 : Vec 3 T) (m : Mat 3 T) (i j : ℕ) :
    (M33.new rows).get i j = (rows.get i >>= fun r => r.get j) ∧
    (M33.from rows).get i j = (rows.get i >>= fun r => r.get j) ∧
    ((m33_new r0 r1 r2).getRow 0 = .ok r0 ∧ (m33_new r0 r1 r2).getRow 1 = .ok r1 ∧ (m33_new r0 r1 r2).getRow 2 = .ok r2) ∧
    M33.shape m = (M33.rows m, M33.cols m) ∧ (m.get i j = .error .indexOutOfBounds ↔ M33.rows m ≤ i ∨ M33.cols m ≤ j) ∧
    (i < 3 → j < 3 → (M33.identity : Mat 3 T).get i j = .ok (if i = j then 1 else 0) ∧
      (M33.zeros : Mat 3 T).get i j = .ok 0) := by
  have hnew : (M33.new rows).get i j = (rows.get i >>= fun r => r.get j) := by
    unfold Mat.get Vec.get
    by_cases hi : i < 3
    · by_cases hj : j < 3
      · simp [hi, hj, M33.new, bind, Except.bind]
      · simp [hi, hj, bind, Except.bind]
    · simp [hi, bind, Except.bind]
  refine ⟨hnew, hnew, ⟨rfl, rfl, rfl⟩, rfl, ?_, fun hi hj => ?_⟩
  · change _ ↔ 3 ≤ i ∨ 3 ≤ j
    unfold Mat.get
    split <;> simp <;> omega
  · rw [Mat.get_ok _ _ _ hi hj, Mat.get_ok _ _ _ hi hj]
    have : ∀ a b : Fin 3, (M33.identity : Mat 3 T).val a b = (if (a : ℕ) = b then 1 else 0) ∧
        (M33.zeros : Mat 3 T).val a b = 0 := fun a b => by
      fin_cases a <;> fin_cases b <;> exact ⟨rfl, rfl⟩
    rw [(this _ _).1, (this _ _).2]
    exact ⟨rfl, rfl⟩

/-- `new`, `from` and the macro keep rows and columns in place; the reported size is the real one;
`identity` and `zeros` have the entries their names say. -/
theorem C100_mat_M44 [Zero T] [One T] (rows : Vec 4 (Vec 4 T)) (r0 r1 r2 r3 : Vec 4 T) (m : Mat 4 T) (i j : ℕ) :
    (M44.new rows).get i j = (rows.get i >>= fun r => r.get j) ∧
    (M44.from rows).get i j = (rows.get i >>= fun r => r.get j) ∧
    ((m44_new r0 r1 r2 r3).getRow 0 = .ok r0 ∧ (m44_new r0 r1 r2 r3).getRow 1 = .ok r1 ∧ (m44_new r0 r1 r2 r3).getRow 2 = .ok r2 ∧ (m44_new r0 r1 r2 r3).getRow 3 = .ok r3) ∧
    M44.shape m = (M44.rows m, M44.cols m) ∧ (m.get i j = .error .indexOutOfBounds ↔ M44.rows m ≤ i ∨ M44.cols m ≤ j) ∧
    (i < 4 → j < 4 → (M44.identity : Mat 4 T).get i j = .ok (if i = j then 1 else 0) ∧
      (M44.zeros : Mat 4 T).get i j = .ok 0) := by
  have hnew : (M44.new rows).get i j = (rows.get i >>= fun r => r.get j) := by
    unfold Mat.get Vec.get
    by_cases hi : i < 4
    · by_cases hj : j < 4
      · simp [hi, hj, M44.new, bind, Except.bind]
      · simp [hi, hj, bind, Except.bind]
    · simp [hi, bind, Except.bind]
  refine ⟨hnew, hnew, ⟨rfl, rfl, rfl, rfl⟩, rfl, ?_, fun hi hj => ?_⟩
  · change _ ↔ 4 ≤ i ∨ 4 ≤ j
    unfold Mat.get
    split <;> simp <;> omega
  · rw [Mat.get_ok _ _ _ hi hj, Mat.get_ok _ _ _ hi hj]
    have : ∀ a b : Fin 4, (M44.identity : Mat 4 T).val a b = (if (a : ℕ) = b then 1 else 0) ∧
        (M44.zeros : Mat 4 T).val a b = 0 := fun a b => by
      fin_cases a <;> fin_cases b <;> exact ⟨rfl, rfl⟩
    rw [(this _ _).1, (this _ _).2]
    exact ⟨rfl, rfl⟩

/-- `new`, `from` and the macro keep rows and columns in place; the reported size is the real one;
`identity` and `zeros` have the entries their names say. -/
theorem C100_mat_M55 [Zero T] [One T] (rows : Vec 5 (Vec 5 T)) (r0 r1 r2 r3 r4 : Vec 5 T) (m : Mat 5 T) (i j : ℕ) :
    (M55.new rows).get i j = (rows.get i >>= fun r => r.get j) ∧
    (M55.from rows).get i j = (rows.get i >>= fun r => r.get j) ∧
    ((m55_new r0 r1 r2 r3 r4).getRow 0 = .ok r0 ∧ (m55_new r0 r1 r2 r3 r4).getRow 1 = .ok r1 ∧ (m55_new r0 r1 r2 r3 r4).getRow 2 = .ok r2 ∧ (m55_new r0 r1 r2 r3 r4).getRow 3 = .ok r3 ∧ (m55_new r0 r1 r2 r3 r4).getRow 4 = .ok r4) ∧
    M55.shape m = (M55.rows m, M55.cols m) ∧ (m.get i j = .error .indexOutOfBounds ↔ M55.rows m ≤ i ∨ M55.cols m ≤ j) ∧
    (i < 5 → j < 5 → (M55.identity : Mat 5 T).get i j = .ok (if i = j then 1 else 0) ∧
      (M55.zeros : Mat 5 T).get i j = .ok 0) := by
  have hnew : (M55.new rows).get i j = (rows.get i >>= fun r => r.get j) := by
    unfold Mat.get Vec.get
    by_cases hi : i < 5
    · by_cases hj : j < 5
      · simp [hi, hj, M55.new, bind, Except.bind]
      · simp [hi, hj, bind, Except.bind]
    · simp [hi, bind, Except.bind]
  refine ⟨hnew, hnew, ⟨rfl, rfl, rfl, rfl, rfl⟩, rfl, ?_, fun hi hj => ?_⟩
  · change _ ↔ 5 ≤ i ∨ 5 ≤ j
    unfold Mat.get
    split <;> simp <;> omega
  · rw [Mat.get_ok _ _ _ hi hj, Mat.get_ok _ _ _ hi hj]
    have : ∀ a b : Fin 5, (M55.identity : Mat 5 T).val a b = (if (a : ℕ) = b then 1 else 0) ∧
        (M55.zeros : Mat 5 T).val a b = 0 := fun a b => by
      fin_cases a <;> fin_cases b <;> exact ⟨rfl, rfl⟩
    rw [(this _ _).1, (this _ _).2]
    exact ⟨rfl, rfl⟩

/-- `new`, `from` and the macro keep rows and columns in place; the reported size is the real one;
`identity` and `zeros` have the entries their names say. -/
theorem C100_mat_M66 [Zero T] [One T] (rows : Vec 6 (Vec 6 T)) (r0 r1 r2 r3 r4 r5 : Vec 6 T) (m : Mat 6 T) (i j : ℕ) :
    (M66.new rows).get i j = (rows.get i >>= fun r => r.get j) ∧
    (M66.from rows).get i j = (rows.get i >>= fun r => r.get j) ∧
    ((m66_new r0 r1 r2 r3 r4 r5).getRow 0 = .ok r0 ∧ (m66_new r0 r1 r2 r3 r4 r5).getRow 1 = .ok r1 ∧ (m66_new r0 r1 r2 r3 r4 r5).getRow 2 = .ok r2 ∧ (m66_new r0 r1 r2 r3 r4 r5).getRow 3 = .ok r3 ∧ (m66_new r0 r1 r2 r3 r4 r5).getRow 4 = .ok r4 ∧ (m66_new r0 r1 r2 r3 r4 r5).getRow 5 = .ok r5) ∧
    M66.shape m = (M66.rows m, M66.cols m) ∧ (m.get i j = .error .indexOutOfBounds ↔ M66.rows m ≤ i ∨ M66.cols m ≤ j) ∧
    (i < 6 → j < 6 → (M66.identity : Mat 6 T).get i j = .ok (if i = j then 1 else 0) ∧
      (M66.zeros : Mat 6 T).get i j = .ok 0) := by
  have hnew : (M66.new rows).get i j = (rows.get i >>= fun r => r.get j) := by
    unfold Mat.get Vec.get
    by_cases hi : i < 6
    · by_cases hj : j < 6
      · simp [hi, hj, M66.new, bind, Except.bind]
      · simp [hi, hj, bind, Except.bind]
    · simp [hi, bind, Except.bind]
  refine ⟨hnew, hnew, ⟨rfl, rfl, rfl, rfl, rfl, rfl⟩, rfl, ?_, fun hi hj => ?_⟩
  · change _ ↔ 6 ≤ i ∨ 6 ≤ j
    unfold Mat.get
    split <;> simp <;> omega
  · rw [Mat.get_ok _ _ _ hi hj, Mat.get_ok _ _ _ hi hj]
    have : ∀ a b : Fin 6, (M66.identity : Mat 6 T).val a b = (if (a : ℕ) = b then 1 else 0) ∧
        (M66.zeros : Mat 6 T).val a b = 0 := fun a b => by
      fin_cases a <;> fin_cases b <;> exact ⟨rfl, rfl⟩
    rw [(this _ _).1, (this _ _).2]
    exact ⟨rfl, rfl⟩

/-- `M22::new_from(a, b, c, d)` is row-major. -/
theorem C100_new_from_M22 (a b c d : T) :
    (M22.new_from a b c d).get 0 0 = .ok a ∧ (M22.new_from a b c d).get 0 1 = .ok b ∧
    (M22.new_from a b c d).get 1 0 = .ok c ∧ (M22.new_from a b c d).get 1 1 = .ok d := ⟨rfl, rfl, rfl, rfl⟩

/-- The named constants are what `zeros()`, `identity()` and `x_axis()`, `y_axis()`, `z_axis()` return. -/
theorem C100_constants [Zero T] [One T] :
    (V2_ZEROS : Vec 2 T) = V2.zeros ∧ (V3_ZEROS : Vec 3 T) = V3.zeros ∧ (V4_ZEROS : Vec 4 T) = V4.zeros ∧
    (V5_ZEROS : Vec 5 T) = V5.zeros ∧ (V6_ZEROS : Vec 6 T) = V6.zeros ∧ (M22_ZEROS : Mat 2 T) = M22.zeros ∧
    (M22_IDENT : Mat 2 T) = M22.identity ∧ (V3.X_AXIS : Vec 3 T) = V3.x_axis ∧ (V3.Y_AXIS : Vec 3 T) = V3.y_axis ∧
    (V3.Z_AXIS : Vec 3 T) = V3.z_axis ∧ (V2.X_AXIS : Vec 2 T).get 0 = .ok 1 ∧ (V2.X_AXIS : Vec 2 T).get 1 = .ok 0 ∧
    (V2.Y_AXIS : Vec 2 T).get 0 = .ok 0 ∧ (V2.Y_AXIS : Vec 2 T).get 1 = .ok 1 := by
  refine ⟨rfl, rfl, rfl, rfl, rfl, ?_, ?_, rfl, rfl, rfl, rfl, rfl, rfl, rfl⟩ <;>
    (ext i j; fin_cases i <;> fin_cases j <;> rfl)

/-- The constructors of quaternions agree on the order real, i, j, k and mark nothing as normalized. -/
theorem C100_quaternion (a b c d : T) (v : Vec 4 T) (q : Vec 3 T) :
    ((Quat.new_from a b c d).real = a ∧ (Quat.new_from a b c d).imag.get 0 = .ok b ∧
      (Quat.new_from a b c d).imag.get 1 = .ok c ∧ (Quat.new_from a b c d).imag.get 2 = .ok d) ∧
    Quat.from v = Quat.new_from (v 0) (v 1) (v 2) (v 3) ∧ Quat.new_from_vec v = Quat.from v ∧
    Quat.new a q = Quat.new_from a (q 0) (q 1) (q 2) ∧ (Quat.from v).normalized = false := by
  refine ⟨⟨rfl, rfl, rfl, rfl⟩, rfl, rfl, ?_, rfl⟩
  simp only [Quat.new, Quat.new_from, Quat.mk.injEq, true_and, and_true]
  ext i
  fin_cases i <;> rfl

example : (m33_new ⟨![1, 2, 3]⟩ ⟨![4, 5, 6]⟩ ⟨![7, 8, 9]⟩ : Mat 3 ℕ).get 1 2 = .ok 6 ∧
    M33.shape (m33_new ⟨![1, 2, 3]⟩ ⟨![4, 5, 6]⟩ ⟨![7, 8, 9]⟩ : Mat 3 ℕ) = (3, 3) := ⟨rfl, rfl⟩

/-! ## C101 Display -/

/-- The format of column `j` of an `n`-column matrix: `M22` centres everything in three characters,
the larger sizes align the first column left, the last right and centre the others, in seven. -/
def colFmt (n j : ℕ) : FmtSpec :=
  if n = 2 then ⟨'^', 3, 2⟩
  else if j = 0 then ⟨'<', 7, 2⟩ else if j + 1 = n then ⟨'>', 7, 2⟩ else ⟨'^', 7, 2⟩

/-- The text of a matrix: one line `|a b c|` per row. -/
def matText {n : ℕ} (sh : FmtSpec → T → String) (m : Mat n T) : String :=
  String.join (List.ofFn fun i => "|" ++ String.intercalate " " (List.ofFn fun j => sh (colFmt n j) (m i j)) ++ "|\n")

/-- The text of a vector: one line `[a b c]`. -/
def vecText {n : ℕ} (sh : FmtSpec → T → String) (v : Vec n T) : String :=
  "[" ++ String.intercalate " " (List.ofFn fun j => sh ⟨'^', 3, 2⟩ (v j)) ++ "]\n"

/-- FALSE of the code: "formatting writes to its destination only". Formatting any matrix of any
size also prints a newline on the standard output of the process. -/
theorem C101_display_false (sh : FmtSpec → T → String) (a : Mat 2 T) (b : Mat 3 T) (c : Mat 4 T) (d : Mat 5 T)
    (e : Mat 6 T) (p : Printed) :
    (M22.fmt sh a p).stdout = p.stdout ++ "\n" ∧ (M33.fmt sh b p).stdout = p.stdout ++ "\n" ∧
    (M44.fmt sh c p).stdout = p.stdout ++ "\n" ∧ (M55.fmt sh d p).stdout = p.stdout ++ "\n" ∧
    (M66.fmt sh e p).stdout = p.stdout ++ "\n" := ⟨rfl, rfl, rfl, rfl, rfl⟩


/-- What holds for `V2`: the destination receives the components in order, nothing else is printed. -/
theorem C101_display_V2 (sh : FmtSpec → T → String) (v : Vec 2 T) (p : Printed) :
    V2.fmt sh v p = ⟨p.stdout, p.dest ++ vecText sh v⟩ := by
  simp [V2.fmt, vecText, Printed.writeln, Printed.write, String.append_assoc]

/-- What holds for `V3`: the destination receives the components in order, nothing else is printed. -/
theorem C101_display_V3 (sh : FmtSpec → T → String) (v : Vec 3 T) (p : Printed) :
    V3.fmt sh v p = ⟨p.stdout, p.dest ++ vecText sh v⟩ := by
  simp [V3.fmt, vecText, Printed.writeln, Printed.write, String.append_assoc]

/-- What holds for `V4`: the destination receives the components in order, nothing else is printed. -/
theorem C101_display_V4 (sh : FmtSpec → T → String) (v : Vec 4 T) (p : Printed) :
    V4.fmt sh v p = ⟨p.stdout, p.dest ++ vecText sh v⟩ := by
  simp [V4.fmt, vecText, Printed.writeln, Printed.write, String.append_assoc]

/-- What holds for `V5`: the destination receives the components in order, nothing else is printed. -/
theorem C101_display_V5 (sh : FmtSpec → T → String) (v : Vec 5 T) (p : Printed) :
    V5.fmt sh v p = ⟨p.stdout, p.dest ++ vecText sh v⟩ := by
  simp [V5.fmt, vecText, Printed.writeln, Printed.write, String.append_assoc]

/-- What holds for `V6`: the destination receives the components in order, nothing else is printed. -/
theorem C101_display_V6 (sh : FmtSpec → T → String) (v : Vec 6 T) (p : Printed) :
    V6.fmt sh v p = ⟨p.stdout, p.dest ++ vecText sh v⟩ := by
  simp [V6.fmt, vecText, Printed.writeln, Printed.write, String.append_assoc]

/-- What holds for `M22`: the destination receives the rows in order, each entry in its column.
Missing: no effect on the standard output (false). -/
theorem C101_display_M22_partial (sh : FmtSpec → T → String) (m : Mat 2 T) (p : Printed) :
    (M22.fmt sh m p).dest = p.dest ++ matText sh m := by
  simp [M22.fmt, matText, Printed.writeln, Printed.write, Printed.println, String.append_assoc, colFmt]

/-- What holds for `M33`: the destination receives the rows in order, each entry in its column.
Missing: no effect on the standard output (false). -/
theorem C101_display_M33_partial (sh : FmtSpec → T → String) (m : Mat 3 T) (p : Printed) :
    (M33.fmt sh m p).dest = p.dest ++ matText sh m := by
  simp [M33.fmt, matText, Printed.writeln, Printed.write, Printed.println, String.append_assoc, colFmt]

/-- What holds for `M44`: the destination receives the rows in order, each entry in its column.
Missing: no effect on the standard output (false). -/
theorem C101_display_M44_partial (sh : FmtSpec → T → String) (m : Mat 4 T) (p : Printed) :
    (M44.fmt sh m p).dest = p.dest ++ matText sh m := by
  simp [M44.fmt, matText, Printed.writeln, Printed.write, Printed.println, String.append_assoc, colFmt]

/-- What holds for `M55`: the destination receives the rows in order, each entry in its column.
Missing: no effect on the standard output (false). -/
theorem C101_display_M55_partial (sh : FmtSpec → T → String) (m : Mat 5 T) (p : Printed) :
    (M55.fmt sh m p).dest = p.dest ++ matText sh m := by
  simp [M55.fmt, matText, Printed.writeln, Printed.write, Printed.println, String.append_assoc, colFmt]

/-- What holds for `M66`: the destination receives the rows in order, each entry in its column.
Missing: no effect on the standard output (false). -/
theorem C101_display_M66_partial (sh : FmtSpec → T → String) (m : Mat 6 T) (p : Printed) :
    (M66.fmt sh m p).dest = p.dest ++ matText sh m := by
  simp [M66.fmt, matText, Printed.writeln, Printed.write, Printed.println, String.append_assoc, colFmt]

/-- Quaternions: real part, then the imaginary part as a vector (with the vector's newline), and nothing
on the standard output. -/
theorem C101_display_quaternion (sh : FmtSpec → T → String) (q : Quat T) (d : DQuat T) (p : Printed) :
    Quat.fmt sh q p = ⟨p.stdout, p.dest ++ "q0: " ++ sh ⟨'^', 3, 2⟩ q.real ++ ", q:" ++ vecText sh q.imag⟩ ∧
    (DQuat.fmt sh d p).stdout = p.stdout ∧
    (DQuat.fmt sh d p).dest = p.dest ++ "real: " ++ (Quat.fmt sh d.q_real ⟨"", ""⟩).dest ++ "\ndual: " ++
      (Quat.fmt sh d.q_dual ⟨"", ""⟩).dest := by
  refine ⟨?_, rfl, ?_⟩ <;>
    simp [DQuat.fmt, Quat.fmt, V3.fmt, vecText, Printed.writeln, Printed.write, String.append_assoc,
      Quat.real, Quat.imag]

example : M22.fmt (fun _ n => toString n) (M22.new_from 1 2 3 4 : Mat 2 ℕ) ⟨"", ""⟩ =
    ⟨"\n", "|1 2|\n|3 4|\n"⟩ := by
  decide +kernel

end StaticMath
