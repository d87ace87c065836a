#!/usr/bin/env python3
"""Writes lean/Verif/Props/Construct.lean (C100 constructors, C101 Display)."""
W={2:['first','second']}
out=['''import Verif.Model.Construct
import Verif.Model.Display
import Verif.Lemmas.Loop
import Mathlib.Tactic.FinCases

/-!
# C100, C101: constructors, sizes and constants; Display

Generated by `tools/gen_props_construct.py`. Reading an element back is `get` (the `Index` impls).
-/

namespace StaticMath

variable {T : Type}

/-! ## C100 constructors -/
''']
for n in range(2,7):
    V=f'V{n}'; a=' '.join(f'x{i}' for i in range(n))
    conj=' ∧ '.join(f'({V}.new_from {a}).get {i} = .ok x{i}' for i in range(n))
    out.append(f'''/-- Every constructor of `V{n}` puts each component where indexing finds it; `zeros` and `ones` are
constant. -/
theorem C100_vec_V{n} [Zero T] [One T] ({a} : T) (v : Vec {n} T) (k : ℕ) :
    ({conj}) ∧
    ({V}.new v).get k = v.get k ∧ ({V}.from v).get k = v.get k ∧
    (k < {n} → ({V}.zeros : Vec {n} T).get k = .ok 0 ∧ ({V}.ones : Vec {n} T).get k = .ok 1) := by
  refine ⟨⟨{', '.join(['rfl']*n)}⟩, rfl, rfl, fun hk => ?_⟩
  rw [Vec.get_ok _ _ hk, Vec.get_ok _ _ hk]
  have : ∀ i : Fin {n}, ({V}.zeros : Vec {n} T).val i = 0 ∧ ({V}.ones : Vec {n} T).val i = 1 := fun i => by
    fin_cases i <;> exact ⟨rfl, rfl⟩
  rw [(this _).1, (this _).2]
  exact ⟨rfl, rfl⟩
''')
ords=['first','second','third','fourth','fifth','sixth']
for n in range(2,7):
    M=f'M{n}{n}'
    rows=' '.join(f'r{i}' for i in range(n))
    conj=' ∧ '.join(f'(m{n}{n}_new {rows}).getRow {i} = .ok r{i}' for i in range(n))
    out.append(f'''/-- `new`, `from` and the macro keep rows and columns in place; the reported size is the real one;
`identity` and `zeros` have the entries their names say. -/
theorem C100_mat_{M} [Zero T] [One T] (rows : Vec {n} (Vec {n} T)) ({rows} : Vec {n} T) (m : Mat {n} T) (i j : ℕ) :
    ({M}.new rows).get i j = (rows.get i >>= fun r => r.get j) ∧
    ({M}.from rows).get i j = (rows.get i >>= fun r => r.get j) ∧
    ({conj}) ∧
    {M}.shape m = ({M}.rows m, {M}.cols m) ∧ (m.get i j = .error .indexOutOfBounds ↔ {M}.rows m ≤ i ∨ {M}.cols m ≤ j) ∧
    (i < {n} → j < {n} → ({M}.identity : Mat {n} T).get i j = .ok (if i = j then 1 else 0) ∧
      ({M}.zeros : Mat {n} T).get i j = .ok 0) := by
  have hnew : ({M}.new rows).get i j = (rows.get i >>= fun r => r.get j) := by
    unfold Mat.get Vec.get
    by_cases hi : i < {n}
    · by_cases hj : j < {n}
      · simp [hi, hj, {M}.new, bind, Except.bind]
      · simp [hi, hj, bind, Except.bind]
    · simp [hi, bind, Except.bind]
  refine ⟨hnew, hnew, ⟨{', '.join(['rfl']*n)}⟩, rfl, ?_, fun hi hj => ?_⟩
  · change _ ↔ {n} ≤ i ∨ {n} ≤ j
    unfold Mat.get
    split <;> simp <;> omega
  · rw [Mat.get_ok _ _ _ hi hj, Mat.get_ok _ _ _ hi hj]
    have : ∀ a b : Fin {n}, ({M}.identity : Mat {n} T).val a b = (if (a : ℕ) = b then 1 else 0) ∧
        ({M}.zeros : Mat {n} T).val a b = 0 := fun a b => by
      fin_cases a <;> fin_cases b <;> exact ⟨rfl, rfl⟩
    rw [(this _ _).1, (this _ _).2]
    exact ⟨rfl, rfl⟩
''')
out.append('''/-- `M22::new_from(a, b, c, d)` is row-major. -/
theorem C100_new_from_M22 (a b c d : T) :
    (M22.new_from a b c d).get 0 0 = .ok a ∧ (M22.new_from a b c d).get 0 1 = .ok b ∧
    (M22.new_from a b c d).get 1 0 = .ok c ∧ (M22.new_from a b c d).get 1 1 = .ok d := ⟨rfl, rfl, rfl, rfl⟩

/-- The named constants are what `zeros()`, `identity()` and `x_axis()`, `y_axis()`, `z_axis()` return. -/
theorem C100_constants [Zero T] [One T] :
    (V2_ZEROS : Vec 2 T) = V2.zeros ∧ (V3_ZEROS : Vec 3 T) = V3.zeros ∧ (V4_ZEROS : Vec 4 T) = V4.zeros ∧
    (V5_ZEROS : Vec 5 T) = V5.zeros ∧ (V6_ZEROS : Vec 6 T) = V6.zeros ∧ (M22_ZEROS : Mat 2 T) = M22.zeros ∧
    (M22_IDENT : Mat 2 T) = M22.identity ∧ (V3.X_AXIS : Vec 3 T) = V3.x_axis ∧ (V3.Y_AXIS : Vec 3 T) = V3.y_axis ∧
    (V3.Z_AXIS : Vec 3 T) = V3.z_axis ∧ (V2.X_AXIS : Vec 2 T).get 0 = .ok 1 ∧ (V2.X_AXIS : Vec 2 T).get 1 = .ok 0 ∧
    (V2.Y_AXIS : Vec 2 T).get 0 = .ok 0 ∧ (V2.Y_AXIS : Vec 2 T).get 1 = .ok 1 := by
  refine ⟨rfl, rfl, rfl, rfl, rfl, ?_, ?_, rfl, rfl, rfl, rfl, rfl, rfl, rfl⟩ <;>
    (ext i j; fin_cases i <;> fin_cases j <;> rfl)

/-- The constructors of quaternions agree on the order real, i, j, k and mark nothing as normalized. -/
theorem C100_quaternion (a b c d : T) (v : Vec 4 T) (q : Vec 3 T) :
    ((Quat.new_from a b c d).real = a ∧ (Quat.new_from a b c d).imag.get 0 = .ok b ∧
      (Quat.new_from a b c d).imag.get 1 = .ok c ∧ (Quat.new_from a b c d).imag.get 2 = .ok d) ∧
    Quat.from v = Quat.new_from (v 0) (v 1) (v 2) (v 3) ∧ Quat.new_from_vec v = Quat.from v ∧
    Quat.new a q = Quat.new_from a (q 0) (q 1) (q 2) ∧ (Quat.from v).normalized = false := by
  refine ⟨⟨rfl, rfl, rfl, rfl⟩, rfl, rfl, ?_, rfl⟩
  simp only [Quat.new, Quat.new_from, Quat.mk.injEq, true_and, and_true]
  ext i
  fin_cases i <;> rfl

example : (m33_new ⟨![1, 2, 3]⟩ ⟨![4, 5, 6]⟩ ⟨![7, 8, 9]⟩ : Mat 3 ℕ).get 1 2 = .ok 6 ∧
    M33.shape (m33_new ⟨![1, 2, 3]⟩ ⟨![4, 5, 6]⟩ ⟨![7, 8, 9]⟩ : Mat 3 ℕ) = (3, 3) := ⟨rfl, rfl⟩

/-! ## C101 Display -/

/-- The format of column `j` of an `n`-column matrix: `M22` centres everything in three characters,
the larger sizes align the first column left, the last right and centre the others, in seven. -/
def colFmt (n j : ℕ) : FmtSpec :=
  if n = 2 then ⟨'^', 3, 2⟩
  else if j = 0 then ⟨'<', 7, 2⟩ else if j + 1 = n then ⟨'>', 7, 2⟩ else ⟨'^', 7, 2⟩

/-- The text of a matrix: one line `|a b c|` per row. -/
def matText {n : ℕ} (sh : FmtSpec → T → String) (m : Mat n T) : String :=
  String.join (List.ofFn fun i => "|" ++ String.intercalate " " (List.ofFn fun j => sh (colFmt n j) (m i j)) ++ "|\\n")

/-- The text of a vector: one line `[a b c]`. -/
def vecText {n : ℕ} (sh : FmtSpec → T → String) (v : Vec n T) : String :=
  "[" ++ String.intercalate " " (List.ofFn fun j => sh ⟨'^', 3, 2⟩ (v j)) ++ "]\\n"

/-- FALSE of the code: "formatting writes to its destination only". Formatting any matrix of any
size also prints a newline on the standard output of the process. -/
theorem C101_display_false (sh : FmtSpec → T → String) (a : Mat 2 T) (b : Mat 3 T) (c : Mat 4 T) (d : Mat 5 T)
    (e : Mat 6 T) (p : Printed) :
    (M22.fmt sh a p).stdout = p.stdout ++ "\\n" ∧ (M33.fmt sh b p).stdout = p.stdout ++ "\\n" ∧
    (M44.fmt sh c p).stdout = p.stdout ++ "\\n" ∧ (M55.fmt sh d p).stdout = p.stdout ++ "\\n" ∧
    (M66.fmt sh e p).stdout = p.stdout ++ "\\n" := ⟨rfl, rfl, rfl, rfl, rfl⟩

''')
def vecpf(n): pass
for n in range(2,7):
    out.append(f'''/-- What holds for `V{n}`: the destination receives the components in order, nothing else is printed. -/
theorem C101_display_V{n} (sh : FmtSpec → T → String) (v : Vec {n} T) (p : Printed) :
    V{n}.fmt sh v p = ⟨p.stdout, p.dest ++ vecText sh v⟩ := by
  simp [V{n}.fmt, vecText, Printed.writeln, Printed.write, String.append_assoc]
''')
for n in range(2,7):
    out.append(f'''/-- What holds for `M{n}{n}`: the destination receives the rows in order, each entry in its column.
Missing: no effect on the standard output (false). -/
theorem C101_display_M{n}{n}_partial (sh : FmtSpec → T → String) (m : Mat {n} T) (p : Printed) :
    (M{n}{n}.fmt sh m p).dest = p.dest ++ matText sh m := by
  simp [M{n}{n}.fmt, matText, Printed.writeln, Printed.write, Printed.println, String.append_assoc, colFmt]
''')
out.append('''/-- Quaternions: real part, then the imaginary part as a vector (with the vector's newline), and nothing
on the standard output. -/
theorem C101_display_quaternion (sh : FmtSpec → T → String) (q : Quat T) (d : DQuat T) (p : Printed) :
    Quat.fmt sh q p = ⟨p.stdout, p.dest ++ "q0: " ++ sh ⟨'^', 3, 2⟩ q.real ++ ", q:" ++ vecText sh q.imag⟩ ∧
    (DQuat.fmt sh d p).stdout = p.stdout ∧
    (DQuat.fmt sh d p).dest = p.dest ++ "real: " ++ (Quat.fmt sh d.q_real ⟨"", ""⟩).dest ++ "\\ndual: " ++
      (Quat.fmt sh d.q_dual ⟨"", ""⟩).dest := by
  refine ⟨?_, rfl, ?_⟩ <;>
    simp [DQuat.fmt, Quat.fmt, V3.fmt, vecText, Printed.writeln, Printed.write, String.append_assoc,
      Quat.real, Quat.imag]

example : M22.fmt (fun _ n => toString n) (M22.new_from 1 2 3 4 : Mat 2 ℕ) ⟨"", ""⟩ =
    ⟨"\\n", "|1 2|\\n|3 4|\\n"⟩ := by
  decide +kernel

end StaticMath
''')
open('/verif/lean/Verif/Props/Construct.lean','w').write('\n'.join(out))
