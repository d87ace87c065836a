import Verif.Model.Num

/-!
# Arrays, indexing and loops

`usize` is modelled by `ℕ` (no index in the crate exceeds 36, so no `usize` overflow can occur).
-/

namespace StaticMath



/-- `for i in lo..hi { body }` where the body updates the state `s` (language construct). -/
def forRange {σ : Type} (lo hi : ℕ) (s : σ) (body : ℕ → σ → MayPanic σ) : MayPanic σ :=
  (List.range' lo (hi - lo)).foldlM (fun s i => body i s) s

variable {T : Type} {n : ℕ}

/-- `v[i]`: `Index` of the array behind `Deref` — `src/vector2.rs:223-229`, `src/vector3.rs:262-268`,
`src/vector4.rs:229-235`, `src/vector5.rs:214-220`, `src/vector6.rs:270-276`. Out of range panics. -/
def Vec.get (v : Vec n T) (i : ℕ) : MayPanic T :=
  if h : i < n then .ok (v.val ⟨i, h⟩) else .error .indexOutOfBounds

/-- `v[i] = x`: `IndexMut` of the array behind `DerefMut` — `src/vector2.rs:231-236`,
`src/vector3.rs:270-275`, `src/vector4.rs:237-242`, `src/vector5.rs:222-227`,
`src/vector6.rs:278-283`. -/
def Vec.set (v : Vec n T) (i : ℕ) (x : T) : MayPanic (Vec n T) :=
  if h : i < n then .ok ⟨fun k => if k = ⟨i, h⟩ then x else v.val k⟩ else .error .indexOutOfBounds

/-- `m[(i, j)]`: `Index<(usize, usize)>`, `&self.0[i][j]` — `src/matrix2x2.rs:500-506`,
`src/matrix3x3.rs:610-616`, `src/matrix4x4.rs:781-787`, `src/matrix5x5.rs:1042-1048`,
`src/matrix6x6.rs:1873-1879` (same text). -/
def Mat.get (m : Mat n T) (i j : ℕ) : MayPanic T :=
  if h : i < n ∧ j < n then .ok (m.val ⟨i, h.1⟩ ⟨j, h.2⟩) else .error .indexOutOfBounds

/-- `m[(i, j)] = x`: `IndexMut<(usize, usize)>` — `src/matrix2x2.rs:508-513`,
`src/matrix3x3.rs:618-623`, `src/matrix4x4.rs:789-794`, `src/matrix5x5.rs:1050-1055`,
`src/matrix6x6.rs:1881-1886` (same text). -/
def Mat.set (m : Mat n T) (i j : ℕ) (x : T) : MayPanic (Mat n T) :=
  if h : i < n ∧ j < n then
    .ok ⟨fun r c => if r = ⟨i, h.1⟩ ∧ c = ⟨j, h.2⟩ then x else m.val r c⟩
  else .error .indexOutOfBounds

/-- `m[i]` (a row): `Index<usize>` — `src/matrix2x2.rs:482-488`,
`src/matrix3x3.rs:592-598`, `src/matrix4x4.rs:799-805`, `src/matrix5x5.rs:1060-1066`,
`src/matrix6x6.rs:1891-1897` (same text). -/
def Mat.getRow (m : Mat n T) (i : ℕ) : MayPanic (Vec n T) :=
  if h : i < n then .ok ⟨m.val ⟨i, h⟩⟩ else .error .indexOutOfBounds

/-- `m[i] = row`: `IndexMut<usize>` — `src/matrix2x2.rs:490-495`,
`src/matrix3x3.rs:600-605`, `src/matrix4x4.rs:807-812`, `src/matrix5x5.rs:1068-1073`,
`src/matrix6x6.rs:1899-1904` (same text). -/
def Mat.setRow (m : Mat n T) (i : ℕ) (r : Vec n T) : MayPanic (Mat n T) :=
  if h : i < n then .ok ⟨fun k => if k = ⟨i, h⟩ then r.val else m.val k⟩
  else .error .indexOutOfBounds

/-- `&v[..]`, `&*v`, `v.iter()`: the elements as a slice. -/
def Vec.toSlice (v : Vec n T) : List T := List.ofFn v.val

/-- `m.iter().flatten()`: the elements in row-major order. -/
def Mat.toSlice (m : Mat n T) : List T := (List.ofFn fun i => List.ofFn (m.val i)).flatten

/-- `[x; n]`: an array with all elements equal. -/
def Vec.rep (n : ℕ) (x : T) : Vec n T := ⟨fun _ => x⟩

/-- `Iterator::sum` of core: left fold starting from zero. (Recent versions of core start the sum of
a `f32`/`f64` iterator from `-0.0`; the sign of a zero result is not modelled here.) -/
def iterSum [Add T] [Zero T] (l : List T) : T := l.foldl (· + ·) 0

/-- `#[derive(PartialEq)]` on `Vn` — e.g. `src/vector3.rs:43`: elementwise `==`. -/
def Vec.beq [ROrd T] (v w : Vec n T) : Bool :=
  (List.finRange n).all fun i => ROrd.beq (v.val i) (w.val i)

/-- `#[derive(PartialEq)]` on `Mnn` — e.g. `src/matrix3x3.rs:47`: elementwise `==`. -/
def Mat.beq [ROrd T] (v w : Mat n T) : Bool :=
  (List.finRange n).all fun i => (List.finRange n).all fun j => ROrd.beq (v.val i j) (w.val i j)

end StaticMath
