import Mathlib.Data.Fin.VecNotation

/-!
# Element types, vectors, matrices, panics

The Rust crate is generic over the element type (`T: Num + Copy`, `T: Signed`, `T: Float`).
The model is generic in the same way: arithmetic comes from the law-free classes
`Add Sub Mul Div Neg Zero One` of core Lean and from the three law-free classes below. No
algebraic law is assumed in any model definition.
-/

namespace StaticMath



/-- `num::Signed::abs` / `num::Float::abs` (external crate `num`). -/
class RAbs (T : Type) where
  abs : T → T

/-- `core::cmp::PartialOrd` / `PartialEq`, used through `<`, `>`, `<=`, `>=`, `==`, `!=`
(`a > b` is `lt b a`, `a >= b` is `le b a`). Boolean valued so that unordered values
(NaN) can be represented. -/
class ROrd (T : Type) where
  lt : T → T → Bool
  le : T → T → Bool
  beq : T → T → Bool

/-- The methods of `num::Float` / `num::traits::FloatConst` used by the crate
(external crate `num`). `sin_cos` is modelled as the pair `(sin, cos)`. The `lit…` fields are the
literals converted by `T::from(..).unwrap()`. -/
class RFloat (T : Type) where
  sqrt : T → T
  recip : T → T
  sin : T → T
  cos : T → T
  tan : T → T
  acos : T → T
  exp : T → T
  ln : T → T
  /-- `y.atan2(x)` is `atan2 y x` -/
  atan2 : T → T → T
  min : T → T → T
  epsilon : T
  min_value : T
  max_value : T
  infinity : T
  pi : T
  frac_pi_2 : T
  /-- `T::from(2.0)`, `T::from(2)` -/
  lit2 : T
  /-- `T::from(4)` -/
  lit4 : T
  /-- `T::from(1e-40)` -/
  lit1em40 : T
  /-- `T::from(0.001)` -/
  lit0001 : T
  /-- `T::from(1e-6)` -/
  lit1em6 : T

/-- The ways in which the crate's functions panic. -/
inductive Panic where
  /-- array/slice index out of bounds (language) -/
  | indexOutOfBounds
  /-- `Option::unwrap` on `None` -/
  | unwrapNone
  /-- `Option/Result::expect(msg)` on `None/Err` -/
  | expect (msg : String)
  /-- `panic!(msg)` -/
  | explicit (msg : String)
  /-- `assert!` failed -/
  | assertFailed
  deriving DecidableEq, Repr

/-- `src/errors.rs:38-41` -/
inductive VectorErrors where
  | Norm2IsZero
  deriving DecidableEq, Repr

/-- Result of a function that may panic. -/
abbrev MayPanic (α : Type) := Except Panic α

/-- `Option::expect(msg)` of core. -/
def expectSome {α : Type} (msg : String) : Option α → MayPanic α
  | some a => .ok a
  | none => .error (.expect msg)

/-- `Result::expect(msg)` of core. -/
def expectOk {ε α : Type} (msg : String) : Except ε α → MayPanic α
  | .ok a => .ok a
  | .error _ => .error (.expect msg)

/-- `Option::unwrap` of core. -/
def unwrapSome {α : Type} : Option α → MayPanic α
  | some a => .ok a
  | none => .error .unwrapNone

/-- `src/vector2.rs:44`, `src/vector3.rs:44`, `src/vector4.rs:45`, `src/vector5.rs:44`,
`src/vector6.rs:45`: `struct Vn<T>([T; n])`, and the fixed-size arrays `[T; n]`. -/
@[ext] structure Vec (n : ℕ) (T : Type) where
  val : Fin n → T

instance {n : ℕ} {T : Type} : CoeFun (Vec n T) (fun _ => Fin n → T) := ⟨Vec.val⟩

/-- `src/matrix2x2.rs:45`, `src/matrix3x3.rs:48`, `src/matrix4x4.rs:47`, `src/matrix5x5.rs:47`,
`src/matrix6x6.rs:48`: `struct Mnn<T>([[T; n]; n])`, row-major. -/
@[ext] structure Mat (n : ℕ) (T : Type) where
  val : Fin n → Fin n → T

instance {n : ℕ} {T : Type} : CoeFun (Mat n T) (fun _ => Fin n → Fin n → T) := ⟨Mat.val⟩

end StaticMath
