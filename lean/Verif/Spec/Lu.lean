import Verif.Spec.Basic
import Mathlib.GroupTheory.Perm.Sign
import Mathlib.LinearAlgebra.Matrix.Determinant.Basic

/-!
# Specification side: packed LU factors and replayed row swaps
-/

namespace StaticMath

/-- The unit lower triangle of a packed LU matrix. -/
def Mat.lowerUnit {n : ℕ} {R : Type} [Zero R] [One R] (M : Mat n R) : Matrix (Fin n) (Fin n) R :=
  fun i j => if j < i then M i j else if i = j then 1 else 0

/-- The upper triangle (with the diagonal) of a packed LU matrix. -/
def Mat.upper {n : ℕ} {R : Type} [Zero R] (M : Mat n R) : Matrix (Fin n) (Fin n) R :=
  fun i j => if i ≤ j then M i j else 0

/-- The transposition of `k` and `m`; nothing if one is out of range. -/
def rowSwap (n k m : ℕ) : Equiv.Perm (Fin n) :=
  if h : k < n ∧ m < n then Equiv.swap ⟨k, h.1⟩ ⟨m, h.2⟩ else 1

/-- Replaying the first `k` recorded row swaps `0 ↔ idx 0, 1 ↔ idx 1, …`: row `i` of the result is
row `pivotPerm n idx k i` of the original. -/
def pivotPerm (n : ℕ) (idx : ℕ → ℕ) : ℕ → Equiv.Perm (Fin n)
  | 0 => 1
  | k + 1 => pivotPerm n idx k * rowSwap n k (idx k)

/-- Entry `k` of a recorded pivot vector, 0 outside. -/
def Vec.at {n : ℕ} (v : Vec n ℕ) (k : ℕ) : ℕ := if h : k < n then v ⟨k, h⟩ else 0

end StaticMath
