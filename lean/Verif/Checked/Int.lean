import Verif.Lemmas.SumOrder
import Mathlib.Algebra.BigOperators.Fin
import Mathlib.Algebra.Order.BigOperators.Group.Finset
import Mathlib.Algebra.Order.Group.Unbundled.Int
import Mathlib.Algebra.Order.BigOperators.Group.List
import Mathlib.Order.Lattice
import Mathlib.Tactic.Linarith

/-!
# Overflow-checked integers as an element type

A value of `CInt t` is an integer or the mark `none` of a computation that has panicked on overflow.
An operation on a panicked operand panics, and so does an operation whose exact result does not fit.
Rust evaluates every operand of an arithmetic expression, so a function panics exactly when one of the
values it computes is `none`.
-/

namespace StaticMath

/-- The range of an integer type, e.g. `-128 ..= 127` for `i8` and `0 ..= 255` for `u8`. -/
structure IntTy where
  lo : ℤ
  hi : ℤ
  lo_le : lo ≤ 0
  hi_ge : 1 ≤ hi

def IntTy.i8 : IntTy := ⟨-128, 127, by decide, by decide⟩
def IntTy.u8 : IntTy := ⟨0, 255, by decide, by decide⟩
def IntTy.i32 : IntTy := ⟨-2147483648, 2147483647, by decide, by decide⟩
def IntTy.i64 : IntTy := ⟨-9223372036854775808, 9223372036854775807, by decide, by decide⟩

/-- An integer of the type `t`, or the mark of a panic. -/
structure CInt (t : IntTy) where
  val : Option ℤ
  deriving DecidableEq

namespace CInt
variable {t : IntTy}

/-- The exact result if it fits. -/
def chk (t : IntTy) (z : ℤ) : CInt t := ⟨if t.lo ≤ z ∧ z ≤ t.hi then some z else none⟩

def lift2 (op : ℤ → ℤ → ℤ) : CInt t → CInt t → CInt t
  | ⟨some x⟩, ⟨some y⟩ => chk t (op x y)
  | _, _ => ⟨none⟩

instance : Add (CInt t) := ⟨lift2 (· + ·)⟩
instance : Sub (CInt t) := ⟨lift2 (· - ·)⟩
instance : Mul (CInt t) := ⟨lift2 (· * ·)⟩
instance : Zero (CInt t) := ⟨⟨some 0⟩⟩
instance : One (CInt t) := ⟨⟨some 1⟩⟩

/-- A value of the type that has been computed without a panic. -/
def of (t : IntTy) (z : ℤ) : CInt t := ⟨some z⟩

theorem chk_some {z w : ℤ} (h : chk t z = of t w) : z = w ∧ t.lo ≤ z ∧ z ≤ t.hi := by
  have h' : (if t.lo ≤ z ∧ z ≤ t.hi then some z else none) = some w := congrArg val h
  split at h'
  next hh => exact ⟨Option.some.inj h', hh⟩
  next hh => cases h'

theorem chk_ok {z : ℤ} (h1 : t.lo ≤ z) (h2 : z ≤ t.hi) : chk t z = of t z := by
  unfold chk of
  rw [if_pos ⟨h1, h2⟩]

theorem add_some {a b : CInt t} {z : ℤ} (h : a + b = of t z) :
    ∃ x y, a = of t x ∧ b = of t y ∧ z = x + y := by
  obtain ⟨_ | x⟩ := a
  · cases congrArg val h
  · obtain ⟨_ | y⟩ := b
    · cases congrArg val h
    · exact ⟨x, y, rfl, rfl, (chk_some h).1.symm⟩

theorem mul_some {x y z : ℤ} (h : of t x * of t y = of t z) : z = x * y := (chk_some h).1.symm

theorem foldl_some {ι : Type} (x y : ι → ℤ) (l : List ι) (a : CInt t) (z : ℤ)
    (h : l.foldl (fun s j => s + of t (x j) * of t (y j)) a = of t z) :
    ∃ w, a = of t w ∧ z = w + (l.map fun j => x j * y j).sum := by
  induction l generalizing a with
  | nil => exact ⟨z, h, by simp⟩
  | cons j l ih =>
    obtain ⟨w, h1, h2⟩ := ih _ h
    obtain ⟨p, q, hp, hq, hz⟩ := add_some h1
    refine ⟨p, hp, ?_⟩
    rw [mul_some hq] at hz
    rw [h2, hz, List.map_cons, List.sum_cons, add_assoc]

theorem perm_sum {n : ℕ} {k : Fin n} {l : List (Fin n)} (hp : (k :: l).Perm (List.finRange n))
    (x : Fin n → ℤ) : x k + (l.map x).sum = ∑ i, x i := by
  rw [← List.sum_cons, ← List.map_cons, (hp.map x).sum_eq, ← List.ofFn_eq_map, List.sum_ofFn]

/-- An ordered sum of products that is computed without a panic is exact. -/
theorem orderedSum_exact {n : ℕ} {r : CInt t} {x y : Fin n → ℤ}
    (hs : IsOrderedSum r (fun k => of t (x k) * of t (y k))) (z : ℤ) (h : r = of t z) :
    z = ∑ k, x k * y k := by
  obtain ⟨k, l, hp, rfl⟩ := hs
  obtain ⟨w, h1, h2⟩ := foldl_some x y l _ z h
  rw [h2, mul_some h1, perm_sum hp (fun k => x k * y k)]

theorem foldl_ok {ι : Type} (x y : ι → ℤ) (l : List ι) (w p q : ℤ)
    (hp : p + (l.map fun j => max (x j * y j) 0).sum ≤ t.hi)
    (hq : q + (l.map fun j => max (-(x j * y j)) 0).sum ≤ -t.lo)
    (h1 : w ≤ p) (h2 : -w ≤ q) (hp0 : 0 ≤ p) (hq0 : 0 ≤ q) :
    l.foldl (fun s j => s + of t (x j) * of t (y j)) (of t w) =
      of t (w + (l.map fun j => x j * y j).sum) := by
  induction l generalizing w p q with
  | nil => simp
  | cons j l ih =>
    rw [List.map_cons, List.sum_cons, ← add_assoc] at hp hq ⊢
    have e1 : 0 ≤ (l.map fun j => max (x j * y j) 0).sum :=
      List.sum_nonneg (by simp only [List.mem_map]; rintro _ ⟨i, _, rfl⟩; exact le_max_right _ _)
    have e2 : 0 ≤ (l.map fun j => max (-(x j * y j)) 0).sum :=
      List.sum_nonneg (by simp only [List.mem_map]; rintro _ ⟨i, _, rfl⟩; exact le_max_right _ _)
    have a1 := le_max_left (x j * y j) 0
    have a2 := le_max_right (x j * y j) 0
    have a3 := le_max_left (-(x j * y j)) 0
    have a4 := le_max_right (-(x j * y j)) 0
    have hm : of t (x j) * of t (y j) = of t (x j * y j) := chk_ok (by linarith) (by linarith)
    have ha : of t w + of t (x j * y j) = of t (w + x j * y j) := chk_ok (by linarith) (by linarith)
    rw [List.foldl_cons, hm, ha]
    exact ih (w + x j * y j) (p + max (x j * y j) 0) (q + max (-(x j * y j)) 0) hp hq
      (by linarith) (by linarith) (by linarith) (by linarith)

/-- If the positive terms and the negative terms of a sum of products each fit, then the computation
does not panic, in whatever order it is done. -/
theorem orderedSum_ok {n : ℕ} {r : CInt t} {x y : Fin n → ℤ}
    (hs : IsOrderedSum r (fun k => of t (x k) * of t (y k)))
    (hp : ∑ k, max (x k * y k) 0 ≤ t.hi) (hq : ∑ k, max (-(x k * y k)) 0 ≤ -t.lo) :
    r = of t (∑ k, x k * y k) := by
  obtain ⟨k, l, hperm, rfl⟩ := hs
  rw [← perm_sum hperm (fun k => max (x k * y k) 0)] at hp
  rw [← perm_sum hperm (fun k => max (-(x k * y k)) 0)] at hq
  have e1 : 0 ≤ (l.map fun j => max (x j * y j) 0).sum :=
    List.sum_nonneg (by simp only [List.mem_map]; rintro _ ⟨i, _, rfl⟩; exact le_max_right _ _)
  have e2 : 0 ≤ (l.map fun j => max (-(x j * y j)) 0).sum :=
    List.sum_nonneg (by simp only [List.mem_map]; rintro _ ⟨i, _, rfl⟩; exact le_max_right _ _)
  have a1 := le_max_left (x k * y k) 0
  have a3 := le_max_left (-(x k * y k)) 0
  have hm : of t (x k) * of t (y k) = of t (x k * y k) := chk_ok (by linarith) (by linarith)
  change l.foldl (fun s j => s + of t (x j) * of t (y j)) (of t (x k) * of t (y k)) = _
  rw [hm, foldl_ok x y l _ _ _ hp hq a1 a3 (le_max_right _ _) (le_max_right _ _),
    perm_sum hperm (fun k => x k * y k)]

end CInt
end StaticMath
