import Verif.Ieee.Expr
import Verif.Model.GenM22
import Verif.Model.GenM33
import Verif.Model.GenM44
import Verif.Model.GenM55
import Verif.Model.GenM66
import Mathlib.LinearAlgebra.Matrix.Permanent
import Mathlib.LinearAlgebra.Matrix.Determinant.Basic
import Mathlib.Tactic.Ring

/-! Written by `tools/gen_perm.py`: expansion of the permanent along the first column, and the five
determinant functions with all signs positive. -/

namespace StaticMath
namespace PermExpand
open Equiv

/-- Laplace expansion of the permanent along column 0. -/
theorem permanent_succ_column_zero {R : Type} [CommSemiring R] {n : ℕ} (A : Matrix (Fin n.succ) (Fin n.succ) R) :
    A.permanent = ∑ i : Fin n.succ, A i 0 * (A.submatrix i.succAbove Fin.succ).permanent := by
  rw [Matrix.permanent, Finset.univ_perm_fin_succ, ← Finset.univ_product_univ]
  simp only [Finset.sum_map, Equiv.toEmbedding_apply, Finset.sum_product]
  refine Finset.sum_congr rfl fun i _ => Fin.cases ?_ (fun i => ?_) i
  · simp only [Fin.prod_univ_succ, Matrix.permanent, Finset.mul_sum,
      Equiv.Perm.decomposeFin_symm_apply_zero, Equiv.swap_self, Matrix.submatrix_apply,
      Equiv.Perm.decomposeFin_symm_apply_succ, Fin.succAbove_zero, Equiv.coe_refl, id]
  · rw [← Matrix.permanent_permute_cols i.cycleRange, Matrix.permanent, Finset.mul_sum]
    refine Finset.sum_congr rfl fun σ _ => ?_
    simp only [Fin.prod_univ_succ, Fin.succAbove_cycleRange, Matrix.submatrix_apply, id,
      Equiv.Perm.decomposeFin_symm_apply_zero, Equiv.Perm.decomposeFin_symm_apply_succ]

variable {R : Type}

/-- minor of row j, column 0 -/
def minor {n} (f : Fin (n + 1) → Fin (n + 1) → R) (j : Fin (n + 1)) : Fin n → Fin n → R :=
  fun i k => f (j.succAbove i) k.succ

theorem of_minor {n} (f : Fin (n + 1) → Fin (n + 1) → R) (j : Fin (n + 1)) :
    ((Matrix.of f).submatrix j.succAbove Fin.succ) = Matrix.of (minor f j) := rfl

variable [CommSemiring R]

theorem per1 (f : Fin 1 → Fin 1 → R) : (Matrix.of f).permanent = f 0 0 := by
  rw [Matrix.permanent_unique]; rfl

def p2 (f : Fin 2 → Fin 2 → R) : R :=
  (f 0 0 * f 1 1 + f 1 0 * f 0 1)

theorem per2 (f : Fin 2 → Fin 2 → R) : (Matrix.of f).permanent = p2 f := by
  rw [permanent_succ_column_zero, Fin.sum_univ_two]
  simp only [of_minor, per1]
  rfl

def p3 (f : Fin 3 → Fin 3 → R) : R :=
  (f 0 0 * (f 1 1 * f 2 2 + f 2 1 * f 1 2) + f 1 0 * (f 0 1 * f 2 2 + f 2 1 * f 0 2) + f 2 0 * (f
      0 1 * f 1 2 + f 1 1 * f 0 2))

theorem per3 (f : Fin 3 → Fin 3 → R) : (Matrix.of f).permanent = p3 f := by
  rw [permanent_succ_column_zero, Fin.sum_univ_three]
  simp only [of_minor, per2]
  rfl

def p4 (f : Fin 4 → Fin 4 → R) : R :=
  (f 0 0 * (f 1 1 * (f 2 2 * f 3 3 + f 3 2 * f 2 3) + f 2 1 * (f 1 2 * f 3 3 + f 3 2 * f 1 3) + f
      3 1 * (f 1 2 * f 2 3 + f 2 2 * f 1 3)) + f 1 0 * (f 0 1 * (f 2 2 * f 3 3 + f 3 2 * f 2 3) + f 2
      1 * (f 0 2 * f 3 3 + f 3 2 * f 0 3) + f 3 1 * (f 0 2 * f 2 3 + f 2 2 * f 0 3)) + f 2 0 * (f 0 1
      * (f 1 2 * f 3 3 + f 3 2 * f 1 3) + f 1 1 * (f 0 2 * f 3 3 + f 3 2 * f 0 3) + f 3 1 * (f 0 2 * f
      1 3 + f 1 2 * f 0 3)) + f 3 0 * (f 0 1 * (f 1 2 * f 2 3 + f 2 2 * f 1 3) + f 1 1 * (f 0 2 * f 2
      3 + f 2 2 * f 0 3) + f 2 1 * (f 0 2 * f 1 3 + f 1 2 * f 0 3)))

theorem per4 (f : Fin 4 → Fin 4 → R) : (Matrix.of f).permanent = p4 f := by
  rw [permanent_succ_column_zero, Fin.sum_univ_four]
  simp only [of_minor, per3]
  rfl

def p5 (f : Fin 5 → Fin 5 → R) : R :=
  (f 0 0 * (f 1 1 * (f 2 2 * (f 3 3 * f 4 4 + f 4 3 * f 3 4) + f 3 2 * (f 2 3 * f 4 4 + f 4 3 * f
      2 4) + f 4 2 * (f 2 3 * f 3 4 + f 3 3 * f 2 4)) + f 2 1 * (f 1 2 * (f 3 3 * f 4 4 + f 4 3 * f 3
      4) + f 3 2 * (f 1 3 * f 4 4 + f 4 3 * f 1 4) + f 4 2 * (f 1 3 * f 3 4 + f 3 3 * f 1 4)) + f 3 1
      * (f 1 2 * (f 2 3 * f 4 4 + f 4 3 * f 2 4) + f 2 2 * (f 1 3 * f 4 4 + f 4 3 * f 1 4) + f 4 2 *
      (f 1 3 * f 2 4 + f 2 3 * f 1 4)) + f 4 1 * (f 1 2 * (f 2 3 * f 3 4 + f 3 3 * f 2 4) + f 2 2 * (f
      1 3 * f 3 4 + f 3 3 * f 1 4) + f 3 2 * (f 1 3 * f 2 4 + f 2 3 * f 1 4))) + f 1 0 * (f 0 1 * (f 2
      2 * (f 3 3 * f 4 4 + f 4 3 * f 3 4) + f 3 2 * (f 2 3 * f 4 4 + f 4 3 * f 2 4) + f 4 2 * (f 2 3 *
      f 3 4 + f 3 3 * f 2 4)) + f 2 1 * (f 0 2 * (f 3 3 * f 4 4 + f 4 3 * f 3 4) + f 3 2 * (f 0 3 * f
      4 4 + f 4 3 * f 0 4) + f 4 2 * (f 0 3 * f 3 4 + f 3 3 * f 0 4)) + f 3 1 * (f 0 2 * (f 2 3 * f 4
      4 + f 4 3 * f 2 4) + f 2 2 * (f 0 3 * f 4 4 + f 4 3 * f 0 4) + f 4 2 * (f 0 3 * f 2 4 + f 2 3 *
      f 0 4)) + f 4 1 * (f 0 2 * (f 2 3 * f 3 4 + f 3 3 * f 2 4) + f 2 2 * (f 0 3 * f 3 4 + f 3 3 * f
      0 4) + f 3 2 * (f 0 3 * f 2 4 + f 2 3 * f 0 4))) + f 2 0 * (f 0 1 * (f 1 2 * (f 3 3 * f 4 4 + f
      4 3 * f 3 4) + f 3 2 * (f 1 3 * f 4 4 + f 4 3 * f 1 4) + f 4 2 * (f 1 3 * f 3 4 + f 3 3 * f 1
      4)) + f 1 1 * (f 0 2 * (f 3 3 * f 4 4 + f 4 3 * f 3 4) + f 3 2 * (f 0 3 * f 4 4 + f 4 3 * f 0 4)
      + f 4 2 * (f 0 3 * f 3 4 + f 3 3 * f 0 4)) + f 3 1 * (f 0 2 * (f 1 3 * f 4 4 + f 4 3 * f 1 4) +
      f 1 2 * (f 0 3 * f 4 4 + f 4 3 * f 0 4) + f 4 2 * (f 0 3 * f 1 4 + f 1 3 * f 0 4)) + f 4 1 * (f
      0 2 * (f 1 3 * f 3 4 + f 3 3 * f 1 4) + f 1 2 * (f 0 3 * f 3 4 + f 3 3 * f 0 4) + f 3 2 * (f 0 3
      * f 1 4 + f 1 3 * f 0 4))) + f 3 0 * (f 0 1 * (f 1 2 * (f 2 3 * f 4 4 + f 4 3 * f 2 4) + f 2 2 *
      (f 1 3 * f 4 4 + f 4 3 * f 1 4) + f 4 2 * (f 1 3 * f 2 4 + f 2 3 * f 1 4)) + f 1 1 * (f 0 2 * (f
      2 3 * f 4 4 + f 4 3 * f 2 4) + f 2 2 * (f 0 3 * f 4 4 + f 4 3 * f 0 4) + f 4 2 * (f 0 3 * f 2 4
      + f 2 3 * f 0 4)) + f 2 1 * (f 0 2 * (f 1 3 * f 4 4 + f 4 3 * f 1 4) + f 1 2 * (f 0 3 * f 4 4 +
      f 4 3 * f 0 4) + f 4 2 * (f 0 3 * f 1 4 + f 1 3 * f 0 4)) + f 4 1 * (f 0 2 * (f 1 3 * f 2 4 + f
      2 3 * f 1 4) + f 1 2 * (f 0 3 * f 2 4 + f 2 3 * f 0 4) + f 2 2 * (f 0 3 * f 1 4 + f 1 3 * f 0
      4))) + f 4 0 * (f 0 1 * (f 1 2 * (f 2 3 * f 3 4 + f 3 3 * f 2 4) + f 2 2 * (f 1 3 * f 3 4 + f 3
      3 * f 1 4) + f 3 2 * (f 1 3 * f 2 4 + f 2 3 * f 1 4)) + f 1 1 * (f 0 2 * (f 2 3 * f 3 4 + f 3 3
      * f 2 4) + f 2 2 * (f 0 3 * f 3 4 + f 3 3 * f 0 4) + f 3 2 * (f 0 3 * f 2 4 + f 2 3 * f 0 4)) +
      f 2 1 * (f 0 2 * (f 1 3 * f 3 4 + f 3 3 * f 1 4) + f 1 2 * (f 0 3 * f 3 4 + f 3 3 * f 0 4) + f 3
      2 * (f 0 3 * f 1 4 + f 1 3 * f 0 4)) + f 3 1 * (f 0 2 * (f 1 3 * f 2 4 + f 2 3 * f 1 4) + f 1 2
      * (f 0 3 * f 2 4 + f 2 3 * f 0 4) + f 2 2 * (f 0 3 * f 1 4 + f 1 3 * f 0 4))))

theorem per5 (f : Fin 5 → Fin 5 → R) : (Matrix.of f).permanent = p5 f := by
  rw [permanent_succ_column_zero, Fin.sum_univ_five]
  simp only [of_minor, per4]
  rfl

def p6 (f : Fin 6 → Fin 6 → R) : R :=
  (f 0 0 * (f 1 1 * (f 2 2 * (f 3 3 * (f 4 4 * f 5 5 + f 5 4 * f 4 5) + f 4 3 * (f 3 4 * f 5 5 + f
      5 4 * f 3 5) + f 5 3 * (f 3 4 * f 4 5 + f 4 4 * f 3 5)) + f 3 2 * (f 2 3 * (f 4 4 * f 5 5 + f 5
      4 * f 4 5) + f 4 3 * (f 2 4 * f 5 5 + f 5 4 * f 2 5) + f 5 3 * (f 2 4 * f 4 5 + f 4 4 * f 2 5))
      + f 4 2 * (f 2 3 * (f 3 4 * f 5 5 + f 5 4 * f 3 5) + f 3 3 * (f 2 4 * f 5 5 + f 5 4 * f 2 5) + f
      5 3 * (f 2 4 * f 3 5 + f 3 4 * f 2 5)) + f 5 2 * (f 2 3 * (f 3 4 * f 4 5 + f 4 4 * f 3 5) + f 3
      3 * (f 2 4 * f 4 5 + f 4 4 * f 2 5) + f 4 3 * (f 2 4 * f 3 5 + f 3 4 * f 2 5))) + f 2 1 * (f 1 2
      * (f 3 3 * (f 4 4 * f 5 5 + f 5 4 * f 4 5) + f 4 3 * (f 3 4 * f 5 5 + f 5 4 * f 3 5) + f 5 3 *
      (f 3 4 * f 4 5 + f 4 4 * f 3 5)) + f 3 2 * (f 1 3 * (f 4 4 * f 5 5 + f 5 4 * f 4 5) + f 4 3 * (f
      1 4 * f 5 5 + f 5 4 * f 1 5) + f 5 3 * (f 1 4 * f 4 5 + f 4 4 * f 1 5)) + f 4 2 * (f 1 3 * (f 3
      4 * f 5 5 + f 5 4 * f 3 5) + f 3 3 * (f 1 4 * f 5 5 + f 5 4 * f 1 5) + f 5 3 * (f 1 4 * f 3 5 +
      f 3 4 * f 1 5)) + f 5 2 * (f 1 3 * (f 3 4 * f 4 5 + f 4 4 * f 3 5) + f 3 3 * (f 1 4 * f 4 5 + f
      4 4 * f 1 5) + f 4 3 * (f 1 4 * f 3 5 + f 3 4 * f 1 5))) + f 3 1 * (f 1 2 * (f 2 3 * (f 4 4 * f
      5 5 + f 5 4 * f 4 5) + f 4 3 * (f 2 4 * f 5 5 + f 5 4 * f 2 5) + f 5 3 * (f 2 4 * f 4 5 + f 4 4
      * f 2 5)) + f 2 2 * (f 1 3 * (f 4 4 * f 5 5 + f 5 4 * f 4 5) + f 4 3 * (f 1 4 * f 5 5 + f 5 4 *
      f 1 5) + f 5 3 * (f 1 4 * f 4 5 + f 4 4 * f 1 5)) + f 4 2 * (f 1 3 * (f 2 4 * f 5 5 + f 5 4 * f
      2 5) + f 2 3 * (f 1 4 * f 5 5 + f 5 4 * f 1 5) + f 5 3 * (f 1 4 * f 2 5 + f 2 4 * f 1 5)) + f 5
      2 * (f 1 3 * (f 2 4 * f 4 5 + f 4 4 * f 2 5) + f 2 3 * (f 1 4 * f 4 5 + f 4 4 * f 1 5) + f 4 3 *
      (f 1 4 * f 2 5 + f 2 4 * f 1 5))) + f 4 1 * (f 1 2 * (f 2 3 * (f 3 4 * f 5 5 + f 5 4 * f 3 5) +
      f 3 3 * (f 2 4 * f 5 5 + f 5 4 * f 2 5) + f 5 3 * (f 2 4 * f 3 5 + f 3 4 * f 2 5)) + f 2 2 * (f
      1 3 * (f 3 4 * f 5 5 + f 5 4 * f 3 5) + f 3 3 * (f 1 4 * f 5 5 + f 5 4 * f 1 5) + f 5 3 * (f 1 4
      * f 3 5 + f 3 4 * f 1 5)) + f 3 2 * (f 1 3 * (f 2 4 * f 5 5 + f 5 4 * f 2 5) + f 2 3 * (f 1 4 *
      f 5 5 + f 5 4 * f 1 5) + f 5 3 * (f 1 4 * f 2 5 + f 2 4 * f 1 5)) + f 5 2 * (f 1 3 * (f 2 4 * f
      3 5 + f 3 4 * f 2 5) + f 2 3 * (f 1 4 * f 3 5 + f 3 4 * f 1 5) + f 3 3 * (f 1 4 * f 2 5 + f 2 4
      * f 1 5))) + f 5 1 * (f 1 2 * (f 2 3 * (f 3 4 * f 4 5 + f 4 4 * f 3 5) + f 3 3 * (f 2 4 * f 4 5
      + f 4 4 * f 2 5) + f 4 3 * (f 2 4 * f 3 5 + f 3 4 * f 2 5)) + f 2 2 * (f 1 3 * (f 3 4 * f 4 5 +
      f 4 4 * f 3 5) + f 3 3 * (f 1 4 * f 4 5 + f 4 4 * f 1 5) + f 4 3 * (f 1 4 * f 3 5 + f 3 4 * f 1
      5)) + f 3 2 * (f 1 3 * (f 2 4 * f 4 5 + f 4 4 * f 2 5) + f 2 3 * (f 1 4 * f 4 5 + f 4 4 * f 1 5)
      + f 4 3 * (f 1 4 * f 2 5 + f 2 4 * f 1 5)) + f 4 2 * (f 1 3 * (f 2 4 * f 3 5 + f 3 4 * f 2 5) +
      f 2 3 * (f 1 4 * f 3 5 + f 3 4 * f 1 5) + f 3 3 * (f 1 4 * f 2 5 + f 2 4 * f 1 5)))) + f 1 0 *
      (f 0 1 * (f 2 2 * (f 3 3 * (f 4 4 * f 5 5 + f 5 4 * f 4 5) + f 4 3 * (f 3 4 * f 5 5 + f 5 4 * f
      3 5) + f 5 3 * (f 3 4 * f 4 5 + f 4 4 * f 3 5)) + f 3 2 * (f 2 3 * (f 4 4 * f 5 5 + f 5 4 * f 4
      5) + f 4 3 * (f 2 4 * f 5 5 + f 5 4 * f 2 5) + f 5 3 * (f 2 4 * f 4 5 + f 4 4 * f 2 5)) + f 4 2
      * (f 2 3 * (f 3 4 * f 5 5 + f 5 4 * f 3 5) + f 3 3 * (f 2 4 * f 5 5 + f 5 4 * f 2 5) + f 5 3 *
      (f 2 4 * f 3 5 + f 3 4 * f 2 5)) + f 5 2 * (f 2 3 * (f 3 4 * f 4 5 + f 4 4 * f 3 5) + f 3 3 * (f
      2 4 * f 4 5 + f 4 4 * f 2 5) + f 4 3 * (f 2 4 * f 3 5 + f 3 4 * f 2 5))) + f 2 1 * (f 0 2 * (f 3
      3 * (f 4 4 * f 5 5 + f 5 4 * f 4 5) + f 4 3 * (f 3 4 * f 5 5 + f 5 4 * f 3 5) + f 5 3 * (f 3 4 *
      f 4 5 + f 4 4 * f 3 5)) + f 3 2 * (f 0 3 * (f 4 4 * f 5 5 + f 5 4 * f 4 5) + f 4 3 * (f 0 4 * f
      5 5 + f 5 4 * f 0 5) + f 5 3 * (f 0 4 * f 4 5 + f 4 4 * f 0 5)) + f 4 2 * (f 0 3 * (f 3 4 * f 5
      5 + f 5 4 * f 3 5) + f 3 3 * (f 0 4 * f 5 5 + f 5 4 * f 0 5) + f 5 3 * (f 0 4 * f 3 5 + f 3 4 *
      f 0 5)) + f 5 2 * (f 0 3 * (f 3 4 * f 4 5 + f 4 4 * f 3 5) + f 3 3 * (f 0 4 * f 4 5 + f 4 4 * f
      0 5) + f 4 3 * (f 0 4 * f 3 5 + f 3 4 * f 0 5))) + f 3 1 * (f 0 2 * (f 2 3 * (f 4 4 * f 5 5 + f
      5 4 * f 4 5) + f 4 3 * (f 2 4 * f 5 5 + f 5 4 * f 2 5) + f 5 3 * (f 2 4 * f 4 5 + f 4 4 * f 2
      5)) + f 2 2 * (f 0 3 * (f 4 4 * f 5 5 + f 5 4 * f 4 5) + f 4 3 * (f 0 4 * f 5 5 + f 5 4 * f 0 5)
      + f 5 3 * (f 0 4 * f 4 5 + f 4 4 * f 0 5)) + f 4 2 * (f 0 3 * (f 2 4 * f 5 5 + f 5 4 * f 2 5) +
      f 2 3 * (f 0 4 * f 5 5 + f 5 4 * f 0 5) + f 5 3 * (f 0 4 * f 2 5 + f 2 4 * f 0 5)) + f 5 2 * (f
      0 3 * (f 2 4 * f 4 5 + f 4 4 * f 2 5) + f 2 3 * (f 0 4 * f 4 5 + f 4 4 * f 0 5) + f 4 3 * (f 0 4
      * f 2 5 + f 2 4 * f 0 5))) + f 4 1 * (f 0 2 * (f 2 3 * (f 3 4 * f 5 5 + f 5 4 * f 3 5) + f 3 3 *
      (f 2 4 * f 5 5 + f 5 4 * f 2 5) + f 5 3 * (f 2 4 * f 3 5 + f 3 4 * f 2 5)) + f 2 2 * (f 0 3 * (f
      3 4 * f 5 5 + f 5 4 * f 3 5) + f 3 3 * (f 0 4 * f 5 5 + f 5 4 * f 0 5) + f 5 3 * (f 0 4 * f 3 5
      + f 3 4 * f 0 5)) + f 3 2 * (f 0 3 * (f 2 4 * f 5 5 + f 5 4 * f 2 5) + f 2 3 * (f 0 4 * f 5 5 +
      f 5 4 * f 0 5) + f 5 3 * (f 0 4 * f 2 5 + f 2 4 * f 0 5)) + f 5 2 * (f 0 3 * (f 2 4 * f 3 5 + f
      3 4 * f 2 5) + f 2 3 * (f 0 4 * f 3 5 + f 3 4 * f 0 5) + f 3 3 * (f 0 4 * f 2 5 + f 2 4 * f 0
      5))) + f 5 1 * (f 0 2 * (f 2 3 * (f 3 4 * f 4 5 + f 4 4 * f 3 5) + f 3 3 * (f 2 4 * f 4 5 + f 4
      4 * f 2 5) + f 4 3 * (f 2 4 * f 3 5 + f 3 4 * f 2 5)) + f 2 2 * (f 0 3 * (f 3 4 * f 4 5 + f 4 4
      * f 3 5) + f 3 3 * (f 0 4 * f 4 5 + f 4 4 * f 0 5) + f 4 3 * (f 0 4 * f 3 5 + f 3 4 * f 0 5)) +
      f 3 2 * (f 0 3 * (f 2 4 * f 4 5 + f 4 4 * f 2 5) + f 2 3 * (f 0 4 * f 4 5 + f 4 4 * f 0 5) + f 4
      3 * (f 0 4 * f 2 5 + f 2 4 * f 0 5)) + f 4 2 * (f 0 3 * (f 2 4 * f 3 5 + f 3 4 * f 2 5) + f 2 3
      * (f 0 4 * f 3 5 + f 3 4 * f 0 5) + f 3 3 * (f 0 4 * f 2 5 + f 2 4 * f 0 5)))) + f 2 0 * (f 0 1
      * (f 1 2 * (f 3 3 * (f 4 4 * f 5 5 + f 5 4 * f 4 5) + f 4 3 * (f 3 4 * f 5 5 + f 5 4 * f 3 5) +
      f 5 3 * (f 3 4 * f 4 5 + f 4 4 * f 3 5)) + f 3 2 * (f 1 3 * (f 4 4 * f 5 5 + f 5 4 * f 4 5) + f
      4 3 * (f 1 4 * f 5 5 + f 5 4 * f 1 5) + f 5 3 * (f 1 4 * f 4 5 + f 4 4 * f 1 5)) + f 4 2 * (f 1
      3 * (f 3 4 * f 5 5 + f 5 4 * f 3 5) + f 3 3 * (f 1 4 * f 5 5 + f 5 4 * f 1 5) + f 5 3 * (f 1 4 *
      f 3 5 + f 3 4 * f 1 5)) + f 5 2 * (f 1 3 * (f 3 4 * f 4 5 + f 4 4 * f 3 5) + f 3 3 * (f 1 4 * f
      4 5 + f 4 4 * f 1 5) + f 4 3 * (f 1 4 * f 3 5 + f 3 4 * f 1 5))) + f 1 1 * (f 0 2 * (f 3 3 * (f
      4 4 * f 5 5 + f 5 4 * f 4 5) + f 4 3 * (f 3 4 * f 5 5 + f 5 4 * f 3 5) + f 5 3 * (f 3 4 * f 4 5
      + f 4 4 * f 3 5)) + f 3 2 * (f 0 3 * (f 4 4 * f 5 5 + f 5 4 * f 4 5) + f 4 3 * (f 0 4 * f 5 5 +
      f 5 4 * f 0 5) + f 5 3 * (f 0 4 * f 4 5 + f 4 4 * f 0 5)) + f 4 2 * (f 0 3 * (f 3 4 * f 5 5 + f
      5 4 * f 3 5) + f 3 3 * (f 0 4 * f 5 5 + f 5 4 * f 0 5) + f 5 3 * (f 0 4 * f 3 5 + f 3 4 * f 0
      5)) + f 5 2 * (f 0 3 * (f 3 4 * f 4 5 + f 4 4 * f 3 5) + f 3 3 * (f 0 4 * f 4 5 + f 4 4 * f 0 5)
      + f 4 3 * (f 0 4 * f 3 5 + f 3 4 * f 0 5))) + f 3 1 * (f 0 2 * (f 1 3 * (f 4 4 * f 5 5 + f 5 4 *
      f 4 5) + f 4 3 * (f 1 4 * f 5 5 + f 5 4 * f 1 5) + f 5 3 * (f 1 4 * f 4 5 + f 4 4 * f 1 5)) + f
      1 2 * (f 0 3 * (f 4 4 * f 5 5 + f 5 4 * f 4 5) + f 4 3 * (f 0 4 * f 5 5 + f 5 4 * f 0 5) + f 5 3
      * (f 0 4 * f 4 5 + f 4 4 * f 0 5)) + f 4 2 * (f 0 3 * (f 1 4 * f 5 5 + f 5 4 * f 1 5) + f 1 3 *
      (f 0 4 * f 5 5 + f 5 4 * f 0 5) + f 5 3 * (f 0 4 * f 1 5 + f 1 4 * f 0 5)) + f 5 2 * (f 0 3 * (f
      1 4 * f 4 5 + f 4 4 * f 1 5) + f 1 3 * (f 0 4 * f 4 5 + f 4 4 * f 0 5) + f 4 3 * (f 0 4 * f 1 5
      + f 1 4 * f 0 5))) + f 4 1 * (f 0 2 * (f 1 3 * (f 3 4 * f 5 5 + f 5 4 * f 3 5) + f 3 3 * (f 1 4
      * f 5 5 + f 5 4 * f 1 5) + f 5 3 * (f 1 4 * f 3 5 + f 3 4 * f 1 5)) + f 1 2 * (f 0 3 * (f 3 4 *
      f 5 5 + f 5 4 * f 3 5) + f 3 3 * (f 0 4 * f 5 5 + f 5 4 * f 0 5) + f 5 3 * (f 0 4 * f 3 5 + f 3
      4 * f 0 5)) + f 3 2 * (f 0 3 * (f 1 4 * f 5 5 + f 5 4 * f 1 5) + f 1 3 * (f 0 4 * f 5 5 + f 5 4
      * f 0 5) + f 5 3 * (f 0 4 * f 1 5 + f 1 4 * f 0 5)) + f 5 2 * (f 0 3 * (f 1 4 * f 3 5 + f 3 4 *
      f 1 5) + f 1 3 * (f 0 4 * f 3 5 + f 3 4 * f 0 5) + f 3 3 * (f 0 4 * f 1 5 + f 1 4 * f 0 5))) + f
      5 1 * (f 0 2 * (f 1 3 * (f 3 4 * f 4 5 + f 4 4 * f 3 5) + f 3 3 * (f 1 4 * f 4 5 + f 4 4 * f 1
      5) + f 4 3 * (f 1 4 * f 3 5 + f 3 4 * f 1 5)) + f 1 2 * (f 0 3 * (f 3 4 * f 4 5 + f 4 4 * f 3 5)
      + f 3 3 * (f 0 4 * f 4 5 + f 4 4 * f 0 5) + f 4 3 * (f 0 4 * f 3 5 + f 3 4 * f 0 5)) + f 3 2 *
      (f 0 3 * (f 1 4 * f 4 5 + f 4 4 * f 1 5) + f 1 3 * (f 0 4 * f 4 5 + f 4 4 * f 0 5) + f 4 3 * (f
      0 4 * f 1 5 + f 1 4 * f 0 5)) + f 4 2 * (f 0 3 * (f 1 4 * f 3 5 + f 3 4 * f 1 5) + f 1 3 * (f 0
      4 * f 3 5 + f 3 4 * f 0 5) + f 3 3 * (f 0 4 * f 1 5 + f 1 4 * f 0 5)))) + f 3 0 * (f 0 1 * (f 1
      2 * (f 2 3 * (f 4 4 * f 5 5 + f 5 4 * f 4 5) + f 4 3 * (f 2 4 * f 5 5 + f 5 4 * f 2 5) + f 5 3 *
      (f 2 4 * f 4 5 + f 4 4 * f 2 5)) + f 2 2 * (f 1 3 * (f 4 4 * f 5 5 + f 5 4 * f 4 5) + f 4 3 * (f
      1 4 * f 5 5 + f 5 4 * f 1 5) + f 5 3 * (f 1 4 * f 4 5 + f 4 4 * f 1 5)) + f 4 2 * (f 1 3 * (f 2
      4 * f 5 5 + f 5 4 * f 2 5) + f 2 3 * (f 1 4 * f 5 5 + f 5 4 * f 1 5) + f 5 3 * (f 1 4 * f 2 5 +
      f 2 4 * f 1 5)) + f 5 2 * (f 1 3 * (f 2 4 * f 4 5 + f 4 4 * f 2 5) + f 2 3 * (f 1 4 * f 4 5 + f
      4 4 * f 1 5) + f 4 3 * (f 1 4 * f 2 5 + f 2 4 * f 1 5))) + f 1 1 * (f 0 2 * (f 2 3 * (f 4 4 * f
      5 5 + f 5 4 * f 4 5) + f 4 3 * (f 2 4 * f 5 5 + f 5 4 * f 2 5) + f 5 3 * (f 2 4 * f 4 5 + f 4 4
      * f 2 5)) + f 2 2 * (f 0 3 * (f 4 4 * f 5 5 + f 5 4 * f 4 5) + f 4 3 * (f 0 4 * f 5 5 + f 5 4 *
      f 0 5) + f 5 3 * (f 0 4 * f 4 5 + f 4 4 * f 0 5)) + f 4 2 * (f 0 3 * (f 2 4 * f 5 5 + f 5 4 * f
      2 5) + f 2 3 * (f 0 4 * f 5 5 + f 5 4 * f 0 5) + f 5 3 * (f 0 4 * f 2 5 + f 2 4 * f 0 5)) + f 5
      2 * (f 0 3 * (f 2 4 * f 4 5 + f 4 4 * f 2 5) + f 2 3 * (f 0 4 * f 4 5 + f 4 4 * f 0 5) + f 4 3 *
      (f 0 4 * f 2 5 + f 2 4 * f 0 5))) + f 2 1 * (f 0 2 * (f 1 3 * (f 4 4 * f 5 5 + f 5 4 * f 4 5) +
      f 4 3 * (f 1 4 * f 5 5 + f 5 4 * f 1 5) + f 5 3 * (f 1 4 * f 4 5 + f 4 4 * f 1 5)) + f 1 2 * (f
      0 3 * (f 4 4 * f 5 5 + f 5 4 * f 4 5) + f 4 3 * (f 0 4 * f 5 5 + f 5 4 * f 0 5) + f 5 3 * (f 0 4
      * f 4 5 + f 4 4 * f 0 5)) + f 4 2 * (f 0 3 * (f 1 4 * f 5 5 + f 5 4 * f 1 5) + f 1 3 * (f 0 4 *
      f 5 5 + f 5 4 * f 0 5) + f 5 3 * (f 0 4 * f 1 5 + f 1 4 * f 0 5)) + f 5 2 * (f 0 3 * (f 1 4 * f
      4 5 + f 4 4 * f 1 5) + f 1 3 * (f 0 4 * f 4 5 + f 4 4 * f 0 5) + f 4 3 * (f 0 4 * f 1 5 + f 1 4
      * f 0 5))) + f 4 1 * (f 0 2 * (f 1 3 * (f 2 4 * f 5 5 + f 5 4 * f 2 5) + f 2 3 * (f 1 4 * f 5 5
      + f 5 4 * f 1 5) + f 5 3 * (f 1 4 * f 2 5 + f 2 4 * f 1 5)) + f 1 2 * (f 0 3 * (f 2 4 * f 5 5 +
      f 5 4 * f 2 5) + f 2 3 * (f 0 4 * f 5 5 + f 5 4 * f 0 5) + f 5 3 * (f 0 4 * f 2 5 + f 2 4 * f 0
      5)) + f 2 2 * (f 0 3 * (f 1 4 * f 5 5 + f 5 4 * f 1 5) + f 1 3 * (f 0 4 * f 5 5 + f 5 4 * f 0 5)
      + f 5 3 * (f 0 4 * f 1 5 + f 1 4 * f 0 5)) + f 5 2 * (f 0 3 * (f 1 4 * f 2 5 + f 2 4 * f 1 5) +
      f 1 3 * (f 0 4 * f 2 5 + f 2 4 * f 0 5) + f 2 3 * (f 0 4 * f 1 5 + f 1 4 * f 0 5))) + f 5 1 * (f
      0 2 * (f 1 3 * (f 2 4 * f 4 5 + f 4 4 * f 2 5) + f 2 3 * (f 1 4 * f 4 5 + f 4 4 * f 1 5) + f 4 3
      * (f 1 4 * f 2 5 + f 2 4 * f 1 5)) + f 1 2 * (f 0 3 * (f 2 4 * f 4 5 + f 4 4 * f 2 5) + f 2 3 *
      (f 0 4 * f 4 5 + f 4 4 * f 0 5) + f 4 3 * (f 0 4 * f 2 5 + f 2 4 * f 0 5)) + f 2 2 * (f 0 3 * (f
      1 4 * f 4 5 + f 4 4 * f 1 5) + f 1 3 * (f 0 4 * f 4 5 + f 4 4 * f 0 5) + f 4 3 * (f 0 4 * f 1 5
      + f 1 4 * f 0 5)) + f 4 2 * (f 0 3 * (f 1 4 * f 2 5 + f 2 4 * f 1 5) + f 1 3 * (f 0 4 * f 2 5 +
      f 2 4 * f 0 5) + f 2 3 * (f 0 4 * f 1 5 + f 1 4 * f 0 5)))) + f 4 0 * (f 0 1 * (f 1 2 * (f 2 3 *
      (f 3 4 * f 5 5 + f 5 4 * f 3 5) + f 3 3 * (f 2 4 * f 5 5 + f 5 4 * f 2 5) + f 5 3 * (f 2 4 * f 3
      5 + f 3 4 * f 2 5)) + f 2 2 * (f 1 3 * (f 3 4 * f 5 5 + f 5 4 * f 3 5) + f 3 3 * (f 1 4 * f 5 5
      + f 5 4 * f 1 5) + f 5 3 * (f 1 4 * f 3 5 + f 3 4 * f 1 5)) + f 3 2 * (f 1 3 * (f 2 4 * f 5 5 +
      f 5 4 * f 2 5) + f 2 3 * (f 1 4 * f 5 5 + f 5 4 * f 1 5) + f 5 3 * (f 1 4 * f 2 5 + f 2 4 * f 1
      5)) + f 5 2 * (f 1 3 * (f 2 4 * f 3 5 + f 3 4 * f 2 5) + f 2 3 * (f 1 4 * f 3 5 + f 3 4 * f 1 5)
      + f 3 3 * (f 1 4 * f 2 5 + f 2 4 * f 1 5))) + f 1 1 * (f 0 2 * (f 2 3 * (f 3 4 * f 5 5 + f 5 4 *
      f 3 5) + f 3 3 * (f 2 4 * f 5 5 + f 5 4 * f 2 5) + f 5 3 * (f 2 4 * f 3 5 + f 3 4 * f 2 5)) + f
      2 2 * (f 0 3 * (f 3 4 * f 5 5 + f 5 4 * f 3 5) + f 3 3 * (f 0 4 * f 5 5 + f 5 4 * f 0 5) + f 5 3
      * (f 0 4 * f 3 5 + f 3 4 * f 0 5)) + f 3 2 * (f 0 3 * (f 2 4 * f 5 5 + f 5 4 * f 2 5) + f 2 3 *
      (f 0 4 * f 5 5 + f 5 4 * f 0 5) + f 5 3 * (f 0 4 * f 2 5 + f 2 4 * f 0 5)) + f 5 2 * (f 0 3 * (f
      2 4 * f 3 5 + f 3 4 * f 2 5) + f 2 3 * (f 0 4 * f 3 5 + f 3 4 * f 0 5) + f 3 3 * (f 0 4 * f 2 5
      + f 2 4 * f 0 5))) + f 2 1 * (f 0 2 * (f 1 3 * (f 3 4 * f 5 5 + f 5 4 * f 3 5) + f 3 3 * (f 1 4
      * f 5 5 + f 5 4 * f 1 5) + f 5 3 * (f 1 4 * f 3 5 + f 3 4 * f 1 5)) + f 1 2 * (f 0 3 * (f 3 4 *
      f 5 5 + f 5 4 * f 3 5) + f 3 3 * (f 0 4 * f 5 5 + f 5 4 * f 0 5) + f 5 3 * (f 0 4 * f 3 5 + f 3
      4 * f 0 5)) + f 3 2 * (f 0 3 * (f 1 4 * f 5 5 + f 5 4 * f 1 5) + f 1 3 * (f 0 4 * f 5 5 + f 5 4
      * f 0 5) + f 5 3 * (f 0 4 * f 1 5 + f 1 4 * f 0 5)) + f 5 2 * (f 0 3 * (f 1 4 * f 3 5 + f 3 4 *
      f 1 5) + f 1 3 * (f 0 4 * f 3 5 + f 3 4 * f 0 5) + f 3 3 * (f 0 4 * f 1 5 + f 1 4 * f 0 5))) + f
      3 1 * (f 0 2 * (f 1 3 * (f 2 4 * f 5 5 + f 5 4 * f 2 5) + f 2 3 * (f 1 4 * f 5 5 + f 5 4 * f 1
      5) + f 5 3 * (f 1 4 * f 2 5 + f 2 4 * f 1 5)) + f 1 2 * (f 0 3 * (f 2 4 * f 5 5 + f 5 4 * f 2 5)
      + f 2 3 * (f 0 4 * f 5 5 + f 5 4 * f 0 5) + f 5 3 * (f 0 4 * f 2 5 + f 2 4 * f 0 5)) + f 2 2 *
      (f 0 3 * (f 1 4 * f 5 5 + f 5 4 * f 1 5) + f 1 3 * (f 0 4 * f 5 5 + f 5 4 * f 0 5) + f 5 3 * (f
      0 4 * f 1 5 + f 1 4 * f 0 5)) + f 5 2 * (f 0 3 * (f 1 4 * f 2 5 + f 2 4 * f 1 5) + f 1 3 * (f 0
      4 * f 2 5 + f 2 4 * f 0 5) + f 2 3 * (f 0 4 * f 1 5 + f 1 4 * f 0 5))) + f 5 1 * (f 0 2 * (f 1 3
      * (f 2 4 * f 3 5 + f 3 4 * f 2 5) + f 2 3 * (f 1 4 * f 3 5 + f 3 4 * f 1 5) + f 3 3 * (f 1 4 * f
      2 5 + f 2 4 * f 1 5)) + f 1 2 * (f 0 3 * (f 2 4 * f 3 5 + f 3 4 * f 2 5) + f 2 3 * (f 0 4 * f 3
      5 + f 3 4 * f 0 5) + f 3 3 * (f 0 4 * f 2 5 + f 2 4 * f 0 5)) + f 2 2 * (f 0 3 * (f 1 4 * f 3 5
      + f 3 4 * f 1 5) + f 1 3 * (f 0 4 * f 3 5 + f 3 4 * f 0 5) + f 3 3 * (f 0 4 * f 1 5 + f 1 4 * f
      0 5)) + f 3 2 * (f 0 3 * (f 1 4 * f 2 5 + f 2 4 * f 1 5) + f 1 3 * (f 0 4 * f 2 5 + f 2 4 * f 0
      5) + f 2 3 * (f 0 4 * f 1 5 + f 1 4 * f 0 5)))) + f 5 0 * (f 0 1 * (f 1 2 * (f 2 3 * (f 3 4 * f
      4 5 + f 4 4 * f 3 5) + f 3 3 * (f 2 4 * f 4 5 + f 4 4 * f 2 5) + f 4 3 * (f 2 4 * f 3 5 + f 3 4
      * f 2 5)) + f 2 2 * (f 1 3 * (f 3 4 * f 4 5 + f 4 4 * f 3 5) + f 3 3 * (f 1 4 * f 4 5 + f 4 4 *
      f 1 5) + f 4 3 * (f 1 4 * f 3 5 + f 3 4 * f 1 5)) + f 3 2 * (f 1 3 * (f 2 4 * f 4 5 + f 4 4 * f
      2 5) + f 2 3 * (f 1 4 * f 4 5 + f 4 4 * f 1 5) + f 4 3 * (f 1 4 * f 2 5 + f 2 4 * f 1 5)) + f 4
      2 * (f 1 3 * (f 2 4 * f 3 5 + f 3 4 * f 2 5) + f 2 3 * (f 1 4 * f 3 5 + f 3 4 * f 1 5) + f 3 3 *
      (f 1 4 * f 2 5 + f 2 4 * f 1 5))) + f 1 1 * (f 0 2 * (f 2 3 * (f 3 4 * f 4 5 + f 4 4 * f 3 5) +
      f 3 3 * (f 2 4 * f 4 5 + f 4 4 * f 2 5) + f 4 3 * (f 2 4 * f 3 5 + f 3 4 * f 2 5)) + f 2 2 * (f
      0 3 * (f 3 4 * f 4 5 + f 4 4 * f 3 5) + f 3 3 * (f 0 4 * f 4 5 + f 4 4 * f 0 5) + f 4 3 * (f 0 4
      * f 3 5 + f 3 4 * f 0 5)) + f 3 2 * (f 0 3 * (f 2 4 * f 4 5 + f 4 4 * f 2 5) + f 2 3 * (f 0 4 *
      f 4 5 + f 4 4 * f 0 5) + f 4 3 * (f 0 4 * f 2 5 + f 2 4 * f 0 5)) + f 4 2 * (f 0 3 * (f 2 4 * f
      3 5 + f 3 4 * f 2 5) + f 2 3 * (f 0 4 * f 3 5 + f 3 4 * f 0 5) + f 3 3 * (f 0 4 * f 2 5 + f 2 4
      * f 0 5))) + f 2 1 * (f 0 2 * (f 1 3 * (f 3 4 * f 4 5 + f 4 4 * f 3 5) + f 3 3 * (f 1 4 * f 4 5
      + f 4 4 * f 1 5) + f 4 3 * (f 1 4 * f 3 5 + f 3 4 * f 1 5)) + f 1 2 * (f 0 3 * (f 3 4 * f 4 5 +
      f 4 4 * f 3 5) + f 3 3 * (f 0 4 * f 4 5 + f 4 4 * f 0 5) + f 4 3 * (f 0 4 * f 3 5 + f 3 4 * f 0
      5)) + f 3 2 * (f 0 3 * (f 1 4 * f 4 5 + f 4 4 * f 1 5) + f 1 3 * (f 0 4 * f 4 5 + f 4 4 * f 0 5)
      + f 4 3 * (f 0 4 * f 1 5 + f 1 4 * f 0 5)) + f 4 2 * (f 0 3 * (f 1 4 * f 3 5 + f 3 4 * f 1 5) +
      f 1 3 * (f 0 4 * f 3 5 + f 3 4 * f 0 5) + f 3 3 * (f 0 4 * f 1 5 + f 1 4 * f 0 5))) + f 3 1 * (f
      0 2 * (f 1 3 * (f 2 4 * f 4 5 + f 4 4 * f 2 5) + f 2 3 * (f 1 4 * f 4 5 + f 4 4 * f 1 5) + f 4 3
      * (f 1 4 * f 2 5 + f 2 4 * f 1 5)) + f 1 2 * (f 0 3 * (f 2 4 * f 4 5 + f 4 4 * f 2 5) + f 2 3 *
      (f 0 4 * f 4 5 + f 4 4 * f 0 5) + f 4 3 * (f 0 4 * f 2 5 + f 2 4 * f 0 5)) + f 2 2 * (f 0 3 * (f
      1 4 * f 4 5 + f 4 4 * f 1 5) + f 1 3 * (f 0 4 * f 4 5 + f 4 4 * f 0 5) + f 4 3 * (f 0 4 * f 1 5
      + f 1 4 * f 0 5)) + f 4 2 * (f 0 3 * (f 1 4 * f 2 5 + f 2 4 * f 1 5) + f 1 3 * (f 0 4 * f 2 5 +
      f 2 4 * f 0 5) + f 2 3 * (f 0 4 * f 1 5 + f 1 4 * f 0 5))) + f 4 1 * (f 0 2 * (f 1 3 * (f 2 4 *
      f 3 5 + f 3 4 * f 2 5) + f 2 3 * (f 1 4 * f 3 5 + f 3 4 * f 1 5) + f 3 3 * (f 1 4 * f 2 5 + f 2
      4 * f 1 5)) + f 1 2 * (f 0 3 * (f 2 4 * f 3 5 + f 3 4 * f 2 5) + f 2 3 * (f 0 4 * f 3 5 + f 3 4
      * f 0 5) + f 3 3 * (f 0 4 * f 2 5 + f 2 4 * f 0 5)) + f 2 2 * (f 0 3 * (f 1 4 * f 3 5 + f 3 4 *
      f 1 5) + f 1 3 * (f 0 4 * f 3 5 + f 3 4 * f 0 5) + f 3 3 * (f 0 4 * f 1 5 + f 1 4 * f 0 5)) + f
      3 2 * (f 0 3 * (f 1 4 * f 2 5 + f 2 4 * f 1 5) + f 1 3 * (f 0 4 * f 2 5 + f 2 4 * f 0 5) + f 2 3
      * (f 0 4 * f 1 5 + f 1 4 * f 0 5)))))

theorem per6 (f : Fin 6 → Fin 6 → R) : (Matrix.of f).permanent = p6 f := by
  rw [permanent_succ_column_zero, Fin.sum_univ_six]
  simp only [of_minor, per5]
  rfl

end PermExpand

/-- The reals with subtraction read as addition and negation as identity. -/
def AbsR : Type := ℝ

noncomputable instance : CommSemiring AbsR := inferInstanceAs (CommSemiring ℝ)
noncomputable instance : Sub AbsR := ⟨fun a b => a + b⟩
instance : Neg AbsR := ⟨fun a => a⟩

theorem AbsR.sub_def (a b : AbsR) : a - b = a + b := rfl

namespace Ex
variable {ι : Type}

/-- `absE 0`, evaluated in `AbsR`. -/
noncomputable def evalP (x : ι → ℝ) : Ex ι → AbsR
  | var i => (|x i| : ℝ)
  | zero => 0
  | one => 1
  | neg a => -evalP x a
  | add a b => evalP x a + evalP x b
  | sub a b => evalP x a - evalP x b
  | mul a b => evalP x a * evalP x b

theorem absE_zero_eq (x : ι → ℝ) (e : Ex ι) : absE 0 x e = evalP x e := by
  induction e with
  | var i => rfl
  | zero => rfl
  | one => rfl
  | neg a iha => exact iha
  | add a b iha ihb => rw [absE, iha, ihb]; rfl
  | sub a b iha ihb => rw [absE, iha, ihb]; rfl
  | mul a b iha ihb => rw [absE, iha, ihb, add_zero]; rfl

end Ex

/-- A matrix of variables. -/
def Mat.vars (n : ℕ) : Mat n (Ex (Fin n × Fin n)) := ⟨fun i j => .var (i, j)⟩

open PermExpand

theorem M22.perm_aux (g : Fin 2 → Fin 2 → AbsR) : M22.det (⟨g⟩ : Mat 2 AbsR) = p2 g := by
  simp only [M22.det, p2, AbsR.sub_def]

theorem M22.perm_eq (A : Mat 2 ℝ) :
    Ex.absE 0 (fun q => A q.1 q.2) (M22.det (Mat.vars 2)) = (Matrix.of fun i j => |A i j|).permanent := by
  rw [Ex.absE_zero_eq]
  exact (M22.perm_aux fun i j => (|A i j| : ℝ)).trans (per2 _).symm

theorem M33.perm_aux (g : Fin 3 → Fin 3 → AbsR) : M33.det (⟨g⟩ : Mat 3 AbsR) = p3 g := by
  simp only [M33.det, p3, AbsR.sub_def]
  ring

theorem M33.perm_eq (A : Mat 3 ℝ) :
    Ex.absE 0 (fun q => A q.1 q.2) (M33.det (Mat.vars 3)) = (Matrix.of fun i j => |A i j|).permanent := by
  rw [Ex.absE_zero_eq]
  exact (M33.perm_aux fun i j => (|A i j| : ℝ)).trans (per3 _).symm

theorem M44.perm_aux (g : Fin 4 → Fin 4 → AbsR) : M44.det (⟨g⟩ : Mat 4 AbsR) = p4 g := by
  simp only [M44.det, p4, AbsR.sub_def]
  ring

theorem M44.perm_eq (A : Mat 4 ℝ) :
    Ex.absE 0 (fun q => A q.1 q.2) (M44.det (Mat.vars 4)) = (Matrix.of fun i j => |A i j|).permanent := by
  rw [Ex.absE_zero_eq]
  exact (M44.perm_aux fun i j => (|A i j| : ℝ)).trans (per4 _).symm

set_option maxRecDepth 8000 in
set_option maxHeartbeats 1000000 in
theorem M55.perm_aux (g : Fin 5 → Fin 5 → AbsR) : M55.det (⟨g⟩ : Mat 5 AbsR) = p5 g := by
  simp only [M55.det, p5, AbsR.sub_def]
  ring

set_option maxRecDepth 8000 in
set_option maxHeartbeats 1000000 in
theorem M55.perm_eq (A : Mat 5 ℝ) :
    Ex.absE 0 (fun q => A q.1 q.2) (M55.det (Mat.vars 5)) = (Matrix.of fun i j => |A i j|).permanent := by
  rw [Ex.absE_zero_eq]
  exact (M55.perm_aux fun i j => (|A i j| : ℝ)).trans (per5 _).symm

set_option maxRecDepth 20000 in
set_option maxHeartbeats 8000000 in
theorem M66.perm_aux (g : Fin 6 → Fin 6 → AbsR) : M66.det (⟨g⟩ : Mat 6 AbsR) = p6 g := by
  simp only [M66.det, p6, AbsR.sub_def]
  ring

set_option maxRecDepth 20000 in
set_option maxHeartbeats 8000000 in
theorem M66.perm_eq (A : Mat 6 ℝ) :
    Ex.absE 0 (fun q => A q.1 q.2) (M66.det (Mat.vars 6)) = (Matrix.of fun i j => |A i j|).permanent := by
  rw [Ex.absE_zero_eq]
  exact (M66.perm_aux fun i j => (|A i j| : ℝ)).trans (per6 _).symm

end StaticMath
