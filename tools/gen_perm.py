"""Writes lean/Verif/Lemmas/Perm.lean: the determinant functions with every subtraction turned into an
addition compute the permanent (proof side only)."""
import sys
sys.path.insert(0,'/verif/tools')
def per(rows, cols):
    if len(rows) == 2:
        (a, b), (c, d) = rows, cols
        return f"(f {a} {c} * f {b} {d} + f {b} {c} * f {a} {d})"
    c, rest = cols[0], cols[1:]
    return '(' + ' + '.join(f"f {r} {c} * {per([x for x in rows if x != r], rest)}" for r in rows) + ')'
def wrap(s, w=96):
    out, line = [], ''
    for tok in s.split(' '):
        if line and len(line) + 1 + len(tok) > w:
            out.append(line); line = tok
        else:
            line = f"{line} {tok}" if line else tok
    return '\n      '.join(out + [line])
o='''import Verif.Ieee.Expr
import Verif.Model.GenM22
import Verif.Model.GenM33
import Verif.Model.GenM44
import Verif.Model.GenM55
import Verif.Model.GenM66
import Mathlib.LinearAlgebra.Matrix.Permanent
import Mathlib.LinearAlgebra.Matrix.Determinant.Basic
import Mathlib.Tactic.Ring

/-! Written by `tools/gen_perm.py`: expansion of the permanent along the first column, and the five
determinant functions with all signs positive. -/

namespace StaticMath
namespace PermExpand
open Equiv

/-- Laplace expansion of the permanent along column 0. -/
theorem permanent_succ_column_zero {R : Type} [CommSemiring R] {n : ℕ} (A : Matrix (Fin n.succ) (Fin n.succ) R) :
    A.permanent = ∑ i : Fin n.succ, A i 0 * (A.submatrix i.succAbove Fin.succ).permanent := by
  rw [Matrix.permanent, Finset.univ_perm_fin_succ, ← Finset.univ_product_univ]
  simp only [Finset.sum_map, Equiv.toEmbedding_apply, Finset.sum_product]
  refine Finset.sum_congr rfl fun i _ => Fin.cases ?_ (fun i => ?_) i
  · simp only [Fin.prod_univ_succ, Matrix.permanent, Finset.mul_sum,
      Equiv.Perm.decomposeFin_symm_apply_zero, Equiv.swap_self, Matrix.submatrix_apply,
      Equiv.Perm.decomposeFin_symm_apply_succ, Fin.succAbove_zero, Equiv.coe_refl, id]
  · rw [← Matrix.permanent_permute_cols i.cycleRange, Matrix.permanent, Finset.mul_sum]
    refine Finset.sum_congr rfl fun σ _ => ?_
    simp only [Fin.prod_univ_succ, Fin.succAbove_cycleRange, Matrix.submatrix_apply, id,
      Equiv.Perm.decomposeFin_symm_apply_zero, Equiv.Perm.decomposeFin_symm_apply_succ]

variable {R : Type}

/-- minor of row j, column 0 -/
def minor {n} (f : Fin (n + 1) → Fin (n + 1) → R) (j : Fin (n + 1)) : Fin n → Fin n → R :=
  fun i k => f (j.succAbove i) k.succ

theorem of_minor {n} (f : Fin (n + 1) → Fin (n + 1) → R) (j : Fin (n + 1)) :
    ((Matrix.of f).submatrix j.succAbove Fin.succ) = Matrix.of (minor f j) := rfl

variable [CommSemiring R]

theorem per1 (f : Fin 1 → Fin 1 → R) : (Matrix.of f).permanent = f 0 0 := by
  rw [Matrix.permanent_unique]; rfl

'''
names={2:'two',3:'three',4:'four',5:'five',6:'six'}
for n in range(2,7):
    o+=f"def p{n} (f : Fin {n} → Fin {n} → R) : R :=\n  {wrap(per(list(range(n)),list(range(n))))}\n\n"
    if n==2:
        o+='''theorem per2 (f : Fin 2 → Fin 2 → R) : (Matrix.of f).permanent = p2 f := by
  rw [permanent_succ_column_zero, Fin.sum_univ_two]
  simp only [of_minor, per1]
  rfl

'''
    else:
        o+=f'''theorem per{n} (f : Fin {n} → Fin {n} → R) : (Matrix.of f).permanent = p{n} f := by
  rw [permanent_succ_column_zero, Fin.sum_univ_{names[n]}]
  simp only [of_minor, per{n-1}]
  rfl

'''
o+='''end PermExpand

/-- The reals with subtraction read as addition and negation as identity. -/
def AbsR : Type := ℝ

noncomputable instance : CommSemiring AbsR := inferInstanceAs (CommSemiring ℝ)
noncomputable instance : Sub AbsR := ⟨fun a b => a + b⟩
instance : Neg AbsR := ⟨fun a => a⟩

theorem AbsR.sub_def (a b : AbsR) : a - b = a + b := rfl

namespace Ex
variable {ι : Type}

/-- `absE 0`, evaluated in `AbsR`. -/
noncomputable def evalP (x : ι → ℝ) : Ex ι → AbsR
  | var i => (|x i| : ℝ)
  | zero => 0
  | one => 1
  | neg a => -evalP x a
  | add a b => evalP x a + evalP x b
  | sub a b => evalP x a - evalP x b
  | mul a b => evalP x a * evalP x b

theorem absE_zero_eq (x : ι → ℝ) (e : Ex ι) : absE 0 x e = evalP x e := by
  induction e with
  | var i => rfl
  | zero => rfl
  | one => rfl
  | neg a iha => exact iha
  | add a b iha ihb => rw [absE, iha, ihb]; rfl
  | sub a b iha ihb => rw [absE, iha, ihb]; rfl
  | mul a b iha ihb => rw [absE, iha, ihb, add_zero]; rfl

end Ex

/-- A matrix of variables. -/
def Mat.vars (n : ℕ) : Mat n (Ex (Fin n × Fin n)) := ⟨fun i j => .var (i, j)⟩

open PermExpand

'''
for n in range(2,7):
    opt='set_option maxRecDepth 20000 in\nset_option maxHeartbeats 8000000 in\n' if n==6 else 'set_option maxRecDepth 8000 in\nset_option maxHeartbeats 1000000 in\n' if n==5 else ''
    o+=f'''{opt}theorem M{n}{n}.perm_aux (g : Fin {n} → Fin {n} → AbsR) : M{n}{n}.det (⟨g⟩ : Mat {n} AbsR) = p{n} g := by
  simp only [M{n}{n}.det, p{n}, AbsR.sub_def]{chr(10)+'  ring' if n>2 else ''}

{opt}theorem M{n}{n}.perm_eq (A : Mat {n} ℝ) :
    Ex.absE 0 (fun q => A q.1 q.2) (M{n}{n}.det (Mat.vars {n})) = (Matrix.of fun i j => |A i j|).permanent := by
  rw [Ex.absE_zero_eq]
  exact (M{n}{n}.perm_aux fun i j => (|A i j| : ℝ)).trans (per{n} _).symm

'''
o+='end StaticMath\n'
open('/verif/lean/Verif/Lemmas/Perm.lean','w').write(o)
