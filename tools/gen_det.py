"""Writes the cofactor-expansion lemmas used to identify the flat 4x4, 5x5 and 6x6 determinant
sums with `Matrix.det` (proof side only; the statements are checked by the Lean kernel)."""
import sys

def det(rows, cols):
    if len(rows) == 2:
        (a, b), (c, d) = rows, cols
        return f"(f {a} {c} * f {b} {d} - f {a} {d} * f {b} {c})"
    r, rest = rows[0], rows[1:]
    out = ''
    for k, c in enumerate(cols):
        minor = det(rest, [x for x in cols if x != c])
        out += (' - ' if k % 2 else ' + ' if k else '') + f"f {r} {c} * {minor}"
    return f"({out})"

def wrap(s, w=96):
    out, line = [], ''
    for tok in s.split(' '):
        if line and len(line) + 1 + len(tok) > w:
            out.append(line); line = tok
        else:
            line = f"{line} {tok}" if line else tok
    return '\n      '.join(out + [line])

o = '''import Verif.Model.GenM22
import Verif.Model.GenM33
import Verif.Model.GenM44
import Verif.Model.GenM55
import Verif.Model.GenM66
import Mathlib.LinearAlgebra.Matrix.Determinant.Basic
import Mathlib.Tactic.Ring

/-! Written by `tools/gen_det.py`: cofactor expansions, then the five determinants. -/

namespace StaticMath
namespace DetExpand

variable {R : Type}

/-- minor of row 0, column j -/
def minor {n} (f : Fin (n + 1) → Fin (n + 1) → R) (j : Fin (n + 1)) : Fin n → Fin n → R :=
  fun i k => f i.succ (j.succAbove k)

theorem of_minor {n} (f : Fin (n + 1) → Fin (n + 1) → R) (j) :
    ((Matrix.of f).submatrix Fin.succ j.succAbove) = Matrix.of (minor f j) := rfl

variable [CommRing R]

'''
names = {3: 'three', 4: 'four', 5: 'five', 6: 'six'}
for n in range(3, 7):
    o += f"def d{n} (f : Fin {n} → Fin {n} → R) : R :=\n  {wrap(det(list(range(n)), list(range(n))))}\n\n"
o += '''theorem det3 (f : Fin 3 → Fin 3 → R) : (Matrix.of f).det = d3 f := by
  rw [Matrix.det_fin_three]; simp only [Matrix.of_apply, d3]; ring

'''
for n in range(4, 7):
    e = ' '.join(('- ' if k % 2 else '+ ' if k else '') + f"f 0 {k} * d{n-1} (minor f {k})" for k in range(n))
    o += f'''theorem d{n}_rec (f : Fin {n} → Fin {n} → R) : d{n} f =
    {e} := rfl

theorem det{n} (f : Fin {n} → Fin {n} → R) : (Matrix.of f).det = d{n} f := by
  rw [Matrix.det_succ_row_zero, Fin.sum_univ_{names[n]}, d{n}_rec]
  simp only [of_minor, det{n-1}]
  simp [pow_succ, sub_eq_add_neg]

'''
o += '''end DetExpand

open DetExpand
variable {R : Type} [CommRing R]

theorem M22.det_eq (A : Mat 2 R) : M22.det A = (Matrix.of A.val).det := by
  rw [Matrix.det_fin_two]; simp only [M22.det, Matrix.of_apply]; ring

theorem M33.det_eq (A : Mat 3 R) : M33.det A = (Matrix.of A.val).det := by
  rw [det3]; simp only [M33.det, d3]; ring

theorem M44.det_eq (A : Mat 4 R) : M44.det A = (Matrix.of A.val).det := by
  rw [det4]; simp only [M44.det, d4]; ring

set_option maxHeartbeats 1000000 in
theorem M55.det_eq (A : Mat 5 R) : M55.det A = (Matrix.of A.val).det := by
  rw [det5]; simp only [M55.det, d5]; ring

set_option maxRecDepth 20000 in
set_option maxHeartbeats 8000000 in
theorem M66.det_eq (A : Mat 6 R) : M66.det A = (Matrix.of A.val).det := by
  rw [det6]; simp only [M66.det, d6]; ring

end StaticMath
'''
open(sys.argv[1], 'w').write(o)
