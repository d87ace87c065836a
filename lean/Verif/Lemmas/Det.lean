import Verif.Model.GenM22
import Verif.Model.GenM33
import Verif.Model.GenM44
import Verif.Model.GenM55
import Verif.Model.GenM66
import Mathlib.LinearAlgebra.Matrix.Determinant.Basic
import Mathlib.Tactic.Ring

/-! Written by `tools/gen_det.py`: cofactor expansions, then the five determinants. -/

namespace StaticMath
namespace DetExpand

variable {R : Type}

/-- minor of row 0, column j -/
def minor {n} (f : Fin (n + 1) → Fin (n + 1) → R) (j : Fin (n + 1)) : Fin n → Fin n → R :=
  fun i k => f i.succ (j.succAbove k)

theorem of_minor {n} (f : Fin (n + 1) → Fin (n + 1) → R) (j) :
    ((Matrix.of f).submatrix Fin.succ j.succAbove) = Matrix.of (minor f j) := rfl

variable [CommRing R]

def d3 (f : Fin 3 → Fin 3 → R) : R :=
  (f 0 0 * (f 1 1 * f 2 2 - f 1 2 * f 2 1) - f 0 1 * (f 1 0 * f 2 2 - f 1 2 * f 2 0) + f 0 2 * (f
      1 0 * f 2 1 - f 1 1 * f 2 0))

def d4 (f : Fin 4 → Fin 4 → R) : R :=
  (f 0 0 * (f 1 1 * (f 2 2 * f 3 3 - f 2 3 * f 3 2) - f 1 2 * (f 2 1 * f 3 3 - f 2 3 * f 3 1) + f
      1 3 * (f 2 1 * f 3 2 - f 2 2 * f 3 1)) - f 0 1 * (f 1 0 * (f 2 2 * f 3 3 - f 2 3 * f 3 2) - f 1
      2 * (f 2 0 * f 3 3 - f 2 3 * f 3 0) + f 1 3 * (f 2 0 * f 3 2 - f 2 2 * f 3 0)) + f 0 2 * (f 1 0
      * (f 2 1 * f 3 3 - f 2 3 * f 3 1) - f 1 1 * (f 2 0 * f 3 3 - f 2 3 * f 3 0) + f 1 3 * (f 2 0 * f
      3 1 - f 2 1 * f 3 0)) - f 0 3 * (f 1 0 * (f 2 1 * f 3 2 - f 2 2 * f 3 1) - f 1 1 * (f 2 0 * f 3
      2 - f 2 2 * f 3 0) + f 1 2 * (f 2 0 * f 3 1 - f 2 1 * f 3 0)))

def d5 (f : Fin 5 → Fin 5 → R) : R :=
  (f 0 0 * (f 1 1 * (f 2 2 * (f 3 3 * f 4 4 - f 3 4 * f 4 3) - f 2 3 * (f 3 2 * f 4 4 - f 3 4 * f
      4 2) + f 2 4 * (f 3 2 * f 4 3 - f 3 3 * f 4 2)) - f 1 2 * (f 2 1 * (f 3 3 * f 4 4 - f 3 4 * f 4
      3) - f 2 3 * (f 3 1 * f 4 4 - f 3 4 * f 4 1) + f 2 4 * (f 3 1 * f 4 3 - f 3 3 * f 4 1)) + f 1 3
      * (f 2 1 * (f 3 2 * f 4 4 - f 3 4 * f 4 2) - f 2 2 * (f 3 1 * f 4 4 - f 3 4 * f 4 1) + f 2 4 *
      (f 3 1 * f 4 2 - f 3 2 * f 4 1)) - f 1 4 * (f 2 1 * (f 3 2 * f 4 3 - f 3 3 * f 4 2) - f 2 2 * (f
      3 1 * f 4 3 - f 3 3 * f 4 1) + f 2 3 * (f 3 1 * f 4 2 - f 3 2 * f 4 1))) - f 0 1 * (f 1 0 * (f 2
      2 * (f 3 3 * f 4 4 - f 3 4 * f 4 3) - f 2 3 * (f 3 2 * f 4 4 - f 3 4 * f 4 2) + f 2 4 * (f 3 2 *
      f 4 3 - f 3 3 * f 4 2)) - f 1 2 * (f 2 0 * (f 3 3 * f 4 4 - f 3 4 * f 4 3) - f 2 3 * (f 3 0 * f
      4 4 - f 3 4 * f 4 0) + f 2 4 * (f 3 0 * f 4 3 - f 3 3 * f 4 0)) + f 1 3 * (f 2 0 * (f 3 2 * f 4
      4 - f 3 4 * f 4 2) - f 2 2 * (f 3 0 * f 4 4 - f 3 4 * f 4 0) + f 2 4 * (f 3 0 * f 4 2 - f 3 2 *
      f 4 0)) - f 1 4 * (f 2 0 * (f 3 2 * f 4 3 - f 3 3 * f 4 2) - f 2 2 * (f 3 0 * f 4 3 - f 3 3 * f
      4 0) + f 2 3 * (f 3 0 * f 4 2 - f 3 2 * f 4 0))) + f 0 2 * (f 1 0 * (f 2 1 * (f 3 3 * f 4 4 - f
      3 4 * f 4 3) - f 2 3 * (f 3 1 * f 4 4 - f 3 4 * f 4 1) + f 2 4 * (f 3 1 * f 4 3 - f 3 3 * f 4
      1)) - f 1 1 * (f 2 0 * (f 3 3 * f 4 4 - f 3 4 * f 4 3) - f 2 3 * (f 3 0 * f 4 4 - f 3 4 * f 4 0)
      + f 2 4 * (f 3 0 * f 4 3 - f 3 3 * f 4 0)) + f 1 3 * (f 2 0 * (f 3 1 * f 4 4 - f 3 4 * f 4 1) -
      f 2 1 * (f 3 0 * f 4 4 - f 3 4 * f 4 0) + f 2 4 * (f 3 0 * f 4 1 - f 3 1 * f 4 0)) - f 1 4 * (f
      2 0 * (f 3 1 * f 4 3 - f 3 3 * f 4 1) - f 2 1 * (f 3 0 * f 4 3 - f 3 3 * f 4 0) + f 2 3 * (f 3 0
      * f 4 1 - f 3 1 * f 4 0))) - f 0 3 * (f 1 0 * (f 2 1 * (f 3 2 * f 4 4 - f 3 4 * f 4 2) - f 2 2 *
      (f 3 1 * f 4 4 - f 3 4 * f 4 1) + f 2 4 * (f 3 1 * f 4 2 - f 3 2 * f 4 1)) - f 1 1 * (f 2 0 * (f
      3 2 * f 4 4 - f 3 4 * f 4 2) - f 2 2 * (f 3 0 * f 4 4 - f 3 4 * f 4 0) + f 2 4 * (f 3 0 * f 4 2
      - f 3 2 * f 4 0)) + f 1 2 * (f 2 0 * (f 3 1 * f 4 4 - f 3 4 * f 4 1) - f 2 1 * (f 3 0 * f 4 4 -
      f 3 4 * f 4 0) + f 2 4 * (f 3 0 * f 4 1 - f 3 1 * f 4 0)) - f 1 4 * (f 2 0 * (f 3 1 * f 4 2 - f
      3 2 * f 4 1) - f 2 1 * (f 3 0 * f 4 2 - f 3 2 * f 4 0) + f 2 2 * (f 3 0 * f 4 1 - f 3 1 * f 4
      0))) + f 0 4 * (f 1 0 * (f 2 1 * (f 3 2 * f 4 3 - f 3 3 * f 4 2) - f 2 2 * (f 3 1 * f 4 3 - f 3
      3 * f 4 1) + f 2 3 * (f 3 1 * f 4 2 - f 3 2 * f 4 1)) - f 1 1 * (f 2 0 * (f 3 2 * f 4 3 - f 3 3
      * f 4 2) - f 2 2 * (f 3 0 * f 4 3 - f 3 3 * f 4 0) + f 2 3 * (f 3 0 * f 4 2 - f 3 2 * f 4 0)) +
      f 1 2 * (f 2 0 * (f 3 1 * f 4 3 - f 3 3 * f 4 1) - f 2 1 * (f 3 0 * f 4 3 - f 3 3 * f 4 0) + f 2
      3 * (f 3 0 * f 4 1 - f 3 1 * f 4 0)) - f 1 3 * (f 2 0 * (f 3 1 * f 4 2 - f 3 2 * f 4 1) - f 2 1
      * (f 3 0 * f 4 2 - f 3 2 * f 4 0) + f 2 2 * (f 3 0 * f 4 1 - f 3 1 * f 4 0))))

def d6 (f : Fin 6 → Fin 6 → R) : R :=
  (f 0 0 * (f 1 1 * (f 2 2 * (f 3 3 * (f 4 4 * f 5 5 - f 4 5 * f 5 4) - f 3 4 * (f 4 3 * f 5 5 - f
      4 5 * f 5 3) + f 3 5 * (f 4 3 * f 5 4 - f 4 4 * f 5 3)) - f 2 3 * (f 3 2 * (f 4 4 * f 5 5 - f 4
      5 * f 5 4) - f 3 4 * (f 4 2 * f 5 5 - f 4 5 * f 5 2) + f 3 5 * (f 4 2 * f 5 4 - f 4 4 * f 5 2))
      + f 2 4 * (f 3 2 * (f 4 3 * f 5 5 - f 4 5 * f 5 3) - f 3 3 * (f 4 2 * f 5 5 - f 4 5 * f 5 2) + f
      3 5 * (f 4 2 * f 5 3 - f 4 3 * f 5 2)) - f 2 5 * (f 3 2 * (f 4 3 * f 5 4 - f 4 4 * f 5 3) - f 3
      3 * (f 4 2 * f 5 4 - f 4 4 * f 5 2) + f 3 4 * (f 4 2 * f 5 3 - f 4 3 * f 5 2))) - f 1 2 * (f 2 1
      * (f 3 3 * (f 4 4 * f 5 5 - f 4 5 * f 5 4) - f 3 4 * (f 4 3 * f 5 5 - f 4 5 * f 5 3) + f 3 5 *
      (f 4 3 * f 5 4 - f 4 4 * f 5 3)) - f 2 3 * (f 3 1 * (f 4 4 * f 5 5 - f 4 5 * f 5 4) - f 3 4 * (f
      4 1 * f 5 5 - f 4 5 * f 5 1) + f 3 5 * (f 4 1 * f 5 4 - f 4 4 * f 5 1)) + f 2 4 * (f 3 1 * (f 4
      3 * f 5 5 - f 4 5 * f 5 3) - f 3 3 * (f 4 1 * f 5 5 - f 4 5 * f 5 1) + f 3 5 * (f 4 1 * f 5 3 -
      f 4 3 * f 5 1)) - f 2 5 * (f 3 1 * (f 4 3 * f 5 4 - f 4 4 * f 5 3) - f 3 3 * (f 4 1 * f 5 4 - f
      4 4 * f 5 1) + f 3 4 * (f 4 1 * f 5 3 - f 4 3 * f 5 1))) + f 1 3 * (f 2 1 * (f 3 2 * (f 4 4 * f
      5 5 - f 4 5 * f 5 4) - f 3 4 * (f 4 2 * f 5 5 - f 4 5 * f 5 2) + f 3 5 * (f 4 2 * f 5 4 - f 4 4
      * f 5 2)) - f 2 2 * (f 3 1 * (f 4 4 * f 5 5 - f 4 5 * f 5 4) - f 3 4 * (f 4 1 * f 5 5 - f 4 5 *
      f 5 1) + f 3 5 * (f 4 1 * f 5 4 - f 4 4 * f 5 1)) + f 2 4 * (f 3 1 * (f 4 2 * f 5 5 - f 4 5 * f
      5 2) - f 3 2 * (f 4 1 * f 5 5 - f 4 5 * f 5 1) + f 3 5 * (f 4 1 * f 5 2 - f 4 2 * f 5 1)) - f 2
      5 * (f 3 1 * (f 4 2 * f 5 4 - f 4 4 * f 5 2) - f 3 2 * (f 4 1 * f 5 4 - f 4 4 * f 5 1) + f 3 4 *
      (f 4 1 * f 5 2 - f 4 2 * f 5 1))) - f 1 4 * (f 2 1 * (f 3 2 * (f 4 3 * f 5 5 - f 4 5 * f 5 3) -
      f 3 3 * (f 4 2 * f 5 5 - f 4 5 * f 5 2) + f 3 5 * (f 4 2 * f 5 3 - f 4 3 * f 5 2)) - f 2 2 * (f
      3 1 * (f 4 3 * f 5 5 - f 4 5 * f 5 3) - f 3 3 * (f 4 1 * f 5 5 - f 4 5 * f 5 1) + f 3 5 * (f 4 1
      * f 5 3 - f 4 3 * f 5 1)) + f 2 3 * (f 3 1 * (f 4 2 * f 5 5 - f 4 5 * f 5 2) - f 3 2 * (f 4 1 *
      f 5 5 - f 4 5 * f 5 1) + f 3 5 * (f 4 1 * f 5 2 - f 4 2 * f 5 1)) - f 2 5 * (f 3 1 * (f 4 2 * f
      5 3 - f 4 3 * f 5 2) - f 3 2 * (f 4 1 * f 5 3 - f 4 3 * f 5 1) + f 3 3 * (f 4 1 * f 5 2 - f 4 2
      * f 5 1))) + f 1 5 * (f 2 1 * (f 3 2 * (f 4 3 * f 5 4 - f 4 4 * f 5 3) - f 3 3 * (f 4 2 * f 5 4
      - f 4 4 * f 5 2) + f 3 4 * (f 4 2 * f 5 3 - f 4 3 * f 5 2)) - f 2 2 * (f 3 1 * (f 4 3 * f 5 4 -
      f 4 4 * f 5 3) - f 3 3 * (f 4 1 * f 5 4 - f 4 4 * f 5 1) + f 3 4 * (f 4 1 * f 5 3 - f 4 3 * f 5
      1)) + f 2 3 * (f 3 1 * (f 4 2 * f 5 4 - f 4 4 * f 5 2) - f 3 2 * (f 4 1 * f 5 4 - f 4 4 * f 5 1)
      + f 3 4 * (f 4 1 * f 5 2 - f 4 2 * f 5 1)) - f 2 4 * (f 3 1 * (f 4 2 * f 5 3 - f 4 3 * f 5 2) -
      f 3 2 * (f 4 1 * f 5 3 - f 4 3 * f 5 1) + f 3 3 * (f 4 1 * f 5 2 - f 4 2 * f 5 1)))) - f 0 1 *
      (f 1 0 * (f 2 2 * (f 3 3 * (f 4 4 * f 5 5 - f 4 5 * f 5 4) - f 3 4 * (f 4 3 * f 5 5 - f 4 5 * f
      5 3) + f 3 5 * (f 4 3 * f 5 4 - f 4 4 * f 5 3)) - f 2 3 * (f 3 2 * (f 4 4 * f 5 5 - f 4 5 * f 5
      4) - f 3 4 * (f 4 2 * f 5 5 - f 4 5 * f 5 2) + f 3 5 * (f 4 2 * f 5 4 - f 4 4 * f 5 2)) + f 2 4
      * (f 3 2 * (f 4 3 * f 5 5 - f 4 5 * f 5 3) - f 3 3 * (f 4 2 * f 5 5 - f 4 5 * f 5 2) + f 3 5 *
      (f 4 2 * f 5 3 - f 4 3 * f 5 2)) - f 2 5 * (f 3 2 * (f 4 3 * f 5 4 - f 4 4 * f 5 3) - f 3 3 * (f
      4 2 * f 5 4 - f 4 4 * f 5 2) + f 3 4 * (f 4 2 * f 5 3 - f 4 3 * f 5 2))) - f 1 2 * (f 2 0 * (f 3
      3 * (f 4 4 * f 5 5 - f 4 5 * f 5 4) - f 3 4 * (f 4 3 * f 5 5 - f 4 5 * f 5 3) + f 3 5 * (f 4 3 *
      f 5 4 - f 4 4 * f 5 3)) - f 2 3 * (f 3 0 * (f 4 4 * f 5 5 - f 4 5 * f 5 4) - f 3 4 * (f 4 0 * f
      5 5 - f 4 5 * f 5 0) + f 3 5 * (f 4 0 * f 5 4 - f 4 4 * f 5 0)) + f 2 4 * (f 3 0 * (f 4 3 * f 5
      5 - f 4 5 * f 5 3) - f 3 3 * (f 4 0 * f 5 5 - f 4 5 * f 5 0) + f 3 5 * (f 4 0 * f 5 3 - f 4 3 *
      f 5 0)) - f 2 5 * (f 3 0 * (f 4 3 * f 5 4 - f 4 4 * f 5 3) - f 3 3 * (f 4 0 * f 5 4 - f 4 4 * f
      5 0) + f 3 4 * (f 4 0 * f 5 3 - f 4 3 * f 5 0))) + f 1 3 * (f 2 0 * (f 3 2 * (f 4 4 * f 5 5 - f
      4 5 * f 5 4) - f 3 4 * (f 4 2 * f 5 5 - f 4 5 * f 5 2) + f 3 5 * (f 4 2 * f 5 4 - f 4 4 * f 5
      2)) - f 2 2 * (f 3 0 * (f 4 4 * f 5 5 - f 4 5 * f 5 4) - f 3 4 * (f 4 0 * f 5 5 - f 4 5 * f 5 0)
      + f 3 5 * (f 4 0 * f 5 4 - f 4 4 * f 5 0)) + f 2 4 * (f 3 0 * (f 4 2 * f 5 5 - f 4 5 * f 5 2) -
      f 3 2 * (f 4 0 * f 5 5 - f 4 5 * f 5 0) + f 3 5 * (f 4 0 * f 5 2 - f 4 2 * f 5 0)) - f 2 5 * (f
      3 0 * (f 4 2 * f 5 4 - f 4 4 * f 5 2) - f 3 2 * (f 4 0 * f 5 4 - f 4 4 * f 5 0) + f 3 4 * (f 4 0
      * f 5 2 - f 4 2 * f 5 0))) - f 1 4 * (f 2 0 * (f 3 2 * (f 4 3 * f 5 5 - f 4 5 * f 5 3) - f 3 3 *
      (f 4 2 * f 5 5 - f 4 5 * f 5 2) + f 3 5 * (f 4 2 * f 5 3 - f 4 3 * f 5 2)) - f 2 2 * (f 3 0 * (f
      4 3 * f 5 5 - f 4 5 * f 5 3) - f 3 3 * (f 4 0 * f 5 5 - f 4 5 * f 5 0) + f 3 5 * (f 4 0 * f 5 3
      - f 4 3 * f 5 0)) + f 2 3 * (f 3 0 * (f 4 2 * f 5 5 - f 4 5 * f 5 2) - f 3 2 * (f 4 0 * f 5 5 -
      f 4 5 * f 5 0) + f 3 5 * (f 4 0 * f 5 2 - f 4 2 * f 5 0)) - f 2 5 * (f 3 0 * (f 4 2 * f 5 3 - f
      4 3 * f 5 2) - f 3 2 * (f 4 0 * f 5 3 - f 4 3 * f 5 0) + f 3 3 * (f 4 0 * f 5 2 - f 4 2 * f 5
      0))) + f 1 5 * (f 2 0 * (f 3 2 * (f 4 3 * f 5 4 - f 4 4 * f 5 3) - f 3 3 * (f 4 2 * f 5 4 - f 4
      4 * f 5 2) + f 3 4 * (f 4 2 * f 5 3 - f 4 3 * f 5 2)) - f 2 2 * (f 3 0 * (f 4 3 * f 5 4 - f 4 4
      * f 5 3) - f 3 3 * (f 4 0 * f 5 4 - f 4 4 * f 5 0) + f 3 4 * (f 4 0 * f 5 3 - f 4 3 * f 5 0)) +
      f 2 3 * (f 3 0 * (f 4 2 * f 5 4 - f 4 4 * f 5 2) - f 3 2 * (f 4 0 * f 5 4 - f 4 4 * f 5 0) + f 3
      4 * (f 4 0 * f 5 2 - f 4 2 * f 5 0)) - f 2 4 * (f 3 0 * (f 4 2 * f 5 3 - f 4 3 * f 5 2) - f 3 2
      * (f 4 0 * f 5 3 - f 4 3 * f 5 0) + f 3 3 * (f 4 0 * f 5 2 - f 4 2 * f 5 0)))) + f 0 2 * (f 1 0
      * (f 2 1 * (f 3 3 * (f 4 4 * f 5 5 - f 4 5 * f 5 4) - f 3 4 * (f 4 3 * f 5 5 - f 4 5 * f 5 3) +
      f 3 5 * (f 4 3 * f 5 4 - f 4 4 * f 5 3)) - f 2 3 * (f 3 1 * (f 4 4 * f 5 5 - f 4 5 * f 5 4) - f
      3 4 * (f 4 1 * f 5 5 - f 4 5 * f 5 1) + f 3 5 * (f 4 1 * f 5 4 - f 4 4 * f 5 1)) + f 2 4 * (f 3
      1 * (f 4 3 * f 5 5 - f 4 5 * f 5 3) - f 3 3 * (f 4 1 * f 5 5 - f 4 5 * f 5 1) + f 3 5 * (f 4 1 *
      f 5 3 - f 4 3 * f 5 1)) - f 2 5 * (f 3 1 * (f 4 3 * f 5 4 - f 4 4 * f 5 3) - f 3 3 * (f 4 1 * f
      5 4 - f 4 4 * f 5 1) + f 3 4 * (f 4 1 * f 5 3 - f 4 3 * f 5 1))) - f 1 1 * (f 2 0 * (f 3 3 * (f
      4 4 * f 5 5 - f 4 5 * f 5 4) - f 3 4 * (f 4 3 * f 5 5 - f 4 5 * f 5 3) + f 3 5 * (f 4 3 * f 5 4
      - f 4 4 * f 5 3)) - f 2 3 * (f 3 0 * (f 4 4 * f 5 5 - f 4 5 * f 5 4) - f 3 4 * (f 4 0 * f 5 5 -
      f 4 5 * f 5 0) + f 3 5 * (f 4 0 * f 5 4 - f 4 4 * f 5 0)) + f 2 4 * (f 3 0 * (f 4 3 * f 5 5 - f
      4 5 * f 5 3) - f 3 3 * (f 4 0 * f 5 5 - f 4 5 * f 5 0) + f 3 5 * (f 4 0 * f 5 3 - f 4 3 * f 5
      0)) - f 2 5 * (f 3 0 * (f 4 3 * f 5 4 - f 4 4 * f 5 3) - f 3 3 * (f 4 0 * f 5 4 - f 4 4 * f 5 0)
      + f 3 4 * (f 4 0 * f 5 3 - f 4 3 * f 5 0))) + f 1 3 * (f 2 0 * (f 3 1 * (f 4 4 * f 5 5 - f 4 5 *
      f 5 4) - f 3 4 * (f 4 1 * f 5 5 - f 4 5 * f 5 1) + f 3 5 * (f 4 1 * f 5 4 - f 4 4 * f 5 1)) - f
      2 1 * (f 3 0 * (f 4 4 * f 5 5 - f 4 5 * f 5 4) - f 3 4 * (f 4 0 * f 5 5 - f 4 5 * f 5 0) + f 3 5
      * (f 4 0 * f 5 4 - f 4 4 * f 5 0)) + f 2 4 * (f 3 0 * (f 4 1 * f 5 5 - f 4 5 * f 5 1) - f 3 1 *
      (f 4 0 * f 5 5 - f 4 5 * f 5 0) + f 3 5 * (f 4 0 * f 5 1 - f 4 1 * f 5 0)) - f 2 5 * (f 3 0 * (f
      4 1 * f 5 4 - f 4 4 * f 5 1) - f 3 1 * (f 4 0 * f 5 4 - f 4 4 * f 5 0) + f 3 4 * (f 4 0 * f 5 1
      - f 4 1 * f 5 0))) - f 1 4 * (f 2 0 * (f 3 1 * (f 4 3 * f 5 5 - f 4 5 * f 5 3) - f 3 3 * (f 4 1
      * f 5 5 - f 4 5 * f 5 1) + f 3 5 * (f 4 1 * f 5 3 - f 4 3 * f 5 1)) - f 2 1 * (f 3 0 * (f 4 3 *
      f 5 5 - f 4 5 * f 5 3) - f 3 3 * (f 4 0 * f 5 5 - f 4 5 * f 5 0) + f 3 5 * (f 4 0 * f 5 3 - f 4
      3 * f 5 0)) + f 2 3 * (f 3 0 * (f 4 1 * f 5 5 - f 4 5 * f 5 1) - f 3 1 * (f 4 0 * f 5 5 - f 4 5
      * f 5 0) + f 3 5 * (f 4 0 * f 5 1 - f 4 1 * f 5 0)) - f 2 5 * (f 3 0 * (f 4 1 * f 5 3 - f 4 3 *
      f 5 1) - f 3 1 * (f 4 0 * f 5 3 - f 4 3 * f 5 0) + f 3 3 * (f 4 0 * f 5 1 - f 4 1 * f 5 0))) + f
      1 5 * (f 2 0 * (f 3 1 * (f 4 3 * f 5 4 - f 4 4 * f 5 3) - f 3 3 * (f 4 1 * f 5 4 - f 4 4 * f 5
      1) + f 3 4 * (f 4 1 * f 5 3 - f 4 3 * f 5 1)) - f 2 1 * (f 3 0 * (f 4 3 * f 5 4 - f 4 4 * f 5 3)
      - f 3 3 * (f 4 0 * f 5 4 - f 4 4 * f 5 0) + f 3 4 * (f 4 0 * f 5 3 - f 4 3 * f 5 0)) + f 2 3 *
      (f 3 0 * (f 4 1 * f 5 4 - f 4 4 * f 5 1) - f 3 1 * (f 4 0 * f 5 4 - f 4 4 * f 5 0) + f 3 4 * (f
      4 0 * f 5 1 - f 4 1 * f 5 0)) - f 2 4 * (f 3 0 * (f 4 1 * f 5 3 - f 4 3 * f 5 1) - f 3 1 * (f 4
      0 * f 5 3 - f 4 3 * f 5 0) + f 3 3 * (f 4 0 * f 5 1 - f 4 1 * f 5 0)))) - f 0 3 * (f 1 0 * (f 2
      1 * (f 3 2 * (f 4 4 * f 5 5 - f 4 5 * f 5 4) - f 3 4 * (f 4 2 * f 5 5 - f 4 5 * f 5 2) + f 3 5 *
      (f 4 2 * f 5 4 - f 4 4 * f 5 2)) - f 2 2 * (f 3 1 * (f 4 4 * f 5 5 - f 4 5 * f 5 4) - f 3 4 * (f
      4 1 * f 5 5 - f 4 5 * f 5 1) + f 3 5 * (f 4 1 * f 5 4 - f 4 4 * f 5 1)) + f 2 4 * (f 3 1 * (f 4
      2 * f 5 5 - f 4 5 * f 5 2) - f 3 2 * (f 4 1 * f 5 5 - f 4 5 * f 5 1) + f 3 5 * (f 4 1 * f 5 2 -
      f 4 2 * f 5 1)) - f 2 5 * (f 3 1 * (f 4 2 * f 5 4 - f 4 4 * f 5 2) - f 3 2 * (f 4 1 * f 5 4 - f
      4 4 * f 5 1) + f 3 4 * (f 4 1 * f 5 2 - f 4 2 * f 5 1))) - f 1 1 * (f 2 0 * (f 3 2 * (f 4 4 * f
      5 5 - f 4 5 * f 5 4) - f 3 4 * (f 4 2 * f 5 5 - f 4 5 * f 5 2) + f 3 5 * (f 4 2 * f 5 4 - f 4 4
      * f 5 2)) - f 2 2 * (f 3 0 * (f 4 4 * f 5 5 - f 4 5 * f 5 4) - f 3 4 * (f 4 0 * f 5 5 - f 4 5 *
      f 5 0) + f 3 5 * (f 4 0 * f 5 4 - f 4 4 * f 5 0)) + f 2 4 * (f 3 0 * (f 4 2 * f 5 5 - f 4 5 * f
      5 2) - f 3 2 * (f 4 0 * f 5 5 - f 4 5 * f 5 0) + f 3 5 * (f 4 0 * f 5 2 - f 4 2 * f 5 0)) - f 2
      5 * (f 3 0 * (f 4 2 * f 5 4 - f 4 4 * f 5 2) - f 3 2 * (f 4 0 * f 5 4 - f 4 4 * f 5 0) + f 3 4 *
      (f 4 0 * f 5 2 - f 4 2 * f 5 0))) + f 1 2 * (f 2 0 * (f 3 1 * (f 4 4 * f 5 5 - f 4 5 * f 5 4) -
      f 3 4 * (f 4 1 * f 5 5 - f 4 5 * f 5 1) + f 3 5 * (f 4 1 * f 5 4 - f 4 4 * f 5 1)) - f 2 1 * (f
      3 0 * (f 4 4 * f 5 5 - f 4 5 * f 5 4) - f 3 4 * (f 4 0 * f 5 5 - f 4 5 * f 5 0) + f 3 5 * (f 4 0
      * f 5 4 - f 4 4 * f 5 0)) + f 2 4 * (f 3 0 * (f 4 1 * f 5 5 - f 4 5 * f 5 1) - f 3 1 * (f 4 0 *
      f 5 5 - f 4 5 * f 5 0) + f 3 5 * (f 4 0 * f 5 1 - f 4 1 * f 5 0)) - f 2 5 * (f 3 0 * (f 4 1 * f
      5 4 - f 4 4 * f 5 1) - f 3 1 * (f 4 0 * f 5 4 - f 4 4 * f 5 0) + f 3 4 * (f 4 0 * f 5 1 - f 4 1
      * f 5 0))) - f 1 4 * (f 2 0 * (f 3 1 * (f 4 2 * f 5 5 - f 4 5 * f 5 2) - f 3 2 * (f 4 1 * f 5 5
      - f 4 5 * f 5 1) + f 3 5 * (f 4 1 * f 5 2 - f 4 2 * f 5 1)) - f 2 1 * (f 3 0 * (f 4 2 * f 5 5 -
      f 4 5 * f 5 2) - f 3 2 * (f 4 0 * f 5 5 - f 4 5 * f 5 0) + f 3 5 * (f 4 0 * f 5 2 - f 4 2 * f 5
      0)) + f 2 2 * (f 3 0 * (f 4 1 * f 5 5 - f 4 5 * f 5 1) - f 3 1 * (f 4 0 * f 5 5 - f 4 5 * f 5 0)
      + f 3 5 * (f 4 0 * f 5 1 - f 4 1 * f 5 0)) - f 2 5 * (f 3 0 * (f 4 1 * f 5 2 - f 4 2 * f 5 1) -
      f 3 1 * (f 4 0 * f 5 2 - f 4 2 * f 5 0) + f 3 2 * (f 4 0 * f 5 1 - f 4 1 * f 5 0))) + f 1 5 * (f
      2 0 * (f 3 1 * (f 4 2 * f 5 4 - f 4 4 * f 5 2) - f 3 2 * (f 4 1 * f 5 4 - f 4 4 * f 5 1) + f 3 4
      * (f 4 1 * f 5 2 - f 4 2 * f 5 1)) - f 2 1 * (f 3 0 * (f 4 2 * f 5 4 - f 4 4 * f 5 2) - f 3 2 *
      (f 4 0 * f 5 4 - f 4 4 * f 5 0) + f 3 4 * (f 4 0 * f 5 2 - f 4 2 * f 5 0)) + f 2 2 * (f 3 0 * (f
      4 1 * f 5 4 - f 4 4 * f 5 1) - f 3 1 * (f 4 0 * f 5 4 - f 4 4 * f 5 0) + f 3 4 * (f 4 0 * f 5 1
      - f 4 1 * f 5 0)) - f 2 4 * (f 3 0 * (f 4 1 * f 5 2 - f 4 2 * f 5 1) - f 3 1 * (f 4 0 * f 5 2 -
      f 4 2 * f 5 0) + f 3 2 * (f 4 0 * f 5 1 - f 4 1 * f 5 0)))) + f 0 4 * (f 1 0 * (f 2 1 * (f 3 2 *
      (f 4 3 * f 5 5 - f 4 5 * f 5 3) - f 3 3 * (f 4 2 * f 5 5 - f 4 5 * f 5 2) + f 3 5 * (f 4 2 * f 5
      3 - f 4 3 * f 5 2)) - f 2 2 * (f 3 1 * (f 4 3 * f 5 5 - f 4 5 * f 5 3) - f 3 3 * (f 4 1 * f 5 5
      - f 4 5 * f 5 1) + f 3 5 * (f 4 1 * f 5 3 - f 4 3 * f 5 1)) + f 2 3 * (f 3 1 * (f 4 2 * f 5 5 -
      f 4 5 * f 5 2) - f 3 2 * (f 4 1 * f 5 5 - f 4 5 * f 5 1) + f 3 5 * (f 4 1 * f 5 2 - f 4 2 * f 5
      1)) - f 2 5 * (f 3 1 * (f 4 2 * f 5 3 - f 4 3 * f 5 2) - f 3 2 * (f 4 1 * f 5 3 - f 4 3 * f 5 1)
      + f 3 3 * (f 4 1 * f 5 2 - f 4 2 * f 5 1))) - f 1 1 * (f 2 0 * (f 3 2 * (f 4 3 * f 5 5 - f 4 5 *
      f 5 3) - f 3 3 * (f 4 2 * f 5 5 - f 4 5 * f 5 2) + f 3 5 * (f 4 2 * f 5 3 - f 4 3 * f 5 2)) - f
      2 2 * (f 3 0 * (f 4 3 * f 5 5 - f 4 5 * f 5 3) - f 3 3 * (f 4 0 * f 5 5 - f 4 5 * f 5 0) + f 3 5
      * (f 4 0 * f 5 3 - f 4 3 * f 5 0)) + f 2 3 * (f 3 0 * (f 4 2 * f 5 5 - f 4 5 * f 5 2) - f 3 2 *
      (f 4 0 * f 5 5 - f 4 5 * f 5 0) + f 3 5 * (f 4 0 * f 5 2 - f 4 2 * f 5 0)) - f 2 5 * (f 3 0 * (f
      4 2 * f 5 3 - f 4 3 * f 5 2) - f 3 2 * (f 4 0 * f 5 3 - f 4 3 * f 5 0) + f 3 3 * (f 4 0 * f 5 2
      - f 4 2 * f 5 0))) + f 1 2 * (f 2 0 * (f 3 1 * (f 4 3 * f 5 5 - f 4 5 * f 5 3) - f 3 3 * (f 4 1
      * f 5 5 - f 4 5 * f 5 1) + f 3 5 * (f 4 1 * f 5 3 - f 4 3 * f 5 1)) - f 2 1 * (f 3 0 * (f 4 3 *
      f 5 5 - f 4 5 * f 5 3) - f 3 3 * (f 4 0 * f 5 5 - f 4 5 * f 5 0) + f 3 5 * (f 4 0 * f 5 3 - f 4
      3 * f 5 0)) + f 2 3 * (f 3 0 * (f 4 1 * f 5 5 - f 4 5 * f 5 1) - f 3 1 * (f 4 0 * f 5 5 - f 4 5
      * f 5 0) + f 3 5 * (f 4 0 * f 5 1 - f 4 1 * f 5 0)) - f 2 5 * (f 3 0 * (f 4 1 * f 5 3 - f 4 3 *
      f 5 1) - f 3 1 * (f 4 0 * f 5 3 - f 4 3 * f 5 0) + f 3 3 * (f 4 0 * f 5 1 - f 4 1 * f 5 0))) - f
      1 3 * (f 2 0 * (f 3 1 * (f 4 2 * f 5 5 - f 4 5 * f 5 2) - f 3 2 * (f 4 1 * f 5 5 - f 4 5 * f 5
      1) + f 3 5 * (f 4 1 * f 5 2 - f 4 2 * f 5 1)) - f 2 1 * (f 3 0 * (f 4 2 * f 5 5 - f 4 5 * f 5 2)
      - f 3 2 * (f 4 0 * f 5 5 - f 4 5 * f 5 0) + f 3 5 * (f 4 0 * f 5 2 - f 4 2 * f 5 0)) + f 2 2 *
      (f 3 0 * (f 4 1 * f 5 5 - f 4 5 * f 5 1) - f 3 1 * (f 4 0 * f 5 5 - f 4 5 * f 5 0) + f 3 5 * (f
      4 0 * f 5 1 - f 4 1 * f 5 0)) - f 2 5 * (f 3 0 * (f 4 1 * f 5 2 - f 4 2 * f 5 1) - f 3 1 * (f 4
      0 * f 5 2 - f 4 2 * f 5 0) + f 3 2 * (f 4 0 * f 5 1 - f 4 1 * f 5 0))) + f 1 5 * (f 2 0 * (f 3 1
      * (f 4 2 * f 5 3 - f 4 3 * f 5 2) - f 3 2 * (f 4 1 * f 5 3 - f 4 3 * f 5 1) + f 3 3 * (f 4 1 * f
      5 2 - f 4 2 * f 5 1)) - f 2 1 * (f 3 0 * (f 4 2 * f 5 3 - f 4 3 * f 5 2) - f 3 2 * (f 4 0 * f 5
      3 - f 4 3 * f 5 0) + f 3 3 * (f 4 0 * f 5 2 - f 4 2 * f 5 0)) + f 2 2 * (f 3 0 * (f 4 1 * f 5 3
      - f 4 3 * f 5 1) - f 3 1 * (f 4 0 * f 5 3 - f 4 3 * f 5 0) + f 3 3 * (f 4 0 * f 5 1 - f 4 1 * f
      5 0)) - f 2 3 * (f 3 0 * (f 4 1 * f 5 2 - f 4 2 * f 5 1) - f 3 1 * (f 4 0 * f 5 2 - f 4 2 * f 5
      0) + f 3 2 * (f 4 0 * f 5 1 - f 4 1 * f 5 0)))) - f 0 5 * (f 1 0 * (f 2 1 * (f 3 2 * (f 4 3 * f
      5 4 - f 4 4 * f 5 3) - f 3 3 * (f 4 2 * f 5 4 - f 4 4 * f 5 2) + f 3 4 * (f 4 2 * f 5 3 - f 4 3
      * f 5 2)) - f 2 2 * (f 3 1 * (f 4 3 * f 5 4 - f 4 4 * f 5 3) - f 3 3 * (f 4 1 * f 5 4 - f 4 4 *
      f 5 1) + f 3 4 * (f 4 1 * f 5 3 - f 4 3 * f 5 1)) + f 2 3 * (f 3 1 * (f 4 2 * f 5 4 - f 4 4 * f
      5 2) - f 3 2 * (f 4 1 * f 5 4 - f 4 4 * f 5 1) + f 3 4 * (f 4 1 * f 5 2 - f 4 2 * f 5 1)) - f 2
      4 * (f 3 1 * (f 4 2 * f 5 3 - f 4 3 * f 5 2) - f 3 2 * (f 4 1 * f 5 3 - f 4 3 * f 5 1) + f 3 3 *
      (f 4 1 * f 5 2 - f 4 2 * f 5 1))) - f 1 1 * (f 2 0 * (f 3 2 * (f 4 3 * f 5 4 - f 4 4 * f 5 3) -
      f 3 3 * (f 4 2 * f 5 4 - f 4 4 * f 5 2) + f 3 4 * (f 4 2 * f 5 3 - f 4 3 * f 5 2)) - f 2 2 * (f
      3 0 * (f 4 3 * f 5 4 - f 4 4 * f 5 3) - f 3 3 * (f 4 0 * f 5 4 - f 4 4 * f 5 0) + f 3 4 * (f 4 0
      * f 5 3 - f 4 3 * f 5 0)) + f 2 3 * (f 3 0 * (f 4 2 * f 5 4 - f 4 4 * f 5 2) - f 3 2 * (f 4 0 *
      f 5 4 - f 4 4 * f 5 0) + f 3 4 * (f 4 0 * f 5 2 - f 4 2 * f 5 0)) - f 2 4 * (f 3 0 * (f 4 2 * f
      5 3 - f 4 3 * f 5 2) - f 3 2 * (f 4 0 * f 5 3 - f 4 3 * f 5 0) + f 3 3 * (f 4 0 * f 5 2 - f 4 2
      * f 5 0))) + f 1 2 * (f 2 0 * (f 3 1 * (f 4 3 * f 5 4 - f 4 4 * f 5 3) - f 3 3 * (f 4 1 * f 5 4
      - f 4 4 * f 5 1) + f 3 4 * (f 4 1 * f 5 3 - f 4 3 * f 5 1)) - f 2 1 * (f 3 0 * (f 4 3 * f 5 4 -
      f 4 4 * f 5 3) - f 3 3 * (f 4 0 * f 5 4 - f 4 4 * f 5 0) + f 3 4 * (f 4 0 * f 5 3 - f 4 3 * f 5
      0)) + f 2 3 * (f 3 0 * (f 4 1 * f 5 4 - f 4 4 * f 5 1) - f 3 1 * (f 4 0 * f 5 4 - f 4 4 * f 5 0)
      + f 3 4 * (f 4 0 * f 5 1 - f 4 1 * f 5 0)) - f 2 4 * (f 3 0 * (f 4 1 * f 5 3 - f 4 3 * f 5 1) -
      f 3 1 * (f 4 0 * f 5 3 - f 4 3 * f 5 0) + f 3 3 * (f 4 0 * f 5 1 - f 4 1 * f 5 0))) - f 1 3 * (f
      2 0 * (f 3 1 * (f 4 2 * f 5 4 - f 4 4 * f 5 2) - f 3 2 * (f 4 1 * f 5 4 - f 4 4 * f 5 1) + f 3 4
      * (f 4 1 * f 5 2 - f 4 2 * f 5 1)) - f 2 1 * (f 3 0 * (f 4 2 * f 5 4 - f 4 4 * f 5 2) - f 3 2 *
      (f 4 0 * f 5 4 - f 4 4 * f 5 0) + f 3 4 * (f 4 0 * f 5 2 - f 4 2 * f 5 0)) + f 2 2 * (f 3 0 * (f
      4 1 * f 5 4 - f 4 4 * f 5 1) - f 3 1 * (f 4 0 * f 5 4 - f 4 4 * f 5 0) + f 3 4 * (f 4 0 * f 5 1
      - f 4 1 * f 5 0)) - f 2 4 * (f 3 0 * (f 4 1 * f 5 2 - f 4 2 * f 5 1) - f 3 1 * (f 4 0 * f 5 2 -
      f 4 2 * f 5 0) + f 3 2 * (f 4 0 * f 5 1 - f 4 1 * f 5 0))) + f 1 4 * (f 2 0 * (f 3 1 * (f 4 2 *
      f 5 3 - f 4 3 * f 5 2) - f 3 2 * (f 4 1 * f 5 3 - f 4 3 * f 5 1) + f 3 3 * (f 4 1 * f 5 2 - f 4
      2 * f 5 1)) - f 2 1 * (f 3 0 * (f 4 2 * f 5 3 - f 4 3 * f 5 2) - f 3 2 * (f 4 0 * f 5 3 - f 4 3
      * f 5 0) + f 3 3 * (f 4 0 * f 5 2 - f 4 2 * f 5 0)) + f 2 2 * (f 3 0 * (f 4 1 * f 5 3 - f 4 3 *
      f 5 1) - f 3 1 * (f 4 0 * f 5 3 - f 4 3 * f 5 0) + f 3 3 * (f 4 0 * f 5 1 - f 4 1 * f 5 0)) - f
      2 3 * (f 3 0 * (f 4 1 * f 5 2 - f 4 2 * f 5 1) - f 3 1 * (f 4 0 * f 5 2 - f 4 2 * f 5 0) + f 3 2
      * (f 4 0 * f 5 1 - f 4 1 * f 5 0)))))

theorem det3 (f : Fin 3 → Fin 3 → R) : (Matrix.of f).det = d3 f := by
  rw [Matrix.det_fin_three]; simp only [Matrix.of_apply, d3]; ring

theorem d4_rec (f : Fin 4 → Fin 4 → R) : d4 f =
    f 0 0 * d3 (minor f 0) - f 0 1 * d3 (minor f 1) + f 0 2 * d3 (minor f 2) - f 0 3 * d3 (minor f 3) := rfl

theorem det4 (f : Fin 4 → Fin 4 → R) : (Matrix.of f).det = d4 f := by
  rw [Matrix.det_succ_row_zero, Fin.sum_univ_four, d4_rec]
  simp only [of_minor, det3]
  simp [pow_succ, sub_eq_add_neg]

theorem d5_rec (f : Fin 5 → Fin 5 → R) : d5 f =
    f 0 0 * d4 (minor f 0) - f 0 1 * d4 (minor f 1) + f 0 2 * d4 (minor f 2) - f 0 3 * d4 (minor f 3) + f 0 4 * d4 (minor f 4) := rfl

theorem det5 (f : Fin 5 → Fin 5 → R) : (Matrix.of f).det = d5 f := by
  rw [Matrix.det_succ_row_zero, Fin.sum_univ_five, d5_rec]
  simp only [of_minor, det4]
  simp [pow_succ, sub_eq_add_neg]

theorem d6_rec (f : Fin 6 → Fin 6 → R) : d6 f =
    f 0 0 * d5 (minor f 0) - f 0 1 * d5 (minor f 1) + f 0 2 * d5 (minor f 2) - f 0 3 * d5 (minor f 3) + f 0 4 * d5 (minor f 4) - f 0 5 * d5 (minor f 5) := rfl

theorem det6 (f : Fin 6 → Fin 6 → R) : (Matrix.of f).det = d6 f := by
  rw [Matrix.det_succ_row_zero, Fin.sum_univ_six, d6_rec]
  simp only [of_minor, det5]
  simp [pow_succ, sub_eq_add_neg]

end DetExpand

open DetExpand
variable {R : Type} [CommRing R]

theorem M22.det_eq (A : Mat 2 R) : M22.det A = (Matrix.of A.val).det := by
  rw [Matrix.det_fin_two]; simp only [M22.det, Matrix.of_apply]; ring

theorem M33.det_eq (A : Mat 3 R) : M33.det A = (Matrix.of A.val).det := by
  rw [det3]; simp only [M33.det, d3]; ring

theorem M44.det_eq (A : Mat 4 R) : M44.det A = (Matrix.of A.val).det := by
  rw [det4]; simp only [M44.det, d4]; ring

set_option maxHeartbeats 1000000 in
theorem M55.det_eq (A : Mat 5 R) : M55.det A = (Matrix.of A.val).det := by
  rw [det5]; simp only [M55.det, d5]; ring

set_option maxRecDepth 20000 in
set_option maxHeartbeats 8000000 in
theorem M66.det_eq (A : Mat 6 R) : M66.det A = (Matrix.of A.val).det := by
  rw [det6]; simp only [M66.det, d6]; ring

end StaticMath
