import Verif.Spec.Grid
import Mathlib.Algebra.Field.Basic

/-!
# Neighbouring cells and finite differences
-/

namespace Gals.Spec

open Gals

/-- The cell `m` steps away from `c` along axis `a`. -/
def shift (c : Cell) (a : Fin 3) (m : ℤ) : Cell :=
  match a with
  | 0 => (c.1 + m, c.2.1, c.2.2)
  | 1 => (c.1, c.2.1 + m, c.2.2)
  | 2 => (c.1, c.2.1, c.2.2 + m)

/-- Central difference quotient of `f` at cell `c` along axis `a`, with spacing `h`. -/
def fdCentral {K : Type} [Field K] (f : Cell → K) (c : Cell) (a : Fin 3) (h : K) : K :=
  (f (shift c a 1) - f (shift c a (-1))) / (2 * h)

/-- The four-point third-order difference quotient (two points behind, one ahead). -/
def fdThird {K : Type} [Field K] (f : Cell → K) (c : Cell) (a : Fin 3) (h : K) : K :=
  (2 * f (shift c a 1) + 3 * f c - 6 * f (shift c a (-1)) + f (shift c a (-2))) / (6 * h)

end Gals.Spec
