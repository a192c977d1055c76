import Verif.Spec.AppStep

/-!
# Vocabulary for C99: polynomial level sets in the application
-/

namespace Gals.Spec

open Gals

variable {K : Type} [Field K]

/-- A cubic in `x` plus a cubic in `y` plus `m x y`; the quadratic polynomials are among these. -/
def crossed (p q : Fin 4 → K) (m x y : K) : K :=
  p 0 + p 1 * x + p 2 * x ^ 2 + p 3 * x ^ 3 + (q 0 + q 1 * y + q 2 * y ^ 2 + q 3 * y ^ 3) + m * x * y

/-- The cell is so far from the boundary that all cells from which a step takes its data (four to the left of and below the
one the mesh is shifted to, one to the right and above) are interior. -/
def Deep (r : Req K) (c : Cell) : Prop :=
  r.Interior c ∧ 4 ≤ c.1 + r.pad ∧ c.1 + r.pad + 1 < r.n.x ∧ 4 ≤ c.2.1 + r.pad ∧ c.2.1 + r.pad + 1 < r.n.y

/-- What the slope functions of the cubic Hermite basis add up to. -/
def slopeSum (s : K) : K := s * (1 - s) * (1 - 2 * s)

end Gals.Spec
