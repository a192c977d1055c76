import Verif.Spec.AppPoly
import Verif.Spec.Levelset
import Verif.Model.Temporal
import Mathlib.Algebra.BigOperators.Group.Finset.Basic

/-!
# Vocabulary for C106: level sets with a term `m x y` over many steps
-/

namespace Gals.Spec

open Gals

variable {K : Type} [Field K]

/-- The derivative of `crossed` along the first axis. -/
def crossedX (p : Fin 4 → K) (m x y : K) : K := p 1 + 2 * p 2 * x + 3 * p 3 * x ^ 2 + m * y

/-- The derivative of `crossed` along the second axis. -/
def crossedY (q : Fin 4 → K) (m x y : K) : K := q 1 + 2 * q 2 * y + 3 * q 3 * y ^ 2 + m * x

/-- The derivative of `slopeSum`. -/
def slopeTurn (s : K) : K := 1 - 6 * s * (1 - s)

/-- `x + x² + … + x^k`. -/
def powers (x : K) (k : ℕ) : K := ∑ i ∈ Finset.range k, x ^ (i + 1)

/-- How often the product of the slopes is missing after `k` steps with the local coordinates `s` and `w`: each step misses it
once, and once more for every earlier step through either component of the gradient, multiplied by the power of `slopeTurn`
that belongs to its age. -/
def missed (s w : K) (k : ℕ) : K := ∑ j ∈ Finset.range k, (1 + powers (slopeTurn s) j + powers (slopeTurn w) j)

section
variable [LinearOrder K] [IsStrictOrderedRing K] [FloorRing K]

/-- The data of a run in a plane in uniform flow: grid, velocity and time step. -/
structure RunPlane (r : Req K) (g gv : Grid K 2) (τ : K) (u : Vec3 K) (vel : LsVelocity K) : Prop where
  valid : r.Valid 2
  pos : r.Pos 2
  pad : r.pad = 1
  made : r.make .wrap 2 = .ok g
  velocity : ∀ c, r.Interior c → vel.velocity.get .wrap gv c.1 c.2.1 c.2.2 = .ok u
  grad : ∀ c, r.Interior c → vel.grad.get .wrap gv c.1 c.2.1 c.2.2 = .ok Mat3.zero
  cfl : ∀ a : Fin 3, a.val < 2 → |u.get a * τ| < r.h a

end

end Gals.Spec
