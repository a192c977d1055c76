import Mathlib.Analysis.Calculus.ContDiff.FTaylorSeries
import Mathlib.Analysis.Calculus.ContDiff.Defs
import Mathlib.Analysis.Calculus.Deriv.Basic
import Mathlib.Analysis.Normed.Group.Constructions

/-!
# Characteristics of a velocity field

The paths of particles in a velocity field that depends on position and time, and the smoothness of such a field.
-/

namespace Gals.Spec

open Set

/-- Three times continuously differentiable; values and derivatives up to order three have norm at most `K`. -/
structure Bounded3 {E F : Type} [NormedAddCommGroup E] [NormedSpace ℝ E] [NormedAddCommGroup F] [NormedSpace ℝ F] (G : E → F)
    (K : ℝ) : Prop where
  smooth : ContDiff ℝ 3 G
  bound : ∀ k ≤ 3, ∀ z, ‖iteratedFDeriv ℝ k G z‖ ≤ K

/-- A component of a velocity field as a function of `(x, y, t)`; the norm of `(x, y, t)` is the largest absolute value. -/
def field (u : ℝ → ℝ → ℝ → ℝ) (z : ℝ × ℝ × ℝ) : ℝ := u z.1 z.2.1 z.2.2

/-- `(X, Y)` is the path of a particle in the velocity field `(u, v)` between the times `a` and `b`. -/
def Characteristic (u v : ℝ → ℝ → ℝ → ℝ) (X Y : ℝ → ℝ) (a b : ℝ) : Prop :=
  ∀ s ∈ Icc a b, HasDerivWithinAt X (u (X s) (Y s) s) (Icc a b) s ∧ HasDerivWithinAt Y (v (X s) (Y s) s) (Icc a b) s

end Gals.Spec
