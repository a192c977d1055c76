import Verif.Spec.Ref
import Mathlib.MeasureTheory.Integral.IntervalIntegral.Basic
import Mathlib.Analysis.Calculus.IteratedDeriv.Lemmas

/-!
# Bending energy of cubic splines
-/

namespace Gals.Spec

open MeasureTheory

/-- The cubic on `[0, h]` with the values `f0`, `f1` and the slopes `g0`, `g1` at the ends. -/
noncomputable def hermiteCubic (h f0 g0 f1 g1 x : ℝ) : ℝ :=
  hVal 0 (x / h) * f0 + h * hSlope 0 (x / h) * g0 + hVal 1 (x / h) * f1 + h * hSlope 1 (x / h) * g1

/-- Integral of the square of its second derivative. -/
noncomputable def bending (h f0 g0 f1 g1 : ℝ) : ℝ := ∫ x in (0 : ℝ)..h, iteratedDeriv 2 (hermiteCubic h f0 g0 f1 g1) x ^ 2

/-- Bending energy of the spline with values `f` and slopes `g` at nodes of distance `h`, over `m` intervals from the node `b` on. -/
noncomputable def splineBending (h : ℝ) (f g : ℤ → ℝ) (b : ℤ) (m : ℕ) : ℝ :=
  ∑ i ∈ Finset.range m, bending h (f (b + i)) (g (b + i)) (f (b + i + 1)) (g (b + i + 1))

end Gals.Spec
