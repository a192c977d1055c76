import Verif.Spec.Spline
import Mathlib.Analysis.Calculus.ContDiff.Defs
import Mathlib.Analysis.Calculus.IteratedDeriv.Defs

/-!
# Piecewise linear interpolation
-/

namespace Gals.Spec

/-- `f` is twice continuously differentiable and its second derivative is at most `M` on `[a, b]`. -/
structure SecondLe (f : ℝ → ℝ) (a b M : ℝ) : Prop where
  smooth : ContDiff ℝ 2 f
  bound : ∀ x ∈ Set.Icc a b, |iteratedDeriv 2 f x| ≤ M

/-- The piecewise linear function through the values `f` at the centres of the cells, at the point `q`. -/
def Axis.polyline (A : Axis) (q : ℚ) (f : ℤ → ℚ) : ℚ :=
  (1 - Int.fract (A.coord q)) * f ⌊A.coord q⌋ + Int.fract (A.coord q) * f (⌊A.coord q⌋ + 1)

end Gals.Spec
