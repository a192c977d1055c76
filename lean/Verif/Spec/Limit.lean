import Mathlib.Data.Rat.Defs
import Mathlib.Algebra.Order.Ring.Rat

/-!
# Data for which gradient limiting is meant
-/

namespace Gals.Spec

/-- Slopes `A`, `B` (times the width of the cell) of the sign of the difference `D` of the node values, and either both at most
three times as steep as the chord, or one of them less steep by at least `μ`. -/
def AlongChord (A B D μ : ℚ) : Prop :=
  (0 ≤ D ∧ 0 ≤ A ∧ 0 ≤ B ∧ ((A ≤ D - μ ∨ B ≤ D - μ) ∨ (A ≤ 3 * D ∧ B ≤ 3 * D))) ∨
  (D ≤ 0 ∧ A ≤ 0 ∧ B ≤ 0 ∧ ((D + μ ≤ A ∨ D + μ ≤ B) ∨ (3 * D ≤ A ∧ 3 * D ≤ B)))

end Gals.Spec
