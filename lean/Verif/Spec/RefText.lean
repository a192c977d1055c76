import Verif.Model.Double

/-!
# Numbers written with ten decimals
-/

namespace Gals.Spec

open Gals

/-- `y` is what one reads when `x` was written with ten decimals: infinities and NaN as they are, a finite number as the number of
type `double` nearest to the multiple of `1 / 10 ^ 10` with the sign of `x` that is nearest to `x`. -/
def ReadBack (x y : F64) : Prop :=
  (x = .nan ∧ y = .nan) ∨ (∃ s, x = .inf s ∧ y = .inf s) ∨
    ∃ (s : Bool) (m : ℚ) (h : IsMag m) (n : ℕ), x = .fin s m h ∧ |m - n / 10 ^ 10| ≤ 1 / 2 / 10 ^ 10 ∧
      y = F64.round s (n / 10 ^ 10)

end Gals.Spec
