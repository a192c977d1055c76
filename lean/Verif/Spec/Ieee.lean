import Verif.Model.Double
import Mathlib.Algebra.Group.Even

/-!
# IEEE 754 binary64, rounding to nearest

Written from the standard (IEEE 754-2008, 3.4, 4.3.1 and 6.3), without the rounding functions of the model.
-/

namespace Gals.Spec

/-- Magnitudes with 53 binary digits and an exponent of at least -1074, without a largest exponent. -/
def Digits53 (r : ℚ) : Prop := ∃ (n : ℕ) (e : ℤ), n < 2 ^ 53 ∧ -1074 ≤ e ∧ r = n * 2 ^ e

/-- The last digit can be taken to be 0. -/
def LastDigitZero (r : ℚ) : Prop := ∃ (n : ℕ) (e : ℤ), n < 2 ^ 53 ∧ Even n ∧ -1074 ≤ e ∧ r = n * 2 ^ e

/-- `r` is the magnitude nearest to `q`; if another is as near, `r` is the one whose last digit is 0. -/
def NearestEven (q r : ℚ) : Prop :=
  Digits53 r ∧ (∀ r', Digits53 r' → |q - r| ≤ |q - r'|) ∧
    ((∃ r', Digits53 r' ∧ r' ≠ r ∧ |q - r'| = |q - r|) → LastDigitZero r)

/-- The sign. -/
def sgn (neg : Bool) : ℚ := if neg then -1 else 1

/-- `r` is the result prescribed for the exact value `x`: from `2 ^ 1024 - 2 ^ 970` on an infinity, below that the nearest number. `zero` is
the sign of the result (true if negative) when `x` is 0. -/
def Prescribed (x : ℚ) (zero : Bool) (r : F64) : Prop :=
  (|x| < 2 ^ 1024 - 2 ^ 970 → ∃ m h, r = .fin (if x = 0 then zero else decide (x < 0)) m h ∧ NearestEven |x| m) ∧
  (2 ^ 1024 - 2 ^ 970 ≤ |x| → r = .inf (decide (x < 0)))

end Gals.Spec
