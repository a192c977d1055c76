import Verif.Model.Double

/-!
# Numbers written with six significant digits
-/

namespace Gals.Spec

open Gals

/-- `v` is the decimal number of six digits nearest to `m`. -/
def SixDigits (m v : ℚ) : Prop :=
  ∃ (n : ℕ) (e : ℤ), (10 : ℚ) ^ e ≤ m ∧ m < 10 ^ (e + 1) ∧ 10 ^ 5 ≤ n ∧ n ≤ 10 ^ 6 ∧ v = n * 10 ^ (e - 5) ∧
    |m - v| ≤ 1 / 2 * 10 ^ (e - 5)

/-- `y` is what one reads when `x` was written with six digits: infinities, NaN and zeros as they are, any other number as the number
of type `double` nearest to the decimal number of six digits that is nearest to `x`. -/
def ReadShort (x y : F64) : Prop :=
  (x = .nan ∧ y = .nan) ∨ (∃ s, x = .inf s ∧ y = .inf s) ∨ (∃ s h, x = .fin s 0 h ∧ y = .fin s 0 h) ∨
    ∃ (s : Bool) (m : ℚ) (h : IsMag m) (v : ℚ), x = .fin s m h ∧ 0 < m ∧ SixDigits m v ∧ y = F64.round s v

end Gals.Spec
