import Verif.Model.Double
import Verif.Spec.Grid

/-!
# Specification vocabulary for floating-point numbers
-/

namespace Gals.Spec

open Gals

/-- The number of type `double` is finite and stands for the rational number `q`. -/
def HasValue (x : F64) (q : ℚ) : Prop := ∃ (s : Bool) (m : ℚ) (h : IsMag m), x = .fin s m h ∧ q = if s then -m else m

/-- The corners of the requested box are the finite numbers `lo` and `hi`, and its sides are neither extremely short nor
extremely long. -/
def BoxIs (r : Req F64) (d : ℕ) (lo hi : Fin 3 → ℚ) : Prop :=
  ∀ a : Fin 3, a.val < d → HasValue (r.lo.get a) (lo a) ∧ HasValue (r.hi.get a) (hi a) ∧
    (2 : ℚ) ^ (-900 : ℤ) ≤ hi a - lo a ∧ hi a - lo a ≤ 2 ^ 900

end Gals.Spec
