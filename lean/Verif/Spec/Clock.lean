import Verif.Model.Carry
import Verif.Model.Double

/-!
# Velocities in other units of time
-/

namespace Gals.Spec

open Gals

variable {K : Type}

/-- The second velocity field has the same number of elements as the first, and `R` holds between each number in the first and the number at the
same place in the second; likewise for the velocity gradients. -/
structure VelocityRel (R : K → K → Prop) (vel vel' : LsVelocity K) : Prop where
  velocity : List.Forall₂ (fun v v' => ∀ a : Fin 3, R (v.get a) (v'.get a)) vel.velocity.data vel'.velocity.data
  grad : List.Forall₂ (fun m m' => ∀ a b : Fin 3, R (m.entry a b) (m'.entry a b)) vel.grad.data vel'.grad.data

/-- The double `y` is `q` times the double `x` without rounding, with the sign changed if `neg`; for zeros, too, the sign is kept or changed. -/
def Multiple (neg : Bool) (q : ℚ) (x y : F64) : Prop :=
  ∃ (s : Bool) (m m' : ℚ) (h : IsMag m) (h' : IsMag m'), x = .fin s m h ∧ y = .fin (s ^^ neg) m' h' ∧ m' = q * m

end Gals.Spec
