import Verif.Spec.Spline
import Verif.Spec.Levelset
import Verif.Model.Temporal

/-!
# Runs in double arithmetic on a line in uniform flow
-/

namespace Gals.Spec

/-- The data of a run in double arithmetic on a line in uniform flow: grid, velocity and time step. -/
structure RunD (r : Req F64) (lo hi : Fin 3 → ℚ) (K : ℚ) (g gv : Grid F64 1) (dt : F64) (τ ω : ℚ) (vel : LsVelocity F64) : Prop where
  valid : r.Valid 1
  pad : r.pad = 1
  box : BoxIs r 1 lo hi
  side : ∀ a : Fin 3, a.val < 1 → Moderate (hi a - lo a)
  res : ∀ a : Fin 3, a.val < 1 → r.n.get a * (|lo a| + (hi a - lo a)) ≤ K * (hi a - lo a)
  K28 : K ≤ 2 ^ 28
  made : r.make .wrap 1 = .ok g
  gvel : ∃ rv : Req F64, rv.Valid 1 ∧ rv.n = r.n ∧ rv.make .wrap 1 = .ok gv ∧ ∃ (u : Cell → Vec3 F64) (m : Cell → Mat3 F64),
    FieldIs .wrap rv gv vel.velocity u ∧ FieldIs .wrap rv gv vel.grad m ∧
    ∀ c, r.Interior c → HasValue (u c).x ω ∧ ∀ j : Fin 3, HasValue ((m c).entry j 0) 0
  dt : HasValue dt τ
  cfl_lo : 1 / 2 ^ 15 * (axisOf r lo hi 0).h ≤ |ω * τ|
  cfl_hi : |ω * τ| ≤ (1 - 1 / 2 ^ 15) * (axisOf r lo hi 0).h

end Gals.Spec
