import Verif.Spec.AppStep
import Verif.Spec.Double

/-!
# Specification vocabulary for the application in double arithmetic
-/

namespace Gals.Spec

open Gals

/-- The request with the exact values of the corners of its box. -/
def exactReq (r : Req F64) (lo hi : Fin 3 → ℚ) : Req ℚ := ⟨r.n, r.pad, ⟨lo 0, lo 1, lo 2⟩, ⟨hi 0, hi 1, hi 2⟩⟩

/-- In a time step of length `dt` the flow `u` moves no stored position by more than the part `θ` of a cell. -/
def SmallStepBy (θ : ℚ) (r : Req ℚ) (u : Vec3 ℚ → Vec3 ℚ) (dt : ℚ) : Prop :=
  ∀ c, r.Interior c → |dt * (u (storedPos r c)).x| ≤ θ * r.h 0 ∧ |dt * (u (storedPos r c)).y| ≤ θ * r.h 1

/-- What the application has before its time loop, in double arithmetic: the positions that the grid gives, new velocity
fields, and a new level set whose values are then set. -/
structure PreparedDouble (r : Req F64) (a : App F64) : Prop where
  made : r.make .wrap 2 = .ok a.g
  positions : ∃ f, FieldIs .wrap r a.g a.positions f ∧ ∀ c, r.Padded 2 c → a.g.at' .wrap c.1 c.2.1 c.2.2 = .ok (f c)
  vel : a.vel = LsVelocity.mk' a.g
  ls : a.ls = { Levelset.mk' a.g with phi := a.ls.phi }
  phi : ∃ f, FieldIs .wrap r a.g a.ls.phi f

end Gals.Spec
