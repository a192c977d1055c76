import Verif.Model.App
import Verif.Spec.Grid
import Verif.Spec.Parser
import Mathlib.Algebra.Order.Floor.Ring

/-!
# Specification vocabulary for the application
-/

namespace Gals.Spec

open Gals

/-- An input document a user of the application can expect to work: all five sections with their documented contents
(`want`), a two-dimensional grid request `r` that the library supports, with the application's padding of one cell, and a
centre of rotation with at least two coordinates. -/
structure CompleteInput {K : Type} (cv : Conv K) (entries : List (String × Yaml)) (want : InputFields K) (r : Req K) :
    Prop where
  general : HasGeneral (.map entries) want
  grid : HasGrid cv (.map entries) want
  time : HasTime cv (.map entries) want
  velocity : HasVelocity cv (.map entries) want
  levelset : HasLevelset cv (.map entries) want
  req : want.grid = ⟨some r.lo.x, some r.hi.x, some r.lo.y, some r.hi.y, some r.lo.z, some r.hi.z, some r.n.x, some r.n.y,
    some r.n.z⟩
  pad : r.pad = 1
  valid : r.Valid 2
  center : 2 ≤ want.velocity.center.length

/-- The number of time steps from time `start`: the least positive number that reaches `tEnd` up to the tolerance
`1e-10`. -/
def IsStepCount {K : Type} [Field K] [LinearOrder K] [FloorRing K] (start tEnd dt : K) (n : ℕ) : Prop :=
  (n : ℤ) = max 1 ⌈(tEnd - 1 / 10 ^ 10 - start) / dt⌉

end Gals.Spec
