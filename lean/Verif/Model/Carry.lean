import Verif.Model.Temporal

/-!
# Steps with the gradient carried along (`applications/advection/main.cc`)

The body of the time loop of the application without the lines that overwrite the gradient: the level set's gradient is what the
step before left in `psi` (`src/cpu/temporal-schemes/semi-lagrangian/euler.cc:88`), which is what the scheme is for.  The body as it
stands, which recomputes `psi` from `phi`, is `appAdvance` in `Model/App.lean`.
-/

namespace Gals

variable {K : Type} [Zero K] [One K] [Add K] [Sub K] [Mul K] [Div K] [Neg K] [NatCast K] [IntCast K]
  [LT K] [DecidableLT K] [LE K] [DecidableLE K] [HasFloor K] {d : ℕ}

/-- A step: the copies to the previous generation and the semi-Lagrangian step (`applications/advection/main.cc:147-156`, the
array assignments are `src/cpu/array.cc:115-119`).  Simplification: line 146, which recomputes `psi`, is left out, and
so is the computation of the velocity (lines 142-143), which is a parameter. -/
def carryStep (s : IntSem) (g gv : Grid K d) (dt : K) (vel : LsVelocity K) (ls : Levelset K) : M (Levelset K) :=
  let ls := { ls with phiPrev := ls.phiPrev.assign ls.phi }
  let ls := { ls with psiPrev := ls.psiPrev.assign ls.psi }
  temporal .semiLagrangian s g gv dt vel ls

/-- `k` steps one after the other (`applications/advection/main.cc:138-159`, with the number of steps in place of the comparison of
times). -/
def carrySteps (s : IntSem) (g gv : Grid K d) (dt : K) (vel : LsVelocity K) : ℕ → Levelset K → M (Levelset K)
  | 0, ls => pure ls
  | k + 1, ls => do
    let ls ← carrySteps s g gv dt vel k ls
    carryStep s g gv dt vel ls

/-- A step as the application makes it (`applications/advection/main.cc:145-156`): the gradient is recomputed from `phi` by the
differences of third order, then as in `carryStep`.  Simplification: the computation of the velocity (lines 142-143) is a parameter;
the grid is the one of the library's client, of any dimension (the application has two dimensions, Model/App). -/
def recomputeStep (s : IntSem) (g gv : Grid K d) (dt : K) (vel : LsVelocity K) (ls : Levelset K) : M (Levelset K) := do
  let psi ← gradScalar .third s g g ls.phi ls.psi
  carryStep s g gv dt vel { ls with psi := psi }

/-- `k` steps one after the other (`applications/advection/main.cc:138-159`, with the number of steps in place of the comparison of
times). -/
def recomputeSteps (s : IntSem) (g gv : Grid K d) (dt : K) (vel : LsVelocity K) : ℕ → Levelset K → M (Levelset K)
  | 0, ls => pure ls
  | k + 1, ls => do
    let ls ← recomputeSteps s g gv dt vel k ls
    recomputeStep s g gv dt vel ls

end Gals
