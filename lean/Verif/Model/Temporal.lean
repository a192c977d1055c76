import Verif.Model.Hermite
import Verif.Model.Gradient

/-!
# Time stepping (`src/cpu/levelset-velocity.cc`, `src/cpu/temporal.cc`, `src/cpu/temporal-schemes/`)

`g` is the grid of the level set, `gv` the grid of the velocity.
-/

namespace Gals

variable {K : Type} [Zero K] [One K] [Add K] [Sub K] [Mul K] [Div K] [Neg K] [NatCast K] [IntCast K]
  [LT K] [DecidableLT K] [LE K] [DecidableLE K] {d : ℕ}

/-- Fields of a `LevelsetVelocity` (`include/gals/cpu/levelset-velocity.h:97-99`). -/
structure LsVelocity (K : Type) where
  velocity : Arr (Vec3 K)
  grad : Arr (Mat3 K)

/-- Constructor (`src/cpu/levelset-velocity.cc:36-40`). -/
def LsVelocity.mk' (g : Grid K d) : LsVelocity K := ⟨Arr.mk' g Vec3.zero, Arr.mk' g Mat3.zero⟩

/-- The loops over `grid.numCells()` (`src/cpu/temporal-schemes/semi-lagrangian/euler.cc:63-65,75-77,83-85`). -/
def Grid.interiorCells (g : Grid K d) : List Cell := cells 0 g.nx 0 g.ny 0 g.nz

/-- `TEMPORAL_SCHEMES::Euler::compute` (`src/cpu/temporal-schemes/euler.cc:46-61`). -/
def explicitEuler (s : IntSem) (g gv : Grid K d) (dt : K) (vel : LsVelocity K) (ls : Levelset K) : M (Levelset K) :=
  loop ls.phi.interior ls fun ls c => do
    let p ← ls.phiPrev.get s g c.1 c.2.1 c.2.2
    let v ← vel.velocity.get s gv c.1 c.2.1 c.2.2
    let phi ← ls.phi.set s g c.1 c.2.1 c.2.2 (p - dt * v.x)
    return { ls with phi := phi }

/-- The departure points `x_root` (`src/cpu/temporal-schemes/semi-lagrangian/euler.cc:61-65`). -/
def departure (s : IntSem) (g gv : Grid K d) (dt : K) (velocity : Arr (Vec3 K)) : M (Arr (Vec3 K)) :=
  loop g.interiorCells (Arr.mk' g Vec3.zero) fun acc c => do
    let p ← g.at' s c.1 c.2.1 c.2.2
    let v ← velocity.get s gv c.1 c.2.1 c.2.2
    acc.set s g c.1 c.2.1 c.2.2 (p.sub (v.smul dt))

/-- `x_root_grad` (`src/cpu/temporal-schemes/semi-lagrangian/euler.cc:71-77`). -/
def departureGrad (s : IntSem) (g gv : Grid K d) (dt : K) (velocityGrad : Arr (Mat3 K)) : M (Arr (Mat3 K)) :=
  loop g.interiorCells (Arr.mk' g Mat3.zero) fun acc c => do
    let m ← velocityGrad.get s gv c.1 c.2.1 c.2.2
    acc.set s g c.1 c.2.1 c.2.2 (Mat3.identity.sub (m.smul dt))

/-- The update of `phi` and `psi` (`src/cpu/temporal-schemes/semi-lagrangian/euler.cc:82-88`). -/
def slUpdate (s : IntSem) (g : Grid K d) (xRootGrad : Arr (Mat3 K)) (ls : Levelset K) : M (Levelset K) :=
  loop g.interiorCells ls fun ls c => do
    let p ← ls.phiInterpPrev.get s g c.1 c.2.1 c.2.2
    let phi ← ls.phi.set s g c.1 c.2.1 c.2.2 p
    let m ← xRootGrad.get s g c.1 c.2.1 c.2.2
    let q ← ls.psiInterpPrev.get s g c.1 c.2.1 c.2.2
    let psi ← ls.psi.set s g c.1 c.2.1 c.2.2 (m.dot q)
    return { ls with phi := phi, psi := psi }

/-- `SEMI_LAGRANGIAN::Euler::compute` (`src/cpu/temporal-schemes/semi-lagrangian/euler.cc:48-89`). -/
def slEuler [HasFloor K] (s : IntSem) (g gv : Grid K d) (dt : K) (vel : LsVelocity K) (ls : Levelset K) :
    M (Levelset K) := do
  let xRoot ← departure s g gv dt vel.velocity
  let ls ← hermiteCompute s g g xRoot ls
  let xRootGrad ← departureGrad s g gv dt vel.grad
  slUpdate s g xRootGrad ls

/-- The template argument `TEMPORAL_SCHEME` of `Temporal` (`include/gals/cpu/temporal.h:49`; instantiated at
`src/cpu/temporal.cc:52-63`). -/
inductive TimeScheme
  | euler | semiLagrangian
  deriving DecidableEq, Repr

/-- `Temporal::compute` (`src/cpu/temporal.cc:44-50`). -/
def temporal [HasFloor K] (sch : TimeScheme) (s : IntSem) (g gv : Grid K d) (dt : K) (vel : LsVelocity K)
    (ls : Levelset K) : M (Levelset K) :=
  match sch with
  | .euler => explicitEuler s g gv dt vel ls
  | .semiLagrangian => slEuler s g gv dt vel ls

end Gals
