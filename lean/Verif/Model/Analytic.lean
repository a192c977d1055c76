import Verif.Model.Temporal

/-!
# Analytic fields (`src/cpu/analytical-fields/`)

`gp` is the grid of the array of positions, `g` the grid of the field that is filled.
-/

namespace Gals

variable {K : Type} [Zero K] [One K] [Add K] [Sub K] [Mul K] [Div K] [Neg K] [NatCast K] [IntCast K]
  [LT K] [DecidableLT K] [LE K] [DecidableLE K] {d : ℕ}

/-- `pi()` (`include/gals/utilities/utilities.h:55`), `4 atan 1`. -/
class HasPi (K : Type) where
  pi : K

/-- Input fields `INPUT_FIELDS::Levelset` (`include/gals/input-fields/levelset.h:42-47`). -/
structure LevelsetInputs (K : Type) where
  name : String
  center : Vec3 K
  radius : K
  gradientScheme : String

/-- Input fields `INPUT_FIELDS::Velocity` (`include/gals/input-fields/velocity.h:41-46`). -/
structure VelocityInputs (K : Type) where
  name : String
  vector : List K
  center : List K
  gradientScheme : String

/-- `LevelsetFieldNames` (`include/gals/analytical-fields/levelset.h:50`). -/
inductive LevelsetName
  | notDefined | circle
  deriving DecidableEq, Repr

/-- `levelset_name_map[name]` (`include/gals/analytical-fields/levelset.h:54`, `src/cpu/analytical-fields/levelset.cc:53`).
A name that is not in the map is inserted with the value-initialised enumerator, number 0.  Simplification: the entry
inserted in the static map is not kept, as looking it up again gives the same value. -/
def levelsetName (name : String) : LevelsetName := if name = "CIRCLE" then .circle else .notDefined

/-- `VelocityFieldNames` (`include/gals/analytical-fields/velocity.h:50`). -/
inductive VelocityName
  | notDefined | circular
  deriving DecidableEq, Repr

/-- `velocity_name_map[name]` (`include/gals/analytical-fields/velocity.h:54`, `src/cpu/analytical-fields/velocity.cc:57`);
as `levelsetName`. -/
def velocityName (name : String) : VelocityName := if name = "CIRCULAR" then .circular else .notDefined

/-- `ANALYTICAL_FIELDS::Levelset::compute` (`src/cpu/analytical-fields/levelset.cc:46-72`). -/
def analyticLevelset [HasSqrt K] (s : IntSem) (gp g : Grid K d) (inp : LevelsetInputs K) (positions : Arr (Vec3 K))
    (ls : Levelset K) : M (Levelset K) :=
  match levelsetName inp.name with
  | .circle => do
    let phi ← loop positions.interior ls.phi fun phi c => do
      let p ← positions.get s gp c.1 c.2.1 c.2.2
      phi.set s g c.1 c.2.1 c.2.2 ((p.sub inp.center).mag - inp.radius)
    return { ls with phi := phi }
  | .notDefined => .ok ls

/-- `coeff` (`src/cpu/analytical-fields/velocity.cc:65`). -/
def circularCoeff [HasPi K] : K := HasPi.pi / (315 / 100)

/-- The loop over components (`src/cpu/analytical-fields/velocity.cc:71-74`); `center` is a `std::vector` read without a
check.  The position is passed as read; the source reads it once per component. -/
def circularNode [HasPi K] (d : ℕ) (center : List K) (p node : Vec3 K) : M (Vec3 K) :=
  loop (axes d) node fun node cmpt => do
    let node ← if cmpt = 0 then do
        let c ← rd center 0
        return node.set 0 (circularCoeff * (c - p.y))
      else pure node
    if cmpt = 1 then do
        let c ← rd center 1
        return node.set 1 (circularCoeff * (p.x - c))
      else pure node

/-- `velocity_gradient[cmpt][derv] = t`: element `cmpt` of the whole array, entry `derv` of its nine
(`src/cpu/analytical-fields/velocity.cc:88-91`, `src/cpu/array.cc:83-87`, `src/cpu/mat3.cc:85-89`). -/
def gradFlatSet (grad : Arr (Mat3 K)) (cmpt : ℤ) (derv : Fin 9) (t : K) : M (Arr (Mat3 K)) := do
  let m ← grad.flat cmpt
  grad.setFlat cmpt (m.setFlat derv t)

/-- Body of the gradient loops (`src/cpu/analytical-fields/velocity.cc:86-93`). -/
def gradNode [HasPi K] (d : ℕ) (grad : Arr (Mat3 K)) : M (Arr (Mat3 K)) :=
  loop (axes d) grad fun grad cmpt => loop (axes d) grad fun grad derv =>
    match cmpt, derv with
    | 0, 0 => gradFlatSet grad 0 0 0
    | 0, 1 => gradFlatSet grad 0 1 (-circularCoeff)
    | 1, 0 => gradFlatSet grad 1 0 circularCoeff
    | 1, 1 => gradFlatSet grad 1 1 0
    | _, _ => .ok grad

/-- `ANALYTICAL_FIELDS::Velocity::compute` (`src/cpu/analytical-fields/velocity.cc:49-103`); the argument `time` is not
used.  `velocity_node` is declared before the loops (line 66), so it is part of the loop state. -/
def analyticVelocity [HasPi K] (b : Build) (s : IntSem) (gp g : Grid K d) (inp : VelocityInputs K)
    (positions : Arr (Vec3 K)) (_time : K) (vel : LsVelocity K) : M (LsVelocity K) :=
  match velocityName inp.name with
  | .circular => do
    unbracedAbort b (d == 1)
    let r ← loop positions.interior (vel.velocity, (Vec3.zero : Vec3 K)) fun r c => do
      let p ← positions.get s gp c.1 c.2.1 c.2.2
      let node ← circularNode d inp.center p r.2
      let v ← r.1.set s g c.1 c.2.1 c.2.2 node
      return (v, node)
    if inp.gradientScheme = "ANALYTICAL" then do
      let grad ← loop positions.interior vel.grad fun grad _ => gradNode d grad
      return ⟨r.1, grad⟩
    else return ⟨r.1, vel.grad⟩
  | .notDefined => .ok vel

end Gals
