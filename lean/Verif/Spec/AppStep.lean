import Verif.Spec.App
import Verif.Spec.Levelset
import Verif.Spec.Stencil
import Verif.Spec.Ref

/-!
# Specification vocabulary for the steps of the application
-/

namespace Gals.Spec

open Gals

/-- The level set and its gradient as functions of the cell. -/
structure AppFields (K : Type) where
  phi : Cell → K
  psi : Cell → Vec3 K

section
variable {K : Type} [Field K] [LinearOrder K] [FloorRing K]

/-- The rotation with angular velocity `w` about `(c1, c0)`: the application takes the first coordinate of the centre with
`y` and the second with `x`. -/
def rotation (w c0 c1 : K) (p : Vec3 K) : Vec3 K := ⟨w * (c0 - p.y), w * (p.x - c1), 0⟩

/-- The position that a two-dimensional grid stores for a cell. -/
def storedPos (r : Req K) (c : Cell) : Vec3 K := ⟨r.centre 0 (c.1 + (r.pad - 1)), r.centre 1 (c.2.1 + (r.pad - 1)), 0⟩

/-- The cell at whose stored position, and those of its right and upper neighbours, the corners of the mesh around a point
are. -/
def around (r : Req K) (x : Vec3 K) : Cell :=
  (⌊(x.x - (storedPos r (0, 0, 0)).x) / r.h 0⌋, ⌊(x.y - (storedPos r (0, 0, 0)).y) / r.h 1⌋, 0)

/-- The nodal gradient that a step starts with: third-order differences at interior cells, the old one elsewhere. -/
def startSlope (r : Req K) (F : AppFields K) (c : Cell) : Vec3 K :=
  if r.Interior c then ⟨fdThird F.phi c 0 (r.h 0), fdThird F.phi c 1 (r.h 1), (F.psi c).z⟩ else F.psi c

/-- Sum over the corners of the cell `b` of nodal values and slopes times basis functions, without mixed derivatives. -/
def patch (V S W T : Fin 2 → K) (f : Cell → K) (q : Cell → Vec3 K) (dx dy : K) (b : Cell) : K :=
  ∑ i : Fin 2, ∑ j : Fin 2, (V i * W j * f (b.1 + i, b.2.1 + j, 0) + dx * S i * W j * (q (b.1 + i, b.2.1 + j, 0)).x +
    dy * V i * T j * (q (b.1 + i, b.2.1 + j, 0)).y)

/-- The Hermite polynomial of the cell `b`, with mixed derivatives 0, at the point `x`. -/
def patchValue (r : Req K) (f : Cell → K) (q : Cell → Vec3 K) (b : Cell) (x : Vec3 K) : K :=
  let s := (x.x - (storedPos r b).x) / r.h 0
  let w := (x.y - (storedPos r b).y) / r.h 1
  patch (hVal · s) (hSlope · s) (hVal · w) (hSlope · w) f q (r.h 0) (r.h 1) b

/-- Its gradient. -/
def patchGradient (r : Req K) (f : Cell → K) (q : Cell → Vec3 K) (b : Cell) (x : Vec3 K) : Vec3 K :=
  let s := (x.x - (storedPos r b).x) / r.h 0
  let w := (x.y - (storedPos r b).y) / r.h 1
  ⟨patch (hVal' · s) (hSlope' · s) (hVal · w) (hSlope · w) f q (r.h 0) (r.h 1) b / r.h 0,
    patch (hVal · s) (hSlope · s) (hVal' · w) (hSlope' · w) f q (r.h 0) (r.h 1) b / r.h 1, 0⟩

/-- A semi-Lagrangian step that evaluates, at the departure point of each interior node, the polynomial of the cell `k` cells
to the right of and above the one that contains the point.  With `k = 0` it is interpolation. -/
def advected (r : Req K) (u : Vec3 K → Vec3 K) (dt : K) (k : ℤ) (F : AppFields K) : AppFields K where
  phi c := if r.Interior c then
    let p := storedPos r c
    let x : Vec3 K := ⟨p.x - dt * (u p).x, p.y - dt * (u p).y, 0⟩
    patchValue r F.phi (startSlope r F) ((around r x).1 + k, (around r x).2.1 + k, 0) x else F.phi c
  psi c := if r.Interior c then
    let p := storedPos r c
    let x : Vec3 K := ⟨p.x - dt * (u p).x, p.y - dt * (u p).y, 0⟩
    patchGradient r F.phi (startSlope r F) ((around r x).1 + k, (around r x).2.1 + k, 0) x else F.psi c

/-- No node moves by a cell or more in a step. -/
def SmallStep (r : Req K) (u : Vec3 K → Vec3 K) (dt : K) : Prop :=
  ∀ c, r.Interior c → |dt * (u (storedPos r c)).x| < r.h 0 ∧ |dt * (u (storedPos r c)).y| < r.h 1

/-- What the application has before its time loop, on a grid of any request `r`: positions of the cells, new velocity fields,
and a new level set whose values `phi0` are then set. -/
structure Prepared (s : IntSem) (r : Req K) (a : App K) (phi0 : Cell → K) : Prop where
  made : r.make s 2 = .ok a.g
  positions : FieldIs s r a.g a.positions (storedPos r)
  vel : a.vel = LsVelocity.mk' a.g
  ls : a.ls = { Levelset.mk' a.g with phi := a.ls.phi }
  phi : FieldIs s r a.g a.ls.phi phi0

end

/-- The preparation of the application (`appPrepare`) with the statement `grid.setPadding(pad)` added after the construction of
the grid.  The application as it is has padding 1. -/
def appPrepareWith {K : Type} [Zero K] [One K] [Add K] [_root_.Sub K] [Mul K] [Div K] [Neg K] [NatCast K] [IntCast K]
    [LT K] [DecidableLT K] [LE K] [DecidableLE K] [HasSqrt K] (pad : ℤ) (s : IntSem) (f : InputFields K) : M (App K) := do
  let fu := FileUtils.mk'.setRootDirectory (f.general.outputDirectory ++ "/")
  let nx ← initialised f.grid.nx
  let ny ← initialised f.grid.ny
  let nz ← initialised f.grid.nz
  let g ← (Grid.mk3 s 2 nx ny nz : M (Grid K 2))
  let g := g.setPadding pad
  let x0 ← initialised f.grid.xMin
  let x1 ← initialised f.grid.xMax
  let y0 ← initialised f.grid.yMin
  let y1 ← initialised f.grid.yMax
  let z0 ← initialised f.grid.zMin
  let z1 ← initialised f.grid.zMax
  let g ← g.generate s x0 x1 y0 y1 z0 z1
  let positions ← copyPositions s g
  let inp ← levelsetInputs f.levelset
  let ls ← analyticLevelset s g g inp positions (Levelset.mk' g)
  let _tStart ← initialised f.time.start
  let tEnd ← initialised f.time.end'
  let dt ← initialised f.time.dt
  let dt := if f.time.constantDt = "NO" then g.dx.min * (1 / 2) else dt
  return ⟨fu, g, positions, f.velocity, LsVelocity.mk' g, ls, tEnd, dt⟩

end Gals.Spec
