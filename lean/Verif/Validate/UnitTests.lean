import Verif.Model.Double
import Verif.Model.Temporal
import Verif.Model.Linear
import Verif.Model.Gradient

/-!
# The unit tests of the library, run on the model

`/repo/tests` holds the tests of the authors, with reference numbers from an independent Matlab implementation.  Each test is
written out here as a program on the model that returns whether all its expectations hold.  It is then run twice: in the model
of double arithmetic `F64`, by the kernel, and (where it calls `exp` or `sqrt`, or is too long for the kernel) with the machine
doubles of Lean, by the interpreter.  These are tests of the model, not proofs about the code.

Literals such as `0.12` are written as quotients of integers; both are the double nearest to the decimal number.
-/

namespace Gals.UnitTests

/-- A test passes if it ends normally with all its expectations met (gtest, e.g. `tests/grid.cc:51`). -/
def passes (t : M Bool) : Bool :=
  match t with
  | .ok b => b
  | .error _ => false

/-- All expectations of a list of cases (such as the loop `tests/grid.cc:83-88`). -/
def every {α : Type} : List α → (α → M Bool) → M Bool
  | [], _ => .ok true
  | a :: l, f => do
    let b ← f a
    let c ← every l f
    return b && c

section
variable {K : Type} [Zero K] [One K] [Add K] [_root_.Sub K] [Mul K] [Div K] [Neg K] [NatCast K] [IntCast K]
  [LT K] [DecidableLT K] [LE K] [DecidableLE K] [HasFloor K]

/-- The literal `n / 10 ^ k` (such as `-0.69`, `tests/grid.cc:127`). -/
def lit (n : ℤ) (k : ℕ) : K := (n : K) / (((10 ^ k : ℕ) : ℕ) : K)

/-- `fabs(a - b) < 1e-10` (`tests/grid.cc:85`). -/
def near (a b : K) : Bool := decide (fabs (a - b) < lit 1 10)

/-- The box `[-1, 1]` along all axes (`tests/grid.cc:64`). -/
def unitGrid (d : ℕ) (nx ny nz pad : ℤ) : M (Grid K d) := do
  let g ← Grid.mk3 .wrap d nx ny nz
  (g.setPadding pad).generate .wrap (-1) 1 (-1) 1 (-1) 1

/-- The loops over the cells and their ghost layers (`tests/gradient.cc:60-67`). -/
def padded {d : ℕ} (g : Grid K d) : List Cell :=
  cells (-g.pad * g.mask0) (g.nx + g.pad * g.mask0) (-g.pad * g.mask1) (g.ny + g.pad * g.mask1)
    (-g.pad * g.mask2) (g.nz + g.pad * g.mask2)

/-- Assignments to an array in a loop over cells (`tests/gradient.cc:82-87`). -/
def assignAll {d : ℕ} {T : Type} (g : Grid K d) (a : Arr T) (cs : List Cell) (f : Cell → M T) : M (Arr T) :=
  loop cs a fun a c => do
    let v ← f c
    a.set .wrap g c.1 c.2.1 c.2.2 v

/-! ## Grids (`tests/grid.cc`) -/

/-- `GRID_1D` (`tests/grid.cc:40-98`). -/
def grid1 : M Bool := do
  let g : Grid K 1 ← unitGrid 1 10 1 1 1
  let i0 ← g.indexV .wrap ⟨0, 0, 0⟩
  let b ← g.baseNodeId ⟨lit (-7) 1, 1, 1⟩
  let dx : K := 2 / 10
  let xmin : K := -1 + dx * lit 5 1
  let nodes ← every (irange 0 10) fun i => do
    let e := xmin + (i : K) * dx
    let p ← g.at' .wrap i 0 0
    let q ← g.atV .wrap ⟨i, intMax, intMax⟩
    return near p.x e && near q.x e
  return g.numCells = ⟨10, 1, 1⟩ && g.totalCells = 10 && i0 = 1 && b = ⟨1, intMax, intMax⟩ && nodes && g.size = 12 &&
    g.mask0 = 1 && g.mask1 = 0 && g.mask2 = 0 && near g.dx.x dx && near g.oneOverDx.x (1 / dx)

/-- `GRID_2D` (`tests/grid.cc:100-159`). -/
def grid2 : M Bool := do
  let g : Grid K 2 ← unitGrid 2 10 10 1 1
  let i0 ← g.indexV .wrap ⟨0, 0, 0⟩
  let b ← g.baseNodeId ⟨lit (-69) 2, lit (-69) 2, 1⟩
  let dx : K := 2 / 10
  let xmin : K := -1 + dx * lit 5 1
  let nodes ← every (cells 0 10 0 10 0 1) fun c => do
    let e := xmin + (c.1 : K) * dx
    let f := xmin + (c.2.1 : K) * dx
    let p ← g.at' .wrap c.1 c.2.1 0
    let q ← g.atV .wrap ⟨c.1, c.2.1, intMax⟩
    return near p.x e && near p.y f && near q.x e && near q.y f
  return g.numCells = ⟨10, 10, 1⟩ && g.totalCells = 100 && i0 = 13 && b = ⟨1, 1, intMax⟩ && nodes && g.size = 144 &&
    g.mask0 = 1 && g.mask1 = 1 && g.mask2 = 0 && near g.dx.x dx && near g.dx.y dx && near g.dx.z 2 &&
    near g.oneOverDx.x (1 / dx) && near g.oneOverDx.y (1 / dx) && near g.oneOverDx.z ((intMin : ℤ) : K)

/-- `GRID_3D` (`tests/grid.cc:161-210`). -/
def grid3 : M Bool := do
  let g : Grid K 3 ← unitGrid 3 10 10 10 1
  let i0 ← g.indexV .wrap ⟨0, 0, 0⟩
  let b ← g.baseNodeId ⟨lit (-69) 2, lit (-69) 2, lit (-69) 2⟩
  let dx : K := 2 / 10
  let xmin : K := -1 + dx * lit 5 1
  let nodes ← every (irange 0 10) fun i => do
    let e := xmin + (i : K) * dx
    let p ← g.at' .wrap i 0 0
    let q ← g.atV .wrap ⟨i, 0, 0⟩
    return near p.x e && near q.x e
  return g.numCells = ⟨10, 10, 10⟩ && g.totalCells = 1000 && i0 = 157 && b = ⟨1, 1, 1⟩ && nodes && g.size = 1728 &&
    g.mask0 = 1 && g.mask1 = 1 && g.mask2 = 1 && near g.dx.x dx && near g.oneOverDx.x (1 / dx)

/-! ## Arrays, vectors and matrices (`tests/array.cc`, `tests/vec3.cc`, `tests/mat3.cc`) -/

/-- `ARRAY` (`tests/array.cc:42-102`). -/
def array : M Bool := do
  let g : Grid K 1 ← unitGrid 1 10 1 1 1
  let a := Arr.mk' g (VecN.init 2 : VecN K)
  let b ← a.set .wrap g 0 0 0 [lit 9 1, lit 12 2]
  let v ← b.getV .wrap g ⟨0, 0, 0⟩
  let w ← b.flat 1
  let c ← b.setFlat 1 [lit 95 2, lit 12 2]
  let u ← c.flat 1
  let l := Arr.mk' g (0 : K)
  let l ← l.setFlat 2 (lit (-21) 1)
  let y ← l.flat 2
  let l ← l.set .wrap g 1 0 0 (lit (-22) 1)
  let z ← ((Arr.mk' g (0 : K)).assign l).getV .wrap g ⟨1, 0, 0⟩
  return a.size = 12 && a.numCells.x = 10 &&
    (match v with | [p, q] => near p (lit 9 1) && near q (lit 12 2) | _ => false) &&
    (match w with | [p, _] => near p (lit 9 1) | _ => false) && (match u with | [p, _] => near p (lit 95 2) | _ => false) &&
    isEqual y (lit (-21) 1) && isEqual z (lit (-22) 1)

/-- `VEC3_INT` (`tests/vec3.cc:38-90`) without `mag`. -/
def vec3Int : M Bool := do
  let v : Vec3 ℤ := ⟨-1, 1, 2⟩
  let w : Vec3 ℤ := ⟨1, 1, 4⟩
  let o : Vec3 ℤ := ⟨1, 2, 3⟩
  let u ← Vec3.ofVector .tests [(0 : ℤ), 1, 2]
  return v.min = -1 && w.sub o = ⟨0, -1, 1⟩ && w.mul o = ⟨1, 2, 12⟩ && w.smul 2 = ⟨2, 2, 8⟩ && w.div o = ⟨1, 0, 1⟩ &&
    u = ⟨0, 1, 2⟩ && o.beqInt o

/-- `VEC3_DOUBLE` (`tests/vec3.cc:92-156`) without `mag`. -/
def vec3Double : M Bool := do
  let v : Vec3 K := ⟨lit (-19) 1, lit 12 1, lit 21 1⟩
  let o : Vec3 K := ⟨lit 11 1, lit 22 1, lit 33 1⟩
  let w : Vec3 K := ⟨lit 11 1, lit 21 1, lit 31 1⟩
  let u ← Vec3.ofVector .tests [(lit 2 1 : K), lit 134 2, lit 212 2]
  return isEqual v.min (lit (-19) 1) && o.beq o && (w.sub o).beq ⟨0, lit (-1) 1, lit (-2) 1⟩ &&
    (w.mul o).beq ⟨lit 11 1 * lit 11 1, lit 21 1 * lit 22 1, lit 31 1 * lit 33 1⟩ &&
    (w.smul 2).beq ⟨lit 11 1 * 2, lit 21 1 * 2, lit 31 1 * 2⟩ &&
    (w.div o).beq ⟨lit 11 1 / lit 11 1, lit 21 1 / lit 22 1, lit 31 1 / lit 33 1⟩ &&
    isEqual u.x (lit 2 1) && isEqual u.y (lit 134 2) && isEqual u.z (lit 212 2)

/-- `MAT3_DOUBLE` (`tests/mat3.cc:95-141`). -/
def mat3Double : M Bool := do
  let a : Mat3 K := ((Mat3.zero.setFlat 0 (lit 11 1)).setFlat 1 (lit 22 1)).setFlat 2 (lit 33 1)
  let b := a.setEntry 1 1 (a.entry 1 1)
  let d := (a.smul (lit 221 2)).sub a
  let m := a.smul (lit 221 2)
  return a.beq b && isEqual (a.entry 0 2) (lit 33 1) && (List.finRange 3).all fun i => (List.finRange 3).all fun j =>
    isEqual (d.entry i j) (a.entry i j * lit 221 2 - a.entry i j) && isEqual (m.entry i j) (a.entry i j * lit 221 2)

/-! ## Gradients (`tests/gradient.cc`) -/

/-- The tests of `tests/gradient.cc:43-491`: the gradient of the cell number along `x` is five for ten cells on `[-1, 1]`, and so
is the first entry of the gradient of the vector of the cell numbers. -/
def gradient (sch : GradScheme) (d : ℕ) (nx ny nz pad : ℤ) : M Bool := do
  let g : Grid K d ← unitGrid d nx ny nz pad
  let a ← assignAll g (Arr.mk' g (0 : K)) (padded g) fun c => .ok (c.1 : K)
  let r ← gradScalar sch .wrap g g a (Arr.mk' g Vec3.zero)
  let v ← assignAll g (Arr.mk' g (Vec3.zero : Vec3 K)) (padded g) fun c => .ok ⟨(c.1 : K), (c.2.1 : K), (c.2.2 : K)⟩
  let q ← gradVector sch .wrap g g v (Arr.mk' g Mat3.zero)
  every (cells 0 nx 0 ny 0 nz) fun c => do
    let x ← r.get .wrap g c.1 c.2.1 c.2.2
    let m ← q.get .wrap g c.1 c.2.1 c.2.2
    return isEqual 5 x.x && isEqual 5 (m.m 0)

/-! ## Time schemes (`tests/euler.cc`, `tests/semi-lagrangian-euler.cc`) -/

/-- The tests only run the schemes (`tests/euler.cc:42-59`, `tests/semi-lagrangian-euler.cc:42-115`); all fields are zero, so
that the result is zero (not expected by the tests). -/
def timeStep (sch : TimeScheme) (d : ℕ) (nx ny nz : ℤ) : M Bool := do
  let g : Grid K d ← unitGrid d nx ny nz 1
  let ls ← temporal sch .wrap g g 1 (LsVelocity.mk' g) (Levelset.mk' g)
  every (cells 0 nx 0 ny 0 nz) fun c => do
    let p ← ls.phi.get .wrap g c.1 c.2.1 c.2.2
    return isEqual 0 p

/-! ## Interpolation (`tests/linear-interpolation.cc`, `tests/hermite-interpolation.cc`) -/

/-- `test_oned` (`tests/linear-interpolation.cc:48-110`): the mean error of the linear interpolation of `x^2 - 1/4` (divided by the
number of cells of the grid). -/
def linear1 (nx : ℤ) : M K := do
  let f (x : K) : K := (x - 0) * (x - 0) - lit 5 1 * lit 5 1
  let g : Grid K 1 ← unitGrid 1 nx 1 1 1
  let a ← assignAll g (Arr.mk' g (0 : K)) (padded g) fun c => do
    let p ← g.at' .wrap c.1 c.2.1 c.2.2
    return f p.x
  let gi ← Grid.mk3 .wrap 1 23 1 1
  let gi : Grid K 1 ← gi.generate .wrap (lit (-87) 2) (lit 87 2) (-1) 1 (-1) 1
  let x ← assignAll gi (Arr.mk' gi (Vec3.zero : Vec3 K)) (cells 0 23 0 1 0 1) fun c => do
    let p ← gi.at' .wrap c.1 c.2.1 c.2.2
    return ⟨p.x, 0, 0⟩
  let r ← linearCompute .wrap gi g gi x a (Arr.mk' gi (0 : K))
  let e ← loop (cells 0 23 0 1 0 1) (0 : K) fun e c => do
    let v ← r.get .wrap gi c.1 c.2.1 c.2.2
    let p ← x.get .wrap gi c.1 c.2.1 c.2.2
    return e + fabs (v - f p.x)
  return e / (g.totalCells : K)

/-- A function with its derivatives as in `tests/hermite-interpolation.cc:46-47,181-193,321-347`. -/
structure Smooth (K : Type) where
  phi : Vec3 K → K
  grad : Vec3 K → Vec3 K
  mixed : Vec3 K → List K

/-- `test_oned`, `test_twod`, `test_threed` (`tests/hermite-interpolation.cc:55-125,179-282,321-466`): mean errors of the value and
of the gradient at 11 points per axis in `[-0.9, 0.9]`. -/
def hermite (f : Smooth K) (d : ℕ) (nx ny nz mx my mz : ℤ) : M (K × Vec3 K) := do
  let g : Grid K d ← unitGrid d nx ny nz 1
  let ls := Levelset.mk' g
  let a ← assignAll g ls.phiPrev (padded g) fun c => do
    let p ← g.at' .wrap c.1 c.2.1 c.2.2
    return f.phi p
  let b ← assignAll g ls.psiPrev (padded g) fun c => do
    let p ← g.at' .wrap c.1 c.2.1 c.2.2
    return f.grad p
  let m ← assignAll g ls.phiMixedPrev (padded g) fun c => do
    let p ← g.at' .wrap c.1 c.2.1 c.2.2
    return f.mixed p
  let gi ← Grid.mk3 .wrap d mx my mz
  let gi : Grid K d ← gi.generate .wrap (lit (-9) 1) (lit 9 1) (lit (-9) 1) (lit 9 1) (lit (-9) 1) (lit 9 1)
  let x ← assignAll gi (Arr.mk' gi (Vec3.zero : Vec3 K)) (cells 0 mx 0 my 0 mz) fun c => gi.at' .wrap c.1 c.2.1 c.2.2
  let r ← hermiteCompute .wrap gi g x { ls with phiPrev := a, psiPrev := b, phiMixedPrev := m }
  let e ← loop (cells 0 mx 0 my 0 mz) ((0, Vec3.zero) : K × Vec3 K) fun e c => do
    let v ← r.phiInterpPrev.get .wrap g c.1 c.2.1 c.2.2
    let w ← r.psiInterpPrev.get .wrap g c.1 c.2.1 c.2.2
    let p ← x.get .wrap gi c.1 c.2.1 c.2.2
    let q := f.grad p
    return (e.1 + fabs (v - f.phi p), ⟨e.2.x + fabs (w.x - q.x), e.2.y + fabs (w.y - q.y), e.2.z + fabs (w.z - q.z)⟩)
  let n : K := (gi.totalCells : K)
  return (e.1 / n, ⟨e.2.x / n, e.2.y / n, e.2.z / n⟩)

end

/-! ## Runs in the model of double arithmetic, by the kernel -/

/-- Grids in double arithmetic. -/
theorem grid_passes : passes (grid1 (K := F64)) = true ∧ passes (grid2 (K := F64)) = true := by
  constructor <;> decide +kernel

/-- Arrays, vectors and matrices in double arithmetic. -/
theorem array_passes : passes (array (K := F64)) = true ∧ passes vec3Int = true ∧ passes (vec3Double (K := F64)) = true ∧
    passes (mat3Double (K := F64)) = true := by
  refine ⟨?_, ?_, ?_, ?_⟩ <;> decide +kernel

/-- Gradients along one axis and in the plane in double arithmetic. -/
theorem gradient_passes : passes (gradient (K := F64) .central 1 10 1 1 1) = true ∧
    passes (gradient (K := F64) .third 1 10 1 1 2) = true := by
  constructor <;> decide +kernel

/-- Time steps in double arithmetic. -/
theorem timeStep_passes : passes (timeStep (K := F64) .euler 1 10 1 1) = true ∧
    passes (timeStep (K := F64) .semiLagrangian 1 10 1 1) = true := by
  constructor <;> decide +kernel

/-- Linear interpolation ends normally in double arithmetic (`tests/linear-interpolation.cc:119`, first size). -/
theorem linear_passes : ((linear1 (K := F64) 10).toBool) = true := by decide +kernel

/-! ## Runs with machine doubles, by the interpreter

`Float` is Lean's type of machine doubles; its operations are opaque to the logic, so nothing below is a theorem. -/

section float

/-- Conversion (`tests/grid.cc:74`). -/
local instance : NatCast Float := ⟨Float.ofNat⟩
/-- Conversion (`tests/grid.cc:74`). -/
local instance : IntCast Float := ⟨Float.ofInt⟩
/-- `0.` (`tests/hermite-interpolation.cc:43`). -/
local instance : Zero Float := ⟨Float.ofNat 0⟩
/-- `1.` (`tests/grid.cc:69`). -/
local instance : One Float := ⟨Float.ofNat 1⟩
/-- `floor` (`src/cpu/grid.cc:137`). -/
local instance : HasFloor Float := ⟨fun x => x.floor.toInt64.toInt⟩
/-- `sqrt` (`src/cpu/vec3.cc:73`). -/
local instance : HasSqrt Float := ⟨Float.sqrt⟩

/-- `exp(x^2 - 1/4)` (`tests/hermite-interpolation.cc:46-47`). -/
def smooth1 : Smooth Float :=
  let e (p : Vec3 Float) := Float.exp (p.x * p.x - 0.5 * 0.5)
  ⟨e, fun p => ⟨2 * p.x * e p, 0, 0⟩, fun _ => []⟩

/-- `exp(x^2 + y^2 - 1/4)` (`tests/hermite-interpolation.cc:181-193`). -/
def smooth2 : Smooth Float :=
  let e (p : Vec3 Float) := Float.exp (p.x * p.x + p.y * p.y - 0.5 * 0.5)
  ⟨e, fun p => ⟨2 * p.x * e p, 2 * p.y * e p, 0⟩, fun p => [4 * p.x * p.y * e p]⟩

/-- `exp(x^2 + y^2 + z^2 - 1/4)` (`tests/hermite-interpolation.cc:323-347`). -/
def smooth3 : Smooth Float :=
  let e (p : Vec3 Float) := Float.exp (p.x * p.x + p.y * p.y + p.z * p.z - 0.5 * 0.5)
  ⟨e, fun p => ⟨2 * p.x * e p, 2 * p.y * e p, 2 * p.z * e p⟩, fun p =>
    [4 * p.x * p.y * e p, 4 * p.y * p.z * e p, 4 * p.x * p.z * e p, 8 * p.x * p.y * p.z * e p]⟩

/-- `fabs(a - ref) < 1e-12` for the mean errors (`tests/hermite-interpolation.cc:148-149,309-311`). -/
def matches' (r : M (Float × Vec3 Float)) (phi psix psiy : Float) : Bool :=
  match r with
  | .ok (e, v) => (e - phi).abs < 1e-12 && (v.x - psix).abs < 1e-12 && (v.y - psiy).abs < 1e-12
  | .error _ => false

-- `INTERPOLATION_HERMITE_DOUBLE_1D` (`tests/hermite-interpolation.cc:128-150`).
#guard matches' (hermite smooth1 1 11 1 1 11 1 1) 71.7922473960529e-006 542.528257269213e-006 0
#guard matches' (hermite smooth1 1 21 1 1 11 1 1) 4.19183043139219e-006 133.121515337428e-006 0
#guard matches' (hermite smooth1 1 41 1 1 11 1 1) 263.113371645751e-009 21.4701778071460e-006 0
#guard matches' (hermite smooth1 1 81 1 1 11 1 1) 14.4915820757515e-009 2.50561543448733e-006 0

-- `INTERPOLATION_HERMITE_DOUBLE_2D` (`tests/hermite-interpolation.cc:284-312`), without the two largest grids.
#guard matches' (hermite smooth2 2 11 11 1 11 11 1) 193.196907657978e-006 715.246551139715e-006 715.246551140005e-006
#guard matches' (hermite smooth2 2 21 21 1 11 11 1) 11.2808113414184e-006 176.408187501144e-006 176.408187502064e-006
#guard matches' (hermite smooth2 2 41 41 1 11 11 1) 708.076798341652e-009 28.8739250246707e-006 28.8739250235467e-006

-- `INTERPOLATION_HERMITE_DOUBLE_3D` has no reference numbers (`tests/hermite-interpolation.cc:468-507`); the error of the value falls by
-- more than eight when the cells are halved (fourth order).
#guard match hermite smooth3 3 6 6 6 5 5 5, hermite smooth3 3 12 12 12 5 5 5 with
  | .ok (e, _), .ok (e', _) => 8 * e' < e && 0 < e'
  | _, _ => false

-- `INTERPOLATION_LINEAR_DOUBLE_1D` has no expectations (`tests/linear-interpolation.cc:111-135`); the error falls with the size.
#guard match linear1 (K := Float) 10, linear1 (K := Float) 20, linear1 (K := Float) 40 with
  | .ok a, .ok b, .ok c => 4 * b < a && 4 * c < b && 0 < c
  | _, _, _ => false

-- `mag` (`tests/vec3.cc:50,109`).
#guard isEqual (Vec3.mag (⟨-1, 1, 2⟩ : Vec3 Float)) 2.449489742783178
#guard isEqual (Vec3.mag (⟨-1.9, 1.2, 2.1⟩ : Vec3 Float)) 3.0757112998459397

-- The larger tests.
#guard passes (grid3 (K := Float))
#guard passes (gradient (K := Float) .central 2 10 10 1 1)
#guard passes (gradient (K := Float) .central 3 10 10 10 1)
#guard passes (gradient (K := Float) .third 2 10 10 1 2)
#guard passes (gradient (K := Float) .third 3 10 10 10 2)
#guard passes (timeStep (K := Float) .semiLagrangian 2 10 10 1)
#guard passes (timeStep (K := Float) .semiLagrangian 3 10 10 10)

end float

end Gals.UnitTests
