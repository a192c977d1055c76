import Verif.Model.Levelset

/-!
# Linear interpolation (`src/cpu/interpolation/linear-1d.cc`)
-/

namespace Gals

variable {K : Type} [One K] [Add K] [Sub K] [Mul K] [Div K] [NatCast K] {d : ℕ}

/-- `linearInterpolation` (`src/cpu/interpolation/linear-1d.cc:36-64`). -/
def linearInterp [HasFloor K] (s : IntSem) (g : Grid K d) (x : Vec3 K) (alpha : Arr K) : M K := do
  let base ← g.baseNodeId x
  let i1 ← iadd s base.x (axisVec 0 0)
  let xbase ← g.atV s base
  let eta := (x.x - xbase.x) * g.oneOverDx.x
  let a0 ← alpha.getV s g base
  let a1 ← alpha.getV s g ⟨i1, 0, 0⟩
  return (1 - eta) * a0 + eta * a1

/-- `compute(x_interp, alpha, alpha_interpolated)` (`src/cpu/interpolation/linear-1d.cc:66-87`).  `gx` is the grid referred to by `x_interp`
(its extents bound the loops), `g` the grid of `alpha`, `go` the grid of the result. -/
def linearCompute [HasFloor K] (s : IntSem) (gx g go : Grid K d) (xInterp : Arr (Vec3 K)) (alpha out : Arr K) :
    M (Arr K) :=
  loop (cells 0 gx.nx 0 gx.ny 0 gx.nz) out fun out c => do
    let x ← xInterp.get s gx c.1 c.2.1 c.2.2
    let v ← linearInterp s g x alpha
    out.set s go c.1 c.2.1 c.2.2 v

/-- `compute(x_interp, levelset)` (`src/cpu/interpolation/linear-1d.cc:89-95`): only reports that it is not implemented. -/
def linearComputeLevelset (b : Build) (ls : Levelset K) : M (Levelset K) := do
  notImplemented b
  return ls

end Gals
