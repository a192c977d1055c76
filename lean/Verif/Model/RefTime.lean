import Verif.Model.RefHermite
import Mathlib.Analysis.SpecialFunctions.Trigonometric.Basic
import Mathlib.Analysis.SpecialFunctions.Exp

/-!
# Velocity, initial level set and time stepping of the reference code

`src/reference/VortexVelocity.h`, `InitializeLevelSet.h`, `TimeSteppingMethods.h` and the copies in `SerialCode/` and
`CUDA/`.  `unsigned int` is a natural number below `2 ^ 32` with wrap-around arithmetic.
-/

namespace Gals.Ref

/-! ## `unsigned int` -/

/-- `2 ^ 32` (range of `unsigned int`, as at `src/reference/TimeSteppingMethods.h:11`). -/
def uMod : ℕ := 4294967296
/-- `a + b` on `unsigned int` (as in `src/reference/TimeSteppingMethods.h:11`). -/
def uadd (a b : ℕ) : ℕ := (a + b) % uMod
/-- `a - b` on `unsigned int` (as in `src/reference/AdvectionPointCalcs.h:65`). -/
def usub (a b : ℕ) : ℕ := (a + (uMod - b % uMod)) % uMod
/-- `a * b` on `unsigned int` (as in `src/reference/CUDA/AdvectionPointCalcsCUDA.cu:25`). -/
def umul (a b : ℕ) : ℕ := (a * b) % uMod

/-! ## Velocity -/

/-- The six functions of `src/reference/VortexVelocity.h:16-50`, for one value of `T_period`; arguments `x y t`. -/
structure Vel (K : Type) where
  velx : K → K → K → K
  vely : K → K → K → K
  gradUx : K → K → K → K
  gradUy : K → K → K → K
  gradVx : K → K → K → K
  gradVy : K → K → K → K

open Real in
/-- The vortex (`src/reference/VortexVelocity.h:16-50`, `src/reference/CUDA/VortexVelocityCUDA.cu:11-45`). -/
noncomputable def vortex (T : ℝ) : Vel ℝ where
  velx x y t := sin (π * x) ^ 2 * sin (2 * π * y) * cos (π * t / T)
  vely x y t := -sin (π * y) ^ 2 * sin (2 * π * x) * cos (π * t / T)
  gradUx x y t := π * sin (2 * π * y) * sin (2 * π * x) * cos (π * t / T)
  gradUy x y t := 2 * π * sin (π * x) ^ 2 * cos (2 * π * y) * cos (π * t / T)
  gradVx x y t := -2 * π * sin (π * y) ^ 2 * cos (2 * π * x) * cos (π * t / T)
  gradVy x y t := -π * sin (2 * π * y) * sin (2 * π * x) * cos (π * t / T)

/-! ## Initial level set -/

/-- `xo` (`src/reference/Constants.h:10`). -/
noncomputable def xo : ℝ := 0.5
/-- `yo` (`src/reference/Constants.h:11`). -/
noncomputable def yo : ℝ := 0.75
/-- `rcircle` (`src/reference/Constants.h:12`). -/
noncomputable def rcircle : ℝ := 0.15

open Real in
/-- `initialize` (`src/reference/InitializeLevelSet.h:13-17`). -/
noncomputable def initPhi (x y : ℝ) : ℝ := exp (-((x - xo) ^ 2 + (y - yo) ^ 2)) - exp (-rcircle ^ 2)
open Real in
/-- `derivxinit` (`src/reference/InitializeLevelSet.h:18-22`). -/
noncomputable def derivxinit (x y : ℝ) : ℝ := -2 * (x - xo) * exp (-((x - xo) ^ 2 + (y - yo) ^ 2))
open Real in
/-- `derivyinit` (`src/reference/InitializeLevelSet.h:23-27`). -/
noncomputable def derivyinit (x y : ℝ) : ℝ := -2 * (y - yo) * exp (-((x - xo) ^ 2 + (y - yo) ^ 2))
open Real in
/-- `derivxyinit` (`src/reference/InitializeLevelSet.h:28-32`). -/
noncomputable def derivxyinit (x y : ℝ) : ℝ := 4 * (y - yo) * (x - xo) * exp (-((x - xo) ^ 2 + (y - yo) ^ 2))

open Real in
/-- What a thread of `allocate_levelset_matrices_CUDA` stores in `mphi`, `mpsix`, `mpsiy`, `mpsixy`
(`src/reference/CUDA/Allocation.h:30-36`). -/
noncomputable def initializeCuda (x y : ℝ) : ℝ × ℝ × ℝ × ℝ :=
  let e := exp (-((x - xo) * (x - xo) + (y - yo) * (y - yo)))
  (-exp (-rcircle * rcircle) + e, -2 * (x - xo) * e, -2 * (y - yo) * e, 4 * (y - yo) * (x - xo) * e)

/-! ## Time stepping -/

variable {K : Type} [Zero K] [One K] [Add K] [Sub K] [Mul K] [Div K] [Neg K] [NatCast K]

/-- `t * dt` for an `unsigned int t` (`src/reference/TimeSteppingMethods.h:11-19`). -/
def tm (t : ℕ) (dt : K) : K := (t : K) * dt

/-- `Heuns_internal` (`src/reference/TimeSteppingMethods.h:7-29`, `src/reference/CUDA/TimeSteppingMethodsCUDA.cu:5-26`). -/
def heunsInternal (v : Vel K) (xnode ynode xadv yadv rootpsix rootpsiy : K) (t : ℕ) (dt : K) : K × K :=
  let graduxnode := v.gradUx xnode ynode (tm (uadd t 1) dt)
  let graduynode := v.gradUy xnode ynode (tm (uadd t 1) dt)
  let gradvxnode := v.gradVx xnode ynode (tm (uadd t 1) dt)
  let gradvynode := v.gradVy xnode ynode (tm (uadd t 1) dt)
  let graduxroot := v.gradUx xadv yadv (tm t dt)
  let graduyroot := v.gradUy xadv yadv (tm t dt)
  let gradvxroot := v.gradVx xadv yadv (tm t dt)
  let gradvyroot := v.gradVy xadv yadv (tm t dt)
  let temppsix := rootpsix - dt * (graduxroot * rootpsix + gradvxroot * rootpsiy)
  let temppsiy := rootpsiy - dt * (graduyroot * rootpsix + gradvyroot * rootpsiy)
  let temppsix := rootpsix - 1 / 2 * dt *
    (graduxroot * rootpsix + gradvxroot * rootpsiy + graduxnode * temppsix + gradvxnode * temppsiy)
  let temppsiy := rootpsiy - 1 / 2 * dt *
    (graduyroot * rootpsix + gradvyroot * rootpsiy + graduynode * temppsix + gradvynode * temppsiy)
  (temppsix, temppsiy)

/-- `Heuns_X` (`src/reference/TimeSteppingMethods.h:31-46`, `src/reference/CUDA/TimeSteppingMethodsCUDA.cu:28-43`). -/
def heunsX (v : Vel K) (xnode ynode rootpsix rootpsiy temppsixy temppsix : K) (t : ℕ) (dt : K) : K :=
  let graduxnode := v.gradUx xnode ynode (tm t dt)
  let gradvxnode := v.gradVx xnode ynode (tm t dt)
  let graduxnew := v.gradUx xnode ynode (tm (uadd t 1) dt)
  let gradvxnew := v.gradVx xnode ynode (tm (uadd t 1) dt)
  let temp := rootpsix - dt *
    (gradvxnode * rootpsiy + v.vely xnode ynode (tm t dt) * temppsixy + graduxnode * temppsix)
  rootpsix - dt / 2 *
    (gradvxnode * rootpsiy + v.vely xnode ynode (tm t dt) * temppsixy + graduxnode * temppsix + gradvxnew * rootpsiy +
      v.vely xnode ynode (tm (uadd t 1) dt) * temppsixy + graduxnew * temp)

/-- `Heuns_Y` (`src/reference/TimeSteppingMethods.h:48-63`, `src/reference/CUDA/TimeSteppingMethodsCUDA.cu:45-60`). -/
def heunsY (v : Vel K) (xnode ynode rootpsix rootpsiy temppsixy temppsiy : K) (t : ℕ) (dt : K) : K :=
  let graduynode := v.gradUy xnode ynode (tm t dt)
  let gradvynode := v.gradVy xnode ynode (tm t dt)
  let graduynew := v.gradUy xnode ynode (tm (uadd t 1) dt)
  let gradvynew := v.gradVy xnode ynode (tm (uadd t 1) dt)
  let temp := rootpsiy - dt *
    (graduynode * rootpsix + v.velx xnode ynode (tm t dt) * temppsixy + gradvynode * temppsiy)
  rootpsiy - dt / 2 *
    (graduynode * rootpsix + v.velx xnode ynode (tm t dt) * temppsixy + gradvynode * temppsiy + graduynew * rootpsix +
      v.velx xnode ynode (tm (uadd t 1) dt) * temppsixy + gradvynew * temp)

/-- `SuperConsistentScheme` (`src/reference/TimeSteppingMethods.h:65-131`).  `rk3` is the test
`strcmp("RK3", backtrace_scheme) == 0`; the CUDA copy (`src/reference/CUDA/TimeSteppingMethodsCUDA.cu:62-130`) has the
`rk3` branch only. -/
def superConsistent (v : Vel K) (rk3 : Bool) (xnode ynode rootpsix rootpsiy : K) (t : ℕ) (dt : K) : K × K :=
  let graduxnode := v.gradUx xnode ynode (tm (uadd t 1) dt)
  let graduynode := v.gradUy xnode ynode (tm (uadd t 1) dt)
  let gradvxnode := v.gradVx xnode ynode (tm (uadd t 1) dt)
  let gradvynode := v.gradVy xnode ynode (tm (uadd t 1) dt)
  let gradxr1x := 1 - dt * graduxnode
  let gradxr1y := 0 - dt * graduynode
  let gradyr1x := 0 - dt * gradvxnode
  let gradyr1y := 1 - dt * gradvynode
  if rk3 then
    let ux := v.velx xnode ynode (tm (uadd t 1) dt)
    let vy := v.vely xnode ynode (tm (uadd t 1) dt)
    let xr := xnode - ux * dt
    let yr := ynode - vy * dt
    let gradux1 := v.gradUx xr yr (tm t dt)
    let graduy1 := v.gradUy xr yr (tm t dt)
    let gradvx1 := v.gradVx xr yr (tm t dt)
    let gradvy1 := v.gradVy xr yr (tm t dt)
    let ux1 := v.velx xr yr (tm t dt)
    let vy1 := v.vely xr yr (tm t dt)
    let xr := xnode - dt / 2 * (1 / 2 * ux + 1 / 2 * ux1)
    let yr := ynode - dt / 2 * (1 / 2 * vy + 1 / 2 * vy1)
    let gradux2 := v.gradUx xr yr (tm t dt + dt / 2)
    let graduy2 := v.gradUy xr yr (tm t dt + dt / 2)
    let gradvx2 := v.gradVx xr yr (tm t dt + dt / 2)
    let gradvy2 := v.gradVy xr yr (tm t dt + dt / 2)
    let gradxr2x := 1 - dt / 4 * (graduxnode + gradxr1x * gradux1 + gradyr1x * graduy1)
    let gradxr2y := 0 - dt / 4 * (graduynode + gradxr1y * gradux1 + gradyr1y * graduy1)
    let gradyr2x := 0 - dt / 4 * (gradvxnode + gradxr1x * gradvx1 + gradyr1x * gradvy1)
    let gradyr2y := 1 - dt / 4 * (gradvynode + gradxr1y * gradvx1 + gradyr1y * gradvy1)
    let gradxrx := 1 - dt / 6 * (graduxnode + gradxr1x * gradux1 + gradyr1x * graduy1 +
      4 * (gradxr2x * gradux2 + gradyr2x * graduy2))
    let gradxry := 0 - dt / 6 * (graduynode + gradxr1y * gradux1 + gradyr1y * graduy1 +
      4 * (gradxr2y * gradux2 + gradyr2y * graduy2))
    let gradyrx := 0 - dt / 6 * (gradvxnode + gradxr1x * gradvx1 + gradyr1x * gradvy1 +
      4 * (gradxr2x * gradvx2 + gradyr2x * gradvy2))
    let gradyry := 1 - dt / 6 * (gradvynode + gradxr1y * gradvx1 + gradyr1y * gradvy1 +
      4 * (gradxr2y * gradvx2 + gradyr2y * gradvy2))
    (gradxrx * rootpsix + gradyrx * rootpsiy, gradxry * rootpsix + gradyry * rootpsiy)
  else
    (gradxr1x * rootpsix + gradyr1x * rootpsiy, gradxr1y * rootpsix + gradyr1y * rootpsiy)

end Gals.Ref
