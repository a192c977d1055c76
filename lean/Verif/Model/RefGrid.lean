import Verif.Model.Conc
import Verif.Model.RefTime

/-!
# Advection step of the reference code (`src/reference/AdvectionPointCalcs.h`)

A body is the text executed for one node `(i, j)`: row `i` is along `y`, column `j` along `x`.  Loops are lists of bodies.
The serial code runs them in order; `#pragma omp for` and CUDA kernels let threads run them.  `SerialCode/` has the same
text.

Simplification: a location that no body of the same loop writes (`x[j]`, `y[i]`, the `m...` arrays, `cellx`, ...) is read
once per body where the source reads it several times.
-/

namespace Gals.Ref

/-! ## Memory -/

/-- Arrays of `double`, and the variables `d1` to `d4`, `dxy1`, `dxy2` of `update_mixed_derivatives`
(`src/reference/SerialCode/GALS_Advection.cpp:71-78,120`, `src/reference/AdvectionPointCalcs.h:380-381`). -/
inductive DVar
  | x | y | xadv | yadv
  | tempphi | temppsix | temppsiy | temppsixy
  | mphi | mpsix | mpsiy | mpsixy
  | d1 | d2 | d3 | d4 | dxy1 | dxy2
  deriving DecidableEq

/-- Arrays of `unsigned int` (`src/reference/SerialCode/GALS_Advection.cpp:117,129`). -/
inductive NVar
  | cellx | celly | tracker
  deriving DecidableEq

/-- An array element `a[i][j]`; `x[j]` is `x[0][j]`, a variable is at `[0][0]` (`src/reference/VariableDefinitions.h:9-12`). -/
inductive Loc
  | d (a : DVar) (i j : ℕ)
  | n (a : NVar) (i j : ℕ)
  deriving DecidableEq

/-- Values of an element (`src/reference/VariableDefinitions.h:9-12`). -/
@[reducible] def Val (K : Type) : Loc → Type
  | .d _ _ _ => K
  | .n _ _ _ => ℕ

/-- Programs of the reference code (such as `src/reference/AdvectionPointCalcs.h:61-97`). -/
abbrev P (K : Type) (α : Type) := Prog (Val K) α

/-- `a[i][j]` as a value (`src/reference/AdvectionPointCalcs.h:31`). -/
def getD {K : Type} (a : DVar) (i j : ℕ) : P K K := Prog.get (V := Val K) (.d a i j)
/-- `a[i][j] = v` (`src/reference/AdvectionPointCalcs.h:31`). -/
def setD {K : Type} (a : DVar) (i j : ℕ) (v : K) : P K Unit := Prog.set (V := Val K) (.d a i j) v
/-- `a[i][j]` as a value (`src/reference/AdvectionPointCalcs.h:323`). -/
def getN {K : Type} (a : NVar) (i j : ℕ) : P K ℕ := Prog.get (V := Val K) (.n a i j)
/-- `a[i][j] = v` (`src/reference/AdvectionPointCalcs.h:190`). -/
def setN {K : Type} (a : NVar) (i j : ℕ) (v : ℕ) : P K Unit := Prog.set (V := Val K) (.n a i j) v

/-- `for (i = 0; i < rows; i++) for (j = lo; j < hi; j++)` (`src/reference/AdvectionPointCalcs.h:24-25,65-66`). -/
def nodes (rows lo hi : ℕ) : List (ℕ × ℕ) :=
  (List.range rows).flatMap fun i => (List.range' lo (hi - lo)).map fun j => (i, j)

variable {K : Type} [Zero K] [One K] [Add K] [Sub K] [Mul K] [Div K] [Neg K] [NatCast K]

/-! ## Departure points -/

/-- Body of `advection_point` (`src/reference/AdvectionPointCalcs.h:68-90`). -/
def advBody (v : Vel K) (rk3 : Bool) (t : ℕ) (dt : K) (i j : ℕ) : P K Unit := do
  let c1 : K := 1 / 6
  let c2 : K := 1 / 6
  let c3 : K := 2 / 3
  let x ← getD .x 0 j
  let y ← getD .y 0 i
  let ux := v.velx x y (tm (uadd t 1) dt)
  let vy := v.vely x y (tm (uadd t 1) dt)
  setD .xadv i j (x - ux * dt)
  setD .yadv i j (y - vy * dt)
  if rk3 then
    let xa ← getD .xadv i j
    let ya ← getD .yadv i j
    let ux1 := v.velx xa ya (tm t dt)
    let vy1 := v.vely xa ya (tm t dt)
    setD .xadv i j (x - dt / 2 * (1 / 2 * ux + 1 / 2 * ux1))
    setD .yadv i j (y - dt / 2 * (1 / 2 * vy + 1 / 2 * vy1))
    let xa ← getD .xadv i j
    let ya ← getD .yadv i j
    let ux2 := v.velx xa ya (tm t dt + dt / 2)
    let vy2 := v.vely xa ya (tm t dt + dt / 2)
    setD .xadv i j (x - dt * (c1 * ux + c2 * ux1 + c3 * ux2))
    setD .yadv i j (y - dt * (c1 * vy + c2 * vy1 + c3 * vy2))
  else
    return ()

/-- `advection_point` (`src/reference/AdvectionPointCalcs.h:55-93`): `i < ny - 1`, `j < nx - 1`. -/
def advSerial (v : Vel K) (rk3 : Bool) (t : ℕ) (dt : K) (nx ny : ℕ) : List (P K Unit) :=
  (nodes (usub ny 1) 0 (usub nx 1)).map fun c => advBody v rk3 t dt c.1 c.2

/-- Body of `advection_point_MPI` (`src/reference/AdvectionPointCalcs.h:27-49`). -/
def advBodyMpi (v : Vel K) (rk3 : Bool) (t : ℕ) (dt : K) (i j : ℕ) : P K Unit := do
  let c1 : K := 1 / 6
  let c2 : K := 1 / 6
  let c3 : K := 2 / 3
  let x ← getD .x 0 j
  let y ← getD .y 0 i
  let ux := v.velx x y (tm (uadd t 1) dt)
  let vy := v.vely x y (tm (uadd t 1) dt)
  setD .xadv i j (x - ux * dt)
  setD .yadv i j (y - vy * dt)
  if rk3 then
    let xa ← getD .xadv i j
    let ya ← getD .yadv i j
    let ux1 := v.velx xa ya (tm t dt)
    let vy1 := v.vely xa ya (tm t dt)
    setD .xadv i j (x - dt / 2 * (1 / 2 * ux + 1 / 2 * ux1))
    setD .yadv i j (y - dt / 2 * (1 / 2 * vy + 1 / 2 * vy1))
    let xa ← getD .xadv i j
    let ya ← getD .yadv i j
    let ux2 := v.velx xa ya (tm t dt + dt / 2)
    let vy2 := v.vely xa ya (tm t dt + dt / 2)
    setD .xadv i j (x - dt * (c1 * ux + c2 * ux1 + c3 * ux2))
    setD .yadv i j (y - dt * (c1 * vy + c2 * vy1 + c3 * vy2))
  else
    return ()

/-- `advection_point_MPI` (`src/reference/AdvectionPointCalcs.h:13-53`), columns `lo` to `hi - 1`; iterations of an
`omp for`. -/
def advMpi (v : Vel K) (rk3 : Bool) (t : ℕ) (dt : K) (ny lo hi : ℕ) : List (P K Unit) :=
  (nodes ny lo hi).map fun c => advBodyMpi v rk3 t dt c.1 c.2

/-! ## Enclosing cell -/

section search
variable [LT K] [DecidableLT K] [LE K] [DecidableLE K]

/-- `std::lower_bound` on `a[first], ..., a[first + len - 1]`: the binary search of the C++ library (called at
`src/reference/AdvectionPointCalcs.h:116,118`). -/
def lowerBound (a : DVar) (p : K) (first len : ℕ) : P K ℕ :=
  if len = 0 then .pure first
  else Prog.bind (getD a 0 (first + len / 2)) fun v =>
    if v < p then lowerBound a p (first + len / 2 + 1) (len - len / 2 - 1) else lowerBound a p first (len / 2)
termination_by len
decreasing_by all_goals omega

/-- `std::lower_bound(a.begin(), a.end(), p) - a.begin() - 1`, stored in an `unsigned int`
(`src/reference/AdvectionPointCalcs.h:116-117`). -/
def cellOf (a : DVar) (n : ℕ) (p : K) : P K ℕ := do
  let l ← lowerBound a p 0 n
  return usub l 1

/-- Body of `find_advection_point_location` (`src/reference/AdvectionPointCalcs.h:104-159`); the text of
`find_advection_point_location_MPI` is the same (lines 175-230). -/
def findBody (xlim1 xlim2 ylim1 ylim2 : K) (nx ny i j : ℕ) : P K Unit := do
  let xa ← getD .xadv i j
  let ya ← getD .yadv i j
  let xout := !decide (xlim1 < xa ∧ xa < xlim2)
  let yout := !decide (ylim1 < ya ∧ ya < ylim2)
  if !xout && !yout then
    setN .tracker i j 1
    setN .cellx i j (← cellOf .x nx xa)
    setN .celly i j (← cellOf .y ny ya)
  else if !xout && yout then
    setN .tracker i j 2
    if ya ≤ ylim1 then
      setN .cellx i j (← cellOf .x nx xa)
      setN .celly i j 0
    else if ylim2 ≤ ya then
      setN .cellx i j (← cellOf .x nx xa)
      setN .celly i j (usub ny 2)
    else return ()
  else if xout && !yout then
    setN .tracker i j 3
    if xa ≤ xlim1 then
      setN .celly i j (← cellOf .y ny ya)
      setN .cellx i j 0
    else if xlim2 ≤ xa then
      setN .celly i j (← cellOf .y ny ya)
      setN .cellx i j (usub nx 2)
    else return ()
  else if xout && yout then
    setN .tracker i j 4
  else return ()

/-- `find_advection_point_location` (`src/reference/AdvectionPointCalcs.h:95-162`), and
`find_advection_point_location_MPI` (lines 164-234) with the columns `lo` to `hi - 1`. -/
def find (xlim1 xlim2 ylim1 ylim2 : K) (nx ny lo hi : ℕ) : List (P K Unit) :=
  (nodes ny lo hi).map fun c => findBody xlim1 xlim2 ylim1 ylim2 nx ny c.1 c.2

end search

/-! ## Level-set data -/

/-- The parameters `psischeme`, `backtrace_scheme` (`src/reference/Setting.h:28-29`). -/
structure Schemes where
  psischeme : String
  backtrace : String

/-- `strcmp("RK3", backtrace_scheme) == 0` (`src/reference/AdvectionPointCalcs.h:75`). -/
def Schemes.rk3 (s : Schemes) : Bool := s.backtrace == "RK3"

/-- One of the four arrays of a cell (`src/reference/AdvectionPointCalcs.h:325-328`); `cellindex_x + 1` is `unsigned int`
arithmetic. -/
def readFour (a : DVar) (cx cy : ℕ) : P K (Fin 4 → K) := do
  let a0 ← getD a cy cx
  let a1 ← getD a cy (uadd cx 1)
  let a2 ← getD a (uadd cy 1) cx
  let a3 ← getD a (uadd cy 1) (uadd cx 1)
  return ![a0, a1, a2, a3]

/-- Body of `update_levelset_data` (`src/reference/AdvectionPointCalcs.h:321-370`).  The spacings `dx = x[2] - x[1]`,
`dy = y[2] - y[1]` (lines 311, 313) are computed before the loop. -/
def updateBody (v : Vel K) (s : Schemes) (t : ℕ) (dt dx dy : K) (i j : ℕ) : P K Unit := do
  let cx ← getN .cellx i j
  let cy ← getN .celly i j
  let phi ← readFour .mphi cx cy
  let psix ← readFour .mpsix cx cy
  let psiy ← readFour .mpsiy cx cy
  let psixy ← readFour .mpsixy cx cy
  let c : CellData K := ⟨phi, psix, psiy, psixy⟩
  let xo ← getD .x 0 cx
  let yo ← getD .y 0 cy
  let x ← getD .x 0 j
  let y ← getD .y 0 i
  let xa ← getD .xadv i j
  let ya ← getD .yadv i j
  match ← getN .tracker i j with
  | 1 =>
    setD .tempphi i j (hp c xa ya xo yo dx dy)
    let rootpsix := hermx c xa ya xo yo dx dy
    let rootpsiy := hermy c xa ya xo yo dx dy
    if s.psischeme = "Heuns" then
      let r := heunsInternal v x y xa ya rootpsix rootpsiy t dt
      setD .temppsix i j r.1
      setD .temppsiy i j r.2
    else if s.psischeme = "SuperConsistent" then
      let r := superConsistent v s.rk3 x y rootpsix rootpsiy t dt
      setD .temppsix i j r.1
      setD .temppsiy i j r.2
    else return ()
  | 2 =>
    let rootpsix := hermx c xa y xo yo dx dy
    let rootpsiy ← getD .temppsiy i j
    setD .tempphi i j (hp c xa y xo yo dx dy - dt * v.vely x y (tm t dt) * rootpsiy)
    let pxy ← getD .temppsixy i j
    let px ← getD .temppsix i j
    setD .temppsix i j (heunsX v x y rootpsix rootpsiy pxy px t dt)
  | 3 =>
    let rootpsix ← getD .temppsix i j
    let rootpsiy := hermy c x ya xo yo dx dy
    setD .tempphi i j (hp c x ya xo yo dx dy - dt * v.velx x y (tm t dt) * rootpsix)
    let pxy ← getD .temppsixy i j
    let py ← getD .temppsiy i j
    setD .temppsiy i j (heunsY v x y rootpsix rootpsiy pxy py t dt)
  | 4 =>
    let p ← getD .tempphi i j
    let px ← getD .temppsix i j
    let py ← getD .temppsiy i j
    setD .tempphi i j (p - dt * (v.velx x y (tm t dt) * px + v.vely x y (tm t dt) * py))
  | _ => return ()

/-- The spacing `a[2] - a[1]` (`src/reference/AdvectionPointCalcs.h:311,313`). -/
def spacing (a : DVar) : P K K := do
  let a2 ← getD a 0 2
  let a1 ← getD a 0 1
  return a2 - a1

/-- The loop of `update_levelset_data` (`src/reference/AdvectionPointCalcs.h:318-319`), iterations of an `omp for`; and of
`update_levelset_data_mpi` (lines 236-301, the same body) with the columns `lo` to `hi - 1`, sequential. -/
def updateLoop (v : Vel K) (s : Schemes) (t : ℕ) (dt dx dy : K) (ny lo hi : ℕ) : List (P K Unit) :=
  (nodes ny lo hi).map fun c => updateBody v s t dt dx dy c.1 c.2

/-- `update_levelset_data` run by one thread (`src/reference/AdvectionPointCalcs.h:304-374`). -/
def update (v : Vel K) (s : Schemes) (t : ℕ) (dt : K) (nx ny : ℕ) : P K Unit := do
  let dx ← spacing .x
  let dy ← spacing .y
  Prog.seqAll (updateLoop v s t dt dx dy ny 0 nx)

/-! ## Mixed derivatives -/

/-- Body of `update_mixed_derivatives` (`src/reference/AdvectionPointCalcs.h:387-432`).  `d1` to `d4`, `dxy1`, `dxy2` are
declared outside `omp parallel` (lines 380-382), so they are shared. -/
def mixedBody (nx ny : ℕ) (dx dy : K) (k l : ℕ) : P K Unit := do
  if (k = 0 ∨ k = usub ny 1) ∧ (l ≠ 0 ∧ l ≠ usub nx 1) then
    let a ← getD .temppsiy k (uadd l 1)
    let b ← getD .temppsiy k (usub l 1)
    setD .temppsixy k l ((a - b) / (2 * dx))
  else if (k ≠ 0 ∧ k ≠ usub ny 1) ∧ (l = 0 ∨ l = usub nx 1) then
    let a ← getD .temppsix (uadd k 1) l
    let b ← getD .temppsix (usub k 1) l
    setD .temppsixy k l ((a - b) / (2 * dy))
  else if (k = 0 ∨ k = usub ny 1) ∧ (l = 0 ∨ l = usub nx 1) then
    if k = 0 ∧ l = 0 then
      setD .d1 0 0 (((← getD .temppsiy 0 1) - (← getD .temppsiy 0 0)) / dx)
      setD .d2 0 0 (((← getD .temppsix 1 0) - (← getD .temppsix 0 0)) / dy)
      setD .d3 0 0 (((← getD .temppsix 1 1) - (← getD .temppsix 0 1)) / dy)
      setD .d4 0 0 (((← getD .temppsiy 1 1) - (← getD .temppsiy 1 0)) / dx)
      setD .temppsixy k l (3 / 4 * ((← getD .d1 0 0) + (← getD .d2 0 0)) - 1 / 4 * ((← getD .d3 0 0) + (← getD .d4 0 0)))
    else if k = 0 ∧ l = usub nx 1 then
      setD .d1 0 0 (((← getD .temppsiy 0 (usub nx 1)) - (← getD .temppsiy 0 (usub nx 2))) / dx)
      setD .d2 0 0 (((← getD .temppsix 1 (usub nx 2)) - (← getD .temppsix 0 (usub nx 2))) / dy)
      setD .d3 0 0 (((← getD .temppsix 1 (usub nx 1)) - (← getD .temppsix 0 (usub nx 1))) / dy)
      setD .d4 0 0 (((← getD .temppsiy 1 (usub nx 1)) - (← getD .temppsiy 1 (usub nx 2))) / dx)
      setD .temppsixy k l (3 / 4 * ((← getD .d1 0 0) + (← getD .d3 0 0)) - 1 / 4 * ((← getD .d2 0 0) + (← getD .d4 0 0)))
    else if k = usub ny 1 ∧ l = 0 then
      setD .d1 0 0 (((← getD .temppsiy (usub ny 2) 1) - (← getD .temppsiy (usub ny 2) 0)) / dx)
      setD .d2 0 0 (((← getD .temppsix (usub ny 1) 0) - (← getD .temppsix (usub ny 2) 0)) / dy)
      setD .d3 0 0 (((← getD .temppsix (usub ny 1) 1) - (← getD .temppsix (usub ny 2) 1)) / dy)
      setD .d4 0 0 (((← getD .temppsiy (usub ny 1) 1) - (← getD .temppsiy (usub ny 1) 0)) / dx)
      setD .temppsixy k l (3 / 4 * ((← getD .d2 0 0) + (← getD .d4 0 0)) - 1 / 4 * ((← getD .d3 0 0) + (← getD .d1 0 0)))
    else if k = usub ny 1 ∧ l = usub nx 1 then
      setD .d1 0 0 (((← getD .temppsiy (usub ny 2) (usub nx 1)) - (← getD .temppsiy (usub ny 2) (usub nx 2))) / dx)
      setD .d2 0 0 (((← getD .temppsix (usub ny 1) (usub nx 2)) - (← getD .temppsix (usub ny 2) (usub nx 2))) / dy)
      setD .d3 0 0 (((← getD .temppsix (usub ny 1) (usub nx 1)) - (← getD .temppsix (usub ny 2) (usub nx 1))) / dy)
      setD .d4 0 0 (((← getD .temppsiy (usub ny 1) (usub nx 1)) - (← getD .temppsiy (usub ny 1) (usub nx 2))) / dx)
      setD .temppsixy k l (3 / 4 * ((← getD .d3 0 0) + (← getD .d4 0 0)) - 1 / 4 * ((← getD .d1 0 0) + (← getD .d2 0 0)))
    else return ()
  else
    setD .dxy1 0 0 (((← getD .temppsiy k (uadd l 1)) - (← getD .temppsiy k (usub l 1))) / (2 * dx))
    setD .dxy2 0 0 (((← getD .temppsix (uadd k 1) l) - (← getD .temppsix (usub k 1) l)) / (2 * dy))
    setD .temppsixy k l (((← getD .dxy1 0 0) + (← getD .dxy2 0 0)) / 2)

/-- The loop of `update_mixed_derivatives` (`src/reference/AdvectionPointCalcs.h:385-386`), iterations of an `omp for`; and
of `update_mixed_derivatives_mpi` (lines 439-495, the same body) with the columns `lo` to `hi - 1`, sequential. -/
def mixed (nx ny : ℕ) (dx dy : K) (lo hi : ℕ) : List (P K Unit) :=
  (nodes ny lo hi).map fun c => mixedBody nx ny dx dy c.1 c.2

end Gals.Ref
