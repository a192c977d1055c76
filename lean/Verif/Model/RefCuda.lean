import Verif.Model.RefGrid

/-!
# CUDA version of the reference code (`src/reference/CUDA`)

A two-dimensional array is flat: element `k` is location `[0][k]`.  A kernel launch is the list of its threads, all
running in parallel; consecutive launches do not overlap (default stream).
-/

namespace Gals.Ref

/-! ## Launch -/

/-- `dimGrid(nx / dimBlock.x, ny / dimBlock.y)`, `dimBlock(TileSize, TileSize)`
(`src/reference/CUDA/GALS_Advection.cu:69-70`): the threads as `(bx, by, tx, ty)`.  `TileSize = 0` divides by zero. -/
def launch (tile nx ny : ℕ) : M (List (ℕ × ℕ × ℕ × ℕ)) :=
  if tile = 0 then .error .exn
  else
    .ok <| (List.range (ny / tile)).flatMap fun by_ => (List.range (nx / tile)).flatMap fun bx =>
      (List.range tile).flatMap fun ty => (List.range tile).map fun tx => (bx, by_, tx, ty)

/-- `index_x` (`src/reference/CUDA/AdvectionPointCalcsCUDA.cu:25`). -/
def indexX (tile : ℕ) (c : ℕ × ℕ × ℕ × ℕ) : ℕ := uadd (umul c.1 tile) c.2.2.1
/-- `index_y` (`src/reference/CUDA/AdvectionPointCalcsCUDA.cu:26`). -/
def indexY (tile : ℕ) (c : ℕ × ℕ × ℕ × ℕ) : ℕ := uadd (umul c.2.1 tile) c.2.2.2
/-- `indexToWrite` (`src/reference/CUDA/AdvectionPointCalcsCUDA.cu:31`). -/
def indexW (nx ix iy : ℕ) : ℕ := uadd (umul iy nx) ix

/-- The threads of a kernel with the body `b index_x index_y` (`src/reference/CUDA/GALS_Advection.cu:152`). -/
def kernel {K : Type} (tile : ℕ) (ts : List (ℕ × ℕ × ℕ × ℕ)) (b : ℕ → ℕ → P K Unit) : List (P K Unit) :=
  ts.map fun c => b (indexX tile c) (indexY tile c)

variable {K : Type} [Zero K] [One K] [Add K] [Sub K] [Mul K] [Div K] [Neg K] [NatCast K]

/-- `advection_point_cuda` (`src/reference/CUDA/AdvectionPointCalcsCUDA.cu:15-49`). -/
def advCuda (v : Vel K) (t : ℕ) (dt : K) (nx ix iy : ℕ) : P K Unit := do
  let c1 : K := 1 / 6
  let c2 : K := 1 / 6
  let c3 : K := 2 / 3
  let x ← getD .x 0 ix
  let y ← getD .y 0 iy
  let ux := v.velx x y (tm (uadd t 1) dt)
  let vy := v.vely x y (tm (uadd t 1) dt)
  let w := indexW nx ix iy
  setD .xadv 0 w (x - ux * dt)
  setD .yadv 0 w (y - vy * dt)
  let xa ← getD .xadv 0 w
  let ya ← getD .yadv 0 w
  let ux1 := v.velx xa ya (tm t dt)
  let vy1 := v.vely xa ya (tm t dt)
  setD .xadv 0 w (x - dt / 2 * (1 / 2 * ux + 1 / 2 * ux1))
  setD .yadv 0 w (y - dt / 2 * (1 / 2 * vy + 1 / 2 * vy1))
  let xa ← getD .xadv 0 w
  let ya ← getD .yadv 0 w
  let ux2 := v.velx xa ya (tm t dt + dt / 2)
  let vy2 := v.vely xa ya (tm t dt + dt / 2)
  setD .xadv 0 w (x - dt * (c1 * ux + c2 * ux1 + c3 * ux2))
  setD .yadv 0 w (y - dt * (c1 * vy + c2 * vy1 + c3 * vy2))

section search
variable [LT K] [DecidableLT K] [LE K] [DecidableLE K]

/-- The loop of `locationAlgo` (`src/reference/CUDA/AdvectionPointCalcsCUDA.cu:55-56`): `x[location]` is read before
`location < nx` is tested. -/
def locationLoop (a : DVar) (p : K) (nx loc : ℕ) : P K ℕ :=
  Prog.bind (getD a 0 loc) fun v => if v < p ∧ loc < nx then locationLoop a p nx (loc + 1) else .pure loc
termination_by nx - loc
decreasing_by omega

/-- `locationAlgo` (`src/reference/CUDA/AdvectionPointCalcsCUDA.cu:52-61`). -/
def locationAlgo (a : DVar) (p : K) (nx : ℕ) : P K ℕ := do
  let loc ← locationLoop a p nx 0
  return if loc = 0 then loc else loc - 1

/-- `find_advection_point_location_cuda` (`src/reference/CUDA/AdvectionPointCalcsCUDA.cu:76-116`). -/
def findCuda (xlim1 xlim2 ylim1 ylim2 : K) (nx ny ix iy : ℕ) : P K Unit := do
  let w := indexW nx ix iy
  let xa ← getD .xadv 0 w
  let ya ← getD .yadv 0 w
  let xout := !decide (xlim1 < xa ∧ xa < xlim2)
  let yout := !decide (ylim1 < ya ∧ ya < ylim2)
  if !xout && !yout then
    setN .tracker 0 w 1
    setN .cellx 0 w (← locationAlgo .x xa nx)
    setN .celly 0 w (← locationAlgo .y ya ny)
  else if !xout && yout then
    setN .tracker 0 w 2
    setN .cellx 0 w (← locationAlgo .x xa nx)
    if ya ≤ ylim1 then
      setN .celly 0 w 0
    else if ylim2 ≤ ya then
      setN .celly 0 w (usub ny 2)
    else return ()
  else if xout && !yout then
    setN .tracker 0 w 3
    setN .celly 0 w (← locationAlgo .y ya ny)
    if xa ≤ xlim1 then
      setN .cellx 0 w 0
    else if xlim2 ≤ xa then
      setN .cellx 0 w (usub nx 2)
    else return ()
  else if xout && yout then
    setN .tracker 0 w 4
  else return ()

end search

/-- One of the four arrays of a cell (`src/reference/CUDA/AdvectionPointCalcsCUDA.cu:146-149`). -/
def readFourCuda (a : DVar) (nx cell : ℕ) : P K (Fin 4 → K) := do
  let a0 ← getD a 0 cell
  let a1 ← getD a 0 (uadd cell 1)
  let a2 ← getD a 0 (uadd cell nx)
  let a3 ← getD a 0 (uadd (uadd cell nx) 1)
  return ![a0, a1, a2, a3]

/-- `update_levelset_data_cuda` (`src/reference/CUDA/AdvectionPointCalcsCUDA.cu:133-195`); the gradient scheme is always
`SuperConsistentScheme` of `src/reference/CUDA/TimeSteppingMethodsCUDA.cu:62-130`. -/
def updateCuda (v : Vel K) (t : ℕ) (dt : K) (nx ix iy : ℕ) : P K Unit := do
  let w := indexW nx ix iy
  let dx ← spacing .x
  let dy ← spacing .y
  let cx ← getN .cellx 0 w
  let cy ← getN .celly 0 w
  let cell := uadd cx (umul cy nx)
  let phi ← readFourCuda .mphi nx cell
  let psix ← readFourCuda .mpsix nx cell
  let psiy ← readFourCuda .mpsiy nx cell
  let psixy ← readFourCuda .temppsixy nx cell
  let c : CellData K := ⟨phi, psix, psiy, psixy⟩
  let xo ← getD .x 0 cx
  let yo ← getD .y 0 cy
  let x ← getD .x 0 ix
  let y ← getD .y 0 iy
  let xa ← getD .xadv 0 w
  let ya ← getD .yadv 0 w
  match ← getN .tracker 0 w with
  | 1 =>
    setD .tempphi 0 w (hp c xa ya xo yo dx dy)
    let rootpsix := hermx c xa ya xo yo dx dy
    let rootpsiy := hermy c xa ya xo yo dx dy
    let r := superConsistent v true x y rootpsix rootpsiy t dt
    setD .temppsix 0 w r.1
    setD .temppsiy 0 w r.2
  | 2 =>
    let rootpsix := hermx c xa y xo yo dx dy
    let rootpsiy ← getD .temppsiy 0 w
    setD .tempphi 0 w (hp c xa y xo yo dx dy - dt * v.vely x y (tm t dt) * rootpsiy)
    let pxy ← getD .temppsixy 0 w
    let px ← getD .temppsix 0 w
    setD .temppsix 0 w (heunsX v x y rootpsix rootpsiy pxy px t dt)
  | 3 =>
    let rootpsix ← getD .temppsix 0 w
    let rootpsiy := hermy c x ya xo yo dx dy
    setD .tempphi 0 w (hp c x ya xo yo dx dy - dt * v.velx x y (tm t dt) * rootpsix)
    let pxy ← getD .temppsixy 0 w
    let py ← getD .temppsiy 0 w
    setD .temppsiy 0 w (heunsY v x y rootpsix rootpsiy pxy py t dt)
  | 4 =>
    let p ← getD .tempphi 0 w
    let px ← getD .temppsix 0 w
    let py ← getD .temppsiy 0 w
    setD .tempphi 0 w (p - dt * (v.velx x y (tm t dt) * px + v.vely x y (tm t dt) * py))
  | _ => return ()

/-- `devicetodevicecopy` (`src/reference/CUDA/HermiteCUDA.cu:9-26`). -/
def copyCuda (nx ix iy : ℕ) : P K Unit := do
  let w := indexW nx ix iy
  setD .mphi 0 w (← getD .tempphi 0 w)
  setD .mpsix 0 w (← getD .temppsix 0 w)
  setD .mpsiy 0 w (← getD .temppsiy 0 w)

/-- `update_mixed_derivatives` (`src/reference/CUDA/AdvectionPointCalcsCUDA.cu:210-254`). -/
def mixedCuda (nx ny : ℕ) (dx dy : K) (ix iy : ℕ) : P K Unit := do
  let w := indexW nx ix iy
  let px (k : ℕ) : P K K := getD .temppsix 0 k
  let py (k : ℕ) : P K K := getD .temppsiy 0 k
  if (iy = 0 ∨ iy = usub ny 1) ∧ (ix ≠ 0 ∧ ix ≠ usub nx 1) then
    setD .temppsixy 0 w (((← py (uadd w 1)) - (← py (usub w 1))) / (2 * dx))
  else if (iy ≠ 0 ∧ iy ≠ usub ny 1) ∧ (ix = 0 ∨ ix = usub nx 1) then
    setD .temppsixy 0 w (((← px (uadd w nx)) - (← px (usub w nx))) / (2 * dy))
  else if (iy = 0 ∨ iy = usub ny 1) ∧ (ix = 0 ∨ ix = usub nx 1) then
    if iy = 0 ∧ ix = 0 then
      let d1 := ((← py 1) - (← py 0)) / dx
      let d2 := ((← px nx) - (← px 0)) / dy
      let d3 := ((← px (uadd nx 1)) - (← px 1)) / dy
      let d4 := ((← py (uadd nx 1)) - (← py nx)) / dx
      setD .temppsixy 0 w (3 / 4 * (d1 + d2) - 1 / 4 * (d3 + d4))
    else if iy = 0 ∧ ix = usub nx 1 then
      let d1 := ((← py (usub nx 1)) - (← py (usub nx 2))) / dx
      let d2 := ((← px (usub (uadd nx nx) 2)) - (← px (usub nx 2))) / dy
      let d3 := ((← px (usub (uadd nx nx) 1)) - (← px (usub nx 1))) / dy
      let d4 := ((← py (usub (uadd nx nx) 1)) - (← py (usub (uadd nx nx) 2))) / dx
      setD .temppsixy 0 w (3 / 4 * (d1 + d3) - 1 / 4 * (d2 + d4))
    else if iy = usub ny 1 ∧ ix = 0 then
      let r1 := umul nx (usub ny 1)
      let r2 := umul nx (usub ny 2)
      let d1 := ((← py (uadd r2 1)) - (← py r2)) / dx
      let d2 := ((← px r1) - (← px r2)) / dy
      let d3 := ((← px r1) - (← px (uadd r2 1))) / dy
      let d4 := ((← py (uadd r1 1)) - (← py r1)) / dx
      setD .temppsixy 0 w (3 / 4 * (d2 + d4) - 1 / 4 * (d3 + d1))
    else if iy = usub ny 1 ∧ ix = usub nx 1 then
      let r1 := uadd (umul nx (usub ny 1)) nx
      let r2 := uadd (umul nx (usub ny 2)) nx
      let d1 := ((← py (usub r2 1)) - (← py (usub r2 2))) / dx
      let d2 := ((← px (usub r1 2)) - (← px (usub r2 2))) / dy
      let d3 := ((← px (usub r1 1)) - (← px (usub r2 1))) / dy
      let d4 := ((← py (usub r1 1)) - (← py (usub r1 2))) / dx
      setD .temppsixy 0 w (3 / 4 * (d3 + d4) - 1 / 4 * (d1 + d2))
    else return ()
  else
    let dxy1 := ((← py (uadd w 1)) - (← py (usub w 1))) / (2 * dx)
    let dxy2 := ((← px (uadd w nx)) - (← px (usub w nx))) / (2 * dy)
    setD .temppsixy 0 w ((dxy1 + dxy2) / 2)

end Gals.Ref
