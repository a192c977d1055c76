import Verif.Model.RefMain

/-!
# The first serial program (`src/reference/OldSerialCode/GALS_Advection.cpp`)

It goes through the cells, not through the nodes: a node is updated by the first cell around it that accepts its departure
point.  `Hermite.h` and `Initializer_vortex.h` of the same directory have the functions of `Hermite.h`, `VortexVelocity.h`
and `InitializeLevelSet.h`.

Simplifications.  The settings are parameters (literals in the source, lines 48-63).  The arrays `u`, `v` (lines 126, 179-204)
and the variables `corner`, `np`, which nothing reads, the timers and the message at the end (lines 603-623) are left out; the
file output is commented out in the source.  `int` indices are natural numbers.  The loop variable `double t` has the values
0, 1, 2, ... exactly.  The four operands of the range test (lines 303-306) are read together.
-/

namespace Gals.Ref

variable {K : Type} [Zero K] [One K] [Add K] [Sub K] [Mul K] [Div K] [Neg K] [NatCast K]

/-! ## One cell -/

/-- Values of an array at the four nodes of a cell (`src/reference/OldSerialCode/GALS_Advection.cpp:239-254`). -/
def readFourOld (a : DVar) (i j : ℕ) : P K (Fin 4 → K) := do
  let a0 ← getD a i j
  let a1 ← getD a i (j + 1)
  let a2 ← getD a (i + 1) j
  let a3 ← getD a (i + 1) (j + 1)
  return ![a0, a1, a2, a3]

/-- `tempindex_y` (`src/reference/OldSerialCode/GALS_Advection.cpp:268`); the quotient is exact for `k < 4`. -/
def oldIndexY (i k : ℕ) : ℕ := ((i : ℤ) + (-2 * (k : ℤ) ^ 3 + 9 * (k : ℤ) ^ 2 - 7 * k) / 6).toNat
/-- `tempindex_x` (`src/reference/OldSerialCode/GALS_Advection.cpp:269`). -/
def oldIndexX (j k : ℕ) : ℕ := ((j : ℤ) + (2 * (k : ℤ) ^ 3 - 9 * (k : ℤ) ^ 2 + 10 * k) / 3).toNat

/-- `xr1`, `yr1`, `xr2`, `yr2`, `xadv`, `yadv` of a node (`src/reference/OldSerialCode/GALS_Advection.cpp:271-298`). -/
structure OldTrace (K : Type) where
  xr1 : K
  yr1 : K
  xr2 : K
  yr2 : K
  xadv : K
  yadv : K

/-- The departure point (`src/reference/OldSerialCode/GALS_Advection.cpp:271-298`).  `xr2`, `yr2` are only used with `RK3`;
here they are `xr1`, `yr1` otherwise. -/
def oldTrace (v : Vel K) (rk3 : Bool) (t dt x y : K) : OldTrace K :=
  let c1 : K := 1 / 6
  let c2 : K := 1 / 6
  let c3 : K := 2 / 3
  let ux := v.velx x y ((t + 1) * dt)
  let vy := v.vely x y ((t + 1) * dt)
  let xr1 := x - ux * dt
  let yr1 := y - vy * dt
  if rk3 then
    let ux1 := v.velx xr1 yr1 (t * dt)
    let vy1 := v.vely xr1 yr1 (t * dt)
    let xr2 := x - dt / 2 * (1 / 2 * ux + 1 / 2 * ux1)
    let yr2 := y - dt / 2 * (1 / 2 * vy + 1 / 2 * vy1)
    let ux2 := v.velx xr2 yr2 (t * dt + dt / 2)
    let vy2 := v.vely xr2 yr2 (t * dt + dt / 2)
    ⟨xr1, yr1, xr2, yr2, x - dt * (c1 * ux + c2 * ux1 + c3 * ux2), y - dt * (c1 * vy + c2 * vy1 + c3 * vy2)⟩
  else ⟨xr1, yr1, xr1, yr1, xr1, yr1⟩

/-- Super-consistent gradient (`src/reference/OldSerialCode/GALS_Advection.cpp:371-413`). -/
def oldSuper (v : Vel K) (rk3 : Bool) (t dt x y : K) (r : OldTrace K) (rootpsix rootpsiy : K) : K × K :=
  let graduxnode := v.gradUx x y ((t + 1) * dt)
  let graduynode := v.gradUy x y ((t + 1) * dt)
  let gradvxnode := v.gradVx x y ((t + 1) * dt)
  let gradvynode := v.gradVy x y ((t + 1) * dt)
  let gradxr1x := 1 - dt * graduxnode
  let gradxr1y := 0 - dt * graduynode
  let gradyr1x := 0 - dt * gradvxnode
  let gradyr1y := 1 - dt * gradvynode
  if rk3 then
    let gradux1 := v.gradUx r.xr1 r.yr1 (t * dt)
    let graduy1 := v.gradUy r.xr1 r.yr1 (t * dt)
    let gradvx1 := v.gradVx r.xr1 r.yr1 (t * dt)
    let gradvy1 := v.gradVy r.xr1 r.yr1 (t * dt)
    let gradux2 := v.gradUx r.xr2 r.yr2 (t * dt + dt / 2)
    let graduy2 := v.gradUy r.xr2 r.yr2 (t * dt + dt / 2)
    let gradvx2 := v.gradVx r.xr2 r.yr2 (t * dt + dt / 2)
    let gradvy2 := v.gradVy r.xr2 r.yr2 (t * dt + dt / 2)
    let gradxr2x := 1 - dt / 4 * (graduxnode + gradxr1x * gradux1 + gradyr1x * graduy1)
    let gradxr2y := 0 - dt / 4 * (graduynode + gradxr1y * gradux1 + gradyr1y * graduy1)
    let gradyr2x := 0 - dt / 4 * (gradvxnode + gradxr1x * gradvx1 + gradyr1x * gradvy1)
    let gradyr2y := 1 - dt / 4 * (gradvynode + gradxr1y * gradvx1 + gradyr1y * gradvy1)
    let gradxrx := 1 - dt / 6 * (graduxnode + gradxr1x * gradux1 + gradyr1x * graduy1 +
      4 * (gradxr2x * gradux2 + gradyr2x * graduy2))
    let gradxry := 0 - dt / 6 * (graduynode + gradxr1y * gradux1 + gradyr1y * graduy1 +
      4 * (gradxr2y * gradux2 + gradyr2y * graduy2))
    let gradyrx := 0 - dt / 6 * (gradvxnode + gradxr1x * gradvx1 + gradyr1x * gradvy1 +
      4 * (gradxr2x * gradvx2 + gradyr2x * gradvy2))
    let gradyry := 1 - dt / 6 * (gradvynode + gradxr1y * gradvx1 + gradyr1y * gradvy1 +
      4 * (gradxr2y * gradvx2 + gradyr2y * gradvy2))
    (gradxrx * rootpsix + gradyrx * rootpsiy, gradxry * rootpsix + gradyry * rootpsiy)
  else (gradxr1x * rootpsix + gradyr1x * rootpsiy, gradxr1y * rootpsix + gradyr1y * rootpsiy)

/-- Case 1: the departure point is in the cell (`src/reference/OldSerialCode/GALS_Advection.cpp:343-417`). -/
def oldInside (v : Vel K) (s : Schemes) (t dt dx dy : K) (c : CellData K) (xo yo x y : K) (r : OldTrace K) (ty tx : ℕ) :
    P K Unit := do
  setD .tempphi ty tx (hp c r.xadv r.yadv xo yo dx dy)
  let rootpsix := hermx c r.xadv r.yadv xo yo dx dy
  let rootpsiy := hermy c r.xadv r.yadv xo yo dx dy
  if s.psischeme = "Heuns" then
    let graduxnode := v.gradUx x y ((t + 1) * dt)
    let graduynode := v.gradUy x y ((t + 1) * dt)
    let gradvxnode := v.gradVx x y ((t + 1) * dt)
    let gradvynode := v.gradVy x y ((t + 1) * dt)
    let graduxroot := v.gradUx r.xadv r.yadv (t * dt)
    let graduyroot := v.gradUy r.xadv r.yadv (t * dt)
    let gradvxroot := v.gradVx r.xadv r.yadv (t * dt)
    let gradvyroot := v.gradVy r.xadv r.yadv (t * dt)
    setD .temppsix ty tx (rootpsix - dt * (graduxroot * rootpsix + gradvxroot * rootpsiy))
    setD .temppsiy ty tx (rootpsiy - dt * (graduyroot * rootpsix + gradvyroot * rootpsiy))
    let px ← getD .temppsix ty tx
    let py ← getD .temppsiy ty tx
    setD .temppsix ty tx (rootpsix - 1 / 2 * dt *
      (graduxroot * rootpsix + gradvxroot * rootpsiy + graduxnode * px + gradvxnode * py))
    let px ← getD .temppsix ty tx
    let py ← getD .temppsiy ty tx
    setD .temppsiy ty tx (rootpsiy - 1 / 2 * dt *
      (graduyroot * rootpsix + gradvyroot * rootpsiy + graduynode * px + gradvynode * py))
  else if s.psischeme = "SuperConsistent" then
    let q := oldSuper v s.rk3 t dt x y r rootpsix rootpsiy
    setD .temppsix ty tx q.1
    setD .temppsiy ty tx q.2
  else pure ()
  setN .tracker ty tx 1

/-- Case 2: outside along `y` (`src/reference/OldSerialCode/GALS_Advection.cpp:418-440`). -/
def oldOutY (v : Vel K) (t dt dx dy : K) (c : CellData K) (xo yo x y : K) (r : OldTrace K) (ty tx : ℕ) : P K Unit := do
  let rootpsix := hermx c r.xadv y xo yo dx dy
  let rootpsiy ← getD .temppsiy ty tx
  setD .tempphi ty tx (hp c r.xadv y xo yo dx dy - dt * v.vely x y (t * dt) * rootpsiy)
  let graduxnode := v.gradUx x y (t * dt)
  let gradvxnode := v.gradVx x y (t * dt)
  let graduxnew := v.gradUx x y ((t + 1) * dt)
  let gradvxnew := v.gradVx x y ((t + 1) * dt)
  let pxy ← getD .temppsixy ty tx
  let px ← getD .temppsix ty tx
  let temp := rootpsix - dt * (gradvxnode * rootpsiy + v.vely x y (t * dt) * pxy + graduxnode * px)
  setD .temppsix ty tx (rootpsix - dt / 2 * (gradvxnode * rootpsiy + v.vely x y (t * dt) * pxy + graduxnode * px +
    gradvxnew * rootpsiy + v.vely x y ((t + 1) * dt) * pxy + graduxnew * temp))
  setN .tracker ty tx 2

/-- Case 3: outside along `x` (`src/reference/OldSerialCode/GALS_Advection.cpp:441-464`). -/
def oldOutX (v : Vel K) (t dt dx dy : K) (c : CellData K) (xo yo x y : K) (r : OldTrace K) (ty tx : ℕ) : P K Unit := do
  let rootpsix ← getD .temppsix ty tx
  let rootpsiy := hermy c x r.yadv xo yo dx dy
  setD .tempphi ty tx (hp c x r.yadv xo yo dx dy - dt * v.velx x y (t * dt) * rootpsix)
  let graduynode := v.gradUy x y (t * dt)
  let gradvynode := v.gradVy x y (t * dt)
  let graduynew := v.gradUy x y ((t + 1) * dt)
  let gradvynew := v.gradVy x y ((t + 1) * dt)
  let pxy ← getD .temppsixy ty tx
  let py ← getD .temppsiy ty tx
  let temp := rootpsiy - dt * (graduynode * rootpsix + v.velx x y (t * dt) * pxy + gradvynode * py)
  setD .temppsiy ty tx (rootpsiy - dt / 2 * (graduynode * rootpsix + v.velx x y (t * dt) * pxy + gradvynode * py +
    graduynew * rootpsix + v.velx x y ((t + 1) * dt) * pxy + gradvynew * temp))
  setN .tracker ty tx 3

/-- Case 4: a corner of the grid (`src/reference/OldSerialCode/GALS_Advection.cpp:465-469`). -/
def oldCorner (v : Vel K) (t dt x y : K) (ty tx : ℕ) : P K Unit := do
  let p ← getD .tempphi ty tx
  let px ← getD .temppsix ty tx
  let py ← getD .temppsiy ty tx
  setD .tempphi ty tx (p - dt * (v.velx x y (t * dt) * px + v.vely x y (t * dt) * py))
  setN .tracker ty tx 4

section step
variable [LT K] [DecidableLT K] [LE K] [DecidableLE K]

/-- `count`: how the cell with corners `(x0, y0)`, `(x1, y1)` accepts a node
(`src/reference/OldSerialCode/GALS_Advection.cpp:265-267,303-332`). -/
def oldCount (c : Setting K) (x0 x1 y0 y1 xadv yadv : K) (ty tx : ℕ) : ℕ :=
  let temp1 := decide (x0 ≤ xadv ∧ xadv ≤ x1)
  let temp2 := decide (y0 ≤ yadv ∧ yadv ≤ y1)
  let count := 0
  let count := if temp1 && temp2 then 1 else count
  let count := if temp1 && !temp2 then (if yadv < c.ylim1 ∨ c.ylim2 < yadv then 2 else count) else count
  let count := if !temp1 && temp2 then (if xadv < c.xlim1 ∨ c.xlim2 < xadv then 3 else count) else count
  if !temp1 && !temp2 then
    (if (ty = 0 ∨ ty = c.ny - 1) ∧ (tx = 0 ∨ tx = c.nx - 1) then 4 else count) else count

/-- Body of the loop over the four nodes of a cell (`src/reference/OldSerialCode/GALS_Advection.cpp:263-479`). -/
def oldNode (c : Setting K) (v : Vel K) (dx dy t : K) (cell : CellData K) (xo yo : K) (i j k : ℕ) : P K Unit := do
  let ty := oldIndexY i k
  let tx := oldIndexX j k
  let tracker ← getN .tracker ty tx
  if tracker = 0 then
    let x ← getD .x 0 tx
    let y ← getD .y 0 ty
    let r := oldTrace v c.schemes.rk3 t c.dt x y
    let x0 ← getD .x 0 j
    let x1 ← getD .x 0 (j + 1)
    let y0 ← getD .y 0 i
    let y1 ← getD .y 0 (i + 1)
    match oldCount c x0 x1 y0 y1 r.xadv r.yadv ty tx with
    | 1 => oldInside v c.schemes t c.dt dx dy cell xo yo x y r ty tx
    | 2 => oldOutY v t c.dt dx dy cell xo yo x y r ty tx
    | 3 => oldOutX v t c.dt dx dy cell xo yo x y r ty tx
    | 4 => oldCorner v t c.dt x y ty tx
    | _ => return ()
  else return ()

/-- Body of the loop over the cells (`src/reference/OldSerialCode/GALS_Advection.cpp:238-481`). -/
def oldCell (c : Setting K) (v : Vel K) (dx dy t : K) (i j : ℕ) : P K Unit := do
  let phi ← readFourOld .mphi i j
  let psix ← readFourOld .mpsix i j
  let psiy ← readFourOld .mpsiy i j
  let psixy ← readFourOld .mpsixy i j
  let cell : CellData K := ⟨phi, psix, psiy, psixy⟩
  let xo ← getD .x 0 j
  let yo ← getD .y 0 i
  Prog.seqAll ((List.range 4).map fun k => oldNode c v dx dy t cell xo yo i j k)

/-- Body of the loop that copies the fields back (`src/reference/OldSerialCode/GALS_Advection.cpp:543-548`). -/
def oldCopy (k l : ℕ) : P K Unit := do
  setD .mphi k l (← getD .tempphi k l)
  setD .mpsix k l (← getD .temppsix k l)
  setD .mpsiy k l (← getD .temppsiy k l)
  setD .mpsixy k l (← getD .temppsixy k l)

/-- Step `t` (`src/reference/OldSerialCode/GALS_Advection.cpp:226-550`).  The text for the mixed derivatives (lines 484-536)
is that of `update_mixed_derivatives` with `int` for `unsigned int`; `d1` to `d4` (line 127) are made uninitialised at each step, not
once. -/
def stepOld (c : Setting K) (v : Vel K) (dx dy : K) (t : ℕ) (m : Mem (Val K)) : M (Mem (Val K)) := do
  let m ← exec (.seqAll ((nodes c.ny 0 c.nx).map fun n => setN .tracker n.1 n.2 0)) m
  let m ← exec (.seqAll ((nodes (c.ny - 1) 0 (c.nx - 1)).map fun n => oldCell c v dx dy t n.1 n.2)) m
  let m ← exec (.seqAll (mixed c.nx c.ny dx dy 0 c.nx)) (declMixed m)
  exec (.seqAll ((nodes c.ny 0 c.nx).map fun n => oldCopy n.1 n.2)) m

end step

/-! ## Main program -/

/-- A local array `double a[rows][cols]` (`src/reference/OldSerialCode/GALS_Advection.cpp:109,114,124`). -/
def declD (a : DVar) (rows cols : ℕ) (m : Mem (Val K)) : Mem (Val K)
  | .d b i j => if b = a then (if i < rows ∧ j < cols then .uninit else .oob) else m (.d b i j)
  | .n b i j => m (.n b i j)

/-- A local array `int a[rows][cols]` (`src/reference/OldSerialCode/GALS_Advection.cpp:121`). -/
def declN (a : NVar) (rows cols : ℕ) (m : Mem (Val K)) : Mem (Val K)
  | .d b i j => m (.d b i j)
  | .n b i j => if b = a then (if i < rows ∧ j < cols then .uninit else .oob) else m (.n b i j)

/-- The arrays of `main` (`src/reference/OldSerialCode/GALS_Advection.cpp:109,114,121,124`). -/
def oldArrays (nx ny : ℕ) (m : Mem (Val K)) : Mem (Val K) :=
  let m := declN .tracker ny nx (declD .y 1 ny (declD .x 1 nx m))
  let m := declD .mpsixy ny nx (declD .mpsiy ny nx (declD .mpsix ny nx (declD .mphi ny nx m)))
  declD .temppsixy ny nx (declD .temppsiy ny nx (declD .temppsix ny nx (declD .tempphi ny nx m)))

/-- Body of the initialisation (`src/reference/OldSerialCode/GALS_Advection.cpp:166-178`, and 185-198 for the columns from 1
on). -/
def oldInitBody (f : Initial K) (i j : ℕ) : P K Unit := do
  let x ← getD .x 0 j
  let y ← getD .y 0 i
  setD .mphi i j (f.phi x y)
  setD .tempphi i j (← getD .mphi i j)
  setD .mpsix i j (f.psix x y)
  setD .temppsix i j (← getD .mpsix i j)
  setD .mpsiy i j (f.psiy x y)
  setD .temppsiy i j (← getD .mpsiy i j)
  setD .mpsixy i j (f.psixy x y)
  setD .temppsixy i j (← getD .mpsixy i j)

/-- `dx` (`src/reference/OldSerialCode/GALS_Advection.cpp:108`). -/
def oldDx (c : Setting K) : K := (c.xlim2 - c.xlim1) / (((c.nx : K)) - 1)
/-- `dy` (`src/reference/OldSerialCode/GALS_Advection.cpp:113`). -/
def oldDy (c : Setting K) : K := (c.ylim2 - c.ylim1) / (((c.ny : K)) - 1)

/-- Memory before the time loop (`src/reference/OldSerialCode/GALS_Advection.cpp:107-214`). -/
def setupOld (c : Setting K) (f : Initial K) : M (Mem (Val K)) := do
  let m := oldArrays c.nx c.ny fun _ => .oob
  let m ← exec (.seqAll ((List.range c.nx).map fun i => setD .x 0 i (c.xlim1 + oldDx c * (i : K)))) m
  let m ← exec (.seqAll ((List.range c.ny).map fun i => setD .y 0 i (c.ylim1 + oldDy c * (i : K)))) m
  exec (.seqAll ((nodes c.ny 0 c.nx).map fun n => oldInitBody f n.1 n.2)) m

section main
variable [LT K] [DecidableLT K] [LE K] [DecidableLE K] [HasFloor K]

/-- `int n = Tfinal/dt` (`src/reference/OldSerialCode/GALS_Advection.cpp:68`): truncation; undefined when it does not fit. -/
def oldSteps (c : Setting K) : M ℤ :=
  if c.dt ≤ 0 ∧ 0 ≤ c.dt then .error .conv
  else
    let a := c.tfinal / c.dt
    let z := if a < 0 then -HasFloor.floorI (-a) else HasFloor.floorI a
    if -2147483648 ≤ z ∧ z ≤ 2147483647 then .ok z else .error .conv

/-- `for (t = 0; t < n; t++)` (`src/reference/OldSerialCode/GALS_Advection.cpp:226`) with `r` iterations to go, from `t` on. -/
def loopOld (c : Setting K) (v : Vel K) : ℕ → ℕ → Mem (Val K) → M (Mem (Val K))
  | 0, _, m => .ok m
  | r + 1, t, m => do
    let m ← stepOld c v (oldDx c) (oldDy c) t m
    loopOld c v r (t + 1) m

/-- `main` (`src/reference/OldSerialCode/GALS_Advection.cpp:43-623`): the fields at its end. -/
def mainOld (c : Setting K) (v : Vel K) (f : Initial K) : M (Mem (Val K)) := do
  let n ← oldSteps c
  let m ← setupOld c f
  loopOld c v n.toNat 0 m

end main

end Gals.Ref
