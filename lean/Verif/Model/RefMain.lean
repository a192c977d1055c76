import Verif.Model.RefGrid
import Verif.Model.Vec

/-!
# Main programs of the reference code

`src/reference/SerialCode/GALS_Advection.cpp`, `src/reference/GALS_Advection_OpenMP.cpp` and `src/reference/Allocation.h`.

Simplifications.  The settings are parameters (in the source they are literals in `main` or in `Setting.h`).  Timers and
messages on `cout` are left out.  The text of a number (`std::fixed`, ten digits) is a token holding the number.  Opening and
closing of the files always succeed.  Allocation always succeeds.
-/

namespace Gals.Ref

/-! ## Settings -/

/-- Settings (`src/reference/SerialCode/GALS_Advection.cpp:45-59`, `src/reference/Setting.h:9-30`); `T_period` is part of
the velocity. -/
structure Setting (K : Type) where
  xlim1 : K
  xlim2 : K
  nx : ℕ
  ylim1 : K
  ylim2 : K
  ny : ℕ
  dt : K
  tfinal : K
  option : ℕ
  printstep : ℕ
  schemes : Schemes

/-- `initialize`, `derivxinit`, `derivyinit`, `derivxyinit` (`src/reference/InitializeLevelSet.h:13-32`). -/
structure Initial (K : Type) where
  phi : K → K → K
  psix : K → K → K
  psiy : K → K → K
  psixy : K → K → K

/-- The functions of `src/reference/InitializeLevelSet.h:13-32`. -/
noncomputable def initialCircle : Initial ℝ := ⟨initPhi, derivxinit, derivyinit, derivxyinit⟩

/-! ## Arrays -/

section arrays
variable {K : Type}

/-- `a.resize(rows, vectorarray(cols, v))` on an empty array (`src/reference/Allocation.h:15-18`,
`src/reference/SerialCode/GALS_Advection.cpp:121-122`). -/
def allocD (a : DVar) (rows cols : ℕ) (v : K) (m : Mem (Val K)) : Mem (Val K)
  | .d b i j => if b = a then (if i < rows ∧ j < cols then .val v else .oob) else m (.d b i j)
  | .n b i j => m (.n b i j)

/-- `a.resize(rows, intvectorarray(cols, v))` on an empty array
(`src/reference/SerialCode/GALS_Advection.cpp:118,130-131`). -/
def allocN (a : NVar) (rows cols v : ℕ) (m : Mem (Val K)) : Mem (Val K)
  | .d b i j => m (.d b i j)
  | .n b i j => if b = a then (if i < rows ∧ j < cols then .val v else .oob) else m (.n b i j)

/-- `dst = src`, or `gridarray dst(src)` (`src/reference/SerialCode/GALS_Advection.cpp:78,155-158`). -/
def copyD (dst src : DVar) (m : Mem (Val K)) : Mem (Val K)
  | .d b i j => if b = dst then m (.d src i j) else m (.d b i j)
  | .n b i j => m (.n b i j)

/-- `double d1, d2, d3, d4, dxy1, dxy2;` (`src/reference/AdvectionPointCalcs.h:380-381`). -/
def declMixed (m : Mem (Val K)) : Mem (Val K)
  | .d b i j =>
    if b = .d1 ∨ b = .d2 ∨ b = .d3 ∨ b = .d4 ∨ b = .dxy1 ∨ b = .dxy2 then (if i = 0 ∧ j = 0 then .uninit else .oob)
    else m (.d b i j)
  | .n b i j => m (.n b i j)

/-- A statement or loop executed by one thread (`src/reference/SerialCode/GALS_Advection.cpp:125`). -/
def exec (p : P K Unit) (m : Mem (Val K)) : M (Mem (Val K)) := (p.run m).map Prod.snd

/-- Value of an element (`src/reference/Allocation.h:73`). -/
def look (m : Mem (Val K)) (a : DVar) (i j : ℕ) : M K :=
  match m (.d a i j) with
  | .oob => .error .oob
  | .uninit => .error .uninit
  | .val v => .ok v

end arrays

variable {K : Type} [Zero K] [One K] [Add K] [Sub K] [Mul K] [Div K] [Neg K] [NatCast K]

/-- `gridnodes` (`src/reference/Allocation.h:44-54`). -/
def gridnodes (xlim1 ylim1 dx dy : K) (nx ny : ℕ) (m : Mem (Val K)) : M (Mem (Val K)) := do
  let m := allocD .x 1 nx 0 m
  let m := allocD .y 1 ny 0 m
  let m ← exec (.seqAll ((List.range nx).map fun i => setD .x 0 i (xlim1 + dx * (i : K)))) m
  exec (.seqAll ((List.range ny).map fun i => setD .y 0 i (ylim1 + dy * (i : K)))) m

/-- Body of `allocate_levelset_matrices` (`src/reference/Allocation.h:22-25`). -/
def initBody (f : Initial K) (i j : ℕ) : P K Unit := do
  let x ← getD .x 0 j
  let y ← getD .y 0 i
  setD .mphi i j (f.phi x y)
  setD .mpsix i j (f.psix x y)
  setD .mpsiy i j (f.psiy x y)
  setD .mpsixy i j (f.psixy x y)

/-- `allocate_levelset_matrices` (`src/reference/Allocation.h:12-28`). -/
def allocateLevelset (f : Initial K) (nx ny : ℕ) (m : Mem (Val K)) : M (Mem (Val K)) :=
  let m := allocD .mphi ny nx 0 m
  let m := allocD .mpsix ny nx 0 m
  let m := allocD .mpsiy ny nx 0 m
  let m := allocD .mpsixy ny nx 0 m
  exec (.seqAll ((nodes ny 0 nx).map fun c => initBody f c.1 c.2)) m

/-! ## Output -/

/-- What the program writes to a file (`src/reference/Allocation.h:73-96`). -/
inductive Tok (K : Type)
  | num (k : K)
  | comma
  | nl
  deriving DecidableEq

/-- What the program writes to `details.txt` (`src/reference/SerialCode/GALS_Advection.cpp:92`), commas left out. -/
structure Details (K : Type) where
  nx : ℕ
  ny : ℕ
  dx : K
  dy : K
  xlim1 : K
  xlim2 : K
  ylim1 : K
  ylim2 : K
  n : ℕ
  dt : K
  printstep : ℕ

/-- The files `phi.txt`, `psix.txt`, `psiy.txt`, `psixy.txt`, `Velocity_x.txt`, `Velocity_y.txt`, `details.txt`
(`src/reference/Allocation.h:63-68`). -/
structure Out (K : Type) where
  phi : List (Tok K)
  psix : List (Tok K)
  psiy : List (Tok K)
  psixy : List (Tok K)
  velx : List (Tok K)
  vely : List (Tok K)
  details : List (Details K)

/-- The files after `remove` (`src/reference/SerialCode/GALS_Advection.cpp:82-88`). -/
def Out.none : Out K := ⟨[], [], [], [], [], [], []⟩

/-- One row (`src/reference/Allocation.h:73-92`): the first element, then a comma and an element for `1 <= j < nx`, then the
end of line. -/
def printRow (g : ℕ → M K) (nx : ℕ) : M (List (Tok K)) := do
  let first ← g 0
  let rest ← (List.range' 1 (nx - 1)).mapM fun j => do
    let e ← g j
    return [Tok.comma, Tok.num e]
  return Tok.num first :: rest.flatten ++ [Tok.nl]

/-- One array (`src/reference/Allocation.h:70-96`): its rows and an empty line. -/
def printGrid (g : ℕ → ℕ → M K) (nx ny : ℕ) : M (List (Tok K)) := do
  let rows ← (List.range ny).mapM fun i => printRow (g i) nx
  return rows.flatten ++ [Tok.nl]

/-- One of the arrays of `allocate_levelset_velocity` (`src/reference/Allocation.h:30-42`). -/
def velocityArray (f : K → K → K → K) (nx ny : ℕ) (time : K) (m : Mem (Val K)) : M (ℕ → ℕ → M K) := do
  let rows ← (List.range ny).mapM fun i => (List.range nx).mapM fun j => do
    let x ← look m .x 0 j
    let y ← look m .y 0 i
    return f x y time
  return fun i j =>
    match rows[i]? with
    | none => .error .oob
    | some r =>
      match r[j]? with
      | none => .error .oob
      | some e => .ok e

/-- `fileprint` (`src/reference/Allocation.h:56-98`): appends to the files. -/
def fileprint (v : Vel K) (nx ny : ℕ) (time : K) (m : Mem (Val K)) (o : Out K) : M (Out K) := do
  let u ← velocityArray v.velx nx ny time m
  let w ← velocityArray v.vely nx ny time m
  let phi ← printGrid (look m .mphi) nx ny
  let psix ← printGrid (look m .mpsix) nx ny
  let psiy ← printGrid (look m .mpsiy) nx ny
  let psixy ← printGrid (look m .mpsixy) nx ny
  let velx ← printGrid u nx ny
  let vely ← printGrid w nx ny
  return { o with phi := o.phi ++ phi, psix := o.psix ++ psix, psiy := o.psiy ++ psiy, psixy := o.psixy ++ psixy,
                  velx := o.velx ++ velx, vely := o.vely ++ vely }

/-! ## Time steps -/

section step
variable [LT K] [DecidableLT K] [LE K] [DecidableLE K]

/-- The arrays of the search (`src/reference/SerialCode/GALS_Advection.cpp:129-131`). -/
def stepCells (c : Setting K) (m : Mem (Val K)) : Mem (Val K) := allocN .celly c.ny c.nx 0 (allocN .cellx c.ny c.nx 0 m)

/-- The end of a step (`src/reference/SerialCode/GALS_Advection.cpp:155-158,171-175`); the arrays of the step are released
before the output instead of after it. -/
def stepFinish (m : Mem (Val K)) : Mem (Val K) :=
  let m := copyD .mphi .tempphi m
  let m := copyD .mpsix .temppsix m
  let m := copyD .mpsiy .temppsiy m
  let m := copyD .mpsixy .temppsixy m
  let m := allocD .xadv 0 0 0 m
  let m := allocD .yadv 0 0 0 m
  let m := allocN .tracker 0 0 0 m
  let m := allocN .cellx 0 0 0 m
  allocN .celly 0 0 0 m

/-- The rest of a step, from the cells on (`src/reference/SerialCode/GALS_Advection.cpp:129-158,171-175`,
`src/reference/GALS_Advection_OpenMP.cpp:137-155`). -/
def stepTail (c : Setting K) (v : Vel K) (dx dy : K) (t : ℕ) (m : Mem (Val K)) : M (Mem (Val K)) := do
  let m ← exec (.seqAll (find c.xlim1 c.xlim2 c.ylim1 c.ylim2 c.nx c.ny 0 c.nx)) (stepCells c m)
  let m ← exec (update v c.schemes t c.dt c.nx c.ny) m
  let m ← exec (.seqAll (mixed c.nx c.ny dx dy 0 c.nx)) (declMixed m)
  return stepFinish m

/-- The arrays of a step (`src/reference/SerialCode/GALS_Advection.cpp:117-122`). -/
def stepArrays (c : Setting K) (m : Mem (Val K)) : Mem (Val K) :=
  allocD .yadv c.ny c.nx 0 (allocD .xadv c.ny c.nx 0 (allocN .tracker c.ny c.nx 0 m))

/-- Step `t` of the serial program (`src/reference/SerialCode/GALS_Advection.cpp:117-158,171-175`). -/
def stepSerial (c : Setting K) (v : Vel K) (dx dy : K) (t : ℕ) (m : Mem (Val K)) : M (Mem (Val K)) := do
  let m ← exec (.seqAll (advSerial v c.schemes.rk3 t c.dt c.nx c.ny)) (stepArrays c m)
  stepTail c v dx dy t m

/-- Step `t` of the OpenMP program run by one thread (`src/reference/GALS_Advection_OpenMP.cpp:128-155`). -/
def stepOpenMP (c : Setting K) (v : Vel K) (dx dy : K) (t : ℕ) (m : Mem (Val K)) : M (Mem (Val K)) := do
  let m ← exec (.seqAll (advMpi v c.schemes.rk3 t c.dt c.ny 0 c.nx)) (stepArrays c m)
  stepTail c v dx dy t m

/-- A terminated execution of `#pragma omp for` over the iterations `ps`: any distribution over any number of threads, each
running its share in any order, and any interleaving of single accesses
(`src/reference/AdvectionPointCalcs.h:22-25,316-319`). -/
def ParFor (ps : List (P K Unit)) (m m' : Mem (Val K)) : Prop :=
  ∃ (css : List (List (P K Unit))) (qs : List (P K Unit)),
    css.flatten.Perm ps ∧ Interleaves (css.map Prog.seqAll, m) (qs, m') ∧ Ended qs

/-- The same when iterations do not overlap in time: any order, one iteration at a time
(`src/reference/AdvectionPointCalcs.h:382-385`). -/
def SerialFor (ps : List (P K Unit)) (m m' : Mem (Val K)) : Prop :=
  ∃ qs : List (P K Unit), qs.Perm ps ∧ exec (.seqAll qs) m = .ok m'

/-- An execution of step `t` of the OpenMP program by several threads (`src/reference/GALS_Advection_OpenMP.cpp:128-170`);
`loop` is the meaning of the parallel loop in `update_mixed_derivatives` (`ParFor` for the program as it is). -/
def OmpStep (loop : List (P K Unit) → Mem (Val K) → Mem (Val K) → Prop) (c : Setting K) (v : Vel K) (dx dy : K) (t : ℕ)
    (m m' : Mem (Val K)) : Prop :=
  ∃ m1 m2 m3 m4 sx sy,
    ParFor (advMpi v c.schemes.rk3 t c.dt c.ny 0 c.nx) (stepArrays c m) m1 ∧
    ParFor (find c.xlim1 c.xlim2 c.ylim1 c.ylim2 c.nx c.ny 0 c.nx) (stepCells c m1) m2 ∧
    (spacing .x).run m2 = .ok (sx, m2) ∧ (spacing .y).run m2 = .ok (sy, m2) ∧
    ParFor (updateLoop v c.schemes t c.dt sx sy c.ny 0 c.nx) m2 m3 ∧
    loop (mixed c.nx c.ny dx dy 0 c.nx) (declMixed m3) m4 ∧ m' = stepFinish m4

end step

/-! ## Main program -/

/-- The time loop (`src/reference/SerialCode/GALS_Advection.cpp:115-176`) with `r` iterations to go, from `t` on.  The
remainder by `printstep = 0` is undefined. -/
def timeLoop (step : ℕ → Mem (Val K) → M (Mem (Val K))) (c : Setting K) (v : Vel K) (p : ℕ) :
    ℕ → ℕ → Mem (Val K) × Out K → M (Mem (Val K) × Out K)
  | 0, _, s => .ok s
  | r + 1, t, s => do
    let m ← step t s.1
    if p = 0 then .error .exn
    else do
      let o ← if uadd t 1 % p = 0 then fileprint v c.nx c.ny (tm (uadd t 1) c.dt) m s.2 else .ok s.2
      timeLoop step c v p r (uadd t 1) (m, o)

section main
variable [LT K] [DecidableLT K] [LE K] [DecidableLE K] [HasFloor K]

/-- Conversion of a `double` to `unsigned int` (`src/reference/SerialCode/GALS_Advection.cpp:64`): truncation toward zero,
undefined when the result is not representable. -/
def toUnsigned (a : K) : M ℕ :=
  if a ≤ -1 then .error .conv
  else if a < 0 then .ok 0
  else
    let z := (HasFloor.floorI a).toNat
    if z < uMod then .ok z else .error .conv

/-- `unsigned int n = Tfinal / dt` (`src/reference/SerialCode/GALS_Advection.cpp:64`); the quotient by zero is not a finite
number, so its conversion is undefined. -/
def stepCount (c : Setting K) : M ℕ := if c.dt ≤ 0 ∧ 0 ≤ c.dt then .error .conv else toUnsigned (c.tfinal / c.dt)

/-- `if (option != 1) printstep = n;` (`src/reference/SerialCode/GALS_Advection.cpp:65-66`). -/
def printStep (c : Setting K) (n : ℕ) : ℕ := if c.option ≠ 1 then n else c.printstep

/-- `dx` (`src/reference/SerialCode/GALS_Advection.cpp:69`). -/
def Setting.dx (c : Setting K) : K := (c.xlim2 - c.xlim1) / ((usub c.nx 1 : ℕ) : K)
/-- `dy` (`src/reference/SerialCode/GALS_Advection.cpp:70`). -/
def Setting.dy (c : Setting K) : K := (c.ylim2 - c.ylim1) / ((usub c.ny 1 : ℕ) : K)

/-- Memory before the time loop (`src/reference/SerialCode/GALS_Advection.cpp:71-78`). -/
def setup (c : Setting K) (f : Initial K) : M (Mem (Val K)) := do
  let m ← gridnodes c.xlim1 c.ylim1 c.dx c.dy c.nx c.ny fun _ => .oob
  let m ← allocateLevelset f c.nx c.ny m
  let m := copyD .tempphi .mphi m
  let m := copyD .temppsix .mpsix m
  let m := copyD .temppsiy .mpsiy m
  return copyD .temppsixy .mpsixy m

/-- `main` with the given time step (`src/reference/SerialCode/GALS_Advection.cpp:42-192`). -/
def mainWith (step : Setting K → Vel K → K → K → ℕ → Mem (Val K) → M (Mem (Val K))) (c : Setting K) (v : Vel K)
    (f : Initial K) : M (Mem (Val K) × Out K) := do
  let n ← stepCount c
  let p := printStep c n
  let m ← setup c f
  let o ← fileprint v c.nx c.ny 0 m .none
  let o := { o with details := o.details ++
    [⟨c.nx, c.ny, c.dx, c.dy, c.xlim1, c.xlim2, c.ylim1, c.ylim2, n, c.dt, p⟩] }
  timeLoop (step c v c.dx c.dy) c v p n 0 (m, o)

/-- The serial program (`src/reference/SerialCode/GALS_Advection.cpp:42-192`). -/
def mainSerial (c : Setting K) (v : Vel K) (f : Initial K) : M (Mem (Val K) × Out K) := mainWith stepSerial c v f

/-- The OpenMP program (`src/reference/GALS_Advection_OpenMP.cpp:52-180`) with `argc` arguments.  Without a first argument
`strtol` gets a null pointer (lines 69-70). -/
def mainOpenMP (argc : ℕ) (c : Setting K) (v : Vel K) (f : Initial K) : M (Mem (Val K) × Out K) :=
  if argc ≤ 1 then .error .oob else mainWith stepOpenMP c v f

end main

end Gals.Ref
