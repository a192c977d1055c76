import Verif.Model.RefCuda
import Verif.Model.RefMain

/-!
# Main program of the CUDA version of the reference code

`src/reference/CUDA/GALS_Advection.cu`, `src/reference/CUDA/Allocation.h`.

Device and host have separate memories; the arrays are flat (element `k` is location `[0][k]`).  The device arrays `dphi`,
`dpsix`, `dpsiy`, `dpsixy` are `temp...`, the arrays `masterd...` are `m...`; the host arrays are `m...` of the host memory.

Simplifications.  The settings are parameters.  Timers and messages are left out.  CUDA calls succeed: enough memory, and a
block of `TileSize * TileSize` threads that the device accepts.  A kernel is run here thread after thread; `CudaStep` is the
meaning with any interleaving.  Numbers are copied between host and device in 4-byte words: a `double` has two, and `splice a
b` is the number whose first word is that of `a` and whose second word is that of `b`.
-/

namespace Gals.Ref

section memory
variable {K : Type}

/-- `malloc` or `cudaMalloc` of `n` numbers of type `double` (`src/reference/CUDA/GALS_Advection.cu:75,80,141`). -/
def mallocD (a : DVar) (n : ℕ) (m : Mem (Val K)) : Mem (Val K)
  | .d b i j => if b = a then (if i = 0 ∧ j < n then .uninit else .oob) else m (.d b i j)
  | .n b i j => m (.n b i j)

/-- `cudaMalloc` of `n` numbers of type `unsigned int` (`src/reference/CUDA/GALS_Advection.cu:146-148`). -/
def mallocN (a : NVar) (n : ℕ) (m : Mem (Val K)) : Mem (Val K)
  | .d b i j => m (.d b i j)
  | .n b i j => if b = a then (if i = 0 ∧ j < n then .uninit else .oob) else m (.n b i j)

/-- Whether a location is outside every allocation (`src/reference/CUDA/GALS_Advection.cu:197`). -/
def isOob {α : Type} : Slot α → Bool
  | .oob => true
  | _ => false

/-- First word of `s`, second word of `d` (`src/reference/CUDA/GALS_Advection.cu:199`, when the number of words is odd). -/
def spliceSlot (splice : K → K → K) : Slot K → Slot K → Slot K
  | .val s, .val d => .val (splice s d)
  | .oob, _ => .oob
  | _, .oob => .oob
  | _, _ => .uninit

/-- `cudaMemcpy(dst, src, 4 * words, ...)` between the arrays of the same name of two memories
(`src/reference/CUDA/GALS_Advection.cu:83-84,197-199`). -/
def memcpy (splice : K → K → K) (a : DVar) (words : ℕ) (src dst : Mem (Val K)) : M (Mem (Val K)) :=
  if (List.range ((words + 1) / 2)).any fun k => isOob (src (.d a 0 k)) || isOob (dst (.d a 0 k)) then .error .oob
  else .ok fun
    | .d b i k =>
      if b = a ∧ i = 0 then
        if 2 * k + 2 ≤ words then src (.d a 0 k)
        else if 2 * k < words then spliceSlot splice (src (.d a 0 k)) (dst (.d a 0 k))
        else dst (.d b i k)
      else dst (.d b i k)
    | .n b i k => dst (.n b i k)

/-- `nx * ny` in `gridmemory` and `gridmemoryint`: a product of type `unsigned int`
(`src/reference/CUDA/GALS_Advection.cu:63-64`). -/
def gridSize (nx ny : ℕ) : ℕ := umul nx ny

/-- A kernel launch, thread after thread (`src/reference/CUDA/GALS_Advection.cu:152`). -/
def execKernel (tile nx ny : ℕ) (b : ℕ → ℕ → P K Unit) (m : Mem (Val K)) : M (Mem (Val K)) := do
  let ts ← launch tile nx ny
  exec (.seqAll (kernel tile ts b)) m

end memory

variable {K : Type} [Zero K] [One K] [Add K] [Sub K] [Mul K] [Div K] [Neg K] [NatCast K]

/-! ## Setup -/

/-- `gridnodes` on the host (`src/reference/CUDA/GALS_Advection.cu:75-77`, `src/reference/CUDA/Allocation.h:64-72`). -/
def gridnodesCuda (xlim1 ylim1 dx dy : K) (nx ny : ℕ) (m : Mem (Val K)) : M (Mem (Val K)) := do
  let m := mallocD .x nx m
  let m := mallocD .y ny m
  let m ← exec (.seqAll ((List.range nx).map fun i => setD .x 0 i (xlim1 + dx * (i : K)))) m
  exec (.seqAll ((List.range ny).map fun i => setD .y 0 i (ylim1 + dy * (i : K)))) m

/-- A thread of `allocate_levelset_matrices_CUDA` (`src/reference/CUDA/Allocation.h:12-37`) with the formulas `f` and the
arrays `a`, `b`, `c`, `d`; `blockDim.x` is the tile size. -/
def initCuda (f : Initial K) (a b c d : DVar) (nx ix iy : ℕ) : P K Unit := do
  let w := indexW nx ix iy
  let x ← getD .x 0 ix
  let y ← getD .y 0 iy
  setD a 0 w (f.phi x y)
  setD b 0 w (f.psix x y)
  setD c 0 w (f.psiy x y)
  setD d 0 w (f.psixy x y)

/-- Body of `allocate_levelset_matrices` on the host (`src/reference/CUDA/Allocation.h:44-48`). -/
def initFlat (f : Initial K) (nx i j : ℕ) : P K Unit := do
  let w := indexW nx j i
  let x ← getD .x 0 j
  let y ← getD .y 0 i
  setD .mphi 0 w (f.phi x y)
  setD .mpsix 0 w (f.psix x y)
  setD .mpsiy 0 w (f.psiy x y)
  setD .mpsixy 0 w (f.psixy x y)

/-- The four host arrays (`src/reference/CUDA/GALS_Advection.cu:87-90`). -/
def mallocHost (n : ℕ) (m : Mem (Val K)) : Mem (Val K) :=
  mallocD .mpsixy n (mallocD .mpsiy n (mallocD .mpsix n (mallocD .mphi n m)))

/-- The eight device arrays (`src/reference/CUDA/GALS_Advection.cu:95-104`). -/
def mallocDevice (n : ℕ) (m : Mem (Val K)) : Mem (Val K) :=
  mallocD .temppsixy n (mallocD .temppsiy n (mallocD .temppsix n (mallocD .tempphi n (mallocHost n m))))

/-- Memory of the device and of the host (`src/reference/CUDA/GALS_Advection.cu:75-110`). -/
structure Machine (K : Type) where
  dev : Mem (Val K)
  host : Mem (Val K)

/-- Memories before the time loop (`src/reference/CUDA/GALS_Advection.cu:73-110`); `g` are the formulas of the kernel, `f`
those of the host. -/
def setupCuda (tile : ℕ) (splice : K → K → K) (c : Setting K) (f g : Initial K) : M (Machine K) := do
  let host ← gridnodesCuda c.xlim1 c.ylim1 c.dx c.dy c.nx c.ny fun _ => .oob
  let dev : Mem (Val K) := mallocD .y c.ny (mallocD .x c.nx fun _ => .oob)
  let dev ← memcpy splice .x (2 * c.nx) host dev
  let dev ← memcpy splice .y (2 * c.ny) host dev
  let host := mallocHost (gridSize c.nx c.ny) host
  let dev := mallocDevice (gridSize c.nx c.ny) dev
  let dev ← execKernel tile c.nx c.ny (initCuda g .mphi .mpsix .mpsiy .mpsixy c.nx) dev
  let dev ← execKernel tile c.nx c.ny (initCuda g .tempphi .temppsix .temppsiy .temppsixy c.nx) dev
  let host ← exec (.seqAll ((nodes c.ny 0 c.nx).map fun k => initFlat f c.nx k.1 k.2)) host
  return ⟨dev, host⟩

/-! ## Output -/

/-- One of the arrays of `allocate_levelset_velocity` (`src/reference/CUDA/Allocation.h:53-62,77-80`); the array has
`nx * ny` (type `unsigned int`) elements. -/
def velocityFlat (f : K → K → K → K) (nx ny : ℕ) (time : K) (m : Mem (Val K)) : M (ℕ → ℕ → M K) := do
  let rows ← (List.range ny).mapM fun i => (List.range nx).mapM fun j => do
    let x ← look m .x 0 j
    let y ← look m .y 0 i
    if indexW nx j i < gridSize nx ny then return f x y time else .error .oob
  return fun i j =>
    match rows[i]? with
    | none => .error .oob
    | some r =>
      match r[j]? with
      | none => .error .oob
      | some e => .ok e

/-- `fileprint` (`src/reference/CUDA/Allocation.h:74-120`). -/
def fileprintCuda (v : Vel K) (nx ny : ℕ) (time : K) (m : Mem (Val K)) (o : Out K) : M (Out K) := do
  let at_ (a : DVar) (i j : ℕ) : M K := look m a 0 (indexW nx j i)
  let u ← velocityFlat v.velx nx ny time m
  let w ← velocityFlat v.vely nx ny time m
  let phi ← printGrid (at_ .mphi) nx ny
  let psix ← printGrid (at_ .mpsix) nx ny
  let psiy ← printGrid (at_ .mpsiy) nx ny
  let psixy ← printGrid (at_ .mpsixy) nx ny
  let velx ← printGrid u nx ny
  let vely ← printGrid w nx ny
  return { o with phi := o.phi ++ phi, psix := o.psix ++ psix, psiy := o.psiy ++ psiy, psixy := o.psixy ++ psixy,
                  velx := o.velx ++ velx, vely := o.vely ++ vely }

/-- The copies back to the host (`src/reference/CUDA/GALS_Advection.cu:197-199`): `mphi` and `mpsix` whole, of `mpsiy` only
`gridmemoryint` bytes, `mpsixy` not at all. -/
def download (splice : K → K → K) (nx ny : ℕ) (s : Machine K) : M (Machine K) := do
  let h ← memcpy splice .mphi (2 * gridSize nx ny) s.dev s.host
  let h ← memcpy splice .mpsix (2 * gridSize nx ny) s.dev h
  let h ← memcpy splice .mpsiy (gridSize nx ny) s.dev h
  return ⟨s.dev, h⟩

/-! ## Time steps -/

/-- The arrays of a step (`src/reference/CUDA/GALS_Advection.cu:139-148`). -/
def stepArraysCuda (n : ℕ) (m : Mem (Val K)) : Mem (Val K) :=
  mallocN .tracker n (mallocN .celly n (mallocN .cellx n (mallocD .yadv n (mallocD .xadv n m))))

/-- `cudaFree` (`src/reference/CUDA/GALS_Advection.cu:211-215`), done here before the output, which does not use these
arrays. -/
def stepFreeCuda (m : Mem (Val K)) : Mem (Val K) :=
  mallocN .tracker 0 (mallocN .celly 0 (mallocN .cellx 0 (mallocD .yadv 0 (mallocD .xadv 0 m))))

section step
variable [LT K] [DecidableLT K] [LE K] [DecidableLE K]

/-- The kernels of step `t` in their order (`src/reference/CUDA/GALS_Advection.cu:152,160,168,176,184`). -/
def stepKernels (c : Setting K) (v : Vel K) (t : ℕ) : List (ℕ → ℕ → P K Unit) :=
  [advCuda v t c.dt c.nx, findCuda c.xlim1 c.xlim2 c.ylim1 c.ylim2 c.nx c.ny, updateCuda v t c.dt c.nx, copyCuda c.nx,
    mixedCuda c.nx c.ny c.dx c.dy]

/-- Step `t` on the device (`src/reference/CUDA/GALS_Advection.cu:139-190,211-215`). -/
def stepCuda (tile : ℕ) (c : Setting K) (v : Vel K) (t : ℕ) (m : Mem (Val K)) : M (Mem (Val K)) := do
  let m ← (stepKernels c v t).foldlM (fun m b => execKernel tile c.nx c.ny b m) (stepArraysCuda (gridSize c.nx c.ny) m)
  return stepFreeCuda m

/-- A terminated execution of a kernel launch under any schedule of its threads
(`src/reference/CUDA/GALS_Advection.cu:152`). -/
def ParKernel (tile nx ny : ℕ) (b : ℕ → ℕ → P K Unit) (m m' : Mem (Val K)) : Prop :=
  ∃ ts, launch tile nx ny = .ok ts ∧ ParFor (kernel tile ts b) m m'

/-- Some schedule of the threads of a launch reaches undefined behaviour (`src/reference/CUDA/GALS_Advection.cu:168`). -/
def KernelFault (tile nx ny : ℕ) (b : ℕ → ℕ → P K Unit) (m : Mem (Val K)) : Prop :=
  ∃ (ts : List (ℕ × ℕ × ℕ × ℕ)) (css : List (List (P K Unit))) (qs : List (P K Unit)) (m' : Mem (Val K)),
    launch tile nx ny = .ok ts ∧ css.flatten.Perm (kernel tile ts b) ∧
    Interleaves (css.map Prog.seqAll, m) (qs, m') ∧ Faulty (qs, m')

/-- Terminated executions of consecutive kernels of one stream, which do not overlap
(`src/reference/CUDA/GALS_Advection.cu:152-184`). -/
def ParKernels (tile nx ny : ℕ) : List (ℕ → ℕ → P K Unit) → Mem (Val K) → Mem (Val K) → Prop
  | [], m, m' => m' = m
  | b :: bs, m, m' => ∃ m1, ParKernel tile nx ny b m m1 ∧ ParKernels tile nx ny bs m1 m'

/-- A terminated execution of step `t` on the device, any schedule
(`src/reference/CUDA/GALS_Advection.cu:139-190,211-215`). -/
def CudaStep (tile : ℕ) (c : Setting K) (v : Vel K) (t : ℕ) (m m' : Mem (Val K)) : Prop :=
  ∃ m1, ParKernels tile c.nx c.ny (stepKernels c v t) (stepArraysCuda (gridSize c.nx c.ny) m) m1 ∧ m' = stepFreeCuda m1

/-- Some execution of step `t` on the device reaches undefined behaviour
(`src/reference/CUDA/GALS_Advection.cu:139-190`). -/
def CudaFault (tile : ℕ) (c : Setting K) (v : Vel K) (t : ℕ) (m : Mem (Val K)) : Prop :=
  ∃ bs b bs' m1, stepKernels c v t = bs ++ b :: bs' ∧
    ParKernels tile c.nx c.ny bs (stepArraysCuda (gridSize c.nx c.ny) m) m1 ∧ KernelFault tile c.nx c.ny b m1

/-! ## Main program -/

/-- The time loop (`src/reference/CUDA/GALS_Advection.cu:137-216`) with `r` iterations to go, from `t` on. -/
def timeLoopCuda (tile : ℕ) (splice : K → K → K) (c : Setting K) (v : Vel K) (p : ℕ) :
    ℕ → ℕ → Machine K × Out K → M (Machine K × Out K)
  | 0, _, s => .ok s
  | r + 1, t, s => do
    let d ← stepCuda tile c v t s.1.dev
    if p = 0 then .error .exn
    else if uadd t 1 % p = 0 then do
      let s' ← download splice c.nx c.ny ⟨d, s.1.host⟩
      let o ← fileprintCuda v c.nx c.ny (tm (uadd t 1) c.dt) s'.host s.2
      timeLoopCuda tile splice c v p r (uadd t 1) (s', o)
    else timeLoopCuda tile splice c v p r (uadd t 1) (⟨d, s.1.host⟩, s.2)

/-- `main` (`src/reference/CUDA/GALS_Advection.cu:39-216`). -/
def mainCuda [HasFloor K] (tile : ℕ) (splice : K → K → K) (c : Setting K) (v : Vel K) (f g : Initial K) :
    M (Machine K × Out K) := do
  let n ← stepCount c
  let p := printStep c n
  let s ← setupCuda tile splice c f g
  let o ← fileprintCuda v c.nx c.ny 0 s.host .none
  let o := { o with details := o.details ++
    [⟨c.nx, c.ny, c.dx, c.dy, c.xlim1, c.xlim2, c.ylim1, c.ylim2, n, c.dt, p⟩] }
  timeLoopCuda tile splice c v p n 0 (s, o)

end step

/-- The formulas in the kernel (`src/reference/CUDA/Allocation.h:33-36`). -/
noncomputable def initialKernel : Initial ℝ :=
  ⟨fun x y => (initializeCuda x y).1, fun x y => (initializeCuda x y).2.1, fun x y => (initializeCuda x y).2.2.1,
    fun x y => (initializeCuda x y).2.2.2⟩

/-- The settings in the source (`src/reference/CUDA/GALS_Advection.cu:42-55`); the tile size is 16 (line 57). -/
noncomputable def settingCuda : Setting ℝ :=
  ⟨0, 1, 128, 0, 1, 128, 0.5 * 1 / 128, 1, 1, 16, ⟨"SuperConsistent", "RK3"⟩⟩

end Gals.Ref
