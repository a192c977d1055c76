import Verif.Model.Files
import Verif.Model.Parser

/-!
# The advection application (`applications/advection/main.cc`)
-/

namespace Gals

variable {K : Type} [Zero K] [One K] [Add K] [Sub K] [Mul K] [Div K] [Neg K] [NatCast K] [IntCast K]
  [LT K] [DecidableLT K] [LE K] [DecidableLE K]

/-- What a file holds: an input document, or the lines written by `write` (`applications/advection/main.cc:163`).  Text is not
modelled. -/
inductive Content (K : Type)
  | document (doc : Yaml)
  | lines (l : List (Vec3 K × Vec3 K))

/-- Reading a `double` or an `int` that may not have been initialised (`applications/advection/main.cc:80-82,127-129`). -/
def initialised {α : Type} : Option α → M α
  | some a => .ok a
  | none => .error .uninit

/-- The loops that copy the grid positions (`applications/advection/main.cc:85-104`). -/
def copyPositions (s : IntSem) (g : Grid K 2) : M (Arr (Vec3 K)) := do
  let imin ← imul s (-g.pad) g.mask0
  let jmin ← imul s (-g.pad) g.mask1
  let kmin ← imul s (-g.pad) g.mask2
  let imax ← iadd s g.nx (← imul s g.pad g.mask0)
  let jmax ← iadd s g.ny (← imul s g.pad g.mask1)
  let kmax ← iadd s g.nz (← imul s g.pad g.mask2)
  loop (cells imin imax jmin jmax kmin kmax) (Arr.mk' g Vec3.zero) fun acc c => do
    let p ← g.at' s c.1 c.2.1 c.2.2
    acc.set s g c.1 c.2.1 c.2.2 p

/-- The local variables of `main` when the time loop begins (`applications/advection/main.cc:63-135`). -/
structure App (K : Type) where
  fileUtils : FileUtils
  g : Grid K 2
  positions : Arr (Vec3 K)
  velocityInputs : VelocityInputs K
  vel : LsVelocity K
  ls : Levelset K
  tEnd : K
  dt : K

/-- The inputs of the analytic level set (`applications/advection/main.cc:113,120`).  The radius is read only for the name
`CIRCLE` (`src/cpu/analytical-fields/levelset.cc:53-60`); for other names an arbitrary one is passed. -/
def levelsetInputs (f : LevelsetFields K) : M (LevelsetInputs K) :=
  match levelsetName f.name with
  | .circle => do
    let r ← initialised f.radius
    return ⟨f.name, f.center, r, f.gradientScheme⟩
  | .notDefined => .ok ⟨f.name, f.center, 0, f.gradientScheme⟩

/-- From the parsed fields to the beginning of the time loop (`applications/advection/main.cc:73-135`). -/
def appPrepare [HasSqrt K] (s : IntSem) (f : InputFields K) : M (App K) := do
  let fu := FileUtils.mk'.setRootDirectory (f.general.outputDirectory ++ "/")
  let nx ← initialised f.grid.nx
  let ny ← initialised f.grid.ny
  let nz ← initialised f.grid.nz
  let g ← (Grid.mk3 s 2 nx ny nz : M (Grid K 2))
  let x0 ← initialised f.grid.xMin
  let x1 ← initialised f.grid.xMax
  let y0 ← initialised f.grid.yMin
  let y1 ← initialised f.grid.yMax
  let z0 ← initialised f.grid.zMin
  let z1 ← initialised f.grid.zMax
  let g ← g.generate s x0 x1 y0 y1 z0 z1
  let positions ← copyPositions s g
  let inp ← levelsetInputs f.levelset
  let ls ← analyticLevelset s g g inp positions (Levelset.mk' g)
  let _tStart ← initialised f.time.start
  let tEnd ← initialised f.time.end'
  let dt ← initialised f.time.dt
  let dt := if f.time.constantDt = "NO" then g.dx.min * (1 / 2) else dt
  return ⟨fu, g, positions, f.velocity, LsVelocity.mk' g, ls, tEnd, dt⟩

/-- From the start of `main` to the beginning of the time loop (`applications/advection/main.cc:45-135`); `args` are the
arguments after the program name.  `YAML::LoadFile` throws on what is not a document. -/
def appSetup [HasSqrt K] (b : Build) (s : IntSem) (cv : Conv K) (cwd : Path) (fs : Fs (Content K)) (args : List String) :
    M (App K) :=
  match args with
  | [] => .error .exited
  | file :: _ =>
    if FileUtils.fileExists cwd fs file then
      match fs (resolve cwd file) with
      | some (.file (.document doc)) => do
        let f ← parseDoc b cv doc InputFields.mk'
        appPrepare s f
      | _ => .error .exn
    else .error .exited

/-- What a step does with the fields, at simulation time `t` (`applications/advection/main.cc:142-156`). -/
def appAdvance [HasPi K] [HasFloor K] (b : Build) (s : IntSem) (a : App K) (t : K) (x : LsVelocity K × Levelset K) :
    M (LsVelocity K × Levelset K) := do
  let vel ← analyticVelocity b s a.g a.g a.velocityInputs a.positions t x.1
  let ls := x.2
  let psi ← gradScalar .third s a.g a.g ls.phi ls.psi
  let ls := { ls with psi := psi }
  let ls := { ls with phiPrev := ls.phiPrev.assign ls.phi }
  let ls := { ls with psiPrev := ls.psiPrev.assign ls.psi }
  let ls ← temporal .semiLagrangian s a.g a.g a.dt vel ls
  return (vel, ls)

/-- The body of the time loop (`applications/advection/main.cc:139-159`) around the work `advance` of a step; the state is
`sim_time` and the fields, the `Bool` is `run_sim`. -/
def timeBody {σ : Type} (advance : K → σ → M σ) (dt tEnd : K) (st : K × σ) : M (Bool × (K × σ)) := do
  let t := st.1 + dt
  let x ← advance t st.2
  return (!(isEqual t tEnd || decide (tEnd < t)), (t, x))

/-- Execution of `while (run_sim) body` that was entered with `run_sim` true (`applications/advection/main.cc:138-159`): the
outcome and the number of times the body was started.  There is no derivation if the loop does not end. -/
inductive While {σ : Type} (body : σ → M (Bool × σ)) : σ → M σ → ℕ → Prop
  | fault {s : σ} {f : Fault} : body s = .error f → While body s (.error f) 1
  | stop {s s' : σ} : body s = .ok (false, s') → While body s (.ok s') 1
  | again {s s' : σ} {r : M σ} {n : ℕ} : body s = .ok (true, s') → While body s' r n → While body s r (n + 1)

/-- After the loop (`applications/advection/main.cc:161-163`). -/
def appFinish (s : IntSem) (cwd : Path) (fs : Fs (Content K)) (a : App K) (vel : LsVelocity K) : M (Fs (Content K)) := do
  let fs := (FileUtils.createDirectory cwd fs a.fileUtils.getRootDirectory).2
  FileUtils.write cwd fs (a.fileUtils.getRootDirectory ++ "velocity")
    (fun v => do return .lines (← v.print s a.g)) vel.velocity

/-- `main` (`applications/advection/main.cc:45-166`): the possible outcomes, each the file system at the end or a fault. -/
def AppRuns [HasSqrt K] [HasPi K] [HasFloor K] (b : Build) (s : IntSem) (cv : Conv K) (cwd : Path) (fs : Fs (Content K))
    (args : List String) (out : M (Fs (Content K))) : Prop :=
  (∃ f, appSetup b s cv cwd fs args = .error f ∧ out = .error f) ∨
  ∃ a, appSetup b s cv cwd fs args = .ok a ∧ ∃ r n,
    While (timeBody (appAdvance b s a) a.dt a.tEnd) (0, (a.vel, a.ls)) r n ∧
    out = (do
      let st ← r
      appFinish s cwd fs a st.2.1)

end Gals
