import Verif.Spec.Flip
import Verif.Model.App

/-!
# Level sets that are alike only in shape, and runs of the application from given variables
-/

namespace Gals.Spec

variable {K : Type}

/-- Level sets with arrays of the same shape, whatever they hold. -/
def SameShape (ls ls' : Levelset K) : Prop := LsRel (fun _ _ => True) ls ls'

variable [Zero K] [One K] [Add K] [_root_.Sub K] [Mul K] [Div K] [Neg K] [NatCast K] [IntCast K]
  [LT K] [DecidableLT K] [LE K] [DecidableLE K]

/-- The rest of `main` once the parameter file has been read (`applications/advection/main.cc:138-163`): the possible outcomes. -/
def RunsFrom [HasPi K] [HasFloor K] (b : Build) (s : IntSem) (cwd : Path) (fs : Fs (Content K)) (p : M (App K)) (out : M (Fs (Content K))) : Prop :=
  (∃ f, p = .error f ∧ out = .error f) ∨
  ∃ a, p = .ok a ∧ ∃ r n, While (timeBody (appAdvance b s a) a.dt a.tEnd) (0, (a.vel, a.ls)) r n ∧
    out = (do
      let st ← r
      appFinish s cwd fs a st.2.1)

/-- A file that holds the document `doc` (and exists for the program). -/
def Holding (cwd : Path) (fs : Fs (Content K)) (file : String) (doc : Yaml) : Prop :=
  FileUtils.fileExists cwd fs file = true ∧ fs (resolve cwd file) = some (.file (.document doc))

end Gals.Spec
