import Verif.Lemmas.Unseen
import Verif.Lemmas.FlipDouble
import Verif.Props.AppStep

/-!
# C115: the level set decides nothing but the level set
-/

set_option linter.unusedSectionVars false

namespace Gals.Props

open Gals Gals.Spec

section
variable {K : Type} [Zero K] [One K] [Add K] [_root_.Sub K] [Mul K] [Div K] [Neg K] [NatCast K] [IntCast K]
  [LT K] [DecidableLT K] [LE K] [DecidableLE K] [HasFloor K] {d : ℕ}

/-- C115, the library over any arithmetic: with level sets that have the same shape, whatever they hold, interpolation (limited or not), gradients and
both time steps stop with the same fault or both return. -/
theorem C115_library (s : IntSem) (g gv : Grid K d) (dt : K) (vel : LsVelocity K) (ls ls' : Levelset K) (h : SameShape ls ls') :
    (∀ x lim, Same (fun _ _ => True) (interpolate s g ls x lim) (interpolate s g ls' x lim)) ∧
    (∀ sch, Same (fun _ _ => True) (gradScalar sch s g g ls.phi ls.psi) (gradScalar sch s g g ls'.phi ls'.psi)) ∧
    (∀ sch, Same SameShape (temporal sch s g gv dt vel ls) (temporal sch s g gv dt vel ls')) := by
  have weak : ∀ {α β : Type} {R : α → β → Prop} {x : M α} {y : M β}, Same R x y → Same (fun _ _ => True) x y := by
    intro α β R x y h
    cases h with
    | ok _ => exact .ok trivial
    | error f => exact .error f
  refine ⟨fun x lim => weak (interpolate_rel closed_any s g h x lim), fun sch => weak (grad_rel closed_any sch s g g h.phi h.psi), fun sch => ?_⟩
  cases sch with
  | euler => exact euler_any s g gv dt vel h
  | semiLagrangian => exact slEuler_rel closed_any s g gv dt vel h

/-- C115, the time loop and the end of the application, for a grid of any padding: with variables that differ in the level set only, the possible
outcomes (a fault, or the files at the end) are the same. -/
theorem C115_run [HasPi K] (b : Build) (s : IntSem) (cwd : Path) (fs : Fs (Content K)) (a : App K) (ls' : Levelset K)
    (h : SameShape a.ls ls') (out : M (Fs (Content K))) :
    RunsFrom b s cwd fs (.ok a) out ↔ RunsFrom b s cwd fs (.ok { a with ls := ls' }) out :=
  have h : AppAlike a { a with ls := ls' } := ⟨rfl, h⟩
  ⟨runsFrom_of (.ok h), runsFrom_of (.ok h.symm)⟩

/-- C115, all of `main`: two parameter files that say the same except for centre, radius and gradient scheme of the level set have the same
outcomes: the same fault, or the same files at the end. -/
theorem C115_output [HasSqrt K] [HasPi K] (b : Build) (s : IntSem) (cv : Conv K) (cwd : Path) (fs : Fs (Content K)) (file file' : String)
    (rest rest' : List String) (doc doc' : Yaml) (hd : Holding cwd fs file doc) (hd' : Holding cwd fs file' doc') (f f' : InputFields K)
    (hp : parseDoc b cv doc InputFields.mk' = .ok f) (hp' : parseDoc b cv doc' InputFields.mk' = .ok f')
    (hf : f'.general = f.general ∧ f'.grid = f.grid ∧ f'.time = f.time ∧ f'.velocity = f.velocity)
    (hn : f'.levelset.name = f.levelset.name) (hr : f.levelset.radius.isSome ↔ f'.levelset.radius.isSome) (out : M (Fs (Content K))) :
    AppRuns b s cv cwd fs (file :: rest) out ↔ AppRuns b s cv cwd fs (file' :: rest') out := by
  have e : ∀ {file : String} {rest : List String} {doc : Yaml} {f : InputFields K}, Holding cwd fs file doc →
      parseDoc b cv doc InputFields.mk' = .ok f → appSetup b s cv cwd fs (file :: rest) = appPrepare s f := by
    intro file rest doc f h hp
    unfold appSetup
    simp only [h.1, h.2, if_true, hp, M.ok_bind]
  have eq : ∀ {args : List String}, AppRuns b s cv cwd fs args out ↔ RunsFrom b s cwd fs (appSetup b s cv cwd fs args) out := Iff.rfl
  rw [eq, eq, e hd hp, e hd' hp']
  obtain ⟨q1, q2, q3, q4⟩ := hf
  have k : f' = { f with levelset := f'.levelset } := by
    obtain ⟨f1, f2, f3, f4, f5⟩ := f
    obtain ⟨g1, g2, g3, g4, g5⟩ := f'
    cases q1; cases q2; cases q3; cases q4
    rfl
  have k' : f = { f' with levelset := f.levelset } := by
    obtain ⟨f1, f2, f3, f4, f5⟩ := f
    obtain ⟨g1, g2, g3, g4, g5⟩ := f'
    cases q1; cases q2; cases q3; cases q4
    rfl
  exact ⟨runsFrom_of (prepare_any s k (by rw [hn]) fun _ => hr), runsFrom_of (prepare_any s k' (by rw [hn]) fun _ => hr.symm)⟩

end

section instances

attribute [local instance] instHasPiRat

/-- Another level set of the same shape: 7 everywhere. -/
def sevens (ls : Levelset ℚ) : Levelset ℚ := { ls with phi := { ls.phi with data := ls.phi.data.map fun _ => 7 } }

theorem sevens_shape (ls : Levelset ℚ) : SameShape ls (sevens ls) := by
  have h := SameShape.refl ls
  refine ⟨⟨rfl, rfl, rfl, rfl, ?_⟩, h.psi, h.phiMixed, h.phiPrev, h.psiPrev, h.phiMixedPrev, h.phiInterpPrev, h.psiInterpPrev⟩
  change List.Forall₂ _ ls.phi.data (ls.phi.data.map fun _ => 7)
  induction ls.phi.data with
  | nil => exact .nil
  | cons a l ih => exact .cons trivial ih

/-- Instance of C115, the run: the sample grid with two ghost layers and rotation. The run with the level set 7 everywhere has the outcome of the run with
the sample level set, which makes some number of steps and returns. -/
theorem C115_inst : ∃ (a : App ℚ) (out : M (Fs (Content ℚ))) (n : ℕ) (r : ℚ × LsVelocity ℚ × Levelset ℚ),
    a.ls.phi.get .wrap a.g 0 2 0 = .ok (1 / 3 - 2) ∧
    While (timeBody (appAdvance .tests .wrap a) a.dt a.tEnd) (0, (a.vel, a.ls)) (.ok r) n ∧ out = appFinish .wrap [] appFs a r.2.1 ∧
    RunsFrom .tests .wrap [] appFs (.ok a) out ∧ RunsFrom .tests .wrap [] appFs (.ok { a with ls := sevens a.ls }) out := by
  obtain ⟨a, P, e1, e2, e3, e4⟩ := demo_app
  obtain ⟨n, vel, ls, -, h2, -⟩ := C73_run (demo 2) demo2_valid (demo_pos 2) (by decide) a demoPhi P (by rw [e1]) 2 1 [] (by rw [e1])
    (by rw [e3]; norm_num) (by rw [e3]; exact demo_small)
  have run := (h2 _ _).2 ⟨rfl, rfl⟩
  have k : RunsFrom .tests .wrap [] appFs (.ok a) (appFinish .wrap [] appFs a vel) := .inr ⟨a, rfl, _, n, run, rfl⟩
  refine ⟨a, _, n, _, ?_, run, rfl, k, (C115_run .tests .wrap [] appFs a _ (sevens_shape a.ls) _).1 k⟩
  have hi : (demo 2).Interior (0, 2, 0) := by unfold Req.Interior InteriorCell demo; simp
  have := P.phi.val (0, 2, 0) (by unfold Req.Padded PaddedCell padAlong demo; simp)
  rw [show demoPhi (0, 2, 0) = 1 / 3 - 2 by unfold demoPhi; rw [if_pos hi]; norm_num] at this
  exact this

/-- The sample document with radius 1 and another centre. -/
def demoDoc' : List (String × Yaml) :=
  ("levelset", .map [("name", .scalar "CIRCLE"), ("center", .seq [.scalar "1", .scalar "0.5", .scalar "0"]),
      ("radius", .scalar "1"), ("gradient", .map [("scheme", .scalar "CENTRAL")])]) :: demoDoc.tail

/-- The sample document at `/in`, the other at `/two`. -/
def appFs' : Fs (Content ℚ) := fun q =>
  if q = [] then some .dir else if q = [['i', 'n']] then some (.file (.document (.map demoDoc)))
  else if q = [['t', 'w', 'o']] then some (.file (.document (.map demoDoc'))) else none

/-- Instance of C115, all of `main`. -/
theorem C115_inst_output (sq : HasSqrt ℚ) (pi : HasPi ℚ) (out : M (Fs (Content ℚ))) :
    AppRuns .tests .wrap demoConv [] appFs' ["in"] out ↔ AppRuns .tests .wrap demoConv [] appFs' ["two"] out := by
  have h1 : appFs' (resolve [] "in") = some (.file (.document (.map demoDoc))) := by
    rw [show resolve [] "in" = [['i', 'n']] by decide]; rfl
  have h2 : appFs' (resolve [] "two") = some (.file (.document (.map demoDoc'))) := by
    rw [show resolve [] "two" = [['t', 'w', 'o']] by decide]; rfl
  exact C115_output .tests .wrap demoConv [] appFs' "in" "two" [] [] (.map demoDoc) (.map demoDoc') ⟨by decide, h1⟩ ⟨by decide, h2⟩ demoWant
    { demoWant with levelset := ⟨"CIRCLE", ⟨1, 1 / 2, 0⟩, some 1, "CENTRAL"⟩ } demo_parse rfl ⟨rfl, rfl, rfl, rfl⟩ rfl (by simp [demoWant]) out

/-- Instance of C115, the library, in doubles: 1 and NaN everywhere. -/
theorem C115_inst_library (g : Grid F64 2) (s : IntSem) (vel : LsVelocity F64) (dt : F64) :
    Same SameShape (temporal .semiLagrangian s g g dt vel { Levelset.mk' g with phiPrev := Arr.mk' g 1 })
      (temporal .semiLagrangian s g g dt vel { Levelset.mk' g with phiPrev := Arr.mk' g .nan }) := by
  refine (C115_library s g g dt vel _ _ ?_).2.2 .semiLagrangian
  have h := SameShape.refl (Levelset.mk' g : Levelset F64)
  exact ⟨h.phi, h.psi, h.phiMixed, ⟨rfl, rfl, rfl, rfl, List.forall₂_iff_get.2 ⟨by simp [Arr.mk'], fun _ _ _ => trivial⟩⟩, h.psiPrev,
    h.phiMixedPrev, h.phiInterpPrev, h.psiInterpPrev⟩

end instances

end Gals.Props
