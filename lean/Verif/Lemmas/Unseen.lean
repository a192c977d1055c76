import Verif.Spec.Unseen
import Verif.Lemmas.Flip

/-!
# Runs with level sets of the same shape
-/

set_option linter.unusedSectionVars false

namespace Gals

open Gals.Spec

variable {K : Type} [Zero K] [One K] [Add K] [_root_.Sub K] [Mul K] [Div K] [Neg K] [NatCast K] [IntCast K]
  [LT K] [DecidableLT K] [LE K] [DecidableLE K] {d : ℕ}

theorem forall₂_refl {α : Type} {R : α → α → Prop} (h : ∀ a, R a a) (l : List α) : List.Forall₂ R l l := by
  induction l with
  | nil => exact .nil
  | cons a l ih => exact .cons (h a) ih

theorem ArrRel.refl {T : Type} {R : T → T → Prop} (h : ∀ a, R a a) (a : Arr T) : ArrRel R a a := ⟨rfl, rfl, rfl, rfl, forall₂_refl h _⟩

theorem Spec.SameShape.refl (ls : Levelset K) : SameShape ls ls :=
  have v : ∀ a : Vec3 K, Vec3Rel (fun _ _ => True) a a := fun _ => ⟨trivial, trivial, trivial⟩
  have l : ∀ a : List K, List.Forall₂ (fun _ _ => True) a a := forall₂_refl fun _ => trivial
  ⟨ArrRel.refl (fun _ => trivial) _, ArrRel.refl v _, ArrRel.refl l _, ArrRel.refl (fun _ => trivial) _, ArrRel.refl v _, ArrRel.refl l _,
    ArrRel.refl (fun _ => trivial) _, ArrRel.refl v _⟩

theorem euler_any (s : IntSem) (g gv : Grid K d) (dt : K) (vel : LsVelocity K) {ls ls' : Levelset K} (h : SameShape ls ls') :
    Same SameShape (explicitEuler s g gv dt vel ls) (explicitEuler s g gv dt vel ls') := by
  unfold explicitEuler
  rw [show ls.phi.interior = ls'.phi.interior from ArrRel.interior h.phi]
  refine Same.loop _ h fun u u' c h => ?_
  refine (ArrRel.get h.phiPrev s g _ _ _).bind fun p p' _ => Same.skip fun v => ?_
  refine (ArrRel.set h.phi s g _ _ _ trivial).bind fun q q' hq => .ok ?_
  exact ⟨hq, h.psi, h.phiMixed, h.phiPrev, h.psiPrev, h.phiMixedPrev, h.phiInterpPrev, h.psiInterpPrev⟩

theorem initial_any [HasSqrt K] (s : IntSem) (gp g : Grid K d) {i i' : LevelsetInputs K} (hn : levelsetName i.name = levelsetName i'.name)
    (positions : Arr (Vec3 K)) {ls ls' : Levelset K} (h : SameShape ls ls') :
    Same SameShape (analyticLevelset s gp g i positions ls) (analyticLevelset s gp g i' positions ls') := by
  unfold analyticLevelset
  rw [hn]
  cases levelsetName i'.name with
  | notDefined => exact .ok h
  | circle =>
    refine Same.bind (R := ArrRel fun _ _ => True) (Same.loop _ h.phi fun u u' c h => ?_) fun q q' hq => .ok ?_
    · exact Same.skip fun p => ArrRel.set h s g _ _ _ trivial
    · exact ⟨hq, h.psi, h.phiMixed, h.phiPrev, h.psiPrev, h.phiMixedPrev, h.phiInterpPrev, h.psiInterpPrev⟩

/-- The time loop. -/
theorem run_rel [HasFloor K] [HasPi K] {R : K → K → Prop} (S : Closed K R) (b : Build) (s : IntSem) (a a' : App K)
    (ha : appAdvance b s a' = appAdvance b s a) (hd : a'.dt = a.dt) (ht : a'.tEnd = a.tEnd) (t : K) (vel : LsVelocity K) (ls ls' : Levelset K)
    (h : LsRel R ls ls') (r : M (K × LsVelocity K × Levelset K)) (n : ℕ)
    (e : While (timeBody (appAdvance b s a) a.dt a.tEnd) (t, (vel, ls)) r n) :
    ∃ r', While (timeBody (appAdvance b s a') a'.dt a'.tEnd) (t, (vel, ls')) r' n ∧
      Same (fun x y => x.1 = y.1 ∧ x.2.1 = y.2.1 ∧ LsRel R x.2.2 y.2.2) r r' := by
  rw [ha, hd, ht]
  have body : ∀ (t : K) (vel : LsVelocity K) (ls ls' : Levelset K), LsRel R ls ls' →
      Same (fun x y => x.1 = y.1 ∧ x.2.1 = y.2.1 ∧ x.2.2.1 = y.2.2.1 ∧ LsRel R x.2.2.2 y.2.2.2)
        (timeBody (appAdvance b s a) a.dt a.tEnd (t, (vel, ls))) (timeBody (appAdvance b s a) a.dt a.tEnd (t, (vel, ls'))) := by
    intro t vel ls ls' h
    refine Same.bind (appAdvance_rel S b s a (t + a.dt) vel h) fun x y hxy => ?_
    exact .ok ⟨rfl, rfl, hxy.1, hxy.2⟩
  generalize hst : (t, (vel, ls)) = st at e
  induction e generalizing t vel ls ls' with
  | fault hb =>
    subst hst
    have := body t vel ls ls' h
    rw [hb] at this
    generalize hb' : timeBody (appAdvance b s a) a.dt a.tEnd (t, (vel, ls')) = y at this
    cases this with
    | error => exact ⟨_, .fault hb', .error _⟩
  | stop hb =>
    subst hst
    have := body t vel ls ls' h
    rw [hb] at this
    generalize hb' : timeBody (appAdvance b s a) a.dt a.tEnd (t, (vel, ls')) = y at this
    cases this with
    | @ok _ z hz =>
      obtain ⟨z1, z2⟩ := z
      obtain ⟨h1, h2⟩ := hz
      cases h1
      exact ⟨_, .stop hb', .ok h2⟩
  | @again _ st' _ _ hb _ ih =>
    subst hst
    have := body t vel ls ls' h
    rw [hb] at this
    generalize hb' : timeBody (appAdvance b s a) a.dt a.tEnd (t, (vel, ls')) = y at this
    cases this with
    | @ok _ z hz =>
      obtain ⟨z1, z2, z3, z4⟩ := z
      obtain ⟨w2, w3, w4⟩ := st'
      obtain ⟨h1, h2, h3, h4⟩ := hz
      cases h1
      cases h2
      cases h3
      obtain ⟨r', e', k⟩ := ih _ _ _ _ h4 rfl
      exact ⟨r', .again hb' e', k⟩

/-- Variables of the application that differ in the level set only. -/
structure AppAlike (a a' : App K) : Prop where
  rest : a' = { a with ls := a'.ls }
  ls : SameShape a.ls a'.ls

theorem AppAlike.symm {a a' : App K} (h : AppAlike a a') : AppAlike a' a := by
  obtain ⟨fu, g, p, v, w, l, t, u⟩ := a
  obtain ⟨fu', g', p', v', w', l', t', u'⟩ := a'
  obtain ⟨h1, h2⟩ := h
  cases h1
  have flip : ∀ {T : Type} {R Q : T → T → Prop} {x y : Arr T}, (∀ a b, R a b → Q b a) → ArrRel R x y → ArrRel Q y x := fun {T R Q x y} hh k =>
    ⟨k.nx.symm, k.ny.symm, k.nz.symm, k.pad.symm, List.Forall₂.flip (k.data.imp hh)⟩
  have v : ∀ a b : Vec3 K, Vec3Rel (fun _ _ => True) a b → Vec3Rel (fun _ _ => True) b a := fun _ _ _ => ⟨trivial, trivial, trivial⟩
  have m : ∀ a b : List K, List.Forall₂ (fun _ _ => True) a b → List.Forall₂ (fun _ _ => True) b a := fun _ _ h => List.Forall₂.flip h
  exact ⟨rfl, flip (fun _ _ _ => trivial) h2.phi, flip v h2.psi, flip m h2.phiMixed, flip (fun _ _ _ => trivial) h2.phiPrev, flip v h2.psiPrev,
    flip m h2.phiMixedPrev, flip (fun _ _ _ => trivial) h2.phiInterpPrev, flip v h2.psiInterpPrev⟩

theorem runsFrom_of [HasFloor K] [HasPi K] {b : Build} {s : IntSem} {cwd : Path} {fs : Fs (Content K)} {p p' : M (App K)} (h : Same AppAlike p p')
    {out : M (Fs (Content K))} (r : RunsFrom b s cwd fs p out) : RunsFrom b s cwd fs p' out := by
  cases h with
  | error f =>
    rcases r with ⟨f', e, rfl⟩ | ⟨a, e, -⟩
    · exact .inl ⟨f', e, rfl⟩
    · cases e
  | @ok a a' h =>
    rcases r with ⟨f', e, -⟩ | ⟨a1, e, r, n, w, rfl⟩
    · cases e
    · cases e
      obtain ⟨fu, g, q, v, u, l, t, dt⟩ := a
      obtain ⟨fu', g', q', v', u', l', t', dt'⟩ := a'
      obtain ⟨h1, h2⟩ := h
      cases h1
      obtain ⟨r', w', k⟩ := run_rel closed_any b s ⟨fu, g, q, v, u, l, t, dt⟩ ⟨fu, g, q, v, u, l', t, dt⟩ rfl rfl rfl 0 u l l' h2 r n w
      refine .inr ⟨_, rfl, r', n, w', ?_⟩
      cases k with
      | error => rfl
      | @ok x y k =>
        obtain ⟨-, k, -⟩ := k
        simp only [M.ok_bind, k]
        rfl

theorem prepare_any [HasSqrt K] (s : IntSem) {f f' : InputFields K} (hf : f' = { f with levelset := f'.levelset })
    (hn : levelsetName f.levelset.name = levelsetName f'.levelset.name)
    (hr : levelsetName f.levelset.name = .circle → (f.levelset.radius.isSome ↔ f'.levelset.radius.isSome)) :
    Same AppAlike (appPrepare s f) (appPrepare s f') := by
  obtain ⟨f1, f2, f3, f4, l⟩ := f
  obtain ⟨f1', f2', f3', f4', l'⟩ := f'
  cases hf
  have inp : Same (fun i i' : LevelsetInputs K => levelsetName i.name = levelsetName i'.name) (levelsetInputs l) (levelsetInputs l') := by
    dsimp only at hn hr
    have hn' := hn
    unfold levelsetInputs
    rw [← hn]
    cases hc : levelsetName l.name with
    | notDefined => exact .ok hn'
    | circle =>
      have hr := hr hc
      cases e : l.radius with
      | none =>
        rw [e] at hr
        cases e' : l'.radius with
        | none => exact .error _
        | some x => rw [e'] at hr; simp at hr
      | some y =>
        rw [e] at hr
        cases e' : l'.radius with
        | none => rw [e'] at hr; simp at hr
        | some x => exact .ok hn'
  unfold appPrepare
  refine Same.skip fun nx => Same.skip fun ny => Same.skip fun nz => Same.skip fun g => Same.skip fun x0 => Same.skip fun x1 =>
    Same.skip fun y0 => Same.skip fun y1 => Same.skip fun z0 => Same.skip fun z1 => Same.skip fun g => Same.skip fun pos => ?_
  refine inp.bind fun i i' hi => (initial_any s g g hi pos (SameShape.refl _)).bind fun u u' hu => ?_
  refine Same.skip fun t0 => Same.skip fun t1 => Same.skip fun dt => .ok ⟨rfl, hu⟩

end Gals
