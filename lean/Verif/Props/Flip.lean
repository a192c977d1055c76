import Verif.Lemmas.FlipDouble
import Verif.Props.LimitDouble

/-!
# C111: inside and outside are treated alike
-/

set_option linter.unusedSectionVars false

namespace Gals.Props

open Gals Gals.Spec

variable {d : ℕ}

/-- C111, interpolation: on level sets with opposite doubles (finite or not) the interpolation has the same fault or opposite
results, with limiting or without. -/
theorem C111_interpolate (s : IntSem) (g : Grid F64 d) (ls ls' : Levelset F64) (h : LsRel Opp ls ls') (x : Vec3 F64) (lim : Bool) :
    Same (InterpRel Opp) (interpolate s g ls x lim) (interpolate s g ls' x lim) :=
  interpolate_rel scaling_opp.closed s g h x lim

/-- C111, gradients. -/
theorem C111_gradient (sch : GradScheme) (s : IntSem) (ga gg : Grid F64 d) (phi phi' : Arr F64) (psi psi' : Arr (Vec3 F64))
    (h : ArrRel Opp phi phi') (h' : ArrRel (Vec3Rel Opp) psi psi') :
    Same (ArrRel (Vec3Rel Opp)) (gradScalar sch s ga gg phi psi) (gradScalar sch s ga gg phi' psi') :=
  grad_rel scaling_opp.closed sch s ga gg h h'

/-- C111, a semi-Lagrangian step: all fields are opposite afterwards. -/
theorem C111_step (s : IntSem) (g gv : Grid F64 d) (dt : F64) (vel : LsVelocity F64) (ls ls' : Levelset F64) (h : LsRel Opp ls ls') :
    Same (LsRel Opp) (temporal .semiLagrangian s g gv dt vel ls) (temporal .semiLagrangian s g gv dt vel ls') :=
  slEuler_rel scaling_opp.closed s g gv dt vel h

/-- C111, the time loop of the application: it ends after the same number of steps with the same time and velocity and with
opposite level sets, or with the same fault. -/
theorem C111_run [HasPi F64] (b : Build) (s : IntSem) (a : App F64) (t : F64) (vel : LsVelocity F64) (ls ls' : Levelset F64)
    (h : LsRel Opp ls ls') (r : M (F64 × LsVelocity F64 × Levelset F64)) (n : ℕ)
    (e : While (timeBody (appAdvance b s a) a.dt a.tEnd) (t, (vel, ls)) r n) :
    ∃ r', While (timeBody (appAdvance b s a) a.dt a.tEnd) (t, (vel, ls')) r' n ∧
      Same (fun x y => x.1 = y.1 ∧ x.2.1 = y.2.1 ∧ LsRel Opp x.2.2 y.2.2) r r' := by
  have body : ∀ (t : F64) (vel : LsVelocity F64) (ls ls' : Levelset F64), LsRel Opp ls ls' →
      Same (fun x y => x.1 = y.1 ∧ x.2.1 = y.2.1 ∧ x.2.2.1 = y.2.2.1 ∧ LsRel Opp x.2.2.2 y.2.2.2)
        (timeBody (appAdvance b s a) a.dt a.tEnd (t, (vel, ls))) (timeBody (appAdvance b s a) a.dt a.tEnd (t, (vel, ls'))) := by
    intro t vel ls ls' h
    refine Same.bind (appAdvance_rel scaling_opp.closed b s a (t + a.dt) vel h) fun x y hxy => ?_
    exact .ok ⟨rfl, rfl, hxy.1, hxy.2⟩
  generalize hst : (t, (vel, ls)) = st at e
  induction e generalizing t vel ls ls' with
  | fault hb =>
    subst hst
    have := body t vel ls ls' h
    rw [hb] at this
    generalize hb' : timeBody (appAdvance b s a) a.dt a.tEnd (t, (vel, ls')) = y at this
    cases this with
    | error => exact ⟨_, .fault hb', .error _⟩
  | stop hb =>
    subst hst
    have := body t vel ls ls' h
    rw [hb] at this
    generalize hb' : timeBody (appAdvance b s a) a.dt a.tEnd (t, (vel, ls')) = y at this
    cases this with
    | @ok _ z hz =>
      obtain ⟨z1, z2⟩ := z
      obtain ⟨h1, h2⟩ := hz
      cases h1
      exact ⟨_, .stop hb', .ok h2⟩
  | @again _ st' _ _ hb _ ih =>
    subst hst
    have := body t vel ls ls' h
    rw [hb] at this
    generalize hb' : timeBody (appAdvance b s a) a.dt a.tEnd (t, (vel, ls')) = y at this
    cases this with
    | @ok _ z hz =>
      obtain ⟨z1, z2, z3, z4⟩ := z
      obtain ⟨w2, w3, w4⟩ := st'
      obtain ⟨h1, h2, h3, h4⟩ := hz
      cases h1
      cases h2
      cases h3
      obtain ⟨r', e', k⟩ := ih _ _ _ _ h4 rfl
      exact ⟨r', .again hb' e', k⟩

/-- C111 in exact arithmetic, with limiting: interpolation and steps commute with multiplication of the level set by any number
except zero, in particular with a change of its unit. -/
theorem C111_units {K : Type} [Field K] [LinearOrder K] [IsStrictOrderedRing K] [HasFloor K] (k : K) (hk : k ≠ 0) (s : IntSem)
    (g gv : Grid K d) (dt : K) (vel : LsVelocity K) (ls ls' : Levelset K) (h : LsRel (fun a b => b = k * a) ls ls') :
    (∀ x lim, Same (InterpRel fun a b => b = k * a) (interpolate s g ls x lim) (interpolate s g ls' x lim)) ∧
    Same (LsRel fun a b => b = k * a) (temporal .semiLagrangian s g gv dt vel ls) (temporal .semiLagrangian s g gv dt vel ls') :=
  ⟨fun x lim => interpolate_rel (scaling_mul hk).closed s g h x lim, slEuler_rel (scaling_mul hk).closed s g gv dt vel h⟩

/-- Exchange of inside and outside. -/
def negateLs (ls : Levelset F64) : Levelset F64 where
  phi := { ls.phi with data := ls.phi.data.map (- ·) }
  psi := { ls.psi with data := ls.psi.data.map fun v => ⟨-v.x, -v.y, -v.z⟩ }
  phiMixed := { ls.phiMixed with data := ls.phiMixed.data.map fun l => l.map (- ·) }
  phiPrev := { ls.phiPrev with data := ls.phiPrev.data.map (- ·) }
  psiPrev := { ls.psiPrev with data := ls.psiPrev.data.map fun v => ⟨-v.x, -v.y, -v.z⟩ }
  phiMixedPrev := { ls.phiMixedPrev with data := ls.phiMixedPrev.data.map fun l => l.map (- ·) }
  phiInterpPrev := { ls.phiInterpPrev with data := ls.phiInterpPrev.data.map (- ·) }
  psiInterpPrev := { ls.psiInterpPrev with data := ls.psiInterpPrev.data.map fun v => ⟨-v.x, -v.y, -v.z⟩ }

/-- Every level set has an opposite one: the hypothesis of the theorems is met by all data. -/
theorem C111_negate (ls : Levelset F64) : LsRel Opp ls (negateLs ls) := by
  have m : ∀ {T : Type} (R : T → T → Prop) (f : T → T) (l : List T), (∀ t, R t (f t)) → List.Forall₂ R l (l.map f) := by
    intro T R f l h
    induction l with
    | nil => exact .nil
    | cons a l ih => exact .cons (h a) ih
  have s := fun l => m Opp (- ·) l opp_neg
  have v := fun l => m (Vec3Rel Opp) (fun v => ⟨-v.x, -v.y, -v.z⟩) l fun v => ⟨opp_neg _, opp_neg _, opp_neg _⟩
  have x := fun l => m (List.Forall₂ Opp) (fun l => l.map (- ·)) l s
  exact ⟨⟨rfl, rfl, rfl, rfl, s _⟩, ⟨rfl, rfl, rfl, rfl, v _⟩, ⟨rfl, rfl, rfl, rfl, x _⟩, ⟨rfl, rfl, rfl, rfl, s _⟩,
    ⟨rfl, rfl, rfl, rfl, v _⟩, ⟨rfl, rfl, rfl, rfl, x _⟩, ⟨rfl, rfl, rfl, rfl, s _⟩, ⟨rfl, rfl, rfl, rfl, v _⟩⟩

/-- Instance: the data of `C110_limited_inst` and their opposites, limited. -/
theorem C111_inst : ∃ (g : Grid F64 1) (ls : Levelset F64), threeD.make .wrap 1 = .ok g ∧
    PrevIs .wrap threeD g ls riseD steepD (fun _ => []) ∧
    ∃ (out out' : Interp F64) (v : ℚ), interpolate .wrap g ls ⟨1, 0, 0⟩ true = .ok out ∧ HasValue out.phi v ∧
      interpolate .wrap g (negateLs ls) ⟨1, 0, 0⟩ true = .ok out' ∧ InterpRel Opp out out' := by
  obtain ⟨g, ls, e, hl, out, v, k1, k2, -⟩ := C110_limited_inst
  refine ⟨g, ls, e, hl, ?_⟩
  have := C111_interpolate .wrap g ls (negateLs ls) (C111_negate ls) ⟨1, 0, 0⟩ true
  rw [k1] at this
  generalize hy : interpolate .wrap g (negateLs ls) ⟨1, 0, 0⟩ true = y at this
  cases this with
  | @ok _ b h => exact ⟨out, b, v, k1, k2, rfl, h⟩

/-- Instance: a step, of any level set on that grid, in doubles. -/
example (g : Grid F64 1) (ls : Levelset F64) (vel : LsVelocity F64) :
    Same (LsRel Opp) (temporal .semiLagrangian .wrap g g 1 vel ls) (temporal .semiLagrangian .wrap g g 1 vel (negateLs ls)) :=
  C111_step .wrap g g 1 vel ls _ (C111_negate ls)

/-- C111 for the explicit Euler scheme is false: with the level set zero, which is its own opposite, and velocity 1 a step of length
1 gives -1 everywhere, which is not opposite to itself (`src/cpu/temporal-schemes/euler.cc:59` subtracts the velocity, without the gradient
of the level set). -/
theorem C111_euler_false : ∃ (g : Grid F64 1) (vel : LsVelocity F64) (ls : Levelset F64), threeD.make .wrap 1 = .ok g ∧
    LsRel Opp ls ls ∧ ¬ Same (LsRel Opp) (temporal .euler .wrap g g 1 vel ls) (temporal .euler .wrap g g 1 vel ls) := by
  have run : (do let g : Grid F64 1 ← threeD.make .wrap 1
                 let ls ← temporal .euler .wrap g g 1 ⟨Arr.mk' g ⟨1, 0, 0⟩, Arr.mk' g Mat3.zero⟩ (Levelset.mk' g)
                 let y ← ls.phi.get .wrap g 0 0 0
                 pure (decide (y < 0))) = Except.ok (ε := Fault) true := by decide +kernel
  obtain ⟨g, e, -⟩ := make_ok .wrap threeD_valid
  have rep : ∀ {T : Type} (R : T → T → Prop) (t : T), R t t → ArrRel R (Arr.mk' g t) (Arr.mk' g t) := by
    intro T R t h
    refine ⟨rfl, rfl, rfl, rfl, ?_⟩
    change List.Forall₂ R (List.replicate g.size t) (List.replicate g.size t)
    induction g.size with
    | zero => exact .nil
    | succ n ih => exact .cons h ih
  have z : Opp 0 0 := opp_fin (Or.inl rfl)
  have zv : Vec3Rel Opp Vec3.zero Vec3.zero := ⟨z, z, z⟩
  refine ⟨g, ⟨Arr.mk' g ⟨1, 0, 0⟩, Arr.mk' g Mat3.zero⟩, Levelset.mk' g, e,
    ⟨rep _ _ z, rep _ _ zv, rep _ _ .nil, rep _ _ z, rep _ _ zv, rep _ _ .nil, rep _ _ z, rep _ _ zv⟩, fun h => ?_⟩
  rw [e] at run
  rw [M.ok_bind] at run
  generalize temporal .euler .wrap g g 1 ⟨Arr.mk' g ⟨1, 0, 0⟩, Arr.mk' g Mat3.zero⟩ (Levelset.mk' g) = y at h run
  cases h with
  | error f => simp [M.error_bind] at run
  | @ok a _ h =>
    rw [M.ok_bind] at run
    have := ArrRel.get h.phi .wrap g 0 0 0
    generalize a.phi.get .wrap g 0 0 0 = y at this run
    cases this with
    | error f => simp [M.error_bind] at run
    | @ok v _ h =>
      rw [M.ok_bind] at run
      injection run with run
      have run := of_decide_eq_true run
      rcases opp_cases h with ⟨rfl, -⟩ | ⟨s, e1, e2⟩ | ⟨s, t, x, hx, e1, e2, k⟩
      · exact absurd run (by decide)
      · rw [e1] at e2
        injection e2 with e2
        cases s <;> simp at e2
      · rw [e1] at e2
        injection e2 with e2
        rcases k with rfl | k
        · rw [e1] at run
          have : F64.signed s 0 < F64.signed false 0 := of_decide_eq_true run
          cases s <;> simp [F64.signed] at this
        · rw [← e2] at k
          cases s <;> simp at k

end Gals.Props
