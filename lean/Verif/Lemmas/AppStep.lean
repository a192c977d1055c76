import Verif.Spec.AppStep
import Verif.Props.App
import Verif.Props.Temporal
import Verif.Props.RefHermite

/-!
# Steps of the application on a grid with enough ghost cells
-/

set_option linter.unusedSectionVars false
set_option linter.unusedSimpArgs false

namespace Gals

open Spec Props

variable {K : Type} [Field K] [LinearOrder K] [IsStrictOrderedRing K] [FloorRing K]

theorem nodePos_stored (r : Req K) (c : Cell) : nodePos r 2 c = storedPos r c := rfl

theorem around_base {r : Req K} (h : r.Valid 2) (hpos : r.Pos 2) {x : Vec3 K} {b : Cell} (H : BaseCell r 2 x b) :
    b = ((around r x).1 + (r.pad - 1), (around r x).2.1 + (r.pad - 1), 0) := by
  have key : ∀ a : Fin 3, a.val < 2 → comp b a = ⌊(x.get a - r.centre a (0 + (r.pad - 1))) / r.h a⌋ + (r.pad - 1) := by
    intro a ha
    have hh := h.h_pos hpos a ha
    have h1 := H.lo a ha
    have h2 := H.hi a ha
    rw [← sub_eq_iff_eq_add]
    symm
    rw [Int.floor_eq_iff, le_div_iff₀ hh, div_lt_iff₀ hh]
    unfold Req.centre at h1 h2 ⊢
    push_cast at h1 h2 ⊢
    constructor <;> nlinarith
  obtain ⟨i, j, k⟩ := b
  have k0 := key 0 (by decide)
  have k1 := key 1 (by decide)
  have k2 : k = 0 := H.unused 2 (by decide)
  refine Prod.ext k0 (Prod.ext k1 k2)

/-- The interpolation at a point in storage, without mixed derivatives. -/
theorem interpolate_patch {r : Req K} (h : r.Valid 2) (hpos : r.Pos 2) {g : Grid K 2} (e : r.make .wrap 2 = .ok g)
    {ls : Levelset K} {phi : Cell → K} {psi : Cell → Vec3 K} (P : PrevIs .wrap r g ls phi psi (fun _ => [0])) {x : Vec3 K}
    (hx : InStorage r 2 x) :
    interpolate .wrap g ls x false = .ok
      ⟨patchValue r phi psi ((around r x).1 + (r.pad - 1), (around r x).2.1 + (r.pad - 1), 0) x,
        patchGradient r phi psi ((around r x).1 + (r.pad - 1), (around r x).2.1 + (r.pad - 1), 0) x⟩ := by
  obtain ⟨b, q, H, eq, ei⟩ := C40_library r h hpos g e ls phi psi (fun _ => 0) P x hx
  have G := make_made h e
  have s00 := H.stencil h 0 0 0 (by simp) (by simp) (by simp)
  simp only [add_zero] at s00
  have hq := (G.atC s00).symm.trans eq
  cases hq
  rw [← around_base h hpos H]
  have hx0 : r.h 0 ≠ 0 := (h.h_pos hpos 0 (by decide)).ne'
  have hy0 : r.h 1 ≠ 0 := (h.h_pos hpos 1 (by decide)).ne'
  obtain ⟨i, j, k⟩ := b
  have hb : k = 0 := H.unused 2 (by decide)
  subst hb
  rw [ei]
  simp only [nodePos_stored]
  unfold patchValue patchGradient
  generalize hex : (x.x - (storedPos r (i, j, 0)).x) / r.h 0 = ex
  generalize hey : (x.y - (storedPos r (i, j, 0)).y) / r.h 1 = ey
  simp only [Ref.hp, Ref.hermx, Ref.hermy, Ref.outer, Ref.inner, List.foldl, Ref.basepolynomial, Ref.gradbpx, Ref.gradbpy,
    Ref.basePoly, Ref.basePoly', Ref.powSmall, hex, hey, refCell, patch, Fin.sum_univ_two, hVal, hSlope, hVal', hSlope']
  simp only [Matrix.cons_val_zero, Matrix.cons_val_one, Matrix.cons_val, if_true, one_ne_zero, if_false, Fin.val_zero,
    Fin.val_one, Nat.cast_zero, Nat.cast_one, add_zero]
  rw [Except.ok.injEq, Interp.mk.injEq, Vec3.mk.injEq]
  refine ⟨?_, ?_, ?_, rfl⟩
  all_goals simp only [sqr, cube]; field_simp; ring

theorem storedPos_step {r : Req K} {u : Vec3 K} {dt : K} {c : Cell} (hu : u.z = 0) :
    (nodePos r 2 c).sub (u.smul dt) = ⟨(storedPos r c).x - dt * u.x, (storedPos r c).y - dt * u.y, 0⟩ := by
  unfold Vec3.sub Vec3.smul
  rw [nodePos_stored, hu]
  refine congr (congr (congrArg Vec3.mk ?_) ?_) ?_
  · ring
  · ring
  · simp [storedPos]

/-- What is known of the fields between the steps of the application. -/
structure StepState (r : Req K) (a : App K) (x : LsVelocity K × Levelset K) (F : AppFields K) : Prop where
  phi : FieldIs .wrap r a.g x.2.phi F.phi
  psi : FieldIs .wrap r a.g x.2.psi F.psi
  phiPrev : ∃ f, FieldIs .wrap r a.g x.2.phiPrev f
  psiPrev : ∃ f, FieldIs .wrap r a.g x.2.psiPrev f
  phiInterpPrev : ∃ f, FieldIs .wrap r a.g x.2.phiInterpPrev f
  psiInterpPrev : ∃ f, FieldIs .wrap r a.g x.2.psiInterpPrev f
  mixed : FieldIs .wrap r a.g x.2.phiMixedPrev (fun _ => [0])
  velocity : ∃ f, FieldIs .wrap r a.g x.1.velocity f
  grad : ∃ m, FieldIs .wrap r a.g x.1.grad m ∧ ∀ c, r.Interior c → m c = Mat3.zero

theorem stepState_prepared {r : Req K} (h : r.Valid 2) {a : App K} {phi0 : Cell → K} (P : Prepared .wrap r a phi0) :
    StepState r a (a.vel, a.ls) ⟨phi0, fun _ => Vec3.zero⟩ := by
  have G := make_made h P.made
  have hl := P.ls
  refine ⟨P.phi, ?_, ⟨fun _ => 0, ?_⟩, ⟨fun _ => Vec3.zero, ?_⟩, ⟨fun _ => 0, ?_⟩, ⟨fun _ => Vec3.zero, ?_⟩, ?_,
    ⟨fun _ => Vec3.zero, ?_⟩, ⟨fun _ => Mat3.zero, ?_, fun _ _ => rfl⟩⟩
  all_goals dsimp only
  all_goals first | rw [hl] | rw [P.vel]
  all_goals exact fieldIs_mk G _

theorem identity_dot (dt : K) (q : Vec3 K) : (Mat3.identity.sub ((Mat3.zero : Mat3 K).smul dt)).dot q = q := by
  simp [Mat3.identity, Mat3.sub, Mat3.zero, Mat3.smul, Mat3.dot, Mat3.mk9, Mat3.pos]

/-- A step. -/
theorem appAdvance_ok [HasPi K] {r : Req K} (h : r.Valid 2) (hpos : r.Pos 2) (hpad : 2 ≤ r.pad) {a : App K}
    (hm : r.make .wrap 2 = .ok a.g) (hp : FieldIs .wrap r a.g a.positions (storedPos r))
    (hn : a.velocityInputs.name = "CIRCULAR") {c0 c1 : K} {rest : List K} (hc : a.velocityInputs.center = c0 :: c1 :: rest)
    (hs : SmallStep r (rotation circularCoeff c0 c1) a.dt) (t : K) {x : LsVelocity K × Levelset K} {F : AppFields K}
    (S : StepState r a x F) :
    ∃ x', appAdvance .tests .wrap a t x = .ok x' ∧
      StepState r a x' (advected r (rotation circularCoeff c0 c1) a.dt (r.pad - 1) F) ∧
      (∀ c, r.Interior c → x'.1.velocity.get .wrap a.g c.1 c.2.1 c.2.2 = .ok (rotation circularCoeff c0 c1 (storedPos r c))) ∧
      FieldIs .wrap r a.g x'.2.phiPrev F.phi ∧ FieldIs .wrap r a.g x'.2.psiPrev (startSlope r F) := by
  have G := make_made h hm
  obtain ⟨vel, ls⟩ := x
  obtain ⟨p1, p2, ⟨f3, p3⟩, ⟨f4, p4⟩, ⟨f5, p5⟩, ⟨f6, p6⟩, p7, ⟨f8, p8⟩, m, p9, hm0⟩ := S
  obtain ⟨vel', v1, v2, v3, -, v5, v6⟩ := circular_run_ext .wrap (.inl rfl) (by omega) G hn hc hp.ext
    (fun c hc => hp.val c (interior_padded G hc)) t p8 p9
  obtain ⟨grad', q', g1, g2, g3, g4⟩ := gradScalar_ok (sch := .third) G G rfl hpad p1 p2
  have hq : FieldIs .wrap r a.g grad' (startSlope r F) := by
    refine g2.congr fun c _ => ?_
    unfold startSlope
    by_cases hci : r.Interior c
    · rw [if_pos hci]
      have := g4 c hci
      have e0 := this 0
      have e1 := this 1
      have e2 := this 2
      rw [if_pos (by decide)] at e0 e1
      rw [if_neg (by decide)] at e2
      rw [rawDiff_eq] at e0 e1
      generalize q' c = q at e0 e1 e2
      obtain ⟨qx, qy, qz⟩ := q
      exact congr (congr (congrArg Vec3.mk e0) e1) e2
    · rw [if_neg hci, g3 c hci]
  obtain ⟨m', w1⟩ := exists_fieldIs G v5 v6
  have hm' : ∀ c, r.Interior c → m' c = Mat3.zero := fun c hci => by
    have := (w1.val c (interior_padded G hci)).symm.trans (v3 c hci)
    rw [Except.ok.inj this, hm0 c hci]
  have P : PrevIs .wrap r a.g { ls with psi := grad', phiPrev := ls.phiPrev.assign ls.phi, psiPrev := ls.psiPrev.assign grad' }
      F.phi (startSlope r F) (fun _ => [0]) := ⟨p1.val, hq.val, p7.val⟩
  set u := rotation circularCoeff c0 c1 with hu
  have hst : ∀ c, r.Interior c → InStorage r 2 ((nodePos r 2 c).sub ((u (storedPos r c)).smul a.dt)) := by
    intro c hci b hb
    have hcfl : ∀ b : Fin 3, b.val < 2 → |(u (storedPos r c)).get b * a.dt| < r.h b := by
      intro b hb
      match b with
      | 0 => rw [mul_comm]; exact (hs c hci).1
      | 1 => rw [mul_comm]; exact (hs c hci).2
      | 2 => exact absurd hb (by decide)
    have := near_node h hpos (by omega) hci (near_step hcfl) b hb
    exact ⟨this.1.le, this.2⟩
  have hpt : ∀ c, (nodePos r 2 c).sub ((u (storedPos r c)).smul a.dt) =
      ⟨(storedPos r c).x - a.dt * (u (storedPos r c)).x, (storedPos r c).y - a.dt * (u (storedPos r c)).y, 0⟩ :=
    fun c => storedPos_step rfl
  obtain ⟨ls', k1, k2, k3, -, k5, k6, k7, k8, k9⟩ := slEuler_ok (dt := a.dt) (gv := a.g) G
    (vel := vel') (v := fun c => u (storedPos r c)) (m := m') (fun c hci => by
      rw [v2.val c (interior_padded G hci), if_pos hci]; rfl) (fun c hci => w1.val c (interior_padded G hci))
    (fun c hci => G.atC (interior_padded G hci)) (ls := { ls with psi := grad', phiPrev := ls.phiPrev.assign ls.phi, psiPrev := ls.psiPrev.assign grad' })
    p1 hq p5 p6 (o := fun c => ⟨(advected r u a.dt (r.pad - 1) F).phi c, (advected r u a.dt (r.pad - 1) F).psi c⟩) (by
      intro c hci
      rw [interpolate_patch h hpos hm P (hst c hci), hpt]
      simp only [advected, if_pos hci])
  refine ⟨(vel', ls'), ?_, ⟨?_, ?_, ?_, ?_, ⟨_, k8⟩, ⟨_, k9⟩, ?_, ⟨_, v2⟩, ⟨m', w1, hm'⟩⟩, ?_, ?_, ?_⟩
  · unfold appAdvance
    simp only [v1, M.ok_bind, g1, temporal, k1, M.pure_eq]
  · refine k2.congr fun c _ => ?_
    by_cases hci : r.Interior c
    · simp only [if_pos hci]
    · simp only [if_neg hci, advected]
  · refine k3.congr fun c _ => ?_
    by_cases hci : r.Interior c
    · simp only [if_pos hci, hm' c hci, identity_dot]
    · simp only [if_neg hci, advected, startSlope]
  · dsimp only
    rw [k5]
    exact ⟨_, p3.assign p1⟩
  · dsimp only
    rw [k6]
    exact ⟨_, p4.assign hq⟩
  · dsimp only
    rw [k7]
    exact p7
  · intro c hci
    dsimp only
    rw [v2.val c (interior_padded G hci), if_pos hci]
    rfl
  · dsimp only
    rw [k5]
    exact p3.assign p1
  · dsimp only
    rw [k6]
    exact p4.assign hq

end Gals
