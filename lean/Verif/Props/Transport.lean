import Verif.Lemmas.Transport
import Verif.Props.Accuracy
import Verif.Props.Temporal

/-!
# C95: a semi-Lagrangian step of the library against solutions of the level set equation
-/

set_option linter.unusedSectionVars false
set_option linter.unusedSimpArgs false

namespace Gals.Props

open Gals Gals.Spec Set Filter Topology

theorem entry_step (m : Mat3 ℝ) (τ : ℝ) (v : Vec3 ℝ) (a : Fin 3) :
    ((Mat3.identity.sub (m.smul τ)).dot v).get a = v.get a - τ * ∑ j : Fin 3, m.entry j a * v.get j := by
  rw [Fin.sum_univ_three]
  match a with
  | 0 => simp [Mat3.identity, Mat3.sub, Mat3.smul, Mat3.dot, Mat3.mk9, Mat3.pos, Mat3.entry, Vec3.get]; ring
  | 1 => simp [Mat3.identity, Mat3.sub, Mat3.smul, Mat3.dot, Mat3.mk9, Mat3.pos, Mat3.entry, Vec3.get]; ring
  | 2 => simp [Mat3.identity, Mat3.sub, Mat3.smul, Mat3.dot, Mat3.mk9, Mat3.pos, Mat3.entry, Vec3.get]; ring

/-- A step from data whose interpolation is accurate. -/
theorem step_close (s : IntSem) (d : ℕ) (hs : d < 3 → s = .wrap) (r : Req ℝ) (h : r.Valid d) (hpos : r.Pos d) (g : Grid ℝ d)
    (e : r.make s d = .ok g) (gv : Grid ℝ d) (vel : LsVelocity ℝ) (v : Cell → Vec3 ℝ) (m : Cell → Mat3 ℝ)
    (hv : ∀ c, r.Interior c → vel.velocity.get s gv c.1 c.2.1 c.2.2 = .ok (v c))
    (hg : ∀ c, r.Interior c → vel.grad.get s gv c.1 c.2.1 c.2.2 = .ok (m c)) (ls : Levelset ℝ)
    (phi : Cell → ℝ) (psi : Cell → Vec3 ℝ) (mix : Cell → List ℝ) (hm : ∀ c, (mix c).length = numMixed d)
    (P : PrevIs s r g ls phi psi mix) (p0 p1 : Cell → ℝ) (q0 q1 : Cell → Vec3 ℝ) (hp : FieldIs s r g ls.phi p0)
    (hq : FieldIs s r g ls.psi q0) (hp1 : FieldIs s r g ls.phiInterpPrev p1) (hq1 : FieldIs s r g ls.psiInterpPrev q1)
    (f : (Fin 3 → ℝ) → ℝ → ℝ) (hf : ContDiff ℝ 3 fun z : (Fin 3 → ℝ) × ℝ => f z.1 z.2) (u : (Fin 3 → ℝ) → Fin 3 → ℝ)
    (t τ B B' L W E E' : ℝ) (h0 : 0 ≤ τ) (D : ∀ c x, r.Interior c → g.at' s c.1 c.2.1 c.2.2 = .ok x →
      StepData d f u t τ B B' L W x (v c) (m c) ∧ InStorage r d (x.sub ((v c).smul τ)))
    (I : ∀ x, InStorage r d x → ∃ out, interpolate s g ls x false = .ok out ∧
      |out.phi - f (onAxes d x).get t| ≤ E ∧ (∀ a : Fin 3, d ≤ a.val → out.psi.get a = 0) ∧
      ∀ a : Fin 3, a.val < d → |out.psi.get a - partialX f a (onAxes d x).get t| ≤ E') :
    StepClose s d r g (temporal .semiLagrangian s g gv τ vel ls) f (t + τ) (E + B * τ ^ 2) ((1 + d * W * τ) * E' + (B' + d * W * L) * τ ^ 2) := by
  have G := make_made h e
  have hd : 0 < d := by rcases h.dim with rfl | rfl | rfl <;> decide
  have hd3 : d ≤ 3 := by rcases h.dim with rfl | rfl | rfl <;> decide
  have hst : ∀ c, r.Interior c → InStorage r d ((nodePos r d c).sub ((v c).smul τ)) := fun c hc =>
    (D c _ hc (G.atC (interior_padded G hc))).2
  obtain ⟨ls', o, h1, h2, -⟩ := slEuler_in_storage hs h hpos G (dt := τ) hv hg hm P hp hq hp1 hq1 hst
  refine ⟨ls', h1, fun c hc => ?_⟩
  obtain ⟨k1, k2, k3⟩ := h2 c hc
  have hx := G.atC (interior_padded G hc)
  obtain ⟨S, st⟩ := D c _ hc hx
  obtain ⟨out, i1, i2, i3, i4⟩ := I _ st
  have eo : o c = out := Except.ok.inj (k1.symm.trans i1)
  have ed : (onAxes d ((nodePos r d c).sub ((v c).smul τ))).get = backward d (nodePos r d c).get (u (nodePos r d c).get) τ := by
    funext a
    rw [onAxes_get d hd, get_step, backward]
    by_cases ha : a.val < d
    · simp only [ha, if_true, S.vel a ha]
      ring
    · simp only [ha, if_false, nodePos_get]
  rw [ed] at i2 i4
  refine ⟨_, _, _, hx, k2, k3, ?_, fun a ha => ?_⟩
  · have := transport_value hf h0 S.eqn.self_of_nhds S.value
    rw [eo]
    have k := abs_sub_le out.phi (f (backward d (nodePos r d c).get (u (nodePos r d c).get) τ) t) (f (nodePos r d c).get (t + τ))
    rw [abs_sub_comm (f (backward d _ _ τ) t)] at k
    linarith
  · have T := transport_grad hf h0 S.eqn (a := a) (m := fun j => (m c).entry j a) (fun j hj => S.grad j a hj ha) hd3 (S.slope a ha)
      S.line (fun j hj => S.small j a hj ha)
    rw [eo, entry_step]
    set b := backward d (nodePos r d c).get (u (nodePos r d c).get) τ
    have W0 : 0 ≤ W := (abs_nonneg _).trans (S.small a a ha ha)
    have e1 : ∑ j : Fin 3, (m c).entry j a * out.psi.get j =
        ∑ j : Fin 3, (if j.val < d then (m c).entry j a * partialX f j b t else 0) +
        ∑ j : Fin 3, (if j.val < d then (m c).entry j a * (out.psi.get j - partialX f j b t) else 0) := by
      rw [← Finset.sum_add_distrib]
      refine Finset.sum_congr rfl fun j _ => ?_
      by_cases hj : j.val < d
      · simp only [hj, if_true]; ring
      · simp only [hj, if_false, i3 j (by omega)]; ring
    have e2 : |∑ j : Fin 3, (if j.val < d then (m c).entry j a * (out.psi.get j - partialX f j b t) else 0)| ≤ d * W * E' := by
      have k : ∀ j : Fin 3, |if j.val < d then (m c).entry j a * (out.psi.get j - partialX f j b t) else 0| ≤
          if j.val < d then W * E' else 0 := by
        intro j
        by_cases hj : j.val < d
        · simp only [hj, if_true, abs_mul]
          exact mul_le_mul (S.small j a hj ha) (i4 j hj) (abs_nonneg _) W0
        · simp [hj]
      refine (Finset.abs_sum_le_sum_abs _ _).trans ((Finset.sum_le_sum fun j _ => k j).trans (le_of_eq ?_))
      rw [Fin.sum_univ_three]
      obtain rfl | rfl | rfl := h.dim <;> norm_num <;> ring
    rw [e1]
    have i5 := i4 a ha
    generalize ∑ j : Fin 3, (if j.val < d then (m c).entry j a * partialX f j b t else 0) = X at *
    generalize ∑ j : Fin 3, (if j.val < d then (m c).entry j a * (out.psi.get j - partialX f j b t) else 0) = Y at *
    generalize partialX f a b t = R at *
    generalize partialX f a (nodePos r d c).get (t + τ) = Q at *
    have e3 : out.psi.get a - τ * (X + Y) - Q = (out.psi.get a - R) - τ * Y - (Q - (R - τ * X)) := by ring
    rw [e3]
    have k1 := abs_sub (out.psi.get a - R - τ * Y) (Q - (R - τ * X))
    have k2 := abs_sub (out.psi.get a - R) (τ * Y)
    rw [abs_mul, abs_of_nonneg h0] at k2
    have k3 := mul_le_mul_of_nonneg_left e2 h0
    linarith

theorem get_vec (q : Vec3 ℝ) : q.get = ![q.x, q.y, q.z] := by
  funext a
  match a with
  | 0 => rfl
  | 1 => rfl
  | 2 => rfl

/-- C95 in one dimension.  The data before the step are the values and slopes of a solution `f` at the time `t`; `M` bounds its
fourth derivative in space. -/
theorem C95_line (r : Req ℝ) (h : r.Valid 1) (hpos : r.Pos 1) (hpad : r.pad = 1) (g : Grid ℝ 1)
    (e : r.make .wrap 1 = .ok g) (gv : Grid ℝ 1) (vel : LsVelocity ℝ) (v : Cell → Vec3 ℝ) (m : Cell → Mat3 ℝ)
    (hv : ∀ c, r.Interior c → vel.velocity.get .wrap gv c.1 c.2.1 c.2.2 = .ok (v c))
    (hg : ∀ c, r.Interior c → vel.grad.get .wrap gv c.1 c.2.1 c.2.2 = .ok (m c)) (ls : Levelset ℝ)
    (phi : Cell → ℝ) (psi : Cell → Vec3 ℝ) (P : PrevIs .wrap r g ls phi psi (fun _ => []))
    (p0 p1 : Cell → ℝ) (q0 q1 : Cell → Vec3 ℝ) (hp : FieldIs .wrap r g ls.phi p0)
    (hq : FieldIs .wrap r g ls.psi q0) (hp1 : FieldIs .wrap r g ls.phiInterpPrev p1) (hq1 : FieldIs .wrap r g ls.psiInterpPrev q1)
    (f : (Fin 3 → ℝ) → ℝ → ℝ) (hf : ContDiff ℝ 3 fun z : (Fin 3 → ℝ) × ℝ => f z.1 z.2) (u : (Fin 3 → ℝ) → Fin 3 → ℝ)
    (t τ B B' L W M : ℝ) (h0 : 0 ≤ τ) (D : ∀ c x, r.Interior c → g.at' .wrap c.1 c.2.1 c.2.2 = .ok x →
      StepData 1 f u t τ B B' L W x (v c) (m c) ∧ InStorage r 1 (x.sub ((v c).smul τ)))
    (hM : Quartic (fun x => f ![x, 0, 0] t) (r.centre 0 (-1)) (r.centre 0 (r.n.get 0)) M)
    (data : ∀ c q, r.Padded 1 c → g.at' .wrap c.1 c.2.1 c.2.2 = .ok q →
      phi c = f ![q.x, 0, 0] t ∧ (psi c).x = partialX f 0 ![q.x, 0, 0] t) :
    StepClose .wrap 1 r g (temporal .semiLagrangian .wrap g gv τ vel ls) f (t + τ) (M * r.h 0 ^ 4 / 384 + B * τ ^ 2)
      ((1 + W * τ) * (M * r.h 0 ^ 3 / 24) + (B' + W * L) * τ ^ 2) := by
  have hder : ∀ x : ℝ, HasDerivAt (fun x => f ![x, 0, 0] t) (partialX f 0 ![x, 0, 0] t) x := by
    intro x
    have := (joint_deriv hf (Function.update ![x, 0, 0] 0 x, t)).comp_hasDerivAt x (line_x ![x, 0, 0] 0 t x)
    rw [show Function.update ![x, 0, 0] 0 x = ![x, 0, 0] from Function.update_eq_self 0 ![x, 0, 0], ← partialX_eq hf] at this
    refine this.congr_of_eventuallyEq (Eventually.of_forall fun s => ?_)
    have : Function.update ![x, 0, 0] 0 s = ![s, 0, 0] := by
      funext a
      match a with
      | 0 => rfl
      | 1 => rfl
      | 2 => rfl
    simp only [Function.comp, joint, this]
  have key := step_close .wrap 1 (fun _ => rfl) r h hpos g e gv vel v m hv hg ls phi psi _ (fun _ => rfl) P p0 p1 q0 q1 hp hq hp1 hq1
    f hf u t τ B B' L W (M * r.h 0 ^ 4 / 384) (M * r.h 0 ^ 3 / 24) h0 D (by
      intro x hx
      obtain ⟨out, j1, j2, j3, j4, j5⟩ := C77_line r h hpos hpad g e ls phi psi _ P _ _ M hder hM data x hx
      have eX : (onAxes 1 x).get = ![x.x, 0, 0] := by rw [get_vec]; rfl
      rw [eX]
      refine ⟨out, j1, j2, fun a ha => ?_, fun a ha => ?_⟩
      · match a with
        | 0 => exact absurd ha (by decide)
        | 1 => exact j4
        | 2 => exact j5
      · match a with
        | 0 => exact j3
        | 1 => exact absurd ha (by decide)
        | 2 => exact absurd ha (by decide))
  simpa using key

/-- C95 in two dimensions.  The data before the step are the values, gradients and mixed derivatives of a solution `f` at the time
`t`; `E` and `E'` bound the interpolation errors of C77, which are of fourth and third order in the widths of the cells. -/
theorem C95_plane (r : Req ℝ) (h : r.Valid 2) (hpos : r.Pos 2) (hpad : r.pad = 1) (g : Grid ℝ 2)
    (e : r.make .wrap 2 = .ok g) (gv : Grid ℝ 2) (vel : LsVelocity ℝ) (v : Cell → Vec3 ℝ) (m : Cell → Mat3 ℝ)
    (hv : ∀ c, r.Interior c → vel.velocity.get .wrap gv c.1 c.2.1 c.2.2 = .ok (v c))
    (hg : ∀ c, r.Interior c → vel.grad.get .wrap gv c.1 c.2.1 c.2.2 = .ok (m c)) (ls : Levelset ℝ)
    (phi : Cell → ℝ) (psi : Cell → Vec3 ℝ) (xy : Cell → ℝ) (P : PrevIs .wrap r g ls phi psi (fun c => [xy c]))
    (p0 p1 : Cell → ℝ) (q0 q1 : Cell → Vec3 ℝ) (hp : FieldIs .wrap r g ls.phi p0)
    (hq : FieldIs .wrap r g ls.psi q0) (hp1 : FieldIs .wrap r g ls.phiInterpPrev p1) (hq1 : FieldIs .wrap r g ls.psiInterpPrev q1)
    (f : (Fin 3 → ℝ) → ℝ → ℝ) (hf : ContDiff ℝ 3 fun z : (Fin 3 → ℝ) × ℝ => f z.1 z.2) (u : (Fin 3 → ℝ) → Fin 3 → ℝ)
    (t τ B B' L W : ℝ) (h0 : 0 ≤ τ) (D : ∀ c x, r.Interior c → g.at' .wrap c.1 c.2.1 c.2.2 = .ok x →
      StepData 2 f u t τ B B' L W x (v c) (m c) ∧ InStorage r 2 (x.sub ((v c).smul τ)))
    (fxy : ℝ → ℝ → ℝ) (M40 M04 M14 M41 : ℝ)
    (hM : Smooth2 (fun x y => f ![x, y, 0] t) (fun x y => partialX f 0 ![x, y, 0] t) (fun x y => partialX f 1 ![x, y, 0] t) fxy
      (r.centre 0 (-1)) (r.centre 0 (r.n.get 0)) (r.centre 1 (-1)) (r.centre 1 (r.n.get 1)) M40 M04 M14 M41)
    (data : ∀ c q, r.Padded 2 c → g.at' .wrap c.1 c.2.1 c.2.2 = .ok q → phi c = f ![q.x, q.y, 0] t ∧
      (psi c).x = partialX f 0 ![q.x, q.y, 0] t ∧ (psi c).y = partialX f 1 ![q.x, q.y, 0] t ∧ xy c = fxy q.x q.y)
    (E E' : ℝ) (hE : M40 * r.h 0 ^ 4 / 384 + (M04 + r.h 0 / 4 * M14) * r.h 1 ^ 4 / 384 ≤ E)
    (hEx : M14 * r.h 1 ^ 4 / 384 + (M40 + r.h 1 / 4 * M41) * r.h 0 ^ 3 / 24 ≤ E')
    (hEy : M41 * r.h 0 ^ 4 / 384 + (M04 + r.h 0 / 4 * M14) * r.h 1 ^ 3 / 24 ≤ E') :
    StepClose .wrap 2 r g (temporal .semiLagrangian .wrap g gv τ vel ls) f (t + τ) (E + B * τ ^ 2) ((1 + 2 * W * τ) * E' + (B' + 2 * W * L) * τ ^ 2) := by
  refine step_close .wrap 2 (fun _ => rfl) r h hpos g e gv vel v m hv hg ls phi psi _ (fun _ => rfl) P p0 p1 q0 q1 hp hq hp1 hq1
    f hf u t τ B B' L W E E' h0 D ?_
  intro x hx
  obtain ⟨out, j1, j2, j3, j4, j5⟩ := C77_plane r h hpos hpad g e ls phi psi xy P _ _ _ fxy M40 M04 M14 M41 hM data x hx
  have eX : (onAxes 2 x).get = ![x.x, x.y, 0] := by rw [get_vec]; rfl
  rw [eX]
  refine ⟨out, j1, j2.trans hE, fun a ha => ?_, fun a ha => ?_⟩
  · match a with
    | 0 => exact absurd ha (by decide)
    | 1 => exact absurd ha (by decide)
    | 2 => exact j5
  · match a with
    | 0 => exact j3.trans hEx
    | 1 => exact j4.trans hEy
    | 2 => exact absurd ha (by decide)

/-- C95 in three dimensions; `F i j k` are the derivatives of the solution at the time `t`. -/
theorem C95_space (s : IntSem) (r : Req ℝ) (h : r.Valid 3) (hpos : r.Pos 3) (hpad : r.pad = 1) (g : Grid ℝ 3)
    (e : r.make s 3 = .ok g) (gv : Grid ℝ 3) (vel : LsVelocity ℝ) (v : Cell → Vec3 ℝ) (m : Cell → Mat3 ℝ)
    (hv : ∀ c, r.Interior c → vel.velocity.get s gv c.1 c.2.1 c.2.2 = .ok (v c))
    (hg : ∀ c, r.Interior c → vel.grad.get s gv c.1 c.2.1 c.2.2 = .ok (m c)) (ls : Levelset ℝ)
    (phi : Cell → ℝ) (psi : Cell → Vec3 ℝ) (xy yz zx xyz : Cell → ℝ)
    (P : PrevIs s r g ls phi psi (fun c => [xy c, yz c, zx c, xyz c]))
    (p0 p1 : Cell → ℝ) (q0 q1 : Cell → Vec3 ℝ) (hp : FieldIs s r g ls.phi p0)
    (hq : FieldIs s r g ls.psi q0) (hp1 : FieldIs s r g ls.phiInterpPrev p1) (hq1 : FieldIs s r g ls.psiInterpPrev q1)
    (f : (Fin 3 → ℝ) → ℝ → ℝ) (hf : ContDiff ℝ 3 fun z : (Fin 3 → ℝ) × ℝ => f z.1 z.2) (u : (Fin 3 → ℝ) → Fin 3 → ℝ)
    (t τ B B' L W : ℝ) (h0 : 0 ≤ τ) (D : ∀ c x, r.Interior c → g.at' s c.1 c.2.1 c.2.2 = .ok x →
      StepData 3 f u t τ B B' L W x (v c) (m c) ∧ InStorage r 3 (x.sub ((v c).smul τ)))
    (F : Fin 2 → Fin 2 → Fin 2 → ℝ → ℝ → ℝ → ℝ) (M : ℝ) (hF : ∀ x y z, F 0 0 0 x y z = f ![x, y, z] t)
    (hM : Smooth3 F (r.centre 0 (-1)) (r.centre 0 (r.n.get 0)) (r.centre 1 (-1)) (r.centre 1 (r.n.get 1)) (r.centre 2 (-1))
      (r.centre 2 (r.n.get 2)) M)
    (data : ∀ c q, r.Padded 3 c → g.at' s c.1 c.2.1 c.2.2 = .ok q → phi c = F 0 0 0 q.x q.y q.z ∧
      psi c = ⟨F 1 0 0 q.x q.y q.z, F 0 1 0 q.x q.y q.z, F 0 0 1 q.x q.y q.z⟩ ∧ xy c = F 1 1 0 q.x q.y q.z ∧
      yz c = F 0 1 1 q.x q.y q.z ∧ zx c = F 1 0 1 q.x q.y q.z ∧ xyz c = F 1 1 1 q.x q.y q.z) (E E' : ℝ)
    (hE : M * (r.h 1 ^ 4 + (1 + r.h 1 / 4) * r.h 2 ^ 4) / 384 + (1 + r.h 1 / 4) * (1 + r.h 2 / 4) * (M * r.h 0 ^ 4 / 384) ≤ E)
    (hEx : M * (r.h 1 ^ 4 + (1 + r.h 1 / 4) * r.h 2 ^ 4) / 384 + (1 + r.h 1 / 4) * (1 + r.h 2 / 4) * (M * r.h 0 ^ 3 / 24) ≤ E')
    (hEy : M * (r.h 0 ^ 4 + (1 + r.h 0 / 4) * r.h 2 ^ 4) / 384 + (1 + r.h 0 / 4) * (1 + r.h 2 / 4) * (M * r.h 1 ^ 3 / 24) ≤ E')
    (hEz : M * (r.h 0 ^ 4 + (1 + r.h 0 / 4) * r.h 1 ^ 4) / 384 + (1 + r.h 0 / 4) * (1 + r.h 1 / 4) * (M * r.h 2 ^ 3 / 24) ≤ E') :
    StepClose s 3 r g (temporal .semiLagrangian s g gv τ vel ls) f (t + τ) (E + B * τ ^ 2) ((1 + 3 * W * τ) * E' + (B' + 3 * W * L) * τ ^ 2) := by
  have upd : ∀ x y z w : ℝ, Function.update ![x, y, z] 0 w = ![w, y, z] ∧ Function.update ![x, y, z] 1 w = ![x, w, z] ∧
      Function.update ![x, y, z] 2 w = ![x, y, w] := by
    intro x y z w
    refine ⟨?_, ?_, ?_⟩ <;>
    · funext a
      match a with
      | 0 => rfl
      | 1 => rfl
      | 2 => rfl
  refine step_close s 3 (fun h => absurd h (by decide)) r h hpos g e gv vel v m hv hg ls phi psi _ (fun _ => rfl) P p0 p1 q0 q1 hp hq
    hp1 hq1 f hf u t τ B B' L W E E' h0 D ?_
  intro x hx
  obtain ⟨out, j1, j2, j3, j4, j5⟩ := C77_space s r h hpos hpad g e ls phi psi xy yz zx xyz P F M hM data x hx
  have eX : (onAxes 3 x).get = ![x.x, x.y, x.z] := by rw [get_vec]; rfl
  rw [eX]
  have d0 : partialX f 0 ![x.x, x.y, x.z] t = F 1 0 0 x.x x.y x.z := by
    unfold partialX
    simp only [(upd _ _ _ _).1, ← hF]
    exact (hM.dx 0 0 x.x x.y x.z).deriv
  have d1 : partialX f 1 ![x.x, x.y, x.z] t = F 0 1 0 x.x x.y x.z := by
    unfold partialX
    simp only [(upd _ _ _ _).2.1, ← hF]
    exact (hM.dy 0 0 x.x x.y x.z).deriv
  have d2 : partialX f 2 ![x.x, x.y, x.z] t = F 0 0 1 x.x x.y x.z := by
    unfold partialX
    simp only [(upd _ _ _ _).2.2, ← hF]
    exact (hM.dz 0 0 x.x x.y x.z).deriv
  refine ⟨out, j1, ?_, fun a ha => ?_, fun a ha => ?_⟩
  · rw [← hF]
    exact j2.trans hE
  · have := a.isLt
    omega
  · match a with
    | 0 => rw [d0]; exact j3.trans hEx
    | 1 => rw [d1]; exact j4.trans hEy
    | 2 => rw [d2]; exact j5.trans hEz

/-! ## Instances -/

theorem iter2 {φ φ' φ'' : ℝ → ℝ} (h1 : ∀ s, HasDerivAt φ (φ' s) s) (h2 : ∀ s, HasDerivAt φ' (φ'' s) s) (s : ℝ) :
    iteratedDeriv 2 φ s = φ'' s := by
  rw [iteratedDeriv_succ, iteratedDeriv_one, funext fun s => (h1 s).deriv]
  exact (h2 s).deriv

/-- A wave that moves along the first axis. -/
noncomputable def wave (x : Fin 3 → ℝ) (t : ℝ) : ℝ := Real.sin (x 0 - t)

theorem hasDerivAt_shift (a s : ℝ) : HasDerivAt (fun s : ℝ => a - s) (-1) s := (hasDerivAt_id s).const_sub a

theorem wave_iter (i : Fin 2) (a s : ℝ) : |iteratedDeriv 2 (fun s => sinD i (a - s)) s| ≤ 1 := by
  have c1 : ∀ s, HasDerivAt (fun s => Real.sin (a - s)) (-Real.cos (a - s)) s := fun s => by
    simpa using (hasDerivAt_shift a s).sin
  have c2 : ∀ s, HasDerivAt (fun s => Real.cos (a - s)) (Real.sin (a - s)) s := fun s => by
    simpa using (hasDerivAt_shift a s).cos
  match i with
  | 0 =>
    have e := iter2 c1 (fun s => (c2 s).neg) s
    simp only [sinD, if_true]
    rw [e, abs_neg]
    exact Real.abs_sin_le_one _
  | 1 =>
    have e := iter2 c2 c1 s
    simp only [sinD, show ¬ (1 : Fin 2) = 0 by decide, if_false]
    rw [e, abs_neg]
    exact Real.abs_cos_le_one _

theorem wave_partial (x : Fin 3 → ℝ) (t : ℝ) : partialX wave 0 x t = Real.cos (x 0 - t) := by
  unfold partialX wave
  simp only [Function.update_self]
  have : HasDerivAt (fun s => Real.sin (s - t)) (Real.cos (x 0 - t)) (x 0) := by
    simpa using ((hasDerivAt_id (x 0)).sub_const t).sin
  exact this.deriv

/-- The wave moves with velocity 1. -/
theorem wave_step (x : Vec3 ℝ) (t τ : ℝ) : StepData 1 wave (fun _ _ => 1) t τ 1 1 1 0 x ⟨1, 0, 0⟩ Mat3.zero where
  eqn := Eventually.of_forall fun y => by
    unfold LevelSetEq
    have : HasDerivAt (wave y) (-Real.cos (y 0 - t)) t := by
      change HasDerivAt (fun t => Real.sin (y 0 - t)) _ t
      simpa using (hasDerivAt_shift (y 0) t).sin
    rw [this.deriv, Fin.sum_univ_three, wave_partial]
    simp
  vel a ha := by
    match a with
    | 0 => rfl
    | 1 => exact absurd ha (by decide)
    | 2 => exact absurd ha (by decide)
  grad j a _ _ := by simpa [Mat3.zero, Mat3.entry] using hasDerivAt_const (x.get a) (1 : ℝ)
  small j a _ _ := by simp [Mat3.zero, Mat3.entry]
  value := by
    refine ⟨fun s _ => wave_iter 0 (x.get 0) s, fun s _ => ?_⟩
    have := wave_iter 0 (x.get 0 - t) s
    convert this using 4 with s
    simp [sinD, wave, backward]
    ring_nf
  slope a ha := by
    have ha0 : a = 0 := by
      match a with
      | 0 => rfl
      | 1 => exact absurd ha (by decide)
      | 2 => exact absurd ha (by decide)
    subst ha0
    refine ⟨fun s _ => ?_, fun s _ => ?_⟩
    · have := wave_iter 1 (x.get 0) s
      convert this using 4 with s
      simp [sinD, wave_partial]
    · have := wave_iter 1 (x.get 0 - t) s
      convert this using 4 with s
      simp [sinD, wave_partial, backward]
      ring_nf
  line a ha s _ := by
    have ha0 : a = 0 := by
      match a with
      | 0 => rfl
      | 1 => exact absurd ha (by decide)
      | 2 => exact absurd ha (by decide)
    subst ha0
    have c2 : HasDerivAt (fun s => partialX wave 0 (backward 1 x.get (fun _ => 1) s) t) (Real.sin (x.get 0 - t - s)) s := by
      have : HasDerivAt (fun s => Real.cos (x.get 0 - t - s)) (Real.sin (x.get 0 - t - s)) s := by
        simpa using (hasDerivAt_shift (x.get 0 - t) s).cos
      refine this.congr_of_eventuallyEq (Eventually.of_forall fun s => ?_)
      simp [wave_partial, backward]
      ring_nf
    rw [c2.deriv]
    exact Real.abs_sin_le_one _

theorem wave_smooth : ContDiff ℝ 3 fun z : (Fin 3 → ℝ) × ℝ => wave z.1 z.2 := by
  unfold wave
  exact Real.contDiff_sin.comp (((contDiff_apply ℝ ℝ 0).comp contDiff_fst).sub contDiff_snd)

/-- Instance of `C95_line`: a sine wave in a uniform flow, three cells of width 1, time step 1/10. -/
example : ∃ g : Grid ℝ 1, (lineR 1).make .wrap 1 = .ok g ∧ ∃ vel ls,
    StepClose .wrap 1 (lineR 1) g (temporal .semiLagrangian .wrap g g (1 / 10) vel ls) wave (1 / 10) (1 / 384 + 1 / 100)
      (1 / 24 + 1 / 100) := by
  obtain ⟨g, e, -⟩ := C01_padded_addressing .wrap 1 (lineR 1) lineR_valid
  have G := make_made lineR_valid e
  obtain ⟨vel, hv, hg⟩ := velocity_exists (s := .wrap) G (fun _ => ⟨1, 0, 0⟩) (fun _ => Mat3.zero)
  obtain ⟨ls, h0, h1, h2, h3, P⟩ := levelset_exists (s := .wrap) G (fun _ => 7) (fun _ => 0)
    (fun c => wave ![(nodePos (lineR 1) 1 c).x, 0, 0] 0) (fun _ => ⟨0, 0, 0⟩) (fun _ => ⟨0, 0, 0⟩)
    (fun c => ⟨partialX wave 0 ![(nodePos (lineR 1) 1 c).x, 0, 0] 0, 0, 0⟩) (fun _ => [])
  have := C95_line (lineR 1) lineR_valid (lineR_pos 1) rfl g e g vel _ _ (fun c hc => hv.val c (interior_padded G hc))
    (fun c hc => hg.val c (interior_padded G hc)) ls _ _ P _ _ _ _ h0 h1 h2 h3 wave wave_smooth (fun _ _ => 1) 0 (1 / 10) 1 1 1 0 1
    (by norm_num) (fun c x hc hx => ⟨wave_step x 0 (1 / 10), by
      rw [G.atC (interior_padded G hc)] at hx
      cases hx
      refine fun a ha => ?_
      have := near_node lineR_valid (lineR_pos 1) (by decide) hc (near_step (u := ⟨1, 0, 0⟩) (dt := 1 / 10) (fun a ha => by
        match a with
        | 0 => norm_num [lineR, Vec3.get, Req.h, abs_lt]
        | 1 => exact absurd ha (by decide)
        | 2 => exact absurd ha (by decide))) a ha
      exact ⟨this.1.le, this.2⟩⟩)
    (by simpa [wave] using quartic_sin 1 _ _ 1 (by simp)) (fun c q hc hq => by
      rw [G.atC hc] at hq
      cases hq
      exact ⟨rfl, rfl⟩)
  have hh : (lineR 1).h 0 = 1 := by norm_num [lineR, Req.h, Vec3.get]
  rw [hh] at this
  refine ⟨g, e, vel, ls, ?_⟩
  convert this using 1 <;> norm_num

/-- In the shear flow `(y, 0)` the function `x ^ 4` becomes `(x - t y) ^ 4`. -/
noncomputable def shear (x : Fin 3 → ℝ) (t : ℝ) : ℝ := (x 0 - t * x 1) ^ 4

/-- The shear flow. -/
noncomputable def shearFlow (x : Fin 3 → ℝ) (a : Fin 3) : ℝ := if a = 0 then x 1 else 0

theorem shear_line (a b s : ℝ) : HasDerivAt (fun s => a - s * b) (-b) s := by
  simpa using ((hasDerivAt_id s).mul_const b).const_sub a

theorem shear_pow (k : ℕ) (a b s : ℝ) : HasDerivAt (fun s => (a - s * b) ^ (k + 1)) ((k + 1) * (a - s * b) ^ k * -b) s := by
  simpa using (shear_line a b s).fun_pow (k + 1)

theorem shear_x (x : Fin 3 → ℝ) (t : ℝ) : partialX shear 0 x t = 4 * (x 0 - t * x 1) ^ 3 := by
  unfold partialX shear
  simp only [Function.update_self, Function.update_of_ne (show (1 : Fin 3) ≠ 0 by decide)]
  have : HasDerivAt (fun s => (s - t * x 1) ^ 4) (4 * (x 0 - t * x 1) ^ 3) (x 0) := by
    simpa using ((hasDerivAt_id' (x 0)).sub_const (t * x 1)).fun_pow 4
  exact this.deriv

theorem shear_y (x : Fin 3 → ℝ) (t : ℝ) : partialX shear 1 x t = -4 * t * (x 0 - t * x 1) ^ 3 := by
  unfold partialX shear
  simp only [Function.update_self, Function.update_of_ne (show (0 : Fin 3) ≠ 1 by decide)]
  have : HasDerivAt (fun s => (x 0 - t * s) ^ 4) (-4 * t * (x 0 - t * x 1) ^ 3) (x 1) := by
    have := (((hasDerivAt_id' (x 1)).const_mul t).const_sub (x 0)).fun_pow 4
    exact this.congr_deriv (by push_cast; ring)
  exact this.deriv

theorem shear_smooth : ContDiff ℝ 3 fun z : (Fin 3 → ℝ) × ℝ => shear z.1 z.2 := by
  unfold shear
  have c0 : ContDiff ℝ 3 fun z : (Fin 3 → ℝ) × ℝ => z.1 0 := (contDiff_apply ℝ ℝ 0).comp contDiff_fst
  have c1 : ContDiff ℝ 3 fun z : (Fin 3 → ℝ) × ℝ => z.1 1 := (contDiff_apply ℝ ℝ 1).comp contDiff_fst
  exact (c0.sub (contDiff_snd.mul c1)).pow 4

/-- The flow carries the function; constants for nodes of the box `[0, 2] × [0, 3]` and the time step 1/100. -/
theorem shear_step (x : Vec3 ℝ) (m : Mat3 ℝ) (hm : ∀ j a : Fin 3, m.entry j a = if j = 0 ∧ a = 1 then 1 else 0) (h0 : 0 ≤ x.x)
    (h1 : x.x ≤ 2) (h2 : 0 ≤ x.y) (h3 : x.y ≤ 3) :
    StepData 2 shear shearFlow 0 (1 / 100) 432 500 144 1 x ⟨x.y, 0, 0⟩ m := by
  have g0 : x.get 0 = x.x := rfl
  have g1 : x.get 1 = x.y := rfl
  have yb : x.y ^ 2 ≤ 9 := by nlinarith
  have pb : ∀ s ∈ Icc (0 : ℝ) (1 / 100), |x.x - s * x.y| ≤ 2 := by
    intro s hs
    have := mul_nonneg hs.1 h2
    have := mul_le_mul hs.2 h3 h2 (by norm_num)
    rw [abs_le]
    constructor <;> linarith
  have p2 : ∀ s ∈ Icc (0 : ℝ) (1 / 100), (x.x - s * x.y) ^ 2 ≤ 4 := by
    intro s hs
    have := sq_le_sq' (by linarith [(abs_le.1 (pb s hs)).1]) (abs_le.1 (pb s hs)).2
    linarith
  have q4 : ∀ s ∈ Icc (0 : ℝ) (1 / 100), |iteratedDeriv 2 (fun s => (x.x - s * x.y) ^ 4) s| ≤ 432 := by
    intro s hs
    have e := iter2 (fun s => shear_pow 3 x.x x.y s)
      (fun s => ((shear_pow 2 x.x x.y s).const_mul (((3 : ℕ) : ℝ) + 1)).mul_const (-x.y)) s
    rw [show (3 + 1 : ℕ) = 4 from rfl] at e
    rw [e]
    have : (((3 : ℕ) : ℝ) + 1) * ((((2 : ℕ) : ℝ) + 1) * (x.x - s * x.y) ^ 2 * -x.y) * -x.y =
        12 * ((x.x - s * x.y) ^ 2 * x.y ^ 2) := by push_cast; ring
    rw [this, abs_of_nonneg (by positivity)]
    have := mul_le_mul (p2 s hs) yb (by positivity) (by norm_num)
    linarith
  have q3 : ∀ s ∈ Icc (0 : ℝ) (1 / 100), |iteratedDeriv 2 (fun s => 4 * (x.x - s * x.y) ^ 3) s| ≤ 500 := by
    intro s hs
    have e := iter2 (fun s => (shear_pow 2 x.x x.y s).const_mul 4)
      (fun s => (((shear_pow 1 x.x x.y s).const_mul (((2 : ℕ) : ℝ) + 1)).mul_const (-x.y)).const_mul 4) s
    rw [show (2 + 1 : ℕ) = 3 from rfl] at e
    rw [e]
    have : 4 * ((((2 : ℕ) : ℝ) + 1) * ((((1 : ℕ) : ℝ) + 1) * (x.x - s * x.y) ^ 1 * -x.y) * -x.y) =
        24 * ((x.x - s * x.y) * x.y ^ 2) := by push_cast; ring
    rw [this, abs_mul, abs_mul, abs_of_nonneg (sq_nonneg x.y), abs_of_pos (show (0 : ℝ) < 24 by norm_num)]
    have := mul_le_mul (pb s hs) yb (by positivity) (by norm_num)
    linarith
  have b0 : ∀ s, backward 2 x.get (shearFlow x.get) s 0 = x.x - s * x.y := fun s => by
    simp [backward, shearFlow, g0, g1]
  have b1 : ∀ s, backward 2 x.get (shearFlow x.get) s 1 = x.y := fun s => by
    simp [backward, shearFlow, g0, g1]
  refine ⟨Eventually.of_forall fun y => ?_, fun a ha => ?_, fun j a _ _ => ?_, fun j a _ _ => ?_, ⟨?_, ?_⟩, fun a ha => ?_,
    fun a ha s hs => ?_⟩
  · unfold LevelSetEq
    have : HasDerivAt (shear y) (4 * (y 0) ^ 3 * -y 1) 0 := by
      have := shear_pow 3 (y 0) (y 1) 0
      norm_num at this
      change HasDerivAt (fun s => (y 0 - s * y 1) ^ 4) _ _
      convert this using 1
      ring
    rw [this.deriv, Fin.sum_univ_three, shear_x, shear_y]
    simp [shearFlow]
    ring
  · match a with
    | 0 => rfl
    | 1 => rfl
    | 2 => exact absurd ha (by decide)
  · rw [hm]
    match j with
    | 0 =>
      match a with
      | 0 => simpa [shearFlow] using hasDerivAt_const (x.get 0) (x.get 1)
      | 1 => simpa [shearFlow] using hasDerivAt_id' (x.get 1)
      | 2 => simpa [shearFlow] using hasDerivAt_const (x.get 2) (x.get 1)
    | 1 => simpa [shearFlow] using hasDerivAt_const (x.get a) (0 : ℝ)
    | 2 => simpa [shearFlow] using hasDerivAt_const (x.get a) (0 : ℝ)
  · rw [hm]
    split <;> norm_num
  · intro s hs
    rw [zero_add] at hs
    exact q4 s hs
  · intro s hs
    have : (fun s => shear (backward 2 x.get (shearFlow x.get) s) 0) = fun s => (x.x - s * x.y) ^ 4 := by
      funext s
      simp [shear, b0, b1]
    rw [this]
    exact q4 s hs
  · match a with
    | 0 =>
      refine ⟨fun s hs => ?_, fun s hs => ?_⟩
      · rw [zero_add] at hs
        have : partialX shear 0 x.get = fun s => 4 * (x.x - s * x.y) ^ 3 := funext fun s => shear_x _ _
        rw [this]
        exact q3 s hs
      · have : (fun s => partialX shear 0 (backward 2 x.get (shearFlow x.get) s) 0) = fun s => 4 * (x.x - s * x.y) ^ 3 := by
          funext s
          simp [shear_x, b0, b1]
        rw [this]
        exact q3 s hs
    | 1 =>
      refine ⟨fun s hs => ?_, fun s hs => ?_⟩
      · rw [zero_add] at hs
        have : partialX shear 1 x.get = fun s => -4 * s * (x.x - s * x.y) ^ 3 := funext fun s => shear_y _ _
        rw [this]
        have d1 : ∀ s, HasDerivAt (fun s => -4 * s * (x.x - s * x.y) ^ 3)
            (-4 * (x.x - s * x.y) ^ 3 + -4 * s * ((((2 : ℕ) : ℝ) + 1) * (x.x - s * x.y) ^ 2 * -x.y)) s := fun s => by
          have := ((hasDerivAt_id' s).const_mul (-4)).fun_mul (shear_pow 2 x.x x.y s)
          simpa using this
        have d2 : ∀ s, HasDerivAt (fun s => -4 * (x.x - s * x.y) ^ 3 + -4 * s * ((((2 : ℕ) : ℝ) + 1) * (x.x - s * x.y) ^ 2 * -x.y))
            (24 * ((x.x - s * x.y) ^ 2 * x.y) - 24 * s * ((x.x - s * x.y) * x.y ^ 2)) s := fun s => by
          have := ((shear_pow 2 x.x x.y s).const_mul (-4)).fun_add (((hasDerivAt_id' s).const_mul (-4)).fun_mul
            (((shear_pow 1 x.x x.y s).const_mul (((2 : ℕ) : ℝ) + 1)).mul_const (-x.y)))
          exact this.congr_deriv (by push_cast; ring)
        rw [iter2 d1 d2 s]
        have k1 := mul_le_mul (p2 s hs) h3 h2 (by norm_num)
        have k2 := mul_le_mul (pb s hs) yb (by positivity) (by norm_num)
        have k3 : |24 * s * ((x.x - s * x.y) * x.y ^ 2)| ≤ 24 * (1 / 100) * 18 := by
          rw [abs_mul, abs_mul (x.x - s * x.y), abs_of_nonneg (sq_nonneg x.y), abs_of_nonneg (by linarith [hs.1] : 0 ≤ 24 * s)]
          exact mul_le_mul (by linarith [hs.2]) (by linarith) (by positivity) (by norm_num)
        have k4 : |24 * ((x.x - s * x.y) ^ 2 * x.y)| ≤ 288 := by
          rw [abs_of_nonneg (by positivity)]
          linarith
        have := abs_sub (24 * ((x.x - s * x.y) ^ 2 * x.y)) (24 * s * ((x.x - s * x.y) * x.y ^ 2))
        linarith
      · have : (fun s => partialX shear 1 (backward 2 x.get (shearFlow x.get) s) 0) = fun s => 0 := by
          funext s
          simp [shear_y, b0, b1]
        rw [this, iter2 (fun s => hasDerivAt_const s 0) (fun s => hasDerivAt_const s 0)]
        norm_num
    | 2 => exact absurd ha (by decide)
  · match a with
    | 0 =>
      have : (fun s => partialX shear 0 (backward 2 x.get (shearFlow x.get) s) 0) = fun s => 4 * (x.x - s * x.y) ^ 3 := by
        funext s
        simp [shear_x, b0, b1]
      rw [this, ((shear_pow 2 x.x x.y s).const_mul 4).deriv]
      have e : 4 * ((((2 : ℕ) : ℝ) + 1) * (x.x - s * x.y) ^ 2 * -x.y) = -(12 * ((x.x - s * x.y) ^ 2 * x.y)) := by push_cast; ring
      rw [e, abs_neg, abs_of_nonneg (by positivity)]
      have := mul_le_mul (p2 s hs) h3 h2 (by norm_num)
      linarith
    | 1 =>
      have : (fun s => partialX shear 1 (backward 2 x.get (shearFlow x.get) s) 0) = fun s => 0 := by
        funext s
        simp [shear_y, b0, b1]
      rw [this]
      simp
    | 2 => exact absurd ha (by decide)

theorem quartic_zero (a b : ℝ) : Quartic (fun _ => 0) a b 0 := ⟨contDiff_const, fun x _ => by simp⟩

/-- Instance of `C95_plane`: the shear flow, 4 × 3 cells of 1/2 × 1, time step 1/100. -/
example : ∃ g : Grid ℝ 2, (demoR 1).make .wrap 2 = .ok g ∧ ∃ vel ls,
    StepClose .wrap 2 (demoR 1) g (temporal .semiLagrangian .wrap g g (1 / 100) vel ls) shear (1 / 100) (1 / 20) (1 / 4) := by
  obtain ⟨g, e, -⟩ := C01_padded_addressing .wrap 2 (demoR 1) demoR_valid
  have G := make_made demoR_valid e
  let q := nodePos (demoR 1) 2
  let m : Mat3 ℝ := ⟨fun n => if n = Mat3.pos 0 1 then 1 else 0⟩
  have hm : ∀ j a : Fin 3, m.entry j a = if j = 0 ∧ a = 1 then 1 else 0 := fun j a => by
    have : (Mat3.pos j a = Mat3.pos 0 1) ↔ (j = 0 ∧ a = 1) := by decide +revert
    simp only [m, Mat3.entry, this]
  obtain ⟨vel, hv, hg⟩ := velocity_exists (s := .wrap) G (fun c => ⟨(q c).y, 0, 0⟩) (fun _ => m)
  obtain ⟨ls, h0, h1, h2, h3, P⟩ := levelset_exists (s := .wrap) G (fun _ => 7) (fun _ => 0)
    (fun c => shear ![(q c).x, (q c).y, 0] 0) (fun _ => ⟨0, 0, 0⟩) (fun _ => ⟨0, 0, 0⟩)
    (fun c => ⟨partialX shear 0 ![(q c).x, (q c).y, 0] 0, partialX shear 1 ![(q c).x, (q c).y, 0] 0, 0⟩) (fun _ => [0])
  have hx : (demoR 1).h 0 = 1 / 2 := by norm_num [demoR, Req.h, Vec3.get]
  have hy : (demoR 1).h 1 = 1 := by norm_num [demoR, Req.h, Vec3.get]
  have hn : ∀ c, (demoR 1).Interior c → 0 ≤ (q c).x ∧ (q c).x ≤ 2 ∧ 0 ≤ (q c).y ∧ (q c).y ≤ 3 := by
    intro c hc
    have i0 := comp_interior hc 0
    have i1 := comp_interior hc 1
    have a0 : (0 : ℝ) ≤ c.1 := by exact_mod_cast i0.1
    have a1 : (c.1 : ℝ) + 1 ≤ 4 := by exact_mod_cast i0.2
    have b0 : (0 : ℝ) ≤ c.2.1 := by exact_mod_cast i1.1
    have b1 : (c.2.1 : ℝ) + 1 ≤ 3 := by exact_mod_cast i1.2
    have ex : (q c).x = 0 + ((c.1 : ℝ) + 1 / 2) * (1 / 2) := by
      rw [← hx]; norm_num [q, nodePos, Req.centre, comp, demoR, Vec3.get, Req.h]
    have ey : (q c).y = 0 + ((c.2.1 : ℝ) + 1 / 2) * 1 := by
      rw [← hy]; simp [q, nodePos, Req.centre, comp, demoR, Vec3.get, Req.h]
    rw [ex, ey]
    refine ⟨?_, ?_, ?_, ?_⟩ <;> linarith
  have pow4 : Quartic (fun x : ℝ => x ^ 4) ((demoR 1).centre 0 (-1)) ((demoR 1).centre 0 ((demoR 1).n.get 0)) 24 := by
    refine ⟨contDiff_id.pow 4, fun x _ => ?_⟩
    have d1 : deriv (fun x : ℝ => x ^ 4) = fun x => 4 * x ^ 3 := funext fun x => by simp
    have d2 : deriv (fun x : ℝ => 4 * x ^ 3) = fun x => 12 * x ^ 2 :=
      funext fun x => (((hasDerivAt_pow 3 x).const_mul (4 : ℝ)).congr_deriv (by push_cast; ring)).deriv
    have d3 : deriv (fun x : ℝ => 12 * x ^ 2) = fun x => 24 * x :=
      funext fun x => (((hasDerivAt_pow 2 x).const_mul (12 : ℝ)).congr_deriv (by push_cast; ring)).deriv
    have d4 : deriv (fun x : ℝ => 24 * x) x = 24 := by simp
    rw [iteratedDeriv_succ, iteratedDeriv_succ, iteratedDeriv_succ, iteratedDeriv_one, d1, d2, d3, d4]
    norm_num
  have := C95_plane (demoR 1) demoR_valid (demoR_pos 1) rfl g e g vel _ _ (fun c hc => hv.val c (interior_padded G hc))
    (fun c hc => hg.val c (interior_padded G hc)) ls _ _ _ P _ _ _ _ h0 h1 h2 h3 shear shear_smooth shearFlow 0 (1 / 100) 432 500 144 1
    (by norm_num) (fun c x hc hxx => by
      rw [G.atC (interior_padded G hc)] at hxx
      cases hxx
      obtain ⟨n0, n1, n2, n3⟩ := hn c hc
      refine ⟨shear_step _ m hm n0 n1 n2 n3, fun a ha => ?_⟩
      have := near_node demoR_valid (demoR_pos 1) (by decide) hc (near_step (u := ⟨(q c).y, 0, 0⟩) (dt := 1 / 100) (fun a ha => by
        match a with
        | 0 =>
          rw [hx, abs_lt]
          change _ < (q c).y * (1 / 100) ∧ (q c).y * (1 / 100) < _
          constructor <;> linarith
        | 1 =>
          rw [hy]
          change |(0 : ℝ) * (1 / 100)| < 1
          norm_num
        | 2 => exact absurd ha (by decide))) a ha
      exact ⟨this.1.le, this.2⟩)
    (fun _ _ => 0) 24 0 0 0 (by
      have ex : ∀ x y : ℝ, partialX shear 0 ![x, y, 0] 0 = 4 * x ^ 3 := fun x y => by simp [shear_x]
      have ey : ∀ x y : ℝ, partialX shear 1 ![x, y, 0] 0 = 0 := fun x y => by simp [shear_y]
      have ef : ∀ x y : ℝ, shear ![x, y, 0] 0 = x ^ 4 := fun x y => by simp [shear]
      simp only [ex, ey, ef]
      refine ⟨fun x y => by simpa using hasDerivAt_pow 4 x, fun x y => hasDerivAt_const y _, fun x y => hasDerivAt_const y _,
        fun x y => hasDerivAt_const x _, fun y _ => pow4, fun x _ => ?_, fun x _ => ?_, fun y _ => quartic_zero _ _⟩
      · refine ⟨contDiff_const, fun y _ => by simp [iteratedDeriv_const]⟩
      · refine ⟨contDiff_const, fun y _ => by simp [iteratedDeriv_const]⟩)
    (fun c p hc hp => by
      rw [G.atC hc] at hp
      cases hp
      exact ⟨rfl, rfl, rfl, rfl⟩) (1 / 256) (1 / 8) (by rw [hx, hy]; norm_num) (by rw [hx, hy]; norm_num) (by rw [hx, hy]; norm_num)
  refine ⟨g, e, vel, ls, ?_⟩
  obtain ⟨ls', k1, k2⟩ := this
  refine ⟨ls', k1, fun c hc => ?_⟩
  obtain ⟨x, p, w, l1, l2, l3, l4, l5⟩ := k2 c hc
  rw [zero_add] at l4 l5
  exact ⟨x, p, w, l1, l2, l3, l4.trans (by norm_num), fun a ha => (l5 a ha).trans (by norm_num)⟩

/-- A standing wave that is carried along the first axis; derivatives of order `i`, `j`, `k`. -/
noncomputable def wave3 (i j k : Fin 2) (x : Fin 3 → ℝ) (t : ℝ) : ℝ := sinD i (x 0 - t) * sinD j (x 1) * sinD k (x 2)

theorem wave3_le (i j k : Fin 2) (x : Fin 3 → ℝ) (t : ℝ) : |wave3 i j k x t| ≤ 1 := by
  unfold wave3
  rw [abs_mul]
  exact mul_le_one₀ (mul_sinD_le _ _ _ _) (abs_nonneg _) (sinD_le _ _)

theorem wave3_move (i : Fin 2) (c a s : ℝ) :
    HasDerivAt (fun s => sinD i (a - s) * c) (if i = 0 then -(sinD 1 (a - s) * c) else sinD 0 (a - s) * c) s := by
  match i with
  | 0 =>
    have := ((hasDerivAt_shift a s).sin).mul_const c
    simpa [sinD] using this
  | 1 =>
    have := ((hasDerivAt_shift a s).cos).mul_const c
    simpa [sinD] using this

theorem wave3_iter (i : Fin 2) (c a s : ℝ) (hc : |c| ≤ 1) : |iteratedDeriv 2 (fun s => sinD i (a - s) * c) s| ≤ 1 := by
  match i with
  | 0 =>
    have e := iter2 (fun s => wave3_move 0 c a s) (fun s => by
      simpa using (wave3_move 1 c a s).fun_neg) s
    rw [e, abs_neg, abs_mul]
    exact mul_le_one₀ (sinD_le _ _) (abs_nonneg _) hc
  | 1 =>
    have e := iter2 (fun s => wave3_move 1 c a s) (fun s => by
      simpa using wave3_move 0 c a s) s
    rw [e, abs_neg, abs_mul]
    exact mul_le_one₀ (sinD_le _ _) (abs_nonneg _) hc

theorem wave3_deriv (a c : ℝ) : HasDerivAt (fun s => sinD 0 (s - c)) (sinD 1 (a - c)) a := by
  have : HasDerivAt (fun s => Real.sin (s - c)) (Real.cos (a - c)) a := by
    simpa using ((hasDerivAt_id' a).sub_const c).sin
  simpa [sinD] using this

/-- Order of the derivative along the axis `b` in the partial derivative along `a`. -/
def oneD (a b : Fin 3) : Fin 2 := if a = b then 1 else 0

theorem wave3_partial (a : Fin 3) (x : Fin 3 → ℝ) (t : ℝ) : partialX (wave3 0 0 0) a x t =
    wave3 (oneD a 0) (oneD a 1) (oneD a 2) x t := by
  unfold partialX wave3
  match a with
  | 0 =>
    simp only [Function.update_self, Function.update_of_ne (show (1 : Fin 3) ≠ 0 by decide),
      Function.update_of_ne (show (2 : Fin 3) ≠ 0 by decide)]
    exact (((wave3_deriv (x 0) t).mul_const _).mul_const _).deriv
  | 1 =>
    simp only [Function.update_self, Function.update_of_ne (show (0 : Fin 3) ≠ 1 by decide),
      Function.update_of_ne (show (2 : Fin 3) ≠ 1 by decide)]
    exact (((sinD_deriv (x 1)).const_mul _).mul_const _).deriv
  | 2 =>
    simp only [Function.update_self, Function.update_of_ne (show (0 : Fin 3) ≠ 2 by decide),
      Function.update_of_ne (show (1 : Fin 3) ≠ 2 by decide)]
    exact ((sinD_deriv (x 2)).const_mul _).deriv

/-- The uniform flow along the first axis. -/
def alongX (_ : Fin 3 → ℝ) (a : Fin 3) : ℝ := if a = 0 then 1 else 0

theorem wave3_time (i j k : Fin 2) (x : Fin 3 → ℝ) : wave3 i j k x = fun s => sinD i (x 0 - s) * (sinD j (x 1) * sinD k (x 2)) := by
  funext s
  unfold wave3
  ring

theorem wave3_back (i j k : Fin 2) (x : Fin 3 → ℝ) (t : ℝ) : (fun s => wave3 i j k (backward 3 x (alongX x) s) t) =
    fun s => sinD i (x 0 - t - s) * (sinD j (x 1) * sinD k (x 2)) := by
  funext s
  simp only [wave3, backward, alongX]
  norm_num [show (2 : Fin 3) ≠ 0 by decide]
  rw [mul_assoc, sub_right_comm]

theorem wave3_curved (i j k : Fin 2) (x : Fin 3 → ℝ) (t τ : ℝ) : Curved 3 (wave3 i j k) x (alongX x) t τ 1 := by
  refine ⟨fun s _ => ?_, fun s _ => ?_⟩
  · rw [wave3_time]
    exact wave3_iter _ _ _ _ (mul_sinD_le _ _ _ _)
  · rw [wave3_back]
    exact wave3_iter _ _ _ _ (mul_sinD_le _ _ _ _)

theorem wave3_step (x : Vec3 ℝ) (t τ : ℝ) : StepData 3 (wave3 0 0 0) alongX t τ 1 1 1 0 x ⟨1, 0, 0⟩ Mat3.zero where
  eqn := Eventually.of_forall fun y => by
    unfold LevelSetEq
    rw [wave3_time, (wave3_move 0 _ (y 0) t).deriv, Fin.sum_univ_three]
    simp only [wave3_partial]
    norm_num [alongX, wave3, oneD, show (2 : Fin 3) ≠ 0 by decide, show (0 : Fin 3) ≠ 2 by decide]
    ring
  vel a _ := by
    match a with
    | 0 => rfl
    | 1 => rfl
    | 2 => rfl
  grad j a _ _ := by simpa [Mat3.zero, Mat3.entry, alongX] using hasDerivAt_const (x.get a) (if j = 0 then (1 : ℝ) else 0)
  small j a _ _ := by simp [Mat3.zero, Mat3.entry]
  value := wave3_curved 0 0 0 x.get t τ
  slope a _ := by
    have e : partialX (wave3 0 0 0) a = wave3 (oneD a 0) (oneD a 1) (oneD a 2) := by
      funext x t
      exact wave3_partial a x t
    rw [e]
    exact wave3_curved _ _ _ x.get t τ
  line a _ s _ := by
    simp only [wave3_partial]
    rw [wave3_back, (wave3_move _ _ _ s).deriv]
    split
    · rw [abs_neg, abs_mul]
      exact mul_le_one₀ (sinD_le _ _) (abs_nonneg _) (mul_sinD_le _ _ _ _)
    · rw [abs_mul]
      exact mul_le_one₀ (sinD_le _ _) (abs_nonneg _) (mul_sinD_le _ _ _ _)

theorem wave3_smooth : ContDiff ℝ 3 fun z : (Fin 3 → ℝ) × ℝ => wave3 0 0 0 z.1 z.2 := by
  have c : ∀ a : Fin 3, ContDiff ℝ 3 fun z : (Fin 3 → ℝ) × ℝ => z.1 a := fun a => (contDiff_apply ℝ ℝ a).comp contDiff_fst
  simp only [wave3, sinD, if_true]
  exact ((Real.contDiff_sin.comp ((c 0).sub contDiff_snd)).mul (Real.contDiff_sin.comp (c 1))).mul (Real.contDiff_sin.comp (c 2))

/-- Instance of `C95_space`: a wave in a uniform flow, 2 × 3 × 2 cells of 1/2 × 1 × 2, time step 1/10, ISO integer arithmetic. -/
example : ∃ g : Grid ℝ 3, (boxR 1).make .strict 3 = .ok g ∧ ∃ vel ls,
    StepClose .strict 3 (boxR 1) g (temporal .semiLagrangian .strict g g (1 / 10) vel ls) (wave3 0 0 0) (1 / 10) (1 / 10) 1 := by
  obtain ⟨g, e, -⟩ := C01_padded_addressing .strict 3 (boxR 1) boxR_valid
  have G := make_made boxR_valid e
  let q := nodePos (boxR 1) 3
  let F := fun (i j k : Fin 2) (x y z : ℝ) => sinD i x * sinD j y * sinD k z
  let f := fun (i j k : Fin 2) (c : Cell) => F i j k (q c).x (q c).y (q c).z
  obtain ⟨vel, hv, hg⟩ := velocity_exists (s := .strict) G (fun _ => ⟨1, 0, 0⟩) (fun _ => Mat3.zero)
  obtain ⟨ls, h0, h1, h2, h3, P⟩ := levelset_exists (s := .strict) G (fun _ => 7) (fun _ => 0) (f 0 0 0) (fun _ => ⟨0, 0, 0⟩)
    (fun _ => ⟨0, 0, 0⟩) (fun c => ⟨f 1 0 0 c, f 0 1 0 c, f 0 0 1 c⟩) (fun c => [f 1 1 0 c, f 0 1 1 c, f 1 0 1 c, f 1 1 1 c])
  have hx : (boxR 1).h 0 = 1 / 2 := by norm_num [boxR, Req.h, Vec3.get]
  have hy : (boxR 1).h 1 = 1 := by norm_num [boxR, Req.h, Vec3.get]
  have hz : (boxR 1).h 2 = 2 := by norm_num [boxR, Req.h, Vec3.get]
  have := C95_space .strict (boxR 1) boxR_valid (boxR_pos 1) rfl g e g vel _ _ (fun c hc => hv.val c (interior_padded G hc))
    (fun c hc => hg.val c (interior_padded G hc)) ls _ _ _ _ _ _ P _ _ _ _ h0 h1 h2 h3 (wave3 0 0 0) wave3_smooth alongX 0 (1 / 10)
    1 1 1 0 (by norm_num) (fun c x hc hxx => ⟨wave3_step x 0 (1 / 10), by
      rw [G.atC (interior_padded G hc)] at hxx
      cases hxx
      refine fun a ha => ?_
      have := near_node boxR_valid (boxR_pos 1) (by decide) hc (near_step (u := ⟨1, 0, 0⟩) (dt := 1 / 10) (fun a ha => by
        match a with
        | 0 => norm_num [boxR, Vec3.get, Req.h, abs_lt]
        | 1 => norm_num [boxR, Vec3.get, Req.h, abs_lt]
        | 2 => norm_num [boxR, Vec3.get, Req.h, abs_lt])) a ha
      exact ⟨this.1.le, this.2⟩⟩) F 1 (fun x y z => by simp [F, wave3]) (smooth_sin3 _ _ _ _ _ _) (fun c p hc hp => by
      rw [G.atC hc] at hp
      cases hp
      exact ⟨rfl, rfl, rfl, rfl, rfl, rfl⟩) (9 / 100) (99 / 100) (by rw [hx, hy, hz]; norm_num) (by rw [hx, hy, hz]; norm_num)
      (by rw [hx, hy, hz]; norm_num) (by rw [hx, hy, hz]; norm_num)
  refine ⟨g, e, vel, ls, ?_⟩
  obtain ⟨ls', k1, k2⟩ := this
  refine ⟨ls', k1, fun c hc => ?_⟩
  obtain ⟨x, p, w, l1, l2, l3, l4, l5⟩ := k2 c hc
  rw [zero_add] at l4 l5
  exact ⟨x, p, w, l1, l2, l3, l4.trans (by norm_num), fun a ha => (l5 a ha).trans (by norm_num)⟩

end Gals.Props
