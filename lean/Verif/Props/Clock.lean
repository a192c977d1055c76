import Verif.Lemmas.Clock
import Verif.Props.Zoom

/-!
# C121: units of time do not matter
-/

namespace Gals.Props

open Gals Gals.Spec

section exact
variable {K : Type} [Field K] [LinearOrder K] [FloorRing K]

/-- C121, exact arithmetic, for all grids and arrays without any condition, and whatever the outcome, errors included.  The time step is given in
other units, `k` times as large, and so are the velocity and its gradient, `k` times as small; `k` can be negative.  Then a step of either scheme and
any number of steps, with the gradient carried along or recomputed, return the same. -/
theorem C121_steps {d : ℕ} (s : IntSem) (g gv : Grid K d) (k : K) (hk : k ≠ 0) (dt : K) (vel vel' : LsVelocity K)
    (h : VelocityRel (fun x y => y = x / k) vel vel') (ls : Levelset K) (n : ℕ) :
    (∀ sch, temporal sch s g gv (k * dt) vel' ls = temporal sch s g gv dt vel ls) ∧
    carrySteps s g gv (k * dt) vel' n ls = carrySteps s g gv dt vel n ls ∧
    recomputeSteps s g gv (k * dt) vel' n ls = recomputeSteps s g gv dt vel n ls := by
  have r : VelocityRel (fun x y => y * (k * dt) = x * dt) vel vel' := velocityRel_mono h fun x y e => by rw [e]; field_simp
  have r' : VelocityRel (fun x y => k * dt * y = dt * x) vel vel' := velocityRel_mono h fun x y e => by rw [e]; field_simp
  refine ⟨fun sch => ?_, carrySteps_clock r .., recomputeSteps_clock r ..⟩
  cases sch with
  | euler => exact explicitEuler_clock r' ..
  | semiLagrangian => exact slEuler_clock r ..

end exact

/-- C121 in doubles, bit for bit and whatever the outcome: if the new time step and the old velocities are the same multiple of the old time step and
the new velocities without rounding, as with powers of two far from overflow and underflow, and with a change of sign.  The factor is otherwise
arbitrary. -/
theorem C121_double {d : ℕ} (s : IntSem) (g gv : Grid F64 d) (neg : Bool) (q : ℚ) (dt dt' : F64) (hdt : Multiple neg q dt dt')
    (vel vel' : LsVelocity F64) (h : VelocityRel (fun x y => Multiple neg q y x) vel vel') (ls : Levelset F64) (n : ℕ) :
    (∀ sch, temporal sch s g gv dt' vel' ls = temporal sch s g gv dt vel ls) ∧
    carrySteps s g gv dt' vel' n ls = carrySteps s g gv dt vel n ls ∧
    recomputeSteps s g gv dt' vel' n ls = recomputeSteps s g gv dt vel n ls := by
  have r : VelocityRel (fun x y => y * dt' = x * dt) vel vel' := velocityRel_mono h fun x y e => multiple_mul e hdt
  have r' : VelocityRel (fun x y => dt' * y = dt * x) vel vel' := velocityRel_mono h fun x y e => mul_multiple e hdt
  refine ⟨fun sch => ?_, carrySteps_clock r .., recomputeSteps_clock r ..⟩
  cases sch with
  | euler => exact explicitEuler_clock r' ..
  | semiLagrangian => exact slEuler_clock r ..

/-! ## Instances -/

/-- What a step with velocity `u` along `x` returns in cell 0 of the line `two`, with values `[0, 0, 1, 1]` and slope 1. -/
def clockStep (sch : TimeScheme) (dt u : F64) : M F64 := do
  let g ← two.make .wrap 1
  let ls ← temporal sch .wrap g g dt (constVel g u) (lineLs g [0, 0, 1, 1] 1)
  ls.phi.get .wrap g 0 0 0

theorem clock_m1 : IsMag (1 / 16) := ⟨1, -4, by norm_num, by norm_num, by norm_num, (by norm_num : (1 / 16 : ℚ) < 1).trans_le (one_le_pow₀ (by norm_num))⟩

theorem clock_m2 : IsMag (1 / 8) := ⟨1, -3, by norm_num, by norm_num, by norm_num, (by norm_num : (1 / 8 : ℚ) < 1).trans_le (one_le_pow₀ (by norm_num))⟩

theorem clock_m3 : IsMag 3 := ⟨3, 0, by norm_num, by norm_num, by norm_num, (by norm_num : (3 : ℚ) < 2 ^ 2).trans_le (pow_le_pow_right₀ (by norm_num) (by norm_num))⟩

theorem clock_m4 : IsMag (3 / 2) := ⟨3, -1, by norm_num, by norm_num, by norm_num,
    (by norm_num : (3 / 2 : ℚ) < 2 ^ 2).trans_le (pow_le_pow_right₀ (by norm_num) (by norm_num))⟩

/-- Instance of `C121_double`: twice the time step with half of the velocity, and backwards. -/
theorem C121_double_inst : Multiple true 2 (F64.round false (1 / 16)) (F64.round true (1 / 8)) ∧
    ∃ g : Grid F64 1, two.make .wrap 1 = .ok g ∧
      VelocityRel (fun x y => Multiple true 2 y x) (constVel g (F64.round false 3)) ⟨Arr.mk' g ⟨F64.round true (3 / 2), F64.neg 0, F64.neg 0⟩,
        Arr.mk' g ⟨fun _ => F64.neg 0⟩⟩ ∧
      temporal .semiLagrangian .wrap g g (F64.round true (1 / 8)) ⟨Arr.mk' g ⟨F64.round true (3 / 2), F64.neg 0, F64.neg 0⟩,
        Arr.mk' g ⟨fun _ => F64.neg 0⟩⟩ (lineLs g [0, 0, 1, 1] 1) =
      temporal .semiLagrangian .wrap g g (F64.round false (1 / 16)) (constVel g (F64.round false 3)) (lineLs g [0, 0, 1, 1] 1) ∧
      clockStep .semiLagrangian (F64.round false (1 / 16)) (F64.round false 3) = .ok (F64.round true (15 / 512)) := by
  have a : Multiple true 2 (F64.round false (1 / 16)) (F64.round true (1 / 8)) :=
    ⟨false, 1 / 16, 1 / 8, clock_m1, clock_m2, by decide +kernel, by decide +kernel, by norm_num⟩
  have b : Multiple true 2 (F64.round true (3 / 2)) (F64.round false 3) := ⟨true, 3 / 2, 3, clock_m4, clock_m3, by decide +kernel, by decide +kernel, by norm_num⟩
  have c : Multiple true 2 (F64.neg 0) 0 := ⟨true, 0, 0, isMag_zero, isMag_zero, rfl, rfl, by norm_num⟩
  obtain ⟨g, e, -⟩ := make_ok .wrap two_valid
  have same : ∀ {α : Type} {R : α → α → Prop} {x y : α}, R x y → List.Forall₂ R (Arr.mk' g x).data (Arr.mk' g y).data := fun {α R x y} h => by
    change List.Forall₂ R (List.replicate g.size x) (List.replicate g.size y)
    obtain ⟨n, hn⟩ : ∃ n, g.size = n := ⟨_, rfl⟩
    rw [hn]
    clear hn
    induction n with
    | zero => exact .nil
    | succ n ih => exact .cons h ih
  have h : VelocityRel (fun x y => Multiple true 2 y x) (constVel g (F64.round false 3)) ⟨Arr.mk' g ⟨F64.round true (3 / 2), F64.neg 0, F64.neg 0⟩,
      Arr.mk' g ⟨fun _ => F64.neg 0⟩⟩ :=
    ⟨same fun i => by
      match i with
      | 0 => exact b
      | 1 => exact c
      | 2 => exact c, same fun i j => by
      match i, j with
      | 0, 0 | 0, 1 | 0, 2 | 1, 0 | 1, 1 | 1, 2 | 2, 0 | 2, 1 | 2, 2 => exact c⟩
  exact ⟨a, g, e, h, (C121_double .wrap g g true 2 _ _ a _ _ h _ 0).1 .semiLagrangian, by decide +kernel⟩

/-- Instance of `C121_steps`: the flow `(y, 0)` on the grid `demo 2`, in units of time of 1/60 backwards. -/
theorem C121_steps_inst : ∃ (g : Grid ℚ 2) (vel vel' : LsVelocity ℚ) (ls l : Levelset ℚ), (demo 2).make .wrap 2 = .ok g ∧
    vel.velocity.get .wrap g 1 2 0 = .ok ⟨2, 0, 0⟩ ∧ vel'.velocity.get .wrap g 1 2 0 = .ok ⟨-1 / 30, 0, 0⟩ ∧
    recomputeSteps .wrap g g (1 / 10) vel 3 ls = .ok l ∧ recomputeSteps .wrap g g (-6) vel' 3 ls = .ok l := by
  obtain ⟨g, g', vel, -, ls, -, l, -, e, -, v, -, k, -⟩ := C119_steps_inst
  have all : ∀ {α : Type} (f : α → α) (R : α → α → Prop) (_ : ∀ x, R x (f x)) (a : List α), List.Forall₂ R a (a.map f) := fun f R h a => by
    induction a with
    | nil => exact .nil
    | cons x a ih => exact .cons (h x) ih
  set vel' : LsVelocity ℚ := ⟨{ vel.velocity with data := vel.velocity.data.map fun v => ⟨v.x / -60, v.y / -60, v.z / -60⟩ },
    { vel.grad with data := vel.grad.data.map fun m => ⟨fun n => m.m n / -60⟩ }⟩ with hv
  have h : VelocityRel (fun x y => y = x / -60) vel vel' := ⟨all _ _ (fun v i => by
    match i with
    | 0 | 1 | 2 => rfl) _, all _ _ (fun m i j => rfl) _⟩
  have w : vel'.velocity.get .wrap g 1 2 0 = .ok ⟨-1 / 30, 0, 0⟩ := by
    rcases get_clock h.velocity .wrap g 1 2 0 with ⟨x, y, q, q', r⟩ | ⟨f, q, -⟩
    · rw [v] at q
      obtain rfl := Except.ok.inj q
      rw [q']
      refine congrArg Except.ok (vec_ext fun i => ?_)
      rw [r i]
      match i with
      | 0 => norm_num [Vec3.get]
      | 1 => norm_num [Vec3.get]
      | 2 => norm_num [Vec3.get]
    · rw [v] at q
      cases q
  have := (C121_steps .wrap g g (-60) (by norm_num) (1 / 10) vel vel' h ls 3).2.2
  rw [k, show (-60 : ℚ) * (1 / 10) = -6 by norm_num] at this
  exact ⟨g, vel, vel', ls, l, e, v, w, k, this⟩

/-- C121 is false in doubles for other units: the velocity 7 in time steps of 1/20, and 7/20 in time steps of 1, both rounded, although 20 times the
time step is 1 without error. -/
theorem C121_double_false : (20 : ℕ) * F64.round false (1 / 20) = 1 ∧ ((7 : ℕ) : F64) / (20 : ℕ) = F64.round false (7 / 20) ∧
    clockStep .semiLagrangian (F64.round false (1 / 20)) (7 : ℕ) = .ok (F64.round false (1513209474796487 / 36028797018963968)) ∧
    clockStep .semiLagrangian 1 (F64.round false (7 / 20)) = .ok (F64.round false (3026418949592973 / 72057594037927936)) ∧ F64.round false (1513209474796487 / 36028797018963968) ≠ F64.round false (3026418949592973 / 72057594037927936) :=
  ⟨by decide +kernel, by decide +kernel, by decide +kernel, by decide +kernel, by decide +kernel⟩

end Gals.Props
