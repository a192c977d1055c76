import Verif.Spec.Clock

/-!
# Lemmas on velocities in other units of time
-/

set_option linter.unusedSectionVars false

namespace Gals

open Spec

theorem rd_clock {α β : Type} {R : α → β → Prop} {l : List α} {l' : List β} (h : List.Forall₂ R l l') (i : ℤ) :
    (∃ x y, rd l i = .ok x ∧ rd l' i = .ok y ∧ R x y) ∨ ∃ f, rd l i = .error f ∧ rd l' i = .error f := by
  unfold rd
  split_ifs with hi
  · generalize i.toNat = n
    induction h generalizing n with
    | nil => exact .inr ⟨.oob, rfl, rfl⟩
    | cons r _ ih =>
      cases n with
      | zero => exact .inl ⟨_, _, rfl, rfl, r⟩
      | succ n => exact ih n
  · exact .inr ⟨_, rfl, rfl⟩

variable {K : Type} [Zero K] [One K] [Add K] [Sub K] [Mul K] [Div K] [Neg K] [NatCast K] [IntCast K] [LT K] [DecidableLT K] [LE K] [DecidableLE K] {d : ℕ}

theorem get_clock {α : Type} {R : α → α → Prop} {a a' : Arr α} (h : List.Forall₂ R a.data a'.data) (s : IntSem) (g : Grid K d) (i j k : ℤ) :
    (∃ x y, a.get s g i j k = .ok x ∧ a'.get s g i j k = .ok y ∧ R x y) ∨ ∃ f, a.get s g i j k = .error f ∧ a'.get s g i j k = .error f := by
  unfold Arr.get
  cases g.index s i j k with
  | ok n => exact rd_clock h n
  | error f => exact .inr ⟨f, rfl, rfl⟩

theorem get_bind_clock {α β : Type} {R : α → α → Prop} {a a' : Arr α} (h : List.Forall₂ R a.data a'.data) (s : IntSem) (g : Grid K d) (i j k : ℤ)
    {f f' : α → M β} (hf : ∀ x y, R x y → f x = f' y) : (a.get s g i j k >>= f) = (a'.get s g i j k >>= f') := by
  rcases get_clock h s g i j k with ⟨x, y, e, e', r⟩ | ⟨q, e, e'⟩
  · rw [e, e', M.ok_bind, M.ok_bind, hf x y r]
  · rw [e, e', M.error_bind, M.error_bind]

variable {dt dt' : K} {vel vel' : LsVelocity K}

theorem explicitEuler_clock (h : VelocityRel (fun x y => dt' * y = dt * x) vel vel') (s : IntSem) (g gv : Grid K d) (ls : Levelset K) :
    explicitEuler s g gv dt' vel' ls = explicitEuler s g gv dt vel ls := by
  unfold explicitEuler
  congr 1
  funext ls c
  congr 1
  funext p
  refine (get_bind_clock h.velocity s gv _ _ _ fun x y r => ?_).symm
  have := r 0
  change dt' * y.x = dt * x.x at this
  rw [this]

theorem departure_clock (h : VelocityRel (fun x y => y * dt' = x * dt) vel vel') (s : IntSem) (g gv : Grid K d) :
    departure s g gv dt' vel'.velocity = departure s g gv dt vel.velocity := by
  unfold departure
  congr 1
  funext ls c
  congr 1
  funext p
  refine (get_bind_clock h.velocity s gv _ _ _ fun x y r => ?_).symm
  have : y.smul dt' = x.smul dt := by
    unfold Vec3.smul
    have r0 := r 0
    have r1 := r 1
    have r2 := r 2
    change y.x * dt' = x.x * dt at r0
    change y.y * dt' = x.y * dt at r1
    change y.z * dt' = x.z * dt at r2
    rw [r0, r1, r2]
  rw [this]

theorem departureGrad_clock (h : VelocityRel (fun x y => y * dt' = x * dt) vel vel') (s : IntSem) (g gv : Grid K d) :
    departureGrad s g gv dt' vel'.grad = departureGrad s g gv dt vel.grad := by
  unfold departureGrad
  congr 1
  funext ls c
  refine (get_bind_clock h.grad s gv _ _ _ fun x y r => ?_).symm
  have : y.smul dt' = x.smul dt := by
    unfold Mat3.smul
    congr 1
    funext n
    match n with
    | 0 => exact r 0 0
    | 1 => exact r 0 1
    | 2 => exact r 0 2
    | 3 => exact r 1 0
    | 4 => exact r 1 1
    | 5 => exact r 1 2
    | 6 => exact r 2 0
    | 7 => exact r 2 1
    | 8 => exact r 2 2
  rw [this]

theorem slEuler_clock [HasFloor K] (h : VelocityRel (fun x y => y * dt' = x * dt) vel vel') (s : IntSem) (g gv : Grid K d) (ls : Levelset K) :
    slEuler s g gv dt' vel' ls = slEuler s g gv dt vel ls := by
  unfold slEuler
  rw [departure_clock h, departureGrad_clock h]

theorem carrySteps_clock [HasFloor K] (h : VelocityRel (fun x y => y * dt' = x * dt) vel vel') (s : IntSem) (g gv : Grid K d) (k : ℕ) (ls : Levelset K) :
    carrySteps s g gv dt' vel' k ls = carrySteps s g gv dt vel k ls := by
  induction k with
  | zero => rfl
  | succ k ih =>
    unfold carrySteps carryStep temporal
    rw [ih]
    simp only [slEuler_clock h]

theorem recomputeSteps_clock [HasFloor K] (h : VelocityRel (fun x y => y * dt' = x * dt) vel vel') (s : IntSem) (g gv : Grid K d) (k : ℕ)
    (ls : Levelset K) : recomputeSteps s g gv dt' vel' k ls = recomputeSteps s g gv dt vel k ls := by
  induction k with
  | zero => rfl
  | succ k ih =>
    unfold recomputeSteps recomputeStep carryStep temporal
    rw [ih]
    simp only [slEuler_clock h]

theorem velocityRel_mono {R S : K → K → Prop} (h : VelocityRel R vel vel') (i : ∀ x y, R x y → S x y) : VelocityRel S vel vel' :=
  ⟨h.velocity.imp fun _ _ r a => i _ _ (r a), h.grad.imp fun _ _ r a b => i _ _ (r a b)⟩

theorem multiple_mul {neg : Bool} {q : ℚ} {x y t t' : F64} (h : Multiple neg q y x) (ht : Multiple neg q t t') : y * t' = x * t := by
  obtain ⟨s, m, m', h1, h1', rfl, rfl, e⟩ := h
  obtain ⟨u, n, n', h2, h2', rfl, rfl, e'⟩ := ht
  change F64.round (s ^^ (u ^^ neg)) (m * n') = F64.round ((s ^^ neg) ^^ u) (m' * n)
  have a : (s ^^ (u ^^ neg)) = ((s ^^ neg) ^^ u) := by cases s <;> cases u <;> cases neg <;> rfl
  have b : m * n' = m' * n := by rw [e, e']; ring
  rw [a, b]

theorem mul_multiple {neg : Bool} {q : ℚ} {x y t t' : F64} (h : Multiple neg q y x) (ht : Multiple neg q t t') : t' * y = t * x := by
  obtain ⟨s, m, m', h1, h1', rfl, rfl, e⟩ := h
  obtain ⟨u, n, n', h2, h2', rfl, rfl, e'⟩ := ht
  change F64.round ((u ^^ neg) ^^ s) (n' * m) = F64.round (u ^^ (s ^^ neg)) (n * m')
  have a : ((u ^^ neg) ^^ s) = (u ^^ (s ^^ neg)) := by cases s <;> cases u <;> cases neg <;> rfl
  have b : n' * m = n * m' := by rw [e, e']; ring
  rw [a, b]

end Gals
