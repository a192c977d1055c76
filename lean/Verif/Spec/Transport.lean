import Verif.Spec.Levelset
import Mathlib.Analysis.Calculus.IteratedDeriv.Lemmas
import Mathlib.Analysis.Calculus.Deriv.Basic

/-!
# The level set equation

Functions of position and time that are carried by a velocity field.
-/

namespace Gals.Spec

open Gals Set Filter Topology

/-- The partial derivative along the axis `a` of a function of position and time. -/
noncomputable def partialX (f : (Fin 3 → ℝ) → ℝ → ℝ) (a : Fin 3) (x : Fin 3 → ℝ) (t : ℝ) : ℝ :=
  deriv (fun s => f (Function.update x a s) t) (x a)

/-- The level set equation `f_t + u . grad f = 0` in the first `d` coordinates, at the point `x` and the time `t`. -/
def LevelSetEq (d : ℕ) (f : (Fin 3 → ℝ) → ℝ → ℝ) (u : (Fin 3 → ℝ) → Fin 3 → ℝ) (x : Fin 3 → ℝ) (t : ℝ) : Prop :=
  deriv (f x) t + ∑ a : Fin 3, (if a.val < d then u x a * partialX f a x t else 0) = 0

/-- The point reached from `x` after going back for the time `s` with the velocity `v`, along the first `d` axes. -/
def backward (d : ℕ) (x v : Fin 3 → ℝ) (s : ℝ) (a : Fin 3) : ℝ := if a.val < d then x a - s * v a else x a

/-- During the time step from `t` to `t + τ` the second derivative of `f` in time at `x`, and that along the straight line on which
the particle with velocity `v` came to `x`, are at most `B`. -/
def Curved (d : ℕ) (f : (Fin 3 → ℝ) → ℝ → ℝ) (x v : Fin 3 → ℝ) (t τ B : ℝ) : Prop :=
  (∀ s ∈ Icc t (t + τ), |iteratedDeriv 2 (f x) s| ≤ B) ∧
    ∀ s ∈ Icc 0 τ, |iteratedDeriv 2 (fun s => f (backward d x v s) t) s| ≤ B

/-- Motion of the fluid during a step, at the node `x`: the velocity solves with `f` the level set equation near `x` at the time `t`, it
is stored as `v`, its derivatives as `m`; these are at most `W`.  Second derivatives of `f` are at most `B`, those of its gradient at
most `B'`, and the gradient changes along the line by at most `L` per unit of time. -/
structure StepData (d : ℕ) (f : (Fin 3 → ℝ) → ℝ → ℝ) (u : (Fin 3 → ℝ) → Fin 3 → ℝ) (t τ B B' L W : ℝ) (x v : Vec3 ℝ) (m : Mat3 ℝ) :
    Prop where
  eqn : ∀ᶠ y in 𝓝 x.get, LevelSetEq d f u y t
  vel : ∀ a : Fin 3, a.val < d → v.get a = u x.get a
  grad : ∀ j a : Fin 3, j.val < d → a.val < d →
    HasDerivAt (fun s => u (Function.update x.get a s) j) (m.entry j a) (x.get a)
  small : ∀ j a : Fin 3, j.val < d → a.val < d → |m.entry j a| ≤ W
  value : Curved d f x.get (u x.get) t τ B
  slope : ∀ a : Fin 3, a.val < d → Curved d (partialX f a) x.get (u x.get) t τ B'
  line : ∀ a : Fin 3, a.val < d → ∀ s ∈ Icc 0 τ, |deriv (fun s => partialX f a (backward d x.get (u x.get) s) t) s| ≤ L

/-- The outcome `res` of a step is a level set whose value and gradient at every interior cell are those of `f` at the time `t`, up to
`E` and `E'`. -/
def StepClose (s : IntSem) (d : ℕ) (r : Req ℝ) (g : Grid ℝ d) (res : M (Levelset ℝ)) (f : (Fin 3 → ℝ) → ℝ → ℝ) (t E E' : ℝ) : Prop :=
  ∃ ls', res = .ok ls' ∧ ∀ c, r.Interior c → ∃ (x : Vec3 ℝ) (p : ℝ) (q : Vec3 ℝ),
    g.at' s c.1 c.2.1 c.2.2 = .ok x ∧ ls'.phi.get s g c.1 c.2.1 c.2.2 = .ok p ∧ ls'.psi.get s g c.1 c.2.1 c.2.2 = .ok q ∧
    |p - f x.get t| ≤ E ∧ ∀ a : Fin 3, a.val < d → |q.get a - partialX f a x.get t| ≤ E'

end Gals.Spec
