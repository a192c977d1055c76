import Verif.Model.RefTime
import Verif.Spec.Ref
import Verif.Lemmas.RefAdvect
import Mathlib.Analysis.Calculus.FDeriv.Prod
import Mathlib.Analysis.Calculus.FDeriv.Comp
import Mathlib.Analysis.Calculus.FDeriv.Add
import Mathlib.Analysis.Calculus.FDeriv.Mul

/-!
# C48: the superconsistent scheme
-/

set_option linter.unusedSectionVars false
set_option linter.unusedSimpArgs false

namespace Gals.Props

open Gals Gals.Ref

/-- The linear form `(h, k) ↦ a h + b k`. -/
noncomputable def grad (a b : ℝ) : ℝ × ℝ →L[ℝ] ℝ :=
  a • ContinuousLinearMap.fst ℝ ℝ ℝ + b • ContinuousLinearMap.snd ℝ ℝ ℝ

theorem grad_ext {a b a' b' : ℝ} (ha : a = a') (hb : b = b') : grad a b = grad a' b' := by rw [ha, hb]

/-- The function of two variables has gradient `(a, b)` at `p`. -/
def HasGrad (f : ℝ → ℝ → ℝ) (a b : ℝ) (p : ℝ × ℝ) : Prop := HasFDerivAt (fun q : ℝ × ℝ => f q.1 q.2) (grad a b) p

/-- The six functions of a velocity are consistent: the velocity is differentiable in space at every time and the coded
gradients are its partial derivatives. -/
structure VelDeriv (v : Vel ℝ) : Prop where
  u : ∀ x y t, HasGrad (fun x y => v.velx x y t) (v.gradUx x y t) (v.gradUy x y t) (x, y)
  v : ∀ x y t, HasGrad (fun x y => v.vely x y t) (v.gradVx x y t) (v.gradVy x y t) (x, y)

theorem hasGrad_fst (p : ℝ × ℝ) : HasGrad (fun x _ => x) 1 0 p := by
  unfold HasGrad grad
  simpa using (hasFDerivAt_fst (𝕜 := ℝ) (p := p))

theorem hasGrad_snd (p : ℝ × ℝ) : HasGrad (fun _ y => y) 0 1 p := by
  unfold HasGrad grad
  simpa using (hasFDerivAt_snd (𝕜 := ℝ) (p := p))

theorem HasGrad.add {f g : ℝ → ℝ → ℝ} {a b c d : ℝ} {p : ℝ × ℝ} (hf : HasGrad f a b p) (hg : HasGrad g c d p) :
    HasGrad (fun x y => f x y + g x y) (a + c) (b + d) p := by
  refine (HasFDerivAt.add hf hg).congr_fderiv ?_
  ext <;> simp [grad]

theorem HasGrad.sub {f g : ℝ → ℝ → ℝ} {a b c d : ℝ} {p : ℝ × ℝ} (hf : HasGrad f a b p) (hg : HasGrad g c d p) :
    HasGrad (fun x y => f x y - g x y) (a - c) (b - d) p := by
  refine (HasFDerivAt.sub hf hg).congr_fderiv ?_
  ext <;> simp [grad]

theorem HasGrad.mul {f : ℝ → ℝ → ℝ} {a b : ℝ} {p : ℝ × ℝ} (c : ℝ) (hf : HasGrad f a b p) :
    HasGrad (fun x y => c * f x y) (c * a) (c * b) p := by
  refine (HasFDerivAt.const_mul hf c).congr_fderiv ?_
  ext <;> simp [grad]

/-- Chain rule. -/
theorem HasGrad.comp {f X Y : ℝ → ℝ → ℝ} {a b xx xy yx yy : ℝ} {p : ℝ × ℝ}
    (hf : HasGrad f a b (X p.1 p.2, Y p.1 p.2)) (hX : HasGrad X xx xy p) (hY : HasGrad Y yx yy p) :
    HasGrad (fun x y => f (X x y) (Y x y)) (a * xx + b * yx) (a * xy + b * yy) p := by
  have h := HasFDerivAt.comp (f := fun q : ℝ × ℝ => (X q.1 q.2, Y q.1 q.2)) p hf (HasFDerivAt.prodMk hX hY)
  refine h.congr_fderiv ?_
  ext <;> simp [grad]

theorem HasGrad.congr {f g : ℝ → ℝ → ℝ} {a b a' b' : ℝ} {p : ℝ × ℝ} (h : HasGrad f a b p) (e : ∀ x y, g x y = f x y)
    (ha : a = a') (hb : b = b') : HasGrad g a' b' p := by
  subst ha hb
  have : g = f := by funext x y; exact e x y
  rwa [this]

theorem HasGrad.unique {f : ℝ → ℝ → ℝ} {a b a' b' : ℝ} {p : ℝ × ℝ} (h : HasGrad f a b p) (h' : HasGrad f a' b' p) :
    a = a' ∧ b = b' := by
  have e := HasFDerivAt.unique h h'
  have h1 := congrArg (fun L => L (1, 0)) e
  have h2 := congrArg (fun L => L (0, 1)) e
  simp [grad] at h1 h2
  exact ⟨h1, h2⟩

/-- C48: for every differentiable velocity with its coded gradients, both backtrace schemes, every time step (below
`2 ^ 32 - 1`) and `dt`, and every function `g` with gradient `(a, b)` at the departure point of the node: the scheme applied to
`(a, b)` gives the gradient, with respect to the node, of `g` at the departure point.  With `g` a coordinate this says that
the Jacobian in the code is the derivative of the departure-point map. -/
theorem C48_superconsistent {v : Vel ℝ} (hv : VelDeriv v) (rk3 : Bool) {t : ℕ} (ht : t + 1 < uMod) (dt x y : ℝ)
    {g : ℝ → ℝ → ℝ} {a b : ℝ} (hg : HasGrad g a b (Spec.departAt v.velx v.vely rk3 t dt x y)) :
    HasGrad (fun x y => g (Spec.departAt v.velx v.vely rk3 t dt x y).1 (Spec.departAt v.velx v.vely rk3 t dt x y).2)
      (superConsistent v rk3 x y a b t dt).1 (superConsistent v rk3 x y a b t dt).2 (x, y) := by
  have et : tm (uadd t 1) dt = ((t : ℝ) + 1) * dt := by
    rw [tm, uadd_eq (by omega)]; push_cast; ring
  have e0 : tm t dt = (t : ℝ) * dt := rfl
  have eh : (t : ℝ) * dt + dt / 2 = ((t : ℝ) + 1 / 2) * dt := by ring
  have fx := hasGrad_fst (x, y)
  have fy := hasGrad_snd (x, y)
  have u1 := hv.u x y ((t + 1) * dt)
  have v1 := hv.v x y ((t + 1) * dt)
  -- first stage
  have x2 := fx.sub (u1.mul dt)
  have y2 := fy.sub (v1.mul dt)
  cases rk3 with
  | false =>
    refine (HasGrad.comp (X := fun x y => x - dt * v.velx x y ((t + 1) * dt))
      (Y := fun x y => y - dt * v.vely x y ((t + 1) * dt)) (f := g) (a := a) (b := b) ?_ x2 y2).congr (fun x y => rfl) ?_ ?_
    · exact hg
    · simp only [superConsistent, et, Bool.false_eq_true, if_false]; ring
    · simp only [superConsistent, et, Bool.false_eq_true, if_false]; ring
  | true =>
    -- second stage
    have u2 := HasGrad.comp (hv.u _ _ (t * dt)) x2 y2
    have v2 := HasGrad.comp (hv.v _ _ (t * dt)) x2 y2
    have x3 := fx.sub ((u1.add u2).mul (dt / 4))
    have y3 := fy.sub ((v1.add v2).mul (dt / 4))
    -- third stage
    have u3 := HasGrad.comp (hv.u _ _ ((t + 1 / 2) * dt)) x3 y3
    have v3 := HasGrad.comp (hv.v _ _ ((t + 1 / 2) * dt)) x3 y3
    have xf := fx.sub (((u1.add u2).add (u3.mul 4)).mul (dt / 6))
    have yf := fy.sub (((v1.add v2).add (v3.mul 4)).mul (dt / 6))
    have r1 : ∀ p q : ℝ, dt * (p + q) / 4 = dt / 4 * (p + q) := fun p q => by ring
    have r2 : ∀ p : ℝ, dt * p / 6 = dt / 6 * p := fun p => by ring
    have q1 : ∀ z p q : ℝ, z - dt / 2 * (1 / 2 * p + 1 / 2 * q) = z - dt / 4 * (p + q) := fun z p q => by ring
    refine (HasGrad.comp (f := g) (a := a) (b := b) ?_ xf yf).congr ?_ ?_ ?_
    · simpa only [Spec.departAt, Spec.departRK3, if_true, r1, r2] using hg
    · intro x y
      simp only [Spec.departAt, Spec.departRK3, if_true, r1, r2]
    · simp only [superConsistent, et, e0, eh, if_true, q1, mul_comm _ dt]
      ring_nf
    · simp only [superConsistent, et, e0, eh, if_true, q1, mul_comm _ dt]
      ring_nf

end Gals.Props
