import Verif.Props.RefSuper
import Mathlib.Analysis.SpecialFunctions.Trigonometric.Deriv
import Mathlib.Analysis.SpecialFunctions.ExpDeriv
import Mathlib.Analysis.SpecialFunctions.Sqrt
import Mathlib.Analysis.Calculus.Deriv.Pow

/-!
# C49, C50: vortex velocity and initial level set of the reference code
-/

set_option linter.unusedSectionVars false
set_option linter.unusedSimpArgs false

namespace Gals.Props

open Gals Gals.Ref Real

/-! ## Products of functions of one variable -/

/-- `p(x) q(y)`. -/
theorem hasGrad_prod {p q : ℝ → ℝ} {p' q' x y : ℝ} (hp : HasDerivAt p p' x) (hq : HasDerivAt q q' y) :
    HasGrad (fun x y => p x * q y) (p' * q y) (p x * q') (x, y) := by
  have h1 := HasDerivAt.comp_hasFDerivAt (f := Prod.fst) (x, y) hp (hasFDerivAt_fst (𝕜 := ℝ) (E := ℝ) (F := ℝ) (p := (x, y)))
  have h2 := HasDerivAt.comp_hasFDerivAt (f := Prod.snd) (x, y) hq (hasFDerivAt_snd (𝕜 := ℝ) (E := ℝ) (F := ℝ) (p := (x, y)))
  refine (h1.mul h2).congr_fderiv ?_
  ext
  · simp [grad]; ring
  · simp [grad]

theorem sin_pi_sq (x : ℝ) : HasDerivAt (fun x => sin (π * x) ^ 2) (π * sin (2 * π * x)) x := by
  have h : HasDerivAt (fun x => π * x) π x := by simpa using (hasDerivAt_id x).const_mul π
  refine (h.sin.pow 2).congr_deriv ?_
  rw [show 2 * π * x = 2 * (π * x) by ring, sin_two_mul]
  ring

theorem sin_two_pi (x : ℝ) : HasDerivAt (fun x => sin (2 * π * x)) (2 * π * cos (2 * π * x)) x := by
  have h : HasDerivAt (fun x => 2 * π * x) (2 * π) x := by simpa using (hasDerivAt_id x).const_mul (2 * π)
  exact h.sin.congr_deriv (by ring)

/-! ## C49 -/

/-- C49: the coded gradients of the vortex are its exact partial derivatives at every point, time and period.  (For the
period 0 the code computes NaN and the statement is about nothing in the code.) -/
theorem C49_gradients (T : ℝ) : VelDeriv (vortex T) where
  u x y t := by
    refine ((hasGrad_prod (sin_pi_sq x) (sin_two_pi y)).mul (cos (π * t / T))).congr (fun x y => ?_) ?_ ?_ <;>
      simp only [vortex] <;> ring
  v x y t := by
    refine ((hasGrad_prod (sin_two_pi x) (sin_pi_sq y)).mul (-cos (π * t / T))).congr (fun x y => ?_) ?_ ?_ <;>
      simp only [vortex] <;> ring

/-- C49: the vortex is divergence free: the trace of the gradient is zero, in the code's gradient functions and hence for
the partial derivatives. -/
theorem C49_incompressible (T x y t : ℝ) {ux uy vx vy : ℝ}
    (hu : HasGrad (fun x y => (vortex T).velx x y t) ux uy (x, y))
    (hv : HasGrad (fun x y => (vortex T).vely x y t) vx vy (x, y)) :
    ux + vy = 0 ∧ (vortex T).gradUx x y t + (vortex T).gradVy x y t = 0 := by
  have h : (vortex T).gradUx x y t + (vortex T).gradVy x y t = 0 := by
    simp only [vortex]
    ring
  rw [(hu.unique ((C49_gradients T).u x y t)).1, (hv.unique ((C49_gradients T).v x y t)).2]
  exact ⟨h, h⟩

/-- C49: the normal component vanishes on the four sides of the unit square, and both components at its corners. -/
theorem C49_walls (T s t : ℝ) : (vortex T).velx 0 s t = 0 ∧ (vortex T).velx 1 s t = 0 ∧ (vortex T).vely s 0 t = 0 ∧
    (vortex T).vely s 1 t = 0 ∧
    (∀ x y, (x = 0 ∨ x = 1) → (y = 0 ∨ y = 1) → (vortex T).velx x y t = 0 ∧ (vortex T).vely x y t = 0) := by
  refine ⟨by simp [vortex], by simp [vortex], by simp [vortex], by simp [vortex], ?_⟩
  rintro x y (rfl | rfl) (rfl | rfl) <;> simp [vortex]

/-- The vortex is not at rest: at (1/2, 1/4) and time 0 it moves with velocity (1, 0), and `gradUx` at (1/4, 1/4) is π. -/
example : (vortex 8).velx (1 / 2) (1 / 4) 0 = 1 ∧ (vortex 8).gradUx (1 / 4) (1 / 4) 0 = π := by
  constructor
  · simp only [vortex]
    rw [show π * (1 / 2) = π / 2 by ring, show 2 * π * (1 / 4) = π / 2 by ring]
    simp
  · simp only [vortex]
    rw [show 2 * π * (1 / 4) = π / 2 by ring]
    simp

/-- The hypotheses of `C48_superconsistent` hold for the vortex, `g` the squared distance to the origin and both schemes. -/
example (rk3 : Bool) := C48_superconsistent (C49_gradients 8) rk3 (t := 3) (by decide) (1 / 100) (1 / 4) (1 / 4)
  (g := fun x y => x ^ 2 + y ^ 2)
  (((hasGrad_prod (q := fun _ => 1) (hasDerivAt_pow 2 _) (hasDerivAt_const _ 1)).add
    (hasGrad_prod (p := fun _ => 1) (hasDerivAt_const _ 1) (hasDerivAt_pow 2 _))).congr (fun x y => by ring) rfl rfl)

/-! ## C50 -/

/-- One factor of the Gaussian. -/
theorem gauss_deriv (c x : ℝ) : HasDerivAt (fun x => exp (-(x - c) ^ 2)) (-2 * (x - c) * exp (-(x - c) ^ 2)) x := by
  have h : HasDerivAt (fun x => -(x - c) ^ 2) (-(2 * (x - c))) x := by
    refine (((hasDerivAt_id x).sub_const c).pow 2).neg.congr_deriv ?_
    simp
  exact h.exp.congr_deriv (by ring)

theorem gauss_split (x y : ℝ) : exp (-((x - xo) ^ 2 + (y - yo) ^ 2)) = exp (-(x - xo) ^ 2) * exp (-(y - yo) ^ 2) := by
  rw [← exp_add]
  ring_nf

/-- C50: at every point the coded initial gradient is the gradient of the coded initial level set, and the coded mixed
derivative is the `y`-derivative of the first and the `x`-derivative of the second component. -/
theorem C50_initial (x y : ℝ) : HasGrad initPhi (derivxinit x y) (derivyinit x y) (x, y) ∧
    (∃ a, HasGrad derivxinit a (derivxyinit x y) (x, y)) ∧ ∃ b, HasGrad derivyinit (derivxyinit x y) b (x, y) := by
  have gx := gauss_deriv xo x
  have gy := gauss_deriv yo y
  have lx : HasDerivAt (fun x => -2 * (x - xo)) (-2) x := by
    simpa using ((hasDerivAt_id x).sub_const xo).const_mul (-2 : ℝ)
  have ly : HasDerivAt (fun y => -2 * (y - yo)) (-2) y := by
    simpa using ((hasDerivAt_id y).sub_const yo).const_mul (-2 : ℝ)
  refine ⟨?_, ?_, ?_⟩
  · have hc : HasGrad (fun _ _ => exp (-rcircle ^ 2)) 0 0 (x, y) := by
      refine (hasFDerivAt_const (exp (-rcircle ^ 2)) (x, y)).congr_fderiv ?_
      ext <;> simp [grad]
    refine ((hasGrad_prod gx gy).sub hc).congr (fun x y => ?_) ?_ ?_
    · rw [initPhi, gauss_split]
    · rw [derivxinit, gauss_split]; ring
    · rw [derivyinit, gauss_split]; ring
  · refine ⟨_, (hasGrad_prod (lx.mul gx) gy).congr (fun x y => ?_) rfl ?_⟩
    · rw [derivxinit, gauss_split, Pi.mul_apply]; ring
    · rw [derivxyinit, gauss_split, Pi.mul_apply]; ring
  · refine ⟨_, (hasGrad_prod gx (ly.mul gy)).congr (fun x y => ?_) ?_ rfl⟩
    · rw [derivyinit, gauss_split, Pi.mul_apply]; ring
    · rw [derivxyinit, gauss_split, Pi.mul_apply]; ring

/-- C50 for the CUDA initialisation, which is written out again in the kernel: it stores the same four values. -/
theorem C50_cuda (x y : ℝ) : initializeCuda x y = (initPhi x y, derivxinit x y, derivyinit x y, derivxyinit x y) := by
  have e : (x - xo) * (x - xo) + (y - yo) * (y - yo) = (x - xo) ^ 2 + (y - yo) ^ 2 := by ring
  have r : -rcircle * rcircle = -rcircle ^ 2 := by ring
  simp only [initializeCuda, initPhi, derivxinit, derivyinit, derivxyinit, e, r, Prod.mk.injEq, and_self, and_true]
  ring

/-- The initial zero level set is the circle of radius 0.15 about (0.5, 0.75), positive inside and negative outside. -/
theorem C50_circle (x y : ℝ) :
    (0 < initPhi x y ↔ (x - 1 / 2) ^ 2 + (y - 3 / 4) ^ 2 < (3 / 20) ^ 2) ∧
      (initPhi x y = 0 ↔ (x - 1 / 2) ^ 2 + (y - 3 / 4) ^ 2 = (3 / 20) ^ 2) := by
  have e1 : xo = 1 / 2 := by norm_num [xo]
  have e2 : yo = 3 / 4 := by norm_num [yo]
  have e3 : rcircle = 3 / 20 := by norm_num [rcircle]
  unfold initPhi
  rw [e1, e2, e3, sub_pos, exp_lt_exp, sub_eq_zero, exp_eq_exp, neg_lt_neg_iff, neg_inj]
  exact ⟨Iff.rfl, Iff.rfl⟩

/-- The mixed derivative is not identically zero: at (1, 1) it is `4 (1/4) (1/2) exp (-5/16)`. -/
example : derivxyinit 1 1 = 1 / 2 * exp (-(5 / 16)) := by
  unfold derivxyinit xo yo
  norm_num

/-- Instance of `C49_incompressible`: the derivatives of the vortex of period 8. -/
example (x y t : ℝ) : (vortex 8).gradUx x y t + (vortex 8).gradVy x y t = 0 :=
  (C49_incompressible 8 x y t ((C49_gradients 8).u x y t) ((C49_gradients 8).v x y t)).1

end Gals.Props
