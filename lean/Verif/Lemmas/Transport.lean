import Verif.Spec.Transport
import Verif.Lemmas.Differences
import Mathlib.Analysis.Calculus.FDeriv.Symmetric
import Mathlib.Analysis.Calculus.Deriv.Pi
import Mathlib.Analysis.Calculus.Deriv.Prod
import Mathlib.Analysis.Calculus.ContDiff.Operations
import Mathlib.Analysis.Calculus.ContDiff.Comp

/-!
# Taylor expansion of solutions of the level set equation
-/

namespace Gals

open Set Filter Topology Gals.Spec

/-- First order Taylor expansion with a bound of the second derivative. -/
theorem taylor2 {φ : ℝ → ℝ} (hφ : ContDiff ℝ 2 φ) {a τ B : ℝ} (h0 : 0 ≤ τ)
    (hB : ∀ s ∈ Icc a (a + τ), |iteratedDeriv 2 φ s| ≤ B) : |φ (a + τ) - φ a - τ * deriv φ a| ≤ B * τ ^ 2 / 2 := by
  have hφ' : ContDiff ℝ (2 : ℕ) φ := hφ
  have g1 := grow (φ := fun s => iteratedDeriv 1 φ (a + 1 * s) - iteratedDeriv 1 φ a)
    (φ' := fun s => 1 * iteratedDeriv 2 φ (a + 1 * s)) (h := τ) (C := B) 0 (by simp)
    (fun s => (hasDerivAt_move hφ' (by norm_num) a 1 s).sub_const _) (fun s hs => by
      have := hB (a + s) ⟨by linarith [hs.1], by linarith [hs.2]⟩
      simpa using this)
  have g2 := grow (φ := fun s => iteratedDeriv 0 φ (a + 1 * s) - iteratedDeriv 0 φ a - iteratedDeriv 1 φ a * s)
    (φ' := fun s => 1 * iteratedDeriv 1 φ (a + 1 * s) - iteratedDeriv 1 φ a) (h := τ) (C := B) 1 (by simp)
    (fun s => ((hasDerivAt_move hφ' (by norm_num) a 1 s).sub_const _).sub (by simpa using (hasDerivAt_id s).const_mul _))
    (fun s hs => by
      have := g1 s hs
      simpa using this)
  have := g2 τ ⟨h0, le_rfl⟩
  simp only [iteratedDeriv_zero, iteratedDeriv_one, one_mul] at this
  calc |φ (a + τ) - φ a - τ * deriv φ a| = |φ (a + τ) - φ a - deriv φ a * τ| := by rw [mul_comm τ]
    _ ≤ _ := this
    _ = B * τ ^ 2 / 2 := by push_cast; ring

/-- Position and time. -/
abbrev PT := (Fin 3 → ℝ) × ℝ

/-- The unit vector along the axis `a`. -/
def ex (a : Fin 3) : PT := (Pi.single a 1, 0)

/-- The unit vector along the time axis. -/
def et : PT := (0, 1)

section

variable {f : (Fin 3 → ℝ) → ℝ → ℝ}

/-- `f` as a function on the product. -/
abbrev joint (f : (Fin 3 → ℝ) → ℝ → ℝ) (z : PT) : ℝ := f z.1 z.2

theorem line_x (x : Fin 3 → ℝ) (a : Fin 3) (t s : ℝ) : HasDerivAt (fun s => ((Function.update x a s, t) : PT)) (ex a) s :=
  (hasDerivAt_update x a s).prodMk (hasDerivAt_const s t)

theorem line_t (x : Fin 3 → ℝ) (s : ℝ) : HasDerivAt (fun s => ((x, s) : PT)) et s :=
  (hasDerivAt_const s x).prodMk (hasDerivAt_id s)

/-- Direction of the line along which a particle came. -/
def dir (d : ℕ) (v : Fin 3 → ℝ) (a : Fin 3) : ℝ := if a.val < d then -v a else 0

theorem backward_eq (d : ℕ) (x v : Fin 3 → ℝ) (s : ℝ) : backward d x v s = fun a => x a + s * dir d v a := by
  funext a
  unfold backward dir
  split <;> ring

theorem line_b (d : ℕ) (x v : Fin 3 → ℝ) (t s : ℝ) :
    HasDerivAt (fun s => ((backward d x v s, t) : PT)) (dir d v, 0) s := by
  refine HasDerivAt.prodMk ?_ (hasDerivAt_const s t)
  have e : backward d x v = fun s a => x a + s * dir d v a := funext (backward_eq d x v)
  rw [e]
  refine hasDerivAt_pi.2 fun a => ?_
  simpa using ((hasDerivAt_id s).mul_const (dir d v a)).const_add (x a)

theorem backward_zero (d : ℕ) (x v : Fin 3 → ℝ) : backward d x v 0 = x := by simp [backward_eq]

theorem contDiff_backward {n : WithTop ℕ∞} (d : ℕ) (x v : Fin 3 → ℝ) : ContDiff ℝ n (backward d x v) := by
  have e : backward d x v = fun s a => x a + s * dir d v a := funext (backward_eq d x v)
  rw [e]
  exact contDiff_pi.2 fun a => contDiff_const.add (contDiff_id.mul contDiff_const)

theorem dir_sum (d : ℕ) (v : Fin 3 → ℝ) (L : PT →L[ℝ] ℝ) :
    L (dir d v, 0) = -∑ a : Fin 3, (if a.val < d then v a * L (ex a) else 0) := by
  have e : ((dir d v, 0) : PT) = ∑ a : Fin 3, dir d v a • ex a := by
    ext b
    · simp [Fin.sum_univ_three, ex]
      match b with
      | 0 => simp
      | 1 => simp
      | 2 => simp
    · simp [Fin.sum_univ_three, ex]
  rw [e, map_sum, ← Finset.sum_neg_distrib]
  refine Finset.sum_congr rfl fun a _ => ?_
  rw [map_smul, smul_eq_mul, dir]
  split <;> ring

variable (hf : ContDiff ℝ 3 (joint f))
include hf

theorem joint_deriv (z : PT) : HasFDerivAt (joint f) (fderiv ℝ (joint f) z) z :=
  (hf.differentiable (by norm_num) z).hasFDerivAt

theorem partialX_eq (a : Fin 3) (x : Fin 3 → ℝ) (t : ℝ) : partialX f a x t = fderiv ℝ (joint f) (x, t) (ex a) := by
  have h := (joint_deriv hf (Function.update x a (x a), t)).comp_hasDerivAt (x a) (line_x x a t (x a))
  rw [Function.update_eq_self] at h
  exact h.deriv

theorem derivT_eq (x : Fin 3 → ℝ) (t : ℝ) : deriv (f x) t = fderiv ℝ (joint f) (x, t) et :=
  ((joint_deriv hf (x, t)).comp_hasDerivAt t (line_t x t)).deriv

theorem fderiv_smooth : ContDiff ℝ 2 (fderiv ℝ (joint f)) := hf.fderiv_right (by norm_num)

/-- The derivative of the partial derivatives. -/
theorem second_deriv (z w : PT) : HasFDerivAt (fun z => fderiv ℝ (joint f) z w)
    ((fderiv ℝ (fderiv ℝ (joint f)) z).flip w) z := by
  have := (((fderiv_smooth hf).differentiable (by norm_num) z).hasFDerivAt).clm_apply (hasFDerivAt_const w z)
  refine this.congr_fderiv ?_
  ext <;> simp

theorem partialX_smooth (a : Fin 3) : ContDiff ℝ 2 (joint (partialX f a)) := by
  have e : joint (partialX f a) = fun z => fderiv ℝ (joint f) z (ex a) := funext fun z => partialX_eq hf a z.1 z.2
  rw [e]
  exact (fderiv_smooth hf).clm_apply contDiff_const

theorem second_symm (z v w : PT) : fderiv ℝ (fderiv ℝ (joint f)) z v w = fderiv ℝ (fderiv ℝ (joint f)) z w v :=
  (hf.contDiffAt.isSymmSndFDerivAt (by simp; norm_num)).eq v w

end

/-- Two Taylor expansions, in time and along the line. -/
theorem two_taylor {d : ℕ} {f : (Fin 3 → ℝ) → ℝ → ℝ} (hf : ContDiff ℝ 2 (joint f)) {x v : Fin 3 → ℝ} {t τ B : ℝ} (h0 : 0 ≤ τ)
    (hB : Curved d f x v t τ B) {p q : ℝ} (hp : HasDerivAt (f x) p t)
    (hq : HasDerivAt (fun s => f (backward d x v s) t) q 0) :
    |f x (t + τ) - f (backward d x v τ) t - τ * (p - q)| ≤ B * τ ^ 2 := by
  have c1 : ContDiff ℝ 2 (f x) := hf.comp (contDiff_const.prodMk contDiff_id)
  have c2 : ContDiff ℝ 2 (fun s => f (backward d x v s) t) := hf.comp ((contDiff_backward d x v).prodMk contDiff_const)
  have t1 := taylor2 c1 h0 hB.1
  have t2 := taylor2 c2 (a := 0) h0 (by simpa using hB.2)
  rw [hp.deriv] at t1
  rw [hq.deriv, zero_add, backward_zero] at t2
  have e : f x (t + τ) - f (backward d x v τ) t - τ * (p - q) =
      (f x (t + τ) - f x t - τ * p) - (f (backward d x v τ) t - f x t - τ * q) := by ring
  rw [e]
  have := abs_sub (f x (t + τ) - f x t - τ * p) (f (backward d x v τ) t - f x t - τ * q)
  linarith

section

variable {d : ℕ} {f : (Fin 3 → ℝ) → ℝ → ℝ} (hf : ContDiff ℝ 3 (joint f)) {u : (Fin 3 → ℝ) → Fin 3 → ℝ} {x : Fin 3 → ℝ} {t τ : ℝ}
include hf

/-- The value of a solution after a step is that at the departure point, up to the square of the step. -/
theorem transport_value (h0 : 0 ≤ τ) (E : LevelSetEq d f u x t) {B : ℝ} (hB : Curved d f x (u x) t τ B) :
    |f x (t + τ) - f (backward d x (u x) τ) t| ≤ B * τ ^ 2 := by
  have D := joint_deriv hf
  have hp := (D (x, t)).comp_hasDerivAt t (line_t x t)
  have hq := (D (backward d x (u x) 0, t)).comp_hasDerivAt 0 (line_b d x (u x) t 0)
  rw [backward_zero, dir_sum] at hq
  have := two_taylor (hf.of_le (by norm_num)) h0 hB hp hq
  unfold LevelSetEq at E
  rw [derivT_eq hf] at E
  simp only [partialX_eq hf] at E
  have e : fderiv ℝ (joint f) (x, t) et -
      -∑ a : Fin 3, (if a.val < d then u x a * fderiv ℝ (joint f) (x, t) (ex a) else 0) = 0 := by linarith
  rwa [e, mul_zero, sub_zero] at this

/-- The level set equation differentiated along an axis. -/
theorem equation_deriv {a : Fin 3} (E : ∀ᶠ y in 𝓝 x, LevelSetEq d f u y t) {m : Fin 3 → ℝ}
    (hm : ∀ j : Fin 3, j.val < d → HasDerivAt (fun s => u (Function.update x a s) j) (m j) (x a)) :
    fderiv ℝ (fderiv ℝ (joint f)) (x, t) (ex a) et + ∑ j : Fin 3, (if j.val < d then m j * partialX f j x t +
      u x j * fderiv ℝ (fderiv ℝ (joint f)) (x, t) (ex a) (ex j) else 0) = 0 := by
  have hx : Function.update x a (x a) = x := Function.update_eq_self a x
  have S := fun w => (second_deriv hf (Function.update x a (x a), t) w).comp_hasDerivAt (x a) (line_x x a t (x a))
  simp only [hx] at S
  have hcont : ContinuousAt (Function.update x a) (x a) := (hasDerivAt_update x a (x a)).continuousAt
  have E' : ∀ᶠ s in 𝓝 (x a), LevelSetEq d f u (Function.update x a s) t := by
    have E'' : ∀ᶠ y in 𝓝 (Function.update x a (x a)), LevelSetEq d f u y t := by rwa [hx]
    exact hcont.eventually E''
  have key : HasDerivAt (fun s => fderiv ℝ (joint f) (Function.update x a s, t) et + ∑ j : Fin 3,
      (if j.val < d then u (Function.update x a s) j * fderiv ℝ (joint f) (Function.update x a s, t) (ex j) else 0))
      (fderiv ℝ (fderiv ℝ (joint f)) (x, t) (ex a) et + ∑ j : Fin 3, (if j.val < d then m j * partialX f j x t +
        u x j * fderiv ℝ (fderiv ℝ (joint f)) (x, t) (ex a) (ex j) else 0)) (x a) := by
    refine (S et).add (HasDerivAt.fun_sum fun j _ => ?_)
    by_cases hj : j.val < d
    · simp only [hj, if_true]
      have := (hm j hj).mul (S (ex j))
      simp only [Function.comp, hx] at this
      rw [partialX_eq hf]
      exact this
    · simp only [hj, if_false]
      exact hasDerivAt_const _ _
  refine key.unique ?_
  refine (hasDerivAt_const (x a) (0 : ℝ)).congr_of_eventuallyEq ?_
  filter_upwards [E'] with s hs
  unfold LevelSetEq at hs
  rw [derivT_eq hf] at hs
  simp only [partialX_eq hf] at hs
  exact hs

/-- The gradient of a solution after a step is that at the departure point times the Jacobian matrix, up to the square of the
step. -/
theorem transport_grad (h0 : 0 ≤ τ) (E : ∀ᶠ y in 𝓝 x, LevelSetEq d f u y t) {a : Fin 3} {m : Fin 3 → ℝ}
    (hm : ∀ j : Fin 3, j.val < d → HasDerivAt (fun s => u (Function.update x a s) j) (m j) (x a)) {B L W : ℝ} (hd : d ≤ 3)
    (hB : Curved d (partialX f a) x (u x) t τ B)
    (hL : ∀ j : Fin 3, j.val < d → ∀ s ∈ Icc 0 τ, |deriv (fun s => partialX f j (backward d x (u x) s) t) s| ≤ L)
    (hW : ∀ j : Fin 3, j.val < d → |m j| ≤ W) :
    |partialX f a x (t + τ) - (partialX f a (backward d x (u x) τ) t -
      τ * ∑ j : Fin 3, (if j.val < d then m j * partialX f j (backward d x (u x) τ) t else 0))| ≤ (B + d * W * L) * τ ^ 2 := by
  have S := second_deriv hf
  have eP : ∀ (j : Fin 3) (y : Fin 3 → ℝ) (s : ℝ), fderiv ℝ (joint f) (y, s) (ex j) = partialX f j y s :=
    fun j y s => (partialX_eq hf j y s).symm
  have hp : HasDerivAt (partialX f a x) (fderiv ℝ (fderiv ℝ (joint f)) (x, t) et (ex a)) t := by
    have := (S (x, t) (ex a)).comp_hasDerivAt t (line_t x t)
    simp only [Function.comp_def, eP] at this
    exact this
  have hq : HasDerivAt (fun s => partialX f a (backward d x (u x) s) t)
      (-∑ j : Fin 3, (if j.val < d then u x j * fderiv ℝ (fderiv ℝ (joint f)) (x, t) (ex j) (ex a) else 0)) 0 := by
    have := (S (backward d x (u x) 0, t) (ex a)).comp_hasDerivAt 0 (line_b d x (u x) t 0)
    rw [dir_sum, backward_zero] at this
    simp only [Function.comp_def, eP] at this
    exact this
  have T := two_taylor (partialX_smooth hf a) h0 hB hp hq
  have Q := equation_deriv hf E hm
  simp only [second_symm hf (x, t) (ex a)] at Q
  -- the change of the gradient along the line
  have lip : ∀ j : Fin 3, j.val < d → |partialX f j (backward d x (u x) τ) t - partialX f j x t| ≤ L * τ := by
    intro j hj
    have c2 : ContDiff ℝ 2 (fun s => partialX f j (backward d x (u x) s) t) :=
      (partialX_smooth hf j).comp ((contDiff_backward d x (u x)).prodMk contDiff_const)
    have := (convex_Icc (0 : ℝ) τ).norm_image_sub_le_of_norm_deriv_le (f := fun s => partialX f j (backward d x (u x) s) t)
      (fun s _ => c2.differentiable (by norm_num) s) (fun s hs => hL j hj s hs) (left_mem_Icc.2 h0) (right_mem_Icc.2 h0)
    simpa [backward_zero, Real.norm_eq_abs, abs_of_nonneg h0] using this
  have sumle : |∑ j : Fin 3, (if j.val < d then m j * (partialX f j (backward d x (u x) τ) t - partialX f j x t) else 0)| ≤
      d * W * (L * τ) := by
    have k : ∀ j : Fin 3, |if j.val < d then m j * (partialX f j (backward d x (u x) τ) t - partialX f j x t) else 0| ≤
        if j.val < d then W * (L * τ) else 0 := by
      intro j
      by_cases hj : j.val < d
      · simp only [hj, if_true, abs_mul]
        exact mul_le_mul (hW j hj) (lip j hj) (abs_nonneg _) ((abs_nonneg _).trans (hW j hj))
      · simp [hj]
    refine (Finset.abs_sum_le_sum_abs _ _).trans ((Finset.sum_le_sum fun j _ => k j).trans (le_of_eq ?_))
    rw [Fin.sum_univ_three]
    have : d = 0 ∨ d = 1 ∨ d = 2 ∨ d = 3 := by omega
    obtain rfl | rfl | rfl | rfl := this <;> norm_num <;> ring
  set P := partialX f a x (t + τ)
  set R := partialX f a (backward d x (u x) τ) t
  have hs : ∑ j : Fin 3, (if j.val < d then m j * partialX f j (backward d x (u x) τ) t else 0) =
      ∑ j : Fin 3, (if j.val < d then m j * partialX f j x t else 0) +
      ∑ j : Fin 3, (if j.val < d then m j * (partialX f j (backward d x (u x) τ) t - partialX f j x t) else 0) := by
    rw [← Finset.sum_add_distrib]
    refine Finset.sum_congr rfl fun j _ => ?_
    split <;> ring
  have hQ : ∑ j : Fin 3, (if j.val < d then m j * partialX f j x t +
      u x j * fderiv ℝ (fderiv ℝ (joint f)) (x, t) (ex j) (ex a) else 0) =
      ∑ j : Fin 3, (if j.val < d then m j * partialX f j x t else 0) +
      ∑ j : Fin 3, (if j.val < d then u x j * fderiv ℝ (fderiv ℝ (joint f)) (x, t) (ex j) (ex a) else 0) := by
    rw [← Finset.sum_add_distrib]
    refine Finset.sum_congr rfl fun j _ => ?_
    split <;> ring
  rw [hs]
  rw [second_symm hf (x, t) et (ex a)] at T
  rw [hQ] at Q
  simp only [second_symm hf (x, t) et (ex a)] at Q
  generalize ∑ j : Fin 3, (if j.val < d then u x j * fderiv ℝ (fderiv ℝ (joint f)) (x, t) (ex j) (ex a) else 0) = V at *
  generalize ∑ j : Fin 3, (if j.val < d then m j * (partialX f j (backward d x (u x) τ) t - partialX f j x t) else 0) = Y at *
  generalize ∑ j : Fin 3, (if j.val < d then m j * partialX f j x t else 0) = Z at *
  generalize fderiv ℝ (fderiv ℝ (joint f)) (x, t) (ex a) et = A at *
  have hA : A = -Z - V := by linarith
  subst hA
  have e : P - (R - τ * (Z + Y)) = (P - R - τ * (-Z - V - -V)) + τ * Y := by ring
  rw [e]
  calc _ ≤ |P - R - τ * (-Z - V - -V)| + |τ * Y| := abs_add_le _ _
    _ ≤ B * τ ^ 2 + τ * (d * W * (L * τ)) := by
        rw [abs_mul, abs_of_nonneg h0]
        exact add_le_add T (mul_le_mul_of_nonneg_left sumle h0)
    _ = _ := by ring

end

end Gals
