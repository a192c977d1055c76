import Verif.Spec.Bending
import Verif.Lemmas.Hermite
import Mathlib.Analysis.SpecialFunctions.Integrals.Basic

/-!
# Bending energy in closed form
-/

namespace Gals

open Spec

/-- `4 / h (α² + α β + β²)` with the slopes `α`, `β` relative to the chord. -/
noncomputable def en (h a a' b b' : ℝ) : ℝ :=
  4 / h * ((a' - (b - a) / h) ^ 2 + (a' - (b - a) / h) * (b' - (b - a) / h) + (b' - (b - a) / h) ^ 2)

theorem en_nonneg {h : ℝ} (hh : 0 < h) (a a' b b' : ℝ) : 0 ≤ en h a a' b b' := by
  unfold en
  generalize a' - (b - a) / h = α
  generalize b' - (b - a) / h = β
  have : 0 ≤ α ^ 2 + α * β + β ^ 2 := by nlinarith [sq_nonneg (α + β), sq_nonneg α, sq_nonneg β]
  positivity

theorem second_cubic (c0 c1 c2 c3 x : ℝ) : iteratedDeriv 2 (fun x : ℝ => c0 + c1 * x + c2 * x ^ 2 + c3 * x ^ 3) x = 2 * c2 + 6 * c3 * x := by
  have d1 : deriv (fun x : ℝ => c0 + c1 * x + c2 * x ^ 2 + c3 * x ^ 3) = fun x => c1 + 2 * c2 * x + 3 * c3 * x ^ 2 := by
    funext x
    have := ((((hasDerivAt_id' x).const_mul c1).const_add c0).add ((hasDerivAt_pow 2 x).const_mul c2)).add
      ((hasDerivAt_pow 3 x).const_mul c3)
    exact (this.congr_deriv (by push_cast; ring)).deriv
  have d2 : deriv (fun x : ℝ => c1 + 2 * c2 * x + 3 * c3 * x ^ 2) x = 2 * c2 + 6 * c3 * x := by
    have := (((hasDerivAt_id' x).const_mul (2 * c2)).const_add c1).add ((hasDerivAt_pow 2 x).const_mul (3 * c3))
    exact (this.congr_deriv (by push_cast; ring)).deriv
  rw [iteratedDeriv_succ, iteratedDeriv_one, d1, d2]

theorem cubic_second {h : ℝ} (hh : 0 < h) (a a' b b' x : ℝ) : iteratedDeriv 2 (hermiteCubic h a a' b b') x =
    2 * ((-3 * a - 2 * h * a' + 3 * b - h * b') / h ^ 2) + 6 * ((2 * a + h * a' - 2 * b + h * b') / h ^ 3) * x := by
  have e : hermiteCubic h a a' b b' = fun x => a + a' * x + (-3 * a - 2 * h * a' + 3 * b - h * b') / h ^ 2 * x ^ 2 +
      (2 * a + h * a' - 2 * b + h * b') / h ^ 3 * x ^ 3 := by
    funext x
    simp only [hermiteCubic, hVal, hSlope, if_true, show ¬ (1 : Fin 2) = 0 by decide, if_false]
    field_simp
    ring
  rw [e, second_cubic]

theorem integral_linear_sq (A B h : ℝ) : ∫ x in (0 : ℝ)..h, (A + B * x) ^ 2 = A ^ 2 * h + A * B * h ^ 2 + B ^ 2 * h ^ 3 / 3 := by
  have d : ∀ x ∈ Set.uIcc 0 h, HasDerivAt (fun x : ℝ => A ^ 2 * x + A * B * x ^ 2 + B ^ 2 / 3 * x ^ 3) ((A + B * x) ^ 2) x := by
    intro x _
    have := (((hasDerivAt_id' x).const_mul (A ^ 2)).add ((hasDerivAt_pow 2 x).const_mul (A * B))).add
      ((hasDerivAt_pow 3 x).const_mul (B ^ 2 / 3))
    exact this.congr_deriv (by push_cast; ring)
  rw [intervalIntegral.integral_eq_sub_of_hasDerivAt d ((by fun_prop : Continuous fun x : ℝ => (A + B * x) ^ 2).intervalIntegrable _ _)]
  ring

theorem bending_eq {h : ℝ} (hh : 0 < h) (a a' b b' : ℝ) : bending h a a' b b' = en h a a' b b' := by
  unfold bending
  simp only [cubic_second hh]
  rw [integral_linear_sq]
  unfold en
  field_simp
  ring

/-- Value and slope of the cubic at the point with the local coordinate `t`. -/
noncomputable def cv (h a a' b b' t : ℝ) : ℝ := T1 (basis t) h a a' b b'
noncomputable def cs (h a a' b b' t : ℝ) : ℝ := T1 (basis' t) h a a' b b' * (1 / h)

/-- Splitting an interval: the energy is that of the cubic over the whole interval and of the deviations from it. -/
theorem en_split {h t : ℝ} (hh : 0 < h) (t0 : 0 < t) (t1 : t < 1) (a a' m m' b b' : ℝ) :
    en (t * h) a a' m m' + en ((1 - t) * h) m m' b b' = en h a a' b b' +
      en (t * h) 0 0 (m - cv h a a' b b' t) (m' - cs h a a' b b' t) + en ((1 - t) * h) (m - cv h a a' b b' t) (m' - cs h a a' b b' t) 0 0 := by
  have h1 : (1 - t) ≠ 0 := by linarith
  simp only [en, cv, cs, basis, basis', T1_four, B0, B1, B2, B3, B0', B1', B2', B3', sqr, cube]
  field_simp
  ring

theorem en_cut {h t : ℝ} (hh : 0 < h) (t0 : 0 < t) (t1 : t < 1) (a a' b b' : ℝ) :
    en (t * h) a a' (cv h a a' b b' t) (cs h a a' b b' t) + en ((1 - t) * h) (cv h a a' b b' t) (cs h a a' b b' t) b b' =
      en h a a' b b' := by
  rw [en_split hh t0 t1, sub_self, sub_self]
  simp [en]

theorem en_join {h t : ℝ} (hh : 0 < h) (t0 : 0 < t) (t1 : t < 1) (a a' m m' b b' : ℝ) :
    en h a a' b b' ≤ en (t * h) a a' m m' + en ((1 - t) * h) m m' b b' := by
  rw [en_split hh t0 t1]
  have := en_nonneg (mul_pos t0 hh) 0 0 (m - cv h a a' b b' t) (m' - cs h a a' b b' t)
  have := en_nonneg (mul_pos (by linarith : 0 < 1 - t) hh) (m - cv h a a' b b' t) (m' - cs h a a' b b' t) 0 0
  linarith

/-- Resampling a spline at points shifted by the fraction `t` of an interval does not increase the energy. -/
theorem shift_le {h t : ℝ} (hh : 0 < h) (t0 : 0 ≤ t) (t1 : t < 1) (f g : ℤ → ℝ) (b : ℤ) (m : ℕ) :
    ∑ i ∈ Finset.range m, en h (cv h (f (b + i)) (g (b + i)) (f (b + i + 1)) (g (b + i + 1)) t)
      (cs h (f (b + i)) (g (b + i)) (f (b + i + 1)) (g (b + i + 1)) t)
      (cv h (f (b + i + 1)) (g (b + i + 1)) (f (b + i + 1 + 1)) (g (b + i + 1 + 1)) t)
      (cs h (f (b + i + 1)) (g (b + i + 1)) (f (b + i + 1 + 1)) (g (b + i + 1 + 1)) t) ≤
    ∑ i ∈ Finset.range (m + 1), en h (f (b + i)) (g (b + i)) (f (b + i + 1)) (g (b + i + 1)) := by
  rcases t0.eq_or_lt with rfl | t0
  · have e : ∀ a a' b b', cv h a a' b b' 0 = a ∧ cs h a a' b b' 0 = a' := by
      intro a a' b b'
      simp only [cv, cs, basis, basis', T1_four, B0, B1, B2, B3, B0', B1', B2', B3', sqr, cube]
      constructor
      · ring
      · field_simp
        ring
    simp only [fun a a' b b' => (e a a' b b').1, fun a a' b b' => (e a a' b b').2]
    rw [Finset.sum_range_succ]
    linarith [en_nonneg hh (f (b + m)) (g (b + m)) (f (b + m + 1)) (g (b + m + 1))]
  · have u0 : 0 < 1 - t := by linarith
    have u1 : 1 - t < 1 := by linarith
    let L := fun k : ℤ => en (t * h) (f k) (g k) (cv h (f k) (g k) (f (k + 1)) (g (k + 1)) t) (cs h (f k) (g k) (f (k + 1)) (g (k + 1)) t)
    let R := fun k : ℤ => en ((1 - t) * h) (cv h (f k) (g k) (f (k + 1)) (g (k + 1)) t) (cs h (f k) (g k) (f (k + 1)) (g (k + 1)) t)
      (f (k + 1)) (g (k + 1))
    have e1 : ∀ k, en h (f k) (g k) (f (k + 1)) (g (k + 1)) = L k + R k := fun k => (en_cut hh t0 t1 _ _ _ _).symm
    have e2 : ∀ k, en h (cv h (f k) (g k) (f (k + 1)) (g (k + 1)) t) (cs h (f k) (g k) (f (k + 1)) (g (k + 1)) t)
        (cv h (f (k + 1)) (g (k + 1)) (f (k + 1 + 1)) (g (k + 1 + 1)) t) (cs h (f (k + 1)) (g (k + 1)) (f (k + 1 + 1)) (g (k + 1 + 1)) t) ≤
        R k + L (k + 1) := fun k => by
      have := en_join hh u0 u1 (cv h (f k) (g k) (f (k + 1)) (g (k + 1)) t) (cs h (f k) (g k) (f (k + 1)) (g (k + 1)) t) (f (k + 1)) (g (k + 1))
        (cv h (f (k + 1)) (g (k + 1)) (f (k + 1 + 1)) (g (k + 1 + 1)) t) (cs h (f (k + 1)) (g (k + 1)) (f (k + 1 + 1)) (g (k + 1 + 1)) t)
      rw [sub_sub_cancel] at this
      exact this
    have hL : ∀ k, 0 ≤ L k := fun k => en_nonneg (mul_pos t0 hh) _ _ _ _
    have hR : ∀ k, 0 ≤ R k := fun k => en_nonneg (mul_pos u0 hh) _ _ _ _
    have tele : ∑ i ∈ Finset.range m, (R (b + i) + L (b + i + 1)) + L b + R (b + m) = ∑ i ∈ Finset.range (m + 1), (L (b + i) + R (b + i)) := by
      clear e1 e2
      induction m with
      | zero => simp
      | succ n ih =>
        rw [Finset.sum_range_succ, Finset.sum_range_succ _ (n + 1), ← ih]
        push_cast
        rw [add_assoc b]
        ring
    calc _ ≤ ∑ i ∈ Finset.range m, (R (b + i) + L (b + i + 1)) := Finset.sum_le_sum fun i _ => e2 _
      _ ≤ ∑ i ∈ Finset.range (m + 1), (L (b + i) + R (b + i)) := by linarith [hL b, hR (b + m)]
      _ = _ := Finset.sum_congr rfl fun i _ => (e1 _).symm

end Gals
