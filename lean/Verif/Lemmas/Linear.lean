import Verif.Spec.Linear
import Verif.Lemmas.HermiteError
import Verif.Lemmas.LinearEval
import Verif.Lemmas.PointDouble

/-!
# Linear interpolation: remainder, rounding
-/

set_option linter.unusedSectionVars false
set_option linter.unusedSimpArgs false

namespace Gals

open Spec Set

/-- Three zeros of a function give one of its second derivative. -/
theorem rolle2 {f f1 f2 : ℝ → ℝ} (h1 : ∀ x, HasDerivAt f (f1 x) x) (h2 : ∀ x, HasDerivAt f1 (f2 x) x)
    {a b c : ℝ} (ab : a < b) (bc : b < c) (ha : f a = 0) (hb : f b = 0) (hc : f c = 0) : ∃ x, a < x ∧ x < c ∧ f2 x = 0 := by
  obtain ⟨p, p1, p2, p3⟩ := rolle h1 ab ha hb
  obtain ⟨q, q1, q2, q3⟩ := rolle h1 bc hb hc
  obtain ⟨s, s1, s2, s3⟩ := rolle h2 (p2.trans q1) p3 q3
  exact ⟨s, p1.trans s1, s2.trans q2, s3⟩

/-- Remainder of the interpolation by a straight line, inside the interval or to its left. -/
theorem line_remainder {f : ℝ → ℝ} (hf : ContDiff ℝ 2 f) {a b t : ℝ} (hab : a < b) (ht : t ≤ b) :
    ∃ x ∈ Icc (min a t) b, f t - ((1 - (t - a) / (b - a)) * f a + (t - a) / (b - a) * f b) =
      iteratedDeriv 2 f x / 2 * ((t - a) * (t - b)) := by
  have hw : b - a ≠ 0 := (sub_pos.2 hab).ne'
  rcases eq_or_ne t a with rfl | ta
  · exact ⟨t, ⟨by simp, hab.le⟩, by simp⟩
  rcases ht.eq_or_lt with rfl | tb
  · exact ⟨t, ⟨min_le_right _ _, le_rfl⟩, by field_simp; ring⟩
  have hm : (t - a) * (t - b) ≠ 0 := mul_ne_zero (sub_ne_zero.2 ta) (sub_neg.2 tb).ne
  set c := (f t - ((1 - (t - a) / (b - a)) * f a + (t - a) / (b - a) * f b)) / ((t - a) * (t - b)) with hc
  have d1 : ∀ x, HasDerivAt f (deriv f x) x := fun x => ((hf.differentiable (by norm_num)) x).hasDerivAt
  have d2 : ∀ x, HasDerivAt (deriv f) (iteratedDeriv 2 f x) x := fun x => by
    have := ((hf.differentiable_iteratedDeriv 1 (by norm_num)) x).hasDerivAt
    rw [iteratedDeriv_one] at this
    rwa [iteratedDeriv_succ, iteratedDeriv_one]
  set s := (f b - f a) / (b - a) with hs
  have e1 : ∀ x, HasDerivAt (fun x => f x - (f a + s * (x - a) + c * ((x - a) * (x - b)))) (deriv f x - (s + c * (2 * x - a - b))) x := by
    intro x
    have h1 : HasDerivAt (fun x : ℝ => x - a) 1 x := (hasDerivAt_id' x).sub_const a
    have h2 : HasDerivAt (fun x : ℝ => x - b) 1 x := (hasDerivAt_id' x).sub_const b
    refine ((d1 x).fun_sub (((h1.const_mul s).const_add (f a)).fun_add ((h1.fun_mul h2).const_mul c))).congr_deriv ?_
    ring
  have e2 : ∀ x, HasDerivAt (fun x => deriv f x - (s + c * (2 * x - a - b))) (iteratedDeriv 2 f x - 2 * c) x := by
    intro x
    refine ((d2 x).fun_sub ((((((hasDerivAt_id' x).const_mul 2).sub_const a).sub_const b).const_mul c).const_add s)).congr_deriv ?_
    ring
  have za : f a - (f a + s * (a - a) + c * ((a - a) * (a - b))) = 0 := by ring
  have zb : f b - (f a + s * (b - a) + c * ((b - a) * (b - b))) = 0 := by
    rw [hs]
    field_simp
    ring
  have zt : f t - (f a + s * (t - a) + c * ((t - a) * (t - b))) = 0 := by
    rw [hc, hs, div_mul_cancel₀ _ hm]
    field_simp
    ring
  obtain ⟨x, x1, x2, x3⟩ : ∃ x, min a t < x ∧ x < b ∧ iteratedDeriv 2 f x - 2 * c = 0 := by
    rcases lt_or_gt_of_ne ta with h | h
    · rw [min_eq_right h.le]
      exact rolle2 e1 e2 h hab zt za zb
    · rw [min_eq_left h.le]
      exact rolle2 e1 e2 h tb za zt zb
  refine ⟨x, ⟨x1.le, x2.le⟩, ?_⟩
  have : iteratedDeriv 2 f x / 2 = c := by linarith
  rw [this, hc, div_mul_cancel₀ _ hm]

/-- Moving the point of a piecewise linear function. -/
theorem polyline_near {T η δ M : ℚ} {b : ℤ} {f : ℤ → ℚ} (H : NearPoint T η δ b) (hb : |f b| ≤ M) (hb' : |f (b + 1)| ≤ M)
    (hT : |f ⌊T⌋| ≤ M) (hT' : |f (⌊T⌋ + 1)| ≤ M) :
    |(1 - η) * f b + η * f (b + 1) - ((1 - Int.fract T) * f ⌊T⌋ + Int.fract T * f (⌊T⌋ + 1))| ≤ 6 * δ * M := by
  obtain ⟨h1, h2, h3, h4⟩ := H
  have M0 := (abs_nonneg _).trans hb
  have δ0 : 0 ≤ δ := (abs_nonneg _).trans h4
  have f0 := Int.floor_le T
  have f1 := Int.lt_floor_add_one T
  have ef : Int.fract T = T - ⌊T⌋ := rfl
  have dM : 0 ≤ δ * M := mul_nonneg δ0 M0
  have lip : ∀ {u v s : ℚ}, |u| ≤ M → |v| ≤ M → |s| ≤ 2 * δ → |s * (v - u)| ≤ 4 * (δ * M) := by
    intro u v s hu hv hs
    have : |v - u| ≤ 2 * M := (abs_sub v u).trans (by linarith)
    rw [abs_mul]
    exact (mul_le_mul hs this (abs_nonneg _) (by linarith)).trans (le_of_eq (by ring))
  have lip1 : ∀ {u v s : ℚ}, |u| ≤ M → |v| ≤ M → |s| ≤ δ → |s * (v - u)| ≤ 2 * (δ * M) := by
    intro u v s hu hv hs
    have : |v - u| ≤ 2 * M := (abs_sub v u).trans (by linarith)
    rw [abs_mul]
    exact (mul_le_mul hs this (abs_nonneg _) δ0).trans (le_of_eq (by ring))
  obtain ⟨k1, k2⟩ := abs_le.1 h4
  have c1 : ((⌊T⌋ : ℤ) : ℚ) ≤ b + 1 + δ := by linarith
  have c2 : (b : ℚ) - 1 - δ < ⌊T⌋ := by linarith
  have : ⌊T⌋ = b - 1 ∨ ⌊T⌋ = b ∨ ⌊T⌋ = b + 1 := by
    have i1 : ⌊T⌋ < b + 2 := by
      have : ((⌊T⌋ : ℤ) : ℚ) < ((b + 2 : ℤ) : ℚ) := by push_cast; linarith
      exact_mod_cast this
    have i2 : b - 2 < ⌊T⌋ := by
      have : ((b - 2 : ℤ) : ℚ) < ⌊T⌋ := by push_cast; linarith
      exact_mod_cast this
    omega
  rw [ef]
  rcases this with e | e | e
  · rw [e] at f0 f1 hT hT' ⊢
    push_cast at f0 f1 ⊢
    have eb : b - 1 + 1 = b := by ring
    rw [eb] at hT' ⊢
    have a1 := lip hb hb' (s := η) (abs_le.2 ⟨by linarith, by linarith⟩)
    have a2 := lip1 hT hT' (s := b - T) (abs_le.2 ⟨by linarith, by linarith⟩)
    have : (1 - η) * f b + η * f (b + 1) - ((1 - (T - (b - 1))) * f (b - 1) + (T - (b - 1)) * f b) =
        η * (f (b + 1) - f b) + (b - T) * (f b - f (b - 1)) := by ring
    rw [this]
    refine (abs_add_le _ _).trans ?_
    linarith
  · rw [e]
    have a1 := lip1 hb hb' (s := η - (T - b)) h4
    have : (1 - η) * f b + η * f (b + 1) - ((1 - (T - b)) * f b + (T - b) * f (b + 1)) = (η - (T - b)) * (f (b + 1) - f b) := by ring
    rw [this]
    linarith
  · rw [e] at f0 f1 hT hT' ⊢
    push_cast at f0 f1 ⊢
    have a1 := lip hb hb' (s := η - 1) (abs_le.2 ⟨by linarith, by linarith⟩)
    have a2 := lip1 hT hT' (s := T - (b + 1)) (abs_le.2 ⟨by linarith, by linarith⟩)
    have : (1 - η) * f b + η * f (b + 1) - ((1 - (T - (b + 1))) * f (b + 1) + (T - (b + 1)) * f (b + 1 + 1)) =
        (η - 1) * (f (b + 1) - f b) - (T - (b + 1)) * (f (b + 1 + 1) - f (b + 1)) := by ring
    rw [this]
    refine (abs_sub _ _).trans ?_
    linarith

end Gals
