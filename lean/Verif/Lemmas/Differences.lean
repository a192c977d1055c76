import Verif.Spec.Differences
import Mathlib.Analysis.Calculus.MeanValue
import Mathlib.Analysis.Calculus.Deriv.Pow
import Mathlib.Tactic.Linarith
import Mathlib.Tactic.Ring
import Mathlib.Tactic.FieldSimp

/-!
# Remainders of difference quotients
-/

namespace Gals

open Set

/-- Integration of a power bound. -/
theorem grow {φ φ' : ℝ → ℝ} {h C : ℝ} (k : ℕ) (h0 : φ 0 = 0) (hd : ∀ s, HasDerivAt φ (φ' s) s)
    (hb : ∀ s ∈ Icc (0 : ℝ) h, |φ' s| ≤ C * s ^ k) : ∀ s ∈ Icc (0 : ℝ) h, |φ s| ≤ C / (k + 1) * s ^ (k + 1) := by
  intro s hs
  have hk : (k : ℝ) + 1 ≠ 0 := by positivity
  have B : ∀ x : ℝ, HasDerivAt (fun x : ℝ => C / (k + 1) * x ^ (k + 1)) (C * x ^ k) x := by
    intro x
    have := (hasDerivAt_pow (k + 1) x).const_mul (C / (k + 1))
    refine this.congr_deriv ?_
    push_cast
    field_simp
  have := image_norm_le_of_norm_deriv_right_le_deriv_boundary (f := φ) (f' := φ') (a := 0) (b := h)
    (fun x _ => (hd x).continuousAt.continuousWithinAt) (fun x _ => (hd x).hasDerivWithinAt)
    (B := fun x : ℝ => C / (k + 1) * x ^ (k + 1)) (B' := fun x => C * x ^ k) (by simp [h0]) B
    (fun x hx => by rw [Real.norm_eq_abs]; exact hb x ⟨hx.1, hx.2.le⟩) hs
  simpa only [Real.norm_eq_abs] using this

section
variable {f : ℝ → ℝ}

theorem hasDerivAt_iter {n k : ℕ} (hf : ContDiff ℝ n f) (hk : k < n) (x : ℝ) :
    HasDerivAt (iteratedDeriv k f) (iteratedDeriv (k + 1) f x) x := by
  have := (hf.differentiable_iteratedDeriv k (by exact_mod_cast hk)).differentiableAt (x := x)
  rw [iteratedDeriv_succ]
  exact this.hasDerivAt

/-- `iteratedDeriv k f` at a point that moves with speed `m`. -/
theorem hasDerivAt_move {n k : ℕ} (hf : ContDiff ℝ n f) (hk : k < n) (x m s : ℝ) :
    HasDerivAt (fun s => iteratedDeriv k f (x + m * s)) (m * iteratedDeriv (k + 1) f (x + m * s)) s := by
  have h1 : HasDerivAt (fun s : ℝ => x + m * s) m s := by
    simpa using ((hasDerivAt_id s).const_mul m).const_add x
  have := (hasDerivAt_iter hf hk (x + m * s)).comp s h1
  rw [mul_comm]
  exact this

theorem iter_lip {n : ℕ} (hf : ContDiff ℝ (n + 1 : ℕ) f) {a b B : ℝ} (hB : ∀ x ∈ Icc a b, |iteratedDeriv (n + 1) f x| ≤ B) {u v : ℝ}
    (hu : u ∈ Icc a b) (hv : v ∈ Icc a b) : |iteratedDeriv n f u - iteratedDeriv n f v| ≤ B * |u - v| := by
  have := (convex_Icc a b).norm_image_sub_le_of_norm_hasDerivWithin_le (f := iteratedDeriv n f) (f' := iteratedDeriv (n + 1) f)
    (fun x _ => (hasDerivAt_iter hf (Nat.lt_succ_self n) x).hasDerivWithinAt) (fun x hx => by rw [Real.norm_eq_abs]; exact hB x hx) hv hu
  simpa only [Real.norm_eq_abs] using this

/-- The central difference. -/
theorem central_remainder (hf : ContDiff ℝ 3 f) {x h B : ℝ} (h0 : 0 < h) (hB : ∀ y ∈ Icc (x - h) (x + h), |iteratedDeriv 3 f y| ≤ B) :
    |(f (x + h) - f (x - h)) / (2 * h) - deriv f x| ≤ B * h ^ 2 / 6 := by
  have hf' : ContDiff ℝ (3 : ℕ) f := hf
  have g1 := grow (φ := fun s => iteratedDeriv 1 f (x + 1 * s) + iteratedDeriv 1 f (x + (-1) * s) - 2 * iteratedDeriv 1 f x)
    (φ' := fun s => 1 * iteratedDeriv 2 f (x + 1 * s) + (-1) * iteratedDeriv 2 f (x + (-1) * s)) (h := h) (C := 2 * B) 1
    (by simp; ring)
    (fun s => ((hasDerivAt_move hf' (by norm_num) x 1 s).add (hasDerivAt_move hf' (by norm_num) x (-1) s)).sub_const _)
    (fun s hs => by
      obtain ⟨s0, s1⟩ := hs
      have := iter_lip (n := 2) hf' hB (u := x + 1 * s) (v := x + (-1) * s) ⟨by linarith, by linarith⟩ ⟨by linarith, by linarith⟩
      rw [show x + 1 * s - (x + (-1) * s) = 2 * s by ring, abs_of_nonneg (show 0 ≤ 2 * s by linarith)] at this
      calc _ = |iteratedDeriv 2 f (x + 1 * s) - iteratedDeriv 2 f (x + (-1) * s)| := by congr 1; ring
        _ ≤ _ := this
        _ = _ := by ring)
  have g2 := grow (φ := fun s => iteratedDeriv 0 f (x + 1 * s) - iteratedDeriv 0 f (x + (-1) * s) - 2 * iteratedDeriv 1 f x * s)
    (φ' := fun s => iteratedDeriv 1 f (x + 1 * s) + iteratedDeriv 1 f (x + (-1) * s) - 2 * iteratedDeriv 1 f x) (h := h)
    (C := 2 * B / ((1 : ℕ) + 1)) 2 (by simp)
    (fun s => by
      refine (((hasDerivAt_move hf' (by norm_num) x 1 s).sub (hasDerivAt_move hf' (by norm_num) x (-1) s)).sub
        ((hasDerivAt_id s).const_mul (2 * iteratedDeriv 1 f x))).congr_deriv ?_
      norm_num)
    (fun s hs => g1 s hs)
  have := g2 h ⟨h0.le, le_rfl⟩
  simp only [iteratedDeriv_zero, iteratedDeriv_one] at this
  rw [show x + 1 * h = x + h by ring, show x + (-1) * h = x - h by ring] at this
  have e : (f (x + h) - f (x - h)) / (2 * h) - deriv f x = (f (x + h) - f (x - h) - 2 * deriv f x * h) / (2 * h) := by
    field_simp
  rw [e, abs_div, abs_of_pos (show 0 < 2 * h by linarith), div_le_iff₀ (by linarith)]
  refine this.trans (le_of_eq ?_)
  push_cast
  ring

/-- The one-sided difference over four nodes. -/
theorem third_remainder (hf : ContDiff ℝ 4 f) {x h B : ℝ} (h0 : 0 < h)
    (hB : ∀ y ∈ Icc (x - 2 * h) (x + h), |iteratedDeriv 4 f y| ≤ B) :
    |(2 * f (x + h) + 3 * f x - 6 * f (x - h) + f (x - 2 * h)) / (6 * h) - deriv f x| ≤ B * h ^ 3 / 12 := by
  have hf' : ContDiff ℝ (4 : ℕ) f := hf
  have mv := fun k (hk : k < 4) m s => hasDerivAt_move hf' (k := k) hk x m s
  have g1 := grow (h := h) (C := 12 * B) 1
    (φ := fun s => 2 * iteratedDeriv 2 f (x + 1 * s) + (-6) * iteratedDeriv 2 f (x + (-1) * s) + 4 * iteratedDeriv 2 f (x + (-2) * s))
    (φ' := fun s => 2 * (1 * iteratedDeriv 3 f (x + 1 * s)) + (-6) * ((-1) * iteratedDeriv 3 f (x + (-1) * s)) +
      4 * ((-2) * iteratedDeriv 3 f (x + (-2) * s)))
    (by simp; ring)
    (fun s => (((mv 2 (by norm_num) 1 s).const_mul 2).add ((mv 2 (by norm_num) (-1) s).const_mul (-6))).add
      ((mv 2 (by norm_num) (-2) s).const_mul 4))
    (fun s hs => by
      obtain ⟨s0, s1⟩ := hs
      have i1 : x + 1 * s ∈ Icc (x - 2 * h) (x + h) := ⟨by linarith, by linarith⟩
      have i2 : x + (-1) * s ∈ Icc (x - 2 * h) (x + h) := ⟨by linarith, by linarith⟩
      have i3 : x + (-2) * s ∈ Icc (x - 2 * h) (x + h) := ⟨by linarith, by linarith⟩
      have l1 := iter_lip (n := 3) hf' hB i1 i3
      have l2 := iter_lip (n := 3) hf' hB i2 i3
      rw [show x + 1 * s - (x + (-2) * s) = 3 * s by ring, abs_of_nonneg (show 0 ≤ 3 * s by linarith)] at l1
      rw [show x + (-1) * s - (x + (-2) * s) = s by ring, abs_of_nonneg s0] at l2
      rw [abs_le] at l1 l2 ⊢
      constructor <;> linarith [l1.1, l1.2, l2.1, l2.2])
  have g2 := grow (h := h) (C := 12 * B / ((1 : ℕ) + 1)) 2
    (φ := fun s => 2 * iteratedDeriv 1 f (x + 1 * s) + 6 * iteratedDeriv 1 f (x + (-1) * s) + (-2) * iteratedDeriv 1 f (x + (-2) * s) -
      6 * iteratedDeriv 1 f x)
    (φ' := fun s => 2 * iteratedDeriv 2 f (x + 1 * s) + (-6) * iteratedDeriv 2 f (x + (-1) * s) + 4 * iteratedDeriv 2 f (x + (-2) * s))
    (by simp)
    (fun s => by
      refine ((((mv 1 (by norm_num) 1 s).const_mul 2).add ((mv 1 (by norm_num) (-1) s).const_mul 6)).add
        ((mv 1 (by norm_num) (-2) s).const_mul (-2))).sub_const _ |>.congr_deriv ?_
      norm_num
      ring)
    (fun s hs => g1 s hs)
  have g3 := grow (h := h) (C := 12 * B / ((1 : ℕ) + 1) / ((2 : ℕ) + 1)) 3
    (φ := fun s => 2 * iteratedDeriv 0 f (x + 1 * s) + (-6) * iteratedDeriv 0 f (x + (-1) * s) + 1 * iteratedDeriv 0 f (x + (-2) * s) +
      3 * iteratedDeriv 0 f x - 6 * iteratedDeriv 1 f x * s)
    (φ' := fun s => 2 * iteratedDeriv 1 f (x + 1 * s) + 6 * iteratedDeriv 1 f (x + (-1) * s) + (-2) * iteratedDeriv 1 f (x + (-2) * s) -
      6 * iteratedDeriv 1 f x)
    (by simp; ring)
    (fun s => by
      refine (((((mv 0 (by norm_num) 1 s).const_mul 2).add ((mv 0 (by norm_num) (-1) s).const_mul (-6))).add
        ((mv 0 (by norm_num) (-2) s).const_mul 1)).add_const _).sub ((hasDerivAt_id s).const_mul (6 * iteratedDeriv 1 f x))
        |>.congr_deriv ?_
      norm_num)
    (fun s hs => g2 s hs)
  have := g3 h ⟨h0.le, le_rfl⟩
  simp only [iteratedDeriv_zero, iteratedDeriv_one] at this
  rw [show x + 1 * h = x + h by ring, show x + (-1) * h = x - h by ring, show x + (-2) * h = x - 2 * h by ring] at this
  have e : (2 * f (x + h) + 3 * f x - 6 * f (x - h) + f (x - 2 * h)) / (6 * h) - deriv f x =
      (2 * f (x + h) + (-6) * f (x - h) + 1 * f (x - 2 * h) + 3 * f x - 6 * deriv f x * h) / (6 * h) := by
    field_simp
    ring
  rw [e, abs_div, abs_of_pos (show 0 < 6 * h by linarith), div_le_iff₀ (by linarith)]
  refine this.trans (le_of_eq ?_)
  push_cast
  ring

end

end Gals
