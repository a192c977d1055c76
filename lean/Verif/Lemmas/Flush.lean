import Verif.Lemmas.Inflow
import Mathlib.Analysis.SpecificLimits.Basic

/-!
# Long runs of a node downstream of nodes that converge
-/

set_option linter.unusedSimpArgs false

namespace Gals

open Filter Topology

/-- The part of a clamped cubic right of `t` has a fixed share of its energy. -/
theorem en_share {h t : ℝ} (hh : 0 < h) (t0 : 0 < t) (t1 : t < 1) (f p : ℝ) :
    en (t * h) 0 0 (cv h 0 0 f p t) (cs h 0 0 f p t) ≤ (1 - (1 - t) ^ 3 / 4) * en h 0 0 f p := by
  have cut := en_cut hh t0 t1 0 0 f p
  have u0 : 0 < 1 - t := by linarith
  have hu : 0 < (1 - t) * h := mul_pos u0 hh
  set k0 := (6 * f - 2 * p * h) / h ^ 2 with hk0
  set k1 := (4 * p * h - 6 * f) / h ^ 2 with hk1
  have e1 : en h 0 0 f p = h / 3 * (k0 ^ 2 + k0 * k1 + k1 ^ 2) := by
    rw [hk0, hk1]
    unfold en
    field_simp
    ring
  set kt := (1 - t) * k0 + t * k1 with hkt
  have e2 : en ((1 - t) * h) (cv h 0 0 f p t) (cs h 0 0 f p t) f p = (1 - t) * h / 3 * (kt ^ 2 + kt * k1 + k1 ^ 2) := by
    have z1 : cs h 0 0 f p t - (f - cv h 0 0 f p t) / ((1 - t) * h) = -((1 - t) * h / 6 * (2 * kt + k1)) := by
      rw [hkt, hk0, hk1]
      simp only [cv, cs, basis, basis', T1_four, B0, B1, B2, B3, B0', B1', B2', B3', sqr, cube]
      field_simp
      ring
    have z2 : p - (f - cv h 0 0 f p t) / ((1 - t) * h) = (1 - t) * h / 6 * (kt + 2 * k1) := by
      rw [hkt, hk0, hk1]
      simp only [cv, cs, basis, basis', T1_four, B0, B1, B2, B3, B0', B1', B2', B3', sqr, cube]
      field_simp
      ring
    unfold en
    rw [z1, z2]
    field_simp
    ring
  have key : (1 - t) ^ 2 * (k0 ^ 2 + k0 * k1 + k1 ^ 2) ≤ 4 * (kt ^ 2 + kt * k1 + k1 ^ 2) := by
    have : 4 * (kt ^ 2 + kt * k1 + k1 ^ 2) - (1 - t) ^ 2 * (k0 ^ 2 + k0 * k1 + k1 ^ 2) =
        3 * (kt + (1 + t) / 2 * k1) ^ 2 + 3 / 4 * ((1 - t) * (3 + 5 * t)) * k1 ^ 2 := by
      rw [hkt]
      ring
    have : 0 ≤ 3 * (kt + (1 + t) / 2 * k1) ^ 2 + 3 / 4 * ((1 - t) * (3 + 5 * t)) * k1 ^ 2 := by positivity
    linarith
  have := mul_le_mul_of_nonneg_left key (mul_nonneg u0.le hh.le)
  rw [e2] at cut
  rw [e1] at cut ⊢
  linarith

/-- A sequence that contracts up to perturbations that vanish. -/
theorem vanish {q : ℝ} (q0 : 0 ≤ q) (q1 : q < 1) {x y : ℕ → ℝ} (x0 : ∀ k, 0 ≤ x k) (hx : ∀ k, x (k + 1) ≤ q * x k + y k)
    (hy : Tendsto y atTop (𝓝 0)) : Tendsto x atTop (𝓝 0) := by
  rw [Metric.tendsto_atTop]
  intro ε ε0
  have r0 : 0 < 1 - q := by linarith
  obtain ⟨K, hK⟩ := (Metric.tendsto_atTop.1 hy) (ε / 2 * (1 - q)) (by positivity)
  have step : ∀ j, x (K + j) ≤ q ^ j * x K + ε / 2 := by
    intro j
    induction j with
    | zero =>
      rw [add_zero, pow_zero, one_mul]
      linarith
    | succ j ih =>
      have := hK (K + j) (by omega)
      rw [Real.dist_eq, sub_zero] at this
      have l1 := (abs_lt.1 this).2
      have l2 := hx (K + j)
      have l3 := mul_le_mul_of_nonneg_left ih q0
      rw [pow_succ]
      rw [← add_assoc]
      linarith
  have : Tendsto (fun j => q ^ j * x K) atTop (𝓝 (0 * x K)) := (tendsto_pow_atTop_nhds_zero_of_lt_one q0 q1).mul_const _
  rw [zero_mul] at this
  obtain ⟨J, hJ⟩ := (Metric.tendsto_atTop.1 this) (ε / 2) (by positivity)
  refine ⟨K + J, fun k hk => ?_⟩
  obtain ⟨j, rfl⟩ := Nat.exists_eq_add_of_le (show K ≤ k by omega)
  have := hJ j (by omega)
  rw [Real.dist_eq, sub_zero] at this ⊢
  rw [abs_of_nonneg (x0 _)]
  have := (abs_lt.1 this).2
  linarith [step j]

theorem cv_add (h a a' b b' c c' d d' t : ℝ) :
    cv h (a + c) (a' + c') (b + d) (b' + d') t = cv h a a' b b' t + cv h c c' d d' t := by
  simp only [cv, basis, T1_four]
  ring

theorem cs_add (h a a' b b' c c' d d' t : ℝ) :
    cs h (a + c) (a' + c') (b + d) (b' + d') t = cs h a a' b b' t + cs h c c' d d' t := by
  simp only [cs, basis', T1_four]
  ring

/-- A node whose upstream neighbour vanishes. -/
theorem node_vanish {h t : ℝ} (hh : 0 < h) (t0 : 0 < t) (t1 : t < 1) {a a' f p : ℕ → ℝ} (ha : Tendsto a atTop (𝓝 0)) (ha' : Tendsto a' atTop (𝓝 0))
    (hf : ∀ k, f (k + 1) = cv h (a k) (a' k) (f k) (p k) t) (hp : ∀ k, p (k + 1) = cs h (a k) (a' k) (f k) (p k) t) :
    Tendsto f atTop (𝓝 0) ∧ Tendsto p atTop (𝓝 0) := by
  have th : 0 < t * h := mul_pos t0 hh
  have u0 : 0 < 1 - t := by linarith
  have c0 : 0 < (1 - t) ^ 3 := by positivity
  have c1 : (1 - t) ^ 3 < 1 := pow_lt_one₀ u0.le (by linarith) (by decide)
  set q := 1 - (1 - t) ^ 3 / 4 with hq
  have q0 : 0 ≤ q := by rw [hq]; linarith
  have q1 : q < 1 := by rw [hq]; linarith
  have sq1 : √q < 1 := by rw [Real.sqrt_lt' one_pos]; simpa using q1
  set E : ℕ → ℝ := fun k => en h 0 0 (f k) (p k) with hE
  set W : ℕ → ℝ := fun k => en h 0 0 (cv h (a k) (a' k) 0 0 t) (cs h (a k) (a' k) 0 0 t) with hW
  have E0 : ∀ k, 0 ≤ E k / h := fun k => div_nonneg (en_nonneg hh _ _ _ _) hh.le
  have W0 : ∀ k, 0 ≤ W k / h := fun k => div_nonneg (en_nonneg hh _ _ _ _) hh.le
  have step : ∀ k, √(E (k + 1) / h) ≤ √q * √(E k / h) + √(W k / h) := by
    intro k
    have h1 : en h 0 0 (cv h 0 0 (f k) (p k) t) (cs h 0 0 (f k) (p k) t) ≤ (√q * √(E k / h)) ^ 2 * h := by
      rw [mul_pow, Real.sq_sqrt q0, Real.sq_sqrt (E0 k)]
      refine (en_widen th (by nlinarith) _ _).trans ((en_share hh t0 t1 _ _).trans (le_of_eq ?_))
      rw [← hq, mul_assoc, div_mul_cancel₀ _ hh.ne']
    have h2 : W k ≤ √(W k / h) ^ 2 * h := by
      rw [Real.sq_sqrt (W0 k)]
      exact le_of_eq (by field_simp)
    have h3 := en_minkowski hh (by positivity) (Real.sqrt_nonneg _) h1 h2
    rw [← cv_add, ← cs_add] at h3
    simp only [zero_add, add_zero] at h3
    rw [← hf k, ← hp k] at h3
    rw [Real.sqrt_le_left (by positivity), div_le_iff₀ hh]
    exact h3
  have Wl : Tendsto (fun k => √(W k / h)) atTop (𝓝 0) := by
    have e : (fun k => √(W k / h)) = fun k => √(4 / h * ((-(cv h (a k) (a' k) 0 0 t / h)) ^ 2 +
        -(cv h (a k) (a' k) 0 0 t / h) * (cs h (a k) (a' k) 0 0 t - cv h (a k) (a' k) 0 0 t / h) +
        (cs h (a k) (a' k) 0 0 t - cv h (a k) (a' k) 0 0 t / h) ^ 2) / h) := by
      funext k
      simp only [hW, en]
      congr 2
      ring
    have l1 : Tendsto (fun k => cv h (a k) (a' k) 0 0 t) atTop (𝓝 0) := by
      simp only [cv, basis, T1_four]
      have : Tendsto (fun k => (B0 t + B1 t) * a k + B1 t * h / 3 * a' k) atTop (𝓝 ((B0 t + B1 t) * 0 + B1 t * h / 3 * 0)) :=
        (ha.const_mul _).add (ha'.const_mul _)
      simp only [mul_zero, add_zero] at this
      refine this.congr fun k => ?_
      ring
    have l2 : Tendsto (fun k => cs h (a k) (a' k) 0 0 t) atTop (𝓝 0) := by
      simp only [cs, basis', T1_four]
      have : Tendsto (fun k => (B0' t + B1' t) / h * a k + B1' t / 3 * a' k) atTop (𝓝 ((B0' t + B1' t) / h * 0 + B1' t / 3 * 0)) :=
        (ha.const_mul _).add (ha'.const_mul _)
      simp only [mul_zero, add_zero] at this
      refine this.congr fun k => ?_
      field_simp
      ring
    rw [e]
    have l3 := (l1.div_const h).neg
    have l4 := l2.sub (l1.div_const h)
    have l5 := ((((l3.pow 2).add (l3.mul l4)).add (l4.pow 2)).const_mul (4 / h)).div_const h
    have l6 := (Real.continuous_sqrt.tendsto _).comp l5
    simpa [Function.comp_def] using l6
  have El := vanish (Real.sqrt_nonneg q) sq1 (fun k => Real.sqrt_nonneg (E k / h)) step Wl
  have lo : ∀ k, |f k| ≤ h ^ 2 * √(E k / h) ∧ |p k| ≤ h * √(E k / h) := by
    intro k
    have e : E k = 4 / h * ((f k / h) ^ 2 - f k / h * (p k - f k / h) + (p k - f k / h) ^ 2) := by
      simp only [hE, en]
      ring
    have e3 : h ^ 2 * (E k / h) = 4 * ((f k / h) ^ 2 - f k / h * (p k - f k / h) + (p k - f k / h) ^ 2) := by
      rw [e]
      field_simp
    set α := f k / h with hα
    set β := p k - f k / h with hβ
    have a1 : |α| ≤ h * √(E k / h) := by
      refine abs_le_of_sq_le_sq ?_ (by positivity)
      rw [mul_pow, Real.sq_sqrt (E0 k), e3]
      nlinarith [sq_nonneg (α - 2 * β), sq_nonneg α]
    have a2 : |α + β| ≤ h * √(E k / h) := by
      refine abs_le_of_sq_le_sq ?_ (by positivity)
      rw [mul_pow, Real.sq_sqrt (E0 k), e3]
      nlinarith [sq_nonneg (α - β)]
    refine ⟨?_, ?_⟩
    · have : f k = α * h := by rw [hα]; field_simp
      rw [this, abs_mul, abs_of_pos hh]
      have := mul_le_mul_of_nonneg_right a1 hh.le
      linarith
    · have : p k = α + β := by rw [hα, hβ]; ring
      rw [this]
      exact a2
  constructor
  · refine squeeze_zero_norm (fun k => (lo k).1) ?_
    simpa using El.const_mul (h ^ 2)
  · refine squeeze_zero_norm (fun k => (lo k).2) ?_
    simpa using El.const_mul h

/-- A node whose upstream neighbour converges, and data that a step does not change. -/
theorem node_limit {h t : ℝ} (hh : 0 < h) (t0 : 0 < t) (t1 : t < 1) {a a' f p : ℕ → ℝ} {A A' B B' : ℝ} (ha : Tendsto a atTop (𝓝 A))
    (ha' : Tendsto a' atTop (𝓝 A')) (hB : cv h A A' B B' t = B) (hB' : cs h A A' B B' t = B')
    (hf : ∀ k, f (k + 1) = cv h (a k) (a' k) (f k) (p k) t) (hp : ∀ k, p (k + 1) = cs h (a k) (a' k) (f k) (p k) t) :
    Tendsto f atTop (𝓝 B) ∧ Tendsto p atTop (𝓝 B') := by
  have l1 : Tendsto (fun k => a k - A) atTop (𝓝 0) := by simpa using ha.sub_const A
  have l2 : Tendsto (fun k => a' k - A') atTop (𝓝 0) := by simpa using ha'.sub_const A'
  have := node_vanish hh t0 t1 (f := fun k => f k - B) (p := fun k => p k - B') l1 l2
    (fun k => by
      rw [hf k]
      conv_lhs => rw [← hB]
      rw [sub_eq_iff_eq_add, ← cv_add]
      simp)
    (fun k => by
      rw [hp k]
      conv_lhs => rw [← hB']
      rw [sub_eq_iff_eq_add, ← cs_add]
      simp)
  refine ⟨?_, ?_⟩
  · simpa using this.1.add_const B
  · simpa using this.2.add_const B'

end Gals
