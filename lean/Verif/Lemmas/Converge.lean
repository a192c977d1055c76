import Verif.Lemmas.Bending
import Mathlib.Analysis.Calculus.MeanValue
import Mathlib.Algebra.Order.Chebyshev

/-!
# Splines carried along a line
-/

namespace Gals

open Spec

theorem cv_zero (h a a' b b' : ℝ) : cv h a a' b b' 0 = a := by
  simp only [cv, basis, T1_four, B0, B1, B2, B3, sqr, cube]
  ring

theorem cs_zero {h : ℝ} (hh : 0 < h) (a a' b b' : ℝ) : cs h a a' b b' 0 = a' := by
  simp only [cs, basis', T1_four, B0', B1', B2', B3', sqr]
  field_simp
  ring

theorem cv_one (h a a' b b' : ℝ) : cv h a a' b b' 1 = b := by
  simp only [cv, basis, T1_four, B0, B1, B2, B3, sqr, cube]
  ring

theorem cs_one {h : ℝ} (hh : 0 < h) (a a' b b' : ℝ) : cs h a a' b b' 1 = b' := by
  simp only [cs, basis', T1_four, B0', B1', B2', B3', sqr]
  field_simp
  ring

/-- The energy of a part of a cubic. -/
theorem en_part {h s t : ℝ} (hh : 0 < h) (st : s < t) (a a' b b' : ℝ) :
    en ((t - s) * h) (cv h a a' b b' s) (cs h a a' b b' s) (cv h a a' b b' t) (cs h a a' b b' t) =
      (let A := -6 * a - 4 * h * a' + 6 * b - 2 * h * b'
       let B := 12 * a + 6 * h * a' - 12 * b + 6 * h * b'
       (A ^ 2 * t + A * B * t ^ 2 + B ^ 2 * t ^ 3 / 3 - (A ^ 2 * s + A * B * s ^ 2 + B ^ 2 * s ^ 3 / 3)) / h ^ 3) := by
  have h1 : t - s ≠ 0 := by linarith
  simp only [en, cv, cs, basis, basis', T1_four, B0, B1, B2, B3, B0', B1', B2', B3', sqr, cube]
  field_simp
  ring

/-- A part cut in two. -/
theorem en_cut3 {h s t u : ℝ} (hh : 0 < h) (st : s < t) (tu : t < u) (a a' b b' : ℝ) :
    en ((t - s) * h) (cv h a a' b b' s) (cs h a a' b b' s) (cv h a a' b b' t) (cs h a a' b b' t) +
      en ((u - t) * h) (cv h a a' b b' t) (cs h a a' b b' t) (cv h a a' b b' u) (cs h a a' b b' u) =
      en ((u - s) * h) (cv h a a' b b' s) (cs h a a' b b' s) (cv h a a' b b' u) (cs h a a' b b' u) := by
  rw [en_part hh st, en_part hh tu, en_part hh (st.trans tu)]
  dsimp only
  ring

/-- Joining two neighbouring intervals. -/
theorem en_join2 {p q : ℝ} (hp : 0 < p) (hq : 0 < q) (a a' m m' b b' : ℝ) : en (p + q) a a' b b' ≤ en p a a' m m' + en q m m' b b' := by
  have := en_join (h := p + q) (t := p / (p + q)) (by positivity) (by positivity) (by rw [div_lt_one (by positivity)]; linarith) a a' m m' b b'
  have e1 : p / (p + q) * (p + q) = p := by field_simp
  have e2 : (1 - p / (p + q)) * (p + q) = q := by field_simp; ring
  rwa [e1, e2] at this

/-- A clamped deflection needs energy. -/
theorem clamped {h ρ : ℝ} (hh : 0 < h) (r0 : 0 < ρ) (r1 : ρ < 1) (d d' : ℝ) :
    192 / h ^ 3 * d ^ 2 ≤ en (ρ * h) 0 0 d d' + en ((1 - ρ) * h) d d' 0 0 := by
  have u0 : 0 < 1 - ρ := by linarith
  have e : en (ρ * h) 0 0 d d' + en ((1 - ρ) * h) d d' 0 0 =
      4 / (h * ρ * (1 - ρ)) * (d' - 3 / 2 * d * (1 - 2 * ρ) / (h * ρ * (1 - ρ))) ^ 2 + 3 * d ^ 2 / (h ^ 3 * (ρ * (1 - ρ)) ^ 3) := by
    unfold en
    field_simp
    ring
  have q : 0 < ρ * (1 - ρ) := mul_pos r0 u0
  have q4 : ρ * (1 - ρ) ≤ 1 / 4 := by nlinarith [sq_nonneg (ρ - 1 / 2)]
  have q64 : (ρ * (1 - ρ)) ^ 3 ≤ 1 / 64 := by
    calc (ρ * (1 - ρ)) ^ 3 ≤ (1 / 4) ^ 3 := pow_le_pow_left₀ q.le q4 3
      _ = 1 / 64 := by norm_num
  rw [e]
  have h1 : 0 ≤ 4 / (h * ρ * (1 - ρ)) * (d' - 3 / 2 * d * (1 - 2 * ρ) / (h * ρ * (1 - ρ))) ^ 2 := by positivity
  have h2 : 192 / h ^ 3 * d ^ 2 ≤ 3 * d ^ 2 / (h ^ 3 * (ρ * (1 - ρ)) ^ 3) := by
    have : 0 < (ρ * (1 - ρ)) ^ 3 := by positivity
    generalize (ρ * (1 - ρ)) ^ 3 = z at this q64
    rw [div_mul_eq_mul_div, div_le_div_iff₀ (by positivity) (by positivity)]
    have : 0 ≤ d ^ 2 * h ^ 3 := by positivity
    nlinarith
  linarith

/-- The distance of a value from the cubic over the whole interval. -/
theorem en_dev {h ρ : ℝ} (hh : 0 < h) (r0 : 0 < ρ) (r1 : ρ < 1) (a a' m m' b b' : ℝ) :
    en h a a' b b' + 192 / h ^ 3 * (m - cv h a a' b b' ρ) ^ 2 ≤ en (ρ * h) a a' m m' + en ((1 - ρ) * h) m m' b b' := by
  rw [en_split hh r0 r1]
  linarith [clamped hh r0 r1 (m - cv h a a' b b' ρ) (m' - cs h a a' b b' ρ)]

/-- The Hermite cubic has no more energy than a function with the same data. -/
theorem en_least {h M x : ℝ} (hh : 0 < h) {u u' u'' : ℝ → ℝ} (h1 : ∀ y ∈ Set.Icc x (x + h), HasDerivAt u (u' y) y)
    (h2 : ∀ y ∈ Set.Icc x (x + h), HasDerivAt u' (u'' y) y) (hM : ∀ y ∈ Set.Icc x (x + h), |u'' y| ≤ M) :
    en h (u x) (u' x) (u (x + h)) (u' (x + h)) ≤ M ^ 2 * h := by
  set A := (-6 * u x - 4 * h * u' x + 6 * u (x + h) - 2 * h * u' (x + h)) / h ^ 2 with hA
  set B := (12 * u x + 6 * h * u' x - 12 * u (x + h) + 6 * h * u' (x + h)) / h ^ 3 with hB
  have key : ∀ y ∈ Set.Icc x (x + h), HasDerivAt (fun y => M ^ 2 * (y - x) - (2 * ((A + B * (y - x)) * u' y - B * u y) -
      (A ^ 2 * (y - x) + A * B * (y - x) ^ 2 + B ^ 2 / 3 * (y - x) ^ 3)))
      (M ^ 2 - (2 * (A + B * (y - x)) * u'' y - (A + B * (y - x)) ^ 2)) y := by
    intro y hy
    have d0 : HasDerivAt (fun y : ℝ => y - x) 1 y := (hasDerivAt_id' y).sub_const x
    have d1 := ((d0.const_mul B).const_add A).mul (h2 y hy)
    have d2 := (d1.sub ((h1 y hy).const_mul B)).const_mul 2
    have d3 := ((d0.const_mul (A ^ 2)).add ((d0.pow 2).const_mul (A * B))).add ((d0.pow 3).const_mul (B ^ 2 / 3))
    refine ((d0.const_mul (M ^ 2)).sub (d2.sub d3)).congr_deriv ?_
    push_cast
    ring
  have mono : MonotoneOn (fun y => M ^ 2 * (y - x) - (2 * ((A + B * (y - x)) * u' y - B * u y) -
      (A ^ 2 * (y - x) + A * B * (y - x) ^ 2 + B ^ 2 / 3 * (y - x) ^ 3))) (Set.Icc x (x + h)) := by
    refine monotoneOn_of_deriv_nonneg (convex_Icc _ _) (fun y hy => (key y hy).continuousAt.continuousWithinAt)
      (fun y hy => (key y (interior_subset hy)).differentiableAt.differentiableWithinAt) fun y hy => ?_
    have hy := interior_subset hy
    rw [(key y hy).deriv]
    have := sq_le_sq' (abs_le.1 (hM y hy)).1 (abs_le.1 (hM y hy)).2
    nlinarith [sq_nonneg (A + B * (y - x) - u'' y)]
  have := mono (Set.left_mem_Icc.2 (by linarith)) (Set.right_mem_Icc.2 (by linarith)) (by linarith)
  dsimp only at this
  have e : en h (u x) (u' x) (u (x + h)) (u' (x + h)) = (2 * ((A + B * (x + h - x)) * u' (x + h) - B * u (x + h)) -
      (A ^ 2 * (x + h - x) + A * B * (x + h - x) ^ 2 + B ^ 2 / 3 * (x + h - x) ^ 3)) - (2 * ((A + B * (x - x)) * u' x - B * u x) -
      (A ^ 2 * (x - x) + A * B * (x - x) ^ 2 + B ^ 2 / 3 * (x - x) ^ 3)) := by
    rw [hA, hB]
    generalize u (x + h) = b
    generalize u' (x + h) = b'
    unfold en
    field_simp
    ring
  rw [e]
  have e2 : M ^ 2 * (x - x) = 0 := by ring
  have e3 : M ^ 2 * (x + h - x) = M ^ 2 * h := by ring
  rw [e2, e3] at this
  linarith

/-- The interpolation error of a function in a cell, and the energy of the interpolation. -/
theorem en_interp {h M x ρ : ℝ} (hh : 0 < h) (r0 : 0 ≤ ρ) (r1 : ρ < 1) {u u' u'' : ℝ → ℝ} (h1 : ∀ y ∈ Set.Icc x (x + h), HasDerivAt u (u' y) y)
    (h2 : ∀ y ∈ Set.Icc x (x + h), HasDerivAt u' (u'' y) y) (hM : ∀ y ∈ Set.Icc x (x + h), |u'' y| ≤ M) :
    en h (u x) (u' x) (u (x + h)) (u' (x + h)) + 192 / h ^ 3 * (u (x + ρ * h) - cv h (u x) (u' x) (u (x + h)) (u' (x + h)) ρ) ^ 2 ≤ M ^ 2 * h := by
  rcases r0.eq_or_lt with rfl | r0
  · rw [cv_zero, zero_mul, add_zero, sub_self]
    have := en_least hh h1 h2 hM
    simpa using this
  · have p : 0 < ρ * h := mul_pos r0 hh
    have q : 0 < (1 - ρ) * h := mul_pos (by linarith) hh
    have e : x + ρ * h + (1 - ρ) * h = x + h := by ring
    have s1 : Set.Icc x (x + ρ * h) ⊆ Set.Icc x (x + h) := Set.Icc_subset_Icc_right (by linarith)
    have s2 : Set.Icc (x + ρ * h) (x + ρ * h + (1 - ρ) * h) ⊆ Set.Icc x (x + h) := by
      rw [e]
      exact Set.Icc_subset_Icc_left (by linarith)
    have l1 := en_least (x := x) p (fun y hy => h1 y (s1 hy)) (fun y hy => h2 y (s1 hy)) (fun y hy => hM y (s1 hy))
    have l2 := en_least (x := x + ρ * h) q (fun y hy => h1 y (s2 hy)) (fun y hy => h2 y (s2 hy)) (fun y hy => hM y (s2 hy))
    rw [e] at l2
    have := en_dev hh r0 r1 (u x) (u' x) (u (x + ρ * h)) (u' (x + ρ * h)) (u (x + h)) (u' (x + h))
    nlinarith

/-- Value and slope of a spline at a point, counted in cells. -/
noncomputable def spv (h : ℝ) (f g : ℤ → ℝ) (y : ℝ) : ℝ := cv h (f ⌊y⌋) (g ⌊y⌋) (f (⌊y⌋ + 1)) (g (⌊y⌋ + 1)) (Int.fract y)
noncomputable def sps (h : ℝ) (f g : ℤ → ℝ) (y : ℝ) : ℝ := cs h (f ⌊y⌋) (g ⌊y⌋) (f (⌊y⌋ + 1)) (g (⌊y⌋ + 1)) (Int.fract y)

/-- The energy in a cell. -/
noncomputable def ec (h : ℝ) (f g : ℤ → ℝ) (i : ℤ) : ℝ := en h (f i) (g i) (f (i + 1)) (g (i + 1))

theorem ec_nonneg {h : ℝ} (hh : 0 < h) (f g : ℤ → ℝ) (i : ℤ) : 0 ≤ ec h f g i := en_nonneg hh _ _ _ _

/-- The parts of a cell left and right of the local coordinate `t`. -/
noncomputable def eL (h t : ℝ) (f g : ℤ → ℝ) (i : ℤ) : ℝ :=
  en (t * h) (f i) (g i) (cv h (f i) (g i) (f (i + 1)) (g (i + 1)) t) (cs h (f i) (g i) (f (i + 1)) (g (i + 1)) t)
noncomputable def eR (h t : ℝ) (f g : ℤ → ℝ) (i : ℤ) : ℝ :=
  en ((1 - t) * h) (cv h (f i) (g i) (f (i + 1)) (g (i + 1)) t) (cs h (f i) (g i) (f (i + 1)) (g (i + 1)) t) (f (i + 1)) (g (i + 1))

theorem spv_at {h : ℝ} (f g : ℤ → ℝ) (i : ℤ) {t : ℝ} (t0 : 0 ≤ t) (t1 : t < 1) :
    spv h f g (i + t) = cv h (f i) (g i) (f (i + 1)) (g (i + 1)) t := by
  have e : ⌊(i : ℝ) + t⌋ = i := by rw [Int.floor_eq_iff]; constructor <;> linarith
  unfold spv Int.fract
  rw [e]
  congr 1
  ring

/-- One cell of the resampled spline: at each point it is near the spline it was made from. -/
theorem cell_dev {h t ρ : ℝ} (hh : 0 < h) (t0 : 0 < t) (t1 : t < 1) (r0 : 0 ≤ ρ) (r1 : ρ < 1) (f g f' g' : ℤ → ℝ) (i j : ℤ)
    (hf : f' i = cv h (f j) (g j) (f (j + 1)) (g (j + 1)) t) (hg : g' i = cs h (f j) (g j) (f (j + 1)) (g (j + 1)) t)
    (hf1 : f' (i + 1) = cv h (f (j + 1)) (g (j + 1)) (f (j + 1 + 1)) (g (j + 1 + 1)) t)
    (hg1 : g' (i + 1) = cs h (f (j + 1)) (g (j + 1)) (f (j + 1 + 1)) (g (j + 1 + 1)) t) :
    ec h f' g' i + 192 / h ^ 3 * (spv h f g (j + t + ρ) - spv h f' g' (i + ρ)) ^ 2 ≤ eR h t f g j + eL h t f g (j + 1) := by
  have u0 : 0 < 1 - t := by linarith
  rw [spv_at f' g' i r0 r1]
  unfold ec eR eL
  rw [hf, hg, hf1, hg1]
  rcases r0.eq_or_lt with rfl | r0
  · rw [cv_zero, add_zero, spv_at f g j t0.le t1, sub_self]
    have := en_join2 (mul_pos u0 hh) (mul_pos t0 hh) (cv h (f j) (g j) (f (j + 1)) (g (j + 1)) t)
      (cs h (f j) (g j) (f (j + 1)) (g (j + 1)) t) (f (j + 1)) (g (j + 1))
      (cv h (f (j + 1)) (g (j + 1)) (f (j + 1 + 1)) (g (j + 1 + 1)) t) (cs h (f (j + 1)) (g (j + 1)) (f (j + 1 + 1)) (g (j + 1 + 1)) t)
    rw [show (1 - t) * h + t * h = h by ring] at this
    linarith [show 192 / h ^ 3 * (0 : ℝ) ^ 2 = 0 by ring]
  · have v0 : 0 < 1 - ρ := by linarith
    rcases lt_trichotomy (t + ρ) 1 with lt | eq | gt
    · -- the point lies in the left piece
      have p : 0 < 1 - (t + ρ) := by linarith
      rw [add_assoc (j : ℝ) t ρ, spv_at f g j (by linarith) lt]
      refine le_trans (en_dev hh r0 r1 _ _ _ (cs h (f j) (g j) (f (j + 1)) (g (j + 1)) (t + ρ)) _ _) ?_
      have c := en_cut3 hh (s := t) (t := t + ρ) (u := 1) (by linarith) lt (f j) (g j) (f (j + 1)) (g (j + 1))
      rw [cv_one, cs_one hh] at c
      rw [← c]
      have jn := en_join2 (mul_pos p hh) (mul_pos t0 hh) (cv h (f j) (g j) (f (j + 1)) (g (j + 1)) (t + ρ))
        (cs h (f j) (g j) (f (j + 1)) (g (j + 1)) (t + ρ)) (f (j + 1)) (g (j + 1))
        (cv h (f (j + 1)) (g (j + 1)) (f (j + 1 + 1)) (g (j + 1 + 1)) t) (cs h (f (j + 1)) (g (j + 1)) (f (j + 1 + 1)) (g (j + 1 + 1)) t)
      rw [show (1 - (t + ρ)) * h + t * h = (1 - ρ) * h by ring] at jn
      rw [show t + ρ - t = ρ by ring]
      linarith
    · -- the point is the old node
      have e : ((j : ℝ) + t + ρ) = ((j + 1 : ℤ) : ℝ) + 0 := by push_cast; linarith
      rw [e, spv_at f g (j + 1) le_rfl one_pos, cv_zero]
      refine le_trans (en_dev hh r0 r1 _ _ _ (g (j + 1)) _ _) ?_
      rw [show ρ = 1 - t by linarith, sub_sub_cancel]
    · -- the point lies in the right piece
      have e : ((j : ℝ) + t + ρ) = ((j + 1 : ℤ) : ℝ) + (t + ρ - 1) := by push_cast; ring
      have p : 0 < t + ρ - 1 := by linarith
      rw [e, spv_at f g (j + 1) p.le (by linarith)]
      refine le_trans (en_dev hh r0 r1 _ _ _ (cs h (f (j + 1)) (g (j + 1)) (f (j + 1 + 1)) (g (j + 1 + 1)) (t + ρ - 1)) _ _) ?_
      have c := en_cut3 hh (s := 0) (t := t + ρ - 1) (u := t) p (by linarith) (f (j + 1)) (g (j + 1)) (f (j + 1 + 1)) (g (j + 1 + 1))
      rw [cv_zero, cs_zero hh, sub_zero, sub_zero] at c
      rw [← c]
      have jn := en_join2 (mul_pos u0 hh) (mul_pos p hh) (cv h (f j) (g j) (f (j + 1)) (g (j + 1)) t)
        (cs h (f j) (g j) (f (j + 1)) (g (j + 1)) t) (f (j + 1)) (g (j + 1))
        (cv h (f (j + 1)) (g (j + 1)) (f (j + 1 + 1)) (g (j + 1 + 1)) (t + ρ - 1)) (cs h (f (j + 1)) (g (j + 1)) (f (j + 1 + 1)) (g (j + 1 + 1)) (t + ρ - 1))
      rw [show (1 - t) * h + (t + ρ - 1) * h = ρ * h by ring] at jn
      rw [show t - (t + ρ - 1) = 1 - ρ by ring]
      linarith

/-- A resampled spline over `m` cells has no more energy than the spline had over `m + 1` cells, by a margin that pays for the
distance between the two at a point. -/
theorem step_dev {h t y : ℝ} (hh : 0 < h) (t0 : 0 ≤ t) (t1 : t < 1) (f g f' g' : ℤ → ℝ) (p b : ℤ) (m : ℕ)
    (hf : ∀ i, p ≤ i → i ≤ p + m → f' i = cv h (f (i + b)) (g (i + b)) (f (i + b + 1)) (g (i + b + 1)) t)
    (hg : ∀ i, p ≤ i → i ≤ p + m → g' i = cs h (f (i + b)) (g (i + b)) (f (i + b + 1)) (g (i + b + 1)) t)
    (y0 : (p : ℝ) ≤ y) (y1 : y < p + m) :
    ∑ i ∈ Finset.range m, ec h f' g' (p + i) + 192 / h ^ 3 * (spv h f g (y + (b + t)) - spv h f' g' y) ^ 2 ≤
      ∑ i ∈ Finset.range (m + 1), ec h f g (p + b + i) := by
  have ey : y = ⌊y⌋ + Int.fract y := (Int.floor_add_fract y).symm
  have r0 := Int.fract_nonneg y
  have r1 := Int.fract_lt_one y
  have c0 : p ≤ ⌊y⌋ := Int.le_floor.2 y0
  have c1 : ⌊y⌋ < p + m := Int.floor_lt.2 (by push_cast; exact y1)
  generalize ⌊y⌋ = c at ey c0 c1
  generalize Int.fract y = ρ at ey r0 r1
  subst ey
  rcases t0.eq_or_lt with rfl | t0
  · have e1 : ∀ i, p ≤ i → i ≤ p + m → f' i = f (i + b) := fun i i0 i1 => by rw [hf i i0 i1, cv_zero]
    have e2 : ∀ i, p ≤ i → i ≤ p + m → g' i = g (i + b) := fun i i0 i1 => by rw [hg i i0 i1, cs_zero hh]
    have es : spv h f g (c + ρ + (b + 0)) = spv h f' g' (c + ρ) := by
      have : (c : ℝ) + ρ + (b + 0) = ((c + b : ℤ) : ℝ) + ρ := by push_cast; ring
      rw [this, spv_at f g _ r0 r1, spv_at f' g' _ r0 r1, e1 c c0 c1.le, e2 c c0 c1.le, e1 (c + 1) (by omega) (by omega),
        e2 (c + 1) (by omega) (by omega), add_right_comm]
    rw [es, sub_self, Finset.sum_range_succ]
    have : ∑ i ∈ Finset.range m, ec h f' g' (p + i) = ∑ i ∈ Finset.range m, ec h f g (p + b + i) := by
      refine Finset.sum_congr rfl fun i hi => ?_
      have := Finset.mem_range.1 hi
      unfold ec
      rw [e1 _ (by omega) (by omega), e2 _ (by omega) (by omega), e1 (p + i + 1) (by omega) (by omega), e2 (p + i + 1) (by omega) (by omega),
        add_right_comm p, add_right_comm (p + i) 1, add_right_comm p]
    rw [this]
    have := ec_nonneg hh f g (p + b + m)
    linarith [show 192 / h ^ 3 * (0 : ℝ) ^ 2 = 0 by ring]
  · have u0 : 0 < 1 - t := by linarith
    have hL : ∀ i, 0 ≤ eL h t f g i := fun i => en_nonneg (mul_pos t0 hh) _ _ _ _
    have hR : ∀ i, 0 ≤ eR h t f g i := fun i => en_nonneg (mul_pos u0 hh) _ _ _ _
    have cut : ∀ i, ec h f g i = eL h t f g i + eR h t f g i := fun i => (en_cut hh t0 t1 _ _ _ _).symm
    have dev : ∀ i, p ≤ i → i < p + m → ∀ ρ, 0 ≤ ρ → ρ < 1 → ec h f' g' i + 192 / h ^ 3 * (spv h f g ((i + b : ℤ) + t + ρ) - spv h f' g' (i + ρ)) ^ 2 ≤
        eR h t f g (i + b) + eL h t f g (i + b + 1) := by
      intro i i0 i1 ρ r0 r1
      have k1 := hf (i + 1) (by omega) (by omega)
      have k2 := hg (i + 1) (by omega) (by omega)
      rw [add_right_comm i 1 b] at k1 k2
      exact cell_dev hh t0 t1 r0 r1 f g f' g' i (i + b) (hf i i0 i1.le) (hg i i0 i1.le) k1 k2
    obtain ⟨l, rfl⟩ : ∃ l : ℕ, c = p + l := ⟨(c - p).toNat, by omega⟩
    have lm : l < m := by omega
    set X := 192 / h ^ 3 * (spv h f g (((p + l : ℤ) : ℝ) + ρ + (b + t)) - spv h f' g' (((p + l : ℤ) : ℝ) + ρ)) ^ 2 with hX
    have s1 : ∑ i ∈ Finset.range m, ec h f' g' (p + i) + X ≤
        ∑ i ∈ Finset.range m, (eR h t f g (p + b + i) + eL h t f g (p + b + i + 1)) := by
      have : X = ∑ i ∈ Finset.range m, if i = l then X else 0 := by
        rw [Finset.sum_ite_eq' , if_pos (Finset.mem_range.2 lm)]
      rw [this, ← Finset.sum_add_distrib]
      refine Finset.sum_le_sum fun i hi => ?_
      have im := Finset.mem_range.1 hi
      rw [add_right_comm p b]
      by_cases e : i = l
      · rw [if_pos e, e]
        have := dev (p + l) (by omega) (by omega) ρ r0 r1
        have e' : ((p + l + b : ℤ) : ℝ) + t + ρ = ((p + l : ℤ) : ℝ) + ρ + (b + t) := by push_cast; ring
        rw [e'] at this
        exact this
      · rw [if_neg e]
        have := dev (p + i) (by omega) (by omega) 0 le_rfl one_pos
        have nn : 0 ≤ 192 / h ^ 3 * (spv h f g (((p + i + b : ℤ) : ℝ) + t + 0) - spv h f' g' (((p + i : ℤ) : ℝ) + 0)) ^ 2 := by positivity
        linarith
    have tele : ∀ q : ℤ, ∀ m : ℕ, ∑ i ∈ Finset.range m, (eR h t f g (q + i) + eL h t f g (q + i + 1)) + eL h t f g q + eR h t f g (q + m) =
        ∑ i ∈ Finset.range (m + 1), ec h f g (q + i) := by
      intro q m
      induction m with
      | zero => simp [cut, add_comm]
      | succ n ih =>
        rw [Finset.sum_range_succ, Finset.sum_range_succ _ (n + 1), ← ih, cut]
        push_cast
        rw [add_assoc q]
        ring
    have := tele (p + b) m
    linarith [hL (p + b), hR (p + b + m)]

/-- A function carried by `K + 1` resamplings. -/
theorem carried {h t M x : ℝ} (hh : 0 < h) (t0 : 0 ≤ t) (t1 : t < 1) {u u' u'' : ℝ → ℝ} (f g : ℕ → ℤ → ℝ) (i b : ℤ) (K : ℕ)
    (h1 : ∀ y ∈ Set.Icc (x + (i + (K + 1) * b) * h) (x + (i + (K + 1) * b + (K + 1)) * h), HasDerivAt u (u' y) y)
    (h2 : ∀ y ∈ Set.Icc (x + (i + (K + 1) * b) * h) (x + (i + (K + 1) * b + (K + 1)) * h), HasDerivAt u' (u'' y) y)
    (hM : ∀ y ∈ Set.Icc (x + (i + (K + 1) * b) * h) (x + (i + (K + 1) * b + (K + 1)) * h), |u'' y| ≤ M)
    (hf0 : ∀ c : ℤ, i + (K + 1) * b ≤ c → c ≤ i + (K + 1) * b + (K + 1) → f 0 c = u (x + c * h))
    (hg0 : ∀ c : ℤ, i + (K + 1) * b ≤ c → c ≤ i + (K + 1) * b + (K + 1) → g 0 c = u' (x + c * h))
    (hf : ∀ j m : ℕ, j + m = K → ∀ c, i + m * b ≤ c → c ≤ i + m * b + m →
      f (j + 1) c = cv h (f j (c + b)) (g j (c + b)) (f j (c + b + 1)) (g j (c + b + 1)) t)
    (hg : ∀ j m : ℕ, j + m = K → ∀ c, i + m * b ≤ c → c ≤ i + m * b + m →
      g (j + 1) c = cs h (f j (c + b)) (g j (c + b)) (f j (c + b + 1)) (g j (c + b + 1)) t) :
    192 * (u (x + (i + (K + 1) * (b + t)) * h) - f (K + 1) i) ^ 2 ≤ ((K + 1) * M * h ^ 2) ^ 2 := by
  have h3 : 0 < 192 / h ^ 3 := by positivity
  set Y : ℕ → ℝ := fun j => i + (K + 1 - j) * (b + t) with hY
  set δ : ℕ → ℝ := fun l => Nat.casesOn l (u (x + Y 0 * h) - spv h (f 0) (g 0) (Y 0))
    (fun j => spv h (f j) (g j) (Y j) - spv h (f (j + 1)) (g (j + 1)) (Y (j + 1))) with hδ
  -- the cell of the start
  have init : ∑ c ∈ Finset.range (K + 1), ec h (f 0) (g 0) (i + (K + 1) * b + c) + 192 / h ^ 3 * δ 0 ^ 2 ≤ (K + 1) * (M ^ 2 * h) := by
    have ey : Y 0 = ⌊Y 0⌋ + Int.fract (Y 0) := (Int.floor_add_fract _).symm
    have r0 := Int.fract_nonneg (Y 0)
    have r1 := Int.fract_lt_one (Y 0)
    have k0 : (0 : ℝ) < K + 1 := by positivity
    have b0 : ((i + (K + 1) * b : ℤ) : ℝ) ≤ Y 0 := by simp only [hY]; push_cast; nlinarith
    have b1 : Y 0 < ((i + (K + 1) * b : ℤ) : ℝ) + (K + 1) := by simp only [hY]; push_cast; nlinarith
    have c0 := Int.le_floor.2 b0
    have c1 : ⌊Y 0⌋ < i + (K + 1) * b + (K + 1) := Int.floor_lt.2 (by push_cast at b1 ⊢; exact b1)
    have eδ : δ 0 = u (x + Y 0 * h) - spv h (f 0) (g 0) (Y 0) := rfl
    rw [eδ]
    generalize ⌊Y 0⌋ = c at ey c0 c1
    generalize Int.fract (Y 0) = ρ at ey r0 r1
    have cellb : ∀ c : ℤ, i + (K + 1) * b ≤ c → c < i + (K + 1) * b + (K + 1) → ∀ ρ, 0 ≤ ρ → ρ < 1 →
        ec h (f 0) (g 0) c + 192 / h ^ 3 * (u (x + (c + ρ) * h) - spv h (f 0) (g 0) (c + ρ)) ^ 2 ≤ M ^ 2 * h := by
      intro c c0 c1 ρ r0 r1
      rw [spv_at _ _ _ r0 r1]
      unfold ec
      have e1 : x + ((c + 1 : ℤ) : ℝ) * h = x + c * h + h := by push_cast; ring
      rw [hf0 c c0 c1.le, hg0 c c0 c1.le, hf0 (c + 1) (by omega) (by omega), hg0 (c + 1) (by omega) (by omega), e1]
      have sub : Set.Icc (x + c * h) (x + c * h + h) ⊆ Set.Icc (x + (i + (K + 1) * b) * h) (x + (i + (K + 1) * b + (K + 1)) * h) := by
        have q0 : ((i : ℝ) + (K + 1) * b) ≤ c := by exact_mod_cast c0
        have q1 : (c : ℝ) + 1 ≤ i + (K + 1) * b + (K + 1) := by exact_mod_cast (by omega : c + 1 ≤ i + (K + 1) * b + (K + 1))
        refine Set.Icc_subset_Icc (by nlinarith) ?_
        nlinarith
      have := en_interp (x := x + c * h) hh r0 r1 (fun y hy => h1 y (sub hy)) (fun y hy => h2 y (sub hy)) (fun y hy => hM y (sub hy))
      rw [show x + c * h + ρ * h = x + (c + ρ) * h by ring] at this
      exact this
    obtain ⟨l, hl⟩ : ∃ l : ℕ, c = i + (K + 1) * b + l := ⟨(c - (i + (K + 1) * b)).toNat, by omega⟩
    have lm : l < K + 1 := by omega
    set X := 192 / h ^ 3 * (u (x + Y 0 * h) - spv h (f 0) (g 0) (Y 0)) ^ 2 with hX
    have : X = ∑ c ∈ Finset.range (K + 1), if c = l then X else 0 := by
      rw [Finset.sum_ite_eq', if_pos (Finset.mem_range.2 lm)]
    rw [this, ← Finset.sum_add_distrib]
    have : ((K : ℝ) + 1) * (M ^ 2 * h) = ∑ c ∈ Finset.range (K + 1), M ^ 2 * h := by
      rw [Finset.sum_const, Finset.card_range, nsmul_eq_mul]
      push_cast
      rfl
    rw [this]
    refine Finset.sum_le_sum fun j hj => ?_
    have jm := Finset.mem_range.1 hj
    by_cases e : j = l
    · rw [if_pos e, e, ← hl, hX, ey]
      exact cellb c c0 c1 ρ r0 r1
    · rw [if_neg e]
      have := cellb (i + (K + 1) * b + j) (by omega) (by omega) 0 le_rfl one_pos
      have nn : 0 ≤ 192 / h ^ 3 * (u (x + (((i + (K + 1) * b + j : ℤ) : ℝ) + 0) * h) - spv h (f 0) (g 0) (((i + (K + 1) * b + j : ℤ) : ℝ) + 0)) ^ 2 := by
        positivity
      linarith
  -- the steps
  have main : ∀ j m : ℕ, j + m = K → ∑ c ∈ Finset.range (m + 1), ec h (f j) (g j) (i + (m + 1) * b + c) +
      192 / h ^ 3 * ∑ l ∈ Finset.range (j + 1), δ l ^ 2 ≤ (K + 1) * (M ^ 2 * h) := by
    intro j
    induction j with
    | zero =>
      intro m hm
      have : m = K := by omega
      subst this
      rw [Finset.sum_range_one]
      exact init
    | succ j ih =>
      intro m hm
      have := ih (m + 1) (by omega)
      rw [Finset.sum_range_succ _ (j + 1), mul_add]
      have hmK : (j : ℝ) + 1 + m = K := by exact_mod_cast hm
      have st := step_dev hh t0 t1 (f j) (g j) (f (j + 1)) (g (j + 1)) (i + (m + 1) * b) b (m + 1) (y := Y (j + 1))
        (fun c c0 c1 => hf j (m + 1) (by omega) c (by push_cast; exact c0) (by push_cast at c1 ⊢; exact c1))
        (fun c c0 c1 => hg j (m + 1) (by omega) c (by push_cast; exact c0) (by push_cast at c1 ⊢; exact c1))
        (by
          have m0 : (0 : ℝ) < m + 1 := by positivity
          simp only [hY]; push_cast; rw [← hmK]; nlinarith)
        (by
          have m0 : (0 : ℝ) < m + 1 := by positivity
          simp only [hY]; push_cast; rw [← hmK]; nlinarith)
      have ey : Y (j + 1) + (b + t) = Y j := by simp only [hY]; push_cast; ring
      rw [ey] at st
      have ep : ∀ c : ℕ, i + (m + 1) * b + b + (c : ℤ) = i + ((m + 1 : ℕ) + 1) * b + c := by intro c; push_cast; ring
      simp only [ep] at st
      have e2 : δ (j + 1) = spv h (f j) (g j) (Y j) - spv h (f (j + 1)) (g (j + 1)) (Y (j + 1)) := rfl
      rw [e2]
      linarith
  have last := main K 0 (by omega)
  have tot : 192 / h ^ 3 * ∑ l ∈ Finset.range (K + 1), δ l ^ 2 ≤ (K + 1) * (M ^ 2 * h) :=
    le_trans (le_add_of_nonneg_left (Finset.sum_nonneg fun _ _ => ec_nonneg hh _ _ _)) last
  have tele : ∀ j, ∑ l ∈ Finset.range (j + 1), δ l = u (x + Y 0 * h) - spv h (f j) (g j) (Y j) := by
    intro j
    induction j with
    | zero =>
      rw [zero_add, Finset.sum_range_one]
      rfl
    | succ j ih =>
      rw [Finset.sum_range_succ, ih]
      have e2 : δ (j + 1) = spv h (f j) (g j) (Y j) - spv h (f (j + 1)) (g (j + 1)) (Y (j + 1)) := rfl
      rw [e2]
      ring
  have fin : spv h (f K) (g K) (Y K) = f (K + 1) i := by
    have e : Y K = ((i + b : ℤ) : ℝ) + t := by simp only [hY]; push_cast; ring
    rw [e, spv_at _ _ _ t0 t1, hf K 0 (by omega) i (by simp) (by simp)]
  have sq := sq_sum_le_card_mul_sum_sq (s := Finset.range (K + 1)) (f := δ)
  rw [tele, fin, Finset.card_range] at sq
  have e0 : Y 0 = i + (K + 1) * (b + t) := by simp only [hY]; push_cast; ring
  rw [e0] at sq
  push_cast at sq
  have t2 : 192 * ∑ l ∈ Finset.range (K + 1), δ l ^ 2 ≤ (K + 1) * (M ^ 2 * h ^ 4) := by
    rw [div_mul_eq_mul_div, div_le_iff₀ (by positivity)] at tot
    calc _ ≤ _ := tot
      _ = _ := by ring
  have k0 : (0 : ℝ) < K + 1 := by positivity
  nlinarith

end Gals
