import Verif.Lemmas.Converge
import Verif.Lemmas.HermiteError

/-!
# Smooth functions carried along a line
-/

namespace Gals

open Spec

/-- A clamped rotation needs energy. -/
theorem clamped_slope {h ρ : ℝ} (hh : 0 < h) (r0 : 0 < ρ) (r1 : ρ < 1) (d d' : ℝ) :
    4 / h * d' ^ 2 ≤ en (ρ * h) 0 0 d d' + en ((1 - ρ) * h) d d' 0 0 := by
  have u0 : 0 < 1 - ρ := by linarith
  have e : en (ρ * h) 0 0 d d' + en ((1 - ρ) * h) d d' 0 0 =
      d' ^ 2 / (h * (ρ * (1 - ρ))) + 3 / (ρ * h) * (2 * d / (ρ * h) - d') ^ 2 + 3 / ((1 - ρ) * h) * (2 * d / ((1 - ρ) * h) + d') ^ 2 := by
    unfold en
    field_simp
    ring
  have q : 0 < ρ * (1 - ρ) := mul_pos r0 u0
  have q4 : ρ * (1 - ρ) ≤ 1 / 4 := by nlinarith [sq_nonneg (ρ - 1 / 2)]
  rw [e]
  have h1 : 0 ≤ 3 / (ρ * h) * (2 * d / (ρ * h) - d') ^ 2 := by positivity
  have h2 : 0 ≤ 3 / ((1 - ρ) * h) * (2 * d / ((1 - ρ) * h) + d') ^ 2 := by positivity
  have h3 : 4 / h * d' ^ 2 ≤ d' ^ 2 / (h * (ρ * (1 - ρ))) := by
    generalize ρ * (1 - ρ) = z at q q4
    rw [div_mul_eq_mul_div, div_le_div_iff₀ hh (by positivity)]
    have : 0 ≤ d' ^ 2 * h := by positivity
    nlinarith
  linarith

/-- The distance of a slope from that of the cubic over the whole interval. -/
theorem en_dev_slope {h ρ : ℝ} (hh : 0 < h) (r0 : 0 < ρ) (r1 : ρ < 1) (a a' m m' b b' : ℝ) :
    en h a a' b b' + 4 / h * (m' - cs h a a' b b' ρ) ^ 2 ≤ en (ρ * h) a a' m m' + en ((1 - ρ) * h) m m' b b' := by
  rw [en_split hh r0 r1]
  linarith [clamped_slope hh r0 r1 (m - cv h a a' b b' ρ) (m' - cs h a a' b b' ρ)]

theorem sps_at {h : ℝ} (f g : ℤ → ℝ) (i : ℤ) {t : ℝ} (t0 : 0 ≤ t) (t1 : t < 1) :
    sps h f g (i + t) = cs h (f i) (g i) (f (i + 1)) (g (i + 1)) t := by
  have e : ⌊(i : ℝ) + t⌋ = i := by rw [Int.floor_eq_iff]; constructor <;> linarith
  unfold sps Int.fract
  rw [e]
  congr 1
  ring

/-- One cell of the resampled spline: at each point its slope is near that of the spline it was made from. -/
theorem cell_dev_slope {h t ρ : ℝ} (hh : 0 < h) (t0 : 0 < t) (t1 : t < 1) (r0 : 0 ≤ ρ) (r1 : ρ < 1) (f g f' g' : ℤ → ℝ) (i j : ℤ)
    (hf : f' i = cv h (f j) (g j) (f (j + 1)) (g (j + 1)) t) (hg : g' i = cs h (f j) (g j) (f (j + 1)) (g (j + 1)) t)
    (hf1 : f' (i + 1) = cv h (f (j + 1)) (g (j + 1)) (f (j + 1 + 1)) (g (j + 1 + 1)) t)
    (hg1 : g' (i + 1) = cs h (f (j + 1)) (g (j + 1)) (f (j + 1 + 1)) (g (j + 1 + 1)) t) :
    ec h f' g' i + 4 / h * (sps h f g (j + t + ρ) - sps h f' g' (i + ρ)) ^ 2 ≤ eR h t f g j + eL h t f g (j + 1) := by
  have u0 : 0 < 1 - t := by linarith
  rw [sps_at f' g' i r0 r1]
  unfold ec eR eL
  rw [hf, hg, hf1, hg1]
  rcases r0.eq_or_lt with rfl | r0
  · rw [cs_zero hh, add_zero, sps_at f g j t0.le t1, sub_self]
    have := en_join2 (mul_pos u0 hh) (mul_pos t0 hh) (cv h (f j) (g j) (f (j + 1)) (g (j + 1)) t)
      (cs h (f j) (g j) (f (j + 1)) (g (j + 1)) t) (f (j + 1)) (g (j + 1))
      (cv h (f (j + 1)) (g (j + 1)) (f (j + 1 + 1)) (g (j + 1 + 1)) t) (cs h (f (j + 1)) (g (j + 1)) (f (j + 1 + 1)) (g (j + 1 + 1)) t)
    rw [show (1 - t) * h + t * h = h by ring] at this
    linarith [show 4 / h * (0 : ℝ) ^ 2 = 0 by ring]
  · have v0 : 0 < 1 - ρ := by linarith
    rcases lt_trichotomy (t + ρ) 1 with lt | eq | gt
    · -- the point lies in the left piece
      have p : 0 < 1 - (t + ρ) := by linarith
      rw [add_assoc (j : ℝ) t ρ, sps_at f g j (by linarith) lt]
      refine le_trans (en_dev_slope hh r0 r1 _ _ (cv h (f j) (g j) (f (j + 1)) (g (j + 1)) (t + ρ)) _ _ _) ?_
      have c := en_cut3 hh (s := t) (t := t + ρ) (u := 1) (by linarith) lt (f j) (g j) (f (j + 1)) (g (j + 1))
      rw [cv_one, cs_one hh] at c
      rw [← c]
      have jn := en_join2 (mul_pos p hh) (mul_pos t0 hh) (cv h (f j) (g j) (f (j + 1)) (g (j + 1)) (t + ρ))
        (cs h (f j) (g j) (f (j + 1)) (g (j + 1)) (t + ρ)) (f (j + 1)) (g (j + 1))
        (cv h (f (j + 1)) (g (j + 1)) (f (j + 1 + 1)) (g (j + 1 + 1)) t) (cs h (f (j + 1)) (g (j + 1)) (f (j + 1 + 1)) (g (j + 1 + 1)) t)
      rw [show (1 - (t + ρ)) * h + t * h = (1 - ρ) * h by ring] at jn
      rw [show t + ρ - t = ρ by ring]
      linarith
    · -- the point is the old node
      have e : ((j : ℝ) + t + ρ) = ((j + 1 : ℤ) : ℝ) + 0 := by push_cast; linarith
      rw [e, sps_at f g (j + 1) le_rfl one_pos, cs_zero hh]
      refine le_trans (en_dev_slope hh r0 r1 _ _ (f (j + 1)) _ _ _) ?_
      rw [show ρ = 1 - t by linarith, sub_sub_cancel]
    · -- the point lies in the right piece
      have e : ((j : ℝ) + t + ρ) = ((j + 1 : ℤ) : ℝ) + (t + ρ - 1) := by push_cast; ring
      have p : 0 < t + ρ - 1 := by linarith
      rw [e, sps_at f g (j + 1) p.le (by linarith)]
      refine le_trans (en_dev_slope hh r0 r1 _ _ (cv h (f (j + 1)) (g (j + 1)) (f (j + 1 + 1)) (g (j + 1 + 1)) (t + ρ - 1)) _ _ _) ?_
      have c := en_cut3 hh (s := 0) (t := t + ρ - 1) (u := t) p (by linarith) (f (j + 1)) (g (j + 1)) (f (j + 1 + 1)) (g (j + 1 + 1))
      rw [cv_zero, cs_zero hh, sub_zero, sub_zero] at c
      rw [← c]
      have jn := en_join2 (mul_pos u0 hh) (mul_pos p hh) (cv h (f j) (g j) (f (j + 1)) (g (j + 1)) t)
        (cs h (f j) (g j) (f (j + 1)) (g (j + 1)) t) (f (j + 1)) (g (j + 1))
        (cv h (f (j + 1)) (g (j + 1)) (f (j + 1 + 1)) (g (j + 1 + 1)) (t + ρ - 1)) (cs h (f (j + 1)) (g (j + 1)) (f (j + 1 + 1)) (g (j + 1 + 1)) (t + ρ - 1))
      rw [show (1 - t) * h + (t + ρ - 1) * h = ρ * h by ring] at jn
      rw [show t - (t + ρ - 1) = 1 - ρ by ring]
      linarith

/-- A resampled spline over `m` cells has no more energy than the spline had over `m + 1` cells, by a margin that pays for the
difference of the two slopes at a point. -/
theorem step_dev_slope {h t y : ℝ} (hh : 0 < h) (t0 : 0 ≤ t) (t1 : t < 1) (f g f' g' : ℤ → ℝ) (p b : ℤ) (m : ℕ)
    (hf : ∀ i, p ≤ i → i ≤ p + m → f' i = cv h (f (i + b)) (g (i + b)) (f (i + b + 1)) (g (i + b + 1)) t)
    (hg : ∀ i, p ≤ i → i ≤ p + m → g' i = cs h (f (i + b)) (g (i + b)) (f (i + b + 1)) (g (i + b + 1)) t)
    (y0 : (p : ℝ) ≤ y) (y1 : y < p + m) :
    ∑ i ∈ Finset.range m, ec h f' g' (p + i) + 4 / h * (sps h f g (y + (b + t)) - sps h f' g' y) ^ 2 ≤
      ∑ i ∈ Finset.range (m + 1), ec h f g (p + b + i) := by
  have ey : y = ⌊y⌋ + Int.fract y := (Int.floor_add_fract y).symm
  have r0 := Int.fract_nonneg y
  have r1 := Int.fract_lt_one y
  have c0 : p ≤ ⌊y⌋ := Int.le_floor.2 y0
  have c1 : ⌊y⌋ < p + m := Int.floor_lt.2 (by push_cast; exact y1)
  generalize ⌊y⌋ = c at ey c0 c1
  generalize Int.fract y = ρ at ey r0 r1
  subst ey
  rcases t0.eq_or_lt with rfl | t0
  · have e1 : ∀ i, p ≤ i → i ≤ p + m → f' i = f (i + b) := fun i i0 i1 => by rw [hf i i0 i1, cv_zero]
    have e2 : ∀ i, p ≤ i → i ≤ p + m → g' i = g (i + b) := fun i i0 i1 => by rw [hg i i0 i1, cs_zero hh]
    have es : sps h f g (c + ρ + (b + 0)) = sps h f' g' (c + ρ) := by
      have : (c : ℝ) + ρ + (b + 0) = ((c + b : ℤ) : ℝ) + ρ := by push_cast; ring
      rw [this, sps_at f g _ r0 r1, sps_at f' g' _ r0 r1, e1 c c0 c1.le, e2 c c0 c1.le, e1 (c + 1) (by omega) (by omega),
        e2 (c + 1) (by omega) (by omega), add_right_comm]
    rw [es, sub_self, Finset.sum_range_succ]
    have : ∑ i ∈ Finset.range m, ec h f' g' (p + i) = ∑ i ∈ Finset.range m, ec h f g (p + b + i) := by
      refine Finset.sum_congr rfl fun i hi => ?_
      have := Finset.mem_range.1 hi
      unfold ec
      rw [e1 _ (by omega) (by omega), e2 _ (by omega) (by omega), e1 (p + i + 1) (by omega) (by omega), e2 (p + i + 1) (by omega) (by omega),
        add_right_comm p, add_right_comm (p + i) 1, add_right_comm p]
    rw [this]
    have := ec_nonneg hh f g (p + b + m)
    linarith [show 4 / h * (0 : ℝ) ^ 2 = 0 by ring]
  · have u0 : 0 < 1 - t := by linarith
    have hL : ∀ i, 0 ≤ eL h t f g i := fun i => en_nonneg (mul_pos t0 hh) _ _ _ _
    have hR : ∀ i, 0 ≤ eR h t f g i := fun i => en_nonneg (mul_pos u0 hh) _ _ _ _
    have cut : ∀ i, ec h f g i = eL h t f g i + eR h t f g i := fun i => (en_cut hh t0 t1 _ _ _ _).symm
    have dev : ∀ i, p ≤ i → i < p + m → ∀ ρ, 0 ≤ ρ → ρ < 1 → ec h f' g' i + 4 / h * (sps h f g ((i + b : ℤ) + t + ρ) - sps h f' g' (i + ρ)) ^ 2 ≤
        eR h t f g (i + b) + eL h t f g (i + b + 1) := by
      intro i i0 i1 ρ r0 r1
      have k1 := hf (i + 1) (by omega) (by omega)
      have k2 := hg (i + 1) (by omega) (by omega)
      rw [add_right_comm i 1 b] at k1 k2
      exact cell_dev_slope hh t0 t1 r0 r1 f g f' g' i (i + b) (hf i i0 i1.le) (hg i i0 i1.le) k1 k2
    obtain ⟨l, rfl⟩ : ∃ l : ℕ, c = p + l := ⟨(c - p).toNat, by omega⟩
    have lm : l < m := by omega
    set X := 4 / h * (sps h f g (((p + l : ℤ) : ℝ) + ρ + (b + t)) - sps h f' g' (((p + l : ℤ) : ℝ) + ρ)) ^ 2 with hX
    have s1 : ∑ i ∈ Finset.range m, ec h f' g' (p + i) + X ≤
        ∑ i ∈ Finset.range m, (eR h t f g (p + b + i) + eL h t f g (p + b + i + 1)) := by
      have : X = ∑ i ∈ Finset.range m, if i = l then X else 0 := by
        rw [Finset.sum_ite_eq' , if_pos (Finset.mem_range.2 lm)]
      rw [this, ← Finset.sum_add_distrib]
      refine Finset.sum_le_sum fun i hi => ?_
      have im := Finset.mem_range.1 hi
      rw [add_right_comm p b]
      by_cases e : i = l
      · rw [if_pos e, e]
        have := dev (p + l) (by omega) (by omega) ρ r0 r1
        have e' : ((p + l + b : ℤ) : ℝ) + t + ρ = ((p + l : ℤ) : ℝ) + ρ + (b + t) := by push_cast; ring
        rw [e'] at this
        exact this
      · rw [if_neg e]
        have := dev (p + i) (by omega) (by omega) 0 le_rfl one_pos
        have nn : 0 ≤ 4 / h * (sps h f g (((p + i + b : ℤ) : ℝ) + t + 0) - sps h f' g' (((p + i : ℤ) : ℝ) + 0)) ^ 2 := by positivity
        linarith
    have tele : ∀ q : ℤ, ∀ m : ℕ, ∑ i ∈ Finset.range m, (eR h t f g (q + i) + eL h t f g (q + i + 1)) + eL h t f g q + eR h t f g (q + m) =
        ∑ i ∈ Finset.range (m + 1), ec h f g (q + i) := by
      intro q m
      induction m with
      | zero => simp [cut, add_comm]
      | succ n ih =>
        rw [Finset.sum_range_succ, Finset.sum_range_succ _ (n + 1), ← ih, cut]
        push_cast
        rw [add_assoc q]
        ring
    have := tele (p + b) m
    linarith [hL (p + b), hR (p + b + m)]

/-- The energy of a sum. -/
theorem en_add_le {h n : ℝ} (hh : 0 < h) (hn : 0 < n) (a a' b b' c c' d d' : ℝ) :
    en h (a + c) (a' + c') (b + d) (b' + d') ≤ (1 + 1 / n) * en h a a' b b' + (1 + n) * en h c c' d d' := by
  have e : (1 + 1 / n) * en h a a' b b' + (1 + n) * en h c c' d d' - en h (a + c) (a' + c') (b + d) (b' + d') =
      1 / n * en h (a - n * c) (a' - n * c') (b - n * d) (b' - n * d') := by
    unfold en
    field_simp
    ring
  have := mul_nonneg (by positivity : 0 ≤ 1 / n) (en_nonneg hh (a - n * c) (a' - n * c') (b - n * d) (b' - n * d'))
  linarith

theorem en_neg (h a a' b b' : ℝ) : en h (-a) (-a') (-b) (-b') = en h a a' b b' := by
  unfold en
  ring

/-- The second derivative of a function with double zeros at both ends. -/
theorem remainder'' {e e1 e2 e3 e4 : ℝ → ℝ} (C : Chain e e1 e2 e3 e4) {a h t M : ℝ} (hh : 0 < h) (ht : t ∈ Set.Icc a (a + h)) (ha : e a = 0)
    (hb : e (a + h) = 0) (ha' : e1 a = 0) (hb' : e1 (a + h) = 0) (hM : ∀ y ∈ Set.Icc a (a + h), |e4 y| ≤ M) : |e2 t| ≤ M / 2 * h ^ 2 := by
  have hab : a < a + h := by linarith
  obtain ⟨m, m1, m2, m3⟩ := rolle C.d1 hab ha hb
  obtain ⟨p, p1, p2, p3⟩ := rolle C.d2 m1 ha' m3
  obtain ⟨q, q1, q2, q3⟩ := rolle C.d2 m2 m3 hb'
  have M0 : 0 ≤ M := (abs_nonneg _).trans (hM a (Set.left_mem_Icc.2 hab.le))
  by_cases h0 : (t - p) * (t - q) = 0
  · have : e2 t = 0 := by
      rcases mul_eq_zero.1 h0 with h0 | h0
      · rw [sub_eq_zero.1 h0, p3]
      · rw [sub_eq_zero.1 h0, q3]
    rw [this, abs_zero]
    positivity
  obtain ⟨k, hk⟩ : ∃ k, e2 t = k * ((t - p) * (t - q)) := ⟨e2 t / ((t - p) * (t - q)), (div_mul_cancel₀ _ h0).symm⟩
  have g2 := hasDerivAt_sub_poly (p := fun x => k * ((x - p) * (x - q))) (q := fun x => k * ((x - q) + (x - p))) C.d3 (k * (p * q))
    (k * (-(p + q))) k 0 0 (fun x => by ring) (fun x => by ring)
  have g3 := hasDerivAt_sub_poly (p := fun x => k * ((x - q) + (x - p))) (q := fun _ => k * 2) C.d4 (k * (-(p + q))) (2 * k) 0 0 0
    (fun x => by ring) (fun x => by ring)
  have zp : e2 p - k * ((p - p) * (p - q)) = 0 := by simp [p3]
  have zq : e2 q - k * ((q - p) * (q - q)) = 0 := by simp [q3]
  have zt : e2 t - k * ((t - p) * (t - q)) = 0 := by rw [hk]; ring
  have tp : t ≠ p := fun h => h0 (by simp [h])
  have tq : t ≠ q := fun h => h0 (by simp [h])
  have rr : ∀ {x y z : ℝ}, x < y → y < z → e2 x - k * ((x - p) * (x - q)) = 0 → e2 y - k * ((y - p) * (y - q)) = 0 →
      e2 z - k * ((z - p) * (z - q)) = 0 → ∃ w, x < w ∧ w < z ∧ e4 w - k * 2 = 0 := by
    intro x y z xy yz zx zy zz
    obtain ⟨r, r1, r2, r3⟩ := rolle g2 xy zx zy
    obtain ⟨s, s1, s2, s3⟩ := rolle g2 yz zy zz
    obtain ⟨w, w1, w2, w3⟩ := rolle g3 (r2.trans s1) r3 s3
    exact ⟨w, r1.trans w1, w2.trans s2, w3⟩
  obtain ⟨w, hw, ew⟩ : ∃ w ∈ Set.Icc a (a + h), e4 w - k * 2 = 0 := by
    have pq : p < q := p2.trans q1
    rcases lt_or_gt_of_ne tp with h1 | h1
    · obtain ⟨w, w1, w2, w3⟩ := rr h1 pq zt zp zq
      exact ⟨w, ⟨by linarith [ht.1], by linarith⟩, w3⟩
    · rcases lt_or_gt_of_ne tq with h2 | h2
      · obtain ⟨w, w1, w2, w3⟩ := rr h1 h2 zp zt zq
        exact ⟨w, ⟨by linarith, by linarith⟩, w3⟩
      · obtain ⟨w, w1, w2, w3⟩ := rr pq h2 zp zq zt
        exact ⟨w, ⟨by linarith, by linarith [ht.2]⟩, w3⟩
  have kM : |k| ≤ M / 2 := by
    have : k = e4 w / 2 := by linarith
    rw [this, abs_div, abs_of_pos (by norm_num : (0 : ℝ) < 2)]
    have := hM w hw
    linarith
  have b1 : |t - p| ≤ h := by rw [abs_le]; constructor <;> linarith [ht.1, ht.2]
  have b2 : |t - q| ≤ h := by rw [abs_le]; constructor <;> linarith [ht.1, ht.2]
  rw [hk, abs_mul, abs_mul, pow_two]
  gcongr

/-- The energy of the error that one resampling of the interpolation of a smooth function makes in a cell. -/
theorem resid_energy {h t M z : ℝ} (hh : 0 < h) (t0 : 0 ≤ t) (t1 : t < 1) {u u' : ℝ → ℝ} (hu' : ∀ y, HasDerivAt u (u' y) y)
    (hu : Quartic u z (z + h + h) M) :
    en h (cv h (u z) (u' z) (u (z + h)) (u' (z + h)) t - u (z + t * h)) (cs h (u z) (u' z) (u (z + h)) (u' (z + h)) t - u' (z + t * h))
      (cv h (u (z + h)) (u' (z + h)) (u (z + h + h)) (u' (z + h + h)) t - u (z + h + t * h))
      (cs h (u (z + h)) (u' (z + h)) (u (z + h + h)) (u' (z + h + h)) t - u' (z + h + t * h)) ≤ (M / 2 * h ^ 2) ^ 2 * h := by
  have C := chain_of hu.smooth
  have ed : deriv u = u' := funext fun x => (hu' x).deriv
  rw [ed] at C
  obtain ⟨e, e1, e2, e3, E, y1, y2, y3, y4, hs⟩ := error_chain C z h hh
  obtain ⟨f, f1, f2, f3, F, x1, x2, x3, x4, hr⟩ := error_chain C (z + h) h hh
  obtain ⟨p1, p2⟩ := hs t
  obtain ⟨q1, q2⟩ := hr t
  have k1 : cv h (u z) (u' z) (u (z + h)) (u' (z + h)) t - u (z + t * h) = -e (z + t * h) := by rw [p1]; unfold cv; ring
  have k2 : cs h (u z) (u' z) (u (z + h)) (u' (z + h)) t - u' (z + t * h) = -e1 (z + t * h) := by rw [p2]; unfold cs; ring
  have k3 : cv h (u (z + h)) (u' (z + h)) (u (z + h + h)) (u' (z + h + h)) t - u (z + h + t * h) = -f (z + h + t * h) := by rw [q1]; unfold cv; ring
  have k4 : cs h (u (z + h)) (u' (z + h)) (u (z + h + h)) (u' (z + h + h)) t - u' (z + h + t * h) = -f1 (z + h + t * h) := by rw [q2]; unfold cs; ring
  rw [k1, k2, k3, k4, en_neg]
  rcases t0.eq_or_lt with rfl | t0
  · have i1 : z + 0 * h = z := by ring
    have i2 : z + h + 0 * h = z + h := by ring
    rw [i1, i2, y1, y3, x1, x3]
    have : en h 0 0 0 0 = 0 := by unfold en; ring
    rw [this]
    positivity
  · have u0 : 0 < 1 - t := by linarith
    have s1 : ∀ y ∈ Set.Icc z (z + h), |iteratedDeriv 4 u y| ≤ M := fun y hy => hu.bound y ⟨hy.1, by linarith [hy.2]⟩
    have s2 : ∀ y ∈ Set.Icc (z + h) (z + h + h), |iteratedDeriv 4 u y| ≤ M := fun y hy => hu.bound y ⟨by linarith [hy.1], hy.2⟩
    have th : t * h < h := by nlinarith
    have th0 : 0 < t * h := mul_pos t0 hh
    have l1 := en_least (x := z + t * h) (h := (1 - t) * h) (mul_pos u0 hh) (u := e) (u' := e1) (u'' := e2) (M := M / 2 * h ^ 2)
      (fun y _ => E.d1 y) (fun y _ => E.d2 y)
      (fun y hy => remainder'' E hh ⟨by linarith [hy.1], by have := hy.2; nlinarith⟩ y1 y2 y3 y4 s1)
    have l2 := en_least (x := z + h) (h := t * h) th0 (u := f) (u' := f1) (u'' := f2) (M := M / 2 * h ^ 2)
      (fun y _ => F.d1 y) (fun y _ => F.d2 y)
      (fun y hy => remainder'' F hh ⟨by linarith [hy.1], by have := hy.2; linarith⟩ x1 x2 x3 x4 s2)
    rw [show z + t * h + (1 - t) * h = z + h by ring, y2, y4] at l1
    rw [x1, x3] at l2
    have := en_join2 (mul_pos u0 hh) th0 (e (z + t * h)) (e1 (z + t * h)) 0 0 (f (z + h + t * h)) (f1 (z + h + t * h))
    rw [show (1 - t) * h + t * h = h by ring] at this
    nlinarith

/-- The slope of the interpolation of small data. -/
theorem cs_le {s h A B v0 e0 v1 e1 : ℝ} (s0 : 0 ≤ s) (s1 : s ≤ 1) (hh : 0 < h) (hv0 : |v0| ≤ A) (hv1 : |v1| ≤ A) (he0 : |e0| ≤ B)
    (he1 : |e1| ≤ B) : |cs h v0 e0 v1 e1 s| ≤ 3 / h * A + B := by
  have e : cs h v0 e0 v1 e1 s = 6 * (s * (1 - s)) / h * (v1 - v0) + ((1 - s) * (1 - 3 * s) * e0 + s * (3 * s - 2) * e1) := by
    simp only [cs, basis', B0', B1', B2', B3', sqr, T1_four]
    field_simp
    ring
  have B0 : 0 ≤ B := (abs_nonneg _).trans he0
  have A0 : 0 ≤ A := (abs_nonneg _).trans hv0
  have r : 0 ≤ 1 - s := by linarith
  have u : s * (1 - s) ≤ 1 / 4 := by nlinarith [sq_nonneg (s - 1 / 2)]
  have l : 0 ≤ s * (1 - s) := mul_nonneg s0 r
  have p1 : |6 * (s * (1 - s)) / h * (v1 - v0)| ≤ 3 / h * A := by
    rw [abs_mul, abs_of_nonneg (by positivity)]
    have : |v1 - v0| ≤ 2 * A := (abs_sub _ _).trans (by linarith)
    calc _ ≤ 6 * (1 / 4) / h * (2 * A) := by gcongr
      _ = 3 / h * A := by ring
  have p2 : |(1 - s) * (1 - 3 * s) * e0 + s * (3 * s - 2) * e1| ≤ B := by
    refine (abs_add_le _ _).trans ?_
    rw [abs_mul _ e0, abs_mul _ e1]
    have : |(1 - s) * (1 - 3 * s)| + |s * (3 * s - 2)| ≤ 1 := by
      rcases abs_cases ((1 - s) * (1 - 3 * s)) with ⟨h1, _⟩ | ⟨h1, _⟩ <;> rcases abs_cases (s * (3 * s - 2)) with ⟨h2, _⟩ | ⟨h2, _⟩ <;>
        rw [h1, h2] <;> nlinarith
    calc _ ≤ |(1 - s) * (1 - 3 * s)| * B + |s * (3 * s - 2)| * B := by gcongr
      _ = (|(1 - s) * (1 - 3 * s)| + |s * (3 * s - 2)|) * B := by ring
      _ ≤ 1 * B := by gcongr
      _ = B := one_mul B
  rw [e]
  exact (abs_add_le _ _).trans (add_le_add p1 p2)

theorem spv_sub (h : ℝ) (f g p q : ℤ → ℝ) (y : ℝ) : spv h (fun c => f c - p c) (fun c => g c - q c) y = spv h f g y - spv h p q y := by
  unfold spv cv
  rw [T1_sub]

theorem sps_sub (h : ℝ) (f g p q : ℤ → ℝ) (y : ℝ) : sps h (fun c => f c - p c) (fun c => g c - q c) y = sps h f g y - sps h p q y := by
  unfold sps cs
  rw [← sub_mul, T1_sub]

/-- Energies that grow by a small amount in each step and pay for `X`. -/
theorem energy_sum {K : ℕ} {R : ℝ} (E T X : ℕ → ℝ) (hX : ∀ j, 0 ≤ X j) (hE0 : E 0 ≤ 0) (h1 : ∀ j, j < K → T j + X j ≤ E j)
    (h2 : ∀ j, j < K → E (j + 1) ≤ (1 + 1 / ((j : ℝ) + 1)) * T j + (1 + ((j : ℝ) + 1)) * R) :
    ∀ j, j ≤ K → E j + ∑ l ∈ Finset.range j, X l ≤ j * (j + 1) * R := by
  intro j
  induction j with
  | zero => intro _; simpa using hE0
  | succ j ih =>
    intro hj
    have i1 := ih (by omega)
    have i2 := h1 j (by omega)
    have i3 := h2 j (by omega)
    rw [Finset.sum_range_succ]
    have s0 : 0 ≤ ∑ l ∈ Finset.range j, X l := Finset.sum_nonneg fun l _ => hX l
    have x0 := hX j
    have j0 : (0 : ℝ) < (j : ℝ) + 1 := by positivity
    have d : 1 / ((j : ℝ) + 1) * T j ≤ j * R := by
      rw [one_div, inv_mul_le_iff₀ j0]
      linarith
    push_cast
    nlinarith

/-- Sums of few small terms. -/
theorem abs_sum_le_of {n : ℕ} {B C : ℝ} (hC : 0 < C) (δ : ℕ → ℝ) (h : C * ∑ l ∈ Finset.range n, δ l ^ 2 ≤ n * B ^ 2) :
    C * (∑ l ∈ Finset.range n, δ l) ^ 2 ≤ (n * B) ^ 2 := by
  have sq := sq_sum_le_card_mul_sum_sq (s := Finset.range n) (f := δ)
  rw [Finset.card_range] at sq
  have n0 : (0 : ℝ) ≤ n := by positivity
  calc C * (∑ l ∈ Finset.range n, δ l) ^ 2 ≤ C * (n * ∑ l ∈ Finset.range n, δ l ^ 2) := by gcongr
    _ = n * (C * ∑ l ∈ Finset.range n, δ l ^ 2) := by ring
    _ ≤ n * (n * B ^ 2) := by gcongr
    _ = _ := by ring

set_option maxHeartbeats 600000 in
/-- A smooth function carried by `K + 1` resamplings. -/
theorem carried4 {h t M x : ℝ} (hh : 0 < h) (t0 : 0 ≤ t) (t1 : t < 1) {u u' : ℝ → ℝ} (f g : ℕ → ℤ → ℝ) (i b : ℤ) (K : ℕ)
    (hu' : ∀ y, HasDerivAt u (u' y) y) (hu : Quartic u (x + (i + (K + 1) * b) * h) (x + (i + (K + 1) * b + (K + 1)) * h) M)
    (hf0 : ∀ c : ℤ, i + (K + 1) * b ≤ c → c ≤ i + (K + 1) * b + (K + 1) → f 0 c = u (x + c * h))
    (hg0 : ∀ c : ℤ, i + (K + 1) * b ≤ c → c ≤ i + (K + 1) * b + (K + 1) → g 0 c = u' (x + c * h))
    (hf : ∀ j m : ℕ, j + m = K → ∀ c, i + m * b ≤ c → c ≤ i + m * b + m →
      f (j + 1) c = cv h (f j (c + b)) (g j (c + b)) (f j (c + b + 1)) (g j (c + b + 1)) t)
    (hg : ∀ j m : ℕ, j + m = K → ∀ c, i + m * b ≤ c → c ≤ i + m * b + m →
      g (j + 1) c = cs h (f j (c + b)) (g j (c + b)) (f j (c + b + 1)) (g j (c + b + 1)) t) :
    27 * |f (K + 1) i - u (x + (i + (K + 1) * (b + t)) * h)| ≤ (K + 1) ^ 2 * M * h ^ 4 ∧
    4 * |g (K + 1) i - u' (x + (i + (K + 1) * (b + t)) * h)| ≤ (K + 1) ^ 2 * M * h ^ 3 := by
  have h3 : 0 < 192 / h ^ 3 := by positivity
  have M0 : 0 ≤ M := (abs_nonneg _).trans (hu.bound _ (Set.left_mem_Icc.2 (by nlinarith [(by positivity : (0 : ℝ) < K + 1)])))
  set Y : ℕ → ℝ := fun j => i + (K + 1 - j) * (b + t) with hY
  -- the exact values, the errors, the errors of one step and the errors carried by one step
  set P : ℕ → ℤ → ℝ := fun j c => u (x + (c + j * (b + t)) * h) with hP
  set Q : ℕ → ℤ → ℝ := fun j c => u' (x + (c + j * (b + t)) * h) with hQ
  set df : ℕ → ℤ → ℝ := fun j c => f j c - P j c with hdf
  set dg : ℕ → ℤ → ℝ := fun j c => g j c - Q j c with hdg
  set rf : ℕ → ℤ → ℝ := fun j c => cv h (P j (c + b)) (Q j (c + b)) (P j (c + b + 1)) (Q j (c + b + 1)) t - P (j + 1) c with hrf
  set rg : ℕ → ℤ → ℝ := fun j c => cs h (P j (c + b)) (Q j (c + b)) (P j (c + b + 1)) (Q j (c + b + 1)) t - Q (j + 1) c with hrg
  set tf : ℕ → ℤ → ℝ := fun j c => df (j + 1) c - rf j c with htf
  set tg : ℕ → ℤ → ℝ := fun j c => dg (j + 1) c - rg j c with htg
  have ctf : ∀ j m : ℕ, j + m = K → ∀ c, i + m * b ≤ c → c ≤ i + m * b + m →
      tf j c = cv h (df j (c + b)) (dg j (c + b)) (df j (c + b + 1)) (dg j (c + b + 1)) t := by
    intro j m hm c c0 c1
    simp only [htf, hdf, hrf, hdg]
    rw [hf j m hm c c0 c1]
    unfold cv
    rw [← T1_sub]
    ring
  have ctg : ∀ j m : ℕ, j + m = K → ∀ c, i + m * b ≤ c → c ≤ i + m * b + m →
      tg j c = cs h (df j (c + b)) (dg j (c + b)) (df j (c + b + 1)) (dg j (c + b + 1)) t := by
    intro j m hm c c0 c1
    simp only [htg, hdf, hrg, hdg]
    rw [hg j m hm c c0 c1]
    unfold cs
    rw [← T1_sub]
    ring
  -- positions
  have pos : ∀ (j : ℕ) (c : ℤ), x + (((c + 1 : ℤ) : ℝ) + j * (b + t)) * h = x + (c + j * (b + t)) * h + h := by
    intro j c; push_cast; ring
  have pos' : ∀ (j : ℕ) (c : ℤ), x + ((c : ℝ) + ((j + 1 : ℕ) : ℝ) * (b + t)) * h = x + (((c + b : ℤ) : ℝ) + j * (b + t)) * h + t * h := by
    intro j c; push_cast; ring
  have inside : ∀ j m : ℕ, j + m = K → ∀ c : ℤ, i + m * b ≤ c → ∀ n : ℕ, c + n ≤ i + m * b + (m + 1) →
      Quartic u (x + (((c + b : ℤ) : ℝ) + j * (b + t)) * h) (x + (((c + b : ℤ) : ℝ) + j * (b + t)) * h + n * h) M := by
    intro j m hm c c0 n c1
    refine ⟨hu.smooth, fun y hy => hu.bound y ⟨le_trans ?_ hy.1, le_trans hy.2 ?_⟩⟩
    · have q : (i : ℝ) + m * b ≤ c := by exact_mod_cast c0
      have e : (K : ℝ) = j + m := by rw [← hm]; push_cast; rfl
      have : (0 : ℝ) ≤ j * t := by positivity
      push_cast
      rw [e]
      nlinarith
    · have q : (c : ℝ) + n ≤ i + m * b + (m + 1) := by exact_mod_cast c1
      have e : (K : ℝ) = j + m := by rw [← hm]; push_cast; rfl
      have : (0 : ℝ) ≤ j * (1 - t) := mul_nonneg (by positivity) (by linarith)
      push_cast
      rw [e]
      nlinarith
  have small : ∀ j m : ℕ, j + m = K → ∀ c, i + m * b ≤ c → c ≤ i + m * b + m → |rf j c| ≤ M * h ^ 4 / 384 ∧ |rg j c| ≤ M * h ^ 3 / 24 := by
    intro j m hm c c0 c1
    have q := inside j m hm c c0 1 (by push_cast; omega)
    rw [Nat.cast_one, one_mul] at q
    have := error1 hh q hu' t0 t1.le
    simp only [hrf, hrg, hP, hQ, pos, pos']
    exact this
  have smallE : ∀ j m : ℕ, j + m = K → ∀ c, i + m * b ≤ c → c + 1 ≤ i + m * b + m → ec h (rf j) (rg j) c ≤ (M / 2 * h ^ 2) ^ 2 * h := by
    intro j m hm c c0 c1
    have q := inside j m hm c c0 2 (by push_cast; omega)
    rw [Nat.cast_ofNat, two_mul, ← add_assoc] at q
    have := resid_energy hh t0 t1 hu' q
    unfold ec
    simp only [hrf, hrg, hP, hQ, add_right_comm c 1 b, pos, pos']
    exact this
  -- energies
  set E : ℕ → ℝ := fun j => ∑ c ∈ Finset.range (K - j + 1), ec h (df j) (dg j) (i + (K - j : ℕ) * b + b + c) with hE
  set T : ℕ → ℝ := fun j => ∑ c ∈ Finset.range (K - j), ec h (tf j) (tg j) (i + (K - j : ℕ) * b + c) with hT
  set R : ℝ := K * ((M / 2 * h ^ 2) ^ 2 * h) with hR
  have d0 : ∀ c : ℤ, i + (K + 1) * b ≤ c → c ≤ i + (K + 1) * b + (K + 1) → df 0 c = 0 ∧ dg 0 c = 0 := by
    intro c c0 c1
    have : x + ((c : ℝ) + ((0 : ℕ) : ℝ) * (b + t)) * h = x + c * h := by push_cast; ring
    simp only [hdf, hdg, hP, hQ]
    rw [hf0 c c0 c1, hg0 c c0 c1, this]
    simp
  have E0 : E 0 ≤ 0 := by
    simp only [hE]
    refine Finset.sum_nonpos fun c hc => ?_
    have c1 := Finset.mem_range.1 hc
    have e : ((K - 0 : ℕ) : ℤ) = K := by simp
    rw [e]
    have lo : i + (K + 1) * b ≤ i + K * b + b + c := by linarith [(by positivity : (0 : ℤ) ≤ c)]
    have hi : i + K * b + b + (c : ℤ) + 1 ≤ i + (K + 1) * b + (K + 1) := by
      have : (c : ℤ) + 1 ≤ K + 1 := by omega
      linarith
    obtain ⟨a1, a2⟩ := d0 _ lo (by linarith)
    obtain ⟨a3, a4⟩ := d0 (i + K * b + b + c + 1) (by linarith) hi
    unfold ec
    rw [a1, a2, a3, a4]
    unfold en
    norm_num
  have yb : ∀ j, j < K → ((i + (K - j : ℕ) * b : ℤ) : ℝ) ≤ Y (j + 1) ∧ Y (j + 1) < ((i + (K - j : ℕ) * b : ℤ) : ℝ) + (K - j : ℕ) := by
    intro j hj
    have e : (K : ℝ) = j + (K - j : ℕ) := by exact_mod_cast (by omega : K = j + (K - j))
    have m0 : (0 : ℝ) < (K - j : ℕ) := by exact_mod_cast (by omega : 0 < K - j)
    simp only [hY]
    generalize ((K - j : ℕ)) = m at e m0
    push_cast
    rw [e]
    constructor <;> nlinarith
  have ey : ∀ j, Y (j + 1) + (b + t) = Y j := by intro j; simp only [hY]; push_cast; ring
  have st1 : ∀ j, j < K → T j + 192 / h ^ 3 * (spv h (df j) (dg j) (Y j) - spv h (tf j) (tg j) (Y (j + 1))) ^ 2 ≤ E j := by
    intro j hj
    have := step_dev hh t0 t1 (df j) (dg j) (tf j) (tg j) (i + (K - j : ℕ) * b) b (K - j) (ctf j _ (by omega)) (ctg j _ (by omega)) (yb j hj).1 (yb j hj).2
    rw [ey] at this
    exact this
  have st1' : ∀ j, j < K → T j + 4 / h * (sps h (df j) (dg j) (Y j) - sps h (tf j) (tg j) (Y (j + 1))) ^ 2 ≤ E j := by
    intro j hj
    have := step_dev_slope hh t0 t1 (df j) (dg j) (tf j) (tg j) (i + (K - j : ℕ) * b) b (K - j) (ctf j _ (by omega)) (ctg j _ (by omega)) (yb j hj).1 (yb j hj).2
    rw [ey] at this
    exact this
  have st2 : ∀ j, j < K → E (j + 1) ≤ (1 + 1 / ((j : ℝ) + 1)) * T j + (1 + ((j : ℝ) + 1)) * R := by
    intro j hj
    have j0 : (0 : ℝ) < (j : ℝ) + 1 := by positivity
    have e1 : K - (j + 1) + 1 = K - j := by omega
    have e2 : i + ((K - (j + 1) : ℕ) : ℤ) * b + b = i + ((K - j : ℕ) : ℤ) * b := by
      have : ((K - j : ℕ) : ℤ) = (K - (j + 1) : ℕ) + 1 := by omega
      rw [this]
      ring
    simp only [hE, hT]
    rw [e1, e2]
    have term : ∀ c ∈ Finset.range (K - j), ec h (df (j + 1)) (dg (j + 1)) (i + (K - j : ℕ) * b + c) ≤
        (1 + 1 / ((j : ℝ) + 1)) * ec h (tf j) (tg j) (i + (K - j : ℕ) * b + c) + (1 + ((j : ℝ) + 1)) * ((M / 2 * h ^ 2) ^ 2 * h) := by
      intro c hc
      have c1 := Finset.mem_range.1 hc
      have s := smallE j (K - j) (by omega) (i + (K - j : ℕ) * b + c) (by linarith [(by positivity : (0 : ℤ) ≤ c)])
        (by have : (c : ℤ) + 1 ≤ (K - j : ℕ) := by omega
            linarith)
      generalize i + ((K - j : ℕ) : ℤ) * b + c = z at s
      have a := en_add_le hh j0 (tf j z) (tg j z) (tf j (z + 1)) (tg j (z + 1)) (rf j z) (rg j z) (rf j (z + 1)) (rg j (z + 1))
      have q1 : ∀ z, tf j z + rf j z = df (j + 1) z := fun z => sub_add_cancel _ _
      have q2 : ∀ z, tg j z + rg j z = dg (j + 1) z := fun z => sub_add_cancel _ _
      rw [q1, q1, q2, q2] at a
      unfold ec at s ⊢
      refine a.trans ?_
      gcongr
    refine (Finset.sum_le_sum term).trans ?_
    rw [Finset.sum_add_distrib, ← Finset.mul_sum, Finset.sum_const, Finset.card_range, nsmul_eq_mul]
    have : ((K - j : ℕ) : ℝ) * ((1 + ((j : ℝ) + 1)) * ((M / 2 * h ^ 2) ^ 2 * h)) ≤ (1 + ((j : ℝ) + 1)) * R := by
      rw [hR]
      have kj : ((K - j : ℕ) : ℝ) ≤ K := by exact_mod_cast Nat.sub_le K j
      calc _ = (1 + ((j : ℝ) + 1)) * (((K - j : ℕ) : ℝ) * ((M / 2 * h ^ 2) ^ 2 * h)) := by ring
        _ ≤ _ := by gcongr
    linarith
  have En : 0 ≤ E K := Finset.sum_nonneg fun _ _ => ec_nonneg hh _ _ _
  have sum1 := energy_sum E T _ (fun j => by positivity) E0 st1 st2 K le_rfl
  have sum2 := energy_sum E T _ (fun j => by positivity) E0 st1' st2 K le_rfl
  rw [← Finset.mul_sum] at sum1 sum2
  set δ : ℕ → ℝ := fun j => spv h (df j) (dg j) (Y j) - spv h (tf j) (tg j) (Y (j + 1)) with hδ
  set ε : ℕ → ℝ := fun j => sps h (df j) (dg j) (Y j) - sps h (tf j) (tg j) (Y (j + 1)) with hε
  have k0 : (0 : ℝ) ≤ K := by positivity
  have sq1 : 192 * ∑ l ∈ Finset.range K, δ l ^ 2 ≤ K * ((K + 1) * M * h ^ 4 / 2) ^ 2 := by
    have : 192 / h ^ 3 * ∑ l ∈ Finset.range K, δ l ^ 2 ≤ K * (K + 1) * R := by linarith
    rw [div_mul_eq_mul_div, div_le_iff₀ (by positivity)] at this
    refine this.trans ?_
    rw [hR]
    have q : 0 ≤ (K : ℝ) * (M ^ 2 * h ^ 8) * (K + 1) := by positivity
    linarith
  have sq2 : 4 * ∑ l ∈ Finset.range K, ε l ^ 2 ≤ K * ((K + 1) * M * h ^ 3 / 2) ^ 2 := by
    have : 4 / h * ∑ l ∈ Finset.range K, ε l ^ 2 ≤ K * (K + 1) * R := by linarith
    rw [div_mul_eq_mul_div, div_le_iff₀ (by positivity)] at this
    refine this.trans ?_
    rw [hR]
    have q : 0 ≤ (K : ℝ) * (M ^ 2 * h ^ 6) * (K + 1) := by positivity
    linarith
  have b1 : 27 * |∑ l ∈ Finset.range K, δ l| ≤ K * (K + 1) * (M * h ^ 4) := by
    have := abs_sum_le_of (by norm_num) δ sq1
    generalize ∑ l ∈ Finset.range K, δ l = z at this
    have B0 : 0 ≤ (K : ℝ) * (K + 1) * (M * h ^ 4) := by positivity
    refine abs_le_of_sq_le_sq' ?_ B0 |>.2
    rw [mul_pow, sq_abs]
    nlinarith [sq_nonneg z]
  have b2 : 4 * |∑ l ∈ Finset.range K, ε l| ≤ K * (K + 1) * (M * h ^ 3) := by
    have := abs_sum_le_of (by norm_num) ε sq2
    generalize ∑ l ∈ Finset.range K, ε l = z at this
    have B0 : 0 ≤ (K : ℝ) * (K + 1) * (M * h ^ 3) := by positivity
    refine abs_le_of_sq_le_sq' ?_ B0 |>.2
    rw [mul_pow, sq_abs]
    nlinarith [sq_nonneg z]
  -- the errors of the single steps
  have near : ∀ l, l < K → |spv h (rf l) (rg l) (Y (l + 1))| ≤ 5 / 384 * (M * h ^ 4) ∧ |sps h (rf l) (rg l) (Y (l + 1))| ≤ 19 / 384 * (M * h ^ 3) := by
    intro l hl
    obtain ⟨y0, y1⟩ := yb l hl
    have c0 := Int.le_floor.2 y0
    have c1 : ⌊Y (l + 1)⌋ < i + (K - l : ℕ) * b + (K - l : ℕ) := Int.floor_lt.2 (by push_cast at y1 ⊢; exact y1)
    obtain ⟨a1, a2⟩ := small l (K - l) (by omega) ⌊Y (l + 1)⌋ c0 c1.le
    obtain ⟨a3, a4⟩ := small l (K - l) (by omega) (⌊Y (l + 1)⌋ + 1) (by linarith) (by linarith)
    have r0 := Int.fract_nonneg (Y (l + 1))
    have r1 := (Int.fract_lt_one (Y (l + 1))).le
    constructor
    · refine (T1_le r0 r1 hh a1 a3 a2 a4).trans (le_of_eq ?_)
      ring
    · refine (cs_le r0 r1 hh a1 a3 a2 a4).trans (le_of_eq ?_)
      field_simp
      ring
  have start : spv h (df 0) (dg 0) (Y 0) = 0 ∧ sps h (df 0) (dg 0) (Y 0) = 0 := by
    have k1 : (0 : ℝ) < K + 1 := by positivity
    have y0 : ((i + (K + 1) * b : ℤ) : ℝ) ≤ Y 0 := by simp only [hY]; push_cast; nlinarith
    have y1 : Y 0 < ((i + (K + 1) * b : ℤ) : ℝ) + (K + 1) := by simp only [hY]; push_cast; nlinarith
    have c0 := Int.le_floor.2 y0
    have c1 : ⌊Y 0⌋ < i + (K + 1) * b + (K + 1) := Int.floor_lt.2 (by push_cast at y1 ⊢; exact y1)
    obtain ⟨a1, a2⟩ := d0 ⌊Y 0⌋ c0 c1.le
    obtain ⟨a3, a4⟩ := d0 (⌊Y 0⌋ + 1) (by linarith) (by linarith)
    unfold spv sps
    rw [a1, a2, a3, a4]
    simp [cv, cs, T1, basis, basis']
  have tele1 : ∀ j, spv h (df j) (dg j) (Y j) = ∑ l ∈ Finset.range j, spv h (rf l) (rg l) (Y (l + 1)) - ∑ l ∈ Finset.range j, δ l := by
    intro j
    induction j with
    | zero => simp [start.1]
    | succ j ih =>
      rw [Finset.sum_range_succ, Finset.sum_range_succ]
      have : spv h (tf j) (tg j) (Y (j + 1)) = _ := spv_sub h (df (j + 1)) (dg (j + 1)) (rf j) (rg j) (Y (j + 1))
      have e : δ j = spv h (df j) (dg j) (Y j) - spv h (tf j) (tg j) (Y (j + 1)) := rfl
      linarith
  have tele2 : ∀ j, sps h (df j) (dg j) (Y j) = ∑ l ∈ Finset.range j, sps h (rf l) (rg l) (Y (l + 1)) - ∑ l ∈ Finset.range j, ε l := by
    intro j
    induction j with
    | zero => simp [start.2]
    | succ j ih =>
      rw [Finset.sum_range_succ, Finset.sum_range_succ]
      have : sps h (tf j) (tg j) (Y (j + 1)) = _ := sps_sub h (df (j + 1)) (dg (j + 1)) (rf j) (rg j) (Y (j + 1))
      have e : ε j = sps h (df j) (dg j) (Y j) - sps h (tf j) (tg j) (Y (j + 1)) := rfl
      linarith
  have n1 : |∑ l ∈ Finset.range K, spv h (rf l) (rg l) (Y (l + 1))| ≤ K * (5 / 384 * (M * h ^ 4)) := by
    refine (Finset.abs_sum_le_sum_abs _ _).trans ((Finset.sum_le_sum fun l hl => (near l (Finset.mem_range.1 hl)).1).trans (le_of_eq ?_))
    rw [Finset.sum_const, Finset.card_range, nsmul_eq_mul]
  have n2 : |∑ l ∈ Finset.range K, sps h (rf l) (rg l) (Y (l + 1))| ≤ K * (19 / 384 * (M * h ^ 3)) := by
    refine (Finset.abs_sum_le_sum_abs _ _).trans ((Finset.sum_le_sum fun l hl => (near l (Finset.mem_range.1 hl)).2).trans (le_of_eq ?_))
    rw [Finset.sum_const, Finset.card_range, nsmul_eq_mul]
  have eY : Y K = ((i + b : ℤ) : ℝ) + t := by simp only [hY]; push_cast; ring
  obtain ⟨l1, l2⟩ := small K 0 (by omega) i (by simp) (by simp)
  have ex : x + ((i : ℝ) + ((K + 1 : ℕ) : ℝ) * (b + t)) * h = x + (i + (K + 1) * (b + t)) * h := by push_cast; ring
  have X4 : 0 ≤ M * h ^ 4 := by positivity
  have X3 : 0 ≤ M * h ^ 3 := by positivity
  constructor
  · have fin : f (K + 1) i - u (x + (i + (K + 1) * (b + t)) * h) = spv h (df K) (dg K) (Y K) + rf K i := by
      rw [eY, spv_at _ _ _ t0 t1, ← ctf K 0 (by omega) i (by simp) (by simp), ← ex]
      simp only [htf, hdf, hP]
      ring
    rw [fin, tele1]
    have : |∑ l ∈ Finset.range K, spv h (rf l) (rg l) (Y (l + 1)) - ∑ l ∈ Finset.range K, δ l + rf K i| ≤
        K * (5 / 384 * (M * h ^ 4)) + |∑ l ∈ Finset.range K, δ l| + M * h ^ 4 / 384 :=
      (abs_add_le _ _).trans (add_le_add ((abs_sub _ _).trans (add_le_add n1 le_rfl)) l1)
    have q : 0 ≤ K * (M * h ^ 4) := by positivity
    linarith
  · have fin : g (K + 1) i - u' (x + (i + (K + 1) * (b + t)) * h) = sps h (df K) (dg K) (Y K) + rg K i := by
      rw [eY, sps_at _ _ _ t0 t1, ← ctg K 0 (by omega) i (by simp) (by simp), ← ex]
      simp only [htg, hdg, hQ]
      ring
    rw [fin, tele2]
    have : |∑ l ∈ Finset.range K, sps h (rf l) (rg l) (Y (l + 1)) - ∑ l ∈ Finset.range K, ε l + rg K i| ≤
        K * (19 / 384 * (M * h ^ 3)) + |∑ l ∈ Finset.range K, ε l| + M * h ^ 3 / 24 :=
      (abs_add_le _ _).trans (add_le_add ((abs_sub _ _).trans (add_le_add n2 le_rfl)) l2)
    have q : 0 ≤ K * (M * h ^ 3) := by positivity
    linarith

end Gals
