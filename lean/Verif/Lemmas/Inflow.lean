import Verif.Lemmas.CarryNear

/-!
# Energy of a spline with a node at the inflow that keeps its data
-/

namespace Gals

/-- A clamped cubic with given data at the other end needs less energy on a longer interval. -/
theorem en_widen {p h : ℝ} (hp : 0 < p) (ph : p ≤ h) (a b : ℝ) : en h 0 0 a b ≤ en p 0 0 a b := by
  have hh : 0 < h := hp.trans_le ph
  have e : ∀ q : ℝ, 0 < q → en q 0 0 a b = 4 * (3 * a ^ 2 * (1 / q) ^ 3 - 3 * a * b * (1 / q) ^ 2 + b ^ 2 * (1 / q)) := by
    intro q hq
    unfold en
    field_simp
    ring
  rw [e h hh, e p hp]
  have xy : 1 / h ≤ 1 / p := one_div_le_one_div_of_le hp ph
  generalize 1 / h = x at *
  generalize 1 / p = y at *
  have key : 0 ≤ 3 * a ^ 2 * (x ^ 2 + x * y + y ^ 2) - 3 * a * b * (x + y) + b ^ 2 := by
    nlinarith [sq_nonneg (b - 3 / 2 * a * (x + y)), sq_nonneg (a * (x - y))]
  nlinarith [mul_nonneg (sub_nonneg.2 xy) key]

/-- The interval next to the node that keeps its data, after a step. -/
theorem en_inflow {h t v s p p' P δ : ℝ} (hh : 0 < h) (t0 : 0 < t) (t1 : t < 1) (P0 : 0 ≤ P) (δ0 : 0 ≤ δ) (hP : en (t * h) v s p p' ≤ P ^ 2 * h)
    (hδ : 12 * (s * (1 - t)) ^ 2 ≤ (δ * h) ^ 2) : en h v s p p' ≤ (P + δ) ^ 2 * h := by
  have th : 0 < t * h := mul_pos t0 hh
  have e1 : en (t * h) v s p p' = en (t * h) 0 0 (p - v - s * (t * h)) (p' - s) := by
    unfold en
    field_simp
    ring
  have e2 : en h v s p p' = en h (0 + 0) (0 + 0) (p - v - s * (t * h) + -(s * (1 - t) * h)) (p' - s + 0) := by
    unfold en
    field_simp
    ring
  have e3 : en h 0 0 (-(s * (1 - t) * h)) 0 = 12 * (s * (1 - t)) ^ 2 / h := by
    unfold en
    field_simp
    ring
  rw [e2]
  refine en_minkowski hh P0 δ0 ((en_widen th (by nlinarith) _ _).trans (e1 ▸ hP)) ?_
  rw [e3, div_le_iff₀ hh]
  calc _ ≤ _ := hδ
    _ = _ := by ring

/-- A step of a line whose first node keeps its data. -/
theorem inflow_step {h t X δ : ℝ} (hh : 0 < h) (t0 : 0 < t) (t1 : t < 1) (X0 : 0 ≤ X) (δ0 : 0 ≤ δ) (f g f' g' : ℤ → ℝ) (b : ℤ) (m : ℕ)
    (hf : f' b = f b) (hg : g' b = g b) (hδ : 12 * (g b * (1 - t)) ^ 2 ≤ (δ * h) ^ 2)
    (st : ∀ i : ℕ, i ≤ m → f' (b + i + 1) = cv h (f (b + i)) (g (b + i)) (f (b + i + 1)) (g (b + i + 1)) t ∧
      g' (b + i + 1) = cs h (f (b + i)) (g (b + i)) (f (b + i + 1)) (g (b + i + 1)) t)
    (hE : ∑ i ∈ Finset.range (m + 1), ec h f g (b + i) ≤ X ^ 2 * h) :
    ∑ i ∈ Finset.range (m + 1), ec h f' g' (b + i) ≤ (X + δ) ^ 2 * h := by
  have u0 : 0 < 1 - t := by linarith
  have u1 : 1 - t < 1 := by linarith
  have e1 : ∀ k, ec h f g k = eL h t f g k + eR h t f g k := fun k => (en_cut hh t0 t1 _ _ _ _).symm
  have hL : ∀ k, 0 ≤ eL h t f g k := fun k => en_nonneg (mul_pos t0 hh) _ _ _ _
  have hR : ∀ k, 0 ≤ eR h t f g k := fun k => en_nonneg (mul_pos u0 hh) _ _ _ _
  have e2 : ∀ i : ℕ, i < m → ec h f' g' (b + i + 1) ≤ eR h t f g (b + i) + eL h t f g (b + i + 1) := by
    intro i im
    obtain ⟨a1, a2⟩ := st i im.le
    obtain ⟨b1, b2⟩ := st (i + 1) im
    push_cast at b1 b2
    rw [← add_assoc] at b1 b2
    unfold ec eL eR
    rw [a1, a2, b1, b2]
    have := en_join hh u0 u1 (cv h (f (b + i)) (g (b + i)) (f (b + i + 1)) (g (b + i + 1)) t) (cs h (f (b + i)) (g (b + i)) (f (b + i + 1)) (g (b + i + 1)) t)
      (f (b + i + 1)) (g (b + i + 1)) (cv h (f (b + i + 1)) (g (b + i + 1)) (f (b + i + 1 + 1)) (g (b + i + 1 + 1)) t)
      (cs h (f (b + i + 1)) (g (b + i + 1)) (f (b + i + 1 + 1)) (g (b + i + 1 + 1)) t)
    rw [sub_sub_cancel] at this
    exact this
  have tele : ∀ m : ℕ, ∑ i ∈ Finset.range m, (eR h t f g (b + i) + eL h t f g (b + i + 1)) + eL h t f g b + eR h t f g (b + m) =
      ∑ i ∈ Finset.range (m + 1), (eL h t f g (b + i) + eR h t f g (b + i)) := by
    intro m
    induction m with
    | zero => simp
    | succ n ih =>
      rw [Finset.sum_range_succ, Finset.sum_range_succ _ (n + 1), ← ih]
      push_cast
      rw [add_assoc b]
      ring
  have hE' : ∑ i ∈ Finset.range m, (eR h t f g (b + i) + eL h t f g (b + i + 1)) + eL h t f g b ≤ X ^ 2 * h := by
    have := tele m
    simp only [← e1] at this
    linarith [hR (b + m)]
  set Y := ∑ i ∈ Finset.range m, (eR h t f g (b + i) + eL h t f g (b + i + 1)) with hY
  have Y0 : 0 ≤ Y := Finset.sum_nonneg fun i _ => add_nonneg (hR _) (hL _)
  obtain ⟨P, P0, hP⟩ : ∃ P : ℝ, 0 ≤ P ∧ P ^ 2 * h = eL h t f g b :=
    ⟨√(eL h t f g b / h), Real.sqrt_nonneg _, by rw [Real.sq_sqrt (div_nonneg (hL b) hh.le)]; field_simp⟩
  have PX : P ≤ X := by
    by_contra hc
    have : X ^ 2 < P ^ 2 := by nlinarith
    nlinarith
  obtain ⟨a1, a2⟩ := st 0 (by omega)
  push_cast at a1 a2
  rw [add_zero] at a1 a2
  have first : ec h f' g' b ≤ (P + δ) ^ 2 * h := by
    unfold ec
    rw [hf, hg]
    refine en_inflow hh t0 t1 P0 δ0 ?_ hδ
    rw [hP, a1, a2]
    exact le_rfl
  rw [Finset.sum_range_succ']
  have rest : ∑ i ∈ Finset.range m, ec h f' g' (b + (i + 1 : ℕ)) ≤ Y := by
    refine Finset.sum_le_sum fun i hi => ?_
    push_cast
    rw [← add_assoc]
    exact e2 i (Finset.mem_range.1 hi)
  push_cast at rest ⊢
  rw [add_zero]
  have : (P + δ) ^ 2 * h + (X ^ 2 * h - P ^ 2 * h) ≤ (X + δ) ^ 2 * h := by
    have := mul_nonneg (mul_nonneg (sub_nonneg.2 PX) δ0) hh.le
    linarith
  linarith

/-- Any number of steps of a line whose first node keeps its data. -/
theorem inflow_steps {h t X δ : ℝ} (hh : 0 < h) (t0 : 0 < t) (t1 : t < 1) (X0 : 0 ≤ X) (δ0 : 0 ≤ δ) (f g : ℕ → ℤ → ℝ) (b : ℤ) (m K : ℕ)
    (hf : ∀ j, j < K → f (j + 1) b = f j b ∧ g (j + 1) b = g j b) (hδ : 12 * (g 0 b * (1 - t)) ^ 2 ≤ (δ * h) ^ 2)
    (st : ∀ j, j < K → ∀ i : ℕ, i ≤ m → f (j + 1) (b + i + 1) = cv h (f j (b + i)) (g j (b + i)) (f j (b + i + 1)) (g j (b + i + 1)) t ∧
      g (j + 1) (b + i + 1) = cs h (f j (b + i)) (g j (b + i)) (f j (b + i + 1)) (g j (b + i + 1)) t)
    (hE : ∑ i ∈ Finset.range (m + 1), ec h (f 0) (g 0) (b + i) ≤ X ^ 2 * h) :
    f K b = f 0 b ∧ g K b = g 0 b ∧ ∑ i ∈ Finset.range (m + 1), ec h (f K) (g K) (b + i) ≤ (X + K * δ) ^ 2 * h := by
  induction K with
  | zero => simpa using hE
  | succ K ih =>
    obtain ⟨k1, k2, k3⟩ := ih (fun j hj => hf j (by omega)) (fun j hj => st j (by omega))
    obtain ⟨l1, l2⟩ := hf K (by omega)
    refine ⟨l1.trans k1, l2.trans k2, ?_⟩
    have := inflow_step hh t0 t1 (by positivity) δ0 (f K) (g K) (f (K + 1)) (g (K + 1)) b m l1 l2 (by rw [k2]; exact hδ) (st K (by omega)) k3
    refine this.trans (le_of_eq ?_)
    push_cast
    ring

/-- Cauchy's inequality, one term at a time. -/
theorem cauchy_step {n h S e A d : ℝ} (n0 : 0 ≤ n) (h0 : 0 ≤ h) (S0 : 0 ≤ S) (e0 : 0 ≤ e) (hA : A ^ 2 ≤ n * (h * S)) (hd : d ^ 2 ≤ h * e) :
    (A + d) ^ 2 ≤ (n + 1) * (h * (S + e)) := by
  have u0 : 0 ≤ h * S := mul_nonneg h0 S0
  have v0 : 0 ≤ h * e := mul_nonneg h0 e0
  have k : (2 * (A * d)) ^ 2 ≤ (n * (h * e) + h * S) ^ 2 := by
    have := mul_le_mul hA hd (sq_nonneg d) (mul_nonneg n0 u0)
    nlinarith [sq_nonneg (n * (h * e) - h * S)]
  have := (abs_le_of_sq_le_sq' k (add_nonneg (mul_nonneg n0 v0) u0)).2
  nlinarith

/-- What the energy says about the slopes and the values. -/
theorem inflow_bound {h X : ℝ} (hh : 0 < h) (X0 : 0 ≤ X) (f g : ℤ → ℝ) (b : ℤ) (m : ℕ) (hE : ∑ i ∈ Finset.range m, ec h f g (b + i) ≤ X ^ 2 * h)
    (i : ℕ) (im : i ≤ m) : |g (b + i) - g b| ≤ √i * h * X ∧ |f (b + i) - (f b + g b * (i * h))| ≤ 2 * i * √i * h ^ 2 * X := by
  have nn : ∀ j : ℕ, 0 ≤ ec h f g (b + j) := fun j => en_nonneg hh _ _ _ _
  have XH : 0 ≤ X * h := by positivity
  have part : ∀ j : ℕ, j ≤ m → ∑ i ∈ Finset.range j, ec h f g (b + i) ≤ X ^ 2 * h := fun j hj =>
    (Finset.sum_le_sum_of_subset_of_nonneg (Finset.range_mono hj) (fun i _ _ => nn i)).trans hE
  have loc : ∀ j : ℕ, (g (b + j + 1) - g (b + j)) ^ 2 ≤ h * ec h f g (b + j) ∧
      (g (b + j) - (f (b + j + 1) - f (b + j)) / h) ^ 2 ≤ h * ec h f g (b + j) := by
    intro j
    unfold ec en
    set α := g (b + j) - (f (b + j + 1) - f (b + j)) / h with hα
    set β := g (b + j + 1) - (f (b + j + 1) - f (b + j)) / h with hβ
    have e : h * (4 / h * (α ^ 2 + α * β + β ^ 2)) = 4 * (α ^ 2 + α * β + β ^ 2) := by field_simp
    have e2 : g (b + j + 1) - g (b + j) = β - α := by rw [hα, hβ]; ring
    rw [e, e2]
    constructor <;> nlinarith [sq_nonneg (α + β), sq_nonneg (α + 2 * β), sq_nonneg α]
  have sl2 : ∀ j : ℕ, (g (b + j) - g b) ^ 2 ≤ j * (h * ∑ i ∈ Finset.range j, ec h f g (b + i)) := by
    intro j
    induction j with
    | zero => simp
    | succ j ih =>
      rw [Finset.sum_range_succ]
      push_cast
      have e1 : g (b + (j + 1)) - g b = (g (b + j) - g b) + (g (b + j + 1) - g (b + j)) := by rw [← add_assoc]; ring
      rw [e1]
      exact cauchy_step (by positivity) hh.le (Finset.sum_nonneg fun i _ => nn i) (nn j) ih (loc j).1
  have sl : ∀ j : ℕ, j ≤ m → |g (b + j) - g b| ≤ √j * h * X := by
    intro j hj
    refine abs_le_of_sq_le_sq ((sl2 j).trans ?_) (by positivity)
    rw [mul_pow, mul_pow, Real.sq_sqrt (by positivity)]
    have := mul_le_mul_of_nonneg_left (mul_le_mul_of_nonneg_left (part j hj) hh.le) (Nat.cast_nonneg (α := ℝ) j)
    linarith
  refine ⟨sl i im, ?_⟩
  have val : ∀ j : ℕ, j ≤ m → |f (b + j) - (f b + g b * (j * h))| ≤ h ^ 2 * X * (j * (√j + 1)) := by
    intro j
    induction j with
    | zero => simp
    | succ j ih =>
      intro hj
      have k2 := ih (by omega)
      have k1 := sl j (by omega)
      have single : ec h f g (b + j) ≤ X ^ 2 * h :=
        (Finset.single_le_sum (f := fun i : ℕ => ec h f g (b + i)) (fun i _ => nn i) (Finset.mem_range.2 (Nat.lt_succ_self j))).trans (part (j + 1) hj)
      have d2 : |g (b + j) - (f (b + j + 1) - f (b + j)) / h| ≤ X * h :=
        abs_le_of_sq_le_sq ((loc j).2.trans ((mul_le_mul_of_nonneg_left single hh.le).trans (le_of_eq (by ring)))) XH
      set α := g (b + j) - (f (b + j + 1) - f (b + j)) / h with hα
      push_cast
      rw [← add_assoc]
      have e2 : f (b + j + 1) - (f b + g b * ((j + 1) * h)) = (f (b + j) - (f b + g b * (j * h))) + ((g (b + j) - g b) * h + -(α * h)) := by
        rw [hα]
        field_simp
        ring
      rw [e2]
      refine (abs_add_le _ _).trans ?_
      have l0 := abs_add_le ((g (b + j) - g b) * h) (-(α * h))
      rw [abs_neg, abs_mul, abs_mul, abs_of_pos hh] at l0
      have l1 := mul_le_mul_of_nonneg_right k1 hh.le
      have l2 := mul_le_mul_of_nonneg_right d2 hh.le
      have l3 : √(j : ℝ) ≤ √((j : ℝ) + 1) := Real.sqrt_le_sqrt (by linarith)
      have l4 := mul_le_mul_of_nonneg_left l3 (show 0 ≤ h ^ 2 * X * ((j : ℝ) + 1) by positivity)
      linarith
  refine (val i im).trans ?_
  rcases Nat.eq_zero_or_pos i with rfl | hi
  · simp
  · have : 1 ≤ √(i : ℝ) := Real.one_le_sqrt.2 (by exact_mod_cast hi)
    have := mul_le_mul_of_nonneg_left this (show 0 ≤ h ^ 2 * X * (i : ℝ) by positivity)
    linarith

end Gals
