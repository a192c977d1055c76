import Verif.Lemmas.Inflow
import Mathlib.Algebra.Order.BigOperators.Ring.Finset

/-!
# Energy of a spline with a node at the inflow that keeps its data, with a new error in each step
-/

namespace Gals

/-- The energy of a sum of splines, as a norm. -/
theorem ec_minkowski {h P Q : ℝ} (hh : 0 < h) (P0 : 0 ≤ P) (Q0 : 0 ≤ Q) (f g d e : ℤ → ℝ) (b : ℤ) (m : ℕ)
    (h1 : ∑ i ∈ Finset.range m, ec h f g (b + i) ≤ P ^ 2 * h) (h2 : ∑ i ∈ Finset.range m, ec h d e (b + i) ≤ Q ^ 2 * h) :
    ∑ i ∈ Finset.range m, ec h (fun z => f z + d z) (fun z => g z + e z) (b + i) ≤ (P + Q) ^ 2 * h := by
  set p : ℕ → ℝ := fun i => √(ec h f g (b + i) / h) with hp
  set q : ℕ → ℝ := fun i => √(ec h d e (b + i) / h) with hq
  have p2 : ∀ i, p i ^ 2 * h = ec h f g (b + i) := fun i => by
    rw [hp]
    simp only
    rw [Real.sq_sqrt (div_nonneg (show 0 ≤ ec h f g (b + i) from en_nonneg hh _ _ _ _) hh.le)]
    field_simp
  have q2 : ∀ i, q i ^ 2 * h = ec h d e (b + i) := fun i => by
    rw [hq]
    simp only
    rw [Real.sq_sqrt (div_nonneg (show 0 ≤ ec h d e (b + i) from en_nonneg hh _ _ _ _) hh.le)]
    field_simp
  have each : ∀ i : ℕ, ec h (fun z => f z + d z) (fun z => g z + e z) (b + i) ≤ (p i + q i) ^ 2 * h := fun i =>
    en_minkowski hh (Real.sqrt_nonneg _) (Real.sqrt_nonneg _) (p2 i).ge (q2 i).ge
  refine (Finset.sum_le_sum fun i _ => each i).trans ?_
  rw [← Finset.sum_mul]
  refine mul_le_mul_of_nonneg_right ?_ hh.le
  have s1 : ∑ i ∈ Finset.range m, p i ^ 2 ≤ P ^ 2 := by
    refine le_of_mul_le_mul_right ?_ hh
    rw [Finset.sum_mul]
    simp only [p2]
    exact h1
  have s2 : ∑ i ∈ Finset.range m, q i ^ 2 ≤ Q ^ 2 := by
    refine le_of_mul_le_mul_right ?_ hh
    rw [Finset.sum_mul]
    simp only [q2]
    exact h2
  have s3 : ∑ i ∈ Finset.range m, p i * q i ≤ P * Q := by
    refine (abs_le_of_sq_le_sq' ?_ (mul_nonneg P0 Q0)).2
    refine (Finset.sum_mul_sq_le_sq_mul_sq _ _ _).trans ?_
    rw [mul_pow]
    exact mul_le_mul s1 s2 (Finset.sum_nonneg fun i _ => sq_nonneg _) (sq_nonneg _)
  have s4 : ∑ i ∈ Finset.range m, (p i + q i) ^ 2 = ∑ i ∈ Finset.range m, p i ^ 2 + 2 * ∑ i ∈ Finset.range m, p i * q i +
      ∑ i ∈ Finset.range m, q i ^ 2 := by
    rw [Finset.mul_sum, ← Finset.sum_add_distrib, ← Finset.sum_add_distrib]
    exact Finset.sum_congr rfl fun i _ => by ring
  rw [s4]
  linarith

/-- A step of a line whose first node keeps its data, with errors. -/
theorem inflow_near_step {h t X δ ρ σ : ℝ} (hh : 0 < h) (t0 : 0 < t) (t1 : t < 1) (X0 : 0 ≤ X) (δ0 : 0 ≤ δ) (ρ0 : 0 ≤ ρ) (σ0 : 0 ≤ σ)
    (f g f' g' : ℤ → ℝ) (b : ℤ) (m : ℕ) (hf : f' b = f b) (hg : g' b = g b) (hδ : 12 * (g b * (1 - t)) ^ 2 ≤ (δ * h) ^ 2)
    (st : ∀ i : ℕ, i ≤ m → |f' (b + i + 1) - cv h (f (b + i)) (g (b + i)) (f (b + i + 1)) (g (b + i + 1)) t| ≤ ρ ∧
      |g' (b + i + 1) - cs h (f (b + i)) (g (b + i)) (f (b + i + 1)) (g (b + i + 1)) t| ≤ σ)
    (hE : ∑ i ∈ Finset.range (m + 1), ec h f g (b + i) ≤ X ^ 2 * h) :
    ∑ i ∈ Finset.range (m + 1), ec h f' g' (b + i) ≤ (X + δ + √(m + 1) * (4 * (σ + 2 * ρ / h) / h)) ^ 2 * h := by
  set F : ℤ → ℝ := fun z => if z = b then f b else cv h (f (z - 1)) (g (z - 1)) (f z) (g z) t with hF
  set G : ℤ → ℝ := fun z => if z = b then g b else cs h (f (z - 1)) (g (z - 1)) (f z) (g z) t with hG
  have Fb : F b = f b := if_pos rfl
  have Gb : G b = g b := if_pos rfl
  have ne : ∀ i : ℕ, b + i + 1 ≠ b := fun i => by omega
  have FG : ∀ i : ℕ, F (b + i + 1) = cv h (f (b + i)) (g (b + i)) (f (b + i + 1)) (g (b + i + 1)) t ∧
      G (b + i + 1) = cs h (f (b + i)) (g (b + i)) (f (b + i + 1)) (g (b + i + 1)) t := fun i => by
    simp only [hF, hG, if_neg (ne i), add_sub_cancel_right, and_self]
  have one := inflow_step hh t0 t1 X0 δ0 f g F G b m Fb Gb hδ (fun i _ => FG i) hE
  have small : ∀ i : ℕ, i ≤ m + 1 → |f' (b + i) - F (b + i)| ≤ ρ ∧ |g' (b + i) - G (b + i)| ≤ σ := by
    intro i im
    rcases Nat.eq_zero_or_pos i with rfl | i0
    · simp only [Nat.cast_zero, add_zero, Fb, Gb, hf, hg, sub_self, abs_zero]
      exact ⟨ρ0, σ0⟩
    · obtain ⟨j, rfl⟩ : ∃ j, i = j + 1 := ⟨i - 1, by omega⟩
      have := st j (by omega)
      rw [← (FG j).1, ← (FG j).2] at this
      push_cast
      rw [← add_assoc]
      exact this
  set W := 4 * (σ + 2 * ρ / h) / h with hW
  have W0 : 0 ≤ W := by positivity
  have two : ∑ i ∈ Finset.range (m + 1), ec h (fun z => f' z - F z) (fun z => g' z - G z) (b + i) ≤ (√(m + 1) * W) ^ 2 * h := by
    have : ∀ i ∈ Finset.range (m + 1), ec h (fun z => f' z - F z) (fun z => g' z - G z) (b + i) ≤ W ^ 2 * h := by
      intro i hi
      have hi := Finset.mem_range.1 hi
      obtain ⟨a1, a2⟩ := small i (by omega)
      obtain ⟨a3, a4⟩ := small (i + 1) (by omega)
      push_cast at a3 a4
      rw [← add_assoc] at a3 a4
      exact en_small hh a1 a2 a3 a4
    refine (Finset.sum_le_sum this).trans (le_of_eq ?_)
    rw [Finset.sum_const, Finset.card_range, nsmul_eq_mul, mul_pow, Real.sq_sqrt (by positivity)]
    push_cast
    ring
  have := ec_minkowski hh (by positivity) (by positivity) F G _ _ b (m + 1) one two
  simpa only [add_sub_cancel] using this

/-- What bounded energy means for the size of the data. -/
theorem inflow_size {h Y : ℝ} (hh : 0 < h) (Y0 : 0 ≤ Y) (f g : ℤ → ℝ) (b : ℤ) (m : ℕ)
    (hE : ∑ i ∈ Finset.range (m + 1), ec h f g (b + i) ≤ Y ^ 2 * h) (i : ℕ) (im : i ≤ m + 1) :
    |f (b + i)| ≤ |f b| + (m + 1) * h * |g b| + 2 * (m + 1) * √(m + 1) * h ^ 2 * Y ∧
    |g (b + i)| * h ≤ |f b| + (m + 1) * h * |g b| + 2 * (m + 1) * √(m + 1) * h ^ 2 * Y := by
  obtain ⟨a1, a2⟩ := inflow_bound hh Y0 f g b (m + 1) hE i im
  have i1 : (i : ℝ) ≤ m + 1 := by exact_mod_cast im
  have s1 : √(i : ℝ) ≤ √((m : ℝ) + 1) := Real.sqrt_le_sqrt i1
  have m0 : (0 : ℝ) ≤ m := Nat.cast_nonneg m
  have s2 : 0 ≤ √((m : ℝ) + 1) := Real.sqrt_nonneg _
  constructor
  · have b1 : 2 * (i : ℝ) * √i * h ^ 2 * Y ≤ 2 * (m + 1) * √(m + 1) * h ^ 2 * Y := by gcongr
    have b2 : |f b + g b * (i * h)| ≤ |f b| + (m + 1) * h * |g b| := by
      refine (abs_add_le _ _).trans ?_
      rw [abs_mul, abs_of_nonneg (show 0 ≤ (i : ℝ) * h by positivity)]
      have : (i : ℝ) * h * |g b| ≤ (m + 1) * h * |g b| := by gcongr
      linarith
    have := abs_sub_abs_le_abs_sub (f (b + i)) (f b + g b * (i * h))
    linarith
  · have b1 : √(i : ℝ) * h * Y * h ≤ 2 * (m + 1) * √(m + 1) * h ^ 2 * Y := by
      have k1 : √(i : ℝ) * h * Y * h ≤ √(m + 1) * h * Y * h := by gcongr
      have k2 : 0 ≤ √((m : ℝ) + 1) * h * Y * h := by positivity
      have k3 := mul_nonneg m0 k2
      nlinarith
    have b2 : |g b| * h ≤ (m + 1) * h * |g b| := by
      have := mul_nonneg m0 (mul_nonneg hh.le (abs_nonneg (g b)))
      linarith
    have := mul_le_mul_of_nonneg_right (abs_sub_abs_le_abs_sub (g (b + i)) (g b)) hh.le
    have k4 := mul_le_mul_of_nonneg_right a1 hh.le
    rw [sub_mul] at this
    linarith [abs_nonneg (f b)]

/-- Steps of a line whose first node keeps its data, with errors that are small while the data are bounded.  `P` says that a node
holds a number. -/
theorem inflow_near {h t X δ ρ M : ℝ} (hh : 0 < h) (t0 : 0 < t) (t1 : t < 1) (X0 : 0 ≤ X) (δ0 : 0 ≤ δ) (ρ0 : 0 ≤ ρ) (P : ℕ → ℤ → Prop)
    (f g : ℕ → ℤ → ℝ) (b : ℤ) (m k : ℕ) (start : ∀ i : ℕ, i ≤ m + 1 → P 0 (b + i))
    (ghost : ∀ j, j < k → P j b → P (j + 1) b ∧ f (j + 1) b = f j b ∧ g (j + 1) b = g j b)
    (hδ : 12 * (g 0 b * (1 - t)) ^ 2 ≤ (δ * h) ^ 2)
    (step : ∀ j, j < k → ∀ i : ℕ, i ≤ m → P j (b + i) → P j (b + i + 1) → |f j (b + i)| ≤ M → |g j (b + i)| * h ≤ M → |f j (b + i + 1)| ≤ M →
      |g j (b + i + 1)| * h ≤ M → P (j + 1) (b + i + 1) ∧
        |f (j + 1) (b + i + 1) - cv h (f j (b + i)) (g j (b + i)) (f j (b + i + 1)) (g j (b + i + 1)) t| ≤ ρ / 16 ∧
        |g (j + 1) (b + i + 1) - cs h (f j (b + i)) (g j (b + i)) (f j (b + i + 1)) (g j (b + i + 1)) t| * h ≤ ρ)
    (hE : ∑ i ∈ Finset.range (m + 1), ec h (f 0) (g 0) (b + i) ≤ X ^ 2 * h)
    (hM : |f 0 b| + (m + 1) * h * |g 0 b| + 2 * (m + 1) * √(m + 1) * h ^ 2 * (X + k * δ) + 9 * k * (m + 1) ^ 2 * ρ ≤ M) (j : ℕ) (jk : j ≤ k) :
    (∀ i : ℕ, i ≤ m + 1 → P j (b + i)) ∧ f j b = f 0 b ∧ g j b = g 0 b ∧
      ∑ i ∈ Finset.range (m + 1), ec h (f j) (g j) (b + i) ≤ (X + j * (δ + √(m + 1) * (9 / 2 * ρ / h ^ 2))) ^ 2 * h := by
  induction j with
  | zero => exact ⟨start, rfl, rfl, by simpa using hE⟩
  | succ j ih =>
    obtain ⟨k1, k2, k3, k4⟩ := ih (by omega)
    have s0 : 0 ≤ √((m : ℝ) + 1) := Real.sqrt_nonneg _
    have ss : √((m : ℝ) + 1) * √((m : ℝ) + 1) = m + 1 := Real.mul_self_sqrt (by positivity)
    set Y := X + j * (δ + √(m + 1) * (9 / 2 * ρ / h ^ 2)) with hY
    have Y0 : 0 ≤ Y := by positivity
    have jr : (j : ℝ) ≤ k := by exact_mod_cast (by omega : j ≤ k)
    have eY : 2 * ((m : ℝ) + 1) * √(m + 1) * h ^ 2 * Y = 2 * (m + 1) * √(m + 1) * h ^ 2 * (X + j * δ) + 9 * j * (m + 1) ^ 2 * ρ := by
      rw [hY]
      have : 2 * ((m : ℝ) + 1) * √(m + 1) * h ^ 2 * (X + j * (δ + √(m + 1) * (9 / 2 * ρ / h ^ 2))) =
          2 * (m + 1) * √(m + 1) * h ^ 2 * (X + j * δ) + 9 * j * (m + 1) * (√(m + 1) * √(m + 1)) * ρ * (h ^ 2 / h ^ 2) := by ring
      rw [this, ss, div_self (by positivity)]
      ring
    have le1 : 2 * ((m : ℝ) + 1) * √(m + 1) * h ^ 2 * (X + j * δ) ≤ 2 * (m + 1) * √(m + 1) * h ^ 2 * (X + k * δ) := by gcongr
    have le2 : 9 * (j : ℝ) * (m + 1) ^ 2 * ρ ≤ 9 * k * (m + 1) ^ 2 * ρ := by gcongr
    have size : ∀ i : ℕ, i ≤ m + 1 → |f j (b + i)| ≤ M ∧ |g j (b + i)| * h ≤ M := by
      intro i im
      obtain ⟨a1, a2⟩ := inflow_size hh Y0 (f j) (g j) b m k4 i im
      rw [k2, k3] at a1 a2
      constructor <;> linarith
    have stp : ∀ i : ℕ, i ≤ m → P (j + 1) (b + i + 1) ∧
        |f (j + 1) (b + i + 1) - cv h (f j (b + i)) (g j (b + i)) (f j (b + i + 1)) (g j (b + i + 1)) t| ≤ ρ / 16 ∧
        |g (j + 1) (b + i + 1) - cs h (f j (b + i)) (g j (b + i)) (f j (b + i + 1)) (g j (b + i + 1)) t| * h ≤ ρ := by
      intro i im
      obtain ⟨a1, a2⟩ := size i (by omega)
      obtain ⟨a3, a4⟩ := size (i + 1) (by omega)
      have p1 := k1 (i + 1) (by omega)
      push_cast at a3 a4 p1
      rw [← add_assoc] at a3 a4 p1
      exact step j (by omega) i im (k1 i (by omega)) p1 a1 a2 a3 a4
    obtain ⟨g1, g2, g3⟩ := ghost j (by omega) (by simpa using k1 0 (by omega))
    refine ⟨fun i im => ?_, g2.trans k2, g3.trans k3, ?_⟩
    · rcases Nat.eq_zero_or_pos i with rfl | i0
      · simpa using g1
      · obtain ⟨l, rfl⟩ : ∃ l, i = l + 1 := ⟨i - 1, by omega⟩
        push_cast
        rw [← add_assoc]
        exact (stp l (by omega)).1
    · have := inflow_near_step hh t0 t1 Y0 δ0 (show 0 ≤ ρ / 16 by positivity) (show 0 ≤ ρ / h by positivity) (f j) (g j) (f (j + 1)) (g (j + 1)) b m g2 g3
        (by rw [k3]; exact hδ) (fun i im => ⟨(stp i im).2.1, by rw [le_div_iff₀ hh]; exact (stp i im).2.2⟩) k4
      refine this.trans (le_of_eq ?_)
      congr 2
      rw [hY]
      push_cast
      field_simp
      ring

end Gals
