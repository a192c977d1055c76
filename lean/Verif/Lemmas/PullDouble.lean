import Verif.Lemmas.SplineMove

/-!
# The transported gradient in double arithmetic
-/

set_option linter.unusedSectionVars false

namespace Gals.Props

open Gals Gals.Spec

/-- An entry of the Jacobian matrix. -/
theorem entry_double {x dt i : F64} {μ τ ι σ : ℚ} (hx : HasValue x μ) (hdt : HasValue dt τ) (hσ : Scaled σ) (hm : |μ * τ| ≤ σ)
    (hi : Apx i ι 1 0 σ) : Apx (i - x * dt) (ι - μ * τ) 2 4 σ := by
  have h1 : |μ * τ| ≤ 1 * σ := by rw [one_mul]; exact hm
  have h2 := apx_round (a := 1) (k := 0) (v := μ * τ) hσ (hasValue_mul hx hdt (hσ.big (m := 1) (by norm_num) h1)) (by simp) h1 (by norm_num)
  exact (hi.sub h2 hσ).mono hσ.pos (by norm_num) (by norm_num)

/-- A product of an entry with a component along a used axis. -/
theorem term_used {A v : F64} {α W σ S s : ℚ} (hA : Apx A α 2 4 σ) (hv : HasValue v W) (hW : |W| ≤ 38 * S) (hσ : 0 < σ) (hS : 0 < S)
    (e : σ * S = s) (hs : Scaled s) : Apx (A * v) (α * W) 76 200 s := by
  subst e
  exact (hA.mul (Apx.exact hv hW) hσ hS hs).mono hs.pos (by norm_num) (by norm_num)

/-- A product of an entry with the zero component along an unused axis. -/
theorem term_unused {i x dt : F64} {ι μ τ s : ℚ} (hi : HasValue i ι) (hi1 : |ι| ≤ 1) (hx : HasValue x μ) (hdt : HasValue dt τ)
    (hm : |μ * τ| ≤ 2 ^ 300) (hs : Scaled s) : Apx ((i - x * dt) * 0) 0 76 200 s := by
  obtain ⟨p, hp, ep⟩ := hasValue_mul hx hdt (hm.trans (pow_le_pow_right₀ (by norm_num) (by norm_num)))
  have hp2 : |p| ≤ 2 ^ 302 := by
    have u : unitRoundoff ≤ 1 := by norm_num [unitRoundoff]
    have t : tiny ≤ 1 := by unfold tiny; exact zpow_le_one_of_nonpos₀ (by norm_num) (by norm_num)
    have k1 : unitRoundoff * |μ * τ| ≤ 1 * |μ * τ| := mul_le_mul_of_nonneg_right u (abs_nonneg _)
    have k2 := abs_sub_abs_le_abs_sub p (μ * τ)
    have k3 : (2 : ℚ) ^ 302 = 2 ^ 300 * 4 := pow_add _ 300 2 |>.trans (by norm_num)
    have k4 : (1 : ℚ) ≤ 2 ^ 300 := one_le_pow₀ (by norm_num)
    rw [k3]
    clear k3
    generalize (2 : ℚ) ^ 300 = B at *
    linarith
  obtain ⟨q, hq, -⟩ := hasValue_sub hi hp (by
    have k1 := abs_sub ι p
    have k3 : (2 : ℚ) ^ 1020 = 2 ^ 302 * 2 ^ 718 := pow_add _ 302 718
    have k4 : (1 : ℚ) ≤ 2 ^ 302 := one_le_pow₀ (by norm_num)
    have k5 : (2 : ℚ) ^ 302 * 2 ≤ 2 ^ 302 * 2 ^ 718 := mul_le_mul_of_nonneg_left
      (le_self_pow₀ (by norm_num) (by norm_num)) (by positivity)
    rw [k3]
    refine le_trans ?_ k5
    clear k5 k3
    generalize (2 : ℚ) ^ 302 = B at *
    linarith)
  have hz := hasValue_mul hq hasValue_zero (by simp)
  rw [mul_zero] at hz
  exact (apx_round (a := 0) (k := 0) (v := 0) hs hz (by simp) (by simp) (by norm_num)).mono hs.pos (by norm_num) (by norm_num)

/-- The sum of three terms. -/
theorem row_double {x y z : F64} {p q t s : ℚ} (hx : Apx x p 76 200 s) (hy : Apx y q 76 200 s) (hz : Apx z t 76 200 s) (hs : Scaled s) :
    Apx (0 + x + y + z) (p + q + t) 228 1000 s := by
  have h1 := ((apx_zero s).add hx hs).add hy hs
  have h2 := (h1.add hz hs).mono hs.pos (by norm_num : _ ≤ (228 : ℚ)) (by norm_num : _ ≤ (1000 : ℚ))
  rw [zero_add] at h2
  exact h2

/-- The entries of the identity matrix. -/
theorem dot_get (m : Mat3 F64) (dt : F64) (v : Vec3 F64) (a : Fin 3) :
    ((Mat3.identity.sub (m.smul dt)).dot v).get a =
      0 + ((if (0 : Fin 3) = a then 1 else 0) - m.entry 0 a * dt) * v.get 0
        + ((if (1 : Fin 3) = a then 1 else 0) - m.entry 1 a * dt) * v.get 1
        + ((if (2 : Fin 3) = a then 1 else 0) - m.entry 2 a * dt) * v.get 2 := by
  match a with
  | 0 => rfl
  | 1 => rfl
  | 2 => rfl

/-- The three terms of a component of the transported gradient and their errors. -/
theorem pull_term {d : ℕ} {A : Fin 3 → Axis} (hw : ∀ a : Fin 3, a.val < d → Pw (A a).h (-328) 300) {M : ℚ} (hM : Pw M (-300) 300)
    {m : Mat3 F64} {dt : F64} {τ : ℚ} (hdt : HasValue dt τ) {μ : Fin 3 → Fin 3 → ℚ} {a : Fin 3} (ha : a.val < d)
    (hm : ∀ j : Fin 3, HasValue (m.entry j a) (μ j a) ∧ |μ j a * τ| ≤ 2 ^ 300 ∧ (j.val < d → |μ j a * τ| * (A a).h ≤ (A j).h))
    {v : Vec3 F64} {E : ℚ} (hE : E ≤ M / 2) (γ : Fin 3 → ℚ) (h0 : ∀ j : Fin 3, d ≤ j.val → v.get j = 0)
    (hv : ∀ j : Fin 3, j.val < d → ∃ w : ℚ, HasValue (v.get j) w ∧ |w - γ j| * (A j).h ≤ E ∧ |γ j| * (A j).h ≤ 75 / 2 * M) (j : Fin 3) :
    ∃ t : ℚ, Apx (((if j = a then 1 else 0) - m.entry j a * dt) * v.get j) t 76 200 (M / (A a).h) ∧
      |t - if j.val < d then ((if j = a then 1 else 0) - μ j a * τ) * γ j else 0| * (A a).h ≤
        if j.val < d then (if j = a then 2 else 1) * E else 0 := by
  have pa := (hw a ha).pos
  have hs : Scaled (M / (A a).h) := (hM.div (hw a ha)).scaled
  obtain ⟨m1, m2, m3⟩ := hm j
  by_cases hj : j.val < d
  · obtain ⟨w, w1, w2, w3⟩ := hv j hj
    have pj := (hw j hj).pos
    have sσ : Scaled ((A j).h / (A a).h) := ((hw j hj).div (hw a ha)).scaled
    have hσ : |μ j a * τ| ≤ (A j).h / (A a).h := (le_div_iff₀ pa).2 (m3 hj)
    have hi : Apx (if j = a then 1 else 0) (if j = a then 1 else 0) 1 0 ((A j).h / (A a).h) := by
      split
      · rename_i e
        rw [e, div_self pa.ne']
        exact apx_one
      · exact (apx_zero _).mono sσ.pos (by norm_num) (by norm_num)
    have hW : |w| ≤ 38 * (M / (A j).h) := by
      rw [mul_div_assoc', le_div_iff₀ pj]
      have k1 := abs_sub_abs_le_abs_sub w (γ j)
      have k2 := mul_le_mul_of_nonneg_right k1 pj.le
      linarith
    refine ⟨((if j = a then 1 else 0) - μ j a * τ) * w,
      term_used (entry_double m1 hdt sσ hσ hi) w1 hW sσ.pos (div_pos hM.pos pj) ?_ hs, ?_⟩
    · field_simp
    · rw [if_pos hj, if_pos hj, ← mul_sub, abs_mul]
      have k1 : |(if j = a then (1 : ℚ) else 0) - μ j a * τ| * (A a).h ≤ (if j = a then 2 else 1) * (A j).h := by
        have := m3 hj
        have k2 := mul_le_mul_of_nonneg_right (abs_sub (if j = a then (1 : ℚ) else 0) (μ j a * τ)) pa.le
        refine k2.trans ?_
        split
        · rename_i e
          subst e
          rw [abs_one]
          linarith
        · rw [abs_zero]
          linarith
      calc _ = |(if j = a then (1 : ℚ) else 0) - μ j a * τ| * (A a).h * |w - γ j| := by ring
        _ ≤ (if j = a then 2 else 1) * (A j).h * |w - γ j| := mul_le_mul_of_nonneg_right k1 (abs_nonneg _)
        _ = (if j = a then 2 else 1) * (|w - γ j| * (A j).h) := by ring
        _ ≤ _ := mul_le_mul_of_nonneg_left w2 (by split <;> norm_num)
  · rw [h0 j (by omega), if_neg hj, if_neg hj]
    refine ⟨0, term_unused (ι := if j = a then 1 else 0) ?_ ?_ m1 hdt m2 hs, by simp⟩
    · split
      · exact hasValue_one
      · exact hasValue_zero
    · split <;> norm_num

theorem count_terms {d : ℕ} (hd : d = 1 ∨ d = 2 ∨ d = 3) {a : Fin 3} (ha : a.val < d) {E : ℚ} :
    ((if (0 : Fin 3).val < d then (if (0 : Fin 3) = a then 2 else 1) * E else 0) +
      (if (1 : Fin 3).val < d then (if (1 : Fin 3) = a then 2 else 1) * E else 0) +
      if (2 : Fin 3).val < d then (if (2 : Fin 3) = a then 2 else 1) * E else 0) ≤ (d + 1) * E := by
  obtain rfl | rfl | rfl := hd
  · match a with
    | 0 => norm_num
    | 1 => exact absurd ha (by decide)
    | 2 => exact absurd ha (by decide)
  · match a with
    | 0 => norm_num; linarith
    | 1 => norm_num; linarith
    | 2 => exact absurd ha (by decide)
  · have q1 : ¬ (2 : Fin 3) = 0 := by decide
    have q2 : ¬ (2 : Fin 3) = 1 := by decide
    have q3 : ¬ (0 : Fin 3) = 2 := by decide
    have q4 : ¬ (1 : Fin 3) = 2 := by decide
    match a with
    | 0 => norm_num [q1]; linarith
    | 1 => norm_num [q2]; linarith
    | 2 => norm_num [q3, q4]; linarith

/-- A component of the transported gradient. -/
theorem pull_double {d : ℕ} (hd : d = 1 ∨ d = 2 ∨ d = 3) {A : Fin 3 → Axis} (hw : ∀ a : Fin 3, a.val < d → Pw (A a).h (-328) 300) {M : ℚ}
    (hM : Pw M (-300) 300) {m : Mat3 F64} {dt : F64} {τ : ℚ} (hdt : HasValue dt τ) {μ : Fin 3 → Fin 3 → ℚ} {a : Fin 3} (ha : a.val < d)
    (hm : ∀ j : Fin 3, HasValue (m.entry j a) (μ j a) ∧ |μ j a * τ| ≤ 2 ^ 300 ∧ (j.val < d → |μ j a * τ| * (A a).h ≤ (A j).h))
    {v : Vec3 F64} {E : ℚ} (hE : E ≤ M / 2) (γ : Fin 3 → ℚ) (h0 : ∀ j : Fin 3, d ≤ j.val → v.get j = 0)
    (hv : ∀ j : Fin 3, j.val < d → ∃ w : ℚ, HasValue (v.get j) w ∧ |w - γ j| * (A j).h ≤ E ∧ |γ j| * (A j).h ≤ 75 / 2 * M) :
    ∃ t : ℚ, HasValue (((Mat3.identity.sub (m.smul dt)).dot v).get a) t ∧
      |t - ∑ j : Fin 3, if j.val < d then ((if j = a then 1 else 0) - μ j a * τ) * γ j else 0| * (A a).h ≤
        (d + 1) * E + 1000 * ulp1 * M := by
  have pa := (hw a ha).pos
  have hs : Scaled (M / (A a).h) := (hM.div (hw a ha)).scaled
  obtain ⟨t0, a0, b0⟩ := pull_term hw hM hdt ha hm hE γ h0 hv 0
  obtain ⟨t1, a1, b1⟩ := pull_term hw hM hdt ha hm hE γ h0 hv 1
  obtain ⟨t2, a2, b2⟩ := pull_term hw hM hdt ha hm hE γ h0 hv 2
  obtain ⟨⟨t, ht, et⟩, -⟩ := row_double a0 a1 a2 hs
  refine ⟨t, by rw [dot_get]; exact ht, ?_⟩
  rw [Fin.sum_univ_three]
  generalize (if (0 : Fin 3).val < d then ((if (0 : Fin 3) = a then 1 else 0) - μ 0 a * τ) * γ 0 else 0) = s0 at *
  generalize (if (1 : Fin 3).val < d then ((if (1 : Fin 3) = a then 1 else 0) - μ 1 a * τ) * γ 1 else 0) = s1 at *
  generalize (if (2 : Fin 3).val < d then ((if (2 : Fin 3) = a then 1 else 0) - μ 2 a * τ) * γ 2 else 0) = s2 at *
  have e1 : |t - (t0 + t1 + t2)| * (A a).h ≤ 1000 * ulp1 * M := by
    have := mul_le_mul_of_nonneg_right et pa.le
    rwa [mul_assoc, div_mul_cancel₀ M pa.ne'] at this
  have e2 : |t - (s0 + s1 + s2)| ≤ |t - (t0 + t1 + t2)| + (|t0 - s0| + |t1 - s1| + |t2 - s2|) := by
    have k1 := abs_sub_le t (t0 + t1 + t2) (s0 + s1 + s2)
    have k2 : t0 + t1 + t2 - (s0 + s1 + s2) = t0 - s0 + (t1 - s1) + (t2 - s2) := by ring
    rw [k2] at k1
    have k3 := abs_add_three (t0 - s0) (t1 - s1) (t2 - s2)
    linarith
  have e3 := mul_le_mul_of_nonneg_right e2 pa.le
  have e4 := count_terms hd ha (E := E)
  linarith

end Gals.Props
