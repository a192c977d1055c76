import Verif.Lemmas.StepDouble
import Verif.Model.Analytic

/-!
# The circular velocity in double arithmetic
-/

namespace Gals

open Gals.Spec

/-- The rounded angular velocity. -/
theorem coeff_double [HasPi F64] {p : ℚ} (hp : HasValue (HasPi.pi : F64) p) (h1 : 3 ≤ p) (h2 : p ≤ 4) :
    ∃ w, HasValue (circularCoeff : F64) w ∧ |w - p / (315 / 100)| ≤ 3 * ulp1 * (p / (315 / 100)) := by
  have e0 := ulp1_pos
  have e1 : ulp1 ≤ 1 / 2 ^ 40 := ulp1_le
  have v315 : HasValue (315 : F64) 315 := hasValue_nat (n := 315) (by norm_num)
  have v100 : HasValue (100 : F64) 100 := hasValue_nat (n := 100) (by norm_num)
  have small : ∀ q : ℚ, |q| ≤ 2 ^ 4 → |q| ≤ 2 ^ 1020 := fun q hq => pow_small (by norm_num) hq
  obtain ⟨c, hc, ec⟩ := hasValue_div v315 v100 (by norm_num) (small _ (by rw [abs_of_pos (by norm_num)]; norm_num))
  have ht : tiny ≤ unitRoundoff * (2 ^ (-2 : ℤ)) := by
    rw [tiny_eq]
    exact mul_le_mul_of_nonneg_left (two_zpow_le (by norm_num)) unitRoundoff_pos.le
  have hu : unitRoundoff = ulp1 / 2 := by rw [← two_unit]; ring
  rw [hu] at ht ec
  have ht' : tiny ≤ ulp1 / 8 := by
    refine ht.trans ?_
    norm_num
    linarith
  have ec' : |c - 315 / 100| ≤ 2 * ulp1 := by
    refine ec.trans ?_
    rw [abs_of_pos (by norm_num)]
    linarith
  obtain ⟨c1, c2⟩ := abs_le.1 ec'
  have hc0 : 3 < c := by
    have : ulp1 ≤ 1 / 100 := e1.trans (by norm_num)
    linarith
  have hq : p / c ≤ 4 / 3 := by
    rw [div_le_iff₀ (by linarith)]
    linarith
  have hq0 : 0 < p / c := div_pos (by linarith) (by linarith)
  obtain ⟨w, hw, ew⟩ := hasValue_div hp hc (by linarith) (small _ (by rw [abs_of_pos hq0]; norm_num; linarith))
  refine ⟨w, hw, ?_⟩
  rw [hu, abs_of_pos hq0] at ew
  -- error of the quotient
  have d1 : |p / c - p / (315 / 100)| ≤ ulp1 := by
    have : p / c - p / (315 / 100) = p / c * ((315 / 100 - c) / (315 / 100)) := by
      have : c ≠ 0 := by linarith
      field_simp
    rw [this, abs_mul, abs_of_pos hq0, abs_div, abs_of_pos (show (0 : ℚ) < 315 / 100 by norm_num), abs_sub_comm]
    have a1 : |c - 315 / 100| / (315 / 100) ≤ 3 / 4 * ulp1 := by
      rw [div_le_iff₀ (by norm_num)]
      linarith
    calc p / c * (|c - 315 / 100| / (315 / 100)) ≤ 4 / 3 * (3 / 4 * ulp1) :=
          mul_le_mul hq a1 (by positivity) (by norm_num)
      _ = ulp1 := by ring
  have d2 : (20 / 21 : ℚ) ≤ p / (315 / 100) := by
    rw [le_div_iff₀ (by norm_num)]
    linarith
  have d3 := mul_le_mul_of_nonneg_left d2 e0.le
  have d4 : ulp1 / 2 * (p / c) ≤ ulp1 / 2 * (4 / 3) := mul_le_mul_of_nonneg_left hq (by linarith)
  calc |w - p / (315 / 100)| = |(w - p / c) + (p / c - p / (315 / 100))| := by ring_nf
    _ ≤ |w - p / c| + |p / c - p / (315 / 100)| := abs_add_le _ _
    _ ≤ _ := by linarith

/-- Product of the angular velocity and a computed distance `d` whose exact value is `D`, up to `δ`. -/
theorem turn_double [HasPi F64] {p : ℚ} (hp : HasValue (HasPi.pi : F64) p) (h1 : 3 ≤ p) (h2 : p ≤ 4) {x y : F64} {ξ η D δ : ℚ}
    (hx : HasValue x ξ) (hy : HasValue y η) (hD : |ξ - η - D| ≤ δ) (hb : |D| ≤ 2 ^ 1000) (hδ : δ ≤ 2 ^ 1000) :
    ∃ v, HasValue (circularCoeff * (x - y)) v ∧
      |v - p / (315 / 100) * D| ≤ 6 * ulp1 * |D| + 2 * δ + 4 * tiny := by
  have e0 := ulp1_pos
  have e1 : ulp1 ≤ 1 / 1000 := ulp1_le.trans (by norm_num)
  have t0 := tiny_pos
  have hu : unitRoundoff = ulp1 / 2 := by rw [← two_unit]; ring
  have hδ0 : 0 ≤ δ := (abs_nonneg _).trans hD
  have a0 := abs_nonneg D
  have b1 : (2 : ℚ) ^ 1002 = 2 ^ 1000 * 4 := by rw [show (4 : ℚ) = 2 ^ 2 by norm_num]; exact pow_add _ 1000 2
  have b2 : (2 : ℚ) ^ 1002 ≤ 2 ^ 1020 := pow_le_pow_right₀ (by norm_num) (by norm_num)
  have b3 : (1 : ℚ) ≤ 2 ^ 1000 := one_le_pow₀ (by norm_num)
  have b4 : tiny ≤ 1 / 1000 := by
    rw [tiny_eq, hu]
    have : (2 : ℚ) ^ (-1022 : ℤ) ≤ 2 ^ (0 : ℤ) := two_zpow_le (by norm_num)
    rw [zpow_zero] at this
    have := mul_le_mul_of_nonneg_left this (show 0 ≤ ulp1 / 2 by linarith)
    linarith
  have hdiff : |ξ - η| ≤ |D| + δ := by
    have := abs_sub_abs_le_abs_sub (ξ - η) D
    linarith
  obtain ⟨w, hw, ew⟩ := coeff_double hp h1 h2
  have hW : p / (315 / 100) ≤ 127 / 100 := by
    rw [div_le_iff₀ (by norm_num)]
    linarith
  have hW0 : 0 < p / (315 / 100) := div_pos (by linarith) (by norm_num)
  generalize p / (315 / 100) = W at *
  have ew' : |w - W| ≤ 4 * ulp1 := by
    refine ew.trans ?_
    have := mul_le_mul_of_nonneg_left hW e0.le
    linarith
  have hwa : |w| ≤ 128 / 100 := by
    have := abs_sub_abs_le_abs_sub w W
    rw [abs_of_pos hW0] at this
    linarith
  rw [b1] at b2
  clear b1
  obtain ⟨d, hd, ed⟩ := hasValue_sub hx hy (hdiff.trans (le_trans (by
    generalize (2 : ℚ) ^ 1000 = B at *
    linarith only [hb, hδ, b3]) b2))
  rw [hu] at ed
  have u1 : ulp1 / 2 * |ξ - η| ≤ ulp1 / 2 * (|D| + δ) := mul_le_mul_of_nonneg_left hdiff (by linarith)
  have u2 : ulp1 * δ ≤ 1 / 1000 * δ := mul_le_mul_of_nonneg_right e1 hδ0
  have u3 : ulp1 * |D| ≤ 1 / 1000 * |D| := mul_le_mul_of_nonneg_right e1 a0
  have u4 : 0 ≤ ulp1 * |D| := mul_nonneg e0.le a0
  have eE : |d - D| ≤ 1001 / 1000 * δ + ulp1 * |D| / 2 + tiny := by
    calc |d - D| = |(d - (ξ - η)) + (ξ - η - D)| := by ring_nf
      _ ≤ |d - (ξ - η)| + |ξ - η - D| := abs_add_le _ _
      _ ≤ _ := by linarith
  generalize hE : 1001 / 1000 * δ + ulp1 * |D| / 2 + tiny = E at *
  have hE0 : 0 ≤ E := (abs_nonneg _).trans eE
  have hda : |d| ≤ |D| + E := by
    have := abs_sub_abs_le_abs_sub d D
    linarith
  have hwd : |w * d| ≤ 128 / 100 * (|D| + E) := by
    rw [abs_mul]
    exact mul_le_mul hwa hda (abs_nonneg _) (by norm_num)
  obtain ⟨v, hv, ev⟩ := hasValue_mul hw hd (hwd.trans (le_trans (by
    generalize (2 : ℚ) ^ 1000 = B at *
    linarith only [hb, hδ, b3, hE, u3, u4, b4, hδ0]) b2))
  refine ⟨v, hv, ?_⟩
  clear b2 b3 hb hδ
  rw [hu] at ev
  have v1 : ulp1 / 2 * |w * d| ≤ ulp1 / 2 * (128 / 100 * (|D| + E)) := mul_le_mul_of_nonneg_left hwd (by linarith)
  have v2 : |w - W| * |d| ≤ 4 * ulp1 * (|D| + E) := mul_le_mul ew' hda (abs_nonneg _) (by linarith)
  have v3 : W * |d - D| ≤ 127 / 100 * E := mul_le_mul hW eE (abs_nonneg _) (by norm_num)
  have v4 : ulp1 * E ≤ 1 / 1000 * E := mul_le_mul_of_nonneg_right e1 hE0
  have key : |v - W * D| ≤ |v - w * d| + |w - W| * |d| + W * |d - D| := by
    calc |v - W * D| = |(v - w * d) + (w - W) * d + W * (d - D)| := by ring_nf
      _ ≤ |v - w * d| + |(w - W) * d| + |W * (d - D)| := abs_add_three _ _ _
      _ = _ := by rw [abs_mul, abs_mul, abs_of_pos hW0]
  linarith

end Gals
