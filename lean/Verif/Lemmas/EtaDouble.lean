import Verif.Lemmas.StepDouble
import Verif.Lemmas.Apx

/-!
# The local coordinate computed by the interpolation
-/

namespace Gals

open Gals.Spec

/-- `(x - position of the base node) * one_over_dx`. -/
theorem eta_double {lo hi x : F64} {l h q K : ℚ} (hl : HasValue lo l) (hh : HasValue hi h) (hx : HasValue x q)
    (h1 : (2 : ℚ) ^ (-900 : ℤ) ≤ h - l) (h2 : h - l ≤ 2 ^ 900) {n : ℤ} (hn0 : 0 < n)
    (h3 : n * (|l| + (h - l)) ≤ K * (h - l)) (hK : K ≤ 2 ^ 28) {b : ℤ} (hb0 : -1 ≤ b) (hb : b ≤ n)
    (hT : |(q - l) / ((h - l) / n) - 1 / 2 - b| ≤ 2) :
    ∃ η, HasValue ((x - (lo + (hi - lo) / (n : F64) * (1 / 2) - (hi - lo) / (n : F64) * ((1 : ℤ) : F64)
        + ((b + 1 : ℤ) : F64) * ((hi - lo) / (n : F64)))) * (1 / ((hi - lo) / (n : F64)))) η ∧
      |η - ((q - l) / ((h - l) / n) - 1 / 2 - b)| ≤ 80 * K * ulp1 := by
  have hw0 : 0 < h - l := (two_zpow_pos _).trans_le h1
  have hnq : (0 : ℚ) < n := by exact_mod_cast hn0
  have hn1 : (1 : ℚ) ≤ n := by exact_mod_cast hn0
  have l0 := abs_nonneg l
  have u0 := ulp1_pos
  have hK1 : 1 ≤ K := by
    have : 1 * (h - l) ≤ n * (|l| + (h - l)) := mul_le_mul hn1 (by linarith) hw0.le hnq.le
    exact le_of_mul_le_mul_right (this.trans h3) hw0
  have hnK : (n : ℚ) ≤ K := by
    have : n * (h - l) ≤ n * (|l| + (h - l)) := mul_le_mul_of_nonneg_left (by linarith) hnq.le
    exact le_of_mul_le_mul_right (this.trans h3) hw0
  have hn28 : n ≤ 2 ^ 28 := by exact_mod_cast hnK.trans hK
  have hl' : |l| ≤ 2 ^ 1000 := by
    have : |l| + (h - l) ≤ n * (|l| + (h - l)) := le_mul_of_one_le_left (by linarith) hn1
    have e1 : |l| ≤ K * (h - l) := by linarith
    refine e1.trans ?_
    calc K * (h - l) ≤ 2 ^ 28 * 2 ^ 900 := mul_le_mul hK h2 hw0.le (by norm_num)
      _ = 2 ^ 928 := (pow_add _ _ _).symm
      _ ≤ _ := pow_le_pow_right₀ (by norm_num) (by norm_num)
  obtain ⟨-, E, hE, rE⟩ := node_double hl hh h1 h2 hl' hn0 (by omega) (v := b + 1) (by omega) (by omega)
  obtain ⟨D, I, J, -, hI, -, -, rfl, hJ⟩ := width_double hl hh h1 h2 hn0 (by omega)
  set H := (h - l) / n with hH
  have hH0 : 0 < H := div_pos hw0 hnq
  have hHn : H * n = h - l := by rw [hH]; field_simp
  set τ := (q - l) / H - 1 / 2 - b with hτ
  have eτ : τ * H = q - (l + (b + 1 / 2) * H) := by rw [hτ]; field_simp; ring
  have hpos : l + (((b + 1 : ℤ) : ℚ) - 1 + 1 / 2) * H = l + (b + 1 / 2) * H := by push_cast; ring
  rw [hpos] at rE
  have hSH : |l| + 3 * (h - l) ≤ 3 * K * H := by
    have : n * (|l| + (h - l)) ≤ n * (K * H) := by
      calc n * (|l| + (h - l)) ≤ K * (h - l) := h3
        _ = n * (K * H) := by rw [← hHn]; ring
    have := le_of_mul_le_mul_left this hnq
    linarith
  have rE' : |E - (l + (b + 1 / 2) * H)| ≤ 60 * K * ulp1 * H := by
    refine rE.trans ?_
    have := mul_le_mul_of_nonneg_left hSH (show 0 ≤ 20 * ulp1 by linarith)
    linarith
  have hKu : 60 * K * ulp1 ≤ 1 / 4 := by
    have := mul_le_mul_of_nonneg_right hK u0.le
    have e : (2 : ℚ) ^ 28 * ulp1 = 1 / 2 ^ 24 := by norm_num [ulp1]
    linarith
  have hHs : Scaled H := by
    constructor
    · rw [hH, le_div_iff₀ hnq]
      calc (2 : ℚ) ^ (-1000 : ℤ) * n ≤ 2 ^ (-1000 : ℤ) * 2 ^ (28 : ℤ) :=
            mul_le_mul_of_nonneg_left (by exact_mod_cast hn28) (two_zpow_pos _).le
        _ = 2 ^ (-972 : ℤ) := by rw [← two_zpow_add]; norm_num
        _ ≤ 2 ^ (-900 : ℤ) := two_zpow_le (by norm_num)
        _ ≤ _ := h1
    · have : H ≤ h - l := div_le_self hw0.le hn1
      exact (this.trans h2).trans (pow_le_pow_right₀ (by norm_num) (by norm_num))
  -- the distance from the node
  have hKH : 60 * K * ulp1 * H ≤ 1 / 4 * H := mul_le_mul_of_nonneg_right hKu hH0.le
  have hv : |q - (l + (b + 1 / 2) * H)| ≤ 2 * H := by
    rw [← eτ, abs_mul, abs_of_pos hH0]
    exact mul_le_mul_of_nonneg_right hT hH0.le
  have hqE : |q - E - (q - (l + (b + 1 / 2) * H))| ≤ 60 * K * ulp1 * H := by
    have : q - E - (q - (l + (b + 1 / 2) * H)) = -(E - (l + (b + 1 / 2) * H)) := by ring
    rw [this, abs_neg]
    exact rE'
  have hqE3 : |q - E| ≤ 3 * H := by
    have := abs_sub_abs_le_abs_sub (q - E) (q - (l + (b + 1 / 2) * H))
    linarith
  obtain ⟨⟨y, hy, ry⟩, -⟩ := apx_round hHs (hasValue_sub hx hE (hHs.big (m := 3) (by norm_num) hqE3)) hqE hv (by linarith)
  have ry' : |y - τ * H| ≤ (60 * K + 2) * ulp1 * H := by
    rw [eτ]
    linarith
  -- in cell widths
  have eY : y * (n / (h - l) * J) = y / H * J := by rw [← hHn]; field_simp
  have hY : |y / H - τ| ≤ (60 * K + 2) * ulp1 := by
    have e : y / H - τ = (y - τ * H) / H := by field_simp
    rw [e, abs_div, abs_of_pos hH0, div_le_iff₀ hH0]
    exact ry'
  have hu : ulp1 ≤ 1 / 100 := ulp1_le.trans (by norm_num)
  have hY3 : |y / H| ≤ 5 / 2 := by
    have := abs_sub_abs_le_abs_sub (y / H) τ
    linarith
  have hYJ : |y / H * J - τ| ≤ (60 * K + 12) * ulp1 := by
    have e : y / H * J - τ = y / H * (J - 1) + (y / H - τ) := by ring
    have m : |y / H * (J - 1)| ≤ 5 / 2 * (4 * ulp1) := by
      rw [abs_mul]; exact mul_le_mul hY3 hJ (abs_nonneg _) (by norm_num)
    rw [e]
    have := abs_add_le (y / H * (J - 1)) (y / H - τ)
    linarith
  have hbig : |y / H * J| ≤ 3 * 1 := by
    have := abs_sub_abs_le_abs_sub (y / H * J) τ
    linarith
  rw [← eY] at hbig hYJ
  obtain ⟨⟨η, hη, rη⟩, -⟩ := apx_round scaled_one (v := τ) (a := 2) (k := 60 * K + 12)
    (hasValue_mul hy hI (scaled_one.big (m := 3) (by norm_num) hbig)) (by rw [mul_one]; exact hYJ)
    (by rw [mul_one]; exact hT) (by linarith)
  refine ⟨η, hη, ?_⟩
  have : (60 * K + 12 + 2 / 2 + 1) * ulp1 ≤ 80 * K * ulp1 := mul_le_mul_of_nonneg_right (by linarith) u0.le
  linarith

end Gals
