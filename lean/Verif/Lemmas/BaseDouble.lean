import Verif.Lemmas.DoubleOps

/-!
# The cell coordinate computed by `baseNodeId` in double arithmetic
-/

namespace Gals

open Gals.Spec

/-- Twice the largest relative error of rounding. -/
def ulp1 : ℚ := 1 / 2 ^ 52

theorem two_unit : 2 * unitRoundoff = ulp1 := by norm_num [unitRoundoff, ulp1]

theorem tiny_eq : tiny = unitRoundoff * 2 ^ (-1022 : ℤ) := by rw [tiny, unitRoundoff, ← two_zpow_add]; norm_num

theorem ulp1_pos : 0 < ulp1 := by norm_num [ulp1]
theorem ulp1_le : ulp1 ≤ 1 / 2 ^ 40 := by norm_num [ulp1]

/-- Relative form of an error bound. -/
theorem rel_of_abs {v r : ℚ} (hv : (2 : ℚ) ^ (-1022 : ℤ) ≤ v) (h : |r - v| ≤ unitRoundoff * |v| + tiny) :
    ∃ δ, |δ| ≤ ulp1 ∧ r = v * (1 + δ) := by
  have h0 : 0 < v := (two_zpow_pos _).trans_le hv
  refine ⟨(r - v) / v, ?_, by field_simp; ring⟩
  rw [abs_div, abs_of_pos h0, div_le_iff₀ h0, ← two_unit]
  rw [abs_of_pos h0] at h
  have : tiny ≤ unitRoundoff * v := by
    rw [tiny_eq]
    exact mul_le_mul_of_nonneg_left hv unitRoundoff_pos.le
  linarith

/-- Errors of the reciprocal of the width. -/
theorem recip_error {a b c J : ℚ} (ha : |a| ≤ ulp1) (hb : |b| ≤ ulp1) (hc : |c| ≤ ulp1)
    (h : J * ((1 + a) * (1 + b)) = 1 + c) : |J - 1| ≤ 4 * ulp1 := by
  have h0 := ulp1_pos
  have h1 := ulp1_le
  obtain ⟨a1, a2⟩ := abs_le.1 ha
  obtain ⟨b1, b2⟩ := abs_le.1 hb
  obtain ⟨c1, c2⟩ := abs_le.1 hc
  generalize ulp1 = e at *
  have e1 : e ≤ 1 / 100 := h1.trans (by norm_num)
  have p1 : (1 - e) * (1 - e) ≤ (1 + a) * (1 + b) :=
    mul_le_mul (by linarith) (by linarith) (by linarith) (by linarith)
  have p2 : (1 + a) * (1 + b) ≤ (1 + e) * (1 + e) :=
    mul_le_mul (by linarith) (by linarith) (by linarith) (by linarith)
  generalize (1 + a) * (1 + b) = P at *
  have hP : 0 < P := lt_of_lt_of_le (by nlinarith) p1
  rw [abs_le]
  constructor
  · by_contra hcon
    have : J * P < (1 - 4 * e) * P := mul_lt_mul_of_pos_right (by linarith) hP
    have : (1 - 4 * e) * P ≤ (1 - 4 * e) * ((1 + e) * (1 + e)) := mul_le_mul_of_nonneg_left p2 (by linarith)
    nlinarith [mul_nonneg (mul_nonneg h0.le h0.le) h0.le, mul_nonneg h0.le h0.le]
  · by_contra hcon
    have : (1 + 4 * e) * P < J * P := mul_lt_mul_of_pos_right (by linarith) hP
    have : (1 + 4 * e) * ((1 - e) * (1 - e)) ≤ (1 + 4 * e) * P := mul_le_mul_of_nonneg_left p1 (by linarith)
    nlinarith [mul_nonneg (mul_nonneg h0.le h0.le) h0.le, mul_nonneg h0.le h0.le]

/-- Errors of the product of the distance and the reciprocal. -/
theorem prod_error {Y Z J : ℚ} (hY : |Y - Z| ≤ 3 / 2 * ulp1) (hZ : |Z| ≤ 2) (hJ : |J - 1| ≤ 4 * ulp1) :
    |Y * J - Z| ≤ 10 * ulp1 := by
  have h0 := ulp1_pos
  have h1 := ulp1_le
  generalize ulp1 = e at *
  have e1 : e ≤ 1 / 100 := h1.trans (by norm_num)
  have h : Y * J - Z = (Y - Z) * (J - 1) + (Y - Z) + Z * (J - 1) := by ring
  have m1 : |(Y - Z) * (J - 1)| ≤ 3 / 2 * e * (4 * e) := by
    rw [abs_mul]
    exact mul_le_mul hY hJ (abs_nonneg _) (by linarith)
  have m2 : |Z * (J - 1)| ≤ 2 * (4 * e) := by
    rw [abs_mul]
    exact mul_le_mul hZ hJ (abs_nonneg _) (by norm_num)
  rw [h]
  calc _ ≤ |(Y - Z) * (J - 1)| + |Y - Z| + |Z * (J - 1)| := abs_add_three _ _ _
    _ ≤ _ := by nlinarith

theorem pow_small {a : ℕ} (h : a ≤ 1020) {q : ℚ} (hq : q ≤ 2 ^ a) : q ≤ 2 ^ 1020 :=
  hq.trans (pow_le_pow_right₀ (by norm_num) h)

/-- The rounded reciprocal of the width of a cell. -/
theorem width_double {lo hi : F64} {l h : ℚ} (hl : HasValue lo l) (hh : HasValue hi h)
    (h1 : (2 : ℚ) ^ (-900 : ℤ) ≤ h - l) (h2 : h - l ≤ 2 ^ 900) {n : ℤ} (hn0 : 0 < n) (hn : n < 2 ^ 32) :
    ∃ D I J, HasValue ((hi - lo) / (n : F64)) D ∧ HasValue (1 / ((hi - lo) / (n : F64))) I ∧ 0 < D ∧
      |D * n - (h - l)| ≤ 3 * ulp1 * (h - l) ∧ I = n / (h - l) * J ∧ |J - 1| ≤ 4 * ulp1 := by
  set w := h - l with hw
  have hw0 : 0 < w := (two_zpow_pos _).trans_le h1
  have hnq : (0 : ℚ) < n := by exact_mod_cast hn0
  have hn1 : (1 : ℚ) ≤ n := by exact_mod_cast hn0
  have hn2 : (n : ℚ) ≤ 2 ^ 32 := by exact_mod_cast hn.le
  have e0 := ulp1_pos
  have e1 : ulp1 ≤ 1 / 100 := ulp1_le.trans (by norm_num)
  obtain ⟨W, hW, herr⟩ := hasValue_sub hh hl (by rw [← hw, abs_of_pos hw0]; exact pow_small (by norm_num) h2)
  obtain ⟨a, ha, rfl⟩ := rel_of_abs ((two_zpow_le (by norm_num)).trans h1) herr
  obtain ⟨a1, a2⟩ := abs_le.1 ha
  have hW0 : 0 < w * (1 + a) := mul_pos hw0 (by linarith)
  have hv : HasValue (n : F64) n := hasValue_int (by rw [abs_of_pos hn0]; omega)
  have q1 : w * (1 + a) / n ≤ w * 2 := by
    rw [div_le_iff₀ hnq]
    have : w * (1 + a) ≤ w * 2 := mul_le_mul_of_nonneg_left (by linarith) hw0.le
    nlinarith
  have q2 : (2 : ℚ) ^ (-940 : ℤ) ≤ w * (1 + a) / n := by
    rw [le_div_iff₀ hnq]
    calc (2 : ℚ) ^ (-940 : ℤ) * n ≤ 2 ^ (-940 : ℤ) * 2 ^ (39 : ℤ) :=
          mul_le_mul_of_nonneg_left (hn2.trans (by norm_num)) (two_zpow_pos _).le
      _ = 2 ^ (-900 : ℤ) * (1 / 2) := by
        rw [← two_zpow_add, show (1 / 2 : ℚ) = 2 ^ (-1 : ℤ) by norm_num, ← two_zpow_add]; norm_num
      _ ≤ w * (1 + a) := mul_le_mul h1 (by linarith) (by norm_num) hw0.le
  have q3 : w * (1 + a) / n ≤ 2 ^ 901 := by
    refine q1.trans ?_
    rw [pow_succ]
    exact mul_le_mul_of_nonneg_right h2 (by norm_num)
  obtain ⟨D, hD, herr⟩ := hasValue_div hW hv hnq.ne' (by
    rw [abs_of_pos (div_pos hW0 hnq)]; exact pow_small (by norm_num) q3)
  obtain ⟨b, hb, rfl⟩ := rel_of_abs ((two_zpow_le (by norm_num)).trans q2) herr
  obtain ⟨b1, b2⟩ := abs_le.1 hb
  have hD0 : 0 < w * (1 + a) / n * (1 + b) := mul_pos (div_pos hW0 hnq) (by linarith)
  have d1 : w * (1 + a) / n * (1 + b) ≤ 2 ^ 902 := by
    rw [pow_succ]
    exact mul_le_mul q3 (by linarith) (by linarith) (by positivity)
  have d2 : (2 : ℚ) ^ (-941 : ℤ) ≤ w * (1 + a) / n * (1 + b) := by
    rw [show (2 : ℚ) ^ (-941 : ℤ) = 2 ^ (-940 : ℤ) * (1 / 2) by
      rw [show (1 / 2 : ℚ) = 2 ^ (-1 : ℤ) by norm_num, ← two_zpow_add]; norm_num]
    exact mul_le_mul q2 (by linarith) (by norm_num) (div_pos hW0 hnq).le
  have i1 : 1 / (w * (1 + a) / n * (1 + b)) ≤ 2 ^ 941 := by
    rw [div_le_iff₀ hD0]
    calc (1 : ℚ) = 2 ^ 941 * 2 ^ (-941 : ℤ) := by
          rw [← zpow_natCast, ← two_zpow_add]; norm_num
      _ ≤ _ := mul_le_mul_of_nonneg_left d2 (by positivity)
  have i2 : (2 : ℚ) ^ (-902 : ℤ) ≤ 1 / (w * (1 + a) / n * (1 + b)) := by
    rw [le_div_iff₀ hD0]
    calc (2 : ℚ) ^ (-902 : ℤ) * (w * (1 + a) / n * (1 + b)) ≤ 2 ^ (-902 : ℤ) * 2 ^ 902 :=
          mul_le_mul_of_nonneg_left d1 (two_zpow_pos _).le
      _ = 1 := by rw [← zpow_natCast, ← two_zpow_add]; norm_num
  obtain ⟨I, hI, herr⟩ := hasValue_div hasValue_one hD hD0.ne' (by
    rw [abs_of_pos (by positivity)]; exact pow_small (by norm_num) i1)
  obtain ⟨c, hc, rfl⟩ := rel_of_abs ((two_zpow_le (by norm_num)).trans i2) herr
  have ha0 : 1 + a ≠ 0 := by linarith
  have hb0 : 1 + b ≠ 0 := by linarith
  refine ⟨_, _, (1 + c) / ((1 + a) * (1 + b)), hD, hI, hD0, ?_, ?_, ?_⟩
  · have e : w * (1 + a) / n * (1 + b) * n - w = w * (a + b + a * b) := by field_simp; ring
    rw [e, abs_mul, abs_of_pos hw0, mul_comm]
    refine mul_le_mul_of_nonneg_right ?_ hw0.le
    have m : |a * b| ≤ ulp1 * ulp1 := by rw [abs_mul]; exact mul_le_mul ha hb (abs_nonneg _) e0.le
    calc _ ≤ |a| + |b| + |a * b| := abs_add_three _ _ _
      _ ≤ _ := by nlinarith
  · field_simp
  · refine recip_error ha hb hc ?_
    field_simp

/-- The number under the floor function of `baseNodeId`: its error is at most `n * 2 ^ (-48)` cells. -/
theorem coord_double {lo hi x : F64} {l h q : ℚ} (hl : HasValue lo l) (hh : HasValue hi h) (hx : HasValue x q)
    (h1 : (2 : ℚ) ^ (-900 : ℤ) ≤ h - l) (h2 : h - l ≤ 2 ^ 900) {n : ℤ} (hn0 : 0 < n) (hn : n < 2 ^ 32)
    (hq : |q - l| ≤ 2 * (h - l)) :
    ∃ t, HasValue ((x - lo) * (1 / ((hi - lo) / (n : F64))) - 1 / 2) t ∧
      |t - ((q - l) / ((h - l) / n) - 1 / 2)| ≤ n / 2 ^ 48 := by
  obtain ⟨D, I, J, -, hI, -, -, rfl, hJ⟩ := width_double hl hh h1 h2 hn0 hn
  set w := h - l with hw
  have hw0 : 0 < w := (two_zpow_pos _).trans_le h1
  have hnq : (0 : ℚ) < n := by exact_mod_cast hn0
  have hn1 : (1 : ℚ) ≤ n := by exact_mod_cast hn0
  have hn2 : (n : ℚ) ≤ 2 ^ 32 := by exact_mod_cast hn.le
  have e0 := ulp1_pos
  have e1 : ulp1 ≤ 1 / 100 := ulp1_le.trans (by norm_num)
  have hu : unitRoundoff = ulp1 / 2 := by rw [← two_unit]; ring
  have ht : tiny ≤ ulp1 / 2 * w := by
    rw [tiny_eq, hu]
    exact mul_le_mul_of_nonneg_left ((two_zpow_le (by norm_num)).trans h1) (by linarith)
  have ht1 : tiny ≤ ulp1 / 2 := by
    rw [tiny_eq, hu]
    exact mul_le_of_le_one_right (by linarith) (zpow_le_one_of_nonpos₀ (by norm_num) (by norm_num))
  have hq900 : |q - l| ≤ 2 ^ 901 := by
    refine hq.trans ?_
    rw [pow_succ, mul_comm]
    exact mul_le_mul_of_nonneg_right h2 (by norm_num)
  obtain ⟨y, hy, herr⟩ := hasValue_sub hx hl (pow_small (a := 901) (by norm_num) hq900)
  have hY : |y / w - (q - l) / w| ≤ 3 / 2 * ulp1 := by
    rw [← sub_div, abs_div, abs_of_pos hw0, div_le_iff₀ hw0]
    have := mul_le_mul_of_nonneg_left hq (by rw [hu]; linarith : 0 ≤ unitRoundoff)
    rw [hu] at this herr
    linarith
  have hZ : |(q - l) / w| ≤ 2 := by
    rw [abs_div, abs_of_pos hw0, div_le_iff₀ hw0]
    exact hq
  have hYJ := prod_error hY hZ hJ
  set Z := (q - l) / w with hZd
  have eprod : y * (n / w * J) = n * (y / w * J) := by field_simp
  set P := y / w * J with hP
  have hP3 : |P| ≤ 3 := by
    have := abs_sub_abs_le_abs_sub P Z
    linarith
  obtain ⟨p, hp, herr⟩ := hasValue_mul hy hI (by
    rw [eprod, abs_mul, abs_of_pos hnq]
    refine pow_small (a := 34) (by norm_num) ?_
    calc (n : ℚ) * |P| ≤ 2 ^ 32 * 3 := mul_le_mul hn2 hP3 (abs_nonneg _) (by norm_num)
      _ ≤ 2 ^ 34 := by norm_num)
  rw [eprod, abs_mul, abs_of_pos hnq, hu] at herr
  have hp1 : |p - n * Z| ≤ n * (12 * ulp1) := by
    have e : p - n * Z = (p - n * P) + n * (P - Z) := by ring
    rw [e]
    have m1 : ulp1 / 2 * (n * |P|) ≤ ulp1 / 2 * (n * 3) :=
      mul_le_mul_of_nonneg_left (mul_le_mul_of_nonneg_left hP3 hnq.le) (by linarith)
    have m2 : ulp1 / 2 ≤ n * (ulp1 / 2) := by nlinarith
    calc _ ≤ |p - n * P| + |n * (P - Z)| := abs_add_le _ _
      _ ≤ |p - n * P| + n * (10 * ulp1) := by
        rw [abs_mul, abs_of_pos hnq]
        have := mul_le_mul_of_nonneg_left hYJ hnq.le
        linarith
      _ ≤ _ := by nlinarith
  have hp4 : |p - 1 / 2| ≤ 4 * n := by
    have a1 : |p - 1 / 2| ≤ |p - n * Z| + |n * Z - 1 / 2| := by
      have := abs_add_le (p - n * Z) (n * Z - 1 / 2)
      rwa [sub_add_sub_cancel] at this
    have a2 : |n * Z - 1 / 2| ≤ n * 2 + 1 / 2 := by
      have := abs_sub (n * Z) (1 / 2)
      rw [abs_mul, abs_of_pos hnq, abs_of_pos (show (0 : ℚ) < 1 / 2 by norm_num)] at this
      have := mul_le_mul_of_nonneg_left hZ hnq.le
      linarith
    nlinarith
  obtain ⟨t, ht', herr⟩ := hasValue_sub hp hasValue_half (by
    refine pow_small (a := 34) (by norm_num) (hp4.trans ?_)
    linarith)
  refine ⟨t, ht', ?_⟩
  have eZ : (q - l) / (w / n) = n * Z := by rw [hZd]; field_simp
  rw [eZ, hu] at *
  have e : t - (n * Z - 1 / 2) = (t - (p - 1 / 2)) + (p - n * Z) := by ring
  rw [e]
  have m1 : ulp1 / 2 * |p - 1 / 2| ≤ ulp1 / 2 * (4 * n) := mul_le_mul_of_nonneg_left hp4 (by linarith)
  have e16 : (n : ℚ) / 2 ^ 48 = 16 * ulp1 * n := by unfold ulp1; ring
  rw [e16]
  calc _ ≤ |t - (p - 1 / 2)| + |p - n * Z| := abs_add_le _ _
    _ ≤ _ := by nlinarith

end Gals
