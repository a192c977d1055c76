import Verif.Lemmas.BaseDouble
import Verif.Lemmas.Make

/-!
# Node positions and departure points in double arithmetic
-/

namespace Gals

open Gals.Spec

/-- Scale of an interval of magnitudes: neither extremely small nor extremely large. -/
structure Scale (S : ℚ) : Prop where
  lo : tiny ≤ ulp1 * S
  hi : S ≤ 2 ^ 1010

theorem Scale.pos {S : ℚ} (h : Scale S) : 0 < S := by
  have := tiny_pos.trans_le h.lo
  exact pos_of_mul_pos_right this ulp1_pos.le

/-- A rounded result whose exact argument is near `t`. -/
theorem round_near {S v r t β : ℚ} (hS : Scale S) (ht : |t| ≤ S) (hβ : β ≤ S) (hv : |v - t| ≤ β)
    (hr : |r - v| ≤ unitRoundoff * |v| + tiny) : |r - t| ≤ β + 2 * ulp1 * S := by
  have h1 : |v| ≤ 2 * S := by
    have := abs_sub_abs_le_abs_sub v t
    linarith
  have h2 : unitRoundoff * |v| ≤ unitRoundoff * (2 * S) := mul_le_mul_of_nonneg_left h1 unitRoundoff_pos.le
  have h3 : unitRoundoff * (2 * S) = ulp1 * S := by rw [← two_unit]; ring
  have h4 := hS.lo
  calc |r - t| = |(r - v) + (v - t)| := by ring_nf
    _ ≤ |r - v| + |v - t| := abs_add_le _ _
    _ ≤ _ := by linarith

theorem near_big {S v t β : ℚ} (hS : Scale S) (ht : |t| ≤ S) (hβ : β ≤ S) (hv : |v - t| ≤ β) : |v| ≤ 2 ^ 1020 := by
  have h1 : |v| ≤ S * 2 := by
    have := abs_sub_abs_le_abs_sub v t
    linarith
  refine h1.trans ?_
  calc S * 2 ≤ 2 ^ 1010 * 2 := mul_le_mul_of_nonneg_right hS.hi (by norm_num)
    _ = 2 ^ 1011 := (pow_succ _ _).symm
    _ ≤ _ := pow_le_pow_right₀ (by norm_num) (by norm_num)

theorem add_near {S p q p' q' α β : ℚ} {x y : F64} (hS : Scale S) (hx : HasValue x p) (hy : HasValue y q)
    (hp : |p - p'| ≤ α) (hq : |q - q'| ≤ β) (ht : |p' + q'| ≤ S) (hβ : α + β ≤ S) :
    ∃ r, HasValue (x + y) r ∧ |r - (p' + q')| ≤ α + β + 2 * ulp1 * S := by
  have hv : |p + q - (p' + q')| ≤ α + β := by
    rw [add_sub_add_comm]
    exact (abs_add_le _ _).trans (add_le_add hp hq)
  obtain ⟨r, h1, h2⟩ := hasValue_add hx hy (near_big hS ht hβ hv)
  exact ⟨r, h1, round_near hS ht hβ hv h2⟩

theorem sub_near {S p q p' q' α β : ℚ} {x y : F64} (hS : Scale S) (hx : HasValue x p) (hy : HasValue y q)
    (hp : |p - p'| ≤ α) (hq : |q - q'| ≤ β) (ht : |p' - q'| ≤ S) (hβ : α + β ≤ S) :
    ∃ r, HasValue (x - y) r ∧ |r - (p' - q')| ≤ α + β + 2 * ulp1 * S := by
  have hv : |p - q - (p' - q')| ≤ α + β := by
    rw [sub_sub_sub_comm]
    exact (abs_sub _ _).trans (add_le_add hp hq)
  obtain ⟨r, h1, h2⟩ := hasValue_sub hx hy (near_big hS ht hβ hv)
  exact ⟨r, h1, round_near hS ht hβ hv h2⟩

theorem mul_near {S p q t β : ℚ} {x y : F64} (hS : Scale S) (hx : HasValue x p) (hy : HasValue y q)
    (hv : |p * q - t| ≤ β) (ht : |t| ≤ S) (hβ : β ≤ S) :
    ∃ r, HasValue (x * y) r ∧ |r - t| ≤ β + 2 * ulp1 * S := by
  obtain ⟨r, h1, h2⟩ := hasValue_mul hx hy (near_big hS ht hβ hv)
  exact ⟨r, h1, round_near hS ht hβ hv h2⟩

/-- The position computed for a node: `((lo + dx / 2) - dx) + v * dx`. -/
theorem node_double {lo hi : F64} {l h : ℚ} (hl : HasValue lo l) (hh : HasValue hi h)
    (h1 : (2 : ℚ) ^ (-900 : ℤ) ≤ h - l) (h2 : h - l ≤ 2 ^ 900) (h3 : |l| ≤ 2 ^ 1000) {n : ℤ} (hn0 : 0 < n) (hn : n < 2 ^ 31)
    {v : ℤ} (hv0 : 0 ≤ v) (hv : v ≤ 3 * n) :
    Scale (|l| + 3 * (h - l)) ∧
    ∃ E, HasValue (lo + (hi - lo) / (n : F64) * (1 / 2) - (hi - lo) / (n : F64) * ((1 : ℤ) : F64)
        + (v : F64) * ((hi - lo) / (n : F64))) E ∧
      |E - (l + (v - 1 + 1 / 2) * ((h - l) / n))| ≤ 20 * ulp1 * (|l| + 3 * (h - l)) := by
  obtain ⟨D, -, -, hD, -, -, hDe, -, -⟩ := width_double hl hh h1 h2 hn0 (by omega)
  set w := h - l with hw
  have hw0 : 0 < w := (two_zpow_pos _).trans_le h1
  have hnq : (0 : ℚ) < n := by exact_mod_cast hn0
  have hn1 : (1 : ℚ) ≤ n := by exact_mod_cast hn0
  have e0 := ulp1_pos
  have e1 : ulp1 ≤ 1 / 100 := ulp1_le.trans (by norm_num)
  have l0 := abs_nonneg l
  have hS : Scale (|l| + 3 * w) := by
    constructor
    · rw [tiny_eq]
      have : (2 : ℚ) ^ (-1022 : ℤ) ≤ |l| + 3 * w := by
        have : (2 : ℚ) ^ (-1022 : ℤ) ≤ 2 ^ (-900 : ℤ) := two_zpow_le (by norm_num)
        linarith
      calc unitRoundoff * 2 ^ (-1022 : ℤ) ≤ ulp1 * 2 ^ (-1022 : ℤ) :=
            mul_le_mul_of_nonneg_right (by rw [← two_unit]; linarith [unitRoundoff_pos]) (two_zpow_pos _).le
        _ ≤ _ := mul_le_mul_of_nonneg_left this e0.le
    · have a1 : (2 : ℚ) ^ 900 ≤ 2 ^ 1000 := pow_le_pow_right₀ (by norm_num) (by norm_num)
      have a2 : (2 : ℚ) ^ 1010 = 2 ^ 1000 * 1024 := by rw [show (1024 : ℚ) = 2 ^ 10 by norm_num, ← pow_add]
      rw [a2]
      clear a2
      have a3 : (0 : ℚ) < 2 ^ 1000 := by positivity
      generalize (2 : ℚ) ^ 1000 = B at *
      generalize (2 : ℚ) ^ 900 = B' at *
      have a4 : |l| + 3 * w ≤ 4 * B := by linarith only [h3, h2, a1]
      linarith only [a3, a4]
  refine ⟨hS, ?_⟩
  set S := |l| + 3 * w with hSd
  set H := w / n with hH
  have hH0 : 0 < H := div_pos hw0 hnq
  have hHn : H * n = w := by rw [hH]; field_simp
  have hHw : H ≤ w := div_le_self hw0.le hn1
  have hDH : |D - H| ≤ 3 * ulp1 * H := by
    have : |D - H| * n ≤ 3 * ulp1 * H * n := by
      calc |D - H| * n = |D * n - w| := by rw [← hHn, ← sub_mul, abs_mul, abs_of_pos hnq]
        _ ≤ 3 * ulp1 * w := hDe
        _ = _ := by rw [← hHn]; ring
    exact le_of_mul_le_mul_right this hnq
  have hwS : 3 * w ≤ S := by linarith
  have eS : ulp1 * (3 * w) ≤ ulp1 * S := mul_le_mul_of_nonneg_left hwS e0.le
  have eH : ulp1 * H ≤ ulp1 * w := mul_le_mul_of_nonneg_left hHw e0.le
  have hS0 := hS.pos
  have eS0 : 0 < ulp1 * S := mul_pos e0 hS0
  have eSS : ulp1 * S ≤ 1 / 100 * S := mul_le_mul_of_nonneg_right e1 hS0.le
  have habs := fun q : ℚ => abs_le (a := q) (b := S)
  -- dx / 2
  obtain ⟨A1, v1, r1⟩ := mul_near hS hD hasValue_half (t := H / 2) (β := ulp1 * S) (by
    have : D * (1 / 2) - H / 2 = (D - H) / 2 := by ring
    rw [this, abs_div, abs_of_pos (show (0 : ℚ) < 2 by norm_num)]
    linarith) (by rw [abs_of_pos (by linarith)]; linarith) (by linarith)
  -- lo + dx / 2
  obtain ⟨A2, v2, r2⟩ := add_near hS hl v1 (p' := l) (α := 0) (by simp) r1 (by
    refine (abs_add_le _ _).trans ?_
    rw [abs_of_pos (show 0 < H / 2 by linarith)]
    linarith) (by linarith)
  -- dx * mask
  obtain ⟨A3, v3, r3⟩ := mul_near hS hD (hasValue_int (n := 1) (by norm_num)) (t := H) (β := ulp1 * S) (by
    have : D * ((1 : ℤ) : ℚ) - H = D - H := by push_cast; ring
    rw [this]
    linarith) (by rw [abs_of_pos hH0]; linarith) (by linarith)
  obtain ⟨A4, v4, r4⟩ := sub_near hS v2 v3 r2 r3 (by
    have : l + H / 2 - H = l + (-(H / 2)) := by ring
    rw [this]
    refine (abs_add_le _ _).trans ?_
    rw [abs_neg, abs_of_pos (show 0 < H / 2 by linarith)]
    linarith) (by linarith)
  have hvq0 : (0 : ℚ) ≤ v := by exact_mod_cast hv0
  have hvq : (v : ℚ) ≤ 3 * n := by exact_mod_cast hv
  have hvH : (v : ℚ) * H ≤ 3 * w := by
    calc (v : ℚ) * H ≤ 3 * n * H := mul_le_mul_of_nonneg_right hvq hH0.le
      _ = 3 * w := by rw [← hHn]; ring
  have hvH0 : 0 ≤ (v : ℚ) * H := mul_nonneg hvq0 hH0.le
  obtain ⟨A5, v5, r5⟩ := mul_near hS (hasValue_int (n := v) (by rw [abs_of_nonneg hv0]; omega)) hD (t := v * H)
    (β := 3 * ulp1 * S) (by
      rw [← mul_sub, abs_mul, abs_of_nonneg hvq0]
      calc (v : ℚ) * |D - H| ≤ v * (3 * ulp1 * H) := mul_le_mul_of_nonneg_left hDH hvq0
        _ = 3 * ulp1 * (v * H) := by ring
        _ ≤ 3 * ulp1 * S := mul_le_mul_of_nonneg_left (by linarith) (by linarith)) (by rw [abs_of_nonneg hvH0]; linarith)
    (by linarith)
  obtain ⟨A6, v6, r6⟩ := add_near hS v4 v5 r4 r5 (by
    have hcase : |l + (v * H - H / 2)| ≤ S := by
      refine (abs_add_le _ _).trans ?_
      have : |(v : ℚ) * H - H / 2| ≤ 3 * w := by
        rw [abs_le]
        constructor <;> linarith
      linarith
    have : l + H / 2 - H + v * H = l + (v * H - H / 2) := by ring
    rw [this]
    exact hcase) (by linarith)
  refine ⟨A6, v6, ?_⟩
  have : l + H / 2 - H + v * H = l + (v - 1 + 1 / 2) * H := by ring
  rw [this] at r6
  refine r6.trans ?_
  linarith

/-- The departure point computed from a node and a velocity. -/
theorem departure_fine {lo hi u dt : F64} {l h υ τ : ℚ} (hl : HasValue lo l) (hh : HasValue hi h) (hu : HasValue u υ)
    (hdt : HasValue dt τ) (h1 : (2 : ℚ) ^ (-900 : ℤ) ≤ h - l) (h2 : h - l ≤ 2 ^ 900) {n : ℤ} (hn0 : 0 < n)
    (h3 : n * (|l| + (h - l)) ≤ 2 ^ 28 * (h - l)) {v : ℤ} (hv0 : 0 ≤ v) (hv : v ≤ 3 * n) (hp : |υ * τ| ≤ 2 * (h - l)) :
    ∃ q, HasValue (lo + (hi - lo) / (n : F64) * (1 / 2) - (hi - lo) / (n : F64) * ((1 : ℤ) : F64)
        + (v : F64) * ((hi - lo) / (n : F64)) - u * dt) q ∧
      |q - (l + (v - 1 + 1 / 2) * ((h - l) / n) - υ * τ)| ≤ 26 * (ulp1 * (|l| + 3 * (h - l))) ∧ (n : ℚ) ≤ 2 ^ 28 := by
  have hw0 : 0 < h - l := (two_zpow_pos _).trans_le h1
  have hnq : (0 : ℚ) < n := by exact_mod_cast hn0
  have hn1 : (1 : ℚ) ≤ n := by exact_mod_cast hn0
  have l0 := abs_nonneg l
  have hn28 : (n : ℚ) ≤ 2 ^ 28 := by
    have : (n : ℚ) * (h - l) ≤ 2 ^ 28 * (h - l) :=
      (mul_le_mul_of_nonneg_left (by linarith) hnq.le).trans h3
    exact le_of_mul_le_mul_right this hw0
  have hnZ : n ≤ 2 ^ 28 := by exact_mod_cast hn28
  have hl28 : |l| ≤ 2 ^ 28 * (h - l) := by
    have : |l| + (h - l) ≤ n * (|l| + (h - l)) := le_mul_of_one_le_left (by linarith) hn1
    linarith
  have hl1000 : |l| ≤ 2 ^ 1000 := by
    calc |l| ≤ 2 ^ 28 * (h - l) := hl28
      _ ≤ 2 ^ 28 * 2 ^ 900 := mul_le_mul_of_nonneg_left h2 (by positivity)
      _ = 2 ^ 928 := (pow_add _ _ _).symm
      _ ≤ 2 ^ 1000 := pow_le_pow_right₀ (by norm_num) (by norm_num)
  obtain ⟨hS, E, hE, rE⟩ := node_double hl hh h1 h2 hl1000 hn0 (by omega) hv0 hv
  generalize hw : h - l = w at *
  have hH0 : 0 < w / n := div_pos hw0 hnq
  have hHn : w / n * n = w := by field_simp
  have hHw : w / n ≤ w := div_le_self hw0.le hn1
  generalize hH : w / n = H at *
  have e0 := ulp1_pos
  have e1 : ulp1 ≤ 1 / 100 := ulp1_le.trans (by norm_num)
  have hS0 := hS.pos
  have eS0 : 0 < ulp1 * (|l| + 3 * w) := mul_pos e0 hS0
  have eSS : ulp1 * (|l| + 3 * w) ≤ 1 / 100 * (|l| + 3 * w) := mul_le_mul_of_nonneg_right e1 hS0.le
  have hvq0 : (0 : ℚ) ≤ v := by exact_mod_cast hv0
  have hvq : (v : ℚ) ≤ 3 * n := by exact_mod_cast hv
  have hvH : (v : ℚ) * H ≤ 3 * w := by
    calc (v : ℚ) * H ≤ 3 * n * H := mul_le_mul_of_nonneg_right hvq hH0.le
      _ = 3 * w := by rw [← hHn]; ring
  have hvH0 : 0 ≤ (v : ℚ) * H := mul_nonneg hvq0 hH0.le
  have htwo : Scale (2 * (|l| + 3 * w)) := by
    refine ⟨hS.lo.trans (by linarith), ?_⟩
    have a1 : (2 : ℚ) ^ 1010 = 2 ^ 929 * 2 ^ 81 := pow_add _ 929 81
    have a2 : (2 : ℚ) ^ 929 = 2 ^ 29 * 2 ^ 900 := pow_add _ 29 900
    rw [a1, a2]
    have a3 : (0 : ℚ) < 2 ^ 900 := by positivity
    clear a1 a2 hl1000
    generalize (2 : ℚ) ^ 900 = B at *
    have a4 : 2 * (|l| + 3 * w) ≤ 2 ^ 30 * w := by linarith only [hl28, hw0]
    have a5 : (2 : ℚ) ^ 30 * w ≤ 2 ^ 30 * B := mul_le_mul_of_nonneg_left h2 (by norm_num)
    have a6 : (2 : ℚ) ^ 30 * B ≤ 2 ^ 29 * B * 2 ^ 81 := by linarith only [a3]
    exact a4.trans (a5.trans a6)
  obtain ⟨P, hP, rP⟩ := mul_near hS hu hdt (t := υ * τ) (β := 0) (by simp) (by linarith) hS0.le
  obtain ⟨q, hq, rq⟩ := sub_near htwo hE hP rE rP (by
    have hA : |l + (v - 1 + 1 / 2) * H| ≤ |l| + 3 * w := by
      refine (abs_add_le _ _).trans (add_le_add le_rfl ?_)
      rw [abs_le]
      constructor <;> nlinarith
    refine (abs_sub _ _).trans ?_
    linarith) (by linarith)
  refine ⟨q, hq, rq.trans ?_, hn28⟩
  linarith

/-- The same for a displacement of at most a cell, with the error in cell widths. -/
theorem departure_double {lo hi u dt : F64} {l h υ τ : ℚ} (hl : HasValue lo l) (hh : HasValue hi h) (hu : HasValue u υ)
    (hdt : HasValue dt τ) (h1 : (2 : ℚ) ^ (-900 : ℤ) ≤ h - l) (h2 : h - l ≤ 2 ^ 900) {n : ℤ} (hn0 : 0 < n)
    (h3 : n * (|l| + (h - l)) ≤ 2 ^ 28 * (h - l)) {v : ℤ} (hv0 : 0 ≤ v) (hv : v ≤ 3 * n) (hp : |υ * τ| ≤ (h - l) / n) :
    ∃ q, HasValue (lo + (hi - lo) / (n : F64) * (1 / 2) - (hi - lo) / (n : F64) * ((1 : ℤ) : F64)
        + (v : F64) * ((hi - lo) / (n : F64)) - u * dt) q ∧
      |q - (l + (v - 1 + 1 / 2) * ((h - l) / n) - υ * τ)| ≤ (h - l) / n / 2 ^ 17 ∧ (n : ℚ) ≤ 2 ^ 28 := by
  have hw0 : 0 < h - l := (two_zpow_pos _).trans_le h1
  have hnq : (0 : ℚ) < n := by exact_mod_cast hn0
  have hn1 : (1 : ℚ) ≤ n := by exact_mod_cast hn0
  have l0 := abs_nonneg l
  have hHw : (h - l) / n ≤ h - l := div_le_self hw0.le hn1
  obtain ⟨q, hq, rq, hn28⟩ := departure_fine hl hh hu hdt h1 h2 hn0 h3 hv0 hv (by linarith)
  refine ⟨q, hq, rq.trans ?_, hn28⟩
  generalize hw : h - l = w at *
  have hH0 : 0 < w / n := div_pos hw0 hnq
  have hHn : w / n * n = w := by field_simp
  generalize hH : w / n = H at *
  have e0 := ulp1_pos
  -- the bound on the rounding of positions in cell widths
  have small : ulp1 * (|l| + 3 * w) ≤ H * (3 / 2 ^ 24) := by
    have a1 : (|l| + 3 * w) * n ≤ 3 * 2 ^ 28 * w := by nlinarith [mul_nonneg l0 hnq.le]
    have a2 : ulp1 * (|l| + 3 * w) * n ≤ H * (3 / 2 ^ 24) * n := by
      calc ulp1 * (|l| + 3 * w) * n = ulp1 * ((|l| + 3 * w) * n) := by ring
        _ ≤ ulp1 * (3 * 2 ^ 28 * w) := mul_le_mul_of_nonneg_left a1 e0.le
        _ = H * (3 / 2 ^ 24) * n := by
          rw [← hHn]
          unfold ulp1
          ring
    exact le_of_mul_le_mul_right a2 hnq
  linarith

end Gals
