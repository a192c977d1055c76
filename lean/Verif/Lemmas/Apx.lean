import Verif.Lemmas.BaseDouble
import Verif.Model.Hermite

/-!
# Running error bounds in double arithmetic
-/

namespace Gals

open Gals.Spec

/-- The number is finite and within `k * 2 ^ (-52) * s` of `v`, and `v` is at most `a * s`: `s` is the scale. -/
structure Apx (x : F64) (v a k s : ℚ) : Prop where
  near : ∃ q, HasValue x q ∧ |q - v| ≤ k * ulp1 * s
  size : |v| ≤ a * s

/-- Scales at which rounding errors are relative and no operation below overflows. -/
structure Scaled (s : ℚ) : Prop where
  lo : (2 : ℚ) ^ (-1000 : ℤ) ≤ s
  hi : s ≤ 2 ^ 980

theorem Scaled.pos {s : ℚ} (h : Scaled s) : 0 < s := (two_zpow_pos _).trans_le h.lo

theorem scaled_one : Scaled 1 := ⟨zpow_le_one_of_nonpos₀ (by norm_num) (by norm_num), one_le_pow₀ (by norm_num)⟩

theorem Scaled.tiny {s : ℚ} (h : Scaled s) : tiny ≤ ulp1 * s / 4 := by
  have h1 := h.lo
  have e : Gals.tiny = ulp1 / 4 * 2 ^ (-1021 : ℤ) := by
    rw [Gals.tiny, ulp1, show (1 : ℚ) / 2 ^ 52 / 4 = 2 ^ (-54 : ℤ) by norm_num, ← two_zpow_add]
    norm_num
  have h2 : (2 : ℚ) ^ (-1021 : ℤ) ≤ s := (two_zpow_le (by norm_num)).trans h1
  rw [e]
  have := mul_le_mul_of_nonneg_left h2 (show 0 ≤ ulp1 / 4 by have := ulp1_pos; linarith)
  linarith

theorem Scaled.big {s m v : ℚ} (h : Scaled s) (hm : m ≤ 2 ^ 40) (hv : |v| ≤ m * s) : |v| ≤ 2 ^ 1020 := by
  calc |v| ≤ m * s := hv
    _ ≤ 2 ^ 40 * s := mul_le_mul_of_nonneg_right hm h.pos.le
    _ ≤ 2 ^ 40 * 2 ^ 980 := mul_le_mul_of_nonneg_left h.hi (by norm_num)
    _ = 2 ^ 1020 := (pow_add _ _ _).symm

/-- Rounding of a number close to `v`. -/
theorem apx_round {x : F64} {w v a k s : ℚ} (hs : Scaled s) (h : ∃ r, HasValue x r ∧ |r - w| ≤ unitRoundoff * |w| + tiny)
    (hw : |w - v| ≤ k * ulp1 * s) (hv : |v| ≤ a * s) (hk : k ≤ 2 ^ 40) : Apx x v a (k + a / 2 + 1) s := by
  obtain ⟨r, hr, e⟩ := h
  refine ⟨⟨r, hr, ?_⟩, hv⟩
  have s0 := hs.pos
  have t := hs.tiny
  have u0 := ulp1_pos
  have hu : unitRoundoff = ulp1 / 2 := by rw [← two_unit]; ring
  have h1 : |w| ≤ a * s + k * ulp1 * s := by
    have := abs_sub_abs_le_abs_sub w v
    linarith
  have h2 : k * ulp1 ≤ 1 := by
    have := mul_le_mul_of_nonneg_right hk u0.le
    have e2 : (2 : ℚ) ^ 40 * ulp1 ≤ 1 := by norm_num [ulp1]
    linarith
  have h3 : k * ulp1 * s ≤ 1 * s := mul_le_mul_of_nonneg_right h2 s0.le
  have h4 : ulp1 / 2 * |w| ≤ ulp1 / 2 * (a * s + 1 * s) := mul_le_mul_of_nonneg_left (by linarith) (by linarith)
  have us : 0 < ulp1 * s := mul_pos u0 s0
  rw [hu] at e
  calc |r - v| = |(r - w) + (w - v)| := by ring_nf
    _ ≤ |r - w| + |w - v| := abs_add_le _ _
    _ ≤ (k + a / 2 + 1) * ulp1 * s := by nlinarith

variable {x y : F64} {v w a b k l s t : ℚ}

theorem Apx.mono (h : Apx x v a k s) (hs : 0 < s) (ha : a ≤ b) (hk : k ≤ l) : Apx x v b l s := by
  obtain ⟨⟨q, h1, h2⟩, h3⟩ := h
  have u0 := ulp1_pos
  exact ⟨⟨q, h1, h2.trans (mul_le_mul_of_nonneg_right (mul_le_mul_of_nonneg_right hk u0.le) hs.le)⟩,
    h3.trans (mul_le_mul_of_nonneg_right ha hs.le)⟩

/-- A better bound of the exact value. -/
theorem Apx.bound (h : Apx x v a k s) (hb : |v| ≤ b * s) : Apx x v b k s := ⟨h.near, hb⟩

theorem Apx.exact (h : HasValue x v) (ha : |v| ≤ a * s) : Apx x v a 0 s := ⟨⟨v, h, by simp⟩, ha⟩

theorem Apx.a_nonneg (h : Apx x v a k s) (hs : 0 < s) : 0 ≤ a :=
  nonneg_of_mul_nonneg_left ((abs_nonneg v).trans h.size) hs

theorem Apx.k_nonneg (h : Apx x v a k s) (hs : 0 < s) : 0 ≤ k := by
  obtain ⟨⟨q, -, h2⟩, -⟩ := h
  have := nonneg_of_mul_nonneg_left ((abs_nonneg _).trans h2) hs
  exact nonneg_of_mul_nonneg_left this ulp1_pos

theorem Apx.abs_le {q : ℚ} (hs : 0 < s) (hk : k ≤ 2 ^ 30) (ha : |v| ≤ a * s) (hq : |q - v| ≤ k * ulp1 * s) :
    |q| ≤ (a + 1) * s := by
  have u0 := ulp1_pos
  have h2 : k * ulp1 ≤ 1 := by
    have := mul_le_mul_of_nonneg_right hk u0.le
    have e2 : (2 : ℚ) ^ 30 * ulp1 ≤ 1 := by norm_num [ulp1]
    linarith
  have := mul_le_mul_of_nonneg_right h2 hs.le
  have := abs_sub_abs_le_abs_sub q v
  linarith

theorem Apx.add (h1 : Apx x v a k s) (h2 : Apx y w b l s) (hs : Scaled s) (ha : a + b ≤ 2 ^ 30 := by norm_num)
    (hk : k ≤ 2 ^ 30 := by norm_num) (hl : l ≤ 2 ^ 30 := by norm_num) :
    Apx (x + y) (v + w) (a + b) (k + l + (a + b) / 2 + 1) s := by
  obtain ⟨⟨p, hp, ep⟩, hv⟩ := h1
  obtain ⟨⟨q, hq, eq⟩, hw⟩ := h2
  have s0 := hs.pos
  have hpq : |p + q| ≤ (a + b + 2) * s := by
    have := abs_add_le p q
    have := Apx.abs_le s0 hk hv ep
    have := Apx.abs_le s0 hl hw eq
    linarith
  refine apx_round hs (hasValue_add hp hq (hs.big (m := a + b + 2) (by linarith) hpq)) ?_ ?_ (by linarith)
  · have : p + q - (v + w) = (p - v) + (q - w) := by ring
    rw [this]
    have := abs_add_le (p - v) (q - w)
    linarith
  · have := abs_add_le v w
    linarith

theorem Apx.neg (h : Apx x v a k s) : Apx (-x) (-v) a k s := by
  obtain ⟨⟨p, hp, ep⟩, hv⟩ := h
  refine ⟨⟨-p, hasValue_neg hp, ?_⟩, by rwa [abs_neg]⟩
  rw [← neg_sub', abs_neg]
  exact ep

theorem Apx.sub (h1 : Apx x v a k s) (h2 : Apx y w b l s) (hs : Scaled s) (ha : a + b ≤ 2 ^ 30 := by norm_num)
    (hk : k ≤ 2 ^ 30 := by norm_num) (hl : l ≤ 2 ^ 30 := by norm_num) :
    Apx (x - y) (v - w) (a + b) (k + l + (a + b) / 2 + 1) s := by
  have := h1.add h2.neg hs ha hk hl
  rwa [← sub_eq_add_neg] at this

theorem Apx.mul (h1 : Apx x v a k s) (h2 : Apx y w b l t) (hs : 0 < s) (ht : 0 < t) (hst : Scaled (s * t))
    (ha : a ≤ 2 ^ 10 := by norm_num) (hb : b ≤ 2 ^ 10 := by norm_num) (hk : k ≤ 2 ^ 20 := by norm_num)
    (hl : l ≤ 2 ^ 20 := by norm_num) :
    Apx (x * y) (v * w) (a * b) (a * l + b * k + a * b / 2 + 2) (s * t) := by
  have a0 := h1.a_nonneg hs
  have k0 := h1.k_nonneg hs
  have b0 := h2.a_nonneg ht
  have l0 := h2.k_nonneg ht
  obtain ⟨⟨p, hp, ep⟩, hv⟩ := h1
  obtain ⟨⟨q, hq, eq⟩, hw⟩ := h2
  have u0 := ulp1_pos
  have e1 : |p * q - v * w| ≤ (a * l + b * k + 1) * ulp1 * (s * t) := by
    have e : p * q - v * w = v * (q - w) + w * (p - v) + (p - v) * (q - w) := by ring
    have m1 : |v * (q - w)| ≤ a * s * (l * ulp1 * t) := by
      rw [abs_mul]; exact mul_le_mul hv eq (abs_nonneg _) (by positivity)
    have m2 : |w * (p - v)| ≤ b * t * (k * ulp1 * s) := by
      rw [abs_mul]; exact mul_le_mul hw ep (abs_nonneg _) (by positivity)
    have m3 : |(p - v) * (q - w)| ≤ k * ulp1 * s * (l * ulp1 * t) := by
      rw [abs_mul]; exact mul_le_mul ep eq (abs_nonneg _) (by positivity)
    have m4 : k * l * ulp1 ≤ 1 := by
      calc k * l * ulp1 ≤ 2 ^ 20 * 2 ^ 20 * ulp1 :=
            mul_le_mul_of_nonneg_right (mul_le_mul hk hl l0 (by norm_num)) u0.le
        _ ≤ 1 := by norm_num [ulp1]
    have m5 : k * ulp1 * s * (l * ulp1 * t) ≤ 1 * (ulp1 * (s * t)) := by
      have : k * ulp1 * s * (l * ulp1 * t) = k * l * ulp1 * (ulp1 * (s * t)) := by ring
      rw [this]
      exact mul_le_mul_of_nonneg_right m4 (by positivity)
    rw [e]
    calc _ ≤ |v * (q - w)| + |w * (p - v)| + |(p - v) * (q - w)| := abs_add_three _ _ _
      _ ≤ a * s * (l * ulp1 * t) + b * t * (k * ulp1 * s) + 1 * (ulp1 * (s * t)) := by linarith
      _ = _ := by ring
  have hpq : |p * q| ≤ ((a + 1) * (b + 1)) * (s * t) := by
    have m1 := Apx.abs_le hs (hk.trans (by norm_num)) hv ep
    have m2 := Apx.abs_le ht (hl.trans (by norm_num)) hw eq
    rw [abs_mul]
    calc _ ≤ (a + 1) * s * ((b + 1) * t) := mul_le_mul m1 m2 (abs_nonneg _) (by positivity)
      _ = _ := by ring
  have hab : (a + 1) * (b + 1) ≤ 2 ^ 40 :=
    calc _ ≤ (2 ^ 20 : ℚ) * 2 ^ 20 := mul_le_mul (by linarith) (by linarith) (by linarith) (by norm_num)
      _ = _ := by norm_num
  have hvw : |v * w| ≤ a * b * (s * t) := by
    rw [abs_mul]
    calc _ ≤ a * s * (b * t) := mul_le_mul hv hw (abs_nonneg _) (by positivity)
      _ = _ := by ring
  have hk' : a * l + b * k + 1 ≤ 2 ^ 40 := by
    have m1 : a * l ≤ 2 ^ 10 * 2 ^ 20 := mul_le_mul ha hl l0 (by norm_num)
    have m2 : b * k ≤ 2 ^ 10 * 2 ^ 20 := mul_le_mul hb hk k0 (by norm_num)
    linarith
  refine (apx_round hst (hasValue_mul hp hq (hst.big hab hpq)) e1 hvw hk').mono hst.pos le_rfl ?_
  linarith

/-- Small natural numbers are exact. -/
theorem apx_nat {n : ℕ} (h : n < 2 ^ 53 := by norm_num) : Apx (n : F64) n n 0 1 :=
  Apx.exact (hasValue_nat h) (by rw [mul_one, abs_of_nonneg n.cast_nonneg])

theorem apx_one : Apx (1 : F64) 1 1 0 1 := Apx.exact hasValue_one (by norm_num)

theorem apx_zero (s : ℚ) : Apx (0 : F64) 0 0 0 s := Apx.exact hasValue_zero (by simp)

theorem apx_third : Apx (oneThird : F64) (1 / 3) (1 / 3) 2 1 := by
  have h := hasValue_div hasValue_one (hasValue_nat (n := 3) (by norm_num)) (by norm_num)
    (by rw [abs_of_pos (by norm_num)]; exact le_trans (by norm_num) (one_le_pow₀ (by norm_num : (1 : ℚ) ≤ 2)))
  have e : (oneThird : F64) = 1 / ((3 : ℕ) : F64) := rfl
  rw [← e] at h
  refine (apx_round (a := 1 / 3) (k := 0) (v := 1 / 3) scaled_one h (by norm_num) (by norm_num [abs_of_pos]) (by norm_num)).mono
    (by norm_num) le_rfl (by norm_num)

end Gals
