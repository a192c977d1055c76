import Verif.Lemmas.Double
import Verif.Spec.Double
import Mathlib.Tactic.LinearCombination
import Mathlib.Tactic.FieldSimp

/-!
# Errors of the operations on finite numbers of type `double`
-/

namespace Gals

open Gals.Spec

/-- Half the smallest positive number of type `double`. -/
def tiny : ℚ := 2 ^ (-1075 : ℤ)

theorem tiny_pos : 0 < tiny := two_zpow_pos _

/-- The error of rounding of any magnitude. -/
theorem roundMag_error' {q : ℚ} (h : 0 ≤ q) : |roundMag q - q| ≤ unitRoundoff * q + tiny := by
  have ht := tiny_pos
  rcases le_or_gt ((2 : ℚ) ^ (-1022 : ℤ)) q with h1 | h1
  · have := roundMag_error h1
    linarith
  have hu : 0 ≤ unitRoundoff * q := mul_nonneg unitRoundoff_pos.le h
  rcases h.eq_or_lt with rfl | h0
  · rw [roundMag_zero]
    simpa using ht.le
  have hl : lastPlace q = -1074 := by have := log_lt h0 h1; unfold lastPlace; omega
  have e : roundMag q - q = (roundEven (q / 2 ^ lastPlace q) - q / 2 ^ lastPlace q) * 2 ^ lastPlace q := by
    rw [roundMag, sub_mul, div_mul_cancel₀ _ (two_zpow_pos _).ne']
  have : |roundMag q - q| ≤ tiny := by
    rw [e, abs_mul, abs_of_pos (two_zpow_pos _)]
    calc _ ≤ 1 / 2 * (2 : ℚ) ^ lastPlace q := mul_le_mul_of_nonneg_right (roundEven_near _) (two_zpow_pos _).le
      _ = tiny := by
        rw [hl, tiny, show (1 / 2 : ℚ) = 2 ^ (-1 : ℤ) by norm_num, ← two_zpow_add]
        norm_num
  linarith

theorem hasValue_fin {s : Bool} {m : ℚ} (h : IsMag m) : HasValue (.fin s m h) (F64.signed s m) := ⟨s, m, h, rfl, rfl⟩

theorem hasValue_unique {x : F64} {p q : ℚ} (hp : HasValue x p) (hq : HasValue x q) : p = q := by
  obtain ⟨s, m, h, rfl, rfl⟩ := hp
  obtain ⟨s', m', h', e, rfl⟩ := hq
  cases e
  rfl

theorem signed_abs {s : Bool} {m : ℚ} (h : 0 ≤ m) : |F64.signed s m| = m := by
  cases s <;> simp [F64.signed, abs_of_nonneg h]

theorem big_lt {q : ℚ} (h0 : 0 ≤ q) (h : q ≤ 2 ^ 1020) : roundMag q < 2 ^ 1024 := by
  have h1 := abs_le.1 (roundMag_error' h0)
  have hu : unitRoundoff ≤ 1 := unitRoundoff_le.trans (by norm_num)
  have ht : tiny ≤ 1 := by
    unfold tiny
    exact zpow_le_one_of_nonpos₀ (by norm_num) (by norm_num)
  have h2 : roundMag q ≤ 2 ^ 1020 * 3 := by
    have : unitRoundoff * q ≤ 1 * q := mul_le_mul_of_nonneg_right hu h0
    have : (1 : ℚ) ≤ 2 ^ 1020 := one_le_pow₀ (by norm_num)
    generalize (2 : ℚ) ^ 1020 = B at *
    linarith [h1.2]
  refine lt_of_le_of_lt h2 ?_
  calc (2 : ℚ) ^ 1020 * 3 < 2 ^ 1020 * 2 ^ 4 := mul_lt_mul_of_pos_left (by norm_num) (by positivity)
    _ = 2 ^ 1024 := by rw [← pow_add]

/-- Rounding of a number in range. -/
theorem hasValue_round {s : Bool} {q : ℚ} (h : |q| ≤ 2 ^ 1020) :
    ∃ r, HasValue (F64.round s q) r ∧ |r - F64.signed s (|q|)| ≤ unitRoundoff * |q| + tiny := by
  have hb := big_lt (abs_nonneg q) h
  refine ⟨F64.signed s (roundMag |q|), ?_, ?_⟩
  · unfold F64.round
    rw [dif_pos hb]
    exact hasValue_fin _
  · have e := roundMag_error' (abs_nonneg q)
    have : |F64.signed s (roundMag |q|) - F64.signed s (|q|)| = |roundMag |q| - (|q|)| := by
      cases s
      · rfl
      · simp only [F64.signed, if_true]
        rw [show -roundMag |q| - -|q| = -(roundMag |q| - |q|) by ring, abs_neg]
    rw [this]
    exact e

theorem hasValue_add {x y : F64} {p q : ℚ} (hx : HasValue x p) (hy : HasValue y q) (h : |p + q| ≤ 2 ^ 1020) :
    ∃ r, HasValue (x + y) r ∧ |r - (p + q)| ≤ unitRoundoff * |p + q| + tiny := by
  obtain ⟨s, a, ha, rfl, rfl⟩ := hx
  obtain ⟨t, b, hb, rfl, rfl⟩ := hy
  change |F64.signed s a + F64.signed t b| ≤ _ at h
  show ∃ r, HasValue (F64.add _ _) r ∧ |r - (F64.signed s a + F64.signed t b)| ≤
    unitRoundoff * |F64.signed s a + F64.signed t b| + tiny
  simp only [F64.add]
  generalize F64.signed s a + F64.signed t b = v at h ⊢
  by_cases h0 : v = 0
  · rw [if_pos h0]
    refine ⟨_, hasValue_fin _, ?_⟩
    have : F64.signed (s && t) 0 = 0 := by unfold F64.signed; split <;> simp
    rw [this, h0]
    simpa using tiny_pos.le
  · rw [if_neg h0]
    obtain ⟨r, h1, h2⟩ := hasValue_round (s := decide (v < 0)) h
    refine ⟨r, h1, ?_⟩
    have : F64.signed (decide (v < 0)) |v| = v := by
      rcases lt_or_gt_of_ne h0 with hv | hv
      · rw [decide_eq_true hv, abs_of_neg hv]; simp [F64.signed]
      · rw [decide_eq_false (not_lt.2 hv.le), abs_of_pos hv]; simp [F64.signed]
    rwa [this] at h2

theorem hasValue_neg {x : F64} {p : ℚ} (hx : HasValue x p) : HasValue (-x) (-p) := by
  obtain ⟨s, a, ha, rfl, rfl⟩ := hx
  refine ⟨!s, a, ha, rfl, ?_⟩
  cases s <;> simp

theorem hasValue_sub {x y : F64} {p q : ℚ} (hx : HasValue x p) (hy : HasValue y q) (h : |p - q| ≤ 2 ^ 1020) :
    ∃ r, HasValue (x - y) r ∧ |r - (p - q)| ≤ unitRoundoff * |p - q| + tiny := by
  have := hasValue_add hx (hasValue_neg hy) (by rwa [← sub_eq_add_neg])
  rw [← sub_eq_add_neg] at this
  exact this

theorem signed_xor_mul (s t : Bool) (a b : ℚ) : F64.signed (s ^^ t) (a * b) = F64.signed s a * F64.signed t b := by
  cases s <;> cases t <;> simp [F64.signed]

theorem signed_xor_div (s t : Bool) (a b : ℚ) : F64.signed (s ^^ t) (a / b) = F64.signed s a / F64.signed t b := by
  cases s <;> cases t <;> simp [F64.signed, neg_div, div_neg]

theorem hasValue_mul {x y : F64} {p q : ℚ} (hx : HasValue x p) (hy : HasValue y q) (h : |p * q| ≤ 2 ^ 1020) :
    ∃ r, HasValue (x * y) r ∧ |r - p * q| ≤ unitRoundoff * |p * q| + tiny := by
  obtain ⟨s, a, ha, rfl, rfl⟩ := hx
  obtain ⟨t, b, hb, rfl, rfl⟩ := hy
  have hab : 0 ≤ a * b := mul_nonneg (isMag_nonneg ha) (isMag_nonneg hb)
  change |F64.signed s a * F64.signed t b| ≤ _ at h
  show ∃ r, HasValue (F64.mul _ _) r ∧ |r - F64.signed s a * F64.signed t b| ≤
    unitRoundoff * |F64.signed s a * F64.signed t b| + tiny
  rw [← signed_xor_mul, signed_abs hab] at *
  obtain ⟨r, h1, h2⟩ := hasValue_round (s := s ^^ t) (q := a * b) (by rwa [abs_of_nonneg hab])
  rw [abs_of_nonneg hab] at h2
  exact ⟨r, h1, h2⟩

theorem hasValue_div {x y : F64} {p q : ℚ} (hx : HasValue x p) (hy : HasValue y q) (hq : q ≠ 0) (h : |p / q| ≤ 2 ^ 1020) :
    ∃ r, HasValue (x / y) r ∧ |r - p / q| ≤ unitRoundoff * |p / q| + tiny := by
  obtain ⟨s, a, ha, rfl, rfl⟩ := hx
  obtain ⟨t, b, hb, rfl, rfl⟩ := hy
  have hab : 0 ≤ a / b := div_nonneg (isMag_nonneg ha) (isMag_nonneg hb)
  have hb0 : b ≠ 0 := by
    rintro rfl
    apply hq
    split <;> simp
  change |F64.signed s a / F64.signed t b| ≤ _ at h
  show ∃ r, HasValue (F64.div _ _) r ∧ |r - F64.signed s a / F64.signed t b| ≤
    unitRoundoff * |F64.signed s a / F64.signed t b| + tiny
  rw [← signed_xor_div, signed_abs hab] at *
  simp only [F64.div]
  rw [if_neg hb0]
  obtain ⟨r, h1, h2⟩ := hasValue_round (s := s ^^ t) (q := a / b) (by rwa [abs_of_nonneg hab])
  rw [abs_of_nonneg hab] at h2
  exact ⟨r, h1, h2⟩

/-- A number whose magnitude is one of type `double` is converted without error. -/
theorem hasValue_round_exact {s : Bool} {q : ℚ} (h : IsMag |q|) : HasValue (F64.round s q) (F64.signed s |q|) := by
  have e := roundMag_fixed h
  have hb : roundMag |q| < 2 ^ 1024 := by
    rw [e]
    obtain ⟨n, k, -, -, -, h⟩ := h
    exact h
  unfold F64.round
  rw [dif_pos hb]
  refine ⟨s, _, _, rfl, ?_⟩
  rw [e]
  rfl

theorem isMag_natAbs {n : ℤ} (h : |n| < 2 ^ 53) : IsMag |(n : ℚ)| :=
  ⟨n.natAbs, 0, by have := Int.natCast_natAbs n; omega, by norm_num, by simp [Nat.cast_natAbs], by
    have h1 : |(n : ℚ)| < 2 ^ 53 := by exact_mod_cast h
    exact h1.trans (pow_lt_pow_right₀ (by norm_num) (by norm_num))⟩

theorem hasValue_int {n : ℤ} (h : |n| < 2 ^ 53) : HasValue (n : F64) n := by
  have := hasValue_round_exact (s := decide (n < 0)) (isMag_natAbs h)
  have e : F64.signed (decide (n < 0)) |(n : ℚ)| = n := by
    rcases lt_or_ge n 0 with hn | hn
    · rw [decide_eq_true hn, abs_of_neg (by exact_mod_cast hn)]; simp [F64.signed]
    · rw [decide_eq_false (not_lt.2 hn), abs_of_nonneg (by exact_mod_cast hn)]; simp [F64.signed]
  rwa [e] at this

theorem hasValue_nat {n : ℕ} (h : n < 2 ^ 53) : HasValue (n : F64) n := by
  have := hasValue_round_exact (s := false) (q := (n : ℚ)) (by
    have := isMag_natAbs (n := n) (by rw [Nat.abs_cast]; exact_mod_cast h)
    exact_mod_cast this)
  have e : F64.signed false |(n : ℚ)| = n := by simp [F64.signed]
  rw [e] at this
  exact this

theorem hasValue_one : HasValue (1 : F64) 1 := by
  have := hasValue_nat (n := 1) (by norm_num)
  exact_mod_cast this

theorem hasValue_zero : HasValue (0 : F64) 0 := ⟨false, 0, isMag_zero, rfl, rfl⟩

theorem half_isMag : IsMag (1 / 2) := ⟨1, -1, by norm_num, by norm_num, by norm_num, by
  exact lt_of_lt_of_le (by norm_num) (one_le_pow₀ (by norm_num : (1 : ℚ) ≤ 2))⟩

theorem hasValue_half : HasValue (1 / 2 : F64) (1 / 2) := by
  obtain ⟨s, a, ha, e, v⟩ := hasValue_one
  obtain ⟨t, b, hb, e', v'⟩ := hasValue_nat (n := 2) (by norm_num)
  have e2 : (2 : F64) = .fin t b hb := e'
  show HasValue (F64.div 1 2) _
  rw [e, e2]
  simp only [F64.div]
  have hb0 : b ≠ 0 := by rintro rfl; cases t <;> norm_num at v'
  rw [if_neg hb0]
  have hab : 0 ≤ a / b := div_nonneg (isMag_nonneg ha) (isMag_nonneg hb)
  have e3 : F64.signed (s ^^ t) (a / b) = 1 / 2 := by
    rw [signed_xor_div]
    change (1 : ℚ) = F64.signed s a at v
    change ((2 : ℕ) : ℚ) = F64.signed t b at v'
    rw [← v, ← v']
    norm_num
  have e4 : a / b = 1 / 2 := by
    have := signed_abs (s := s ^^ t) hab
    rw [e3] at this
    rw [← this]
    norm_num
  have := hasValue_round_exact (s := s ^^ t) (q := a / b) (by rw [e4, abs_of_pos (by norm_num)]; exact half_isMag)
  rwa [abs_of_nonneg hab, e3] at this

theorem floor_eq {x : F64} {q : ℚ} (h : HasValue x q) : HasFloor.floorI x = ⌊q⌋ := by
  obtain ⟨s, m, hm, rfl, rfl⟩ := h
  rfl

theorem hasValue_lt {x y : F64} {p q : ℚ} (hx : HasValue x p) (hy : HasValue y q) : x < y ↔ p < q := by
  obtain ⟨s, a, ha, rfl, rfl⟩ := hx
  obtain ⟨t, b, hb, rfl, rfl⟩ := hy
  exact decide_eq_true_iff

theorem hasValue_le {x y : F64} {p q : ℚ} (hx : HasValue x p) (hy : HasValue y q) : x ≤ y ↔ p ≤ q := by
  obtain ⟨s, a, ha, rfl, rfl⟩ := hx
  obtain ⟨t, b, hb, rfl, rfl⟩ := hy
  exact decide_eq_true_iff

end Gals
