import Verif.Model.Double
import Mathlib.Tactic.Ring
import Mathlib.Tactic.FieldSimp

/-!
# Rounding of `double`
-/

set_option linter.unusedSimpArgs false

namespace Gals

/-! ## Nearest integers -/

theorem le_roundEven {q : ℚ} {n : ℤ} (h : n ≤ q) : n ≤ roundEven q := by
  have : n ≤ ⌊q⌋ := Int.le_floor.2 h
  unfold roundEven
  split_ifs <;> omega

theorem roundEven_int (n : ℤ) : roundEven n = n := le_antisymm (roundEven_le le_rfl) (le_roundEven le_rfl)

theorem roundEven_near (q : ℚ) : |(roundEven q : ℚ) - q| ≤ 1 / 2 := by
  have h1 := Int.floor_le q
  have h2 := Int.lt_floor_add_one q
  rw [abs_le]
  unfold roundEven
  split_ifs <;> push_cast <;> constructor <;> linarith

theorem roundEven_mono {p q : ℚ} (h : p ≤ q) : roundEven p ≤ roundEven q := by
  have hf : ⌊p⌋ ≤ ⌊q⌋ := Int.floor_le_floor h
  rcases hf.eq_or_lt with e | hlt
  · unfold roundEven
    rw [e]
    split_ifs <;> first | omega | (exfalso; linarith)
  · have h1 : roundEven p ≤ ⌊p⌋ + 1 := roundEven_le (by push_cast; exact (Int.lt_floor_add_one p).le)
    have h2 : ⌊q⌋ ≤ roundEven q := le_roundEven (Int.floor_le q)
    omega

/-! ## Magnitudes -/

theorem two_zpow_pos (e : ℤ) : (0 : ℚ) < 2 ^ e := zpow_pos (by norm_num) e

theorem two_zpow_add (a b : ℤ) : (2 : ℚ) ^ (a + b) = 2 ^ a * 2 ^ b := zpow_add₀ (by norm_num) a b

theorem two_zpow_le {a b : ℤ} (h : a ≤ b) : (2 : ℚ) ^ a ≤ 2 ^ b := zpow_le_zpow_right₀ (by norm_num) h

theorem log_le {q : ℚ} (h : 0 < q) : (2 : ℚ) ^ Int.log 2 q ≤ q := by
  exact_mod_cast Int.zpow_log_le_self (R := ℚ) (b := 2) (by norm_num) h

theorem lt_log (q : ℚ) : q < (2 : ℚ) ^ (Int.log 2 q + 1) := by
  exact_mod_cast Int.lt_zpow_succ_log_self (R := ℚ) (b := 2) (by norm_num) q

theorem le_log {e : ℤ} {q : ℚ} (h : (2 : ℚ) ^ e ≤ q) : e ≤ Int.log 2 q :=
  (Int.zpow_le_iff_le_log (b := 2) (by norm_num) ((two_zpow_pos e).trans_le h)).1 (by exact_mod_cast h)

theorem log_lt {e : ℤ} {q : ℚ} (h0 : 0 < q) (h : q < (2 : ℚ) ^ e) : Int.log 2 q < e :=
  (Int.lt_zpow_iff_log_lt (b := 2) (by norm_num) h0).1 (by exact_mod_cast h)

/-- The largest relative error of rounding. -/
def unitRoundoff : ℚ := 2 ^ (-53 : ℤ)

theorem unitRoundoff_pos : 0 < unitRoundoff := two_zpow_pos _
theorem unitRoundoff_le : unitRoundoff ≤ 1 / 2 ^ 53 := by norm_num [unitRoundoff]

theorem roundMag_zero : roundMag 0 = 0 := by
  have : roundEven 0 = 0 := by exact_mod_cast roundEven_int 0
  simp [roundMag, this]

theorem roundMag_nonneg {q : ℚ} (h : 0 ≤ q) : 0 ≤ roundMag q :=
  mul_nonneg (by exact_mod_cast roundEven_nonneg (div_nonneg h (two_zpow_pos _).le)) (two_zpow_pos _).le

/-- Magnitudes of numbers of type `double` are multiples of their last place. -/
theorem isMag_multiple {q : ℚ} (h : IsMag q) : ∃ n : ℤ, q = n * 2 ^ lastPlace q := by
  obtain ⟨n, e, hn, he, hq, -⟩ := h
  rcases Nat.eq_zero_or_pos n with rfl | hn0
  · exact ⟨0, by simp [hq]⟩
  have hn1 : (1 : ℚ) ≤ n := by exact_mod_cast hn0
  have hq0 : 0 < q := by rw [hq]; exact mul_pos (by linarith) (two_zpow_pos e)
  by_cases hle : lastPlace q ≤ e
  · refine ⟨n * 2 ^ (e - lastPlace q).toNat, ?_⟩
    have : (2 : ℚ) ^ e = 2 ^ (e - lastPlace q).toNat * 2 ^ lastPlace q := by
      rw [← zpow_natCast, ← two_zpow_add, Int.toNat_of_nonneg (by omega)]
      congr 1
      omega
    calc q = n * 2 ^ e := hq
      _ = _ := by rw [this]; push_cast; ring
  · have hl : lastPlace q = Int.log 2 q - 52 := by unfold lastPlace at hle ⊢; omega
    have hn2 : (n : ℚ) ≤ 2 ^ 53 := by exact_mod_cast hn
    have hup : q ≤ 2 ^ (e + 53) := by
      rw [hq, two_zpow_add, mul_comm]
      exact mul_le_mul_of_nonneg_left (by exact_mod_cast hn2) (two_zpow_pos e).le
    have hlo : (2 : ℚ) ^ (e + 53) ≤ q := (two_zpow_le (by omega)).trans (log_le hq0)
    have heq : q = 2 ^ (e + 53) := le_antisymm hup hlo
    have hlog : Int.log 2 q = e + 53 := by
      rw [heq]
      exact_mod_cast Int.log_zpow (R := ℚ) (b := 2) (by norm_num) (e + 53)
    refine ⟨2 ^ 52, ?_⟩
    rw [hl, hlog, heq]
    push_cast
    rw [show e + 53 = 52 + (e + 53 - 52) by ring, two_zpow_add, show (2 : ℚ) ^ (52 : ℤ) = 2 ^ 52 from rfl]
    congr 2
    ring

/-- Numbers of type `double` are not changed by rounding. -/
theorem roundMag_fixed {q : ℚ} (h : IsMag q) : roundMag q = q := by
  obtain ⟨n, hn⟩ := isMag_multiple h
  have : q / 2 ^ lastPlace q = n := by rw [div_eq_iff (two_zpow_pos _).ne']; exact hn
  rw [roundMag, this, roundEven_int]
  exact hn.symm

theorem isMag_nonneg {q : ℚ} (h : IsMag q) : 0 ≤ q := by
  obtain ⟨n, e, -, -, hq, -⟩ := h
  rw [hq]
  exact mul_nonneg n.cast_nonneg (two_zpow_pos e).le

theorem lastPlace_mono {p q : ℚ} (h0 : 0 < p) (h : p ≤ q) : lastPlace p ≤ lastPlace q := by
  have := le_log ((log_le h0).trans h)
  unfold lastPlace
  omega

/-- Rounding is monotone. -/
theorem roundMag_mono {p q : ℚ} (h0 : 0 ≤ p) (h : p ≤ q) : roundMag p ≤ roundMag q := by
  rcases h0.eq_or_lt with rfl | h0
  · rw [roundMag_zero]
    exact roundMag_nonneg h
  rcases (lastPlace_mono h0 h).eq_or_lt with e | hlt
  · rw [roundMag, roundMag, e]
    exact mul_le_mul_of_nonneg_right (by exact_mod_cast roundEven_mono (div_le_div_of_nonneg_right h (two_zpow_pos _).le))
      (two_zpow_pos _).le
  · have hl : lastPlace q = Int.log 2 q - 52 := by unfold lastPlace at hlt ⊢; omega
    have h1 : roundMag p ≤ 2 ^ 53 * 2 ^ lastPlace p := by
      refine mul_le_mul_of_nonneg_right ?_ (two_zpow_pos _).le
      have : roundEven (p / 2 ^ lastPlace p) ≤ 2 ^ 53 :=
        roundEven_le (by push_cast; rw [div_le_iff₀ (two_zpow_pos _)]; exact (lt_lastPlace p).le)
      exact_mod_cast this
    have h2 : 2 ^ 52 * 2 ^ lastPlace q ≤ roundMag q := by
      refine mul_le_mul_of_nonneg_right ?_ (two_zpow_pos _).le
      have : 2 ^ 52 ≤ roundEven (q / 2 ^ lastPlace q) := le_roundEven (by
        push_cast
        rw [le_div_iff₀ (two_zpow_pos _), hl]
        refine le_trans (le_of_eq ?_) (log_le (h0.trans_le h))
        have : (2 : ℚ) ^ (52 : ℤ) * 2 ^ (Int.log 2 q - 52) = 2 ^ Int.log 2 q := by
          rw [← two_zpow_add]
          congr 1
          ring
        exact_mod_cast this)
      exact_mod_cast this
    have h3 : (2 : ℚ) ^ 53 * 2 ^ lastPlace p ≤ 2 ^ 52 * 2 ^ lastPlace q := by
      rw [show (2 : ℚ) ^ 53 = 2 ^ (53 : ℤ) from rfl, show (2 : ℚ) ^ 52 = 2 ^ (52 : ℤ) from rfl, ← two_zpow_add, ← two_zpow_add]
      exact two_zpow_le (by omega)
    linarith

/-- The relative error of rounding outside the subnormal numbers. -/
theorem roundMag_error {q : ℚ} (h : (2 : ℚ) ^ (-1022 : ℤ) ≤ q) : |roundMag q - q| ≤ unitRoundoff * q := by
  have h0 : 0 < q := (two_zpow_pos _).trans_le h
  have hl : lastPlace q = Int.log 2 q - 52 := by have := le_log h; unfold lastPlace; omega
  have e : roundMag q - q = (roundEven (q / 2 ^ lastPlace q) - q / 2 ^ lastPlace q) * 2 ^ lastPlace q := by
    rw [roundMag, sub_mul, div_mul_cancel₀ _ (two_zpow_pos _).ne']
  rw [e, abs_mul, abs_of_pos (two_zpow_pos _)]
  calc _ ≤ 1 / 2 * (2 : ℚ) ^ lastPlace q := mul_le_mul_of_nonneg_right (roundEven_near _) (two_zpow_pos _).le
    _ = unitRoundoff * 2 ^ Int.log 2 q := by
      rw [unitRoundoff, hl, ← two_zpow_add, show (1 / 2 : ℚ) = 2 ^ (-1 : ℤ) by norm_num, ← two_zpow_add]
      congr 1
      ring
    _ ≤ _ := mul_le_mul_of_nonneg_left (log_le h0) (two_zpow_pos _).le

/-- Two different numbers of type `double` differ by a relative amount of at least `2 ^ (-53)`. -/
theorem isMag_gap {p b : ℚ} (hp : IsMag p) (hb : IsMag b) (h : p < b) (hb0 : (2 : ℚ) ^ (-1021 : ℤ) ≤ b) :
    p ≤ b - unitRoundoff * b := by
  have hb1 : 0 < b := (two_zpow_pos _).trans_le hb0
  have hL := le_log hb0
  have h53 : unitRoundoff ≤ 1 / 2 := unitRoundoff_le.trans (by norm_num)
  have hlo := log_le hb1
  rcases (isMag_nonneg hp).eq_or_lt with rfl | hp0
  · nlinarith
  obtain ⟨k, hk⟩ := isMag_multiple hp
  obtain ⟨k', hk'⟩ := isMag_multiple hb
  rcases lt_or_ge p (2 ^ Int.log 2 b) with hlt | hge
  · have hlp := log_lt hp0 hlt
    rcases lt_or_ge p (2 ^ (Int.log 2 b - 1)) with hl1 | hl1
    · have : (2 : ℚ) ^ Int.log 2 b = 2 * 2 ^ (Int.log 2 b - 1) := by
        rw [show Int.log 2 b = 1 + (Int.log 2 b - 1) by ring, two_zpow_add]
        simp
      nlinarith
    · have e1 := le_log hl1
      have el : lastPlace p = Int.log 2 b - 53 := by unfold lastPlace; omega
      have e2 : (2 : ℚ) ^ Int.log 2 b = 2 ^ 53 * 2 ^ (Int.log 2 b - 53) := by
        rw [show (2 : ℚ) ^ 53 = 2 ^ (53 : ℤ) from rfl, ← two_zpow_add]
        congr 1
        ring
      have hkk : k < 2 ^ 53 := by
        rw [hk, el, e2] at hlt
        exact_mod_cast lt_of_mul_lt_mul_right hlt (two_zpow_pos _).le
      have hk2 : (k : ℚ) ≤ 2 ^ 53 - 1 := by
        have : k ≤ 2 ^ 53 - 1 := by omega
        exact_mod_cast this
      have hp2 : p ≤ (1 - unitRoundoff) * 2 ^ Int.log 2 b := by
        rw [e2]
        nth_rewrite 1 [hk]
        rw [el, ← mul_assoc]
        refine mul_le_mul_of_nonneg_right (hk2.trans (le_of_eq ?_)) (two_zpow_pos _).le
        norm_num [unitRoundoff]
      have : (1 - unitRoundoff) * 2 ^ Int.log 2 b ≤ (1 - unitRoundoff) * b :=
        mul_le_mul_of_nonneg_left hlo (by linarith)
      linarith
  · have e1 := le_log hge
    have e2 : Int.log 2 p ≤ Int.log 2 b := le_log ((log_le hp0).trans h.le)
    have el : lastPlace p = lastPlace b := by unfold lastPlace; omega
    have eb : lastPlace b = Int.log 2 b - 52 := by unfold lastPlace; omega
    have hkk : k < k' := by
      rw [hk, hk', el] at h
      exact_mod_cast lt_of_mul_lt_mul_right h (two_zpow_pos _).le
    have hk2 : (k : ℚ) + 1 ≤ k' := by exact_mod_cast hkk
    have h1 : p + 2 ^ lastPlace b ≤ b := by
      have := mul_le_mul_of_nonneg_right hk2 (two_zpow_pos (lastPlace b)).le
      rw [← hk', add_mul, one_mul, ← el, ← hk, el] at this
      exact this
    have h2 : unitRoundoff * b ≤ 2 ^ lastPlace b := by
      have : (2 : ℚ) ^ (Int.log 2 b + 1) = 2 ^ (53 : ℤ) * 2 ^ lastPlace b := by
        rw [eb, ← two_zpow_add]
        congr 1
        ring
      have h3 := (lt_log b).le
      rw [this] at h3
      calc unitRoundoff * b ≤ 2 ^ (-53 : ℤ) * (2 ^ (53 : ℤ) * 2 ^ lastPlace b) :=
            mul_le_mul_of_nonneg_left h3 unitRoundoff_pos.le
        _ = _ := by rw [← mul_assoc, ← two_zpow_add]; simp
    linarith

end Gals
