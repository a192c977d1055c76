import Verif.Lemmas.Text
import Verif.Props.RefText

/-!
# C101: the output files of the library as text
-/

namespace Gals.Props

open Gals
open Gals.Spec (HasValue SixDigits ReadShort)

/-! ## What is read -/

/-- **C101.**  For every list of lines, `ShowScalar` on the text of the file does what it does on the lines, except that each number
is replaced by one that depends on it alone and is the nearest with six digits. -/
theorem C101_scalar : ∃ g : F64 → F64, (∀ x, ReadShort x (g x)) ∧ ∀ (dim nx ny : ℕ) (ls : List (Vec3 F64 × F64)),
    showScalarText dim nx ny (scalarText ls) =
      showScalar dim nx ny (ls.map fun l => (⟨g l.1.x, g l.1.y, g l.1.z⟩, g l.2)) := by
  refine ⟨six, readShort_six, fun dim nx ny ls => ?_⟩
  rw [showScalarText, read_scalarText]
  rfl

/-- **C101.**  The same for `ShowVector`. -/
theorem C101_vector : ∃ g : F64 → F64, (∀ x, ReadShort x (g x)) ∧ ∀ (dim : ℕ) (ls : List (Vec3 F64 × Vec3 F64)),
    showVectorText dim (vectorText ls) =
      .ok (showVector dim (ls.map fun l => (⟨g l.1.x, g l.1.y, g l.1.z⟩, ⟨g l.2.x, g l.2.y, g l.2.z⟩))) := by
  refine ⟨six, readShort_six, fun dim ls => ?_⟩
  rw [showVectorText, read_vectorText]
  rfl

/-! ## What the rounding keeps -/

theorem sixDigits_ge {m v : ℚ} (h : SixDigits m v) : 0 < m ∧ |m - v| ≤ 5 / 10 ^ 6 * m := by
  obtain ⟨n, e, h1, -, -, -, -, h6⟩ := h
  rw [ten_zpow_five] at h1
  have hp := ten_zpow_pos (e - 5)
  generalize (10 : ℚ) ^ (e - 5) = u at *
  refine ⟨by linarith, ?_⟩
  norm_num at h1 h6 ⊢
  linarith

/-- The nearest decimals are in the order of the numbers. -/
theorem sixDigits_mono {m v m' v' : ℚ} (h : SixDigits m v) (h' : SixDigits m' v') (hlt : m < m') : v ≤ v' := by
  obtain ⟨n, e, h1, h2, h3, h4, rfl, h6⟩ := h
  obtain ⟨n', e', h1', h2', h3', h4', rfl, h6'⟩ := h'
  have he : e ≤ e' := by
    have : (10 : ℚ) ^ e < 10 ^ (e' + 1) := by linarith
    have := (zpow_lt_zpow_iff_right₀ (by norm_num : (1 : ℚ) < 10)).1 this
    omega
  rcases he.eq_or_lt with rfl | he
  · have hp := ten_zpow_pos (e - 5)
    have a1 := (abs_le.1 h6).1
    have a2 := (abs_le.1 h6').2
    have : (n : ℚ) < (n' + 1 : ℕ) := by
      refine lt_of_mul_lt_mul_right ?_ hp.le
      push_cast
      linarith
    have : n < n' + 1 := by exact_mod_cast this
    have : (n : ℚ) ≤ n' := by exact_mod_cast Nat.lt_succ_iff.1 this
    exact mul_le_mul_of_nonneg_right this hp.le
  · have a1 : (n : ℚ) * 10 ^ (e - 5) ≤ 10 ^ (e + 1) := by
      have : (n : ℚ) ≤ 10 ^ 6 := by exact_mod_cast h4
      rw [ten_zpow_succ, ten_zpow_five e]
      have := mul_le_mul_of_nonneg_right this (ten_zpow_pos (e - 5)).le
      norm_num at this ⊢
      linarith
    have a2 : (10 : ℚ) ^ e' ≤ n' * 10 ^ (e' - 5) := by
      have : (10 : ℚ) ^ 5 ≤ n' := by exact_mod_cast h3'
      rw [ten_zpow_five]
      exact mul_le_mul_of_nonneg_right this (ten_zpow_pos _).le
    have a3 : (10 : ℚ) ^ (e + 1) ≤ 10 ^ e' := zpow_le_zpow_right₀ (by norm_num) (by omega)
    linarith

set_option exponentiation.threshold 2000 in
theorem sixDigits_top : SixDigits (2 ^ 1024) (179769 * 10 ^ 303) :=
  ⟨179769, 308, by norm_num, by norm_num, by norm_num, by norm_num, by norm_num, by norm_num⟩

set_option exponentiation.threshold 2000 in
theorem top_le : (179769 * 10 ^ 303 : ℚ) ≤ 2 ^ 1024 - 2 ^ 1000 := by norm_num

set_option exponentiation.threshold 2000 in
theorem top_mag : IsMag (2 ^ 1024 - 2 ^ 1000) := ⟨2 ^ 24 - 1, 1000, by norm_num, by norm_num, by norm_num, by norm_num⟩

/-- The decimals nearest to a finite number are in range. -/
theorem sixDigits_range {m v : ℚ} (hm : IsMag m) (h : SixDigits m v) : 0 < v ∧ roundMag v < 2 ^ 1024 := by
  have h0 : 0 < v := by
    obtain ⟨n, e, -, -, h3, -, rfl, -⟩ := h
    have : (0 : ℚ) < n := by exact_mod_cast (show 0 < n by omega)
    exact mul_pos this (ten_zpow_pos _)
  have h1 := (sixDigits_mono h sixDigits_top (isMag_lt hm)).trans top_le
  have h2 := roundMag_mono h0.le h1
  rw [roundMag_fixed top_mag] at h2
  exact ⟨h0, h2.trans_lt (sub_lt_self _ (pow_pos (by norm_num) _))⟩

theorem readShort_value {x y : F64} (h : ReadShort x y) {q : ℚ} (hq : HasValue x q) : (q = 0 ∧ y = x) ∨
    ∃ (s : Bool) (m : ℚ) (hm : IsMag m) (v : ℚ), x = .fin s m hm ∧ q = F64.signed s m ∧ SixDigits m v ∧
      y = F64.round s v ∧ HasValue y (F64.signed s (roundMag v)) := by
  obtain ⟨s, m, hm, rfl, rfl⟩ := hq
  rcases h with ⟨h, -⟩ | ⟨_, h, -⟩ | ⟨s', hz, h, hy⟩ | ⟨s', m', hm', v, h, h0, hv, hy⟩
  · cases h
  · cases h
  · cases h
    left
    exact ⟨by cases s <;> simp, hy⟩
  · cases h
    right
    refine ⟨s, m, hm, v, rfl, rfl, hv, hy, ?_⟩
    obtain ⟨h1, h2⟩ := sixDigits_range hm hv
    rw [hy, round_eq h1.le h2]
    exact hasValue_fin _

theorem signed_sub (s : Bool) (a b : ℚ) : |F64.signed s a - F64.signed s b| = |a - b| := by
  cases s
  · rfl
  · simp only [F64.signed, if_true]
    rw [← abs_neg]
    congr 1
    ring

theorem six_near {m v : ℚ} (h : SixDigits m v) (hb : (2 : ℚ) ^ (-1000 : ℤ) ≤ m) : |roundMag v - m| ≤ 51 / 10 ^ 7 * m := by
  obtain ⟨h0, h1⟩ := sixDigits_ge h
  obtain ⟨a1, a2⟩ := abs_le.1 h1
  have hv : (2 : ℚ) ^ (-1022 : ℤ) ≤ v := by
    have e : (2 : ℚ) ^ (-1000 : ℤ) = 2 ^ 22 * 2 ^ (-1022 : ℤ) := by
      rw [show (2 : ℚ) ^ 22 = 2 ^ (22 : ℤ) by norm_num, ← two_zpow_add]
      norm_num
    rw [e] at hb
    have hp := two_zpow_pos (-1022)
    generalize (2 : ℚ) ^ (-1022 : ℤ) = u at *
    norm_num at a2 hb
    linarith
  have h2 := roundMag_error hv
  clear hb
  have h3 : unitRoundoff * v ≤ 1 / 2 ^ 53 * v := by
    refine mul_le_mul_of_nonneg_right unitRoundoff_le ?_
    exact (two_zpow_pos _).le.trans hv
  clear hv
  obtain ⟨b1, b2⟩ := abs_le.1 h2
  generalize unitRoundoff * v = U at *
  generalize roundMag v = R at *
  norm_num at a1 a2 h3
  rw [abs_le]
  norm_num
  constructor <;> linarith

/-- **C101.**  A finite number is read as a finite number, and from `2 ^ (-1000)` on its relative error is at most
`5.1 / 10 ^ 6`. -/
theorem C101_near {x y : F64} (h : ReadShort x y) {q : ℚ} (hq : HasValue x q) :
    ∃ r, HasValue y r ∧ ((2 : ℚ) ^ (-1000 : ℤ) ≤ |q| → |r - q| ≤ 51 / 10 ^ 7 * |q|) := by
  rcases readShort_value h hq with ⟨rfl, rfl⟩ | ⟨s, m, hm, v, -, rfl, hv, -, hy⟩
  · exact ⟨0, hq, fun _ => by simp⟩
  · refine ⟨_, hy, fun hb => ?_⟩
    rw [signed_abs (isMag_nonneg hm)] at hb ⊢
    rw [signed_sub]
    exact six_near hv hb

theorem six_exact {m v : ℚ} (h : SixDigits m v) {k : ℕ} {j : ℤ} (hk : k < 10 ^ 6) (hm : m = k * 10 ^ j) : v = m := by
  obtain ⟨n, e, h1, -, -, -, rfl, h6⟩ := h
  have hj : e - 5 ≤ j := by
    have a : m < 10 ^ (6 + j) := by
      rw [hm, zpow_add₀ (by norm_num)]
      refine mul_lt_mul_of_pos_right ?_ (ten_zpow_pos j)
      exact_mod_cast hk
    have := (zpow_lt_zpow_iff_right₀ (by norm_num : (1 : ℚ) < 10)).1 (h1.trans_lt a)
    omega
  obtain ⟨d, hd⟩ := Int.eq_ofNat_of_zero_le (sub_nonneg.2 hj)
  have e1 : m = (k * 10 ^ d : ℕ) * 10 ^ (e - 5) := by
    rw [hm, show j = (d : ℤ) + (e - 5) by omega, zpow_add₀ (by norm_num), zpow_natCast]
    push_cast
    ring
  have hp := ten_zpow_pos (e - 5)
  rw [e1] at h6 ⊢
  generalize k * 10 ^ d = N at *
  obtain ⟨a1, a2⟩ := abs_le.1 h6
  have b1 : (n : ℚ) < (N + 1 : ℕ) := by
    refine lt_of_mul_lt_mul_right ?_ hp.le
    push_cast
    linarith
  have b2 : (N : ℚ) < (n + 1 : ℕ) := by
    refine lt_of_mul_lt_mul_right ?_ hp.le
    push_cast
    linarith
  have b1 : n < N + 1 := by exact_mod_cast b1
  have b2 : N < n + 1 := by exact_mod_cast b2
  rw [show n = N by omega]

/-- **C101.**  A number with at most six digits is read as it was written. -/
theorem C101_exact {x y : F64} (h : ReadShort x y) {q : ℚ} (hq : HasValue x q) {k j : ℤ} (hk : |k| < 10 ^ 6)
    (hj : q = k * 10 ^ j) : y = x := by
  rcases readShort_value h hq with ⟨-, rfl⟩ | ⟨s, m, hm, v, rfl, rfl, hv, hy, -⟩
  · rfl
  · have e : m = (k.natAbs : ℕ) * 10 ^ j := by
      have : |F64.signed s m| = |(k : ℚ) * 10 ^ j| := by rw [hj]
      rw [abs_mul, signed_abs (isMag_nonneg hm), abs_of_pos (ten_zpow_pos j)] at this
      rw [this, Nat.cast_natAbs]
      push_cast
      rfl
    rw [hy, six_exact hv (by have := Int.natCast_natAbs k; omega) e]
    exact round_fixed hm

theorem isMag_least {m : ℚ} (h : IsMag m) (h0 : 0 < m) : (2 : ℚ) ^ (-1074 : ℤ) ≤ m := by
  obtain ⟨n, e, -, he, rfl, -⟩ := h
  have hp := two_zpow_pos e
  have : (0 : ℚ) < n := by
    by_contra hn
    have := mul_nonpos_of_nonpos_of_nonneg (not_lt.1 hn) hp.le
    linarith
  have h1 : (1 : ℚ) ≤ n := by
    have : 0 < n := by exact_mod_cast this
    exact_mod_cast this
  refine (two_zpow_le (show (-1074 : ℤ) ≤ e by omega)).trans ?_
  nlinarith

/-- The decimals nearest to a positive number are not read as zero. -/
theorem six_pos {m v : ℚ} (hm : IsMag m) (h : SixDigits m v) : 0 < roundMag v := by
  obtain ⟨h0, h1⟩ := sixDigits_ge h
  have h2 := isMag_least hm h0
  have h3 := (sixDigits_range hm h).1
  have h4 := (abs_le.1 (roundMag_error' h3.le)).1
  have h5 : unitRoundoff * v ≤ 1 / 2 ^ 53 * v := mul_le_mul_of_nonneg_right unitRoundoff_le h3.le
  have e : (2 : ℚ) ^ (-1074 : ℤ) = 2 * tiny := by
    rw [tiny, show (2 : ℚ) * 2 ^ (-1075 : ℤ) = 2 ^ (1 : ℤ) * 2 ^ (-1075 : ℤ) by norm_num, ← two_zpow_add]
    norm_num
  rw [e] at h2
  have ht := tiny_pos
  obtain ⟨a1, a2⟩ := abs_le.1 h1
  clear e
  generalize tiny = T at *
  generalize unitRoundoff * v = U at *
  norm_num at a2 h5
  linarith

/-- **C101.**  The sign of every number is kept. -/
theorem C101_sign {x y : F64} (h : ReadShort x y) {q r : ℚ} (hq : HasValue x q) (hr : HasValue y r) :
    (0 < q ↔ 0 < r) ∧ (q < 0 ↔ r < 0) := by
  rcases readShort_value h hq with ⟨rfl, rfl⟩ | ⟨s, m, hm, v, -, rfl, hv, -, hy⟩
  · rw [hasValue_unique hr hq]
    simp
  · rw [hasValue_unique hr hy]
    have h1 := six_pos hm hv
    have h2 := (sixDigits_ge hv).1
    cases s
    · exact ⟨⟨fun _ => h1, fun _ => h2⟩, ⟨fun h => absurd h (not_lt.2 h2.le), fun h => absurd h (not_lt.2 h1.le)⟩⟩
    · simp only [F64.signed, if_true, neg_pos, neg_lt_zero]
      exact ⟨⟨fun h => absurd h (not_lt.2 h2.le), fun h => absurd h (not_lt.2 h1.le)⟩, ⟨fun _ => h1, fun _ => h2⟩⟩

/-- **C101.**  The order of numbers is kept, but for numbers that become equal. -/
theorem C101_order {x y x' y' : F64} (h : ReadShort x y) (h' : ReadShort x' y') {q r q' r' : ℚ} (hq : HasValue x q)
    (hr : HasValue y r) (hq' : HasValue x' q') (hr' : HasValue y' r') (hlt : q < q') : r ≤ r' := by
  have hs := C101_sign h hq hr
  have hs' := C101_sign h' hq' hr'
  rcases le_or_gt q 0 with h0 | h0
  · have hr0 : r ≤ 0 := not_lt.1 fun hc => absurd (hs.1.2 hc) (not_lt.2 h0)
    rcases le_or_gt 0 q' with h0' | h0'
    · exact hr0.trans (not_lt.1 fun hc => absurd (hs'.2.2 hc) (not_lt.2 h0'))
    rcases readShort_value h hq with ⟨rfl, -⟩ | ⟨s, m, hm, v, -, rfl, hv, -, hy⟩
    · exact absurd hlt (not_lt.2 h0'.le)
    rcases readShort_value h' hq' with ⟨rfl, -⟩ | ⟨s', m', hm', v', -, rfl, hv', -, hy'⟩
    · exact absurd h0' (lt_irrefl _)
    have hm0 := isMag_nonneg hm
    have hm0' := isMag_nonneg hm'
    cases s with
    | false => exact absurd (hlt.trans h0') (not_lt.2 hm0)
    | true =>
      cases s' with
      | false => exact absurd h0' (not_lt.2 hm0')
      | true =>
        rw [hasValue_unique hr hy, hasValue_unique hr' hy']
        simp only [F64.signed, if_true, neg_lt_neg_iff, neg_le_neg_iff] at hlt ⊢
        exact roundMag_mono (sixDigits_range hm' hv').1.le (sixDigits_mono hv' hv hlt)
  · rcases readShort_value h hq with ⟨rfl, -⟩ | ⟨s, m, hm, v, -, rfl, hv, -, hy⟩
    · exact absurd h0 (lt_irrefl _)
    rcases readShort_value h' hq' with ⟨rfl, -⟩ | ⟨s', m', hm', v', -, rfl, hv', -, hy'⟩
    · exact absurd (h0.trans hlt) (lt_irrefl _)
    have hm0 := isMag_nonneg hm
    have hm0' := isMag_nonneg hm'
    cases s with
    | true =>
      simp only [F64.signed, if_true] at h0
      linarith
    | false =>
      cases s' with
      | true =>
        have := h0.trans hlt
        simp only [F64.signed, if_true] at this
        linarith
      | false =>
        rw [hasValue_unique hr hy, hasValue_unique hr' hy']
        exact roundMag_mono (sixDigits_range hm hv).1.le (sixDigits_mono hv hv' hlt)

theorem sixDigits_unit {m v : ℚ} (h : SixDigits m v) {e : ℤ} (he : m < 10 ^ (e + 1)) : |m - v| ≤ 1 / 2 * 10 ^ (e - 5) := by
  obtain ⟨n, e', h1, -, -, -, -, h6⟩ := h
  refine h6.trans (mul_le_mul_of_nonneg_left (zpow_le_zpow_right₀ (by norm_num) ?_) (by norm_num))
  have := (zpow_lt_zpow_iff_right₀ (by norm_num : (1 : ℚ) < 10)).1 (h1.trans_lt he)
  omega

theorem six_unit {m v : ℚ} (h : SixDigits m v) (hb : (2 : ℚ) ^ (-1000 : ℤ) ≤ m) {e : ℤ} (he : m < 10 ^ (e + 1)) :
    |roundMag v - m| ≤ 51 / 100 * 10 ^ (e - 5) := by
  obtain ⟨h0, h1⟩ := sixDigits_ge h
  obtain ⟨a1, a2⟩ := abs_le.1 h1
  have hv : (2 : ℚ) ^ (-1022 : ℤ) ≤ v := by
    have e : (2 : ℚ) ^ (-1000 : ℤ) = 2 ^ 22 * 2 ^ (-1022 : ℤ) := by
      rw [show (2 : ℚ) ^ 22 = 2 ^ (22 : ℤ) by norm_num, ← two_zpow_add]
      norm_num
    rw [e] at hb
    have hp := two_zpow_pos (-1022)
    generalize (2 : ℚ) ^ (-1022 : ℤ) = u at *
    norm_num at a2 hb
    linarith
  clear hb
  have h2 := roundMag_error hv
  have h3 : unitRoundoff * v ≤ 1 / 2 ^ 53 * v := mul_le_mul_of_nonneg_right unitRoundoff_le ((two_zpow_pos _).le.trans hv)
  clear hv
  obtain ⟨c1, c2⟩ := abs_le.1 (sixDigits_unit h he)
  rw [ten_zpow_succ, ten_zpow_five] at he
  obtain ⟨b1, b2⟩ := abs_le.1 h2
  have hp := ten_zpow_pos (e - 5)
  generalize (10 : ℚ) ^ (e - 5) = w at *
  generalize unitRoundoff * v = U at *
  generalize roundMag v = R at *
  norm_num at a1 a2 h3 he c1 c2
  rw [abs_le]
  norm_num
  constructor <;> linarith

/-- **C101.**  Positive numbers below `10 ^ (e + 1)` that are more than `1.02` units of the sixth digit apart stay different. -/
theorem C101_apart {x y x' y' : F64} (h : ReadShort x y) (h' : ReadShort x' y') {q r q' r' : ℚ} (hq : HasValue x q)
    (hr : HasValue y r) (hq' : HasValue x' q') (hr' : HasValue y' r') {e : ℤ} (hb : (2 : ℚ) ^ (-1000 : ℤ) ≤ q)
    (he : q' < 10 ^ (e + 1)) (hlt : q + 102 / 100 * 10 ^ (e - 5) < q') : r < r' := by
  have hpos : 0 < q := (two_zpow_pos _).trans_le hb
  have hp := ten_zpow_pos (e - 5)
  have key : ∀ {x y : F64} {q r : ℚ}, ReadShort x y → HasValue x q → HasValue y r → (2 : ℚ) ^ (-1000 : ℤ) ≤ q →
      q < 10 ^ (e + 1) → |r - q| ≤ 51 / 100 * 10 ^ (e - 5) := by
    intro x y q r h hq hr hb he
    have hpos : 0 < q := (two_zpow_pos _).trans_le hb
    rcases readShort_value h hq with ⟨rfl, -⟩ | ⟨s, m, hm, v, -, rfl, hv, -, hy⟩
    · exact absurd hpos (lt_irrefl _)
    cases s with
    | true =>
      simp only [F64.signed, if_true] at hpos
      have := isMag_nonneg hm
      linarith
    | false =>
      rw [hasValue_unique hr hy]
      exact six_unit hv hb he
  have k1 := (abs_le.1 (key h hq hr hb (by linarith))).2
  have k2 := (abs_le.1 (key h' hq' hr' (by linarith) he)).1
  linarith

/-! ## What is lost -/

theorem sixDigits_eq {m : ℚ} {n : ℕ} {e : ℤ} (h1 : (10 : ℚ) ^ e ≤ m) (h2 : m < 10 ^ (e + 1))
    (h3 : |m - n * 10 ^ (e - 5)| < 1 / 2 * 10 ^ (e - 5)) :
    sixDigits m = if n = 10 ^ 6 then (10 ^ 5, e + 1) else (n, e) := by
  have h0 : 0 < m := (ten_zpow_pos e).trans_le h1
  have hl : Int.log 10 m = e := by
    have a1 : e ≤ Int.log 10 m := (Int.zpow_le_iff_le_log (by norm_num) h0).1 (by exact_mod_cast h1)
    have a2 : Int.log 10 m < e + 1 := (Int.lt_zpow_iff_log_lt (by norm_num) h0).1 (by exact_mod_cast h2)
    omega
  have hp := ten_zpow_pos (e - 5)
  have hr : roundEven (m / 10 ^ (e - 5)) = n := by
    have a := roundEven_near (m / 10 ^ (e - 5))
    have b : |m / 10 ^ (e - 5) - n| < 1 / 2 := by
      rw [show m / 10 ^ (e - 5) - n = (m - n * 10 ^ (e - 5)) / 10 ^ (e - 5) by field_simp, abs_div, abs_of_pos hp,
        div_lt_iff₀ hp]
      exact h3
    have c : |(roundEven (m / 10 ^ (e - 5)) : ℚ) - n| < 1 := by
      have := abs_sub_le (roundEven (m / 10 ^ (e - 5)) : ℚ) (m / 10 ^ (e - 5)) n
      linarith
    have c' : |roundEven (m / 10 ^ (e - 5)) - n| < 1 := by exact_mod_cast c
    have := Int.abs_lt_one_iff.1 c'
    omega
  unfold sixDigits
  simp only [hl, hr, Int.toNat_natCast]

/-- **C101.**  Numbers of one sign between the same powers of ten and closer than half a unit of the sixth digit to the same decimal
give the same text. -/
theorem C101_collapse {x x' : F64} {q q' : ℚ} (hq : HasValue x q) (hq' : HasValue x' q') {n : ℕ} {e : ℤ}
    (h1 : (10 : ℚ) ^ e ≤ q) (h2 : q < 10 ^ (e + 1)) (h3 : |q - n * 10 ^ (e - 5)| < 1 / 2 * 10 ^ (e - 5))
    (h1' : (10 : ℚ) ^ e ≤ q') (h2' : q' < 10 ^ (e + 1)) (h3' : |q' - n * 10 ^ (e - 5)| < 1 / 2 * 10 ^ (e - 5)) :
    shortText x = shortText x' := by
  obtain ⟨s, m, hm, rfl, rfl⟩ := hq
  obtain ⟨s', m', hm', rfl, rfl⟩ := hq'
  have hp := ten_zpow_pos e
  have hs : s = false := by
    cases s with
    | false => rfl
    | true =>
      simp only [if_true] at h1
      have := isMag_nonneg hm
      linarith
  have hs' : s' = false := by
    cases s' with
    | false => rfl
    | true =>
      simp only [if_true] at h1'
      have := isMag_nonneg hm'
      linarith
  subst hs hs'
  simp only [Bool.false_eq_true, if_false] at h1 h2 h3 h1' h2' h3'
  simp only [shortText, sixDigits_eq h1 h2 h3, sixDigits_eq h1' h2' h3']
  rw [if_neg (by linarith : m ≠ 0), if_neg (by linarith : m' ≠ 0)]

/-- Dyadic numbers near 1000. -/
theorem near1000_isMag (k : ℕ) (hk : k < 2 ^ 13) : IsMag (1000 + k / 2 ^ 13) :=
  ⟨1000 * 2 ^ 13 + k, -13, by omega, by norm_num, by push_cast; ring,
    lt_of_lt_of_le (by
      have : (k : ℚ) < 2 ^ 13 := by exact_mod_cast hk
      have : (k : ℚ) / 2 ^ 13 < 1 := by rw [div_lt_one (by norm_num)]; exact this
      calc (1000 + k / 2 ^ 13 : ℚ) < 2 ^ 10 := by linarith
        _ ≤ 2 ^ 10 := le_rfl) (pow_le_pow_right₀ (by norm_num) (by norm_num))⟩

/-- The `k`-th multiple of `2 ^ (-13)` after 1000. -/
def near1000 (k : ℕ) (hk : k < 2 ^ 13) : F64 := .fin false (1000 + k / 2 ^ 13) (near1000_isMag k hk)

/-- **C101.**  The file does not determine the positions: on a box with corner 1000 and cells of width `2 ^ (-12)` the centres of the
first twenty cells are written with the same text, whatever the values. -/
theorem C101_false (i j : ℕ) (hi : i < 20) (hj : j < 20) (y z : F64) (u : F64) :
    scalarText [(⟨near1000 (2 * i + 1) (by omega), y, z⟩, u)] = scalarText [(⟨near1000 (2 * j + 1) (by omega), y, z⟩, u)] ∧
      (i ≠ j → near1000 (2 * i + 1) (by omega) ≠ near1000 (2 * j + 1) (by omega)) := by
  constructor
  · have h : ∀ i : ℕ, i < 20 → (0 : ℚ) ≤ (2 * i + 1 : ℕ) / 2 ^ 13 ∧ ((2 * i + 1 : ℕ) : ℚ) / 2 ^ 13 < 5 / 1000 := by
      intro i hi
      have : (i : ℚ) + 1 ≤ 20 := by exact_mod_cast hi
      refine ⟨by positivity, ?_⟩
      rw [div_lt_iff₀ (by norm_num)]
      push_cast
      linarith
    have e : shortText (near1000 (2 * i + 1) (by omega)) = shortText (near1000 (2 * j + 1) (by omega)) := by
      obtain ⟨i1, i2⟩ := h i hi
      obtain ⟨j1, j2⟩ := h j hj
      have n3 : (10 : ℚ) ^ (3 : ℤ) = 1000 := by norm_num
      have n4 : (10 : ℚ) ^ (3 + 1 : ℤ) = 10000 := by norm_num
      have n2 : (10 : ℚ) ^ (3 - 5 : ℤ) = 1 / 100 := by norm_num
      refine C101_collapse (hasValue_fin _) (hasValue_fin _) (n := 100000) (e := 3) ?_ ?_ ?_ ?_ ?_ ?_ <;>
        simp only [F64.signed, Bool.false_eq_true, if_false, n2, n3, n4]
      · linarith
      · linarith
      · rw [abs_lt]; push_cast at i1 i2 ⊢; constructor <;> linarith
      · linarith
      · linarith
      · rw [abs_lt]; push_cast at j1 j2 ⊢; constructor <;> linarith
    simp only [scalarText, List.flatMap_cons, List.flatMap_nil, lineText, e]
  · intro hne h
    simp only [near1000, F64.fin.injEq, true_and] at h
    have : ((2 * i + 1 : ℕ) : ℚ) = (2 * j + 1 : ℕ) := by
      have := add_left_cancel h
      field_simp at this
      exact this
    have : 2 * i + 1 = 2 * j + 1 := by exact_mod_cast this
    omega

/-! ## Examples -/

/-- Lines with NaN, infinities, signed zeros and numbers of various size are read as `C101_scalar` says. -/
example : ∃ g : F64 → F64, g .nan = .nan ∧ g (.inf true) = .inf true ∧ g 0 = 0 ∧ g small ≠ 0 ∧ g (1 / 2) = 1 / 2 ∧
    showScalarText 2 1 2 (scalarText [(⟨1 / 2, 0, 0⟩, small), (⟨.nan, .inf true, 0⟩, 0)]) =
      showScalar 2 1 2 [(⟨1 / 2, 0, 0⟩, g small), (⟨.nan, .inf true, 0⟩, 0)] := by
  obtain ⟨g, hg, e⟩ := C101_scalar
  have h1 : g .nan = .nan := by
    rcases hg .nan with ⟨-, h⟩ | ⟨_, h, -⟩ | ⟨_, _, h, -⟩ | ⟨_, _, _, _, h, -⟩
    · exact h
    all_goals cases h
  have h2 : g (.inf true) = .inf true := by
    rcases hg (.inf true) with ⟨h, -⟩ | ⟨_, h, h'⟩ | ⟨_, _, h, -⟩ | ⟨_, _, _, _, h, -⟩
    · cases h
    · rw [h', h]
    all_goals cases h
  have h3 : g 0 = 0 := C101_exact (hg 0) (hasValue_fin isMag_zero) (k := 0) (j := 0) (by norm_num) (by simp [F64.signed])
  have h4 : g (1 / 2) = 1 / 2 := by
    have hv : HasValue (1 / 2 : F64) (1 / 2) := hasValue_half
    exact C101_exact (hg _) hv (k := 5) (j := -1) (by norm_num) (by norm_num)
  refine ⟨g, h1, h2, h3, fun hc => ?_, h4, ?_⟩
  · have hv : HasValue small (1 / 2 ^ 35) :=
      hasValue_fin (s := false) small_isMag
    have hr : HasValue (g small) 0 := by rw [hc]; exact hasValue_zero
    have := ((C101_sign (hg small) hv hr).1.1 (by norm_num))
    exact lt_irrefl _ this
  · rw [e]
    simp only [List.map_cons, List.map_nil, h1, h2, h3, h4]

/-- Arrows with NaN in the velocity are read as `C101_vector` says. -/
example : ∃ g : F64 → F64, showVectorText 2 (vectorText [(⟨1 / 2, small, 0⟩, ⟨.nan, small, 0⟩)]) =
    .ok (showVector 2 [(⟨1 / 2, g small, 0⟩, ⟨.nan, g small, 0⟩)]) := by
  obtain ⟨g, hg, e⟩ := C101_vector
  have h1 : g .nan = .nan := by
    rcases hg .nan with ⟨-, h⟩ | ⟨_, h, -⟩ | ⟨_, _, h, -⟩ | ⟨_, _, _, _, h, -⟩
    · exact h
    all_goals cases h
  have h3 : g 0 = 0 := C101_exact (hg 0) (hasValue_fin isMag_zero) (k := 0) (j := 0) (by norm_num) (by simp [F64.signed])
  have h4 : g (1 / 2) = 1 / 2 := C101_exact (hg _) hasValue_half (k := 5) (j := -1) (by norm_num) (by norm_num)
  refine ⟨g, ?_⟩
  rw [e]
  simp only [List.map_cons, List.map_nil, h1, h3, h4]

/-- 1000 and 1000 + 125 / 1024 are read as different numbers, each with a relative error of at most `5.1 / 10 ^ 6`. -/
example : ∃ (y y' : F64) (r r' : ℚ), ReadShort (near1000 0 (by norm_num)) y ∧ ReadShort (near1000 1000 (by norm_num)) y' ∧
    HasValue y r ∧ HasValue y' r' ∧ y = near1000 0 (by norm_num) ∧ r < r' ∧ |r' - (1000 + 125 / 1024)| ≤ 6 / 1000 := by
  have hv : HasValue (near1000 0 (by norm_num)) (1000 + (0 : ℕ) / 2 ^ 13) := hasValue_fin (s := false) _
  have hv' : HasValue (near1000 1000 (by norm_num)) (1000 + (1000 : ℕ) / 2 ^ 13) := hasValue_fin (s := false) _
  have h := readShort_six (near1000 0 (by norm_num))
  have h' := readShort_six (near1000 1000 (by norm_num))
  obtain ⟨r, hr, -⟩ := C101_near h hv
  obtain ⟨r', hr', b'⟩ := C101_near h' hv'
  have hb : (2 : ℚ) ^ (-1000 : ℤ) ≤ 1 := zpow_le_one_of_nonpos₀ (by norm_num) (by norm_num)
  refine ⟨_, _, r, r', h, h', hr, hr', C101_exact h hv (k := 1) (j := 3) (by norm_num) (by norm_num), ?_, ?_⟩
  · refine C101_apart h h' hv hr hv' hr' (e := 3) (hb.trans (by norm_num)) ?_ ?_
    · norm_num
    · norm_num
  · have b := b' (hb.trans (by norm_num [abs_of_pos]))
    clear hb b'
    norm_num [abs_of_pos] at b
    norm_num
    linarith

/-- Instance of `C101_order`: 1000 and the next doubles, whatever they become, keep their order. -/
example : ∃ (y y' : F64) (r r' : ℚ), ReadShort (near1000 0 (by norm_num)) y ∧ ReadShort (near1000 1 (by norm_num)) y' ∧
    HasValue y r ∧ HasValue y' r' ∧ r ≤ r' := by
  have hv : HasValue (near1000 0 (by norm_num)) (1000 + (0 : ℕ) / 2 ^ 13) := hasValue_fin (s := false) _
  have hv' : HasValue (near1000 1 (by norm_num)) (1000 + (1 : ℕ) / 2 ^ 13) := hasValue_fin (s := false) _
  have h := readShort_six (near1000 0 (by norm_num))
  have h' := readShort_six (near1000 1 (by norm_num))
  obtain ⟨r, hr, -⟩ := C101_near h hv
  obtain ⟨r', hr', -⟩ := C101_near h' hv'
  exact ⟨_, _, r, r', h, h', hr, hr', C101_order h h' hv hr hv' hr' (by norm_num)⟩

end Gals.Props
