import Verif.Spec.Ieee
import Verif.Lemmas.Double

/-!
# C116: the doubles of the model are those of IEEE 754
-/

namespace Gals.Props

open Gals Gals.Spec

theorem digits_of_le {n : ℕ} {e : ℤ} (hn : n ≤ 2 ^ 53) (he : -1074 ≤ e) : Digits53 (n * 2 ^ e) := by
  rcases hn.lt_or_eq with h | rfl
  · exact ⟨n, e, h, he, rfl⟩
  · refine ⟨2 ^ 52, e + 1, by norm_num, by omega, ?_⟩
    rw [two_zpow_add]
    push_cast
    ring

/-- The magnitudes of the model. -/
theorem isMag_iff (r : ℚ) : IsMag r ↔ Digits53 r ∧ r < 2 ^ 1024 := by
  constructor
  · rintro ⟨n, e, hn, he, rfl, h⟩
    exact ⟨digits_of_le hn he, h⟩
  · rintro ⟨⟨n, e, hn, he, h⟩, h'⟩
    exact ⟨n, e, hn.le, he, h, h'⟩

theorem digits_roundMag {q : ℚ} (h : 0 ≤ q) : Digits53 (roundMag q) := by
  have hp := two_zpow_pos (lastPlace q)
  have h0 : 0 ≤ roundEven (q / 2 ^ lastPlace q) := roundEven_nonneg (div_nonneg h hp.le)
  have h1 : roundEven (q / 2 ^ lastPlace q) ≤ 2 ^ 53 :=
    roundEven_le (by push_cast; rw [div_le_iff₀ hp]; exact (lt_lastPlace q).le)
  have := digits_of_le (n := (roundEven (q / 2 ^ lastPlace q)).toNat) (e := lastPlace q) (by omega) (le_max_right ..)
  rw [roundMag]
  rw [show ((roundEven (q / 2 ^ lastPlace q)).toNat : ℚ) = roundEven (q / 2 ^ lastPlace q) by
    exact_mod_cast Int.toNat_of_nonneg h0] at this
  exact this

/-- The nearest integer; another as near differs by one from an even one. -/
theorem roundEven_nearest (q : ℚ) (n : ℤ) : |q - roundEven q| ≤ |q - n| ∧
    (|q - n| = |q - roundEven q| → n ≠ roundEven q → Even (roundEven q) ∧ (n = roundEven q + 1 ∨ n = roundEven q - 1)) := by
  have h1 := Int.floor_le q
  have h2 := Int.lt_floor_add_one q
  generalize hf : ⌊q⌋ = f at h1 h2
  have hn : n ≤ f ∨ f + 1 ≤ n := by omega
  have key : (q - f < 1 / 2 ∧ roundEven q = f) ∨ (1 / 2 < q - f ∧ roundEven q = f + 1) ∨
      (q - f = 1 / 2 ∧ (roundEven q = f ∨ roundEven q = f + 1) ∧ Even (roundEven q)) := by
    unfold roundEven
    rw [hf]
    split_ifs with a b c
    · exact .inl ⟨a, rfl⟩
    · exact .inr (.inl ⟨b, rfl⟩)
    · exact .inr (.inr ⟨by linarith, .inl rfl, Int.even_iff.2 c⟩)
    · exact .inr (.inr ⟨by linarith, .inr rfl, Int.even_iff.2 (by omega)⟩)
  have cases : ((n : ℚ) ≤ f ∧ |q - n| = q - n) ∨ ((f : ℚ) + 1 ≤ n ∧ |q - n| = n - q) := by
    rcases hn with h | h
    · have : (n : ℚ) ≤ f := by exact_mod_cast h
      exact .inl ⟨this, abs_of_nonneg (by linarith)⟩
    · have : (f : ℚ) + 1 ≤ n := by exact_mod_cast h
      exact .inr ⟨this, by rw [abs_of_nonpos (by linarith)]; ring⟩
  have A : |q - f| = q - f := abs_of_nonneg (by linarith)
  have B : |q - ((f + 1 : ℤ) : ℚ)| = f + 1 - q := by push_cast; rw [abs_of_nonpos (by linarith)]; ring
  rcases key with ⟨a, e⟩ | ⟨a, e⟩ | ⟨a, e, ev⟩
  · rw [e, A]
    rcases cases with ⟨c, e'⟩ | ⟨c, e'⟩ <;> rw [e'] <;> refine ⟨by linarith, fun h hne => ?_⟩
    · exact absurd (by exact_mod_cast (by linarith : (n : ℚ) = f)) hne
    · exfalso; linarith
  · rw [e, B]
    rcases cases with ⟨c, e'⟩ | ⟨c, e'⟩ <;> rw [e'] <;> refine ⟨by linarith, fun h hne => ?_⟩
    · exfalso; linarith
    · exact absurd (by exact_mod_cast (by linarith : (n : ℚ) = f + 1)) hne
  · have d : |q - roundEven q| = 1 / 2 := by
      rcases e with e | e <;> rw [e]
      · rw [A, a]
      · rw [B]; linarith
    rw [d]
    rcases cases with ⟨c, e'⟩ | ⟨c, e'⟩ <;> rw [e'] <;> refine ⟨by linarith, fun h hne => ⟨ev, ?_⟩⟩
    · have : n = f := by exact_mod_cast (by linarith : (n : ℚ) = f)
      omega
    · have : n = f + 1 := by exact_mod_cast (by linarith : (n : ℚ) = f + 1)
      omega

/-- A magnitude with a smaller last place is below the power of two below `q`. -/
theorem digits_below {q : ℚ} (hq : 0 < q) {n : ℕ} {e : ℤ} (hn : n < 2 ^ 53) (he : -1074 ≤ e) (c : e < lastPlace q) :
    n * 2 ^ e < 2 ^ 52 * (2 : ℚ) ^ lastPlace q ∧ 2 ^ 52 * (2 : ℚ) ^ lastPlace q ≤ q := by
  have hl : lastPlace q = Int.log 2 q - 52 := by unfold lastPlace at *; omega
  constructor
  · have h1 : (2 : ℚ) ^ e * 2 ≤ 2 ^ lastPlace q := by
      have := two_zpow_le (a := e + 1) (b := lastPlace q) (by omega)
      rwa [two_zpow_add, zpow_one] at this
    have h2 : (n : ℚ) < 2 ^ 53 := by exact_mod_cast hn
    have := two_zpow_pos e
    nlinarith
  · have := log_le hq
    rw [show Int.log 2 q = 52 + lastPlace q by omega, two_zpow_add] at this
    exact_mod_cast this

theorem digits_cases {q r : ℚ} (hq : 0 < q) (hr : Digits53 r) : (∃ n : ℤ, r = n * 2 ^ lastPlace q) ∨
    (r < 2 ^ 52 * 2 ^ lastPlace q ∧ 2 ^ 52 * 2 ^ lastPlace q ≤ q) := by
  obtain ⟨n, e, hn, he, rfl⟩ := hr
  by_cases c : lastPlace q ≤ e
  · left
    obtain ⟨k, hk⟩ := Int.le.dest c
    refine ⟨n * 2 ^ k, ?_⟩
    rw [← hk, two_zpow_add, zpow_natCast]
    push_cast
    ring
  · exact .inr (digits_below hq hn he (by omega))

theorem round_scale (q : ℚ) (n : ℤ) : |q - n * 2 ^ lastPlace q| = |q / 2 ^ lastPlace q - n| * 2 ^ lastPlace q := by
  have hp := two_zpow_pos (lastPlace q)
  rw [← abs_of_pos hp, ← abs_mul, abs_of_pos hp]
  congr 1
  field_simp

theorem below_far {q r : ℚ} (h1 : r < 2 ^ 52 * 2 ^ lastPlace q) (h2 : 2 ^ 52 * 2 ^ lastPlace q ≤ q) : |q - roundMag q| < |q - r| := by
  have hp := two_zpow_pos (lastPlace q)
  have h3 := mul_le_mul_of_nonneg_right (roundEven_nearest (q / 2 ^ lastPlace q) (2 ^ 52)).1 hp.le
  rw [← round_scale, ← round_scale, ← roundMag] at h3
  have e : ((2 ^ 52 : ℤ) : ℚ) = 2 ^ 52 := by norm_cast
  rw [e, abs_of_nonneg (a := q - 2 ^ 52 * 2 ^ lastPlace q) (by linarith)] at h3
  have h4 : |q - r| = q - r := abs_of_nonneg (by linarith)
  linarith

theorem roundMag_cases {q r : ℚ} (hq : 0 < q) (hr : Digits53 r) : |q - roundMag q| ≤ |q - r| ∧
    (|q - r| = |q - roundMag q| → r ≠ roundMag q → Even (roundEven (q / 2 ^ lastPlace q)) ∧
      ∃ n : ℤ, Odd n ∧ r = n * 2 ^ lastPlace q) := by
  have hp := two_zpow_pos (lastPlace q)
  have near := fun n => roundEven_nearest (q / 2 ^ lastPlace q) n
  rcases digits_cases hq hr with ⟨n, rfl⟩ | ⟨h1, h2⟩
  · rw [roundMag, round_scale, round_scale]
    refine ⟨mul_le_mul_of_nonneg_right (near n).1 hp.le, fun e hne => ?_⟩
    obtain ⟨h1, h2⟩ := (near n).2 (mul_right_cancel₀ hp.ne' e) fun h => hne (by rw [h])
    refine ⟨h1, n, ?_, rfl⟩
    rcases h2 with h2 | h2 <;> rw [h2]
    · exact h1.add_one
    · exact h1.sub_odd odd_one
  · have := below_far h1 h2
    exact ⟨this.le, fun h => absurd h this.ne'⟩

/-- Rounding to nearest, ties to even, determines the magnitude, and it is the one of the model. -/
theorem C116_rounding (q r : ℚ) (h : 0 ≤ q) : NearestEven q r ↔ r = roundMag q := by
  rcases h.eq_or_lt with rfl | hq
  · rw [roundMag_zero]
    have z : Digits53 0 := ⟨0, 0, by norm_num, by norm_num, by norm_num⟩
    constructor
    · rintro ⟨-, h, -⟩
      have := h 0 z
      rw [sub_zero, abs_zero, zero_sub, abs_neg] at this
      exact abs_eq_zero.1 (le_antisymm this (abs_nonneg r))
    · rintro rfl
      exact ⟨z, fun r' _ => by rw [sub_zero, abs_zero]; exact abs_nonneg _, fun _ => ⟨0, 0, by norm_num, by norm_num, by norm_num, by norm_num⟩⟩
  have hd := digits_roundMag h
  have hp := two_zpow_pos (lastPlace q)
  constructor
  · rintro ⟨h1, h2, h3⟩
    by_contra hne
    have e := le_antisymm (h2 _ hd) (roundMag_cases hq h1).1
    obtain ⟨-, n, hn, hr⟩ := (roundMag_cases hq h1).2 e hne
    obtain ⟨m, k, hm, hev, hk, hr'⟩ := h3 ⟨_, hd, Ne.symm hne, e.symm⟩
    by_cases c : lastPlace q ≤ k
    · obtain ⟨j, hj⟩ := Int.le.dest c
      rw [hr, ← hj, two_zpow_add, zpow_natCast] at hr'
      have : (n : ℚ) = m * 2 ^ j := by
        have : (n : ℚ) * 2 ^ lastPlace q = (m * 2 ^ j) * 2 ^ lastPlace q := by rw [hr']; ring
        exact mul_right_cancel₀ hp.ne' this
      have : n = m * 2 ^ j := by exact_mod_cast this
      rw [this] at hn
      exact (Int.not_even_iff_odd.2 hn) (((Int.even_coe_nat m).2 hev).mul_right _)
    · obtain ⟨h4, h5⟩ := digits_below hq hm hk (by omega)
      rw [← hr'] at h4
      exact absurd e (below_far h4 h5).ne'
  · rintro rfl
    refine ⟨hd, fun r' hr' => (roundMag_cases hq hr').1, ?_⟩
    rintro ⟨r', h1, h2, h3⟩
    have hev := ((roundMag_cases hq h1).2 h3 h2).1
    have h0 : 0 ≤ roundEven (q / 2 ^ lastPlace q) := roundEven_nonneg (div_nonneg h hp.le)
    have h1 : roundEven (q / 2 ^ lastPlace q) ≤ 2 ^ 53 :=
      roundEven_le (by push_cast; rw [div_le_iff₀ hp]; exact (lt_lastPlace q).le)
    unfold roundMag
    generalize roundEven (q / 2 ^ lastPlace q) = n at *
    obtain ⟨n, rfl⟩ := Int.eq_ofNat_of_zero_le h0
    have hl : -1074 ≤ lastPlace q := le_max_right ..
    have h1 : n ≤ 2 ^ 53 := by exact_mod_cast h1
    rcases h1.lt_or_eq with h1 | rfl
    · exact ⟨n, lastPlace q, h1, (Int.even_coe_nat n).1 hev, hl, by push_cast; rfl⟩
    · refine ⟨2 ^ 52, lastPlace q + 1, by norm_num, by decide, by omega, ?_⟩
      rw [two_zpow_add]
      push_cast
      ring

/-- The numbers that are rounded up to `2 ^ 1024`. -/
theorem C116_overflow (q : ℚ) (h : 0 ≤ q) : roundMag q < 2 ^ 1024 ↔ q < 2 ^ 1024 - 2 ^ 970 := by
  have hx : (0 : ℚ) < 2 ^ 970 := by positivity
  have e1 : (2 : ℚ) ^ 1024 = 2 ^ 54 * 2 ^ 970 := by rw [← pow_add]
  have e2 : (2 : ℚ) ^ 971 = 2 * 2 ^ 970 := by rw [pow_succ]; ring
  have h4 : roundMag (2 ^ 1024 - 2 ^ 970) = 2 ^ 1024 := by decide +kernel
  have hM : Digits53 (2 ^ 1024 - 2 ^ 971) := ⟨2 ^ 53 - 1, 971, by norm_num, by norm_num, by
    rw [show ((2 : ℚ) ^ (971 : ℤ)) = 2 ^ 971 from zpow_natCast 2 971, e1, e2]
    norm_num
    ring⟩
  have mk : ∀ r : ℚ, Digits53 r → r < 2 ^ 1024 → IsMag r := fun r h h' => (isMag_iff r).2 ⟨h, h'⟩
  generalize (2 : ℚ) ^ 1024 = X at *
  generalize (2 : ℚ) ^ 970 = x at *
  generalize (2 : ℚ) ^ 971 = y at *
  constructor
  · intro h1
    by_contra h2
    push Not at h2
    have h3 := roundMag_mono (p := X - x) (by rw [e1]; linarith) h2
    rw [h4] at h3
    exact absurd h1 (not_lt.2 h3)
  · intro h1
    have hm : IsMag (X - y) := mk _ hM (by linarith)
    by_cases c : q ≤ X - y
    · have := roundMag_mono h c
      rw [roundMag_fixed hm] at this
      linarith
    · push Not at c
      by_contra h2
      push Not at h2
      have h3 := ((C116_rounding q _ h).2 rfl).2.1 _ hM
      rw [abs_of_pos (a := q - (X - y)) (by linarith), abs_of_nonpos (by linarith)] at h3
      linarith

/-- Rounding with a sign gives the result prescribed. -/
theorem prescribed_round {x : ℚ} {z s : Bool} (h0 : x = 0 → s = z) (h1 : x ≠ 0 → s = decide (x < 0)) : Prescribed x z (F64.round s x) := by
  have hs : s = if x = 0 then z else decide (x < 0) := by
    split_ifs with c
    · exact h0 c
    · exact h1 c
  constructor
  · intro h
    have h := (C116_overflow _ (abs_nonneg x)).2 h
    exact ⟨roundMag |x|, roundMag_isMag (abs_nonneg x) h, by rw [F64.round, dif_pos h, hs], (C116_rounding _ _ (abs_nonneg x)).2 rfl⟩
  · intro h
    have h' : ¬ roundMag |x| < 2 ^ 1024 := fun c => absurd ((C116_overflow _ (abs_nonneg x)).1 c) (not_lt.2 h)
    have hx : x ≠ 0 := by
      rintro rfl
      rw [abs_zero, roundMag_zero] at h'
      exact h' (by positivity)
    rw [F64.round, dif_neg h', h1 hx]

theorem signed_eq (s : Bool) (a : ℚ) : F64.signed s a = sgn s * a := by
  cases s <;> simp [F64.signed, sgn]

/-- C116, the four operations on finite numbers and the conversion of integers. -/
theorem C116_operations (s t : Bool) (a b : ℚ) (ha : IsMag a) (hb : IsMag b) :
    Prescribed (sgn s * a + sgn t * b) (s && t) (F64.fin s a ha + F64.fin t b hb) ∧
    Prescribed (sgn s * a - sgn t * b) (s && !t) (F64.fin s a ha - F64.fin t b hb) ∧
    Prescribed (sgn s * a * (sgn t * b)) (s ^^ t) (F64.fin s a ha * F64.fin t b hb) ∧
    (b ≠ 0 → Prescribed (sgn s * a / (sgn t * b)) (s ^^ t) (F64.fin s a ha / F64.fin t b hb)) ∧
    (∀ n : ℤ, Prescribed n false (n : F64)) := by
  have z : ∀ z : Bool, Prescribed 0 z (.fin z 0 isMag_zero) := fun z => by
    have := prescribed_round (x := 0) (z := z) (s := z) (fun _ => rfl) (fun h => absurd rfl h)
    rw [F64.round, dif_pos (by rw [abs_zero, roundMag_zero]; positivity)] at this
    simp only [abs_zero, roundMag_zero] at this
    exact this
  have add : ∀ (s t : Bool) (a b : ℚ) (ha : IsMag a) (hb : IsMag b),
      Prescribed (sgn s * a + sgn t * b) (s && t) (F64.fin s a ha + F64.fin t b hb) := by
    intro s t a b ha hb
    change Prescribed _ _ (F64.add _ _)
    unfold F64.add
    simp only [signed_eq]
    split_ifs with c
    · rw [c]; exact z _
    · exact prescribed_round (fun h => absurd h c) fun _ => rfl
  have pos : ∀ {q : ℚ}, IsMag q → q ≠ 0 → 0 < q := fun h h' => lt_of_le_of_ne (isMag_nonneg h) h'.symm
  have sign : ∀ {x : ℚ} {s t : Bool}, 0 < x → (s ^^ t) = decide (sgn s * sgn t * x < 0) := by
    intro x s t h
    have := h.le
    cases s <;> cases t <;> simp [sgn, h, this]
  refine ⟨add s t a b ha hb, ?_, ?_, ?_, ?_⟩
  · have := add s (!t) a b ha hb
    rw [show sgn s * a - sgn t * b = sgn s * a + sgn (!t) * b by cases t <;> simp [sgn] <;> ring]
    exact this
  · change Prescribed _ _ (F64.mul _ _)
    unfold F64.mul
    rw [show sgn s * a * (sgn t * b) = sgn s * sgn t * (a * b) by ring]
    have e : F64.round (s ^^ t) (a * b) = F64.round (s ^^ t) (sgn s * sgn t * (a * b)) := by
      have : |sgn s * sgn t * (a * b)| = |a * b| := by rw [abs_mul]; cases s <;> cases t <;> simp [sgn]
      unfold F64.round
      simp only [this]
    simp only [e]
    refine prescribed_round (fun _ => rfl) fun h => sign ?_
    have h := right_ne_zero_of_mul h
    exact mul_pos (pos ha (left_ne_zero_of_mul h)) (pos hb (right_ne_zero_of_mul h))
  · intro hb0
    change Prescribed _ _ (F64.div _ _)
    unfold F64.div
    rw [show sgn s * a / (sgn t * b) = sgn s * sgn t * (a / b) by
      cases s <;> cases t <;> simp [sgn, neg_div, div_neg]]
    have e : F64.round (s ^^ t) (a / b) = F64.round (s ^^ t) (sgn s * sgn t * (a / b)) := by
      have : |sgn s * sgn t * (a / b)| = |a / b| := by rw [abs_mul]; cases s <;> cases t <;> simp [sgn]
      unfold F64.round
      simp only [this]
    simp only [e, if_neg hb0]
    refine prescribed_round (fun _ => rfl) fun h => sign ?_
    have h := right_ne_zero_of_mul h
    rw [div_eq_mul_inv] at h
    exact div_pos (pos ha (left_ne_zero_of_mul h)) (pos hb hb0)
  · intro n
    refine prescribed_round (fun h => ?_) fun _ => ?_
    · have : n = 0 := by exact_mod_cast h
      rw [this]; rfl
    · simp

/-- C116, comparisons of finite numbers; the sign of a zero does not matter. -/
theorem C116_order (s t : Bool) (a b : ℚ) (ha : IsMag a) (hb : IsMag b) :
    (F64.fin s a ha < F64.fin t b hb ↔ sgn s * a < sgn t * b) ∧ (F64.fin s a ha ≤ F64.fin t b hb ↔ sgn s * a ≤ sgn t * b) := by
  constructor
  · change F64.lt _ _ = true ↔ _
    simp [F64.lt, signed_eq]
  · change F64.le _ _ = true ↔ _
    simp [F64.le, signed_eq]

/-- C116, NaN, infinities and division by zero: NaN spreads and compares with nothing; what infinities give; the four invalid operations. -/
theorem C116_special (x : F64) (s t : Bool) (a b : ℚ) (ha : IsMag a) (hb : IsMag b) (h0 : a ≠ 0) :
    (F64.nan + x = .nan ∧ x + F64.nan = .nan ∧ F64.nan - x = .nan ∧ x - F64.nan = .nan ∧ F64.nan * x = .nan ∧ x * F64.nan = .nan ∧
      F64.nan / x = .nan ∧ x / F64.nan = .nan ∧ ¬ F64.nan < x ∧ ¬ x < F64.nan ∧ ¬ F64.nan ≤ x ∧ ¬ x ≤ F64.nan) ∧
    (F64.inf s + .fin t b hb = .inf s ∧ F64.fin t b hb + .inf s = .inf s ∧ F64.inf s - .fin t b hb = .inf s ∧
      F64.fin t b hb - .inf s = F64.inf (!s) ∧ F64.inf s + .inf s = .inf s ∧ F64.inf s - F64.inf (!s) = F64.inf s ∧
      F64.inf s * .fin t a ha = .inf (s ^^ t) ∧ F64.fin t a ha * .inf s = .inf (s ^^ t) ∧ F64.inf s * .inf t = .inf (s ^^ t) ∧
      F64.inf s / .fin t b hb = .inf (s ^^ t) ∧ F64.fin t b hb / .inf s = .fin (s ^^ t) 0 isMag_zero ∧
      F64.fin s a ha / .fin t 0 isMag_zero = .inf (s ^^ t)) ∧
    (F64.inf s + .inf (!s) = .nan ∧ F64.inf s - .inf s = .nan ∧ F64.inf s * .fin t 0 isMag_zero = .nan ∧ F64.fin t 0 isMag_zero * .inf s = .nan ∧
      F64.inf s / .inf t = .nan ∧ F64.fin s 0 isMag_zero / .fin t 0 isMag_zero = .nan) ∧
    (F64.inf true < .fin t b hb ∧ F64.fin t b hb < .inf false ∧ F64.inf true < .inf false ∧ ¬ F64.inf false ≤ .fin t b hb ∧
      ¬ F64.fin t b hb ≤ .inf true ∧ F64.inf s ≤ .inf s ∧ ¬ F64.inf s < .inf s) := by
  have fold : (∀ x y : F64, x + y = F64.add x y) ∧ (∀ x y : F64, x - y = F64.add x (F64.neg y)) ∧ (∀ x y : F64, x * y = F64.mul x y) ∧
    (∀ x y : F64, x / y = F64.div x y) ∧ (∀ x y : F64, x < y ↔ F64.lt x y = true) ∧ (∀ x y : F64, x ≤ y ↔ F64.le x y = true) :=
    ⟨fun _ _ => rfl, fun _ _ => rfl, fun _ _ => rfl, fun _ _ => rfl, fun _ _ => Iff.rfl, fun _ _ => Iff.rfl⟩
  simp only [fold.1, fold.2.1, fold.2.2.1, fold.2.2.2.1, fold.2.2.2.2.1, fold.2.2.2.2.2]
  refine ⟨?_, ?_, ?_, ?_⟩
  · cases x <;> simp [F64.add, F64.mul, F64.div, F64.lt, F64.le, F64.neg]
  all_goals cases s <;> cases t <;> simp [F64.add, F64.mul, F64.div, F64.lt, F64.le, F64.neg, h0]

/-- Instance of C116: `2 ^ 53 + 1` lies half way between two numbers and becomes the one with last digit 0. -/
example : NearestEven (2 ^ 53 + 1) (2 ^ 53) ∧ ¬ NearestEven (2 ^ 53 + 1) (2 ^ 53 + 2) ∧
    ∃ h, ((2 ^ 53 + 1 : ℤ) : F64) = .fin false (2 ^ 53) h := by
  have e : roundMag (2 ^ 53 + 1) = 2 ^ 53 := by decide +kernel
  refine ⟨(C116_rounding _ _ (by norm_num)).2 e.symm, fun h => ?_, ?_⟩
  · rw [C116_rounding _ _ (by norm_num), e] at h
    norm_num at h
  · obtain ⟨m, h, h1, h2⟩ := ((C116_operations false false 0 0 isMag_zero isMag_zero).2.2.2.2 (2 ^ 53 + 1)).1
      (by decide +kernel)
    have c : |(((2 : ℤ) ^ 53 + 1 : ℤ) : ℚ)| = 2 ^ 53 + 1 := by decide +kernel
    rw [c, C116_rounding _ _ (by norm_num), e] at h2
    subst h2
    refine ⟨h, h1.trans ?_⟩
    rw [if_neg (by norm_num), show decide ((((2 : ℤ) ^ 53 + 1 : ℤ) : ℚ) < 0) = false by decide +kernel]

/-- Instance of C116: 1 - 1 is the positive zero, and (-0) + (-0) the negative one. -/
example (h : IsMag 1) : F64.fin false 1 h - .fin false 1 h = .fin false 0 isMag_zero ∧
    F64.fin true 0 isMag_zero + .fin true 0 isMag_zero = .fin true 0 isMag_zero := by
  constructor
  · obtain ⟨m, hm, e, r⟩ := (C116_operations false false 1 1 h h).2.1.1 (by rw [sub_self, abs_zero]; decide +kernel)
    rw [sub_self, abs_zero, C116_rounding _ _ le_rfl, roundMag_zero] at r
    subst r
    exact e.trans (by simp)
  · obtain ⟨m, hm, e, r⟩ := (C116_operations true true 0 0 isMag_zero isMag_zero).1.1 (by simp only [mul_zero, add_zero, abs_zero]; decide +kernel)
    rw [mul_zero, add_zero, abs_zero, C116_rounding _ _ le_rfl, roundMag_zero] at r
    subst r
    exact e.trans (by simp)

end Gals.Props
