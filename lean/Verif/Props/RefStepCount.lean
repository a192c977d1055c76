import Verif.Props.RefDouble

/-!
# C84: number of steps of the reference programs in double arithmetic
-/

set_option linter.unusedSimpArgs false

namespace Gals.Props

open Gals Gals.Ref

theorem toUnsigned_fin {r : ℚ} (hr : IsMag r) (hlt : r < 2 ^ 32) : toUnsigned (F64.fin false r hr) = .ok ⌊r⌋.toNat := by
  have h0 := isMag_nonneg hr
  have e1 : ¬ F64.fin false r hr ≤ -1 := by
    rw [one_fin]
    show ¬ decide (F64.signed false r ≤ F64.signed true 1) = true
    simp only [F64.signed, if_true, Bool.false_eq_true, if_false, decide_eq_true_eq]
    linarith
  have e2 : ¬ F64.fin false r hr < 0 := by
    show ¬ decide (F64.signed false r < F64.signed false 0) = true
    simp only [F64.signed, Bool.false_eq_true, if_false, decide_eq_true_eq]
    linarith
  have e3 : (HasFloor.floorI (F64.fin false r hr)) = ⌊r⌋ := rfl
  have h1 : ⌊r⌋ < 2 ^ 32 := Int.floor_lt.2 (by exact_mod_cast hlt)
  have h2 : 0 ≤ ⌊r⌋ := Int.floor_nonneg.2 h0
  have hm : uMod = 2 ^ 32 := rfl
  unfold toUnsigned
  rw [if_neg e1, if_neg e2, e3]
  dsimp only
  rw [if_pos (by omega)]

theorem stepCount_fin {c : Setting F64} {a b : ℚ} {ha : IsMag a} {hb : IsMag b} (ea : c.tfinal = .fin false a ha)
    (eb : c.dt = .fin false b hb) (h0 : 0 < b) (hlt : roundMag (a / b) < 2 ^ 32) :
    stepCount c = .ok ⌊roundMag (a / b)⌋.toNat := by
  have hq : 0 ≤ a / b := div_nonneg (isMag_nonneg ha) h0.le
  have hm : roundMag (a / b) < 2 ^ 1024 := hlt.trans (pow_lt_pow_right₀ (by norm_num) (by norm_num))
  have ediv : c.tfinal / c.dt = .fin false (roundMag (a / b)) (roundMag_isMag hq hm) := by
    rw [ea, eb]
    show F64.div _ _ = _
    simp only [F64.div]
    rw [if_neg h0.ne', round_eq hq hm]
    rfl
  have hne : ¬ (c.dt ≤ 0 ∧ 0 ≤ c.dt) := by
    rintro ⟨h, -⟩
    rw [eb] at h
    have : F64.signed false b ≤ F64.signed false 0 := of_decide_eq_true h
    simp only [F64.signed, Bool.false_eq_true, if_false] at this
    linarith
  rw [stepCount, if_neg hne, ediv, toUnsigned_fin _ hlt]

/-- **C84.**  The number of steps is the quotient of the two doubles, rounded down or up to an integer. -/
theorem C84_near {c : Setting F64} {a b : ℚ} {ha : IsMag a} {hb : IsMag b} (ea : c.tfinal = .fin false a ha)
    (eb : c.dt = .fin false b hb) (h0 : 0 < b) (hlt : a / b ≤ 2 ^ 32 - 1) :
    ∃ n : ℕ, stepCount c = .ok n ∧ ⌊a / b⌋ ≤ (n : ℤ) ∧ (n : ℤ) ≤ ⌈a / b⌉ := by
  have hq : 0 ≤ a / b := div_nonneg (isMag_nonneg ha) h0.le
  have hfix : ∀ k : ℕ, k < 2 ^ 53 → roundMag (k : ℚ) = k := fun k hk => roundMag_fixed (isMag_nat hk)
  have hf0 : 0 ≤ ⌊a / b⌋ := Int.floor_nonneg.2 hq
  have hc1 : ⌈a / b⌉ ≤ 2 ^ 32 - 1 := Int.ceil_le.2 (by push_cast; linarith)
  have hfc : ⌊a / b⌋ ≤ ⌈a / b⌉ := Int.floor_le_ceil _
  obtain ⟨f, hf⟩ : ∃ f : ℕ, ⌊a / b⌋ = f := ⟨⌊a / b⌋.toNat, by omega⟩
  obtain ⟨g, hg⟩ : ∃ g : ℕ, ⌈a / b⌉ = g := ⟨⌈a / b⌉.toNat, by omega⟩
  have hfl : (f : ℚ) ≤ a / b := by
    have := Int.floor_le (a / b)
    rw [hf] at this
    exact_mod_cast this
  have hcl : a / b ≤ (g : ℚ) := by
    have := Int.le_ceil (a / b)
    rw [hg] at this
    exact_mod_cast this
  have h1 : (f : ℚ) ≤ roundMag (a / b) := by
    rw [← hfix f (by omega)]
    exact roundMag_mono (by positivity) hfl
  have h2 : roundMag (a / b) ≤ g := by
    rw [← hfix g (by omega)]
    exact roundMag_mono hq hcl
  have hgq : (g : ℚ) < 2 ^ 32 := by
    have : (g : ℤ) < 2 ^ 32 := by omega
    exact_mod_cast this
  refine ⟨_, stepCount_fin ea eb h0 (h2.trans_lt hgq), ?_, ?_⟩
  · have : (f : ℤ) ≤ ⌊roundMag (a / b)⌋ := Int.le_floor.2 (by exact_mod_cast h1)
    omega
  · have : ⌊roundMag (a / b)⌋ ≤ (g : ℤ) := by
      have := Int.floor_le_floor h2
      simpa using this
    have := Int.floor_nonneg.2 (roundMag_nonneg hq)
    omega

/-- **C84 (partial).**  When the final time is a whole number of steps exactly, as numbers of type `double`, that number of
steps is taken.  Missing: decimal times, for which the claim is false. -/
theorem C84_partial {c : Setting F64} {a b : ℚ} {ha : IsMag a} {hb : IsMag b} (ea : c.tfinal = .fin false a ha)
    (eb : c.dt = .fin false b hb) (h0 : 0 < b) {n : ℕ} (hn : n < 2 ^ 32) (h : a = n * b) : stepCount c = .ok n := by
  have e : a / b = n := by rw [h, mul_div_cancel_right₀ _ h0.ne']
  obtain ⟨k, e1, e2, e3⟩ := C84_near ea eb h0 (by
    rw [e]
    have : n ≤ 2 ^ 32 - 1 := by omega
    have h2 : (n : ℚ) ≤ ((2 ^ 32 - 1 : ℕ) : ℚ) := by exact_mod_cast this
    refine h2.trans (by norm_num))
  rw [e] at e2 e3
  simp only [Int.floor_natCast, Int.ceil_natCast] at e2 e3
  rw [e1, show k = n by omega]

example : stepCount asShipped = .ok 256 :=
  C84_partial (a := 1) (b := 1 / 256) (ha := ⟨1, 0, by norm_num, by norm_num, by norm_num, one_lt_pow₀ (by norm_num) (by norm_num)⟩)
    (hb := ⟨1, -8, by norm_num, by norm_num, by norm_num, lt_trans (by norm_num) (one_lt_pow₀ (a := (2 : ℚ)) (n := 1024) (by norm_num) (by norm_num))⟩)
    (round_fixed _) (round_fixed _) (by norm_num) (by norm_num) (by norm_num)

/-- Times `0.3` and `0.1`. -/
def threeTenths : Setting F64 := { asShipped with tfinal := F64.round false (3 / 10), dt := F64.round false (1 / 10) }

/-- **C84 is false for decimal times.**  With `Tfinal = 0.3` and `dt = 0.1` two steps are taken, and the last time reached is
`0.2`. -/
theorem C84_false : stepCount threeTenths = .ok 2 ∧ tm 2 threeTenths.dt = F64.round false (2 / 10) ∧
    (3 / 10 : ℚ) / (1 / 10) = 3 := by
  refine ⟨by decide +kernel, by decide +kernel, by norm_num⟩

/-- Times `0.5` and `0.1`. -/
def fiveTenths : Setting F64 := { asShipped with tfinal := F64.round false (5 / 10), dt := F64.round false (1 / 10) }

/-- Both roundings of `C84_near` occur: the quotient of the doubles `0.5` and `0.1` is below five, and five steps are taken;
that of `0.3` and `0.1` is below three, and two steps are taken. -/
theorem C84_rounding :
    (∃ a b ha hb, fiveTenths.tfinal = .fin false a ha ∧ fiveTenths.dt = .fin false b hb ∧ a / b < 5 ∧
      stepCount fiveTenths = .ok 5) ∧
    ∃ a b ha hb, threeTenths.tfinal = .fin false a ha ∧ threeTenths.dt = .fin false b hb ∧ 2 < a / b ∧ a / b < 3 ∧
      stepCount threeTenths = .ok 2 := by
  have big : (1 : ℚ) < 2 ^ 1024 := one_lt_pow₀ (by norm_num) (by norm_num)
  have h1 : IsMag (3602879701896397 / 2 ^ 55) := ⟨3602879701896397, -55, by norm_num, by norm_num, by norm_num, lt_trans (by norm_num) big⟩
  have h2 : IsMag (1 / 2) := ⟨1, -1, by norm_num, by norm_num, by norm_num, lt_trans (by norm_num) big⟩
  have h3 : IsMag (5404319552844595 / 2 ^ 54) := ⟨5404319552844595, -54, by norm_num, by norm_num, by norm_num, lt_trans (by norm_num) big⟩
  have e1 : F64.round false (1 / 10) = .fin false (3602879701896397 / 2 ^ 55) h1 := by
    rw [round_eq (by norm_num) (lt_trans (b := 1) (by decide +kernel) big)]
    exact fin_congr (by decide +kernel) _ _
  have e2 : F64.round false (5 / 10) = .fin false (1 / 2) h2 := by
    rw [show (5 / 10 : ℚ) = 1 / 2 by norm_num]
    exact round_fixed h2
  have e3 : F64.round false (3 / 10) = .fin false (5404319552844595 / 2 ^ 54) h3 := by
    rw [round_eq (by norm_num) (lt_trans (b := 1) (by decide +kernel) big)]
    exact fin_congr (by decide +kernel) _ _
  exact ⟨⟨_, _, h2, h1, e2, e1, by norm_num, by decide +kernel⟩,
    _, _, h3, h1, e3, e1, by norm_num, by norm_num, by decide +kernel⟩

/-- Instance of `C84_near`: final time 1 and time step 3/8 give two or three steps. -/
example : ∃ n : ℕ, stepCount { asShipped with dt := F64.round false (3 / 8) } = .ok n ∧ 2 ≤ n ∧ n ≤ 3 := by
  have k1 : ⌊(1 : ℚ) / (3 / 8)⌋ = 2 := by rw [Int.floor_eq_iff]; norm_num
  have k2 : ⌈(1 : ℚ) / (3 / 8)⌉ = 3 := by rw [Int.ceil_eq_iff]; norm_num
  obtain ⟨n, e, h1, h2⟩ := C84_near (c := { asShipped with dt := F64.round false (3 / 8) }) (a := 1) (b := 3 / 8)
    (ha := ⟨1, 0, by norm_num, by norm_num, by norm_num, one_lt_pow₀ (by norm_num) (by norm_num)⟩)
    (hb := ⟨3, -3, by norm_num, by norm_num, by norm_num,
      lt_trans (by norm_num) (one_lt_pow₀ (a := (2 : ℚ)) (n := 1024) (by norm_num) (by norm_num))⟩)
    (round_fixed _) (round_fixed _) (by norm_num) (by norm_num)
  rw [k1] at h1
  rw [k2] at h2
  exact ⟨n, e, by omega, by omega⟩

end Gals.Props
