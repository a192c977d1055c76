import Verif.Lemmas.StepDouble
import Verif.Props.App

/-!
# C87: the time loop of the application in double arithmetic
-/

set_option linter.unusedSectionVars false

namespace Gals.Props

open Gals Gals.Spec

/-! ## The test that ends the loop -/

/-- The condition of `applications/advection/main.cc:158`. -/
def stops (t tEnd : F64) : Bool := isEqual t tEnd || decide (tEnd < t)

theorem tenTen : HasValue (10000000000 : F64) 10000000000 := hasValue_nat (n := 10000000000) (by norm_num)

/-- The tolerance is `1e-10` rounded. -/
theorem vsmall_double : ∃ v, HasValue (vsmall : F64) v ∧ |v - 1 / 10 ^ 10| ≤ 1 / 10 ^ 10 / 2 ^ 52 := by
  have hq : |(1 : ℚ) / 10000000000| ≤ 2 ^ 1020 := by
    rw [abs_of_pos (by norm_num)]
    exact (by norm_num : (1 : ℚ) / 10000000000 ≤ 1).trans (one_le_pow₀ (by norm_num))
  obtain ⟨v, h1, h2⟩ := hasValue_div hasValue_one tenTen (by norm_num) hq
  refine ⟨v, h1, ?_⟩
  obtain ⟨δ, h3, h4⟩ := rel_of_abs (v := 1 / 10000000000) (r := v) (by
    refine (two_zpow_le (a := -1022) (b := -34) (by norm_num)).trans (by norm_num)) h2
  rw [show (1 : ℚ) / 10 ^ 10 = 1 / 10000000000 by norm_num]
  have h5 : v - 1 / 10000000000 = 1 / 10000000000 * δ := by rw [h4]; ring
  rw [h5, abs_mul, abs_of_pos (show (0 : ℚ) < 1 / 10000000000 by norm_num), div_eq_mul_one_div _ ((2 : ℚ) ^ 52)]
  exact mul_le_mul_of_nonneg_left h3 (by norm_num)

theorem fabs_value {x : F64} {p : ℚ} (hx : HasValue x p) : HasValue (fabs x) |p| := by
  unfold fabs
  by_cases h : p < 0
  · rw [if_pos ((hasValue_lt hx hasValue_zero).2 h), abs_of_neg h]
    exact hasValue_neg hx
  · rw [if_neg (fun hc => h ((hasValue_lt hx hasValue_zero).1 hc)), abs_of_nonneg (not_lt.1 h)]
    exact hx

theorem small_bits : unitRoundoff = 1 / 2 ^ 53 ∧ tiny ≤ 1 / 2 ^ 100 := by
  refine ⟨by norm_num [unitRoundoff], ?_⟩
  unfold tiny
  exact (two_zpow_le (a := -1075) (b := -100) (by norm_num)).trans (by norm_num)

theorem stop_true {t T : F64} {p q : ℚ} (ht : HasValue t p) (hT : HasValue T q) (h : q - 1 / 10 ^ 10 + 1 / 10 ^ 10 / 2 ^ 50 ≤ p) :
    stops t T = true := by
  unfold stops
  by_cases hlt : q < p
  · rw [decide_eq_true ((hasValue_lt hT ht).2 hlt), Bool.or_true]
  · obtain ⟨v, hv, ev⟩ := vsmall_double
    have habs : |p - q| ≤ 1 / 10 ^ 10 - 1 / 10 ^ 10 / 2 ^ 50 := by
      rw [abs_le]
      constructor <;> linarith
    obtain ⟨r, hr, er⟩ := hasValue_sub ht hT (habs.trans (by
      exact (by norm_num : (1 : ℚ) / 10 ^ 10 - 1 / 10 ^ 10 / 2 ^ 50 ≤ 1).trans (one_le_pow₀ (by norm_num))))
    have : isEqual t T = true := by
      unfold isEqual
      rw [decide_eq_true_iff, hasValue_le (fabs_value hr) hv]
      have h1 : |r| ≤ |p - q| + |r - (p - q)| := by
        have := abs_sub_abs_le_abs_sub r (p - q)
        linarith
      obtain ⟨e1, e2⟩ := abs_le.1 ev
      obtain ⟨u1, u2⟩ := small_bits
      rw [u1] at er
      have h2 : |p - q| * (1 / 2 ^ 53) ≤ (1 / 10 ^ 10) * (1 / 2 ^ 53) :=
        mul_le_mul_of_nonneg_right (habs.trans (by norm_num)) (by norm_num)
      norm_num at *
      linarith
    rw [this, Bool.true_or]

theorem stop_false {t T : F64} {p q : ℚ} (ht : HasValue t p) (hT : HasValue T q) (hb : |p - q| ≤ 2 ^ 1020)
    (h : p ≤ q - 1 / 10 ^ 10 - 1 / 10 ^ 10 / 2 ^ 50) : stops t T = false := by
  unfold stops
  have hp : p - q < 0 := by
    have : (0 : ℚ) < 1 / 10 ^ 10 + 1 / 10 ^ 10 / 2 ^ 50 := by norm_num
    linarith
  rw [decide_eq_false (fun hc => absurd ((hasValue_lt hT ht).1 hc) (by linarith)), Bool.or_false]
  obtain ⟨v, hv, ev⟩ := vsmall_double
  obtain ⟨r, hr, er⟩ := hasValue_sub ht hT hb
  unfold isEqual
  rw [decide_eq_false_iff_not, hasValue_le (fabs_value hr) hv, not_le]
  have h1 : |p - q| - |r - (p - q)| ≤ |r| := by
    have := abs_sub_abs_le_abs_sub (p - q) r
    rw [abs_sub_comm (p - q) r] at this
    linarith
  obtain ⟨e1, e2⟩ := abs_le.1 ev
  obtain ⟨u1, u2⟩ := small_bits
  rw [u1] at er
  have h3 : |p - q| = q - p := by rw [abs_of_neg hp]; ring
  rw [h3] at h1 er
  clear hb h3
  norm_num at *
  linarith

/-! ## The loop -/

section
variable {σ : Type}

/-- `sim_time` after `k` steps. -/
def timeAfter (dt : F64) : ℕ → F64
  | 0 => 0
  | k + 1 => timeAfter dt k + dt

theorem body_stops {advance : F64 → σ → M σ} {dt tEnd t : F64} {x x' : σ} (h : advance (t + dt) x = .ok x') :
    timeBody advance dt tEnd (t, x) = .ok (!(stops (t + dt) tEnd), (t + dt, x')) := by
  unfold timeBody stops
  simp only [h, M.ok_bind, M.pure_eq]

/-- The loop, with an invariant `I` of the fields, and what each step establishes (`J`). -/
theorem loop_run_inv {advance : F64 → σ → M σ} {I J : σ → Prop} (hadv : ∀ t x, I x → ∃ x', advance t x = .ok x' ∧ I x' ∧ J x')
    {dt tEnd : F64} (n : ℕ) :
    ∀ (j : ℕ) (x : σ), I x → (∀ k, j < k → k ≤ j + n → stops (timeAfter dt k) tEnd = false) →
      stops (timeAfter dt (j + n + 1)) tEnd = true →
      ∃ x', While (timeBody advance dt tEnd) (timeAfter dt j, x) (.ok (timeAfter dt (j + n + 1), x')) (n + 1) ∧ J x' := by
  induction n with
  | zero =>
    intro j x hi _ h
    obtain ⟨x', e, -, hj⟩ := hadv (timeAfter dt j + dt) x hi
    refine ⟨x', .stop ?_, hj⟩
    have h' : stops (timeAfter dt j + dt) tEnd = true := h
    rw [body_stops e, h', Bool.not_true]
    rfl
  | succ n ih =>
    intro j x hi h1 h2
    obtain ⟨x', e, hi', -⟩ := hadv (timeAfter dt j + dt) x hi
    have h3 : stops (timeAfter dt j + dt) tEnd = false := h1 (j + 1) (by omega) (by omega)
    obtain ⟨y, hy, hyj⟩ := ih (j + 1) x' hi' (fun k hk1 hk2 => h1 k (by omega) (by omega)) (by
      rw [show j + 1 + n + 1 = j + (n + 1) + 1 by omega]; exact h2)
    rw [show j + 1 + n + 1 = j + (n + 1) + 1 by omega] at hy
    refine ⟨y, .again (s' := (timeAfter dt (j + 1), x')) ?_ hy, hyj⟩
    rw [body_stops e, h3, Bool.not_false]
    rfl

theorem loop_run {advance : F64 → σ → M σ} (hadv : ∀ t x, ∃ x', advance t x = .ok x') {dt tEnd : F64} (n : ℕ)
    (j : ℕ) (x : σ) (h1 : ∀ k, j < k → k ≤ j + n → stops (timeAfter dt k) tEnd = false)
    (h2 : stops (timeAfter dt (j + n + 1)) tEnd = true) :
    ∃ x', While (timeBody advance dt tEnd) (timeAfter dt j, x) (.ok (timeAfter dt (j + n + 1), x')) (n + 1) := by
  obtain ⟨x', h, -⟩ := loop_run_inv (I := fun _ => True) (J := fun _ => True) (fun t x _ => by
    obtain ⟨x', e⟩ := hadv t x
    exact ⟨x', e, trivial, trivial⟩) n j x trivial h1 h2
  exact ⟨x', h⟩

/-- Accumulated rounding of the simulation time. -/
theorem timeAfter_value {dt : F64} {τ : ℚ} (hdt : HasValue dt τ) (h1 : (2 : ℚ) ^ (-900 : ℤ) ≤ τ) (h2 : τ ≤ 2 ^ 900) (k : ℕ)
    (hk : k ≤ 2 ^ 26) : ∃ p, HasValue (timeAfter dt k) p ∧ |p - k * τ| ≤ k ^ 2 * τ / 2 ^ 52 := by
  have hτ : 0 < τ := (two_zpow_pos _).trans_le h1
  have htiny : tiny ≤ unitRoundoff * τ := by
    rw [tiny_eq]
    exact mul_le_mul_of_nonneg_left ((two_zpow_le (by norm_num)).trans h1) unitRoundoff_pos.le
  rw [small_bits.1] at htiny
  induction k with
  | zero => exact ⟨0, hasValue_zero, by simp⟩
  | succ k ih =>
    obtain ⟨p, hp, ep⟩ := ih (by omega)
    have hkq : (k : ℚ) + 1 ≤ 2 ^ 26 := by exact_mod_cast hk
    have k0 : (0 : ℚ) ≤ k := k.cast_nonneg
    have hsq : (k : ℚ) ^ 2 ≤ 2 ^ 52 := by nlinarith
    have hep : |p - k * τ| ≤ τ := by
      refine ep.trans ?_
      rw [div_le_iff₀ (by norm_num)]
      rw [mul_comm τ]
      exact mul_le_mul_of_nonneg_right hsq hτ.le
    have hsum : |p + τ| ≤ (k + 2) * τ := by
      rw [abs_le] at hep ⊢
      have := mul_nonneg k0 hτ.le
      constructor <;> linarith [hep.1, hep.2]
    obtain ⟨r, hr, er⟩ := hasValue_add hp hdt (hsum.trans (by
      have a1 : ((k : ℚ) + 2) * τ ≤ 2 ^ 27 * 2 ^ 900 := by
        refine mul_le_mul (by linarith) h2 hτ.le (by positivity)
      refine a1.trans ?_
      rw [← pow_add]
      exact pow_le_pow_right₀ (by norm_num) (by norm_num)))
    refine ⟨r, hr, ?_⟩
    rw [small_bits.1] at er
    have e1 : |r - ((k + 1 : ℕ) : ℚ) * τ| ≤ |r - (p + τ)| + |p - k * τ| := by
      have : r - ((k + 1 : ℕ) : ℚ) * τ = (r - (p + τ)) + (p - k * τ) := by push_cast; ring
      rw [this]
      exact abs_add_le _ _
    refine e1.trans ?_
    rcases Nat.eq_zero_or_pos k with rfl | hk0
    · -- the first step
      have hp0 : p = 0 := by
        have : |p| ≤ 0 := by simpa using ep
        exact abs_eq_zero.1 (le_antisymm this (abs_nonneg _))
      rw [hp0, zero_add, abs_of_pos hτ] at er
      rw [hp0]
      simp only [zero_add, Nat.cast_zero, zero_mul, sub_zero, abs_zero, add_zero, Nat.cast_one, one_pow, one_mul]
      rw [hp0] at e1
      linarith
    · have hk1 : (1 : ℚ) ≤ k := by exact_mod_cast hk0
      have hkτ : τ ≤ k * τ := le_mul_of_one_le_left hτ.le hk1
      push_cast
      have e2 : ((k : ℚ) + 1) ^ 2 * τ / 2 ^ 52 = k ^ 2 * τ / 2 ^ 52 + (2 * (k * τ) + τ) / 2 ^ 52 := by ring
      rw [e2]
      linarith

/-- The number of steps, with an invariant of the fields. -/
theorem steps_inv (advance : F64 → σ → M σ) (I J : σ → Prop)
    (hadv : ∀ t x, I x → ∃ x', advance t x = .ok x' ∧ I x' ∧ J x') (dt tEnd : F64) (τ T : ℚ)
    (hdt : HasValue dt τ) (hT : HasValue tEnd T) (h1 : (2 : ℚ) ^ (-900 : ℤ) ≤ τ) (h2 : τ ≤ 2 ^ 900) (h3 : |T| ≤ 2 ^ 1000)
    (n : ℕ) (hn : 1 ≤ n) (hn' : n ≤ 2 ^ 26)
    (hend : T - 1 / 10 ^ 10 + (n ^ 2 * τ / 2 ^ 52 + 1 / 10 ^ 10 / 2 ^ 50) ≤ n * τ)
    (hbefore : 1 < n → (n - 1) * τ + (n ^ 2 * τ / 2 ^ 52 + 1 / 10 ^ 10 / 2 ^ 50) ≤ T - 1 / 10 ^ 10) (x : σ) (hx : I x) :
    IsStepCount 0 T τ n ∧ ∃ (t : F64) (p : ℚ) (x' : σ), HasValue t p ∧ |p - n * τ| ≤ n ^ 2 * τ / 2 ^ 52 ∧
      While (timeBody advance dt tEnd) (0, x) (.ok (t, x')) n ∧
      J x' ∧ ∀ r m, While (timeBody advance dt tEnd) (0, x) r m → r = .ok (t, x') ∧ m = n := by
  have hτ : 0 < τ := (two_zpow_pos _).trans_le h1
  have hM : ∀ k : ℕ, k ≤ n → (k : ℚ) ^ 2 * τ / 2 ^ 52 ≤ n ^ 2 * τ / 2 ^ 52 := by
    intro k hk
    have hkq : (k : ℚ) ≤ n := by exact_mod_cast hk
    have : (k : ℚ) ^ 2 ≤ n ^ 2 := pow_le_pow_left₀ k.cast_nonneg hkq 2
    have := mul_le_mul_of_nonneg_right this hτ.le
    linarith
  have hM0 : 0 ≤ (n : ℚ) ^ 2 * τ / 2 ^ 52 := by positivity
  have htol : (0 : ℚ) < 1 / 10 ^ 10 / 2 ^ 50 := by norm_num
  have hk : ∀ k : ℕ, k < n → (k : ℚ) * τ ≤ (n - 1) * τ := by
    intro k hk
    have : (k : ℚ) + 1 ≤ n := by exact_mod_cast hk
    exact mul_le_mul_of_nonneg_right (by linarith) hτ.le
  constructor
  · refine stepCount_of hτ ?_ hn ?_
    · rw [vsmall_eq, zero_add]
      linarith
    · intro k hk1 hk2
      rw [vsmall_eq, zero_add]
      have := hbefore (by omega)
      have := hk k hk2
      linarith
  obtain ⟨p, hp, ep⟩ := timeAfter_value hdt h1 h2 n hn'
  have hnot : ∀ k : ℕ, 0 < k → k ≤ 0 + (n - 1) → stops (timeAfter dt k) tEnd = false := by
    intro k hk1 hk2
    obtain ⟨q, hq, eq⟩ := timeAfter_value hdt h1 h2 k (by omega)
    have a1 := hM k (by omega)
    have a2 := hk k (by omega)
    have a3 := hbefore (by omega)
    obtain ⟨b1, b2⟩ := abs_le.1 eq
    refine stop_false hq hT ?_ (by linarith)
    have c1 : |q| ≤ 2 ^ 927 := by
      have d1 : (k : ℚ) * τ ≤ 2 ^ 26 * 2 ^ 900 := by
        refine mul_le_mul ?_ h2 hτ.le (by positivity)
        have : k ≤ 2 ^ 26 := by omega
        exact_mod_cast this
      have d2 : (k : ℚ) ^ 2 * τ / 2 ^ 52 ≤ 2 ^ 900 := by
        rw [div_le_iff₀ (by norm_num), mul_comm]
        refine mul_le_mul h2 ?_ (by positivity) (by positivity)
        have : (k : ℚ) ≤ 2 ^ 26 := by exact_mod_cast (by omega : k ≤ 2 ^ 26)
        calc (k : ℚ) ^ 2 ≤ (2 ^ 26) ^ 2 := pow_le_pow_left₀ k.cast_nonneg this 2
          _ = 2 ^ 52 := by norm_num
      have d3 : (2 : ℚ) ^ 927 = 2 ^ 27 * 2 ^ 900 := pow_add _ 27 900
      have d4 : 0 ≤ (k : ℚ) * τ := by positivity
      have d5 : (0 : ℚ) < 2 ^ 900 := by positivity
      rw [d3]
      clear d3 h3
      generalize (2 : ℚ) ^ 900 = B at *
      rw [abs_le]
      constructor
      · linarith only [d1, d2, d4, d5, b1]
      · linarith only [d1, d2, d4, d5, b2]
    refine (abs_sub _ _).trans ((add_le_add c1 h3).trans ?_)
    have d1 : (2 : ℚ) ^ 927 ≤ 2 ^ 1000 := pow_le_pow_right₀ (by norm_num) (by norm_num)
    have d2 : (2 : ℚ) ^ 1001 = 2 ^ 1000 * 2 := pow_succ _ 1000
    have d3 : (2 : ℚ) ^ 1001 ≤ 2 ^ 1020 := pow_le_pow_right₀ (by norm_num) (by norm_num)
    refine le_trans ?_ d3
    rw [d2, mul_two]
    exact add_le_add d1 le_rfl
  have hstop : stops (timeAfter dt (0 + (n - 1) + 1)) tEnd = true := by
    rw [show 0 + (n - 1) + 1 = n by omega]
    refine stop_true hp hT ?_
    linarith [(abs_le.1 ep).1]
  obtain ⟨x', hx, hx'⟩ := loop_run_inv hadv (n - 1) 0 x hx hnot hstop
  rw [show 0 + (n - 1) + 1 = n by omega, show n - 1 + 1 = n by omega] at hx
  refine ⟨timeAfter dt n, p, x', hp, ep, hx, hx', fun r m hr => ?_⟩
  obtain ⟨a, b⟩ := hr.det hx
  exact ⟨a, b⟩

/-- C87. In double arithmetic the loop makes exactly the number of steps that `IsStepCount` gives for the exact values of
`t_end` and `dt`, and the simulation time at the end is that multiple of `dt`, up to the accumulated rounding error
`n ^ 2 * dt / 2 ^ 52` — if the multiples of `dt` next to `t_end` minus the tolerance are at least that far (plus `2 ^ (-50)` of
the tolerance) away from it. -/
theorem C87_steps_partial (advance : F64 → σ → M σ) (hadv : ∀ t x, ∃ x', advance t x = .ok x') (dt tEnd : F64) (τ T : ℚ)
    (hdt : HasValue dt τ) (hT : HasValue tEnd T) (h1 : (2 : ℚ) ^ (-900 : ℤ) ≤ τ) (h2 : τ ≤ 2 ^ 900) (h3 : |T| ≤ 2 ^ 1000)
    (n : ℕ) (hn : 1 ≤ n) (hn' : n ≤ 2 ^ 26)
    (hend : T - 1 / 10 ^ 10 + (n ^ 2 * τ / 2 ^ 52 + 1 / 10 ^ 10 / 2 ^ 50) ≤ n * τ)
    (hbefore : 1 < n → (n - 1) * τ + (n ^ 2 * τ / 2 ^ 52 + 1 / 10 ^ 10 / 2 ^ 50) ≤ T - 1 / 10 ^ 10) (x : σ) :
    IsStepCount 0 T τ n ∧ ∃ (t : F64) (p : ℚ) (x' : σ), HasValue t p ∧ |p - n * τ| ≤ n ^ 2 * τ / 2 ^ 52 ∧
      While (timeBody advance dt tEnd) (0, x) (.ok (t, x')) n ∧
      ∀ r m, While (timeBody advance dt tEnd) (0, x) r m → r = .ok (t, x') ∧ m = n := by
  obtain ⟨k1, t, p, x', k2, k3, k4, -, k5⟩ := steps_inv advance (fun _ => True) (fun _ => True) (fun t x _ => by
    obtain ⟨x', e⟩ := hadv t x
    exact ⟨x', e, trivial, trivial⟩) dt tEnd τ T hdt hT h1 h2 h3 n hn hn' hend hbefore x trivial
  exact ⟨k1, t, p, x', k2, k3, k4, k5⟩

/-- C87, whole numbers of steps: if the end time is `n` steps up to the rounding of a single number, and rounding stays below
the tolerance, the loop makes `n` steps (compare `C84_false`, where a program without tolerance loses a step). -/
theorem C87_whole (advance : F64 → σ → M σ) (hadv : ∀ t x, ∃ x', advance t x = .ok x') (dt tEnd : F64) (τ T : ℚ)
    (hdt : HasValue dt τ) (hT : HasValue tEnd T) (n : ℕ) (hn : 1 ≤ n) (hn' : n ≤ 2 ^ 26) (hτ : 1 / 10 ^ 9 ≤ τ)
    (hround : |T - n * τ| ≤ n * τ / 2 ^ 52) (hacc : n ^ 2 * τ ≤ 10 ^ 5) (x : σ) :
    ∃ (t : F64) (p : ℚ) (x' : σ), HasValue t p ∧ |p - T| < 1 / 10 ^ 10 ∧
      While (timeBody advance dt tEnd) (0, x) (.ok (t, x')) n ∧
      ∀ r m, While (timeBody advance dt tEnd) (0, x) r m → r = .ok (t, x') ∧ m = n := by
  have hnq : (1 : ℚ) ≤ n := by exact_mod_cast hn
  have hτ0 : 0 < τ := lt_of_lt_of_le (by norm_num) hτ
  have hnn : (n : ℚ) * τ ≤ n ^ 2 * τ := by
    refine mul_le_mul_of_nonneg_right ?_ hτ0.le
    nlinarith
  have hττ : τ ≤ n * τ := le_mul_of_one_le_left hτ0.le hnq
  obtain ⟨r1, r2⟩ := abs_le.1 hround
  have big : (2 : ℚ) ^ 20 ≤ 2 ^ 900 := pow_le_pow_right₀ (by norm_num) (by norm_num)
  have big' : (2 : ℚ) ^ 20 ≤ 2 ^ 1000 := pow_le_pow_right₀ (by norm_num) (by norm_num)
  have hk : (n : ℚ) ^ 2 * τ / 2 ^ 52 ≤ 10 ^ 5 / 2 ^ 52 := by linarith
  have hk' : (n : ℚ) * τ / 2 ^ 52 ≤ 10 ^ 5 / 2 ^ 52 := by linarith
  have hsmall : (2 : ℚ) ^ (-900 : ℤ) ≤ τ :=
    ((two_zpow_le (a := -900) (b := -30) (by norm_num)).trans (by norm_num : (2 : ℚ) ^ (-30 : ℤ) ≤ 1 / 10 ^ 9)).trans hτ
  have hTb : |T| ≤ 2 ^ 20 := by
    rw [abs_le]
    norm_num at *
    constructor <;> linarith
  obtain ⟨-, t, p, x', e1, e2, e3, e4⟩ := C87_steps_partial advance hadv dt tEnd τ T hdt hT hsmall
    (le_trans (by norm_num at *; linarith) big) (hTb.trans big') n hn hn' (by norm_num at *; linarith)
    (fun _ => by norm_num at *; linarith) x
  refine ⟨t, p, x', e1, ?_, e3, e4⟩
  rw [abs_le] at e2
  rw [abs_lt]
  clear big big' hsmall
  norm_num at *
  constructor <;> linarith [e2.1, e2.2]

/-! ## Runs that rounding prolongs or that never end -/

/-- `2 ^ 18 + 2 ^ (-33)`. -/
def longStep : F64 := .fin false (4503599627370498 / 2 ^ 34) ⟨4503599627370498, -34, by norm_num, by norm_num, by norm_num,
  (by norm_num : (4503599627370498 / 2 ^ 34 : ℚ) < 2 ^ 20).trans_le (pow_le_pow_right₀ (by norm_num) (by norm_num))⟩

/-- `6 * longStep`. -/
def longEnd : F64 := .fin false (6 * (4503599627370498 / 2 ^ 34)) ⟨6755399441055747, -32, by norm_num, by norm_num, by norm_num,
  (by norm_num : (6 * (4503599627370498 / 2 ^ 34) : ℚ) < 2 ^ 22).trans_le (pow_le_pow_right₀ (by norm_num) (by norm_num))⟩

theorem long_not : ∀ k : ℕ, 0 < k → k ≤ 0 + 6 → stops (timeAfter longStep k) longEnd = false := by
  have h : ∀ k : Fin 7, 0 < k.val → stops (timeAfter longStep k) longEnd = false := by decide +kernel
  exact fun k h1 h2 => h ⟨k, by omega⟩ h1

theorem long_stop : stops (timeAfter longStep (0 + 6 + 1)) longEnd = true := by decide +kernel

/-- C87 is false for long times: `dt = 2 ^ 18 + 2 ^ (-33)` and `t_end` exactly `6 * dt`, both doubles.  The count is six steps; the
loop makes seven, whatever the steps do, since the accumulated rounding error exceeds the tolerance. -/
theorem C87_false (advance : F64 → σ → M σ) (hadv : ∀ t x, ∃ x', advance t x = .ok x') (x : σ) :
    ∃ τ T : ℚ, HasValue longStep τ ∧ HasValue longEnd T ∧ T = 6 * τ ∧ IsStepCount 0 T τ 6 ∧
      (∃ st, While (timeBody advance longStep longEnd) (0, x) (.ok st) 7) ∧
      ∀ r m, While (timeBody advance longStep longEnd) (0, x) r m → m = 7 := by
  refine ⟨_, _, ⟨false, _, _, rfl, rfl⟩, ⟨false, _, _, rfl, rfl⟩, rfl, ?_, ?_⟩
  · refine stepCount_of (by norm_num) ?_ (by norm_num) ?_
    · rw [vsmall_eq]
      norm_num
    · intro k hk1 hk2
      rw [vsmall_eq]
      have : (k : ℚ) ≤ 5 := by exact_mod_cast (by omega : k ≤ 5)
      norm_num
      linarith
  · obtain ⟨x', h⟩ := loop_run hadv 6 0 x long_not long_stop
    exact ⟨⟨_, h⟩, fun r m hr => (hr.det h).2⟩

/-- Addition of positive numbers. -/
theorem add_pos_value {x y : F64} {p q : ℚ} (hx : HasValue x p) (hy : HasValue y q) (hp : 0 ≤ p) (hq : 0 < q)
    (h : p + q ≤ 2 ^ 1020) : HasValue (x + y) (roundMag (p + q)) := by
  obtain ⟨s, a, ha, rfl, rfl⟩ := hx
  obtain ⟨t, b, hb, rfl, rfl⟩ := hy
  change F64.signed s a + F64.signed t b ≤ _ at h
  change 0 ≤ F64.signed s a at hp
  change 0 < F64.signed t b at hq
  show HasValue (F64.add _ _) (roundMag (F64.signed s a + F64.signed t b))
  simp only [F64.add]
  generalize F64.signed s a = v at *
  generalize F64.signed t b = w at *
  have h0 : 0 < v + w := by linarith
  rw [if_neg h0.ne', decide_eq_false (not_lt.2 h0.le)]
  unfold F64.round
  have hb : roundMag |v + w| < 2 ^ 1024 := big_lt (abs_nonneg _) (by rw [abs_of_pos h0]; exact h)
  rw [dif_pos hb]
  have e1 := hasValue_fin (s := false) (roundMag_isMag (abs_nonneg _) hb)
  have e2 : F64.signed false (roundMag |v + w|) = roundMag (v + w) := by
    rw [abs_of_pos h0]
    rfl
  rw [e2] at e1
  exact e1

/-- A loop in which the end condition never holds does not end. -/
theorem loop_never {advance : F64 → σ → M σ} (hadv : ∀ t x, ∃ x', advance t x = .ok x') {dt tEnd : F64} (I : F64 → Prop)
    (hI : ∀ t, I t → I (t + dt) ∧ stops (t + dt) tEnd = false) {st : F64 × σ} {r : M (F64 × σ)} {n : ℕ}
    (h : While (timeBody advance dt tEnd) st r n) : ¬ I st.1 := by
  induction h with
  | @fault s f e =>
    obtain ⟨x', e'⟩ := hadv (s.1 + dt) s.2
    rw [show s = (s.1, s.2) from rfl, body_stops e'] at e
    cases e
  | @stop s s' e =>
    intro h
    obtain ⟨x', e'⟩ := hadv (s.1 + dt) s.2
    rw [show s = (s.1, s.2) from rfl, body_stops e', (hI _ h).2] at e
    cases e
  | @again s s' r n e k ih =>
    intro h
    obtain ⟨x', e'⟩ := hadv (s.1 + dt) s.2
    rw [show s = (s.1, s.2) from rfl, body_stops e', (hI _ h).2, Bool.not_false] at e
    cases e
    exact ih (hI _ h).1

/-- C87, the loop can hang with a positive step: if some double `b` below the end time (minus the tolerance) absorbs the step,
`b + dt = b` as doubles, the loop never ends. -/
theorem C87_stuck (advance : F64 → σ → M σ) (hadv : ∀ t x, ∃ x', advance t x = .ok x') (dt tEnd b : F64) (τ T β : ℚ)
    (hdt : HasValue dt τ) (hT : HasValue tEnd T) (hb : HasValue b β) (hτ : 0 < τ) (hβ : 0 ≤ β) (hT' : T ≤ 2 ^ 1000)
    (hτ' : τ ≤ 2 ^ 1000) (habs : b + dt = b) (hend : β ≤ T - 1 / 10 ^ 10 - 1 / 10 ^ 10 / 2 ^ 50) (x : σ) :
    ¬ ∃ r n, While (timeBody advance dt tEnd) (0, x) r n := by
  rintro ⟨r, n, h⟩
  have b1 : (2 : ℚ) ^ 1001 = 2 ^ 1000 * 2 := pow_succ _ 1000
  have b2 : (2 : ℚ) ^ 1001 ≤ 2 ^ 1020 := pow_le_pow_right₀ (by norm_num) (by norm_num)
  have hβT : β ≤ T := hend.trans (by linarith [show (0 : ℚ) < 1 / 10 ^ 10 + 1 / 10 ^ 10 / 2 ^ 50 by norm_num])
  have b3 : β + τ ≤ 2 ^ 1001 := by
    rw [b1, mul_two]
    exact add_le_add (hβT.trans hT') hτ'
  have hfix : roundMag (β + τ) = β := by
    have h1 := add_pos_value hb hdt hβ hτ (b3.trans b2)
    rw [habs] at h1
    exact hasValue_unique h1 hb
  refine loop_never hadv (fun t => ∃ p, HasValue t p ∧ 0 ≤ p ∧ p ≤ β) ?_ h ⟨0, hasValue_zero, le_rfl, hβ⟩
  rintro t ⟨p, hp, p0, pβ⟩
  have h1 := add_pos_value hp hdt p0 hτ ((add_le_add pβ le_rfl).trans (b3.trans b2))
  have h2 : roundMag (p + τ) ≤ β := by
    rw [← hfix]
    exact roundMag_mono (by linarith) (by linarith)
  have h3 : 0 ≤ roundMag (p + τ) := roundMag_nonneg (by linarith)
  refine ⟨⟨_, h1, h3, h2⟩, stop_false h1 hT ?_ (h2.trans hend)⟩
  rw [abs_le]
  have b4 : (2 : ℚ) ^ 1000 ≤ 2 ^ 1020 := pow_le_pow_right₀ (by norm_num) (by norm_num)
  have c1 : T ≤ 2 ^ 1020 := hT'.trans b4
  clear b1 b2 b3 b4 hT' hτ'
  generalize (2 : ℚ) ^ 1020 = B at *
  constructor
  · linarith
  · linarith

/-- C87, the loop hangs when the step or the end time is a NaN. -/
theorem C87_nan (advance : F64 → σ → M σ) (hadv : ∀ t x, ∃ x', advance t x = .ok x') (dt tEnd : F64)
    (h : dt = .nan ∨ tEnd = .nan) (x : σ) : ¬ ∃ r n, While (timeBody advance dt tEnd) (0, x) r n := by
  rintro ⟨r, n, hr⟩
  have hadd : ∀ a : F64, a + .nan = .nan := by rintro (_ | _ | _) <;> rfl
  have hs1 : ∀ T : F64, stops .nan T = false := by rintro (_ | _ | _) <;> rfl
  have hs2 : ∀ a : F64, stops a .nan = false := by rintro (_ | _ | _) <;> rfl
  refine loop_never hadv (fun _ => True) (fun t _ => ⟨trivial, ?_⟩) hr trivial
  rcases h with rfl | rfl
  · rw [hadd, hs1]
  · exact hs2 _

end

/-! ## Instances -/

/-- The double nearest to `0.1`. -/
def step01 : F64 := .fin false (3602879701896397 / 2 ^ 55) ⟨3602879701896397, -55, by norm_num, by norm_num, by norm_num,
  (by norm_num : (3602879701896397 / 2 ^ 55 : ℚ) < 1).trans_le (one_le_pow₀ (by norm_num))⟩

/-- The double nearest to `0.3`. -/
def endTime03 : F64 := .fin false (5404319552844595 / 2 ^ 54) ⟨5404319552844595, -54, by norm_num, by norm_num, by norm_num,
  (by norm_num : (5404319552844595 / 2 ^ 54 : ℚ) < 1).trans_le (one_le_pow₀ (by norm_num))⟩

example : step01 = 1 / 10 ∧ endTime03 = 3 / 10 := by decide +kernel

/-- Instance of `C87_whole`: to time `0.3` in steps of `0.1`, three steps. -/
example : ∃ st, While (timeBody (fun (_ : F64) (n : ℕ) => .ok (n + 1)) step01 endTime03) (0, 0) (.ok st) 3 := by
  obtain ⟨t, p, x', -, -, h, -⟩ := C87_whole (fun (_ : F64) (n : ℕ) => .ok (n + 1)) (fun _ _ => ⟨_, rfl⟩) step01 endTime03 _ _
    ⟨false, _, _, rfl, rfl⟩ ⟨false, _, _, rfl, rfl⟩ 3 (by norm_num) (by norm_num)
    (by simp only [Bool.false_eq_true, if_false]; norm_num)
    (by simp only [Bool.false_eq_true, if_false]; norm_num [abs_le]) (by simp only [Bool.false_eq_true, if_false]; norm_num) 0
  exact ⟨_, h⟩

/-- Instance of `C87_steps_partial`: to time `0.3` in steps of `1/8`, three steps. -/
example : ∃ st, While (timeBody (fun (_ : F64) (n : ℕ) => .ok (n + 1)) (1 / 8 : F64) endTime03) (0, 0) (.ok st) 3 := by
  have h8 : (1 / 8 : F64) = .fin false (1 / 8) ⟨1, -3, by norm_num, by norm_num, by norm_num,
    (by norm_num : (1 / 8 : ℚ) < 1).trans_le (one_le_pow₀ (by norm_num))⟩ := by decide +kernel
  have v8 : HasValue (1 / 8 : F64) (1 / 8) := ⟨false, _, _, h8, rfl⟩
  have hv : HasValue endTime03 (5404319552844595 / 2 ^ 54) := ⟨false, _, _, rfl, rfl⟩
  obtain ⟨-, t, p, x', -, -, h, -⟩ := C87_steps_partial (fun (_ : F64) (n : ℕ) => .ok (n + 1)) (fun _ _ => ⟨_, rfl⟩) (1 / 8) endTime03
    _ _ v8 hv
    ((two_zpow_le (a := -900) (b := -3) (by norm_num)).trans (by norm_num))
    ((by norm_num : (1 / 8 : ℚ) ≤ 1).trans (one_le_pow₀ (by norm_num)))
    ((by norm_num [abs_le] : |(5404319552844595 / 2 ^ 54 : ℚ)| ≤ 1).trans (one_le_pow₀ (by norm_num)))
    3 (by norm_num) (by norm_num) (by norm_num) (fun _ => by norm_num) 0
  exact ⟨_, h⟩

/-- Instance of `C87_stuck`: to time `2 ^ 54` in steps of 1. -/
example : ¬ ∃ r n, While (timeBody (fun (_ : F64) (n : ℕ) => .ok (n + 1)) (1 : F64) ((2 ^ 54 : ℕ) : F64)) (0, 0) r n := by
  have hb : ((2 ^ 53 : ℕ) : F64) = .fin false (2 ^ 53) ⟨1, 53, by norm_num, by norm_num, by norm_num,
    pow_lt_pow_right₀ (by norm_num) (by norm_num)⟩ := by decide +kernel
  have hT : ((2 ^ 54 : ℕ) : F64) = .fin false (2 ^ 54) ⟨1, 54, by norm_num, by norm_num, by norm_num,
    pow_lt_pow_right₀ (by norm_num) (by norm_num)⟩ := by decide +kernel
  have vb : HasValue ((2 ^ 53 : ℕ) : F64) (2 ^ 53) := ⟨false, _, _, hb, rfl⟩
  have vT : HasValue ((2 ^ 54 : ℕ) : F64) (2 ^ 54) := ⟨false, _, _, hT, rfl⟩
  exact C87_stuck _ (fun _ _ => ⟨_, rfl⟩) 1 _ ((2 ^ 53 : ℕ) : F64) 1 _ _ hasValue_one vT vb (by norm_num) (by norm_num)
    (pow_le_pow_right₀ (by norm_num) (by norm_num)) (one_le_pow₀ (by norm_num)) (by decide +kernel) (by norm_num) 0

end Gals.Props
