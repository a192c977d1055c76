import Verif.Lemmas.Double
import Verif.Props.RefAnyArith

/-!
# C83: the reference programs in double arithmetic
-/

set_option linter.unusedSectionVars false
set_option linter.unusedSimpArgs false

namespace Gals.Props

open Gals Gals.Ref

/-! ## Operations on finite numbers -/

theorem isMag_lt {q : ℚ} (h : IsMag q) : q < 2 ^ 1024 := by
  obtain ⟨n, e, -, -, -, h⟩ := h
  exact h

theorem isMag_nat {n : ℕ} (h : n < 2 ^ 53) : IsMag n :=
  ⟨n, 0, h.le, by norm_num, by simp, by
    have h1 : (n : ℚ) < 2 ^ 53 := by exact_mod_cast h
    exact h1.trans (pow_lt_pow_right₀ (by norm_num) (by norm_num))⟩

theorem fin_congr {s : Bool} {p q : ℚ} (e : p = q) (hp : IsMag p) (hq : IsMag q) : F64.fin s p hp = F64.fin s q hq := by
  subst e
  rfl

/-- A result in range is the rounded number. -/
theorem round_eq {s : Bool} {q : ℚ} (h0 : 0 ≤ q) (h : roundMag q < 2 ^ 1024) :
    F64.round s q = .fin s (roundMag q) (roundMag_isMag h0 h) := by
  have e : |q| = q := abs_of_nonneg h0
  unfold F64.round
  rw [dif_pos (by rw [e]; exact h)]
  exact fin_congr (by rw [e]) _ _

theorem round_fixed {s : Bool} {q : ℚ} (h : IsMag q) : F64.round s q = .fin s q h := by
  rw [round_eq (isMag_nonneg h) (by rw [roundMag_fixed h]; exact isMag_lt h)]
  exact fin_congr (roundMag_fixed h) _ _

theorem cast_eq {n : ℕ} (h : n < 2 ^ 53) : (n : F64) = .fin false n (isMag_nat h) := round_fixed (isMag_nat h)

theorem zero_eq : (0 : F64) = .fin false 0 isMag_zero := rfl

theorem sub_zero_eq {b : ℚ} (hb : IsMag b) (h0 : 0 < b) : F64.fin false b hb - 0 = .fin false b hb := by
  show F64.add (.fin false b hb) (F64.neg (.fin false 0 isMag_zero)) = _
  have e : F64.signed false b + F64.signed true 0 = b := by simp [F64.signed]
  simp only [F64.neg, F64.add, Bool.not_false, e]
  rw [if_neg h0.ne', decide_eq_false (by linarith), round_fixed hb]

theorem zero_add_eq {b : ℚ} (hb : IsMag b) : 0 + F64.fin false b hb = .fin false b hb := by
  show F64.add (.fin false 0 isMag_zero) (.fin false b hb) = _
  have e : F64.signed false 0 + F64.signed false b = b := by simp [F64.signed]
  simp only [F64.add, e]
  split_ifs with h
  · exact fin_congr h.symm _ _
  · rw [decide_eq_false (by have := isMag_nonneg hb; linarith), round_fixed hb]

/-! ## Nodes of an interval that begins at zero -/

/-- The spacing and the two end nodes of `n + 1` nodes on `[0, b]`. -/
theorem nodes_from_zero {b : ℚ} (hb : IsMag b) (hb0 : (2 : ℚ) ^ (-900 : ℤ) ≤ b) (hb1 : b ≤ 2 ^ 1000) {n : ℕ} (hn0 : 0 < n)
    (hn : n < 2 ^ 32) :
    0 + (F64.fin false b hb - 0) / (n : F64) * ((0 : ℕ) : F64) = 0 ∧
      ∃ (p : ℚ) (hp : IsMag p), 0 + (F64.fin false b hb - 0) / (n : F64) * (n : F64) = .fin false p hp ∧
        ∀ q, IsMag q → q < b → q ≤ p := by
  have hbp : 0 < b := lt_of_lt_of_le (two_zpow_pos _) hb0
  have hnq : (0 : ℚ) < n := by exact_mod_cast hn0
  have hn1 : (1 : ℚ) ≤ n := by exact_mod_cast hn0
  have hn2 : (n : ℚ) < 2 ^ 32 := by exact_mod_cast hn
  have hn53 : n < 2 ^ 53 := hn.trans (by norm_num)
  have hu := unitRoundoff_pos
  have hu' : unitRoundoff ≤ 1 := by
    have := unitRoundoff_le
    have h2 : (1 : ℚ) / 2 ^ 53 ≤ 1 := by norm_num
    linarith
  have hq0 : 0 < b / n := div_pos hbp hnq
  have hqb : b / n ≤ b := div_le_self hbp.le hn1
  have hql : (2 : ℚ) ^ (-1022 : ℤ) ≤ b / n := by
    rw [le_div_iff₀ hnq]
    refine le_trans ?_ hb0
    calc (2 : ℚ) ^ (-1022 : ℤ) * n ≤ 2 ^ (-1022 : ℤ) * 2 ^ (32 : ℤ) :=
          mul_le_mul_of_nonneg_left (by exact_mod_cast hn2.le) (two_zpow_pos _).le
      _ = 2 ^ (-990 : ℤ) := by rw [← two_zpow_add]; norm_num
      _ ≤ 2 ^ (-900 : ℤ) := two_zpow_le (by norm_num)
  have herr := abs_le.1 (roundMag_error hql)
  set d := roundMag (b / n) with hd
  have hd0 : 0 ≤ d := roundMag_nonneg hq0.le
  have big : (2 : ℚ) ^ 1000 * 2 < 2 ^ 1024 := by
    rw [← pow_succ]
    exact pow_lt_pow_right₀ (by norm_num) (by norm_num)
  have big2 : (2 : ℚ) ^ 1000 * 4 < 2 ^ 1024 := by
    rw [show (4 : ℚ) = 2 ^ 2 by norm_num, ← pow_add]
    exact pow_lt_pow_right₀ (by norm_num) (by norm_num)
  have hdle : d ≤ 2 * (b / n) := by nlinarith [herr.2]
  have hdm : d < 2 ^ 1024 := by
    refine lt_of_le_of_lt ?_ big
    calc d ≤ 2 * (b / n) := hdle
      _ ≤ b * 2 := by linarith
      _ ≤ 2 ^ 1000 * 2 := mul_le_mul_of_nonneg_right hb1 (by norm_num)
  have ediv : F64.fin false b hb / (n : F64) = .fin false d (roundMag_isMag hq0.le hdm) := by
    rw [cast_eq hn53]
    show F64.div _ _ = _
    simp only [F64.div]
    rw [if_neg hnq.ne', round_eq hq0.le hdm]
    rfl
  have hdn0 : 0 ≤ d * n := mul_nonneg hd0 hnq.le
  have hdn1 : d * n ≤ 2 * b := by
    have := mul_le_mul_of_nonneg_right hdle hnq.le
    rwa [mul_assoc, div_mul_cancel₀ _ hnq.ne'] at this
  have hdn2 : b - unitRoundoff * b ≤ d * n := by
    have h1 : (b / n - unitRoundoff * (b / n)) * n ≤ d * n := mul_le_mul_of_nonneg_right (by linarith [herr.1]) hnq.le
    have h2 : (b / n - unitRoundoff * (b / n)) * n = b - unitRoundoff * b := by
      rw [sub_mul, mul_assoc, div_mul_cancel₀ _ hnq.ne']
    linarith
  have hlow : (2 : ℚ) ^ (-1022 : ℤ) ≤ d * n := by
    have h1 : b / 2 ≤ b - unitRoundoff * b := by
      have := unitRoundoff_le
      have h2 : (1 : ℚ) / 2 ^ 53 ≤ 1 / 2 := by norm_num
      nlinarith
    have h2 : (2 : ℚ) ^ (-1022 : ℤ) ≤ 2 ^ (-900 : ℤ) / 2 := by
      rw [le_div_iff₀ (by norm_num), show (2 : ℚ) ^ (-1022 : ℤ) * 2 = 2 ^ (-1022 : ℤ) * 2 ^ (1 : ℤ) by norm_num,
        ← two_zpow_add]
      exact two_zpow_le (by norm_num)
    linarith
  have herr2 := abs_le.1 (roundMag_error hlow)
  have hpm : roundMag (d * n) < 2 ^ 1024 := by
    refine lt_of_le_of_lt ?_ big2
    calc roundMag (d * n) ≤ 2 * (d * n) := by
          have := mul_le_mul_of_nonneg_right hu' hdn0
          linarith [herr2.2]
      _ ≤ b * 4 := by linarith
      _ ≤ 2 ^ 1000 * 4 := mul_le_mul_of_nonneg_right hb1 (by norm_num)
  rw [sub_zero_eq hb hbp, ediv]
  constructor
  · rw [cast_eq (by norm_num)]
    have e : F64.fin false d (roundMag_isMag hq0.le hdm) * F64.fin false ((0 : ℕ) : ℚ) (isMag_nat (by norm_num)) =
        .fin false 0 isMag_zero := by
      show F64.mul _ _ = _
      simp only [F64.mul, Nat.cast_zero, mul_zero]
      exact round_fixed isMag_zero
    rw [e, zero_add_eq]
    rfl
  · refine ⟨roundMag (d * n), roundMag_isMag hdn0 hpm, ?_, fun q hq hqb => ?_⟩
    · rw [cast_eq hn53]
      have e : F64.fin false d (roundMag_isMag hq0.le hdm) * F64.fin false (n : ℚ) (isMag_nat hn53) =
          .fin false (roundMag (d * n)) (roundMag_isMag hdn0 hpm) := by
        show F64.mul _ _ = _
        simp only [F64.mul]
        rw [round_eq hdn0 hpm]
        rfl
      rw [e, zero_add_eq]
    · have h1 : q ≤ b - unitRoundoff * b := isMag_gap hq hb hqb (le_trans (two_zpow_le (by norm_num)) hb0)
      rw [← roundMag_fixed hq]
      exact roundMag_mono (isMag_nonneg hq) (h1.trans hdn2)

/-- No number lies between the last node and the limit. -/
theorem no_gap {b p : ℚ} {hb : IsMag b} {hp : IsMag p} (h : ∀ q, IsMag q → q < b → q ≤ p) (q : F64)
    (hq : q < F64.fin false b hb) : ¬ F64.fin false p hp < q := by
  intro hl
  match q with
  | .nan => exact Bool.noConfusion hq
  | .inf true => exact Bool.noConfusion hl
  | .inf false => exact Bool.noConfusion hq
  | .fin s a ha =>
    have h1 : F64.signed s a < b := of_decide_eq_true hq
    have h2 : p < F64.signed s a := of_decide_eq_true hl
    cases s with
    | false => exact absurd (h a ha h1) (not_le.2 h2)
    | true =>
      have h3 := isMag_nonneg ha
      have h4 := isMag_nonneg hp
      have h5 : F64.signed true a = -a := rfl
      rw [h5] at h2
      linarith

/-- A setting with a domain `[0, bx] × [0, by]` in double arithmetic. -/
structure FromZero (c : Setting F64) : Prop where
  nx : 3 ≤ c.nx
  ny : 3 ≤ c.ny
  nxu : c.nx < uMod
  nyu : c.ny < uMod
  x0 : c.xlim1 = 0
  y0 : c.ylim1 = 0
  x1 : ∃ b hb, c.xlim2 = .fin false b hb ∧ (2 : ℚ) ^ (-900 : ℤ) ≤ b ∧ b ≤ 2 ^ 1000
  y1 : ∃ b hb, c.ylim2 = .fin false b hb ∧ (2 : ℚ) ^ (-900 : ℤ) ≤ b ∧ b ≤ 2 ^ 1000

theorem FromZero.reaches {c : Setting F64} (h : FromZero c) : Reaches c := by
  obtain ⟨bx, hbx, ex, lx, ux⟩ := h.x1
  obtain ⟨by', hby, ey, ly, uy⟩ := h.y1
  have h1 := h.nx
  have h2 := h.ny
  have hm : uMod = 2 ^ 32 := rfl
  obtain ⟨a1, px, hpx, a2, a3⟩ := nodes_from_zero hbx lx ux (n := c.nx - 1) (by omega) (by have := h.nxu; omega)
  obtain ⟨b1, py, hpy, b2, b3⟩ := nodes_from_zero hby ly uy (n := c.ny - 1) (by omega) (by have := h.nyu; omega)
  have sx : usub c.nx 1 = c.nx - 1 := usub_eq (by omega) h.nxu
  have sy : usub c.ny 1 = c.ny - 1 := usub_eq (by omega) h.nyu
  refine ⟨h1, h2, h.nxu, h.nyu, fun q hq => ?_, fun q hq => ?_, fun q hq => ?_, fun q hq => ?_⟩
  · rw [nodeX, Setting.dx, sx, ex, h.x0, a1, ← h.x0]
    exact hq
  · rw [nodeX, Setting.dx, sx, ex, h.x0, a2]
    rw [ex] at hq
    exact no_gap a3 q hq
  · rw [nodeY, Setting.dy, sy, ey, h.y0, b1, ← h.y0]
    exact hq
  · rw [nodeY, Setting.dy, sy, ey, h.y0, b2]
    rw [ey] at hq
    exact no_gap b3 q hq

/-- **C83 (partial).**  In double arithmetic, on a domain `[0, bx] × [0, by]` with any numbers of nodes: the serial program
ends without leaving its arrays, whatever the velocity and the initial data are (infinities and NaN included).  Missing: other
lower limits, for which the claim is false. -/
theorem C83_serial_partial {c : Setting F64} (h : FromZero c) (v : Vel F64) (f : Initial F64) {n : ℕ}
    (hn : stepCount c = .ok n) (hp : n = 0 ∨ printStep c n ≠ 0) : ∃ m o, mainSerial c v f = .ok (m, o) :=
  C83_serial h.reaches v f hn hp

/-- **C83 (partial).**  The same for the OpenMP program: run by one thread it ends, and with any threads and schedules no
thread ever leaves an array. -/
theorem C83_openmp_partial {c : Setting F64} (h : FromZero c) (v : Vel F64) (f : Initial F64) :
    (∀ argc n, 2 ≤ argc → stepCount c = .ok n → (n = 0 ∨ printStep c n ≠ 0) → ∃ m o, mainOpenMP argc c v f = .ok (m, o)) ∧
    ∀ t m, OmpBefore c v f t m →
      Spec.NeverFaulty (advMpi v c.schemes.rk3 t c.dt c.ny 0 c.nx) (stepArrays c m) ∧
      ∀ m1, ParFor (advMpi v c.schemes.rk3 t c.dt c.ny 0 c.nx) (stepArrays c m) m1 →
        Spec.NeverFaulty (find c.xlim1 c.xlim2 c.ylim1 c.ylim2 c.nx c.ny 0 c.nx) (stepCells c m1) ∧
        ∀ m2, ParFor (find c.xlim1 c.xlim2 c.ylim1 c.ylim2 c.nx c.ny 0 c.nx) (stepCells c m1) m2 →
          ∃ sx sy, (spacing .x).run m2 = .ok (sx, m2) ∧ (spacing .y).run m2 = .ok (sy, m2) ∧
          Spec.NeverFaulty (updateLoop v c.schemes t c.dt sx sy c.ny 0 c.nx) m2 ∧
          ∀ m3, ParFor (updateLoop v c.schemes t c.dt sx sy c.ny 0 c.nx) m2 m3 →
            Spec.NeverFaulty (mixed c.nx c.ny c.dx c.dy 0 c.nx) (declMixed m3) :=
  ⟨fun _ _ ha hn hp => C83_openmp h.reaches ha v f hn hp, fun _ _ hm => C83_threads h.reaches hm⟩

/-- The settings of the program as it is (`xlim = ylim = [0, 1]`, 128 × 128 nodes, `dt = 0.5 * 1.0 / 128.0`). -/
def asShipped : Setting F64 :=
  ⟨0, 1, 128, 0, 1, 128, F64.round false (1 / 256), 1, 1, 16, ⟨"SuperConsistent", "RK3"⟩⟩

theorem one_fin : (1 : F64) = .fin false 1 ⟨1, 0, by norm_num, by norm_num, by norm_num, by
    exact one_lt_pow₀ (by norm_num) (by norm_num)⟩ := round_fixed _

example : FromZero asShipped ∧ stepCount asShipped = .ok 256 ∧ printStep asShipped 256 ≠ 0 := by
  have hone : ∃ b hb, (1 : F64) = .fin false b hb ∧ (2 : ℚ) ^ (-900 : ℤ) ≤ b ∧ b ≤ 2 ^ 1000 :=
    ⟨1, _, one_fin, zpow_le_one_of_nonpos₀ (by norm_num) (by norm_num), one_le_pow₀ (by norm_num)⟩
  exact ⟨⟨by decide, by decide, by decide, by decide, rfl, rfl, hone, hone⟩, by decide +kernel, by decide⟩

/-! ## A domain that does not begin at zero -/

/-- `xlim = [-1, 0.8]` with four nodes, `ylim = [0, 1]` with three, one step of length `0.6`. -/
def offZero : Setting F64 :=
  ⟨-1, F64.round false (8 / 10), 4, 0, 1, 3, F64.round false (6 / 10), F64.round false (6 / 10), 1, 1, ⟨"Heuns", "Euler"⟩⟩

/-- Flow to the left with speed one. -/
def leftward : Vel F64 :=
  ⟨fun _ _ _ => -1, fun _ _ _ => 0, fun _ _ _ => 0, fun _ _ _ => 0, fun _ _ _ => 0, fun _ _ _ => 0⟩

/-- A constant function. -/
def flat : Initial F64 := ⟨fun _ _ => 1, fun _ _ => 0, fun _ _ => 0, fun _ _ => 0⟩

/-- Whether a run leaves an array. -/
def leaves {α : Type} : M α → Bool
  | .error .oob => true
  | _ => false

theorem leaves_iff {α : Type} (r : M α) : leaves r = true ↔ r = .error .oob := by
  constructor
  · intro h
    match r with
    | .error .oob => rfl
  · rintro rfl
    rfl

theorem f64_asymm {a b : F64} (h : a < b) : ¬ b < a := by
  intro h'
  match a, b with
  | .nan, _ => exact Bool.noConfusion h
  | .inf s, .nan => cases s <;> exact Bool.noConfusion h
  | .fin .., .nan => exact Bool.noConfusion h
  | .inf s, .inf t => cases s <;> cases t <;> first | exact Bool.noConfusion h | exact Bool.noConfusion h'
  | .inf s, .fin .. => cases s <;> first | exact Bool.noConfusion h | exact Bool.noConfusion h'
  | .fin .., .inf t => cases t <;> first | exact Bool.noConfusion h | exact Bool.noConfusion h'
  | .fin s a _, .fin t b _ =>
    have h1 : F64.signed s a < F64.signed t b := of_decide_eq_true h
    have h2 : F64.signed t b < F64.signed s a := of_decide_eq_true h'
    exact lt_asymm h1 h2

/-- The hypothesis of `C83_serial`, `C83_openmp` and `C83_threads` on a domain that does not begin at zero: `[-1, 1]` with four
nodes.  Memory before the first step exists. -/
example : Reaches { offZero with xlim2 := 1 } ∧ ∃ m, OmpBefore { offZero with xlim2 := 1 } leftward flat 0 m := by
  refine ⟨⟨by decide, by decide, by decide, by decide, fun q hq => ?_, fun q hq => ?_, fun q hq => ?_, fun q hq => ?_⟩, ?_⟩
  · rwa [show nodeX { offZero with xlim2 := 1 } 0 = -1 by decide +kernel]
  · rw [show nodeX { offZero with xlim2 := 1 } (Setting.nx { offZero with xlim2 := 1 } - 1) = 1 by decide +kernel]
    exact f64_asymm hq
  · rwa [show nodeY { offZero with xlim2 := 1 } 0 = 0 by decide +kernel]
  · rw [show nodeY { offZero with xlim2 := 1 } (Setting.ny { offZero with xlim2 := 1 } - 1) = 1 by decide +kernel]
    exact f64_asymm hq
  · obtain ⟨m, e, -⟩ := setup_sound (c := { offZero with xlim2 := 1 }) flat
    exact ⟨m, .start e⟩

/-- **C83 is false in general.**  On `[-1, 0.8]` with four nodes the last stored node is below the limit `0.8` by two places, a
departure point falls between, its cell is the last node, and the programs read beyond the end of a row. -/
theorem C83_false : mainSerial offZero leftward flat = .error .oob ∧ mainOpenMP 2 offZero leftward flat = .error .oob ∧
    3 ≤ offZero.nx ∧ 3 ≤ offZero.ny ∧ offZero.xlim1 < offZero.xlim2 ∧ offZero.ylim1 < offZero.ylim2 ∧
    stepCount offZero = .ok 1 ∧ printStep offZero 1 = 1 := by
  refine ⟨(leaves_iff _).1 ?_, (leaves_iff _).1 ?_, by decide, by decide, ?_, ?_, ?_, rfl⟩ <;> decide +kernel

/-- The last node, a number above it, and the limit: `[-1, 0.8]` with four nodes, and `[-1, 1]` with fifty. -/
theorem C83_gap :
    (∃ q, nodeX offZero 3 < q ∧ q < offZero.xlim2) ∧
    ∃ q, nodeX { offZero with xlim2 := 1, nx := 50 } 49 < q ∧ q < 1 := by
  refine ⟨⟨F64.round false (8 / 10 - 1 / 2 ^ 53), ?_⟩, ⟨F64.round false (1 - 1 / 2 ^ 53), ?_⟩⟩ <;> decide +kernel

/-- Instances of `C83_serial_partial` and `C83_openmp_partial`: the program as it is, with any velocity and initial data. -/
example (v : Vel F64) (f : Initial F64) : (∃ m o, mainSerial asShipped v f = .ok (m, o)) ∧
    (∃ m o, mainOpenMP 2 asShipped v f = .ok (m, o)) ∧
    ∀ m, OmpBefore asShipped v f 0 m →
      Spec.NeverFaulty (advMpi v asShipped.schemes.rk3 0 asShipped.dt 128 0 128) (stepArrays asShipped m) := by
  have hone : ∃ b hb, (1 : F64) = .fin false b hb ∧ (2 : ℚ) ^ (-900 : ℤ) ≤ b ∧ b ≤ 2 ^ 1000 :=
    ⟨1, _, one_fin, zpow_le_one_of_nonpos₀ (by norm_num) (by norm_num), one_le_pow₀ (by norm_num)⟩
  have h : FromZero asShipped := ⟨by decide, by decide, by decide, by decide, rfl, rfl, hone, hone⟩
  have hn : stepCount asShipped = .ok 256 := by decide +kernel
  exact ⟨C83_serial_partial h v f hn (.inr (by decide)), (C83_openmp_partial h v f).1 2 256 le_rfl hn (.inr (by decide)),
    fun m hm => ((C83_openmp_partial h v f).2 0 m hm).1⟩

end Gals.Props
