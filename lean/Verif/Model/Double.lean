import Verif.Model.Vec
import Mathlib.Data.Int.Log
import Mathlib.Data.Rat.Floor
import Mathlib.Tactic.Linarith
import Mathlib.Tactic.Positivity
import Mathlib.Tactic.NormNum

/-!
# `double`

The scalar type of the programs (`src/reference/VariableDefinitions.h:9`) as IEEE 754 binary64: finite numbers with signed
zero and subnormal numbers, infinities and one NaN; operations round the exact result to the nearest number, ties to even.
The other model files are generic in the scalar type, so they can be read with this one.

Simplifications: one NaN without payload, no floating-point exceptions, no extended precision of intermediate results and
no contraction of `a * b + c`.
-/

namespace Gals

/-- Nearest integer, ties to even (rounding of `src/reference/Allocation.h:50`). -/
def roundEven (q : ℚ) : ℤ :=
  if q - ⌊q⌋ < 1 / 2 then ⌊q⌋ else if 1 / 2 < q - ⌊q⌋ then ⌊q⌋ + 1 else if ⌊q⌋ % 2 = 0 then ⌊q⌋ else ⌊q⌋ + 1

/-- Exponent of the last place of a magnitude: 53 digits, not below `2 ^ (-1074)` (`src/reference/Allocation.h:50`). -/
def lastPlace (q : ℚ) : ℤ := max (Int.log 2 q - 52) (-1074)

/-- Rounding of a magnitude without a bound on the exponent (`src/reference/Allocation.h:50`). -/
def roundMag (q : ℚ) : ℚ := roundEven (q / 2 ^ lastPlace q) * 2 ^ lastPlace q

/-- Magnitudes of the finite numbers of type `double` (`src/reference/VariableDefinitions.h:9`). -/
def IsMag (q : ℚ) : Prop := ∃ (n : ℕ) (e : ℤ), n ≤ 2 ^ 53 ∧ -1074 ≤ e ∧ q = n * 2 ^ e ∧ q < 2 ^ 1024

theorem roundEven_nonneg {q : ℚ} (h : 0 ≤ q) : 0 ≤ roundEven q := by
  have := Int.floor_nonneg.2 h
  unfold roundEven
  split_ifs <;> omega

/-- Rounding stays on the same side of an integer. -/
theorem roundEven_le {q : ℚ} {n : ℤ} (h : q ≤ n) : roundEven q ≤ n := by
  have h1 := Int.floor_le q
  unfold roundEven
  by_cases hn : ⌊q⌋ + 1 ≤ n
  · split_ifs <;> omega
  · have : ⌊q⌋ ≤ n := by exact_mod_cast h1.trans h
    have e : n = ⌊q⌋ := by omega
    have : q - ⌊q⌋ < 1 / 2 := by rw [e] at h; linarith
    rw [if_pos this, e]

theorem lt_lastPlace (q : ℚ) : q < 2 ^ 53 * (2 : ℚ) ^ lastPlace q := by
  have h := Int.lt_zpow_succ_log_self (R := ℚ) (b := 2) (by norm_num) q
  have h2 : (2 : ℚ) ^ (Int.log 2 q + 1) ≤ 2 ^ ((53 : ℤ) + lastPlace q) :=
    zpow_le_zpow_right₀ (by norm_num) (by unfold lastPlace; omega)
  have h3 : (2 : ℚ) ^ ((53 : ℤ) + lastPlace q) = 2 ^ 53 * 2 ^ lastPlace q := by
    rw [zpow_add₀ (by norm_num)]
    rfl
  rw [← h3]
  exact lt_of_lt_of_le (by exact_mod_cast h) h2

theorem roundMag_isMag {q : ℚ} (h : 0 ≤ q) (h' : roundMag q < 2 ^ 1024) : IsMag (roundMag q) := by
  have hp : (0 : ℚ) < (2 : ℚ) ^ lastPlace q := zpow_pos (by norm_num) _
  have h0 : 0 ≤ roundEven (q / 2 ^ lastPlace q) := roundEven_nonneg (div_nonneg h hp.le)
  have h1 : roundEven (q / 2 ^ lastPlace q) ≤ 2 ^ 53 :=
    roundEven_le (by push_cast; rw [div_le_iff₀ hp]; exact (lt_lastPlace q).le)
  refine ⟨(roundEven (q / 2 ^ lastPlace q)).toNat, lastPlace q, by omega, le_max_right .., ?_, h'⟩
  rw [roundMag]
  congr 1
  exact_mod_cast (Int.toNat_of_nonneg h0).symm

theorem isMag_zero : IsMag 0 := ⟨0, 0, by norm_num, by norm_num, by norm_num, by positivity⟩

/-- The numbers of type `double` (`src/reference/VariableDefinitions.h:9`); `neg` is the sign. -/
inductive F64
  | nan
  | inf (neg : Bool)
  | fin (neg : Bool) (mag : ℚ) (h : IsMag mag)
  deriving DecidableEq

namespace F64

/-- A number from sign and magnitude (`src/reference/Allocation.h:50`). -/
def signed (neg : Bool) (mag : ℚ) : ℚ := if neg then -mag else mag

/-- The result of an operation with the exact magnitude `|q|`: rounded, or an infinity (`src/reference/Allocation.h:50`). -/
def round (neg : Bool) (q : ℚ) : F64 :=
  if h : roundMag |q| < 2 ^ 1024 then .fin neg (roundMag |q|) (roundMag_isMag (abs_nonneg q) h) else .inf neg

/-- `a + b` (`src/reference/Allocation.h:50`); an exact zero is positive unless both are negative. -/
def add : F64 → F64 → F64
  | .fin s a _, .fin t b _ =>
    if signed s a + signed t b = 0 then .fin (s && t) 0 isMag_zero
    else round (decide (signed s a + signed t b < 0)) (signed s a + signed t b)
  | .inf s, .inf t => if s = t then .inf s else .nan
  | .inf s, .fin .. => .inf s
  | .fin .., .inf t => .inf t
  | .nan, _ => .nan
  | _, .nan => .nan

/-- `-a` (`src/reference/VortexVelocity.h:22`). -/
def neg : F64 → F64
  | .fin s a h => .fin (!s) a h
  | .inf s => .inf (!s)
  | .nan => .nan

/-- `a * b` (`src/reference/Allocation.h:50`). -/
def mul : F64 → F64 → F64
  | .fin s a _, .fin t b _ => round (s ^^ t) (a * b)
  | .inf s, .inf t => .inf (s ^^ t)
  | .inf s, .fin t b _ => if b = 0 then .nan else .inf (s ^^ t)
  | .fin s a _, .inf t => if a = 0 then .nan else .inf (s ^^ t)
  | .nan, _ => .nan
  | _, .nan => .nan

/-- `a / b` (`src/reference/SerialCode/GALS_Advection.cpp:69`). -/
def div : F64 → F64 → F64
  | .fin s a _, .fin t b _ => if b = 0 then (if a = 0 then .nan else .inf (s ^^ t)) else round (s ^^ t) (a / b)
  | .inf _, .inf _ => .nan
  | .inf s, .fin t _ _ => .inf (s ^^ t)
  | .fin s _ _, .inf t => .fin (s ^^ t) 0 isMag_zero
  | .nan, _ => .nan
  | _, .nan => .nan

/-- `a < b` (`src/reference/AdvectionPointCalcs.h:108`); false when one is a NaN. -/
def lt : F64 → F64 → Bool
  | .fin s a _, .fin t b _ => decide (signed s a < signed t b)
  | .inf s, .inf t => s && !t
  | .inf s, .fin .. => s
  | .fin .., .inf t => !t
  | .nan, _ => false
  | _, .nan => false

/-- `a <= b` (`src/reference/AdvectionPointCalcs.h:125`); false when one is a NaN. -/
def le : F64 → F64 → Bool
  | .fin s a _, .fin t b _ => decide (signed s a ≤ signed t b)
  | .inf s, .inf t => s || !t
  | .inf s, .fin .. => s
  | .fin .., .inf t => !t
  | .nan, _ => false
  | _, .nan => false

/-- `0.0` (`src/reference/Setting.h:9`). -/
instance : Zero F64 := ⟨.fin false 0 isMag_zero⟩
/-- `1.0` (`src/reference/Setting.h:10`). -/
instance : One F64 := ⟨round false 1⟩
/-- Addition (`src/reference/Allocation.h:50`). -/
instance : Add F64 := ⟨add⟩
/-- Subtraction, which IEEE 754 defines by `a + (-b)` (`src/reference/SerialCode/GALS_Advection.cpp:69`). -/
instance : Sub F64 := ⟨fun a b => add a (neg b)⟩
/-- Multiplication (`src/reference/Allocation.h:50`). -/
instance : Mul F64 := ⟨mul⟩
/-- Division (`src/reference/SerialCode/GALS_Advection.cpp:69`). -/
instance : Div F64 := ⟨div⟩
/-- Negation (`src/reference/VortexVelocity.h:22`). -/
instance : Neg F64 := ⟨neg⟩
/-- Conversion of an integer, and integer literals (`src/reference/Allocation.h:50`). -/
instance : NatCast F64 := ⟨fun n => round false n⟩
/-- Conversion of an `int` (`src/cpu/grid.cc:187`, `src/cpu/grid.cc:204`). -/
instance : IntCast F64 := ⟨fun n => round (decide (n < 0)) n⟩
/-- Comparison (`src/reference/AdvectionPointCalcs.h:108`). -/
instance : LT F64 := ⟨fun a b => lt a b = true⟩
/-- Comparison (`src/reference/AdvectionPointCalcs.h:125`). -/
instance : LE F64 := ⟨fun a b => le a b = true⟩
/-- Comparisons are computed (`src/reference/AdvectionPointCalcs.h:108`). -/
instance : DecidableLT F64 := fun a b => inferInstanceAs (Decidable (lt a b = true))
/-- Comparisons are computed (`src/reference/AdvectionPointCalcs.h:125`). -/
instance : DecidableLE F64 := fun a b => inferInstanceAs (Decidable (le a b = true))

/-- The integer part of a number (`src/reference/SerialCode/GALS_Advection.cpp:64`); an infinity or NaN gives a number
outside the range of every integer type, so that its conversion counts as undefined. -/
instance : HasFloor F64 := ⟨fun
  | .fin s a _ => ⌊signed s a⌋
  | .inf true => -2 ^ 1024
  | _ => 2 ^ 1024⟩

end F64

end Gals
