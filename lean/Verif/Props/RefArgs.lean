import Verif.Model.RefArgs
import Mathlib.Data.Nat.Digits.Defs
import Mathlib.Tactic.Ring
import Mathlib.Tactic.Linarith
import Mathlib.Tactic.NormNum

/-!
# C92: number of threads from the command line
-/

namespace Gals.Props

open Gals Gals.Ref

/-- A decimal digit as a character. -/
def digitChar (d : ℕ) : Char := Char.ofNat (48 + d)

theorem digitChar_toNat {d : ℕ} (h : d < 10) : (digitChar d).toNat = 48 + d := by
  have : ∀ d < 10, (digitChar d).toNat = 48 + d := by decide
  exact this d h

/-- The characters that are no decimal digits, none included. -/
def NoDigitAhead : List Char → Prop
  | [] => True
  | c :: _ => ¬ ('0' ≤ c ∧ c ≤ '9')

theorem strtolDigits_value (ds : List ℕ) (hd : ∀ d ∈ ds, d < 10) (rest : List Char) (hr : NoDigitAhead rest) (acc : ℕ) :
    strtolDigits acc (ds.map digitChar ++ rest) = acc * 10 ^ ds.length + Nat.ofDigits 10 ds.reverse := by
  induction ds generalizing acc with
  | nil =>
    simp only [List.map_nil, List.nil_append, List.length_nil, pow_zero, mul_one, List.reverse_nil, Nat.ofDigits_nil, add_zero]
    cases rest with
    | nil => rfl
    | cons c cs =>
      simp only [strtolDigits]
      rw [if_neg]
      exact hr
  | cons d ds ih =>
    have h1 := hd d List.mem_cons_self
    simp only [List.map_cons, List.cons_append, strtolDigits, digitChar_toNat h1]
    rw [if_pos (by omega), ih fun d hd' => hd d (List.mem_cons_of_mem _ hd')]
    simp only [List.length_cons, List.reverse_cons, Nat.ofDigits_append, List.length_reverse, Nat.ofDigits_singleton]
    rw [show 48 + d - 48 = d by omega]
    ring

/-- Sign of a numeral. -/
inductive Sign
  | none
  | plus
  | minus

/-- A sign as text. -/
def Sign.text : Sign → List Char
  | .none => []
  | .plus => ['+']
  | .minus => ['-']

/-- A sign applied to a number. -/
def Sign.apply : Sign → ℕ → ℤ
  | .none, n => n
  | .plus, n => n
  | .minus, n => -n

/-- `z` cut off at the limits of a signed 64-bit number. -/
def limit (z : ℤ) : ℤ := max (-2 ^ 63) (min (2 ^ 63 - 1) z)

theorem cutLong_eq (z : ℤ) : cutLong z = limit z := by
  unfold cutLong limit
  split_ifs <;> omega

/-- The number of threads the program asks for when its argument is white space, a sign, the digits `ds` and anything that
does not go on with a digit: what the limits of `long` and `int` leave of the number. -/
theorem C92_numeral (ws : List Char) (hw : ∀ c ∈ ws, c ∈ [' ', '\t', '\n', '\r']) (sg : Sign) (ds : List ℕ)
    (hd : ∀ d ∈ ds, d < 10) (hn : ds ≠ []) (rest : List Char) (hr : NoDigitAhead rest) (name : List Char)
    (more : List (List Char)) :
    threadsOpenMP (name :: (ws ++ sg.text ++ ds.map digitChar ++ rest) :: more) =
      .ok (Int.bmod (limit (sg.apply (Nat.ofDigits 10 ds.reverse))) (2 ^ 32)) := by
  have hdrop : ∀ cs : List Char, (ws ++ cs).dropWhile isSpaceC = cs.dropWhile isSpaceC := by
    intro cs
    induction ws with
    | nil => rfl
    | cons c ws ih =>
      have : isSpaceC c = true := by
        have := hw c List.mem_cons_self
        simp only [List.mem_cons, List.not_mem_nil, or_false] at this
        rcases this with rfl | rfl | rfl | rfl <;> decide
      rw [List.cons_append, List.dropWhile_cons_of_pos this]
      exact ih fun c hc => hw c (List.mem_cons_of_mem _ hc)
  have hv := strtolDigits_value ds hd rest hr 0
  rw [Nat.zero_mul, Nat.zero_add] at hv
  show Except.ok (longToInt (strtol _)) = _
  congr 1
  unfold longToInt strtol
  congr 1
  rw [List.append_assoc, List.append_assoc, hdrop]
  cases sg with
  | plus =>
    simp only [Sign.text, List.cons_append, List.nil_append]
    rw [List.dropWhile_cons_of_neg (by decide)]
    simp only [hv, cutLong_eq, Sign.apply]
  | minus =>
    simp only [Sign.text, List.cons_append, List.nil_append]
    rw [List.dropWhile_cons_of_neg (by decide)]
    simp only [hv, cutLong_eq, Sign.apply]
  | none =>
    obtain ⟨d, ds, rfl⟩ := List.exists_cons_of_ne_nil hn
    have h1 : d < 10 := hd d List.mem_cons_self
    have hs : isSpaceC (digitChar d) = false ∧ digitChar d ≠ '-' ∧ digitChar d ≠ '+' := by
      have : ∀ d < 10, isSpaceC (digitChar d) = false ∧ digitChar d ≠ '-' ∧ digitChar d ≠ '+' := by decide
      exact this d h1
    simp only [Sign.text, List.nil_append, List.map_cons, List.cons_append] at hv ⊢
    rw [List.dropWhile_cons_of_neg (by simp [hs.1])]
    split
    · rename_i h
      exact absurd (List.cons.inj h).1 hs.2.1
    · rename_i h
      exact absurd (List.cons.inj h).1 hs.2.2
    · rw [hv, cutLong_eq]
      rfl

/-- **C92**, partial: an argument that is the decimal numeral of a positive `int` makes the OpenMP program ask for that number of
threads, whatever the other arguments.  Missing: that other arguments are refused, which is false (`C92_false`). -/
theorem C92_threads_partial {n : ℕ} (h1 : 1 ≤ n) (h2 : n < 2 ^ 31) (name : List Char) (more : List (List Char)) :
    (threadsOpenMP (name :: (Nat.digits 10 n).reverse.map digitChar :: more)).map ompSetThreads = .ok (some n) ∧
    (threadsHybrid [name, (Nat.digits 10 n).reverse.map digitChar]).map (fun o => o.bind ompSetThreads) = .ok (some n) := by
  have hd : ∀ d ∈ (Nat.digits 10 n).reverse, d < 10 := fun d hd => Nat.digits_lt_base (by norm_num) (List.mem_reverse.1 hd)
  have hne : (Nat.digits 10 n).reverse ≠ [] := by
    simp only [ne_eq, List.reverse_eq_nil_iff, Nat.digits_eq_nil_iff_eq_zero]
    omega
  have key : ∀ more, threadsOpenMP (name :: (Nat.digits 10 n).reverse.map digitChar :: more) = .ok (n : ℤ) := by
    intro more
    have := C92_numeral [] (by simp) .none _ hd hne [] trivial name more
    simp only [Sign.text, List.nil_append, List.append_nil, List.reverse_reverse, Nat.ofDigits_digits, Sign.apply] at this
    rw [this]
    congr 1
    unfold limit
    rw [min_eq_right (by omega), max_eq_right (by omega), Int.bmod_eq_of_le (by omega) (by omega)]
  have hset : ompSetThreads (n : ℤ) = some n := by
    rw [ompSetThreads, if_pos (by omega), Int.toNat_natCast]
  refine ⟨by rw [key]; exact congrArg Except.ok hset, ?_⟩
  have e : threadsHybrid [name, (Nat.digits 10 n).reverse.map digitChar] =
      (threadsOpenMP [name, (Nat.digits 10 n).reverse.map digitChar]).map some := rfl
  rw [e, key]
  exact congrArg Except.ok hset

/-- The call of the job script `src/reference/ofrun`, with four threads. -/
example : (threadsOpenMP ["./GALS_Advection_OMP".toList, "4".toList]).map ompSetThreads = .ok (some 4) := by decide
example : (Nat.digits 10 4).reverse.map digitChar = "4".toList := by
  norm_num [digitChar]
  rfl

/-- **C92**, negative: arguments that are no numeral of a positive `int` are not refused.  Text after the numeral is ignored, a
number that does not fit is silently replaced by another one, words and negative numbers are passed on as they are, and without
an argument the OpenMP program hands a null pointer to `strtol`. -/
theorem C92_false (name : List Char) :
    (threadsOpenMP [name, "3x".toList]).map ompSetThreads = .ok (some 3) ∧
    (threadsOpenMP [name, "4294967297".toList]).map ompSetThreads = .ok (some 1) ∧
    (threadsOpenMP [name, "four".toList]).map ompSetThreads = .ok none ∧
    (threadsOpenMP [name, "-4".toList]).map ompSetThreads = .ok none ∧
    threadsOpenMP [name] = .error .oob := by
  refine ⟨?_, ?_, ?_, ?_, rfl⟩ <;> rfl

/-- **C92**: for any number of arguments other than one the hybrid program ends with the usage message; it never reads a
missing argument. -/
theorem C92_hybrid_usage (argv : List (List Char)) :
    (argv.length ≠ 2 → threadsHybrid argv = .ok none) ∧ (argv.length = 2 → ∃ n, threadsHybrid argv = .ok (some n)) := by
  refine ⟨fun h => if_pos h, fun h => ?_⟩
  match argv, h with
  | [a, b], _ => exact ⟨_, rfl⟩

/-- With blanks, a sign and text after it. -/
example : threadsOpenMP ["p".toList, "  +12 threads".toList] = .ok 12 := by
  have := C92_numeral [' ', ' '] (by simp) .plus [1, 2] (by simp) (by simp) " threads".toList (by simp [NoDigitAhead]) "p".toList []
  exact this.trans (by decide)

end Gals.Props
