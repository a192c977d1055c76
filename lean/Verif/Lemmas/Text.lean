import Verif.Model.Text
import Verif.Spec.Text
import Verif.Lemmas.RefText

/-!
# Text with six digits
-/

namespace Gals

open Ref (digitText natText lastDigits signText isDigitText digitsValue digitsValue_append natText_value natText_digit natText_ne
  lastDigits_length lastDigits_digit lastDigits_value digitsValue_natText)

theorem ten_zpow_pos (e : ℤ) : (0 : ℚ) < 10 ^ e := zpow_pos (by norm_num) e

theorem ten_zpow_five (e : ℤ) : (10 : ℚ) ^ e = 10 ^ 5 * 10 ^ (e - 5) := by
  rw [show (10 : ℚ) ^ 5 = 10 ^ (5 : ℤ) by norm_num, ← zpow_add₀ (by norm_num)]
  congr 1
  ring

theorem ten_zpow_succ (e : ℤ) : (10 : ℚ) ^ (e + 1) = 10 * 10 ^ e := by
  rw [zpow_add₀ (by norm_num), zpow_one, mul_comm]

/-- The digits and the exponent that are written. -/
theorem sixDigits_spec {m : ℚ} (h : 0 < m) : 10 ^ 5 ≤ (sixDigits m).1 ∧ (sixDigits m).1 < 10 ^ 6 ∧
    Spec.SixDigits m ((sixDigits m).1 * 10 ^ ((sixDigits m).2 - 5)) := by
  have h1 : (10 : ℚ) ^ Int.log 10 m ≤ m := by exact_mod_cast Int.zpow_log_le_self (b := 10) (by norm_num) h
  have h2 : m < (10 : ℚ) ^ (Int.log 10 m + 1) := by exact_mod_cast Int.lt_zpow_succ_log_self (b := 10) (by norm_num) m
  unfold sixDigits
  dsimp only
  generalize Int.log 10 m = e at *
  have hp := ten_zpow_pos (e - 5)
  have a1 : (10 ^ 5 : ℤ) ≤ roundEven (m / 10 ^ (e - 5)) := by
    refine le_roundEven ?_
    rw [le_div_iff₀ hp]
    rw [ten_zpow_five] at h1
    exact_mod_cast h1
  have a2 : roundEven (m / 10 ^ (e - 5)) ≤ (10 ^ 6 : ℤ) := by
    refine roundEven_le ?_
    rw [div_le_iff₀ hp]
    push_cast
    rw [ten_zpow_succ, ten_zpow_five] at h2
    linarith
  have a3 : |m - roundEven (m / 10 ^ (e - 5)) * 10 ^ (e - 5)| ≤ 1 / 2 * 10 ^ (e - 5) := by
    have e1 : m - roundEven (m / 10 ^ (e - 5)) * 10 ^ (e - 5) = -((roundEven (m / 10 ^ (e - 5)) - m / 10 ^ (e - 5)) * 10 ^ (e - 5)) := by
      rw [sub_mul, div_mul_cancel₀ _ hp.ne']
      ring
    rw [e1, abs_neg, abs_mul, abs_of_pos hp]
    exact mul_le_mul_of_nonneg_right (roundEven_near _) hp.le
  have a4 : ((roundEven (m / 10 ^ (e - 5))).toNat : ℤ) = roundEven (m / 10 ^ (e - 5)) := Int.toNat_of_nonneg (by omega)
  have a5 : (((roundEven (m / 10 ^ (e - 5))).toNat : ℕ) : ℚ) = roundEven (m / 10 ^ (e - 5)) := by exact_mod_cast a4
  rw [← a4] at a1 a2
  rw [← a5] at a3
  clear a4 a5
  generalize (roundEven (m / 10 ^ (e - 5))).toNat = n at *
  have b1 : 10 ^ 5 ≤ n := by exact_mod_cast a1
  have b2 : n ≤ 10 ^ 6 := by exact_mod_cast a2
  have hs : Spec.SixDigits m (n * 10 ^ (e - 5)) := ⟨n, e, h1, h2, b1, b2, rfl, a3⟩
  by_cases hn : n = 10 ^ 6
  · rw [if_pos hn]
    refine ⟨le_rfl, by norm_num, ?_⟩
    rw [hn] at hs
    rw [show e + 1 - 5 = (e - 5) + 1 by ring, ten_zpow_succ]
    have : ((10 ^ 5 : ℕ) : ℚ) * (10 * 10 ^ (e - 5)) = ((10 ^ 6 : ℕ) : ℚ) * 10 ^ (e - 5) := by push_cast; ring
    rw [this]
    exact hs
  · rw [if_neg hn]
    exact ⟨b1, lt_of_le_of_ne b2 hn, hs⟩

/-! ## Zeros at the end -/

/-- A list of digits without the zeros at its end. -/
def dropZeros (p : List Char) : List Char := (p.reverse.dropWhile (· = '0')).reverse

theorem dropZeros_zero (p : List Char) : dropZeros (p ++ ['0']) = dropZeros p := by
  simp [dropZeros]

theorem dropZeros_other (p : List Char) {c : Char} (h : c ≠ '0') : dropZeros (p ++ [c]) = p ++ [c] := by
  simp [dropZeros, h]

theorem dropZeros_value (acc : ℕ) (p : List Char) : (digitsValue acc (dropZeros p) : ℚ) / 10 ^ (dropZeros p).length =
    digitsValue acc p / 10 ^ p.length := by
  induction p using List.reverseRecOn with
  | nil => rfl
  | append_singleton p c ih =>
    by_cases h : c = '0'
    · subst h
      rw [dropZeros_zero, ih, digitsValue_append, List.length_append, List.length_singleton, pow_succ]
      have : (digitsValue (digitsValue acc p) ['0'] : ℚ) = digitsValue acc p * 10 := by
        show ((10 * digitsValue acc p + 0 : ℕ) : ℚ) = _
        push_cast
        ring
      rw [this, mul_div_mul_right _ _ (by norm_num)]
    · rw [dropZeros_other p h]

theorem dropZeros_digit {p : List Char} (h : ∀ c ∈ p, isDigitText c = true) : ∀ c ∈ dropZeros p, isDigitText c = true := by
  intro c hc
  refine h c ?_
  have := List.mem_reverse.1 hc
  exact List.mem_reverse.1 ((List.dropWhile_sublist _).subset this)

theorem pointText_eq (p : List Char) : pointText p = if dropZeros p = [] then [] else '.' :: dropZeros p := rfl

/-! ## A number -/

/-- A text that does not go on with a digit. -/
def NoDigit (cs : List Char) : Prop := cs = [] ∨ ∃ c t, cs = c :: t ∧ isDigitText c = false

theorem takeWhile_whole {ds rest : List Char} (h : ∀ c ∈ ds, isDigitText c = true) (hr : NoDigit rest) :
    (ds ++ rest).takeWhile isDigitText = ds ∧ (ds ++ rest).dropWhile isDigitText = rest := by
  induction ds with
  | nil =>
    rcases hr with rfl | ⟨c, t, rfl, hc⟩
    · exact ⟨rfl, rfl⟩
    · simp [hc]
  | cons d ds ih =>
    have := ih fun c hc => h c (List.mem_cons_of_mem _ hc)
    simp [h d List.mem_cons_self, this]

/-- The end of a number: nothing or an exponent. -/
def Tail (cs : List Char) : Prop := cs = [] ∨ ∃ t, cs = 'e' :: t

theorem Tail.noDigit {cs : List Char} (h : Tail cs) : NoDigit cs := by
  rcases h with rfl | ⟨t, rfl⟩
  · exact .inl rfl
  · exact .inr ⟨_, _, rfl, by decide⟩

theorem splitPoint_eq {p x : List Char} (hp : ∀ c ∈ p, isDigitText c = true) (hx : Tail x) :
    splitPoint ((if p = [] then [] else '.' :: p) ++ x) = (p, x) := by
  by_cases h : p = []
  · subst h
    rw [if_pos rfl, List.nil_append]
    rcases hx with rfl | ⟨t, rfl⟩ <;> rfl
  · rw [if_neg h, List.cons_append, splitPoint, (takeWhile_whole hp hx.noDigit).1, (takeWhile_whole hp hx.noDigit).2]

theorem readShortMag_eq (s : Bool) (a : ℕ) {p x : List Char} (hp : ∀ c ∈ p, isDigitText c = true) (hx : Tail x) {e : ℤ}
    (he : readExponent x = some e) : readShortMag s (natText a ++ ((if p = [] then [] else '.' :: p) ++ x)) =
      some (F64.round s ((digitsValue a p : ℚ) / 10 ^ p.length * 10 ^ e)) := by
  have h0 := natText_ne a
  have h1 := natText_digit a
  have hnd : NoDigit ((if p = [] then [] else '.' :: p) ++ x) := by
    by_cases h : p = []
    · rw [if_pos h]
      exact hx.noDigit
    · rw [if_neg h]
      exact .inr ⟨_, _, rfl, by decide⟩
  obtain ⟨t1, t2⟩ := takeWhile_whole h1 hnd
  have hne : ∀ w : List Char, (∀ c ∈ w, isDigitText c = false) → natText a ++ ((if p = [] then [] else '.' :: p) ++ x) ≠ w := by
    intro w hw e
    obtain ⟨c, cs, e'⟩ := List.exists_cons_of_ne_nil h0
    have hc : c ∈ w := by rw [← e, e']; simp
    have := h1 c (by rw [e']; simp)
    rw [hw c hc] at this
    cases this
  unfold readShortMag
  rw [if_neg (hne _ (by decide)), if_neg (hne _ (by decide))]
  simp only [t1, t2, splitPoint_eq hp hx]
  rw [if_neg h0, he, Option.map_some, natText_value]

theorem readShort_signed (s : Bool) {cs : List Char} (h : ∃ c ds, cs = c :: ds ∧ c ≠ '-') :
    readShort (signText s ++ cs) = readShortMag s cs := by
  cases s with
  | true => rfl
  | false =>
    obtain ⟨c, ds, rfl, hc⟩ := h
    show readShort (c :: ds) = _
    unfold readShort
    split
    · rename_i e
      simp only [List.cons.injEq] at e
      exact absurd e.1 hc
    · rfl

theorem natText_first (a : ℕ) (rest : List Char) : ∃ c ds, natText a ++ rest = c :: ds ∧ c ≠ '-' := by
  obtain ⟨c, cs, e⟩ := List.exists_cons_of_ne_nil (natText_ne a)
  refine ⟨c, cs ++ rest, by rw [e]; rfl, ?_⟩
  rintro rfl
  have := natText_digit a '-' (by rw [e]; simp)
  revert this
  decide

theorem readExponent_text (e : ℤ) : readExponent (exponentText e) = some e := by
  have hd : ∀ n : ℕ, (if n < 10 then '0' :: natText n else natText n) ≠ [] ∧
      (if n < 10 then '0' :: natText n else natText n).all isDigitText = true ∧
      digitsValue 0 (if n < 10 then '0' :: natText n else natText n) = n := by
    intro n
    split_ifs with h
    · refine ⟨by simp, List.all_eq_true.2 fun c hc => ?_, ?_⟩
      · rcases List.mem_cons.1 hc with rfl | hc
        · decide
        · exact natText_digit n c hc
      · show digitsValue (10 * 0 + 0) (natText n) = n
        exact natText_value n
    · exact ⟨natText_ne n, List.all_eq_true.2 (natText_digit n), natText_value n⟩
  obtain ⟨h1, h2, h3⟩ := hd e.natAbs
  unfold exponentText
  by_cases h : e < 0
  · rw [if_pos h]
    simp only [readExponent]
    rw [if_pos ⟨h1, h2⟩, h3]
    congr 1
    omega
  · rw [if_neg h]
    simp only [readExponent]
    rw [if_pos ⟨h1, h2⟩, h3]
    congr 1
    omega

/-- What is read when `x` was written. -/
def six : F64 → F64
  | .nan => .nan
  | .inf s => .inf s
  | .fin s m h => if m = 0 then .fin s m h else F64.round s ((sixDigits m).1 * 10 ^ ((sixDigits m).2 - 5))

theorem digits_value (n k : ℕ) : ((digitsValue (n / 10 ^ k) (lastDigits k (n % 10 ^ k)) : ℕ) : ℚ) / 10 ^ (lastDigits k (n % 10 ^ k)).length =
    n / 10 ^ k := by
  rw [lastDigits_value _ _ _ (Nat.mod_lt _ (by positivity)), lastDigits_length, Nat.div_add_mod' n (10 ^ k)]

/-- A number written is read back to six digits. -/
theorem readShort_shortText (x : F64) : readShort (shortText x) = some (six x) := by
  match x with
  | .nan => decide
  | .inf true => rfl
  | .inf false => rfl
  | .fin s m h =>
    simp only [shortText, six]
    by_cases hm : m = 0
    · rw [if_pos hm, if_pos hm]
      rw [readShort_signed s ⟨'0', [], rfl, by decide⟩]
      have := readShortMag_eq s 0 (p := []) (x := []) (by simp) (.inl rfl) (e := 0) rfl
      have e : readShortMag s ['0'] = some (F64.round s ((digitsValue 0 [] : ℚ) / 10 ^ ([] : List Char).length * 10 ^ (0 : ℤ))) := this
      rw [e]
      subst hm
      congr 1
      have e2 : ((digitsValue 0 [] : ℕ) : ℚ) / 10 ^ ([] : List Char).length * 10 ^ (0 : ℤ) = 0 := by simp [digitsValue]
      rw [e2]
      unfold F64.round
      have e3 : roundMag |(0 : ℚ)| = 0 := by rw [abs_zero, roundMag_zero]
      rw [dif_pos (by rw [e3]; positivity)]
      simp only [e3]
    · rw [if_neg hm, if_neg hm]
      generalize (sixDigits m).1 = n
      generalize (sixDigits m).2 = e
      have hd : ∀ k, ∀ c ∈ dropZeros (lastDigits k (n % 10 ^ k)), isDigitText c = true :=
        fun k => dropZeros_digit (lastDigits_digit _ _)
      split_ifs with he
      · rw [List.append_assoc, readShort_signed s (natText_first _ _), pointText_eq]
        have := readShortMag_eq s (n / 10 ^ (5 - e).toNat) (hd (5 - e).toNat) (x := []) (.inl rfl) (e := 0) rfl
        rw [List.append_nil] at this
        rw [this, dropZeros_value, digits_value, zpow_zero, mul_one]
        congr 2
        rw [show e - 5 = -((5 - e).toNat : ℤ) by omega, zpow_neg, zpow_natCast, div_eq_mul_inv]
      · rw [List.append_assoc, List.append_assoc, readShort_signed s (natText_first _ _), pointText_eq]
        have := readShortMag_eq s (n / 10 ^ 5) (hd 5) (x := exponentText e) (.inr ⟨_, rfl⟩) (readExponent_text e)
        rw [this, dropZeros_value, digits_value]
        congr 2
        rw [ten_zpow_five e]
        field_simp

/-! ## Lines -/

/-- Characters of which none ends a word. -/
def Word (cs : List Char) : Prop := cs ≠ [] ∧ ∀ c ∈ cs, c ≠ '\t' ∧ c ≠ '\n'

theorem digits_word {cs : List Char} (h : ∀ c ∈ cs, isDigitText c = true) : ∀ c ∈ cs, c ≠ '\t' ∧ c ≠ '\n' := by
  intro c hc
  have := h c hc
  constructor <;> rintro rfl <;> revert this <;> decide

theorem signText_word (s : Bool) : ∀ c ∈ signText s, c ≠ '\t' ∧ c ≠ '\n' := by
  cases s <;> decide

theorem pointText_word {p : List Char} (h : ∀ c ∈ p, isDigitText c = true) : ∀ c ∈ pointText p, c ≠ '\t' ∧ c ≠ '\n' := by
  rw [pointText_eq]
  split_ifs
  · simp
  · intro c hc
    rcases List.mem_cons.1 hc with rfl | hc
    · decide
    · exact digits_word (dropZeros_digit h) c hc

theorem exponentText_word (e : ℤ) : ∀ c ∈ exponentText e, c ≠ '\t' ∧ c ≠ '\n' := by
  intro c hc
  unfold exponentText at hc
  rcases List.mem_cons.1 hc with rfl | hc
  · decide
  rcases List.mem_cons.1 hc with rfl | hc
  · split_ifs <;> decide
  split_ifs at hc
  · rcases List.mem_cons.1 hc with rfl | hc
    · decide
    · exact digits_word (natText_digit _) c hc
  · exact digits_word (natText_digit _) c hc

theorem shortText_word (x : F64) : Word (shortText x) := by
  match x with
  | .nan => exact ⟨by decide, by decide⟩
  | .inf true => exact ⟨by decide, by decide⟩
  | .inf false => exact ⟨by decide, by decide⟩
  | .fin s m h =>
    simp only [shortText]
    split_ifs
    · refine ⟨by simp, fun c hc => (List.mem_append.1 hc).elim (signText_word s c) fun hc => ?_⟩
      rw [List.mem_singleton.1 hc]
      decide
    · refine ⟨by simp [natText_ne], fun c hc => ?_⟩
      rw [List.mem_append, List.mem_append] at hc
      rcases hc with (hc | hc) | hc
      · exact signText_word s c hc
      · exact digits_word (natText_digit _) c hc
      · exact pointText_word (lastDigits_digit _ _) c hc
    · refine ⟨by simp [natText_ne], fun c hc => ?_⟩
      rw [List.mem_append, List.mem_append, List.mem_append] at hc
      rcases hc with ((hc | hc) | hc) | hc
      · exact signText_word s c hc
      · exact digits_word (natText_digit _) c hc
      · exact pointText_word (lastDigits_digit _ _) c hc
      · exact exponentText_word _ c hc

theorem wordsFrom_word {w : List Char} (h : ∀ c ∈ w, c ≠ '\t' ∧ c ≠ '\n') (cur cs : List Char) :
    wordsFrom cur (w ++ cs) = wordsFrom (w.reverse ++ cur) cs := by
  induction w generalizing cur with
  | nil => rfl
  | cons c w ih =>
    obtain ⟨h1, h2⟩ := h c List.mem_cons_self
    rw [List.cons_append, wordsFrom, if_neg (by simp [h1, h2]), ih fun d hd => h d (List.mem_cons_of_mem _ hd), List.reverse_cons,
      List.append_assoc]
    rfl

theorem words_first {w : List Char} (h : Word w) {c : Char} (hc : c = '\t' ∨ c = '\n') (cs : List Char) :
    wordsFrom [] (w ++ c :: cs) = w :: wordsFrom [] cs := by
  rw [wordsFrom_word h.2, List.append_nil, wordsFrom, if_pos hc, if_neg (by simpa using h.1), List.reverse_reverse]

theorem words_line (xs : List F64) (hx : xs ≠ []) (cs : List Char) :
    wordsFrom [] (lineText xs ++ cs) = xs.map shortText ++ wordsFrom [] cs := by
  obtain ⟨x, xs, rfl⟩ := List.exists_cons_of_ne_nil hx
  clear hx
  rw [lineText, List.append_assoc, List.append_assoc, List.singleton_append]
  induction xs generalizing x with
  | nil => exact words_first (shortText_word x) (.inr rfl) cs
  | cons y xs ih =>
    rw [List.flatMap_cons, List.cons_append, List.cons_append, words_first (shortText_word x) (.inl rfl), List.append_assoc, ih y]
    rfl

theorem words_lines (ls : List (List F64)) (h : ∀ l ∈ ls, l ≠ []) :
    wordsFrom [] (ls.flatMap lineText) = (ls.flatMap id).map shortText := by
  induction ls with
  | nil => rfl
  | cons l ls ih =>
    rw [List.flatMap_cons, words_line l (h l List.mem_cons_self), ih fun l hl => h l (List.mem_cons_of_mem _ hl), List.flatMap_cons,
      List.map_append]
    rfl

/-- The numbers in lines of text. -/
theorem readNumbers_lines (ls : List (List F64)) (h : ∀ l ∈ ls, l ≠ []) :
    readNumbers (ls.flatMap lineText) = some ((ls.flatMap id).map six) := by
  rw [readNumbers, words_lines ls h]
  generalize ls.flatMap id = xs
  induction xs with
  | nil => rfl
  | cons x xs ih =>
    rw [List.map_cons, List.mapM_cons, readShort_shortText, ih]
    rfl

/-- A line with the numbers read in place of the numbers written. -/
def sixS (l : Vec3 F64 × F64) : Vec3 F64 × F64 := (⟨six l.1.x, six l.1.y, six l.1.z⟩, six l.2)

/-- A line with the numbers read in place of the numbers written. -/
def sixV (l : Vec3 F64 × Vec3 F64) : Vec3 F64 × Vec3 F64 := (⟨six l.1.x, six l.1.y, six l.1.z⟩, ⟨six l.2.x, six l.2.y, six l.2.z⟩)

theorem read_scalarText (ls : List (Vec3 F64 × F64)) : (readNumbers (scalarText ls)).bind scalarLines = some (ls.map sixS) := by
  have := readNumbers_lines (ls.map fun l => [l.1.x, l.1.y, l.1.z, l.2]) (List.forall_mem_map.2 fun _ _ => List.cons_ne_nil _ _)
  rw [List.flatMap_map] at this
  rw [scalarText, this, Option.bind_some, List.flatMap_map]
  clear this
  induction ls with
  | nil => rfl
  | cons l ls ih =>
    simp only [List.flatMap_cons, id, List.map_cons, List.cons_append, List.nil_append, scalarLines] at ih ⊢
    rw [ih]
    rfl

theorem read_vectorText (ls : List (Vec3 F64 × Vec3 F64)) : (readNumbers (vectorText ls)).bind vectorLines = some (ls.map sixV) := by
  have := readNumbers_lines (ls.map fun l => [l.1.x, l.1.y, l.1.z, l.2.x, l.2.y, l.2.z]) (List.forall_mem_map.2 fun _ _ => List.cons_ne_nil _ _)
  rw [List.flatMap_map] at this
  rw [vectorText, this, Option.bind_some, List.flatMap_map]
  clear this
  induction ls with
  | nil => rfl
  | cons l ls ih =>
    simp only [List.flatMap_cons, id, List.map_cons, List.cons_append, List.nil_append, vectorLines] at ih ⊢
    rw [ih]
    rfl

theorem readShort_six (x : F64) : Spec.ReadShort x (six x) := by
  match x with
  | .nan => exact .inl ⟨rfl, rfl⟩
  | .inf s => exact .inr (.inl ⟨s, rfl, rfl⟩)
  | .fin s m h =>
    by_cases hm : m = 0
    · subst hm
      refine .inr (.inr (.inl ⟨s, h, rfl, ?_⟩))
      simp [six]
    · have h0 := lt_of_le_of_ne (isMag_nonneg h) (Ne.symm hm)
      refine .inr (.inr (.inr ⟨s, m, h, _, rfl, h0, (sixDigits_spec h0).2.2, ?_⟩))
      simp [six, hm]

end Gals
