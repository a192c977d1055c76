import Verif.Model.RefText
import Verif.Spec.RefText
import Verif.Spec.RefRun
import Verif.Lemmas.DoubleOps
import Mathlib.Tactic.Ring

/-!
# Text written and read
-/

namespace Gals.Ref

open Gals

theorem digitText_value {d : ℕ} (h : d < 10) : (digitText d).toNat = 48 + d := by
  have : ∀ d < 10, (digitText d).toNat = 48 + d := by decide
  exact this d h

theorem digitText_digit {d : ℕ} (h : d < 10) : isDigitText (digitText d) = true := by
  rw [isDigitText, digitText_value h]
  exact decide_eq_true (by omega)

theorem digitsValue_append (acc : ℕ) (cs ds : List Char) :
    digitsValue acc (cs ++ ds) = digitsValue (digitsValue acc cs) ds := List.foldl_append ..

theorem digitsValue_single (acc : ℕ) {d : ℕ} (h : d < 10) : digitsValue acc [digitText d] = 10 * acc + d := by
  show 10 * acc + ((digitText d).toNat - 48) = _
  rw [digitText_value h]
  omega

theorem digitsValue_reverse (acc : ℕ) (ds : List ℕ) (h : ∀ d ∈ ds, d < 10) :
    digitsValue acc (ds.reverse.map digitText) = acc * 10 ^ ds.length + Nat.ofDigits 10 ds := by
  induction ds with
  | nil => simp [digitsValue]
  | cons d ds ih =>
    rw [List.reverse_cons, List.map_append, digitsValue_append, ih fun e he => h e (List.mem_cons_of_mem _ he),
      List.map_singleton, digitsValue_single _ (h d List.mem_cons_self), List.length_cons, Nat.ofDigits_cons]
    ring

theorem natText_value (n : ℕ) : digitsValue 0 (natText n) = n := by
  unfold natText
  split_ifs with h
  · rw [h]
    rfl
  · rw [digitsValue_reverse _ _ fun d hd => Nat.digits_lt_base (by norm_num) hd, Nat.ofDigits_digits]
    omega

theorem digitsValue_natText (acc n : ℕ) : digitsValue acc (natText n) = acc * 10 ^ (natText n).length + n := by
  unfold natText
  split_ifs with h
  · rw [h]
    show 10 * acc + 0 = acc * 10 ^ 1 + 0
    ring
  · rw [digitsValue_reverse _ _ fun d hd => Nat.digits_lt_base (by norm_num) hd, Nat.ofDigits_digits]
    simp

theorem natText_digit (n : ℕ) : ∀ c ∈ natText n, isDigitText c = true := by
  intro c hc
  unfold natText at hc
  split_ifs at hc with h
  · rw [List.mem_singleton] at hc
    rw [hc]
    decide
  · obtain ⟨d, hd, rfl⟩ := List.mem_map.1 hc
    exact digitText_digit (Nat.digits_lt_base (by norm_num) (List.mem_reverse.1 hd))

theorem natText_ne (n : ℕ) : natText n ≠ [] := by
  unfold natText
  split_ifs with h
  · simp
  · simpa [Nat.digits_eq_nil_iff_eq_zero] using h

theorem lastDigits_length (k n : ℕ) : (lastDigits k n).length = k := by
  induction k generalizing n with
  | zero => rfl
  | succ k ih => rw [lastDigits, List.length_append, ih, List.length_singleton]

theorem lastDigits_digit (k n : ℕ) : ∀ c ∈ lastDigits k n, isDigitText c = true := by
  induction k generalizing n with
  | zero => simp [lastDigits]
  | succ k ih =>
    intro c hc
    rw [lastDigits, List.mem_append, List.mem_singleton] at hc
    rcases hc with hc | rfl
    · exact ih _ c hc
    · exact digitText_digit (Nat.mod_lt _ (by norm_num))

theorem lastDigits_value (acc k n : ℕ) (h : n < 10 ^ k) : digitsValue acc (lastDigits k n) = acc * 10 ^ k + n := by
  induction k generalizing n with
  | zero =>
    have : n = 0 := by simpa using h
    simp [lastDigits, digitsValue, this]
  | succ k ih =>
    rw [lastDigits, digitsValue_append, ih _ (by rw [pow_succ] at h; omega), digitsValue_single _ (Nat.mod_lt _ (by norm_num))]
    rw [pow_succ]
    have := Nat.div_add_mod n 10
    generalize n / 10 = a at *
    generalize n % 10 = b at *
    rw [← this]
    ring

/-- What is read when `x` was written. -/
def ten : F64 → F64
  | .nan => .nan
  | .inf s => .inf s
  | .fin s m _ => F64.round s (((roundEven (m * 10 ^ 10)).toNat : ℚ) / 10 ^ 10)

theorem readBack_ten (x : F64) : Spec.ReadBack x (ten x) := by
  match x with
  | .nan => exact .inl ⟨rfl, rfl⟩
  | .inf s => exact .inr (.inl ⟨s, rfl, rfl⟩)
  | .fin s m h =>
    refine .inr (.inr ⟨s, m, h, (roundEven (m * 10 ^ 10)).toNat, rfl, ?_, rfl⟩)
    have h0 : 0 ≤ m * 10 ^ 10 := mul_nonneg (isMag_nonneg h) (by norm_num)
    have h1 := abs_le.1 (roundEven_near (m * 10 ^ 10))
    have h2 : (((roundEven (m * 10 ^ 10)).toNat : ℕ) : ℚ) = (roundEven (m * 10 ^ 10) : ℚ) := by
      exact_mod_cast Int.toNat_of_nonneg (roundEven_nonneg h0)
    rw [h2]
    generalize (roundEven (m * 10 ^ 10) : ℚ) = r at *
    rw [abs_le]
    constructor <;> [rw [neg_le_sub_iff_le_add]; rw [sub_le_iff_le_add]] <;> linarith

theorem takeWhile_digits (ds rest : List Char) (h : ∀ c ∈ ds, isDigitText c = true) :
    (ds ++ '.' :: rest).takeWhile isDigitText = ds ∧ (ds ++ '.' :: rest).dropWhile isDigitText = '.' :: rest := by
  induction ds with
  | nil => exact ⟨rfl, rfl⟩
  | cons d ds ih =>
    have := ih fun c hc => h c (List.mem_cons_of_mem _ hc)
    simp [h d List.mem_cons_self, this]

theorem readMag_decimal (s : Bool) (a b : ℕ) (hb : b < 10 ^ 10) :
    readMag s (natText a ++ '.' :: lastDigits 10 b) = some (F64.round s (((a * 10 ^ 10 + b : ℕ) : ℚ) / 10 ^ 10)) := by
  have h0 := natText_ne a
  have h1 := natText_digit a
  obtain ⟨t1, t2⟩ := takeWhile_digits (natText a) (lastDigits 10 b) h1
  have hne : ∀ w : List Char, (∀ c ∈ w, isDigitText c = false) → natText a ++ '.' :: lastDigits 10 b ≠ w := by
    intro w hw e
    obtain ⟨c, cs, e'⟩ := List.exists_cons_of_ne_nil h0
    have hc : c ∈ w := by rw [← e, e']; simp
    have := h1 c (by rw [e']; simp)
    rw [hw c hc] at this
    cases this
  unfold readMag
  rw [if_neg (hne _ (by decide)), if_neg (hne _ (by decide))]
  simp only [t1, t2]
  rw [if_neg h0, if_pos (List.all_eq_true.2 (lastDigits_digit 10 b)), natText_value, lastDigits_value _ _ _ hb,
    lastDigits_length]

theorem readNumber_digit {cs : List Char} (h : ∃ c ds, cs = c :: ds ∧ c ≠ '-') : readNumber cs = readMag false cs := by
  obtain ⟨c, ds, rfl, hc⟩ := h
  unfold readNumber
  split
  · rename_i e
    simp only [List.cons.injEq] at e
    exact absurd e.1 hc
  · rfl

/-- A number written is read back to ten decimals. -/
theorem readNumber_fixed10 (x : F64) : readNumber (fixed10 x) = some (ten x) := by
  match x with
  | .nan => decide
  | .inf true => rfl
  | .inf false => rfl
  | .fin s m h =>
    simp only [fixed10, ten]
    generalize (roundEven (m * 10 ^ 10)).toNat = n
    have hr := fun s => readMag_decimal s (n / 10 ^ 10) (n % 10 ^ 10) (Nat.mod_lt _ (by norm_num))
    rw [Nat.div_add_mod' n (10 ^ 10)] at hr
    rw [← hr s]
    cases s with
    | true => rfl
    | false =>
      refine readNumber_digit ?_
      obtain ⟨c, cs, e⟩ := List.exists_cons_of_ne_nil (natText_ne (n / 10 ^ 10))
      refine ⟨c, cs ++ '.' :: lastDigits 10 (n % 10 ^ 10), by rw [e]; rfl, ?_⟩
      rintro rfl
      have := natText_digit (n / 10 ^ 10) '-' (by rw [e]; simp)
      revert this
      decide

theorem readNat_natText (n : ℕ) : readNat (natText n) = some n := by
  unfold readNat
  rw [if_pos ⟨natText_ne n, List.all_eq_true.2 (natText_digit n)⟩, natText_value]

/-- Characters of which no field separator is one. -/
def Field (cs : List Char) : Prop := ∀ c ∈ cs, c ≠ ',' ∧ c ≠ '\n'

theorem digit_field {cs : List Char} (h : ∀ c ∈ cs, isDigitText c = true) : Field cs := by
  intro c hc
  have := h c hc
  constructor <;> rintro rfl <;> revert this <;> decide

theorem natText_field (n : ℕ) : Field (natText n) := digit_field (natText_digit n)

theorem fixed10_field (x : F64) : Field (fixed10 x) := by
  match x with
  | .nan => intro c hc; revert c; decide
  | .inf true => intro c hc; revert c; decide
  | .inf false => intro c hc; revert c; decide
  | .fin s m h =>
    simp only [fixed10]
    generalize (roundEven (m * 10 ^ 10)).toNat = n
    intro c hc
    rw [List.mem_append, List.mem_append, List.mem_cons] at hc
    rcases hc with (hc | hc) | rfl | hc
    · cases s
      · simp [signText] at hc
      · have : c = '-' := by simpa [signText] using hc
        rw [this]
        decide
    · exact natText_field _ c hc
    · decide
    · exact digit_field (lastDigits_digit _ _) c hc

theorem fixed10_ne (x : F64) : fixed10 x ≠ [] := by
  match x with
  | .nan => decide
  | .inf true => decide
  | .inf false => decide
  | .fin s m h => simp [fixed10]

theorem scanFrom_field {w : List Char} (h : Field w) (cur cs : List Char) :
    scanFrom cur (w ++ cs) = scanFrom (w.reverse ++ cur) cs := by
  induction w generalizing cur with
  | nil => rfl
  | cons c w ih =>
    obtain ⟨h1, h2⟩ := h c List.mem_cons_self
    rw [List.cons_append, scanFrom, if_neg h1, if_neg h2, ih fun d hd => h d (List.mem_cons_of_mem _ hd), List.reverse_cons,
      List.append_assoc]
    rfl

/-- An item with the number read in place of the number written. -/
def Tok.ten : Tok F64 → Tok F64
  | .num k => .num (Ref.ten k)
  | .comma => .comma
  | .nl => .nl

/-- The items `ts` are read back in front of any other text. -/
def Scans (ts : List (Tok F64)) : Prop :=
  ∀ cs us, scan cs = some us → scan (fileText ts ++ cs) = some (ts.map Tok.ten ++ us)

theorem Scans.nil : Scans [] := fun _ _ h => h

theorem Scans.append {ts us : List (Tok F64)} (h : Scans ts) (h' : Scans us) : Scans (ts ++ us) := by
  intro cs vs hv
  rw [fileText, List.flatMap_append, List.append_assoc, List.map_append, List.append_assoc]
  exact h _ _ (h' _ _ hv)

theorem Scans.flatMap {S : Type} (f : S → List (Tok F64)) (ss : List S) (h : ∀ s ∈ ss, Scans (f s)) : Scans (ss.flatMap f) := by
  induction ss with
  | nil => exact .nil
  | cons s ss ih =>
    rw [List.flatMap_cons]
    exact (h s List.mem_cons_self).append (ih fun t ht => h t (List.mem_cons_of_mem _ ht))

theorem Scans.nl : Scans [.nl] := by
  intro cs us h
  show scanFrom [] ('\n' :: cs) = _
  rw [scanFrom, if_neg (by decide), if_pos rfl]
  have h : scanFrom [] cs = some us := h
  rw [h]
  rfl

theorem scan_num (x : F64) {c : Char} {t : Tok F64} (hc : (c = ',' ∧ t = .comma) ∨ (c = '\n' ∧ t = .nl)) {cs : List Char}
    {us : List (Tok F64)} (h : scan cs = some us) : scan (fixed10 x ++ c :: cs) = some (.num (ten x) :: t :: us) := by
  have h : scanFrom [] cs = some us := h
  have e : ∀ vs, endField (fixed10 x).reverse vs = some (.num (ten x) :: vs) := by
    intro vs
    rw [endField, if_neg (by simpa using fixed10_ne x), List.reverse_reverse, readNumber_fixed10]
    rfl
  rw [scan, scanFrom_field (fixed10_field x), List.append_nil]
  rcases hc with ⟨rfl, rfl⟩ | ⟨rfl, rfl⟩
  · rw [scanFrom, if_pos rfl, h, Option.bind_some, e]
  · rw [scanFrom, if_neg (by decide), if_pos rfl, h, Option.bind_some, e]

theorem Scans.row (vs : List F64) : Scans ((vs.map Tok.num).intersperse Tok.comma ++ [.nl]) := by
  induction vs with
  | nil => exact .nl
  | cons x vs ih =>
    intro cs us h
    cases vs with
    | nil =>
      have := scan_num x (.inr ⟨rfl, rfl⟩) h
      simpa [fileText, Tok.text, Tok.ten] using this
    | cons y vs =>
      have := scan_num x (.inl ⟨rfl, rfl⟩) (ih cs us h)
      simpa [fileText, Tok.text, Tok.ten] using this

theorem Scans.frame (nx ny : ℕ) (f : ℕ → ℕ → F64) : Scans (Spec.frame nx ny f) := by
  refine .append (.flatMap _ _ fun i _ => ?_) .nl
  have := Scans.row ((List.range nx).map (f i))
  rw [List.map_map] at this
  exact this

theorem map_intersperse {A B : Type} (g : A → B) (a : A) (l : List A) : (l.intersperse a).map g = (l.map g).intersperse (g a) := by
  induction l with
  | nil => rfl
  | cons x l ih =>
    cases l with
    | nil => rfl
    | cons y l =>
      rw [List.map_cons, List.map_cons, ← List.map_cons]
      simp only [List.intersperse_cons_cons, List.map_cons] at ih ⊢
      rw [ih]

theorem ten_frame (nx ny : ℕ) (f : ℕ → ℕ → F64) :
    (Spec.frame nx ny f).map Tok.ten = Spec.frame nx ny fun i j => ten (f i j) := by
  have hrow : ∀ i, (Spec.rowText (f i) nx).map Tok.ten = Spec.rowText (fun j => ten (f i j)) nx := by
    intro i
    rw [Spec.rowText, List.map_append, map_intersperse, List.map_map]
    rfl
  rw [Spec.frame, List.map_append, List.map_flatMap]
  simp only [hrow]
  rfl

/-- The text of frames is read back as frames. -/
theorem scan_frames {S : Type} (nx ny : ℕ) (sel : S → ℕ → ℕ → F64) (ss : List S) :
    scan (fileText (ss.flatMap fun s => Spec.frame nx ny (sel s))) =
      some (ss.flatMap fun s => Spec.frame nx ny fun i j => ten (sel s i j)) := by
  have h := Scans.flatMap (fun s => Spec.frame nx ny (sel s)) ss (fun s _ => Scans.frame nx ny (sel s)) [] [] rfl
  rw [List.append_nil, List.append_nil, List.map_flatMap] at h
  rw [h]
  simp only [ten_frame]

theorem fieldsFrom_field {w : List Char} (h : Field w) (cur cs : List Char) :
    fieldsFrom cur (w ++ ',' :: cs) = (cur.reverse ++ w) :: fieldsFrom [] cs := by
  induction w generalizing cur with
  | nil =>
    rw [List.nil_append, fieldsFrom, if_pos rfl, List.append_nil]
  | cons c w ih =>
    rw [List.cons_append, fieldsFrom, if_neg (h c List.mem_cons_self).1, ih fun d hd => h d (List.mem_cons_of_mem _ hd)]
    simp

theorem fieldsFrom_last {w : List Char} (h : Field w) (cur : List Char) : fieldsFrom cur w = [cur.reverse ++ w] := by
  induction w generalizing cur with
  | nil => simp [fieldsFrom]
  | cons c w ih =>
    rw [fieldsFrom, if_neg (h c List.mem_cons_self).1, ih fun d hd => h d (List.mem_cons_of_mem _ hd)]
    simp

/-- The parameters with the numbers read in place of the numbers written. -/
def Details.ten (d : Details F64) : Details F64 :=
  ⟨d.nx, d.ny, Ref.ten d.dx, Ref.ten d.dy, Ref.ten d.xlim1, Ref.ten d.xlim2, Ref.ten d.ylim1, Ref.ten d.ylim2, d.n, Ref.ten d.dt,
    d.printstep⟩

theorem readDetails_text (d : Details F64) : readDetails d.text = some d.ten := by
  have e : fieldsFrom [] d.text = [natText d.nx, natText d.ny, fixed10 d.dx, fixed10 d.dy, fixed10 d.xlim1, fixed10 d.xlim2,
      fixed10 d.ylim1, fixed10 d.ylim2, natText d.n, fixed10 d.dt, natText d.printstep] := by
    unfold Details.text
    simp only [List.append_assoc, List.cons_append]
    rw [fieldsFrom_field (natText_field _), fieldsFrom_field (natText_field _), fieldsFrom_field (fixed10_field _),
      fieldsFrom_field (fixed10_field _), fieldsFrom_field (fixed10_field _), fieldsFrom_field (fixed10_field _),
      fieldsFrom_field (fixed10_field _), fieldsFrom_field (fixed10_field _), fieldsFrom_field (natText_field _),
      fieldsFrom_field (fixed10_field _), fieldsFrom_last (natText_field _)]
    rfl
  unfold readDetails
  simp only [e, readNat_natText, readNumber_fixed10]
  rfl

end Gals.Ref
