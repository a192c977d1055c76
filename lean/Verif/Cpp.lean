import Mathlib.Data.List.Basic
import Mathlib.Data.List.Nodup
import Mathlib.Data.List.Perm.Basic
import Mathlib.Data.Int.Notation
import Mathlib.Tactic.Linarith
import Mathlib.Tactic.Ring

/-!
# The fragment of C++ the model is written in

Undefined behaviour is an outcome of its own (`Fault`), not a value.  Every operation of the code base
that may misbehave returns `M α = Except Fault α`.
-/

namespace Gals

/-- The ways in which the modelled code can fail to return a value.

* `overflow` – signed integer overflow (undefined behaviour),
* `oob` – access outside a `std::vector` or a C array (undefined behaviour),
* `conv` – conversion of a floating value to `int` out of range (undefined behaviour),
* `uninit` – use of an indeterminate value (undefined behaviour),
* `exited` – the process ended through `exit(0)`,
* `exn` – a C++ exception left the function (array access at `src/cpu/array.cc:92-93`, `int` arithmetic at `src/cpu/grid.cc:119-122`, conversion at `src/cpu/grid.cc:137`, `exit` at `include/gals/utilities/utilities.h:40-50`). -/
inductive Fault
  | overflow | oob | conv | uninit | exited | exn
  deriving DecidableEq, Repr

/-- Outcome of a C++ computation (`src/cpu/grid.cc:116-123`). -/
abbrev M (α : Type) := Except Fault α

@[simp] theorem M.ok_bind {α β : Type} (a : α) (f : α → M β) : ((Except.ok a : M α) >>= f) = f a := rfl
@[simp] theorem M.error_bind {α β : Type} (e : Fault) (f : α → M β) :
    ((Except.error e : M α) >>= f) = Except.error e := rfl
@[simp] theorem M.pure_eq {α : Type} (a : α) : (pure a : M α) = Except.ok a := rfl

/-! ## `int` -/

/-- How `int` arithmetic treats results outside the range: `strict` is ISO C++ (undefined behaviour, a
fault), `wrap` is two's complement wrap-around (`int` arithmetic at `src/cpu/grid.cc:119-122`). -/
inductive IntSem
  | strict | wrap
  deriving DecidableEq, Repr

/-- `INT_MAX` of `<limits.h>` (32-bit `int`), used in `src/cpu/grid.cc:52-54,134`. -/
def intMax : ℤ := 2147483647

/-- `INT_MIN` of `<limits.h>`, used in `src/cpu/grid.cc:51,54`. -/
def intMin : ℤ := -2147483648

/-- Representable as `int` (`int` arithmetic at `src/cpu/grid.cc:119-122`). -/
def InInt (z : ℤ) : Prop := intMin ≤ z ∧ z ≤ intMax

/-- Decides the range of `int`, `src/cpu/grid.cc:119-122`. -/
instance (z : ℤ) : Decidable (InInt z) := inferInstanceAs (Decidable (_ ∧ _))

/-- Result of an `int` operation whose mathematical value is `z` (`int` arithmetic at `src/cpu/grid.cc:119-122`). -/
def ck (s : IntSem) (z : ℤ) : M ℤ :=
  match s with
  | .strict => if InInt z then .ok z else .error .overflow
  | .wrap => .ok (Int.bmod z 4294967296)

/-- `a + b` on `int` (`src/cpu/grid.cc:119`). -/
def iadd (s : IntSem) (a b : ℤ) : M ℤ := ck s (a + b)
/-- `a - b` on `int` (`src/cpu/gradient/second-order-central.cc:61`). -/
def isub (s : IntSem) (a b : ℤ) : M ℤ := ck s (a - b)
/-- `a * b` on `int` (`src/cpu/grid.cc:119`). -/
def imul (s : IntSem) (a b : ℤ) : M ℤ := ck s (a * b)

theorem ck_ok (s : IntSem) {z : ℤ} (h : InInt z) : ck s z = .ok z := by
  cases s with
  | strict => simp [ck, h]
  | wrap =>
    obtain ⟨h1, h2⟩ := h
    simp only [ck, intMin, intMax] at *
    rw [Int.bmod_eq_of_le (by omega) (by omega)]

theorem ck_strict_overflow {z : ℤ} (h : ¬ InInt z) : ck .strict z = .error .overflow := by
  simp [ck, h]

theorem ck_wrap (z : ℤ) : ∃ w, ck .wrap z = .ok w := ⟨_, rfl⟩

/-! ## `std::vector` -/

/-- Read `v[i]`.  A negative `int` index converts to a `size_t` beyond any vector's size (`src/cpu/array.cc:80,93`). -/
def rd {T : Type} (v : List T) (i : ℤ) : M T :=
  if 0 ≤ i then
    match v[i.toNat]? with
    | some x => .ok x
    | none => .error .oob
  else .error .oob

/-- Write `v[i] = x` (`src/cpu/array.cc:86,100`). -/
def wr {T : Type} (v : List T) (i : ℤ) (x : T) : M (List T) :=
  if 0 ≤ i ∧ i.toNat < v.length then .ok (v.set i.toNat x) else .error .oob

theorem rd_ok {T : Type} {v : List T} {i : ℤ} (h0 : 0 ≤ i) (h : i < v.length) :
    rd v i = .ok (v[i.toNat]'(by omega)) := by
  have : i.toNat < v.length := by omega
  simp [rd, h0, this]

theorem rd_eq_ok_iff {T : Type} {v : List T} {i : ℤ} {x : T} :
    rd v i = .ok x ↔ 0 ≤ i ∧ v[i.toNat]? = some x := by
  unfold rd
  by_cases h0 : 0 ≤ i
  · simp only [h0, if_true, true_and]
    cases h : v[i.toNat]? <;> simp
  · simp [h0]

theorem rd_oob {T : Type} {v : List T} {i : ℤ} (h : i < 0 ∨ (v.length : ℤ) ≤ i) :
    rd v i = .error .oob := by
  unfold rd
  by_cases h0 : 0 ≤ i
  · have : v.length ≤ i.toNat := by omega
    simp [h0, List.getElem?_eq_none this]
  · simp [h0]

theorem wr_ok {T : Type} {v : List T} {i : ℤ} (x : T) (h0 : 0 ≤ i) (h : i < v.length) :
    wr v i x = .ok (v.set i.toNat x) := by
  have : i.toNat < v.length := by omega
  simp [wr, h0, this]

theorem wr_oob {T : Type} {v : List T} {i : ℤ} (x : T) (h : i < 0 ∨ (v.length : ℤ) ≤ i) :
    wr v i x = .error .oob := by
  have : ¬ (0 ≤ i ∧ i.toNat < v.length) := by omega
  simp [wr, this]

theorem wr_eq_ok_iff {T : Type} {v v' : List T} {i : ℤ} {x : T} :
    wr v i x = .ok v' ↔ 0 ≤ i ∧ i < v.length ∧ v' = v.set i.toNat x := by
  unfold wr
  split
  · rename_i h
    constructor
    · intro e
      cases e
      exact ⟨h.1, by omega, rfl⟩
    · rintro ⟨_, _, rfl⟩; rfl
  · rename_i h
    constructor
    · intro e; cases e
    · rintro ⟨a, b, _⟩; omega

theorem wr_length {T : Type} {v v' : List T} {i : ℤ} {x : T} (h : wr v i x = .ok v') :
    v'.length = v.length := by
  rw [wr_eq_ok_iff] at h
  rw [h.2.2]; simp

/-- Reading the slot just written. -/
theorem rd_wr_same {T : Type} {v v' : List T} {i : ℤ} {x : T} (h : wr v i x = .ok v') :
    rd v' i = .ok x := by
  rw [wr_eq_ok_iff] at h
  obtain ⟨h0, h1, rfl⟩ := h
  rw [rd_eq_ok_iff]
  refine ⟨h0, ?_⟩
  rw [List.getElem?_set]
  simp; omega

/-- Reading another slot. -/
theorem rd_wr_other {T : Type} {v v' : List T} {i j : ℤ} {x : T} (h : wr v i x = .ok v') (hij : i ≠ j) :
    rd v' j = rd v j := by
  rw [wr_eq_ok_iff] at h
  obtain ⟨h0, h1, rfl⟩ := h
  unfold rd
  by_cases hj : 0 ≤ j
  · have : i.toNat ≠ j.toNat := by omega
    rw [List.getElem?_set_ne this]
  · simp [hj]

/-! ## Loops -/

/-- The values of `for (int i = lo; i < hi; ++i)` (`src/cpu/grid.cc:199`). -/
def irange (lo hi : ℤ) : List ℤ := (List.range (hi - lo).toNat).map fun n : ℕ => lo + (n : ℤ)

@[simp] theorem mem_irange {lo hi x : ℤ} : x ∈ irange lo hi ↔ lo ≤ x ∧ x < hi := by
  simp only [irange, List.mem_map, List.mem_range]
  constructor
  · rintro ⟨n, hn, rfl⟩; omega
  · rintro ⟨h1, h2⟩
    exact ⟨(x - lo).toNat, by omega, by omega⟩

theorem nodup_irange (lo hi : ℤ) : (irange lo hi).Nodup := by
  refine List.Nodup.map ?_ List.nodup_range
  intro a b h
  simp only [add_right_inj, Nat.cast_inj] at h
  exact h

theorem length_irange (lo hi : ℤ) : (irange lo hi).length = (hi - lo).toNat := by simp [irange]

/-- A cell `(i, j, k)` (`src/cpu/grid.cc:199-201`). -/
abbrev Cell := ℤ × ℤ × ℤ

/-- The triples of three nested loops `for i, for j, for k`, in execution order (`src/cpu/grid.cc:199-201`). -/
def cells (i0 i1 j0 j1 k0 k1 : ℤ) : List Cell :=
  (irange i0 i1).flatMap fun i => (irange j0 j1).flatMap fun j => (irange k0 k1).map fun k => (i, j, k)

@[simp] theorem mem_cells {i0 i1 j0 j1 k0 k1 : ℤ} {c : Cell} :
    c ∈ cells i0 i1 j0 j1 k0 k1 ↔
      (i0 ≤ c.1 ∧ c.1 < i1) ∧ (j0 ≤ c.2.1 ∧ c.2.1 < j1) ∧ (k0 ≤ c.2.2 ∧ c.2.2 < k1) := by
  obtain ⟨i, j, k⟩ := c
  simp only [cells, List.mem_flatMap, List.mem_map, mem_irange, Prod.mk.injEq]
  constructor
  · rintro ⟨a, ha, b, hb, d, hd, rfl, rfl, rfl⟩
    exact ⟨ha, hb, hd⟩
  · rintro ⟨ha, hb, hd⟩
    exact ⟨i, ha, j, hb, k, hd, rfl, rfl, rfl⟩

theorem nodup_cells (i0 i1 j0 j1 k0 k1 : ℤ) : (cells i0 i1 j0 j1 k0 k1).Nodup := by
  unfold cells
  rw [List.nodup_flatMap]
  refine ⟨fun i _ => ?_, ?_⟩
  · rw [List.nodup_flatMap]
    refine ⟨fun j _ => ?_, ?_⟩
    · refine List.Nodup.map ?_ (nodup_irange _ _)
      intro a b h
      simpa using h
    · refine (nodup_irange _ _).imp ?_
      intro a b hab
      simp only [Function.onFun, List.disjoint_left, List.mem_map]
      rintro x ⟨_, _, rfl⟩ ⟨_, _, h⟩
      simp only [Prod.mk.injEq] at h
      exact hab h.2.1.symm
  · refine (nodup_irange _ _).imp ?_
    intro a b hab
    simp only [Function.onFun, List.disjoint_left, List.mem_flatMap, List.mem_map]
    rintro x ⟨_, _, _, _, rfl⟩ ⟨_, _, _, _, h⟩
    simp only [Prod.mk.injEq] at h
    exact hab h.1.symm

/-- Execute `body` for each element of `l`, threading the state (`src/cpu/grid.cc:199-211`). -/
def loop {α σ : Type} (l : List α) (s : σ) (body : σ → α → M σ) : M σ :=
  match l with
  | [] => .ok s
  | a :: l =>
    match body s a with
    | .ok s' => loop l s' body
    | .error e => .error e

@[simp] theorem loop_nil {α σ : Type} (s : σ) (body : σ → α → M σ) : loop [] s body = .ok s := rfl

theorem loop_cons {α σ : Type} (a : α) (l : List α) (s : σ) (body : σ → α → M σ) :
    loop (a :: l) s body = body s a >>= fun s' => loop l s' body := by
  simp only [loop]
  cases body s a <;> rfl

theorem loop_append {α σ : Type} (l₁ l₂ : List α) (s : σ) (body : σ → α → M σ) :
    loop (l₁ ++ l₂) s body = loop l₁ s body >>= fun s' => loop l₂ s' body := by
  induction l₁ generalizing s with
  | nil => rfl
  | cons a l ih =>
    simp only [List.cons_append, loop_cons]
    cases h : body s a with
    | ok s' => simpa [h] using ih s'
    | error e => rfl

/-- Loop rule: an invariant indexed by the elements already processed. -/
theorem loop_inv {α σ : Type} {l : List α} {s : σ} {body : σ → α → M σ}
    (P : List α → σ → Prop) (h0 : P [] s)
    (hstep : ∀ pre a post t, l = pre ++ a :: post → P pre t → ∃ t', body t a = .ok t' ∧ P (pre ++ [a]) t') :
    ∃ t, loop l s body = .ok t ∧ P l t := by
  suffices H : ∀ (post pre : List α) (t : σ), l = pre ++ post → P pre t →
      ∃ t', loop post t body = .ok t' ∧ P l t' from H l [] s rfl h0
  intro post
  induction post with
  | nil =>
    intro pre t hl hP
    refine ⟨t, rfl, ?_⟩
    simp only [List.append_nil] at hl
    rw [hl]; exact hP
  | cons a post ih =>
    intro pre t hl hP
    obtain ⟨t', h1, h2⟩ := hstep pre a post t hl hP
    obtain ⟨t'', h3, h4⟩ := ih (pre ++ [a]) t' (by simp [hl]) h2
    exact ⟨t'', by simp [loop_cons, h1, h3], h4⟩

/-- Partial-correctness rule: if the loop returns, the invariant holds at the end. -/
theorem loop_inv_of_ok {α σ : Type} {l : List α} {s t : σ} {body : σ → α → M σ}
    (P : σ → Prop) (h0 : P s) (hstep : ∀ a ∈ l, ∀ u u', P u → body u a = .ok u' → P u')
    (h : loop l s body = .ok t) : P t := by
  induction l generalizing s with
  | nil => simp only [loop_nil, Except.ok.injEq] at h; exact h ▸ h0
  | cons a l ih =>
    rw [loop_cons] at h
    cases hb : body s a with
    | ok s' =>
      rw [hb] at h
      exact ih (hstep a (by simp) s s' h0 hb) (fun b hb' => hstep b (by simp [hb'])) h
    | error e => rw [hb] at h; cases h

/-- A loop whose body never faults is a fold. -/
theorem loop_eq_foldl {α σ : Type} (l : List α) (s : σ) (f : σ → α → σ) :
    loop l s (fun t a => .ok (f t a)) = .ok (l.foldl f s) := by
  induction l generalizing s with
  | nil => rfl
  | cons a l ih => simp [loop_cons, ih]

theorem loop_congr {α σ : Type} {l : List α} {s : σ} {f g : σ → α → M σ}
    (h : ∀ a ∈ l, ∀ t, f t a = g t a) : loop l s f = loop l s g := by
  induction l generalizing s with
  | nil => rfl
  | cons a l ih =>
    simp only [loop_cons, h a (by simp) s]
    congr 1
    funext t
    exact ih fun b hb => h b (by simp [hb])

end Gals
