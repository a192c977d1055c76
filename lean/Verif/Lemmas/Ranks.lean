import Verif.Model.RefRanks
import Verif.Props.RefMpi
import Mathlib.Algebra.BigOperators.Group.List.Basic
import Mathlib.Data.List.Forall2

/-!
# Runs on any number of ranks, for any processes
-/

set_option linter.unusedSectionVars false
set_option linter.unusedSimpArgs false

namespace Gals.Props

open Gals Gals.Ref

section generic
variable {μ φ α β : Type}

/-- The process without its operations on the file. -/
def erase : FProc μ φ α → Proc μ α
  | .done a => .done a
  | .send x k => .send x (erase k)
  | .recv k => .recv fun x => erase (k x)
  | .file _ k => erase k

@[simp] theorem erase_lift (q : Proc μ α) : erase (φ := φ) q.lift = q := by
  induction q with
  | done a => rfl
  | send x k ih => simp only [Proc.lift, erase, ih]
  | recv k ih => simp only [Proc.lift, erase, ih]

/-- Frames appended by a process that receives the given messages in this order. -/
def shows : FProc μ φ α → List μ → Option (List φ)
  | .done _, _ => some []
  | .recv k, x :: xs => shows (k x) xs
  | .recv _, [] => none
  | .file (.append f) k, xs => (shows k xs).map (f :: ·)
  | .file .remove _, _ => none
  | .send _ _, _ => none

/-- Appending operations before the next receive. -/
def apps : FProc μ φ α → ℕ
  | .done _ => 0
  | .send _ k => apps k
  | .recv _ => 0
  | .file .remove k => apps k
  | .file (.append _) k => 1 + apps k

/-- Operations on the file before the next receive. -/
def fops : FProc μ φ α → ℕ
  | .done _ => 0
  | .send _ k => fops k
  | .recv _ => 0
  | .file _ k => 1 + fops k

@[simp] theorem apps_lift (q : Proc μ α) : apps (φ := φ) q.lift = 0 := by
  induction q with
  | done a => rfl
  | send x k ih => simpa [Proc.lift, apps] using ih
  | recv k ih => rfl

@[simp] theorem fops_lift (q : Proc μ α) : fops (φ := φ) q.lift = 0 := by
  induction q with
  | done a => rfl
  | send x k ih => simpa [Proc.lift, fops] using ih
  | recv k ih => rfl

/-- The next action is not an operation on the file. -/
def NoFile : FProc μ φ α → Prop
  | .file _ _ => False
  | _ => True

theorem noFile_lift (q : Proc μ α) : NoFile (φ := φ) q.lift := by cases q <;> trivial

/-- Operations of the prologue to go: `c` of two. -/
def Stage (f : φ) (c : ℕ) (body p : FProc μ φ α) : Prop :=
  (c = 2 ∧ p = prologue f body) ∨ (c = 1 ∧ p = .file (.append f) body) ∨ (c = 0 ∧ p = body)

/-- A rank other than 0: a part of the prologue, then something that does not touch the file. -/
def Other (f : φ) (c : ℕ) (p : FProc μ φ β) : Prop := ∃ q : Proc μ β, Stage f c q.lift p

theorem Other.apps {f : φ} {c : ℕ} {p : FProc μ φ β} (h : Other f c p) : apps p = min c 1 := by
  obtain ⟨q, ⟨rfl, rfl⟩ | ⟨rfl, rfl⟩ | ⟨rfl, rfl⟩⟩ := h <;> simp [prologue, Props.apps]

theorem Other.fops {f : φ} {c : ℕ} {p : FProc μ φ β} (h : Other f c p) : fops p = c := by
  obtain ⟨q, ⟨rfl, rfl⟩ | ⟨rfl, rfl⟩ | ⟨rfl, rfl⟩⟩ := h <;> simp [prologue, Props.fops]

theorem Other.file {f : φ} {c : ℕ} {op : FileOp φ} {p : FProc μ φ β} (h : Other f c (.file op p)) :
    (c = 2 ∧ op = .remove ∧ Other f 1 p) ∨ (c = 1 ∧ op = .append f ∧ Other f 0 p) := by
  obtain ⟨q, ⟨rfl, e⟩ | ⟨rfl, e⟩ | ⟨rfl, e⟩⟩ := h
  · simp only [prologue, FProc.file.injEq] at e
    exact .inl ⟨rfl, e.1, q, .inr (.inl ⟨rfl, e.2⟩)⟩
  · simp only [FProc.file.injEq] at e
    exact .inr ⟨rfl, e.1, q, .inr (.inr ⟨rfl, e.2⟩)⟩
  · have := noFile_lift (φ := φ) q
    rw [← e] at this
    exact this.elim

theorem Other.send {f : φ} {c : ℕ} {x : μ} {p : FProc μ φ β} (h : Other f c (.send x p)) : c = 0 ∧ Other f 0 p := by
  obtain ⟨q, ⟨rfl, e⟩ | ⟨rfl, e⟩ | ⟨rfl, e⟩⟩ := h
  · cases e
  · cases e
  · cases q with
    | send y q =>
      simp only [Proc.lift, FProc.send.injEq] at e
      exact ⟨rfl, q, .inr (.inr ⟨rfl, e.2⟩)⟩
    | done b => cases e
    | recv k => cases e

/-! ## Messages -/

/-- Rank 0 takes exactly what rank 1 sends, and the messages of every other rank stay on the way. -/
def Traffic (a : α) (b : β) (msgs : List μ) (p : FProc μ φ α) : List (List μ × FProc μ φ β) → Prop
  | [] => False
  | (ch, q) :: rest => Balanced a b (erase p, ch, erase q) ∧
      ∀ r ∈ rest, ∃ ys, outputs (erase r.2) = some (ys, b) ∧ r.1 ++ ys = msgs

theorem sender_messages {b : Bool} {fs fs' : List φ} {s s' : List μ × FProc μ φ β} (h : Sender b (fs, s) (fs', s')) {r : β}
    {ys : List μ} (ho : outputs (erase s.2) = some (ys, r)) :
    ∃ ys', outputs (erase s'.2) = some (ys', r) ∧ s'.1 ++ ys' = s.1 ++ ys := by
  cases h with
  | file ch op q => exact ⟨ys, ho, rfl⟩
  | buffer hb ch x q =>
    simp only [erase, outputs, Option.map_eq_some_iff] at ho
    obtain ⟨⟨zs, r'⟩, e, ho⟩ := ho
    cases ho
    exact ⟨zs, e, by simp⟩

theorem Traffic.step {a : α} {r : β} {msgs : List μ} {b : Bool} {s s' : List φ × FProc μ φ α × List (List μ × FProc μ φ β)}
    (h : Traffic a r msgs s.2.1 s.2.2) (hs : Ranks b s s') : Traffic a r msgs s'.2.1 s'.2.2 := by
  cases hs with
  | file fs op p os => cases os with
    | nil => exact h
    | cons o os => exact h
  | @other p pre post fs fs' s s' hs =>
    cases pre with
    | nil =>
      obtain ⟨⟨ys, h1, h2⟩, hr⟩ := h
      obtain ⟨ys', e1, e2⟩ := sender_messages hs h1
      refine ⟨⟨ys', e1, ?_⟩, hr⟩
      show feed (erase p) (s'.1 ++ ys') = _
      rw [e2]
      exact h2
    | cons o pre =>
      obtain ⟨hb, hr⟩ := h
      refine ⟨hb, fun t ht => ?_⟩
      replace hr : ∀ r' ∈ pre ++ s :: post, ∃ ys, outputs (erase r'.2) = some (ys, r) ∧ r'.1 ++ ys = msgs := hr
      replace ht : t ∈ pre ++ s' :: post := ht
      simp only [List.mem_append, List.mem_cons] at ht hr
      rcases ht with ht | rfl | ht
      · exact hr t (.inl ht)
      · obtain ⟨ys, h1, h2⟩ := hr s (.inr (.inl rfl))
        obtain ⟨ys', e1, e2⟩ := sender_messages hs h1
        exact ⟨ys', e1, e2.trans h2⟩
      · exact hr t (.inr (.inr ht))
  | handover fs k x q os =>
    obtain ⟨hb, hr⟩ := h
    exact ⟨hb.step (.handover (fun x => erase (k x)) x (erase q)), hr⟩
  | deliver fs k x ch q os =>
    obtain ⟨hb, hr⟩ := h
    exact ⟨hb.step (.deliver (fun x => erase (k x)) x ch (erase q)), hr⟩

/-- As long as rank 0 has not ended, rank 0 or rank 1 can go on, even if nothing is buffered. -/
theorem Traffic.progress {a : α} {r : β} {msgs : List μ} {fs : List φ} {p : FProc μ φ α} {os : List (List μ × FProc μ φ β)}
    (h : Traffic a r msgs p os) : p = .done a ∨ ∃ s', Ranks false (fs, p, os) s' := by
  match os, h with
  | (ch, q) :: rest, ⟨⟨ys, h1, h2⟩, _⟩ =>
    simp only at h1 h2
    cases p with
    | done a' =>
      simp only [erase, feed, Option.some.injEq, Prod.mk.injEq] at h2
      exact .inl (by rw [h2.1])
    | send x k => cases h2
    | file op k => exact .inr ⟨_, .file fs op k _⟩
    | recv k =>
      cases ch with
      | cons x ch => exact .inr ⟨_, .deliver fs k x ch q rest⟩
      | nil =>
        cases q with
        | done b' =>
          simp only [erase, outputs, Option.some.injEq, Prod.mk.injEq] at h1
          rw [← h1.1] at h2
          cases h2
        | send x q => exact .inr ⟨_, .handover fs k x q rest⟩
        | recv k => cases h1
        | file op q => exact .inr ⟨_, .other (.recv k) [] rest (.file fs [] op q)⟩

theorem ranks_mono {b : Bool} {s s' : List φ × FProc μ φ α × List (List μ × FProc μ φ β)} (h : Ranks b s s') :
    Ranks true s s' := by
  cases h with
  | file fs op p os => exact .file fs op p os
  | other p pre post h =>
    refine .other p pre post ?_
    cases h with
    | file => exact .file _ _ _ _
    | buffer => exact .buffer rfl _ _ _ _
  | handover fs k x q os => exact .handover fs k x q os
  | deliver fs k x ch q os => exact .deliver fs k x ch q os

/-! ## Rank 0 and the file -/

/-- Rank 0: `c` operations of the prologue to go, then `body`, which has appended `i` of the frames. -/
structure Writer (f : φ) (frames : List φ) (c i : ℕ) (body p : FProc μ φ α) (xs : List μ) : Prop where
  stage : Stage f c body p
  fresh : c ≠ 0 → i = 0
  left : shows body xs = some (frames.drop i)

theorem Writer.file {f : φ} {frames : List φ} {c i : ℕ} {body p : FProc μ φ α} {op : FileOp φ} {xs : List μ}
    (h : Writer f frames c i body (.file op p) xs) :
    (c = 2 ∧ op = .remove ∧ Writer f frames 1 i body p xs) ∨ (c = 1 ∧ op = .append f ∧ Writer f frames 0 i body p xs) ∨
      (c = 0 ∧ ¬ NoFile body ∧ ∃ g, op = .append g ∧ frames.take (i + 1) = frames.take i ++ [g] ∧
        Writer f frames 0 (i + 1) p p xs) := by
  obtain ⟨⟨rfl, e⟩ | ⟨rfl, e⟩ | ⟨rfl, e⟩, hf, hl⟩ := h
  · simp only [prologue, FProc.file.injEq] at e
    exact .inl ⟨rfl, e.1, .inr (.inl ⟨rfl, e.2⟩), fun _ => hf (by decide), hl⟩
  · simp only [FProc.file.injEq] at e
    exact .inr (.inl ⟨rfl, e.1, .inr (.inr ⟨rfl, e.2⟩), fun h => absurd rfl h, hl⟩)
  · subst e
    refine .inr (.inr ⟨rfl, fun h => h, ?_⟩)
    cases op with
    | remove => cases hl
    | append g =>
      simp only [shows, Option.map_eq_some_iff] at hl
      obtain ⟨gs, e1, e2⟩ := hl
      have hi : i < frames.length := by
        by_contra hc
        rw [List.drop_eq_nil_of_le (by omega)] at e2
        cases e2
      rw [List.drop_eq_getElem_cons hi, List.cons.injEq] at e2
      refine ⟨g, rfl, ?_, .inr (.inr ⟨rfl, rfl⟩), fun h => absurd rfl h, by rw [e1, e2.2]⟩
      rw [List.take_succ_eq_append_getElem hi, e2.1]

theorem Writer.recv {f : φ} {frames : List φ} {c i : ℕ} {body : FProc μ φ α} {k : μ → FProc μ φ α} {x : μ} {xs : List μ}
    (h : Writer f frames c i body (.recv k) (x :: xs)) : c = 0 ∧ Writer f frames 0 i (k x) (k x) xs := by
  obtain ⟨⟨rfl, e⟩ | ⟨rfl, e⟩ | ⟨rfl, e⟩, hf, hl⟩ := h
  · cases e
  · cases e
  · subst e
    exact ⟨rfl, .inr (.inr ⟨rfl, rfl⟩), fun h => absurd rfl h, hl⟩

/-- Rank 0 together with rank 1, whose messages it gets. -/
def Writing (f : φ) (frames : List φ) (c i : ℕ) (body p : FProc μ φ α) : List (List μ × FProc μ φ β) → Prop
  | [] => False
  | (ch, q) :: _ => ∃ ys b, outputs (erase q) = some (ys, b) ∧ Writer f frames c i body p (ch ++ ys)

theorem shuffle_right_nil {γ : Type} (xs : List γ) : Shuffle xs [] xs := by
  induction xs with
  | nil => exact .nil
  | cons x xs ih => exact .left ih

theorem shuffle_snoc_left {γ : Type} {xs ys zs : List γ} (h : Shuffle xs ys zs) (x : γ) :
    Shuffle (xs ++ [x]) ys (zs ++ [x]) := by
  induction h with
  | nil => exact .left .nil
  | left _ ih => exact .left ih
  | right _ ih => exact .right ih

theorem shuffle_snoc_right {γ : Type} {xs ys zs : List γ} (h : Shuffle xs ys zs) (y : γ) :
    Shuffle xs (ys ++ [y]) (zs ++ [y]) := by
  induction h with
  | nil => exact .right .nil
  | left _ ih => exact .left ih
  | right _ ih => exact .right ih

/-! ## Two ranks -/

/-- Invariant of a run on two ranks: no operation of the prologue of rank 1 comes after a frame of a step. -/
def Pair (f : φ) (frames : List φ) (fs : List φ) (p : FProc μ φ α) (os : List (List μ × FProc μ φ β)) : Prop :=
  ∃ ch q c d i body, os = [(ch, q)] ∧ Writing f frames c i body p os ∧ Other f d q ∧
    (d ≠ 0 → ch = [] ∧ i = 0 ∧ NoFile body) ∧
    ((c = 2 ∧ d = 2) ∨ ∃ j, fs = List.replicate j f ++ frames.take i ∧ 1 ≤ j + min c 1 + min d 1 ∧ j + min c 1 + min d 1 ≤ 2)

theorem Pair.step {f : φ} {frames : List φ} {b : Bool} {s s' : List φ × FProc μ φ α × List (List μ × FProc μ φ β)}
    (h : Pair f frames s.1 s.2.1 s.2.2) (hs : Ranks b s s') : Pair f frames s'.1 s'.2.1 s'.2.2 := by
  obtain ⟨ch, q, c, d, i, body, ho, hw, hq, hd, hfs⟩ := h
  cases hs with
  | file fs op p os =>
    simp only at ho hw hfs ⊢
    subst ho
    obtain ⟨ys, r, e1, hw⟩ := hw
    rcases hw.file with ⟨rfl, rfl, hw'⟩ | ⟨rfl, rfl, hw'⟩ | ⟨rfl, hn, g, rfl, ht, hw'⟩
    · have := hw.fresh (by decide)
      subst this
      exact ⟨ch, q, 1, d, 0, body, rfl, ⟨ys, r, e1, hw'⟩, hq, hd, .inr ⟨0, by simp [FileOp.apply], by omega, by omega⟩⟩
    · have := hw.fresh (by decide)
      subst this
      refine ⟨ch, q, 0, d, 0, body, rfl, ⟨ys, r, e1, hw'⟩, hq, hd, .inr ?_⟩
      rcases hfs with ⟨h, _⟩ | ⟨j, e, h1, h2⟩
      · cases h
      · exact ⟨j + 1, by simp [FileOp.apply, e, List.replicate_succ'], by omega, by omega⟩
    · have hd0 : d = 0 := by
        by_contra hc
        exact hn (hd hc).2.2
      subst hd0
      refine ⟨ch, q, 0, 0, i + 1, p, rfl, ⟨ys, r, e1, hw'⟩, hq, fun h => absurd rfl h, .inr ?_⟩
      rcases hfs with ⟨h, _⟩ | ⟨j, e, h1, h2⟩
      · cases h
      · exact ⟨j, by simp [FileOp.apply, e, ht], h1, h2⟩
  | @other p pre post fs fs' s s' hs =>
    simp only at ho hw hfs ⊢
    have hl : pre = [] ∧ s = (ch, q) ∧ post = [] := by
      cases pre with
      | nil => simp only [List.nil_append, List.cons.injEq] at ho; exact ⟨rfl, ho.1, ho.2⟩
      | cons a pre => simp at ho
    obtain ⟨rfl, rfl, rfl⟩ := hl
    obtain ⟨ys, r, e1, hw⟩ := hw
    obtain ⟨ys', e1', e2'⟩ := sender_messages hs e1
    cases hs with
    | file =>
      rename_i op q'
      have hys : ys' = ys := by simpa using e2'
      subst hys
      rcases hq.file with ⟨rfl, rfl, hq'⟩ | ⟨rfl, rfl, hq'⟩
      · obtain ⟨rfl, rfl, hb⟩ := hd (by decide)
        exact ⟨[], q', c, 1, 0, body, rfl, ⟨ys', r, e1', hw⟩, hq', fun _ => ⟨rfl, rfl, hb⟩,
          .inr ⟨0, by simp [FileOp.apply], by omega, by omega⟩⟩
      · obtain ⟨rfl, rfl, hb⟩ := hd (by decide)
        refine ⟨[], q', c, 0, 0, body, rfl, ⟨ys', r, e1', hw⟩, hq', fun h => absurd rfl h, .inr ?_⟩
        rcases hfs with ⟨_, h⟩ | ⟨j, e, h1, h2⟩
        · cases h
        · exact ⟨j + 1, by simp [FileOp.apply, e, List.replicate_succ'], by omega, by omega⟩
    | buffer =>
      rename_i hb x q'
      obtain ⟨rfl, hq'⟩ := hq.send
      refine ⟨ch ++ [x], q', c, 0, i, body, rfl, ⟨ys', r, e1', ?_⟩, hq', fun h => absurd rfl h, hfs⟩
      rw [show ch ++ [x] ++ ys' = ch ++ ys from e2']
      exact hw
  | handover fs k x q os =>
    simp only [List.cons.injEq, Prod.mk.injEq] at ho
    obtain ⟨⟨rfl, rfl⟩, rfl⟩ := ho
    obtain ⟨ys, r, e1, hw⟩ := hw
    simp only [erase, outputs, Option.map_eq_some_iff] at e1
    obtain ⟨⟨zs, r'⟩, e1, e2⟩ := e1
    cases e2
    obtain ⟨rfl, hw'⟩ := Writer.recv hw
    obtain ⟨rfl, hq'⟩ := hq.send
    exact ⟨[], q, 0, 0, i, k x, rfl, ⟨zs, r', e1, hw'⟩, hq', fun h => absurd rfl h, hfs⟩
  | deliver fs k x ch q os =>
    simp only [List.cons.injEq, Prod.mk.injEq] at ho
    obtain ⟨⟨rfl, rfl⟩, rfl⟩ := ho
    obtain ⟨ys, r, e1, hw⟩ := hw
    obtain ⟨rfl, hw'⟩ := Writer.recv hw
    have hd0 : d = 0 := by
      by_contra hc
      exact absurd (hd hc).1 (by simp)
    subst hd0
    exact ⟨ch, q, 0, 0, i, k x, rfl, ⟨ys, r, e1, hw'⟩, hq, fun h => absurd rfl h, hfs⟩

/-! ## Any number of ranks -/

/-- Invariant of a run on any number of ranks. -/
def Crowd (f : φ) (frames : List φ) (k : ℕ) (fs : List φ) (p : FProc μ φ α) (os : List (List μ × FProc μ φ β)) : Prop :=
  ∃ c i body, Writing f frames c i body p os ∧ (∀ s ∈ os, ∃ d, Other f d s.2) ∧ os.length = k ∧
    ((c = 2 ∧ ∀ s ∈ os, Other f 2 s.2) ∨ ∃ j l, Shuffle (List.replicate j f) ((frames.take i).drop l) fs ∧
      1 ≤ j + min c 1 + (os.map fun s => apps s.2).sum ∧ j + min c 1 + (os.map fun s => apps s.2).sum ≤ k + 1)

theorem sum_apps_le {f : φ} {os : List (List μ × FProc μ φ β)} (h : ∀ s ∈ os, ∃ d, Other f d s.2) :
    (os.map fun s => apps s.2).sum ≤ os.length := by
  induction os with
  | nil => simp
  | cons s os ih =>
    have := ih fun t ht => h t (List.mem_cons_of_mem _ ht)
    obtain ⟨d, hd⟩ := h s List.mem_cons_self
    have := hd.apps
    simp only [List.map_cons, List.sum_cons, List.length_cons]
    omega

theorem Crowd.step {f : φ} {frames : List φ} {k : ℕ} {b : Bool}
    {s s' : List φ × FProc μ φ α × List (List μ × FProc μ φ β)} (h : Crowd f frames k s.1 s.2.1 s.2.2) (hs : Ranks b s s') :
    Crowd f frames k s'.1 s'.2.1 s'.2.2 := by
  obtain ⟨c, i, body, hw, ho, hl, hfs⟩ := h
  cases hs with
  | file fs op p os =>
    simp only at ho hw hfs hl ⊢
    have hsum := sum_apps_le ho
    match os, hw with
    | (ch, q) :: rest, ⟨ys, r, e1, hw⟩ =>
    rcases hw.file with ⟨rfl, rfl, hw'⟩ | ⟨rfl, rfl, hw'⟩ | ⟨rfl, hn, g, rfl, ht, hw'⟩
    · have := hw.fresh (by decide)
      subst this
      exact ⟨1, 0, body, ⟨ys, r, e1, hw'⟩, ho, hl, .inr ⟨0, 0, by simp [FileOp.apply, Shuffle.nil], by omega, by omega⟩⟩
    · refine ⟨0, i, body, ⟨ys, r, e1, hw'⟩, ho, hl, .inr ?_⟩
      rcases hfs with ⟨h, _⟩ | ⟨j, l, e, h1, h2⟩
      · cases h
      · exact ⟨j + 1, l, by rw [List.replicate_succ']; exact shuffle_snoc_left e f, by omega, by omega⟩
    · refine ⟨0, i + 1, p, ⟨ys, r, e1, hw'⟩, ho, hl, .inr ?_⟩
      rcases hfs with ⟨h, _⟩ | ⟨j, l, e, h1, h2⟩
      · cases h
      · refine ⟨j, min l i, ?_, h1, h2⟩
        have hi : (frames.take i).drop l = (frames.take i).drop (min l i) := by
          rcases le_total l i with h | h
          · rw [min_eq_left h]
          · rw [min_eq_right h, List.drop_eq_nil_of_le (by simp; omega), List.drop_eq_nil_of_le (by simp)]
        have hlen : i ≤ frames.length := by
          by_contra hc
          rw [List.take_of_length_le (by omega), List.take_of_length_le (by omega)] at ht
          simpa using congrArg List.length ht
        rw [ht, List.drop_append_of_le_length (by simp; omega), ← hi]
        exact shuffle_snoc_right e g
  | @other p pre post fs fs' s s' hs =>
    simp only at ho hw hfs hl ⊢
    have hsum := sum_apps_le ho
    obtain ⟨d, hd⟩ := ho s (by simp)
    have hw' : Writing f frames c i body p (pre ++ s' :: post) := by
      cases pre with
      | nil =>
        obtain ⟨ys, r, e1, hw⟩ := hw
        obtain ⟨ys', e1', e2'⟩ := sender_messages hs e1
        refine ⟨ys', r, e1', ?_⟩
        rw [e2']
        exact hw
      | cons o pre => exact hw
    have key : ∀ d', Other f d' s'.2 → (∀ t ∈ pre ++ s' :: post, ∃ d, Other f d t.2) := by
      intro d' h t ht
      simp only [List.mem_append, List.mem_cons] at ht
      rcases ht with ht | rfl | ht
      · exact ho t (by simp [ht])
      · exact ⟨d', h⟩
      · exact ho t (by simp [ht])
    have hlen : (pre ++ s' :: post).length = k := by simpa using hl
    simp only [List.map_append, List.map_cons, List.sum_append, List.sum_cons] at hsum hfs
    rw [List.length_append, List.length_cons] at hsum hl
    cases hs with
    | file =>
      rename_i ch op q'
      rcases hd.file with ⟨rfl, rfl, hq'⟩ | ⟨rfl, rfl, hq'⟩
      · have ha := hd.apps
        have hb := hq'.apps
        refine ⟨c, i, body, hw', key _ hq', hlen, .inr ⟨0, i, ?_, ?_, ?_⟩⟩
        · rw [List.drop_eq_nil_of_le (by simp)]
          exact .nil
        · simp only [List.map_append, List.map_cons, List.sum_append, List.sum_cons]
          simp only at ha hb
          omega
        · simp only [List.map_append, List.map_cons, List.sum_append, List.sum_cons]
          simp only at ha hb hsum
          omega
      · have ha := hd.apps
        have hb := hq'.apps
        refine ⟨c, i, body, hw', key _ hq', hlen, .inr ?_⟩
        rcases hfs with ⟨_, h⟩ | ⟨j, l, e, h1, h2⟩
        · have := (h (ch, .file (.append f) q') (by simp)).fops
          rw [hd.fops] at this
          omega
        · refine ⟨j + 1, l, by rw [List.replicate_succ']; exact shuffle_snoc_left e f, ?_, ?_⟩
          · simp only [List.map_append, List.map_cons, List.sum_append, List.sum_cons]
            simp only at ha hb h1 h2
            omega
          · simp only [List.map_append, List.map_cons, List.sum_append, List.sum_cons]
            simp only at ha hb h1 h2
            omega
    | buffer =>
      rename_i hb' ch x q'
      obtain ⟨rfl, hq'⟩ := hd.send
      have ha := hd.apps
      have hb := hq'.apps
      refine ⟨c, i, body, hw', key _ hq', hlen, .inr ?_⟩
      rcases hfs with ⟨_, h⟩ | ⟨j, l, e, h1, h2⟩
      · have := (h (ch, .send x q') (by simp)).fops
        rw [hd.fops] at this
        omega
      · refine ⟨j, l, e, ?_, ?_⟩
        · simp only [List.map_append, List.map_cons, List.sum_append, List.sum_cons]
          simp only at ha hb h1 h2
          omega
        · simp only [List.map_append, List.map_cons, List.sum_append, List.sum_cons]
          simp only at ha hb h1 h2
          omega
  | handover fs k x q os =>
    obtain ⟨ys, r, e1, hw⟩ := hw
    simp only [erase, outputs, Option.map_eq_some_iff] at e1
    obtain ⟨⟨zs, r'⟩, e1, e2⟩ := e1
    cases e2
    obtain ⟨rfl, hw'⟩ := Writer.recv hw
    obtain ⟨d, hd⟩ := ho ([], .send x q) (by simp)
    obtain ⟨rfl, hq'⟩ := hd.send
    refine ⟨0, i, k x, ⟨zs, r', e1, hw'⟩, fun t ht => ?_, hl, .inr ?_⟩
    · simp only [List.mem_cons] at ht
      rcases ht with rfl | ht
      · exact ⟨0, hq'⟩
      · exact ho t (by simp [ht])
    · rcases hfs with ⟨h, _⟩ | ⟨j, l, e, h1, h2⟩
      · cases h
      · exact ⟨j, l, e, h1, h2⟩
  | deliver fs k x ch q os =>
    obtain ⟨ys, r, e1, hw⟩ := hw
    obtain ⟨rfl, hw'⟩ := Writer.recv hw
    refine ⟨0, i, k x, ⟨ys, r, e1, hw'⟩, fun t ht => ?_, hl, .inr ?_⟩
    · simp only [List.mem_cons] at ht
      rcases ht with rfl | ht
      · exact ho (x :: ch, q) (by simp)
      · exact ho t (by simp [ht])
    · rcases hfs with ⟨h, _⟩ | ⟨j, l, e, h1, h2⟩
      · cases h
      · exact ⟨j, l, e, h1, h2⟩

/-! ## Termination -/

/-- Operations on the file of a process that receives the given messages in this order. -/
def fcount : FProc μ φ α → List μ → ℕ
  | .done _, _ => 0
  | .recv k, x :: xs => fcount (k x) xs
  | .recv _, [] => 0
  | .file _ k, xs => 1 + fcount k xs
  | .send _ _, _ => 0

theorem fcount_shows {p : FProc μ φ α} {xs : List μ} {fs : List φ} (h : shows p xs = some fs) : fcount p xs = fs.length := by
  induction p generalizing xs fs with
  | done a => cases h; rfl
  | send x k ih => cases h
  | recv k ih =>
    cases xs with
    | nil => cases h
    | cons x xs => exact ih x h
  | file op k ih =>
    cases op with
    | remove => cases h
    | append f =>
      simp only [shows, Option.map_eq_some_iff] at h
      obtain ⟨gs, e, rfl⟩ := h
      simp only [fcount, ih e, List.length_cons]
      omega

/-- Messages to send. -/
def toSend (q : FProc μ φ β) : List μ := ((outputs (erase q)).map fun r => r.1).getD []

/-- Events to go. -/
def weight (p : FProc μ φ α) : List (List μ × FProc μ φ β) → ℕ
  | [] => 0
  | (ch, q) :: rest => fcount p (ch ++ toSend q) +
      (((ch, q) :: rest).map fun s => 2 * (toSend s.2).length + s.1.length + fops s.2).sum

theorem weight_step {a : α} {r : β} {msgs : List μ} {b : Bool} {s s' : List φ × FProc μ φ α × List (List μ × FProc μ φ β)}
    (h : Traffic a r msgs s.2.1 s.2.2) (hs : Ranks b s s') : weight s'.2.1 s'.2.2 < weight s.2.1 s.2.2 := by
  have hsend : ∀ {fs fs' : List φ} {o o' : List μ × FProc μ φ β}, Sender b (fs, o) (fs', o') → ∀ {ys : List μ} {r' : β},
      outputs (erase o.2) = some (ys, r') → o'.1 ++ toSend o'.2 = o.1 ++ toSend o.2 ∧
        2 * (toSend o'.2).length + o'.1.length + fops o'.2 < 2 * (toSend o.2).length + o.1.length + fops o.2 := by
    intro fs fs' o o' h ys r' e
    cases h with
    | file => exact ⟨rfl, by simp [toSend, erase, fops]⟩
    | buffer =>
      simp only [erase, outputs, Option.map_eq_some_iff] at e
      obtain ⟨⟨zs, r''⟩, e1, e2⟩ := e
      cases e2
      simp [toSend, erase, outputs, fops, e1]
      omega
  cases hs with
  | file fs op p os =>
    match os, h with
    | (ch, q) :: rest, _ => simp [weight, fcount]
  | @other p pre post fs fs' s s' hs =>
    cases pre with
    | nil =>
      obtain ⟨⟨ys, h1, h2⟩, hr⟩ := h
      obtain ⟨e1, e2⟩ := hsend hs h1
      show weight p (s' :: post) < weight p (s :: post)
      simp only [weight, e1, List.map_cons, List.sum_cons]
      omega
    | cons o pre =>
      obtain ⟨hb, hr⟩ := h
      obtain ⟨ys, h1, h2⟩ := hr s (show s ∈ pre ++ s :: post by simp)
      obtain ⟨e1, e2⟩ := hsend hs h1
      show weight p (o :: (pre ++ s' :: post)) < weight p (o :: (pre ++ s :: post))
      simp only [weight, List.map_cons, List.sum_cons, List.map_append, List.sum_append]
      omega
  | handover fs k x q os =>
    obtain ⟨⟨ys, h1, h2⟩, hr⟩ := h
    simp only [erase, outputs, Option.map_eq_some_iff] at h1
    obtain ⟨⟨zs, r''⟩, e1, e2⟩ := h1
    simp [weight, toSend, erase, outputs, e1, fcount, fops]
  | deliver fs k x ch q os =>
    simp [weight, fcount]

/-! ## Whole runs -/

/-- From `s` on the library cannot be stuck before `fin` holds, even if it never buffers a message, and every run ends after
at most `bound` events. -/
structure RunsTo (fin : List φ × FProc μ φ α × List (List μ × FProc μ φ β) → Prop) (bound : ℕ)
    (s : List φ × FProc μ φ α × List (List μ × FProc μ φ β)) : Prop where
  progress : ∀ s', Relation.ReflTransGen (Ranks true) s s' → fin s' ∨ ∃ s'', Ranks false s' s''
  terminates : ∀ (f : ℕ → List φ × FProc μ φ α × List (List μ × FProc μ φ β)) (k : ℕ), f 0 = s →
    (∀ i < k, Ranks true (f i) (f (i + 1))) → k ≤ bound

theorem RunsTo.exists_run {fin : List φ × FProc μ φ α × List (List μ × FProc μ φ β) → Prop} {bound : ℕ}
    {s : List φ × FProc μ φ α × List (List μ × FProc μ φ β)} (h : RunsTo fin bound s) :
    ∃ s', Relation.ReflTransGen (Ranks true) s s' ∧ fin s' := by
  by_contra hc
  push Not at hc
  have key : ∀ N : ℕ, ∃ f : ℕ → List φ × FProc μ φ α × List (List μ × FProc μ φ β), f 0 = s ∧
      ∀ i < N, Ranks true (f i) (f (i + 1)) := by
    intro N
    induction N with
    | zero => exact ⟨fun _ => s, rfl, fun i hi => absurd hi (by omega)⟩
    | succ N ih =>
      obtain ⟨f, h0, hf⟩ := ih
      have hr : ∀ i ≤ N, Relation.ReflTransGen (Ranks true) s (f i) := by
        intro i
        induction i with
        | zero => intro _; rw [h0]
        | succ i ih => exact fun hi => (ih (by omega)).tail (hf i (by omega))
      obtain h1 | ⟨s'', h1⟩ := h.progress (f N) (hr N le_rfl)
      · exact absurd h1 (hc _ (hr N le_rfl))
      · refine ⟨fun i => if i ≤ N then f i else s'', by simp [h0], fun i hi => ?_⟩
        rcases Nat.lt_or_ge i N with h | h
        · simpa [show i ≤ N by omega, show i + 1 ≤ N by omega] using hf i h
        · obtain rfl : i = N := by omega
          simpa using ranks_mono h1
  obtain ⟨f, h0, hf⟩ := key (bound + 1)
  have := h.terminates f (bound + 1) h0 hf
  omega

section run
variable {f : φ} {body : FProc μ φ α} {q : Proc μ β} {msgs : List μ} {a : α} {r : β} {frames : List φ}

/-- Start of a run on `k + 1` ranks. -/
def start (f : φ) (body : FProc μ φ α) (q : Proc μ β) (k : ℕ) (fs : List φ) :
    List φ × FProc μ φ α × List (List μ × FProc μ φ β) :=
  (fs, prologue f body, List.replicate k ([], prologue f q.lift))

theorem start_traffic (ho : outputs q = some (msgs, r)) (hf : feed (erase body) msgs = some (a, [])) (k : ℕ)
    (fs : List φ) : Traffic a r msgs (start f body q (k + 1) fs).2.1 (start f body q (k + 1) fs).2.2 := by
  refine ⟨⟨msgs, by simpa [prologue, erase] using ho, by simpa [start, prologue, erase] using hf⟩, fun s hs => ?_⟩
  rw [(List.mem_replicate.1 hs).2]
  exact ⟨msgs, by simpa [prologue, erase] using ho, by simp⟩

theorem start_pair (ho : outputs q = some (msgs, r)) (hs : shows body msgs = some frames) (hn : NoFile body) (fs : List φ) :
    Pair f frames (start f body q 1 fs).1 (start f body q 1 fs).2.1 (start f body q 1 fs).2.2 :=
  ⟨[], prologue f q.lift, 2, 2, 0, body, rfl,
    ⟨msgs, r, by simpa [prologue, erase] using ho, .inl ⟨rfl, rfl⟩, fun _ => rfl, by simpa using hs⟩,
    ⟨q, .inl ⟨rfl, rfl⟩⟩, fun _ => ⟨rfl, rfl, hn⟩, .inl ⟨rfl, rfl⟩⟩

theorem start_crowd (ho : outputs q = some (msgs, r)) (hs : shows body msgs = some frames) (k : ℕ) (fs : List φ) :
    Crowd f frames (k + 1) (start f body q (k + 1) fs).1 (start f body q (k + 1) fs).2.1 (start f body q (k + 1) fs).2.2 := by
  have h : ∀ s ∈ (start f body q (k + 1) fs).2.2, Other f 2 s.2 := by
    intro s hs
    rw [(List.mem_replicate.1 hs).2]
    exact ⟨q, .inl ⟨rfl, rfl⟩⟩
  exact ⟨2, 0, body, ⟨msgs, r, by simpa [prologue, erase] using ho, .inl ⟨rfl, rfl⟩, fun _ => rfl, by simpa using hs⟩,
    fun s hs => ⟨2, h s hs⟩, by simp [start], .inl ⟨rfl, h⟩⟩

theorem reach_inv {b : Bool} {I : List φ × FProc μ φ α × List (List μ × FProc μ φ β) → Prop}
    (hstep : ∀ {s s'}, I s → Ranks b s s' → I s') {s s' : List φ × FProc μ φ α × List (List μ × FProc μ φ β)} (h0 : I s)
    (h : Relation.ReflTransGen (Ranks b) s s') : I s' := by
  induction h with
  | refl => exact h0
  | tail _ hs ih => exact hstep ih hs

theorem start_terminates (ho : outputs q = some (msgs, r)) (hf : feed (erase body) msgs = some (a, []))
    (hs : shows body msgs = some frames) (k : ℕ) (fs : List φ)
    (g : ℕ → List φ × FProc μ φ α × List (List μ × FProc μ φ β)) (N : ℕ) (h0 : g 0 = start f body q (k + 1) fs)
    (hg : ∀ i < N, Ranks true (g i) (g (i + 1))) : N ≤ (k + 1) * (2 * msgs.length + 2) + 2 + frames.length := by
  have key : ∀ i ≤ N, Traffic a r msgs (g i).2.1 (g i).2.2 ∧
      weight (g i).2.1 (g i).2.2 + i ≤ (k + 1) * (2 * msgs.length + 2) + 2 + frames.length := by
    intro i
    induction i with
    | zero =>
      intro _
      rw [h0]
      refine ⟨start_traffic ho hf k fs, ?_⟩
      have e1 : toSend (prologue f q.lift : FProc μ φ β) = msgs := by simp [toSend, prologue, erase, ho]
      have e2 : fcount (prologue f body) msgs = 2 + frames.length := by
        simp [prologue, fcount, fcount_shows hs]
        omega
      have e4 : fops (prologue f q.lift : FProc μ φ β) = 2 := by simp [prologue, fops]
      simp only [start, List.replicate_succ, weight, e1, List.nil_append, e2, e4, List.map_cons, List.sum_cons,
        List.map_replicate, List.sum_replicate, List.length_nil, smul_eq_mul]
      have : (k + 1) * (2 * msgs.length + 2) = (2 * msgs.length + 2) + k * (2 * msgs.length + 2) := by ring
      have e3 : 2 * msgs.length + 0 + 2 = 2 * msgs.length + 2 := by omega
      rw [e3]
      omega
    | succ i ih =>
      intro hi
      obtain ⟨h1, h2⟩ := ih (by omega)
      have := weight_step h1 (hg i (by omega))
      exact ⟨h1.step (hg i (by omega)), by omega⟩
  have := (key N le_rfl).2
  omega

theorem ended_of_outputs {q : FProc μ φ β} {ys : List μ} (h : outputs (erase q) = some (ys, r)) :
    (q = .done r ∧ ys = []) ∨ (∃ op q', q = .file op q') ∨ ∃ x q', q = .send x q' := by
  cases q with
  | done b =>
    simp only [erase, outputs, Option.some.injEq, Prod.mk.injEq] at h
    exact .inl ⟨by rw [h.2], h.1.symm⟩
  | send x q' => exact .inr (.inr ⟨x, q', rfl⟩)
  | recv k => cases h
  | file op q' => exact .inr (.inl ⟨op, q', rfl⟩)

/-- Two ranks: both end, and the file holds the initial frame once or twice and then the frames of the steps. -/
theorem two_ranks (ho : outputs q = some (msgs, r)) (hf : feed (erase body) msgs = some (a, []))
    (hs : shows body msgs = some frames) (hn : NoFile body) (fs : List φ) :
    RunsTo (fun s => ∃ j, (j = 1 ∨ j = 2) ∧ s = (List.replicate j f ++ frames, .done a, [([], .done r)]))
      (2 * msgs.length + 4 + frames.length) (start f body q 1 fs) := by
  refine ⟨fun s' h => ?_, fun g N h0 hg => ?_⟩
  · have h1 := reach_inv (I := fun s => Traffic a r msgs s.2.1 s.2.2) Traffic.step (start_traffic (f := f) ho hf 0 fs) h
    have h2 := reach_inv (I := fun s => Pair f frames s.1 s.2.1 s.2.2) Pair.step (start_pair ho hs hn fs) h
    obtain ⟨fs', p', os'⟩ := s'
    simp only at h1 h2
    rcases h1.progress (fs := fs') with rfl | h3
    · obtain ⟨ch, q', c, d, i, body', rfl, ⟨ys, r', e1, hw⟩, hq, hd, hfs⟩ := h2
      obtain ⟨⟨ys', e2, e3⟩, -⟩ := h1
      simp only [erase, feed, Option.some.injEq, Prod.mk.injEq, List.append_eq_nil_iff, true_and] at e3
      obtain ⟨rfl, rfl⟩ := e3
      rcases ended_of_outputs e2 with ⟨rfl, -⟩ | ⟨op, q'', rfl⟩ | ⟨x, q'', rfl⟩
      · left
        obtain ⟨⟨rfl, e⟩ | ⟨rfl, e⟩ | ⟨rfl, e⟩, -, hl⟩ := hw
        · cases e
        · cases e
        · subst e
          have hd0 := hq.fops
          simp only [fops] at hd0
          subst hd0
          simp only [shows, Option.some.injEq] at hl
          rcases hfs with ⟨h, -⟩ | ⟨j, rfl, j1, j2⟩
          · cases h
          · refine ⟨j, by omega, ?_⟩
            have hlen := congrArg List.length hl
            rw [List.length_nil, List.length_drop] at hlen
            rw [List.take_of_length_le (by omega)]
      · exact .inr ⟨_, .other (.done a) [] [] (.file fs' [] op q'')⟩
      · simp [erase, outputs] at e2
    · exact .inr h3
  · have := start_terminates ho hf hs 0 fs g N h0 hg
    omega

/-- Any number of ranks from two on, whether messages are buffered or not: rank 0 is never stuck before it ends, every run
ends, and when nothing more can happen all ranks have ended, all messages of the ranks from 2 on are still on the way, and the
file holds initial frames among the last frames of the steps. -/
theorem many_ranks (ho : outputs q = some (msgs, r)) (hf : feed (erase body) msgs = some (a, []))
    (hs : shows body msgs = some frames) (k : ℕ) (fs : List φ) :
    RunsTo (fun s => s.2.1 = .done a) ((k + 1) * (2 * msgs.length + 2) + 2 + frames.length) (start f body q (k + 1) fs) ∧
    ∀ s', Relation.ReflTransGen (Ranks true) (start f body q (k + 1) fs) s' → (¬ ∃ s'', Ranks true s' s'') →
      s'.2 = (.done a, ([], .done r) :: List.replicate k (msgs, .done r)) ∧
      ∃ j l, 1 ≤ j ∧ j ≤ k + 2 ∧ Shuffle (List.replicate j f) (frames.drop l) s'.1 := by
  have ht : ∀ s', Relation.ReflTransGen (Ranks true) (start f body q (k + 1) fs) s' → Traffic a r msgs s'.2.1 s'.2.2 :=
    fun s' h => reach_inv (I := fun s => Traffic a r msgs s.2.1 s.2.2) Traffic.step (start_traffic (f := f) ho hf k fs) h
  refine ⟨⟨fun s' h => (ht s' h).progress, fun g N h0 hg => start_terminates ho hf hs k fs g N h0 hg⟩, fun s' h hstuck => ?_⟩
  have h1 := ht s' h
  have h2 := reach_inv (I := fun s => Crowd f frames (k + 1) s.1 s.2.1 s.2.2) Crowd.step (start_crowd ho hs k fs) h
  obtain ⟨fs', p', os'⟩ := s'
  simp only at h1 h2 ⊢
  rcases h1.progress (fs := fs') with rfl | ⟨s'', h3⟩
  · match os', h1, h2 with
    | (ch, q') :: rest, ⟨⟨ys', e2, e3⟩, hrest⟩, ⟨c, i, body', ⟨ys, r', e1, hw⟩, hq, hl, hfs⟩ =>
    simp only [erase, feed, Option.some.injEq, Prod.mk.injEq, List.append_eq_nil_iff, true_and] at e3
    obtain ⟨rfl, rfl⟩ := e3
    have hend : ∀ s ∈ (([] : List μ), q') :: rest, ∀ ys, outputs (erase s.2) = some (ys, r) → s.2 = .done r ∧ ys = [] := by
      intro s hs ys e
      obtain ⟨pre, post, e'⟩ := List.append_of_mem hs
      rcases ended_of_outputs e with h | ⟨op, q'', h⟩ | ⟨x, q'', h⟩
      · exact h
      · obtain ⟨ch, q0⟩ := s
        simp only at h
        subst h
        rw [e'] at hstuck
        exact absurd ⟨_, .other (.done a) pre post (.file fs' ch op q'')⟩ hstuck
      · obtain ⟨ch, q0⟩ := s
        simp only at h
        subst h
        rw [e'] at hstuck
        exact absurd ⟨_, .other (.done a) pre post (.buffer rfl fs' ch x q'')⟩ hstuck
    obtain ⟨rfl, -⟩ := hend _ List.mem_cons_self _ e2
    have hrep : rest = List.replicate k (msgs, .done r) := by
      rw [List.eq_replicate_iff]
      refine ⟨by simpa using hl, fun s hs => ?_⟩
      obtain ⟨zs, e4, e5⟩ := hrest s hs
      obtain ⟨e6, rfl⟩ := hend s (List.mem_cons_of_mem _ hs) zs e4
      exact Prod.ext (by simpa using e5) e6
    subst hrep
    refine ⟨rfl, ?_⟩
    obtain ⟨⟨rfl, e⟩ | ⟨rfl, e⟩ | ⟨rfl, e⟩, -, hl'⟩ := hw
    · cases e
    · cases e
    · subst e
      simp only [shows, Option.some.injEq] at hl'
      rcases hfs with ⟨h, -⟩ | ⟨j, l, h, j1, j2⟩
      · cases h
      · have hlen := congrArg List.length hl'
        rw [List.length_nil, List.length_drop] at hlen
        rw [List.take_of_length_le (by omega)] at h
        simp [apps] at j1 j2
        exact ⟨j, l, by omega, by omega, h⟩
  · exact absurd ⟨s'', ranks_mono h3⟩ hstuck

/-- Without buffering a rank from 2 on never gets past its first send. -/
theorem blocked (ho : outputs q = some (msgs, r)) (k : ℕ) (fs : List φ)
    {s' : List φ × FProc μ φ α × List (List μ × FProc μ φ β)}
    (h : Relation.ReflTransGen (Ranks false) (start f body q (k + 1) fs) s') :
    s'.2.2.length = k + 1 ∧ ∀ s ∈ s'.2.2.tail, s.1 = [] ∧ outputs (erase s.2) = some (msgs, r) := by
  refine reach_inv (b := false) (I := fun s => s.2.2.length = k + 1 ∧ ∀ t ∈ s.2.2.tail, t.1 = [] ∧
    outputs (erase t.2) = some (msgs, r)) (fun {s s'} hI hs => ?_) ⟨by simp [start], fun s hs => ?_⟩ h
  · obtain ⟨h0, h1⟩ := hI
    cases hs with
    | file fs op p os => exact ⟨h0, h1⟩
    | @other p pre post fs fs' s s' hs =>
      refine ⟨by simpa using h0, ?_⟩
      have key : outputs (erase s'.2) = outputs (erase s.2) ∧ s'.1 = s.1 := by
        cases hs with
        | file => exact ⟨rfl, rfl⟩
        | buffer hb => cases hb
      cases pre with
      | nil => exact h1
      | cons o pre =>
        intro t ht
        replace ht : t ∈ pre ++ s' :: post := ht
        replace h1 : ∀ t ∈ pre ++ s :: post, t.1 = [] ∧ outputs (erase t.2) = some (msgs, r) := h1
        simp only [List.mem_append, List.mem_cons] at ht
        rcases ht with ht | rfl | ht
        · exact h1 t (by simp [ht])
        · rw [key.1, key.2]
          exact h1 s (by simp)
        · exact h1 t (by simp [ht])
    | handover fs k x q os => exact ⟨h0, h1⟩
    | deliver fs k x ch q os => exact ⟨h0, h1⟩
  · simp only [start, List.replicate_succ, List.tail_cons] at hs
    rw [(List.mem_replicate.1 hs).2]
    exact ⟨rfl, by simpa [prologue, erase] using ho⟩

theorem ranks_append {b : Bool} {s s' : List φ × FProc μ φ α × List (List μ × FProc μ φ β)} (h : Ranks b s s')
    (ts : List (List μ × FProc μ φ β)) : Ranks b (s.1, s.2.1, s.2.2 ++ ts) (s'.1, s'.2.1, s'.2.2 ++ ts) := by
  cases h with
  | file fs op p os => exact .file fs op p _
  | other p pre post h =>
    simp only [List.append_assoc, List.cons_append]
    exact .other p pre (post ++ ts) h
  | handover fs k x q os => exact .handover fs k x q _
  | deliver fs k x ch q os => exact .deliver fs k x ch q _

theorem sender_sends {q : Proc μ β} (ho : outputs q = some (msgs, r)) (p : FProc μ φ α)
    (pre post : List (List μ × FProc μ φ β)) (fs : List φ) (ch : List μ) :
    Relation.ReflTransGen (Ranks true) (fs, p, pre ++ (ch, q.lift) :: post)
      (fs, p, pre ++ (ch ++ msgs, .done r) :: post) := by
  induction q generalizing msgs ch with
  | done b =>
    simp only [outputs, Option.some.injEq, Prod.mk.injEq] at ho
    obtain ⟨rfl, rfl⟩ := ho
    rw [List.append_nil]
    exact .refl
  | send x q ih =>
    simp only [outputs, Option.map_eq_some_iff] at ho
    obtain ⟨⟨zs, r'⟩, e, h⟩ := ho
    cases h
    refine Relation.ReflTransGen.head (.other p pre post (.buffer rfl fs ch x q.lift)) ?_
    have := ih e (ch ++ [x])
    rwa [List.append_assoc] at this
  | recv k ih => cases ho

/-- With buffering a rank can do everything after all others have ended. -/
theorem late_sender (ho : outputs q = some (msgs, r)) (p : FProc μ φ α) (pre post : List (List μ × FProc μ φ β))
    (fs : List φ) :
    Relation.ReflTransGen (Ranks true) (fs, p, pre ++ ([], prologue f q.lift) :: post)
      ([f], p, pre ++ (msgs, .done r) :: post) := by
  refine Relation.ReflTransGen.head (.other p pre post (.file fs [] .remove _)) ?_
  refine Relation.ReflTransGen.head (.other p pre post (.file _ [] (.append f) _)) ?_
  exact sender_sends ho p pre post [f] []

/-- With three ranks or more the frames of all steps can be lost, though all ranks end. -/
theorem frames_lost (ho : outputs q = some (msgs, r)) (hf : feed (erase body) msgs = some (a, []))
    (hs : shows body msgs = some frames) (hn : NoFile body) (k : ℕ) (fs : List φ) :
    Relation.ReflTransGen (Ranks true) (start f body q (k + 2) fs)
      ([f], .done a, ([], .done r) :: List.replicate (k + 1) (msgs, .done r)) := by
  obtain ⟨s', h1, j, -, rfl⟩ := (two_ranks (f := f) ho hf hs hn fs).exists_run
  have h2 : Relation.ReflTransGen (Ranks true) (start f body q (k + 2) fs)
      (List.replicate j f ++ frames, .done a, [([], .done r)] ++ List.replicate (k + 1) ([], prologue f q.lift)) := by
    have := Relation.ReflTransGen.lift (p := Ranks true)
      (fun s : List φ × FProc μ φ α × List (List μ × FProc μ φ β) =>
        (s.1, s.2.1, s.2.2 ++ List.replicate (k + 1) ([], prologue f q.lift))) (fun _ _ h => ranks_append h _) _ _ h1
    simpa [Function.onFun, start, List.replicate_succ] using this
  refine h2.trans ?_
  have key : ∀ (m : ℕ) (pre : List (List μ × FProc μ φ β)) (fs : List φ), Relation.ReflTransGen (Ranks true)
      (fs, (.done a : FProc μ φ α), pre ++ List.replicate (m + 1) ([], prologue f q.lift))
      ([f], .done a, pre ++ List.replicate (m + 1) (msgs, .done r)) := by
    intro m
    induction m with
    | zero => exact fun pre fs => late_sender ho (.done a) pre [] fs
    | succ m ih =>
      intro pre fs
      refine (late_sender ho (.done a) pre (List.replicate (m + 1) ([], prologue f q.lift)) fs).trans ?_
      have := ih (pre ++ [(msgs, .done r)]) [f]
      simpa [List.replicate_succ, List.append_assoc] using this
  exact key k [([], .done r)] _

/-- A single rank waits for ever. -/
theorem alone {k : μ → FProc μ φ α} (fs : List φ) {s' : List φ × FProc μ φ α × List (List μ × FProc μ φ β)}
    (h : Relation.ReflTransGen (Ranks true) (start f (.recv k) q 0 fs) s') :
    s'.2.2 = [] ∧ (s'.2.1 = prologue f (.recv k) ∨ s'.2.1 = .file (.append f) (.recv k) ∧ s'.1 = [] ∨
      s'.2.1 = .recv k ∧ s'.1 = [f] ∧ ¬ ∃ s'', Ranks true s' s'') := by
  refine reach_inv (b := true) (I := fun s => s.2.2 = [] ∧ (s.2.1 = prologue f (.recv k) ∨
    s.2.1 = .file (.append f) (.recv k) ∧ s.1 = [] ∨ s.2.1 = .recv k ∧ s.1 = [f] ∧ ¬ ∃ s'', Ranks true s s''))
    (fun {s s'} hI hs => ?_) ⟨rfl, .inl rfl⟩ h
  obtain ⟨h0, h1⟩ := hI
  cases hs with
  | file fs op p os =>
    simp only at h0 h1 ⊢
    subst h0
    refine ⟨rfl, ?_⟩
    rcases h1 with h1 | ⟨h1, h2⟩ | ⟨h1, h2, h3⟩
    · simp only [prologue, FProc.file.injEq] at h1
      obtain ⟨rfl, rfl⟩ := h1
      exact .inr (.inl ⟨rfl, rfl⟩)
    · simp only [FProc.file.injEq] at h1
      obtain ⟨rfl, rfl⟩ := h1
      subst h2
      refine .inr (.inr ⟨rfl, rfl, ?_⟩)
      rintro ⟨s'', h⟩
      generalize he : (FileOp.apply [] (FileOp.append f), (FProc.recv k : FProc μ φ α),
        ([] : List (List μ × FProc μ φ β))) = s at h
      cases h with
      | file => cases he
      | other p pre post h => simp at he
      | handover => cases he
      | deliver => cases he
    · cases h1
  | other p pre post h => simp at h0
  | handover => simp at h0
  | deliver => simp at h0

end run

end generic

end Gals.Props
