import Verif.Model.RefMpi
import Verif.Props.RefMain
import Mathlib.Data.List.Basic

/-!
# C52, C53, C62: the MPI version of the reference code
-/

set_option linter.unusedSectionVars false
set_option linter.unusedSimpArgs false

namespace Gals.Props

open Gals Gals.Ref

/-! ## Exchange between a sender and a receiver -/

section exchange
variable {μ α β : Type}

/-- Messages and result of a process that only sends. -/
def outputs : Proc μ β → Option (List μ × β)
  | .done b => some ([], b)
  | .send x k => (outputs k).map fun r => (x :: r.1, r.2)
  | .recv _ => none

/-- Result of a process that only receives, when its receives get the given messages in this order, and the messages left. -/
def feed : Proc μ α → List μ → Option (α × List μ)
  | .done a, xs => some (a, xs)
  | .recv k, x :: xs => feed (k x) xs
  | .recv _, [] => none
  | .send _ _, _ => none

/-- Both processes have ended and no message is on the way. -/
def Finished (a : α) (b : β) (s : Proc μ α × List μ × Proc μ β) : Prop := s = (.done a, [], .done b)

/-- Messages sent and to be sent are exactly what the receiver takes. -/
def Balanced (a : α) (b : β) (s : Proc μ α × List μ × Proc μ β) : Prop :=
  ∃ ys, outputs s.2.2 = some (ys, b) ∧ feed s.1 (s.2.1 ++ ys) = some (a, [])

theorem Balanced.step {a : α} {b : β} {s s' : Proc μ α × List μ × Proc μ β} (h : Balanced a b s) (hs : Net s s') :
    Balanced a b s' := by
  obtain ⟨ys, h1, h2⟩ := h
  cases hs with
  | buffer p ch x q =>
    simp only [outputs, Option.map_eq_some_iff] at h1
    obtain ⟨⟨zs, b'⟩, e, h1⟩ := h1
    cases h1
    exact ⟨zs, e, by simpa using h2⟩
  | handover k x q =>
    simp only [outputs, Option.map_eq_some_iff] at h1
    obtain ⟨⟨zs, b'⟩, e, h1⟩ := h1
    cases h1
    exact ⟨zs, e, h2⟩
  | deliver k x ch q => exact ⟨ys, h1, h2⟩

theorem Balanced.progress {a : α} {b : β} {s : Proc μ α × List μ × Proc μ β} (h : Balanced a b s) :
    Finished a b s ∨ ∃ s', NetSync s s' := by
  obtain ⟨p, ch, q⟩ := s
  obtain ⟨ys, h1, h2⟩ := h
  cases p with
  | done a' =>
    simp only [feed, Option.some.injEq, Prod.mk.injEq, List.append_eq_nil_iff] at h2
    obtain ⟨rfl, rfl, rfl⟩ := h2
    cases q with
    | done b' => simp only [outputs, Option.some.injEq, Prod.mk.injEq, true_and] at h1; exact .inl (by rw [Finished, h1])
    | send x k =>
      simp only [outputs, Option.map_eq_some_iff, Prod.mk.injEq, reduceCtorEq, false_and, and_false, exists_false] at h1
    | recv k => cases h1
  | send x k => cases h2
  | recv k =>
    cases ch with
    | cons x ch => exact .inr ⟨_, .deliver k x ch q⟩
    | nil =>
      cases q with
      | done b' =>
        simp only [outputs, Option.some.injEq, Prod.mk.injEq] at h1
        rw [← h1.1] at h2
        cases h2
      | send x q => exact .inr ⟨_, .handover k x q⟩
      | recv k => cases h1

/-- Each event takes a message one or two stages further. -/
theorem Balanced.measure {a : α} {b : β} {s s' : Proc μ α × List μ × Proc μ β} (h : Balanced a b s) (hs : Net s s') :
    2 * ((outputs s'.2.2).map fun r => r.1.length).getD 0 + s'.2.1.length <
      2 * ((outputs s.2.2).map fun r => r.1.length).getD 0 + s.2.1.length := by
  obtain ⟨ys, h1, h2⟩ := h
  cases hs with
  | buffer p ch x q =>
    simp only [outputs, Option.map_eq_some_iff] at h1
    obtain ⟨⟨zs, b'⟩, e, h1⟩ := h1
    simp [outputs, e]
    omega
  | handover k x q =>
    simp only [outputs, Option.map_eq_some_iff] at h1
    obtain ⟨⟨zs, b'⟩, e, h1⟩ := h1
    simp [outputs, e]
  | deliver k x ch q => simp

/-- What it means that an exchange works: from `s` on no run of the library can be stuck before both processes have ended
with `a` and `b`, even if no message is ever buffered, and every run ends after at most `bound` events. -/
structure Works (a : α) (b : β) (bound : ℕ) (s : Proc μ α × List μ × Proc μ β) : Prop where
  progress : ∀ s', Relation.ReflTransGen Net s s' → Finished a b s' ∨ ∃ s'', NetSync s' s''
  terminates : ∀ (f : ℕ → Proc μ α × List μ × Proc μ β) (k : ℕ), f 0 = s → (∀ i < k, Net (f i) (f (i + 1))) → k ≤ bound
  result : ∀ s', Relation.ReflTransGen Net s s' → (¬ ∃ s'', Net s' s'') → Finished a b s'

theorem works_of_balanced {a : α} {b : β} {p : Proc μ α} {q : Proc μ β} {ys : List μ} (h1 : outputs q = some (ys, b))
    (h2 : feed p ys = some (a, [])) : Works a b (2 * ys.length) (p, [], q) := by
  have h0 : Balanced a b (p, [], q) := ⟨ys, h1, h2⟩
  have hr : ∀ s', Relation.ReflTransGen Net (p, [], q) s' → Balanced a b s' := by
    intro s' h
    induction h with
    | refl => exact h0
    | tail _ hs ih => exact ih.step hs
  have hp : ∀ s', Relation.ReflTransGen Net (p, [], q) s' → Finished a b s' ∨ ∃ s'', NetSync s' s'' := fun s' h =>
    (hr s' h).progress
  refine ⟨hp, fun f k hf hs => ?_, fun s' h hn => ?_⟩
  · have key : ∀ i ≤ k, Balanced a b (f i) ∧
        2 * ((outputs (f i).2.2).map fun r => r.1.length).getD 0 + (f i).2.1.length + i ≤ 2 * ys.length := by
      intro i
      induction i with
      | zero =>
        intro _
        rw [hf]
        exact ⟨h0, by simp [h1]⟩
      | succ i ih =>
        intro hi
        obtain ⟨hb, hm⟩ := ih (by omega)
        have := hb.measure (hs i (by omega))
        exact ⟨hb.step (hs i (by omega)), by omega⟩
    have := (key k le_rfl).2
    omega
  · rcases hp s' h with h | ⟨s'', h⟩
    · exact h
    · refine absurd ⟨s'', ?_⟩ hn
      cases h with
      | handover k x q => exact .handover k x q
      | deliver k x ch q => exact .deliver k x ch q

end exchange

/-! ## C53 -/

section c53
variable {K : Type} [Zero K] [One K] [Add K] [_root_.Sub K] [Mul K] [Div K] [Neg K] [NatCast K] [LT K] [DecidableLT K] [LE K]
  [DecidableLE K] [HasFloor K]

/-- The messages of rank 1 in a step that starts in state `s`, in the order of the variables `A1`, `B1`, `A3`, `B3`, `C3`. -/
structure Five (K : Type) where
  a1 : Msg K
  b1 : Msg K
  a3 : Msg K
  b3 : Msg K
  c3 : Msg K

/-- Messages of a step. -/
def fiveOf (c : Setting K) (v : Vel K) (w t : ℕ) (s : M (Mem (Val K))) : Five K :=
  let s1 := s >>= rank1First c v t
  let s2 := s1 >>= fun a => rank1Second c a.1
  ⟨outgoing c w s1 fun a => a.2.1, outgoing c w s1 fun a => a.2.2, outgoing c w s2 fun a => a.2.1,
    outgoing c w s2 fun a => a.2.2.1, outgoing c w s2 fun a => a.2.2.2⟩

/-- Rank 1 after a step. -/
def next1 (c : Setting K) (v : Vel K) (t : ℕ) (s : M (Mem (Val K))) : M (Mem (Val K)) :=
  (s >>= rank1First c v t) >>= fun a => (rank1Second c a.1).map fun a => a.1

/-- A step of rank 0, when every buffer gets the message that rank 1 sent from the buffer of the same name in this step. -/
def stepWith (c : Setting K) (v : Vel K) (w t : ℕ) (x : Five K) (m : Mem (Val K)) : M (Mem (Val K)) := do
  let m ← rank0First c v t m
  let m ← rank0Second c w x.a1 x.b1 m
  rank0Third c v w t x.a3 x.b3 x.c3 m

/-- Rank 1 after `k` steps from step `t` on. -/
def traj1 (c : Setting K) (v : Vel K) (t : ℕ) (s : M (Mem (Val K))) : ℕ → M (Mem (Val K))
  | 0 => s
  | k + 1 => next1 c v (t + k) (traj1 c v t s k)

theorem traj1_next (c : Setting K) (v : Vel K) (t : ℕ) (s : M (Mem (Val K))) (k : ℕ) :
    traj1 c v (t + 1) (next1 c v t s) k = traj1 c v t s (k + 1) := by
  induction k with
  | zero => rfl
  | succ k ih =>
    show next1 c v (t + 1 + k) _ = next1 c v (t + (k + 1)) _
    rw [ih, show t + 1 + k = t + (k + 1) by omega]

theorem rank1_outputs (c : Setting K) (v : Vel K) (w r : ℕ) (t : ℕ) (ht : t + r < uMod) (s : M (Mem (Val K))) :
    outputs (rank1 c v w r t s) = some (((List.range r).flatMap fun k =>
      let x := fiveOf c v w (t + k) (traj1 c v t s k)
      [x.a1, x.b1, x.a3, x.b3, x.c3]), traj1 c v t s r) := by
  induction r generalizing t s with
  | zero => rfl
  | succ r ih =>
    have hu : uadd t 1 = t + 1 := uadd_eq (by omega)
    have hn : ((s >>= rank1First c v t) >>= fun a => rank1Second c a.1).map (fun a => a.1) = next1 c v t s := by
      simp only [next1]
      cases s >>= rank1First c v t <;> rfl
    rw [rank1]
    simp only [outputs, hu]
    rw [hn, ih (t + 1) (by omega)]
    simp only [Option.map_some, List.range_succ_eq_map, List.flatMap_cons, List.flatMap_map, traj1_next]
    congr 1
    congr 1
    simp only [List.cons_append, List.nil_append, Function.comp, fiveOf, Nat.add_zero, traj1]
    have : ∀ k, t + 1 + k = t + (k + 1) := fun k => by omega
    simp only [this]

/-- C53, C52: what rank 0 computes when no message is lost or mixed up. -/
theorem rank0_feed (c : Setting K) (v : Vel K) (w p r : ℕ) (t : ℕ) (ht : t + r < uMod) (x : ℕ → Five K)
    (s : M (Mem (Val K) × Out K)) (rest : List (Msg K)) :
    feed (rank0 c v w p r t s) (((List.range r).flatMap fun k =>
      [(x (t + k)).a1, (x (t + k)).b1, (x (t + k)).a3, (x (t + k)).b3, (x (t + k)).c3]) ++ rest) =
      some (s >>= timeLoop (fun t m => stepWith c v w t (x t) m) c v p r t, rest) := by
  induction r generalizing t s with
  | zero =>
    simp only [rank0, feed, List.range_zero, List.flatMap_nil, List.nil_append]
    cases s <;> rfl
  | succ r ih =>
    have hu : uadd t 1 = t + 1 := uadd_eq (by omega)
    simp only [rank0, List.range_succ_eq_map, List.flatMap_cons, List.cons_append, List.nil_append, feed, hu, Nat.add_zero,
      List.flatMap_map]
    have e := ih (t + 1) (by omega) (s >>= fun s => do
        let m ← rank0First c v t s.1
        let m ← rank0Second c w (x t).a1 (x t).b1 m
        let m ← rank0Third c v w t (x t).a3 (x t).b3 (x t).c3 m
        rank0Print c v p t m s.2)
    have : ∀ k, t + 1 + k = t + (k + 1) := fun k => by omega
    simp only [this] at e
    simp only [Nat.succ_eq_add_one]
    rw [e]
    congr 2
    cases s with
    | error f => rfl
    | ok s =>
      simp only [M.ok_bind, timeLoop, hu, stepWith]
      cases rank0First c v t s.1 with
      | error f => rfl
      | ok m =>
        simp only [M.ok_bind]
        cases rank0Second c w (x t).a1 (x t).b1 m with
        | error f => rfl
        | ok m =>
          simp only [M.ok_bind]
          cases rank0Third c v w t (x t).a3 (x t).b3 (x t).c3 m with
          | error f => rfl
          | ok m =>
            simp only [M.ok_bind, rank0Print, hu]
            split_ifs
            · rfl
            · cases fileprint v c.nx c.ny (tm (t + 1) c.dt) m s.2 <;> rfl
            · rfl

/-- **C53**: the exchange of the two ranks over `n` steps cannot deadlock and ends after at most `10 n` events, for every
interleaving and every decision of the library to buffer a message or not; in every final state rank 0 is where it gets when
each buffer receives the message sent from the buffer of the same name in the same step.  For any settings, velocity,
element size and initial states of the ranks. -/
theorem C53_exchange (c : Setting K) (v : Vel K) (w p : ℕ) {n : ℕ} (hn : n < uMod) (m : Mem (Val K)) (o : Out K) :
    Works (timeLoop (fun t m' => stepWith c v w t (fiveOf c v w t (traj1 c v 0 (.ok m) t)) m') c v p n 0 (m, o))
      (traj1 c v 0 (.ok m) n) (10 * n) (mpiStart c v w p n m o) := by
  have h1 := rank1_outputs c v w n 0 (by omega) (.ok m)
  have h2 := rank0_feed c v w p n 0 (by omega) (fun t => fiveOf c v w t (traj1 c v 0 (.ok m) t)) (.ok (m, o)) []
  simp only [Nat.zero_add] at h1 h2
  rw [List.append_nil, M.ok_bind] at h2
  have := works_of_balanced h1 h2
  rwa [show 2 * _ = 10 * n by simp [List.length_flatMap]; omega] at this

end c53

/-- `C53_exchange` for a rotation on 3 x 4 nodes and six steps: at most 60 events. -/
example (m : Mem (Val ℚ)) (o : Out ℚ) : ∃ a b, Works a b 60 (mpiStart runC runV mpiWords 2 6 m o) :=
  ⟨_, _, C53_exchange runC runV mpiWords 2 (n := 6) (by decide) m o⟩

/-! ## C62 -/

section c62
variable {φ : Type}

theorem shuffle_nil_left {α : Type} {xs zs : List α} (h : Shuffle [] xs zs) : zs = xs := by
  induction xs generalizing zs with
  | nil => cases h; rfl
  | cons x xs ih => cases h with | right h => rw [ih h]

theorem shuffle_nil_right {α : Type} {xs zs : List α} (h : Shuffle xs [] zs) : zs = xs := by
  induction xs generalizing zs with
  | nil => cases h; rfl
  | cons x xs ih => cases h with | left h => rw [ih h]

/-- Frames in a file after the initial output of both ranks in the order `zs`. -/
def framesAfter (zs : List (FileOp φ)) (fs : List φ) : List φ := zs.foldl FileOp.apply fs

/-- **C62**, partial: whatever a file held before, after the initial output of both ranks it holds the initial frame once or
twice, and nothing else.  Missing: exactly once, which is false (`C62_false`). -/
theorem C62_partial (f : φ) (fs : List φ) {zs : List (FileOp φ)} (h : Shuffle (initialFile f) (initialFile f) zs) :
    framesAfter zs fs = [f] ∨ framesAfter zs fs = [f, f] := by
  cases h with
  | left h =>
    cases h with
    | left h => rw [shuffle_nil_left h]; exact .inl rfl
    | right h =>
      cases h with
      | left h => rw [shuffle_nil_left h]; exact .inr rfl
      | right h => rw [shuffle_nil_right h]; exact .inr rfl
  | right h =>
    cases h with
    | right h => rw [shuffle_nil_right h]; exact .inl rfl
    | left h =>
      cases h with
      | left h => rw [shuffle_nil_left h]; exact .inr rfl
      | right h => rw [shuffle_nil_right h]; exact .inr rfl

/-- **C62**, negative: both outcomes occur, for every frame and every file. -/
theorem C62_false (f : φ) (fs : List φ) :
    (∃ zs, Shuffle (initialFile f) (initialFile f) zs ∧ framesAfter zs fs = [f]) ∧
    ∃ zs, Shuffle (initialFile f) (initialFile f) zs ∧ framesAfter zs fs = [f, f] :=
  ⟨⟨[.remove, .append f, .remove, .append f], .left (.left (.right (.right .nil))), rfl⟩,
    ⟨[.remove, .remove, .append f, .append f], .left (.right (.left (.right .nil))), rfl⟩⟩

/-- An order in which one rank removes the file while the other has written its frame. -/
example : Shuffle (initialFile 'x') (initialFile 'x') [.remove, .append 'x', .remove, .append 'x'] ∧
    framesAfter [.remove, .append 'x', .remove, .append 'x'] ['o', 'l', 'd'] = ['x'] :=
  ⟨.left (.left (.right (.right .nil))), rfl⟩

end c62

end Gals.Props
