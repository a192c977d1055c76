import Verif.Lemmas.Ranks

/-!
# C91: the MPI version of the reference code on any number of ranks
-/

set_option linter.unusedSectionVars false
set_option linter.unusedSimpArgs false

namespace Gals.Props

open Gals Gals.Ref

section c91
variable {K : Type} [Zero K] [One K] [Add K] [_root_.Sub K] [Mul K] [Div K] [Neg K] [NatCast K] [LT K] [DecidableLT K] [LE K]
  [DecidableLE K] [HasFloor K]

theorem erase_rank0F (sel : Out K → List (Tok K)) (c : Setting K) (v : Vel K) (w p r t : ℕ) (s : M (Mem (Val K) × Out K)) :
    erase (rank0F sel c v w p r t s) = rank0 c v w p r t s := by
  induction r generalizing t s with
  | zero => rfl
  | succ r ih =>
    simp only [rank0F, rank0, erase]
    congr 1; funext x1; congr 1; funext x2; congr 1; funext x3; congr 1; funext x4; congr 1; funext x5
    split_ifs <;> simp only [erase, ih]

/-- State of rank 0 after `k` steps when each buffer gets the message sent from the buffer of the same name in this step. -/
def stateAfter (c : Setting K) (v : Vel K) (w p : ℕ) (m : Mem (Val K)) (o : Out K) (k : ℕ) : M (Mem (Val K) × Out K) :=
  timeLoop (fun t m' => stepWith c v w t (fiveOf c v w t (traj1 c v 0 (.ok m) t)) m') c v p k 0 (m, o)

/-- The frames of the steps `1`, ..., `n` whose number is a multiple of `p`. -/
def stepFrames (sel : Out K → List (Tok K)) (c : Setting K) (v : Vel K) (w p n : ℕ) (m : Mem (Val K)) (o : Out K) :
    List (M (List (Tok K))) :=
  ((List.range n).filter fun t => (t + 1) % p = 0).map fun t =>
    stateAfter c v w p m o (t + 1) >>= fun s => frameOf sel c v (tm (t + 1) c.dt) s.1

/-- The messages of a rank other than 0, step after step. -/
def allMessages (c : Setting K) (v : Vel K) (w n : ℕ) (m : Mem (Val K)) : List (Msg K) :=
  (List.range n).flatMap fun t =>
    let x := fiveOf c v w t (traj1 c v 0 (.ok m) t)
    [x.a1, x.b1, x.a3, x.b3, x.c3]

theorem allMessages_length (c : Setting K) (v : Vel K) (w n : ℕ) (m : Mem (Val K)) :
    (allMessages c v w n m).length = 5 * n := by
  simp [allMessages, List.length_flatMap]
  omega

theorem timeLoop_split (step : ℕ → Mem (Val K) → M (Mem (Val K))) (c : Setting K) (v : Vel K) (p k t : ℕ)
    (s : Mem (Val K) × Out K) :
    timeLoop step c v p (k + 1) t s = timeLoop step c v p 1 t s >>= timeLoop step c v p k (uadd t 1) := by
  simp only [timeLoop]
  cases step t s.1 with
  | error f => rfl
  | ok m =>
    simp only [M.ok_bind]
    split_ifs with h1 h2
    · rfl
    · cases fileprint v c.nx c.ny (tm (uadd t 1) c.dt) m s.2 <;> rfl
    · rfl

theorem step_eq (step : ℕ → Mem (Val K) → M (Mem (Val K))) (c : Setting K) (v : Vel K) (w p t : ℕ) (x : Five K)
    (hx : step t = stepWith c v w t x) (s : M (Mem (Val K) × Out K)) :
    (s >>= fun s => do
      let m ← rank0First c v t s.1
      let m ← rank0Second c w x.a1 x.b1 m
      let m ← rank0Third c v w t x.a3 x.b3 x.c3 m
      rank0Print c v p t m s.2) = s >>= timeLoop step c v p 1 t := by
  cases s with
  | error f => rfl
  | ok s =>
    simp only [M.ok_bind, timeLoop, hx, stepWith]
    cases rank0First c v t s.1 with
    | error f => rfl
    | ok m =>
      simp only [M.ok_bind]
      cases rank0Second c w x.a1 x.b1 m with
      | error f => rfl
      | ok m =>
        simp only [M.ok_bind]
        cases rank0Third c v w t x.a3 x.b3 x.c3 m with
        | error f => rfl
        | ok m =>
          simp only [M.ok_bind, rank0Print]
          split_ifs
          · rfl
          · cases fileprint v c.nx c.ny (tm (uadd t 1) c.dt) m s.2 <;> rfl
          · rfl

/-- Frames that rank 0 appends when no message is lost or mixed up. -/
theorem rank0F_shows (sel : Out K → List (Tok K)) (c : Setting K) (v : Vel K) (w p r t : ℕ) (ht : t + r < uMod)
    (x : ℕ → Five K) (s : M (Mem (Val K) × Out K)) :
    shows (rank0F sel c v w p r t s) ((List.range r).flatMap fun k =>
      [(x (t + k)).a1, (x (t + k)).b1, (x (t + k)).a3, (x (t + k)).b3, (x (t + k)).c3]) =
      some (((List.range r).filter fun k => (t + k + 1) % p = 0).map fun k =>
        (s >>= timeLoop (fun t m => stepWith c v w t (x t) m) c v p (k + 1) t) >>=
          fun s => frameOf sel c v (tm (t + k + 1) c.dt) s.1) := by
  induction r generalizing t s with
  | zero => rfl
  | succ r ih =>
    have hu : uadd t 1 = t + 1 := uadd_eq (by omega)
    have hk : ∀ k, t + 1 + k = t + (k + 1) := fun k => by omega
    have hs := step_eq (fun t m => stepWith c v w t (x t) m) c v w p t (x t) rfl s
    have e := ih (t + 1) (by omega) (s >>= timeLoop (fun t m => stepWith c v w t (x t) m) c v p 1 t)
    simp only [hk] at e
    have htl : ∀ k, (s >>= timeLoop (fun t m => stepWith c v w t (x t) m) c v p 1 t) >>=
        timeLoop (fun t m => stepWith c v w t (x t) m) c v p k (t + 1) =
        s >>= timeLoop (fun t m => stepWith c v w t (x t) m) c v p (k + 1) t := by
      intro k
      cases s with
      | error f => rfl
      | ok s =>
        simp only [M.ok_bind]
        rw [timeLoop_split (k := k), hu]
    simp only [htl] at e
    simp only [rank0F, List.range_succ_eq_map, List.flatMap_cons, List.cons_append, List.nil_append, shows, Nat.add_zero,
      List.flatMap_map, hs, hu, List.filter_cons, List.filter_map, List.map_cons, List.map_map, Nat.succ_eq_add_one]
    simp only [Function.comp_def, Nat.succ_eq_add_one]
    by_cases h : (t + 1) % p = 0
    · simp only [h, if_true, decide_true, shows, e, Option.map_some, List.map_cons, Nat.add_zero, Nat.zero_add, List.map_map,
        Function.comp_def]
    · simp only [h, if_false, decide_false, e, Bool.false_eq_true, List.map_map, Function.comp_def]

section run
variable (sel : Out K → List (Tok K)) (c : Setting K) (v : Vel K) (w p : ℕ) {n : ℕ} (m : Mem (Val K)) (o : Out K)

theorem run_outputs (hn : n < uMod) :
    outputs (rank1 c v w n 0 (.ok m)) = some (allMessages c v w n m, traj1 c v 0 (.ok m) n) := by
  have := rank1_outputs c v w n 0 (by omega) (.ok m)
  simp only [Nat.zero_add] at this
  exact this

theorem run_feed (hn : n < uMod) :
    feed (erase (rank0F sel c v w p n 0 (.ok (m, o)))) (allMessages c v w n m) = some (stateAfter c v w p m o n, []) := by
  have := rank0_feed c v w p n 0 (by omega) (fun t => fiveOf c v w t (traj1 c v 0 (.ok m) t)) (.ok (m, o)) []
  simp only [Nat.zero_add, List.append_nil, M.ok_bind] at this
  rw [erase_rank0F]
  exact this

theorem run_shows (hn : n < uMod) :
    shows (rank0F sel c v w p n 0 (.ok (m, o))) (allMessages c v w n m) = some (stepFrames sel c v w p n m o) := by
  have := rank0F_shows sel c v w p n 0 (by omega) (fun t => fiveOf c v w t (traj1 c v 0 (.ok m) t)) (.ok (m, o))
  simp only [Nat.zero_add, M.ok_bind] at this
  exact this

theorem run_noFile (n : ℕ) : NoFile (rank0F sel c v w p n 0 (.ok (m, o))) := by cases n <;> trivial

/-- **C91**, two ranks: for every order of the events of the two ranks, whether the library buffers messages or not, and
whatever was in the file, the run cannot be stuck, ends after at most `10 n + 4` events and the writing of the frames, rank 0
ends in the state C53 gives, and the file then holds the initial frame once or twice and after it exactly the frames of the
steps that are multiples of the print step, in order. -/
theorem C91_two_ranks (hn : n < uMod) (fs : List (M (List (Tok K)))) :
    RunsTo (fun s => ∃ j, (j = 1 ∨ j = 2) ∧
        s = (List.replicate j (frameOf sel c v 0 m) ++ stepFrames sel c v w p n m o, .done (stateAfter c v w p m o n),
          [([], .done (traj1 c v 0 (.ok m) n))]))
      (10 * n + 4 + (stepFrames sel c v w p n m o).length) (ranksStart sel c v w p n 1 m o fs) := by
  have := two_ranks (f := frameOf sel c v 0 m) (run_outputs c v w m hn) (run_feed sel c v w p m o hn)
    (run_shows sel c v w p m o hn) (run_noFile sel c v w p m o n) fs
  rwa [allMessages_length, show 2 * (5 * n) = 10 * n by omega] at this

/-- **C91**, partial, for every number of ranks from two on: rank 0 is never stuck before its last step, every run ends, and
when nothing more can happen, rank 0 is in the same state as with two ranks, every other rank has ended, nothing of what the
ranks from 2 on sent was received, and the file holds the initial frame, at most once for each rank, in between the last
frames of the steps.  Missing: the end of a run when messages are not buffered (`C91_hang`), all frames of the steps
(`C91_false`). -/
theorem C91_any_ranks_partial (hn : n < uMod) (k : ℕ) (fs : List (M (List (Tok K)))) :
    RunsTo (fun s => s.2.1 = .done (stateAfter c v w p m o n))
      ((k + 1) * (10 * n + 2) + 2 + (stepFrames sel c v w p n m o).length) (ranksStart sel c v w p n (k + 1) m o fs) ∧
    ∀ s', Relation.ReflTransGen (Ranks true) (ranksStart sel c v w p n (k + 1) m o fs) s' → (¬ ∃ s'', Ranks true s' s'') →
      s'.2 = (.done (stateAfter c v w p m o n), ([], .done (traj1 c v 0 (.ok m) n)) ::
        List.replicate k (allMessages c v w n m, .done (traj1 c v 0 (.ok m) n))) ∧
      ∃ j l, 1 ≤ j ∧ j ≤ k + 2 ∧ Shuffle (List.replicate j (frameOf sel c v 0 m)) ((stepFrames sel c v w p n m o).drop l) s'.1 := by
  have := many_ranks (f := frameOf sel c v 0 m) (run_outputs c v w m hn) (run_feed sel c v w p m o hn)
    (run_shows sel c v w p m o hn) k fs
  rwa [allMessages_length, show 2 * (5 * n) = 10 * n by omega] at this

/-- **C91**, negative: with three ranks or more, if messages are buffered, there is a run in which all ranks end and the file
holds the initial frame once and nothing else: a rank that nobody waits for removes the file last. -/
theorem C91_false (hn : n < uMod) (k : ℕ) (fs : List (M (List (Tok K)))) :
    Relation.ReflTransGen (Ranks true) (ranksStart sel c v w p n (k + 2) m o fs)
      ([frameOf sel c v 0 m], .done (stateAfter c v w p m o n), ([], .done (traj1 c v 0 (.ok m) n)) ::
        List.replicate (k + 1) (allMessages c v w n m, .done (traj1 c v 0 (.ok m) n))) :=
  frames_lost (run_outputs c v w m hn) (run_feed sel c v w p m o hn) (run_shows sel c v w p m o hn)
    (run_noFile sel c v w p m o n) k fs

/-- **C91**, negative: with three ranks or more and at least one step, if messages are not buffered, no run ends: the ranks
from 2 on never get past their first send. -/
theorem C91_hang (hn : n < uMod) (h1 : 1 ≤ n) (k : ℕ) (fs : List (M (List (Tok K)))) {s'}
    (h : Relation.ReflTransGen (Ranks false) (ranksStart sel c v w p n (k + 2) m o fs) s') :
    s'.2.2.length = k + 2 ∧ ∀ s ∈ s'.2.2.tail, ∀ b, s.2 ≠ .done b := by
  obtain ⟨e, h2⟩ := blocked (f := frameOf sel c v 0 m) (run_outputs c v w m hn) (k + 1) fs h
  refine ⟨e, fun s hs b hb => ?_⟩
  obtain ⟨-, h3⟩ := h2 s hs
  rw [hb] at h3
  simp only [erase, outputs, Option.some.injEq, Prod.mk.injEq] at h3
  have := allMessages_length c v w n m
  rw [← h3.1, List.length_nil] at this
  omega

/-- **C91**, negative: on a single rank a run with at least one step never ends: after the initial output rank 0 waits for a
message of rank 1. -/
theorem C91_alone (h1 : 1 ≤ n) (fs : List (M (List (Tok K)))) {s'}
    (h : Relation.ReflTransGen (Ranks true) (ranksStart sel c v w p n 0 m o fs) s') :
    (∀ a, s'.2.1 ≠ .done a) ∧ ((∃ s'', Ranks true s' s'') ∨ s'.1 = [frameOf sel c v 0 m]) := by
  obtain ⟨n, rfl⟩ : ∃ n', n = n' + 1 := ⟨n - 1, by omega⟩
  obtain ⟨h0, h⟩ := alone (f := frameOf sel c v 0 m) (q := rank1 c v w (n + 1) 0 (.ok m)) fs h
  obtain ⟨fs', p', os'⟩ := s'
  simp only at h0 h ⊢
  rcases h with rfl | ⟨rfl, rfl⟩ | ⟨rfl, rfl, -⟩
  · exact ⟨fun a h => (by cases h), .inl ⟨_, .file fs' _ _ os'⟩⟩
  · exact ⟨fun a h => (by cases h), .inl ⟨_, .file [] _ _ os'⟩⟩
  · exact ⟨fun a h => (by cases h), .inr rfl⟩

end run

end c91

/-- The examples use the file `phi.txt`. -/
example (m : Mem (Val ℚ)) (o : Out ℚ) (fs : List (M (List (Tok ℚ)))) :
    ∃ fin, RunsTo fin 67 (ranksStart (fun o => o.phi) runC runV mpiWords 2 6 1 m o fs) :=
  ⟨_, C91_two_ranks (fun o => o.phi) runC runV mpiWords 2 (n := 6) m o (by decide) fs⟩

/-- Three frames of steps are lost on four ranks. -/
example (m : Mem (Val ℚ)) (o : Out ℚ) : (stepFrames (fun o => o.phi) runC runV mpiWords 2 6 m o).length = 3 ∧
    ∃ p os, Relation.ReflTransGen (Ranks true) (ranksStart (fun o => o.phi) runC runV mpiWords 2 6 3 m o [])
      ([frameOf (fun o => o.phi) runC runV 0 m], p, os) :=
  ⟨rfl, _, _, C91_false (fun o => o.phi) runC runV mpiWords 2 (n := 6) m o (by decide) 1 []⟩

/-- On one rank nothing but the initial frame is written. -/
example (m : Mem (Val ℚ)) (o : Out ℚ) {s'}
    (h : Relation.ReflTransGen (Ranks true) (ranksStart (fun o => o.phi) runC runV mpiWords 2 6 0 m o []) s') (a) :
    s'.2.1 ≠ .done a := (C91_alone (fun o => o.phi) runC runV mpiWords 2 m o (by decide) [] h).1 a

/-- Hypotheses of `C91_any_ranks_partial` and `C91_hang` for six steps. -/
example : (6 : ℕ) < uMod ∧ 1 ≤ 6 := by decide

end Gals.Props
