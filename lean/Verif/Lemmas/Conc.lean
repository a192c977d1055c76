import Verif.Model.Conc
import Mathlib.Logic.Hydra
import Mathlib.Data.List.Pairwise

/-!
# Programs without data races: every interleaving gives the sequential result
-/

set_option linter.unusedSectionVars false

namespace Gals

variable {L : Type} {V : L → Type} {α β : Type}

/-! ## Sequential meaning -/

section run
variable [DecidableEq L]

@[simp] theorem Prog.bind_eq (p : Prog V α) (f : α → Prog V β) : (p >>= f) = p.bind f := rfl
@[simp] theorem Prog.pure_eq (a : α) : (Pure.pure a : Prog V α) = .pure a := rfl

theorem Prog.run_bind (p : Prog V α) (f : α → Prog V β) (m : Mem V) :
    (p.bind f).run m = p.run m >>= fun r => (f r.1).run r.2 := by
  induction p generalizing m with
  | pure a => rfl
  | fault e => rfl
  | read l k ih =>
    simp only [Prog.bind, Prog.run]
    cases m l with
    | oob => rfl
    | uninit => rfl
    | val v => exact ih v m
  | write l v k ih =>
    simp only [Prog.bind, Prog.run]
    cases m l with
    | oob => rfl
    | uninit => exact ih _
    | val v => exact ih _

theorem Mem.upd_same (m : Mem V) (l : L) (v : V l) : m.upd l v l = .val v := by simp [Mem.upd]

theorem Mem.upd_other (m : Mem V) {l l' : L} (h : l' ≠ l) (v : V l) : m.upd l v l' = m l' := by
  simp [Mem.upd, Function.update_of_ne h]

theorem Mem.upd_oob_iff (m : Mem V) (l l' : L) (v : V l) (h : m l ≠ .oob) : m.upd l v l' = .oob ↔ m l' = .oob := by
  by_cases e : l' = l
  · subst e; simp [Mem.upd_same, h]
  · rw [Mem.upd_other m e]

theorem Mem.upd_comm (m : Mem V) {l l' : L} (h : l ≠ l') (v : V l) (v' : V l') :
    (m.upd l v).upd l' v' = (m.upd l' v').upd l v := by
  simp only [Mem.upd]
  exact Function.update_comm h _ _ _

/-- What a program does not write stays. -/
theorem Prog.run_frame {p : Prog V α} {l : L} (hw : ¬ p.Writes l) {m m' : Mem V} {a : α} (h : p.run m = .ok (a, m')) :
    m' l = m l := by
  induction p generalizing m with
  | pure b => cases h; rfl
  | fault e => cases h
  | read l' k ih =>
    simp only [Prog.run] at h
    cases e : m l' with
    | oob => rw [e] at h; cases h
    | uninit => rw [e] at h; cases h
    | val v =>
      rw [e] at h
      exact ih v (fun hh => hw ⟨v, hh⟩) h
  | write l' v k ih =>
    simp only [Prog.run] at h
    have hne : l ≠ l' := fun e => hw (Or.inl e)
    have hk : ¬ k.Writes l := fun e => hw (Or.inr e)
    cases e : m l' with
    | oob => rw [e] at h; cases h
    | uninit => rw [e] at h; rw [ih hk h, Mem.upd_other _ hne]
    | val w => rw [e] at h; rw [ih hk h, Mem.upd_other _ hne]

/-- A store elsewhere commutes with the program. -/
theorem Prog.run_upd {p : Prog V α} {l : L} (hr : ¬ p.Reads l) (hw : ¬ p.Writes l) (v : V l) (m : Mem V) :
    p.run (m.upd l v) = (p.run m).map fun r => (r.1, r.2.upd l v) := by
  induction p generalizing m with
  | pure b => rfl
  | fault e => rfl
  | read l' k ih =>
    have hne : l' ≠ l := fun e => hr (Or.inl e.symm)
    simp only [Prog.run, Mem.upd_other m hne]
    cases m l' with
    | oob => rfl
    | uninit => rfl
    | val w => exact ih w (fun e => hr (Or.inr ⟨w, e⟩)) (fun e => hw ⟨w, e⟩) m
  | write l' w k ih =>
    have hne : l' ≠ l := fun e => hw (Or.inl e.symm)
    have hk : ¬ k.Writes l := fun e => hw (Or.inr e)
    simp only [Prog.run, Mem.upd_other m hne]
    cases m l' with
    | oob => rfl
    | uninit => simp only; rw [← ih hr hk, Mem.upd_comm m hne.symm]
    | val u => simp only; rw [← ih hr hk, Mem.upd_comm m hne.symm]

/-- Extents do not change. -/
theorem Prog.run_oob {p : Prog V α} {m m' : Mem V} {a : α} (h : p.run m = .ok (a, m')) (l : L) :
    m' l = .oob ↔ m l = .oob := by
  induction p generalizing m with
  | pure b => cases h; rfl
  | fault e => cases h
  | read l' k ih =>
    simp only [Prog.run] at h
    cases e : m l' with
    | oob => rw [e] at h; cases h
    | uninit => rw [e] at h; cases h
    | val v => rw [e] at h; exact ih v h
  | write l' v k ih =>
    simp only [Prog.run] at h
    have hne : m l' ≠ .oob := fun e => by rw [e] at h; cases h
    rw [← Mem.upd_oob_iff m l' l v hne]
    cases e : m l' with
    | oob => exact absurd e hne
    | uninit => rw [e] at h; exact ih h
    | val w => rw [e] at h; exact ih h

/-- Several programs one after the other. -/
def runAll : List (Prog V Unit) → Mem V → M (Mem V)
  | [], m => .ok m
  | p :: ps, m => p.run m >>= fun r => runAll ps r.2

theorem Prog.run_seqAll (ps : List (Prog V Unit)) (m : Mem V) :
    (Prog.seqAll ps).run m = (runAll ps m).map fun m' => ((), m') := by
  induction ps generalizing m with
  | nil => rfl
  | cons p ps ih =>
    simp only [Prog.seqAll, Prog.run_bind, runAll]
    cases p.run m with
    | error e => rfl
    | ok r => exact ih r.2

theorem runAll_append (ps qs : List (Prog V Unit)) (m : Mem V) :
    runAll (ps ++ qs) m = runAll ps m >>= fun m' => runAll qs m' := by
  induction ps generalizing m with
  | nil => rfl
  | cons p ps ih =>
    simp only [List.cons_append, runAll]
    cases p.run m with
    | error e => rfl
    | ok r => exact ih r.2

theorem runAll_ended {ps : List (Prog V Unit)} (h : Ended ps) (m : Mem V) : runAll ps m = .ok m := by
  induction ps generalizing m with
  | nil => rfl
  | cons p ps ih =>
    rw [h p List.mem_cons_self]
    exact ih (fun q hq => h q (List.mem_cons_of_mem _ hq)) m

end run

/-! ## Footprints -/

theorem Prog.reads_bind {p : Prog V α} {f : α → Prog V β} {l : L} (h : (p.bind f).Reads l) :
    p.Reads l ∨ ∃ a, (f a).Reads l := by
  induction p with
  | pure a => exact Or.inr ⟨a, h⟩
  | fault e => exact h.elim
  | read l' k ih =>
    rcases h with h | ⟨v, h⟩
    · exact Or.inl (Or.inl h)
    · rcases ih v h with h | h
      · exact Or.inl (Or.inr ⟨v, h⟩)
      · exact Or.inr h
  | write l' v k ih =>
    rcases ih h with h | h
    · exact Or.inl h
    · exact Or.inr h

theorem Prog.writes_bind {p : Prog V α} {f : α → Prog V β} {l : L} (h : (p.bind f).Writes l) :
    p.Writes l ∨ ∃ a, (f a).Writes l := by
  induction p with
  | pure a => exact Or.inr ⟨a, h⟩
  | fault e => exact h.elim
  | read l' k ih =>
    obtain ⟨v, h⟩ := h
    rcases ih v h with h | h
    · exact Or.inl ⟨v, h⟩
    · exact Or.inr h
  | write l' v k ih =>
    rcases h with h | h
    · exact Or.inl (Or.inl h)
    · rcases ih h with h | h
      · exact Or.inl (Or.inr h)
      · exact Or.inr h

theorem Prog.reads_seqAll {ps : List (Prog V Unit)} {l : L} (h : (Prog.seqAll ps).Reads l) : ∃ p ∈ ps, p.Reads l := by
  induction ps with
  | nil => exact h.elim
  | cons p ps ih =>
    rcases Prog.reads_bind h with h | ⟨_, h⟩
    · exact ⟨p, List.mem_cons_self, h⟩
    · obtain ⟨q, hq, h⟩ := ih h
      exact ⟨q, List.mem_cons_of_mem _ hq, h⟩

theorem Prog.writes_seqAll {ps : List (Prog V Unit)} {l : L} (h : (Prog.seqAll ps).Writes l) : ∃ p ∈ ps, p.Writes l := by
  induction ps with
  | nil => exact h.elim
  | cons p ps ih =>
    rcases Prog.writes_bind h with h | ⟨_, h⟩
    · exact ⟨p, List.mem_cons_self, h⟩
    · obtain ⟨q, hq, h⟩ := ih h
      exact ⟨q, List.mem_cons_of_mem _ hq, h⟩

theorem Indep.symm {p : Prog V α} {q : Prog V β} (h : Indep p q) : Indep q p := fun l => ⟨(h l).2, (h l).1⟩

theorem Indep.seqAll {ps qs : List (Prog V Unit)} (h : ∀ p ∈ ps, ∀ q ∈ qs, Indep p q) :
    Indep (Prog.seqAll ps) (Prog.seqAll qs) := by
  intro l
  constructor
  · intro hw
    obtain ⟨p, hp, hw⟩ := Prog.writes_seqAll hw
    constructor
    · intro hr
      obtain ⟨q, hq, hr⟩ := Prog.reads_seqAll hr
      exact ((h p hp q hq l).1 hw).1 hr
    · intro hr
      obtain ⟨q, hq, hr⟩ := Prog.writes_seqAll hr
      exact ((h p hp q hq l).1 hw).2 hr
  · intro hw
    obtain ⟨q, hq, hw⟩ := Prog.writes_seqAll hw
    constructor
    · intro hr
      obtain ⟨p, hp, hr⟩ := Prog.reads_seqAll hr
      exact ((h p hp q hq l).2 hw).1 hr
    · intro hr
      obtain ⟨p, hp, hr⟩ := Prog.writes_seqAll hr
      exact ((h p hp q hq l).2 hw).2 hr

/-! ## Interleavings -/

section steps
variable [DecidableEq L]

theorem Step1.reads {p p' : Prog V α} {m m' : Mem V} (h : Step1 (p, m) (p', m')) {l : L} (hr : p'.Reads l) :
    p.Reads l := by
  cases h with
  | read h => exact Or.inr ⟨_, hr⟩
  | write h => exact hr

theorem Step1.writes {p p' : Prog V α} {m m' : Mem V} (h : Step1 (p, m) (p', m')) {l : L} (hr : p'.Writes l) :
    p.Writes l := by
  cases h with
  | read h => exact ⟨_, hr⟩
  | write h => exact Or.inr hr

theorem Step1.indep {p p' : Prog V α} {m m' : Mem V} (h : Step1 (p, m) (p', m')) {q : Prog V β} (hi : Indep p q) :
    Indep p' q := fun l =>
  ⟨fun hw => (hi l).1 (h.writes hw), fun hw => ⟨fun hr => ((hi l).2 hw).1 (h.reads hr), fun hr => ((hi l).2 hw).2 (h.writes hr)⟩⟩

theorem Step1.run {p p' : Prog V α} {m m' : Mem V} (h : Step1 (p, m) (p', m')) : p.run m = p'.run m' := by
  cases h with
  | read h => simp [Prog.run, h]
  | @write l v k _ h => simp only [Prog.run]

/-- Another program run before or after the step. -/
theorem Step1.commute {p p' : Prog V α} {m m' : Mem V} (h : Step1 (p, m) (p', m')) {q : Prog V β} (hi : Indep q p) :
    (∀ b n, q.run m = .ok (b, n) → ∃ n', q.run m' = .ok (b, n') ∧ Step1 (p, n) (p', n')) ∧
      (∀ b n', q.run m' = .ok (b, n') → ∃ n, q.run m = .ok (b, n) ∧ Step1 (p, n) (p', n')) := by
  cases h with
  | @read l k _ v h =>
    have hw : ¬ q.Writes l := fun hw => ((hi l).1 hw).1 (Or.inl rfl)
    refine ⟨fun b n e => ⟨n, e, .read ?_⟩, fun b n e => ⟨n, e, .read ?_⟩⟩ <;> rw [Prog.run_frame hw e, h]
  | @write l v k _ h =>
    have hl : Prog.Writes (Prog.write l v p') l := Or.inl rfl
    have hr : ¬ q.Reads l := ((hi l).2 hl).1
    have hw : ¬ q.Writes l := ((hi l).2 hl).2
    have E := Prog.run_upd hr hw v m
    refine ⟨fun b n e => ⟨n.upd l v, by rw [E, e]; rfl, .write ?_⟩, fun b n' e => ?_⟩
    · rw [Ne, Prog.run_oob e]; exact h
    · rw [E] at e
      cases e' : q.run m with
      | error f => rw [e'] at e; cases e
      | ok r =>
        rw [e'] at e
        obtain ⟨b', n⟩ := r
        cases e
        exact ⟨n, rfl, .write (by rw [Ne, Prog.run_oob e']; exact h)⟩

theorem pool_runAll {pre post : List (Prog V Unit)} {p p' : Prog V Unit} {m m' : Mem V} (h : Step1 (p, m) (p', m'))
    (hi : ∀ q ∈ pre, Indep q p) (mf : Mem V) :
    runAll (pre ++ p :: post) m = .ok mf ↔ runAll (pre ++ p' :: post) m' = .ok mf := by
  induction pre generalizing m m' with
  | nil => simp only [List.nil_append, runAll]; rw [h.run]
  | cons q pre ih =>
    have hq := h.commute (hi q List.mem_cons_self)
    simp only [List.cons_append, runAll]
    constructor
    · intro e
      cases e' : q.run m with
      | error f => rw [e'] at e; cases e
      | ok r =>
        obtain ⟨⟨⟩, n⟩ := r
        obtain ⟨n', en, hs⟩ := hq.1 _ _ e'
        rw [e', M.ok_bind] at e
        rw [en, M.ok_bind]
        exact (ih hs (fun x hx => hi x (List.mem_cons_of_mem _ hx))).1 e
    · intro e
      cases e' : q.run m' with
      | error f => rw [e'] at e; cases e
      | ok r =>
        obtain ⟨⟨⟩, n'⟩ := r
        obtain ⟨n, en, hs⟩ := hq.2 _ _ e'
        rw [e', M.ok_bind] at e
        rw [en, M.ok_bind]
        exact (ih hs (fun x hx => hi x (List.mem_cons_of_mem _ hx))).2 e

theorem pairwise_replace {pre post : List (Prog V Unit)} {p p' : Prog V Unit}
    (h : (pre ++ p :: post).Pairwise Indep) (hp : ∀ q : Prog V Unit, Indep p q → Indep p' q) :
    (pre ++ p' :: post).Pairwise Indep := by
  rw [List.pairwise_append, List.pairwise_cons] at h ⊢
  obtain ⟨h1, ⟨h2, h3⟩, h4⟩ := h
  refine ⟨h1, ⟨fun q hq => hp q (h2 q hq), h3⟩, fun a ha b hb => ?_⟩
  rcases List.mem_cons.1 hb with rfl | hb
  · exact (hp a (h4 a ha p List.mem_cons_self).symm).symm
  · exact h4 a ha b (List.mem_cons_of_mem _ hb)

/-- One step keeps independence and the sequential result. -/
theorem PoolStep.inv {ps ps' : List (Prog V Unit)} {m m' : Mem V} (h : PoolStep (ps, m) (ps', m'))
    (hi : ps.Pairwise Indep) : ps'.Pairwise Indep ∧ ∀ mf, runAll ps m = .ok mf ↔ runAll ps' m' = .ok mf := by
  cases h with
  | mk pre post hs =>
    refine ⟨pairwise_replace hi fun q hq => hs.indep hq, pool_runAll hs fun q hq => ?_⟩
    exact (List.pairwise_append.1 hi).2.2 q hq _ List.mem_cons_self

theorem Interleaves.inv {ps ps' : List (Prog V Unit)} {m m' : Mem V} (h : Interleaves (ps, m) (ps', m'))
    (hi : ps.Pairwise Indep) : ps'.Pairwise Indep ∧ ∀ mf, runAll ps m = .ok mf ↔ runAll ps' m' = .ok mf := by
  generalize hs : (ps, m) = s at h
  generalize ht : (ps', m') = t at h
  induction h generalizing ps' m' with
  | refl =>
    subst hs
    cases ht
    exact ⟨hi, fun _ => Iff.rfl⟩
  | @tail u v _ hstep ih =>
    subst ht
    obtain ⟨h1, h2⟩ := ih (ps' := u.1) (m' := u.2) rfl
    obtain ⟨h3, h4⟩ := hstep.inv h1
    exact ⟨h3, fun mf => (h2 mf).trans (h4 mf)⟩

/-- A thread that has not ended and is not faulty can move. -/
theorem poolStep_of_not_faulty {ps : List (Prog V Unit)} {m : Mem V} (hf : ¬ Faulty (ps, m)) (he : ¬ Ended ps) :
    ∃ s, PoolStep (ps, m) s := by
  unfold Ended at he
  push Not at he
  obtain ⟨p, hp, hne⟩ := he
  obtain ⟨pre, post, rfl⟩ := List.append_of_mem hp
  cases p with
  | pure a => exact absurd rfl hne
  | fault e => exact absurd ⟨_, hp, Or.inl ⟨e, rfl⟩⟩ hf
  | read l k =>
    by_cases h : ∃ v, m l = .val v
    · obtain ⟨v, h⟩ := h
      exact ⟨_, .mk pre post (.read h)⟩
    · push Not at h
      exact absurd ⟨_, hp, Or.inr (Or.inl ⟨l, k, rfl, h⟩)⟩ hf
  | write l v k =>
    by_cases h : m l = .oob
    · exact absurd ⟨_, hp, Or.inr (Or.inr ⟨l, v, k, rfl, h⟩)⟩ hf
    · exact ⟨_, .mk pre post (.write h)⟩

/-- If the sequential run ends well, no thread is at a fault. -/
theorem not_faulty_of_ok {ps : List (Prog V Unit)} {m mf : Mem V} (hi : ps.Pairwise Indep) (h : runAll ps m = .ok mf) :
    ¬ Faulty (ps, m) := by
  rintro ⟨p, hp, hbad⟩
  obtain ⟨pre, post, rfl⟩ := List.append_of_mem hp
  have hpre : ∀ q ∈ pre, Indep q p := fun q hq => (List.pairwise_append.1 hi).2.2 q hq _ List.mem_cons_self
  clear hp hi
  induction pre generalizing m with
  | nil =>
    simp only [List.nil_append, runAll] at h
    rcases hbad with ⟨e, rfl⟩ | ⟨l, k, rfl, hv⟩ | ⟨l, v, k, rfl, hv⟩
    · cases h
    · simp only [Prog.run] at h
      cases e : m l with
      | oob => rw [e] at h; cases h
      | uninit => rw [e] at h; cases h
      | val v => exact hv v e
    · simp only at hv
      simp only [Prog.run, hv] at h
      cases h
  | cons q pre ih =>
    simp only [List.cons_append, runAll] at h
    cases e : q.run m with
    | error f => rw [e] at h; cases h
    | ok r =>
      obtain ⟨⟨⟩, n⟩ := r
      rw [e, M.ok_bind] at h
      have hq := hpre q List.mem_cons_self
      refine ih h ?_ fun x hx => hpre x (List.mem_cons_of_mem _ hx)
      rcases hbad with hb | ⟨l, k, rfl, hv⟩ | ⟨l, v, k, rfl, hv⟩
      · exact Or.inl hb
      · refine Or.inr (Or.inl ⟨l, k, rfl, fun v => ?_⟩)
        have hw : ¬ q.Writes l := fun hw => ((hq l).1 hw).1 (Or.inl rfl)
        simp only [Prog.run_frame hw e]
        exact hv v
      · exact Or.inr (Or.inr ⟨l, v, k, rfl, (Prog.run_oob e l).2 hv⟩)

/-- A sequential run of one thread is an interleaving. -/
theorem run_interleaves {p : Prog V Unit} {m m' : Mem V} (h : p.run m = .ok ((), m')) (pre post : List (Prog V Unit)) :
    Interleaves (pre ++ p :: post, m) (pre ++ .pure () :: post, m') := by
  induction p generalizing m with
  | pure a => cases h; exact .refl
  | fault e => cases h
  | read l k ih =>
    simp only [Prog.run] at h
    cases e : m l with
    | oob => rw [e] at h; cases h
    | uninit => rw [e] at h; cases h
    | val v =>
      rw [e] at h
      exact .head (.mk pre post (.read e)) (ih v h)
  | write l v k ih =>
    simp only [Prog.run] at h
    have hne : m l ≠ .oob := fun e => by rw [e] at h; cases h
    refine .head (.mk pre post (.write hne)) (ih ?_)
    cases e : m l with
    | oob => exact absurd e hne
    | uninit => rw [e] at h; exact h
    | val w => rw [e] at h; exact h

/-! ## Termination of every interleaving -/

/-- A continuation of the program. -/
def Sub (p' p : Prog V Unit) : Prop :=
  (∃ l k v, p = .read l k ∧ p' = k v) ∨ ∃ l v, p = .write l v p'

theorem sub_wf : WellFounded (Sub (V := V)) := by
  refine ⟨fun p => ?_⟩
  induction p with
  | pure a => exact ⟨_, fun q hq => by rcases hq with ⟨l, k, v, h, -⟩ | ⟨l, v, h⟩ <;> cases h⟩
  | fault e => exact ⟨_, fun q hq => by rcases hq with ⟨l, k, v, h, -⟩ | ⟨l, v, h⟩ <;> cases h⟩
  | read l k ih => exact ⟨_, fun q hq => by rcases hq with ⟨l, k, v, h, rfl⟩ | ⟨l, v, h⟩ <;> cases h; exact ih v⟩
  | write l v k ih => exact ⟨_, fun q hq => by rcases hq with ⟨l, k, v, h, -⟩ | ⟨l, v, h⟩ <;> cases h; exact ih⟩

/-- There is no infinite interleaving, whatever the threads do. -/
theorem poolStep_wf : WellFounded (fun s' s : List (Prog V Unit) × Mem V => PoolStep s s') := by
  refine Subrelation.wf (r := InvImage (Relation.CutExpand (Sub (V := V))) (fun s => (s.1 : Multiset _))) ?_
    (InvImage.wf _ sub_wf.cutExpand)
  intro s' s h
  cases h with
  | @mk pre post p p' m m' hs =>
    refine ⟨{p'}, p, ?_, ?_⟩
    · intro q hq
      rw [Multiset.mem_singleton.1 hq]
      cases hs with
      | read h => exact Or.inl ⟨_, _, _, rfl, rfl⟩
      | write h => exact Or.inr ⟨_, _, rfl⟩
    · have h1 : ((pre ++ p' :: post : List (Prog V Unit)) : Multiset (Prog V Unit)) = p' ::ₘ ↑(pre ++ post) :=
        Multiset.coe_eq_coe.2 List.perm_middle
      have h2 : ((pre ++ p :: post : List (Prog V Unit)) : Multiset (Prog V Unit)) = p ::ₘ ↑(pre ++ post) :=
        Multiset.coe_eq_coe.2 List.perm_middle
      show (_ : Multiset (Prog V Unit)) + {p} = _ + {p'}
      simp only
      rw [h1, h2, Multiset.cons_add, Multiset.cons_add, add_comm _ ({p} : Multiset _), add_comm _ ({p'} : Multiset _),
        Multiset.singleton_add, Multiset.singleton_add, Multiset.cons_swap]

end steps

/-! ## The main theorem -/

section main
variable [DecidableEq L]

theorem runAll_perm {ps qs : List (Prog V Unit)} (h : ps.Perm qs) (hi : ps.Pairwise Indep) (m mf : Mem V)
    (e : runAll ps m = .ok mf) : runAll qs m = .ok mf := by
  induction h generalizing m with
  | nil => exact e
  | @cons p ps qs _ ih =>
    simp only [runAll] at e ⊢
    cases e' : p.run m with
    | error f => rw [e'] at e; cases e
    | ok r =>
      rw [e', M.ok_bind] at e
      exact ih (List.pairwise_cons.1 hi).2 _ e
  | swap p q ps =>
    simp only [runAll] at e
    cases e1 : q.run m with
    | error f => rw [e1] at e; cases e
    | ok r =>
      obtain ⟨⟨⟩, n⟩ := r
      rw [e1, M.ok_bind] at e
      have hpq : Indep q p := (List.pairwise_cons.1 hi).1 p List.mem_cons_self
      have hr := run_interleaves e1 [p] ps
      have hi' : ([p] ++ q :: ps).Pairwise Indep := by
        simp only [List.cons_append, List.nil_append, List.pairwise_cons, List.mem_cons] at hi ⊢
        obtain ⟨h1, h2, h3⟩ := hi
        exact ⟨fun x hx => by
          rcases hx with rfl | hx
          · exact hpq.symm
          · exact h2 x hx, fun x hx => h1 x (Or.inr hx), h3⟩
      have := ((hr.inv hi').2 mf).2
      refine this ?_
      simp only [List.cons_append, List.nil_append, runAll, Prog.run]
      exact e
  | @trans l1 l2 l3 h1 _ ih1 ih2 =>
    refine ih2 ?_ m (ih1 hi m e)
    exact (h1.pairwise_iff fun {a b} h => Indep.symm h).1 hi

theorem runAll_flatten (css : List (List (Prog V Unit))) (m : Mem V) :
    runAll (css.map Prog.seqAll) m = runAll css.flatten m := by
  induction css generalizing m with
  | nil => rfl
  | cons c css ih =>
    simp only [List.map_cons, runAll, List.flatten_cons, runAll_append, Prog.run_seqAll]
    cases runAll c m with
    | error e => rfl
    | ok n => exact ih n

theorem pairwise_chunks {css : List (List (Prog V Unit))} (h : css.flatten.Pairwise Indep) :
    (css.map Prog.seqAll).Pairwise Indep := by
  induction css with
  | nil => exact .nil
  | cons c css ih =>
    rw [List.flatten_cons, List.pairwise_append] at h
    rw [List.map_cons, List.pairwise_cons]
    refine ⟨fun q hq => ?_, ih h.2.1⟩
    obtain ⟨c', hc', rfl⟩ := List.mem_map.1 hq
    exact Indep.seqAll fun p hp q hq => h.2.2 p hp q (List.mem_flatten.2 ⟨c', hc', hq⟩)

/-- Work sharing without data races: the iterations `ps` of a loop are distributed in any way over any number of threads,
each thread running its share in any order, and the threads interleave access by access in any way.  If the sequential loop
ends in memory `mf`, then in every reachable state no thread is at a fault, and if all threads have ended the memory is
`mf`; otherwise some thread can move.  -/
theorem interleaving_eq_sequential {ps : List (Prog V Unit)} (hi : ps.Pairwise Indep) {m mf : Mem V}
    (e : runAll ps m = .ok mf) (css : List (List (Prog V Unit))) (hp : css.flatten.Perm ps)
    {qs : List (Prog V Unit)} {m' : Mem V} (h : Interleaves (css.map Prog.seqAll, m) (qs, m')) :
    ¬ Faulty (qs, m') ∧ (Ended qs → m' = mf) ∧ (¬ Ended qs → ∃ s, PoolStep (qs, m') s) := by
  have hi' : css.flatten.Pairwise Indep := (hp.pairwise_iff fun {a b} h => Indep.symm h).2 hi
  have e' : runAll (css.map Prog.seqAll) m = .ok mf := by
    rw [runAll_flatten]
    exact runAll_perm hp.symm hi m mf e
  obtain ⟨h1, h2⟩ := h.inv (pairwise_chunks hi')
  have e2 := (h2 mf).1 e'
  have hf := not_faulty_of_ok h1 e2
  refine ⟨hf, fun he => ?_, poolStep_of_not_faulty hf⟩
  rw [runAll_ended he] at e2
  cases e2
  rfl

/-- Without data races a terminated execution under any schedule is the sequential one. -/
theorem ended_runAll {ps : List (Prog V Unit)} (hi : ps.Pairwise Indep) {m m' : Mem V} {css : List (List (Prog V Unit))}
    (hp : css.flatten.Perm ps) {qs : List (Prog V Unit)} (hs : Interleaves (css.map Prog.seqAll, m) (qs, m')) (he : Ended qs) :
    runAll ps m = .ok m' := by
  have hi' : css.flatten.Pairwise Indep := (hp.pairwise_iff fun {a b} h => Indep.symm h).2 hi
  have := ((hs.inv (pairwise_chunks hi')).2 m').2 (runAll_ended he m')
  rw [runAll_flatten] at this
  exact runAll_perm hp hi' m m' this

/-- When the sequential run is undefined, every schedule runs into undefined behaviour: from every reachable state a state is
reachable in which some thread is at a fault. -/
theorem reaches_fault {ps : List (Prog V Unit)} (hi : ps.Pairwise Indep) {m : Mem V} (hn : ∀ mf, runAll ps m ≠ .ok mf)
    {css : List (List (Prog V Unit))} (hp : css.flatten.Perm ps) {s : List (Prog V Unit) × Mem V}
    (hs : Interleaves (css.map Prog.seqAll, m) s) : ∃ s', Interleaves s s' ∧ Faulty s' := by
  revert hs
  refine (poolStep_wf (V := V)).induction (C := fun s => Interleaves (css.map Prog.seqAll, m) s →
    ∃ s', Interleaves s s' ∧ Faulty s') s fun s ih hs => ?_
  by_cases hf : Faulty s
  · exact ⟨s, .refl, hf⟩
  · by_cases he : Ended s.1
    · exact absurd (ended_runAll hi hp hs he) (hn s.2)
    · obtain ⟨s', hs'⟩ := poolStep_of_not_faulty hf he
      obtain ⟨s'', h1, h2⟩ := ih s' hs' (hs.tail hs')
      exact ⟨s'', .head hs' h1, h2⟩

end main

end Gals
