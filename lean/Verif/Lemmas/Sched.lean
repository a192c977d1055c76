import Verif.Lemmas.Conc

/-!
# Executing a given schedule

Used to exhibit a single interleaving.
-/

namespace Gals

variable {L : Type} [DecidableEq L] {V : L → Type}

/-- The next access of a thread, if it is defined. -/
def Prog.next : Prog V Unit → Mem V → Option (Prog V Unit × Mem V)
  | .pure _, _ => none
  | .fault _, _ => none
  | .read l k, m =>
    match m l with
    | .val v => some (k v, m)
    | _ => none
  | .write l v k, m =>
    match m l with
    | .oob => none
    | _ => some (k, m.upd l v)

/-- Let the threads act in the given order. -/
def sched : List ℕ → List (Prog V Unit) × Mem V → Option (List (Prog V Unit) × Mem V)
  | [], s => some s
  | i :: is, (ps, m) =>
    match ps[i]? with
    | none => none
    | some p =>
      match p.next m with
      | none => none
      | some (p', m') => sched is (ps.set i p', m')

theorem Prog.next_step {p p' : Prog V Unit} {m m' : Mem V} (h : p.next m = some (p', m')) : Step1 (p, m) (p', m') := by
  cases p with
  | pure a => cases h
  | fault e => cases h
  | read l k =>
    simp only [Prog.next] at h
    split at h
    · rename_i v hv
      cases h
      exact .read hv
    · cases h
  | write l v k =>
    simp only [Prog.next] at h
    split at h
    · cases h
    · rename_i hv
      cases h
      exact .write hv

theorem sched_interleaves {is : List ℕ} {s s' : List (Prog V Unit) × Mem V} (h : sched is s = some s') :
    Interleaves s s' := by
  induction is generalizing s with
  | nil => cases h; exact .refl
  | cons i is ih =>
    obtain ⟨ps, m⟩ := s
    simp only [sched] at h
    split at h
    · cases h
    · rename_i p hp
      split at h
      · cases h
      · rename_i p' m' hn
        obtain ⟨hi, e⟩ := List.getElem?_eq_some_iff.1 hp
        refine .head ?_ (ih h)
        have h1 : ps = ps.take i ++ p :: ps.drop (i + 1) := by
          rw [← e]; simp
        have h2 : ps.set i p' = ps.take i ++ p' :: ps.drop (i + 1) := by
          rw [List.set_eq_take_append_cons_drop, if_pos hi]
        rw [h2]
        conv_lhs => rw [h1]
        exact .mk _ _ (Prog.next_step hn)

/-- The thread has ended. -/
def Prog.isEnd : Prog V Unit → Bool
  | .pure _ => true
  | _ => false

omit [DecidableEq L] in
theorem ended_of_isEnd {ps : List (Prog V Unit)} (h : ps.all Prog.isEnd = true) : Ended ps := by
  intro p hp
  have := List.all_eq_true.1 h p hp
  cases p <;> simp [Prog.isEnd] at this
  rfl

end Gals
