import Verif.Lemmas.RefRun

/-!
# Safety of programs

A program is checked against a set `R` of locations that hold a value, a set `W` of allocated locations, a set `B` of
locations outside every allocation, and an invariant `I` of the values.  Nothing is assumed about the values themselves
beyond `I`, so nothing about the arithmetic that produced them.
-/

set_option linter.unusedSectionVars false

namespace Gals

variable {L : Type} {V : L → Type} {α β : Type}

/-- Memory that meets the invariant. -/
structure Holds (W B : L → Prop) (I : ∀ l, V l → Prop) (R : L → Prop) (m : Mem V) : Prop where
  val : ∀ l, R l → ∃ v, m l = .val v ∧ I l v
  room : ∀ l, W l → m l ≠ .oob
  bad : ∀ l, B l → m l = .oob

variable {W B : L → Prop} {I : ∀ l, V l → Prop}

/-- Every access is to a location that allows it; a read may also hit a location of `B`.  `Q` holds at the end of the
result and of the set of locations that hold a value. -/
def Prog.safe (W B : L → Prop) (I : ∀ l, V l → Prop) : Prog V α → (L → Prop) → (α → (L → Prop) → Prop) → Prop
  | .pure a, R, Q => Q a R
  | .fault _, _, _ => False
  | .read l k, R, Q => B l ∨ (R l ∧ ∀ v, I l v → (k v).safe W B I R Q)
  | .write l v k, R, Q => W l ∧ I l v ∧ k.safe W B I (fun x => R x ∨ x = l) Q

theorem Prog.safe_bind (p : Prog V α) (f : α → Prog V β) (R : L → Prop) (Q : β → (L → Prop) → Prop) :
    (p.bind f).safe W B I R Q ↔ p.safe W B I R fun a R' => (f a).safe W B I R' Q := by
  induction p generalizing R with
  | pure a => rfl
  | fault e => rfl
  | read l k ih => simp only [Prog.bind, Prog.safe, ih]
  | write l v k ih => simp only [Prog.bind, Prog.safe, ih]

theorem Prog.safe_mono {p : Prog V α} {R R' : L → Prop} {Q Q' : α → (L → Prop) → Prop} (h : p.safe W B I R Q)
    (hR : ∀ l, R l → R' l) (hQ : ∀ a S S', (∀ l, S l → S' l) → Q a S → Q' a S') : p.safe W B I R' Q' := by
  induction p generalizing R R' with
  | pure a => exact hQ _ _ _ hR h
  | fault e => exact h
  | read l k ih => exact h.imp id fun h => ⟨hR _ h.1, fun v hv => ih v (h.2 v hv) hR⟩
  | write l v k ih => exact ⟨h.1, h.2.1, ih h.2.2 fun l' hl' => hl'.imp (hR l') id⟩

theorem Prog.safe_post {p : Prog V α} {R : L → Prop} {Q Q' : α → (L → Prop) → Prop} (h : p.safe W B I R Q)
    (hQ : ∀ a S, Q a S → Q' a S) : p.safe W B I R Q' := by
  induction p generalizing R with
  | pure a => exact hQ _ _ h
  | fault e => exact h
  | read l k ih => exact h.imp id fun h => ⟨h.1, fun v hv => ih v (h.2 v hv)⟩
  | write l v k ih => exact ⟨h.1, h.2.1, ih h.2.2⟩

/-- Programs only add values. -/
theorem Prog.safe_grows {p : Prog V α} {R : L → Prop} {Q : α → (L → Prop) → Prop} (h : p.safe W B I R Q) :
    p.safe W B I R fun a S => (∀ l, R l → S l) ∧ Q a S := by
  induction p generalizing R with
  | pure a => exact ⟨fun _ => id, h⟩
  | fault e => exact h
  | read l k ih => exact h.imp id fun h => ⟨h.1, fun v hv => ih v (h.2 v hv)⟩
  | write l v k ih =>
    exact ⟨h.1, h.2.1, Prog.safe_post (ih h.2.2) fun a S hS => ⟨fun l hl => hS.1 l (.inl hl), hS.2⟩⟩

theorem Prog.safe_pure (a : α) (R : L → Prop) (Q : α → (L → Prop) → Prop) :
    (Prog.pure a : Prog V α).safe W B I R Q ↔ Q a R := Iff.rfl
theorem Prog.safe_get (l : L) (R : L → Prop) (Q : V l → (L → Prop) → Prop) :
    (Prog.get l : Prog V _).safe W B I R Q ↔ B l ∨ (R l ∧ ∀ v, I l v → Q v R) := Iff.rfl
theorem Prog.safe_set (l : L) (v : V l) (R : L → Prop) (Q : Unit → (L → Prop) → Prop) :
    (Prog.set l v : Prog V _).safe W B I R Q ↔ W l ∧ I l v ∧ Q () fun x => R x ∨ x = l := Iff.rfl

section run
variable [DecidableEq L]

theorem Holds.upd {R : L → Prop} {m : Mem V} (h : Holds W B I R m) {l : L} (hl : W l) {v : V l} (hv : I l v) :
    Holds W B I (fun x => R x ∨ x = l) (m.upd l v) where
  val x hx := by
    by_cases e : x = l
    · subst e
      exact ⟨v, Mem.upd_same .., hv⟩
    · rw [Mem.upd_other _ e]
      exact h.val x (hx.resolve_right e)
  room x hx := fun e => h.room x hx ((Mem.upd_oob_iff m l x v (h.room l hl)).1 e)
  bad x hx := (Mem.upd_oob_iff m l x v (h.room l hl)).2 (h.bad x hx)

theorem Holds.mono {R R' : L → Prop} {m : Mem V} (h : Holds W B I R m) (hR : ∀ l, R' l → R l) : Holds W B I R' m :=
  ⟨fun l hl => h.val l (hR l hl), h.room, h.bad⟩

/-- A checked program ends well, or reads a location of `B`. -/
theorem Prog.safe_run {p : Prog V α} {R : L → Prop} {Q : α → (L → Prop) → Prop} {m : Mem V} (h : p.safe W B I R Q)
    (hm : Holds W B I R m) : ((∃ l, B l) ∧ p.run m = .error .oob) ∨
      ∃ a m' R', p.run m = .ok (a, m') ∧ (∀ l, R l → R' l) ∧ Q a R' ∧ Holds W B I R' m' := by
  induction p generalizing R m with
  | pure a => exact .inr ⟨a, m, R, rfl, fun _ => id, h, hm⟩
  | fault e => exact h.elim
  | read l k ih =>
    rcases h with h | ⟨h1, h2⟩
    · left
      refine ⟨⟨l, h⟩, ?_⟩
      simp only [Prog.run, hm.bad l h]
    · obtain ⟨v, hv, hi⟩ := hm.val l h1
      simp only [Prog.run, hv]
      exact ih v (h2 v hi) hm
  | write l v k ih =>
    obtain ⟨h1, h2, h3⟩ := h
    have hr : (Prog.write l v k).run m = k.run (m.upd l v) := by
      have := hm.room l h1
      simp only [Prog.run]
    rw [hr]
    rcases ih h3 (hm.upd h1 h2) with h | ⟨a, m', R', e, hs, hq, hh⟩
    · exact .inl h
    · exact .inr ⟨a, m', R', e, fun l' hl' => hs l' (.inl hl'), hq, hh⟩

/-- A loop of checked bodies: `G c` are locations that body `c` writes. -/
theorem safe_loop {κ : Type} {b : κ → Prog V Unit} {R : L → Prop} (G : κ → L → Prop) (cs : List κ)
    (h : ∀ c ∈ cs, (b c).safe W B I R fun _ R' => ∀ l, G c l → R' l) {m : Mem V} (hm : Holds W B I R m) :
    ((∃ l, B l) ∧ runAll (cs.map b) m = .error .oob) ∨
      ∃ m', runAll (cs.map b) m = .ok m' ∧ Holds W B I (fun l => R l ∨ ∃ c ∈ cs, G c l) m' := by
  suffices H : ∀ R' : L → Prop, (∀ l, R l → R' l) → ∀ m, Holds W B I R' m →
      ((∃ l, B l) ∧ runAll (cs.map b) m = .error .oob) ∨
        ∃ m', runAll (cs.map b) m = .ok m' ∧ Holds W B I (fun l => R' l ∨ ∃ c ∈ cs, G c l) m' from H R (fun _ => id) m hm
  clear hm m
  induction cs with
  | nil => exact fun R' _ m hm => .inr ⟨m, rfl, hm.mono fun l hl => by simpa using hl⟩
  | cons c cs ih =>
    intro R' hR m hm
    have h1 : (b c).safe W B I R' fun _ R'' => ∀ l, G c l → R'' l :=
      Prog.safe_mono (h c List.mem_cons_self) hR fun _ S S' hS hq l hl => hS l (hq l hl)
    rcases Prog.safe_run h1 hm with ⟨hb, e⟩ | ⟨a, m', R'', e, hs, hq, hm'⟩
    · left
      exact ⟨hb, by simp only [List.map_cons, runAll, e, M.error_bind]⟩
    · have er : runAll ((c :: cs).map b) m = runAll (cs.map b) m' := by simp only [List.map_cons, runAll, e, M.ok_bind]
      rw [er]
      rcases ih (fun d hd => h d (List.mem_cons_of_mem _ hd)) R'' (fun l hl => hs l (hR l hl)) m' hm' with h2 | ⟨mf, ef, hf⟩
      · exact .inl h2
      · refine .inr ⟨mf, ef, hf.mono ?_⟩
        rintro l (hl | ⟨d, hd, hl⟩)
        · exact .inl (hs l hl)
        · rcases List.mem_cons.1 hd with rfl | hd
          · exact .inl (hq l hl)
          · exact .inr ⟨d, hd, hl⟩

/-- Threads running checked programs, interleaved access by access: no thread is ever about to do something undefined, and
the invariant holds. -/
theorem safe_pool {ps : List (Prog V Unit)} {R : L → Prop} {m : Mem V} {I : ∀ l, V l → Prop}
    (h : ∀ p ∈ ps, p.safe W (fun _ => False) I R fun _ _ => True) (hm : Holds W (fun _ => False) I R m)
    {qs : List (Prog V Unit)} {m' : Mem V} (hi : Interleaves (ps, m) (qs, m')) :
    ¬ Faulty (qs, m') ∧ Holds W (fun _ => False) I R m' := by
  suffices H : ∃ R', (∀ l, R l → R' l) ∧ (∀ p ∈ qs, p.safe W (fun _ => False) I R' fun _ _ => True) ∧
      Holds W (fun _ => False) I R' m' by
    obtain ⟨R', hR, hp, hh⟩ := H
    refine ⟨?_, hh.mono hR⟩
    rintro ⟨p, hpq, ⟨e, rfl⟩ | ⟨l, k, rfl, hv⟩ | ⟨l, v, k, rfl, ho⟩⟩
    · exact hp _ hpq
    · obtain ⟨v, e, -⟩ := hh.val l ((hp _ hpq).resolve_left id).1
      exact hv v e
    · exact hh.room l (hp _ hpq).1 ho
  generalize e : (qs, m') = s at hi
  induction hi generalizing qs m' with
  | refl => cases e; exact ⟨R, fun _ => id, h, hm⟩
  | tail _ hs ih =>
    rename_i s' s'' _
    obtain ⟨R', hR, hp, hh⟩ := ih (qs := s'.1) (m' := s'.2) rfl
    cases hs with
    | mk pre post hst =>
      cases e
      have hpp := hp _ (List.mem_append_right _ List.mem_cons_self)
      cases hst with
      | read hv =>
        rename_i l k v _
        obtain ⟨hr, hk⟩ := hpp.resolve_left id
        obtain ⟨w, ew, hw⟩ := hh.val l hr
        have : w = v := by
          have e2 : Slot.val w = Slot.val v := ew.symm.trans hv
          exact Slot.val.inj e2
        subst this
        refine ⟨R', hR, fun q hq => ?_, hh⟩
        rcases List.mem_append.1 hq with hq | hq
        · exact hp q (by simp [hq])
        · rcases List.mem_cons.1 hq with rfl | hq
          · exact hk w hw
          · exact hp q (by simp [hq])
      | write hv =>
        rename_i l v _
        obtain ⟨h1, h2, h3⟩ := hpp
        refine ⟨fun x => R' x ∨ x = l, fun x hx => .inl (hR x hx), fun q hq => ?_, hh.upd h1 h2⟩
        have hmono : ∀ q : Prog V Unit, q.safe W (fun _ => False) I R' (fun _ _ => True) →
            q.safe W (fun _ => False) I (fun x => R' x ∨ x = l) fun _ _ => True := fun q hq =>
          Prog.safe_mono hq (fun x hx => .inl hx) fun _ _ _ _ _ => trivial
        rcases List.mem_append.1 hq with hq | hq
        · exact hmono q (hp q (by simp [hq]))
        · rcases List.mem_cons.1 hq with rfl | hq
          · exact h3
          · exact hmono q (hp q (by simp [hq]))

end run

namespace Ref

variable {K : Type} {W B : Loc → Prop} {I : ∀ l, Val K l → Prop}

theorem safe_getD (a : DVar) (i j : ℕ) (R : Loc → Prop) (Q : K → (Loc → Prop) → Prop) :
    (getD a i j).safe W B I R Q ↔ B (.d a i j) ∨ (R (.d a i j) ∧ ∀ v : K, I (.d a i j) v → Q v R) := Iff.rfl
theorem safe_getN (a : NVar) (i j : ℕ) (R : Loc → Prop) (Q : ℕ → (Loc → Prop) → Prop) :
    (getN (K := K) a i j).safe W B I R Q ↔ B (.n a i j) ∨ (R (.n a i j) ∧ ∀ v : ℕ, I (.n a i j) v → Q v R) := Iff.rfl
theorem safe_setD (a : DVar) (i j : ℕ) (v : K) (R : Loc → Prop) (Q : Unit → (Loc → Prop) → Prop) :
    (setD a i j v).safe W B I R Q ↔ W (.d a i j) ∧ I (.d a i j) v ∧ Q () fun x => R x ∨ x = .d a i j := Iff.rfl
theorem safe_setN (a : NVar) (i j : ℕ) (v : ℕ) (R : Loc → Prop) (Q : Unit → (Loc → Prop) → Prop) :
    (setN (K := K) a i j v).safe W B I R Q ↔ W (.n a i j) ∧ I (.n a i j) v ∧ Q () fun x => R x ∨ x = .n a i j := Iff.rfl

end Ref

end Gals
