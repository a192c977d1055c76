import Verif.Lemmas.Conc
import Verif.Model.RefCuda

/-!
# Running the bodies of the reference code
-/

set_option linter.unusedSectionVars false

namespace Gals

variable {L : Type} {V : L → Type} {α β ι : Type}

/-! ## Footprints -/

/-- Every read satisfies `R`, every write `W`. -/
def Prog.Fits (R W : L → Prop) : Prog V α → Prop
  | .pure _ => True
  | .fault _ => True
  | .read l k => R l ∧ ∀ v, (k v).Fits R W
  | .write l _ k => W l ∧ k.Fits R W

variable {R W : L → Prop}

theorem Prog.fits_pure (a : α) : (Prog.pure a : Prog V α).Fits R W := trivial
theorem Prog.fits_get {l : L} (h : R l) : (Prog.get l : Prog V _).Fits R W := ⟨h, fun _ => trivial⟩
theorem Prog.fits_set {l : L} {v : V l} (h : W l) : (Prog.set l v : Prog V _).Fits R W := ⟨h, trivial⟩

theorem Prog.fits_bind {p : Prog V α} {f : α → Prog V β} (hp : p.Fits R W) (hf : ∀ a, (f a).Fits R W) :
    (p.bind f).Fits R W := by
  induction p with
  | pure a => exact hf a
  | fault e => trivial
  | read l k ih => exact ⟨hp.1, fun v => ih v (hp.2 v)⟩
  | write l v k ih => exact ⟨hp.1, ih hp.2⟩

theorem Prog.fits_ite {c : Prop} [Decidable c] {p q : Prog V α} (hp : c → p.Fits R W) (hq : ¬ c → q.Fits R W) :
    (if c then p else q).Fits R W := by
  split
  · exact hp ‹_›
  · exact hq ‹_›

theorem Prog.Fits.reads {p : Prog V α} (h : p.Fits R W) {l : L} (hl : p.Reads l) : R l := by
  induction p with
  | pure a => exact hl.elim
  | fault e => exact hl.elim
  | read l' k ih =>
    rcases hl with rfl | ⟨v, hl⟩
    · exact h.1
    · exact ih v (h.2 v) hl
  | write l' v k ih => exact ih h.2 hl

theorem Prog.Fits.writes {p : Prog V α} (h : p.Fits R W) {l : L} (hl : p.Writes l) : W l := by
  induction p with
  | pure a => exact hl.elim
  | fault e => exact hl.elim
  | read l' k ih =>
    obtain ⟨v, hl⟩ := hl
    exact ih v (h.2 v) hl
  | write l' v k ih =>
    rcases hl with rfl | hl
    · exact h.1
    · exact ih h.2 hl

theorem Prog.Fits.mono {R' W' : L → Prop} {p : Prog V α} (h : p.Fits R W) (hr : ∀ l, R l → R' l) (hw : ∀ l, W l → W' l) :
    p.Fits R' W' := by
  induction p with
  | pure a => trivial
  | fault e => trivial
  | read l k ih => exact ⟨hr _ h.1, fun v => ih v (h.2 v)⟩
  | write l v k ih => exact ⟨hw _ h.1, ih h.2⟩

/-- A program that writes only what iteration `c` owns and reads only what `c` owns or nobody owns. -/
def Owned (own : L → Option ι) (c : ι) (p : Prog V α) : Prop :=
  p.Fits (fun l => own l = some c ∨ own l = none) (fun l => own l = some c)

theorem Owned.indep {own : L → Option ι} {c c' : ι} {p : Prog V α} {q : Prog V β} (hp : Owned own c p)
    (hq : Owned own c' q) (h : c ≠ c') : Indep p q := by
  intro l
  constructor
  · intro hw
    have := hp.writes hw
    refine ⟨fun hr => ?_, fun hr => ?_⟩
    · rcases hq.reads hr with e | e <;> rw [this] at e
      · exact h (Option.some.inj e)
      · cases e
    · have e := hq.writes hr
      rw [this] at e
      exact h (Option.some.inj e)
  · intro hw
    have := hq.writes hw
    refine ⟨fun hr => ?_, fun hr => ?_⟩
    · rcases hp.reads hr with e | e <;> rw [this] at e
      · exact h (Option.some.inj e).symm
      · cases e
    · have e := hp.writes hr
      rw [this] at e
      exact h (Option.some.inj e).symm

theorem pairwise_owned {own : L → Option ι} {κ : Type} {b : κ → Prog V Unit} {key : κ → ι} (cs : List κ)
    (hb : ∀ c ∈ cs, Owned own (key c) (b c)) (hn : (cs.map key).Nodup) : (cs.map b).Pairwise Indep := by
  induction cs with
  | nil => exact .nil
  | cons c cs ih =>
    rw [List.map_cons, List.nodup_cons] at hn
    rw [List.map_cons, List.pairwise_cons]
    refine ⟨fun q hq => ?_, ih (fun d hd => hb d (List.mem_cons_of_mem _ hd)) hn.2⟩
    obtain ⟨d, hd, rfl⟩ := List.mem_map.1 hq
    refine (hb c List.mem_cons_self).indep (hb d (List.mem_cons_of_mem _ hd)) fun e => hn.1 ?_
    rw [e]
    exact List.mem_map_of_mem hd

/-! ## A loop of independent bodies -/

section run
variable [DecidableEq L]

/-- The run depends only on the footprint. -/
theorem Prog.run_agree {p : Prog V α} {S : L → Prop} (hp : p.Fits S S) {m m1 m' : Mem V} {a : α}
    (h : ∀ l, S l → m1 l = m l) (e : p.run m = .ok (a, m')) :
    ∃ m1', p.run m1 = .ok (a, m1') ∧ ∀ l, S l → m1' l = m' l := by
  induction p generalizing m m1 with
  | pure b => cases e; exact ⟨m1, rfl, h⟩
  | fault f => cases e
  | read l k ih =>
    simp only [Prog.run, h l hp.1] at e ⊢
    cases e' : m l with
    | oob => rw [e'] at e; cases e
    | uninit => rw [e'] at e; cases e
    | val v =>
      rw [e'] at e
      exact ih v (hp.2 v) h e
  | write l v k ih =>
    simp only [Prog.run, h l hp.1] at e ⊢
    have hu : ∀ l', S l' → m1.upd l v l' = m.upd l v l' := by
      intro l' hl'
      by_cases hne : l' = l
      · subst hne; simp only [Mem.upd_same]
      · simp only [Mem.upd_other _ hne, h l' hl']
    cases e' : m l with
    | oob => rw [e'] at e; cases e
    | uninit => rw [e'] at e; exact ih hp.2 hu e
    | val w => rw [e'] at e; exact ih hp.2 hu e

/-- Bodies with disjoint ownership: each acts as if run alone from the initial memory. -/
theorem runAll_owned {own : L → Option ι} {κ : Type} {b : κ → Prog V Unit} {key : κ → ι} (cs : List κ)
    (hb : ∀ c ∈ cs, Owned own (key c) (b c)) (hn : (cs.map key).Nodup) {m : Mem V} {res : κ → Mem V}
    (hr : ∀ c ∈ cs, (b c).run m = .ok ((), res c)) :
    ∃ mf, runAll (cs.map b) m = .ok mf ∧ (∀ c ∈ cs, ∀ l, own l = some (key c) → mf l = res c l) ∧
      ∀ l, (∀ c ∈ cs, own l ≠ some (key c)) → mf l = m l := by
  induction cs generalizing m res with
  | nil => exact ⟨m, rfl, fun c hc => absurd hc List.not_mem_nil, fun l _ => rfl⟩
  | cons c cs ih =>
    rw [List.map_cons, List.nodup_cons] at hn
    have hbc := hb c List.mem_cons_self
    have hrc := hr c List.mem_cons_self
    have hfr : ∀ l, own l ≠ some (key c) → res c l = m l := fun l hl =>
      Prog.run_frame (fun hw => hl (hbc.writes hw)) hrc
    have hne : ∀ d ∈ cs, key d ≠ key c := fun d hd e => hn.1 (by rw [← e]; exact List.mem_map_of_mem hd)
    have key2 : ∀ d ∈ cs, ∃ r, (b d).run (res c) = .ok ((), r) ∧
        ∀ l, own l = some (key d) ∨ own l = none → r l = res d l := by
      intro d hd
      have hbd := hb d (List.mem_cons_of_mem _ hd)
      refine Prog.run_agree (S := fun l => own l = some (key d) ∨ own l = none)
        (hbd.mono (fun _ h => h) fun _ h => Or.inl h) ?_ (hr d (List.mem_cons_of_mem _ hd))
      rintro l (hl | hl)
      · exact hfr l (by rw [hl]; exact fun e => hne d hd (Option.some.inj e))
      · exact hfr l (by rw [hl]; exact fun e => by cases e)
    have : Nonempty (Mem V) := ⟨m⟩
    choose! r hr1 hr2 using key2
    obtain ⟨mf, e, h1, h2⟩ := ih (fun d hd => hb d (List.mem_cons_of_mem _ hd)) hn.2 hr1
    refine ⟨mf, ?_, ?_, ?_⟩
    · simp only [List.map_cons, runAll, hrc, M.ok_bind]
      exact e
    · intro d hd l hl
      rcases List.mem_cons.1 hd with rfl | hd
      · exact h2 l fun d' hd' e => hne d' hd' (by rw [hl] at e; exact (Option.some.inj e).symm)
      · rw [h1 d hd l hl, hr2 d hd l (Or.inl hl)]
    · intro l hl
      rw [h2 l fun d hd => hl d (List.mem_cons_of_mem _ hd), hfr l (hl c List.mem_cons_self)]

end run

/-! ## Weakest preconditions -/

section wp
variable [DecidableEq L]

/-- The program ends without undefined behaviour in a state that satisfies `Q`. -/
def Prog.wp (p : Prog V α) (m : Mem V) (Q : α → Mem V → Prop) : Prop := ∃ a m', p.run m = .ok (a, m') ∧ Q a m'

theorem Prog.wp_bind (p : Prog V α) (f : α → Prog V β) (m : Mem V) (Q : β → Mem V → Prop) :
    (p.bind f).wp m Q ↔ p.wp m fun a m' => (f a).wp m' Q := by
  simp only [Prog.wp, Prog.run_bind]
  constructor
  · rintro ⟨b, m'', e, hq⟩
    cases e' : p.run m with
    | error f => rw [e'] at e; cases e
    | ok r =>
      rw [e', M.ok_bind] at e
      exact ⟨r.1, r.2, rfl, b, m'', e, hq⟩
  · rintro ⟨a, m', e', b, m'', e, hq⟩
    exact ⟨b, m'', by rw [e', M.ok_bind]; exact e, hq⟩

theorem Prog.wp_pure (a : α) (m : Mem V) (Q : α → Mem V → Prop) : (Prog.pure a : Prog V α).wp m Q ↔ Q a m :=
  ⟨fun ⟨_, _, e, h⟩ => by cases e; exact h, fun h => ⟨a, m, rfl, h⟩⟩

theorem Prog.wp_get (l : L) (m : Mem V) (Q : V l → Mem V → Prop) :
    (Prog.get l : Prog V _).wp m Q ↔ ∃ v, m l = .val v ∧ Q v m := by
  simp only [Prog.wp, Prog.get, Prog.run]
  cases h : m l with
  | oob => simp
  | uninit => simp
  | val v =>
    constructor
    · rintro ⟨a, m', e, hq⟩
      cases e
      exact ⟨v, rfl, hq⟩
    · rintro ⟨w, e, hq⟩
      cases e
      exact ⟨v, m, rfl, hq⟩

theorem Prog.wp_set (l : L) (v : V l) (m : Mem V) (Q : Unit → Mem V → Prop) :
    (Prog.set l v : Prog V _).wp m Q ↔ m l ≠ .oob ∧ Q () (m.upd l v) := by
  simp only [Prog.wp, Prog.set, Prog.run]
  cases h : m l with
  | oob => simp
  | uninit =>
    simp only [Except.ok.injEq, Prod.mk.injEq, ne_eq, reduceCtorEq, not_false_eq_true, true_and]
    exact ⟨fun ⟨_, _, e, hq⟩ => e ▸ hq, fun hq => ⟨(), _, rfl, hq⟩⟩
  | val w =>
    simp only [Except.ok.injEq, Prod.mk.injEq, ne_eq, reduceCtorEq, not_false_eq_true, true_and]
    exact ⟨fun ⟨_, _, e, hq⟩ => e ▸ hq, fun hq => ⟨(), _, rfl, hq⟩⟩

theorem Prog.wp_mono {p : Prog V α} {m : Mem V} {Q Q' : α → Mem V → Prop} (h : p.wp m Q) (hq : ∀ a m', Q a m' → Q' a m') :
    p.wp m Q' := by
  obtain ⟨a, m', e, h⟩ := h
  exact ⟨a, m', e, hq _ _ h⟩

theorem Prog.wp_of_run {p : Prog V α} {m m' : Mem V} {a : α} {Q : α → Mem V → Prop} (e : p.run m = .ok (a, m'))
    (h : Q a m') : p.wp m Q := ⟨a, m', e, h⟩

/-- `runAll_owned` from what each body alone guarantees. -/
theorem runAll_wp {own : L → Option ι} {κ : Type} {b : κ → Prog V Unit} {key : κ → ι} (cs : List κ)
    (hb : ∀ c ∈ cs, Owned own (key c) (b c)) (hn : (cs.map key).Nodup) {m : Mem V} {Q : κ → Mem V → Prop}
    (hw : ∀ c ∈ cs, (b c).wp m fun _ m' => Q c m') :
    ∃ mf, runAll (cs.map b) m = .ok mf ∧
      (∀ c ∈ cs, ∃ m', Q c m' ∧ ∀ l, own l = some (key c) → mf l = m' l) ∧
      ∀ l, (∀ c ∈ cs, own l ≠ some (key c)) → mf l = m l := by
  have : Nonempty (Mem V) := ⟨m⟩
  have h : ∀ c ∈ cs, ∃ r, (b c).run m = .ok ((), r) ∧ Q c r := fun c hc => by
    obtain ⟨⟨⟩, r, e, h⟩ := hw c hc
    exact ⟨r, e, h⟩
  choose! r hr1 hr2 using h
  obtain ⟨mf, e, h1, h2⟩ := runAll_owned cs hb hn hr1
  exact ⟨mf, e, fun c hc => ⟨r c, hr2 c hc, h1 c hc⟩, h2⟩

theorem slot_val_inj {α : Type} {a b : α} : (Slot.val a = Slot.val b) ↔ a = b := by simp

end wp

namespace Ref

variable {K : Type}

/-! ## Accesses -/

theorem wp_getD (a : DVar) (i j : ℕ) (m : Mem (Val K)) (Q : K → Mem (Val K) → Prop) :
    (getD a i j).wp m Q ↔ ∃ v, m (.d a i j) = .val v ∧ Q v m := Prog.wp_get ..
theorem wp_getN (a : NVar) (i j : ℕ) (m : Mem (Val K)) (Q : ℕ → Mem (Val K) → Prop) :
    (getN a i j).wp m Q ↔ ∃ v : ℕ, m (.n a i j) = .val v ∧ Q v m := Prog.wp_get ..
theorem wp_setD (a : DVar) (i j : ℕ) (v : K) (m : Mem (Val K)) (Q : Unit → Mem (Val K) → Prop) :
    (setD a i j v).wp m Q ↔ m (.d a i j) ≠ .oob ∧ Q () (m.upd (.d a i j) v) := Prog.wp_set ..
theorem wp_setN (a : NVar) (i j : ℕ) (v : ℕ) (m : Mem (Val K)) (Q : Unit → Mem (Val K) → Prop) :
    (setN a i j v).wp m Q ↔ m (.n a i j) ≠ .oob ∧ Q () (m.upd (.n a i j) v) := Prog.wp_set ..

theorem run_getD {a : DVar} {i j : ℕ} {m : Mem (Val K)} {v : K} (h : m (.d a i j) = .val v) :
    (getD a i j).run m = .ok (v, m) := by
  simp only [getD, Prog.get, Prog.run, h]

theorem run_getN {a : NVar} {i j : ℕ} {m : Mem (Val K)} {v : ℕ} (h : m (.n a i j) = .val v) :
    (getN a i j).run m = .ok (v, m) := by
  simp only [getN, Prog.get, Prog.run, h]

theorem run_setD {a : DVar} {i j : ℕ} {m : Mem (Val K)} {v : K} (h : m (.d a i j) ≠ .oob) :
    (setD a i j v).run m = .ok ((), m.upd (.d a i j) v) := by
  simp only [setD, Prog.set, Prog.run]

theorem run_setN {a : NVar} {i j : ℕ} {m : Mem (Val K)} {v : ℕ} (h : m (.n a i j) ≠ .oob) :
    (setN a i j v).run m = .ok ((), m.upd (.n a i j) v) := by
  simp only [setN, Prog.set, Prog.run]

/-! ## `unsigned int` -/

theorem uadd_eq {a b : ℕ} (h : a + b < uMod) : uadd a b = a + b := Nat.mod_eq_of_lt h
theorem umul_eq {a b : ℕ} (h : a * b < uMod) : umul a b = a * b := Nat.mod_eq_of_lt h
theorem usub_eq {a b : ℕ} (hb : b ≤ a) (ha : a < uMod) : usub a b = a - b := by
  unfold usub
  rw [Nat.mod_eq_of_lt (lt_of_le_of_lt hb ha)]
  have : a + (uMod - b) = (a - b) + uMod := by omega
  rw [this, Nat.add_mod_right, Nat.mod_eq_of_lt (by omega)]

theorem mem_nodes {rows lo hi : ℕ} {c : ℕ × ℕ} : c ∈ nodes rows lo hi ↔ c.1 < rows ∧ lo ≤ c.2 ∧ c.2 < hi := by
  obtain ⟨i, j⟩ := c
  simp only [nodes, List.mem_flatMap, List.mem_range, List.mem_map, List.mem_range'_1, Prod.mk.injEq]
  constructor
  · rintro ⟨a, ha, b, hb, rfl, rfl⟩
    exact ⟨ha, hb.1, by omega⟩
  · rintro ⟨h1, h2, h3⟩
    exact ⟨i, h1, j, ⟨h2, by omega⟩, rfl, rfl⟩

theorem nodup_nodes (rows lo hi : ℕ) : (nodes rows lo hi).Nodup := by
  unfold nodes
  refine List.nodup_flatMap.2 ⟨fun i _ => ?_, ?_⟩
  · refine List.Nodup.map (fun a b h => (Prod.mk.injEq _ _ _ _ ▸ h).2) List.nodup_range'
  · refine List.nodup_range.pairwise_of_forall_ne fun i _ i' _ hne => ?_
    intro c hc hc'
    obtain ⟨j, -, rfl⟩ := List.mem_map.1 hc
    obtain ⟨j', -, e⟩ := List.mem_map.1 hc'
    exact hne (Prod.mk.inj e).1.symm

end Ref

end Gals
