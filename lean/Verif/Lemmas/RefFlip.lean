import Verif.Spec.RefFlip
import Verif.Lemmas.Flip

/-!
# Reference programs on related level sets
-/

set_option linter.unusedSectionVars false

namespace Gals

open Gals.Spec Gals.Ref

/-! ## Programs -/

section prog
variable {L : Type} {V : L → Type} {α β γ δ : Type}

/-- Programs that do the same accesses with related values. -/
inductive ProgRel (Q : (l : L) → V l → V l → Prop) (R : α → β → Prop) : Prog V α → Prog V β → Prop
  | pure {a : α} {b : β} : R a b → ProgRel Q R (.pure a) (.pure b)
  | fault (e : Fault) : ProgRel Q R (.fault e) (.fault e)
  | read (l : L) {k : V l → Prog V α} {k' : V l → Prog V β} : (∀ v w, Q l v w → ProgRel Q R (k v) (k' w)) →
      ProgRel Q R (.read l k) (.read l k')
  | write (l : L) {v w : V l} {k : Prog V α} {k' : Prog V β} : Q l v w → ProgRel Q R k k' → ProgRel Q R (.write l v k) (.write l w k')

variable {Q : (l : L) → V l → V l → Prop}

theorem ProgRel.bind {R : α → β → Prop} {S : γ → δ → Prop} {p : Prog V α} {p' : Prog V β} {f : α → Prog V γ} {f' : β → Prog V δ}
    (h : ProgRel Q R p p') (hf : ∀ a b, R a b → ProgRel Q S (f a) (f' b)) : ProgRel Q S (p.bind f) (p'.bind f') := by
  induction h with
  | pure h => exact hf _ _ h
  | fault e => exact .fault e
  | read l h ih => exact .read l fun v w hv => ih v w hv
  | write l h hk ih => exact .write l h ih

/-- A first command with equal results. -/
theorem ProgRel.next {S : γ → δ → Prop} {p : Prog V α} {p' : Prog V α} {f : α → Prog V γ} {f' : α → Prog V δ}
    (h : ProgRel Q Eq p p') (hf : ∀ a, ProgRel Q S (f a) (f' a)) : ProgRel Q S (p.bind f) (p'.bind f') :=
  h.bind fun a b e => by subst e; exact hf a

theorem ProgRel.seqAll {ps : List (Prog V Unit)} (h : ∀ p ∈ ps, ProgRel Q Eq p p) : ProgRel Q Eq (Prog.seqAll ps) (Prog.seqAll ps) := by
  induction ps with
  | nil => exact .pure rfl
  | cons p ps ih =>
    exact (h p (List.mem_cons_self)).next fun _ => ih fun q hq => h q (List.mem_cons_of_mem _ hq)

theorem ProgRel.seqAll₂ {ι : Type} (l : List ι) {f f' : ι → Prog V Unit} (h : ∀ i ∈ l, ProgRel Q Eq (f i) (f' i)) :
    ProgRel Q Eq (Prog.seqAll (l.map f)) (Prog.seqAll (l.map f')) := by
  induction l with
  | nil => exact .pure rfl
  | cons i l ih =>
    exact (h i (List.mem_cons_self)).next fun _ => ih fun q hq => h q (List.mem_cons_of_mem _ hq)

variable [DecidableEq L]

theorem Spec.MemRel.upd {m m' : Mem V} (h : MemRel Q m m') (l : L) {v w : V l} (hv : Q l v w) : MemRel Q (Mem.upd m l v) (Mem.upd m' l w) := by
  intro k
  by_cases e : k = l
  · subst e
    simp only [Mem.upd, Function.update_self]
    exact .val hv
  · simp only [Mem.upd, Function.update_of_ne e]
    exact h k

/-- Sequential execution. -/
theorem ProgRel.run {R : α → β → Prop} {p : Prog V α} {p' : Prog V β} (h : ProgRel Q R p p') {m m' : Mem V} (hm : MemRel Q m m') :
    Same (fun x y => R x.1 y.1 ∧ MemRel Q x.2 y.2) (p.run m) (p'.run m') := by
  induction h generalizing m m' with
  | pure h => exact .ok ⟨h, hm⟩
  | fault e => exact .error e
  | read l h ih =>
    have := hm l
    simp only [Prog.run]
    generalize m l = a at this
    generalize m' l = b at this
    cases this with
    | oob => exact .error _
    | uninit => exact .error _
    | val hv => exact ih _ _ hv hm
  | write l h hk ih =>
    have := hm l
    simp only [Prog.run]
    generalize m l = a at this
    generalize m' l = b at this
    cases this with
    | oob => exact .error _
    | uninit => exact ih (hm.upd l h)
    | val hv => exact ih (hm.upd l h)

/-- One access. -/
theorem ProgRel.step {R : α → β → Prop} {p q : Prog V α} {p' : Prog V β} {m n m' : Mem V} (h : ProgRel Q R p p') (hm : MemRel Q m m')
    (s : Step1 (p, m) (q, n)) : ∃ q' n', Step1 (p', m') (q', n') ∧ ProgRel Q R q q' ∧ MemRel Q n n' := by
  cases s with
  | @read l k _ v hv =>
    cases h with
    | read _ h =>
      have := hm l
      rw [hv] at this
      generalize hb : m' l = b at this
      cases this with
      | val hw => exact ⟨_, _, .read hb, h _ _ hw, hm⟩
  | @write l v k _ hv =>
    cases h with
    | write _ h hk =>
      have := hm l
      refine ⟨_, _, .write (l := l) (m := m') fun e => hv ?_, hk, hm.upd l h⟩
      rw [e] at this
      generalize m l = a at this
      cases this
      rfl

theorem forall₂_split {R : α → β → Prop} (l : List α) {r : List α} {s : List β} (h : List.Forall₂ R (l ++ r) s) :
    ∃ a b, List.Forall₂ R l a ∧ List.Forall₂ R r b ∧ s = a ++ b := by
  induction l generalizing s with
  | nil => exact ⟨[], s, .nil, h, rfl⟩
  | cons x l ih =>
    cases h with
    | cons hx h =>
      obtain ⟨a, b, ha, hb, rfl⟩ := ih h
      exact ⟨_ :: a, b, .cons hx ha, hb, rfl⟩

/-- One access of one of the threads. -/
theorem pool_step {ps qs ps' : List (Prog V Unit)} {m n m' : Mem V} (h : List.Forall₂ (ProgRel Q Eq) ps ps') (hm : MemRel Q m m')
    (s : PoolStep (ps, m) (qs, n)) : ∃ qs' n', PoolStep (ps', m') (qs', n') ∧ List.Forall₂ (ProgRel Q Eq) qs qs' ∧ MemRel Q n n' := by
  cases s with
  | mk pre post s =>
    obtain ⟨a, b, hab, hb, rfl⟩ := forall₂_split pre h
    cases hb with
    | cons hp hpost =>
      obtain ⟨q', n', s', hq, hn⟩ := hp.step hm s
      exact ⟨_, n', .mk _ _ s', List.rel_append hab (.cons hq hpost), hn⟩

theorem pool_steps {ps qs ps' : List (Prog V Unit)} {m n m' : Mem V} (h : List.Forall₂ (ProgRel Q Eq) ps ps') (hm : MemRel Q m m')
    (s : Interleaves (ps, m) (qs, n)) : ∃ qs' n', Interleaves (ps', m') (qs', n') ∧ List.Forall₂ (ProgRel Q Eq) qs qs' ∧ MemRel Q n n' := by
  generalize hx : (qs, n) = x at s
  induction s generalizing qs n with
  | refl =>
    obtain ⟨rfl, rfl⟩ := Prod.mk.inj hx
    exact ⟨ps', m', .refl, h, hm⟩
  | @tail y z hy hz ih =>
    subst hx
    obtain ⟨qs', n', a, b, c⟩ := ih (qs := y.1) (n := y.2) rfl
    obtain ⟨qs'', n'', a', b', c'⟩ := pool_step b c hz
    exact ⟨qs'', n'', a.tail a', b', c'⟩

theorem ended_rel {ps ps' : List (Prog V Unit)} (h : List.Forall₂ (ProgRel Q Eq) ps ps') (e : Ended ps) : Ended ps' := by
  induction h with
  | nil => exact e
  | cons hp hps ih =>
    intro p hp'
    rcases List.mem_cons.1 hp' with rfl | hp'
    · have := e _ List.mem_cons_self
      subst this
      cases hp with
      | pure h => rfl
    · exact ih (fun q hq => e q (List.mem_cons_of_mem _ hq)) p hp'

theorem faulty_rel {ps ps' : List (Prog V Unit)} {m m' : Mem V} (h : List.Forall₂ (ProgRel Q Eq) ps ps') (hm : MemRel Q m m')
    (e : Faulty (ps, m)) : Faulty (ps', m') := by
  obtain ⟨p, hp, e⟩ := e
  obtain ⟨p', hp', r⟩ : ∃ p' ∈ ps', ProgRel Q Eq p p' := by
    clear e
    change p ∈ ps at hp
    induction h with
    | nil => simp at hp
    | cons hq hps ih =>
      rcases List.mem_cons.1 hp with rfl | hp
      · exact ⟨_, List.mem_cons_self, hq⟩
      · obtain ⟨p', a, b⟩ := ih hp
        exact ⟨p', List.mem_cons_of_mem _ a, b⟩
  refine ⟨p', hp', ?_⟩
  rcases e with ⟨f, rfl⟩ | ⟨l, k, rfl, e⟩ | ⟨l, v, k, rfl, e⟩
  · cases r with
    | fault => exact Or.inl ⟨f, rfl⟩
  · cases r with
    | @read _ _ k' h =>
      refine Or.inr (Or.inl ⟨l, k', rfl, fun v hv => ?_⟩)
      have := hm l
      change m' l = _ at hv
      rw [hv] at this
      change ∀ v, m l ≠ .val v at e
      generalize m l = a at this e
      cases this with
      | val h => exact e _ rfl
  · cases r with
    | @write _ _ w _ k' h hk =>
      refine Or.inr (Or.inr ⟨l, w, k', rfl, ?_⟩)
      have := hm l
      change m l = _ at e
      change m' l = _
      rw [e] at this
      generalize m' l = a at this
      cases this
      rfl

/-- The same pool on related memories. -/
theorem pool_self {css : List (List (Prog V Unit))} (h : ∀ cs ∈ css, ∀ p ∈ cs, ProgRel Q Eq p p) :
    List.Forall₂ (ProgRel Q Eq) (css.map Prog.seqAll) (css.map Prog.seqAll) := by
  induction css with
  | nil => exact .nil
  | cons cs css ih =>
    exact .cons (ProgRel.seqAll (h cs List.mem_cons_self)) (ih fun c hc => h c (List.mem_cons_of_mem _ hc))

end prog

/-! ## Numbers -/

/-- A relation of numbers that the operations on the level set respect. -/
structure Respects (K : Type) [Zero K] [Add K] [_root_.Sub K] [Mul K] [Div K] (W : K → K → Prop) : Prop where
  zero : W 0 0
  add {a a' b b' : K} : W a a' → W b b' → W (a + b) (a' + b')
  sub {a a' b b' : K} : W a a' → W b b' → W (a - b) (a' - b')
  mulL {b b' : K} (c : K) : W b b' → W (c * b) (c * b')
  mulR {a a' : K} (c : K) : W a a' → W (a * c) (a' * c)
  divR {a a' : K} (c : K) : W a a' → W (a / c) (a' / c)

section values
variable {K : Type} [Zero K] [One K] [Add K] [_root_.Sub K] [Mul K] [Div K] [Neg K] [NatCast K] {W : K → K → Prop} (A : Respects K W)
include A

theorem hp_rel {c c' : CellData K} (h1 : ∀ i, W (c.phi i) (c'.phi i)) (h2 : ∀ i, W (c.psix i) (c'.psix i))
    (h3 : ∀ i, W (c.psiy i) (c'.psiy i)) (h4 : ∀ i, W (c.psixy i) (c'.psixy i)) (x y xo yo dx dy : K) :
    W (hp c x y xo yo dx dy) (hp c' x y xo yo dx dy) := by
  simp only [hp, outer, inner, List.foldl]
  repeat' first | exact A.zero | refine A.add ?_ (A.mulL _ ?_) | exact h1 _ | exact h2 _ | exact h3 _ | exact h4 _

theorem hermx_rel {c c' : CellData K} (h1 : ∀ i, W (c.phi i) (c'.phi i)) (h2 : ∀ i, W (c.psix i) (c'.psix i))
    (h3 : ∀ i, W (c.psiy i) (c'.psiy i)) (h4 : ∀ i, W (c.psixy i) (c'.psixy i)) (x y xo yo dx dy : K) :
    W (hermx c x y xo yo dx dy) (hermx c' x y xo yo dx dy) := by
  simp only [hermx, outer, inner, List.foldl]
  repeat' first | exact A.zero | refine A.add ?_ (A.mulR _ (A.mulL _ ?_)) | exact h1 _ | exact h2 _ | exact h3 _ | exact h4 _

theorem hermy_rel {c c' : CellData K} (h1 : ∀ i, W (c.phi i) (c'.phi i)) (h2 : ∀ i, W (c.psix i) (c'.psix i))
    (h3 : ∀ i, W (c.psiy i) (c'.psiy i)) (h4 : ∀ i, W (c.psixy i) (c'.psixy i)) (x y xo yo dx dy : K) :
    W (hermy c x y xo yo dx dy) (hermy c' x y xo yo dx dy) := by
  simp only [hermy, outer, inner, List.foldl]
  repeat' first | exact A.zero | refine A.add ?_ (A.mulR _ (A.mulL _ ?_)) | exact h1 _ | exact h2 _ | exact h3 _ | exact h4 _

theorem heunsInternal_rel (v : Vel K) (xn yn xa ya : K) {p p' q q' : K} (hp : W p p') (hq : W q q') (t : ℕ) (dt : K) :
    W (heunsInternal v xn yn xa ya p q t dt).1 (heunsInternal v xn yn xa ya p' q' t dt).1 ∧
    W (heunsInternal v xn yn xa ya p q t dt).2 (heunsInternal v xn yn xa ya p' q' t dt).2 := by
  simp only [heunsInternal]
  constructor <;>
  repeat' first | assumption | refine A.sub ?_ ?_ | refine A.add ?_ ?_ | refine A.mulL _ ?_

theorem heunsX_rel (v : Vel K) (xn yn : K) {p p' q q' r r' s s' : K} (hp : W p p') (hq : W q q') (hr : W r r') (hs : W s s') (t : ℕ)
    (dt : K) : W (heunsX v xn yn p q r s t dt) (heunsX v xn yn p' q' r' s' t dt) := by
  simp only [heunsX]
  repeat' first | assumption | refine A.sub ?_ ?_ | refine A.add ?_ ?_ | refine A.mulL _ ?_

theorem heunsY_rel (v : Vel K) (xn yn : K) {p p' q q' r r' s s' : K} (hp : W p p') (hq : W q q') (hr : W r r') (hs : W s s') (t : ℕ)
    (dt : K) : W (heunsY v xn yn p q r s t dt) (heunsY v xn yn p' q' r' s' t dt) := by
  simp only [heunsY]
  repeat' first | assumption | refine A.sub ?_ ?_ | refine A.add ?_ ?_ | refine A.mulL _ ?_

theorem superConsistent_rel (v : Vel K) (rk3 : Bool) (xn yn : K) {p p' q q' : K} (hp : W p p') (hq : W q q') (t : ℕ) (dt : K) :
    W (superConsistent v rk3 xn yn p q t dt).1 (superConsistent v rk3 xn yn p' q' t dt).1 ∧
    W (superConsistent v rk3 xn yn p q t dt).2 (superConsistent v rk3 xn yn p' q' t dt).2 := by
  cases rk3
  · exact ⟨A.add (A.mulL _ hp) (A.mulL _ hq), A.add (A.mulL _ hp) (A.mulL _ hq)⟩
  · exact ⟨A.add (A.mulL _ hp) (A.mulL _ hq), A.add (A.mulL _ hp) (A.mulL _ hq)⟩

end values

end Gals
