import Verif.Lemmas.Fields
import Verif.Model.Gradient
import Verif.Spec.Stencil

/-!
# The gradient loops
-/

set_option linter.unusedSectionVars false

namespace Gals

open Spec

variable {K : Type} {d : ℕ} {T : Type}
variable [Zero K] [One K] [Add K] [Sub K] [Mul K] [Div K] [NatCast K] [IntCast K]

theorem Spec.FieldIs.modify {s : IntSem} {r : Req K} {g : Grid K d} (G : g.Made s r) {a : Arr T} {f : Cell → T}
    (h : FieldIs s r g a f) {c : Cell} (hc : r.Padded d c) (u : T → T) :
    ∃ a', a.modify s g c u = .ok a' ∧ FieldIs s r g a' (fun c' => if c' = c then u (f c) else f c') := by
  unfold Arr.modify
  rw [h.val c hc, M.ok_bind]
  exact h.set G hc _

/-- Successive modifications of one cell. -/
theorem Spec.FieldIs.loop_modify {α : Type} {s : IntSem} {r : Req K} {g : Grid K d} (G : g.Made s r) {a : Arr T}
    {f : Cell → T} (h : FieldIs s r g a f) {c : Cell} (hc : r.Padded d c) (l : List α) {body : Arr T → α → M (Arr T)}
    (u : T → α → T) (hv : ∀ acc, ∀ x ∈ l, body acc x = acc.modify s g c (fun v => u v x)) :
    ∃ a', loop l a body = .ok a' ∧ FieldIs s r g a' (fun c' => if c' = c then l.foldl u (f c) else f c') := by
  obtain ⟨t, h1, h2⟩ := loop_inv (l := l) (s := a) (body := body)
    (fun pre t => FieldIs s r g t (fun c' => if c' = c then pre.foldl u (f c) else f c'))
    (h.congr (by intro c' _; by_cases hcc : c' = c <;> simp [hcc])) (by
      rintro pre x post t hpl hrep
      have hx : x ∈ l := by rw [hpl]; simp
      obtain ⟨a', q1, q2⟩ := hrep.modify G hc (fun v => u v x)
      refine ⟨a', by rw [hv t x hx]; exact q1, q2.congr ?_⟩
      intro c' _
      by_cases hcc : c' = c
      · simp [hcc]
      · simp [hcc])
  exact ⟨t, h1, h2⟩

/-- A loop over distinct cells that updates each of them from its own old value. -/
theorem Spec.FieldIs.loop_update {s : IntSem} {r : Req K} {g : Grid K d} {a : Arr T}
    {f : Cell → T} (h : FieldIs s r g a f) {l : List Cell} (hnd : l.Nodup) {p : Cell → Prop} [DecidablePred p]
    (hl : ∀ c, c ∈ l ↔ p c) {body : Arr T → Cell → M (Arr T)} (u : Cell → T → T)
    (hv : ∀ acc f', FieldIs s r g acc f' → ∀ c, p c →
      ∃ a', body acc c = .ok a' ∧ FieldIs s r g a' (fun c' => if c' = c then u c (f' c) else f' c')) :
    ∃ a', loop l a body = .ok a' ∧ FieldIs s r g a' (fun c => if p c then u c (f c) else f c) := by
  classical
  obtain ⟨t, h1, h2⟩ := loop_inv (l := l) (s := a) (body := body)
    (fun pre t => FieldIs s r g t (fun c => if c ∈ pre then u c (f c) else f c)) (by simpa using h) (by
      rintro pre c post t hpl hrep
      have hc : c ∈ l := by rw [hpl]; simp
      have hn : c ∉ pre := by
        rw [hpl] at hnd
        intro hm
        have := (List.nodup_append.1 hnd).2.2 c hm c (by simp)
        exact this rfl
      obtain ⟨a', q1, q2⟩ := hv t _ hrep c ((hl c).1 hc)
      refine ⟨a', q1, q2.congr ?_⟩
      intro c' _
      by_cases hcc : c' = c
      · subst hcc; simp [hn]
      · simp [hcc])
  refine ⟨t, h1, h2.congr ?_⟩
  intro c _
  simp only [hl]

/-- Two nested loops over a list are one loop over pairs. -/
theorem loop_pairs {α β σ : Type} (l : List α) (m : List β) (s : σ) (body : σ → α → β → M σ) :
    loop l s (fun s a => loop m s fun s b => body s a b) =
      loop (l.flatMap fun a => m.map fun b => (a, b)) s (fun s p => body s p.1 p.2) := by
  induction l generalizing s with
  | nil => rfl
  | cons a l ih =>
    rw [List.flatMap_cons, loop_append, loop_cons]
    have e : ∀ (m : List β) (s : σ), loop m s (fun s b => body s a b) =
        loop (m.map fun b => (a, b)) s (fun s p => body s p.1 p.2) := by
      intro m
      induction m with
      | nil => intro s; rfl
      | cons b m ihm =>
        intro s
        rw [List.map_cons, loop_cons, loop_cons]
        congr 1
        funext s'
        exact ihm s'
    rw [e]
    congr 1
    funext s'
    exact ih s'

theorem mem_axes {a : Fin 3} : a ∈ axes d ↔ a.val < d := by
  unfold axes
  simp

theorem foldl_setAxes (v : Vec3 T) (w : Fin 3 → T) (hd : d = 1 ∨ d = 2 ∨ d = 3) (a : Fin 3) :
    ((axes d).foldl (fun v b => v.set b (w b)) v).get a = if a.val < d then w a else v.get a := by
  rcases hd with rfl | rfl | rfl
  · have e : axes 1 = [0] := by decide
    rw [e]
    match a with
    | 0 => rfl
    | 1 => rfl
    | 2 => rfl
  · have e : axes 2 = [0, 1] := by decide
    rw [e]
    match a with
    | 0 => rfl
    | 1 => rfl
    | 2 => rfl
  · have e : axes 3 = [0, 1, 2] := by decide
    rw [e]
    match a with
    | 0 => rfl
    | 1 => rfl
    | 2 => rfl

theorem Mat3.pos_inj {r c r' c' : Fin 3} (h : Mat3.pos r c = Mat3.pos r' c') : r = r' ∧ c = c' := by
  unfold Mat3.pos at h
  simp only [Fin.mk.injEq] at h
  constructor <;> apply Fin.ext <;> omega

theorem Mat3.entry_setEntry (m : Mat3 T) (r c r' c' : Fin 3) (t : T) :
    (m.setEntry r c t).entry r' c' = if r' = r ∧ c' = c then t else m.entry r' c' := by
  unfold Mat3.setEntry Mat3.entry
  simp only
  by_cases h : Mat3.pos r' c' = Mat3.pos r c
  · obtain ⟨rfl, rfl⟩ := Mat3.pos_inj h
    simp
  · rw [if_neg h, if_neg]
    rintro ⟨rfl, rfl⟩
    exact h rfl

theorem foldl_setEntries (l : List (Fin 3 × Fin 3)) (v : Mat3 T) (w : Fin 3 → Fin 3 → T) (a b : Fin 3) :
    (l.foldl (fun v p => v.setEntry p.1 p.2 (w p.1 p.2)) v).entry a b =
      if (a, b) ∈ l then w a b else v.entry a b := by
  induction l generalizing v with
  | nil => simp
  | cons p l ih =>
    rw [List.foldl_cons, ih, Mat3.entry_setEntry]
    by_cases h1 : (a, b) ∈ l
    · simp [h1]
    · by_cases h2 : (a, b) = p
      · subst h2; simp
      · have : ¬ (a = p.1 ∧ b = p.2) := by
          rintro ⟨rfl, rfl⟩; exact h2 rfl
        simp [h1, h2, this]

theorem mem_axisPairs (a b : Fin 3) :
    (a, b) ∈ ((axes d).flatMap fun a => (axes d).map fun b => (a, b)) ↔ a.val < d ∧ b.val < d := by
  simp [List.mem_flatMap, mem_axes]

/-! ## Neighbours -/

theorem shift_padded {s : IntSem} {r : Req K} {g : Grid K d} (G : g.Made s r) {c : Cell} (hc : r.Interior c)
    {a : Fin 3} (ha : a.val < d) {m : ℤ} (h1 : -r.pad ≤ m) (h2 : m ≤ r.pad) : r.Padded d (shift c a m) := by
  have hi := G.interior.2 hc
  have hp := G.shape.pad_nonneg
  rw [G.pad] at hp
  refine G.inPad.1 ?_
  have hg := G.pad
  match a with
  | 0 =>
    have := hi.near (p := r.pad) (by omega) m 0 0 ⟨h1, h2⟩ ⟨by omega, by omega⟩ ⟨by omega, by omega⟩ (by simp) (by simp)
    simpa [shift] using this
  | 1 =>
    have ha' : 1 < d := ha
    have := hi.near (p := r.pad) (by omega) 0 m 0 ⟨by omega, by omega⟩ ⟨h1, h2⟩ ⟨by omega, by omega⟩ (by omega) (by simp)
    simpa [shift] using this
  | 2 =>
    have ha' : 2 < d := ha
    have := hi.near (p := r.pad) (by omega) 0 0 m ⟨by omega, by omega⟩ ⟨by omega, by omega⟩ ⟨h1, h2⟩ (by simp) (by omega)
    simpa [shift] using this

theorem shift_zero (c : Cell) (a : Fin 3) : shift c a 0 = c := by
  match a with
  | 0 => simp [shift]
  | 1 => simp [shift]
  | 2 => simp [shift]

/-- Coordinates of interior cells are small. -/
theorem interior_small {s : IntSem} {r : Req K} {g : Grid K d} (G : g.Made s r) {c : Cell} (hc : r.Interior c) :
    (0 ≤ c.1 ∧ c.1 + 2 * r.pad < 2147483647) ∧ (0 ≤ c.2.1 ∧ c.2.1 + 2 * r.pad < 2147483647) ∧
      (0 ≤ c.2.2 ∧ c.2.2 + 2 * r.pad < 2147483647) := by
  have hf := G.shape.fits
  have hp := G.shape.pad_nonneg
  have hi := G.interior.2 hc
  obtain ⟨⟨i0, i1⟩, ⟨j0, j1⟩, ⟨k0, k1⟩⟩ := hi
  have e := G.pad
  rw [← e]
  simp only [intMax] at hf
  generalize hx : g.nx + 2 * g.pad = X at *
  generalize hy : g.ny + 2 * g.pad = Y at *
  generalize hz : g.nz + 2 * g.pad = Z at *
  have x1 : 1 ≤ X := by omega
  have y1 : 1 ≤ Y := by omega
  have z1 : 1 ≤ Z := by omega
  have p : 1 ≤ X * Y := by nlinarith
  have q1 : X ≤ X * Y := by nlinarith
  have q2 : Y ≤ X * Y := by nlinarith
  have q3 : X * Y ≤ X * Y * Z := by nlinarith
  have q4 : Z ≤ X * Y * Z := by nlinarith
  refine ⟨⟨i0, ?_⟩, ⟨j0, ?_⟩, ⟨k0, ?_⟩⟩ <;> omega

theorem plus1_ok {s : IntSem} {r : Req K} {g : Grid K d} (G : g.Made s r) {al : Arr T} {f : Cell → T}
    (h : FieldIs s r g al f) (hp : 1 ≤ r.pad) {c : Cell} (hc : r.Interior c) {a : Fin 3} (ha : a.val < d) :
    al.plus1 s g c a = .ok (f (shift c a 1)) := by
  obtain ⟨⟨i0, i1⟩, ⟨j0, j1⟩, ⟨k0, k1⟩⟩ := interior_small G hc
  have hv := h.val _ (shift_padded G hc ha (m := 1) (by omega) (by omega))
  unfold Arr.plus1 iadd
  have e : ∀ b : Fin 3, 0 ≤ axisVec a b ∧ axisVec a b ≤ 1 := by
    intro b; unfold axisVec; split <;> simp
  rw [ck_ok s ⟨by simp only [intMin]; have := e 0; omega, by simp only [intMax]; have := e 0; omega⟩, M.ok_bind,
    ck_ok s ⟨by simp only [intMin]; have := e 1; omega, by simp only [intMax]; have := e 1; omega⟩, M.ok_bind,
    ck_ok s ⟨by simp only [intMin]; have := e 2; omega, by simp only [intMax]; have := e 2; omega⟩, M.ok_bind]
  match a with
  | 0 => simpa [axisVec, shift] using hv
  | 1 => simpa [axisVec, shift] using hv
  | 2 => simpa [axisVec, shift] using hv

theorem minus1_ok {s : IntSem} {r : Req K} {g : Grid K d} (G : g.Made s r) {al : Arr T} {f : Cell → T}
    (h : FieldIs s r g al f) (hp : 1 ≤ r.pad) {c : Cell} (hc : r.Interior c) {a : Fin 3} (ha : a.val < d) :
    al.minus1 s g c a = .ok (f (shift c a (-1))) := by
  obtain ⟨⟨i0, i1⟩, ⟨j0, j1⟩, ⟨k0, k1⟩⟩ := interior_small G hc
  have hv := h.val _ (shift_padded G hc ha (m := -1) (by omega) (by omega))
  unfold Arr.minus1 isub
  have e : ∀ b : Fin 3, 0 ≤ axisVec a b ∧ axisVec a b ≤ 1 := by
    intro b; unfold axisVec; split <;> simp
  rw [ck_ok s ⟨by simp only [intMin]; have := e 0; omega, by simp only [intMax]; have := e 0; omega⟩, M.ok_bind,
    ck_ok s ⟨by simp only [intMin]; have := e 1; omega, by simp only [intMax]; have := e 1; omega⟩, M.ok_bind,
    ck_ok s ⟨by simp only [intMin]; have := e 2; omega, by simp only [intMax]; have := e 2; omega⟩, M.ok_bind]
  match a with
  | 0 => simpa [axisVec, shift, sub_eq_add_neg] using hv
  | 1 => simpa [axisVec, shift, sub_eq_add_neg] using hv
  | 2 => simpa [axisVec, shift, sub_eq_add_neg] using hv

/-- The indices formed by `minus2`. -/
theorem minus2_eq (s : IntSem) {g : Grid K d} (al : Arr T) {c : Cell}
    (hc : (0 ≤ c.1 ∧ c.1 < 2147483647) ∧ (0 ≤ c.2.1 ∧ c.2.1 < 2147483647) ∧ (0 ≤ c.2.2 ∧ c.2.2 < 2147483647))
    (a : Fin 3) : al.minus2 s g c a = al.get s g (shift c a (-2)).1 (shift c a (-2)).2.1 (shift c a (-2)).2.2 := by
  obtain ⟨⟨i0, i1⟩, ⟨j0, j1⟩, ⟨k0, k1⟩⟩ := hc
  unfold Arr.minus2 isub imul
  have e : ∀ b : Fin 3, 0 ≤ axisVec a b ∧ axisVec a b ≤ 1 := by
    intro b; unfold axisVec; split <;> simp
  have e0 := e 0
  have e1 := e 1
  have e2 := e 2
  rw [ck_ok s ⟨by simp only [intMin]; omega, by simp only [intMax]; omega⟩, M.ok_bind,
    ck_ok s ⟨by simp only [intMin]; omega, by simp only [intMax]; omega⟩, M.ok_bind,
    ck_ok s ⟨by simp only [intMin]; omega, by simp only [intMax]; omega⟩, M.ok_bind,
    ck_ok s ⟨by simp only [intMin]; omega, by simp only [intMax]; omega⟩, M.ok_bind,
    ck_ok s ⟨by simp only [intMin]; omega, by simp only [intMax]; omega⟩, M.ok_bind,
    ck_ok s ⟨by simp only [intMin]; omega, by simp only [intMax]; omega⟩, M.ok_bind]
  match a with
  | 0 => simp [axisVec, shift, sub_eq_add_neg]
  | 1 => simp [axisVec, shift, sub_eq_add_neg]
  | 2 => simp [axisVec, shift, sub_eq_add_neg]

theorem minus2_ok {s : IntSem} {r : Req K} {g : Grid K d} (G : g.Made s r) {al : Arr T} {f : Cell → T}
    (h : FieldIs s r g al f) (hp : 2 ≤ r.pad) {c : Cell} (hc : r.Interior c) {a : Fin 3} (ha : a.val < d) :
    al.minus2 s g c a = .ok (f (shift c a (-2))) := by
  obtain ⟨⟨i0, i1⟩, ⟨j0, j1⟩, ⟨k0, k1⟩⟩ := interior_small G hc
  rw [minus2_eq s al ⟨⟨i0, by omega⟩, ⟨j0, by omega⟩, ⟨k0, by omega⟩⟩]
  exact h.val _ (shift_padded G hc ha (m := -2) (by omega) (by omega))

/-! ## The four loops -/

/-- What the code computes for one component, central scheme. -/
def centralRaw (f : Cell → K) (c : Cell) (a : Fin 3) (h : K) : K :=
  (f (shift c a 1) - f (shift c a (-1))) * (1 / h) * (1 / 2)

/-- What the code computes for one component, third-order scheme. -/
def thirdRaw (f : Cell → K) (c : Cell) (a : Fin 3) (h : K) : K :=
  (2 * f (shift c a 1) + 3 * f c - 6 * f (shift c a (-1)) + 1 * f (shift c a (-2))) * (1 / (6 * h))

/-- The raw difference quotient of a scheme. -/
def rawDiff (sch : GradScheme) (f : Cell → K) (c : Cell) (a : Fin 3) (h : K) : K :=
  match sch with
  | .central => centralRaw f c a h
  | .third => thirdRaw f c a h

/-- Padding a scheme needs. -/
def reach : GradScheme → ℤ
  | .central => 1
  | .third => 2

theorem gradScalar_ok {sch : GradScheme} {s : IntSem} {r rg : Req K} {ga gg : Grid K d} (G : ga.Made s r) (Gg : gg.Made s rg)
    (hn : rg.n = r.n) (hp : reach sch ≤ r.pad) {alpha : Arr K} {f : Cell → K} (h : FieldIs s r ga alpha f)
    {grad : Arr (Vec3 K)} {q : Cell → Vec3 K} (hq : FieldIs s rg gg grad q) :
    ∃ grad' q', gradScalar sch s ga gg alpha grad = .ok grad' ∧ FieldIs s rg gg grad' q' ∧
      (∀ c, ¬ r.Interior c → q' c = q c) ∧
      ∀ c, r.Interior c → ∀ a : Fin 3, (q' c).get a = if a.val < d then rawDiff sch f c a (r.h a) else (q c).get a := by
  have hl := mem_interior h.ext
  have hi : ∀ c, rg.Interior c ↔ r.Interior c := fun c => by unfold Req.Interior; rw [hn]
  have hnd : alpha.interior.Nodup := nodup_cells _ _ _ _ _ _
  have key : ∃ grad', gradScalar sch s ga gg alpha grad = .ok grad' ∧ FieldIs s rg gg grad'
      (fun c => if r.Interior c then (axes d).foldl (fun v b => v.set b (rawDiff sch f c b (r.h b))) (q c) else q c) := by
    cases sch with
    | central =>
      refine hq.loop_update hnd hl (fun c v => (axes d).foldl (fun v b => v.set b (rawDiff .central f c b (r.h b))) v) ?_
      intro acc f' hf' c hc
      refine hf'.loop_modify Gg (interior_padded Gg ((hi c).2 hc)) (axes d) (fun v b => v.set b (rawDiff .central f c b (r.h b))) ?_
      intro acc a ha
      rw [mem_axes] at ha
      dsimp only
      rw [plus1_ok G h hp hc ha, M.ok_bind, minus1_ok G h hp hc ha, M.ok_bind, G.dx]
      rfl
    | third =>
      have hp : 2 ≤ r.pad := hp
      refine hq.loop_update hnd hl (fun c v => (axes d).foldl (fun v b => v.set b (rawDiff .third f c b (r.h b))) v) ?_
      intro acc f' hf' c hc
      refine hf'.loop_modify Gg (interior_padded Gg ((hi c).2 hc)) (axes d) (fun v b => v.set b (rawDiff .third f c b (r.h b))) ?_
      intro acc a ha
      rw [mem_axes] at ha
      dsimp only
      rw [plus1_ok G h (by omega) hc ha, M.ok_bind, h.val c (interior_padded G hc), M.ok_bind,
        minus1_ok G h (by omega) hc ha, M.ok_bind, minus2_ok G h hp hc ha, M.ok_bind, G.dx]
      rfl
  obtain ⟨grad', e, h2⟩ := key
  refine ⟨grad', _, e, h2, ?_, ?_⟩
  · intro c hc
    simp [hc]
  · intro c hc a
    simp only [hc, if_true]
    exact foldl_setAxes _ _ G.shape.dim a

theorem gradVector_ok {sch : GradScheme} {s : IntSem} {r rg : Req K} {ga gg : Grid K d} (G : ga.Made s r) (Gg : gg.Made s rg)
    (hn : rg.n = r.n) (hp : reach sch ≤ r.pad) {alpha : Arr (Vec3 K)} {f : Cell → Vec3 K} (h : FieldIs s r ga alpha f)
    {grad : Arr (Mat3 K)} {q : Cell → Mat3 K} (hq : FieldIs s rg gg grad q) :
    ∃ grad' q', gradVector sch s ga gg alpha grad = .ok grad' ∧ FieldIs s rg gg grad' q' ∧
      (∀ c, ¬ r.Interior c → q' c = q c) ∧
      ∀ c, r.Interior c → ∀ a b : Fin 3, (q' c).entry a b =
        if a.val < d ∧ b.val < d then rawDiff sch (fun c => (f c).get a) c a (r.h b) else (q c).entry a b := by
  have hl := mem_interior h.ext
  have hi : ∀ c, rg.Interior c ↔ r.Interior c := fun c => by unfold Req.Interior; rw [hn]
  have hnd : alpha.interior.Nodup := nodup_cells _ _ _ _ _ _
  set w : Cell → Fin 3 → Fin 3 → K := fun c a b => rawDiff sch (fun c => (f c).get a) c a (r.h b) with hw
  have key : ∃ grad', gradVector sch s ga gg alpha grad = .ok grad' ∧ FieldIs s rg gg grad'
      (fun c => if r.Interior c then ((axes d).flatMap fun a => (axes d).map fun b => (a, b)).foldl
        (fun v p => v.setEntry p.1 p.2 (w c p.1 p.2)) (q c) else q c) := by
    cases sch with
    | central =>
      refine hq.loop_update hnd hl (fun c v => ((axes d).flatMap fun a => (axes d).map fun b => (a, b)).foldl
        (fun v p => v.setEntry p.1 p.2 (w c p.1 p.2)) v) ?_
      intro acc f' hf' c hc
      dsimp only
      rw [loop_pairs]
      refine hf'.loop_modify Gg (interior_padded Gg ((hi c).2 hc)) _ (fun v (p : Fin 3 × Fin 3) => v.setEntry p.1 p.2 (w c p.1 p.2)) ?_
      rintro acc ⟨a, b⟩ hab
      rw [mem_axisPairs] at hab
      dsimp only
      rw [plus1_ok G h hp hc hab.1, M.ok_bind, minus1_ok G h hp hc hab.1, M.ok_bind, G.dx]
      rfl
    | third =>
      have hp : 2 ≤ r.pad := hp
      refine hq.loop_update hnd hl (fun c v => ((axes d).flatMap fun a => (axes d).map fun b => (a, b)).foldl
        (fun v p => v.setEntry p.1 p.2 (w c p.1 p.2)) v) ?_
      intro acc f' hf' c hc
      dsimp only
      rw [loop_pairs]
      refine hf'.loop_modify Gg (interior_padded Gg ((hi c).2 hc)) _ (fun v (p : Fin 3 × Fin 3) => v.setEntry p.1 p.2 (w c p.1 p.2)) ?_
      rintro acc ⟨a, b⟩ hab
      rw [mem_axisPairs] at hab
      dsimp only
      rw [plus1_ok G h (by omega) hc hab.1, M.ok_bind, h.val c (interior_padded G hc), M.ok_bind,
        minus1_ok G h (by omega) hc hab.1, M.ok_bind, minus2_ok G h hp hc hab.1, M.ok_bind, G.dx]
      rfl
  obtain ⟨grad', e, h2⟩ := key
  refine ⟨grad', _, e, h2, ?_, ?_⟩
  · intro c hc
    simp [hc]
  · intro c hc a b
    simp only [hc, if_true]
    rw [foldl_setEntries]
    simp only [mem_axisPairs, hw]

/-! ## Third order with padding 1 -/

/-- The index computation two cells below the first cell, padding 1. -/
theorem index_low (s : IntSem) {g : Grid K d} (hs : g.Shape) (hp : g.pad = 1) {i j k : ℤ} (hi : -2 ≤ i ∧ i ≤ 0)
    (hj : -2 ≤ j ∧ j ≤ 0) (hk : -2 ≤ k ∧ k ≤ 0) : g.index s i j k = .ok (g.lin (i, j, k)) := by
  have hx := hs.nx_pos
  have hy := hs.ny_pos
  have hz := hs.nz_pos
  have hf := hs.fits
  rw [hp] at hf
  simp only [intMax, mul_one] at hf
  have hm0 := hs.m0
  have h1 : g.mask1 = 0 ∨ g.mask1 = 1 := by rw [hs.m1]; split <;> simp
  have h2 : g.mask2 = 0 ∨ g.mask2 = 1 := by rw [hs.m2]; split <;> simp
  unfold Grid.index Grid.lin
  simp only [hp, hm0, iadd, imul, mul_one]
  generalize hX : g.nx + 2 = X at *
  generalize hY : g.ny + 2 = Y at *
  generalize hZ : g.nz + 2 = Z at *
  have x1 : 3 ≤ X := by omega
  have y1 : 3 ≤ Y := by omega
  have z1 : 3 ≤ Z := by omega
  have p : 1 ≤ X * Y := by nlinarith
  have q1 : 3 * X ≤ X * Y := by nlinarith
  have q2 : 3 * Y ≤ X * Y := by nlinarith
  have q3 : 3 * (X * Y) ≤ X * Y * Z := by nlinarith
  generalize ha : k + 1 = a
  generalize hb : j + 1 = b
  have a1 : a = -1 ∨ a = 0 ∨ a = 1 := by omega
  have b1 : b = -1 ∨ b = 0 ∨ b = 1 := by omega
  have R : ∀ z : ℤ, -2147483648 ≤ z ∧ z ≤ 2147483647 → ck s z = .ok z := fun z h => ck_ok s h
  have e1 : -(X * Y) ≤ a * X * Y ∧ a * X * Y ≤ X * Y := by rcases a1 with rfl | rfl | rfl <;> constructor <;> nlinarith
  have e2 : -X ≤ a * X ∧ a * X ≤ X := by rcases a1 with rfl | rfl | rfl <;> constructor <;> linarith
  have e3 : -X ≤ b * X ∧ b * X ≤ X := by rcases b1 with rfl | rfl | rfl <;> constructor <;> linarith
  have e4 : -(X * Y) ≤ a * X * Y * g.mask2 ∧ a * X * Y * g.mask2 ≤ X * Y := by
    rcases h2 with h | h <;> rw [h] <;> constructor <;> linarith
  have e5 : -X ≤ b * X * g.mask1 ∧ b * X * g.mask1 ≤ X := by
    rcases h1 with h | h <;> rw [h] <;> constructor <;> linarith
  rw [R a (by omega), M.ok_bind, R 2 (by omega), M.ok_bind, hX, R X (by omega), M.ok_bind, R (a * X) (by omega), M.ok_bind,
    hY, R Y (by omega), M.ok_bind, R (a * X * Y) (by omega), M.ok_bind, R _ (by omega), M.ok_bind, R b (by omega),
    M.ok_bind, R (b * X) (by omega), M.ok_bind, R _ (by omega), M.ok_bind, R (i + 1) (by omega), M.ok_bind,
    R (i + 1) (by omega), M.ok_bind, R _ (by omega), M.ok_bind, R _ (by omega)]

/-- Padding 1: along the last axis the slot lies before the storage, along the others it is a slot of another cell. -/
theorem low_slot {g : Grid K d} (hs : g.Shape) (hp : g.pad = 1) (a : Fin 3) (ha : a.val < d) :
    (a.val + 1 = d → g.lin (shift (0, 0, 0) a (-2)) < 0) ∧
      (a.val + 1 < d → 0 ≤ g.lin (shift (0, 0, 0) a (-2)) ∧ g.lin (shift (0, 0, 0) a (-2)) < g.slots) := by
  have hx := hs.nx_pos
  have hy := hs.ny_pos
  have hz := hs.nz_pos
  have hm0 := hs.m0
  have hm1 := hs.m1
  have hm2 := hs.m2
  unfold Grid.lin Grid.slots
  rw [hm0, hm1, hm2, hp]
  generalize g.nx = X at *
  generalize g.ny = Y at *
  generalize g.nz = Z at *
  have p : 0 < X * Y := by nlinarith
  have p2 : 0 < X * Z := by nlinarith
  have p3 : 0 < Y * Z := by nlinarith
  have p4 : 0 < X * Y * Z := by nlinarith
  rcases hs.dim with rfl | rfl | rfl
  · match a with
    | 0 => simp [shift]
    | 1 => exact absurd ha (by decide)
    | 2 => exact absurd ha (by decide)
  · match a with
    | 0 => simp [shift]; constructor <;> nlinarith
    | 1 => simp [shift]; nlinarith
    | 2 => exact absurd ha (by decide)
  · match a with
    | 0 => simp [shift]; constructor <;> nlinarith
    | 1 => simp [shift]; constructor <;> nlinarith
    | 2 => simp [shift]; nlinarith

theorem minus2_low {s : IntSem} {r : Req K} {g : Grid K d} (G : g.Made s r) (hp : r.pad = 1) {al : Arr T}
    (hlen : al.data.length = g.size) {a : Fin 3} (ha : a.val < d) :
    (a.val + 1 = d → al.minus2 s g (0, 0, 0) a = .error .oob) ∧
      (a.val + 1 < d → ∃ t, al.minus2 s g (0, 0, 0) a = .ok t) := by
  have hpg : g.pad = 1 := by rw [G.pad, hp]
  have hsl := low_slot G.shape hpg a ha
  have hsz := G.size
  have e : ∀ b : Fin 3, g.index s (shift (0, 0, 0) b (-2)).1 (shift (0, 0, 0) b (-2)).2.1 (shift (0, 0, 0) b (-2)).2.2 =
      .ok (g.lin (shift (0, 0, 0) b (-2))) := by
    intro b
    match b with
    | 0 => exact index_low s G.shape hpg (by decide) (by decide) (by decide)
    | 1 => exact index_low s G.shape hpg (by decide) (by decide) (by decide)
    | 2 => exact index_low s G.shape hpg (by decide) (by decide) (by decide)
  rw [minus2_eq s al (by simp)]
  unfold Arr.get
  rw [e, M.ok_bind]
  constructor
  · intro h
    exact rd_oob (Or.inl (hsl.1 h))
  · intro h
    exact ⟨_, rd_ok (hsl.2 h).1 (by have := (hsl.2 h).2; omega)⟩

end Gals
