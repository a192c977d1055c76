import Verif.Lemmas.Interp

/-!
# Loops over cells that write fields
-/

set_option linter.unusedSectionVars false

namespace Gals

open Spec

variable {K : Type} {d : ℕ} {T : Type}
variable [Zero K] [One K] [Add K] [Sub K] [Mul K] [Div K] [NatCast K] [IntCast K]

theorem choose_ok {α β : Type} [Nonempty β] {p : α → Prop} {f : α → M β} (h : ∀ c, p c → ∃ o, f c = .ok o) :
    ∃ o : α → β, ∀ c, p c → f c = .ok (o c) := by
  classical
  refine ⟨fun c => if hc : p c then (h c hc).choose else Classical.arbitrary β, fun c hc => ?_⟩
  dsimp only
  rw [dif_pos hc]
  exact (h c hc).choose_spec

theorem Spec.FieldIs.rep {s : IntSem} {r : Req K} {g : Grid K d} (G : g.Made s r) {a : Arr T} {f : Cell → T}
    (h : FieldIs s r g a f) : a.Rep g f := by
  have hl : (a.data.length : ℤ) = g.slots := by rw [h.len, G.size]
  obtain ⟨f', hf⟩ := Arr.rep_of_len G.shape hl
  refine hf.congr fun c hc => ?_
  have h1 := hf.get (s := s) G.shape hc
  rw [h.val c (G.inPad.1 hc)] at h1
  exact (Except.ok.inj h1).symm

theorem Arr.Rep.fieldIs {s : IntSem} {r : Req K} {g : Grid K d} (G : g.Made s r) {a : Arr T} {f : Cell → T}
    (h : a.Rep g f) (he : a.numCells = r.n) : FieldIs s r g a f := by
  refine ⟨?_, he, fun c hc => h.get G.shape (G.inPad.2 hc)⟩
  have := h.len
  have := G.size
  omega

theorem Spec.FieldIs.congr {s : IntSem} {r : Req K} {g : Grid K d} {a : Arr T} {f f' : Cell → T}
    (h : FieldIs s r g a f) (hf : ∀ c, r.Padded d c → f c = f' c) : FieldIs s r g a f' :=
  ⟨h.len, h.ext, fun c hc => by rw [h.val c hc, hf c hc]⟩

/-- A new array. -/
theorem fieldIs_mk {s : IntSem} {r : Req K} {g : Grid K d} (G : g.Made s r) (z : T) :
    FieldIs s r g (Arr.mk' g z) (fun _ => z) := by
  refine (Arr.rep_mk G.shape G.size z).fieldIs G ?_
  unfold Arr.numCells Arr.mk'
  rw [G.nx, G.ny, G.nz]

theorem exists_fieldIs {s : IntSem} {r : Req K} {g : Grid K d} (G : g.Made s r) {a : Arr T}
    (hl : a.data.length = g.size) (he : a.numCells = r.n) : ∃ f, FieldIs s r g a f := by
  obtain ⟨f, hf⟩ := Arr.rep_of_len G.shape (a := a) (by rw [hl, G.size])
  exact ⟨f, hf.fieldIs G he⟩

/-- Some field with given values. -/
theorem fieldIs_exists {s : IntSem} {r : Req K} {g : Grid K d} (G : g.Made s r) (f : Cell → T) :
    ∃ a, FieldIs s r g a f := by
  obtain ⟨a, ha⟩ := Arr.exists_rep G.shape f
  have h2 : Arr.Rep g { a with nx := r.n.x, ny := r.n.y, nz := r.n.z } f := ⟨ha.len, ha.val⟩
  exact ⟨_, h2.fieldIs G rfl⟩

/-- `a = b` for fields of one grid. -/
theorem Spec.FieldIs.assign {s : IntSem} {r : Req K} {g : Grid K d} {a b : Arr T} {f f' : Cell → T}
    (h : FieldIs s r g a f) (h' : FieldIs s r g b f') : FieldIs s r g (a.assign b) f' :=
  ⟨h'.len, h.ext, fun c hc => h'.val c hc⟩

theorem Spec.FieldIs.set {s : IntSem} {r : Req K} {g : Grid K d} (G : g.Made s r) {a : Arr T} {f : Cell → T}
    (h : FieldIs s r g a f) {c : Cell} (hc : r.Padded d c) (t : T) :
    ∃ a', a.set s g c.1 c.2.1 c.2.2 t = .ok a' ∧ FieldIs s r g a' (fun c' => if c' = c then t else f c') := by
  obtain ⟨a', e, hr, e1, e2, e3, -⟩ := (h.rep G).set (s := s) G.shape (G.inPad.2 hc) t
  refine ⟨a', e, hr.fieldIs G ?_⟩
  have := h.ext
  unfold Arr.numCells at *
  rw [e1, e2, e3, this]

theorem mem_interior {r : Req K} {a : Arr T} (h : a.numCells = r.n) (c : Cell) : c ∈ a.interior ↔ r.Interior c := by
  unfold Arr.interior Req.Interior InteriorCell
  unfold Arr.numCells at h
  rw [mem_cells, ← h]

theorem interior_padded {s : IntSem} {r : Req K} {g : Grid K d} (G : g.Made s r) {c : Cell} (hc : r.Interior c) :
    r.Padded d c := G.inPad.1 ((G.interior.2 hc).inPad G.shape)

/-- A loop that writes `w c` at the cells of `l` and reads nothing that it writes. -/
theorem Spec.FieldIs.loop_set {s : IntSem} {r : Req K} {g : Grid K d} (G : g.Made s r) {a : Arr T} {f : Cell → T}
    (h : FieldIs s r g a f) {l : List Cell} {p : Cell → Prop} [DecidablePred p] (hl : ∀ c, c ∈ l ↔ p c)
    (hp : ∀ c, p c → r.Padded d c) {body : Arr T → Cell → M (Arr T)} (w : Cell → T)
    (hv : ∀ acc, ∀ c ∈ l, body acc c = acc.set s g c.1 c.2.1 c.2.2 (w c)) :
    ∃ a', loop l a body = .ok a' ∧ FieldIs s r g a' (fun c => if p c then w c else f c) := by
  classical
  obtain ⟨t, h1, h2⟩ := loop_inv (l := l) (s := a) (body := body)
    (fun pre t => FieldIs s r g t (fun c => if c ∈ pre then w c else f c)) (by simpa using h) (by
      rintro pre c post t hpl hrep
      have hc : c ∈ l := by rw [hpl]; simp
      obtain ⟨a', q1, q2⟩ := hrep.set G (hp c ((hl c).1 hc)) (w c)
      refine ⟨a', by rw [hv t c hc]; exact q1, q2.congr ?_⟩
      intro c' _
      by_cases hcc : c' = c
      · subst hcc; simp
      · simp [hcc])
  refine ⟨t, h1, h2.congr ?_⟩
  intro c _
  simp only [hl]

/-! ## Interpolation of fields -/

variable [Neg K] [LT K] [DecidableLT K] [LE K] [DecidableLE K] [HasFloor K]

/-- Point interpolation reads only the previous-step fields. -/
theorem interpolate_congr (s : IntSem) (g : Grid K d) {l l' : Levelset K} (h1 : l.phiPrev = l'.phiPrev)
    (h2 : l.psiPrev = l'.psiPrev) (h3 : l.phiMixedPrev = l'.phiMixedPrev) (x : Vec3 K) (lim : Bool) :
    interpolate s g l x lim = interpolate s g l' x lim := by
  have e1 : ∀ n, readNode1 s g l n = readNode1 s g l' n := fun n => by unfold readNode1; rw [h1, h2]
  have e2 : ∀ n, readNode2 s g l n = readNode2 s g l' n := fun n => by unfold readNode2; rw [h1, h2, h3]
  have e3 : ∀ n, readNode3 s g l n = readNode3 s g l' n := fun n => by unfold readNode3; rw [h1, h2, h3]
  unfold interpolate interp1 interp2 interp3
  simp only [e1, e2, e3]

/-- All fields except the interpolated ones agree. -/
structure SameBesidesInterp (l l' : Levelset K) : Prop where
  phi : l'.phi = l.phi
  psi : l'.psi = l.psi
  phiMixed : l'.phiMixed = l.phiMixed
  phiPrev : l'.phiPrev = l.phiPrev
  psiPrev : l'.psiPrev = l.psiPrev
  phiMixedPrev : l'.phiMixedPrev = l.phiMixedPrev

theorem hermiteCompute_ok {s : IntSem} {r : Req K} {g : Grid K d} (G : g.Made s r) (gx : Grid K d)
    {xInterp : Arr (Vec3 K)} {xs : Cell → Vec3 K} (hxe : xInterp.numCells = r.n)
    (hx : ∀ c, r.Interior c → xInterp.get s gx c.1 c.2.1 c.2.2 = .ok (xs c)) {ls : Levelset K}
    {p0 : Cell → K} {q0 : Cell → Vec3 K} (hp : FieldIs s r g ls.phiInterpPrev p0)
    (hq : FieldIs s r g ls.psiInterpPrev q0) {o : Cell → Interp K}
    (ho : ∀ c, r.Interior c → interpolate s g ls (xs c) false = .ok (o c)) :
    ∃ ls', hermiteCompute s gx g xInterp ls = .ok ls' ∧
      FieldIs s r g ls'.phiInterpPrev (fun c => if r.Interior c then (o c).phi else p0 c) ∧
      FieldIs s r g ls'.psiInterpPrev (fun c => if r.Interior c then (o c).psi else q0 c) ∧
      SameBesidesInterp ls ls' := by
  have hl := mem_interior hxe
  unfold hermiteCompute
  obtain ⟨t, h1, h2, h3, h4⟩ := loop_inv (l := xInterp.interior) (s := ls) (body := fun ls c => do
    let x ← xInterp.get s gx c.1 c.2.1 c.2.2
    let r ← interpolate s g ls x false
    let a ← ls.phiInterpPrev.set s g c.1 c.2.1 c.2.2 r.phi
    let b ← ls.psiInterpPrev.set s g c.1 c.2.1 c.2.2 r.psi
    return { ls with phiInterpPrev := a, psiInterpPrev := b })
    (fun pre t => FieldIs s r g t.phiInterpPrev (fun c => if c ∈ pre then (o c).phi else p0 c) ∧
      FieldIs s r g t.psiInterpPrev (fun c => if c ∈ pre then (o c).psi else q0 c) ∧ SameBesidesInterp ls t)
    ⟨by simpa using hp, by simpa using hq, ⟨rfl, rfl, rfl, rfl, rfl, rfl⟩⟩ (by
      rintro pre c post t hpl ⟨r1, r2, r3⟩
      have hc : r.Interior c := (hl c).1 (by rw [hpl]; simp)
      have hpad := interior_padded G hc
      obtain ⟨a', q1, q2⟩ := r1.set G hpad (o c).phi
      obtain ⟨b', q3, q4⟩ := r2.set G hpad (o c).psi
      refine ⟨{ t with phiInterpPrev := a', psiInterpPrev := b' }, ?_, q2.congr ?_, q4.congr ?_, ?_⟩
      · rw [hx c hc, M.ok_bind, interpolate_congr s g r3.phiPrev r3.psiPrev r3.phiMixedPrev, ho c hc, M.ok_bind, q1,
          M.ok_bind, q3, M.ok_bind]
        rfl
      · intro c' _
        by_cases hcc : c' = c
        · subst hcc; simp
        · simp [hcc]
      · intro c' _
        by_cases hcc : c' = c
        · subst hcc; simp
        · simp [hcc]
      · exact ⟨r3.phi, r3.psi, r3.phiMixed, r3.phiPrev, r3.psiPrev, r3.phiMixedPrev⟩)
  refine ⟨t, h1, h2.congr ?_, h3.congr ?_, h4⟩
  · intro c _
    simp only [hl]
  · intro c _
    simp only [hl]

theorem linearCompute_ok {s : IntSem} {r : Req K} {go : Grid K d} (Go : go.Made s r) {gx g : Grid K d}
    (hgx : gx.nx = r.n.x ∧ gx.ny = r.n.y ∧ gx.nz = r.n.z) {xInterp : Arr (Vec3 K)} {xs : Cell → Vec3 K}
    (hx : ∀ c, r.Interior c → xInterp.get s gx c.1 c.2.1 c.2.2 = .ok (xs c)) {alpha out : Arr K}
    {p0 : Cell → K} (hp : FieldIs s r go out p0) {o : Cell → K}
    (ho : ∀ c, r.Interior c → linearInterp s g (xs c) alpha = .ok (o c)) :
    ∃ out', linearCompute s gx g go xInterp alpha out = .ok out' ∧
      FieldIs s r go out' (fun c => if r.Interior c then o c else p0 c) := by
  have hl : ∀ c, c ∈ cells 0 gx.nx 0 gx.ny 0 gx.nz ↔ r.Interior c := by
    intro c
    unfold Req.Interior InteriorCell
    rw [mem_cells, hgx.1, hgx.2.1, hgx.2.2]
  unfold linearCompute
  refine hp.loop_set Go hl (fun c hc => interior_padded Go hc) o ?_
  intro acc c hc
  rw [hx c ((hl c).1 hc), M.ok_bind, ho c ((hl c).1 hc), M.ok_bind]

end Gals
