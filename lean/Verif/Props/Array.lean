import Verif.Lemmas.Array
import Verif.Props.Grid

/-!
# Properties C07, C08, C09 (arrays)
-/

namespace Gals.Props

open Gals Spec

/-! ## C07: arrays behave as finite maps over cells -/

section C07
variable {ι T : Type} [DecidableEq ι]

/-- A call on a family of arrays (indexed by `ι`) that live on one grid. -/
inductive ArrOp (ι T : Type)
  | write (x : ι) (c : Cell) (v : T)
  | copy (x y : ι)
  | read (x : ι) (c : Cell)

/-- The cells named by a call. -/
def ArrOp.cellOk (P : Cell → Prop) : ArrOp ι T → Prop
  | .write _ c _ => P c
  | .copy _ _ => True
  | .read _ c => P c

/-- Execute a call on the model's arrays; reads append to the output. -/
def ArrOp.run {K : Type} {d : ℕ} (s : IntSem) (g : Grid K d) (st : (ι → Arr T) × List T) (op : ArrOp ι T) :
    M ((ι → Arr T) × List T) :=
  match op with
  | .write x c v => do
    let a ← (st.1 x).set s g c.1 c.2.1 c.2.2 v
    return (fun y => if y = x then a else st.1 y, st.2)
  | .copy x y => return (fun z => if z = x then (st.1 x).assign (st.1 y) else st.1 z, st.2)
  | .read x c => do
    let v ← (st.1 x).get s g c.1 c.2.1 c.2.2
    return (st.1, st.2 ++ [v])

/-- Specification: each array is a function from cells to values. -/
def ArrOp.spec (st : (ι → Cell → T) × List T) (op : ArrOp ι T) : (ι → Cell → T) × List T :=
  match op with
  | .write x c v => (fun y c' => if y = x ∧ c' = c then v else st.1 y c', st.2)
  | .copy x y => (fun z c' => if z = x then st.1 y c' else st.1 z c', st.2)
  | .read x c => (st.1, st.2 ++ [st.1 x c])

theorem C07_step {K : Type} {d : ℕ} {s : IntSem} {g : Grid K d} (hs : g.Shape)
    (op : ArrOp ι T) (hop : op.cellOk g.InPad) (st : (ι → Arr T) × List T) (ab : (ι → Cell → T) × List T)
    (hr : ∀ x, (st.1 x).Rep g (ab.1 x)) (ho : st.2 = ab.2) :
    ∃ st', op.run s g st = .ok st' ∧ (∀ x, (st'.1 x).Rep g ((op.spec ab).1 x)) ∧ st'.2 = (op.spec ab).2 := by
  cases op with
  | write x c v =>
    obtain ⟨a, e, r, -⟩ := (hr x).set (s := s) hs hop v
    refine ⟨(fun y => if y = x then a else st.1 y, st.2), by simp [ArrOp.run, e], fun y => ?_, ho⟩
    simp only [ArrOp.spec]
    by_cases hy : y = x
    · subst hy; simpa using r
    · simpa [hy] using hr y
  | copy x y =>
    refine ⟨_, rfl, fun z => ?_, ho⟩
    simp only [ArrOp.spec]
    by_cases hz : z = x
    · subst hz
      simpa using (⟨(hr y).len, (hr y).val⟩ : ((st.1 z).assign (st.1 y)).Rep g (ab.1 y))
    · simpa [hz] using hr z
  | read x c =>
    refine ⟨(st.1, st.2 ++ [ab.1 x c]), ?_, hr, by simp [ArrOp.spec, ho]⟩
    have := (hr x).get (s := s) hs hop
    simp [ArrOp.run, this]

/-- C07. For every supported grid, any number of arrays on it, any element type with any default value, and any
history of writes, whole-array copies and reads of padded cells: no access faults, every read returns what the
map specification returns, and so do reads of all padded cells at the end. -/
theorem C07_arrays_are_maps {K : Type} [Zero K] [One K] [Add K] [Sub K] [Mul K] [Div K] [NatCast K] [IntCast K]
    (s : IntSem) (d : ℕ) (r : Req K) (h : r.Valid d) (g : Grid K d) (e : r.make s d = .ok g) (z : T)
    (ops : List (ArrOp ι T)) (hops : ∀ op ∈ ops, op.cellOk (r.Padded d)) :
    ∃ st out, loop ops (fun _ => Arr.mk' g z, []) (ArrOp.run s g) = .ok (st, out) ∧
      out = (ops.foldl ArrOp.spec (fun _ _ => z, [])).2 ∧
      ∀ x c, r.Padded d c →
        (st x).get s g c.1 c.2.1 c.2.2 = .ok ((ops.foldl ArrOp.spec (fun _ _ => z, [])).1 x c) := by
  have G := make_made h e
  have hcell : ∀ op ∈ ops, op.cellOk g.InPad := by
    intro op hop
    have := hops op hop
    cases op with
    | write x c v => exact G.inPad.2 this
    | copy x y => trivial
    | read x c => exact G.inPad.2 this
  obtain ⟨st, e1, h1, h2⟩ := loop_inv (l := ops) (s := ((fun _ => Arr.mk' g z, []) : (ι → Arr T) × List T))
    (body := ArrOp.run s g)
    (fun pre st => (∀ x, (st.1 x).Rep g ((pre.foldl ArrOp.spec (fun _ _ => z, [])).1 x)) ∧
      st.2 = (pre.foldl ArrOp.spec (fun _ _ => z, [])).2)
    ⟨fun _ => Arr.rep_mk G.shape G.size z, rfl⟩ (by
      rintro pre op post st hl ⟨hr, ho⟩
      obtain ⟨st', e', r', o'⟩ := C07_step (s := s) G.shape op (hcell op (by rw [hl]; simp)) st _ hr ho
      exact ⟨st', e', by simpa [List.foldl_append] using r', by simpa [List.foldl_append] using o'⟩)
  exact ⟨st.1, st.2, e1, h2, fun x c hc => (h1 x).get G.shape (G.inPad.2 hc)⟩

/-- C07, last write wins, frame: corollary in the words of the property. -/
theorem C07_last_write {K : Type} [Zero K] [One K] [Add K] [Sub K] [Mul K] [Div K] [NatCast K] [IntCast K]
    (s : IntSem) (d : ℕ) (r : Req K) (h : r.Valid d) (g : Grid K d) (e : r.make s d = .ok g) (z : T)
    (ops : List (ArrOp Unit T)) (hops : ∀ op ∈ ops, op.cellOk (r.Padded d)) (c : Cell) (hc : r.Padded d c) (v : T)
    (rest : List (ArrOp Unit T)) (hrest : ∀ op ∈ rest, op.cellOk (fun c' => r.Padded d c' ∧ c' ≠ c)) :
    ∃ st out, loop (ops ++ [.write () c v] ++ rest) (fun _ => Arr.mk' g z, []) (ArrOp.run s g) = .ok (st, out) ∧
      (st ()).get s g c.1 c.2.1 c.2.2 = .ok v := by
  obtain ⟨st, out, e1, -, h2⟩ := C07_arrays_are_maps s d r h g e z (ops ++ [.write () c v] ++ rest) (by
    intro op hop
    simp only [List.append_assoc, List.mem_append, List.mem_singleton] at hop
    rcases hop with hop | rfl | hop
    · exact hops op hop
    · exact hc
    · have := hrest op hop
      cases op with
      | write x c v => exact this.1
      | copy x y => trivial
      | read x c => exact this.1)
  refine ⟨st, out, e1, ?_⟩
  rw [h2 () c hc]
  congr 1
  simp only [List.foldl_append, List.foldl_cons, List.foldl_nil]
  generalize hst : ArrOp.spec (List.foldl ArrOp.spec (fun _ _ => z, []) ops) (.write () c v) = st0
  have h0 : st0.1 () c = v := by rw [← hst]; simp [ArrOp.spec]
  clear hst e1 h2
  induction rest generalizing st0 with
  | nil => exact h0
  | cons op rest ih =>
    refine ih (fun op hop => hrest op (by simp [hop])) (op.spec st0) ?_
    have := hrest op (by simp)
    cases op with
    | write x c' v' =>
      have hne : ¬ c = c' := fun hh => this.2 hh.symm
      simp [ArrOp.spec, hne, h0]
    | copy x y => simp [ArrOp.spec, h0]
    | read x c' => simp [ArrOp.spec, h0]

end C07

/-- Instance of C07: two arrays of vectors on a 4 × 3 grid; a ghost cell is written, copied, overwritten. -/
example : ∃ g : Grid ℚ 2, (demo 1).make .strict 2 = .ok g ∧ ∃ st,
    loop [ArrOp.write true (-1, 3, 0) "a", .copy false true, .write true (-1, 3, 0) "b", .read false (-1, 3, 0),
      .read true (-1, 3, 0), .read false (0, 0, 0)] (fun _ => Arr.mk' g "0", []) (ArrOp.run .strict g)
      = .ok (st, ["a", "b", "0"]) := by
  obtain ⟨g, e, -⟩ := C01_padded_addressing .strict 2 (demo 1) demo_valid
  have hc : (demo 1).Padded 2 (-1, 3, 0) := by simp [Req.Padded, PaddedCell, padAlong, demo]
  have hc0 : (demo 1).Padded 2 (0, 0, 0) := by simp [Req.Padded, PaddedCell, padAlong, demo]
  obtain ⟨st, out, e1, rfl, -⟩ := C07_arrays_are_maps .strict 2 (demo 1) demo_valid g e "0"
    [ArrOp.write true (-1, 3, 0) "a", .copy false true, .write true (-1, 3, 0) "b", .read false (-1, 3, 0),
      .read true (-1, 3, 0), .read false (0, 0, 0)] (by simp [ArrOp.cellOk, hc, hc0])
  exact ⟨g, e, st, e1⟩

/-! ## C08: whole-array assignment is a deep copy usable on the target's grid -/

section C08
variable {K : Type} [Zero K] [One K] [Add K] [Sub K] [Mul K] [Div K] [NatCast K] [IntCast K] {T : Type}

/-- C08 for grids with the same cell counts and padding (boxes may differ): after `a = b` every padded cell of
`a`'s grid reads as `b` did, also after later writes to `b`, and the extents stored in `a` stay its own.  Missing for the full claim: grids of different extents,
where it is false (`C08_false`). -/
theorem C08_deep_copy_partial (s : IntSem) (d : ℕ) (r r' : Req K) (h : r.Valid d) (hn : r.n = r'.n)
    (hp : r.pad = r'.pad) (g g' : Grid K d) (e : r.make s d = .ok g) (e' : r'.make s d = .ok g')
    (a b : Arr T) (hb : (b.data.length : ℤ) = g'.size) (ops : List (Cell × T)) (hops : ∀ w ∈ ops, r.Padded d w.1) :
    ∃ b', loop ops b (fun b w => b.set s g' w.1.1 w.1.2.1 w.1.2.2 w.2) = .ok b' ∧
      ((a.assign b).nx, (a.assign b).ny, (a.assign b).nz, (a.assign b).pad) = (a.nx, a.ny, a.nz, a.pad) ∧
      ∀ c, r.Padded d c → ∃ v, b.get s g' c.1 c.2.1 c.2.2 = .ok v ∧
        (a.assign b).get s g c.1 c.2.1 c.2.2 = .ok v := by
  have h' : r'.Valid d := by unfold Req.Valid at *; rw [← hn, ← hp]; exact h
  have G := make_made h e
  have G' := make_made h' e'
  have hlen : (b.data.length : ℤ) = g'.slots := by rw [hb, G'.size]
  obtain ⟨f, hf⟩ := Arr.rep_of_len G'.shape hlen
  have hpad : ∀ c, r.Padded d c → g'.InPad c := by
    intro c hc
    rw [G'.inPad]
    unfold Req.Padded at *; rw [← hn, ← hp]; exact hc
  obtain ⟨b', hb', -⟩ := loop_inv (l := ops) (s := b)
    (body := fun b w => b.set s g' w.1.1 w.1.2.1 w.1.2.2 w.2) (fun _ b => ∃ f, b.Rep g' f) ⟨f, hf⟩ (by
      rintro pre w post t hl ⟨f, hf⟩
      obtain ⟨a', e1, r1, -⟩ := hf.set (s := s) G'.shape (hpad _ (hops w (by rw [hl]; simp))) w.2
      exact ⟨a', e1, _, r1⟩)
  refine ⟨b', hb', rfl, fun c hc => ⟨f c, hf.get G'.shape (hpad c hc), ?_⟩⟩
  have hix : g.index s c.1 c.2.1 c.2.2 = g'.index s c.1 c.2.1 c.2.2 :=
    Grid.index_congr s (by rw [G.nx, G'.nx, hn]) (by rw [G.ny, G'.ny, hn]) (by rw [G.pad, G'.pad, hp])
      (by rw [G.shape.m0, G'.shape.m0]) (by rw [G.shape.m1, G'.shape.m1]) (by rw [G.shape.m2, G'.shape.m2]) _ _ _
  have := hf.get (s := s) G'.shape (hpad c hc)
  unfold Arr.get at *
  rw [hix]
  exact this

/-- C08 is false for every pair of grids where the source has fewer slots than the target: some padded cell of the
target is out of bounds after the assignment. -/
theorem C08_false (s : IntSem) (d : ℕ) (r : Req K) (h : r.Valid d) (g g' : Grid K d) (e : r.make s d = .ok g)
    (hlt : g'.size < g.size) (a b : Arr T) (hb : b.data.length = g'.size) :
    ∃ c, r.Padded d c ∧ (a.assign b).get s g c.1 c.2.1 c.2.2 = .error .oob := by
  have G := make_made h e
  obtain ⟨c, hc, hl⟩ := Grid.lin_surj (g := g) G.shape (t := g'.size) (by omega) (by rw [← G.size]; omega)
  refine ⟨c, G.inPad.1 hc, ?_⟩
  unfold Arr.get
  rw [Grid.index_ok s G.shape hc, M.ok_bind]
  refine rd_oob (Or.inr ?_)
  show (b.data.length : ℤ) ≤ _
  rw [hl, hb]

end C08

/-- Instance of C08: two 4 × 3 grids on different boxes. -/
example : ∃ g g' : Grid ℚ 2, (demo 1).make .strict 2 = .ok g ∧
    (⟨⟨4, 3, 1⟩, 1, ⟨5, 5, 0⟩, ⟨6, 6, 0⟩⟩ : Req ℚ).make .strict 2 = .ok g' ∧
    ∃ v, ((Arr.mk' g 0).assign (Arr.mk' g' 7)).get .strict g 4 3 0 = .ok v := by
  obtain ⟨g, e, -⟩ := C01_padded_addressing .strict 2 (demo 1) demo_valid
  obtain ⟨g', e', -⟩ := C01_padded_addressing .strict 2 (⟨⟨4, 3, 1⟩, 1, ⟨5, 5, 0⟩, ⟨6, 6, 0⟩⟩ : Req ℚ) demo_valid
  obtain ⟨b', -, -, H⟩ := C08_deep_copy_partial .strict 2 (demo 1) (⟨⟨4, 3, 1⟩, 1, ⟨5, 5, 0⟩, ⟨6, 6, 0⟩⟩ : Req ℚ) demo_valid rfl rfl g g' e e' (Arr.mk' g 0)
    (Arr.mk' g' 7) (by simp [Arr.mk']) [((0, 0, 0), 3)]
    (by simp [Req.Padded, PaddedCell, padAlong, demo])
  obtain ⟨v, -, hv⟩ := H (4, 3, 0) (by simp [Req.Padded, PaddedCell, padAlong, demo])
  exact ⟨g, g', e, e', v, hv⟩

/-- Instance of `C08_false`: from padding 1 (6 × 5 slots) to padding 2 (8 × 7 slots). -/
example : ∃ g g' : Grid ℚ 2, (demo 2).make .strict 2 = .ok g ∧ (demo 1).make .strict 2 = .ok g' ∧
    ∃ c, (demo 2).Padded 2 c ∧ ((Arr.mk' g 0).assign (Arr.mk' g' 7)).get .strict g c.1 c.2.1 c.2.2 = .error .oob := by
  obtain ⟨g, e, -⟩ := C01_padded_addressing .strict 2 (demo 2) demo2_valid
  obtain ⟨g', e', -⟩ := C01_padded_addressing .strict 2 (demo 1) demo_valid
  refine ⟨g, g', e, e', C08_false .strict 2 (demo 2) demo2_valid g g' e ?_ _ _ (by simp [Arr.mk'])⟩
  have G := make_made demo2_valid e
  have G' := make_made demo_valid e'
  have h1 := G.size
  have h2 := G'.size
  simp only [Grid.slots, G.shape.m0, G.shape.m1, G.shape.m2, G'.shape.m0, G'.shape.m1, G'.shape.m2, G.nx, G.ny, G.nz,
    G.pad, G'.nx, G'.ny, G'.nz, G'.pad, demo] at h1 h2
  norm_num at h1 h2
  omega

/-! ## C09: array text output lists each interior cell once, in order -/

section C09
variable {K : Type} [Zero K] [One K] [Add K] [Sub K] [Mul K] [Div K] [NatCast K] [IntCast K] {T : Type}

/-- Lexicographic order of cells: `i`, then `j`, then `k`. -/
def lexLt (c c' : Cell) : Prop :=
  c.1 < c'.1 ∨ (c.1 = c'.1 ∧ (c.2.1 < c'.2.1 ∨ (c.2.1 = c'.2.1 ∧ c.2.2 < c'.2.2)))

theorem irange_sorted (lo hi : ℤ) : (irange lo hi).Pairwise (· < ·) := by
  unfold irange
  rw [List.pairwise_map]
  refine List.pairwise_lt_range.imp ?_
  intro a b h
  omega

theorem cells_sorted (i0 i1 j0 j1 k0 k1 : ℤ) : (cells i0 i1 j0 j1 k0 k1).Pairwise lexLt := by
  unfold cells
  rw [List.pairwise_flatMap]
  refine ⟨fun i _ => ?_, ?_⟩
  · rw [List.pairwise_flatMap]
    refine ⟨fun j _ => ?_, ?_⟩
    · rw [List.pairwise_map]
      exact (irange_sorted _ _).imp fun h => Or.inr ⟨rfl, Or.inr ⟨rfl, h⟩⟩
    · refine (irange_sorted _ _).imp ?_
      intro a b hab x hx y hy
      obtain ⟨_, _, rfl⟩ := List.mem_map.1 hx
      obtain ⟨_, _, rfl⟩ := List.mem_map.1 hy
      exact Or.inr ⟨rfl, Or.inl hab⟩
  · refine (irange_sorted _ _).imp ?_
    intro a b hab x hx y hy
    obtain ⟨_, _, hx⟩ := List.mem_flatMap.1 hx
    obtain ⟨_, _, hy⟩ := List.mem_flatMap.1 hy
    obtain ⟨_, _, rfl⟩ := List.mem_map.1 hx
    obtain ⟨_, _, rfl⟩ := List.mem_map.1 hy
    exact Or.inl hab

/-- C09. Output of an array on its grid: one line per interior cell and no other, in lexicographic order, each line
holding the node's coordinates and the cell's value.  Character formatting is not modelled. -/
theorem C09_output (s : IntSem) (d : ℕ) (r : Req K) (h : r.Valid d) (g : Grid K d) (e : r.make s d = .ok g)
    (a : Arr T) (hlen : a.data.length = g.size) (hx : a.nx = r.n.x) (hy : a.ny = r.n.y) (hz : a.nz = r.n.z) :
    ∃ (L : List Cell) (out : List (Vec3 K × T)), a.print s g = .ok out ∧
      L.Pairwise lexLt ∧ (∀ c, c ∈ L ↔ r.Interior c) ∧
      List.Forall₂ (fun c line => g.at' s c.1 c.2.1 c.2.2 = .ok line.1 ∧ a.get s g c.1 c.2.1 c.2.2 = .ok line.2)
        L out := by
  have G := make_made h e
  obtain ⟨f, hf⟩ := Arr.rep_of_len G.shape (a := a) (by rw [hlen, G.size])
  have hmem : ∀ c, c ∈ a.interior ↔ r.Interior c := by
    intro c
    unfold Arr.interior Req.Interior InteriorCell
    rw [mem_cells, hx, hy, hz]
  obtain ⟨out, e1, h1⟩ := loop_inv (l := a.interior) (s := ([] : List (Vec3 K × T)))
    (body := fun out c => do
      let p ← g.at' s c.1 c.2.1 c.2.2
      let v ← a.get s g c.1 c.2.1 c.2.2
      return out ++ [(p, v)])
    (fun pre out => List.Forall₂ (fun c line => g.at' s c.1 c.2.1 c.2.2 = .ok line.1 ∧
      a.get s g c.1 c.2.1 c.2.2 = .ok line.2) pre out) List.Forall₂.nil (by
      intro pre c post out hl hP
      have hc : g.InPad c := Grid.Interior.inPad G.shape (G.interior.2 ((hmem c).1 (by rw [hl]; simp)))
      have e1 := G.node c hc
      have e2 := hf.get (s := s) G.shape hc
      refine ⟨out ++ [(_, f c)], by rw [e1, M.ok_bind, e2, M.ok_bind]; rfl, ?_⟩
      exact List.rel_append hP (List.Forall₂.cons ⟨e1, e2⟩ List.Forall₂.nil))
  exact ⟨a.interior, out, e1, cells_sorted _ _ _ _ _ _, hmem, h1⟩

end C09

/-- Instance of C09: a constant array on the 4 × 3 grid is printed. -/
example : ∃ g : Grid ℚ 2, (demo 1).make .strict 2 = .ok g ∧ ∃ out, (Arr.mk' g (5 : ℚ)).print .strict g = .ok out := by
  obtain ⟨g, e, -⟩ := C01_padded_addressing .strict 2 (demo 1) demo_valid
  have G := make_made demo_valid e
  obtain ⟨L, out, h, -⟩ := C09_output .strict 2 (demo 1) demo_valid g e (Arr.mk' g (5 : ℚ)) (by simp [Arr.mk'])
    G.nx G.ny G.nz
  exact ⟨g, e, out, h⟩

/-- Instance of `C07_last_write`: a ghost cell of the 4 × 3 grid is written, read and written again, then another cell is written. -/
example : ∃ g : Grid ℚ 2, (demo 1).make .strict 2 = .ok g ∧ ∃ st out,
    loop [.write () (-1, 3, 0) 2, .read () (-1, 3, 0), .write () (-1, 3, 0) 7, .write () (0, 0, 0) 4]
      (fun _ => Arr.mk' g (0 : ℚ), []) (ArrOp.run .strict g) = .ok (st, out) ∧ (st ()).get .strict g (-1) 3 0 = .ok 7 := by
  obtain ⟨g, e, -⟩ := C01_padded_addressing .strict 2 (demo 1) demo_valid
  have h1 : (demo 1).Padded 2 (-1, 3, 0) := by unfold Req.Padded PaddedCell padAlong demo; simp
  have h2 : (demo 1).Padded 2 (0, 0, 0) := by unfold Req.Padded PaddedCell padAlong demo; simp
  refine ⟨g, e, C07_last_write .strict 2 (demo 1) demo_valid g e 0 [.write () (-1, 3, 0) 2, .read () (-1, 3, 0)] ?_ (-1, 3, 0) h1 7
    [.write () (0, 0, 0) 4] ?_⟩
  · simpa [ArrOp.cellOk] using h1
  · simp [ArrOp.cellOk, h2]

end Gals.Props
