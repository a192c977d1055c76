import Verif.Lemmas.Make

/-!
# Arrays as maps over cells
-/

namespace Gals

variable {K : Type} {d : ℕ} {T : Type}

namespace Arr

/-- The array holds one slot per grid slot and reads as `f` on padded cells. -/
structure Rep (g : Grid K d) (a : Arr T) (f : Cell → T) : Prop where
  len : (a.data.length : ℤ) = g.slots
  val : ∀ c, g.InPad c → rd a.data (g.lin c) = .ok (f c)

theorem Rep.get {s : IntSem} {g : Grid K d} (hs : g.Shape) {a : Arr T} {f : Cell → T} (h : a.Rep g f) {c : Cell}
    (hc : g.InPad c) : a.get s g c.1 c.2.1 c.2.2 = .ok (f c) := by
  unfold Arr.get
  rw [Grid.index_ok s hs hc, M.ok_bind, h.val c hc]

theorem Rep.getV {s : IntSem} {g : Grid K d} (hs : g.Shape) {a : Arr T} {f : Cell → T} (h : a.Rep g f) {n : Vec3 ℤ}
    (hc : g.InPad (n.x, n.y, n.z)) : a.getV s g n = .ok (f (n.x, n.y, n.z)) := h.get hs hc

theorem rep_of_len {g : Grid K d} (hs : g.Shape) {a : Arr T} (h : (a.data.length : ℤ) = g.slots) :
    ∃ f, a.Rep g f := by
  classical
  have hpos := (Grid.storageSize_ok .strict hs).2.1
  have hne : 0 < a.data.length := by omega
  refine ⟨fun c => if hc : g.InPad c then a.data[(g.lin c).toNat]'(by
    have := Grid.lin_bound hs hc; omega) else a.data[0], h, ?_⟩
  intro c hc
  have := Grid.lin_bound hs hc
  rw [rd_ok this.1 (by omega), dif_pos hc]

theorem rep_mk {g : Grid K d} (hs : g.Shape) (hsize : (g.size : ℤ) = g.slots) (z : T) :
    (Arr.mk' g z).Rep g (fun _ => z) := by
  refine ⟨by simpa [Arr.mk'] using hsize, ?_⟩
  intro c hc
  have := Grid.lin_bound hs hc
  rw [rd_eq_ok_iff]
  refine ⟨this.1, ?_⟩
  simp only [Arr.mk']
  rw [List.getElem?_replicate]
  simp; omega

theorem Rep.congr {g : Grid K d} {a : Arr T} {f f' : Cell → T} (h : a.Rep g f) (hf : ∀ c, g.InPad c → f c = f' c) :
    a.Rep g f' := ⟨h.len, fun c hc => by rw [← hf c hc]; exact h.val c hc⟩

theorem Rep.unique {g : Grid K d} {a : Arr T} {f f' : Cell → T} (h : a.Rep g f) (h' : a.Rep g f') {c : Cell}
    (hc : g.InPad c) : f c = f' c := by
  have := (h.val c hc).symm.trans (h'.val c hc)
  exact Except.ok.inj this

/-- Two arrays with the same values on padded cells have the same storage. -/
theorem Rep.data_eq {g : Grid K d} (hs : g.Shape) {a b : Arr T} {f : Cell → T} (ha : a.Rep g f) (hb : b.Rep g f) :
    a.data = b.data := by
  have e1 := ha.len
  have e2 := hb.len
  refine List.ext_getElem (by omega) fun n h1 h2 => ?_
  obtain ⟨c, hc, e⟩ := Grid.lin_surj (t := n) hs (by omega) (by omega)
  have p1 := ha.val c hc
  have p2 := hb.val c hc
  rw [e, rd_ok (by omega) (by omega)] at p1 p2
  have := Except.ok.inj (p1.trans p2.symm)
  simpa using this

theorem Rep.set {s : IntSem} {g : Grid K d} (hs : g.Shape) {a : Arr T} {f : Cell → T} (h : a.Rep g f) {c : Cell}
    (hc : g.InPad c) (t : T) :
    ∃ a', a.set s g c.1 c.2.1 c.2.2 t = .ok a' ∧ a'.Rep g (fun c' => if c' = c then t else f c') ∧
      a'.nx = a.nx ∧ a'.ny = a.ny ∧ a'.nz = a.nz ∧ a'.pad = a.pad := by
  have hb := Grid.lin_bound hs hc
  have hlen := h.len
  have hw := wr_ok (v := a.data) t hb.1 (by omega)
  refine ⟨{ a with data := a.data.set (g.lin c).toNat t }, ?_, ⟨?_, ?_⟩, rfl, rfl, rfl, rfl⟩
  · unfold Arr.set
    rw [Grid.index_ok s hs hc, M.ok_bind, hw, M.ok_bind]; rfl
  · show ((a.data.set (g.lin c).toNat t).length : ℤ) = g.slots
    rw [List.length_set]; exact hlen
  · intro c' hc'
    show rd (a.data.set (g.lin c).toNat t) (g.lin c') = _
    by_cases hcc : c' = c
    · subst hcc
      rw [if_pos rfl]
      exact rd_wr_same hw
    · rw [if_neg hcc, rd_wr_other hw]
      · exact h.val c' hc'
      · intro he
        exact hcc (Grid.lin_inj hs hc hc' he).symm

/-- A loop that writes `w c` to the distinct cells of `l`. -/
theorem Rep.loop_set {s : IntSem} {g : Grid K d} (hs : g.Shape) {a : Arr T} {f : Cell → T} (h : a.Rep g f)
    {l : List Cell} (hl : ∀ c ∈ l, g.InPad c) {v : Cell → M T} (w : Cell → T)
    (hv : ∀ c ∈ l, v c = .ok (w c)) [DecidablePred (· ∈ l)] :
    ∃ a', loop l a (fun acc c => do
        let x ← v c
        acc.set s g c.1 c.2.1 c.2.2 x) = .ok a' ∧
      a'.Rep g (fun c => if c ∈ l then w c else f c) ∧
      a'.nx = a.nx ∧ a'.ny = a.ny ∧ a'.nz = a.nz ∧ a'.pad = a.pad := by
  classical
  obtain ⟨t, h1, h2⟩ := loop_inv (l := l) (s := a) (body := fun acc c => do
        let x ← v c
        acc.set s g c.1 c.2.1 c.2.2 x)
    (fun pre t => t.Rep g (fun c => if c ∈ pre then w c else f c) ∧
      t.nx = a.nx ∧ t.ny = a.ny ∧ t.nz = a.nz ∧ t.pad = a.pad)
    ⟨by simpa using h, rfl, rfl, rfl, rfl⟩ (by
      rintro pre c post t hpl ⟨hrep, e1, e2, e3, e4⟩
      have hc : c ∈ l := by rw [hpl]; simp
      obtain ⟨a', q1, q2, q3, q4, q5, q6⟩ := hrep.set (s := s) hs (hl c hc) (w c)
      refine ⟨a', by rw [hv c hc, M.ok_bind]; exact q1, q2.congr ?_, q3.trans e1, q4.trans e2, q5.trans e3, q6.trans e4⟩
      intro c' _
      by_cases hcc : c' = c
      · subst hcc; simp
      · simp [hcc])
  refine ⟨t, h1, h2.1.congr ?_, h2.2⟩
  intro c _
  congr

end Arr

end Gals
