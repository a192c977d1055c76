import Verif.Lemmas.Field
import Mathlib.Data.Rat.Floor
import Mathlib.Tactic.NormNum
import Mathlib.Tactic.LinearCombination

/-!
# Properties C01, C02, C03, C04, C06 (grids)
-/

namespace Gals.Props

open Gals Spec

/-! ## A concrete request used in the examples: a 2D grid of 4 × 3 cells -/

/-- 4 × 3 cells on `[0,2] × [0,3]`, padding `p`. -/
def demo (p : ℤ) : Req ℚ := ⟨⟨4, 3, 1⟩, p, ⟨0, 0, 0⟩, ⟨2, 3, 0⟩⟩

theorem demo_valid : (demo 1).Valid 2 :=
  ⟨by simp, by decide, by decide, by decide, by decide, by decide, by decide, by decide⟩

theorem demo2_valid : (demo 2).Valid 2 :=
  ⟨by simp, by decide, by decide, by decide, by decide, by decide, by decide, by decide⟩

theorem demo_pos (p : ℤ) : (demo p).Pos 2 := by
  intro a ha
  match a with
  | 0 => show (0 : ℚ) < 2; norm_num
  | 1 => show (0 : ℚ) < 3; norm_num
  | 2 => exact absurd ha (by decide)

/-! ## C01: padded cell addressing is in bounds and collision-free -/

section C01
variable {K : Type} [Zero K] [One K] [Add K] [Sub K] [Mul K] [Div K] [NatCast K] [IntCast K]

/-- C01. For every supported request, in every dimension and for both readings of `int` overflow, the grid is
built, and `index` is a bijection between padded cells and storage slots.  `K` has no laws (doubles included). -/
theorem C01_padded_addressing (s : IntSem) (d : ℕ) (r : Req K) (h : r.Valid d) :
    ∃ g : Grid K d, r.make s d = .ok g ∧
      (∀ c, r.Padded d c → ∃ n, g.index s c.1 c.2.1 c.2.2 = .ok n ∧ 0 ≤ n ∧ n < g.size) ∧
      (∀ c c', r.Padded d c → r.Padded d c' →
        g.index s c.1 c.2.1 c.2.2 = g.index s c'.1 c'.2.1 c'.2.2 → c = c') ∧
      (∀ n : ℤ, 0 ≤ n → n < g.size → ∃ c, r.Padded d c ∧ g.index s c.1 c.2.1 c.2.2 = .ok n) := by
  obtain ⟨g, e, G⟩ := make_ok s h
  refine ⟨g, e, ?_, ?_, ?_⟩
  · intro c hc
    have hc' := G.inPad.2 hc
    have hb := Grid.lin_bound G.shape hc'
    exact ⟨_, Grid.index_ok s G.shape hc', hb.1, by rw [G.size]; exact hb.2⟩
  · intro c c' hc hc' he
    rw [Grid.index_ok s G.shape (G.inPad.2 hc), Grid.index_ok s G.shape (G.inPad.2 hc')] at he
    exact Grid.lin_inj G.shape (G.inPad.2 hc) (G.inPad.2 hc') (Except.ok.inj he)
  · intro n h0 h1
    rw [G.size] at h1
    obtain ⟨c, hc, rfl⟩ := Grid.lin_surj G.shape h0 h1
    exact ⟨c, G.inPad.1 hc, Grid.index_ok s G.shape hc⟩

omit [Zero K] [One K] [Add K] [Sub K] [Mul K] [Div K] [NatCast K] in
/-- C01, why a single cell is required along unused axes: on a 1D grid the second coordinate is ignored, so that
two different cells share a slot as soon as the constructor is given `ny ≥ 2` (which nothing prevents). -/
theorem C01_unused_axis_collides (s : IntSem) (g : Grid K 1) (nx ny nz : ℤ)
    (e : Grid.mk3 s 1 nx ny nz = .ok g) (hx : 0 < nx) (hy : 1 < ny) (hz : 0 < nz)
    (hf : (nx + 2) * (ny + 2) * (nz + 2) ≤ 2147483647) :
    g.index s 0 0 0 = g.index s 0 1 0 ∧ ∃ n, g.index s 0 0 0 = .ok n := by
  have e0 : nx + 2 ≤ (nx + 2) * (ny + 2) := by nlinarith
  have hp : 0 < (nx + 2) * (ny + 2) := by nlinarith
  have e1 : (nx + 2) * (ny + 2) ≤ (nx + 2) * (ny + 2) * (nz + 2) := by nlinarith
  have e2 : ny + 2 ≤ (nx + 2) * (ny + 2) := by nlinarith
  have p1 : nx * ny ≤ (nx + 2) * (ny + 2) := by nlinarith
  have p0 : 0 < nx * ny := by nlinarith
  have p2 : nx * ny * nz ≤ (nx + 2) * (ny + 2) * (nz + 2) := by
    have := mul_le_mul p1 (show nz ≤ nz + 2 by omega) hz.le hp.le
    exact this
  have p3 : 0 < nx * ny * nz := mul_pos p0 hz
  obtain ⟨g', e', h1, h2, h3, h4, h5, h6, h7, -⟩ :=
    Grid.mk3_ok (K := K) (d := 1) s (nx := nx) (ny := ny) (nz := nz)
      ⟨by unfold intMin; omega, by unfold intMax; omega⟩ ⟨by unfold intMin; omega, by unfold intMax; omega⟩
  rw [e] at e'
  cases e'
  norm_num at h6 h7
  have key : ∀ j : ℤ, 0 ≤ j → j ≤ 1 → g.index s 0 j 0 = .ok 1 := by
    intro j j0 j1
    have r1 : InInt (2 * (1:ℤ)) := by decide
    have r2 : InInt (nx + 2 * 1) := ⟨by unfold intMin; omega, by unfold intMax; omega⟩
    have r3 : InInt (ny + 2 * 1) := ⟨by unfold intMin; omega, by unfold intMax; omega⟩
    have r4 : InInt ((0 + 1) * (nx + 2 * 1)) := ⟨by unfold intMin; omega, by unfold intMax; omega⟩
    have r5 : InInt ((0 + 1) * (nx + 2 * 1) * (ny + 2 * 1)) := by
      have : (0 + 1) * (nx + 2 * 1) * (ny + 2 * 1) = (nx + 2) * (ny + 2) := by ring
      rw [this]
      exact ⟨by unfold intMin; omega, by unfold intMax; omega⟩
    have r6 : InInt (j + 1) := ⟨by unfold intMin; omega, by unfold intMax; omega⟩
    have r7 : InInt ((j + 1) * (nx + 2 * 1)) := by
      have a : 0 ≤ (j + 1) * (nx + 2 * 1) := by nlinarith
      have b : (j + 1) * (nx + 2 * 1) ≤ (nx + 2) * (ny + 2) := by nlinarith
      exact ⟨by unfold intMin; omega, by unfold intMax; omega⟩
    have r8 : InInt ((0:ℤ) + 1) := by decide
    have r9 : ∀ z : ℤ, InInt (z * 0) := fun z => by rw [mul_zero]; decide
    unfold Grid.index iadd imul
    rw [h1, h2, h4, h5, h6, h7, ck_ok s r8, M.ok_bind, ck_ok s r1, M.ok_bind, ck_ok s r2, M.ok_bind, ck_ok s r4,
      M.ok_bind, ck_ok s r3, M.ok_bind, ck_ok s r5, M.ok_bind, ck_ok s (r9 _), M.ok_bind, ck_ok s r6, M.ok_bind,
      ck_ok s r7, M.ok_bind, ck_ok s (r9 _), M.ok_bind, M.ok_bind,
      ck_ok s (show InInt ((0 + 1) * 1 : ℤ) by decide), M.ok_bind]
    simp only [mul_zero, add_zero]
    rw [ck_ok s (show InInt (0 : ℤ) by decide), M.ok_bind, ck_ok s (by decide)]
    rfl
  exact ⟨by rw [key 0 (by omega) (by omega), key 1 (by omega) (by omega)], 1, key 0 (by omega) (by omega)⟩

end C01

/-- Instance of C01: a 4 × 3 grid with two ghost layers. -/
example : ∃ g : Grid ℚ 2, (demo 2).make .strict 2 = .ok g ∧
    (demo 2).Padded 2 (-2, 4, 0) ∧ g.index .strict (-2) 4 0 = .ok 48 := by
  obtain ⟨g, e, -⟩ := C01_padded_addressing .strict 2 (demo 2) demo2_valid
  have G := make_made demo2_valid e
  have hc : (demo 2).Padded 2 (-2, 4, 0) := by simp [Req.Padded, PaddedCell, padAlong, demo]
  refine ⟨g, e, hc, ?_⟩
  have := Grid.index_ok .strict G.shape (G.inPad.2 hc)
  simp only at this
  rw [this]
  simp [Grid.lin, G.shape.m0, G.shape.m1, G.shape.m2, G.nx, G.ny, G.pad, demo]

/-- Instance of the collision: `Grid<double, 1>(4, 2)`. -/
example : ∃ g : Grid ℚ 1, Grid.mk3 .strict 1 4 2 1 = .ok g ∧ g.index .strict 0 0 0 = g.index .strict 0 1 0 :=
  ⟨_, rfl, rfl⟩

/-! ## C02: node coordinates are cell centres -/

section C02
variable {K : Type} [Field K]

/-- C02, exact coordinates for every padding: along used axes the stored coordinate of cell `c` is the centre of the
cell `c + pad - 1`, along unused axes it is 0. -/
theorem C02_coordinates (s : IntSem) (d : ℕ) (r : Req K) (h : r.Valid d) :
    ∃ g : Grid K d, r.make s d = .ok g ∧
      ∀ c, r.Padded d c → ∃ p : Vec3 K, g.at' s c.1 c.2.1 c.2.2 = .ok p ∧
        (∀ a : Fin 3, a.val < d → p.get a = r.centre a (comp c a + (r.pad - 1))) ∧
        (∀ a : Fin 3, ¬ a.val < d → p.get a = 0) := by
  obtain ⟨g, e, G⟩ := make_ok s h
  refine ⟨g, e, fun c hc => ⟨_, G.node c (G.inPad.2 hc), ?_, ?_⟩⟩
  · intro a ha
    rw [Grid.elem_active G c a ha, G.boxMin, G.dx]
    unfold Req.centre
    push_cast
    ring
  · intro a ha
    exact Grid.elem_inactive g _ _ c a ha

/-- C02 for the default padding 1: coordinates are cell centres.  Missing for the full claim: every other padding,
where it is false (`C02_false`). -/
theorem C02_cell_centres_partial (s : IntSem) (d : ℕ) (r : Req K) (h : r.Valid d) (hp : r.pad = 1) :
    ∃ g : Grid K d, r.make s d = .ok g ∧
      ∀ c, r.Padded d c → ∃ p : Vec3 K, g.at' s c.1 c.2.1 c.2.2 = .ok p ∧
        (∀ a : Fin 3, a.val < d → p.get a = r.centre a (comp c a)) ∧
        (∀ a : Fin 3, ¬ a.val < d → p.get a = 0) := by
  obtain ⟨g, e, H⟩ := C02_coordinates s d r h
  refine ⟨g, e, fun c hc => ?_⟩
  obtain ⟨p, e1, h1, h2⟩ := H c hc
  refine ⟨p, e1, fun a ha => ?_, h2⟩
  rw [h1 a ha, hp]
  simp

/-- C02 fails for **every** padding other than 1 and every box of non-zero extent: no node lies at its centre. -/
theorem C02_false [CharZero K] (s : IntSem) (d : ℕ) (r : Req K) (h : r.Valid d) (hp : r.pad ≠ 1)
    (a : Fin 3) (ha : a.val < d) (hbox : r.hi.get a ≠ r.lo.get a) (c : Cell) (hc : r.Padded d c) :
    ∃ g : Grid K d, r.make s d = .ok g ∧ ∃ p : Vec3 K, g.at' s c.1 c.2.1 c.2.2 = .ok p ∧
      p.get a ≠ r.centre a (comp c a) := by
  obtain ⟨g, e, H⟩ := C02_coordinates s d r h
  obtain ⟨p, e1, h1, -⟩ := H c hc
  refine ⟨g, e, p, e1, ?_⟩
  rw [h1 a ha]
  intro he
  unfold Req.centre at he
  have hn : ((r.n.get a : ℤ) : K) ≠ 0 := by
    have : r.n.get a ≠ 0 := by
      match a with
      | 0 => exact h.nx_pos.ne'
      | 1 => exact h.ny_pos.ne'
      | 2 => exact h.nz_pos.ne'
    exact_mod_cast this
  have hh : r.h a ≠ 0 := div_ne_zero (sub_ne_zero.2 hbox) hn
  have h2 := mul_right_cancel₀ hh (add_left_cancel he)
  push_cast at h2
  have h3 : ((r.pad - 1 : ℤ) : K) = 0 := by
    push_cast
    linear_combination h2
  have : r.pad - 1 = 0 := by exact_mod_cast h3
  omega

end C02

/-- Instance of C02: padding 1, ghost corner. -/
example : ∃ g : Grid ℚ 2, (demo 1).make .strict 2 = .ok g ∧
    ∃ p, g.at' .strict (-1) 3 0 = .ok p ∧ p.x = -1 / 4 ∧ p.y = 7 / 2 ∧ p.z = 0 := by
  obtain ⟨g, e, H⟩ := C02_cell_centres_partial .strict 2 (demo 1) demo_valid rfl
  obtain ⟨p, e1, h1, h2⟩ := H (-1, 3, 0) (by simp [Req.Padded, PaddedCell, padAlong, demo])
  refine ⟨g, e, p, e1, ?_, ?_, ?_⟩
  · refine (h1 0 (by decide)).trans ?_
    simp [Req.centre, Req.h, comp, demo, Vec3.get]; norm_num
  · refine (h1 1 (by decide)).trans ?_
    simp [Req.centre, Req.h, comp, demo, Vec3.get]; norm_num
  · exact h2 2 (by decide)

/-- Instance of `C02_false`: padding 2. -/
example : ∃ g : Grid ℚ 2, (demo 2).make .strict 2 = .ok g ∧ ∃ p, g.at' .strict 0 0 0 = .ok p ∧
    p.get 0 ≠ (demo 2).centre 0 0 :=
  C02_false .strict 2 (demo 2) demo2_valid (by decide) 0 (by decide) (by norm_num [demo, Vec3.get]) (0, 0, 0)
    (by simp [Req.Padded, PaddedCell, padAlong, demo])

/-! ## C03: base-node lookup finds the enclosing interval -/

section C03
variable {K : Type} [Field K] [LinearOrder K] [IsStrictOrderedRing K] [FloorRing K]

/-- C03. The base node of `x` is, along each used axis, the only integer `b` with
`centre b ≤ x < centre (b + 1)`, provided that integer is representable as `int` along each used axis (otherwise the
conversion is undefined).  Together with C02 for padding 1 the centres are the stored node coordinates. -/
theorem C03_base_node (s : IntSem) (d : ℕ) (r : Req K) (h : r.Valid d) (hpos : r.Pos d) (g : Grid K d)
    (e : r.make s d = .ok g) (x : Vec3 K)
    (hx : ∀ a : Fin 3, a.val < d → r.centre a (-2147483648) ≤ x.get a ∧ x.get a < r.centre a (2147483647 + 1)) :
    ∃ b : Vec3 ℤ, g.baseNodeId x = .ok b ∧
      ∀ a : Fin 3, a.val < d →
        (r.centre a (b.get a) ≤ x.get a ∧ x.get a < r.centre a (b.get a + 1)) ∧
        ∀ b' : ℤ, r.centre a b' ≤ x.get a → x.get a < r.centre a (b' + 1) → b' = b.get a := by
  exact (make_made h e).base h hpos x hx

/-! ## C04: interpolation stencils of in-domain points stay in storage -/

/-- C04. For every point of the closed box and every padding ≥ 1: the base node exists, and the base node and its
neighbours `+1` along any subset of used axes (with 0 along unused axes) are padded cells. -/
theorem C04_stencil_in_storage (s : IntSem) (d : ℕ) (r : Req K) (h : r.Valid d) (hpos : r.Pos d) (hpad : 1 ≤ r.pad)
    (g : Grid K d) (e : r.make s d = .ok g) (x : Vec3 K)
    (hx : ∀ a : Fin 3, a.val < d → r.lo.get a ≤ x.get a ∧ x.get a ≤ r.hi.get a) :
    ∃ b : Vec3 ℤ, g.baseNodeId x = .ok b ∧
      ∀ o : Fin 3 → ℤ, (∀ a, o a = 0 ∨ o a = 1) →
        r.Padded d (if 0 < d then b.x + o 0 else 0, if 1 < d then b.y + o 1 else 0, if 2 < d then b.z + o 2 else 0) := by
  obtain ⟨b, e1, -, key⟩ := (make_made h e).base_box h hpos x hx
  refine ⟨b, e1, ?_⟩
  have hn : ∀ a : Fin 3, 0 < r.n.get a := h.n_pos
  intro o ho
  have q : ∀ a : Fin 3, a.val < d → -padAlong d r.pad a ≤ b.get a + o a ∧ b.get a + o a < r.n.get a + padAlong d r.pad a := by
    intro a ha
    have := key a ha
    unfold padAlong
    rw [if_pos ha]
    rcases ho a with h | h <;> omega
  have q' : ∀ a : Fin 3, ¬ a.val < d → -padAlong d r.pad a ≤ 0 ∧ 0 < r.n.get a + padAlong d r.pad a := by
    intro a ha
    unfold padAlong
    rw [if_neg ha]
    have := hn a
    omega
  refine ⟨?_, ?_, ?_⟩
  · show _ ≤ (if 0 < d then b.x + o 0 else 0) ∧ (if 0 < d then b.x + o 0 else 0) < _
    split
    · rename_i hd; exact q 0 hd
    · rename_i hd; exact q' 0 hd
  · show _ ≤ (if 1 < d then b.y + o 1 else 0) ∧ (if 1 < d then b.y + o 1 else 0) < _
    split
    · rename_i hd; exact q 1 hd
    · rename_i hd; exact q' 1 hd
  · show _ ≤ (if 2 < d then b.z + o 2 else 0) ∧ (if 2 < d then b.z + o 2 else 0) < _
    split
    · rename_i hd; exact q 2 hd
    · rename_i hd; exact q' 2 hd

/-- C04, sharpness: with padding 0 a point of the box next to its lower face has a base node outside the storage. -/
theorem C04_needs_padding (s : IntSem) (d : ℕ) (r : Req K) (h : r.Valid d) (hpos : r.Pos d) (hpad : r.pad = 0)
    (g : Grid K d) (e : r.make s d = .ok g) :
    ∃ b : Vec3 ℤ, g.baseNodeId r.lo = .ok b ∧ b.x = -1 ∧ ¬ r.Padded d (b.x, 0, 0) := by
  have hh := fun a ha => h.h_pos hpos a ha
  obtain ⟨b, e1, H⟩ := C03_base_node s d r h hpos g e r.lo (by
    intro a ha
    have := hh a ha
    unfold Req.centre
    push_cast
    constructor <;> nlinarith)
  have hd : (0 : Fin 3).val < d := by rcases h.dim with rfl | rfl | rfl <;> decide
  have hb : b.x = -1 := by
    refine ((H 0 hd).2 (-1) ?_ ?_).symm
    · have := hh 0 hd
      unfold Req.centre
      push_cast
      nlinarith
    · have := hh 0 hd
      unfold Req.centre
      push_cast
      nlinarith
  refine ⟨b, e1, hb, ?_⟩
  rintro ⟨⟨h1, -⟩, -⟩
  have : padAlong d r.pad 0 = 0 := by rw [hpad]; unfold padAlong; split <;> rfl
  simp only [this, hb] at h1
  omega

end C03

/-- Instance of C03/C04: the point (0.1, 2.9) of the 4 × 3 grid has base node (-1, 2). -/
example : ∃ g : Grid ℚ 2, (demo 1).make .strict 2 = .ok g ∧ ∃ b : Vec3 ℤ,
    g.baseNodeId ⟨1 / 10, 29 / 10, 0⟩ = .ok b ∧ b.x = -1 ∧ b.y = 2 := by
  obtain ⟨g, e, -⟩ := C01_padded_addressing .strict 2 (demo 1) demo_valid
  obtain ⟨b, e1, H⟩ := C03_base_node .strict 2 (demo 1) demo_valid (demo_pos 1) g e ⟨1 / 10, 29 / 10, 0⟩ (by
    intro a ha
    match a with
    | 0 => norm_num [Req.centre, Req.h, demo, Vec3.get]
    | 1 => norm_num [Req.centre, Req.h, demo, Vec3.get]
    | 2 => exact absurd ha (by decide))
  refine ⟨g, e, b, e1, ?_, ?_⟩
  · refine ((H 0 (by decide)).2 (-1) ?_ ?_).symm <;> norm_num [Req.centre, Req.h, demo, Vec3.get]
  · refine ((H 1 (by decide)).2 2 ?_ ?_).symm <;> norm_num [Req.centre, Req.h, demo, Vec3.get]

/-- Instance of `C04_needs_padding`: on the 4 × 3 grid without ghost layers the lower corner has a base node outside the grid. -/
example : ∃ g : Grid ℚ 2, (demo 0).make .strict 2 = .ok g ∧ ∃ b : Vec3 ℤ, g.baseNodeId (demo 0).lo = .ok b ∧ b.x = -1 ∧
    ¬ (demo 0).Padded 2 (b.x, 0, 0) := by
  have hv : (demo 0).Valid 2 := ⟨.inr (.inl rfl), by decide, by decide, by decide, by decide, by decide, by decide, by decide⟩
  obtain ⟨g, e, -⟩ := C01_padded_addressing .strict 2 (demo 0) hv
  exact ⟨g, e, C04_needs_padding .strict 2 (demo 0) hv (demo_pos 0) rfl g e⟩

end Gals.Props
