import Verif.Lemmas.Grid
import Verif.Spec.Grid

/-!
# Grids made by client code
-/

namespace Gals

open Spec

theorem Spec.ValidGrid.inInt {d : ℕ} {nx ny nz pad : ℤ} (h : ValidGrid d nx ny nz pad) :
    InInt (nx * ny) ∧ InInt (nx * ny * nz) := by
  have h1 := h.nx_pos
  have h2 := h.ny_pos
  have h3 := h.nz_pos
  have hp := h.pad_nonneg
  have hf := h.fits
  have a : 0 < nx * ny := mul_pos h1 h2
  have b : 0 < nx * ny * nz := mul_pos a h3
  have c : nx * ny ≤ nx * ny * nz := by nlinarith
  have e1 : nx * ny ≤ (nx + 2 * pad) * (ny + 2 * pad) :=
    mul_le_mul (by omega) (by omega) h2.le (by omega)
  have e2 : nx * ny * nz ≤ (nx + 2 * pad) * (ny + 2 * pad) * (nz + 2 * pad) :=
    mul_le_mul e1 (by omega) h3.le (by nlinarith)
  unfold InInt intMin intMax
  omega

variable {K : Type} {d : ℕ}

theorem Grid.shape_of_mk3 [IntCast K] {s : IntSem} {nx ny nz pad : ℤ} (h : ValidGrid d nx ny nz pad) {g : Grid K d}
    (e : Grid.mk3 s d nx ny nz = .ok g) : (g.setPadding pad).Shape := by
  obtain ⟨g', e', h1, h2, h3, h4, h5, h6, h7, -⟩ := Grid.mk3_ok (K := K) (d := d) s h.inInt.1 h.inInt.2
  rw [e] at e'
  cases e'
  refine ⟨h.dim, h5, ?_, ?_, ?_, ?_, ?_, ?_, ?_, h.pad_nonneg, ?_⟩
  · show g.mask1 = _
    rw [h6]; rcases h.dim with rfl | rfl | rfl <;> rfl
  · show g.mask2 = _
    rw [h7]; rcases h.dim with rfl | rfl | rfl <;> rfl
  · show 0 < g.nx; rw [h1]; exact h.nx_pos
  · show 0 < g.ny; rw [h2]; exact h.ny_pos
  · show 0 < g.nz; rw [h3]; exact h.nz_pos
  · show d < 2 → g.ny = 1; rw [h2]; exact h.ny_one
  · show d < 3 → g.nz = 1; rw [h3]; exact h.nz_one
  · show (g.nx + 2 * pad) * (g.ny + 2 * pad) * (g.nz + 2 * pad) ≤ intMax
    rw [h1, h2, h3]; exact h.fits

/-- `PaddedCell` is `InPad` for a grid with these extents. -/
theorem Grid.inPad_iff {g : Grid K d} (hs : g.Shape) {c : Cell} :
    g.InPad c ↔ PaddedCell d g.nx g.ny g.nz g.pad c := by
  unfold Grid.InPad PaddedCell padAlong
  rcases hs.dim with rfl | rfl | rfl <;> norm_num

variable [Zero K] [One K] [Add K] [Sub K] [Mul K] [Div K] [NatCast K] [IntCast K]

/-- What is known about a grid made by client code. -/
structure Grid.Made (s : IntSem) (r : Req K) (g : Grid K d) : Prop where
  shape : g.Shape
  nx : g.nx = r.n.x
  ny : g.ny = r.n.y
  nz : g.nz = r.n.z
  pad : g.pad = r.pad
  boxMin : g.boxMin = r.lo
  boxMax : g.boxMax = r.hi
  dx : ∀ a, g.dx.get a = r.h a
  oneOverDx : ∀ a : Fin 3, a.val < d → g.oneOverDx.get a = 1 / r.h a
  size : (g.size : ℤ) = g.slots
  node : ∀ c, g.InPad c → g.at' s c.1 c.2.1 c.2.2 = .ok (Grid.elem g g.boxMin g.dx c)

theorem make_ok (s : IntSem) {r : Req K} (h : r.Valid d) :
    ∃ g : Grid K d, r.make s d = .ok g ∧ g.Made s r := by
  obtain ⟨g0, e0, h1, h2, h3, -⟩ := Grid.mk3_ok (K := K) (d := d) s h.inInt.1 h.inInt.2
  have hs := Grid.shape_of_mk3 h e0
  obtain ⟨g, e, G⟩ := Grid.generate_ok s hs r.lo.x r.hi.x r.lo.y r.hi.y r.lo.z r.hi.z
  have hdx : ∀ a, g.dx.get a = r.h a := by
    rw [G.dx]
    intro a
    have e1 : (g0.setPadding r.pad).nx = r.n.x := h1
    have e2 : (g0.setPadding r.pad).ny = r.n.y := h2
    have e3 : (g0.setPadding r.pad).nz = r.n.z := h3
    rw [e1, e2, e3]
    match a with
    | 0 => rfl
    | 1 => rfl
    | 2 => rfl
  refine ⟨g, ?_, G.shape, G.nx.trans h1, G.ny.trans h2, G.nz.trans h3, G.pad, G.boxMin, G.boxMax, hdx, ?_,
    G.size, ?_⟩
  · unfold Req.make
    rw [e0, M.ok_bind, e]
  · intro a ha
    rw [G.oneOverDx, if_pos ha, hdx]
  · intro c hc
    rw [G.node c hc]
    unfold Grid.elem
    rw [G.pad, G.mask0, G.mask1, G.mask2]

theorem make_made {s : IntSem} {r : Req K} (h : r.Valid d) {g : Grid K d} (e : r.make s d = .ok g) : g.Made s r := by
  obtain ⟨g', e', G⟩ := make_ok s h
  rw [e] at e'
  cases e'
  exact G

theorem Grid.Made.inPad {s : IntSem} {r : Req K} {g : Grid K d} (G : g.Made s r) {c : Cell} :
    g.InPad c ↔ r.Padded d c := by
  rw [Grid.inPad_iff G.shape, G.nx, G.ny, G.nz, G.pad]; rfl

theorem Grid.Made.interior {s : IntSem} {r : Req K} {g : Grid K d} (G : g.Made s r) {c : Cell} :
    g.Interior c ↔ r.Interior c := by
  unfold Grid.Interior Req.Interior InteriorCell
  rw [G.nx, G.ny, G.nz]

end Gals
