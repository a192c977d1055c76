import Verif.Model.Array

/-!
# Specification vocabulary for grids and arrays

Plain statements about numbers; nothing here uses the model's index formula, masks or loops.
-/

namespace Gals.Spec

open Gals

/-- A request for a grid that the library supports: one, two or three dimensions, at least one cell per axis, one
cell along unused axes, non-negative padding, and a padded cell count representable as a 32-bit `int`. -/
structure ValidGrid (d : ℕ) (nx ny nz pad : ℤ) : Prop where
  dim : d = 1 ∨ d = 2 ∨ d = 3
  nx_pos : 0 < nx
  ny_pos : 0 < ny
  nz_pos : 0 < nz
  ny_one : d < 2 → ny = 1
  nz_one : d < 3 → nz = 1
  pad_nonneg : 0 ≤ pad
  fits : (nx + 2 * pad) * (ny + 2 * pad) * (nz + 2 * pad) ≤ 2147483647

/-- Interior cells. -/
def InteriorCell (nx ny nz : ℤ) (c : Cell) : Prop :=
  (0 ≤ c.1 ∧ c.1 < nx) ∧ (0 ≤ c.2.1 ∧ c.2.1 < ny) ∧ (0 ≤ c.2.2 ∧ c.2.2 < nz)

/-- Padding along the axis number `a`: `pad` if the axis is used, otherwise none. -/
def padAlong (d : ℕ) (pad : ℤ) (a : ℕ) : ℤ := if a < d then pad else 0

/-- Cells of the grid including `pad` ghost cells on either side along each used axis. -/
def PaddedCell (d : ℕ) (nx ny nz pad : ℤ) (c : Cell) : Prop :=
  (-padAlong d pad 0 ≤ c.1 ∧ c.1 < nx + padAlong d pad 0) ∧
  (-padAlong d pad 1 ≤ c.2.1 ∧ c.2.1 < ny + padAlong d pad 1) ∧
  (-padAlong d pad 2 ≤ c.2.2 ∧ c.2.2 < nz + padAlong d pad 2)

/-- What a caller asks for: cell counts, padding and the box (lower and upper corner). -/
structure Req (K : Type) where
  n : Vec3 ℤ
  pad : ℤ
  lo : Vec3 K
  hi : Vec3 K

namespace Req

/-- The request is supported in dimension `d`. -/
def Valid {K : Type} (r : Req K) (d : ℕ) : Prop := ValidGrid d r.n.x r.n.y r.n.z r.pad

/-- Interior cells of the request. -/
def Interior {K : Type} (r : Req K) (c : Cell) : Prop := InteriorCell r.n.x r.n.y r.n.z c

/-- Cells of the request including ghosts. -/
def Padded {K : Type} (r : Req K) (d : ℕ) (c : Cell) : Prop := PaddedCell d r.n.x r.n.y r.n.z r.pad c

/-- The client code `Grid<T, d> g(nx, ny, nz); g.setPadding(pad); g.generate(box...)`. -/
def make {K : Type} [Zero K] [One K] [Add K] [Sub K] [Mul K] [Div K] [NatCast K] [IntCast K]
    (r : Req K) (s : IntSem) (d : ℕ) : M (Grid K d) := do
  let g ← Grid.mk3 s d r.n.x r.n.y r.n.z
  (g.setPadding r.pad).generate s r.lo.x r.hi.x r.lo.y r.hi.y r.lo.z r.hi.z

/-- The box has positive extent along the used axes. -/
def Pos {K : Type} [LT K] (r : Req K) (d : ℕ) : Prop := ∀ a : Fin 3, a.val < d → r.lo.get a < r.hi.get a

/-- Cell width along an axis. -/
def h {K : Type} [Sub K] [Div K] [IntCast K] (r : Req K) (a : Fin 3) : K :=
  (r.hi.get a - r.lo.get a) / ((r.n.get a : ℤ) : K)

/-- Centre of cell number `i` along axis `a` when the box is cut into equal cells. -/
def centre {K : Type} [One K] [Add K] [Sub K] [Mul K] [Div K] [NatCast K] [IntCast K]
    (r : Req K) (a : Fin 3) (i : ℤ) : K :=
  r.lo.get a + ((i : K) + 1 / 2) * r.h a

end Req

/-- Component of a cell along an axis. -/
def comp (c : Cell) : Fin 3 → ℤ
  | 0 => c.1
  | 1 => c.2.1
  | 2 => c.2.2

end Gals.Spec
