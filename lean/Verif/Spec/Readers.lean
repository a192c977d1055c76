import Verif.Spec.RefRun
import Verif.Model.Readers

/-!
# What the programs that read the output are meant to show
-/

namespace Gals.Spec

variable {K : Type}

/-- The values of a nodal field, row by row, none missing. -/
def table (nx ny : ℕ) (f : ℕ → ℕ → K) : List (List (Option K)) :=
  (List.range ny).map fun i => (List.range nx).map fun j => some (f i j)

/-- What a reader shows for the snapshots `ss` taken at `times` on the nodes `(xs j, ys i)`. -/
structure Shows (nx ny : ℕ) (xs ys : ℕ → K) (times : List K) (ss : List (Snapshot K)) (m : Ref.Movie K) : Prop where
  x : m.x = (List.range nx).map xs
  y : m.y = (List.range ny).map ys
  times : m.times = times
  phi : m.phi = ss.map fun s => table nx ny s.phi
  psix : m.psix = ss.map fun s => table nx ny s.psix
  psiy : m.psiy = ss.map fun s => table nx ny s.psiy
  psixy : m.psixy = ss.map fun s => table nx ny s.psixy
  velx : m.velx = ss.map fun s => table nx ny s.velx
  vely : m.vely = ss.map fun s => table nx ny s.vely

/-- Two points of a plane are one cell of size `hx × hy` apart along one axis. -/
def OneCellApart [Field K] (hx hy : K) (p q : K × K) : Prop :=
  ((q.1 - p.1 = hx ∨ p.1 - q.1 = hx) ∧ q.2 = p.2) ∨ (q.1 = p.1 ∧ (q.2 - p.2 = hy ∨ p.2 - q.2 = hy))

/-- A surface over a mesh of cells of size `hx × hy`: points next to each other in the matrices are one cell apart, and the value
at each point is that of `f` there. -/
structure CellMesh [Field K] (hx hy : K) (nx ny : ℕ) (f : K × K → K) (s : Surface K) : Prop where
  value : ∀ a < nx, ∀ b < ny, ∃ x y, s.x.entry a b = some x ∧ s.y.entry a b = some y ∧ s.a.entry a b = some (f (x, y))
  down : ∀ a b x y x' y', s.x.entry a b = some x → s.y.entry a b = some y → s.x.entry (a + 1) b = some x' →
    s.y.entry (a + 1) b = some y' → OneCellApart hx hy (x, y) (x', y')
  across : ∀ a b x y x' y', s.x.entry a b = some x → s.y.entry a b = some y → s.x.entry a (b + 1) = some x' →
    s.y.entry a (b + 1) = some y' → OneCellApart hx hy (x, y) (x', y')

end Gals.Spec
