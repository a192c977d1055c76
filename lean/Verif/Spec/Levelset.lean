import Verif.Spec.Grid
import Verif.Model.Levelset

/-!
# Specification vocabulary for level sets
-/

namespace Gals.Spec

open Gals

variable {K : Type} {d : ℕ}

/-- The previous-step fields of a level set on the grid `g`, as functions of the cell: values, gradients, and the list
of mixed derivatives (none in 1D; `xy` in 2D; `xy, yz, zx, xyz` in 3D). -/
structure PrevIs (s : IntSem) (r : Req K) (g : Grid K d) (ls : Levelset K)
    (phi : Cell → K) (psi : Cell → Vec3 K) (mix : Cell → List K) : Prop where
  phi : ∀ c, r.Padded d c → ls.phiPrev.get s g c.1 c.2.1 c.2.2 = .ok (phi c)
  psi : ∀ c, r.Padded d c → ls.psiPrev.get s g c.1 c.2.1 c.2.2 = .ok (psi c)
  mix : ∀ c, r.Padded d c → ls.phiMixedPrev.get s g c.1 c.2.1 c.2.2 = .ok (mix c)

/-- A field on the grid `g`: it has one slot per grid slot and the extents of the request, and reads as `f` on padded
cells.  Constructed arrays are of this form, and stay so under writes. -/
structure FieldIs {T : Type} (s : IntSem) (r : Req K) (g : Grid K d) (a : Arr T) (f : Cell → T) : Prop where
  len : a.data.length = g.size
  ext : a.numCells = r.n
  val : ∀ c, r.Padded d c → a.get s g c.1 c.2.1 c.2.2 = .ok (f c)

instance (r : Req K) (c : Cell) : Decidable (r.Interior c) := by
  unfold Req.Interior InteriorCell; infer_instance

/-- Along axis `a` the point is between the first and the last stored node, counted by cells: the cell containing the
point (cells start at centres) and its successor are both stored. -/
def InStorage [One K] [Add K] [Sub K] [Mul K] [Div K] [NatCast K] [IntCast K] [LE K] [LT K]
    (r : Req K) (d : ℕ) (x : Vec3 K) : Prop :=
  ∀ a : Fin 3, a.val < d → r.centre a (-r.pad) ≤ x.get a ∧ x.get a < r.centre a (r.n.get a + r.pad - 1)

/-- The base cell of a point: `centre b ≤ x < centre (b + 1)` along used axes, 0 along unused ones, and both `b` and
`b + 1` stored. -/
structure BaseCell [One K] [Add K] [Sub K] [Mul K] [Div K] [NatCast K] [IntCast K] [LE K] [LT K]
    (r : Req K) (d : ℕ) (x : Vec3 K) (b : Cell) : Prop where
  lo : ∀ a : Fin 3, a.val < d → r.centre a (comp b a) ≤ x.get a
  hi : ∀ a : Fin 3, a.val < d → x.get a < r.centre a (comp b a + 1)
  stored : ∀ a : Fin 3, a.val < d → -r.pad ≤ comp b a ∧ comp b a + 1 < r.n.get a + r.pad
  unused : ∀ a : Fin 3, ¬ a.val < d → comp b a = 0

/-- Components of a vector along used axes, zero along the others. -/
def onAxes [Zero K] (d : ℕ) (v : Vec3 K) : Vec3 K := ⟨v.x, if 1 < d then v.y else 0, if 2 < d then v.z else 0⟩

/-- `al * u + be * v`, by component. -/
def comb [Add K] [Mul K] (al be : K) (u v : Vec3 K) : Vec3 K :=
  ⟨al * u.x + be * v.x, al * u.y + be * v.y, al * u.z + be * v.z⟩

end Gals.Spec
