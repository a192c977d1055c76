import Verif.Spec.Local

/-!
# A mirror across the `x` axis

`x` becomes `-x`; the first cell becomes the last.
-/

namespace Gals.Spec

open Gals

variable {K : Type} [Neg K]

/-- The vector in the mirror. -/
def flipV (v : Vec3 K) : Vec3 K := ⟨-v.x, v.y, v.z⟩

/-- The cell in the mirror, of `n` along `x`. -/
def flipC (n : ℤ) (c : Cell) : Cell := (n - 1 - c.1, c.2.1, c.2.2)

/-- The same grid in the mirror. -/
def Req.flip (r : Req K) : Req K := ⟨r.n, r.pad, ⟨-r.hi.x, r.lo.y, r.lo.z⟩, ⟨-r.lo.x, r.hi.y, r.hi.z⟩⟩

/-- The matrix in the mirror: entries with one `x` among row and column change their sign. -/
def flipM (m : Mat3 K) : Mat3 K :=
  .mk9 (m.entry 0 0) (-m.entry 0 1) (-m.entry 0 2) (-m.entry 1 0) (m.entry 1 1) (m.entry 1 2) (-m.entry 2 0) (m.entry 2 1) (m.entry 2 2)

/-- The mixed derivatives `xy`, `yz`, `zx`, `xyz`, or only `xy`, in the mirror. -/
def flipMix : List K → List K
  | [xy, yz, zx, xyz] => [-xy, yz, -zx, -xyz]
  | [xy] => [-xy]
  | l => l

/-- The second level set is the first in the mirror. -/
structure Flipped (d : ℕ) (r : Req K) (F F' : Cell → K) (G G' : Cell → Vec3 K) (X X' : Cell → List K) : Prop where
  phi : ∀ c, r.Padded d c → F' (flipC r.n.x c) = F c
  psi : ∀ c, r.Padded d c → G' (flipC r.n.x c) = flipV (G c)
  mix : ∀ c, r.Padded d c → X' (flipC r.n.x c) = flipMix (X c)

/-- The values and gradients of the second level set, all stored cells included, are those of the first in the mirror. -/
def SameFlipped (s : IntSem) (d : ℕ) (r : Req K) (g g' : Grid K d) (l l' : Levelset K) : Prop :=
  ∀ c, r.Padded d c → ∃ f p, l.phi.get s g c.1 c.2.1 c.2.2 = .ok f ∧ l.psi.get s g c.1 c.2.1 c.2.2 = .ok p ∧
    l'.phi.get s g' (flipC r.n.x c).1 (flipC r.n.x c).2.1 (flipC r.n.x c).2.2 = .ok f ∧
    l'.psi.get s g' (flipC r.n.x c).1 (flipC r.n.x c).2.1 (flipC r.n.x c).2.2 = .ok (flipV p)

end Gals.Spec
