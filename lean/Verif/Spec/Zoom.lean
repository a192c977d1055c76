import Verif.Spec.Local

/-!
# Another origin and other units of length

Along each axis the coordinate `x` becomes `z x + o`, with a `z` of its own.
-/

namespace Gals.Spec

open Gals

variable {K : Type}

/-- The point in the other coordinates. -/
def zoomP [Add K] [Mul K] (z o x : Vec3 K) : Vec3 K := ⟨z.x * x.x + o.x, z.y * x.y + o.y, z.z * x.z + o.z⟩

/-- The velocity in the other units. -/
def zoomU [Mul K] (z v : Vec3 K) : Vec3 K := ⟨z.x * v.x, z.y * v.y, z.z * v.z⟩

/-- The slopes in the other units. -/
def zoomG [Div K] (z v : Vec3 K) : Vec3 K := ⟨v.x / z.x, v.y / z.y, v.z / z.z⟩

/-- The velocity gradient in the other units: entry `(i, j)` is the change along `j` of the velocity along `i`. -/
def zoomM [Mul K] [Div K] (z : Vec3 K) (m : Mat3 K) : Mat3 K :=
  .mk9 (m.entry 0 0) (m.entry 0 1 * z.x / z.y) (m.entry 0 2 * z.x / z.z) (m.entry 1 0 * z.y / z.x) (m.entry 1 1) (m.entry 1 2 * z.y / z.z)
    (m.entry 2 0 * z.z / z.x) (m.entry 2 1 * z.z / z.y) (m.entry 2 2)

/-- The mixed derivatives `xy`, `yz`, `zx`, `xyz`, or only `xy`, in the other units. -/
def zoomX [Mul K] [Div K] (z : Vec3 K) : List K → List K
  | [xy, yz, zx, xyz] => [xy / (z.x * z.y), yz / (z.y * z.z), zx / (z.z * z.x), xyz / (z.x * z.y * z.z)]
  | [xy] => [xy / (z.x * z.y)]
  | l => l

/-- The same grid in the other coordinates. -/
def Req.zoom [Add K] [Mul K] (z o : Vec3 K) (r : Req K) : Req K := ⟨r.n, r.pad, zoomP z o r.lo, zoomP z o r.hi⟩

/-- The second level set is the first in the other coordinates. -/
structure Zoomed [Mul K] [Div K] [One K] [Add K] [Sub K] [NatCast K] [IntCast K] (z : Vec3 K) (d : ℕ) (r : Req K) (F F' : Cell → K)
    (G G' : Cell → Vec3 K) (X X' : Cell → List K) : Prop where
  phi : ∀ c, r.Padded d c → F' c = F c
  psi : ∀ c, r.Padded d c → G' c = zoomG z (G c)
  mix : ∀ c, r.Padded d c → X' c = zoomX z (X c)

/-- The values of the second level set, all stored cells included, are those of the first, and the gradients are those of the first in the
other units. -/
def SameZoomed [Div K] (s : IntSem) (d : ℕ) (z : Vec3 K) (r : Req K) (g g' : Grid K d) (l l' : Levelset K) : Prop :=
  ∀ c, r.Padded d c → ∃ f p, l.phi.get s g c.1 c.2.1 c.2.2 = .ok f ∧ l.psi.get s g c.1 c.2.1 c.2.2 = .ok p ∧
    l'.phi.get s g' c.1 c.2.1 c.2.2 = .ok f ∧ l'.psi.get s g' c.1 c.2.1 c.2.2 = .ok (zoomG z p)

end Gals.Spec
