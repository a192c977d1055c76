import Verif.Spec.Local
import Mathlib.Logic.Equiv.Basic
import Mathlib.Data.Fin.VecNotation
import Mathlib.GroupTheory.Perm.Basic

/-!
# Renaming the axes

`σ` says which old axis each new axis is: the new `x` axis is the old axis `σ 0`, and so on.
-/

namespace Gals.Spec

open Gals

variable {K : Type}

/-- The vector in the new axes. -/
def permV (σ : Equiv.Perm (Fin 3)) (v : Vec3 K) : Vec3 K := ⟨v.get (σ 0), v.get (σ 1), v.get (σ 2)⟩

/-- The cell in the new axes. -/
def permC (σ : Equiv.Perm (Fin 3)) (c : Cell) : Cell := (comp c (σ 0), comp c (σ 1), comp c (σ 2))

/-- The same grid in the new axes. -/
def Req.perm (σ : Equiv.Perm (Fin 3)) (r : Req K) : Req K := ⟨permV σ r.n, r.pad, permV σ r.lo, permV σ r.hi⟩

/-- The matrix in the new axes. -/
def permM (σ : Equiv.Perm (Fin 3)) (m : Mat3 K) : Mat3 K :=
  .mk9 (m.entry (σ 0) (σ 0)) (m.entry (σ 0) (σ 1)) (m.entry (σ 0) (σ 2)) (m.entry (σ 1) (σ 0)) (m.entry (σ 1) (σ 1)) (m.entry (σ 1) (σ 2))
    (m.entry (σ 2) (σ 0)) (m.entry (σ 2) (σ 1)) (m.entry (σ 2) (σ 2))

/-- The mixed derivatives `xy`, `yz`, `zx`, `xyz` in the new axes; each of the first three is named by the axis it leaves out. In a plane there
is only `xy`, which is the same in both. -/
def permMix (σ : Equiv.Perm (Fin 3)) : List K → List K
  | [xy, yz, zx, xyz] => let without : Fin 3 → K := ![yz, zx, xy]
    [without (σ 2), without (σ 0), without (σ 1), xyz]
  | l => l

/-- Used axes stay used. -/
def KeepsUsed (d : ℕ) (σ : Equiv.Perm (Fin 3)) : Prop := ∀ a : Fin 3, (σ a).val < d ↔ a.val < d

/-- The second level set is the first in the new axes. -/
structure Turned (d : ℕ) (σ : Equiv.Perm (Fin 3)) (r : Req K) (F F' : Cell → K) (G G' : Cell → Vec3 K) (X X' : Cell → List K) : Prop where
  phi : ∀ c, r.Padded d c → F' (permC σ c) = F c
  psi : ∀ c, r.Padded d c → G' (permC σ c) = permV σ (G c)
  mix : ∀ c, r.Padded d c → X' (permC σ c) = permMix σ (X c)

/-- The values and gradients of the second level set, all stored cells included, are those of the first in the new axes. -/
def SameTurned (s : IntSem) (d : ℕ) (σ : Equiv.Perm (Fin 3)) (r : Req K) (g g' : Grid K d) (l l' : Levelset K) : Prop :=
  ∀ c, r.Padded d c → ∃ f p, l.phi.get s g c.1 c.2.1 c.2.2 = .ok f ∧ l.psi.get s g c.1 c.2.1 c.2.2 = .ok p ∧
    l'.phi.get s g' (permC σ c).1 (permC σ c).2.1 (permC σ c).2.2 = .ok f ∧
    l'.psi.get s g' (permC σ c).1 (permC σ c).2.1 (permC σ c).2.2 = .ok (permV σ p)

end Gals.Spec
