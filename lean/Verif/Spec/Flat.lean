import Verif.Spec.Local

/-!
# Data that do not depend on the last axis
-/

namespace Gals.Spec

open Gals

variable {K : Type}

/-- The grid without the axis number `d`. -/
def Req.low (d : ℕ) (r : Req K) : Req K := ⟨⟨r.n.x, if 1 < d then r.n.y else 1, 1⟩, r.pad, r.lo, r.hi⟩

/-- The cell without the coordinates from axis number `d` on. -/
def lowC (d : ℕ) (c : Cell) : Cell := (c.1, if 1 < d then c.2.1 else 0, 0)

/-- Gradients in `d` and in `d + 1` dimensions: the slope along the last axis is zero. -/
def FlatV [Zero K] (d : ℕ) (v v' : Vec3 K) : Prop := ∀ a : Fin 3, a.val < d + 1 → v'.get a = if a.val < d then v.get a else 0

/-- Mixed derivatives in `d` and in `d + 1` dimensions: those with the last axis are zero. -/
def FlatX [Zero K] (d : ℕ) (l l' : List K) : Prop := l' = if d = 1 then [0] else l ++ [0, 0, 0]

/-- The second level set, in `d + 1` dimensions, is the first, in `d` dimensions, for every value of the last coordinate. -/
structure Flat [Zero K] (d : ℕ) (r : Req K) (F F' : Cell → K) (G G' : Cell → Vec3 K) (X X' : Cell → List K) : Prop where
  phi : ∀ c, r.Padded (d + 1) c → F' c = F (lowC d c)
  psi : ∀ c, r.Padded (d + 1) c → FlatV d (G (lowC d c)) (G' c)
  mix : ∀ c, r.Padded (d + 1) c → FlatX d (X (lowC d c)) (X' c)

/-- Velocity gradients in `d` and in `d + 1` dimensions: the first `d` velocities do not change along the last axis.  How the last velocity changes is
left open. -/
def FlatM [Zero K] (d : ℕ) (m m' : Mat3 K) : Prop :=
  ∀ a b : Fin 3, a.val < d → b.val < d + 1 → m'.entry a b = if b.val < d then m.entry a b else 0

/-- At each interior cell the level set in `d + 1` dimensions has the value and the gradient of the other at the cell without the last coordinate. -/
def SameFlat [Zero K] (d : ℕ) (r : Req K) (g : Grid K d) (g' : Grid K (d + 1)) (l l' : Levelset K) : Prop :=
  ∀ c, r.Interior c → ∃ f p p', l.phi.get .wrap g (lowC d c).1 (lowC d c).2.1 (lowC d c).2.2 = .ok f ∧
    l.psi.get .wrap g (lowC d c).1 (lowC d c).2.1 (lowC d c).2.2 = .ok p ∧ l'.phi.get .wrap g' c.1 c.2.1 c.2.2 = .ok f ∧
    l'.psi.get .wrap g' c.1 c.2.1 c.2.2 = .ok p' ∧ FlatV d p p'

end Gals.Spec
