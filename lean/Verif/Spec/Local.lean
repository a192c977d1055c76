import Verif.Spec.Carry

/-!
# Cells near a cell, and level sets that agree there
-/

namespace Gals.Spec

variable {K : Type} {d : ℕ}

/-- Along each axis the cell `n` is between `lo` and `hi` cells after `c` (negative: before it). -/
def Within (d : ℕ) (lo hi : ℤ) (c n : Cell) : Prop := ∀ a : Fin 3, a.val < d → comp c a + lo ≤ comp n a ∧ comp n a ≤ comp c a + hi

/-- The level set has the values `F`, the gradients `G` and the mixed derivatives `X`, ghost cells included; its other arrays belong to the
same grid and can hold anything. -/
structure Stored (s : IntSem) (r : Req K) (g : Grid K d) (ls : Levelset K) (F : Cell → K) (G : Cell → Vec3 K) (X : Cell → List K) : Prop where
  phi : FieldIs s r g ls.phi F
  psi : FieldIs s r g ls.psi G
  phiPrev : ∃ f, FieldIs s r g ls.phiPrev f
  psiPrev : ∃ f, FieldIs s r g ls.psiPrev f
  phiInterpPrev : ∃ f, FieldIs s r g ls.phiInterpPrev f
  psiInterpPrev : ∃ f, FieldIs s r g ls.psiInterpPrev f
  mixed : FieldIs s r g ls.phiMixedPrev X

/-- Two level sets hold the same in all stored cells between `lo` and `hi` cells after `c`. -/
def SameNear (d : ℕ) (r : Req K) (lo hi : ℤ) (F F' : Cell → K) (G G' : Cell → Vec3 K) (X X' : Cell → List K) (c : Cell) : Prop :=
  ∀ n, r.Padded d n → Within d lo hi c n → F n = F' n ∧ G n = G' n ∧ X n = X' n

/-- The same value and gradient are read at `c`. -/
def SameAt (s : IntSem) (g : Grid K d) (l l' : Levelset K) (c : Cell) : Prop :=
  l.phi.get s g c.1 c.2.1 c.2.2 = l'.phi.get s g c.1 c.2.1 c.2.2 ∧ l.psi.get s g c.1 c.2.1 c.2.2 = l'.psi.get s g c.1 c.2.1 c.2.2

end Gals.Spec
