import Verif.Spec.Local

/-!
# Level sets times a number plus a constant
-/

namespace Gals.Spec

open Gals

variable {K : Type}

/-- The second level set is `k` times the first plus `a`: all stored values, gradients and mixed derivatives. -/
structure Levels [Add K] [Mul K] (k a : K) (d : ℕ) (r : Req K) (F F' : Cell → K) (G G' : Cell → Vec3 K) (X X' : Cell → List K) : Prop where
  phi : ∀ c, r.Padded d c → F' c = k * F c + a
  psi : ∀ c, r.Padded d c → ∀ i, (G' c).get i = k * (G c).get i
  mix : ∀ c, r.Padded d c → X' c = (X c).map (k * ·)

/-- The second level set is `k` times the first plus `a`, in all stored cells, as far as they can be read. -/
def SameLevels [Add K] [Mul K] (s : IntSem) (d : ℕ) (k a : K) (r : Req K) (g : Grid K d) (l l' : Levelset K) : Prop :=
  ∀ c, r.Padded d c → ∃ f p p', l.phi.get s g c.1 c.2.1 c.2.2 = .ok f ∧ l.psi.get s g c.1 c.2.1 c.2.2 = .ok p ∧
    l'.phi.get s g c.1 c.2.1 c.2.2 = .ok (k * f + a) ∧ l'.psi.get s g c.1 c.2.1 c.2.2 = .ok p' ∧ ∀ i, p'.get i = k * p.get i

end Gals.Spec
