import Verif.Spec.Local

/-!
# Combinations of level sets
-/

namespace Gals.Spec

open Gals

variable {K : Type}

/-- The third level set is `al` times the first plus `be` times the second: all stored values, gradients and mixed derivatives. -/
structure Superposed [Add K] [Mul K] (al be : K) (d : ℕ) (r : Req K) (F₁ F₂ F₃ : Cell → K) (G₁ G₂ G₃ : Cell → Vec3 K) (X₁ X₂ X₃ : Cell → List K) :
    Prop where
  phi : ∀ c, r.Padded d c → F₃ c = al * F₁ c + be * F₂ c
  psi : ∀ c, r.Padded d c → ∀ i, (G₃ c).get i = al * (G₁ c).get i + be * (G₂ c).get i
  mix : ∀ c, r.Padded d c → X₃ c = List.zipWith (fun u v => al * u + be * v) (X₁ c) (X₂ c)

/-- The third level set is `al` times the first plus `be` times the second, in all stored cells, as far as they can be read. -/
def SameSum [Add K] [Mul K] (s : IntSem) (d : ℕ) (al be : K) (r : Req K) (g : Grid K d) (l₁ l₂ l₃ : Levelset K) : Prop :=
  ∀ c, r.Padded d c → ∃ f₁ f₂ p₁ p₂ p₃, l₁.phi.get s g c.1 c.2.1 c.2.2 = .ok f₁ ∧ l₂.phi.get s g c.1 c.2.1 c.2.2 = .ok f₂ ∧
    l₃.phi.get s g c.1 c.2.1 c.2.2 = .ok (al * f₁ + be * f₂) ∧ l₁.psi.get s g c.1 c.2.1 c.2.2 = .ok p₁ ∧
    l₂.psi.get s g c.1 c.2.1 c.2.2 = .ok p₂ ∧ l₃.psi.get s g c.1 c.2.1 c.2.2 = .ok p₃ ∧ ∀ i, p₃.get i = al * p₁.get i + be * p₂.get i

end Gals.Spec
