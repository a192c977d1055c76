import Verif.Spec.RefLinear
import Verif.Model.RefMain

/-!
# Level sets of the reference programs times a number plus a constant
-/

namespace Gals.Spec

variable {K : Type} [Add K] [Mul K]

/-- The values times `k` plus `a`, the derivatives times `k`. -/
def Fields.level (k a : K) (F : Fields K) : Fields K :=
  ⟨fun i j => k * F.phi i j + a, fun i j => k * F.psix i j, fun i j => k * F.psiy i j, fun i j => k * F.psixy i j⟩

/-- The second initial level set is `k` times the first plus `a`. -/
structure InitialLevels (k a : K) (f f' : Gals.Ref.Initial K) : Prop where
  phi : ∀ x y, f'.phi x y = k * f.phi x y + a
  psix : ∀ x y, f'.psix x y = k * f.psix x y
  psiy : ∀ x y, f'.psiy x y = k * f.psiy x y
  psixy : ∀ x y, f'.psixy x y = k * f.psixy x y

end Gals.Spec
