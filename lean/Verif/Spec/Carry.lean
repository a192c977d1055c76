import Verif.Spec.Levelset

/-!
# A level set object between steps
-/

namespace Gals.Spec

open Gals

variable {K : Type} [Zero K] [One K] [Add K] [_root_.Sub K] [Mul K] [Div K] [Neg K] [NatCast K] [IntCast K]
  [LT K] [DecidableLT K] [LE K] [DecidableLE K] {d : ℕ}

/-- The level set has the values `F` and the gradients `G`, ghost cells included; its other arrays belong to the same grid and can
hold anything, except that the mixed derivatives (of which there are none on a line) are `mix`. -/
structure Holds (s : IntSem) (r : Req K) (g : Grid K d) (ls : Levelset K) (F : Cell → K) (G : Cell → Vec3 K) (mix : List K) : Prop where
  phi : FieldIs s r g ls.phi F
  psi : FieldIs s r g ls.psi G
  phiPrev : ∃ f, FieldIs s r g ls.phiPrev f
  psiPrev : ∃ f, FieldIs s r g ls.psiPrev f
  phiInterpPrev : ∃ f, FieldIs s r g ls.phiInterpPrev f
  psiInterpPrev : ∃ f, FieldIs s r g ls.psiInterpPrev f
  mixed : FieldIs s r g ls.phiMixedPrev (fun _ => mix)

end Gals.Spec
