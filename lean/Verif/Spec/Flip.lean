import Verif.Model.Levelset
import Verif.Model.Double

/-!
# Level sets that differ by exchanging inside and outside, or by a change of units
-/

namespace Gals.Spec

/-- Opposite doubles, bit for bit except for the sign of zero (which is lost in `x - x`): opposite infinities, two NaN, or numbers of
the same magnitude with opposite signs. -/
def Opp : F64 → F64 → Prop
  | .nan, .nan => True
  | .inf s, .inf t => t = !s
  | .fin s a _, .fin t b _ => a = b ∧ (a = 0 ∨ t = !s)
  | _, _ => False

/-- Related components. -/
structure Vec3Rel {K : Type} (R : K → K → Prop) (v w : Vec3 K) : Prop where
  x : R v.x w.x
  y : R v.y w.y
  z : R v.z w.z

/-- Arrays of the same shape with related elements. -/
structure ArrRel {T : Type} (R : T → T → Prop) (a b : Arr T) : Prop where
  nx : a.nx = b.nx
  ny : a.ny = b.ny
  nz : a.nz = b.nz
  pad : a.pad = b.pad
  data : List.Forall₂ R a.data b.data

/-- Related level sets: values, gradients and mixed derivatives of all generations. -/
structure LsRel {K : Type} (R : K → K → Prop) (a b : Levelset K) : Prop where
  phi : ArrRel R a.phi b.phi
  psi : ArrRel (Vec3Rel R) a.psi b.psi
  phiMixed : ArrRel (List.Forall₂ R) a.phiMixed b.phiMixed
  phiPrev : ArrRel R a.phiPrev b.phiPrev
  psiPrev : ArrRel (Vec3Rel R) a.psiPrev b.psiPrev
  phiMixedPrev : ArrRel (List.Forall₂ R) a.phiMixedPrev b.phiMixedPrev
  phiInterpPrev : ArrRel R a.phiInterpPrev b.phiInterpPrev
  psiInterpPrev : ArrRel (Vec3Rel R) a.psiInterpPrev b.psiInterpPrev

/-- Related results of an interpolation. -/
structure InterpRel {K : Type} (R : K → K → Prop) (a b : Interp K) : Prop where
  phi : R a.phi b.phi
  psi : Vec3Rel R a.psi b.psi

/-- The same fault, or related results. -/
inductive Same {α β : Type} (R : α → β → Prop) : M α → M β → Prop
  | ok {a : α} {b : β} : R a b → Same R (.ok a) (.ok b)
  | error (f : Fault) : Same R (.error f) (.error f)

end Gals.Spec
