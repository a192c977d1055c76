import Verif.Model.Array

/-!
# `Levelset<T_GRID, T>` (`include/gals/cpu/levelset.h`, `src/cpu/levelset.cc`)
-/

namespace Gals

variable {K : Type} {d : ℕ} [Zero K]

/-- `num_mixed_derivatives` (`include/gals/utilities/grid.h:46-61`). -/
def numMixed (d : ℕ) : ℕ := if d = 1 then 0 else if d = 2 then 1 else 4

/-- Fields of a `Levelset` (`include/gals/cpu/levelset.h:202-211`); the grid reference is passed to each function. -/
structure Levelset (K : Type) where
  phi : Arr K
  psi : Arr (Vec3 K)
  phiMixed : Arr (VecN K)
  phiPrev : Arr K
  psiPrev : Arr (Vec3 K)
  phiMixedPrev : Arr (VecN K)
  phiInterpPrev : Arr K
  psiInterpPrev : Arr (Vec3 K)

/-- Constructor (`src/cpu/levelset.cc:36-48`). -/
def Levelset.mk' (g : Grid K d) : Levelset K :=
  { phi := Arr.mk' g 0, psi := Arr.mk' g Vec3.zero, phiMixed := Arr.mk' g (VecN.init (numMixed d)),
    phiPrev := Arr.mk' g 0, psiPrev := Arr.mk' g Vec3.zero, phiMixedPrev := Arr.mk' g (VecN.init (numMixed d)),
    phiInterpPrev := Arr.mk' g 0, psiInterpPrev := Arr.mk' g Vec3.zero }

/-- `InterpolatedFields` (`include/gals/cpu/levelset.h:49-63`). -/
structure Interp (K : Type) where
  phi : K
  psi : Vec3 K

end Gals
