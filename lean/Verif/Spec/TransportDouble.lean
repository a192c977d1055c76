import Verif.Spec.Spline
import Verif.Spec.Transport

/-!
# Double data near a solution of the level set equation
-/

namespace Gals.Spec

open Gals

/-- A rational point in the first `d` coordinates, 0 in the others, as a point of space. -/
noncomputable def pointR (d : ℕ) (q : Fin 3 → ℚ) (a : Fin 3) : ℝ := if a.val < d then (q a : ℝ) else 0

/-- Widths of cells, as real numbers. -/
noncomputable abbrev wid (r : Req F64) (lo hi : Fin 3 → ℚ) (a : Fin 3) : ℝ := ((axisOf r lo hi a).h : ℝ)

/-- Three real numbers as a vector. -/
def vecR (v : Fin 3 → ℝ) : Vec3 ℝ := ⟨v 0, v 1, v 2⟩

/-- Nine real numbers, by row and column, as a matrix. -/
def matR (m : Fin 3 → Fin 3 → ℝ) : Mat3 ℝ := Mat3.mk9 (m 0 0) (m 0 1) (m 0 2) (m 1 0) (m 1 1) (m 1 2) (m 2 0) (m 2 1) (m 2 2)

/-- The nodal data `D` of the stored cells are the numbers `F` at the centres of the cells, up to `ε` when multiplied by the width of a
cell for each order of differentiation along the used axes. -/
def JetNear (r : Req F64) (d : ℕ) (A : Fin 3 → Axis) (D : Jet) (F : Fin 2 → Fin 2 → Fin 2 → (Fin 3 → ℝ) → ℝ) (ε : ℝ) : Prop :=
  ∀ c, r.Padded d c → ∀ o : Fin 3 → Fin 2, (∀ a : Fin 3, d ≤ a.val → o a = 0) →
    |(D (o 0) (o 1) (o 2) c : ℝ) - F (o 0) (o 1) (o 2) (pointR d (nodeAt A c))| *
      (((A 0).h : ℝ) ^ (o 0).val * ((A 1).h : ℝ) ^ (o 1).val * ((A 2).h : ℝ) ^ (o 2).val) ≤ ε

/-- The outcome `res` of an interpolation are finite numbers: the value of `f` at `q` up to `E`, its derivatives along the used axes up to
`E' a`, and 0 along the others. -/
def InterpNear (d : ℕ) (res : M (Interp F64)) (q : Fin 3 → ℚ) (f : (Fin 3 → ℝ) → ℝ) (f' : Fin 3 → (Fin 3 → ℝ) → ℝ) (E : ℝ)
    (E' : Fin 3 → ℝ) : Prop :=
  ∃ (out : Interp F64) (v : ℚ), res = .ok out ∧ HasValue out.phi v ∧ |(v : ℝ) - f (pointR d q)| ≤ E ∧
    (∀ a : Fin 3, d ≤ a.val → out.psi.get a = 0) ∧
    ∀ a : Fin 3, a.val < d → ∃ w : ℚ, HasValue (out.psi.get a) w ∧ |(w : ℝ) - f' a (pointR d q)| ≤ E' a

/-- The first derivatives among the functions `F i j k`. -/
def firstD (F : Fin 2 → Fin 2 → Fin 2 → (Fin 3 → ℝ) → ℝ) (a : Fin 3) : (Fin 3 → ℝ) → ℝ := F (oneD a 0) (oneD a 1) (oneD a 2)

/-- The outcome `res` of a step is a level set of finite numbers that are, at every interior cell, those of `f` at the centre of the
cell at the time `t`, up to `E` for the value and `E' a` for the derivative along the axis `a`. -/
def StepNear (s : IntSem) (d : ℕ) (r : Req F64) (g : Grid F64 d) (res : M (Levelset F64)) (A : Fin 3 → Axis)
    (f : (Fin 3 → ℝ) → ℝ → ℝ) (t E : ℝ) (E' : Fin 3 → ℝ) : Prop :=
  ∃ ls', res = .ok ls' ∧ ∀ c, r.Interior c → ∃ (p : F64) (q : Vec3 F64),
    ls'.phi.get s g c.1 c.2.1 c.2.2 = .ok p ∧ ls'.psi.get s g c.1 c.2.1 c.2.2 = .ok q ∧
    (∃ v : ℚ, HasValue p v ∧ |(v : ℝ) - f (pointR d (nodeAt A c)) t| ≤ E) ∧
    ∀ a : Fin 3, a.val < d → ∃ w : ℚ, HasValue (q.get a) w ∧ |(w : ℝ) - partialX f a (pointR d (nodeAt A c)) t| ≤ E' a

end Gals.Spec
