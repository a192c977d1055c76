import Verif.Spec.Double
import Verif.Spec.Ref
import Verif.Model.Levelset
import Mathlib.Algebra.Order.Floor.Ring
import Mathlib.Data.Rat.Floor

/-!
# The tensor-product Hermite spline through nodal data
-/

namespace Gals.Spec

open Gals

/-- Nodal data: `D a b c` is the derivative of order `a` along `x`, `b` along `y`, `c` along `z`. -/
abbrev Jet := Fin 2 → Fin 2 → Fin 2 → Cell → ℚ

/-- Sum over the two ends of an interval of length `h` of nodal values `f 0` and slopes `f 1` times the basis functions of
order `o` (0: value, 1: derivative) at the point with local coordinate `t`. -/
def hermiteSum (o : Fin 2) (h t : ℚ) (b : ℤ) (f : Fin 2 → ℤ → ℚ) : ℚ :=
  if o = 0 then ∑ i : Fin 2, (hVal i t * f 0 (b + i) + h * hSlope i t * f 1 (b + i))
  else (∑ i : Fin 2, (hVal' i t * f 0 (b + i) + h * hSlope' i t * f 1 (b + i))) / h

/-- One axis of the box: corners and number of cells. -/
structure Axis where
  lo : ℚ
  hi : ℚ
  n : ℤ

/-- Width of a cell. -/
def Axis.h (A : Axis) : ℚ := (A.hi - A.lo) / A.n

/-- The point `q` in cell widths, counted from the centre of cell 0. -/
def Axis.coord (A : Axis) (q : ℚ) : ℚ := (q - A.lo) / A.h - 1 / 2

/-- The piecewise cubic through values `f 0` and slopes `f 1` at the centres of the cells, or its derivative (`o = 1`), at the
point `q`. -/
def Axis.spline (A : Axis) (o : Fin 2) (q : ℚ) (f : Fin 2 → ℤ → ℚ) : ℚ :=
  hermiteSum o A.h (Int.fract (A.coord q)) ⌊A.coord q⌋ f

/-- The axes of the requested grid. -/
def axisOf (r : Req F64) (lo hi : Fin 3 → ℚ) (a : Fin 3) : Axis := ⟨lo a, hi a, r.n.get a⟩

/-- The tensor product of the splines along the used axes, differentiated `o a` times along the axis `a`. -/
def jetSpline (d : ℕ) (A : Fin 3 → Axis) (o : Fin 3 → Fin 2) (D : Jet) (q : Fin 3 → ℚ) : ℚ :=
  (A 0).spline (o 0) (q 0) fun a i =>
    if d = 1 then D a 0 0 (i, 0, 0) else
    (A 1).spline (o 1) (q 1) fun b j =>
      if d = 2 then D a b 0 (i, j, 0) else
      (A 2).spline (o 2) (q 2) fun c k => D a b c (i, j, k)

/-- No derivative. -/
def noD : Fin 3 → Fin 2 := fun _ => 0

/-- First derivative along the axis `a`. -/
def oneD (a : Fin 3) : Fin 3 → Fin 2 := fun b => if b = a then 1 else 0

/-- Orders of the mixed derivatives, in storage order. -/
def mixedOrders (d : ℕ) : List (Fin 2 × Fin 2 × Fin 2) :=
  if d = 1 then [] else if d = 2 then [(1, 1, 0)] else [(1, 1, 0), (0, 1, 1), (1, 0, 1), (1, 1, 1)]

/-- The level set data of a stored cell are the finite numbers `D`. -/
structure JetIs (r : Req F64) (d : ℕ) (phi : Cell → F64) (psi : Cell → Vec3 F64) (mix : Cell → List F64) (D : Jet) : Prop where
  phi : ∀ c, r.Padded d c → HasValue (phi c) (D 0 0 0 c)
  psi : ∀ c, r.Padded d c → ∀ a : Fin 3, a.val < d → HasValue ((psi c).get a) (D (oneD a 0) (oneD a 1) (oneD a 2) c)
  mix : ∀ c, r.Padded d c → List.Forall₂ (fun m o => HasValue m (D o.1 o.2.1 o.2.2 c)) (mix c) (mixedOrders d)

/-- The data of the stored cells are at most `M` when multiplied by the width of a cell for each order of differentiation
along the used axes. -/
def JetLe (r : Req F64) (d : ℕ) (A : Fin 3 → Axis) (D : Jet) (M : ℚ) : Prop :=
  ∀ c, r.Padded d c → ∀ o : Fin 3 → Fin 2, (∀ a : Fin 3, d ≤ a.val → o a = 0) →
    |D (o 0) (o 1) (o 2) c| * ((A 0).h ^ (o 0).val * (A 1).h ^ (o 1).val * (A 2).h ^ (o 2).val) ≤ M

/-- Sizes far from underflow and overflow. -/
def Moderate (x : ℚ) : Prop := (2 : ℚ) ^ (-300 : ℤ) ≤ x ∧ x ≤ 2 ^ 300

/-- The centre of the cell `c`. -/
def nodeAt (A : Fin 3 → Axis) (c : Cell) (a : Fin 3) : ℚ := (A a).lo + (comp c a + 1 / 2) * (A a).h

/-- The point from which the fluid of velocity `υ` comes to the centre of the cell `c` along a straight line in the time `τ`. -/
def departQ (A : Fin 3 → Axis) (τ : ℚ) (υ : Fin 3 → ℚ) (c : Cell) (a : Fin 3) : ℚ := nodeAt A c a - υ a * τ

/-- The gradient of the spline at `q`, transported by the map whose Jacobian matrix is the identity minus `τ` times the velocity
gradient `μ j a = ∂ u_j / ∂ x_a`. -/
def pullGrad (d : ℕ) (A : Fin 3 → Axis) (D : Jet) (τ : ℚ) (μ : Fin 3 → Fin 3 → ℚ) (q : Fin 3 → ℚ) (a : Fin 3) : ℚ :=
  ∑ j : Fin 3, if j.val < d then ((if j = a then 1 else 0) - μ j a * τ) * jetSpline d A (oneD j) D q else 0

end Gals.Spec
