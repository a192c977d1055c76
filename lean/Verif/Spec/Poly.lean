import Mathlib.Algebra.Polynomial.Derivative
import Mathlib.Algebra.Polynomial.BigOperators
import Mathlib.Algebra.Polynomial.Degree.Lemmas
import Mathlib.Algebra.BigOperators.Fin
import Mathlib.Tactic.Ring

/-!
# Polynomials of degree at most 3 in each variable, and their partial derivatives
-/

namespace Gals.Spec

variable {K : Type} [CommRing K]

/-- `a₀ + a₁ x + a₂ x² + a₃ x³`. -/
def cubic (a : Fin 4 → K) (x : K) : K := a 0 + a 1 * x + a 2 * x ^ 2 + a 3 * x ^ 3

/-- Derivative of `cubic a`. -/
def cubic' (a : Fin 4 → K) (x : K) : K := a 1 + 2 * a 2 * x + 3 * a 3 * x ^ 2

/-- The polynomial with the coefficients `a`. -/
noncomputable def toPoly (a : Fin 4 → K) : Polynomial K :=
  .C (a 0) + .C (a 1) * .X + .C (a 2) * .X ^ 2 + .C (a 3) * .X ^ 3

theorem toPoly_eval (a : Fin 4 → K) (x : K) : (toPoly a).eval x = cubic a x := by simp [toPoly, cubic]

/-- `cubic'` is the derivative in the sense of Mathlib. -/
theorem toPoly_derivative_eval (a : Fin 4 → K) (x : K) : (toPoly a).derivative.eval x = cubic' a x := by
  simp [toPoly, cubic']
  ring

/-- Every polynomial of degree at most 3 is a `cubic`. -/
theorem cubic_of_poly (p : Polynomial K) (hp : p.natDegree ≤ 3) :
    p = toPoly (fun i => p.coeff i) := by
  conv_lhs => rw [p.as_sum_range_C_mul_X_pow' (n := 4) (by omega)]
  simp [toPoly, Finset.sum_range_succ]

/-- `∑ aᵢⱼ xⁱ yʲ`. -/
def bicubic (a : Fin 4 → Fin 4 → K) (x y : K) : K := cubic (fun i => cubic (a i) y) x
/-- `∂/∂x` of `bicubic a`. -/
def bicubicX (a : Fin 4 → Fin 4 → K) (x y : K) : K := cubic' (fun i => cubic (a i) y) x
/-- `∂/∂y` of `bicubic a`. -/
def bicubicY (a : Fin 4 → Fin 4 → K) (x y : K) : K := cubic (fun i => cubic' (a i) y) x
/-- `∂²/∂x∂y` of `bicubic a`. -/
def bicubicXY (a : Fin 4 → Fin 4 → K) (x y : K) : K := cubic' (fun i => cubic' (a i) y) x

/-- `∑ aᵢⱼₖ xⁱ yʲ zᵏ`, with the chosen derivatives: each of `fx`, `fy`, `fz` is `cubic` or `cubic'`. -/
def tri (fx fy fz : (Fin 4 → K) → K → K) (a : Fin 4 → Fin 4 → Fin 4 → K) (x y z : K) : K :=
  fx (fun i => fy (fun j => fz (a i j) z) y) x

/-- Order of summation does not matter: the nested form is the sum over all monomials. -/
theorem bicubic_eq_sum (a : Fin 4 → Fin 4 → K) (x y : K) :
    bicubic a x y = ∑ i : Fin 4, ∑ j : Fin 4, a i j * x ^ (i : ℕ) * y ^ (j : ℕ) := by
  simp [bicubic, cubic, Fin.sum_univ_four]
  ring

theorem tri_eq_sum (a : Fin 4 → Fin 4 → Fin 4 → K) (x y z : K) :
    tri cubic cubic cubic a x y z =
      ∑ i : Fin 4, ∑ j : Fin 4, ∑ k : Fin 4, a i j k * x ^ (i : ℕ) * y ^ (j : ℕ) * z ^ (k : ℕ) := by
  simp [tri, cubic, Fin.sum_univ_four]
  ring

end Gals.Spec
