import Verif.Spec.RefRun
import Mathlib.Algebra.Field.Basic
import Mathlib.Algebra.BigOperators.Group.Finset.Basic

/-!
# Fields whose transport is known
-/

namespace Gals.Spec

variable {K : Type} [Field K]

/-- `F + k G`, field by field and node by node. -/
def combine (k : K) (F G : Fields K) : Fields K :=
  ⟨fun i j => F.phi i j + k * G.phi i j, fun i j => F.psix i j + k * G.psix i j, fun i j => F.psiy i j + k * G.psiy i j,
    fun i j => F.psixy i j + k * G.psixy i j⟩

/-- The function `a + b x + c y` at the nodes, with its derivatives. -/
def affine (a b c : K) (xs ys : ℕ → K) : Fields K :=
  ⟨fun i j => a + b * xs j + c * ys i, fun _ _ => b, fun _ _ => c, fun _ _ => 0⟩

/-- A polynomial of degree at most three in each variable: coefficient `q a b` of `x ^ a * y ^ b`. -/
def poly (q : ℕ → ℕ → K) (x y : K) : K := ∑ a ∈ Finset.range 4, ∑ b ∈ Finset.range 4, q a b * x ^ a * y ^ b
/-- Its derivative in `x`. -/
def polyX (q : ℕ → ℕ → K) (x y : K) : K :=
  ∑ a ∈ Finset.range 4, ∑ b ∈ Finset.range 4, q a b * (a * x ^ (a - 1)) * y ^ b
/-- Its derivative in `y`. -/
def polyY (q : ℕ → ℕ → K) (x y : K) : K :=
  ∑ a ∈ Finset.range 4, ∑ b ∈ Finset.range 4, q a b * x ^ a * (b * y ^ (b - 1))
/-- Its mixed derivative. -/
def polyXY (q : ℕ → ℕ → K) (x y : K) : K :=
  ∑ a ∈ Finset.range 4, ∑ b ∈ Finset.range 4, q a b * (a * x ^ (a - 1)) * (b * y ^ (b - 1))

/-- The polynomial at the nodes, with its derivatives. -/
def polyFields (q : ℕ → ℕ → K) (xs ys : ℕ → K) : Fields K :=
  ⟨fun i j => poly q (xs j) (ys i), fun i j => polyX q (xs j) (ys i), fun i j => polyY q (xs j) (ys i),
    fun i j => polyXY q (xs j) (ys i)⟩

end Gals.Spec
