import Verif.Spec.RefRun

/-!
# Cells around a node
-/

namespace Gals.Spec

section cells
variable {K : Type} [LinearOrder K]

/-- The closed interval between the nodes `c` and `c + 1` contains `p`. -/
def InCell (xs : ℕ → K) (n : ℕ) (p : K) (c : ℕ) : Prop := c + 1 < n ∧ xs c ≤ p ∧ p ≤ xs (c + 1)

/-- Interval `c` has the node `b` as an end. -/
def Touches (n b c : ℕ) : Prop := (c = b ∨ c + 1 = b) ∧ c + 1 < n

/-- Interval `c` contains `p` and has the node `b` as an end. -/
def NextTo (xs : ℕ → K) (n : ℕ) (p : K) (b c : ℕ) : Prop := Touches n b c ∧ InCell xs n p c

/-- Class of a departure point of the domain with its boundary: 1 in the domain, 2 outside only along `y`, 3 outside only along
`x`, 4 outside along both. -/
def closedClass (xs ys : ℕ → K) (nx ny : ℕ) (p : K × K) : ℕ :=
  if xs 0 ≤ p.1 ∧ p.1 ≤ xs (nx - 1) then (if ys 0 ≤ p.2 ∧ p.2 ≤ ys (ny - 1) then 1 else 2)
  else (if ys 0 ≤ p.2 ∧ p.2 ≤ ys (ny - 1) then 3 else 4)

end cells

/-- The departure point `p` of a node at `x` is at most `d` away from it along this axis. -/
def Near {K : Type} [Add K] [_root_.Sub K] [LE K] (x d p : K) : Prop := x - d ≤ p ∧ p ≤ x + d

end Gals.Spec
