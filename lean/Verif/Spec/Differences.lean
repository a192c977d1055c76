import Mathlib.Analysis.Calculus.IteratedDeriv.Lemmas
import Verif.Spec.Grid
import Verif.Model.Gradient
import Verif.Model.Double

/-!
# Smooth functions of the position, one coordinate at a time
-/

namespace Gals.Spec

open Gals

/-- `F` as a function of the coordinate `a`, the others fixed. -/
def along (F : (Fin 3 → ℝ) → ℝ) (q : Fin 3 → ℝ) (a : Fin 3) (t : ℝ) : ℝ := F (Function.update q a t)

/-- `F` is `k` times continuously differentiable in each used coordinate, and the derivatives of order `k` are at most `B` on the part of
space between the stored nodes (whose positions are shifted by `pad - 1` cells, C02). -/
structure PartialsLe (k : ℕ) (F : (Fin 3 → ℝ) → ℝ) (d : ℕ) (r : Req ℝ) (B : ℝ) : Prop where
  smooth : ∀ (q : Fin 3 → ℝ) (a : Fin 3), a.val < d → ContDiff ℝ k (along F q a)
  bound : ∀ q : Fin 3 → ℝ, (∀ a : Fin 3, a.val < d → q a ∈ Set.Icc (r.centre a (-1)) (r.centre a (r.n.get a - 2 + 2 * r.pad))) →
    ∀ a : Fin 3, a.val < d → |iteratedDeriv k (along F q a) (q a)| ≤ B

/-- Order of the derivatives that bound the error of a scheme. -/
def schemeOrder : GradScheme → ℕ
  | .central => 3
  | .third => 4

/-- Error bound of a scheme: second order with the constant 1/6, third order with the constant 1/12. -/
noncomputable def schemeError (sch : GradScheme) (B h : ℝ) : ℝ :=
  match sch with
  | .central => B * h ^ 2 / 6
  | .third => B * h ^ 3 / 12

/-- Rounding error of a scheme in units in the last place of the data, per cell width. -/
def schemeUlps : GradScheme → ℚ
  | .central => 9
  | .third => 48

/-- Amplification of errors of the data by a scheme, times the cell width. -/
def schemeGain : GradScheme → ℝ
  | .central => 1
  | .third => 2

/-- The grid of a request in doubles whose corners have the values `lo` and `hi`, with real numbers. -/
noncomputable def realReq (r : Req F64) (lo hi : Fin 3 → ℚ) : Req ℝ :=
  ⟨r.n, r.pad, ⟨lo 0, lo 1, lo 2⟩, ⟨hi 0, hi 1, hi 2⟩⟩

end Gals.Spec
