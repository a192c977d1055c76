import Mathlib.Analysis.Calculus.IteratedDeriv.Lemmas

/-!
# Smooth functions with bounds on derivatives
-/

namespace Gals.Spec

/-- `f` is four times continuously differentiable and its fourth derivative is at most `M` on `[a, b]`. -/
structure Quartic (f : ℝ → ℝ) (a b M : ℝ) : Prop where
  smooth : ContDiff ℝ 4 f
  bound : ∀ x ∈ Set.Icc a b, |iteratedDeriv 4 f x| ≤ M

/-- `f` has the partial derivatives `fx`, `fy`, `fxy`, and on the rectangle `[a, a'] × [b, b']` the derivatives of order four in
one variable of `f` (`M40`, `M04`), of `fx` along `y` (`M14`) and of `fy` along `x` (`M41`) are bounded. -/
structure Smooth2 (f fx fy fxy : ℝ → ℝ → ℝ) (a a' b b' M40 M04 M14 M41 : ℝ) : Prop where
  dx : ∀ x y, HasDerivAt (fun x => f x y) (fx x y) x
  dy : ∀ x y, HasDerivAt (fun y => f x y) (fy x y) y
  dxy : ∀ x y, HasDerivAt (fun y => fx x y) (fxy x y) y
  dyx : ∀ x y, HasDerivAt (fun x => fy x y) (fxy x y) x
  xxxx : ∀ y ∈ Set.Icc b b', Quartic (fun x => f x y) a a' M40
  yyyy : ∀ x ∈ Set.Icc a a', Quartic (fun y => f x y) b b' M04
  xyyyy : ∀ x ∈ Set.Icc a a', Quartic (fun y => fx x y) b b' M14
  xxxxy : ∀ y ∈ Set.Icc b b', Quartic (fun x => fy x y) a a' M41

/-- `F 0 0 0` has the partial derivatives `F i j k` of order `i` in `x`, `j` in `y`, `k` in `z` (`i, j, k ≤ 1`), and on the box all
their derivatives of order four in one variable are at most `M`. -/
structure Smooth3 (F : Fin 2 → Fin 2 → Fin 2 → ℝ → ℝ → ℝ → ℝ) (a a' b b' c c' M : ℝ) : Prop where
  dx : ∀ j k x y z, HasDerivAt (fun x => F 0 j k x y z) (F 1 j k x y z) x
  dy : ∀ i k x y z, HasDerivAt (fun y => F i 0 k x y z) (F i 1 k x y z) y
  dz : ∀ i j x y z, HasDerivAt (fun z => F i j 0 x y z) (F i j 1 x y z) z
  xxxx : ∀ j k, ∀ y ∈ Set.Icc b b', ∀ z ∈ Set.Icc c c', Quartic (fun x => F 0 j k x y z) a a' M
  yyyy : ∀ i k, ∀ x ∈ Set.Icc a a', ∀ z ∈ Set.Icc c c', Quartic (fun y => F i 0 k x y z) b b' M
  zzzz : ∀ i j, ∀ x ∈ Set.Icc a a', ∀ y ∈ Set.Icc b b', Quartic (fun z => F i j 0 x y z) c c' M

end Gals.Spec
