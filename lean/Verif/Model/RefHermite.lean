import Verif.Model.Hermite

/-!
# Hermite interpolation of the reference code (`src/reference/Hermite.h`)

The copies `src/reference/SerialCode/Hermite.h` and the device functions of `src/reference/CUDA/HermiteCUDA.cu` have the
same text.  `pow (dx, alpha)` is only called with `alpha` 0 or 1.
-/

namespace Gals.Ref

variable {K : Type} [Zero K] [One K] [Add K] [Sub K] [Mul K] [Div K] [Neg K] [NatCast K]

/-- The base polynomial chosen by `switch(2 * alpha + v + 1)` (`src/reference/Hermite.h:21-34,36-49`); 0 in no case. -/
def basePoly (k : ℕ) (eta : K) : K :=
  match k with
  | 1 => 1 - 3 * sqr eta + 2 * cube eta
  | 2 => -2 * cube eta + 3 * sqr eta
  | 3 => cube eta - 2 * sqr eta + eta
  | 4 => cube eta - sqr eta
  | _ => 0

/-- The derivative chosen by `switch(2 * alpha + v + 1)` (`src/reference/Hermite.h:61-74,117-130`). -/
def basePoly' (k : ℕ) (eta : K) : K :=
  match k with
  | 1 => -6 * eta + 6 * sqr eta
  | 2 => -6 * sqr eta + 6 * eta
  | 3 => 3 * sqr eta - 4 * eta + 1
  | 4 => 3 * sqr eta - 2 * eta
  | _ => 0

/-- `basepolynomial` (`src/reference/Hermite.h:15-53`). -/
def basepolynomial (x y : K) (alphax alphay vx vy : ℕ) (dx dy xo yo : K) : K :=
  let etax := (x - xo) / dx
  let etay := (y - yo) / dy
  basePoly (2 * alphax + vx + 1) etax * basePoly (2 * alphay + vy + 1) etay

/-- `gradbpx` (`src/reference/Hermite.h:55-94`). -/
def gradbpx (x y : K) (alphax alphay vx vy : ℕ) (dx dy xo yo : K) : K :=
  let etax := (x - xo) / dx
  let etay := (y - yo) / dy
  basePoly' (2 * alphax + vx + 1) etax * basePoly (2 * alphay + vy + 1) etay

/-- `gradbpy` (`src/reference/Hermite.h:96-135`). -/
def gradbpy (x y : K) (alphax alphay vx vy : ℕ) (dx dy xo yo : K) : K :=
  let etax := (x - xo) / dx
  let etay := (y - yo) / dy
  basePoly (2 * alphax + vx + 1) etax * basePoly' (2 * alphay + vy + 1) etay

/-- `pow(v, alpha)` for the exponents 0 and 1 (`src/reference/Hermite.h:197,263,329`). -/
def powSmall (v : K) (alpha : ℕ) : K := if alpha = 0 then 1 else v

/-- The four arrays `phi[4]`, `psix[4]`, `psiy[4]`, `psixy[4]` of a cell; nodes 0, 1, 2, 3 are lower left, lower right,
upper left and upper right (`src/reference/AdvectionPointCalcs.h:321-328`). -/
structure CellData (K : Type) where
  phi : Fin 4 → K
  psix : Fin 4 → K
  psiy : Fin 4 → K
  psixy : Fin 4 → K

/-- `(alphax, alphay, delta)` for `i = 0, 1, 2, 3` (`src/reference/Hermite.h:142-168,208-234,274-300`). -/
def outer (c : CellData K) : List (ℕ × ℕ × (Fin 4 → K)) :=
  [(0, 0, c.phi), (0, 1, c.psiy), (1, 0, c.psix), (1, 1, c.psixy)]

/-- `(vx, vy, d)` for `j = 0, 1, 2, 3` (`src/reference/Hermite.h:169-195,235-261,301-327`). -/
def inner (delta : Fin 4 → K) : List (ℕ × ℕ × K) :=
  [(0, 0, delta 0), (0, 1, delta 2), (1, 0, delta 1), (1, 1, delta 3)]

/-- `hp` (`src/reference/Hermite.h:137-201`). -/
def hp (c : CellData K) (x y xo yo dx dy : K) : K :=
  (outer c).foldl (fun H p => (inner p.2.2).foldl (fun H q =>
    H + powSmall dx p.1 * powSmall dy p.2.1 * basepolynomial x y p.1 p.2.1 q.1 q.2.1 dx dy xo yo * q.2.2) H) 0

/-- `hermx` (`src/reference/Hermite.h:203-267`). -/
def hermx (c : CellData K) (x y xo yo dx dy : K) : K :=
  (outer c).foldl (fun H p => (inner p.2.2).foldl (fun H q =>
    H + powSmall dx p.1 * powSmall dy p.2.1 * gradbpx x y p.1 p.2.1 q.1 q.2.1 dx dy xo yo * q.2.2 * (1 / dx)) H) 0

/-- `hermy` (`src/reference/Hermite.h:269-333`). -/
def hermy (c : CellData K) (x y xo yo dx dy : K) : K :=
  (outer c).foldl (fun H p => (inner p.2.2).foldl (fun H q =>
    H + powSmall dx p.1 * powSmall dy p.2.1 * gradbpy x y p.1 p.2.1 q.1 q.2.1 dx dy xo yo * q.2.2 * (1 / dy)) H) 0

/-- `hp1D` (`src/reference/Hermite.h:336-343`).  Nothing in the repository calls it. -/
def hp1D (phi0 phi1 psix0 psix1 x xo dx : K) : K :=
  let etax := (x - xo) / dx
  (1 - 3 * sqr etax + 2 * cube etax) * phi0 + (3 * sqr etax - 2 * cube etax) * phi1 +
    (etax + cube etax - 2 * sqr etax) * psix0 + (cube etax - sqr etax) * psix1

end Gals.Ref
