import Verif.Model.Conc
import Mathlib.Algebra.Order.Field.Basic
import Mathlib.Algebra.BigOperators.Fin

/-!
# What the reference code is meant to compute
-/

namespace Gals.Spec

/-! ## Departure points -/

section depart
variable {K : Type} [Field K]

/-- One backward Euler-type step from `(x, y)` with the velocity at the end time `t1`. -/
def departEuler (u v : K → K → K → K) (dt t1 x y : K) : K × K := (x - dt * u x y t1, y - dt * v x y t1)

/-- Three-stage third-order Runge-Kutta step backward in time from `(x, y)` at time `t1` to time `t0`, with the middle time
`th`: weights 1/6, 1/6, 2/3. -/
def departRK3 (u v : K → K → K → K) (dt t0 th t1 x y : K) : K × K :=
  let k1 := (u x y t1, v x y t1)
  let p2 := (x - dt * k1.1, y - dt * k1.2)
  let k2 := (u p2.1 p2.2 t0, v p2.1 p2.2 t0)
  let p3 := (x - dt * (k1.1 + k2.1) / 4, y - dt * (k1.2 + k2.2) / 4)
  let k3 := (u p3.1 p3.2 th, v p3.1 p3.2 th)
  (x - dt * (k1.1 + k2.1 + 4 * k3.1) / 6, y - dt * (k1.2 + k2.2 + 4 * k3.2) / 6)

/-- Departure point of the node `(x, y)` in step `t` (from time `t dt` to `(t + 1) dt`). -/
def departAt (u v : K → K → K → K) (rk3 : Bool) (t : ℕ) (dt x y : K) : K × K :=
  if rk3 then departRK3 u v dt (t * dt) ((t + 1 / 2) * dt) ((t + 1) * dt) x y else departEuler u v dt ((t + 1) * dt) x y

end depart

/-! ## Cells -/

/-- `c` is the cell of the nodes `xs 0 < xs 1 < ... < xs (n - 1)` that contains `p`. -/
def Encloses {K : Type} [LT K] [LE K] (xs : ℕ → K) (n : ℕ) (p : K) (c : ℕ) : Prop := c + 1 < n ∧ xs c < p ∧ p ≤ xs (c + 1)

/-! ## Schedules -/

/-- The iterations `ps` are distributed in any way over any number of threads, each running its share in any order, and the
threads interleave access by access in any way.  Never is a thread about to do something undefined, never are all unended
threads stuck, and when all have ended the memory is `mf`. -/
def ScheduleIndependent {L : Type} [DecidableEq L] {V : L → Type} (ps : List (Prog V Unit)) (m mf : Mem V) : Prop :=
  ∀ css : List (List (Prog V Unit)), css.flatten.Perm ps →
    ∀ (qs : List (Prog V Unit)) (m' : Mem V), Interleaves (css.map Prog.seqAll, m) (qs, m') →
      ¬ Faulty (qs, m') ∧ (Ended qs → m' = mf) ∧ (¬ Ended qs → ∃ s, PoolStep (qs, m') s)

/-- The iterations `ps` are distributed and interleaved in any way as above.  Never is a thread about to do something
undefined. -/
def NeverFaulty {L : Type} [DecidableEq L] {V : L → Type} (ps : List (Prog V Unit)) (m : Mem V) : Prop :=
  ∀ css : List (List (Prog V Unit)), css.flatten.Perm ps →
    ∀ (qs : List (Prog V Unit)) (m' : Mem V), Interleaves (css.map Prog.seqAll, m) (qs, m') → ¬ Faulty (qs, m')

/-! ## Mixed derivatives -/

section mixed
variable {K : Type} [Field K]

/-- Central difference in `x` (columns) of a nodal field. -/
def dX (f : ℕ → ℕ → K) (dx : K) (i j : ℕ) : K := (f i (j + 1) - f i (j - 1)) / (2 * dx)
/-- Central difference in `y` (rows) of a nodal field. -/
def dY (f : ℕ → ℕ → K) (dy : K) (i j : ℕ) : K := (f (i + 1) j - f (i - 1) j) / (2 * dy)
/-- One-sided difference in `x` between columns `j` and `j + 1`. -/
def eX (f : ℕ → ℕ → K) (dx : K) (i j : ℕ) : K := (f i (j + 1) - f i j) / dx
/-- One-sided difference in `y` between rows `i` and `i + 1`. -/
def eY (f : ℕ → ℕ → K) (dy : K) (i j : ℕ) : K := (f (i + 1) j - f i j) / dy

/-- The mixed derivative at node `(i, j)` from nodal gradients: the mean of the two central differences inside, one central
difference on an edge, and at a corner `3/4` of the two one-sided differences along the sides that meet there minus `1/4` of
those along the opposite sides of the corner cell. -/
def mixedStencil (px py : ℕ → ℕ → K) (nx ny : ℕ) (dx dy : K) (i j : ℕ) : K :=
  let inX := 0 < j ∧ j + 1 < nx
  let inY := 0 < i ∧ i + 1 < ny
  -- the corner cell and the opposite row and column
  let ci := if i = 0 then 0 else ny - 2
  let cj := if j = 0 then 0 else nx - 2
  let oi := if i = 0 then 1 else ny - 2
  let oj := if j = 0 then 1 else nx - 2
  if inX ∧ inY then (dX py dx i j + dY px dy i j) / 2
  else if inX then dX py dx i j
  else if inY then dY px dy i j
  else 3 / 4 * (eX py dx i cj + eY px dy ci j) - 1 / 4 * (eX py dx oi cj + eY px dy ci oj)

end mixed

end Gals.Spec

namespace Gals.Spec

/-! ## Location of a departure point -/

/-- What a search must store for the departure point `(xa, ya)`: whether it is strictly inside the domain in `x` and in `y`
(1: both, 2: only `x`, 3: only `y`, 4: neither), the enclosing cell along an axis where it is inside, and along one axis
where it is outside the first or last cell.  When it is outside along both, the cell stays what it was (`ox`, `oy`). -/
structure Located {K S : Type} [LinearOrder K] (val : ℕ → S) (xs ys : ℕ → K) (nx ny : ℕ) (xa ya : K) (ox oy : S)
    (tracker cx cy : S) : Prop where
  inside : xs 0 < xa ∧ xa < xs (nx - 1) → ys 0 < ya ∧ ya < ys (ny - 1) →
    ∃ a b, Encloses xs nx xa a ∧ Encloses ys ny ya b ∧ tracker = val 1 ∧ cx = val a ∧ cy = val b
  outY : xs 0 < xa ∧ xa < xs (nx - 1) → ¬ (ys 0 < ya ∧ ya < ys (ny - 1)) →
    ∃ a, Encloses xs nx xa a ∧ tracker = val 2 ∧ cx = val a ∧ cy = val (if ya ≤ ys 0 then 0 else ny - 2)
  outX : ¬ (xs 0 < xa ∧ xa < xs (nx - 1)) → ys 0 < ya ∧ ya < ys (ny - 1) →
    ∃ b, Encloses ys ny ya b ∧ tracker = val 3 ∧ cx = val (if xa ≤ xs 0 then 0 else nx - 2) ∧ cy = val b
  outXY : ¬ (xs 0 < xa ∧ xa < xs (nx - 1)) → ¬ (ys 0 < ya ∧ ya < ys (ny - 1)) → tracker = val 4 ∧ cx = ox ∧ cy = oy

end Gals.Spec

namespace Gals.Spec

/-! ## Update of a node -/

section update
variable {K : Type} [Field K]

/-- Cubic Hermite basis on `[0, 1]`: value at end `a`. -/
def hVal (a : Fin 2) (s : K) : K := if a = 0 then 2 * s ^ 3 - 3 * s ^ 2 + 1 else -2 * s ^ 3 + 3 * s ^ 2
/-- Cubic Hermite basis on `[0, 1]`: slope at end `a`. -/
def hSlope (a : Fin 2) (s : K) : K := if a = 0 then s ^ 3 - 2 * s ^ 2 + s else s ^ 3 - s ^ 2
/-- Derivative of `hVal`. -/
def hVal' (a : Fin 2) (s : K) : K := if a = 0 then 6 * s ^ 2 - 6 * s else -6 * s ^ 2 + 6 * s
/-- Derivative of `hSlope`. -/
def hSlope' (a : Fin 2) (s : K) : K := if a = 0 then 3 * s ^ 2 - 4 * s + 1 else 3 * s ^ 2 - 2 * s

/-- Sum over the four corners of the cell with lower left node `(r, c)` (row, column) of the four nodal data, with basis
functions `V`, `S` (value, slope) in `x` and `V'`, `S'` in `y`. -/
def bicubicWith (V S V' S' : Fin 2 → K) (f fx fy fxy : ℕ → ℕ → K) (dx dy : K) (r c : ℕ) : K :=
  ∑ a : Fin 2, ∑ b : Fin 2, (V a * V' b * f (r + b) (c + a) + dx * S a * V' b * fx (r + b) (c + a) +
    dy * V a * S' b * fy (r + b) (c + a) + dx * dy * S a * S' b * fxy (r + b) (c + a))

/-- The bicubic Hermite interpolant on the cell `(r, c)` of nodal values, gradients and mixed derivatives. -/
def cellBicubic (f fx fy fxy : ℕ → ℕ → K) (xs ys : ℕ → K) (dx dy : K) (r c : ℕ) (x y : K) : K :=
  let s := (x - xs c) / dx
  let w := (y - ys r) / dy
  bicubicWith (hVal · s) (hSlope · s) (hVal · w) (hSlope · w) f fx fy fxy dx dy r c

/-- Its partial derivative in `x`. -/
def cellBicubicX (f fx fy fxy : ℕ → ℕ → K) (xs ys : ℕ → K) (dx dy : K) (r c : ℕ) (x y : K) : K :=
  let s := (x - xs c) / dx
  let w := (y - ys r) / dy
  bicubicWith (hVal' · s) (hSlope' · s) (hVal · w) (hSlope · w) f fx fy fxy dx dy r c / dx

/-- Its partial derivative in `y`. -/
def cellBicubicY (f fx fy fxy : ℕ → ℕ → K) (xs ys : ℕ → K) (dx dy : K) (r c : ℕ) (x y : K) : K :=
  let s := (x - xs c) / dx
  let w := (y - ys r) / dy
  bicubicWith (hVal · s) (hSlope · s) (hVal' · w) (hSlope' · w) f fx fy fxy dx dy r c / dy

/-- Two-stage (Heun) step for `dq/dt = - (a + b q)` written for the gradient component normal to the way the node's
characteristic leaves the domain: slope at the old time with the old component `q0`, then with the predicted one. -/
def heunEdge (dt q0 root a0 b0 a1 b1 : K) : K :=
  let s0 := a0 + b0 * q0
  let s1 := a1 + b1 * (root - dt * s0)
  root - dt / 2 * (s0 + s1)

/-- New value and gradient of a node: `cls` is the class of its departure point `(xa, ya)` (see `Located`), `H`, `Hx`, `Hy`
the interpolant on its cell and the derivatives, `u`, `v` the velocity at the node at the old time, `(p, px, py)` the old
data.  Inside, the interpolant at the departure point with the transported gradient; outside along one axis, interpolation
along the other axis and an explicit step for the rest; outside along both, an explicit step for the value only. -/
def updateNode (cls : ℕ) (dt : K) (H Hx Hy : K → K → K) (transport : K → K → K × K) (edgeX edgeY : K → K)
    (u v x y xa ya p px py : K) : K × K × K :=
  match cls with
  | 1 => (H xa ya, transport (Hx xa ya) (Hy xa ya))
  | 2 => (H xa y - dt * v * py, edgeX (Hx xa y), py)
  | 3 => (H x ya - dt * u * px, px, edgeY (Hy x ya))
  | 4 => (p - dt * (u * px + v * py), px, py)
  | _ => (p, px, py)

end update

end Gals.Spec

namespace Gals.Spec

/-! ## Two-stage gradient update -/

section heun
variable {K : Type} [Field K]

/-- Heun's method over one step for the gradient `q` along a characteristic, `dq/dt = - Aᵀ q`: Euler predictor with the
velocity gradient `((ux, uy), (vx, vy))` at the departure point (suffix 0), then the mean of the slopes there and at the
node (suffix 1), the latter for the predicted gradient. -/
def heunGradient (dt ux0 uy0 vx0 vy0 ux1 uy1 vx1 vy1 qx qy : K) : K × K :=
  let sx0 := ux0 * qx + vx0 * qy
  let sy0 := uy0 * qx + vy0 * qy
  let px := qx - dt * sx0
  let py := qy - dt * sy0
  (qx - dt * (sx0 + (ux1 * px + vx1 * py)) / 2, qy - dt * (sy0 + (uy1 * px + vy1 * py)) / 2)

end heun

end Gals.Spec
