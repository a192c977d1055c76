import Verif.Model.RefMain
import Verif.Spec.Ref

/-!
# What a run of the reference code is meant to compute and write
-/

namespace Gals.Spec

open Gals.Ref (Tok)

/-! ## Files -/

section files
variable {K : Type}

/-- One row of a nodal field as text: numbers separated by commas, end of line. -/
def rowText (f : ℕ → K) (nx : ℕ) : List (Tok K) :=
  (((List.range nx).map fun j => Tok.num (f j)).intersperse Tok.comma) ++ [Tok.nl]

/-- A nodal field as text: its rows, then an empty line. -/
def frame (nx ny : ℕ) (f : ℕ → ℕ → K) : List (Tok K) := ((List.range ny).flatMap fun i => rowText (f i) nx) ++ [Tok.nl]

/-- The six nodal fields written at one time. -/
structure Snapshot (K : Type) where
  phi : ℕ → ℕ → K
  psix : ℕ → ℕ → K
  psiy : ℕ → ℕ → K
  psixy : ℕ → ℕ → K
  velx : ℕ → ℕ → K
  vely : ℕ → ℕ → K

/-- From `o` to `o'` exactly the snapshots `ss` were appended, in this order, to the six files. -/
structure Appended (nx ny : ℕ) (o o' : Ref.Out K) (ss : List (Snapshot K)) : Prop where
  phi : o'.phi = o.phi ++ ss.flatMap fun s => frame nx ny s.phi
  psix : o'.psix = o.psix ++ ss.flatMap fun s => frame nx ny s.psix
  psiy : o'.psiy = o.psiy ++ ss.flatMap fun s => frame nx ny s.psiy
  psixy : o'.psixy = o.psixy ++ ss.flatMap fun s => frame nx ny s.psixy
  velx : o'.velx = o.velx ++ ss.flatMap fun s => frame nx ny s.velx
  vely : o'.vely = o.vely ++ ss.flatMap fun s => frame nx ny s.vely
  details : o'.details = o.details

end files

/-! ## Fields -/

/-- Level set, gradient and mixed derivative at the nodes `(row, column)`. -/
structure Fields (K : Type) where
  phi : ℕ → ℕ → K
  psix : ℕ → ℕ → K
  psiy : ℕ → ℕ → K
  psixy : ℕ → ℕ → K

section fields
variable {K : Type}

/-- What is written for the fields `F` and the velocity `(u, v)` at `time`. -/
def snapshot (u v : K → K → K → K) (xs ys : ℕ → K) (F : Fields K) (time : K) : Snapshot K :=
  ⟨F.phi, F.psix, F.psiy, F.psixy, fun i j => u (xs j) (ys i) time, fun i j => v (xs j) (ys i) time⟩

/-- `n` is the quotient truncated to an integer. -/
def Truncated [Field K] [LinearOrder K] (q : K) (n : ℕ) : Prop := (n : K) ≤ q ∧ q < n + 1

end fields

/-! ## Location -/

section location
variable {K : Type} [LinearOrder K]

/-- Class of a departure point: 1 inside the domain, 2 outside only along `y`, 3 outside only along `x`, 4 outside along
both. -/
def classOf (xs ys : ℕ → K) (nx ny : ℕ) (p : K × K) : ℕ :=
  if xs 0 < p.1 ∧ p.1 < xs (nx - 1) then (if ys 0 < p.2 ∧ p.2 < ys (ny - 1) then 1 else 2)
  else (if ys 0 < p.2 ∧ p.2 < ys (ny - 1) then 3 else 4)

/-- Cell along one axis: before the first node the first, after the last node the last, else the one whose lower node is the
last node before the point. -/
def cellAlong (xs : ℕ → K) (n : ℕ) (p : K) : ℕ :=
  if p ≤ xs 0 then 0 else if p < xs (n - 1) then ((List.range n).filter fun k => decide (xs k < p)).length - 1 else n - 2

end location

/-! ## Transport of the gradient -/

section gradient
variable {K : Type} [Field K]

/-- A 2 x 2 matrix `((a, b), (c, d))`. -/
structure Mat2 (K : Type) where
  a : K
  b : K
  c : K
  d : K

/-- `I - h A`. -/
def Mat2.idSub (h : K) (A : Mat2 K) : Mat2 K := ⟨1 - h * A.a, -(h * A.b), -(h * A.c), 1 - h * A.d⟩
/-- `A B`. -/
def Mat2.mul (A B : Mat2 K) : Mat2 K :=
  ⟨A.a * B.a + A.b * B.c, A.a * B.b + A.b * B.d, A.c * B.a + A.d * B.c, A.c * B.b + A.d * B.d⟩
/-- `A + B`. -/
def Mat2.add (A B : Mat2 K) : Mat2 K := ⟨A.a + B.a, A.b + B.b, A.c + B.c, A.d + B.d⟩
/-- `h A`. -/
def Mat2.smul (h : K) (A : Mat2 K) : Mat2 K := ⟨h * A.a, h * A.b, h * A.c, h * A.d⟩
/-- `Aᵀ q`. -/
def Mat2.transposeMul (A : Mat2 K) (q : K × K) : K × K := (A.a * q.1 + A.c * q.2, A.b * q.1 + A.d * q.2)

/-- Gradient with respect to the node of a function with gradient `q` at the departure point, when `G x y t` is the Jacobian
`((u_x, u_y), (v_x, v_y))` of the velocity: chain rule through the stages of `departAt`. -/
def gradientAt (u v : K → K → K → K) (G : K → K → K → Mat2 K) (rk3 : Bool) (t : ℕ) (dt x y : K) (q : K × K) : K × K :=
  let t0 := (t : K) * dt
  let th := ((t : K) + 1 / 2) * dt
  let t1 := ((t : K) + 1) * dt
  let A1 := G x y t1
  let x2 := x - dt * u x y t1
  let y2 := y - dt * v x y t1
  let D2 := Mat2.idSub dt A1
  if rk3 then
    let A2 := (G x2 y2 t0).mul D2
    let x3 := x - dt * (u x y t1 + u x2 y2 t0) / 4
    let y3 := y - dt * (v x y t1 + v x2 y2 t0) / 4
    let D3 := Mat2.idSub (dt / 4) (A1.add A2)
    let A3 := (G x3 y3 th).mul D3
    (Mat2.idSub (dt / 6) ((A1.add A2).add (A3.smul 4))).transposeMul q
  else D2.transposeMul q

end gradient

end Gals.Spec
