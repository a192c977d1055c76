import Verif.Model.App
import Verif.Model.RefMain

/-!
# Programs that read the output

`src/reference/Readfiles.m` (MATLAB) reads the files of the reference programs, `tools/octave/Visualize.m` (Octave) the files
of the library.

Simplifications.  The languages are modelled by the behaviour these scripts rely on, named in the comments.  An error that ends
the script is `Fault.exn`.  A number in a file is a token holding the number.  Figures are the data passed to the plotting
functions; colours, titles, the first column that `quiver` leaves out (`src/reference/Readfiles.m:77`) and the error measure
printed at the end (`src/reference/Readfiles.m:104-108`) are left out.
-/

namespace Gals.Ref

/-! ## MATLAB -/

/-- Conversion of a number in the file to `int32` (`%d` at `src/reference/Readfiles.m:12`): saturates. -/
def int32Of (n : ℕ) : ℕ := min n 2147483647

/-- Quotient of two `int32`, neither negative (`src/reference/Readfiles.m:28`): rounded to the nearest integer, halves away from
zero; by zero it saturates, and `0/0` is `0`. -/
def int32Div (n p : ℕ) : ℕ := if p = 0 then (if n = 0 then 0 else 2147483647) else (2 * n + p) / (2 * p)

/-- Sum of an `int32` and one (`src/reference/Readfiles.m:28`). -/
def int32Succ (n : ℕ) : ℕ := int32Of (n + 1)

section text
variable {K : Type}

/-- `textscan(fid, '%f', n, 'Delimiter', ',')` (`src/reference/Readfiles.m:54-65`): at most `n` fields and what is left of the
file.  A field ends with a comma or the end of the line, empty lines are skipped, an empty field before a comma is NaN, here
`none`. -/
def textscan : List (Tok K) → ℕ → List (Option K) × List (Tok K)
  | ts, 0 => ([], ts)
  | [], _ + 1 => ([], [])
  | .nl :: ts, n + 1 => textscan ts (n + 1)
  | .comma :: ts, n + 1 => ((none :: (textscan ts n).1), (textscan ts n).2)
  | .num k :: .comma :: ts, n + 1 => ((some k :: (textscan ts n).1), (textscan ts n).2)
  | .num k :: ts, n + 1 => ((some k :: (textscan ts n).1), (textscan ts n).2)

/-- `master(j, :, i) = (cell2mat(A))'` (`src/reference/Readfiles.m:55`): the row has `nx` elements; one element is repeated,
any other number is an error. -/
def assignRow (nx : ℕ) (vs : List (Option K)) : M (List (Option K)) :=
  if vs.length = nx then .ok vs
  else
    match vs with
    | [a] => .ok (List.replicate nx a)
    | _ => .error .exn

/-- The inner loop for one file (`src/reference/Readfiles.m:53-55`) with `r` rows to go: the rows and what is left of the
file. -/
def readRows (nx : ℕ) : ℕ → List (Tok K) → M (List (List (Option K)) × List (Tok K))
  | 0, ts => .ok ([], ts)
  | r + 1, ts => do
    let a := textscan ts nx
    let row ← assignRow nx a.1
    let rest ← readRows nx r a.2
    return (row :: rest.1, rest.2)

/-- The loops for one file (`src/reference/Readfiles.m:52-67`) with `n` frames to go: `master(:, :, i)` for each `i`.  The
script reads a row from each file in turn; here the files are read one after the other. -/
def readFrames (nx ny : ℕ) : ℕ → List (Tok K) → M (List (List (List (Option K))))
  | 0, _ => .ok []
  | n + 1, ts => do
    let a ← readRows nx ny ts
    let rest ← readFrames nx ny n a.2
    return a.1 :: rest

end text

/-- What the script has read: the axes, the master variables, and the times in the titles
(`src/reference/Readfiles.m:23-24,32-37,89`). -/
structure Movie (K : Type) where
  x : List K
  y : List K
  times : List K
  phi : List (List (List (Option K)))
  psix : List (List (List (Option K)))
  psiy : List (List (List (Option K)))
  psixy : List (List (List (Option K)))
  velx : List (List (List (Option K)))
  vely : List (List (List (Option K)))

variable {K : Type} [One K] [Add K] [Sub K] [Mul K] [Div K] [NatCast K]

/-- `linspace(a, b, n)` (`src/reference/Readfiles.m:23-24`); the last point is `b`. -/
def linspace (a b : K) (n : ℕ) : List K :=
  (List.range n).map fun (j : ℕ) => if j + 1 = n then b else a + (j : K) * ((b - a) / ((n : K) - 1))

/-- `Readfiles.m` (`src/reference/Readfiles.m:1-91`).  Only one record in `details.txt` is modelled
here, any other number counts as an error; what the text of two records is read as is in `Verif.Model.RefText`. -/
def readfiles (o : Out K) : M (Movie K) :=
  match o.details with
  | [d] => do
    let nx := int32Of d.nx
    let ny := int32Of d.ny
    let p := int32Of d.printstep
    let n := int32Succ (int32Div (int32Of d.n) p)
    let phi ← readFrames nx ny n o.phi
    let psix ← readFrames nx ny n o.psix
    let psiy ← readFrames nx ny n o.psiy
    let psixy ← readFrames nx ny n o.psixy
    let velx ← readFrames nx ny n o.velx
    let vely ← readFrames nx ny n o.vely
    return ⟨linspace d.xlim1 d.xlim2 nx, linspace d.ylim1 d.ylim2 ny,
      (List.range n).map fun (i : ℕ) => (i : K) * d.dt * (p : K), phi, psix, psiy, psixy, velx, vely⟩
  | _ => .error .exn

end Gals.Ref

namespace Gals

/-! ## Octave -/

/-- A matrix with `rows` rows and `cols` columns, all columns one after the other (`tools/octave/Visualize.m:32-36`). -/
structure Matrix2 (T : Type) where
  rows : ℕ
  cols : ℕ
  data : List T

/-- `reshape(v, rows, cols)` (`tools/octave/Visualize.m:32-36`): the elements in the order of the columns; an error if their
number is not right. -/
def reshape {T : Type} (v : List T) (rows cols : ℕ) : M (Matrix2 T) :=
  if v.length = rows * cols then .ok ⟨rows, cols, v⟩ else .error .exn

/-- Element of a matrix, rows and columns counted from zero (`tools/octave/Visualize.m:40`). -/
def Matrix2.entry {T : Type} (A : Matrix2 T) (a b : ℕ) : Option T :=
  if a < A.rows ∧ b < A.cols then A.data[b * A.rows + a]? else none

/-- The three matrices passed to `surfc` (`tools/octave/Visualize.m:40`). -/
structure Surface (K : Type) where
  x : Matrix2 K
  y : Matrix2 K
  a : Matrix2 K

/-- `ShowScalar` (`tools/octave/Visualize.m:26-43`) on the lines of a file: the surface that is drawn, if any.  `textscan` gives
the columns of the file. -/
def showScalar {K : Type} (dim nx ny : ℕ) (lines : List (Vec3 K × K)) : M (Option (Surface K)) := do
  let x ← reshape (lines.map fun l => l.1.x) nx ny
  let y ← reshape (lines.map fun l => l.1.y) nx ny
  let a ← reshape (lines.map fun l => l.2) nx ny
  return if dim = 2 then some ⟨x, y, a⟩ else none

/-- `ShowVector` (`tools/octave/Visualize.m:45-64`) on the lines of a file: the arrows (position and components) that
`quiver` draws, if any. -/
def showVector {K : Type} (dim : ℕ) (lines : List (Vec3 K × Vec3 K)) : Option (List ((K × K) × (K × K))) :=
  if dim = 2 then some (lines.map fun l => ((l.1.x, l.1.y), (l.2.x, l.2.y))) else none

/-- `Visualize` (`tools/octave/Visualize.m:10-24`), the part about the velocity: what is drawn for the file `velocity` below
`path`, if there is one.  A file with other contents than the lines of a vector field is treated as missing. -/
def visualizeVelocity {K : Type} (cwd : Path) (fs : Fs (Content K)) (path : String) (dim : ℕ) :
    Option (List ((K × K) × (K × K))) :=
  match fs (resolve cwd (path ++ "/velocity")) with
  | some (.file (.lines l)) => showVector dim l
  | _ => none

end Gals
