import Verif.Model.Grid

/-!
# `Array<T_GRID, T_ARRAY>` (`src/cpu/array.cc`, `include/gals/utilities/array.h`)

An array keeps a reference to its grid; here each access receives the grid explicitly, so that a grid that
changes after the array was made (padding, regeneration) is covered.
-/

namespace Gals

variable {K : Type} {d : ℕ}

/-- State of an `Array` (`include/gals/utilities/array.h`, private members); the grid reference is passed to
each access instead (`include/gals/utilities/array.h:168-170`). -/
structure Arr (T : Type) where
  nx : ℤ
  ny : ℤ
  nz : ℤ
  pad : ℤ
  data : List T
  deriving DecidableEq

namespace Arr
variable {T : Type}

/-- Constructor (`src/cpu/array.cc:37-50`); `z` is the value `T_ARRAY()`. -/
def mk' (g : Grid K d) (z : T) : Arr T :=
  { nx := g.nx, ny := g.ny, nz := g.nz, pad := g.pad, data := List.replicate g.size z }

/-- `size()` (`src/cpu/array.cc:59-63`). -/
def size (a : Arr T) : ℕ := a.data.length

/-- `numCells()` (`src/cpu/array.cc:71-75`). -/
def numCells (a : Arr T) : Vec3 ℤ := ⟨a.nx, a.ny, a.nz⟩

/-- `operator[](idx)` (`src/cpu/array.cc:77-87`). -/
def flat (a : Arr T) (i : ℤ) : M T := rd a.data i

/-- Assignment through `operator[](idx)` (`src/cpu/array.cc:83-87`). -/
def setFlat (a : Arr T) (i : ℤ) (t : T) : M (Arr T) := do
  let v ← wr a.data i t
  return { a with data := v }

/-- `operator()(i, j, k)` as a read (`src/cpu/array.cc:89-101`). -/
def get (s : IntSem) (g : Grid K d) (a : Arr T) (i j k : ℤ) : M T := do
  let idx ← g.index s i j k
  rd a.data idx

/-- Assignment through `operator()(i, j, k)` (`src/cpu/array.cc:96-101`). -/
def set (s : IntSem) (g : Grid K d) (a : Arr T) (i j k : ℤ) (t : T) : M (Arr T) := do
  let idx ← g.index s i j k
  let v ← wr a.data idx t
  return { a with data := v }

/-- `operator()(node_id)` (`src/cpu/array.cc:103-113`). -/
def getV (s : IntSem) (g : Grid K d) (a : Arr T) (n : Vec3 ℤ) : M T := a.get s g n.x n.y n.z

/-- `operator=` (`src/cpu/array.cc:115-119`): copies the data only. -/
def assign (a b : Arr T) : Arr T := { a with data := b.data }

/-- The loops `for i < num_cells[0], for j < num_cells[1], for k < num_cells[2]` used everywhere (`include/gals/utilities/array.h:160-162`, `src/cpu/interpolation/hermite-1d.cc:96-98`). -/
def interior (a : Arr T) : List Cell := cells 0 a.nx 0 a.ny 0 a.nz

/-- `operator<<` (`include/gals/utilities/array.h`, friend): one line, coordinates then value, for each
interior cell.  A line is the pair (coordinates, value); character formatting is not modelled (`include/gals/utilities/array.h:155-165`). -/
def print (s : IntSem) (g : Grid K d) (a : Arr T) : M (List (Vec3 K × T)) :=
  loop a.interior [] fun out c => do
    let p ← g.at' s c.1 c.2.1 c.2.2
    let v ← a.get s g c.1 c.2.1 c.2.2
    return out ++ [(p, v)]

end Arr

end Gals
