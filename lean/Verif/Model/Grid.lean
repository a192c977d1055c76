import Verif.Model.Vec

/-!
# `Grid<T, DIM>` (`src/cpu/grid.cc`, `include/gals/utilities/grid.h`)

`DIM` is the parameter `d` (the code instantiates 1, 2 and 3).
-/

namespace Gals

variable {K : Type} [Zero K] [One K] [Add K] [Sub K] [Mul K] [Div K] [Neg K] [NatCast K] [IntCast K]
  [LT K] [DecidableLT K] [LE K] [DecidableLE K]

/-- State of a `Grid<T, DIM>` object (`include/gals/utilities/grid.h`, private members) (`include/gals/utilities/grid.h:242-247`). -/
structure Grid (K : Type) (d : ℕ) where
  nx : ℤ
  ny : ℤ
  nz : ℤ
  pad : ℤ
  mask0 : ℤ
  mask1 : ℤ
  mask2 : ℤ
  boxMin : Vec3 K
  boxMax : Vec3 K
  dx : Vec3 K
  oneOverDx : Vec3 K
  /-- `m_grid`, the vector of node positions. -/
  grid : List (Vec3 K)
  /-- `m_total_cells` (a `size_t`). -/
  totalCells : ℤ
  deriving DecidableEq

namespace Grid

variable {d : ℕ}

/-- Constructor `Grid(nx, ny, nz)` (`src/cpu/grid.cc:40-55`).  The product for `m_total_cells` is `int`
arithmetic; the conversion of a negative product to `size_t` is left as the negative number. -/
def mk3 (s : IntSem) (d : ℕ) (nx ny nz : ℤ) : M (Grid K d) := do
  let t ← imul s nx ny
  let t ← imul s t nz
  return { nx := nx, ny := ny, nz := nz, pad := 1,
           mask0 := 1, mask1 := if d = 2 then 1 else if d = 3 then 1 else 0, mask2 := if d = 3 then 1 else 0,
           boxMin := ⟨((intMin : ℤ) : K), ((intMin : ℤ) : K), ((intMin : ℤ) : K)⟩,
           boxMax := ⟨((intMax : ℤ) : K), ((intMax : ℤ) : K), ((intMax : ℤ) : K)⟩,
           dx := ⟨((intMax : ℤ) : K), ((intMax : ℤ) : K), ((intMax : ℤ) : K)⟩,
           oneOverDx := ⟨((intMin : ℤ) : K), ((intMin : ℤ) : K), ((intMin : ℤ) : K)⟩,
           grid := [], totalCells := t }

/-- Constructor `Grid(nx, ny)` (`src/cpu/grid.cc:57-60`). -/
def mk2 (s : IntSem) (d : ℕ) (nx ny : ℤ) : M (Grid K d) := mk3 s d nx ny 1

/-- Constructor `Grid(nx)` (`src/cpu/grid.cc:62-65`). -/
def mk1 (s : IntSem) (d : ℕ) (nx : ℤ) : M (Grid K d) := mk3 s d nx 1 1

/-- `size()` (`src/cpu/grid.cc:86-90`). -/
def size (g : Grid K d) : ℕ := g.grid.length

/-- `numCells()` (`src/cpu/grid.cc:98-102`). -/
def numCells (g : Grid K d) : Vec3 ℤ := ⟨g.nx, g.ny, g.nz⟩

/-- `index(i, j, k)` (`src/cpu/grid.cc:116-123`).  All sub-expressions are `int`; the final conversion to
`size_t` is part of the vector access (`rd`, `wr`). -/
def index (s : IntSem) (g : Grid K d) (i j k : ℤ) : M ℤ := do
  let kp ← iadd s k g.pad
  let p2 ← imul s 2 g.pad
  let sx ← iadd s g.nx p2
  let kx ← imul s kp sx
  let sy ← iadd s g.ny p2
  let kxy ← imul s kx sy
  let t2 ← imul s kxy g.mask2
  let jp ← iadd s j g.pad
  let jx ← imul s jp sx
  let t1 ← imul s jx g.mask1
  let ip ← iadd s i g.pad
  let t0 ← imul s ip g.mask0
  let t21 ← iadd s t2 t1
  iadd s t21 t0

/-- `index(node_id)` (`src/cpu/grid.cc:125-129`). -/
def indexV (s : IntSem) (g : Grid K d) (n : Vec3 ℤ) : M ℤ := g.index s n.x n.y n.z

/-- `baseNodeId(x)` (`src/cpu/grid.cc:131-141`): inactive axes keep `INT_MAX`. -/
def baseNodeId [HasFloor K] (g : Grid K d) (x : Vec3 K) : M (Vec3 ℤ) := do
  let f (a : Fin 3) : M ℤ :=
    if a.val < d then
      toInt (HasFloor.floorI ((x.get a - g.boxMin.get a) * g.oneOverDx.get a - 1 / 2))
    else .ok intMax
  let b0 ← f 0
  let b1 ← f 1
  let b2 ← f 2
  return ⟨b0, b1, b2⟩

/-- `operator()(i, j, k)` and `x(i, j, k)` as a read (`src/cpu/grid.cc:74-78,155-159`). -/
def at' (s : IntSem) (g : Grid K d) (i j k : ℤ) : M (Vec3 K) := do
  let idx ← g.index s i j k
  rd g.grid idx

/-- `operator()(node_id)` (`src/cpu/grid.cc:161-165`). -/
def atV (s : IntSem) (g : Grid K d) (n : Vec3 ℤ) : M (Vec3 K) := g.at' s n.x n.y n.z

/-- `setPadding` (`src/cpu/grid.cc:167-171`). -/
def setPadding (g : Grid K d) (pad : ℤ) : Grid K d := { g with pad := pad }

/-- The cells visited by the loops of `generate` (`src/cpu/grid.cc:195-201`).  Simplification: the loop bounds
are computed without an overflow check. -/
def genCells (g : Grid K d) : List Cell :=
  cells (-g.pad * g.mask0) (g.nx + g.pad * g.mask0)
        (-g.pad * g.mask1) (g.ny + g.pad * g.mask1)
        (-g.pad * g.mask2) (g.nz + g.pad * g.mask2)

/-- `domain_min_new[axis]` (`src/cpu/grid.cc:191`); entries for inactive axes stay 0 (`src/cpu/grid.cc:183`). -/
def domainMinNew (bmin dx : Vec3 K) (mask : Vec3 ℤ) (d : ℕ) (a : Fin 3) : K :=
  if a.val < d then bmin.get a + dx.get a * (1 / 2) - dx.get a * ((mask.get a : ℤ) : K) else 0

/-- `elem` computed for cell `(i, j, k)` (`src/cpu/grid.cc:193,202-206`).  `elem` is declared outside the loops
and starts at zero; inactive components are never assigned. -/
def elem (g : Grid K d) (bmin dx : Vec3 K) (c : Cell) : Vec3 K :=
  let mask : Vec3 ℤ := ⟨g.mask0, g.mask1, g.mask2⟩
  let v : Vec3 ℤ := ⟨c.1 - (-g.pad * g.mask0), c.2.1 - (-g.pad * g.mask1), c.2.2 - (-g.pad * g.mask2)⟩
  let e (a : Fin 3) : K :=
    if a.val < d then domainMinNew bmin dx mask d a + ((v.get a : ℤ) : K) * dx.get a else 0
  ⟨e 0, e 1, e 2⟩

/-- The size passed to `m_grid.resize` (`src/cpu/grid.cc:181`), `int` arithmetic. -/
def storageSize (s : IntSem) (g : Grid K d) : M ℤ := do
  let p2 ← imul s 2 g.pad
  let z ← imul s p2 g.mask2
  let z ← iadd s g.nz z
  let y ← imul s p2 g.mask1
  let y ← iadd s g.ny y
  let x ← imul s p2 g.mask0
  let x ← iadd s g.nx x
  let zy ← imul s z y
  imul s zy x

/-- `std::vector::resize` to `n` elements of the vector just cleared at `src/cpu/grid.cc:176`: a negative `int` becomes a huge `size_t`, and
`resize` throws `std::length_error`. -/
def resizeEmpty (n : ℤ) : M (List (Vec3 K)) :=
  if 0 ≤ n then .ok (List.replicate n.toNat Vec3.zero) else .error .exn

/-- Loop bound product for `m_total_cells` (`src/cpu/grid.cc:214-215`), `size_t` arithmetic (exact here). -/
def activeCells (g : Grid K d) : ℤ :=
  (axes d).foldl (fun t a => t * g.numCells.get a) 1

/-- `m_one_over_dx` after `src/cpu/grid.cc:189`: entries of inactive axes keep their old value. -/
def newInv (d : ℕ) (dx old : Vec3 K) : Vec3 K :=
  let inv (a : Fin 3) : K := if a.val < d then 1 / dx.get a else old.get a
  ⟨inv 0, inv 1, inv 2⟩

/-- `generate` (`src/cpu/grid.cc:173-216`). -/
def generate (s : IntSem) (g : Grid K d) (xmin xmax ymin ymax zmin zmax : K) : M (Grid K d) := do
  let bmin : Vec3 K := ⟨xmin, ymin, zmin⟩
  let bmax : Vec3 K := ⟨xmax, ymax, zmax⟩
  let n ← g.storageSize s
  let grid0 ← resizeEmpty n
  let dx : Vec3 K := ⟨(xmax - xmin) / ((g.nx : ℤ) : K), (ymax - ymin) / ((g.ny : ℤ) : K),
    (zmax - zmin) / ((g.nz : ℤ) : K)⟩
  let grid ← loop g.genCells grid0 fun acc c => do
    let idx ← g.index s c.1 c.2.1 c.2.2
    wr acc idx (elem g bmin dx c)
  return { g with boxMin := bmin, boxMax := bmax, dx := dx, oneOverDx := newInv d dx g.oneOverDx,
                  grid := grid, totalCells := activeCells g }

end Grid

end Gals
