import Verif.Model.Levelset

/-!
# Hermite interpolation (`include/gals/cpu/interpolation/hermite.h`, `src/cpu/interpolation/hermite-*d.cc`)

The arithmetic (`kernel1`, `kernel2`, `kernel3`) is separated from the reads of the fields (`interp1`, `interp2`,
`interp3`).  Each node is read once here, several times in the source; nothing is written in between.
-/

namespace Gals

variable {K : Type} [Zero K] [One K] [Add K] [Sub K] [Mul K] [Div K] [Neg K] [NatCast K] [IntCast K]
  [LT K] [DecidableLT K] [LE K] [DecidableLE K] {d : ℕ}

/-! ## Bernstein polynomials -/

/-- `B0` (`include/gals/cpu/interpolation/hermite.h:56-60`). -/
def B0 (η : K) : K := cube (1 - η)
/-- `B1` (`include/gals/cpu/interpolation/hermite.h:62-66`). -/
def B1 (η : K) : K := 3 * η * sqr (1 - η)
/-- `B2` (`include/gals/cpu/interpolation/hermite.h:68-72`). -/
def B2 (η : K) : K := 3 * sqr η * (1 - η)
/-- `B3` (`include/gals/cpu/interpolation/hermite.h:74-78`). -/
def B3 (η : K) : K := cube η
/-- `B0_Prime` (`include/gals/cpu/interpolation/hermite.h:80-84`). -/
def B0' (η : K) : K := -3 * sqr (1 - η)
/-- `B1_Prime` (`include/gals/cpu/interpolation/hermite.h:86-90`). -/
def B1' (η : K) : K := 3 * (1 - η) * (1 - 3 * η)
/-- `B2_Prime` (`include/gals/cpu/interpolation/hermite.h:92-96`). -/
def B2' (η : K) : K := 3 * η * (2 - 3 * η)
/-- `B3_Prime` (`include/gals/cpu/interpolation/hermite.h:98-102`). -/
def B3' (η : K) : K := 3 * sqr η

/-- `T bx[] = {B0(eta), ...}` (`src/cpu/interpolation/hermite-2d.cc:82,84`, `src/cpu/interpolation/hermite-3d.cc:274-276`). -/
def basis (η : K) : List K := [B0 η, B1 η, B2 η, B3 η]
/-- `T bx_prime[] = {B0_Prime(eta), ...}` (`src/cpu/interpolation/hermite-2d.cc:83,85`, `src/cpu/interpolation/hermite-3d.cc:277-279`). -/
def basis' (η : K) : List K := [B0' η, B1' η, B2' η, B3' η]

/-! ## Control points of an edge -/

/-- `ControlPoints` (`include/gals/cpu/interpolation/hermite.h:49-52`). -/
structure ControlPoints (K : Type) where
  c30 : K
  c21 : K
  c12 : K
  c03 : K

/-- `get_control_points` (`include/gals/cpu/interpolation/hermite.h:115-143`). -/
def getControlPoints (phi0 phix0 phi1 phix1 dx : K) (lim : Bool) : ControlPoints K :=
  let c30 := phi0
  let c21 := phi0 + phix0 * dx * oneThird
  let c12 := phi1 - phix1 * dx * oneThird
  let c03 := phi1
  if lim then
    let D1 := 3 * (c21 - c30)
    let D2 := 3 * (c03 - c12)
    let D3 := 3 / 2 * (c12 - c30)
    let D4 := 3 / 2 * (c03 - c21)
    let D5 := c03 - c30
    if (D1 - D3) * (D1 - D5) < 0 then ⟨c30, c21, 2 * c21 - c30, c03⟩
    else if (D2 - D4) * (D2 - D5) < 0 then ⟨c30, 2 * c12 - c03, c12, c03⟩
    else if (D1 - D5) * (D2 - D5) ≤ 0 then
      ⟨c30, twoThirds * c30 + oneThird * c03, twoThirds * c03 + oneThird * c30, c03⟩
    else ⟨c30, c21, c12, c03⟩
  else ⟨c30, c21, c12, c03⟩

/-! ## Weighted sums -/

/-- `bx[i] * by[j]` in loop order (`src/cpu/interpolation/hermite-2d.cc:104-105`). -/
def weights2 (bx by' : List K) : List K := bx.flatMap fun a => by'.map fun b => a * b

/-- `bx[i] * by[j] * bz[k]` in loop order (`src/cpu/interpolation/hermite-3d.cc:347-350`). -/
def weights3 (bx by' bz : List K) : List K := bx.flatMap fun a => by'.flatMap fun b => bz.map fun c => a * b * c

/-- `acc += w * control_points_all[k]; ++k;` from zero (`src/cpu/interpolation/hermite-2d.cc:104-108`, `src/cpu/interpolation/hermite-3d.cc:347-352`). -/
def accum (ws cs : List K) : K := (ws.zip cs).foldl (fun acc p => acc + p.1 * p.2) 0

/-! ## 1D -/

/-- Data of a node used by the 1D interpolation (`src/cpu/interpolation/hermite-1d.cc:57-59`). -/
structure Node1 (K : Type) where
  phi : K
  psi : Vec3 K

/-- Arithmetic of the 1D interpolation (`src/cpu/interpolation/hermite-1d.cc:57-65`). -/
def kernel1 (dx inv eta : K) (n0 n1 : Node1 K) (lim : Bool) : Interp K :=
  let p := getControlPoints n0.phi n0.psi.x n1.phi n1.psi.x dx lim
  { phi := p.c30 * B0 eta + p.c21 * B1 eta + p.c12 * B2 eta + p.c03 * B3 eta,
    psi := ⟨(p.c30 * B0' eta + p.c21 * B1' eta + p.c12 * B2' eta + p.c03 * B3' eta) * inv, 0, 0⟩ }

/-- Reads of `phiPrev` and `psiPrev` at a node (`src/cpu/interpolation/hermite-1d.cc:57-59`). -/
def readNode1 (s : IntSem) (g : Grid K d) (ls : Levelset K) (n : Vec3 ℤ) : M (Node1 K) := do
  let phi ← ls.phiPrev.getV s g n
  let psi ← ls.psiPrev.getV s g n
  return ⟨phi, psi⟩

/-- `Hermite<T, Grid<T, 1>>::interpolate` (`src/cpu/interpolation/hermite-1d.cc:36-82`). -/
def interp1 [HasFloor K] (s : IntSem) (g : Grid K d) (ls : Levelset K) (x : Vec3 K) (lim : Bool) : M (Interp K) := do
  let base ← g.baseNodeId x
  let i1 ← iadd s base.x (axisVec 0 0)
  let xbase ← g.atV s base
  let eta := (x.x - xbase.x) * g.oneOverDx.x
  let n0 ← readNode1 s g ls base
  let n1 ← readNode1 s g ls ⟨i1, 0, 0⟩
  return kernel1 g.dx.x g.oneOverDx.x eta n0 n1 lim

/-! ## 2D -/

/-- Data of a node used by the 2D interpolation: value, gradient, mixed derivative `[0]` (`src/cpu/interpolation/hermite-2d.cc:60-80`). -/
structure Node2 (K : Type) where
  phi : K
  psi : Vec3 K
  xy : K

/-- The sixteen control points (`src/cpu/interpolation/hermite-2d.cc:60-80,87-102`). `n10` is the node at `(i + 1, j)`. -/
def controls2 (dx : Vec3 K) (n00 n10 n01 n11 : Node2 K) (lim : Bool) : List K :=
  let bottom := getControlPoints n00.phi n00.psi.x n10.phi n10.psi.x dx.x lim
  let top := getControlPoints n01.phi n01.psi.x n11.phi n11.psi.x dx.x lim
  let left := getControlPoints n00.phi n00.psi.y n01.phi n01.psi.y dx.y lim
  let right := getControlPoints n10.phi n10.psi.y n11.phi n11.psi.y dx.y lim
  let c1 := n00.psi.y + dx.x * oneThird * n00.xy
  let c2 := n10.psi.x + dx.y * oneThird * n10.xy
  let c2' := n11.psi.x - dx.y * oneThird * n11.xy
  let c3 := n01.psi.y + dx.x * oneThird * n01.xy
  [left.c30, left.c21, left.c12, left.c03,
   bottom.c21, bottom.c21 + dx.y * oneThird * c1, top.c21 - dx.y * oneThird * c3, top.c21,
   bottom.c12, right.c21 - dx.x * oneThird * c2, right.c12 - dx.x * oneThird * c2', top.c12,
   right.c30, right.c21, right.c12, right.c03]

/-- Arithmetic of the 2D interpolation (`src/cpu/interpolation/hermite-2d.cc:58-122`). -/
def kernel2 (dx inv eta : Vec3 K) (n00 n10 n01 n11 : Node2 K) (lim : Bool) : Interp K :=
  let cs := controls2 dx n00 n10 n01 n11 lim
  { phi := accum (weights2 (basis eta.x) (basis eta.y)) cs,
    psi := ⟨accum (weights2 (basis' eta.x) (basis eta.y)) cs * inv.x,
            accum (weights2 (basis eta.x) (basis' eta.y)) cs * inv.y, 0⟩ }

/-- Reads of `phiPrev`, `psiPrev` and `phiMixedDerivativesPrev[0]` at a node (`src/cpu/interpolation/hermite-2d.cc:60-80`). -/
def readNode2 (s : IntSem) (g : Grid K d) (ls : Levelset K) (n : Vec3 ℤ) : M (Node2 K) := do
  let phi ← ls.phiPrev.getV s g n
  let psi ← ls.psiPrev.getV s g n
  let mix ← ls.phiMixedPrev.getV s g n
  let xy ← rd mix 0
  return ⟨phi, psi, xy⟩

/-- `Hermite<T, Grid<T, 2>>::interpolate` (`src/cpu/interpolation/hermite-2d.cc:36-125`). -/
def interp2 [HasFloor K] (s : IntSem) (g : Grid K d) (ls : Levelset K) (x : Vec3 K) (lim : Bool) : M (Interp K) := do
  let base ← g.baseNodeId x
  let i1 ← iadd s base.x (axisVec 0 0)
  let j1 ← iadd s base.y (axisVec 1 1)
  let xbase ← g.atV s base
  let eta := (x.sub xbase).mul g.oneOverDx
  let n00 ← readNode2 s g ls base
  let n10 ← readNode2 s g ls ⟨i1, base.y, 0⟩
  let n01 ← readNode2 s g ls ⟨base.x, j1, 0⟩
  let n11 ← readNode2 s g ls ⟨i1, j1, 0⟩
  return kernel2 g.dx g.oneOverDx eta n00 n10 n01 n11 lim

/-! ## 3D -/

/-- Data of a node used by the 3D interpolation: value, gradient, mixed derivatives `[0]`, `[1]`, `[2]`, `[3]` (`src/cpu/interpolation/hermite-3d.cc:70-192`). -/
structure Node3 (K : Type) where
  phi : K
  psi : Vec3 K
  xy : K
  yz : K
  zx : K
  xyz : K

/-- The 64 control points (`src/cpu/interpolation/hermite-3d.cc:70-272,281-345`).  `n100` is the node at `(i + 1, j, k)`; `p_x` stands for
`control_points_x`, `p_x.c21` for `c_21_x`, `hx` for `hx_by_three`. -/
def controls3 (dx : Vec3 K) (n000 n100 n010 n001 n110 n011 n101 n111 : Node3 K) (lim : Bool) : List K :=
  let p_x := getControlPoints n000.phi n000.psi.x n100.phi n100.psi.x dx.x lim
  let p_y := getControlPoints n000.phi n000.psi.y n010.phi n010.psi.y dx.y lim
  let p_z := getControlPoints n000.phi n000.psi.z n001.phi n001.psi.z dx.z lim
  let p_xy := getControlPoints n100.phi n100.psi.y n110.phi n110.psi.y dx.y lim
  let p_yx := getControlPoints n010.phi n010.psi.x n110.phi n110.psi.x dx.x lim
  let p_xz := getControlPoints n100.phi n100.psi.z n101.phi n101.psi.z dx.z lim
  let p_zxy := getControlPoints n101.phi n101.psi.y n111.phi n111.psi.y dx.y lim
  let p_xyz := getControlPoints n110.phi n110.psi.z n111.phi n111.psi.z dx.z lim
  let p_zx := getControlPoints n001.phi n001.psi.x n101.phi n101.psi.x dx.x lim
  let p_zy := getControlPoints n001.phi n001.psi.y n011.phi n011.psi.y dx.y lim
  let p_yzx := getControlPoints n011.phi n011.psi.x n111.phi n111.psi.x dx.x lim
  let p_yz := getControlPoints n010.phi n010.psi.z n011.phi n011.psi.z dx.z lim
  let p_y_z := getControlPoints n000.psi.z n000.yz n010.psi.z n010.yz dx.y lim
  let p_zy_z := getControlPoints n001.psi.z n001.yz n011.psi.z n011.yz dx.y lim
  let p_z_x := getControlPoints n000.psi.x n000.zx n001.psi.x n001.zx dx.z lim
  let p_x_y := getControlPoints n000.psi.y n000.xy n100.psi.y n100.xy dx.x lim
  let p_z_xy := getControlPoints n000.xy n000.xyz n001.xy n001.xyz dx.z lim
  let p_z_y := getControlPoints n000.psi.y n000.yz n001.psi.y n001.yz dx.z lim
  let p_x_z := getControlPoints n000.psi.z n000.zx n100.psi.z n100.zx dx.x lim
  let p_zx_z := getControlPoints n001.psi.z n001.zx n101.psi.z n101.zx dx.x lim
  let p_zx_y := getControlPoints n001.psi.y n001.xy n101.psi.y n101.xy dx.x lim
  let p_yx_y := getControlPoints n010.psi.y n010.xy n110.psi.y n110.xy dx.x lim
  let p_yz_xy := getControlPoints n010.xy n010.xyz n011.xy n011.xyz dx.z lim
  let p_yz_y := getControlPoints n010.psi.y n010.yz n011.psi.y n011.yz dx.z lim
  let p_yx_z := getControlPoints n010.psi.z n010.zx n110.psi.z n110.zx dx.x lim
  let p_yzx_y := getControlPoints n011.psi.y n011.xy n111.psi.y n111.xy dx.x lim
  let p_yzx_z := getControlPoints n011.psi.z n011.zx n111.psi.z n111.zx dx.x lim
  let p_xz_xy := getControlPoints n100.xy n100.xyz n101.xy n101.xyz dx.z lim
  let p_xz_y := getControlPoints n100.psi.y n100.yz n101.psi.y n101.yz dx.z lim
  let p_xyz_xy := getControlPoints n110.xy n110.xyz n111.xy n111.xyz dx.z lim
  let p_xyz_y := getControlPoints n110.psi.y n110.yz n111.psi.y n111.yz dx.z lim
  let p_xy_z := getControlPoints n100.psi.z n100.yz n110.psi.z n110.yz dx.y lim
  let p_zxy_z := getControlPoints n101.psi.z n101.yz n111.psi.z n111.yz dx.y lim
  let hx := dx.x * oneThird
  let hy := dx.y * oneThird
  let hz := dx.z * oneThird
  [p_z.c30,
   p_z.c21,
   p_z.c12,
   p_z.c03,
   p_y.c21,
   p_y.c21 + (dx.z * oneThird * p_y_z.c21),
   p_zy.c21 - (dx.z * oneThird * p_zy_z.c21),
   p_zy.c21,
   p_y.c12,
   p_y.c12 + (dx.z * oneThird * p_y_z.c12),
   p_zy.c12 - (dx.z * oneThird * p_zy_z.c12),
   p_zy.c12,
   p_yz.c30,
   p_yz.c21,
   p_yz.c12,
   p_yz.c03,
   p_x.c21,
   p_z.c21 + (dx.x * oneThird * p_z_x.c21),
   p_z.c12 + (dx.x * oneThird * p_z_x.c12),
   p_zx.c21,
   p_x.c21 + (dx.y * oneThird * p_x_y.c21),
   p_x.c21 + (hx * hy * p_z_xy.c21) + (hy * p_z_y.c21) + (hz * p_x_z.c21),
   p_zx.c21 + (hx * hy * p_z_xy.c12) + (hy * p_z_y.c12) - (hz * p_zx_z.c21),
   p_zx.c21 + (hy * p_zx_y.c21),
   p_yx.c21 - (hy * p_yx_y.c21),
   p_yx.c21 - (hx * hy * p_yz_xy.c21) - (hy * p_yz_y.c21) + (hz * p_yx_z.c21),
   p_yzx.c21 - (hx * hy * p_yz_xy.c12) - (hy * p_yz_y.c12) - (hz * p_yzx_z.c21),
   p_yzx.c21 - (hy * p_yzx_y.c21),
   p_yx.c21,
   p_yx.c21 + (hz * p_yx_z.c21),
   p_yzx.c21 - (hz * p_yzx_z.c21),
   p_yzx.c21,
   p_x.c12,
   p_x.c12 + (hz * p_x_z.c12),
   p_zx.c12 - (hz * p_zx_z.c12),
   p_zx.c12,
   p_x.c12 + (hy * p_x_y.c12),
   p_x.c12 - (hx * hy * p_xz_xy.c21) + (hy * p_xz_y.c21) + (hz * p_x_z.c12),
   p_zx.c12 - (hx * hy * p_xz_xy.c12) + (hy * p_xz_y.c12) - (hz * p_zx_z.c12),
   p_zx.c12 + (hy * p_zx_y.c12),
   p_yx.c12 - (hy * p_yx_y.c12),
   p_yx.c12 + (hx * hy * p_xyz_xy.c21) - (hy * p_xyz_y.c21) + (hz * p_yx_z.c12),
   p_yzx.c12 + (hx * hy * p_xyz_xy.c12) - (hy * p_xyz_y.c12) - (hz * p_yzx_z.c12),
   p_yzx.c12 - (hy * p_yzx_y.c12),
   p_yx.c12,
   p_yx.c12 + (hz * p_yx_z.c12),
   p_yzx.c12 - (hz * p_yzx_z.c12),
   p_yzx.c12,
   p_xz.c30,
   p_xz.c21,
   p_xz.c12,
   p_xz.c03,
   p_xy.c21,
   p_xy.c21 + (hz * p_xy_z.c21),
   p_zxy.c21 - (hz * p_zxy_z.c21),
   p_zxy.c21,
   p_xy.c12,
   p_xy.c12 + (hz * p_xy_z.c12),
   p_zxy.c12 - (hz * p_zxy_z.c12),
   p_zxy.c12,
   p_xyz.c30,
   p_xyz.c21,
   p_xyz.c12,
   p_xyz.c03]

/-- Arithmetic of the 3D interpolation (`src/cpu/interpolation/hermite-3d.cc:68-376`). -/
def kernel3 (dx inv eta : Vec3 K) (n000 n100 n010 n001 n110 n011 n101 n111 : Node3 K) (lim : Bool) : Interp K :=
  let cs := controls3 dx n000 n100 n010 n001 n110 n011 n101 n111 lim
  { phi := accum (weights3 (basis eta.x) (basis eta.y) (basis eta.z)) cs,
    psi := ⟨accum (weights3 (basis' eta.x) (basis eta.y) (basis eta.z)) cs * inv.x,
            accum (weights3 (basis eta.x) (basis' eta.y) (basis eta.z)) cs * inv.y,
            accum (weights3 (basis eta.x) (basis eta.y) (basis' eta.z)) cs * inv.z⟩ }

/-- Reads of the previous-step fields at a node (`src/cpu/interpolation/hermite-3d.cc:70-192`). -/
def readNode3 (s : IntSem) (g : Grid K d) (ls : Levelset K) (n : Vec3 ℤ) : M (Node3 K) := do
  let phi ← ls.phiPrev.getV s g n
  let psi ← ls.psiPrev.getV s g n
  let mix ← ls.phiMixedPrev.getV s g n
  let xy ← rd mix 0
  let yz ← rd mix 1
  let zx ← rd mix 2
  let xyz ← rd mix 3
  return ⟨phi, psi, xy, yz, zx, xyz⟩

/-- `Hermite<T, Grid<T, 3>>::interpolate` (`src/cpu/interpolation/hermite-3d.cc:36-379`). -/
def interp3 [HasFloor K] (s : IntSem) (g : Grid K d) (ls : Levelset K) (x : Vec3 K) (lim : Bool) : M (Interp K) := do
  let base ← g.baseNodeId x
  let i1 ← iadd s base.x (axisVec 0 0)
  let j1 ← iadd s base.y (axisVec 1 1)
  let k1 ← iadd s base.z (axisVec 2 2)
  let xbase ← g.atV s base
  let eta := (x.sub xbase).mul g.oneOverDx
  let n000 ← readNode3 s g ls base
  let n100 ← readNode3 s g ls ⟨i1, base.y, base.z⟩
  let n010 ← readNode3 s g ls ⟨base.x, j1, base.z⟩
  let n001 ← readNode3 s g ls ⟨base.x, base.y, k1⟩
  let n110 ← readNode3 s g ls ⟨i1, j1, base.z⟩
  let n011 ← readNode3 s g ls ⟨base.x, j1, k1⟩
  let n101 ← readNode3 s g ls ⟨i1, base.y, k1⟩
  let n111 ← readNode3 s g ls ⟨i1, j1, k1⟩
  return kernel3 g.dx g.oneOverDx eta n000 n100 n010 n001 n110 n011 n101 n111 lim

/-! ## Fields -/

/-- The specialisation chosen by `DIM` (`include/gals/cpu/interpolation/hermite.h`, partial specialisations for `Grid<T, 1>`, `Grid<T, 2>`,
`Grid<T, 3>`) (`include/gals/cpu/interpolation/hermite.h:158,227,296`). -/
def interpolate [HasFloor K] (s : IntSem) (g : Grid K d) (ls : Levelset K) (x : Vec3 K) (lim : Bool) : M (Interp K) :=
  if d = 1 then interp1 s g ls x lim else if d = 2 then interp2 s g ls x lim else interp3 s g ls x lim

/-- `compute` (`src/cpu/interpolation/hermite-1d.cc:84-104`, `src/cpu/interpolation/hermite-2d.cc:127-147`, `src/cpu/interpolation/hermite-3d.cc:381-401`).  `gx` is the grid referred to
by `x_interp`, `g` the grid of the level set. -/
def hermiteCompute [HasFloor K] (s : IntSem) (gx g : Grid K d) (xInterp : Arr (Vec3 K)) (ls : Levelset K) :
    M (Levelset K) :=
  loop xInterp.interior ls fun ls c => do
    let x ← xInterp.get s gx c.1 c.2.1 c.2.2
    let r ← interpolate s g ls x false
    let a ← ls.phiInterpPrev.set s g c.1 c.2.1 c.2.2 r.phi
    let b ← ls.psiInterpPrev.set s g c.1 c.2.1 c.2.2 r.psi
    return { ls with phiInterpPrev := a, psiInterpPrev := b }

end Gals
