import Verif.Model.RefHermite
import Verif.Props.Hermite

/-!
# Properties C40, C41 (interpolation of the reference code)
-/

namespace Gals.Props

open Gals Spec Ref

/-! ## C40: reference and library 2D Hermite interpolation agree -/

section C40

/-- Node data in the order of the reference code: lower left, lower right, upper left, upper right. -/
def refCell {K : Type} (phi psix psiy psixy : Gals.Cell → K) (b : Gals.Cell) : CellData K :=
  let at4 (f : Gals.Cell → K) : Fin 4 → K :=
    ![f b, f (b.1 + 1, b.2.1, b.2.2), f (b.1, b.2.1 + 1, b.2.2), f (b.1 + 1, b.2.1 + 1, b.2.2)]
  ⟨at4 phi, at4 psix, at4 psiy, at4 psixy⟩

/-- C40, formulas: for every node data, every nonzero spacing and every point, the value and gradient of the library's 2D
interpolation (limiter off) are the value `hp` and the derivatives `hermx`, `hermy` of the reference code. -/
theorem C40_formulas {K : Type} [Field K] [LinearOrder K] [IsStrictOrderedRing K] (n00 n10 n01 n11 : Node2 K)
    (x y xo yo dx dy dz iz ez : K) (hx : dx ≠ 0) (hy : dy ≠ 0) :
    let c : CellData K := ⟨![n00.phi, n10.phi, n01.phi, n11.phi], ![n00.psi.x, n10.psi.x, n01.psi.x, n11.psi.x],
      ![n00.psi.y, n10.psi.y, n01.psi.y, n11.psi.y], ![n00.xy, n10.xy, n01.xy, n11.xy]⟩
    kernel2 ⟨dx, dy, dz⟩ ⟨1 / dx, 1 / dy, iz⟩ ⟨(x - xo) * (1 / dx), (y - yo) * (1 / dy), ez⟩ n00 n10 n01 n11 false =
      ⟨hp c x y xo yo dx dy, ⟨hermx c x y xo yo dx dy, hermy c x y xo yo dx dy, 0⟩⟩ := by
  intro c
  have e1 : (x - xo) * (1 / dx) = (x - xo) / dx := by ring
  have e2 : (y - yo) * (1 / dy) = (y - yo) / dy := by ring
  rw [kernel2_eq, e1, e2]
  generalize hex : (x - xo) / dx = ex
  generalize hey : (y - yo) / dy = ey
  simp only [hp, hermx, hermy, outer, inner, List.foldl, basepolynomial, gradbpx, gradbpy, basePoly, basePoly', powSmall,
    hex, hey, c, basis, basis', T1_four, B0, B1, B2, B3, B0', B1', B2', B3', sqr, cube]
  simp only [Matrix.cons_val_zero, Matrix.cons_val_one, Matrix.cons_val, if_true, one_ne_zero, if_false]
  rw [Interp.mk.injEq, Vec3.mk.injEq]
  refine ⟨?_, ?_, ?_, rfl⟩
  · ring
  · field_simp; ring
  · field_simp; ring

/-- C40 on a grid: any padding, spacing, node data and point between stored nodes; the library call returns the reference
code's value and derivatives for the data of the cell that encloses the point. -/
theorem C40_library {K : Type} [Field K] [LinearOrder K] [IsStrictOrderedRing K] [FloorRing K]
    (r : Req K) (h : r.Valid 2) (hpos : r.Pos 2) (g : Grid K 2) (e : r.make .wrap 2 = .ok g)
    (ls : Levelset K) (phi : Gals.Cell → K) (psi : Gals.Cell → Vec3 K) (xy : Gals.Cell → K)
    (P : PrevIs .wrap r g ls phi psi (fun c => [xy c])) (x : Vec3 K) (hx : InStorage r 2 x) :
    ∃ (b : Gals.Cell) (q : Vec3 K), BaseCell r 2 x b ∧ g.at' .wrap b.1 b.2.1 b.2.2 = .ok q ∧
      let c := refCell phi (fun n => (psi n).x) (fun n => (psi n).y) xy b
      interpolate .wrap g ls x false = .ok ⟨hp c x.x x.y q.x q.y (r.h 0) (r.h 1),
        ⟨hermx c x.x x.y q.x q.y (r.h 0) (r.h 1), hermy c x.x x.y q.x q.y (r.h 0) (r.h 1), 0⟩⟩ := by
  have G := make_made h e
  obtain ⟨b, H, eb⟩ := interp2_eval G h hpos P hx false
  have s00 := H.stencil h 0 0 0 (by simp) (by simp) (by simp)
  simp only [add_zero] at s00
  have hx0 : r.h 0 ≠ 0 := (h.h_pos hpos 0 (by decide)).ne'
  have hy0 : r.h 1 ≠ 0 := (h.h_pos hpos 1 (by decide)).ne'
  refine ⟨b, nodePos r 2 b, H, G.atC s00, ?_⟩
  have hdx : g.dx.x = r.h 0 := G.dx 0
  have hdy : g.dx.y = r.h 1 := G.dx 1
  have hix : g.oneOverDx.x = 1 / r.h 0 := G.oneOverDx 0 (by decide)
  have hiy : g.oneOverDx.y = 1 / r.h 1 := G.oneOverDx 1 (by decide)
  have := C40_formulas (node2 phi psi xy b) (node2 phi psi xy (b.1 + 1, b.2.1, b.2.2))
    (node2 phi psi xy (b.1, b.2.1 + 1, b.2.2)) (node2 phi psi xy (b.1 + 1, b.2.1 + 1, b.2.2))
    x.x x.y (nodePos r 2 b).x (nodePos r 2 b).y (r.h 0) (r.h 1) g.dx.z g.oneOverDx.z
    ((x.z - (nodePos r 2 b).z) * g.oneOverDx.z) hx0 hy0
  have e1 : g.dx = ⟨r.h 0, r.h 1, g.dx.z⟩ := by rw [← hdx, ← hdy]
  have e2 : g.oneOverDx = ⟨1 / r.h 0, 1 / r.h 1, g.oneOverDx.z⟩ := by rw [← hix, ← hiy]
  have e3 : (x.sub (nodePos r 2 b)).mul g.oneOverDx = ⟨(x.x - (nodePos r 2 b).x) * (1 / r.h 0),
      (x.y - (nodePos r 2 b).y) * (1 / r.h 1), (x.z - (nodePos r 2 b).z) * g.oneOverDx.z⟩ := by
    simp only [Vec3.mul, Vec3.sub, hix, hiy]
  rw [eb, e3, e1, e2]
  exact congrArg Except.ok this

end C40

/-- Instance of `C40_formulas`: spacing 1/2 by 1/4, data of no polynomial, a point inside the cell. -/
example : (hp (⟨![1, 2, 3, 5], ![7, -1, 0, 2], ![4, 1, 1, -3], ![0, 6, 2, 1]⟩ : CellData ℚ) (1 / 3) (1 / 8) 0 0 (1 / 2) (1 / 4))
      = (kernel2 ⟨1 / 2, 1 / 4, 0⟩ ⟨1 / (1 / 2), 1 / (1 / 4), 0⟩ ⟨(1 / 3 - 0) * (1 / (1 / 2)), (1 / 8 - 0) * (1 / (1 / 4)), 0⟩
        ⟨(1 : ℚ), ⟨7, 4, 0⟩, 0⟩ ⟨2, ⟨-1, 1, 0⟩, 6⟩ ⟨3, ⟨0, 1, 0⟩, 2⟩ ⟨5, ⟨2, -3, 0⟩, 1⟩ false).phi :=
  (congrArg Interp.phi (C40_formulas (⟨1, ⟨7, 4, 0⟩, 0⟩ : Node2 ℚ) ⟨2, ⟨-1, 1, 0⟩, 6⟩ ⟨3, ⟨0, 1, 0⟩, 2⟩ ⟨5, ⟨2, -3, 0⟩, 1⟩
    (1 / 3) (1 / 8) 0 0 (1 / 2) (1 / 4) 0 0 0 (by norm_num) (by norm_num))).symm

/-- Instance of `C40_library`: 4 × 3 cells with padding 1 and values of no polynomial. -/
example : ∃ g : Grid ℚ 2, (demo 1).make .wrap 2 = .ok g ∧ ∃ ls : Levelset ℚ, ∃ (b : Gals.Cell) (q : Vec3 ℚ),
    BaseCell (demo 1) 2 ⟨1 / 3, 2 / 7, 0⟩ b ∧
      let c := refCell (K := ℚ) (fun n => 1 / (3 + (n.1 : ℚ) ^ 2)) (fun n => n.1) (fun n => n.2.1) (fun n => n.1 * n.2.1) b
      interpolate .wrap g ls ⟨1 / 3, 2 / 7, 0⟩ false = .ok ⟨hp c (1 / 3) (2 / 7) q.x q.y ((demo 1).h 0) ((demo 1).h 1),
        ⟨hermx c (1 / 3) (2 / 7) q.x q.y ((demo 1).h 0) ((demo 1).h 1),
          hermy c (1 / 3) (2 / 7) q.x q.y ((demo 1).h 0) ((demo 1).h 1), 0⟩⟩ := by
  obtain ⟨g, e, -⟩ := C01_padded_addressing .wrap 2 (demo 1) demo_valid
  have G := make_made demo_valid e
  obtain ⟨ls, P⟩ := prevIs_exists G (fun n => 1 / (3 + (n.1 : ℚ) ^ 2)) (fun n => ⟨n.1, n.2.1, 0⟩)
    (fun n => [(n.1 * n.2.1 : ℚ)])
  obtain ⟨b, q, H, -, eb⟩ := C40_library (demo 1) demo_valid (demo_pos 1) g e ls _ _ (fun n => (n.1 * n.2.1 : ℚ)) P
    ⟨1 / 3, 2 / 7, 0⟩ (inStorage_of_box demo_valid (demo_pos 1) (by decide) fun b hb => by
      match b with
      | 0 => norm_num [demo, Vec3.get]
      | 1 => norm_num [demo, Vec3.get]
      | 2 => exact absurd hb (by decide))
  exact ⟨g, e, ls, b, q, H, eb⟩

/-! ## C41: reference 1D interpolation on cubics -/

section C41
variable {K : Type} [Field K] [CharZero K]

/-- `hp1D` fed with the values and derivatives of the cubic `a` at the ends of the cell `[xo, xo + dx]` gives the value of
the cubic at `x`. -/
def Hp1DExact (dx : K) : Prop :=
  ∀ (a : Fin 4 → K) (xo x : K),
    hp1D (cubic a xo) (cubic a (xo + dx)) (cubic' a xo) (cubic' a (xo + dx)) x xo dx = cubic a x

/-- C41 is false: `hp1D` is exact on cubics for the spacing 1 and for no other (nonzero) spacing, because the derivative
terms lack the factor `dx`. -/
theorem C41_exact_iff_unit_spacing (dx : K) (h : dx ≠ 0) : Hp1DExact dx ↔ dx = 1 := by
  constructor
  · intro H
    have := H ![0, 1, 0, 0] 0 (dx / 3)
    simp only [hp1D, cubic, cubic', sqr, cube, Matrix.cons_val_zero, Matrix.cons_val_one, Matrix.cons_val, sub_zero,
      zero_add, add_zero, zero_mul, mul_zero, one_mul, mul_one] at this
    field_simp at this
    linear_combination (-1 / 2 : K) * this
  · rintro rfl a xo x
    simp only [hp1D, cubic, cubic', sqr, cube]
    ring

/-- C41 is false for the grid spacing 1/2: the line `x` is not reproduced. -/
theorem C41_false : ¬ Hp1DExact (1 / 2 : ℚ) := by
  rw [C41_exact_iff_unit_spacing _ (by norm_num)]
  norm_num

omit [CharZero K] in
/-- What holds on any spacing (partial: the caller has to multiply the derivatives by `dx`, and there is no caller). -/
theorem C41_scaled_partial (dx : K) (h : dx ≠ 0) (a : Fin 4 → K) (xo x : K) :
    hp1D (cubic a xo) (cubic a (xo + dx)) (dx * cubic' a xo) (dx * cubic' a (xo + dx)) x xo dx = cubic a x := by
  simp only [hp1D, cubic, cubic', sqr, cube]
  field_simp
  ring

end C41

/-- Instance of the partial theorem: `x³ - 2x` on the cell `[1, 3/2]`, at 5/4. -/
example : hp1D (-1) (3 / 8) (1 / 2) (19 / 8) (5 / 4) 1 (1 / 2) = (5 / 4) ^ 3 - 2 * (5 / 4 : ℚ) := by
  have := C41_scaled_partial (1 / 2 : ℚ) (by norm_num) ![0, -2, 0, 1] 1 (5 / 4)
  norm_num [cubic, cubic', hp1D, sqr, cube] at this ⊢

end Gals.Props
