import Verif.Lemmas.Interp
import Verif.Lemmas.Generic
import Verif.Props.Grid
import Mathlib.Tactic.ComputeDegree

/-!
# Properties C05, C14, C15, C16 (point interpolation)
-/

namespace Gals.Props

open Gals Spec

/-! ## C05: point interpolation executes no undefined integer arithmetic -/

section C05
variable {K : Type} [Field K] [LinearOrder K] [IsStrictOrderedRing K] [FloorRing K]

/-- C05 is false in 1D and 2D: under the ISO rules **every** interpolation at **every** point between stored nodes
overflows a signed integer, with any padding at least 1 (the default is 1). -/
theorem C05_false (d : ℕ) (hd : d < 3) (r : Req K) (h : r.Valid d) (hpos : r.Pos d) (hpad : 1 ≤ r.pad)
    (g : Grid K d) (e : r.make .strict d = .ok g) (ls : Levelset K) (x : Vec3 K) (hx : InStorage r d x) (lim : Bool) :
    interpolate .strict g ls x lim = .error .overflow := by
  have G := make_made h e
  obtain ⟨b, H, eb⟩ := G.baseCell h hpos hx
  have hp : 1 ≤ g.pad := by rw [G.pad]; exact hpad
  rw [if_neg (show ¬ (2 < d) by omega)] at eb
  rcases h.dim with rfl | rfl | rfl
  · unfold interpolate interp1
    rw [if_pos rfl, eb, M.ok_bind]
    simp only
    rw [H.succ_ok h .strict 0 (by decide) b.1 rfl, M.ok_bind]
    unfold Grid.atV Grid.at'
    rw [Grid.index_strict_overflow hp, M.error_bind, M.error_bind]
  · unfold interpolate interp2
    rw [if_neg (by decide), if_pos rfl, eb, M.ok_bind]
    simp only
    rw [H.succ_ok h .strict 0 (by decide) b.1 rfl, M.ok_bind, if_pos (show (1 < 2) by decide),
      H.succ_ok h .strict 1 (by decide) b.2.1 rfl, M.ok_bind]
    unfold Grid.atV Grid.at'
    rw [Grid.index_strict_overflow hp, M.error_bind, M.error_bind]
  · omega

/-- C05 is false for 1D linear interpolation as well. -/
theorem C05_linear_false (r : Req K) (h : r.Valid 1) (hpos : r.Pos 1) (hpad : 1 ≤ r.pad)
    (g : Grid K 1) (e : r.make .strict 1 = .ok g) (alpha : Arr K) (x : Vec3 K) (hx : InStorage r 1 x) :
    linearInterp .strict g x alpha = .error .overflow := by
  have G := make_made h e
  obtain ⟨b, H, eb⟩ := G.baseCell h hpos hx
  have hp : 1 ≤ g.pad := by rw [G.pad]; exact hpad
  rw [if_neg (show ¬ (2 < 1) by omega)] at eb
  unfold linearInterp
  rw [eb, M.ok_bind]
  simp only
  rw [H.succ_ok h .strict 0 (by decide) b.1 rfl, M.ok_bind]
  unfold Grid.atV Grid.at'
  rw [Grid.index_strict_overflow hp, M.error_bind, M.error_bind]

/-- C05 in 3D: under the ISO rules interpolation at every point between stored nodes returns.  Missing for the full
claim: 1D and 2D, where it is false (`C05_false`, `C05_linear_false`). -/
theorem C05_no_overflow_partial (r : Req K) (h : r.Valid 3) (hpos : r.Pos 3)
    (g : Grid K 3) (e : r.make .strict 3 = .ok g) (ls : Levelset K) (phi : Cell → K) (psi : Cell → Vec3 K)
    (xy yz zx xyz : Cell → K) (P : PrevIs .strict r g ls phi psi (fun c => [xy c, yz c, zx c, xyz c]))
    (x : Vec3 K) (hx : InStorage r 3 x) (lim : Bool) :
    ∃ out, interpolate .strict g ls x lim = .ok out := by
  obtain ⟨b, -, eb⟩ := interp3_eval (make_made h e) h hpos P hx lim
  exact ⟨_, eb⟩

end C05

/-- Instance of `C05_false`: the 4 × 3 grid, any level set, the point (0.3, 0.4). -/
example : ∃ g : Grid ℚ 2, (demo 1).make .strict 2 = .ok g ∧ ∀ ls lim,
    interpolate .strict g ls ⟨3 / 10, 4 / 10, 0⟩ lim = .error .overflow := by
  obtain ⟨g, e, -⟩ := C01_padded_addressing .strict 2 (demo 1) demo_valid
  refine ⟨g, e, fun ls lim => C05_false 2 (by decide) (demo 1) demo_valid (demo_pos 1) (by decide) g e ls _ ?_ lim⟩
  refine inStorage_of_box demo_valid (demo_pos 1) (by decide) fun a ha => ?_
  match a with
  | 0 => norm_num [demo, Vec3.get]
  | 1 => norm_num [demo, Vec3.get]
  | 2 => exact absurd ha (by decide)

/-- 3 cells on `[0,3]`, padding `p`. -/
def line (p : ℤ) : Req ℚ := ⟨⟨3, 1, 1⟩, p, ⟨0, 0, 0⟩, ⟨3, 0, 0⟩⟩

theorem line_valid : (line 1).Valid 1 :=
  ⟨by simp, by decide, by decide, by decide, by decide, by decide, by decide, by decide⟩

theorem line2_valid : (line 2).Valid 1 :=
  ⟨by simp, by decide, by decide, by decide, by decide, by decide, by decide, by decide⟩

theorem line_pos (p : ℤ) : (line p).Pos 1 := by
  intro a ha
  match a with
  | 0 => show (0 : ℚ) < 3; norm_num
  | 1 => exact absurd ha (by decide)
  | 2 => exact absurd ha (by decide)

/-- 2 × 3 × 2 cells on `[0,1] × [0,3] × [0,4]`, padding `p`. -/
def box (p : ℤ) : Req ℚ := ⟨⟨2, 3, 2⟩, p, ⟨0, 0, 0⟩, ⟨1, 3, 4⟩⟩

theorem box_valid : (box 1).Valid 3 :=
  ⟨by simp, by decide, by decide, by decide, by decide, by decide, by decide, by decide⟩

theorem box_pos (p : ℤ) : (box p).Pos 3 := by
  intro a ha
  match a with
  | 0 => show (0 : ℚ) < 1; norm_num
  | 1 => show (0 : ℚ) < 3; norm_num
  | 2 => show (0 : ℚ) < 4; norm_num

/-- Instance of `C05_linear_false`. -/
example : ∃ g : Grid ℚ 1, (line 1).make .strict 1 = .ok g ∧ ∀ al,
    linearInterp .strict g ⟨17 / 10, 0, 0⟩ al = .error .overflow := by
  obtain ⟨g, e, -⟩ := C01_padded_addressing .strict 1 (line 1) line_valid
  refine ⟨g, e, fun al => C05_linear_false (line 1) line_valid (line_pos 1) (by decide) g e al _ ?_⟩
  refine inStorage_of_box line_valid (line_pos 1) (by decide) fun a ha => ?_
  match a with
  | 0 => norm_num [line, Vec3.get]
  | 1 => exact absurd ha (by decide)
  | 2 => exact absurd ha (by decide)

/-- Instance of `C05_no_overflow_partial`: the upper corner of a 3D box. -/
example : ∃ g : Grid ℚ 3, (box 1).make .strict 3 = .ok g ∧ ∃ ls out,
    interpolate .strict g ls ⟨1, 3, 4⟩ true = .ok out := by
  obtain ⟨g, e, -⟩ := C01_padded_addressing .strict 3 (box 1) box_valid
  obtain ⟨ls, P⟩ := prevIs_exists (make_made box_valid e) (fun c => (c.1 : ℚ)) (fun _ => ⟨1, 0, 0⟩)
    (fun _ => [0, 0, 0, 0])
  refine ⟨g, e, ls, C05_no_overflow_partial (box 1) box_valid (box_pos 1) g e ls _ _ _ _ _ _ P _ ?_ true⟩
  refine inStorage_of_box box_valid (box_pos 1) (by decide) fun a ha => ?_
  match a with
  | 0 => norm_num [box, Vec3.get]
  | 1 => norm_num [box, Vec3.get]
  | 2 => norm_num [box, Vec3.get]

/-! ## C14: 1D Hermite interpolation is exact on cubics -/

section C14
variable {K : Type} [Field K] [LinearOrder K] [IsStrictOrderedRing K] [FloorRing K]

/-- C14. Any padding, any spacing, any point between stored nodes: if the node values and gradients are those of a
polynomial of degree at most 3 at the stored node positions, the interpolated value and gradient are those of the
polynomial at the point.  (Index arithmetic wraps around; under the ISO rules there is no result, see C05.) -/
theorem C14_exact_on_cubics (r : Req K) (h : r.Valid 1) (hpos : r.Pos 1) (g : Grid K 1) (e : r.make .wrap 1 = .ok g)
    (ls : Levelset K) (phi : Cell → K) (psi : Cell → Vec3 K) (mix : Cell → List K)
    (P : PrevIs .wrap r g ls phi psi mix)
    (p : Polynomial K) (hp : p.natDegree ≤ 3)
    (data : ∀ c q, r.Padded 1 c → g.at' .wrap c.1 c.2.1 c.2.2 = .ok q →
      phi c = p.eval q.x ∧ (psi c).x = p.derivative.eval q.x)
    (x : Vec3 K) (hx : InStorage r 1 x) :
    interpolate .wrap g ls x false = .ok ⟨p.eval x.x, ⟨p.derivative.eval x.x, 0, 0⟩⟩ := by
  have G := make_made h e
  obtain ⟨b, H, eb⟩ := interp1_eval G h hpos P hx false
  have s0 := H.stencil h 0 0 0 (by simp) (by simp) (by simp)
  have s1 := H.stencil h 1 0 0 (by simp) (by simp) (by simp)
  simp only [add_zero] at s0 s1
  have hh : r.h 0 ≠ 0 := (h.h_pos hpos 0 (by decide)).ne'
  rw [cubic_of_poly p hp] at data ⊢
  simp only [toPoly_eval, toPoly_derivative_eval] at data ⊢
  generalize (fun i : Fin 4 => p.coeff (i : ℕ)) = a at data ⊢
  obtain ⟨d0, d0'⟩ := data b _ s0 (G.atC s0)
  obtain ⟨d1, d1'⟩ := data (b.1 + 1, b.2.1, b.2.2) _ s1 (G.atC s1)
  have hsucc : (nodePos r 1 (b.1 + 1, b.2.1, b.2.2)).x = (nodePos r 1 b).x + r.h 0 :=
    nodePos_succ r b (b.1 + 1, b.2.1, b.2.2) 0 (by decide) rfl
  rw [hsucc] at d1 d1'
  have hxx : (nodePos r 1 b).x + (x.x - (nodePos r 1 b).x) * (1 / r.h 0) * r.h 0 = x.x := by field_simp; ring
  rw [eb, kernel1_eq]
  simp only [d0, d0', d1, d1']
  rw [T1_basis, T1_basis' _ _ _ _ hh, hxx]

end C14

/-- Instance of C14: `p = 2 X³ - X + 1` on three cells with padding 2, at a point in the ghost layer. -/
example : ∃ g : Grid ℚ 1, (line 2).make .wrap 1 = .ok g ∧ ∃ ls,
    interpolate .wrap g ls ⟨-13 / 10, 0, 0⟩ false =
      .ok ⟨(2 * .X ^ 3 - .X + 1 : Polynomial ℚ).eval (-13 / 10), ⟨(2 * .X ^ 3 - .X + 1 : Polynomial ℚ).derivative.eval (-13 / 10), 0, 0⟩⟩ := by
  obtain ⟨g, e, -⟩ := C01_padded_addressing .wrap 1 (line 2) line2_valid
  have G := make_made line2_valid e
  set p : Polynomial ℚ := 2 * .X ^ 3 - .X + 1 with hp
  obtain ⟨ls, P⟩ := prevIs_exists G (fun c => p.eval (nodePos (line 2) 1 c).x)
    (fun c => ⟨p.derivative.eval (nodePos (line 2) 1 c).x, 0, 0⟩) (fun _ => [])
  refine ⟨g, e, ls, C14_exact_on_cubics (line 2) line2_valid (line_pos 2) g e ls _ _ _ P p ?_ ?_ ⟨-13 / 10, 0, 0⟩ ?_⟩
  · rw [hp]; compute_degree
  · intro c q hc hq
    rw [G.atC hc] at hq
    cases hq
    exact ⟨rfl, rfl⟩
  · intro a ha
    match a with
    | 0 => norm_num [line, Vec3.get, Req.centre, Req.h]
    | 1 => exact absurd ha (by decide)
    | 2 => exact absurd ha (by decide)

/-! ## C15: 2D Hermite interpolation is exact on bicubics -/

section C15
variable {K : Type} [Field K] [LinearOrder K] [IsStrictOrderedRing K] [FloorRing K]

/-- C15. Any padding, spacing and point between stored nodes: if node values, gradients and mixed derivatives are those
of a polynomial `∑ aᵢⱼ xⁱ yʲ` (`i, j ≤ 3`) at the stored node positions, then the interpolated value and gradient are
those of the polynomial at the point. -/
theorem C15_exact_on_bicubics (r : Req K) (h : r.Valid 2) (hpos : r.Pos 2) (g : Grid K 2) (e : r.make .wrap 2 = .ok g)
    (ls : Levelset K) (phi : Cell → K) (psi : Cell → Vec3 K) (xy : Cell → K)
    (P : PrevIs .wrap r g ls phi psi (fun c => [xy c]))
    (a : Fin 4 → Fin 4 → K)
    (data : ∀ c q, r.Padded 2 c → g.at' .wrap c.1 c.2.1 c.2.2 = .ok q →
      phi c = bicubic a q.x q.y ∧ (psi c).x = bicubicX a q.x q.y ∧ (psi c).y = bicubicY a q.x q.y ∧
        xy c = bicubicXY a q.x q.y)
    (x : Vec3 K) (hx : InStorage r 2 x) :
    interpolate .wrap g ls x false = .ok ⟨bicubic a x.x x.y, ⟨bicubicX a x.x x.y, bicubicY a x.x x.y, 0⟩⟩ := by
  have G := make_made h e
  obtain ⟨b, H, eb⟩ := interp2_eval G h hpos P hx false
  have s00 := H.stencil h 0 0 0 (by simp) (by simp) (by simp)
  have s10 := H.stencil h 1 0 0 (by simp) (by simp) (by simp)
  have s01 := H.stencil h 0 1 0 (by simp) (by simp) (by simp)
  have s11 := H.stencil h 1 1 0 (by simp) (by simp) (by simp)
  simp only [add_zero] at s00 s10 s01 s11
  have hx0 : r.h 0 ≠ 0 := (h.h_pos hpos 0 (by decide)).ne'
  have hy0 : r.h 1 ≠ 0 := (h.h_pos hpos 1 (by decide)).ne'
  have x10 : (nodePos r 2 (b.1 + 1, b.2.1, b.2.2)).x = (nodePos r 2 b).x + r.h 0 :=
    nodePos_succ r b _ 0 (by decide) rfl
  have y10 : (nodePos r 2 (b.1 + 1, b.2.1, b.2.2)).y = (nodePos r 2 b).y := nodePos_same r b _ 1 rfl
  have x01 : (nodePos r 2 (b.1, b.2.1 + 1, b.2.2)).x = (nodePos r 2 b).x := nodePos_same r b _ 0 rfl
  have y01 : (nodePos r 2 (b.1, b.2.1 + 1, b.2.2)).y = (nodePos r 2 b).y + r.h 1 :=
    nodePos_succ r b _ 1 (by decide) rfl
  have x11 : (nodePos r 2 (b.1 + 1, b.2.1 + 1, b.2.2)).x = (nodePos r 2 b).x + r.h 0 :=
    nodePos_succ r b _ 0 (by decide) rfl
  have y11 : (nodePos r 2 (b.1 + 1, b.2.1 + 1, b.2.2)).y = (nodePos r 2 b).y + r.h 1 :=
    nodePos_succ r b _ 1 (by decide) rfl
  obtain ⟨a0, a1, a2, a3⟩ := data b _ s00 (G.atC s00)
  obtain ⟨b0, b1, b2, b3⟩ := data (b.1 + 1, b.2.1, b.2.2) _ s10 (G.atC s10)
  obtain ⟨c0, c1, c2, c3⟩ := data (b.1, b.2.1 + 1, b.2.2) _ s01 (G.atC s01)
  obtain ⟨d0, d1, d2, d3⟩ := data (b.1 + 1, b.2.1 + 1, b.2.2) _ s11 (G.atC s11)
  rw [x10, y10] at b0 b1 b2 b3
  rw [x01, y01] at c0 c1 c2 c3
  rw [x11, y11] at d0 d1 d2 d3
  have hdx : g.dx.x = r.h 0 := G.dx 0
  have hdy : g.dx.y = r.h 1 := G.dx 1
  have hix : g.oneOverDx.x = 1 / r.h 0 := G.oneOverDx 0 (by decide)
  have hiy : g.oneOverDx.y = 1 / r.h 1 := G.oneOverDx 1 (by decide)
  rw [eb, kernel2_eq]
  simp only [node2, a0, a1, a2, a3, b0, b1, b2, b3, c0, c1, c2, c3, d0, d1, d2, d3, hdx, hdy, Vec3.mul, Vec3.sub,
    hix, hiy, bicubic, bicubicX, bicubicY, bicubicXY]
  have ex : (nodePos r 2 b).x + (x.x - (nodePos r 2 b).x) * (1 / r.h 0) * r.h 0 = x.x := by field_simp; ring
  have ey : (nodePos r 2 b).y + (x.y - (nodePos r 2 b).y) * (1 / r.h 1) * r.h 1 = x.y := by field_simp; ring
  simp only [T1_cubic, T1_cubic', T1_basis, T1_basis'' _ _ _ _ hx0, T1_basis'' _ _ _ _ hy0, cubic_smul, cubic'_smul,
    T1_smul, ex, ey]
  congr 3 <;> field_simp

end C15

/-- Instance of C15: `x³ y² - 3 x y + 5` on 4 × 3 cells, at a point of the box. -/
example : ∃ g : Grid ℚ 2, (demo 1).make .wrap 2 = .ok g ∧ ∃ ls,
    interpolate .wrap g ls ⟨1 / 3, 2 / 7, 0⟩ false =
      .ok ⟨(1 / 3) ^ 3 * (2 / 7) ^ 2 - 3 * (1 / 3) * (2 / 7) + 5,
        ⟨3 * (1 / 3) ^ 2 * (2 / 7) ^ 2 - 3 * (2 / 7), 2 * (1 / 3) ^ 3 * (2 / 7) - 3 * (1 / 3), 0⟩⟩ := by
  obtain ⟨g, e, -⟩ := C01_padded_addressing .wrap 2 (demo 1) demo_valid
  have G := make_made demo_valid e
  set a : Fin 4 → Fin 4 → ℚ := 
    fun i j => if (i, j) = (0, 0) then 5 else if (i, j) = (1, 1) then -3 else if (i, j) = (3, 2) then 1 else 0 with ha
  let q := nodePos (demo 1) 2
  obtain ⟨ls, P⟩ := prevIs_exists G (fun c => bicubic a (q c).x (q c).y)
    (fun c => ⟨bicubicX a (q c).x (q c).y, bicubicY a (q c).x (q c).y, 0⟩) (fun c => [bicubicXY a (q c).x (q c).y])
  have := C15_exact_on_bicubics (demo 1) demo_valid (demo_pos 1) g e ls _ _ _ P a (fun c p hc hp => by
    rw [G.atC hc] at hp
    cases hp
    exact ⟨rfl, rfl, rfl, rfl⟩) ⟨1 / 3, 2 / 7, 0⟩ (inStorage_of_box demo_valid (demo_pos 1) (by decide) fun b hb => by
      match b with
      | 0 => norm_num [demo, Vec3.get]
      | 1 => norm_num [demo, Vec3.get]
      | 2 => exact absurd hb (by decide))
  refine ⟨g, e, ls, this.trans ?_⟩
  simp [bicubic, bicubicX, bicubicY, cubic, cubic', ha]
  norm_num

/-! ## C16: 3D Hermite interpolation is exact on tricubics -/

section C16
variable {K : Type} [Field K] [LinearOrder K] [IsStrictOrderedRing K] [FloorRing K]

/-- C16. Any padding, spacing and point between stored nodes, both readings of integer arithmetic: if node values,
gradients and the four mixed derivatives are those of a polynomial `∑ aᵢⱼₖ xⁱ yʲ zᵏ` (`i, j, k ≤ 3`) at the stored node
positions, then the interpolated value and gradient are those of the polynomial at the point. -/
theorem C16_exact_on_tricubics (s : IntSem) (r : Req K) (h : r.Valid 3) (hpos : r.Pos 3) (g : Grid K 3)
    (e : r.make s 3 = .ok g) (ls : Levelset K) (phi : Cell → K) (psi : Cell → Vec3 K) (xy yz zx xyz : Cell → K)
    (P : PrevIs s r g ls phi psi (fun c => [xy c, yz c, zx c, xyz c]))
    (a : Fin 4 → Fin 4 → Fin 4 → K)
    (data : ∀ c q, r.Padded 3 c → g.at' s c.1 c.2.1 c.2.2 = .ok q →
      phi c = tri cubic cubic cubic a q.x q.y q.z ∧ psi c =
        ⟨tri cubic' cubic cubic a q.x q.y q.z, tri cubic cubic' cubic a q.x q.y q.z,
          tri cubic cubic cubic' a q.x q.y q.z⟩ ∧
      xy c = tri cubic' cubic' cubic a q.x q.y q.z ∧ yz c = tri cubic cubic' cubic' a q.x q.y q.z ∧
      zx c = tri cubic' cubic cubic' a q.x q.y q.z ∧ xyz c = tri cubic' cubic' cubic' a q.x q.y q.z)
    (x : Vec3 K) (hx : InStorage r 3 x) :
    interpolate s g ls x false = .ok ⟨tri cubic cubic cubic a x.x x.y x.z,
      ⟨tri cubic' cubic cubic a x.x x.y x.z, tri cubic cubic' cubic a x.x x.y x.z,
        tri cubic cubic cubic' a x.x x.y x.z⟩⟩ := by
  have G := make_made h e
  obtain ⟨b, H, eb⟩ := interp3_eval G h hpos P hx false
  have s000 := H.stencil h 0 0 0 (by simp) (by simp) (by simp)
  have s100 := H.stencil h 1 0 0 (by simp) (by simp) (by simp)
  have s010 := H.stencil h 0 1 0 (by simp) (by simp) (by simp)
  have s001 := H.stencil h 0 0 1 (by simp) (by simp) (by simp)
  have s110 := H.stencil h 1 1 0 (by simp) (by simp) (by simp)
  have s011 := H.stencil h 0 1 1 (by simp) (by simp) (by simp)
  have s101 := H.stencil h 1 0 1 (by simp) (by simp) (by simp)
  have s111 := H.stencil h 1 1 1 (by simp) (by simp) (by simp)
  simp only [add_zero] at s000 s100 s010 s001 s110 s011 s101 s111
  have hx0 : r.h 0 ≠ 0 := (h.h_pos hpos 0 (by decide)).ne'
  have hy0 : r.h 1 ≠ 0 := (h.h_pos hpos 1 (by decide)).ne'
  have hz0 : r.h 2 ≠ 0 := (h.h_pos hpos 2 (by decide)).ne'
  have x100 : (nodePos r 3 (b.1 + 1, b.2.1, b.2.2)).x = (nodePos r 3 b).x + r.h 0 :=
    nodePos_succ r b _ 0 (by decide) rfl
  have y100 : (nodePos r 3 (b.1 + 1, b.2.1, b.2.2)).y = (nodePos r 3 b).y := nodePos_same r b _ 1 rfl
  have z100 : (nodePos r 3 (b.1 + 1, b.2.1, b.2.2)).z = (nodePos r 3 b).z := nodePos_same r b _ 2 rfl
  have x010 : (nodePos r 3 (b.1, b.2.1 + 1, b.2.2)).x = (nodePos r 3 b).x := nodePos_same r b _ 0 rfl
  have y010 : (nodePos r 3 (b.1, b.2.1 + 1, b.2.2)).y = (nodePos r 3 b).y + r.h 1 :=
    nodePos_succ r b _ 1 (by decide) rfl
  have z010 : (nodePos r 3 (b.1, b.2.1 + 1, b.2.2)).z = (nodePos r 3 b).z := nodePos_same r b _ 2 rfl
  have x001 : (nodePos r 3 (b.1, b.2.1, b.2.2 + 1)).x = (nodePos r 3 b).x := nodePos_same r b _ 0 rfl
  have y001 : (nodePos r 3 (b.1, b.2.1, b.2.2 + 1)).y = (nodePos r 3 b).y := nodePos_same r b _ 1 rfl
  have z001 : (nodePos r 3 (b.1, b.2.1, b.2.2 + 1)).z = (nodePos r 3 b).z + r.h 2 :=
    nodePos_succ r b _ 2 (by decide) rfl
  have x110 : (nodePos r 3 (b.1 + 1, b.2.1 + 1, b.2.2)).x = (nodePos r 3 b).x + r.h 0 :=
    nodePos_succ r b _ 0 (by decide) rfl
  have y110 : (nodePos r 3 (b.1 + 1, b.2.1 + 1, b.2.2)).y = (nodePos r 3 b).y + r.h 1 :=
    nodePos_succ r b _ 1 (by decide) rfl
  have z110 : (nodePos r 3 (b.1 + 1, b.2.1 + 1, b.2.2)).z = (nodePos r 3 b).z := nodePos_same r b _ 2 rfl
  have x011 : (nodePos r 3 (b.1, b.2.1 + 1, b.2.2 + 1)).x = (nodePos r 3 b).x := nodePos_same r b _ 0 rfl
  have y011 : (nodePos r 3 (b.1, b.2.1 + 1, b.2.2 + 1)).y = (nodePos r 3 b).y + r.h 1 :=
    nodePos_succ r b _ 1 (by decide) rfl
  have z011 : (nodePos r 3 (b.1, b.2.1 + 1, b.2.2 + 1)).z = (nodePos r 3 b).z + r.h 2 :=
    nodePos_succ r b _ 2 (by decide) rfl
  have x101 : (nodePos r 3 (b.1 + 1, b.2.1, b.2.2 + 1)).x = (nodePos r 3 b).x + r.h 0 :=
    nodePos_succ r b _ 0 (by decide) rfl
  have y101 : (nodePos r 3 (b.1 + 1, b.2.1, b.2.2 + 1)).y = (nodePos r 3 b).y := nodePos_same r b _ 1 rfl
  have z101 : (nodePos r 3 (b.1 + 1, b.2.1, b.2.2 + 1)).z = (nodePos r 3 b).z + r.h 2 :=
    nodePos_succ r b _ 2 (by decide) rfl
  have x111 : (nodePos r 3 (b.1 + 1, b.2.1 + 1, b.2.2 + 1)).x = (nodePos r 3 b).x + r.h 0 :=
    nodePos_succ r b _ 0 (by decide) rfl
  have y111 : (nodePos r 3 (b.1 + 1, b.2.1 + 1, b.2.2 + 1)).y = (nodePos r 3 b).y + r.h 1 :=
    nodePos_succ r b _ 1 (by decide) rfl
  have z111 : (nodePos r 3 (b.1 + 1, b.2.1 + 1, b.2.2 + 1)).z = (nodePos r 3 b).z + r.h 2 :=
    nodePos_succ r b _ 2 (by decide) rfl
  obtain ⟨p000, q000, u000, v000, w000, t000⟩ := data b _ s000 (G.atC s000)
  obtain ⟨p100, q100, u100, v100, w100, t100⟩ := data (b.1 + 1, b.2.1, b.2.2) _ s100 (G.atC s100)
  obtain ⟨p010, q010, u010, v010, w010, t010⟩ := data (b.1, b.2.1 + 1, b.2.2) _ s010 (G.atC s010)
  obtain ⟨p001, q001, u001, v001, w001, t001⟩ := data (b.1, b.2.1, b.2.2 + 1) _ s001 (G.atC s001)
  obtain ⟨p110, q110, u110, v110, w110, t110⟩ := data (b.1 + 1, b.2.1 + 1, b.2.2) _ s110 (G.atC s110)
  obtain ⟨p011, q011, u011, v011, w011, t011⟩ := data (b.1, b.2.1 + 1, b.2.2 + 1) _ s011 (G.atC s011)
  obtain ⟨p101, q101, u101, v101, w101, t101⟩ := data (b.1 + 1, b.2.1, b.2.2 + 1) _ s101 (G.atC s101)
  obtain ⟨p111, q111, u111, v111, w111, t111⟩ := data (b.1 + 1, b.2.1 + 1, b.2.2 + 1) _ s111 (G.atC s111)
  rw [x100, y100, z100] at p100 q100 u100 v100 w100 t100
  rw [x010, y010, z010] at p010 q010 u010 v010 w010 t010
  rw [x001, y001, z001] at p001 q001 u001 v001 w001 t001
  rw [x110, y110, z110] at p110 q110 u110 v110 w110 t110
  rw [x011, y011, z011] at p011 q011 u011 v011 w011 t011
  rw [x101, y101, z101] at p101 q101 u101 v101 w101 t101
  rw [x111, y111, z111] at p111 q111 u111 v111 w111 t111
  have hdx : g.dx.x = r.h 0 := G.dx 0
  have hix : g.oneOverDx.x = 1 / r.h 0 := G.oneOverDx 0 (by decide)
  have hdy : g.dx.y = r.h 1 := G.dx 1
  have hiy : g.oneOverDx.y = 1 / r.h 1 := G.oneOverDx 1 (by decide)
  have hdz : g.dx.z = r.h 2 := G.dx 2
  have hiz : g.oneOverDx.z = 1 / r.h 2 := G.oneOverDx 2 (by decide)
  rw [eb, kernel3_eq]
  simp only [node3, hdx, hdy, hdz, hix, hiy, hiz, Vec3.mul, Vec3.sub,
    p000, q000, u000, v000, w000, t000,
    p100, q100, u100, v100, w100, t100,
    p010, q010, u010, v010, w010, t010,
    p001, q001, u001, v001, w001, t001,
    p110, q110, u110, v110, w110, t110,
    p011, q011, u011, v011, w011, t011,
    p101, q101, u101, v101, w101, t101,
    p111, q111, u111, v111, w111, t111, tri]
  have ex : (nodePos r 3 b).x + (x.x - (nodePos r 3 b).x) * (1 / r.h 0) * r.h 0 = x.x := by field_simp; ring
  have ey : (nodePos r 3 b).y + (x.y - (nodePos r 3 b).y) * (1 / r.h 1) * r.h 1 = x.y := by field_simp; ring
  have ez : (nodePos r 3 b).z + (x.z - (nodePos r 3 b).z) * (1 / r.h 2) * r.h 2 = x.z := by field_simp; ring
  simp only [T1_cubic, T1_cubic', T1_basis, T1_basis'' _ _ _ _ hx0, T1_basis'' _ _ _ _ hy0, T1_basis'' _ _ _ _ hz0,
    cubic_smul, cubic'_smul, T1_smul, ex, ey, ez]
  congr 3 <;> field_simp

end C16

/-- Instance of C16: `x y² z³ + 2 x³` on 2 × 3 × 2 cells, ISO integer arithmetic. -/
example : ∃ g : Grid ℚ 3, (box 1).make .strict 3 = .ok g ∧ ∃ ls,
    interpolate .strict g ls ⟨1 / 3, 2, 3⟩ false =
      .ok ⟨1 / 3 * 2 ^ 2 * 3 ^ 3 + 2 * (1 / 3) ^ 3,
        ⟨2 ^ 2 * 3 ^ 3 + 6 * (1 / 3) ^ 2, 2 * (1 / 3) * 2 * 3 ^ 3, 3 * (1 / 3) * 2 ^ 2 * 3 ^ 2⟩⟩ := by
  obtain ⟨g, e, -⟩ := C01_padded_addressing .strict 3 (box 1) box_valid
  have G := make_made box_valid e
  set a : Fin 4 → Fin 4 → Fin 4 → ℚ :=
    fun i j k => if (i, j, k) = (1, 2, 3) then 1 else if (i, j, k) = (3, 0, 0) then 2 else 0 with ha
  let q := nodePos (box 1) 3
  obtain ⟨ls, P⟩ := prevIs_exists G (fun c => tri cubic cubic cubic a (q c).x (q c).y (q c).z)
    (fun c => ⟨tri cubic' cubic cubic a (q c).x (q c).y (q c).z, tri cubic cubic' cubic a (q c).x (q c).y (q c).z,
      tri cubic cubic cubic' a (q c).x (q c).y (q c).z⟩)
    (fun c => [tri cubic' cubic' cubic a (q c).x (q c).y (q c).z, tri cubic cubic' cubic' a (q c).x (q c).y (q c).z,
      tri cubic' cubic cubic' a (q c).x (q c).y (q c).z, tri cubic' cubic' cubic' a (q c).x (q c).y (q c).z])
  have := C16_exact_on_tricubics .strict (box 1) box_valid (box_pos 1) g e ls _ _ _ _ _ _ P a (fun c p hc hp => by
    rw [G.atC hc] at hp
    cases hp
    exact ⟨rfl, rfl, rfl, rfl, rfl, rfl⟩) ⟨1 / 3, 2, 3⟩
    (inStorage_of_box box_valid (box_pos 1) (by decide) fun b hb => by
      match b with
      | 0 => norm_num [box, Vec3.get]
      | 1 => norm_num [box, Vec3.get]
      | 2 => norm_num [box, Vec3.get])
  refine ⟨g, e, ls, this.trans ?_⟩
  simp [tri, cubic, cubic', ha]
  norm_num

/-! ## C14, C15, C16: node data are reproduced -/

section Nodes
variable {K : Type} [Field K] [LinearOrder K] [IsStrictOrderedRing K] [FloorRing K]

/-- Beyond C14, C15, C16: arbitrary data (not sampled from a polynomial), every dimension.  With padding 1 (the
default), interpolating at the position of an interior node returns the value and the gradient stored at that node.
For other paddings this is false (`C14_node_data_false`), because node positions are then shifted against the base
cells (C02). -/
theorem C14_node_data (s : IntSem) (d : ℕ) (hs : d < 3 → s = .wrap) (r : Req K) (h : r.Valid d) (hpos : r.Pos d)
    (hp : r.pad = 1) (g : Grid K d) (e : r.make s d = .ok g) (ls : Levelset K) (phi : Cell → K) (psi : Cell → Vec3 K)
    (mix : Cell → List K) (hm : ∀ c, (mix c).length = numMixed d) (P : PrevIs s r g ls phi psi mix)
    (c : Cell) (hc : r.Interior c) :
    ∃ q, g.at' s c.1 c.2.1 c.2.2 = .ok q ∧ interpolate s g ls q false = .ok ⟨phi c, onAxes d (psi c)⟩ := by
  have G := make_made h e
  have hpad : r.Padded d c := G.inPad.1 ((G.interior.2 hc).inPad G.shape)
  refine ⟨_, G.atC hpad, interp_node hs G h hpos hp hm P ?_ ?_ fun a _ => rfl⟩
  · intro a ha
    have hca : 0 ≤ comp c a ∧ comp c a < r.n.get a := by
      match a with
      | 0 => exact hc.1
      | 1 => exact hc.2.1
      | 2 => exact hc.2.2
    rw [nodePos_get, if_pos ha, hp, sub_self, add_zero]
    refine ⟨?_, ?_⟩
    · exact ((centre_lt_iff h hpos a ha).2 (by omega)).le
    · exact (centre_lt_iff h hpos a ha).2 (by omega)
  · intro a ha
    match a with
    | 0 => exact absurd (by rcases h.dim with rfl | rfl | rfl <;> decide) ha
    | 1 => have := h.ny_one (by change ¬ 1 < d at ha; omega); have := hc.2.1; show c.2.1 = 0; omega
    | 2 => have := h.nz_one (by change ¬ 2 < d at ha; omega); have := hc.2.2; show c.2.2 = 0; omega

end Nodes

/-- Instance: the interior cell (3, 2) of the 4 × 3 grid. -/
example : ∃ g : Grid ℚ 2, (demo 1).make .wrap 2 = .ok g ∧ ∃ ls q, g.at' .wrap 3 2 0 = .ok q ∧
    interpolate .wrap g ls q false = .ok ⟨32, ⟨7, 9, 0⟩⟩ := by
  obtain ⟨g, e, -⟩ := C01_padded_addressing .wrap 2 (demo 1) demo_valid
  obtain ⟨ls, P⟩ := prevIs_exists (make_made demo_valid e) (fun c => ((10 * c.1 + c.2.1 : ℤ) : ℚ)) (fun _ => ⟨7, 9, 5⟩)
    (fun _ => [11])
  obtain ⟨q, hq, h⟩ := C14_node_data .wrap 2 (fun _ => rfl) (demo 1) demo_valid (demo_pos 1) rfl g e ls _ _ _
    (fun _ => rfl) P (3, 2, 0) (by unfold Req.Interior InteriorCell demo; simp)
  refine ⟨g, e, ls, q, hq, h.trans ?_⟩
  norm_num [onAxes]

/-- With padding 2, data with value 1 at node 1 and 0 elsewhere interpolate to 0 at the position 5/2 of node 1. -/
theorem spike_interp {g : Grid ℚ 1} (e : (line 2).make .wrap 1 = .ok g) {ls : Levelset ℚ}
    (P : PrevIs .wrap (line 2) g ls (fun c => if c.1 = 1 then 1 else 0) (fun _ => ⟨0, 0, 0⟩) (fun _ => [])) :
    InStorage (line 2) 1 ⟨5 / 2, 0, 0⟩ ∧ interpolate .wrap g ls ⟨5 / 2, 0, 0⟩ false = .ok ⟨0, ⟨0, 0, 0⟩⟩ := by
  have G := make_made line2_valid e
  have hst : InStorage (line 2) 1 ⟨5 / 2, 0, 0⟩ := by
    intro a ha
    match a with
    | 0 => norm_num [line, Vec3.get, Req.centre, Req.h]
    | 1 => exact absurd ha (by decide)
    | 2 => exact absurd ha (by decide)
  refine ⟨hst, ?_⟩
  obtain ⟨b, H, eb⟩ := interp1_eval G line2_valid (line_pos 2) P hst false
  have hlo := H.lo 0 (by decide)
  have hhi := H.hi 0 (by decide)
  have hc2 : (5 / 2 : ℚ) = (line 2).centre 0 2 := by norm_num [line, Vec3.get, Req.centre, Req.h]
  change (line 2).centre 0 b.1 ≤ (5 / 2 : ℚ) at hlo
  change (5 / 2 : ℚ) < (line 2).centre 0 (b.1 + 1) at hhi
  rw [hc2] at hlo hhi
  have h1 := (centre_lt_iff line2_valid (line_pos 2) 0 (by decide)).1 hhi
  have h2 := not_lt.2 hlo
  rw [centre_lt_iff line2_valid (line_pos 2) 0 (by decide)] at h2
  have hb : b.1 = 2 := by omega
  rw [eb, kernel1_eq]
  simp [hb, T1, basis, basis']

theorem line2_node : nodePos (line 2) 1 (1, 0, 0) = ⟨5 / 2, 0, 0⟩ := by
  simp [nodePos, line, Req.centre, Req.h, Vec3.get, comp]; norm_num

/-- With padding 2, arbitrary data are not reproduced: there are data with value 1 at node 1 and 0 elsewhere for which
interpolating at the position of node 1 gives 0. -/
theorem C14_node_data_false : ∃ g : Grid ℚ 1, (line 2).make .wrap 1 = .ok g ∧ ∃ ls q,
    g.at' .wrap 1 0 0 = .ok q ∧ ls.phiPrev.get .wrap g 1 0 0 = .ok 1 ∧
      interpolate .wrap g ls q false = .ok ⟨0, ⟨0, 0, 0⟩⟩ := by
  obtain ⟨g, e, -⟩ := C01_padded_addressing .wrap 1 (line 2) line2_valid
  have G := make_made line2_valid e
  obtain ⟨ls, P⟩ := prevIs_exists G (fun c => if c.1 = 1 then 1 else 0) (fun _ => ⟨0, 0, 0⟩) (fun _ => [])
  have hpad : (line 2).Padded 1 (1, 0, 0) := by unfold Req.Padded PaddedCell padAlong line; simp
  have hat := G.atC hpad
  rw [line2_node] at hat
  have hphi := P.phi _ hpad
  simp only [if_true] at hphi hat
  exact ⟨g, e, ls, ⟨5 / 2, 0, 0⟩, hat, hphi, (spike_interp e P).2⟩

/-! ## C57: interpolation is linear in the data -/

section C57
variable {K : Type} [Field K] [LinearOrder K] [IsStrictOrderedRing K] [FloorRing K]

/-- C57. Every dimension, padding, point in storage, data and coefficients: interpolating `al * data₁ + be * data₂`
gives `al * result₁ + be * result₂`, for the value and the gradient. -/
theorem C57_linear (s : IntSem) (d : ℕ) (hs : d < 3 → s = .wrap) (r : Req K) (h : r.Valid d) (hpos : r.Pos d)
    (g : Grid K d) (e : r.make s d = .ok g) (l1 l2 l3 : Levelset K) (p1 p2 : Cell → K) (q1 q2 : Cell → Vec3 K)
    (m1 m2 : Cell → List K) (hm1 : ∀ c, (m1 c).length = numMixed d) (hm2 : ∀ c, (m2 c).length = numMixed d) (al be : K)
    (P1 : PrevIs s r g l1 p1 q1 m1) (P2 : PrevIs s r g l2 p2 q2 m2)
    (P3 : PrevIs s r g l3 (fun c => al * p1 c + be * p2 c) (fun c => comb al be (q1 c) (q2 c))
      (fun c => List.zipWith (fun u v => al * u + be * v) (m1 c) (m2 c)))
    (x : Vec3 K) (hx : InStorage r d x) :
    ∃ o1 o2, interpolate s g l1 x false = .ok o1 ∧ interpolate s g l2 x false = .ok o2 ∧
      interpolate s g l3 x false = .ok ⟨al * o1.phi + be * o2.phi, comb al be o1.psi o2.psi⟩ :=
  interp_lin hs (make_made h e) h hpos hm1 hm2 al be P1 P2 P3 hx

end C57

/-- Instance of C57: 3D, ISO arithmetic, `2 * data₁ - 3 * data₂`. -/
example : ∃ g : Grid ℚ 3, (box 1).make .strict 3 = .ok g ∧ ∃ l1 l2 l3 o1 o2,
    l1.phiPrev.get .strict g 1 2 1 = .ok 4 ∧ l2.phiPrev.get .strict g 1 2 1 = .ok 1 ∧
    l3.phiPrev.get .strict g 1 2 1 = .ok 5 ∧
    interpolate .strict g l1 ⟨1 / 3, 2, 3⟩ false = .ok o1 ∧ interpolate .strict g l2 ⟨1 / 3, 2, 3⟩ false = .ok o2 ∧
      interpolate .strict g l3 ⟨1 / 3, 2, 3⟩ false = .ok ⟨2 * o1.phi + -3 * o2.phi, comb 2 (-3) o1.psi o2.psi⟩ := by
  obtain ⟨g, e, -⟩ := C01_padded_addressing .strict 3 (box 1) box_valid
  have G := make_made box_valid e
  obtain ⟨l1, P1⟩ := prevIs_exists G (fun c => ((c.1 + c.2.1 + c.2.2 : ℤ) : ℚ)) (fun _ => ⟨1, 2, 3⟩) (fun _ => [1, 2, 3, 4])
  obtain ⟨l2, P2⟩ := prevIs_exists G (fun c => ((c.1 : ℤ) : ℚ)) (fun _ => ⟨0, 5, 3⟩) (fun _ => [7, 2, 0, 4])
  obtain ⟨l3, P3⟩ := prevIs_exists G (fun c => 2 * ((c.1 + c.2.1 + c.2.2 : ℤ) : ℚ) + -3 * ((c.1 : ℤ) : ℚ))
    (fun _ => comb 2 (-3) ⟨1, 2, 3⟩ ⟨0, 5, 3⟩)
    (fun _ => List.zipWith (fun u v => 2 * u + -3 * v) [1, 2, 3, 4] [7, 2, 0, 4])
  obtain ⟨o1, o2, h1, h2, h3⟩ := C57_linear .strict 3 (by decide) (box 1) box_valid (box_pos 1) g e l1 l2 l3 _ _ _ _ _ _
    (fun _ => rfl) (fun _ => rfl) 2 (-3) P1 P2 P3 ⟨1 / 3, 2, 3⟩
    (inStorage_of_box box_valid (box_pos 1) (by decide) fun b hb => by
      match b with
      | 0 => norm_num [box, Vec3.get]
      | 1 => norm_num [box, Vec3.get]
      | 2 => norm_num [box, Vec3.get])
  have hpad : (box 1).Padded 3 (1, 2, 1) := by unfold Req.Padded PaddedCell padAlong box; simp
  refine ⟨g, e, l1, l2, l3, o1, o2, (P1.phi _ hpad).trans ?_, (P2.phi _ hpad).trans ?_, (P3.phi _ hpad).trans ?_,
    h1, h2, h3⟩ <;> norm_num

end Gals.Props
