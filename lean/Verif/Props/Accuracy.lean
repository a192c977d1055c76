import Verif.Lemmas.HermiteError
import Verif.Lemmas.Glue
import Verif.Props.Smooth
import Verif.Props.RefHermite
import Mathlib.Analysis.SpecialFunctions.Trigonometric.Deriv

/-!
# Property C77 (accuracy of Hermite interpolation)

Over the real numbers.  The node data are those of a smooth function; the theorems bound the difference of the interpolated value
and gradient from the function and its gradient.
-/

namespace Gals.Props

open Gals Spec Set

set_option linter.unusedSectionVars false

/-! ## The formulas -/

theorem _root_.Gals.Spec.Quartic.mono {f : ℝ → ℝ} {a b a' b' M : ℝ} (h : Quartic f a b M) (ha : a ≤ a') (hb : b' ≤ b) : Quartic f a' b' M :=
  ⟨h.smooth, fun x hx => h.bound x ⟨ha.trans hx.1, hx.2.trans hb⟩⟩

theorem _root_.Gals.Spec.Smooth2.mono {f fx fy fxy : ℝ → ℝ → ℝ} {a a' b b' p p' q q' M40 M04 M14 M41 : ℝ}
    (h : Smooth2 f fx fy fxy a a' b b' M40 M04 M14 M41) (h1 : a ≤ p) (h2 : p' ≤ a') (h3 : b ≤ q) (h4 : q' ≤ b') :
    Smooth2 f fx fy fxy p p' q q' M40 M04 M14 M41 where
  dx := h.dx
  dy := h.dy
  dxy := h.dxy
  dyx := h.dyx
  xxxx y hy := (h.xxxx y (Icc_subset_Icc h3 h4 hy)).mono h1 h2
  yyyy x hx := (h.yyyy x (Icc_subset_Icc h1 h2 hx)).mono h3 h4
  xyyyy x hx := (h.xyyyy x (Icc_subset_Icc h1 h2 hx)).mono h3 h4
  xxxxy y hy := (h.xxxxy y (Icc_subset_Icc h3 h4 hy)).mono h1 h2

theorem _root_.Gals.Spec.Smooth3.mono {F : Fin 2 → Fin 2 → Fin 2 → ℝ → ℝ → ℝ → ℝ} {a a' b b' c c' p p' q q' s s' M : ℝ}
    (h : Smooth3 F a a' b b' c c' M) (h1 : a ≤ p) (h2 : p' ≤ a') (h3 : b ≤ q) (h4 : q' ≤ b') (h5 : c ≤ s) (h6 : s' ≤ c') :
    Smooth3 F p p' q q' s s' M where
  dx := h.dx
  dy := h.dy
  dz := h.dz
  xxxx j k y hy z hz := (h.xxxx j k y (Icc_subset_Icc h3 h4 hy) z (Icc_subset_Icc h5 h6 hz)).mono h1 h2
  yyyy i k x hx z hz := (h.yyyy i k x (Icc_subset_Icc h1 h2 hx) z (Icc_subset_Icc h5 h6 hz)).mono h3 h4
  zzzz i j x hx y hy := (h.zzzz i j x (Icc_subset_Icc h1 h2 hx) y (Icc_subset_Icc h3 h4 hy)).mono h5 h6

/-- A point of an interval in local coordinates. -/
theorem local_coord {a h x : ℝ} (hh : 0 < h) (hx : x ∈ Icc a (a + h)) :
    0 ≤ (x - a) * (1 / h) ∧ (x - a) * (1 / h) ≤ 1 ∧ a + (x - a) * (1 / h) * h = x := by
  refine ⟨mul_nonneg (sub_nonneg.2 hx.1) (by positivity), ?_, by field_simp; ring⟩
  rw [mul_one_div, div_le_one hh]
  linarith [hx.2]

section library

/-- With one ghost layer, the point is between its base node and the next, and these are stored. -/
theorem cell_interval {d : ℕ} {r : Req ℝ} (h : r.Valid d) (hpos : r.Pos d) (hpad : r.pad = 1) {x : Vec3 ℝ} {b : Cell}
    (H : BaseCell r d x b) (a : Fin 3) (ha : a.val < d) :
    x.get a ∈ Icc ((nodePos r d b).get a) ((nodePos r d b).get a + r.h a) ∧ r.centre a (-1) ≤ (nodePos r d b).get a ∧
      (nodePos r d b).get a + r.h a ≤ r.centre a (r.n.get a) := by
  have e : (nodePos r d b).get a = r.centre a (comp b a) := by rw [nodePos_get, if_pos ha, hpad]; simp
  have e' : (nodePos r d b).get a + r.h a = r.centre a (comp b a + 1) := by
    rw [e]; unfold Req.centre; push_cast; ring
  have mono {i j : ℤ} (hij : i ≤ j) : r.centre a i ≤ r.centre a j := by
    rcases hij.lt_or_eq with hij | rfl
    · exact ((centre_lt_iff h hpos a ha).2 hij).le
    · exact le_rfl
  have hs := H.stored a ha
  rw [e', e]
  exact ⟨⟨H.lo a ha, (H.hi a ha).le⟩, mono (by omega), mono (by omega)⟩

/-- C77 in one variable: padding 1 (the default), any spacing, any point between stored nodes.  If the node values and gradients are
those of a function whose fourth derivative is at most `M` on the stored part of the line, the interpolated value differs from
the function by at most `M h⁴ / 384`, the gradient from its derivative by at most `M h³ / 24`. -/
theorem C77_line (r : Req ℝ) (h : r.Valid 1) (hpos : r.Pos 1) (hpad : r.pad = 1) (g : Grid ℝ 1) (e : r.make .wrap 1 = .ok g)
    (ls : Levelset ℝ) (phi : Cell → ℝ) (psi : Cell → Vec3 ℝ) (mix : Cell → List ℝ) (P : PrevIs .wrap r g ls phi psi mix)
    (f f' : ℝ → ℝ) (M : ℝ) (hf : ∀ x, HasDerivAt f (f' x) x)
    (hM : Quartic f (r.centre 0 (-1)) (r.centre 0 (r.n.get 0)) M)
    (data : ∀ c q, r.Padded 1 c → g.at' .wrap c.1 c.2.1 c.2.2 = .ok q → phi c = f q.x ∧ (psi c).x = f' q.x)
    (x : Vec3 ℝ) (hx : InStorage r 1 x) :
    ∃ out, interpolate .wrap g ls x false = .ok out ∧ |out.phi - f x.x| ≤ M * r.h 0 ^ 4 / 384 ∧
      |out.psi.x - f' x.x| ≤ M * r.h 0 ^ 3 / 24 ∧ out.psi.y = 0 ∧ out.psi.z = 0 := by
  have G := make_made h e
  obtain ⟨b, H, eb⟩ := interp1_eval G h hpos P hx false
  have s0 := H.stencil h 0 0 0 (by simp) (by simp) (by simp)
  have s1 := H.stencil h 1 0 0 (by simp) (by simp) (by simp)
  simp only [add_zero] at s0 s1
  have hh : 0 < r.h 0 := h.h_pos hpos 0 (by decide)
  obtain ⟨d0, d0'⟩ := data b _ s0 (G.atC s0)
  obtain ⟨d1, d1'⟩ := data (b.1 + 1, b.2.1, b.2.2) _ s1 (G.atC s1)
  have hsucc : (nodePos r 1 (b.1 + 1, b.2.1, b.2.2)).x = (nodePos r 1 b).x + r.h 0 :=
    nodePos_succ r b (b.1 + 1, b.2.1, b.2.2) 0 (by decide) rfl
  rw [hsucc] at d1 d1'
  obtain ⟨i0, i1, i2⟩ := cell_interval h hpos hpad H 0 (by decide)
  obtain ⟨t0, t1, t2⟩ := local_coord hh (a := (nodePos r 1 b).x) (x := x.x) i0
  have E := error1 hh (hM.mono i1 i2) hf t0 t1
  simp only [show (nodePos r 1 b).get 0 = (nodePos r 1 b).x from rfl, t2] at E
  refine ⟨_, eb, ?_⟩
  rw [kernel1_eq]
  simp only [d0, d0', d1, d1']
  exact ⟨E.1, E.2, trivial, trivial⟩

/-- C77 in two variables: padding 1, any spacing, any point between stored nodes.  The node values, gradients and mixed derivatives
are those of a function with bounded derivatives of order four in each variable. -/
theorem C77_plane (r : Req ℝ) (h : r.Valid 2) (hpos : r.Pos 2) (hpad : r.pad = 1) (g : Grid ℝ 2) (e : r.make .wrap 2 = .ok g)
    (ls : Levelset ℝ) (phi : Cell → ℝ) (psi : Cell → Vec3 ℝ) (xy : Cell → ℝ)
    (P : PrevIs .wrap r g ls phi psi (fun c => [xy c])) (f fx fy fxy : ℝ → ℝ → ℝ) (M40 M04 M14 M41 : ℝ)
    (hf : Smooth2 f fx fy fxy (r.centre 0 (-1)) (r.centre 0 (r.n.get 0)) (r.centre 1 (-1)) (r.centre 1 (r.n.get 1)) M40 M04 M14 M41)
    (data : ∀ c q, r.Padded 2 c → g.at' .wrap c.1 c.2.1 c.2.2 = .ok q →
      phi c = f q.x q.y ∧ (psi c).x = fx q.x q.y ∧ (psi c).y = fy q.x q.y ∧ xy c = fxy q.x q.y)
    (x : Vec3 ℝ) (hx : InStorage r 2 x) :
    ∃ out, interpolate .wrap g ls x false = .ok out ∧
      |out.phi - f x.x x.y| ≤ M40 * r.h 0 ^ 4 / 384 + (M04 + r.h 0 / 4 * M14) * r.h 1 ^ 4 / 384 ∧
      |out.psi.x - fx x.x x.y| ≤ M14 * r.h 1 ^ 4 / 384 + (M40 + r.h 1 / 4 * M41) * r.h 0 ^ 3 / 24 ∧
      |out.psi.y - fy x.x x.y| ≤ M41 * r.h 0 ^ 4 / 384 + (M04 + r.h 0 / 4 * M14) * r.h 1 ^ 3 / 24 ∧ out.psi.z = 0 := by
  have G := make_made h e
  obtain ⟨b, H, eb⟩ := interp2_eval G h hpos P hx false
  have s00 := H.stencil h 0 0 0 (by simp) (by simp) (by simp)
  have s10 := H.stencil h 1 0 0 (by simp) (by simp) (by simp)
  have s01 := H.stencil h 0 1 0 (by simp) (by simp) (by simp)
  have s11 := H.stencil h 1 1 0 (by simp) (by simp) (by simp)
  simp only [add_zero] at s00 s10 s01 s11
  have hx0 : 0 < r.h 0 := h.h_pos hpos 0 (by decide)
  have hy0 : 0 < r.h 1 := h.h_pos hpos 1 (by decide)
  have x10 : (nodePos r 2 (b.1 + 1, b.2.1, b.2.2)).x = (nodePos r 2 b).x + r.h 0 := nodePos_succ r b _ 0 (by decide) rfl
  have y10 : (nodePos r 2 (b.1 + 1, b.2.1, b.2.2)).y = (nodePos r 2 b).y := nodePos_same r b _ 1 rfl
  have x01 : (nodePos r 2 (b.1, b.2.1 + 1, b.2.2)).x = (nodePos r 2 b).x := nodePos_same r b _ 0 rfl
  have y01 : (nodePos r 2 (b.1, b.2.1 + 1, b.2.2)).y = (nodePos r 2 b).y + r.h 1 := nodePos_succ r b _ 1 (by decide) rfl
  have x11 : (nodePos r 2 (b.1 + 1, b.2.1 + 1, b.2.2)).x = (nodePos r 2 b).x + r.h 0 := nodePos_succ r b _ 0 (by decide) rfl
  have y11 : (nodePos r 2 (b.1 + 1, b.2.1 + 1, b.2.2)).y = (nodePos r 2 b).y + r.h 1 := nodePos_succ r b _ 1 (by decide) rfl
  obtain ⟨a0, a1, a2, a3⟩ := data b _ s00 (G.atC s00)
  obtain ⟨b0, b1, b2, b3⟩ := data (b.1 + 1, b.2.1, b.2.2) _ s10 (G.atC s10)
  obtain ⟨c0, c1, c2, c3⟩ := data (b.1, b.2.1 + 1, b.2.2) _ s01 (G.atC s01)
  obtain ⟨d0, d1, d2, d3⟩ := data (b.1 + 1, b.2.1 + 1, b.2.2) _ s11 (G.atC s11)
  rw [x10, y10] at b0 b1 b2 b3
  rw [x01, y01] at c0 c1 c2 c3
  rw [x11, y11] at d0 d1 d2 d3
  have hdx : g.dx.x = r.h 0 := G.dx 0
  have hdy : g.dx.y = r.h 1 := G.dx 1
  have hix : g.oneOverDx.x = 1 / r.h 0 := G.oneOverDx 0 (by decide)
  have hiy : g.oneOverDx.y = 1 / r.h 1 := G.oneOverDx 1 (by decide)
  obtain ⟨i0, i1, i2⟩ := cell_interval h hpos hpad H 0 (by decide)
  obtain ⟨j0, j1, j2⟩ := cell_interval h hpos hpad H 1 (by decide)
  obtain ⟨t0, t1, t2⟩ := local_coord hx0 (a := (nodePos r 2 b).x) (x := x.x) i0
  obtain ⟨u0, u1, u2⟩ := local_coord hy0 (a := (nodePos r 2 b).y) (x := x.y) j0
  have E := error2 hx0 hy0 (hf.mono i1 i2 j1 j2) t0 t1 u0 u1
  simp only [show (nodePos r 2 b).get 0 = (nodePos r 2 b).x from rfl, show (nodePos r 2 b).get 1 = (nodePos r 2 b).y from rfl,
    t2, u2] at E
  refine ⟨_, eb, ?_⟩
  rw [kernel2_eq]
  simp only [node2, a0, a1, a2, a3, b0, b1, b2, b3, c0, c1, c2, c3, d0, d1, d2, d3, hdx, hdy, Vec3.mul, Vec3.sub, hix, hiy]
  exact ⟨E.1, E.2.1, E.2.2, trivial⟩

/-- C77 in three variables, with one bound for all derivatives concerned, and both readings of the integer arithmetic. -/
theorem C77_space (s : IntSem) (r : Req ℝ) (h : r.Valid 3) (hpos : r.Pos 3) (hpad : r.pad = 1) (g : Grid ℝ 3)
    (e : r.make s 3 = .ok g) (ls : Levelset ℝ) (phi : Cell → ℝ) (psi : Cell → Vec3 ℝ) (xy yz zx xyz : Cell → ℝ)
    (P : PrevIs s r g ls phi psi (fun c => [xy c, yz c, zx c, xyz c])) (F : Fin 2 → Fin 2 → Fin 2 → ℝ → ℝ → ℝ → ℝ) (M : ℝ)
    (hf : Smooth3 F (r.centre 0 (-1)) (r.centre 0 (r.n.get 0)) (r.centre 1 (-1)) (r.centre 1 (r.n.get 1)) (r.centre 2 (-1))
      (r.centre 2 (r.n.get 2)) M)
    (data : ∀ c q, r.Padded 3 c → g.at' s c.1 c.2.1 c.2.2 = .ok q → phi c = F 0 0 0 q.x q.y q.z ∧
      psi c = ⟨F 1 0 0 q.x q.y q.z, F 0 1 0 q.x q.y q.z, F 0 0 1 q.x q.y q.z⟩ ∧ xy c = F 1 1 0 q.x q.y q.z ∧
      yz c = F 0 1 1 q.x q.y q.z ∧ zx c = F 1 0 1 q.x q.y q.z ∧ xyz c = F 1 1 1 q.x q.y q.z)
    (x : Vec3 ℝ) (hx : InStorage r 3 x) :
    let k4 := fun a b : Fin 3 => M * (r.h a ^ 4 + (1 + r.h a / 4) * r.h b ^ 4) / 384
    let w := fun a b : Fin 3 => (1 + r.h a / 4) * (1 + r.h b / 4)
    ∃ out, interpolate s g ls x false = .ok out ∧
      |out.phi - F 0 0 0 x.x x.y x.z| ≤ k4 1 2 + w 1 2 * (M * r.h 0 ^ 4 / 384) ∧
      |out.psi.x - F 1 0 0 x.x x.y x.z| ≤ k4 1 2 + w 1 2 * (M * r.h 0 ^ 3 / 24) ∧
      |out.psi.y - F 0 1 0 x.x x.y x.z| ≤ k4 0 2 + w 0 2 * (M * r.h 1 ^ 3 / 24) ∧
      |out.psi.z - F 0 0 1 x.x x.y x.z| ≤ k4 0 1 + w 0 1 * (M * r.h 2 ^ 3 / 24) := by
  intro k4 w
  have G := make_made h e
  obtain ⟨b, H, eb⟩ := interp3_eval G h hpos P hx false
  have hx0 : 0 < r.h 0 := h.h_pos hpos 0 (by decide)
  have hy0 : 0 < r.h 1 := h.h_pos hpos 1 (by decide)
  have hz0 : 0 < r.h 2 := h.h_pos hpos 2 (by decide)
  -- the data at a corner
  have corner (i j k : Fin 2) (c : Cell) (hc : c = (b.1 + ((i : ℕ) : ℤ), b.2.1 + ((j : ℕ) : ℤ), b.2.2 + ((k : ℕ) : ℤ))) :
      let q : Fin 2 → Fin 2 → Fin 2 → ℝ := fun l m n => F l m n ((nodePos r 3 b).x + if i = 0 then 0 else r.h 0)
        ((nodePos r 3 b).y + if j = 0 then 0 else r.h 1) ((nodePos r 3 b).z + if k = 0 then 0 else r.h 2)
      node3 phi psi xy yz zx xyz c = ⟨q 0 0 0, ⟨q 1 0 0, q 0 1 0, q 0 0 1⟩, q 1 1 0, q 0 1 1, q 1 0 1, q 1 1 1⟩ := by
    intro q
    have hs : r.Padded 3 c := hc ▸ H.stencil h i j k (by fin_cases i <;> simp) (by fin_cases j <;> simp) (by fin_cases k <;> simp)
    obtain ⟨p0, p1, p2, p3, p4, p5⟩ := data c _ hs (G.atC hs)
    have ex : (nodePos r 3 c).x = (nodePos r 3 b).x + if i = 0 then 0 else r.h 0 := by
      fin_cases i
      · exact (nodePos_same r b c 0 (by rw [hc]; simp [comp])).trans (add_zero _).symm
      · exact nodePos_succ r b c 0 (by decide) (by rw [hc]; simp [comp])
    have ey : (nodePos r 3 c).y = (nodePos r 3 b).y + if j = 0 then 0 else r.h 1 := by
      fin_cases j
      · exact (nodePos_same r b c 1 (by rw [hc]; simp [comp])).trans (add_zero _).symm
      · exact nodePos_succ r b c 1 (by decide) (by rw [hc]; simp [comp])
    have ez : (nodePos r 3 c).z = (nodePos r 3 b).z + if k = 0 then 0 else r.h 2 := by
      fin_cases k
      · exact (nodePos_same r b c 2 (by rw [hc]; simp [comp])).trans (add_zero _).symm
      · exact nodePos_succ r b c 2 (by decide) (by rw [hc]; simp [comp])
    rw [ex, ey, ez] at p0 p1 p2 p3 p4 p5
    unfold node3
    rw [p0, p1, p2, p3, p4, p5]
  have hdx : g.dx.x = r.h 0 := G.dx 0
  have hix : g.oneOverDx.x = 1 / r.h 0 := G.oneOverDx 0 (by decide)
  have hdy : g.dx.y = r.h 1 := G.dx 1
  have hiy : g.oneOverDx.y = 1 / r.h 1 := G.oneOverDx 1 (by decide)
  have hdz : g.dx.z = r.h 2 := G.dx 2
  have hiz : g.oneOverDx.z = 1 / r.h 2 := G.oneOverDx 2 (by decide)
  obtain ⟨i0, i1, i2⟩ := cell_interval h hpos hpad H 0 (by decide)
  obtain ⟨j0, j1, j2⟩ := cell_interval h hpos hpad H 1 (by decide)
  obtain ⟨l0, l1, l2⟩ := cell_interval h hpos hpad H 2 (by decide)
  obtain ⟨t0, t1, t2⟩ := local_coord hx0 (a := (nodePos r 3 b).x) (x := x.x) i0
  obtain ⟨u0, u1, u2⟩ := local_coord hy0 (a := (nodePos r 3 b).y) (x := x.y) j0
  obtain ⟨v0, v1, v2⟩ := local_coord hz0 (a := (nodePos r 3 b).z) (x := x.z) l0
  have E := error3 hx0 hy0 hz0 (hf.mono i1 i2 j1 j2 l1 l2) t0 t1 u0 u1 v0 v1
  simp only [show (nodePos r 3 b).get 0 = (nodePos r 3 b).x from rfl, show (nodePos r 3 b).get 1 = (nodePos r 3 b).y from rfl,
    show (nodePos r 3 b).get 2 = (nodePos r 3 b).z from rfl, t2, u2, v2] at E
  refine ⟨_, eb, ?_⟩
  rw [kernel3_eq, corner 0 0 0 b (by simp), corner 1 0 0 (b.1 + 1, b.2.1, b.2.2) (by simp),
    corner 0 1 0 (b.1, b.2.1 + 1, b.2.2) (by simp), corner 0 0 1 (b.1, b.2.1, b.2.2 + 1) (by simp),
    corner 1 1 0 (b.1 + 1, b.2.1 + 1, b.2.2) (by simp), corner 0 1 1 (b.1, b.2.1 + 1, b.2.2 + 1) (by simp),
    corner 1 0 1 (b.1 + 1, b.2.1, b.2.2 + 1) (by simp), corner 1 1 1 (b.1 + 1, b.2.1 + 1, b.2.2 + 1) (by simp)]
  simp only [hdx, hdy, hdz, Vec3.mul, Vec3.sub, hix, hiy, hiz, if_true, one_ne_zero, if_false, add_zero]
  exact E

end library

/-! ## The reference code -/

/-- The data of a function at the corners of a cell, in the order of the reference code. -/
def sampled (f fx fy fxy : ℝ → ℝ → ℝ) (xo yo dx dy : ℝ) : Ref.CellData ℝ :=
  let at4 := fun q : ℝ → ℝ → ℝ => ![q xo yo, q (xo + dx) yo, q xo (yo + dy), q (xo + dx) (yo + dy)]
  ⟨at4 f, at4 fx, at4 fy, at4 fxy⟩

/-- C77 for the reference code: `hp`, `hermx` and `hermy` at a point of the cell. -/
theorem C77_reference (f fx fy fxy : ℝ → ℝ → ℝ) (M40 M04 M14 M41 xo yo dx dy : ℝ) (hx : 0 < dx) (hy : 0 < dy)
    (hf : Smooth2 f fx fy fxy xo (xo + dx) yo (yo + dy) M40 M04 M14 M41) (x y : ℝ) (ix : x ∈ Icc xo (xo + dx))
    (iy : y ∈ Icc yo (yo + dy)) :
    let c := sampled f fx fy fxy xo yo dx dy
    |Ref.hp c x y xo yo dx dy - f x y| ≤ M40 * dx ^ 4 / 384 + (M04 + dx / 4 * M14) * dy ^ 4 / 384 ∧
    |Ref.hermx c x y xo yo dx dy - fx x y| ≤ M14 * dy ^ 4 / 384 + (M40 + dy / 4 * M41) * dx ^ 3 / 24 ∧
    |Ref.hermy c x y xo yo dx dy - fy x y| ≤ M41 * dx ^ 4 / 384 + (M04 + dx / 4 * M14) * dy ^ 3 / 24 := by
  intro c
  obtain ⟨t0, t1, t2⟩ := local_coord hx ix
  obtain ⟨u0, u1, u2⟩ := local_coord hy iy
  have E := error2 hx hy hf t0 t1 u0 u1
  simp only [t2, u2] at E
  let node := fun p q : ℝ => (⟨f p q, ⟨fx p q, fy p q, 0⟩, fxy p q⟩ : Node2 ℝ)
  have C := C40_formulas (node xo yo) (node (xo + dx) yo) (node xo (yo + dy)) (node (xo + dx) (yo + dy)) x y xo yo dx dy 0 0 0
    hx.ne' hy.ne'
  rw [kernel2_eq] at C
  simp only [Interp.mk.injEq, Vec3.mk.injEq, node] at C
  obtain ⟨C1, C2, C3, -⟩ := C
  have e1 := C1 ▸ E.1
  have e2 := C2 ▸ E.2.1
  have e3 := C3 ▸ E.2.2
  exact ⟨e1, e2, e3⟩

/-! ## Instances -/

/-- `c sin` has fourth derivative `c sin`. -/
theorem quartic_sin (c a b M : ℝ) (hc : |c| ≤ M) : Quartic (fun x => c * Real.sin x) a b M := by
  have d1 : deriv (fun x => c * Real.sin x) = fun x => c * Real.cos x :=
    funext fun x => ((Real.hasDerivAt_sin x).const_mul c).deriv
  have d2 : deriv (fun x => c * Real.cos x) = fun x => -c * Real.sin x :=
    funext fun x => ((Real.hasDerivAt_cos x).const_mul c).deriv.trans (by ring)
  have d3 : deriv (fun x => -c * Real.sin x) = fun x => -c * Real.cos x :=
    funext fun x => ((Real.hasDerivAt_sin x).const_mul (-c)).deriv
  have d4 : deriv (fun x => -c * Real.cos x) = fun x => c * Real.sin x :=
    funext fun x => ((Real.hasDerivAt_cos x).const_mul (-c)).deriv.trans (by ring)
  refine ⟨contDiff_const.mul Real.contDiff_sin, fun x _ => ?_⟩
  rw [iteratedDeriv_succ, iteratedDeriv_succ, iteratedDeriv_succ, iteratedDeriv_one, d1, d2, d3, d4, abs_mul]
  exact (mul_le_of_le_one_right (abs_nonneg c) (Real.abs_sin_le_one x)).trans hc

/-- Derivatives of order 0 and 1 of the sine. -/
noncomputable def sinD (i : Fin 2) (x : ℝ) : ℝ := if i = 0 then Real.sin x else Real.cos x

theorem sinD_le (i : Fin 2) (x : ℝ) : |sinD i x| ≤ 1 := by
  unfold sinD
  split
  · exact Real.abs_sin_le_one x
  · exact Real.abs_cos_le_one x

theorem sinD_deriv (x : ℝ) : HasDerivAt (fun x => sinD 0 x) (sinD 1 x) x := by simpa [sinD] using Real.hasDerivAt_sin x

theorem quartic_sinD (c a b : ℝ) (hc : |c| ≤ 1) : Quartic (fun x => c * sinD 0 x) a b 1 := by
  simpa [sinD] using quartic_sin c a b 1 hc

theorem mul_sinD_le (i j : Fin 2) (x y : ℝ) : |sinD i x * sinD j y| ≤ 1 := by
  rw [abs_mul]
  exact mul_le_one₀ (sinD_le i x) (abs_nonneg _) (sinD_le j y)

/-- `sin x sin y`, bounds 1 everywhere. -/
theorem smooth_sin2 (a a' b b' : ℝ) : Smooth2 (fun x y => sinD 0 x * sinD 0 y) (fun x y => sinD 1 x * sinD 0 y)
    (fun x y => sinD 0 x * sinD 1 y) (fun x y => sinD 1 x * sinD 1 y) a a' b b' 1 1 1 1 where
  dx x y := (sinD_deriv x).mul_const _
  dy x y := (sinD_deriv y).const_mul _
  dxy x y := (sinD_deriv y).const_mul _
  dyx x y := (sinD_deriv x).mul_const _
  xxxx y _ := by simpa only [mul_comm] using quartic_sinD (sinD 0 y) a a' (sinD_le 0 y)
  yyyy x _ := quartic_sinD (sinD 0 x) b b' (sinD_le 0 x)
  xyyyy x _ := quartic_sinD (sinD 1 x) b b' (sinD_le 1 x)
  xxxxy y _ := by simpa only [mul_comm] using quartic_sinD (sinD 1 y) a a' (sinD_le 1 y)

/-- `sin x sin y sin z`, bounds 1 everywhere. -/
theorem smooth_sin3 (a a' b b' c c' : ℝ) : Smooth3 (fun i j k x y z => sinD i x * sinD j y * sinD k z) a a' b b' c c' 1 where
  dx j k x y z := ((sinD_deriv x).mul_const _).mul_const _
  dy i k x y z := ((sinD_deriv y).const_mul _).mul_const _
  dz i j x y z := (sinD_deriv z).const_mul _
  xxxx j k y _ z _ := by
    have := quartic_sinD (sinD j y * sinD k z) a a' (mul_sinD_le j k y z)
    convert this using 2
    ring
  yyyy i k x _ z _ := by
    have := quartic_sinD (sinD i x * sinD k z) b b' (mul_sinD_le i k x z)
    convert this using 2
    ring
  zzzz i j x _ y _ := quartic_sinD _ c c' (mul_sinD_le i j x y)

/-- Instance of `C77_line`: the sine on three cells of width 1, at `17/10`. -/
example : ∃ g : Grid ℝ 1, (lineR 1).make .wrap 1 = .ok g ∧ ∃ ls out, interpolate .wrap g ls ⟨17 / 10, 0, 0⟩ false = .ok out ∧
    |out.phi - Real.sin (17 / 10)| ≤ 1 / 384 ∧ |out.psi.x - Real.cos (17 / 10)| ≤ 1 / 24 := by
  obtain ⟨g, e, -⟩ := C01_padded_addressing .wrap 1 (lineR 1) lineR_valid
  have G := make_made lineR_valid e
  obtain ⟨ls, P⟩ := prevIs_exists G (fun c => Real.sin (nodePos (lineR 1) 1 c).x)
    (fun c => ⟨Real.cos (nodePos (lineR 1) 1 c).x, 0, 0⟩) (fun _ => [])
  obtain ⟨out, h1, h2, h3, -⟩ := C77_line (lineR 1) lineR_valid (lineR_pos 1) rfl g e ls _ _ _ P Real.sin Real.cos 1
    Real.hasDerivAt_sin (by simpa using quartic_sin 1 _ _ 1 (by simp)) (fun c q hc hq => by
      rw [G.atC hc] at hq
      cases hq
      exact ⟨rfl, rfl⟩) ⟨17 / 10, 0, 0⟩ (fun a ha => by
        match a with
        | 0 => norm_num [lineR, Vec3.get, Req.centre, Req.h]
        | 1 => exact absurd ha (by decide)
        | 2 => exact absurd ha (by decide))
  have hh : (lineR 1).h 0 = 1 := by norm_num [lineR, Req.h, Vec3.get]
  rw [hh] at h2 h3
  exact ⟨g, e, ls, out, h1, by simpa using h2, by simpa using h3⟩

/-- Instance of `C77_plane`: `sin x sin y` on 4 × 3 cells of 1/2 × 1. -/
example : ∃ g : Grid ℝ 2, (demoR 1).make .wrap 2 = .ok g ∧ ∃ ls out, interpolate .wrap g ls ⟨1 / 3, 2 / 7, 0⟩ false = .ok out ∧
    |out.phi - Real.sin (1 / 3) * Real.sin (2 / 7)| ≤ 1 / 16 / 384 + (1 + 1 / 2 / 4) / 384 := by
  obtain ⟨g, e, -⟩ := C01_padded_addressing .wrap 2 (demoR 1) demoR_valid
  have G := make_made demoR_valid e
  let q := nodePos (demoR 1) 2
  obtain ⟨ls, P⟩ := prevIs_exists G (fun c => sinD 0 (q c).x * sinD 0 (q c).y)
    (fun c => ⟨sinD 1 (q c).x * sinD 0 (q c).y, sinD 0 (q c).x * sinD 1 (q c).y, 0⟩) (fun c => [sinD 1 (q c).x * sinD 1 (q c).y])
  obtain ⟨out, h1, h2, -⟩ := C77_plane (demoR 1) demoR_valid (demoR_pos 1) rfl g e ls _ _ _ P _ _ _ _ 1 1 1 1
    (smooth_sin2 _ _ _ _) (fun c p hc hp => by
      rw [G.atC hc] at hp
      cases hp
      exact ⟨rfl, rfl, rfl, rfl⟩) ⟨1 / 3, 2 / 7, 0⟩ (inStorage_of_box demoR_valid (demoR_pos 1) (by decide) fun b hb => by
        match b with
        | 0 => norm_num [demoR, Vec3.get]
        | 1 => norm_num [demoR, Vec3.get]
        | 2 => exact absurd hb (by decide))
  have hx : (demoR 1).h 0 = 1 / 2 := by norm_num [demoR, Req.h, Vec3.get]
  have hy : (demoR 1).h 1 = 1 := by norm_num [demoR, Req.h, Vec3.get]
  rw [hx, hy] at h2
  refine ⟨g, e, ls, out, h1, ?_⟩
  simp only [sinD, if_true] at h2
  convert h2 using 1
  norm_num

/-- Instance of `C77_space`: `sin x sin y sin z` on 2 × 3 × 2 cells of 1/2 × 1 × 2, ISO integer arithmetic. -/
example : ∃ g : Grid ℝ 3, (boxR 1).make .strict 3 = .ok g ∧ ∃ ls out, interpolate .strict g ls ⟨1 / 3, 2, 3⟩ false = .ok out ∧
    |out.psi.x - Real.cos (1 / 3) * Real.sin 2 * Real.sin 3| ≤ 21 / 384 + 15 / 8 / 192 := by
  obtain ⟨g, e, -⟩ := C01_padded_addressing .strict 3 (boxR 1) boxR_valid
  have G := make_made boxR_valid e
  let q := nodePos (boxR 1) 3
  let F := fun (i j k : Fin 2) (x y z : ℝ) => sinD i x * sinD j y * sinD k z
  let f := fun (i j k : Fin 2) (c : Cell) => F i j k (q c).x (q c).y (q c).z
  obtain ⟨ls, P⟩ := prevIs_exists G (f 0 0 0) (fun c => ⟨f 1 0 0 c, f 0 1 0 c, f 0 0 1 c⟩)
    (fun c => [f 1 1 0 c, f 0 1 1 c, f 1 0 1 c, f 1 1 1 c])
  obtain ⟨out, h1, -, h2, -⟩ := C77_space .strict (boxR 1) boxR_valid (boxR_pos 1) rfl g e ls _ _ _ _ _ _ P F 1
    (smooth_sin3 _ _ _ _ _ _) (fun c p hc hp => by
      rw [G.atC hc] at hp
      cases hp
      exact ⟨rfl, rfl, rfl, rfl, rfl, rfl⟩) ⟨1 / 3, 2, 3⟩ (inStorage_of_box boxR_valid (boxR_pos 1) (by decide) fun b hb => by
        match b with
        | 0 => norm_num [boxR, Vec3.get]
        | 1 => norm_num [boxR, Vec3.get]
        | 2 => norm_num [boxR, Vec3.get])
  have hx : (boxR 1).h 0 = 1 / 2 := by norm_num [boxR, Req.h, Vec3.get]
  have hy : (boxR 1).h 1 = 1 := by norm_num [boxR, Req.h, Vec3.get]
  have hz : (boxR 1).h 2 = 2 := by norm_num [boxR, Req.h, Vec3.get]
  simp only [hx, hy, hz] at h2
  refine ⟨g, e, ls, out, h1, ?_⟩
  have e : F 1 0 0 (1 / 3) 2 3 = Real.cos (1 / 3) * Real.sin 2 * Real.sin 3 := by simp [F, sinD]
  rw [← e]
  convert h2 using 1
  norm_num

/-- Instance of `C77_reference`: `sin x sin y` on the cell `[1, 3/2] × [2, 9/4]`. -/
example : |Ref.hp (sampled (fun x y => sinD 0 x * sinD 0 y) (fun x y => sinD 1 x * sinD 0 y) (fun x y => sinD 0 x * sinD 1 y)
      (fun x y => sinD 1 x * sinD 1 y) 1 2 (1 / 2) (1 / 4)) (4 / 3) (21 / 10) 1 2 (1 / 2) (1 / 4) -
    sinD 0 (4 / 3) * sinD 0 (21 / 10)| ≤ 1 / 5000 := by
  refine (C77_reference _ _ _ _ 1 1 1 1 1 2 (1 / 2) (1 / 4) (by norm_num) (by norm_num) (smooth_sin2 _ _ _ _) (4 / 3) (21 / 10)
    (by constructor <;> norm_num) (by constructor <;> norm_num)).1.trans ?_
  norm_num

end Gals.Props
