import Verif.Lemmas.Linear
import Verif.Props.TransportDouble
import Verif.Props.Stability

/-!
# C98: linear interpolation of smooth functions, in exact and in double arithmetic
-/

set_option linter.unusedSectionVars false
set_option linter.unusedSimpArgs false

namespace Gals.Props

open Gals Gals.Spec Set

/-- C98, exact arithmetic: linear interpolation of the nodal values of a function with second derivative at most `M` is off by at
most `M h ^ 2 / 8` with one ghost layer, and by at most `p (p - 1) M h ^ 2 / 2` with `p ≥ 2` layers (the line through the nodes
`p - 1` cells to the right of the cell is used, C02). -/
theorem C98_exact (r : Req ℝ) (h : r.Valid 1) (hpos : r.Pos 1) (hpad : 1 ≤ r.pad) (g : Grid ℝ 1) (e : r.make .wrap 1 = .ok g)
    (al : Arr ℝ) (f : ℝ → ℝ) (M : ℝ) (hf : SecondLe f (r.centre 0 (-r.pad)) (r.centre 0 (r.n.get 0 + 2 * r.pad - 2)) M)
    (P : ∀ c q, r.Padded 1 c → g.at' .wrap c.1 c.2.1 c.2.2 = .ok q → al.get .wrap g c.1 c.2.1 c.2.2 = .ok (f q.x))
    (x : Vec3 ℝ) (hx : InStorage r 1 x) :
    ∃ v, linearInterp .wrap g x al = .ok v ∧ |v - f x.x| ≤ M * r.h 0 ^ 2 / 2 * max (1 / 4) ((r.pad : ℝ) * (r.pad - 1)) := by
  have G := make_made h e
  have hh : 0 < r.h 0 := h.h_pos hpos 0 (by decide)
  obtain ⟨b, H, eb⟩ := linear_eval G h hpos (f := fun c => f (nodePos r 1 c).x) (fun c hc => P c _ hc (G.atC hc)) hx
  refine ⟨_, eb, ?_⟩
  have hs : (nodePos r 1 (b.1 + 1, b.2.1, b.2.2)).x = (nodePos r 1 b).x + r.h 0 :=
    nodePos_succ r b (b.1 + 1, b.2.1, b.2.2) 0 (by decide) rfl
  have en : (nodePos r 1 b).x = r.centre 0 (b.1 + (r.pad - 1)) := by
    have := nodePos_get (d := 1) r b 0
    rwa [if_pos (by decide)] at this
  have hlo : r.centre 0 b.1 ≤ x.x := H.lo 0 (by decide)
  have hhi : x.x < r.centre 0 (b.1 + 1) := H.hi 0 (by decide)
  have st : -r.pad ≤ b.1 ∧ b.1 + 1 < r.n.get 0 + r.pad := H.stored 0 (by decide)
  have d1 := centre_sub r 0 (b.1 + (r.pad - 1)) b.1
  have d2 := centre_sub r 0 (b.1 + 1) b.1
  push_cast at d1 d2
  have p1 : (1 : ℝ) ≤ r.pad := by exact_mod_cast hpad
  have mono : ∀ {i j : ℤ}, i ≤ j → r.centre 0 i ≤ r.centre 0 j := by
    intro i j hij
    have := centre_sub r 0 j i
    have h2 : (i : ℝ) ≤ j := by exact_mod_cast hij
    have := mul_nonneg (sub_nonneg.2 h2) hh.le
    linarith
  rw [hs]
  set A := (nodePos r 1 b).x with hA
  have hm : 0 ≤ ((r.pad : ℝ) - 1) * r.h 0 := mul_nonneg (by linarith) hh.le
  obtain ⟨ξ, hξ, er⟩ := line_remainder hf.smooth (a := A) (b := A + r.h 0) (t := x.x) (by linarith) (by rw [en]; linarith)
  have hin : ξ ∈ Icc (r.centre 0 (-r.pad)) (r.centre 0 (r.n.get 0 + 2 * r.pad - 2)) := by
    constructor
    · refine le_trans (le_min ?_ ?_) hξ.1
      · rw [en]
        exact mono (by omega)
      · exact (mono st.1).trans hlo
    · refine hξ.2.trans ?_
      have := centre_sub r 0 (b.1 + (r.pad - 1) + 1) (b.1 + (r.pad - 1))
      push_cast at this
      rw [en]
      have := mono (show b.1 + (r.pad - 1) + 1 ≤ r.n.get 0 + 2 * r.pad - 2 by omega)
      linarith
  have hb := hf.bound ξ hin
  have M0 : 0 ≤ M := (abs_nonneg _).trans hb
  have es : A + r.h 0 - A = r.h 0 := by ring
  rw [es] at er
  have ev : (1 - (x.x - A) * (1 / r.h 0)) * f A + (x.x - A) * (1 / r.h 0) * f (A + r.h 0) - f x.x =
      -(iteratedDeriv 2 f ξ / 2 * ((x.x - A) * (x.x - (A + r.h 0)))) := by
    rw [← er]
    ring
  rw [ev, abs_neg, abs_mul, abs_div, abs_of_pos (show (0 : ℝ) < 2 by norm_num)]
  -- the point in cell widths
  obtain ⟨s, es⟩ : ∃ s, x.x - A = s * r.h 0 := ⟨(x.x - A) / r.h 0, by field_simp⟩
  have s1 : -((r.pad : ℝ) - 1) ≤ s := by
    have : -((r.pad : ℝ) - 1) * r.h 0 ≤ s * r.h 0 := by rw [← es, en]; linarith
    exact le_of_mul_le_mul_right this hh
  have s2 : s ≤ 1 - ((r.pad : ℝ) - 1) := by
    have : s * r.h 0 ≤ (1 - ((r.pad : ℝ) - 1)) * r.h 0 := by rw [← es, en]; linarith
    exact le_of_mul_le_mul_right this hh
  have ep : (x.x - A) * (x.x - (A + r.h 0)) = s * (s - 1) * r.h 0 ^ 2 := by
    rw [show x.x - (A + r.h 0) = x.x - A - r.h 0 by ring, es]
    ring
  have hs' : |s * (s - 1)| ≤ max (1 / 4) ((r.pad : ℝ) * (r.pad - 1)) := by
    rw [abs_le]
    constructor
    · have : (1 : ℝ) / 4 ≤ max (1 / 4) ((r.pad : ℝ) * (r.pad - 1)) := le_max_left _ _
      nlinarith [sq_nonneg (s - 1 / 2)]
    · rcases eq_or_lt_of_le hpad with h1 | h1
      · have : (r.pad : ℝ) = 1 := by exact_mod_cast h1.symm
        rw [this] at s1 s2 ⊢
        have : (0 : ℝ) ≤ max (1 / 4) (1 * (1 - 1)) := le_trans (by norm_num) (le_max_left _ _)
        nlinarith
      · refine le_trans ?_ (le_max_right _ _)
        have : (2 : ℝ) ≤ r.pad := by exact_mod_cast h1
        nlinarith
  rw [ep, abs_mul, abs_of_nonneg (sq_nonneg (r.h 0))]
  calc |iteratedDeriv 2 f ξ| / 2 * (|s * (s - 1)| * r.h 0 ^ 2) ≤ M / 2 * (max (1 / 4) ((r.pad : ℝ) * (r.pad - 1)) * r.h 0 ^ 2) := by
        gcongr
    _ = _ := by ring

/-- The bound is attained: `M x ^ 2 / 2` half way between two nodes, with one ghost layer. -/
theorem C98_sharp (r : Req ℝ) (h : r.Valid 1) (hpos : r.Pos 1) (hpad : r.pad = 1) (g : Grid ℝ 1) (e : r.make .wrap 1 = .ok g)
    (al : Arr ℝ) (M : ℝ) (hM : 0 ≤ M)
    (P : ∀ c q, r.Padded 1 c → g.at' .wrap c.1 c.2.1 c.2.2 = .ok q → al.get .wrap g c.1 c.2.1 c.2.2 = .ok (M * q.x ^ 2 / 2)) :
    ∃ x v, InStorage r 1 x ∧ linearInterp .wrap g x al = .ok v ∧ |v - M * x.x ^ 2 / 2| = M * r.h 0 ^ 2 / 8 := by
  have G := make_made h e
  have hh : 0 < r.h 0 := h.h_pos hpos 0 (by decide)
  have hn := h.nx_pos
  have d1 := centre_sub r 0 0 (-1)
  have mono : ∀ {i j : ℤ}, i ≤ j → r.centre 0 i ≤ r.centre 0 j := by
    intro i j hij
    have := centre_sub r 0 j i
    have h2 : (i : ℝ) ≤ j := by exact_mod_cast hij
    have := mul_nonneg (sub_nonneg.2 h2) hh.le
    linarith
  push_cast at d1
  have hx : InStorage r 1 ⟨r.centre 0 (-1) + r.h 0 / 2, 0, 0⟩ := by
    intro a ha
    match a with
    | 0 =>
      rw [hpad]
      refine ⟨?_, ?_⟩
      · change r.centre 0 (-1) ≤ r.centre 0 (-1) + r.h 0 / 2
        linarith
      · have := mono (show (0 : ℤ) ≤ r.n.get 0 + 1 - 1 by have : 0 < r.n.get 0 := hn; omega)
        change r.centre 0 (-1) + r.h 0 / 2 < _
        linarith
    | 1 => exact absurd ha (by decide)
    | 2 => exact absurd ha (by decide)
  obtain ⟨b, H, eb⟩ := linear_eval G h hpos (f := fun c => M * (nodePos r 1 c).x ^ 2 / 2) (fun c hc => P c _ hc (G.atC hc)) hx
  refine ⟨_, _, hx, eb, ?_⟩
  have hlo : r.centre 0 b.1 ≤ r.centre 0 (-1) + r.h 0 / 2 := H.lo 0 (by decide)
  have hhi : r.centre 0 (-1) + r.h 0 / 2 < r.centre 0 (b.1 + 1) := H.hi 0 (by decide)
  have st : -r.pad ≤ b.1 ∧ b.1 + 1 < r.n.get 0 + r.pad := H.stored 0 (by decide)
  have hb : b.1 = -1 := by
    by_contra hc
    have := mono (show (0 : ℤ) ≤ b.1 by omega)
    linarith
  have hs : (nodePos r 1 (b.1 + 1, b.2.1, b.2.2)).x = (nodePos r 1 b).x + r.h 0 :=
    nodePos_succ r b (b.1 + 1, b.2.1, b.2.2) 0 (by decide) rfl
  have en : (nodePos r 1 b).x = r.centre 0 (-1) := by
    have := nodePos_get (d := 1) r b 0
    rw [if_pos (by decide), hpad, show comp b 0 = -1 from hb] at this
    exact this
  rw [hs, en]
  dsimp only
  generalize r.centre 0 (-1) = A
  have : (1 - (A + r.h 0 / 2 - A) * (1 / r.h 0)) * (M * A ^ 2 / 2) + (A + r.h 0 / 2 - A) * (1 / r.h 0) * (M * (A + r.h 0) ^ 2 / 2) -
      M * (A + r.h 0 / 2) ^ 2 / 2 = M * r.h 0 ^ 2 / 8 := by
    field_simp
    ring
  rw [this, abs_of_nonneg (by positivity)]

/-- C98, double arithmetic: for finite data of size at most `M` and a point less than half a cell outside the box, the result is finite
and within `2 ^ 9 K M 2 ^ (-52)` of the piecewise linear function through the data at the exact cell centres; `K` is the number of
cells times the size of the box relative to its distance from the origin. -/
theorem C98_rounding (r : Req F64) (h : r.Valid 1) (hpad : r.pad = 1) (lo hi : Fin 3 → ℚ) (hbox : BoxIs r 1 lo hi)
    (K : ℚ) (hres : ∀ a : Fin 3, a.val < 1 → r.n.get a * (|lo a| + (hi a - lo a)) ≤ K * (hi a - lo a)) (hK : K ≤ 2 ^ 28)
    (g : Grid F64 1) (e : r.make .wrap 1 = .ok g) (x : Vec3 F64) (q : Fin 3 → ℚ)
    (hx : ∀ a : Fin 3, a.val < 1 → HasValue (x.get a) (q a) ∧
      lo a - (1 / 2 - 1 / 2 ^ 16) * (axisOf r lo hi a).h ≤ q a ∧ q a ≤ hi a + (1 / 2 - 1 / 2 ^ 16) * (axisOf r lo hi a).h)
    (al : Arr F64) (f : Cell → F64) (F : Cell → ℚ)
    (P : ∀ c, r.Padded 1 c → al.get .wrap g c.1 c.2.1 c.2.2 = .ok (f c) ∧ HasValue (f c) (F c)) (M : ℚ) (hM : Moderate M)
    (hF : ∀ c, r.Padded 1 c → |F c| ≤ M) :
    ∃ (y : F64) (v : ℚ), linearInterp .wrap g x al = .ok y ∧ HasValue y v ∧
      |v - (axisOf r lo hi 0).polyline (q 0) (fun i => F (i, 0, 0))| ≤ 2 ^ 9 * K * M / 2 ^ 52 := by
  have G := make_made h e
  obtain ⟨b, η, eb, pt⟩ := point_double .wrap 1 r h hpad lo hi hbox K hres hK g e x q hx
  obtain ⟨-, -, w0, -⟩ := hbox 0 (by decide)
  have hK1 : 1 ≤ K := by
    have : (1 : ℚ) ≤ r.n.get 0 := by exact_mod_cast h.n_pos 0
    exact this.trans (res_n ((two_zpow_pos _).trans_le w0) (h.n_pos 0) (hres 0 (by decide)))
  have pM := moderate_pw hM
  have M0 := pM.pos
  have pd : ∀ i, -1 ≤ i → i ≤ r.n.get 0 → r.Padded 1 (i, 0, 0) := by
    intro i h1 h2
    refine padded_of h hpad ?_ ?_
    · intro a ha
      match a with
      | 0 => exact ⟨h1, h2⟩
      | 1 => exact absurd ha (by decide)
      | 2 => exact absurd ha (by decide)
    · intro a ha
      match a with
      | 0 => exact absurd ha (by decide)
      | 1 => rfl
      | 2 => rfl
  obtain ⟨⟨b1, b2⟩, ⟨t1, t2⟩, np, vη⟩ := pt 0 (by decide)
  change -1 ≤ b.x at b1
  change b.x + 1 ≤ r.n.get 0 at b2
  have vX : HasValue ((x.x - (Grid.elem g g.boxMin g.dx (b.x, 0, 0)).x) * g.oneOverDx.x) (η 0) := vη (b.x, 0, 0) rfl
  have ev := linear_value G h (fun c hc => (P c hc).1) eb (fun a ha => by have := (pt a ha).1; rw [hpad]; omega)
  have p0 := pd b.x b1 (by omega)
  have p1 := pd (b.x + 1) (by omega) b2
  have a0 : Apx (f (b.x, 0, 0)) (F (b.x, 0, 0)) 1 0 M := Apx.exact (P _ p0).2 (by rw [one_mul]; exact hF _ p0)
  have a1 : Apx (f (b.x + 1, 0, 0)) (F (b.x + 1, 0, 0)) 1 0 M := Apx.exact (P _ p1).2 (by rw [one_mul]; exact hF _ p1)
  have sM : Scaled (1 * M) := by rw [one_mul]; exact pM.scaled
  have m0 := ((apx_coeta vX np.cell).mul a0 one_pos M0 sM).scale (one_mul M)
  have m1 := ((apx_eta vX np.cell).mul a1 one_pos M0 sM).scale (one_mul M)
  obtain ⟨⟨v, hv, rv⟩, -⟩ := (m0.add m1 pM.scaled).mono M0 (b := 3) (l := 12) (by norm_num) (by norm_num)
  refine ⟨_, v, ev, hv, ?_⟩
  have nr := polyline_near (f := fun i => F (i, 0, 0)) np (hF _ p0) (hF _ p1) (hF _ (pd _ t1 (by omega))) (hF _ (pd _ (by omega) t2))
  have u0 := ulp1_pos
  have eu : ∀ z : ℚ, z / 2 ^ 52 = z * ulp1 := fun z => by rw [ulp1]; ring
  rw [eu]
  unfold Axis.polyline
  have t := abs_sub_le v ((1 - η 0) * F (b.x, 0, 0) + η 0 * F (b.x + 1, 0, 0))
    ((1 - Int.fract ((axisOf r lo hi 0).coord (q 0))) * F (⌊(axisOf r lo hi 0).coord (q 0)⌋, 0, 0) +
      Int.fract ((axisOf r lo hi 0).coord (q 0)) * F (⌊(axisOf r lo hi 0).coord (q 0)⌋ + 1, 0, 0))
  refine (t.trans (add_le_add rv nr)).trans ?_
  have : 12 * ulp1 * M ≤ 12 * K * (ulp1 * M) := by
    have := mul_le_mul_of_nonneg_right hK1 (mul_pos u0 M0).le
    linarith
  have : 0 ≤ K * (ulp1 * M) := mul_nonneg (by linarith) (mul_pos u0 M0).le
  linarith

/-- C98, total error in double arithmetic: for data within `ε` of a function whose second derivative is at most `Q`, the result is
finite and within `Q h ^ 2 / 8 + ε + 2 ^ 9 K M 2 ^ (-52)` of the function at the point. -/
theorem C98_double (r : Req F64) (h : r.Valid 1) (hpad : r.pad = 1) (lo hi : Fin 3 → ℚ) (hbox : BoxIs r 1 lo hi)
    (K : ℚ) (hres : ∀ a : Fin 3, a.val < 1 → r.n.get a * (|lo a| + (hi a - lo a)) ≤ K * (hi a - lo a)) (hK : K ≤ 2 ^ 28)
    (g : Grid F64 1) (e : r.make .wrap 1 = .ok g) (x : Vec3 F64) (q : Fin 3 → ℚ)
    (hx : ∀ a : Fin 3, a.val < 1 → HasValue (x.get a) (q a) ∧
      lo a - (1 / 2 - 1 / 2 ^ 16) * (axisOf r lo hi a).h ≤ q a ∧ q a ≤ hi a + (1 / 2 - 1 / 2 ^ 16) * (axisOf r lo hi a).h)
    (al : Arr F64) (y : Cell → F64) (F : Cell → ℚ)
    (P : ∀ c, r.Padded 1 c → al.get .wrap g c.1 c.2.1 c.2.2 = .ok (y c) ∧ HasValue (y c) (F c)) (M : ℚ) (hM : Moderate M)
    (hF : ∀ c, r.Padded 1 c → |F c| ≤ M) (f : ℝ → ℝ) (Q ε : ℝ)
    (hf : SecondLe f (lo 0 - wid r lo hi 0 / 2) (hi 0 + wid r lo hi 0 / 2) Q)
    (near : ∀ c, r.Padded 1 c → |(F c : ℝ) - f (nodeAt (axisOf r lo hi) c 0)| ≤ ε) :
    ∃ (z : F64) (v : ℚ), linearInterp .wrap g x al = .ok z ∧ HasValue z v ∧
      |(v : ℝ) - f (q 0)| ≤ Q * wid r lo hi 0 ^ 2 / 8 + ε + 2 ^ 9 * K * M / 2 ^ 52 := by
  obtain ⟨z, v, z1, z2, z3⟩ := C98_rounding r h hpad lo hi hbox K hres hK g e x q hx al y F P M hM hF
  refine ⟨z, v, z1, z2, ?_⟩
  obtain ⟨-, -, w0, -⟩ := hbox 0 (by decide)
  have hw : 0 < (axisOf r lo hi 0).h := div_pos ((two_zpow_pos _).trans_le w0) (by have := h.n_pos 0; exact_mod_cast this)
  have hw' : (0 : ℝ) < wid r lo hi 0 := by exact_mod_cast hw
  obtain ⟨h1, h2⟩ := half_range hw (hx 0 (by decide)).2
  have hn := axis_n (lo := lo) (hi := hi) h.n_pos 0
  obtain ⟨c1, c2⟩ := ctr_cell _ hw hn h1 h2
  obtain ⟨r1, r2⟩ := coord_range _ hw hn h1 h2
  have pt := ctr_point _ hw (q 0)
  obtain ⟨t0, t1⟩ := fract_unit ((axisOf r lo hi 0).coord (q 0))
  have near' : ∀ i, -1 ≤ i → i ≤ r.n.get 0 → |(F (i, 0, 0) : ℝ) - f (ctr (axisOf r lo hi 0) i)| ≤ ε := by
    intro i i1 i2
    refine near (i, 0, 0) (padded_of h hpad (fun b hb => ?_) (fun b hb => ?_))
    · match b with
      | 0 => exact ⟨i1, i2⟩
      | 1 => exact absurd hb (by decide)
      | 2 => exact absurd hb (by decide)
    · match b with
      | 0 => exact absurd hb (by decide)
      | 1 => rfl
      | 2 => rfl
  have n0 := near' ⌊(axisOf r lo hi 0).coord (q 0)⌋ r1 (by change _ ≤ (axisOf r lo hi 0).n; omega)
  have n1 := near' (⌊(axisOf r lo hi 0).coord (q 0)⌋ + 1) (by omega) r2
  rw [ctr_succ] at n1
  have z3' : |(v : ℝ) - ((axisOf r lo hi 0).polyline (q 0) (fun i => F (i, 0, 0)) : ℚ)| ≤ 2 ^ 9 * K * M / 2 ^ 52 := by exact_mod_cast z3
  unfold Axis.polyline at z3'
  simp only [Rat.cast_add, Rat.cast_mul, Rat.cast_sub, Rat.cast_one] at z3'
  change (axisOf r lo hi 0).lo - ((axisOf r lo hi 0).h : ℝ) / 2 ≤ _ at c1
  change _ ≤ ((axisOf r lo hi 0).hi : ℝ) + ((axisOf r lo hi 0).h : ℝ) / 2 at c2
  have hf' : SecondLe f ((axisOf r lo hi 0).lo - ((axisOf r lo hi 0).h : ℝ) / 2) ((axisOf r lo hi 0).hi + ((axisOf r lo hi 0).h : ℝ) / 2) Q := hf
  change (0 : ℝ) < ((axisOf r lo hi 0).h : ℝ) at hw'
  change _ ≤ Q * ((axisOf r lo hi 0).h : ℝ) ^ 2 / 8 + ε + _
  generalize (axisOf r lo hi 0) = A at *
  generalize ((Int.fract (A.coord (q 0)) : ℚ) : ℝ) = s at *
  generalize ctr A ⌊A.coord (q 0)⌋ = C at *
  generalize (F (⌊A.coord (q 0)⌋, 0, 0) : ℝ) = u0 at *
  generalize (F (⌊A.coord (q 0)⌋ + 1, 0, 0) : ℝ) = u1 at *
  generalize (A.h : ℝ) = H at *
  rw [← pt]
  have hsH : s * H ≤ 1 * H := mul_le_mul_of_nonneg_right t1 hw'.le
  have hsH0 : 0 ≤ s * H := mul_nonneg t0 hw'.le
  obtain ⟨ξ, hξ, er⟩ := line_remainder hf'.smooth (a := C) (b := C + H) (t := C + s * H) (by linarith) (by linarith)
  rw [min_eq_left (by linarith)] at hξ
  have hb := hf'.bound ξ ⟨c1.trans hξ.1, hξ.2.trans c2⟩
  have e1 : (C + s * H - C) / (C + H - C) = s := by rw [add_sub_cancel_left, add_sub_cancel_left, mul_div_cancel_right₀ _ hw'.ne']
  rw [e1] at er
  have e2 : (C + s * H - C) * (C + s * H - (C + H)) = -(s * (1 - s)) * H ^ 2 := by ring
  rw [e2] at er
  have Q0 := (abs_nonneg _).trans hb
  have s4 : s * (1 - s) ≤ 1 / 4 := by nlinarith [sq_nonneg (s - 1 / 2)]
  have s0 : 0 ≤ s * (1 - s) := mul_nonneg t0 (by linarith)
  have L : |(1 - s) * f C + s * f (C + H) - f (C + s * H)| ≤ Q * H ^ 2 / 8 := by
    have : (1 - s) * f C + s * f (C + H) - f (C + s * H) = iteratedDeriv 2 f ξ / 2 * (s * (1 - s) * H ^ 2) := by linarith
    rw [this, abs_mul, abs_div, abs_of_pos (show (0 : ℝ) < 2 by norm_num), abs_of_nonneg (mul_nonneg s0 (sq_nonneg H))]
    calc |iteratedDeriv 2 f ξ| / 2 * (s * (1 - s) * H ^ 2) ≤ Q / 2 * (1 / 4 * H ^ 2) := by gcongr
      _ = _ := by ring
  have D : |(1 - s) * u0 + s * u1 - ((1 - s) * f C + s * f (C + H))| ≤ ε := by
    have : (1 - s) * u0 + s * u1 - ((1 - s) * f C + s * f (C + H)) = (1 - s) * (u0 - f C) + s * (u1 - f (C + H)) := by ring
    rw [this]
    refine (abs_add_le _ _).trans ?_
    rw [abs_mul, abs_mul, abs_of_nonneg (show 0 ≤ 1 - s by linarith), abs_of_nonneg t0]
    have := mul_le_mul_of_nonneg_left n0 (show 0 ≤ 1 - s by linarith)
    have := mul_le_mul_of_nonneg_left n1 t0
    linarith
  have := abs_tri (abs_tri z3' D) L
  linarith

theorem sin_second (a b : ℝ) : SecondLe Real.sin a b 1 := by
  refine ⟨Real.contDiff_sin, fun x _ => ?_⟩
  have : iteratedDeriv 2 Real.sin = fun x => -Real.sin x := by
    rw [iteratedDeriv_succ, iteratedDeriv_one, Real.deriv_sin, Real.deriv_cos']
  rw [this, abs_neg]
  exact Real.abs_sin_le_one x

/-- Instance of `C98_exact`: the sine at 17/10 from three cells of width 1 and two ghost layers. -/
example : ∃ g : Grid ℝ 1, (lineR 2).make .wrap 1 = .ok g ∧ ∃ al v, linearInterp .wrap g ⟨17 / 10, 0, 0⟩ al = .ok v ∧
    |v - Real.sin (17 / 10)| ≤ 1 := by
  obtain ⟨g, e, -⟩ := C01_padded_addressing .wrap 1 (lineR 2) lineR2_valid
  have G := make_made lineR2_valid e
  obtain ⟨al, hal⟩ := fieldIs_exists (s := .wrap) G (fun c => Real.sin (nodePos (lineR 2) 1 c).x)
  obtain ⟨v, h1, h2⟩ := C98_exact (lineR 2) lineR2_valid (lineR_pos 2) (by decide) g e al Real.sin 1 (sin_second _ _)
    (fun c q hc hq => by
      rw [G.atC hc] at hq
      cases hq
      exact hal.val c hc) ⟨17 / 10, 0, 0⟩ (by
      intro a ha
      match a with
      | 0 => norm_num [lineR, Vec3.get, Req.centre, Req.h]
      | 1 => exact absurd ha (by decide)
      | 2 => exact absurd ha (by decide))
  refine ⟨g, e, al, v, h1, h2.trans ?_⟩
  have hh : (lineR 2).h 0 = 1 := by norm_num [lineR, Req.h, Vec3.get]
  have hp : (lineR 2).pad = 2 := rfl
  rw [hh, hp]
  norm_num

/-- Instance of `C98_sharp`. -/
example : ∃ g : Grid ℝ 1, (lineR 1).make .wrap 1 = .ok g ∧ ∃ al x v, InStorage (lineR 1) 1 x ∧ linearInterp .wrap g x al = .ok v ∧
    |v - 3 * x.x ^ 2 / 2| = 3 / 8 := by
  obtain ⟨g, e, -⟩ := C01_padded_addressing .wrap 1 (lineR 1) lineR_valid
  have G := make_made lineR_valid e
  obtain ⟨al, hal⟩ := fieldIs_exists (s := .wrap) G (fun c => 3 * (nodePos (lineR 1) 1 c).x ^ 2 / 2)
  obtain ⟨x, v, h1, h2, h3⟩ := C98_sharp (lineR 1) lineR_valid (lineR_pos 1) rfl g e al 3 (by norm_num)
    (fun c q hc hq => by
      rw [G.atC hc] at hq
      cases hq
      exact hal.val c hc)
  refine ⟨g, e, al, x, v, h1, h2, h3.trans ?_⟩
  have hh : (lineR 1).h 0 = 1 := by norm_num [lineR, Req.h, Vec3.get]
  rw [hh]
  norm_num

/-- Instance of `C98_double` (and so of `C98_rounding`): the sine at 1/8 from doubles near its values at the centres of the cells. -/
example : ∃ g : Grid F64 1, (cube 1).make .wrap 1 = .ok g ∧ ∃ al z v, linearInterp .wrap g ⟨eighth, eighth, eighth⟩ al = .ok z ∧
    HasValue z v ∧ |(v : ℝ) - Real.sin (1 / 8)| ≤ 1 / 200 := by
  have hd : 1 = 1 ∨ 1 = 2 ∨ 1 = 3 := by decide
  obtain ⟨g, e, G⟩ := make_ok .wrap (cube_valid hd)
  obtain ⟨phi, psi, mix, D, j1, j2, j3⟩ := jet_exists (cube 1) 1 (axisOf (cube 1) (fun _ => 0) fun _ => 1) (cube_unit hd)
    (fun i j k x => waves 1 i j k x 0) (fun i j k x => waves_le 1 i j k x 0)
  obtain ⟨a, h1⟩ := fieldIs_exists (s := .wrap) G phi
  have w0 := cube_wid hd 0 (by decide)
  obtain ⟨z, v, k1, k2, k3⟩ := C98_double (cube 1) (cube_valid hd) rfl _ _ (cube_box 1) 6 (cube_res hd)
    (by norm_num) g e ⟨eighth, eighth, eighth⟩ (fun _ => 1 / 8) (fun a ha => ⟨by match a with | 0 => exact eighth_value | 1 => exact eighth_value | 2 => exact eighth_value,
      by rw [cube_h hd, if_pos ha]; norm_num, by rw [cube_h hd, if_pos ha]; norm_num⟩)
    a phi (D 0 0 0) (fun c hc => ⟨h1.val c hc, j1.phi c hc⟩) 2 moderate_two
    (fun c hc => by simpa using j2 c hc (fun _ => 0) (fun _ _ => rfl)) Real.sin 1 (1 / 2 ^ 50) (sin_second _ _)
    (fun c hc => by
      have := j3 c hc (fun _ => 0) (fun _ _ => rfl)
      rw [pointR1] at this
      beta_reduce at this
      rw [(waves_line _ _ _).1] at this
      simpa using this)
  refine ⟨g, e, a, z, v, k1, k2, ?_⟩
  have e8 : (((1 : ℚ) / 8 : ℚ) : ℝ) = 1 / 8 := by norm_num
  rw [e8, w0] at k3
  refine k3.trans ?_
  norm_num

end Gals.Props
