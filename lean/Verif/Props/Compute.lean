import Verif.Lemmas.Fields
import Verif.Props.Hermite
import Mathlib.Tactic.FieldSimp

/-!
# Properties C20, C21 (interpolation of fields, linear interpolation)
-/

namespace Gals.Props

open Gals Spec

/-! ## C20: field interpolation writes exactly the interior interpolation results -/

section C20
variable {K : Type} [Zero K] [One K] [Add K] [Sub K] [Mul K] [Div K] [Neg K] [NatCast K] [IntCast K]
  [LT K] [DecidableLT K] [LE K] [DecidableLE K] [HasFloor K]

/-- C20, for numbers without laws (doubles included), every dimension, both readings of `int` overflow: if point
interpolation at each of the interior points returns, `compute` returns; afterwards the two interpolated fields hold
those results at interior cells and their old values at the others, and the other six fields are the same arrays. -/
theorem C20_compute (s : IntSem) (d : ℕ) (r : Req K) (h : r.Valid d) (g : Grid K d) (e : r.make s d = .ok g)
    (gx : Grid K d) (xInterp : Arr (Vec3 K)) (xs : Cell → Vec3 K) (hxe : xInterp.numCells = r.n)
    (hx : ∀ c, r.Interior c → xInterp.get s gx c.1 c.2.1 c.2.2 = .ok (xs c)) (ls : Levelset K)
    (p0 : Cell → K) (q0 : Cell → Vec3 K) (hp : FieldIs s r g ls.phiInterpPrev p0)
    (hq : FieldIs s r g ls.psiInterpPrev q0)
    (ho : ∀ c, r.Interior c → ∃ o, interpolate s g ls (xs c) false = .ok o) :
    ∃ ls', hermiteCompute s gx g xInterp ls = .ok ls' ∧
      (∀ c, r.Interior c → ∃ o, interpolate s g ls (xs c) false = .ok o ∧
        ls'.phiInterpPrev.get s g c.1 c.2.1 c.2.2 = .ok o.phi ∧
        ls'.psiInterpPrev.get s g c.1 c.2.1 c.2.2 = .ok o.psi) ∧
      (∀ c, r.Padded d c → ¬ r.Interior c → ls'.phiInterpPrev.get s g c.1 c.2.1 c.2.2 = .ok (p0 c) ∧
        ls'.psiInterpPrev.get s g c.1 c.2.1 c.2.2 = .ok (q0 c)) ∧
      ls'.phi = ls.phi ∧ ls'.psi = ls.psi ∧ ls'.phiMixed = ls.phiMixed ∧ ls'.phiPrev = ls.phiPrev ∧
      ls'.psiPrev = ls.psiPrev ∧ ls'.phiMixedPrev = ls.phiMixedPrev := by
  have G := make_made h e
  have : Nonempty (Interp K) := ⟨⟨0, ⟨0, 0, 0⟩⟩⟩
  obtain ⟨o, ho⟩ := choose_ok ho
  obtain ⟨ls', h1, h2, h3, h4⟩ := hermiteCompute_ok G gx hxe hx hp hq ho
  refine ⟨ls', h1, fun c hc => ⟨o c, ho c hc, ?_, ?_⟩, fun c hc hn => ⟨?_, ?_⟩, h4.phi, h4.psi, h4.phiMixed, h4.phiPrev,
    h4.psiPrev, h4.phiMixedPrev⟩
  · rw [h2.val c (interior_padded G hc), if_pos hc]
  · rw [h3.val c (interior_padded G hc), if_pos hc]
  · rw [h2.val c hc, if_neg hn]
  · rw [h3.val c hc, if_neg hn]

end C20

section C20num
variable {K : Type} [Field K] [LinearOrder K] [IsStrictOrderedRing K] [FloorRing K]

/-- C20 with exact numbers: the point interpolations return when the points are in storage and the previous-step fields
are fields of the grid, so `compute` returns. -/
theorem C20_compute_in_storage (s : IntSem) (d : ℕ) (hs : d < 3 → s = .wrap) (r : Req K) (h : r.Valid d) (hpos : r.Pos d)
    (g : Grid K d) (e : r.make s d = .ok g) (gx : Grid K d) (xInterp : Arr (Vec3 K)) (xs : Cell → Vec3 K)
    (hxe : xInterp.numCells = r.n) (hx : ∀ c, r.Interior c → xInterp.get s gx c.1 c.2.1 c.2.2 = .ok (xs c))
    (hst : ∀ c, r.Interior c → InStorage r d (xs c)) (ls : Levelset K)
    (phi : Cell → K) (psi : Cell → Vec3 K) (mix : Cell → List K) (hm : ∀ c, (mix c).length = numMixed d)
    (P : PrevIs s r g ls phi psi mix) (p0 : Cell → K) (q0 : Cell → Vec3 K) (hp : FieldIs s r g ls.phiInterpPrev p0)
    (hq : FieldIs s r g ls.psiInterpPrev q0) :
    ∃ ls', hermiteCompute s gx g xInterp ls = .ok ls' ∧
      (∀ c, r.Interior c → ∃ o, interpolate s g ls (xs c) false = .ok o ∧
        ls'.phiInterpPrev.get s g c.1 c.2.1 c.2.2 = .ok o.phi ∧
        ls'.psiInterpPrev.get s g c.1 c.2.1 c.2.2 = .ok o.psi) ∧
      (∀ c, r.Padded d c → ¬ r.Interior c → ls'.phiInterpPrev.get s g c.1 c.2.1 c.2.2 = .ok (p0 c) ∧
        ls'.psiInterpPrev.get s g c.1 c.2.1 c.2.2 = .ok (q0 c)) ∧
      ls'.phi = ls.phi ∧ ls'.psi = ls.psi ∧ ls'.phiMixed = ls.phiMixed ∧ ls'.phiPrev = ls.phiPrev ∧
      ls'.psiPrev = ls.psiPrev ∧ ls'.phiMixedPrev = ls.phiMixedPrev :=
  C20_compute s d r h g e gx xInterp xs hxe hx ls p0 q0 hp hq fun c hc =>
    interp_ok hs (make_made h e) h hpos hm P (hst c hc) false

end C20num

/-- Instance of C20: 2D, padding 2, points halfway along `x` between neighbouring cells. -/
example : ∃ g : Grid ℚ 2, (demo 2).make .wrap 2 = .ok g ∧ ∃ (xa : Arr (Vec3 ℚ)) (ls ls' : Levelset ℚ),
    xa.get .wrap g 2 1 0 = .ok ⟨3 / 2, 3 / 2, 0⟩ ∧ hermiteCompute .wrap g g xa ls = .ok ls' ∧
    ls'.phiInterpPrev.get .wrap g (-2) 1 0 = .ok 7 ∧
    ∃ o, interpolate .wrap g ls ⟨3 / 2, 3 / 2, 0⟩ false = .ok o ∧ ls'.phiInterpPrev.get .wrap g 2 1 0 = .ok o.phi := by
  obtain ⟨g, e, -⟩ := C01_padded_addressing .wrap 2 (demo 2) demo2_valid
  have G := make_made demo2_valid e
  obtain ⟨xa, hxa⟩ := fieldIs_exists (s := .wrap) G (fun c => (⟨(c.1 + 1) / 2, c.2.1 + 1 / 2, 0⟩ : Vec3 ℚ))
  obtain ⟨l0, P⟩ := prevIs_exists G (fun c => ((10 * c.1 + c.2.1 : ℤ) : ℚ)) (fun _ => ⟨7, 9, 5⟩) (fun _ => [11])
  obtain ⟨pa, hpa⟩ := fieldIs_exists (s := .wrap) G (fun _ => (7 : ℚ))
  obtain ⟨qa, hqa⟩ := fieldIs_exists (s := .wrap) G (fun _ => (⟨1, 2, 3⟩ : Vec3 ℚ))
  have hi : ∀ c, (demo 2).Interior c → (0 ≤ c.1 ∧ c.1 ≤ 3) ∧ (0 ≤ c.2.1 ∧ c.2.1 ≤ 2) := by
    intro c hc
    have h1 := hc.1
    have h2 := hc.2.1
    simp only [demo] at h1 h2
    omega
  have P' : PrevIs .wrap (demo 2) g { l0 with phiInterpPrev := pa, psiInterpPrev := qa }
    (fun c => ((10 * c.1 + c.2.1 : ℤ) : ℚ)) (fun _ => ⟨7, 9, 5⟩) (fun _ => [11]) := ⟨P.phi, P.psi, P.mix⟩
  have h21 : (demo 2).Interior (2, 1, 0) := by unfold Req.Interior InteriorCell demo; simp
  have e21 : (⟨((2 : ℤ) + 1) / 2, ((1 : ℤ) : ℚ) + 1 / 2, 0⟩ : Vec3 ℚ) = ⟨3 / 2, 3 / 2, 0⟩ := by norm_num
  obtain ⟨ls', h1, h2, h3, -⟩ := C20_compute_in_storage .wrap 2 (fun _ => rfl) (demo 2) demo2_valid (demo_pos 2) g e g xa
    _ hxa.ext (fun c hc => hxa.val c (interior_padded G hc)) (by
      intro c hc a ha
      obtain ⟨⟨a1, a2⟩, ⟨a3, a4⟩⟩ := hi c hc
      have b1 : (0 : ℚ) ≤ c.1 := by exact_mod_cast a1
      have b2 : (c.1 : ℚ) ≤ 3 := by exact_mod_cast a2
      have b3 : (0 : ℚ) ≤ c.2.1 := by exact_mod_cast a3
      have b4 : (c.2.1 : ℚ) ≤ 2 := by exact_mod_cast a4
      match a with
      | 0 => norm_num [demo, Vec3.get, Req.centre, Req.h]; constructor <;> linarith
      | 1 => norm_num [demo, Vec3.get, Req.centre, Req.h]; constructor <;> linarith
      | 2 => exact absurd ha (by decide)) _ _ _ _ (fun _ => rfl) P' _ _ hpa hqa
  obtain ⟨o, o1, o2, -⟩ := h2 (2, 1, 0) h21
  have hx21 := hxa.val (2, 1, 0) (interior_padded G h21)
  simp only [e21] at hx21 o1
  refine ⟨g, e, xa, _, ls', hx21, h1, ?_, o, o1, o2⟩
  exact (h3 (-2, 1, 0) (by unfold Req.Padded PaddedCell padAlong demo; simp) (by
    unfold Req.Interior InteriorCell demo; simp)).1

/-! ## C21: linear interpolation -/

section C21
variable {K : Type} [Field K] [LinearOrder K] [IsStrictOrderedRing K] [FloorRing K]

/-- C21, exactness: for every padding, if the field holds `A + B x` at each stored node (`x` the position of the node),
interpolating at any point in storage gives `A + B x` there. -/
theorem C21_exact_on_affine (r : Req K) (h : r.Valid 1) (hpos : r.Pos 1) (g : Grid K 1) (e : r.make .wrap 1 = .ok g)
    (al : Arr K) (A B : K)
    (P : ∀ c, r.Padded 1 c → ∃ q, g.at' .wrap c.1 c.2.1 c.2.2 = .ok q ∧ al.get .wrap g c.1 c.2.1 c.2.2 = .ok (A + B * q.x))
    (x : Vec3 K) (hx : InStorage r 1 x) : linearInterp .wrap g x al = .ok (A + B * x.x) := by
  have G := make_made h e
  have P' : ∀ c, r.Padded 1 c → al.get .wrap g c.1 c.2.1 c.2.2 = .ok (A + B * (nodePos r 1 c).x) := by
    intro c hc
    obtain ⟨q, h1, h2⟩ := P c hc
    rw [G.atC hc] at h1
    rw [h2, Except.ok.inj h1]
  obtain ⟨b, H, eb⟩ := linear_eval G h hpos P' hx
  rw [eb]
  have hs : (nodePos r 1 (b.1 + 1, b.2.1, b.2.2)).x = (nodePos r 1 b).x + r.h 0 :=
    nodePos_succ r b (b.1 + 1, b.2.1, b.2.2) 0 (by decide) rfl
  have hh := (h.h_pos hpos 0 (by decide)).ne'
  rw [hs]
  congr 1
  field_simp
  ring

/-- C21, maximum principle with padding 1 (the default): the result is between the values at the two nodes around the
point.  Missing for the full claim: other paddings, for which it is false (`C21_maximum_false`). -/
theorem C21_maximum_principle_partial (r : Req K) (h : r.Valid 1) (hpos : r.Pos 1) (hp : r.pad = 1) (g : Grid K 1)
    (e : r.make .wrap 1 = .ok g) (al : Arr K) (f : Cell → K)
    (P : ∀ c, r.Padded 1 c → al.get .wrap g c.1 c.2.1 c.2.2 = .ok (f c)) (x : Vec3 K) (hx : InStorage r 1 x) :
    ∃ (i : ℤ) (v : K), linearInterp .wrap g x al = .ok v ∧ r.centre 0 i ≤ x.x ∧ x.x < r.centre 0 (i + 1) ∧
      min (f (i, 0, 0)) (f (i + 1, 0, 0)) ≤ v ∧ v ≤ max (f (i, 0, 0)) (f (i + 1, 0, 0)) := by
  obtain ⟨b, H, eb⟩ := linear_eval (make_made h e) h hpos P hx
  have hlo := H.lo 0 (by decide)
  have hhi := H.hi 0 (by decide)
  have hb : b = (b.1, 0, 0) := Prod.ext rfl (Prod.ext (H.unused 1 (by decide)) (H.unused 2 (by decide)))
  refine ⟨b.1, _, eb, hlo, hhi, ?_⟩
  have hh := h.h_pos hpos 0 (by decide)
  have hnp : (nodePos r 1 b).x = r.centre 0 b.1 := by
    have := nodePos_get (d := 1) r b 0
    rw [if_pos (by decide), hp, sub_self, add_zero] at this
    exact this
  change r.centre 0 b.1 ≤ x.x at hlo
  change x.x < r.centre 0 (b.1 + 1) at hhi
  have hs : r.centre 0 (b.1 + 1) = r.centre 0 b.1 + r.h 0 := by unfold Req.centre; push_cast; ring
  rw [hs] at hhi
  rw [hnp]
  have e0 : 0 ≤ (x.x - r.centre 0 b.1) * (1 / r.h 0) := mul_nonneg (sub_nonneg.2 hlo) (one_div_nonneg.2 hh.le)
  have e1 : (x.x - r.centre 0 b.1) * (1 / r.h 0) ≤ 1 := by
    rw [mul_one_div, div_le_one hh]; linarith
  have hb1 : (b.1 + 1, b.2.1, b.2.2) = (b.1 + 1, (0 : ℤ), (0 : ℤ)) := by
    rw [show b.2 = (0, 0) from congrArg Prod.snd hb]
  rw [hb1, show f b = f (b.1, 0, 0) from congrArg f hb]
  generalize (x.x - r.centre 0 b.1) * (1 / r.h 0) = t at *
  generalize f (b.1, 0, 0) = u
  generalize f (b.1 + 1, 0, 0) = w
  have e2 : 0 ≤ 1 - t := by linarith
  constructor
  · have a1 := mul_le_mul_of_nonneg_left (min_le_left u w) e2
    have a2 := mul_le_mul_of_nonneg_left (min_le_right u w) e0
    nlinarith
  · have a1 := mul_le_mul_of_nonneg_left (le_max_left u w) e2
    have a2 := mul_le_mul_of_nonneg_left (le_max_right u w) e0
    nlinarith

/-- C21, fields: `compute` sets every interior cell of the result to the interpolation at the point of that cell and
leaves ghost cells alone; in particular affine data give the affine values. -/
theorem C21_compute (r : Req K) (h : r.Valid 1) (hpos : r.Pos 1) (g : Grid K 1) (e : r.make .wrap 1 = .ok g)
    (xa : Arr (Vec3 K)) (xs : Cell → Vec3 K) (hx : ∀ c, r.Interior c → xa.get .wrap g c.1 c.2.1 c.2.2 = .ok (xs c))
    (hst : ∀ c, r.Interior c → InStorage r 1 (xs c)) (al out : Arr K) (f p0 : Cell → K)
    (P : ∀ c, r.Padded 1 c → al.get .wrap g c.1 c.2.1 c.2.2 = .ok (f c)) (hp : FieldIs .wrap r g out p0) :
    ∃ out', linearCompute .wrap g g g xa al out = .ok out' ∧
      (∀ c, r.Interior c → ∃ v, linearInterp .wrap g (xs c) al = .ok v ∧ out'.get .wrap g c.1 c.2.1 c.2.2 = .ok v) ∧
      ∀ c, r.Padded 1 c → ¬ r.Interior c → out'.get .wrap g c.1 c.2.1 c.2.2 = .ok (p0 c) := by
  have G := make_made h e
  obtain ⟨o, ho⟩ := choose_ok (p := r.Interior) (f := fun c => linearInterp .wrap g (xs c) al) fun c hc =>
    have ⟨_, _, eb⟩ := linear_eval G h hpos P (hst c hc)
    ⟨_, eb⟩
  obtain ⟨out', h1, h2⟩ := linearCompute_ok G (g := g) ⟨G.nx, G.ny, G.nz⟩ hx hp ho
  refine ⟨out', h1, fun c hc => ⟨o c, ho c hc, ?_⟩, fun c hc hn => ?_⟩
  · rw [h2.val c (interior_padded G hc), if_pos hc]
  · rw [h2.val c hc, if_neg hn]

end C21

/-- Instance of the exactness: `5 - 2 x` at 17/10 with padding 2. -/
example : ∃ g : Grid ℚ 1, (line 2).make .wrap 1 = .ok g ∧ ∃ al, al.get .wrap g 2 0 0 = .ok (-2) ∧
    linearInterp .wrap g ⟨17 / 10, 0, 0⟩ al = .ok (8 / 5) := by
  obtain ⟨g, e, -⟩ := C01_padded_addressing .wrap 1 (line 2) line2_valid
  have G := make_made line2_valid e
  obtain ⟨al, hal⟩ := fieldIs_exists (s := .wrap) G (fun c => (5 : ℚ) + -2 * (nodePos (line 2) 1 c).x)
  refine ⟨g, e, al, ?_, ?_⟩
  · have := hal.val (2, 0, 0) (by unfold Req.Padded PaddedCell padAlong line; simp)
    simp only at this
    rw [this]
    simp [nodePos, line, Req.centre, Req.h, Vec3.get, comp]
    norm_num
  · have := C21_exact_on_affine (line 2) line2_valid (line_pos 2) g e al 5 (-2)
      (fun c hc => ⟨_, G.atC hc, hal.val c hc⟩) ⟨17 / 10, 0, 0⟩ (by
        intro a ha
        match a with
        | 0 => norm_num [line, Vec3.get, Req.centre, Req.h]
        | 1 => exact absurd ha (by decide)
        | 2 => exact absurd ha (by decide))
    rw [this]
    norm_num

/-- The maximum principle is false with padding 2: data 1 at node 2 and 0 at the others give -4/5 at 17/10. -/
theorem C21_maximum_false : ∃ g : Grid ℚ 1, (line 2).make .wrap 1 = .ok g ∧ ∃ al,
    (∀ c, (line 2).Padded 1 c → al.get .wrap g c.1 c.2.1 c.2.2 = .ok (if c.1 = 2 then 1 else 0)) ∧
    linearInterp .wrap g ⟨17 / 10, 0, 0⟩ al = .ok (-4 / 5) := by
  obtain ⟨g, e, -⟩ := C01_padded_addressing .wrap 1 (line 2) line2_valid
  have G := make_made line2_valid e
  obtain ⟨al, hal⟩ := fieldIs_exists (s := .wrap) G (fun c => if c.1 = 2 then (1 : ℚ) else 0)
  refine ⟨g, e, al, hal.val, ?_⟩
  obtain ⟨b, H, eb⟩ := linear_eval G line2_valid (line_pos 2) hal.val (x := ⟨17 / 10, 0, 0⟩) (by
        intro a ha
        match a with
        | 0 => norm_num [line, Vec3.get, Req.centre, Req.h]
        | 1 => exact absurd ha (by decide)
        | 2 => exact absurd ha (by decide))
  have hlo := H.lo 0 (by decide)
  have hhi := H.hi 0 (by decide)
  have hcen : ∀ i : ℤ, (line 2).centre 0 i = i + 1 / 2 := fun i => by
    simp [line, Req.centre, Req.h, Vec3.get]
  rw [hcen] at hlo hhi
  change (b.1 : ℚ) + 1 / 2 ≤ 17 / 10 at hlo
  change (17 / 10 : ℚ) < ((b.1 + 1 : ℤ) : ℚ) + 1 / 2 at hhi
  have hb : b.1 = 1 := by
    have a1 : (b.1 : ℚ) < 2 := by linarith
    have a2 : (0 : ℚ) < b.1 := by push_cast at hhi; linarith
    have a3 : b.1 < 2 := by exact_mod_cast a1
    have a4 : 0 < b.1 := by exact_mod_cast a2
    omega
  have hx : (nodePos (line 2) 1 b).x = 5 / 2 := by
    have := nodePos_get (d := 1) (line 2) b 0
    rw [if_pos (by decide), hcen] at this
    refine this.trans ?_
    have hcb : comp b 0 = 1 := hb
    rw [hcb]
    norm_num [line]
  rw [eb, hx, hb]
  norm_num [line, Req.h, Vec3.get]

/-- Instance of the maximum principle and of the field loop. -/
example : ∃ g : Grid ℚ 1, (line 1).make .wrap 1 = .ok g ∧ ∃ (xa : Arr (Vec3 ℚ)) (al out : Arr ℚ), ∃ out' v,
    linearCompute .wrap g g g xa al out = .ok out' ∧ linearInterp .wrap g ⟨3 / 4, 0, 0⟩ al = .ok v ∧
    out'.get .wrap g 1 0 0 = .ok v ∧ out'.get .wrap g (-1) 0 0 = .ok 9 ∧ 0 ≤ v ∧ v ≤ 1 := by
  obtain ⟨g, e, -⟩ := C01_padded_addressing .wrap 1 (line 1) line_valid
  have G := make_made line_valid e
  obtain ⟨xa, hxa⟩ := fieldIs_exists (s := .wrap) G (fun c => (⟨((c.1 : ℤ) : ℚ) * 3 / 4, 0, 0⟩ : Vec3 ℚ))
  obtain ⟨al, hal⟩ := fieldIs_exists (s := .wrap) G (fun c => if c.1 = 1 then (1 : ℚ) else 0)
  obtain ⟨out, hout⟩ := fieldIs_exists (s := .wrap) G (fun _ => (9 : ℚ))
  have hst : ∀ c, (line 1).Interior c → InStorage (line 1) 1 ⟨((c.1 : ℤ) : ℚ) * 3 / 4, 0, 0⟩ := by
    intro c hc a ha
    have h1 := hc.1
    simp only [line] at h1
    have b1 : (0 : ℚ) ≤ c.1 := by exact_mod_cast h1.1
    have b2 : (c.1 : ℚ) < 3 := by exact_mod_cast h1.2
    match a with
    | 0 => norm_num [line, Vec3.get, Req.centre, Req.h]; constructor <;> linarith
    | 1 => exact absurd ha (by decide)
    | 2 => exact absurd ha (by decide)
  obtain ⟨out', h1, h2, h3⟩ := C21_compute (line 1) line_valid (line_pos 1) g e xa _
    (fun c hc => hxa.val c (interior_padded G hc)) hst al out _ _ hal.val hout
  have h10 : (line 1).Interior (1, 0, 0) := by unfold Req.Interior InteriorCell line; simp
  obtain ⟨v, v1, v2⟩ := h2 (1, 0, 0) h10
  obtain ⟨i, v', w1, w2, w3, w4, w5⟩ := C21_maximum_principle_partial (line 1) line_valid (line_pos 1) rfl g e al _ hal.val
    _ (hst (1, 0, 0) h10)
  rw [v1] at w1
  cases w1
  have e34 : (⟨((1 : ℤ) : ℚ) * 3 / 4, 0, 0⟩ : Vec3 ℚ) = ⟨3 / 4, 0, 0⟩ := by norm_num
  simp only [e34] at v1
  refine ⟨g, e, xa, al, out, out', v, h1, v1, v2, h3 (-1, 0, 0) (by unfold Req.Padded PaddedCell padAlong line; simp) (by
    unfold Req.Interior InteriorCell line; simp), ?_, ?_⟩
  · refine le_trans ?_ w4
    simp only [le_min_iff]
    constructor <;> split <;> norm_num
  · refine le_trans w5 ?_
    simp only [max_le_iff]
    constructor <;> split <;> norm_num

end Gals.Props
