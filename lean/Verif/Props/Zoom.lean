import Verif.Lemmas.Zoom
import Verif.Props.Mirror

/-!
# C119: origin and units of length do not matter
-/

namespace Gals.Props

open Gals Gals.Spec

section exact
variable {K : Type} [Field K] [LinearOrder K] [IsStrictOrderedRing K] [FloorRing K]

/-- C119, interpolation with and without the limiter, in exact arithmetic, any padding.  The second level set, on the second grid, is the first in
other coordinates, `x` becoming `z x + o` with `z > 0` for each axis: the interpolation returns the same value, and the gradient in the other units,
at every point between the stored nodes, nodes included. -/
theorem C119_interpolation (s : IntSem) (d : ℕ) (hs : d < 3 → s = .wrap) (z o : Vec3 K) (hz : ∀ a, 0 < z.get a) (r : Req K) (h : r.Valid d)
    (hpos : r.Pos d) (g g' : Grid K d) (e : r.make s d = .ok g) (e' : (r.zoom z o).make s d = .ok g') (ls ls' : Levelset K)
    (F F' : Cell → K) (G G' : Cell → Vec3 K) (X X' : Cell → List K) (hX : ∀ c, (X c).length = numMixed d)
    (hX' : ∀ c, (X' c).length = numMixed d) (P : PrevIs s r g ls F G X) (P' : PrevIs s (r.zoom z o) g' ls' F' G' X')
    (T : Zoomed z d r F F' G G' X X') (x : Vec3 K) (hx : InStorage r d x) (lim : Bool) :
    ∃ y, interpolate s g ls x lim = .ok y ∧ interpolate s g' ls' (zoomP z o x) lim = .ok ⟨y.phi, zoomG z y.psi⟩ := by
  have M := make_made h e
  obtain ⟨y, k⟩ := interp_ok hs M h hpos hX P hx lim
  exact ⟨y, k, interp_zoom hs hz h hpos M (make_made (zoom_valid h) e') hX hX' P P' T hx (fun a _ => zoom_get z o x a) k⟩

/-- C119, the differences of both schemes, in exact arithmetic. -/
theorem C119_gradient (sch : GradScheme) (s : IntSem) (d : ℕ) (z o : Vec3 K) (r : Req K) (h : r.Valid d)
    (hp : 2 ≤ r.pad ∨ sch = .central ∧ 1 ≤ r.pad) (g g' : Grid K d) (e : r.make s d = .ok g)
    (e' : (r.zoom z o).make s d = .ok g') (al al' : Arr K) (f f' : Cell → K) (hf : FieldIs s r g al f) (hf' : FieldIs s (r.zoom z o) g' al' f')
    (T : ∀ c, r.Padded d c → f' c = f c) (gr gr' : Arr (Vec3 K)) (q q' : Cell → Vec3 K) (hq : FieldIs s r g gr q)
    (hq' : FieldIs s (r.zoom z o) g' gr' q') (Q : ∀ c, r.Padded d c → q' c = zoomG z (q c)) :
    ∃ y y', gradScalar sch s g g al gr = .ok y ∧ gradScalar sch s g' g' al' gr' = .ok y' ∧ ∀ c, r.Padded d c →
      ∃ v, y.get s g c.1 c.2.1 c.2.2 = .ok v ∧ y'.get s g' c.1 c.2.1 c.2.2 = .ok (zoomG z v) := by
  have M := make_made h e
  have M' := make_made (zoom_valid h) e'
  have hr : reach sch ≤ r.pad := by
    rcases hp with hp | ⟨rfl, hp⟩
    · cases sch <;> simp only [reach] <;> omega
    · exact hp
  obtain ⟨y, p, k, fp, out, i⟩ := gradScalar_ok (sch := sch) M M rfl hr hf hq
  obtain ⟨y', p', k', fp', out', i'⟩ := gradScalar_ok (sch := sch) M' M' rfl hr hf' hq'
  refine ⟨y, y', k, k', fun c hc => ⟨_, fp.val c hc, ?_⟩⟩
  have : p' c = zoomG z (p c) := by
    by_cases ic : r.Interior c
    · exact vec_ext fun a => zoom_diff M hr ic T (Q c hc) (i' c ic a) (i c ic a)
    · rw [out c ic, out' c ic, Q c hc]
  rw [← this]
  exact fp'.val c hc

/-- C119, time steps in exact arithmetic: the fluid moves less than a cell per step.  Level set, velocity and velocity gradient are given a second
time in the other coordinates: any number of steps returns in both, with the same values and with the gradients in the other units.  This holds with
the gradient carried along, and with the gradient recomputed in every step as the application does it (two layers of padding). -/
theorem C119_steps (s : IntSem) (d : ℕ) (hs : d < 3 → s = .wrap) (z o : Vec3 K) (hz : ∀ a, 0 < z.get a) (r : Req K) (h : r.Valid d)
    (hpos : r.Pos d) (hp : 1 ≤ r.pad) (g g' : Grid K d) (e : r.make s d = .ok g) (e' : (r.zoom z o).make s d = .ok g')
    (rv : Req K) (hv : rv.Valid d) (hn : rv.n = r.n) (gv gv' : Grid K d) (ev : rv.make s d = .ok gv)
    (dt : K) (vel vel' : LsVelocity K) (u u' : Cell → Vec3 K) (m m' : Cell → Mat3 K)
    (hu : FieldIs s rv gv vel.velocity u) (hg : FieldIs s rv gv vel.grad m)
    (hu' : FieldIs s (rv.zoom z o) gv' vel'.velocity u') (hg' : FieldIs s (rv.zoom z o) gv' vel'.grad m')
    (tu : ∀ c, r.Interior c → u' c = zoomU z (u c)) (tm : ∀ c, r.Interior c → m' c = zoomM z (m c))
    (hcfl : ∀ c, r.Interior c → ∀ a : Fin 3, a.val < d → |(u c).get a * dt| < r.h a) (ls ls' : Levelset K)
    (F F' : Cell → K) (G G' : Cell → Vec3 K) (X X' : Cell → List K) (hX : ∀ c, (X c).length = numMixed d)
    (hX' : ∀ c, (X' c).length = numMixed d) (S : Stored s r g ls F G X) (S' : Stored s (r.zoom z o) g' ls' F' G' X')
    (T : Zoomed z d r F F' G G' X X') (k : ℕ) :
    (∃ l l', carrySteps s g gv dt vel k ls = .ok l ∧ carrySteps s g' gv' dt vel' k ls' = .ok l' ∧ SameZoomed s d z r g g' l l') ∧
    (2 ≤ r.pad → ∃ l l', recomputeSteps s g gv dt vel k ls = .ok l ∧ recomputeSteps s g' gv' dt vel' k ls' = .ok l' ∧
      SameZoomed s d z r g g' l l') := by
  have M := make_made h e
  have M' := make_made (zoom_valid h) e'
  have Mv := make_made hv ev
  have hi : ∀ c, r.Interior c → rv.Padded d c := fun c hc => interior_padded Mv (by unfold Req.Interior; rw [hn]; exact hc)
  have k1 := fun c hc => hu.val c (hi c hc)
  have k2 := fun c hc => hg.val c (hi c hc)
  have k3 : ∀ c, r.Interior c → vel'.velocity.get s gv' c.1 c.2.1 c.2.2 = .ok (zoomU z (u c)) := fun c hc => by
    rw [← tu c hc]
    exact hu'.val c (hi c hc)
  have k4 : ∀ c, r.Interior c → vel'.grad.get s gv' c.1 c.2.1 c.2.2 = .ok (zoomM z (m c)) := fun c hc => by
    rw [← tm c hc]
    exact hg'.val c (hi c hc)
  have fin : ∀ {l l' : Levelset K} {A A' : Cell → K} {B B' : Cell → Vec3 K}, Stored s r g l A B X → Stored s (r.zoom z o) g' l' A' B' X' →
      Zoomed z d r A A' B B' X X' → SameZoomed s d z r g g' l l' := fun R R' T c hc =>
    ⟨_, _, R.phi.val c hc, R.psi.val c hc, by rw [← T.phi c hc]; exact R'.phi.val c hc, by rw [← T.psi c hc]; exact R'.psi.val c hc⟩
  constructor
  · have all : ∃ l l' A A' B B', carrySteps s g gv dt vel k ls = .ok l ∧ carrySteps s g' gv' dt vel' k ls' = .ok l' ∧ Stored s r g l A B X ∧
        Stored s (r.zoom z o) g' l' A' B' X' ∧ Zoomed z d r A A' B B' X X' := by
      induction k with
      | zero => exact ⟨ls, ls', F, F', G, G', rfl, rfl, S, S', T⟩
      | succ k ih =>
        obtain ⟨l, l', A, A', B, B', q, q', R, R', T⟩ := ih
        unfold carrySteps
        rw [q, q', _root_.Gals.M.ok_bind, _root_.Gals.M.ok_bind]
        exact carry_zoom hs hz h hpos hp M M' k1 k2 k3 k4 hcfl hX hX' R R' T
    obtain ⟨l, l', A, A', B, B', q, q', R, R', T⟩ := all
    exact ⟨l, l', q, q', fin R R' T⟩
  · intro hp2
    have all : ∃ l l' A A' B B', recomputeSteps s g gv dt vel k ls = .ok l ∧ recomputeSteps s g' gv' dt vel' k ls' = .ok l' ∧
        Stored s r g l A B X ∧ Stored s (r.zoom z o) g' l' A' B' X' ∧ Zoomed z d r A A' B B' X X' := by
      induction k with
      | zero => exact ⟨ls, ls', F, F', G, G', rfl, rfl, S, S', T⟩
      | succ k ih =>
        obtain ⟨l, l', A, A', B, B', q, q', R, R', T⟩ := ih
        unfold recomputeSteps
        rw [q, q', _root_.Gals.M.ok_bind, _root_.Gals.M.ok_bind]
        exact recompute_zoom hs hz h hpos hp M M' k1 k2 k3 k4 hcfl hp2 hX hX' R R' T
    obtain ⟨l, l', A, A', B, B', q, q', R, R', T⟩ := all
    exact ⟨l, l', q, q', fin R R' T⟩

end exact

theorem zoomed_self {d : ℕ} (z : Vec3 ℚ) (r : Req ℚ) (F : Cell → ℚ) (G : Cell → Vec3 ℚ) (X : Cell → List ℚ) :
    Zoomed z d r F F G (fun c => zoomG z (G c)) X (fun c => zoomX z (X c)) := ⟨fun _ _ => rfl, fun _ _ => rfl, fun _ _ => rfl⟩

/-- Other units along all axes. -/
def lens : Vec3 ℚ := ⟨1000, 1 / 2, 3⟩

@[inherit_doc lens] def lensO : Vec3 ℚ := ⟨-5, 7, 0⟩

theorem lens_pos (a : Fin 3) : 0 < lens.get a := by
  match a with
  | 0 | 1 | 2 => norm_num [lens, Vec3.get]

/-- Instance of `C119_interpolation`: the data of `C117_interpolation_inst`, with the limiter. -/
theorem C119_interpolation_inst : ∃ (g g' : Grid ℚ 3) (ls ls' : Levelset ℚ) (y : Interp ℚ), (box 1).make .strict 3 = .ok g ∧
    ((box 1).zoom lens lensO).make .strict 3 = .ok g' ∧ interpolate .strict g ls ⟨1 / 4, 1, 5 / 2⟩ true = .ok y ∧
    interpolate .strict g' ls' ⟨245, 15 / 2, 15 / 2⟩ true = .ok ⟨y.phi, ⟨y.psi.x / 1000, y.psi.y / (1 / 2), y.psi.z / 3⟩⟩ := by
  obtain ⟨g, e, M⟩ := make_ok .strict box_valid
  obtain ⟨g', e', M'⟩ := make_ok .strict (zoom_valid (z := lens) (o := lensO) box_valid)
  obtain ⟨ls, P⟩ := prevIs_exists M skewF skewG skewX
  obtain ⟨ls', P'⟩ := prevIs_exists M' skewF (fun c => zoomG lens (skewG c)) (fun c => zoomX lens (skewX c))
  obtain ⟨y, k, k'⟩ := C119_interpolation .strict 3 (by decide) lens lensO lens_pos (box 1) box_valid (box_pos 1) g g' e e' ls ls' _ _ _ _ _ _
    (fun _ => rfl) (fun _ => rfl) P P' (zoomed_self lens (box 1) skewF skewG skewX) ⟨1 / 4, 1, 5 / 2⟩
    (inStorage_of_box box_valid (box_pos 1) (by decide) fun a _ => by
      match a with
      | 0 => norm_num [Vec3.get, box]
      | 1 => norm_num [Vec3.get, box]
      | 2 => norm_num [Vec3.get, box]) true
  have p : zoomP lens lensO ⟨1 / 4, 1, 5 / 2⟩ = ⟨245, 15 / 2, 15 / 2⟩ := by
    simp only [zoomP, lens, lensO, Vec3.mk.injEq]
    norm_num
  rw [p] at k'
  exact ⟨g, g', ls, ls', y, e, e', k, k'⟩

/-- Instance of `C119_steps`: the flow `(y, 0)` on the grid `demo 2`, and `(1000 y, 0)` in the other units. -/
theorem C119_steps_inst : ∃ (g g' : Grid ℚ 2) (vel vel' : LsVelocity ℚ) (ls ls' l l' : Levelset ℚ), (demo 2).make .wrap 2 = .ok g ∧
    ((demo 2).zoom lens lensO).make .wrap 2 = .ok g' ∧ vel.velocity.get .wrap g 1 2 0 = .ok ⟨2, 0, 0⟩ ∧
    vel'.velocity.get .wrap g' 1 2 0 = .ok ⟨2000, 0, 0⟩ ∧
    recomputeSteps .wrap g g (1 / 10) vel 3 ls = .ok l ∧ recomputeSteps .wrap g' g' (1 / 10) vel' 3 ls' = .ok l' ∧
    l.phi.get .wrap g 1 2 0 = l'.phi.get .wrap g' 1 2 0 := by
  obtain ⟨g, e, M⟩ := make_ok .wrap demo2_valid
  obtain ⟨g', e', M'⟩ := make_ok .wrap (zoom_valid (z := lens) (o := lensO) demo2_valid)
  obtain ⟨va, h1⟩ := fieldIs_exists (s := .wrap) M fun c => (⟨c.2.1, 0, 0⟩ : Vec3 ℚ)
  obtain ⟨vb, h2⟩ := fieldIs_exists (s := .wrap) M fun _ => (Mat3.mk9 0 1 0 0 0 0 0 0 0 : Mat3 ℚ)
  obtain ⟨va', h1'⟩ := fieldIs_exists (s := .wrap) M' fun c => zoomU lens (⟨c.2.1, 0, 0⟩ : Vec3 ℚ)
  obtain ⟨vb', h2'⟩ := fieldIs_exists (s := .wrap) M' fun _ => zoomM lens (Mat3.mk9 0 1 0 0 0 0 0 0 0 : Mat3 ℚ)
  have T := zoomed_self (d := 2) lens (demo 2) skewF skewG (fun c => [(c.1 : ℚ)])
  obtain ⟨a, ha⟩ := fieldIs_exists (s := .wrap) M skewF
  obtain ⟨b, hb⟩ := fieldIs_exists (s := .wrap) M skewG
  obtain ⟨x, hx⟩ := fieldIs_exists (s := .wrap) M fun c => [(c.1 : ℚ)]
  obtain ⟨a', ha'⟩ := fieldIs_exists (s := .wrap) M' skewF
  obtain ⟨b', hb'⟩ := fieldIs_exists (s := .wrap) M' fun c => zoomG lens (skewG c)
  obtain ⟨x', hx'⟩ := fieldIs_exists (s := .wrap) M' fun c => zoomX lens [(c.1 : ℚ)]
  have S : Stored .wrap (demo 2) g ⟨a, b, x, a, b, x, a, b⟩ skewF skewG (fun c => [(c.1 : ℚ)]) :=
    ⟨ha, hb, ⟨_, ha⟩, ⟨_, hb⟩, ⟨_, ha⟩, ⟨_, hb⟩, hx⟩
  have S' : Stored .wrap ((demo 2).zoom lens lensO) g' ⟨a', b', x', a', b', x', a', b'⟩ _ _ _ :=
    ⟨ha', hb', ⟨_, ha'⟩, ⟨_, hb'⟩, ⟨_, ha'⟩, ⟨_, hb'⟩, hx'⟩
  have p0 : (demo 2).Padded 2 (1, 2, 0) := by unfold Req.Padded PaddedCell padAlong demo; simp
  obtain ⟨-, N⟩ := C119_steps .wrap 2 (fun _ => rfl) lens lensO lens_pos (demo 2) demo2_valid (demo_pos 2) (by decide) g g' e e' (demo 2) demo2_valid rfl
    g g' e (1 / 10) ⟨va, vb⟩ ⟨va', vb'⟩ _ _ _ _ h1 h2 h1' h2' (fun c _ => rfl) (fun c _ => rfl) (fun c hc a ha => by
      have c1 := comp_interior hc 1
      match a with
      | 0 =>
        have : ((c.2.1 : ℤ) : ℚ) ≤ 2 := by exact_mod_cast (show c.2.1 ≤ 2 from by have : c.2.1 < 3 := c1.2; omega)
        have : (0 : ℚ) ≤ ((c.2.1 : ℤ) : ℚ) := by exact_mod_cast (show (0 : ℤ) ≤ c.2.1 from c1.1)
        change |((c.2.1 : ℤ) : ℚ) * (1 / 10)| < (2 - 0) / ((4 : ℤ) : ℚ)
        rw [abs_of_nonneg (by positivity)]
        norm_num
        linarith
      | 1 =>
        change |(0 : ℚ) * (1 / 10)| < (3 - 0) / ((3 : ℤ) : ℚ)
        norm_num
      | 2 => exact absurd ha (by decide)) _ _ _ _ _ _ _ _ (fun _ => rfl) (fun _ => rfl) S S' T 3
  obtain ⟨l, l', q1, q2, q3⟩ := N (by decide)
  obtain ⟨f, p, w1, -, w2, -⟩ := q3 (1, 2, 0) p0
  have v := h1'.val (1, 2, 0) p0
  have v2 : zoomU lens (⟨((2 : ℤ) : ℚ), 0, 0⟩ : Vec3 ℚ) = ⟨2000, 0, 0⟩ := by
    simp only [zoomU, lens, Vec3.mk.injEq]
    norm_num
  simp only [v2] at v
  exact ⟨g, g', ⟨va, vb⟩, ⟨va', vb'⟩, _, _, l, l', e, e', h1.val (1, 2, 0) p0, v, q1, q2, w1.trans w2.symm⟩

/-- Instance of `C119_gradient`: both schemes, values the squares. -/
theorem C119_gradient_inst (sch : GradScheme) : ∃ (g g' : Grid ℚ 1) (al al' : Arr ℚ) (gr gr' y y' : Arr (Vec3 ℚ)) (v : Vec3 ℚ),
    (line 2).make .wrap 1 = .ok g ∧ ((line 2).zoom lens lensO).make .wrap 1 = .ok g' ∧
    FieldIs .wrap (line 2) g al (fun c => (c.1 : ℚ) * c.1) ∧ FieldIs .wrap ((line 2).zoom lens lensO) g' al' (fun c => (c.1 : ℚ) * c.1) ∧
    gradScalar sch .wrap g g al gr = .ok y ∧ gradScalar sch .wrap g' g' al' gr' = .ok y' ∧
    y.get .wrap g 1 0 0 = .ok v ∧ y'.get .wrap g' 1 0 0 = .ok ⟨v.x / 1000, v.y / (1 / 2), v.z / 3⟩ := by
  obtain ⟨g, e, M⟩ := make_ok .wrap line2_valid
  obtain ⟨g', e', M'⟩ := make_ok .wrap (zoom_valid (z := lens) (o := lensO) line2_valid)
  obtain ⟨al, hf⟩ := fieldIs_exists (s := .wrap) M fun c => (c.1 : ℚ) * c.1
  obtain ⟨al', hf'⟩ := fieldIs_exists (s := .wrap) M' fun c => (c.1 : ℚ) * c.1
  obtain ⟨gr, hq⟩ := fieldIs_exists (s := .wrap) M fun _ => (⟨3, 4, 5⟩ : Vec3 ℚ)
  obtain ⟨gr', hq'⟩ := fieldIs_exists (s := .wrap) M' fun _ => zoomG lens (⟨3, 4, 5⟩ : Vec3 ℚ)
  have p0 : (line 2).Padded 1 (1, 0, 0) := by unfold Req.Padded PaddedCell padAlong line; simp
  obtain ⟨y, y', k, k', q⟩ := C119_gradient sch .wrap 1 lens lensO (line 2) line2_valid (.inl (by decide)) g g' e e' al al' _ _ hf hf'
    (fun _ _ => rfl) gr gr' _ _ hq hq' (fun _ _ => rfl)
  obtain ⟨v, q1, q2⟩ := q (1, 0, 0) p0
  exact ⟨g, g', al, al', gr, gr', y, y', v, e, e', hf, hf', k, k', q1, q2⟩

/-! ## Doubles -/

/-- What the interpolation returns in doubles on the square for a level set and for the same moved along `x`; coordinates, box and point are moved
without rounding. -/
def movedWays (o : F64) : M (F64 × F64) := do
  let g ← sqrD.make .wrap 2
  let g' ← (sqrD.zoom ⟨1, 1, 1⟩ ⟨o, 0, 0⟩).make .wrap 2
  let y ← interpolate .wrap g (sqrLs g (fun i _ => (i : F64)) fun _ _ => ⟨1, 0, 0⟩) ⟨1, 1, 0⟩ false
  let y' ← interpolate .wrap g' (sqrLs g' (fun i _ => (i : F64)) fun _ _ => ⟨1, 0, 0⟩) (zoomP ⟨1, 1, 1⟩ ⟨o, 0, 0⟩ ⟨1, 1, 0⟩) false
  return (y.phi, y'.phi)

/-- C119 is false in doubles: the square of two by two cells of width 1, moved by `2 ^ 52`, has its box and the point in the middle at doubles, but
its nodes, halfway between, are rounded; the function `x - 1 / 2` interpolated in the middle is 1/2, and 1 after the move.  Moved by `2 ^ 50` it is
1/2. -/
theorem C119_double_false :
    (sqrD.zoom ⟨1, 1, 1⟩ ⟨F64.round false (2 ^ 52), 0, 0⟩).lo.x = F64.round false (2 ^ 52) ∧
    (sqrD.zoom ⟨1, 1, 1⟩ ⟨F64.round false (2 ^ 52), 0, 0⟩).hi.x = F64.round false (2 ^ 52 + 2) ∧
    movedWays (F64.round false (2 ^ 52)) = .ok (F64.round false (1 / 2), F64.round false 1) ∧
    movedWays (F64.round false (2 ^ 50)) = .ok (F64.round false (1 / 2), F64.round false (1 / 2)) :=
  ⟨by decide +kernel, by decide +kernel, by decide +kernel, by decide +kernel⟩

end Gals.Props
