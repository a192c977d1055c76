import Verif.Lemmas.Mirror
import Verif.Props.Axes

/-!
# C118: left and right are treated alike
-/

namespace Gals.Props

open Gals Gals.Spec

section exact
variable {K : Type} [Field K] [LinearOrder K] [IsStrictOrderedRing K] [FloorRing K]

/-- C118, interpolation without the limiter, in exact arithmetic, one layer of padding.  The second level set, on the second grid, is the
first in a mirror across the `x` axis: then so is what the interpolation returns, at every point between the stored nodes, nodes included.
(For the other axes by `C117_interpolation`.) -/
theorem C118_interpolation (s : IntSem) (d : ℕ) (hs : d < 3 → s = .wrap) (r : Req K) (h : r.Valid d) (hpos : r.Pos d) (hp : r.pad = 1)
    (g g' : Grid K d) (e : r.make s d = .ok g) (e' : r.flip.make s d = .ok g') (ls ls' : Levelset K)
    (F F' : Cell → K) (G G' : Cell → Vec3 K) (X X' : Cell → List K) (hX : ∀ c, (X c).length = numMixed d)
    (hX' : ∀ c, (X' c).length = numMixed d) (P : PrevIs s r g ls F G X) (P' : PrevIs s r.flip g' ls' F' G' X')
    (T : Flipped d r F F' G G' X X') (x : Vec3 K) (hx : InStorage r d x) (hx1 : r.centre 0 (-1) < x.x) :
    ∃ o, interpolate s g ls x false = .ok o ∧ interpolate s g' ls' (flipV x) false = .ok ⟨o.phi, flipV o.psi⟩ := by
  have M := make_made h e
  obtain ⟨o, k⟩ := interp_ok hs M h hpos hX P hx false
  exact ⟨o, k, interp_flip hs h hpos hp M (make_made (flip_valid h) e') hX hX' P P' T hx (by unfold After; rw [hp]; exact hx1) k⟩

/-- C118, time steps with the gradient carried along, in exact arithmetic: the fluid moves less than a cell per step.  Level set, velocity and
velocity gradient are given a second time in the mirror: any number of steps returns in both, and the results are mirror images. -/
theorem C118_steps (s : IntSem) (d : ℕ) (hs : d < 3 → s = .wrap) (r : Req K) (h : r.Valid d) (hpos : r.Pos d) (hp : r.pad = 1)
    (g g' : Grid K d) (e : r.make s d = .ok g) (e' : r.flip.make s d = .ok g')
    (rv : Req K) (hv : rv.Valid d) (hn : rv.n = r.n) (gv gv' : Grid K d) (ev : rv.make s d = .ok gv)
    (dt : K) (vel vel' : LsVelocity K) (u u' : Cell → Vec3 K) (m m' : Cell → Mat3 K)
    (hu : FieldIs s rv gv vel.velocity u) (hg : FieldIs s rv gv vel.grad m)
    (hu' : FieldIs s rv.flip gv' vel'.velocity u') (hg' : FieldIs s rv.flip gv' vel'.grad m')
    (tu : ∀ c, r.Interior c → u' (flipC r.n.x c) = flipV (u c)) (tm : ∀ c, r.Interior c → m' (flipC r.n.x c) = flipM (m c))
    (hcfl : ∀ c, r.Interior c → ∀ a : Fin 3, a.val < d → |(u c).get a * dt| < r.h a) (ls ls' : Levelset K)
    (F F' : Cell → K) (G G' : Cell → Vec3 K) (X X' : Cell → List K) (hX : ∀ c, (X c).length = numMixed d)
    (hX' : ∀ c, (X' c).length = numMixed d) (S : Stored s r g ls F G X) (S' : Stored s r.flip g' ls' F' G' X')
    (T : Flipped d r F F' G G' X X') (k : ℕ) :
    ∃ l l', carrySteps s g gv dt vel k ls = .ok l ∧ carrySteps s g' gv' dt vel' k ls' = .ok l' ∧ SameFlipped s d r g g' l l' := by
  have M := make_made h e
  have M' := make_made (flip_valid h) e'
  have Mv := make_made hv ev
  have hi : ∀ c, r.Interior c → rv.Padded d c := fun c hc => interior_padded Mv (by unfold Req.Interior; rw [hn]; exact hc)
  have all : ∃ l l' A A' B B', carrySteps s g gv dt vel k ls = .ok l ∧ carrySteps s g' gv' dt vel' k ls' = .ok l' ∧ Stored s r g l A B X ∧
      Stored s r.flip g' l' A' B' X' ∧ Flipped d r A A' B B' X X' := by
    induction k with
    | zero => exact ⟨ls, ls', F, F', G, G', rfl, rfl, S, S', T⟩
    | succ k ih =>
      obtain ⟨l, l', A, A', B, B', q, q', R, R', T⟩ := ih
      unfold carrySteps
      rw [q, q', _root_.Gals.M.ok_bind, _root_.Gals.M.ok_bind]
      exact carry_flip hs h hpos hp M M' (fun c hc => hu.val c (hi c hc)) (fun c hc => hg.val c (hi c hc)) (fun c hc => hu'.val c (hi c hc))
        (fun c hc => hg'.val c (hi c hc)) tu tm hcfl hX hX' R R' T
  obtain ⟨l, l', A, A', B, B', q, q', R, R', T⟩ := all
  exact ⟨l, l', q, q', fun c hc => ⟨_, _, R.phi.val c hc, R.psi.val c hc,
    by rw [← T.phi c hc]; exact R'.phi.val (flipC r.n.x c) (flip_padded.2 hc), by rw [← T.psi c hc]; exact R'.psi.val (flipC r.n.x c) (flip_padded.2 hc)⟩⟩

/-- C118, interpolation with the limiter on a line, in exact arithmetic, at every point that is not a node. -/
theorem C118_limited_line (r : Req K) (h : r.Valid 1) (hpos : r.Pos 1) (hp : r.pad = 1)
    (g g' : Grid K 1) (e : r.make .wrap 1 = .ok g) (e' : r.flip.make .wrap 1 = .ok g') (ls ls' : Levelset K)
    (F F' : Cell → K) (G G' : Cell → Vec3 K) (X X' : Cell → List K) (P : PrevIs .wrap r g ls F G X) (P' : PrevIs .wrap r.flip g' ls' F' G' X')
    (T : Flipped 1 r F F' G G' X X') (x : Vec3 K) (hx : InStorage r 1 x) (hx1 : ∀ i : ℤ, x.x ≠ r.centre 0 i) :
    ∃ o, interpolate .wrap g ls x true = .ok o ∧ interpolate .wrap g' ls' (flipV x) true = .ok ⟨o.phi, flipV o.psi⟩ := by
  have M := make_made h e
  have M' := make_made (flip_valid h) e'
  have ha : After r x := lt_of_le_of_ne (hx 0 (by decide)).1 (hx1 _).symm
  obtain ⟨b, H, i⟩ := interp1_eval M h hpos P hx true
  obtain ⟨b', H', i'⟩ := interp1_eval M' (flip_valid h) (flip_pos hpos) P' (flip_inStorage h hx ha) true
  obtain rfl := H'.unique (flip_valid h) (flip_pos hpos) ((flip_baseCell h hpos ha H).1 (lt_of_le_of_ne (H.lo 0 (by decide)) (hx1 _).symm))
  have s0 := H.stencil h 0 0 0 (by simp) (by simp) (by simp)
  have s1 := H.stencil h 1 0 0 (by simp) (by simp) (by simp)
  simp only [add_zero] at s0 s1
  refine ⟨_, i, ?_⟩
  have back : (flipC r.n.x (b.1 + 1, b.2.1, b.2.2)).1 + 1 = (flipC r.n.x b).1 := by
    change r.n.x - 1 - (b.1 + 1) + 1 = r.n.x - 1 - b.1
    ring
  rw [i', flip_h, flip_nodePos h hp, back]
  have node0 : ∀ b : Cell, (nodePos r 1 b).x = r.centre 0 b.1 := fun b => by
    change (nodePos r 1 b).get 0 = _
    rw [nodePos_get, if_pos (by decide)]
    congr 1
    change b.1 + (r.pad - 1) = b.1
    omega
  have hh := h.h_pos hpos 0 (by decide)
  have one : (1 : K) / r.h 0 * r.h 0 = 1 := by field_simp
  have eta : ((flipV x).x - (flipV (nodePos r 1 (b.1 + 1, b.2.1, b.2.2))).x) * (1 / r.h 0) = 1 - (x.x - (nodePos r 1 b).x) * (1 / r.h 0) := by
    change (-x.x - -(nodePos r 1 (b.1 + 1, b.2.1, b.2.2)).x) * (1 / r.h 0) = _
    rw [node0, node0]
    have up : r.centre 0 (b.1 + 1) = r.centre 0 b.1 + r.h 0 := by unfold Req.centre; push_cast; ring
    change (-x.x - -r.centre 0 (b.1 + 1)) * (1 / r.h 0) = _
    rw [up]
    linear_combination one
  rw [eta]
  change Except.ok (kernel1 _ _ _ ⟨F' (flipC r.n.x (b.1 + 1, b.2.1, b.2.2)), G' (flipC r.n.x (b.1 + 1, b.2.1, b.2.2))⟩
    ⟨F' (flipC r.n.x b), G' (flipC r.n.x b)⟩ true) = _
  rw [T.phi _ s0, T.phi _ s1, T.psi _ s0, T.psi _ s1]
  refine congrArg Except.ok ?_
  unfold kernel1
  simp only [flipV]
  rw [controls_flip]
  simp only [B0, B1, B2, B3, B0', B1', B2', B3', _root_.Gals.sqr, _root_.Gals.cube]
  congr 1
  · ring
  · congr 1; ring

/-- C118, central differences, in exact arithmetic. -/
theorem C118_central (s : IntSem) (d : ℕ) (r : Req K) (h : r.Valid d) (hp : 1 ≤ r.pad) (g g' : Grid K d) (e : r.make s d = .ok g)
    (e' : r.flip.make s d = .ok g') (al al' : Arr K) (f f' : Cell → K) (hf : FieldIs s r g al f) (hf' : FieldIs s r.flip g' al' f')
    (T : ∀ c, r.Padded d c → f' (flipC r.n.x c) = f c) (gr gr' : Arr (Vec3 K)) (q q' : Cell → Vec3 K) (hq : FieldIs s r g gr q)
    (hq' : FieldIs s r.flip g' gr' q') :
    ∃ y y', gradScalar .central s g g al gr = .ok y ∧ gradScalar .central s g' g' al' gr' = .ok y' ∧ ∀ c, r.Interior c →
      ∃ v v', y.get s g c.1 c.2.1 c.2.2 = .ok v ∧ y'.get s g' (flipC r.n.x c).1 (flipC r.n.x c).2.1 (flipC r.n.x c).2.2 = .ok v' ∧
        ∀ a : Fin 3, a.val < d → v'.get a = (flipV v).get a := by
  have M := make_made h e
  have M' := make_made (flip_valid h) e'
  obtain ⟨y, p, k, fp, -, i⟩ := gradScalar_ok (sch := .central) M M rfl hp hf hq
  obtain ⟨y', p', k', fp', -, i'⟩ := gradScalar_ok (sch := .central) M' M' rfl hp hf' hq'
  refine ⟨y, y', k, k', fun c hc => ⟨_, _, fp.val c (interior_padded M hc), fp'.val (flipC r.n.x c) (interior_padded M' (flip_interior.2 hc)), fun a ha => ?_⟩⟩
  have g0 : ∀ v : Vec3 K, (flipV v).get a = if a = 0 then -v.get a else v.get a := fun v => by
    match a with
    | 0 => rfl
    | 1 => rfl
    | 2 => rfl
  rw [g0, i' _ (flip_interior.2 hc) a, i c hc a, if_pos ha, if_pos ha, flip_h]
  have up := T _ (shift_padded M hc ha (m := 1) (by omega) (by omega))
  have dn := T _ (shift_padded M hc ha (m := -1) (by omega) (by omega))
  match a with
  | 0 =>
    have e1 : shift (flipC r.n.x c) 0 1 = flipC r.n.x (shift c 0 (-1)) := Prod.ext (by change r.n.x - 1 - c.1 + 1 = r.n.x - 1 - (c.1 + -1); ring) rfl
    have e2 : shift (flipC r.n.x c) 0 (-1) = flipC r.n.x (shift c 0 1) := Prod.ext (by change r.n.x - 1 - c.1 + -1 = r.n.x - 1 - (c.1 + 1); ring) rfl
    rw [if_pos rfl]
    simp only [rawDiff, centralRaw]
    rw [e1, e2, up, dn]
    ring
  | 1 =>
    rw [if_neg (by decide)]
    simp only [rawDiff, centralRaw]
    rw [show shift (flipC r.n.x c) 1 1 = flipC r.n.x (shift c 1 1) from rfl, show shift (flipC r.n.x c) 1 (-1) = flipC r.n.x (shift c 1 (-1)) from rfl, up, dn]
  | 2 =>
    rw [if_neg (by decide)]
    simp only [rawDiff, centralRaw]
    rw [show shift (flipC r.n.x c) 2 1 = flipC r.n.x (shift c 2 1) from rfl, show shift (flipC r.n.x c) 2 (-1) = flipC r.n.x (shift c 2 (-1)) from rfl, up, dn]

end exact

theorem flipped_back {d : ℕ} {K : Type} [Neg K] (r : Req K) (F : Cell → K) (G : Cell → Vec3 K) (X : Cell → List K) :
    Flipped d r F (fun c => F (flipC r.n.x c)) G (fun c => flipV (G (flipC r.n.x c))) X (fun c => flipMix (X (flipC r.n.x c))) := by
  have inv : ∀ c, flipC r.n.x (flipC r.n.x c) = c := fun c =>
    Prod.ext (by change r.n.x - 1 - (r.n.x - 1 - c.1) = c.1; ring) rfl
  exact ⟨fun c _ => by simp only [inv], fun c _ => by simp only [inv], fun c _ => by simp only [inv]⟩

/-- Instance of `C118_interpolation`: the data of `C117_interpolation_inst`, on a node. -/
theorem C118_interpolation_inst : ∃ (g g' : Grid ℚ 3) (ls ls' : Levelset ℚ) (o : Interp ℚ), (box 1).make .strict 3 = .ok g ∧
    (box 1).flip.make .strict 3 = .ok g' ∧ interpolate .strict g ls ⟨1 / 4, 1, 5 / 2⟩ false = .ok o ∧
    interpolate .strict g' ls' ⟨-(1 / 4), 1, 5 / 2⟩ false = .ok ⟨o.phi, ⟨-o.psi.x, o.psi.y, o.psi.z⟩⟩ := by
  obtain ⟨g, e, M⟩ := make_ok .strict box_valid
  obtain ⟨g', e', M'⟩ := make_ok .strict (flip_valid box_valid)
  obtain ⟨ls, P⟩ := prevIs_exists M skewF skewG skewX
  obtain ⟨ls', P'⟩ := prevIs_exists M' (fun c => skewF (flipC (box 1).n.x c)) (fun c => flipV (skewG (flipC (box 1).n.x c)))
    (fun c => flipMix (skewX (flipC (box 1).n.x c)))
  obtain ⟨o, k, k'⟩ := C118_interpolation .strict 3 (by decide) (box 1) box_valid (box_pos 1) rfl g g' e e' ls ls' _ _ _ _ _ _
    (fun _ => rfl) (fun _ => rfl) P P' (flipped_back (box 1) skewF skewG skewX) ⟨1 / 4, 1, 5 / 2⟩
    (inStorage_of_box box_valid (box_pos 1) (by decide) fun a _ => by
      match a with
      | 0 => norm_num [Vec3.get, box]
      | 1 => norm_num [Vec3.get, box]
      | 2 => norm_num [Vec3.get, box]) (by norm_num [Req.centre, Req.h, Vec3.get, box])
  exact ⟨g, g', ls, ls', o, e, e', k, k'⟩

/-- Instance of `C118_steps`: the flow `(y, 0)` on the grid `demo 1`, and `(-y, 0)` in the mirror. -/
theorem C118_steps_inst : ∃ (g g' : Grid ℚ 2) (vel vel' : LsVelocity ℚ) (ls ls' l l' : Levelset ℚ), (demo 1).make .wrap 2 = .ok g ∧
    (demo 1).flip.make .wrap 2 = .ok g' ∧ vel.velocity.get .wrap g 1 2 0 = .ok ⟨2, 0, 0⟩ ∧
    vel'.velocity.get .wrap g' 2 2 0 = .ok ⟨-2, 0, 0⟩ ∧
    carrySteps .wrap g g (1 / 10) vel 3 ls = .ok l ∧ carrySteps .wrap g' g' (1 / 10) vel' 3 ls' = .ok l' ∧
    l.phi.get .wrap g 1 2 0 = l'.phi.get .wrap g' 2 2 0 := by
  obtain ⟨g, e, M⟩ := make_ok .wrap demo_valid
  obtain ⟨g', e', M'⟩ := make_ok .wrap (flip_valid demo_valid)
  obtain ⟨va, h1⟩ := fieldIs_exists (s := .wrap) M fun c => (⟨c.2.1, 0, 0⟩ : Vec3 ℚ)
  obtain ⟨vb, h2⟩ := fieldIs_exists (s := .wrap) M fun _ => (Mat3.mk9 0 1 0 0 0 0 0 0 0 : Mat3 ℚ)
  obtain ⟨va', h1'⟩ := fieldIs_exists (s := .wrap) M' fun c => flipV (⟨c.2.1, 0, 0⟩ : Vec3 ℚ)
  obtain ⟨vb', h2'⟩ := fieldIs_exists (s := .wrap) M' fun _ => flipM (Mat3.mk9 0 1 0 0 0 0 0 0 0 : Mat3 ℚ)
  have T := flipped_back (d := 2) (demo 1) skewF skewG (fun c => [(c.1 : ℚ)])
  obtain ⟨a, ha⟩ := fieldIs_exists (s := .wrap) M skewF
  obtain ⟨b, hb⟩ := fieldIs_exists (s := .wrap) M skewG
  obtain ⟨x, hx⟩ := fieldIs_exists (s := .wrap) M fun c => [(c.1 : ℚ)]
  obtain ⟨a', ha'⟩ := fieldIs_exists (s := .wrap) M' fun c => skewF (flipC (demo 1).n.x c)
  obtain ⟨b', hb'⟩ := fieldIs_exists (s := .wrap) M' fun c => flipV (skewG (flipC (demo 1).n.x c))
  obtain ⟨x', hx'⟩ := fieldIs_exists (s := .wrap) M' fun c => flipMix [((flipC (demo 1).n.x c).1 : ℚ)]
  have S : Stored .wrap (demo 1) g ⟨a, b, x, a, b, x, a, b⟩ skewF skewG (fun c => [(c.1 : ℚ)]) :=
    ⟨ha, hb, ⟨_, ha⟩, ⟨_, hb⟩, ⟨_, ha⟩, ⟨_, hb⟩, hx⟩
  have S' : Stored .wrap (demo 1).flip g' ⟨a', b', x', a', b', x', a', b'⟩ _ _ _ :=
    ⟨ha', hb', ⟨_, ha'⟩, ⟨_, hb'⟩, ⟨_, ha'⟩, ⟨_, hb'⟩, hx'⟩
  have p0 : (demo 1).Padded 2 (1, 2, 0) := by unfold Req.Padded PaddedCell padAlong demo; simp
  obtain ⟨l, l', k1, k2, k3⟩ := C118_steps .wrap 2 (fun _ => rfl) (demo 1) demo_valid (demo_pos 1) rfl g g' e e' (demo 1) demo_valid rfl g g' e
    (1 / 10) ⟨va, vb⟩ ⟨va', vb'⟩ _ _ _ _ h1 h2 h1' h2' (fun c _ => rfl) (fun c _ => rfl) (fun c hc a ha => by
      have c1 := comp_interior hc 1
      match a with
      | 0 =>
        have : ((c.2.1 : ℤ) : ℚ) ≤ 2 := by exact_mod_cast (show c.2.1 ≤ 2 from by have : c.2.1 < 3 := c1.2; omega)
        have : (0 : ℚ) ≤ ((c.2.1 : ℤ) : ℚ) := by exact_mod_cast (show (0 : ℤ) ≤ c.2.1 from c1.1)
        change |((c.2.1 : ℤ) : ℚ) * (1 / 10)| < (2 - 0) / ((4 : ℤ) : ℚ)
        rw [abs_of_nonneg (by positivity)]
        norm_num
        linarith
      | 1 =>
        change |(0 : ℚ) * (1 / 10)| < (3 - 0) / ((3 : ℤ) : ℚ)
        norm_num
      | 2 => exact absurd ha (by decide)) _ _ _ _ _ _ _ _ (fun _ => rfl) (fun _ => rfl) S S' T 3
  obtain ⟨f, p, q1, -, q2, -⟩ := k3 (1, 2, 0) p0
  exact ⟨g, g', ⟨va, vb⟩, ⟨va', vb'⟩, _, _, l, l', e, e', h1.val (1, 2, 0) p0, h1'.val (2, 2, 0) (flip_padded (c := (1, 2, 0)).2 p0), k1, k2,
    q1.trans q2.symm⟩

/-- Instance of `C118_limited_line` and `C118_central`: the slope at the second node is limited. -/
theorem C118_line_inst : (∃ (g g' : Grid ℚ 1) (ls ls' : Levelset ℚ) (o : Interp ℚ), (line 1).make .wrap 1 = .ok g ∧ (line 1).flip.make .wrap 1 = .ok g' ∧
      ls.psiPrev.get .wrap g 1 0 0 = .ok ⟨100, 0, 0⟩ ∧ ls'.psiPrev.get .wrap g' 1 0 0 = .ok ⟨-100, 0, 0⟩ ∧
      interpolate .wrap g ls ⟨4 / 5, 0, 0⟩ true = .ok o ∧ interpolate .wrap g' ls' ⟨-(4 / 5), 0, 0⟩ true = .ok ⟨o.phi, flipV o.psi⟩) ∧
    ∃ (g g' : Grid ℚ 1) (al al' : Arr ℚ) (gr gr' y y' : Arr (Vec3 ℚ)) (v v' : Vec3 ℚ), (line 1).make .wrap 1 = .ok g ∧
      (line 1).flip.make .wrap 1 = .ok g' ∧ al.get .wrap g 3 0 0 = .ok 9 ∧ al'.get .wrap g' (-1) 0 0 = .ok 9 ∧
      gradScalar .central .wrap g g al gr = .ok y ∧ gradScalar .central .wrap g' g' al' gr' = .ok y' ∧
      y.get .wrap g 2 0 0 = .ok v ∧ y'.get .wrap g' 0 0 0 = .ok v' ∧ v'.x = -v.x := by
  obtain ⟨g, e, M⟩ := make_ok .wrap line_valid
  obtain ⟨g', e', M'⟩ := make_ok .wrap (flip_valid line_valid)
  constructor
  · have T := flipped_back (d := 1) (line 1) (fun c => ((c.1 : ℤ) : ℚ)) (fun _ => ⟨100, 0, 0⟩) (fun _ => [])
    obtain ⟨ls, P⟩ := prevIs_exists (s := .wrap) M (fun c => ((c.1 : ℤ) : ℚ)) (fun _ => ⟨100, 0, 0⟩) (fun _ => [])
    obtain ⟨ls', P'⟩ := prevIs_exists (s := .wrap) M' (fun c => (((flipC (line 1).n.x c).1 : ℤ) : ℚ)) (fun _ => flipV ⟨100, 0, 0⟩) (fun _ => [])
    have p0 : (line 1).Padded 1 (1, 0, 0) := by unfold Req.Padded PaddedCell padAlong line; simp
    obtain ⟨o, k, k'⟩ := C118_limited_line (line 1) line_valid (line_pos 1) rfl g g' e e' ls ls' _ _ _ _ _ _ P P' T ⟨4 / 5, 0, 0⟩
      (inStorage_of_box line_valid (line_pos 1) (by decide) fun a ha => by
        match a with
        | 0 => norm_num [Vec3.get, line]
        | 1 => exact absurd ha (by decide)
        | 2 => exact absurd ha (by decide)) (fun i h => by
          have h2 : (4 / 5 : ℚ) = i + 1 / 2 := by
            refine h.trans ?_
            norm_num [Req.centre, Req.h, Vec3.get, line]
          have h3 : (8 : ℚ) = 10 * i + 5 := by linarith
          have h4 : (8 : ℤ) = 10 * i + 5 := by exact_mod_cast h3
          omega)
    exact ⟨g, g', ls, ls', o, e, e', P.psi (1, 0, 0) p0, P'.psi (1, 0, 0) p0, k, k'⟩
  · obtain ⟨al, hf⟩ := fieldIs_exists (s := .wrap) M fun c => ((c.1 : ℤ) : ℚ) * c.1
    obtain ⟨al', hf'⟩ := fieldIs_exists (s := .wrap) M' fun c => (((flipC (line 1).n.x c).1 : ℤ) : ℚ) * (flipC (line 1).n.x c).1
    obtain ⟨gr, hq⟩ := fieldIs_exists (s := .wrap) M fun _ => (⟨0, 0, 0⟩ : Vec3 ℚ)
    obtain ⟨gr', hq'⟩ := fieldIs_exists (s := .wrap) M' fun _ => (⟨0, 0, 0⟩ : Vec3 ℚ)
    have ic : (line 1).Interior (2, 0, 0) := by unfold Req.Interior InteriorCell line; simp
    have p0 : (line 1).Padded 1 (3, 0, 0) := by unfold Req.Padded PaddedCell padAlong line; simp
    obtain ⟨y, y', k, k', q⟩ := C118_central .wrap 1 (line 1) line_valid (by decide) g g' e e' al al' _ _ hf hf'
      (fun c _ => by simp only [flipC_flipC]) gr gr' _ _ hq hq'
    obtain ⟨v, v', q1, q2, q3⟩ := q (2, 0, 0) ic
    have r1 := hf.val (3, 0, 0) p0
    have r2 := hf'.val (flipC (line 1).n.x (3, 0, 0)) (flip_padded.2 p0)
    simp only [flipC_flipC] at r2
    have n9 : (((3 : ℤ) : ℚ) * ((3 : ℤ) : ℚ)) = 9 := by norm_num
    simp only [n9] at r1 r2
    exact ⟨g, g', al, al', gr, gr', y, y', v, v', e, e', r1, r2, k, k', q1, q2, q3 0 (by decide)⟩

/-! ## What is not the same -/

/-- C118 is false of the third order differences of the application: they look at two cells on one side and one on the other.  Three cells of
width 1 on a line, value 1 in the last, 0 elsewhere: the slope in the middle is 1/3, in the mirror -1 instead of -1/3. -/
theorem C118_third_false : ∃ (g g' : Grid ℚ 1) (al al' : Arr ℚ) (gr gr' y y' : Arr (Vec3 ℚ)) (v v' : Vec3 ℚ), (line 2).make .wrap 1 = .ok g ∧
    (line 2).flip.make .wrap 1 = .ok g' ∧
    FieldIs .wrap (line 2) g al (fun c => if c.1 = 2 then 1 else 0) ∧ FieldIs .wrap (line 2).flip g' al' (fun c => if c.1 = 0 then 1 else 0) ∧
    gradScalar .third .wrap g g al gr = .ok y ∧ gradScalar .third .wrap g' g' al' gr' = .ok y' ∧
    y.get .wrap g 1 0 0 = .ok v ∧ y'.get .wrap g' 1 0 0 = .ok v' ∧ v.x = 1 / 3 ∧ v'.x = -1 := by
  obtain ⟨g, e, M⟩ := make_ok .wrap line2_valid
  obtain ⟨g', e', M'⟩ := make_ok .wrap (flip_valid line2_valid)
  obtain ⟨al, hf⟩ := fieldIs_exists (s := .wrap) M fun c => if c.1 = 2 then (1 : ℚ) else 0
  obtain ⟨al', hf'⟩ := fieldIs_exists (s := .wrap) M' fun c => if c.1 = 0 then (1 : ℚ) else 0
  obtain ⟨gr, hq⟩ := fieldIs_exists (s := .wrap) M fun _ => (⟨0, 0, 0⟩ : Vec3 ℚ)
  obtain ⟨gr', hq'⟩ := fieldIs_exists (s := .wrap) M' fun _ => (⟨0, 0, 0⟩ : Vec3 ℚ)
  obtain ⟨y, p, k, fp, -, i⟩ := gradScalar_ok (sch := .third) M M rfl (by decide) hf hq
  obtain ⟨y', p', k', fp', -, i'⟩ := gradScalar_ok (sch := .third) M' M' rfl (by decide) hf' hq'
  have ic : (line 2).Interior (1, 0, 0) := by unfold Req.Interior InteriorCell line; simp
  have ic' : (line 2).flip.Interior (1, 0, 0) := ic
  refine ⟨g, g', al, al', gr, gr', y, y', _, _, e, e', hf, hf', k, k', fp.val (1, 0, 0) (interior_padded M ic),
    fp'.val (1, 0, 0) (interior_padded M' ic'), ?_, ?_⟩
  · have := i (1, 0, 0) ic 0
    rw [if_pos (by decide)] at this
    refine this.trans ?_
    norm_num [rawDiff, thirdRaw, shift, line, Req.h, Vec3.get]
  · have := i' (1, 0, 0) ic' 0
    rw [if_pos (by decide)] at this
    refine this.trans ?_
    norm_num [rawDiff, thirdRaw, shift, line, Req.flip, Req.h, Vec3.get]

/-- What the interpolation returns on the square for a level set and for the same in the mirror. -/
def mirrorWays (lim : Bool) : M (ℚ × ℚ) := do
  let g ← sqr.make .wrap 2
  let g' ← sqr.flip.make .wrap 2
  let o ← interpolate .wrap g (sqrLs g bump spike) ⟨1, 3 / 4, 0⟩ lim
  let o' ← interpolate .wrap g' (sqrLs g' (fun i j => bump (1 - i) j) fun i j => flipV (spike (1 - i) j)) ⟨-1, 3 / 4, 0⟩ lim
  return (o.phi, o'.phi)

/-- C118 is false of the interpolation with the limiter in the plane: the value is 207/512, in the mirror 27/64.  Without the limiter both are
103/256. -/
theorem C118_limited_plane_false : mirrorWays true = .ok (207 / 512, 27 / 64) ∧ mirrorWays false = .ok (103 / 256, 103 / 256) :=
  ⟨by decide +kernel, by decide +kernel⟩

end Gals.Props
