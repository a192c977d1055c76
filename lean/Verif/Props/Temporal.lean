import Verif.Lemmas.Temporal
import Verif.Lemmas.MvPoly
import Verif.Lemmas.Gradient
import Verif.Props.Smooth
import Verif.Props.Gradient

/-!
# Properties C26–C31 (time stepping)
-/

set_option linter.unusedSectionVars false

namespace Gals.Props

open Gals Spec MvPolynomial Filter Topology

/-! ## C26: explicit Euler -/

section C26
variable {K : Type} [Zero K] [One K] [Add K] [Sub K] [Mul K] [Div K] [Neg K] [NatCast K] [IntCast K]
  [LT K] [DecidableLT K] [LE K] [DecidableLE K] [HasFloor K]

/-- `u · p`, the sum over the three components. -/
def dot3 (u p : Vec3 K) : K := u.x * p.x + u.y * p.y + u.z * p.z

/-- C26, what holds, for numbers without laws: explicit Euler returns, changes only `phi`, leaves its ghost cells, and
sets `phi_prev - dt u_x` at interior cells; so it is the claimed `phi_prev - dt (u · grad phi_prev)` at the interior
cells where `u · grad phi_prev = u_x`.  Missing: the other cells, where the claim is false (`C26_false`). -/
theorem C26_explicit_euler_partial (s : IntSem) (d : ℕ) (r : Req K) (h : r.Valid d) (g : Grid K d)
    (e : r.make s d = .ok g) (gv : Grid K d) (dt : K) (vel : LsVelocity K) (u : Cell → Vec3 K)
    (hu : ∀ c, r.Interior c → vel.velocity.get s gv c.1 c.2.1 c.2.2 = .ok (u c)) (ls : Levelset K)
    (p0 pp : Cell → K) (hp : FieldIs s r g ls.phi p0)
    (hpp : ∀ c, r.Interior c → ls.phiPrev.get s g c.1 c.2.1 c.2.2 = .ok (pp c)) :
    ∃ phi', temporal .euler s g gv dt vel ls = .ok { ls with phi := phi' } ∧
      (∀ c, r.Interior c → phi'.get s g c.1 c.2.1 c.2.2 = .ok (pp c - dt * (u c).x)) ∧
      (∀ c, r.Padded d c → ¬ r.Interior c → phi'.get s g c.1 c.2.1 c.2.2 = .ok (p0 c)) ∧
      ∀ c grad, r.Interior c → dot3 (u c) grad = (u c).x →
        phi'.get s g c.1 c.2.1 c.2.2 = .ok (pp c - dt * dot3 (u c) grad) := by
  have G := make_made h e
  obtain ⟨phi', h1, h2⟩ := explicitEuler_ok (dt := dt) G hu hp hpp
  have key : ∀ c, r.Interior c → phi'.get s g c.1 c.2.1 c.2.2 = .ok (pp c - dt * (u c).x) := by
    intro c hc
    rw [h2.val c (interior_padded G hc), if_pos hc]
  refine ⟨phi', h1, key, fun c hc hn => by rw [h2.val c hc, if_neg hn], fun c grad hc hg => by rw [key c hc, hg]⟩

end C26

/-- A level set over the example grids with given current, previous and interpolated fields. -/
theorem levelset_exists {K : Type} {d : ℕ} [Field K] [LinearOrder K] [IsStrictOrderedRing K] [FloorRing K]
    {s : IntSem} {r : Req K} {g : Grid K d} (G : g.Made s r)
    (p0 p1 phi : Cell → K) (q0 q1 psi : Cell → Vec3 K) (mix : Cell → List K) :
    ∃ ls : Levelset K, FieldIs s r g ls.phi p0 ∧ FieldIs s r g ls.psi q0 ∧ FieldIs s r g ls.phiInterpPrev p1 ∧
      FieldIs s r g ls.psiInterpPrev q1 ∧ PrevIs s r g ls phi psi mix := by
  obtain ⟨a0, h0⟩ := fieldIs_exists (s := s) G p0
  obtain ⟨a1, h1⟩ := fieldIs_exists (s := s) G p1
  obtain ⟨b0, k0⟩ := fieldIs_exists (s := s) G q0
  obtain ⟨b1, k1⟩ := fieldIs_exists (s := s) G q1
  obtain ⟨l, P⟩ := prevIs_exists G phi psi mix
  exact ⟨{ l with phi := a0, psi := b0, phiInterpPrev := a1, psiInterpPrev := b1 }, h0, k0, h1, k1, P.phi, P.psi, P.mix⟩

/-- Velocity fields with given values. -/
theorem velocity_exists {K : Type} {d : ℕ} [Field K] [LinearOrder K] [IsStrictOrderedRing K] [FloorRing K]
    {s : IntSem} {r : Req K} {g : Grid K d} (G : g.Made s r) (u : Cell → Vec3 K) (m : Cell → Mat3 K) :
    ∃ vel : LsVelocity K, FieldIs s r g vel.velocity u ∧ FieldIs s r g vel.grad m := by
  obtain ⟨a, h1⟩ := fieldIs_exists (s := s) G u
  obtain ⟨b, h2⟩ := fieldIs_exists (s := s) G m
  exact ⟨⟨a, b⟩, h1, h2⟩

/-- C26 is false: a constant field (value 5, gradient 0) in the velocity (1, 0, 0) should not change; one step with
`dt = 1/10` gives 49/10. -/
theorem C26_false : ∃ g : Grid ℚ 2, (demo 1).make .wrap 2 = .ok g ∧ ∃ (vel : LsVelocity ℚ) (ls ls' : Levelset ℚ),
    (∀ c, (demo 1).Padded 2 c → vel.velocity.get .wrap g c.1 c.2.1 c.2.2 = .ok ⟨1, 0, 0⟩ ∧
      ls.phiPrev.get .wrap g c.1 c.2.1 c.2.2 = .ok 5 ∧ ls.psiPrev.get .wrap g c.1 c.2.1 c.2.2 = .ok ⟨0, 0, 0⟩) ∧
    temporal .euler .wrap g g (1 / 10) vel ls = .ok ls' ∧
    ls'.phi.get .wrap g 1 1 0 = .ok (49 / 10) ∧ (49 / 10 : ℚ) ≠ 5 - 1 / 10 * dot3 ⟨1, 0, 0⟩ ⟨0, 0, 0⟩ := by
  obtain ⟨g, e, -⟩ := C01_padded_addressing .wrap 2 (demo 1) demo_valid
  have G := make_made demo_valid e
  obtain ⟨vel, hv, -⟩ := velocity_exists (s := .wrap) G (fun _ => ⟨1, 0, 0⟩) (fun _ => Mat3.zero)
  obtain ⟨ls, h0, -, -, -, P⟩ := levelset_exists (s := .wrap) G (fun _ => 7) (fun _ => 0) (fun _ => 5) (fun _ => ⟨0, 0, 0⟩)
    (fun _ => ⟨0, 0, 0⟩) (fun _ => ⟨0, 0, 0⟩) (fun _ => [0])
  obtain ⟨phi', k1, k2, -⟩ := C26_explicit_euler_partial .wrap 2 (demo 1) demo_valid g e g (1 / 10) vel _
    (fun c hc => hv.val c (interior_padded G hc)) ls _ _ h0 (fun c hc => P.phi c (interior_padded G hc))
  refine ⟨g, e, vel, ls, _, fun c hc => ⟨hv.val c hc, P.phi c hc, P.psi c hc⟩, k1, ?_, ?_⟩
  · have := k2 (1, 1, 0) (by unfold Req.Interior InteriorCell demo; simp)
    simp only at this
    rw [this]
    norm_num
  · norm_num [dot3]

/-- Instance of `C26_explicit_euler_partial`: `phi = x`, whose gradient is (1, 0, 0), velocity (3, 4, 0). -/
example : ∃ g : Grid ℚ 2, (demo 1).make .wrap 2 = .ok g ∧ ∃ (vel : LsVelocity ℚ) (ls ls' : Levelset ℚ),
    temporal .euler .wrap g g (1 / 10) vel ls = .ok ls' ∧ ls.phiPrev.get .wrap g 1 1 0 = .ok (3 / 4) ∧
    ls'.phi.get .wrap g 1 1 0 = .ok (3 / 4 - 1 / 10 * dot3 ⟨3, 4, 0⟩ ⟨1, 0, 0⟩) ∧ ls'.phi.get .wrap g 4 1 0 = .ok 7 := by
  obtain ⟨g, e, -⟩ := C01_padded_addressing .wrap 2 (demo 1) demo_valid
  have G := make_made demo_valid e
  obtain ⟨vel, hv, -⟩ := velocity_exists (s := .wrap) G (fun _ => ⟨3, 4, 0⟩) (fun _ => Mat3.zero)
  obtain ⟨ls, h0, -, -, -, P⟩ := levelset_exists (s := .wrap) G (fun _ => 7) (fun _ => 0)
    (fun c => (c.1 : ℚ) / 2 + 1 / 4) (fun _ => ⟨0, 0, 0⟩) (fun _ => ⟨0, 0, 0⟩) (fun _ => ⟨1, 0, 0⟩) (fun _ => [0])
  obtain ⟨phi', k1, k2, k3, k4⟩ := C26_explicit_euler_partial .wrap 2 (demo 1) demo_valid g e g (1 / 10) vel _
    (fun c hc => hv.val c (interior_padded G hc)) ls _ _ h0 (fun c hc => P.phi c (interior_padded G hc))
  have hi : (demo 1).Interior (1, 1, 0) := by unfold Req.Interior InteriorCell demo; simp
  have hv : (((1 : ℤ) : ℚ) / 2 + 1 / 4) = 3 / 4 := by norm_num
  refine ⟨g, e, vel, ls, _, k1, ?_, ?_, ?_⟩
  · have := P.phi (1, 1, 0) (interior_padded G hi)
    simp only [hv] at this
    exact this
  · have := k4 (1, 1, 0) ⟨1, 0, 0⟩ hi (by norm_num [dot3])
    simp only [hv] at this
    exact this
  · exact k3 (4, 1, 0) (by unfold Req.Padded PaddedCell padAlong demo; simp) (by
      unfold Req.Interior InteriorCell demo; simp)

/-! ## C30: memory safety of the semi-Lagrangian step -/

section num
variable {K : Type} [Field K] [LinearOrder K] [IsStrictOrderedRing K] [FloorRing K]

theorem comp_interior {r : Req K} {c : Cell} (hc : r.Interior c) (a : Fin 3) : 0 ≤ comp c a ∧ comp c a < r.n.get a := by
  match a with
  | 0 => exact hc.1
  | 1 => exact hc.2.1
  | 2 => exact hc.2.2

theorem get_step (q u : Vec3 K) (dt : K) (a : Fin 3) : (q.sub (u.smul dt)).get a = q.get a - u.get a * dt := by
  match a with
  | 0 => rfl
  | 1 => rfl
  | 2 => rfl

/-- Less than one cell away from an interior node a point is strictly inside storage. -/
theorem near_node {d : ℕ} {r : Req K} (h : r.Valid d) (hpos : r.Pos d) (hpad : 1 ≤ r.pad) {c : Cell} (hc : r.Interior c)
    {x : Vec3 K} (hx : ∀ a : Fin 3, a.val < d → |x.get a - (nodePos r d c).get a| < r.h a) (a : Fin 3) (ha : a.val < d) :
    r.centre a (-r.pad) < x.get a ∧ x.get a < r.centre a (r.n.get a + r.pad - 1) := by
  obtain ⟨h1, h2⟩ := abs_lt.1 (hx a ha)
  rw [nodePos_get, if_pos ha] at h1 h2
  obtain ⟨c1, c2⟩ := comp_interior hc a
  have up : ∀ i : ℤ, r.centre a (i + 1) = r.centre a i + r.h a := fun i => by unfold Req.centre; push_cast; ring
  have mono : ∀ {i j : ℤ}, i ≤ j → r.centre a i ≤ r.centre a j := by
    intro i j hij
    rcases hij.lt_or_eq with hlt | rfl
    · exact ((centre_lt_iff h hpos a ha).2 hlt).le
    · exact le_rfl
  have u1 := up (comp c a + (r.pad - 1) - 1)
  have u2 := up (comp c a + (r.pad - 1))
  rw [sub_add_cancel] at u1
  have m1 : r.centre a (-r.pad) ≤ r.centre a (comp c a + (r.pad - 1) - 1) := mono (by omega)
  have m2 : r.centre a (comp c a + (r.pad - 1) + 1) ≤ r.centre a (r.n.get a + r.pad - 1) := mono (by omega)
  constructor <;> linarith

theorem near_step {d : ℕ} {r : Req K} {c : Cell} {u : Vec3 K} {dt : K}
    (hcfl : ∀ a : Fin 3, a.val < d → |u.get a * dt| < r.h a) (a : Fin 3) (ha : a.val < d) :
    |((nodePos r d c).sub (u.smul dt)).get a - (nodePos r d c).get a| < r.h a := by
  rw [get_step, sub_sub_cancel_left, abs_neg]
  exact hcfl a ha

/-- The semi-Lagrangian step when all departure points are in storage. -/
theorem slEuler_in_storage {s : IntSem} {d : ℕ} (hs : d < 3 → s = .wrap) {r : Req K} (h : r.Valid d) (hpos : r.Pos d)
    {g : Grid K d} (G : g.Made s r) {gv : Grid K d} {dt : K} {vel : LsVelocity K} {u : Cell → Vec3 K} {m : Cell → Mat3 K}
    (hu : ∀ c, r.Interior c → vel.velocity.get s gv c.1 c.2.1 c.2.2 = .ok (u c))
    (hg : ∀ c, r.Interior c → vel.grad.get s gv c.1 c.2.1 c.2.2 = .ok (m c)) {ls : Levelset K}
    {phi : Cell → K} {psi : Cell → Vec3 K} {mix : Cell → List K} (hm : ∀ c, (mix c).length = numMixed d)
    (P : PrevIs s r g ls phi psi mix) {p0 p1 : Cell → K} {q0 q1 : Cell → Vec3 K} (hp : FieldIs s r g ls.phi p0)
    (hq : FieldIs s r g ls.psi q0) (hp1 : FieldIs s r g ls.phiInterpPrev p1) (hq1 : FieldIs s r g ls.psiInterpPrev q1)
    (hst : ∀ c, r.Interior c → InStorage r d ((nodePos r d c).sub ((u c).smul dt))) :
    ∃ (ls' : Levelset K) (o : Cell → Interp K), slEuler s g gv dt vel ls = .ok ls' ∧
      (∀ c, r.Interior c → interpolate s g ls ((nodePos r d c).sub ((u c).smul dt)) false = .ok (o c) ∧
        ls'.phi.get s g c.1 c.2.1 c.2.2 = .ok (o c).phi ∧
        ls'.psi.get s g c.1 c.2.1 c.2.2 = .ok ((Mat3.identity.sub ((m c).smul dt)).dot (o c).psi)) ∧
      ∀ c, r.Padded d c → ¬ r.Interior c → ls'.phi.get s g c.1 c.2.1 c.2.2 = .ok (p0 c) ∧
        ls'.psi.get s g c.1 c.2.1 c.2.2 = .ok (q0 c) := by
  have : Nonempty (Interp K) := ⟨⟨0, ⟨0, 0, 0⟩⟩⟩
  obtain ⟨o, ho⟩ := choose_ok (p := r.Interior) (f := fun c => interpolate s g ls ((nodePos r d c).sub ((u c).smul dt)) false)
    fun c hc => interp_ok hs G h hpos hm P (hst c hc) false
  obtain ⟨ls', h1, h2, h3, -⟩ := slEuler_ok (dt := dt) G hu hg (fun c hc => G.atC (interior_padded G hc)) hp hq hp1 hq1 ho
  refine ⟨ls', o, h1, fun c hc => ⟨ho c hc, ?_, ?_⟩, fun c hc hn => ⟨?_, ?_⟩⟩
  · rw [h2.val c (interior_padded G hc), if_pos hc]
  · rw [h3.val c (interior_padded G hc), if_pos hc]
  · rw [h2.val c hc, if_neg hn]
  · rw [h3.val c hc, if_neg hn]

/-- C30 for padding at least 1: if `|u_a dt| < dx_a` along each used axis at each interior cell, the step returns (no
access outside storage), whatever the data. Missing for "every grid": padding 0, for which it is false
(`C30_padding0_false`). -/
theorem C30_memory_safe_partial (s : IntSem) (d : ℕ) (hs : d < 3 → s = .wrap) (r : Req K) (h : r.Valid d) (hpos : r.Pos d)
    (hpad : 1 ≤ r.pad) (g : Grid K d) (e : r.make s d = .ok g) (rv : Req K) (hv : rv.Valid d) (hn : rv.n = r.n)
    (gv : Grid K d) (ev : rv.make s d = .ok gv) (dt : K) (vel : LsVelocity K) (u : Cell → Vec3 K) (m : Cell → Mat3 K)
    (hu : FieldIs s rv gv vel.velocity u) (hg : FieldIs s rv gv vel.grad m) (ls : Levelset K)
    (phi : Cell → K) (psi : Cell → Vec3 K) (mix : Cell → List K) (hm : ∀ c, (mix c).length = numMixed d)
    (P : PrevIs s r g ls phi psi mix) (p0 p1 : Cell → K) (q0 q1 : Cell → Vec3 K) (hp : FieldIs s r g ls.phi p0)
    (hq : FieldIs s r g ls.psi q0) (hp1 : FieldIs s r g ls.phiInterpPrev p1) (hq1 : FieldIs s r g ls.psiInterpPrev q1)
    (hcfl : ∀ c, r.Interior c → ∀ a : Fin 3, a.val < d → |(u c).get a * dt| < r.h a) :
    ∃ ls', temporal .semiLagrangian s g gv dt vel ls = .ok ls' := by
  have G := make_made h e
  have Gv := make_made hv ev
  have hi : ∀ c, r.Interior c → rv.Padded d c := fun c hc =>
    interior_padded Gv (by unfold Req.Interior; rw [hn]; exact hc)
  obtain ⟨ls', -, h1, -⟩ := slEuler_in_storage hs h hpos G (dt := dt) (fun c hc => hu.val c (hi c hc))
    (fun c hc => hg.val c (hi c hc)) hm P hp hq hp1 hq1 fun c hc a ha =>
      have := near_node h hpos hpad hc (near_step (hcfl c hc)) a ha
      ⟨this.1.le, this.2⟩
  exact ⟨ls', h1⟩


/-! ### Outside storage -/

/-- Index computation left of the storage, 1D. -/
theorem index_left {r : Req K} {g : Grid K 1} (G : g.Made .wrap r) (h : r.Valid 1) (i j k : ℤ)
    (h1 : -2147483648 ≤ i) (h2 : i ≤ 0) : g.index .wrap i j k = .ok (i + r.pad) := by
  have hs := G.shape
  rw [Grid.index_wrap_z hs (by decide) i j k 0, Grid.index_wrap_y hs (by decide) i j 0 0]
  have hp := h.pad_nonneg
  have sx := h.side_le 0
  have sy := h.side_le 1
  have nx := h.nx_pos
  have ny := h.ny_pos
  have nz := h.nz_pos
  have hf := h.fits
  change r.n.x + 2 * r.pad ≤ _ at sx
  change r.n.y + 2 * r.pad ≤ _ at sy
  have hm0 : g.mask0 = 1 := hs.m0
  have hm1 : g.mask1 = 0 := by rw [hs.m1]; decide
  have hm2 : g.mask2 = 0 := by rw [hs.m2]; decide
  unfold Grid.index
  simp only [G.pad, G.nx, G.ny, hm0, hm1, hm2, iadd, imul, mul_one, mul_zero, zero_add]
  generalize hX : r.n.x + 2 * r.pad = X at *
  generalize hY : r.n.y + 2 * r.pad = Y at *
  have hX0 : 2 * r.pad ≤ X := by omega
  simp only [ck, M.ok_bind]
  have e : Int.bmod (i + r.pad) 4294967296 = i + r.pad := Int.bmod_eq_of_le (by omega) (by omega)
  simp only [e, Int.zero_bmod, zero_add]

/-- In 1D interpolation at a point left of the first stored node reads outside the array of node positions. -/
theorem interp_left {r : Req K} {g : Grid K 1} (G : g.Made .wrap r) (h : r.Valid 1) (hpos : r.Pos 1) (ls : Levelset K)
    {x : Vec3 K} (hlow : x.x < r.centre 0 (-r.pad)) (hfar : r.centre 0 (-2147483648) ≤ x.x) (lim : Bool) :
    interpolate .wrap g ls x lim = .error .oob := by
  have hp := h.pad_nonneg
  obtain ⟨b, e, H⟩ := G.base h hpos x (by
    intro a ha
    obtain rfl : a = 0 := Fin.ext (by omega)
    refine ⟨hfar, lt_trans hlow ?_⟩
    rw [centre_lt_iff h hpos 0 (by decide)]
    omega)
  obtain ⟨⟨l, u⟩, -⟩ := H 0 (by decide)
  have b1 : b.x < -r.pad := (centre_lt_iff h hpos 0 (by decide)).1 (lt_of_le_of_lt l hlow)
  have b2 : -2147483648 < b.x + 1 := (centre_lt_iff h hpos 0 (by decide)).1 (lt_of_le_of_lt hfar u)
  unfold interpolate interp1
  rw [if_pos rfl, e, M.ok_bind]
  unfold iadd ck Grid.atV Grid.at'
  dsimp only
  rw [M.ok_bind, index_left G h b.x b.y b.z (by omega) (by omega), M.ok_bind]
  unfold rd
  rw [if_neg (by omega)]
  rfl

/-- C30, the bound is needed: on every 1D grid, whatever the level-set data, if the departure point of the first cell is
left of the first stored node the step accesses memory outside storage. (`hfar`: the cell number fits in `int`.) -/
theorem C30_outside_storage (r : Req K) (h : r.Valid 1) (hpos : r.Pos 1) (g : Grid K 1) (e : r.make .wrap 1 = .ok g)
    (gv : Grid K 1) (dt : K) (vel : LsVelocity K) (u : Cell → Vec3 K)
    (hu : ∀ c, r.Interior c → vel.velocity.get .wrap gv c.1 c.2.1 c.2.2 = .ok (u c)) (ls : Levelset K) (q : Vec3 K)
    (hq : g.at' .wrap 0 0 0 = .ok q) (hlow : q.x - (u (0, 0, 0)).x * dt < r.centre 0 (-r.pad))
    (hfar : r.centre 0 (-2147483648) ≤ q.x - (u (0, 0, 0)).x * dt) :
    temporal .semiLagrangian .wrap g gv dt vel ls = .error .oob := by
  have G := make_made h e
  have hc : r.Interior (0, 0, 0) := ⟨⟨le_rfl, h.nx_pos⟩, ⟨le_rfl, h.ny_pos⟩, ⟨le_rfl, h.nz_pos⟩⟩
  have hcp := interior_padded G hc
  obtain ⟨xr, e1, f1⟩ := departure_ok (dt := dt) G hu (fun c hc => G.atC (interior_padded G hc))
  have hq' := G.atC hcp
  simp only at hq'
  rw [hq] at hq'
  have hval := f1.val _ hcp
  rw [if_pos hc, ← Except.ok.inj hq'] at hval
  obtain ⟨l, hl⟩ : ∃ l, xr.interior = (0, 0, 0) :: l := by
    have := f1.ext
    unfold Arr.numCells at this
    obtain ⟨a1, a2, a3⟩ := Vec3.mk.inj this
    unfold Arr.interior
    rw [a1, a2, a3]
    exact cells_head h.nx_pos h.ny_pos h.nz_pos
  show slEuler .wrap g gv dt vel ls = _
  unfold slEuler
  rw [e1, M.ok_bind]
  have : hermiteCompute .wrap g g xr ls = .error .oob := by
    unfold hermiteCompute
    refine loop_head_error hl ?_
    dsimp only at hval ⊢
    rw [hval, M.ok_bind, interp_left G h hpos ls hlow hfar, M.error_bind]
  rw [this, M.error_bind]

end num

theorem line0_valid : (line 0).Valid 1 :=
  ⟨by simp, by decide, by decide, by decide, by decide, by decide, by decide, by decide⟩

/-- Instance of `C30_memory_safe_partial`: 2D, padding 2, velocity varying from cell to cell with both signs. -/
example : ∃ g : Grid ℚ 2, (demo 2).make .wrap 2 = .ok g ∧ ∃ (vel : LsVelocity ℚ) (ls ls' : Levelset ℚ),
    vel.velocity.get .wrap g 2 1 0 = .ok ⟨4, -9, 100⟩ ∧ temporal .semiLagrangian .wrap g g (1 / 10) vel ls = .ok ls' := by
  obtain ⟨g, e, -⟩ := C01_padded_addressing .wrap 2 (demo 2) demo2_valid
  have G := make_made demo2_valid e
  obtain ⟨vel, hv, hg⟩ := velocity_exists (s := .wrap) G (fun c => ⟨if c.1 = 2 then 4 else -4, if c.2.1 = 1 then -9 else 9, 100⟩)
    (fun c => Mat3.mk9 c.1 2 3 4 5 6 7 8 9)
  obtain ⟨ls, h0, h1, h2, h3, P⟩ := levelset_exists (s := .wrap) G (fun _ => 7) (fun _ => 0)
    (fun c => (c.1 : ℚ) / 2 + 1 / 4) (fun _ => ⟨0, 0, 0⟩) (fun _ => ⟨0, 0, 0⟩) (fun _ => ⟨1, 0, 0⟩) (fun _ => [0])
  obtain ⟨ls', k⟩ := C30_memory_safe_partial .wrap 2 (fun _ => rfl) (demo 2) demo2_valid (demo_pos 2) (by decide) g e (demo 2)
    demo2_valid rfl g e (1 / 10) vel _ _ hv hg ls _ _ _ (fun _ => rfl) P _ _ _ _ h0 h1 h2 h3 (by
      intro c _ a ha
      match a with
      | 0 =>
        by_cases h : c.1 = 2 <;> norm_num [demo, Vec3.get, Req.h, h, abs_lt]
      | 1 =>
        by_cases h : c.2.1 = 1 <;> norm_num [demo, Vec3.get, Req.h, h, abs_lt]
      | 2 => exact absurd ha (by decide))
  exact ⟨g, e, vel, ls, ls', hv.val (2, 1, 0) (by unfold Req.Padded PaddedCell padAlong demo; simp), k⟩

/-- Without the bound: 3 cells of width 1, padding 1, velocity 10, `dt = 1` (Courant number 10), any level set. -/
theorem C30_bound_needed : ∃ g : Grid ℚ 1, (line 1).make .wrap 1 = .ok g ∧ ∃ vel : LsVelocity ℚ,
    (∀ c, (line 1).Padded 1 c → vel.velocity.get .wrap g c.1 c.2.1 c.2.2 = .ok ⟨10, 0, 0⟩) ∧
    ∀ ls, temporal .semiLagrangian .wrap g g 1 vel ls = .error .oob := by
  obtain ⟨g, e, -⟩ := C01_padded_addressing .wrap 1 (line 1) line_valid
  have G := make_made line_valid e
  obtain ⟨vel, hv, -⟩ := velocity_exists (s := .wrap) G (fun _ => ⟨10, 0, 0⟩) (fun _ => Mat3.zero)
  refine ⟨g, e, vel, hv.val, fun ls => ?_⟩
  have hc : (line 1).Interior (0, 0, 0) := by unfold Req.Interior InteriorCell line; simp
  have hat := G.atC (interior_padded G hc)
  have hq : nodePos (line 1) 1 (0, 0, 0) = ⟨1 / 2, 0, 0⟩ := by
    simp [nodePos, line, Req.centre, Req.h, Vec3.get, comp]
  have hcen : ∀ i : ℤ, (line 1).centre 0 i = i + 1 / 2 := fun i => by simp [line, Req.centre, Req.h, Vec3.get]
  rw [hq] at hat
  simp only at hat
  refine C30_outside_storage (line 1) line_valid (line_pos 1) g e g 1 vel (fun _ => ⟨10, 0, 0⟩)
    (fun c hc => hv.val c (interior_padded G hc)) ls ⟨1 / 2, 0, 0⟩ hat ?_ ?_
  · rw [hcen]; norm_num [line]
  · rw [hcen]; norm_num

/-- C30 is false for padding 0, even for zero velocity: node 0 is placed at the centre of cell -1. -/
theorem C30_padding0_false : ∃ g : Grid ℚ 1, (line 0).make .wrap 1 = .ok g ∧ ∃ vel : LsVelocity ℚ,
    (∀ c, (line 0).Padded 1 c → vel.velocity.get .wrap g c.1 c.2.1 c.2.2 = .ok ⟨0, 0, 0⟩) ∧
    ∀ ls, temporal .semiLagrangian .wrap g g 1 vel ls = .error .oob := by
  obtain ⟨g, e, -⟩ := C01_padded_addressing .wrap 1 (line 0) line0_valid
  have G := make_made line0_valid e
  obtain ⟨vel, hv, -⟩ := velocity_exists (s := .wrap) G (fun _ => ⟨0, 0, 0⟩) (fun _ => Mat3.zero)
  refine ⟨g, e, vel, hv.val, fun ls => ?_⟩
  have hc : (line 0).Interior (0, 0, 0) := by unfold Req.Interior InteriorCell line; simp
  have hat := G.atC (interior_padded G hc)
  have hq : nodePos (line 0) 1 (0, 0, 0) = ⟨-1 / 2, 0, 0⟩ := by
    simp [nodePos, line, Req.centre, Req.h, Vec3.get, comp]; norm_num
  have hcen : ∀ i : ℤ, (line 0).centre 0 i = i + 1 / 2 := fun i => by simp [line, Req.centre, Req.h, Vec3.get]
  rw [hq] at hat
  simp only at hat
  refine C30_outside_storage (line 0) line0_valid (line_pos 0) g e g 1 vel (fun _ => ⟨0, 0, 0⟩)
    (fun c hc => hv.val c (interior_padded G hc)) ls ⟨-1 / 2, 0, 0⟩ hat ?_ ?_
  · rw [hcen]; norm_num [line]
  · rw [hcen]; norm_num

/-! ## C27: zero velocity -/

section C27
variable {K : Type} [Field K] [LinearOrder K] [IsStrictOrderedRing K] [FloorRing K]

theorem identity_dot (dt : K) (v : Vec3 K) : (Mat3.identity.sub (Mat3.zero.smul dt)).dot v = v := by
  simp [Mat3.dot, Mat3.sub, Mat3.smul, Mat3.identity, Mat3.zero, Mat3.mk9, Mat3.pos]

theorem onAxes_get (d : ℕ) (hd : 0 < d) (v : Vec3 K) (a : Fin 3) : (onAxes d v).get a = if a.val < d then v.get a else 0 := by
  match a with
  | 0 => exact (if_pos hd).symm
  | 1 => rfl
  | 2 => rfl

/-- C27 for padding 1 (the default), every dimension, data and time step, not necessarily small: with zero velocity and
zero velocity gradient a semi-Lagrangian step returns, and sets each interior cell to the previous value and the previous
gradient along used axes (0 along unused ones); ghost cells keep their values.  Missing for "every grid": other paddings,
for which it is false (`C27_false`). -/
theorem C27_zero_velocity_partial (s : IntSem) (d : ℕ) (hs : d < 3 → s = .wrap) (r : Req K) (h : r.Valid d) (hpos : r.Pos d)
    (hpad : r.pad = 1) (g : Grid K d) (e : r.make s d = .ok g) (gv : Grid K d) (dt : K) (vel : LsVelocity K)
    (hu : ∀ c, r.Interior c → vel.velocity.get s gv c.1 c.2.1 c.2.2 = .ok Vec3.zero)
    (hg : ∀ c, r.Interior c → vel.grad.get s gv c.1 c.2.1 c.2.2 = .ok Mat3.zero) (ls : Levelset K)
    (phi : Cell → K) (psi : Cell → Vec3 K) (mix : Cell → List K) (hm : ∀ c, (mix c).length = numMixed d)
    (P : PrevIs s r g ls phi psi mix) (p0 p1 : Cell → K) (q0 q1 : Cell → Vec3 K) (hp : FieldIs s r g ls.phi p0)
    (hq : FieldIs s r g ls.psi q0) (hp1 : FieldIs s r g ls.phiInterpPrev p1) (hq1 : FieldIs s r g ls.psiInterpPrev q1) :
    ∃ ls', temporal .semiLagrangian s g gv dt vel ls = .ok ls' ∧
      (∀ c, r.Interior c → ls'.phi.get s g c.1 c.2.1 c.2.2 = .ok (phi c) ∧
        ∃ v, ls'.psi.get s g c.1 c.2.1 c.2.2 = .ok v ∧ ∀ a : Fin 3, v.get a = if a.val < d then (psi c).get a else 0) ∧
      ∀ c, r.Padded d c → ¬ r.Interior c → ls'.phi.get s g c.1 c.2.1 c.2.2 = .ok (p0 c) ∧
        ls'.psi.get s g c.1 c.2.1 c.2.2 = .ok (q0 c) := by
  have G := make_made h e
  have hd : 0 < d := by rcases h.dim with rfl | rfl | rfl <;> decide
  have hz : ∀ (q : Vec3 K) (a : Fin 3), (q.sub (Vec3.zero.smul dt)).get a = q.get a := by
    intro q a
    rw [get_step]
    match a with
    | 0 => simp [Vec3.zero, Vec3.get]
    | 1 => simp [Vec3.zero, Vec3.get]
    | 2 => simp [Vec3.zero, Vec3.get]
  have hst : ∀ c, r.Interior c → InStorage r d ((nodePos r d c).sub (Vec3.zero.smul dt)) := by
    intro c hc a ha
    have := near_node h hpos (by omega) hc (x := (nodePos r d c).sub (Vec3.zero.smul dt)) (by
      intro a ha
      rw [hz, sub_self, abs_zero]
      exact h.h_pos hpos a ha) a ha
    exact ⟨this.1.le, this.2⟩
  obtain ⟨ls', o, h1, h2, h3⟩ := slEuler_in_storage hs h hpos G (dt := dt) hu hg hm P hp hq hp1 hq1 hst
  refine ⟨ls', h1, fun c hc => ?_, h3⟩
  obtain ⟨k1, k2, k3⟩ := h2 c hc
  have hn := interp_node hs G h hpos hpad hm P (hst c hc) (c := c) (by
    intro a ha
    match a with
    | 0 => exact absurd hd ha
    | 1 => have := h.ny_one (by change ¬ 1 < d at ha; omega); have := hc.2.1; show c.2.1 = 0; omega
    | 2 => have := h.nz_one (by change ¬ 2 < d at ha; omega); have := hc.2.2; show c.2.2 = 0; omega)
    fun a _ => hz _ a
  rw [k1] at hn
  have ho := Except.ok.inj hn
  rw [ho] at k2 k3
  refine ⟨k2, _, k3, fun a => ?_⟩
  rw [identity_dot]
  exact onAxes_get d hd (psi c) a

end C27

/-- Instance of `C27_zero_velocity_partial`: 3D, ISO arithmetic, `dt = 1000`. -/
example : ∃ g : Grid ℚ 3, (box 1).make .strict 3 = .ok g ∧ ∃ (vel : LsVelocity ℚ) (ls ls' : Levelset ℚ),
    temporal .semiLagrangian .strict g g 1000 vel ls = .ok ls' ∧ ls.phiPrev.get .strict g 1 2 1 = .ok 8 ∧
    ls'.phi.get .strict g 1 2 1 = .ok 8 := by
  obtain ⟨g, e, -⟩ := C01_padded_addressing .strict 3 (box 1) box_valid
  have G := make_made box_valid e
  obtain ⟨vel, hv, hg⟩ := velocity_exists (s := .strict) G (fun _ => Vec3.zero) (fun _ => Mat3.zero)
  obtain ⟨ls, h0, h1, h2, h3, P⟩ := levelset_exists (s := .strict) G (fun _ => 7) (fun _ => 0)
    (fun c => if c = (1, 2, 1) then 8 else 3) (fun _ => ⟨0, 0, 0⟩) (fun _ => ⟨0, 0, 0⟩) (fun _ => ⟨1, 2, 3⟩)
    (fun _ => [4, 5, 6, 7])
  obtain ⟨ls', k1, k2, -⟩ := C27_zero_velocity_partial .strict 3 (fun h => absurd h (by decide)) (box 1) box_valid (box_pos 1)
    rfl g e g 1000 vel (fun c hc => hv.val c (interior_padded G hc)) (fun c hc => hg.val c (interior_padded G hc)) ls _ _ _
    (fun _ => rfl) P _ _ _ _ h0 h1 h2 h3
  have hi : (box 1).Interior (1, 2, 1) := by unfold Req.Interior InteriorCell box; simp
  refine ⟨g, e, vel, ls, ls', k1, ?_, ?_⟩
  · have := P.phi (1, 2, 1) (interior_padded G hi); simpa using this
  · have := (k2 (1, 2, 1) hi).1; simpa using this

/-- C27 is false with padding 2: previous value 1 at cell 1 and 0 elsewhere, zero gradients, zero velocity; after one step
cell 1 holds 0. -/
theorem C27_false : ∃ g : Grid ℚ 1, (line 2).make .wrap 1 = .ok g ∧ ∃ (vel : LsVelocity ℚ) (ls ls' : Levelset ℚ),
    (∀ c, (line 2).Padded 1 c → vel.velocity.get .wrap g c.1 c.2.1 c.2.2 = .ok Vec3.zero ∧
      vel.grad.get .wrap g c.1 c.2.1 c.2.2 = .ok Mat3.zero) ∧
    temporal .semiLagrangian .wrap g g 1 vel ls = .ok ls' ∧ ls.phiPrev.get .wrap g 1 0 0 = .ok 1 ∧
    ls'.phi.get .wrap g 1 0 0 = .ok 0 := by
  obtain ⟨g, e, -⟩ := C01_padded_addressing .wrap 1 (line 2) line2_valid
  have G := make_made line2_valid e
  obtain ⟨vel, hv, hg⟩ := velocity_exists (s := .wrap) G (fun _ => Vec3.zero) (fun _ => Mat3.zero)
  obtain ⟨ls, h0, h1, h2, h3, P⟩ := levelset_exists (s := .wrap) G (fun _ => 7) (fun _ => 0)
    (fun c => if c.1 = 1 then 1 else 0) (fun _ => ⟨0, 0, 0⟩) (fun _ => ⟨0, 0, 0⟩) (fun _ => ⟨0, 0, 0⟩) (fun _ => [])
  have hz : ∀ q : Vec3 ℚ, q.sub (Vec3.zero.smul 1) = q := fun q => by simp [Vec3.sub, Vec3.smul, Vec3.zero]
  have hi : (line 2).Interior (1, 0, 0) := by unfold Req.Interior InteriorCell line; simp
  obtain ⟨ls', o, k1, k2, -⟩ := slEuler_in_storage (fun _ => rfl) line2_valid (line_pos 2) G (dt := 1)
    (fun c hc => hv.val c (interior_padded G hc)) (fun c hc => hg.val c (interior_padded G hc)) (fun _ => rfl) P h0 h1 h2 h3
    fun c hc a ha => by
      have := near_node line2_valid (line_pos 2) (by decide) hc (x := nodePos (line 2) 1 c) (by
        intro a ha
        rw [sub_self, abs_zero]
        exact line2_valid.h_pos (line_pos 2) a ha) a ha
      rw [hz]
      exact ⟨this.1.le, this.2⟩
  obtain ⟨m1, m2, -⟩ := k2 (1, 0, 0) hi
  rw [hz, line2_node, (spike_interp e P).2] at m1
  rw [← Except.ok.inj m1] at m2
  refine ⟨g, e, vel, ls, ls', fun c hc => ⟨hv.val c hc, hg.val c hc⟩, k1, ?_, m2⟩
  have := P.phi (1, 0, 0) (interior_padded G hi)
  simpa using this

/-! ## C28: translation of polynomials -/

section C28
variable {K : Type} [Field K] [LinearOrder K] [IsStrictOrderedRing K] [FloorRing K]

/-- The mixed derivatives stored per node (`include/gals/cpu/levelset.h`): none in 1D, `xy` in 2D, `xy, yz, zx, xyz` in
3D. -/
noncomputable def mixedOf (d : ℕ) (P : MvPolynomial (Fin 3) K) (x : Fin 3 → K) : List K :=
  if d = 1 then []
  else if d = 2 then [eval x (pderiv 0 (pderiv 1 P))]
  else [eval x (pderiv 0 (pderiv 1 P)), eval x (pderiv 1 (pderiv 2 P)), eval x (pderiv 0 (pderiv 2 P)),
    eval x (pderiv 0 (pderiv 1 (pderiv 2 P)))]

/-- Interpolation, in every dimension, is exact on polynomials of degree at most 3 in each variable. -/
theorem interp_exact {s : IntSem} {d : ℕ} (hs : d < 3 → s = .wrap) {r : Req K} (h : r.Valid d) (hpos : r.Pos d)
    {g : Grid K d} (e : r.make s d = .ok g) {ls : Levelset K} {phi : Cell → K} {psi : Cell → Vec3 K} {mix : Cell → List K}
    (P : PrevIs s r g ls phi psi mix) (Q : MvPolynomial (Fin 3) K) (hQ : ∀ a, Q.degreeOf a ≤ 3)
    (data : ∀ c q, r.Padded d c → g.at' s c.1 c.2.1 c.2.2 = .ok q → phi c = eval q.get Q ∧
      (∀ a : Fin 3, a.val < d → (psi c).get a = eval q.get (pderiv a Q)) ∧ mix c = mixedOf d Q q.get)
    {x : Vec3 K} (hx : InStorage r d x) :
    interpolate s g ls x false = .ok ⟨eval (onAxes d x).get Q, onAxes d ⟨eval (onAxes d x).get (pderiv 0 Q),
      eval (onAxes d x).get (pderiv 1 Q), eval (onAxes d x).get (pderiv 2 Q)⟩⟩ := by
  have G := make_made h e
  obtain ⟨t, ht⟩ := mv_tri Q hQ
  have hat : ∀ {c q}, r.Padded d c → g.at' s c.1 c.2.1 c.2.2 = .ok q → ∀ a : Fin 3, ¬ a.val < d → q.get a = 0 := by
    intro c q hc hq a ha
    rw [G.atC hc] at hq
    rw [← Except.ok.inj hq, nodePos_get, if_neg ha]
  rcases h.dim with rfl | rfl | rfl
  · obtain rfl := hs (by decide)
    have := C14_exact_on_cubics r h hpos g e ls phi psi mix P
      (toPoly fun i => cubic (fun j => cubic (t i j) 0) 0) (by
        unfold toPoly
        compute_degree!) (by
        intro c q hc hq
        obtain ⟨d1, d2, -⟩ := data c q hc hq
        have d2 := d2 0 (by decide)
        obtain ⟨e1, e2, -⟩ := ht q.get
        have q1 : q.get 1 = 0 := hat hc hq 1 (by decide)
        have q2 : q.get 2 = 0 := hat hc hq 2 (by decide)
        rw [q1, q2] at e1 e2
        exact ⟨by rw [d1, toPoly_eval]; exact e1, by rw [toPoly_derivative_eval]; exact d2.trans e2⟩) x hx
    rw [this, toPoly_eval, toPoly_derivative_eval]
    obtain ⟨e1, e2, -⟩ := ht (onAxes 1 x).get
    rw [e1, e2]
    rfl
  · obtain rfl := hs (by decide)
    have := C15_exact_on_bicubics r h hpos g e ls phi psi (fun c => (mix c).headD 0) (by
        refine ⟨P.phi, P.psi, fun c hc => ?_⟩
        obtain ⟨-, -, d3⟩ := data c _ hc (G.atC hc)
        rw [P.mix c hc, d3]
        rfl) (fun i j => cubic (t i j) 0) (by
        intro c q hc hq
        obtain ⟨d1, d2, d3⟩ := data c q hc hq
        obtain ⟨e1, e2, e3, -, e4, -⟩ := ht q.get
        have q2 : q.get 2 = 0 := hat hc hq 2 (by decide)
        rw [q2] at e1 e2 e3 e4
        refine ⟨d1.trans e1, (d2 0 (by decide)).trans e2, (d2 1 (by decide)).trans e3, ?_⟩
        rw [d3]
        exact e4) x hx
    rw [this]
    obtain ⟨e1, e2, e3, -⟩ := ht (onAxes 2 x).get
    rw [e1, e2, e3]
    rfl
  · have := C16_exact_on_tricubics s r h hpos g e ls phi psi (fun c => (mix c).getD 0 0) (fun c => (mix c).getD 1 0)
      (fun c => (mix c).getD 2 0) (fun c => (mix c).getD 3 0) (by
        refine ⟨P.phi, P.psi, fun c hc => ?_⟩
        obtain ⟨-, -, d3⟩ := data c _ hc (G.atC hc)
        rw [P.mix c hc, d3]
        rfl) t (by
        intro c q hc hq
        obtain ⟨d1, d2, d3⟩ := data c q hc hq
        obtain ⟨e1, e2, e3, e4, e5, e6, e7, e8⟩ := ht q.get
        refine ⟨d1.trans e1, Vec3.ext ((d2 0 (by decide)).trans e2) ((d2 1 (by decide)).trans e3)
          ((d2 2 (by decide)).trans e4), ?_, ?_, ?_, ?_⟩
        · rw [d3]; exact e5
        · rw [d3]; exact e6
        · rw [d3]; exact e7
        · rw [d3]; exact e8) x hx
    rw [this]
    obtain ⟨e1, e2, e3, e4, -⟩ := ht (onAxes 3 x).get
    rw [e1, e2, e3, e4]
    rfl

/-- C28, every dimension and every padding at least 1: the previous-step fields sample a polynomial `Q` of degree at most
3 in each variable, with its exact derivatives, at the node positions; the velocity is the constant `u` (its gradient 0)
with `|u_a dt| < dx_a` along used axes.  One semi-Lagrangian step returns, and at every interior cell `phi` is
`Q(x - dt u)` and `psi` is the gradient of `Q` there (`x` the position of the node; 0 along unused axes). -/
theorem C28_translates_cubics (s : IntSem) (d : ℕ) (hs : d < 3 → s = .wrap) (r : Req K) (h : r.Valid d) (hpos : r.Pos d)
    (hpad : 1 ≤ r.pad) (g : Grid K d) (e : r.make s d = .ok g) (gv : Grid K d) (dt : K) (vel : LsVelocity K) (u : Vec3 K)
    (hu : ∀ c, r.Interior c → vel.velocity.get s gv c.1 c.2.1 c.2.2 = .ok u)
    (hg : ∀ c, r.Interior c → vel.grad.get s gv c.1 c.2.1 c.2.2 = .ok Mat3.zero) (ls : Levelset K)
    (phi : Cell → K) (psi : Cell → Vec3 K) (mix : Cell → List K) (hm : ∀ c, (mix c).length = numMixed d)
    (P : PrevIs s r g ls phi psi mix) (p0 p1 : Cell → K) (q0 q1 : Cell → Vec3 K) (hp : FieldIs s r g ls.phi p0)
    (hq : FieldIs s r g ls.psi q0) (hp1 : FieldIs s r g ls.phiInterpPrev p1) (hq1 : FieldIs s r g ls.psiInterpPrev q1)
    (hcfl : ∀ a : Fin 3, a.val < d → |u.get a * dt| < r.h a)
    (Q : MvPolynomial (Fin 3) K) (hQ : ∀ a, Q.degreeOf a ≤ 3)
    (data : ∀ c q, r.Padded d c → g.at' s c.1 c.2.1 c.2.2 = .ok q → phi c = eval q.get Q ∧
      (∀ a : Fin 3, a.val < d → (psi c).get a = eval q.get (pderiv a Q)) ∧ mix c = mixedOf d Q q.get) :
    ∃ ls', temporal .semiLagrangian s g gv dt vel ls = .ok ls' ∧
      ∀ c, r.Interior c → ∃ q v, g.at' s c.1 c.2.1 c.2.2 = .ok q ∧
        ls'.phi.get s g c.1 c.2.1 c.2.2 = .ok (eval (fun a => if a.val < d then q.get a - dt * u.get a else 0) Q) ∧
        ls'.psi.get s g c.1 c.2.1 c.2.2 = .ok v ∧ ∀ a : Fin 3, v.get a = if a.val < d then
          eval (fun a => if a.val < d then q.get a - dt * u.get a else 0) (pderiv a Q) else 0 := by
  have G := make_made h e
  have hd : 0 < d := by rcases h.dim with rfl | rfl | rfl <;> decide
  have hst : ∀ c, r.Interior c → InStorage r d ((nodePos r d c).sub (u.smul dt)) := fun c hc a ha =>
    have := near_node h hpos hpad hc (near_step hcfl) a ha
    ⟨this.1.le, this.2⟩
  obtain ⟨ls', o, h1, h2, -⟩ := slEuler_in_storage hs h hpos G (dt := dt) hu hg hm P hp hq hp1 hq1 hst
  refine ⟨ls', h1, fun c hc => ?_⟩
  obtain ⟨k1, k2, k3⟩ := h2 c hc
  have hx : (onAxes d ((nodePos r d c).sub (u.smul dt))).get =
      fun a => if a.val < d then (nodePos r d c).get a - dt * u.get a else 0 := by
    funext a
    rw [onAxes_get d hd, get_step, mul_comm]
  rw [interp_exact hs h hpos e P Q hQ data (hst c hc), hx] at k1
  rw [← Except.ok.inj k1] at k2 k3
  refine ⟨_, _, G.atC (interior_padded G hc), k2, k3, fun a => ?_⟩
  rw [identity_dot, onAxes_get d hd]
  match a with
  | 0 => rfl
  | 1 => rfl
  | 2 => rfl

end C28

/-- Instance of C28: 2D, padding 2, `x³ y²`, velocity (4, -9), `dt = 1/10` (Courant numbers 0.8 and 0.9); the node of cell
`(2, 1)` is at `(7/4, 5/2)`, the departure point `(27/20, 17/5)`. -/
example : ∃ g : Grid ℚ 2, (demo 2).make .wrap 2 = .ok g ∧ ∃ (vel : LsVelocity ℚ) (ls ls' : Levelset ℚ),
    ls.phiPrev.get .wrap g 2 1 0 = .ok ((7 / 4) ^ 3 * (5 / 2) ^ 2) ∧
    temporal .semiLagrangian .wrap g g (1 / 10) vel ls = .ok ls' ∧
    ls'.phi.get .wrap g 2 1 0 = .ok ((27 / 20) ^ 3 * (17 / 5) ^ 2) := by
  obtain ⟨g, e, -⟩ := C01_padded_addressing .wrap 2 (demo 2) demo2_valid
  have G := make_made demo2_valid e
  obtain ⟨vel, hv, hg⟩ := velocity_exists (s := .wrap) G (fun _ => ⟨4, -9, 100⟩) (fun _ => Mat3.zero)
  set Q : MvPolynomial (Fin 3) ℚ := X 0 ^ 3 * X 1 ^ 2 with hQ
  obtain ⟨ls, h0, h1, h2, h3, P⟩ := levelset_exists (s := .wrap) G (fun _ => 7) (fun _ => 0)
    (fun c => eval (nodePos (demo 2) 2 c).get Q) (fun _ => ⟨0, 0, 0⟩) (fun _ => ⟨0, 0, 0⟩)
    (fun c => ⟨eval (nodePos (demo 2) 2 c).get (pderiv 0 Q), eval (nodePos (demo 2) 2 c).get (pderiv 1 Q), 0⟩)
    (fun c => mixedOf 2 Q (nodePos (demo 2) 2 c).get)
  obtain ⟨ls', k1, k2⟩ := C28_translates_cubics .wrap 2 (fun _ => rfl) (demo 2) demo2_valid (demo_pos 2) (by decide) g e g
    (1 / 10) vel ⟨4, -9, 100⟩ (fun c hc => hv.val c (interior_padded G hc)) (fun c hc => hg.val c (interior_padded G hc)) ls
    _ _ _ (fun _ => rfl) P _ _ _ _ h0 h1 h2 h3 (by
      intro a ha
      match a with
      | 0 => norm_num [demo, Vec3.get, Req.h, abs_lt]
      | 1 => norm_num [demo, Vec3.get, Req.h, abs_lt]
      | 2 => exact absurd ha (by decide)) Q (degreeOf_two 3 2 3 le_rfl (by decide)) (by
      intro c q hc hcq
      rw [G.atC hc] at hcq
      cases hcq
      refine ⟨rfl, fun a ha => ?_, rfl⟩
      match a with
      | 0 => rfl
      | 1 => rfl
      | 2 => exact absurd ha (by decide))
  have hi : (demo 2).Interior (2, 1, 0) := by unfold Req.Interior InteriorCell demo; simp
  have hn : nodePos (demo 2) 2 (2, 1, 0) = ⟨7 / 4, 5 / 2, 0⟩ := by
    unfold nodePos Req.centre Req.h comp demo Vec3.get
    norm_num
  obtain ⟨q, v, m1, m2, -⟩ := k2 (2, 1, 0) hi
  rw [G.atC (interior_padded G hi), hn] at m1
  rw [← Except.ok.inj m1] at m2
  refine ⟨g, e, vel, ls, ls', ?_, k1, ?_⟩
  · have := P.phi (2, 1, 0) (interior_padded G hi)
    rw [hn] at this
    simp only at this
    rw [this]
    simp [hQ, Vec3.get]
  · simp only at m2
    rw [m2]
    simp [hQ, Vec3.get]
    norm_num

/-! ## C29: the gradient update is the chain rule -/

section C29

/-- A function on the three axes as a vector. -/
def vecOf {K : Type} (f : Fin 3 → K) : Vec3 K := ⟨f 0, f 1, f 2⟩

theorem vecOf_get {K : Type} (f : Fin 3 → K) (a : Fin 3) : (vecOf f).get a = f a := by
  match a with
  | 0 => rfl
  | 1 => rfl
  | 2 => rfl

/-- C29, every dimension, data and time step within the bound of C30.  At an interior node `x`, let the stored velocity be
`u x` and the stored velocity gradient the matrix of the derivative `U` of `u` at `x`, for any `u` differentiable at
`x`; `hp`: the padding is 1 (the default), or the departure point is strictly inside a cell.  Then the interpolant at
the departure point, `y ↦ I(y - dt u(y))`, is defined near `x` and differentiable at `x`; its value there is the updated
`phi` and its gradient is the updated `psi`.  Missing for "every grid": paddings other than 1 with the departure point on a face of a
cell, for which it is false (`C29_padding2_false`). -/
theorem C29_chain_rule_partial (s : IntSem) (d : ℕ) (hs : d < 3 → s = .wrap) (r : Req ℝ) (h : r.Valid d) (hpos : r.Pos d)
    (hpad : 1 ≤ r.pad) (g : Grid ℝ d) (e : r.make s d = .ok g) (gv : Grid ℝ d) (dt : ℝ) (vel : LsVelocity ℝ)
    (uc : Cell → Vec3 ℝ) (m : Cell → Mat3 ℝ)
    (hu : ∀ c, r.Interior c → vel.velocity.get s gv c.1 c.2.1 c.2.2 = .ok (uc c))
    (hg : ∀ c, r.Interior c → vel.grad.get s gv c.1 c.2.1 c.2.2 = .ok (m c)) (ls : Levelset ℝ)
    (phi : Cell → ℝ) (psi : Cell → Vec3 ℝ) (mix : Cell → List ℝ) (hm : ∀ c, (mix c).length = numMixed d)
    (P : PrevIs s r g ls phi psi mix) (p0 p1 : Cell → ℝ) (q0 q1 : Cell → Vec3 ℝ) (hp : FieldIs s r g ls.phi p0)
    (hq : FieldIs s r g ls.psi q0) (hp1 : FieldIs s r g ls.phiInterpPrev p1) (hq1 : FieldIs s r g ls.psiInterpPrev q1)
    (hcfl : ∀ c, r.Interior c → ∀ a : Fin 3, a.val < d → |(uc c).get a * dt| < r.h a)
    (c : Cell) (hc : r.Interior c) (x : Vec3 ℝ) (hx : g.at' s c.1 c.2.1 c.2.2 = .ok x)
    (u : (Fin 3 → ℝ) → Fin 3 → ℝ) (U : (Fin 3 → ℝ) →L[ℝ] (Fin 3 → ℝ)) (hU : HasFDerivAt u U x.get)
    (huc : ∀ a, (uc c).get a = u x.get a) (hmc : ∀ a b, (m c).entry a b = U (Pi.single b 1) a)
    (hin : r.pad = 1 ∨ InsideCell r d (x.sub ((uc c).smul dt))) :
    ∃ ls', temporal .semiLagrangian s g gv dt vel ls = .ok ls' ∧
      ∃ (out : (Fin 3 → ℝ) → Interp ℝ) (v : Vec3 ℝ),
        (∀ᶠ y in 𝓝 x.get, interpolate s g ls ((vecOf y).sub ((vecOf (u y)).smul dt)) false = .ok (out y)) ∧
        ls'.phi.get s g c.1 c.2.1 c.2.2 = .ok (out x.get).phi ∧ ls'.psi.get s g c.1 c.2.1 c.2.2 = .ok v ∧
        HasFDerivAt (fun y => (out y).phi) (∑ b : Fin 3, v.get b • ContinuousLinearMap.proj (R := ℝ) b) x.get := by
  have G := make_made h e
  have hstrict : ∀ c, r.Interior c → StrictlyInStorage r d ((nodePos r d c).sub ((uc c).smul dt)) := fun c hc =>
    near_node h hpos hpad hc (near_step (hcfl c hc))
  have hst : ∀ c, r.Interior c → InStorage r d ((nodePos r d c).sub ((uc c).smul dt)) := fun c hc a ha =>
    ⟨(hstrict c hc a ha).1.le, (hstrict c hc a ha).2⟩
  obtain ⟨ls', o, h1, h2, -⟩ := slEuler_in_storage hs h hpos G (dt := dt) hu hg hm P hp hq hp1 hq1 hst
  obtain ⟨k1, k2, k3⟩ := h2 c hc
  have hxn := hx
  rw [G.atC (interior_padded G hc)] at hxn
  have hxn := Except.ok.inj hxn
  rw [hxn] at k1
  have hX0 : (vecOf x.get).sub ((vecOf (u x.get)).smul dt) = x.sub ((uc c).smul dt) := by
    have e0 := huc 0
    have e1 := huc 1
    have e2 := huc 2
    simp only [vecOf, Vec3.sub, Vec3.smul, ← e0, ← e1, ← e2]
    rfl
  set X : (Fin 3 → ℝ) → Vec3 ℝ := fun y => (vecOf y).sub ((vecOf (u y)).smul dt) with hXdef
  set L : Fin 3 → ((Fin 3 → ℝ) →L[ℝ] ℝ) := fun a =>
    ContinuousLinearMap.proj (R := ℝ) a - dt • (ContinuousLinearMap.proj (R := ℝ) a).comp U with hL
  have hX : ∀ a : Fin 3, a.val < d → HasFDerivAt (fun y => (X y).get a) (L a) x.get := by
    intro a _
    have hc1 : HasFDerivAt (fun y : Fin 3 → ℝ => y a) (ContinuousLinearMap.proj (R := ℝ) a) x.get :=
      hasFDerivAt_apply a x.get
    have hc2 : HasFDerivAt (fun y : Fin 3 → ℝ => u y a) ((ContinuousLinearMap.proj (R := ℝ) a).comp U) x.get :=
      hasFDerivAt_pi'.1 hU a
    refine (hc1.sub (hc2.mul_const dt)).congr_of_eventuallyEq (Eventually.of_forall fun y => ?_)
    simp only [hXdef, get_step, vecOf_get]
    rfl
  have hs0 : StrictlyInStorage r d (X x.get) := by
    rw [hXdef]; simp only; rw [hX0, ← hxn]; exact hstrict c hc
  have hev : ∀ᶠ y in 𝓝 x.get, InStorage r d (X y) := hs0.eventually fun a ha => (hX a ha).continuousAt
  obtain ⟨out, hout⟩ := out_exists hs h hpos e hm P hev
  have ho : out x.get = o c := by
    have := hout.self_of_nhds
    rw [hXdef] at this; simp only at this
    rw [hX0, k1] at this
    exact (Except.ok.inj this).symm
  have key : HasFDerivAt (fun y => (out y).phi) (∑ a : Fin 3, (out x.get).psi.get a • L a) x.get := by
    rcases hin with hp | hin
    · exact interp_hasFDerivAt_all hs G h hpos hp hm P hev hX hout
    · refine interp_hasFDerivAt hs G h hpos hm P false ?_ ?_ hX (hout.mono fun y hy => ⟨out y, hy, rfl⟩) hout.self_of_nhds
      · exact hev.self_of_nhds
      · have e0 : X x.get = x.sub ((uc c).smul dt) := hX0
        intro a ha
        rw [e0]
        exact hin a ha
  refine ⟨ls', h1, out, _, hout, by rw [k2, ho], k3, ?_⟩
  refine key.congr_fderiv ?_
  rw [ho]
  have hUy : ∀ (y : Fin 3 → ℝ) (a : Fin 3), U y a = y 0 * (m c).entry a 0 + y 1 * (m c).entry a 1 + y 2 * (m c).entry a 2 := by
    intro y a
    have : y = y 0 • Pi.single 0 1 + y 1 • Pi.single 1 1 + y 2 • Pi.single 2 1 := by
      funext b
      match b with
      | 0 => simp
      | 1 => simp
      | 2 => simp
    conv_lhs => rw [this]
    simp only [map_add, map_smul, Pi.add_apply, Pi.smul_apply, hmc, smul_eq_mul]
  ext y
  simp only [hL, Fin.sum_univ_three, add_apply, smul_apply,
    sub_apply, ContinuousLinearMap.proj_apply, ContinuousLinearMap.comp_apply, smul_eq_mul, hUy]
  simp only [Vec3.get, Mat3.dot, Mat3.sub, Mat3.smul, Mat3.identity, Mat3.mk9, Mat3.pos, Mat3.entry]
  simp
  ring

end C29

/-- Instance of C29: rigid rotation `u(y) = (-y₁, y₀, 0)`, `dt = 1/10`, cell `(2, 1)` of the 4 × 3 grid, whose node is
`(5/4, 3/2)`; data with all values different. -/
example : ∃ g : Grid ℝ 2, (demoR 1).make .wrap 2 = .ok g ∧ ∃ (vel : LsVelocity ℝ) (ls ls' : Levelset ℝ)
    (out : (Fin 3 → ℝ) → Interp ℝ) (v : Vec3 ℝ),
    temporal .semiLagrangian .wrap g g (1 / 10) vel ls = .ok ls' ∧
    (∀ᶠ y in 𝓝 (⟨5 / 4, 3 / 2, 0⟩ : Vec3 ℝ).get,
      interpolate .wrap g ls ((vecOf y).sub ((vecOf ![-y 1, y 0, 0]).smul (1 / 10))) false = .ok (out y)) ∧
    ls'.psi.get .wrap g 2 1 0 = .ok v ∧
    HasFDerivAt (fun y => (out y).phi) (∑ b : Fin 3, v.get b • ContinuousLinearMap.proj (R := ℝ) b)
      (⟨5 / 4, 3 / 2, 0⟩ : Vec3 ℝ).get := by
  obtain ⟨g, e, -⟩ := C01_padded_addressing .wrap 2 (demoR 1) demoR_valid
  have G := make_made demoR_valid e
  obtain ⟨vel, hv, hg⟩ := velocity_exists (s := .wrap) G
    (fun c => ⟨-(nodePos (demoR 1) 2 c).y, (nodePos (demoR 1) 2 c).x, 0⟩) (fun _ => Mat3.mk9 0 (-1) 0 1 0 0 0 0 0)
  obtain ⟨ls, h0, h1, h2, h3, P⟩ := levelset_exists (s := .wrap) G (fun _ => 7) (fun _ => 0)
    (fun c => ((c.1 * c.1 + 10 * c.2.1 : ℤ) : ℝ)) (fun _ => ⟨0, 0, 0⟩) (fun _ => ⟨0, 0, 0⟩) (fun c => ⟨c.1, 2, 0⟩)
    (fun c => [(c.2.1 : ℝ)])
  have hi : (demoR 1).Interior (2, 1, 0) := by unfold Req.Interior InteriorCell demoR; simp
  have hn : nodePos (demoR 1) 2 (2, 1, 0) = ⟨5 / 4, 3 / 2, 0⟩ := by
    unfold nodePos Req.centre Req.h comp demoR Vec3.get
    norm_num
  have hat := G.atC (interior_padded G hi)
  rw [hn] at hat
  let A : (Fin 3 → ℝ) →L[ℝ] (Fin 3 → ℝ) := ContinuousLinearMap.pi
    ![-ContinuousLinearMap.proj (R := ℝ) 1, ContinuousLinearMap.proj (R := ℝ) 0, 0]
  have hA : (A : (Fin 3 → ℝ) → Fin 3 → ℝ) = fun y => ![-y 1, y 0, 0] := by
    funext y a
    match a with
    | 0 => rfl
    | 1 => rfl
    | 2 => rfl
  have hd : HasFDerivAt (fun y : Fin 3 → ℝ => ![-y 1, y 0, 0]) A (⟨5 / 4, 3 / 2, 0⟩ : Vec3 ℝ).get := by
    rw [← hA]; exact A.hasFDerivAt
  obtain ⟨ls', k1, out, v, k2, -, k4, k5⟩ := C29_chain_rule_partial .wrap 2 (fun _ => rfl) (demoR 1) demoR_valid (demoR_pos 1)
    (by decide) g e g (1 / 10) vel _ _ (fun c hc => hv.val c (interior_padded G hc))
    (fun c hc => hg.val c (interior_padded G hc)) ls _ _ _ (fun _ => rfl) P _ _ _ _ h0 h1 h2 h3 (by
      intro c hc a ha
      obtain ⟨a1, a2⟩ := hc.1
      obtain ⟨a3, a4⟩ := hc.2.1
      have b1 : (0 : ℝ) ≤ c.1 := by exact_mod_cast a1
      have b2 : (c.1 : ℝ) ≤ 3 := by have : c.1 ≤ 3 := by simp only [demoR] at a2; omega
                                    exact_mod_cast this
      have b3 : (0 : ℝ) ≤ c.2.1 := by exact_mod_cast a3
      have b4 : (c.2.1 : ℝ) ≤ 2 := by have : c.2.1 ≤ 2 := by simp only [demoR] at a4; omega
                                      exact_mod_cast this
      match a with
      | 0 =>
        rw [abs_lt]
        norm_num [demoR, Vec3.get, Req.h, Req.centre, nodePos, comp]
        constructor <;> linarith
      | 1 =>
        rw [abs_lt]
        norm_num [demoR, Vec3.get, Req.h, Req.centre, nodePos, comp]
        constructor <;> linarith
      | 2 => exact absurd ha (by decide)) (2, 1, 0) hi ⟨5 / 4, 3 / 2, 0⟩ hat (fun y => ![-y 1, y 0, 0]) A hd (by
      intro a
      rw [hn]
      match a with
      | 0 => rfl
      | 1 => rfl
      | 2 => rfl) (by
      intro a b
      rw [hA]
      match a, b with
      | 0, 0 => simp [Mat3.entry, Mat3.mk9, Mat3.pos]
      | 0, 1 => simp [Mat3.entry, Mat3.mk9, Mat3.pos]
      | 0, 2 => simp [Mat3.entry, Mat3.mk9, Mat3.pos]
      | 1, 0 => simp [Mat3.entry, Mat3.mk9, Mat3.pos]
      | 1, 1 => simp [Mat3.entry, Mat3.mk9, Mat3.pos]
      | 1, 2 => simp [Mat3.entry, Mat3.mk9, Mat3.pos]
      | 2, 0 => simp [Mat3.entry, Mat3.mk9, Mat3.pos]
      | 2, 1 => simp [Mat3.entry, Mat3.mk9, Mat3.pos]
      | 2, 2 => simp [Mat3.entry, Mat3.mk9, Mat3.pos]) (.inl rfl)
  exact ⟨g, e, vel, ls, ls', out, v, k1, k2, k4, k5⟩

/-- C29 is false with padding 2: for some data and zero velocity, the interpolant at the departure point is not
differentiable at the node of interior cell 1 (at 5/2), so no stored gradient is its gradient. -/
theorem C29_padding2_false : ∃ g : Grid ℝ 1, (lineR 2).make .wrap 1 = .ok g ∧ g.at' .wrap 1 0 0 = .ok ⟨5 / 2, 0, 0⟩ ∧
    ∃ ls, ∀ out : (Fin 3 → ℝ) → Interp ℝ,
      (∀ᶠ y in 𝓝 (⟨5 / 2, 0, 0⟩ : Vec3 ℝ).get, interpolate .wrap g ls (vecOf y) false = .ok (out y)) →
      ¬ DifferentiableAt ℝ (fun y => (out y).phi) (⟨5 / 2, 0, 0⟩ : Vec3 ℝ).get := by
  obtain ⟨g, e, ls, h1, o, h2, h3⟩ := C18_padding2_false
  have G := make_made lineR2_valid e
  have hi : (lineR 2).Interior (1, 0, 0) := by unfold Req.Interior InteriorCell lineR; simp
  have hn : nodePos (lineR 2) 1 (1, 0, 0) = ⟨5 / 2, 0, 0⟩ := by
    unfold nodePos Req.centre Req.h comp lineR Vec3.get
    norm_num
  have hat := G.atC (interior_padded G hi)
  rw [hn] at hat
  refine ⟨g, e, hat, ls, fun out hout hd => ?_⟩
  have hb : ContinuousAt (fun t : ℝ => (⟨t, 0, 0⟩ : Vec3 ℝ).get) (5 / 2) := by
    refine continuousAt_pi.2 fun a => ?_
    match a with
    | 0 => exact continuousAt_id
    | 1 => exact continuousAt_const
    | 2 => exact continuousAt_const
  have hc : ContinuousAt (fun t : ℝ => (out (⟨t, 0, 0⟩ : Vec3 ℝ).get).phi) (5 / 2) :=
    ContinuousAt.comp (g := fun y => (out y).phi) (f := fun t : ℝ => (⟨t, 0, 0⟩ : Vec3 ℝ).get) hd.continuousAt hb
  have hv : ∀ t : ℝ, vecOf (⟨t, 0, 0⟩ : Vec3 ℝ).get = ⟨t, 0, 0⟩ := fun _ => rfl
  have hev := hb.eventually hout
  simp only [hv] at hev
  have h0 : (out (⟨5 / 2, 0, 0⟩ : Vec3 ℝ).get).phi = 0 := by
    have := hev.self_of_nhds
    rw [h2] at this
    rw [← Except.ok.inj this]
    exact h3
  have hlt : ∀ᶠ t in 𝓝 (5 / 2 : ℝ), (out (⟨t, 0, 0⟩ : Vec3 ℝ).get).phi < 1 / 2 :=
    hc.eventually (gt_mem_nhds (by show (out (⟨5 / 2, 0, 0⟩ : Vec3 ℝ).get).phi < _; rw [h0]; norm_num))
  obtain ⟨ε, hε, hball⟩ := Metric.eventually_nhds_iff.1 (hlt.and hev)
  have hm : (0 : ℝ) < min (ε / 2) (1 / 4) := lt_min (by linarith) (by norm_num)
  have m1 := min_le_left (ε / 2) (1 / 4 : ℝ)
  have m2 := min_le_right (ε / 2) (1 / 4 : ℝ)
  obtain ⟨k1, k2⟩ := hball (y := 5 / 2 - min (ε / 2) (1 / 4)) (by
    rw [Real.dist_eq, abs_lt]
    constructor <;> linarith)
  obtain ⟨o', k3, k4⟩ := h1 (5 / 2 - min (ε / 2) (1 / 4)) (by linarith) (by linarith)
  rw [k3] at k2
  rw [← Except.ok.inj k2] at k1
  linarith

/-! ## C31: ghost cells -/

section C31
variable {K : Type} [Zero K] [One K] [Add K] [Sub K] [Mul K] [Div K] [Neg K] [NatCast K] [IntCast K]
  [LT K] [DecidableLT K] [LE K] [DecidableLE K] [HasFloor K]

/-- What a time loop does to the level set: a step of either scheme, the gradient of `phi` stored in `psi`, interpolation
of the previous-step fields at given points, copying the current fields to the previous-step ones
(`applications/advection/main.cc:118-152`). Velocity and time step may differ from step to step. -/
inductive LsOp (K : Type) (d : ℕ)
  | step (sch : TimeScheme) (gv : Grid K d) (dt : K) (vel : LsVelocity K)
  | gradient (sch : GradScheme)
  | interpolate (gx : Grid K d) (xs : Arr (Vec3 K))
  | copyPrev

/-- Effect of one operation. -/
def LsOp.run {d : ℕ} (s : IntSem) (g : Grid K d) (ls : Levelset K) : LsOp K d → M (Levelset K)
  | .step sch gv dt vel => temporal sch s g gv dt vel ls
  | .gradient sch => do
    let psi ← gradScalar sch s g g ls.phi ls.psi
    return { ls with psi := psi }
  | .interpolate gx xs => hermiteCompute s gx g xs ls
  | .copyPrev => .ok { ls with phiPrev := ls.phiPrev.assign ls.phi, psiPrev := ls.psiPrev.assign ls.psi }

/-- C31, for numbers without laws (doubles included), both readings of `int` overflow, every dimension and padding: after
any sequence of operations that completes, every ghost cell of `phi` and `psi` holds what it held at the start. -/
theorem C31_ghosts_persist (s : IntSem) (d : ℕ) (r : Req K) (h : r.Valid d) (g : Grid K d) (e : r.make s d = .ok g)
    (ls ls' : Levelset K) (p : Cell → K) (q : Cell → Vec3 K) (hp : FieldIs s r g ls.phi p) (hq : FieldIs s r g ls.psi q)
    (ops : List (LsOp K d)) (run : loop ops ls (LsOp.run s g) = .ok ls') (c : Cell) (hc : r.Padded d c)
    (hghost : ¬ r.Interior c) :
    ls'.phi.get s g c.1 c.2.1 c.2.2 = ls.phi.get s g c.1 c.2.1 c.2.2 ∧
    ls'.psi.get s g c.1 c.2.1 c.2.2 = ls.psi.get s g c.1 c.2.1 c.2.2 := by
  have G := make_made h e
  have key : SameGhosts s r g p ls'.phi ∧ SameGhosts s r g q ls'.psi := by
    refine loop_inv_of_ok (fun l : Levelset K => SameGhosts s r g p l.phi ∧ SameGhosts s r g q l.psi)
      ⟨⟨p, hp, fun _ _ _ => rfl⟩, ⟨q, hq, fun _ _ _ => rfl⟩⟩ ?_ run
    rintro op - l l' ⟨k1, k2⟩ er
    cases op with
    | step sch gv dt vel =>
      cases sch with
      | euler =>
        obtain ⟨m1, m2⟩ := explicitEuler_ghosts G k1 er
        exact ⟨m1, by rw [m2]; exact k2⟩
      | semiLagrangian => exact slEuler_ghosts G k1 k2 er
    | gradient sch =>
      obtain ⟨psi, e1, e2⟩ := bind_ok er
      cases e2
      exact ⟨k1, gradScalar_ghosts G k1.choose_spec.1.ext k2 e1⟩
    | interpolate gx xs =>
      obtain ⟨m1, m2⟩ := hermiteCompute_ghosts er
      exact ⟨by rw [m1]; exact k1, by rw [m2]; exact k2⟩
    | copyPrev =>
      cases er
      exact ⟨k1, k2⟩
  obtain ⟨⟨p', a1, a2⟩, ⟨q', b1, b2⟩⟩ := key
  rw [a1.val c hc, b1.val c hc, hp.val c hc, hq.val c hc, a2 c hc hghost, b2 c hc hghost]
  exact ⟨rfl, rfl⟩

end C31

/-- Instance of C31: two semi-Lagrangian steps, each preceded by the central gradient and the copies, complete, and ghost
cell `(4, 1)` still holds 7. -/
example : ∃ g : Grid ℚ 2, (demo 1).make .wrap 2 = .ok g ∧ ∃ (vel : LsVelocity ℚ) (ls ls' : Levelset ℚ),
    loop [.gradient .central, .copyPrev, .step .semiLagrangian g (1 / 10) vel,
      .gradient .central, .copyPrev, .step .semiLagrangian g (1 / 10) vel] ls (LsOp.run .wrap g) = .ok ls' ∧
    ls'.phi.get .wrap g 4 1 0 = .ok 7 := by
  obtain ⟨g, e, -⟩ := C01_padded_addressing .wrap 2 (demo 1) demo_valid
  have G := make_made demo_valid e
  obtain ⟨vel, hv, hg⟩ := velocity_exists (s := .wrap) G (fun c => ⟨if c.1 = 2 then 4 else -4, if c.2.1 = 1 then -9 else 9, 100⟩)
    (fun c => Mat3.mk9 c.1 2 3 4 5 6 7 8 9)
  obtain ⟨ls, h0, h1, h2, h3, P⟩ := levelset_exists (s := .wrap) G (fun c => if c = (4, 1, 0) then 7 else 2) (fun _ => 0)
    (fun c => (c.1 : ℚ) / 2 + 1 / 4) (fun _ => ⟨0, 0, 0⟩) (fun _ => ⟨0, 0, 0⟩) (fun _ => ⟨1, 0, 0⟩) (fun _ => [0])
  have one : ∀ l : Levelset ℚ, (∃ p, FieldIs .wrap (demo 1) g l.phi p) → (∃ p, FieldIs .wrap (demo 1) g l.psi p) →
      (∃ p, FieldIs .wrap (demo 1) g l.phiInterpPrev p) → (∃ p, FieldIs .wrap (demo 1) g l.psiInterpPrev p) →
      (∀ c, (demo 1).Padded 2 c → l.phiMixedPrev.get .wrap g c.1 c.2.1 c.2.2 = .ok [0]) →
      ∃ l', loop [LsOp.gradient .central, .copyPrev, .step .semiLagrangian g (1 / 10) vel] l (LsOp.run .wrap g) = .ok l' ∧
      (∃ p, FieldIs .wrap (demo 1) g l'.phi p) ∧ (∃ p, FieldIs .wrap (demo 1) g l'.psi p) ∧
      (∃ p, FieldIs .wrap (demo 1) g l'.phiInterpPrev p) ∧ (∃ p, FieldIs .wrap (demo 1) g l'.psiInterpPrev p) ∧
      (∀ c, (demo 1).Padded 2 c → l'.phiMixedPrev.get .wrap g c.1 c.2.1 c.2.2 = .ok [0]) := by
    rintro l ⟨p, hp⟩ ⟨q, hq⟩ ⟨p1, hp1⟩ ⟨q1, hq1⟩ hm
    obtain ⟨psi', q', a1, a2, -, -⟩ := gradScalar_ok (sch := .central) G G rfl (by decide) hp hq
    have hPrev : PrevIs .wrap (demo 1) g { l with psi := psi', phiPrev := l.phiPrev.assign l.phi, psiPrev := l.psiPrev.assign psi' }
      p q' (fun _ => [0]) := ⟨fun c hc => hp.val c hc, fun c hc => a2.val c hc, hm⟩
    have : Nonempty (Interp ℚ) := ⟨⟨0, ⟨0, 0, 0⟩⟩⟩
    obtain ⟨o, ho⟩ := choose_ok (p := (demo 1).Interior) (f := fun c => interpolate .wrap g
      { l with psi := psi', phiPrev := l.phiPrev.assign l.phi, psiPrev := l.psiPrev.assign psi' }
      ((nodePos (demo 1) 2 c).sub (Vec3.smul ⟨if c.1 = 2 then 4 else -4, if c.2.1 = 1 then -9 else 9, 100⟩ (1 / 10))) false)
      fun c hc => interp_ok (fun _ => rfl) G demo_valid (demo_pos 1) (fun _ => rfl) hPrev (by
        intro a ha
        have := near_node demo_valid (demo_pos 1) (by decide) hc (near_step (dt := 1 / 10)
          (u := ⟨if c.1 = 2 then 4 else -4, if c.2.1 = 1 then -9 else 9, 100⟩) (by
          intro a ha
          match a with
          | 0 =>
            by_cases h : c.1 = 2 <;> norm_num [demo, Vec3.get, Req.h, h, abs_lt]
          | 1 =>
            by_cases h : c.2.1 = 1 <;> norm_num [demo, Vec3.get, Req.h, h, abs_lt]
          | 2 => exact absurd ha (by decide))) a ha
        exact ⟨this.1.le, this.2⟩) false
    obtain ⟨l', b1, b2, b3, b4, b5, b6, b7, b8, b9⟩ := slEuler_ok (dt := 1 / 10) G (fun c hc => hv.val c (interior_padded G hc))
      (fun c hc => hg.val c (interior_padded G hc)) (fun c hc => G.atC (interior_padded G hc))
      (ls := { l with psi := psi', phiPrev := l.phiPrev.assign l.phi, psiPrev := l.psiPrev.assign psi' }) hp a2 hp1 hq1 ho
    refine ⟨l', ?_, ⟨_, b2⟩, ⟨_, b3⟩, ⟨_, b8⟩, ⟨_, b9⟩, fun c hc => by rw [b7]; exact hm c hc⟩
    rw [loop_cons]
    simp only [LsOp.run]
    rw [a1]
    simp only [M.ok_bind, M.pure_eq]
    rw [loop_cons, LsOp.run, M.ok_bind, loop_cons, LsOp.run, temporal]
    simp only
    rw [b1]
    rfl
  obtain ⟨l1, c1, c2, c3, c4, c5, c6⟩ := one ls ⟨_, h0⟩ ⟨_, h1⟩ ⟨_, h2⟩ ⟨_, h3⟩ P.mix
  obtain ⟨l2, d1, -⟩ := one l1 c2 c3 c4 c5 c6
  have hrun : loop ([.gradient .central, .copyPrev, .step .semiLagrangian g (1 / 10) vel] ++
      [.gradient .central, .copyPrev, .step .semiLagrangian g (1 / 10) vel]) ls (LsOp.run .wrap g) = .ok l2 := by
    rw [loop_append, c1, M.ok_bind, d1]
  refine ⟨g, e, vel, ls, l2, hrun, ?_⟩
  have hpd : (demo 1).Padded 2 (4, 1, 0) := by unfold Req.Padded PaddedCell padAlong demo; simp
  have := (C31_ghosts_persist .wrap 2 (demo 1) demo_valid g e ls l2 _ _ h0 h1 _ hrun (4, 1, 0) hpd (by
      unfold Req.Interior InteriorCell demo; simp)).1
  rw [h0.val _ hpd] at this
  simpa using this

end Gals.Props
