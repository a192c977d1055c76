import Verif.Lemmas.Level
import Verif.Props.Temporal
import Verif.Props.Zoom

/-!
# C122: all levels are treated alike
-/

namespace Gals.Props

open Gals Gals.Spec

section exact
variable {K : Type} [Field K] [LinearOrder K] [IsStrictOrderedRing K] [FloorRing K]

/-- C122, interpolation with and without the limiter, in exact arithmetic, any padding.  The second level set is `k` times the first plus `a`, where
`k` can be negative but not zero: so is what the interpolation returns at every point between the stored nodes, nodes included. -/
theorem C122_interpolation (s : IntSem) (d : ℕ) (hs : d < 3 → s = .wrap) (k a : K) (hk : k ≠ 0) (r : Req K) (h : r.Valid d)
    (hpos : r.Pos d) (g : Grid K d) (e : r.make s d = .ok g) (ls ls' : Levelset K)
    (F F' : Cell → K) (G G' : Cell → Vec3 K) (X X' : Cell → List K) (hX : ∀ c, (X c).length = numMixed d)
    (hX' : ∀ c, (X' c).length = numMixed d) (P : PrevIs s r g ls F G X) (P' : PrevIs s r g ls' F' G' X')
    (T : Levels k a d r F F' G G' X X') (x : Vec3 K) (hx : InStorage r d x) (lim : Bool) :
    ∃ y y', interpolate s g ls x lim = .ok y ∧ interpolate s g ls' x lim = .ok y' ∧ y'.phi = k * y.phi + a ∧
      ∀ i, y'.psi.get i = k * y.psi.get i := by
  have M := make_made h e
  obtain ⟨y, q⟩ := interp_ok hs M h hpos hX P hx lim
  exact ⟨y, _, q, interp_level hs hk h hpos M hX hX' P P' T hx q, rfl, fun i => lvV_get ..⟩

/-- C122, the differences of both schemes, in exact arithmetic; here `k` can be zero too. -/
theorem C122_gradient (sch : GradScheme) (s : IntSem) (d : ℕ) (k a : K) (r : Req K) (h : r.Valid d)
    (hp : 2 ≤ r.pad ∨ sch = .central ∧ 1 ≤ r.pad) (g : Grid K d) (e : r.make s d = .ok g)
    (al al' : Arr K) (f f' : Cell → K) (hf : FieldIs s r g al f) (hf' : FieldIs s r g al' f')
    (T : ∀ c, r.Padded d c → f' c = k * f c + a) (gr gr' : Arr (Vec3 K)) (q q' : Cell → Vec3 K) (hq : FieldIs s r g gr q)
    (hq' : FieldIs s r g gr' q') (Q : ∀ c, r.Padded d c → ∀ i, (q' c).get i = k * (q c).get i) :
    ∃ y y', gradScalar sch s g g al gr = .ok y ∧ gradScalar sch s g g al' gr' = .ok y' ∧ ∀ c, r.Padded d c →
      ∃ v v', y.get s g c.1 c.2.1 c.2.2 = .ok v ∧ y'.get s g c.1 c.2.1 c.2.2 = .ok v' ∧ ∀ i, v'.get i = k * v.get i := by
  have M := make_made h e
  have hr : reach sch ≤ r.pad := by
    rcases hp with hp | ⟨rfl, hp⟩
    · cases sch <;> simp only [reach] <;> omega
    · exact hp
  obtain ⟨y, p, w, fp, out, i⟩ := gradScalar_ok (sch := sch) M M rfl hr hf hq
  obtain ⟨y', p', w', fp', out', i'⟩ := gradScalar_ok (sch := sch) M M rfl hr hf' hq'
  refine ⟨y, y', w, w', fun c hc => ⟨_, _, fp.val c hc, fp'.val c hc, fun j => ?_⟩⟩
  by_cases ic : r.Interior c
  · exact level_diff M hr ic T (Q c hc j) (i' c ic j) (i c ic j)
  · rw [out c ic, out' c ic, Q c hc]

/-- C122, time steps in exact arithmetic: the fluid moves less than a cell per step.  The second level set is `k` times the first plus `a`: any number
of steps returns for both, and the second result is `k` times the first plus `a`.  This holds with the gradient carried along, and with the gradient
recomputed in every step as the application does it (two layers of padding). -/
theorem C122_steps (s : IntSem) (d : ℕ) (hs : d < 3 → s = .wrap) (k a : K) (hk : k ≠ 0) (r : Req K) (h : r.Valid d)
    (hpos : r.Pos d) (hp : 1 ≤ r.pad) (g : Grid K d) (e : r.make s d = .ok g)
    (rv : Req K) (hv : rv.Valid d) (hn : rv.n = r.n) (gv : Grid K d) (ev : rv.make s d = .ok gv)
    (dt : K) (vel : LsVelocity K) (u : Cell → Vec3 K) (m : Cell → Mat3 K)
    (hu : FieldIs s rv gv vel.velocity u) (hg : FieldIs s rv gv vel.grad m)
    (hcfl : ∀ c, r.Interior c → ∀ a : Fin 3, a.val < d → |(u c).get a * dt| < r.h a) (ls ls' : Levelset K)
    (F F' : Cell → K) (G G' : Cell → Vec3 K) (X X' : Cell → List K) (hX : ∀ c, (X c).length = numMixed d)
    (hX' : ∀ c, (X' c).length = numMixed d) (S : Stored s r g ls F G X) (S' : Stored s r g ls' F' G' X')
    (T : Levels k a d r F F' G G' X X') (n : ℕ) :
    (∃ l l', carrySteps s g gv dt vel n ls = .ok l ∧ carrySteps s g gv dt vel n ls' = .ok l' ∧ SameLevels s d k a r g l l') ∧
    (2 ≤ r.pad → ∃ l l', recomputeSteps s g gv dt vel n ls = .ok l ∧ recomputeSteps s g gv dt vel n ls' = .ok l' ∧
      SameLevels s d k a r g l l') := by
  have M := make_made h e
  have Mv := make_made hv ev
  have hi : ∀ c, r.Interior c → rv.Padded d c := fun c hc => interior_padded Mv (by unfold Req.Interior; rw [hn]; exact hc)
  have k1 := fun c hc => hu.val c (hi c hc)
  have k2 := fun c hc => hg.val c (hi c hc)
  have fin : ∀ {l l' : Levelset K} {A A' : Cell → K} {B B' : Cell → Vec3 K}, Stored s r g l A B X → Stored s r g l' A' B' X' →
      Levels k a d r A A' B B' X X' → SameLevels s d k a r g l l' := fun R R' T c hc =>
    ⟨_, _, _, R.phi.val c hc, R.psi.val c hc, by rw [← T.phi c hc]; exact R'.phi.val c hc, R'.psi.val c hc, T.psi c hc⟩
  constructor
  · have all : ∃ l l' A A' B B', carrySteps s g gv dt vel n ls = .ok l ∧ carrySteps s g gv dt vel n ls' = .ok l' ∧ Stored s r g l A B X ∧
        Stored s r g l' A' B' X' ∧ Levels k a d r A A' B B' X X' := by
      induction n with
      | zero => exact ⟨ls, ls', F, F', G, G', rfl, rfl, S, S', T⟩
      | succ n ih =>
        obtain ⟨l, l', A, A', B, B', q, q', R, R', T⟩ := ih
        unfold carrySteps
        rw [q, q', _root_.Gals.M.ok_bind, _root_.Gals.M.ok_bind]
        exact carry_level hs hk h hpos hp M k1 k2 hcfl hX hX' R R' T
    obtain ⟨l, l', A, A', B, B', q, q', R, R', T⟩ := all
    exact ⟨l, l', q, q', fin R R' T⟩
  · intro hp2
    have all : ∃ l l' A A' B B', recomputeSteps s g gv dt vel n ls = .ok l ∧ recomputeSteps s g gv dt vel n ls' = .ok l' ∧
        Stored s r g l A B X ∧ Stored s r g l' A' B' X' ∧ Levels k a d r A A' B B' X X' := by
      induction n with
      | zero => exact ⟨ls, ls', F, F', G, G', rfl, rfl, S, S', T⟩
      | succ n ih =>
        obtain ⟨l, l', A, A', B, B', q, q', R, R', T⟩ := ih
        unfold recomputeSteps
        rw [q, q', _root_.Gals.M.ok_bind, _root_.Gals.M.ok_bind]
        exact recompute_level hs hk h hpos hp M k1 k2 hcfl hp2 hX hX' R R' T
    obtain ⟨l, l', A, A', B, B', q, q', R, R', T⟩ := all
    exact ⟨l, l', q, q', fin R R' T⟩

omit [IsStrictOrderedRing K] in
/-- C122 is false of the explicit Euler step, which moves the values by the first velocity component whatever the level set is (C26): the second
result is `k` times the first plus `a`, and more by `k - 1` times the time step times that component. -/
theorem C122_euler (s : IntSem) (d : ℕ) (k a : K) (r : Req K) (h : r.Valid d) (g : Grid K d) (e : r.make s d = .ok g) (gv : Grid K d) (dt : K)
    (vel : LsVelocity K) (u : Cell → Vec3 K) (hu : ∀ c, r.Interior c → vel.velocity.get s gv c.1 c.2.1 c.2.2 = .ok (u c)) (ls ls' : Levelset K)
    (p p' f f' : Cell → K) (hp : FieldIs s r g ls.phi p) (hp' : FieldIs s r g ls'.phi p')
    (hf : ∀ c, r.Interior c → ls.phiPrev.get s g c.1 c.2.1 c.2.2 = .ok (f c))
    (hf' : ∀ c, r.Interior c → ls'.phiPrev.get s g c.1 c.2.1 c.2.2 = .ok (f' c)) (T : ∀ c, r.Interior c → f' c = k * f c + a) :
    ∃ l l', temporal .euler s g gv dt vel ls = .ok l ∧ temporal .euler s g gv dt vel ls' = .ok l' ∧ ∀ c, r.Interior c →
      ∃ y, l.phi.get s g c.1 c.2.1 c.2.2 = .ok y ∧ l'.phi.get s g c.1 c.2.1 c.2.2 = .ok (k * y + a + (k - 1) * (dt * (u c).x)) := by
  obtain ⟨x, q, w, -⟩ := C26_explicit_euler_partial s d r h g e gv dt vel u hu ls p f hp hf
  obtain ⟨x', q', w', -⟩ := C26_explicit_euler_partial s d r h g e gv dt vel u hu ls' p' f' hp' hf'
  refine ⟨_, _, q, q', fun c hc => ⟨_, w c hc, ?_⟩⟩
  rw [w' c hc, T c hc]
  exact congrArg Except.ok (by ring)

end exact

/-! ## Instances -/

/-- Instance of `C122_euler`: twice the level set in the flow `(1, 0, 0)`. -/
theorem C122_euler_inst : ∃ (g : Grid ℚ 2) (vel : LsVelocity ℚ) (ls ls' l l' : Levelset ℚ) (y : ℚ), (demo 2).make .wrap 2 = .ok g ∧
    vel.velocity.get .wrap g 1 2 0 = .ok ⟨1, 0, 0⟩ ∧ FieldIs .wrap (demo 2) g ls.phiPrev skewF ∧
    FieldIs .wrap (demo 2) g ls'.phiPrev (fun c => 2 * skewF c + 0) ∧ temporal .euler .wrap g g (1 / 10) vel ls = .ok l ∧
    temporal .euler .wrap g g (1 / 10) vel ls' = .ok l' ∧ l.phi.get .wrap g 1 2 0 = .ok y ∧ l'.phi.get .wrap g 1 2 0 = .ok (2 * y + 1 / 10) := by
  obtain ⟨g, e, M⟩ := make_ok .wrap demo2_valid
  obtain ⟨va, h1⟩ := fieldIs_exists (s := .wrap) M fun _ => (⟨1, 0, 0⟩ : Vec3 ℚ)
  obtain ⟨vb, h2⟩ := fieldIs_exists (s := .wrap) M fun _ => (Mat3.mk9 0 0 0 0 0 0 0 0 0 : Mat3 ℚ)
  obtain ⟨a, ha⟩ := fieldIs_exists (s := .wrap) M skewF
  obtain ⟨b, hb⟩ := fieldIs_exists (s := .wrap) M skewG
  obtain ⟨x, hx⟩ := fieldIs_exists (s := .wrap) M fun c => [(c.1 : ℚ)]
  obtain ⟨a', ha'⟩ := fieldIs_exists (s := .wrap) M fun c => 2 * skewF c + 0
  have i0 : (demo 2).Interior (1, 2, 0) := by unfold Req.Interior InteriorCell demo; simp
  obtain ⟨l, l', q, q', w⟩ := C122_euler .wrap 2 2 0 (demo 2) demo2_valid g e g (1 / 10) ⟨va, vb⟩ _ (fun c hc => h1.val c (interior_padded M hc))
    ⟨a, b, x, a, b, x, a, b⟩ ⟨a', b, x, a', b, x, a', b⟩ skewF (fun c => 2 * skewF c + 0) skewF (fun c => 2 * skewF c + 0) ha ha' (fun c hc => ha.val c (interior_padded M hc))
    (fun c hc => ha'.val c (interior_padded M hc)) (fun _ _ => rfl)
  obtain ⟨y, w1, w2⟩ := w (1, 2, 0) i0
  have v := h1.val (1, 2, 0) (interior_padded M i0)
  rw [show (2 : ℚ) * y + 0 + (2 - 1) * (1 / 10 * (⟨1, 0, 0⟩ : Vec3 ℚ).x) = 2 * y + 1 / 10 by norm_num] at w2
  exact ⟨g, ⟨va, vb⟩, ⟨a, b, x, a, b, x, a, b⟩, ⟨a', b, x, a', b, x, a', b⟩, l, l', y, e, v, ha, ha', q, q', w1, w2⟩

theorem levels_self {d : ℕ} (k a : ℚ) (r : Req ℚ) (F : Cell → ℚ) (G : Cell → Vec3 ℚ) (X : Cell → List ℚ) :
    Levels k a d r F (fun c => k * F c + a) G (fun c => lvV k (G c)) X (fun c => (X c).map (k * ·)) :=
  ⟨fun _ _ => rfl, fun _ _ _ => lvV_get .., fun _ _ => rfl⟩

/-- Instance of `C122_interpolation`: the data of `C117_interpolation_inst`, with the limiter, inside and outside of the interface exchanged. -/
theorem C122_interpolation_inst : ∃ (g : Grid ℚ 3) (ls ls' : Levelset ℚ) (y y' : Interp ℚ), (box 1).make .strict 3 = .ok g ∧
    PrevIs .strict (box 1) g ls skewF skewG skewX ∧
    interpolate .strict g ls ⟨1 / 4, 1, 5 / 2⟩ true = .ok y ∧ interpolate .strict g ls' ⟨1 / 4, 1, 5 / 2⟩ true = .ok y' ∧
    y'.phi = -3 * y.phi + 7 ∧ ∀ i, y'.psi.get i = -3 * y.psi.get i := by
  obtain ⟨g, e, M⟩ := make_ok .strict box_valid
  obtain ⟨ls, P⟩ := prevIs_exists M skewF skewG skewX
  obtain ⟨ls', P'⟩ := prevIs_exists M (fun c => -3 * skewF c + 7) (fun c => lvV (-3) (skewG c)) (fun c => (skewX c).map (-3 * ·))
  obtain ⟨y, y', w, w', p, q⟩ := C122_interpolation .strict 3 (by decide) (-3) 7 (by norm_num) (box 1) box_valid (box_pos 1) g e ls ls' _ _ _ _ _ _
    (fun _ => rfl) (fun _ => rfl) P P' (levels_self (-3) 7 (box 1) skewF skewG skewX) ⟨1 / 4, 1, 5 / 2⟩
    (inStorage_of_box box_valid (box_pos 1) (by decide) fun a _ => by
      match a with
      | 0 => norm_num [Vec3.get, box]
      | 1 => norm_num [Vec3.get, box]
      | 2 => norm_num [Vec3.get, box]) true
  exact ⟨g, ls, ls', y, y', e, P, w, w', p, q⟩

/-- Instance of `C122_steps`: the flow `(y, 0)` on the grid `demo 2`. -/
theorem C122_steps_inst : ∃ (g : Grid ℚ 2) (vel : LsVelocity ℚ) (ls ls' l l' : Levelset ℚ) (f : ℚ), (demo 2).make .wrap 2 = .ok g ∧
    vel.velocity.get .wrap g 1 2 0 = .ok ⟨2, 0, 0⟩ ∧ FieldIs .wrap (demo 2) g ls.phi skewF ∧
    recomputeSteps .wrap g g (1 / 10) vel 3 ls = .ok l ∧ recomputeSteps .wrap g g (1 / 10) vel 3 ls' = .ok l' ∧
    l.phi.get .wrap g 1 2 0 = .ok f ∧ l'.phi.get .wrap g 1 2 0 = .ok (-3 * f + 7) := by
  obtain ⟨g, e, M⟩ := make_ok .wrap demo2_valid
  obtain ⟨va, h1⟩ := fieldIs_exists (s := .wrap) M fun c => (⟨c.2.1, 0, 0⟩ : Vec3 ℚ)
  obtain ⟨vb, h2⟩ := fieldIs_exists (s := .wrap) M fun _ => (Mat3.mk9 0 1 0 0 0 0 0 0 0 : Mat3 ℚ)
  have T := levels_self (d := 2) (-3) 7 (demo 2) skewF skewG (fun c => [(c.1 : ℚ)])
  obtain ⟨a, ha⟩ := fieldIs_exists (s := .wrap) M skewF
  obtain ⟨b, hb⟩ := fieldIs_exists (s := .wrap) M skewG
  obtain ⟨x, hx⟩ := fieldIs_exists (s := .wrap) M fun c => [(c.1 : ℚ)]
  obtain ⟨a', ha'⟩ := fieldIs_exists (s := .wrap) M fun c => -3 * skewF c + 7
  obtain ⟨b', hb'⟩ := fieldIs_exists (s := .wrap) M fun c => lvV (-3) (skewG c)
  obtain ⟨x', hx'⟩ := fieldIs_exists (s := .wrap) M fun c => [(c.1 : ℚ)].map (-3 * ·)
  have S : Stored .wrap (demo 2) g ⟨a, b, x, a, b, x, a, b⟩ skewF skewG (fun c => [(c.1 : ℚ)]) :=
    ⟨ha, hb, ⟨_, ha⟩, ⟨_, hb⟩, ⟨_, ha⟩, ⟨_, hb⟩, hx⟩
  have S' : Stored .wrap (demo 2) g ⟨a', b', x', a', b', x', a', b'⟩ _ _ _ :=
    ⟨ha', hb', ⟨_, ha'⟩, ⟨_, hb'⟩, ⟨_, ha'⟩, ⟨_, hb'⟩, hx'⟩
  have p0 : (demo 2).Padded 2 (1, 2, 0) := by unfold Req.Padded PaddedCell padAlong demo; simp
  obtain ⟨-, N⟩ := C122_steps .wrap 2 (fun _ => rfl) (-3) 7 (by norm_num) (demo 2) demo2_valid (demo_pos 2) (by decide) g e (demo 2) demo2_valid rfl
    g e (1 / 10) ⟨va, vb⟩ _ _ h1 h2 (fun c hc a ha => by
      have c1 := comp_interior hc 1
      match a with
      | 0 =>
        have : ((c.2.1 : ℤ) : ℚ) ≤ 2 := by exact_mod_cast (show c.2.1 ≤ 2 from by have : c.2.1 < 3 := c1.2; omega)
        have : (0 : ℚ) ≤ ((c.2.1 : ℤ) : ℚ) := by exact_mod_cast (show (0 : ℤ) ≤ c.2.1 from c1.1)
        change |((c.2.1 : ℤ) : ℚ) * (1 / 10)| < (2 - 0) / ((4 : ℤ) : ℚ)
        rw [abs_of_nonneg (by positivity)]
        norm_num
        linarith
      | 1 =>
        change |(0 : ℚ) * (1 / 10)| < (3 - 0) / ((3 : ℤ) : ℚ)
        norm_num
      | 2 => exact absurd ha (by decide)) _ _ _ _ _ _ _ _ (fun _ => rfl) (fun _ => rfl) S S' T 3
  obtain ⟨l, l', q1, q2, q3⟩ := N (by decide)
  obtain ⟨f, p, p', w1, -, w2, -, -⟩ := q3 (1, 2, 0) p0
  exact ⟨g, ⟨va, vb⟩, _, _, l, l', f, e, h1.val (1, 2, 0) p0, ha, q1, q2, w1, w2⟩

/-- Instance of `C122_gradient`: both schemes, values the squares. -/
theorem C122_gradient_inst (sch : GradScheme) : ∃ (g : Grid ℚ 1) (al al' : Arr ℚ) (gr gr' y y' : Arr (Vec3 ℚ)) (v v' : Vec3 ℚ),
    (line 2).make .wrap 1 = .ok g ∧ FieldIs .wrap (line 2) g al (fun c => (c.1 : ℚ) * c.1) ∧
    FieldIs .wrap (line 2) g al' (fun c => -3 * ((c.1 : ℚ) * c.1) + 7) ∧
    gradScalar sch .wrap g g al gr = .ok y ∧ gradScalar sch .wrap g g al' gr' = .ok y' ∧
    y.get .wrap g 1 0 0 = .ok v ∧ y'.get .wrap g 1 0 0 = .ok v' ∧ v'.x = -3 * v.x := by
  obtain ⟨g, e, M⟩ := make_ok .wrap line2_valid
  obtain ⟨al, hf⟩ := fieldIs_exists (s := .wrap) M fun c => (c.1 : ℚ) * c.1
  obtain ⟨al', hf'⟩ := fieldIs_exists (s := .wrap) M fun c => -3 * ((c.1 : ℚ) * c.1) + 7
  obtain ⟨gr, hq⟩ := fieldIs_exists (s := .wrap) M fun _ => (⟨3, 4, 5⟩ : Vec3 ℚ)
  obtain ⟨gr', hq'⟩ := fieldIs_exists (s := .wrap) M fun _ => lvV (-3) (⟨3, 4, 5⟩ : Vec3 ℚ)
  have p0 : (line 2).Padded 1 (1, 0, 0) := by unfold Req.Padded PaddedCell padAlong line; simp
  obtain ⟨y, y', w, w', q⟩ := C122_gradient sch .wrap 1 (-3) 7 (line 2) line2_valid (.inl (by decide)) g e al al' _ _ hf hf'
    (fun _ _ => rfl) gr gr' _ _ hq hq' (fun _ _ _ => lvV_get ..)
  obtain ⟨v, v', q1, q2, q3⟩ := q (1, 0, 0) p0
  exact ⟨g, al, al', gr, gr', y, y', v, v', e, hf, hf', w, w', q1, q2, q3 0⟩

/-! ## Doubles -/

/-- What the interpolation returns in doubles on the square for a level set and for the same plus `a`. -/
def levelWays (a : F64) : M (F64 × F64) := do
  let g ← sqrD.make .wrap 2
  let x : Vec3 F64 := ⟨F64.round false (9 / 10), 1, 0⟩
  let y ← interpolate .wrap g (sqrLs g (fun i _ => (i : F64)) fun _ _ => ⟨1, 0, 0⟩) x false
  let y' ← interpolate .wrap g (sqrLs g (fun i _ => (i : F64) + a) fun _ _ => ⟨1, 0, 0⟩) x false
  return (y.phi + a, y'.phi)

/-- C122 is false in doubles: the values 0 and 1 of the nodes around the point 9/10 and the same plus `2 ^ 52` are all doubles, but the interpolated
value plus `2 ^ 52`, rounded, is `2 ^ 52`, and the second interpolation returns `2 ^ 52 + 2`, more than all values around the point.  With 3 added
the results differ by rounding. -/
theorem C122_double_false : (1 : F64) + F64.round false (2 ^ 52) = F64.round false (2 ^ 52 + 1) ∧
    levelWays (F64.round false (2 ^ 52)) = .ok (F64.round false (2 ^ 52), F64.round false (2 ^ 52 + 2)) ∧
    levelWays (F64.round false 3) = .ok (F64.round false (7656119366529844 / 2251799813685248), F64.round false (7656119366529845 / 2251799813685248)) ∧
    F64.round false (7656119366529844 / 2251799813685248) ≠ F64.round false (7656119366529845 / 2251799813685248) :=
  ⟨by decide +kernel, by decide +kernel, by decide +kernel, by decide +kernel⟩

end Gals.Props
