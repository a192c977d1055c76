import Verif.Lemmas.Axes
import Verif.Props.Local

/-!
# C117: the axes are treated alike
-/

namespace Gals.Props

open Gals Gals.Spec

section exact
variable {K : Type} [Field K] [LinearOrder K] [IsStrictOrderedRing K] [FloorRing K]

/-- C117, interpolation, in exact arithmetic.  `σ` renames the used axes.  The second level set, on the second grid, is the first in the new
axes: then so is what the interpolation without the limiter returns, at every point among the stored nodes. -/
theorem C117_interpolation (s : IntSem) (d : ℕ) (hs : d < 3 → s = .wrap) (σ : Equiv.Perm (Fin 3)) (hσ : KeepsUsed d σ) (r : Req K)
    (h : r.Valid d) (hpos : r.Pos d) (g g' : Grid K d) (e : r.make s d = .ok g) (e' : (r.perm σ).make s d = .ok g') (ls ls' : Levelset K)
    (F F' : Cell → K) (G G' : Cell → Vec3 K) (X X' : Cell → List K) (hX : ∀ c, (X c).length = numMixed d)
    (hX' : ∀ c, (X' c).length = numMixed d) (P : PrevIs s r g ls F G X) (P' : PrevIs s (r.perm σ) g' ls' F' G' X')
    (T : Turned d σ r F F' G G' X X') (x : Vec3 K) (hx : InStorage r d x) :
    ∃ o, interpolate s g ls x false = .ok o ∧ interpolate s g' ls' (permV σ x) false = .ok ⟨o.phi, permV σ o.psi⟩ := by
  have M := make_made h e
  obtain ⟨o, k⟩ := interp_ok hs M h hpos hX P hx false
  exact ⟨o, k, interp_perm hs hσ h hpos M (make_made (perm_valid hσ h) e') hX hX' P P' T hx k⟩

/-- C117, time steps, in exact arithmetic: the fluid moves less than a cell per step.  Level set, velocity and velocity gradient are given a
second time in the new axes.  Any number of steps, with the gradient carried along or recomputed as in the application, returns in both, and
the results are the same but for the names of the axes. -/
theorem C117_steps (s : IntSem) (d : ℕ) (hs : d < 3 → s = .wrap) (σ : Equiv.Perm (Fin 3)) (hσ : KeepsUsed d σ) (r : Req K)
    (h : r.Valid d) (hpos : r.Pos d) (hpad : 1 ≤ r.pad) (g g' : Grid K d) (e : r.make s d = .ok g) (e' : (r.perm σ).make s d = .ok g')
    (rv : Req K) (hv : rv.Valid d) (hn : rv.n = r.n) (gv gv' : Grid K d) (ev : rv.make s d = .ok gv)
    (dt : K) (vel vel' : LsVelocity K) (u u' : Cell → Vec3 K) (m m' : Cell → Mat3 K)
    (hu : FieldIs s rv gv vel.velocity u) (hg : FieldIs s rv gv vel.grad m)
    (hu' : FieldIs s (rv.perm σ) gv' vel'.velocity u') (hg' : FieldIs s (rv.perm σ) gv' vel'.grad m')
    (tu : ∀ c, r.Interior c → u' (permC σ c) = permV σ (u c)) (tm : ∀ c, r.Interior c → m' (permC σ c) = permM σ (m c))
    (hcfl : ∀ c, r.Interior c → ∀ a : Fin 3, a.val < d → |(u c).get a * dt| < r.h a) (ls ls' : Levelset K)
    (F F' : Cell → K) (G G' : Cell → Vec3 K) (X X' : Cell → List K) (hX : ∀ c, (X c).length = numMixed d)
    (hX' : ∀ c, (X' c).length = numMixed d) (S : Stored s r g ls F G X) (S' : Stored s (r.perm σ) g' ls' F' G' X')
    (T : Turned d σ r F F' G G' X X') (k : ℕ) :
    (∃ l l', carrySteps s g gv dt vel k ls = .ok l ∧ carrySteps s g' gv' dt vel' k ls' = .ok l' ∧ SameTurned s d σ r g g' l l') ∧
    (2 ≤ r.pad → ∃ l l', recomputeSteps s g gv dt vel k ls = .ok l ∧ recomputeSteps s g' gv' dt vel' k ls' = .ok l' ∧
      SameTurned s d σ r g g' l l') := by
  have M := make_made h e
  have M' := make_made (perm_valid hσ h) e'
  have Mv := make_made hv ev
  have hi : ∀ c, r.Interior c → rv.Padded d c := fun c hc => interior_padded Mv (by unfold Req.Interior; rw [hn]; exact hc)
  have k1 := fun c hc => hu.val c (hi c hc)
  have k2 := fun c hc => hg.val c (hi c hc)
  have k3 : ∀ c, r.Interior c → vel'.velocity.get s gv' (permC σ c).1 (permC σ c).2.1 (permC σ c).2.2 = .ok (permV σ (u c)) := fun c hc => by
    rw [← tu c hc]
    exact hu'.val _ ((perm_padded hσ).2 (hi c hc))
  have k4 : ∀ c, r.Interior c → vel'.grad.get s gv' (permC σ c).1 (permC σ c).2.1 (permC σ c).2.2 = .ok (permM σ (m c)) := fun c hc => by
    rw [← tm c hc]
    exact hg'.val _ ((perm_padded hσ).2 (hi c hc))
  have fin : ∀ {l l' : Levelset K} {A A' : Cell → K} {B B' : Cell → Vec3 K}, Stored s r g l A B X → Stored s (r.perm σ) g' l' A' B' X' →
      Turned d σ r A A' B B' X X' → SameTurned s d σ r g g' l l' := fun R R' T c hc =>
    ⟨_, _, R.phi.val c hc, R.psi.val c hc, by rw [← T.phi c hc]; exact R'.phi.val _ ((perm_padded hσ).2 hc),
      by rw [← T.psi c hc]; exact R'.psi.val _ ((perm_padded hσ).2 hc)⟩
  constructor
  · have all : ∃ l l' A A' B B', carrySteps s g gv dt vel k ls = .ok l ∧ carrySteps s g' gv' dt vel' k ls' = .ok l' ∧ Stored s r g l A B X ∧
        Stored s (r.perm σ) g' l' A' B' X' ∧ Turned d σ r A A' B B' X X' := by
      induction k with
      | zero => exact ⟨ls, ls', F, F', G, G', rfl, rfl, S, S', T⟩
      | succ k ih =>
        obtain ⟨l, l', A, A', B, B', q, q', R, R', T⟩ := ih
        unfold carrySteps
        rw [q, q', _root_.Gals.M.ok_bind, _root_.Gals.M.ok_bind]
        exact carry_perm hs hσ h hpos hpad M M' k1 k2 k3 k4 hcfl hX hX' R R' T
    obtain ⟨l, l', A, A', B, B', q, q', R, R', T⟩ := all
    exact ⟨l, l', q, q', fin R R' T⟩
  · intro hp
    have all : ∃ l l' A A' B B', recomputeSteps s g gv dt vel k ls = .ok l ∧ recomputeSteps s g' gv' dt vel' k ls' = .ok l' ∧
        Stored s r g l A B X ∧ Stored s (r.perm σ) g' l' A' B' X' ∧ Turned d σ r A A' B B' X X' := by
      induction k with
      | zero => exact ⟨ls, ls', F, F', G, G', rfl, rfl, S, S', T⟩
      | succ k ih =>
        obtain ⟨l, l', A, A', B, B', q, q', R, R', T⟩ := ih
        unfold recomputeSteps
        rw [q, q', _root_.Gals.M.ok_bind, _root_.Gals.M.ok_bind]
        exact recompute_perm hs hσ h hpos hpad M M' k1 k2 k3 k4 hcfl hp hX hX' R R' T
    obtain ⟨l, l', A, A', B, B', q, q', R, R', T⟩ := all
    exact ⟨l, l', q, q', fin R R' T⟩

end exact

/-- Data of the first instance: a value, a gradient and mixed derivatives that are different for all axes. -/
def skewF (c : Cell) : ℚ := c.1 + 2 * c.2.1 * c.2.2

@[inherit_doc skewF] def skewG (c : Cell) : Vec3 ℚ := ⟨1, 2 * c.2.2, 3 * c.2.1⟩

@[inherit_doc skewF] def skewX (c : Cell) : List ℚ := [c.1, 2, 3 * c.2.1, 4]

/-- The new axes are `y`, `z`, `x`. -/
def cycle : Equiv.Perm (Fin 3) := finRotate 3

theorem turned_back {d : ℕ} {K : Type} {σ : Equiv.Perm (Fin 3)} (r : Req K) (F : Cell → K) (G : Cell → Vec3 K) (X : Cell → List K) :
    Turned d σ r F (fun c => F (permC σ⁻¹ c)) G (fun c => permV σ (G (permC σ⁻¹ c))) X (fun c => permMix σ (X (permC σ⁻¹ c))) := by
  have inv : ∀ c, permC σ⁻¹ (permC σ c) = c := fun c => by have := permC_inv (σ := σ⁻¹) c; rwa [inv_inv] at this
  exact ⟨fun c _ => by simp only [inv], fun c _ => by simp only [inv], fun c _ => by simp only [inv]⟩

/-- Instance of `C117_interpolation`: a box of three dimensions, the axes `x`, `y`, `z` renamed to `z`, `x`, `y`. -/
theorem C117_interpolation_inst : ∃ (g g' : Grid ℚ 3) (ls ls' : Levelset ℚ) (o : Interp ℚ), (box 1).make .strict 3 = .ok g ∧
    ((box 1).perm cycle).make .strict 3 = .ok g' ∧ ls.phiPrev.get .strict g 0 1 1 = .ok 2 ∧ ls'.phiPrev.get .strict g' 1 1 0 = .ok 2 ∧
    interpolate .strict g ls ⟨1 / 3, 1, 5 / 2⟩ false = .ok o ∧
    interpolate .strict g' ls' ⟨1, 5 / 2, 1 / 3⟩ false = .ok ⟨o.phi, ⟨o.psi.y, o.psi.z, o.psi.x⟩⟩ := by
  have hσ : KeepsUsed 3 cycle := fun a => ⟨fun _ => a.isLt, fun _ => (cycle a).isLt⟩
  obtain ⟨g, e, M⟩ := make_ok .strict box_valid
  obtain ⟨g', e', M'⟩ := make_ok .strict (perm_valid hσ box_valid)
  obtain ⟨ls, P⟩ := prevIs_exists M skewF skewG skewX
  obtain ⟨ls', P'⟩ := prevIs_exists M' (fun c => skewF (permC cycle⁻¹ c)) (fun c => permV cycle (skewG (permC cycle⁻¹ c)))
    (fun c => permMix cycle (skewX (permC cycle⁻¹ c)))
  have p0 : (box 1).Padded 3 (0, 1, 1) := by unfold Req.Padded PaddedCell padAlong box; simp
  have T := turned_back (d := 3) (σ := cycle) (box 1) skewF skewG skewX
  obtain ⟨o, k, k'⟩ := C117_interpolation .strict 3 (by decide) cycle hσ (box 1) box_valid (box_pos 1) g g' e e' ls ls' _ _ _ _ _ _
    (fun _ => rfl) (fun _ => rfl) P P' T ⟨1 / 3, 1, 5 / 2⟩ (inStorage_of_box box_valid (box_pos 1) (by decide) fun a _ => by
      match a with
      | 0 => norm_num [Vec3.get, box]
      | 1 => norm_num [Vec3.get, box]
      | 2 => norm_num [Vec3.get, box])
  have r1 := P.phi _ p0
  have r2 := P'.phi _ ((perm_padded hσ).2 p0)
  rw [T.phi _ p0] at r2
  have v : skewF (0, 1, 1) = 2 := by norm_num [skewF]
  rw [v] at r1 r2
  exact ⟨g, g', ls, ls', o, e, e', r1, r2, k, k'⟩

/-- Instance of `C117_steps`: `x` and `y` exchanged on the grid `demo 2`, in the flow `(y, 0)` in one and `(0, x)` in the other. -/
theorem C117_steps_inst : ∃ (g g' : Grid ℚ 2) (vel vel' : LsVelocity ℚ) (ls ls' l l' : Levelset ℚ), (demo 2).make .wrap 2 = .ok g ∧
    ((demo 2).perm (Equiv.swap 0 1)).make .wrap 2 = .ok g' ∧ vel.velocity.get .wrap g 1 2 0 = .ok ⟨2, 0, 0⟩ ∧
    vel'.velocity.get .wrap g' 2 1 0 = .ok ⟨0, 2, 0⟩ ∧
    recomputeSteps .wrap g g (1 / 10) vel 3 ls = .ok l ∧ recomputeSteps .wrap g' g' (1 / 10) vel' 3 ls' = .ok l' ∧
    l.phi.get .wrap g 1 2 0 = l'.phi.get .wrap g' 2 1 0 := by
  set σ : Equiv.Perm (Fin 3) := Equiv.swap 0 1
  have hσ : KeepsUsed 2 σ := by unfold KeepsUsed; decide
  obtain ⟨g, e, M⟩ := make_ok .wrap demo2_valid
  obtain ⟨g', e', M'⟩ := make_ok .wrap (perm_valid hσ demo2_valid)
  obtain ⟨va, h1⟩ := fieldIs_exists (s := .wrap) M fun c => (⟨c.2.1, 0, 0⟩ : Vec3 ℚ)
  obtain ⟨vb, h2⟩ := fieldIs_exists (s := .wrap) M fun _ => (Mat3.mk9 0 1 0 0 0 0 0 0 0 : Mat3 ℚ)
  obtain ⟨va', h1'⟩ := fieldIs_exists (s := .wrap) M' fun c => (⟨0, c.1, 0⟩ : Vec3 ℚ)
  obtain ⟨vb', h2'⟩ := fieldIs_exists (s := .wrap) M' fun _ => (Mat3.mk9 0 0 0 1 0 0 0 0 0 : Mat3 ℚ)
  have T := turned_back (d := 2) (σ := σ) (demo 2) skewF skewG (fun c => [(c.1 : ℚ)])
  obtain ⟨a, ha⟩ := fieldIs_exists (s := .wrap) M skewF
  obtain ⟨b, hb⟩ := fieldIs_exists (s := .wrap) M skewG
  obtain ⟨x, hx⟩ := fieldIs_exists (s := .wrap) M fun c => [(c.1 : ℚ)]
  obtain ⟨a', ha'⟩ := fieldIs_exists (s := .wrap) M' fun c => skewF (permC σ⁻¹ c)
  obtain ⟨b', hb'⟩ := fieldIs_exists (s := .wrap) M' fun c => permV σ (skewG (permC σ⁻¹ c))
  obtain ⟨x', hx'⟩ := fieldIs_exists (s := .wrap) M' fun c => permMix σ [((permC σ⁻¹ c).1 : ℚ)]
  have S : Stored .wrap (demo 2) g ⟨a, b, x, a, b, x, a, b⟩ skewF skewG (fun c => [(c.1 : ℚ)]) :=
    ⟨ha, hb, ⟨_, ha⟩, ⟨_, hb⟩, ⟨_, ha⟩, ⟨_, hb⟩, hx⟩
  have S' : Stored .wrap ((demo 2).perm σ) g' ⟨a', b', x', a', b', x', a', b'⟩ _ _ _ :=
    ⟨ha', hb', ⟨_, ha'⟩, ⟨_, hb'⟩, ⟨_, ha'⟩, ⟨_, hb'⟩, hx'⟩
  have p0 : (demo 2).Padded 2 (1, 2, 0) := by unfold Req.Padded PaddedCell padAlong demo; simp
  obtain ⟨-, K⟩ := C117_steps .wrap 2 (fun _ => rfl) σ hσ (demo 2) demo2_valid (demo_pos 2) (by decide) g g' e e' (demo 2) demo2_valid rfl g g' e
    (1 / 10) ⟨va, vb⟩ ⟨va', vb'⟩ _ _ _ _ h1 h2 h1' h2' (fun c _ => rfl) (fun c _ => rfl) (fun c hc a ha => by
      have c1 := comp_interior hc 1
      match a with
      | 0 =>
        have : ((c.2.1 : ℤ) : ℚ) ≤ 2 := by exact_mod_cast (show c.2.1 ≤ 2 from by have : c.2.1 < 3 := c1.2; omega)
        have : (0 : ℚ) ≤ ((c.2.1 : ℤ) : ℚ) := by exact_mod_cast (show (0 : ℤ) ≤ c.2.1 from c1.1)
        change |((c.2.1 : ℤ) : ℚ) * (1 / 10)| < (2 - 0) / ((4 : ℤ) : ℚ)
        rw [abs_of_nonneg (by positivity)]
        norm_num
        linarith
      | 1 =>
        change |(0 : ℚ) * (1 / 10)| < (3 - 0) / ((3 : ℤ) : ℚ)
        norm_num
      | 2 => exact absurd ha (by decide)) _ _ _ _ _ _ _ _ (fun _ => rfl) (fun _ => rfl) S S' T 3
  obtain ⟨l, l', k1, k2, k3⟩ := K (by decide)
  obtain ⟨f, p, q1, -, q2, -⟩ := k3 (1, 2, 0) p0
  exact ⟨g, g', ⟨va, vb⟩, ⟨va', vb'⟩, _, _, l, l', e, e', h1.val (1, 2, 0) p0, h1'.val (2, 1, 0) ((perm_padded hσ (c := (1, 2, 0))).2 p0), k1, k2,
    q1.trans q2.symm⟩

/-! ## What is not the same -/

/-- A square of two by two cells of width 1, in exact arithmetic and in doubles. -/
def sqr : Req ℚ := ⟨⟨2, 2, 1⟩, 1, ⟨0, 0, 0⟩, ⟨2, 2, 1⟩⟩

@[inherit_doc sqr] def sqrD : Req F64 := ⟨⟨2, 2, 1⟩, 1, ⟨0, 0, 0⟩, ⟨2, 2, 1⟩⟩

/-- The sixteen stored cells in storage order. -/
def table {α : Type} (f : ℤ → ℤ → α) : List α := (List.range 16).map fun n => f ((n % 4 : ℕ) - 1) ((n / 4 : ℕ) - 1)

/-- A level set with given values and gradients, and mixed derivatives zero. -/
def sqrLs {K : Type} [Zero K] (g : Grid K 2) (f : ℤ → ℤ → K) (p : ℤ → ℤ → Vec3 K) : Levelset K :=
  { Levelset.mk' g with phiPrev := { Arr.mk' g 0 with data := table f }, psiPrev := { Arr.mk' g (Vec3.zero : Vec3 K) with data := table p } }

/-- The reads of the first level set at `(i, j)` and of the second at `(j, i)`, for all stored cells. -/
def exchangedAll {K : Type} [DecidableEq K] (g : Grid K 2) (ls ls' : Levelset K) : Bool :=
  ([-1, 0, 1, 2] : List ℤ).all fun i => ([-1, 0, 1, 2] : List ℤ).all fun j =>
    decide (ls.phiPrev.get .wrap g i j 0 = ls'.phiPrev.get .wrap g j i 0) &&
    (match ls.psiPrev.get .wrap g i j 0, ls'.psiPrev.get .wrap g j i 0 with
      | .ok p, .ok q => decide (p.x = q.y ∧ p.y = q.x)
      | _, _ => false)

/-- Value 1 in the cell (0, 0) and 0 elsewhere. -/
def bump {K : Type} [Zero K] [One K] (i j : ℤ) : K := if i = 0 ∧ j = 0 then 1 else 0

/-- One gradient `(1, 0)`, in the cell (1, 1). -/
def spike {K : Type} [Zero K] [One K] (i j : ℤ) : Vec3 K := if i = 1 ∧ j = 1 then ⟨1, 0, 0⟩ else ⟨0, 0, 0⟩

/-- What the interpolation returns on a square for a level set and for the same with `x` and `y` exchanged. -/
def bothWays {K : Type} [Zero K] [One K] [Add K] [_root_.Sub K] [Mul K] [Div K] [Neg K] [NatCast K] [IntCast K] [LT K] [LE K]
    [DecidableLT K] [DecidableLE K] [DecidableEq K] [HasFloor K] (r : Req K) (f : ℤ → ℤ → K) (p : ℤ → ℤ → Vec3 K) (x y : K) (lim : Bool) :
    M (Bool × K × K) := do
  let g ← r.make .wrap 2
  let ls := sqrLs g f p
  let ls' := sqrLs g (fun i j => f j i) fun i j => ⟨(p j i).y, (p j i).x, 0⟩
  let o ← interpolate .wrap g ls ⟨x, y, 0⟩ lim
  let o' ← interpolate .wrap g ls' ⟨y, x, 0⟩ lim
  return (exchangedAll g ls ls', o.phi, o'.phi)

theorem bothWays_spec {K : Type} [Zero K] [One K] [Add K] [_root_.Sub K] [Mul K] [Div K] [Neg K] [NatCast K] [IntCast K] [LT K] [LE K]
    [DecidableLT K] [DecidableLE K] [DecidableEq K] [HasFloor K] {r : Req K} {f : ℤ → ℤ → K} {p : ℤ → ℤ → Vec3 K} {x y : K} {lim : Bool}
    {b : Bool} {v w : K} (k : bothWays r f p x y lim = .ok (b, v, w)) :
    ∃ (g : Grid K 2) (ls ls' : Levelset K) (o o' : Interp K), r.make .wrap 2 = .ok g ∧ exchangedAll g ls ls' = b ∧
      interpolate .wrap g ls ⟨x, y, 0⟩ lim = .ok o ∧ interpolate .wrap g ls' ⟨y, x, 0⟩ lim = .ok o' ∧ o.phi = v ∧ o'.phi = w := by
  unfold bothWays at k
  cases e : r.make (K := K) .wrap 2 with
  | error z => rw [e] at k; cases k
  | ok g =>
    rw [e, M.ok_bind] at k
    cases e1 : interpolate .wrap g (sqrLs g f p) ⟨x, y, 0⟩ lim with
    | error z => simp only [e1] at k; cases k
    | ok o =>
      simp only [e1, M.ok_bind] at k
      cases e2 : interpolate .wrap g (sqrLs g (fun i j => f j i) fun i j => ⟨(p j i).y, (p j i).x, 0⟩) ⟨y, x, 0⟩ lim with
      | error z => simp only [e2] at k; cases k
      | ok o' =>
        simp only [e2, M.ok_bind, M.pure_eq, Except.ok.injEq, Prod.mk.injEq] at k
        exact ⟨g, _, _, o, o', rfl, k.1, e1, e2, k.2.1, k.2.2⟩

/-- C117 is false of the interpolation with the limiter, already in exact arithmetic: on a square of two by two cells of width 1, with `x` and
`y` exchanged, it returns 27/64 instead of 207/512. -/
theorem C117_limited_false : ∃ (g : Grid ℚ 2) (ls ls' : Levelset ℚ) (o o' : Interp ℚ), sqr.make .wrap 2 = .ok g ∧
    exchangedAll g ls ls' = true ∧ interpolate .wrap g ls ⟨1, 3 / 4, 0⟩ true = .ok o ∧ interpolate .wrap g ls' ⟨3 / 4, 1, 0⟩ true = .ok o' ∧
    o.phi = 207 / 512 ∧ o'.phi = 27 / 64 :=
  bothWays_spec (f := bump) (p := spike) (by decide +kernel)

/-- Data of `C117_double_false`. -/
def fifths (i _ : ℤ) : F64 := (i : F64) / 5

@[inherit_doc fifths] def fifthsG (i j : ℤ) : Vec3 F64 := if i = 0 ∧ j = 0 then ⟨2, 0, 0⟩ else ⟨0, ((i - j : ℤ) : F64) / 5, 0⟩

/-- C117 is false bit for bit in doubles, without the limiter: the sums are added in another order. -/
theorem C117_double_false : ∃ (g : Grid F64 2) (ls ls' : Levelset F64) (o o' : Interp F64), sqrD.make .wrap 2 = .ok g ∧
    exchangedAll g ls ls' = true ∧ interpolate .wrap g ls ⟨1, 3 / 5, 0⟩ false = .ok o ∧ interpolate .wrap g ls' ⟨3 / 5, 1, 0⟩ false = .ok o' ∧
    o.phi ≠ o'.phi := by
  have k : ∃ v w, bothWays sqrD fifths fifthsG 1 (3 / 5) false = .ok (true, v, w) ∧ v ≠ w := by
    refine ⟨match bothWays sqrD fifths fifthsG 1 (3 / 5) false with | .ok z => z.2.1 | _ => 0,
      match bothWays sqrD fifths fifthsG 1 (3 / 5) false with | .ok z => z.2.2 | _ => 0, ?_, ?_⟩ <;> decide +kernel
  obtain ⟨v, w, k, ne⟩ := k
  obtain ⟨g, ls, ls', o, o', h1, h2, h3, h4, rfl, rfl⟩ := bothWays_spec k
  exact ⟨g, ls, ls', o, o', h1, h2, h3, h4, ne⟩

end Gals.Props
