import Verif.Lemmas.Local
import Verif.Props.StepDouble
import Verif.Props.Temporal

/-!
# C114: data travel a bounded number of cells per step
-/

set_option linter.unusedSectionVars false

namespace Gals.Props

open Gals Gals.Spec

/-- The base node of a departure point in doubles. -/
theorem reach_double (s : IntSem) (d : ℕ) (r : Req F64) (h : r.Valid d) (hpad : 1 ≤ r.pad)
    (hpn : ∀ a : Fin 3, a.val < d → r.pad ≤ r.n.get a) (lo hi : Fin 3 → ℚ) (hbox : BoxIs r d lo hi)
    (hres : ∀ a : Fin 3, a.val < d → r.n.get a * (|lo a| + (hi a - lo a)) ≤ 2 ^ 28 * (hi a - lo a))
    (g : Grid F64 d) (e : r.make s d = .ok g) (dt : F64) (τ : ℚ) (hdt : HasValue dt τ) (u : Cell → Vec3 F64) (υ : Cell → Fin 3 → ℚ)
    (hcfl : ∀ c, r.Interior c → ∀ a : Fin 3, a.val < d → HasValue ((u c).get a) (υ c a) ∧
      |υ c a * τ| ≤ (1 - 1 / 2 ^ 16) * ((hi a - lo a) / r.n.get a)) :
    Reach r g (fun c => (Grid.elem g g.boxMin g.dx c).sub ((u c).smul dt)) (r.pad - 2) r.pad := by
  intro c hc
  have G := make_made h e
  have hp0 := h.pad_nonneg
  have hax : ∀ a : Fin 3, ∃ q : ℚ, a.val < d →
      HasValue (((Grid.elem g g.boxMin g.dx c).sub ((u c).smul dt)).get a) q ∧
      lo a + (comp c a + r.pad - 3 / 2 + 1 / 2 ^ 17) * ((hi a - lo a) / r.n.get a) ≤ q ∧
      q ≤ lo a + (comp c a + r.pad + 1 / 2 - 1 / 2 ^ 17) * ((hi a - lo a) / r.n.get a) ∧ (r.n.get a : ℚ) ≤ 2 ^ 28 := by
    intro a
    by_cases ha : a.val < d
    · obtain ⟨hl, hh, h1, h2⟩ := hbox a ha
      obtain ⟨huv, hc1⟩ := hcfl c hc a ha
      have hrng := interior_comp hc a
      have hpn' := hpn a ha
      have n0 := h.n_pos a
      have hnq : (0 : ℚ) < r.n.get a := by exact_mod_cast n0
      have hH : 0 < (hi a - lo a) / r.n.get a := div_pos ((two_zpow_pos _).trans_le h1) hnq
      obtain ⟨q, hq, rq, hn28⟩ := departure_double hl hh huv hdt h1 h2 n0 (hres a ha) (v := comp c a + r.pad)
        (by omega) (by omega) (hc1.trans (by linarith))
      obtain ⟨b1, b2⟩ := abs_le.1 rq
      obtain ⟨b3, b4⟩ := abs_le.1 hc1
      refine ⟨q, fun _ => ⟨?_, ?_, ?_, hn28⟩⟩
      · rw [sub_smul_get, elem_get G c a ha]
        exact hq
      · generalize (hi a - lo a) / r.n.get a = H at *
        push_cast at b1
        linarith
      · generalize (hi a - lo a) / r.n.get a = H at *
        push_cast at b2
        linarith
    · exact ⟨0, fun h => absurd h ha⟩
  choose q hq using hax
  obtain ⟨b, e1, key⟩ := C85_base_node_partial s d r h lo hi hbox r.pad.toNat (by omega)
    (fun a ha => by have := hpn a ha; omega) g e _ q (fun a ha => by
      obtain ⟨k1, k2, k3, -⟩ := hq a ha
      obtain ⟨-, -, w1, -⟩ := hbox a ha
      have hrng := interior_comp hc a
      have n0 := h.n_pos a
      have hnq : (0 : ℚ) < r.n.get a := by exact_mod_cast n0
      have hH : 0 < (hi a - lo a) / r.n.get a := div_pos ((two_zpow_pos _).trans_le w1) hnq
      have hHn : r.n.get a * ((hi a - lo a) / r.n.get a) = hi a - lo a := by field_simp
      have hpc : ((r.pad.toNat : ℕ) : ℚ) = r.pad := by
        have : ((r.pad.toNat : ℕ) : ℤ) = r.pad := Int.toNat_of_nonneg hp0
        exact_mod_cast this
      have hp1 : (1 : ℚ) ≤ r.pad := by exact_mod_cast hpad
      have hpH := mul_le_mul_of_nonneg_right hp1 hH.le
      have c0 : (0 : ℚ) ≤ comp c a := by exact_mod_cast hrng.1
      have c1 : (comp c a : ℚ) + 1 ≤ r.n.get a := by exact_mod_cast hrng.2
      have c0H := mul_nonneg c0 hH.le
      have c1H := mul_le_mul_of_nonneg_right c1 hH.le
      rw [hpc]
      refine ⟨k1, ?_, ?_⟩
      · linarith
      · linarith)
  refine ⟨b, e1, fun a ha => ?_⟩
  obtain ⟨k1, k2, k3, hn28⟩ := hq a ha
  obtain ⟨k4, k5⟩ := key a ha
  obtain ⟨-, -, w1, -⟩ := hbox a ha
  have hrng := interior_comp hc a
  have n0 := h.n_pos a
  have hnq : (0 : ℚ) < r.n.get a := by exact_mod_cast n0
  have hH : 0 < (hi a - lo a) / r.n.get a := div_pos ((two_zpow_pos _).trans_le w1) hnq
  have z1 : comp c a + r.pad - 3 < b.get a := by
    have : (comp c a + r.pad - 3 / 2 + 1 / 2 ^ 17 : ℚ) < b.get a + 1 + 1 / 2 + r.n.get a / 2 ^ 48 :=
      lt_of_mul_lt_mul_right (by linarith) hH.le
    have : ((comp c a + r.pad - 3 : ℤ) : ℚ) < b.get a := by push_cast; linarith
    exact_mod_cast this
  have z2 : b.get a < comp c a + r.pad := by
    have : (b.get a + 1 / 2 - r.n.get a / 2 ^ 48 : ℚ) ≤ comp c a + r.pad + 1 / 2 - 1 / 2 ^ 17 :=
      le_of_mul_le_mul_right (by linarith) hH
    have : (b.get a : ℚ) < ((comp c a + r.pad : ℤ) : ℚ) := by push_cast; linarith
    exact_mod_cast this
  refine ⟨by omega, by omega, by omega, by omega⟩

section exact
variable {K : Type} [Field K] [LinearOrder K] [IsStrictOrderedRing K] [FloorRing K]

/-- The base node of a departure point in exact arithmetic. -/
theorem reach_exact (s : IntSem) (d : ℕ) (r : Req K) (h : r.Valid d) (hpos : r.Pos d) (hpad : 1 ≤ r.pad)
    (g : Grid K d) (e : r.make s d = .ok g) (dt : K) (u : Cell → Vec3 K)
    (hcfl : ∀ c, r.Interior c → ∀ a : Fin 3, a.val < d → |(u c).get a * dt| < r.h a) :
    Reach r g (fun c => (nodePos r d c).sub ((u c).smul dt)) (r.pad - 2) r.pad := by
  intro c hc
  have G := make_made h e
  have hp := h.pad_nonneg
  have mono : ∀ a : Fin 3, a.val < d → ∀ {i j : ℤ}, i ≤ j → r.centre a i ≤ r.centre a j := by
    intro a ha i j hij
    rcases hij.lt_or_eq with hlt | rfl
    · exact ((centre_lt_iff h hpos a ha).2 hlt).le
    · exact le_rfl
  have near := near_step (r := r) (c := c) (hcfl c hc)
  obtain ⟨b, e1, key⟩ := G.base h hpos ((nodePos r d c).sub ((u c).smul dt)) (fun a ha => by
    obtain ⟨q1, q2⟩ := near_node h hpos hpad hc near a ha
    have := h.side_le a
    have := h.n_pos a
    exact ⟨(mono a ha (by omega)).trans q1.le, q2.trans_le (mono a ha (by omega))⟩)
  refine ⟨b, e1, fun a ha => ?_⟩
  obtain ⟨⟨k1, k2⟩, -⟩ := key a ha
  obtain ⟨n1, n2⟩ := abs_lt.1 (near a ha)
  rw [nodePos_get, if_pos ha] at n1 n2
  obtain ⟨c1, c2⟩ := comp_interior hc a
  have up : ∀ i : ℤ, r.centre a (i + 1) = r.centre a i + r.h a := fun i => by unfold Req.centre; push_cast; ring
  have u1 := up (comp c a + (r.pad - 1) - 1)
  have u2 := up (comp c a + (r.pad - 1))
  rw [sub_add_cancel] at u1
  have z1 : comp c a + (r.pad - 1) - 1 < b.get a + 1 := (centre_lt_iff h hpos a ha).1 (by linarith)
  have z2 : b.get a < comp c a + (r.pad - 1) + 1 := (centre_lt_iff h hpos a ha).1 (by linarith)
  refine ⟨by omega, by omega, by omega, by omega⟩

end exact

section anyArithmetic
variable {K : Type} {d : ℕ}
variable [Zero K] [One K] [Add K] [_root_.Sub K] [Mul K] [Div K] [Neg K] [NatCast K] [IntCast K]
  [LT K] [DecidableLT K] [LE K] [DecidableLE K] [HasFloor K]

/-- A wider window. -/
theorem stepLocal_mono {s : IntSem} {r : Req K} {g : Grid K d} {step : Levelset K → M (Levelset K)} {lo hi lo' hi' : ℤ}
    (L : StepLocal s r g step lo hi) (h0 : lo' ≤ lo) (h1 : hi ≤ hi') : StepLocal s r g step lo' hi' := by
  intro ls ls' F F' G G' X X' hX hX' S S'
  obtain ⟨l, l', A, A', B, B', e, e', T, T', q1, q2⟩ := L hX hX' S S'
  refine ⟨l, l', A, A', B, B', e, e', T, T', fun c hc hn => q1 c hc fun n pn wn => hn n pn fun a ha => ?_, q2⟩
  obtain ⟨w1, w2⟩ := wn a ha
  exact ⟨by omega, by omega⟩

/-- What the steps of both kinds depend on, given the base nodes. -/
theorem local_of_reach {s : IntSem} (hs : d < 3 → s = .wrap) {r : Req K} {g gv : Grid K d} (M : g.Made s r) (h : r.Valid d)
    (hpad : 1 ≤ r.pad) {dt : K}
    {vel : LsVelocity K} {v pos : Cell → Vec3 K} {m : Cell → Mat3 K}
    (hv : ∀ c, r.Interior c → vel.velocity.get s gv c.1 c.2.1 c.2.2 = .ok (v c))
    (hm : ∀ c, r.Interior c → vel.grad.get s gv c.1 c.2.1 c.2.2 = .ok (m c))
    (hpos : ∀ c, r.Interior c → g.at' s c.1 c.2.1 c.2.2 = .ok (pos c))
    (R : Reach r g (fun c => (pos c).sub ((v c).smul dt)) (r.pad - 2) r.pad) {ls ls' : Levelset K} {F F' : Cell → K}
    {G G' : Cell → Vec3 K} {X X' : Cell → List K} (hX : ∀ c, (X c).length = numMixed d) (hX' : ∀ c, (X' c).length = numMixed d)
    (S : Stored s r g ls F G X) (S' : Stored s r g ls' F' G' X') (k : ℕ) :
    (∃ l l', carrySteps s g gv dt vel k ls = .ok l ∧ carrySteps s g gv dt vel k ls' = .ok l' ∧
      ∀ c, r.Padded d c → SameNear d r (k * min 0 (r.pad - 2)) (k * r.pad) F F' G G' X X' c → SameAt s g l l' c) ∧
    (2 ≤ r.pad → ∃ l l', recomputeSteps s g gv dt vel k ls = .ok l ∧ recomputeSteps s g gv dt vel k ls' = .ok l' ∧
      ∀ c, r.Padded d c → SameNear d r (k * min 0 (r.pad - 4)) (k * (r.pad + 1)) F F' G G' X X' c → SameAt s g l l' c) := by
  constructor
  · obtain ⟨l, l', A, A', B, B', e, e', T, T', q⟩ :=
      (stepLocal_mono (carry_stepLocal hs M h hv hm hpos R) (min_le_right 0 _) le_rfl).iterate (min_le_left _ _) (by omega)
        (steps := carrySteps s g gv dt vel) (fun _ => rfl) (fun _ _ => rfl) hX hX' S S' k
    refine ⟨l, l', e, e', fun c hc n => ?_⟩
    obtain ⟨q1, q2⟩ := q c hc n
    exact ⟨by rw [T.phi.val c hc, T'.phi.val c hc, q1], by rw [T.psi.val c hc, T'.psi.val c hc, q2]⟩
  · intro hp2
    obtain ⟨l, l', A, A', B, B', e, e', T, T', q⟩ :=
      (stepLocal_mono (recompute_stepLocal hs M h hv hm hpos R hp2) (show min 0 (r.pad - 4) ≤ _ by omega) le_rfl).iterate (min_le_left _ _)
        (by omega) (steps := recomputeSteps s g gv dt vel) (fun _ => rfl) (fun _ _ => rfl) hX hX' S S' k
    refine ⟨l, l', e, e', fun c hc n => ?_⟩
    obtain ⟨q1, q2⟩ := q c hc n
    exact ⟨by rw [T.phi.val c hc, T'.phi.val c hc, q1], by rw [T.psi.val c hc, T'.psi.val c hc, q2]⟩

end anyArithmetic

/-- C114 in doubles.  The fluid moves less than a cell per step, up to one part in `2 ^ 16`.  After `k` steps the value and the gradient at a
cell depend on nothing but the values, gradients and mixed derivatives of the stored cells near it: with the gradient carried along, from
`k` cells before (padding 1; padding 2 or more: from the cell itself) to `k * pad` cells after; with the gradient recomputed as in the
application (padding at least 2), from `k * (4 - pad)` cells before to `k * (pad + 1)` after.  The data can be infinite or NaN: data
elsewhere, whatever they are, do not matter, and the steps return. -/
theorem C114_doubles (s : IntSem) (d : ℕ) (hs : d < 3 → s = .wrap) (r : Req F64) (h : r.Valid d) (hpad : 1 ≤ r.pad)
    (hpn : ∀ a : Fin 3, a.val < d → r.pad ≤ r.n.get a) (lo hi : Fin 3 → ℚ) (hbox : BoxIs r d lo hi)
    (hres : ∀ a : Fin 3, a.val < d → r.n.get a * (|lo a| + (hi a - lo a)) ≤ 2 ^ 28 * (hi a - lo a))
    (g : Grid F64 d) (e : r.make s d = .ok g) (rv : Req F64) (hv : rv.Valid d) (hn : rv.n = r.n)
    (gv : Grid F64 d) (ev : rv.make s d = .ok gv) (dt : F64) (τ : ℚ) (hdt : HasValue dt τ) (vel : LsVelocity F64)
    (u : Cell → Vec3 F64) (m : Cell → Mat3 F64) (hu : FieldIs s rv gv vel.velocity u) (hg : FieldIs s rv gv vel.grad m)
    (υ : Cell → Fin 3 → ℚ)
    (hcfl : ∀ c, r.Interior c → ∀ a : Fin 3, a.val < d → HasValue ((u c).get a) (υ c a) ∧
      |υ c a * τ| ≤ (1 - 1 / 2 ^ 16) * ((hi a - lo a) / r.n.get a))
    (ls ls' : Levelset F64) (F F' : Cell → F64) (G G' : Cell → Vec3 F64) (X X' : Cell → List F64)
    (hX : ∀ c, (X c).length = numMixed d) (hX' : ∀ c, (X' c).length = numMixed d)
    (S : Stored s r g ls F G X) (S' : Stored s r g ls' F' G' X') (k : ℕ) :
    (∃ l l', carrySteps s g gv dt vel k ls = .ok l ∧ carrySteps s g gv dt vel k ls' = .ok l' ∧
      ∀ c, r.Padded d c → SameNear d r (k * min 0 (r.pad - 2)) (k * r.pad) F F' G G' X X' c → SameAt s g l l' c) ∧
    (2 ≤ r.pad → ∃ l l', recomputeSteps s g gv dt vel k ls = .ok l ∧ recomputeSteps s g gv dt vel k ls' = .ok l' ∧
      ∀ c, r.Padded d c → SameNear d r (k * min 0 (r.pad - 4)) (k * (r.pad + 1)) F F' G G' X X' c → SameAt s g l l' c) := by
  have M := make_made h e
  have Mv := make_made hv ev
  have hi' : ∀ c, r.Interior c → rv.Padded d c := fun c hc =>
    interior_padded Mv (by unfold Req.Interior; rw [hn]; exact hc)
  exact local_of_reach hs M h hpad (fun c hc => hu.val c (hi' c hc)) (fun c hc => hg.val c (hi' c hc))
    (fun c hc => M.node c (M.inPad.2 (interior_padded M hc)))
    (reach_double s d r h hpad hpn lo hi hbox hres g e dt τ hdt u υ hcfl) hX hX' S S' k

/-- C114 in exact arithmetic, for a motion of less than a cell per step. -/
theorem C114_exact {K : Type} [Field K] [LinearOrder K] [IsStrictOrderedRing K] [FloorRing K] (s : IntSem) (d : ℕ)
    (hs : d < 3 → s = .wrap) (r : Req K) (h : r.Valid d) (hpos : r.Pos d) (hpad : 1 ≤ r.pad)
    (g : Grid K d) (e : r.make s d = .ok g) (rv : Req K) (hv : rv.Valid d) (hn : rv.n = r.n)
    (gv : Grid K d) (ev : rv.make s d = .ok gv) (dt : K) (vel : LsVelocity K)
    (u : Cell → Vec3 K) (m : Cell → Mat3 K) (hu : FieldIs s rv gv vel.velocity u) (hg : FieldIs s rv gv vel.grad m)
    (hcfl : ∀ c, r.Interior c → ∀ a : Fin 3, a.val < d → |(u c).get a * dt| < r.h a)
    (ls ls' : Levelset K) (F F' : Cell → K) (G G' : Cell → Vec3 K) (X X' : Cell → List K)
    (hX : ∀ c, (X c).length = numMixed d) (hX' : ∀ c, (X' c).length = numMixed d)
    (S : Stored s r g ls F G X) (S' : Stored s r g ls' F' G' X') (k : ℕ) :
    (∃ l l', carrySteps s g gv dt vel k ls = .ok l ∧ carrySteps s g gv dt vel k ls' = .ok l' ∧
      ∀ c, r.Padded d c → SameNear d r (k * min 0 (r.pad - 2)) (k * r.pad) F F' G G' X X' c → SameAt s g l l' c) ∧
    (2 ≤ r.pad → ∃ l l', recomputeSteps s g gv dt vel k ls = .ok l ∧ recomputeSteps s g gv dt vel k ls' = .ok l' ∧
      ∀ c, r.Padded d c → SameNear d r (k * min 0 (r.pad - 4)) (k * (r.pad + 1)) F F' G G' X X' c → SameAt s g l l' c) := by
  have M := make_made h e
  have Mv := make_made hv ev
  have hi' : ∀ c, r.Interior c → rv.Padded d c := fun c hc =>
    interior_padded Mv (by unfold Req.Interior; rw [hn]; exact hc)
  exact local_of_reach hs M h hpad (fun c hc => hu.val c (hi' c hc)) (fun c hc => hg.val c (hi' c hc))
    (fun c hc => M.atC (interior_padded M hc)) (reach_exact s d r h hpos hpad g e dt u hcfl) hX hX' S S' k

/-- Values of the instance. -/
def ls9 (c : Cell) : F64 := if c.1 < 8 then 1 else .nan

theorem ls9_same : SameNear 2 plate ((2 : ℕ) * min 0 (plate.pad - 2)) ((2 : ℕ) * plate.pad) (fun _ => (1 : F64)) ls9 (fun _ => ⟨1, 0, .nan⟩)
      (fun _ => ⟨1, 0, .nan⟩) (fun _ => [0]) (fun _ => [0]) (3, 2, 0) := by
  intro n _ w
  refine ⟨?_, rfl, rfl⟩
  have w2 := (w 0 (by decide)).2
  have hp : plate.pad = 2 := rfl
  rw [hp] at w2
  have : n.1 < 8 := by
    change n.1 ≤ 3 + _ at w2
    push_cast at w2
    omega
  unfold ls9
  rw [if_pos this]

theorem plate_wide (a : Fin 3) (ha : a.val < 2) : plate.pad ≤ plate.n.get a := by
  match a with
  | 0 => decide
  | 1 => decide
  | 2 => exact absurd ha (by decide)

theorem ls9_padded : plate.Padded 2 (9, 2, 0) ∧ plate.Padded 2 (3, 2, 0) := by
  constructor <;> (unfold Req.Padded PaddedCell padAlong plate; simp)

/-- Instance of C114 in doubles: 10 × 6 cells, two layers of padding; one of the two level sets is NaN in the last columns.  After two steps
the level sets are the same in the first cells. -/
theorem C114_inst : ∃ g : Grid F64 2, plate.make .wrap 2 = .ok g ∧ ∃ (vel : LsVelocity F64) (ls ls' l l' : Levelset F64),
    ls.phi.get .wrap g 9 2 0 = .ok 1 ∧ ls'.phi.get .wrap g 9 2 0 = .ok .nan ∧
    carrySteps .wrap g g eighth vel 2 ls = .ok l ∧ carrySteps .wrap g g eighth vel 2 ls' = .ok l' ∧ SameAt .wrap g l l' (3, 2, 0) := by
  obtain ⟨g, e, M⟩ := make_ok .wrap plate_valid
  obtain ⟨va, h1⟩ := fieldIs_exists (s := .wrap) M zigzag
  obtain ⟨vb, h2⟩ := fieldIs_exists (s := .wrap) M fun _ => (Mat3.zero : Mat3 F64)
  obtain ⟨a, ha⟩ := fieldIs_exists (s := .wrap) M fun _ => (1 : F64)
  obtain ⟨a', ha'⟩ := fieldIs_exists (s := .wrap) M ls9
  obtain ⟨b, hb⟩ := fieldIs_exists (s := .wrap) M fun _ => (⟨1, 0, .nan⟩ : Vec3 F64)
  obtain ⟨c, hc⟩ := fieldIs_exists (s := .wrap) M fun _ => ([0] : List F64)
  obtain ⟨p1, p2⟩ := ls9_padded
  have S : Stored .wrap plate g ⟨a, b, c, a, b, c, a, b⟩ (fun _ => (1 : F64)) (fun _ => ⟨1, 0, .nan⟩) (fun _ => [0]) :=
    ⟨ha, hb, ⟨_, ha⟩, ⟨_, hb⟩, ⟨_, ha⟩, ⟨_, hb⟩, hc⟩
  have S' : Stored .wrap plate g ⟨a', b, c, a, b, c, a, b⟩ ls9 (fun _ => ⟨1, 0, .nan⟩) (fun _ => [0]) :=
    ⟨ha', hb, ⟨_, ha⟩, ⟨_, hb⟩, ⟨_, ha⟩, ⟨_, hb⟩, hc⟩
  obtain ⟨⟨l, l', k1, k2, k3⟩, -⟩ := C114_doubles .wrap 2 (fun _ => rfl) plate plate_valid (by decide)
    plate_wide
    _ _ plate_box plate_res g e plate plate_valid rfl g e eighth (1 / 8) eighth_value ⟨va, vb⟩ zigzag _ h1 h2 zigzagQ
    (fun c _ a ha => zigzag_cfl c a ha) _ _ _ _ _ _ _ _ (fun _ => rfl) (fun _ => rfl) S S' 2
  have nan : a'.get .wrap g 9 2 0 = .ok .nan := by
    have := ha'.val _ p1
    rwa [show ls9 (9, 2, 0) = .nan from if_neg (by decide)] at this
  exact ⟨g, e, ⟨va, vb⟩, ⟨a, b, c, a, b, c, a, b⟩, ⟨a', b, c, a, b, c, a, b⟩, l, l', ha.val (9, 2, 0) p1, nan, k1, k2, k3 (3, 2, 0) p2 ls9_same⟩

/-- Instance of C114 in exact arithmetic: three cells of width 1 on a line, two layers of padding, `u dt = -1/2`; the level sets differ in
the last ghost cell, and one step with recomputed gradients leaves the same in the first cell. -/
theorem C114_exact_inst : ∃ (g : Grid ℚ 1) (vel : LsVelocity ℚ) (ls ls' l l' : Levelset ℚ), (line 2).make .wrap 1 = .ok g ∧
    ls.phi.get .wrap g 4 0 0 = .ok 1 ∧ ls'.phi.get .wrap g 4 0 0 = .ok 7 ∧
    recomputeSteps .wrap g g (1 / 2) vel 1 ls = .ok l ∧ recomputeSteps .wrap g g (1 / 2) vel 1 ls' = .ok l' ∧ SameAt .wrap g l l' (0, 0, 0) := by
  obtain ⟨g, e, M⟩ := make_ok .wrap line2_valid
  obtain ⟨va, h1⟩ := fieldIs_exists (s := .wrap) M fun _ => (⟨-1, 0, 0⟩ : Vec3 ℚ)
  obtain ⟨vb, h2⟩ := fieldIs_exists (s := .wrap) M fun _ => (Mat3.zero : Mat3 ℚ)
  obtain ⟨a, ha⟩ := fieldIs_exists (s := .wrap) M fun _ => (1 : ℚ)
  obtain ⟨a', ha'⟩ := fieldIs_exists (s := .wrap) M fun c => if c.1 = 4 then (7 : ℚ) else 1
  obtain ⟨b, hb⟩ := fieldIs_exists (s := .wrap) M fun _ => (⟨1, 0, 0⟩ : Vec3 ℚ)
  obtain ⟨c, hc⟩ := fieldIs_exists (s := .wrap) M fun _ => ([] : List ℚ)
  have p1 : (line 2).Padded 1 (4, 0, 0) := by unfold Req.Padded PaddedCell padAlong line; simp
  have p2 : (line 2).Padded 1 (0, 0, 0) := by unfold Req.Padded PaddedCell padAlong line; simp
  have S : Stored .wrap (line 2) g ⟨a, b, c, a, b, c, a, b⟩ (fun _ => (1 : ℚ)) (fun _ => ⟨1, 0, 0⟩) (fun _ => []) :=
    ⟨ha, hb, ⟨_, ha⟩, ⟨_, hb⟩, ⟨_, ha⟩, ⟨_, hb⟩, hc⟩
  have S' : Stored .wrap (line 2) g ⟨a', b, c, a, b, c, a, b⟩ (fun c => if c.1 = 4 then (7 : ℚ) else 1) (fun _ => ⟨1, 0, 0⟩) (fun _ => []) :=
    ⟨ha', hb, ⟨_, ha⟩, ⟨_, hb⟩, ⟨_, ha⟩, ⟨_, hb⟩, hc⟩
  obtain ⟨-, K⟩ := C114_exact .wrap 1 (fun _ => rfl) (line 2) line2_valid (line_pos 2) (by decide) g e (line 2) line2_valid rfl g e (1 / 2)
    ⟨va, vb⟩ _ _ h1 h2 (fun c _ a ha => by
      match a with
      | 0 => norm_num [Vec3.get, Req.h, line, abs_lt]
      | 1 => exact absurd ha (by decide)
      | 2 => exact absurd ha (by decide)) _ _ _ _ _ _ _ _ (fun _ => rfl) (fun _ => rfl) S S' 1
  obtain ⟨l, l', k1, k2, k3⟩ := K (by decide)
  refine ⟨g, ⟨va, vb⟩, ⟨a, b, c, a, b, c, a, b⟩, ⟨a', b, c, a, b, c, a, b⟩, l, l', e, ha.val (4, 0, 0) p1, ha'.val (4, 0, 0) p1, k1, k2,
    k3 (0, 0, 0) p2 fun n _ w => ⟨?_, rfl, rfl⟩⟩
  have w2 := (w 0 (by decide)).2
  have : n.1 ≠ 4 := by
    have hp : (line 2).pad = 2 := rfl
    rw [hp] at w2
    change n.1 ≤ 0 + _ at w2
    push_cast at w2
    omega
  exact (if_neg this).symm

/-- A level set with values `phi` (ghost cells included), slope 0. -/
def rowLs (g : Grid F64 1) (phi : List F64) : Levelset F64 := { Levelset.mk' g with phi := { Arr.mk' g 0 with data := phi } }

/-- Six cells on `[0, 1]`: `k` steps with the velocity `u` and time step 1, and the value in cell `i`. -/
def rowRun (u : F64) (phi : List F64) (k : ℕ) (i : ℤ) : M F64 := do
  let g ← six.make .wrap 1
  let ls ← carrySteps .wrap g g 1 (constVel g u) k (rowLs g phi)
  ls.phi.get .wrap g i 0 0

/-- C114, the number of cells is right for padding 1: on a line of six cells the data of a cell reach the cell two before it in two steps in a
flow to the left, and the cell two after it in a flow to the right. -/
theorem C114_sharp : six.pad = 1 ∧
    (rowRun (F64.neg eighth) [1, 1, 1, 1, 1, 1, 1, 1] 2 0 ≠ .ok .nan ∧ rowRun (F64.neg eighth) [1, 1, 1, .nan, 1, 1, 1, 1] 2 0 = .ok .nan) ∧
    rowRun eighth [1, 1, 1, 1, 1, 1, 1, 1] 2 4 ≠ .ok .nan ∧ rowRun eighth [1, 1, 1, .nan, 1, 1, 1, 1] 2 4 = .ok .nan :=
  ⟨rfl, ⟨by decide +kernel, by decide +kernel⟩, by decide +kernel, by decide +kernel⟩

end Gals.Props
