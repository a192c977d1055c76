import Verif.Lemmas.StepDouble
import Verif.Lemmas.Temporal
import Verif.Props.GridDouble

/-!
# C86: the semi-Lagrangian step of the library in double arithmetic
-/

set_option linter.unusedSectionVars false

namespace Gals.Props

open Gals Gals.Spec

/-- The departure point computed for an interior cell, along one axis. -/
theorem elem_get {d : ℕ} {s : IntSem} {r : Req F64} {g : Grid F64 d} (G : g.Made s r) (c : Cell) (a : Fin 3) (ha : a.val < d) :
    (Grid.elem g g.boxMin g.dx c).get a =
      r.lo.get a + (r.hi.get a - r.lo.get a) / ((r.n.get a : ℤ) : F64) * (1 / 2)
        - (r.hi.get a - r.lo.get a) / ((r.n.get a : ℤ) : F64) * ((1 : ℤ) : F64)
        + ((comp c a + r.pad : ℤ) : F64) * ((r.hi.get a - r.lo.get a) / ((r.n.get a : ℤ) : F64)) := by
  have hdx : g.dx.get a = (r.hi.get a - r.lo.get a) / ((r.n.get a : ℤ) : F64) := G.dx a
  have hb : g.boxMin.get a = r.lo.get a := by rw [G.boxMin]
  have hS := G.shape
  rw [← hdx, ← hb, ← G.pad]
  match a with
  | 0 =>
    have hm : g.mask0 = 1 := hS.m0
    change (0 : ℕ) < d at ha
    simp only [Grid.elem, Grid.domainMinNew, Vec3.get, comp, hm, Fin.val_zero, if_pos ha, neg_mul, mul_one, sub_neg_eq_add]
  | 1 =>
    change (1 : ℕ) < d at ha
    have hm : g.mask1 = 1 := by rw [hS.m1, if_pos (by omega)]
    simp only [Grid.elem, Grid.domainMinNew, Vec3.get, comp, hm, Fin.val_one, if_pos ha, neg_mul, mul_one, sub_neg_eq_add]
  | 2 =>
    change (2 : ℕ) < d at ha
    have hm : g.mask2 = 1 := by rw [hS.m2, if_pos (by omega)]
    simp only [Grid.elem, Grid.domainMinNew, Vec3.get, comp, hm, Fin.val_two, if_pos ha, neg_mul, mul_one, sub_neg_eq_add]

theorem interior_comp {r : Req F64} {c : Cell} (hc : r.Interior c) (a : Fin 3) : 0 ≤ comp c a ∧ comp c a < r.n.get a := by
  obtain ⟨i0, i1, i2⟩ := hc
  match a with
  | 0 => exact i0
  | 1 => exact i1
  | 2 => exact i2

theorem sub_smul_get (p u : Vec3 F64) (t : F64) (a : Fin 3) : (p.sub (u.smul t)).get a = p.get a - u.get a * t := by
  match a with
  | 0 => rfl
  | 1 => rfl
  | 2 => rfl

/-- A semi-Lagrangian step in double arithmetic, with the fields it leaves. -/
theorem step_fields (s : IntSem) (d : ℕ) (hs : d < 3 → s = .wrap) (r : Req F64) (h : r.Valid d) (hpad : 1 ≤ r.pad)
    (hpn : ∀ a : Fin 3, a.val < d → r.pad ≤ r.n.get a) (lo hi : Fin 3 → ℚ) (hbox : BoxIs r d lo hi)
    (hres : ∀ a : Fin 3, a.val < d → r.n.get a * (|lo a| + (hi a - lo a)) ≤ 2 ^ 28 * (hi a - lo a))
    (g : Grid F64 d) (e : r.make s d = .ok g) (rv : Req F64) (hv : rv.Valid d) (hn : rv.n = r.n)
    (gv : Grid F64 d) (ev : rv.make s d = .ok gv) (dt : F64) (τ : ℚ) (hdt : HasValue dt τ) (vel : LsVelocity F64)
    (u : Cell → Vec3 F64) (m : Cell → Mat3 F64) (hu : FieldIs s rv gv vel.velocity u) (hg : FieldIs s rv gv vel.grad m)
    (υ : Cell → Fin 3 → ℚ)
    (hcfl : ∀ c, r.Interior c → ∀ a : Fin 3, a.val < d → HasValue ((u c).get a) (υ c a) ∧
      |υ c a * τ| ≤ (1 - 1 / 2 ^ 16) * ((hi a - lo a) / r.n.get a))
    (ls : Levelset F64) (phi : Cell → F64) (psi : Cell → Vec3 F64) (mix : Cell → List F64)
    (hm : ∀ c, (mix c).length = numMixed d) (P : PrevIs s r g ls phi psi mix) (p0 p1 : Cell → F64) (q0 q1 : Cell → Vec3 F64)
    (hp : FieldIs s r g ls.phi p0) (hq : FieldIs s r g ls.psi q0) (hp1 : FieldIs s r g ls.phiInterpPrev p1)
    (hq1 : FieldIs s r g ls.psiInterpPrev q1) :
    ∃ ls', temporal .semiLagrangian s g gv dt vel ls = .ok ls' ∧ (∃ f, FieldIs s r g ls'.phi f) ∧ (∃ f, FieldIs s r g ls'.psi f) ∧
      ls'.phiPrev = ls.phiPrev ∧ ls'.psiPrev = ls.psiPrev ∧ ls'.phiMixedPrev = ls.phiMixedPrev ∧
      (∃ f, FieldIs s r g ls'.phiInterpPrev f) ∧ ∃ f, FieldIs s r g ls'.psiInterpPrev f := by
  have G := make_made h e
  have Gv := make_made hv ev
  have hi' : ∀ c, r.Interior c → rv.Padded d c := fun c hc =>
    interior_padded Gv (by unfold Req.Interior; rw [hn]; exact hc)
  have hp0 := h.pad_nonneg
  have : Nonempty (Interp F64) := ⟨⟨0, ⟨0, 0, 0⟩⟩⟩
  obtain ⟨o, ho⟩ := choose_ok (p := r.Interior)
    (f := fun c => interpolate s g ls ((Grid.elem g g.boxMin g.dx c).sub ((u c).smul dt)) false) (by
    intro c hc
    -- the departure point along each axis
    have hax : ∀ a : Fin 3, ∃ q : ℚ, a.val < d →
        HasValue (((Grid.elem g g.boxMin g.dx c).sub ((u c).smul dt)).get a) q ∧
        lo a + (r.pad - 3 / 2 + 1 / 2 ^ 17) * ((hi a - lo a) / r.n.get a) ≤ q ∧
        q ≤ lo a + (r.n.get a + r.pad - 1 / 2 - 1 / 2 ^ 17) * ((hi a - lo a) / r.n.get a) ∧ (r.n.get a : ℚ) ≤ 2 ^ 28 := by
      intro a
      by_cases ha : a.val < d
      · obtain ⟨hl, hh, h1, h2⟩ := hbox a ha
        obtain ⟨huv, hc1⟩ := hcfl c hc a ha
        have hrng := interior_comp hc a
        have hpn' := hpn a ha
        have n0 := h.n_pos a
        have hnq : (0 : ℚ) < r.n.get a := by exact_mod_cast n0
        have hH : 0 < (hi a - lo a) / r.n.get a := div_pos ((two_zpow_pos _).trans_le h1) hnq
        obtain ⟨q, hq, rq, hn28⟩ := departure_double hl hh huv hdt h1 h2 n0 (hres a ha) (v := comp c a + r.pad)
          (by omega) (by omega) (hc1.trans (by linarith))
        refine ⟨q, fun _ => ⟨?_, ?_, ?_, hn28⟩⟩
        · rw [sub_smul_get, elem_get G c a ha]
          exact hq
        · obtain ⟨b1, b2⟩ := abs_le.1 rq
          obtain ⟨b3, b4⟩ := abs_le.1 hc1
          have c0 : (0 : ℚ) ≤ comp c a := by exact_mod_cast hrng.1
          generalize (hi a - lo a) / r.n.get a = H at *
          push_cast at b1
          have := mul_nonneg c0 hH.le
          linarith
        · obtain ⟨b1, b2⟩ := abs_le.1 rq
          obtain ⟨b3, b4⟩ := abs_le.1 hc1
          have c1 : (comp c a : ℚ) + 1 ≤ r.n.get a := by exact_mod_cast hrng.2
          generalize (hi a - lo a) / r.n.get a = H at *
          push_cast at b2
          have := mul_le_mul_of_nonneg_right c1 hH.le
          linarith
      · exact ⟨0, fun h => absurd h ha⟩
    choose q hq using hax
    obtain ⟨b, e1, key⟩ := C85_base_node_partial s d r h lo hi hbox r.pad.toNat (by omega)
      (fun a ha => by have := hpn a ha; omega) g e _ q (fun a ha => by
        obtain ⟨k1, k2, k3, -⟩ := hq a ha
        obtain ⟨-, -, w1, -⟩ := hbox a ha
        have n0 := h.n_pos a
        have hnq : (0 : ℚ) < r.n.get a := by exact_mod_cast n0
        have hH : 0 < (hi a - lo a) / r.n.get a := div_pos ((two_zpow_pos _).trans_le w1) hnq
        have hHn : r.n.get a * ((hi a - lo a) / r.n.get a) = hi a - lo a := by field_simp
        have hpc : ((r.pad.toNat : ℕ) : ℚ) = r.pad := by
          have : ((r.pad.toNat : ℕ) : ℤ) = r.pad := Int.toNat_of_nonneg hp0
          exact_mod_cast this
        have hp1 : (1 : ℚ) ≤ r.pad := by exact_mod_cast hpad
        have hpH := mul_le_mul_of_nonneg_right hp1 hH.le
        rw [hpc]
        refine ⟨k1, ?_, ?_⟩
        · linarith
        · linarith)
    refine interp_any hs G h hm P e1 (fun a ha => ?_) false
    obtain ⟨k1, k2, k3, hn28⟩ := hq a ha
    obtain ⟨k4, k5⟩ := key a ha
    obtain ⟨-, -, w1, -⟩ := hbox a ha
    have n0 := h.n_pos a
    have hnq : (0 : ℚ) < r.n.get a := by exact_mod_cast n0
    have hH : 0 < (hi a - lo a) / r.n.get a := div_pos ((two_zpow_pos _).trans_le w1) hnq
    constructor
    · have : (r.pad - 3 / 2 + 1 / 2 ^ 17 : ℚ) < b.get a + 1 + 1 / 2 + r.n.get a / 2 ^ 48 :=
        lt_of_mul_lt_mul_right (by linarith) hH.le
      have : ((r.pad - 3 : ℤ) : ℚ) < b.get a := by push_cast; linarith
      have : r.pad - 3 < b.get a := by exact_mod_cast this
      omega
    · have : (b.get a + 1 / 2 - r.n.get a / 2 ^ 48 : ℚ) ≤ r.n.get a + r.pad - 1 / 2 - 1 / 2 ^ 17 :=
        le_of_mul_le_mul_right (by linarith) hH
      have : (b.get a : ℚ) < ((r.n.get a + r.pad - 1 : ℤ) : ℚ) := by push_cast; linarith
      have : b.get a < r.n.get a + r.pad - 1 := by exact_mod_cast this
      omega)
  obtain ⟨ls', e2, k2, k3, -, k5, k6, k7, k8, k9⟩ := slEuler_ok (gv := gv) (vel := vel) (ls := ls) (dt := dt) G (v := u) (m := m)
    (pos := fun c => Grid.elem g g.boxMin g.dx c) (fun c hc => hu.val c (hi' c hc)) (fun c hc => hg.val c (hi' c hc))
    (fun c hc => G.node c (G.inPad.2 (interior_padded G hc))) hp hq hp1 hq1 ho
  exact ⟨ls', e2, ⟨_, k2⟩, ⟨_, k3⟩, k5, k6, k7, ⟨_, k8⟩, ⟨_, k9⟩⟩

/-- C86. In double arithmetic a semi-Lagrangian step returns, whatever the level set data (infinities and NaN included), if
the velocity and the time step are finite and the fluid moves less than a cell width, up to one part in `2 ^ 16`, per step.
`hres`: neighbouring nodes are well separated compared with the spacing of the doubles there. -/
theorem C86_memory_safe_partial (s : IntSem) (d : ℕ) (hs : d < 3 → s = .wrap) (r : Req F64) (h : r.Valid d) (hpad : 1 ≤ r.pad)
    (hpn : ∀ a : Fin 3, a.val < d → r.pad ≤ r.n.get a) (lo hi : Fin 3 → ℚ) (hbox : BoxIs r d lo hi)
    (hres : ∀ a : Fin 3, a.val < d → r.n.get a * (|lo a| + (hi a - lo a)) ≤ 2 ^ 28 * (hi a - lo a))
    (g : Grid F64 d) (e : r.make s d = .ok g) (rv : Req F64) (hv : rv.Valid d) (hn : rv.n = r.n)
    (gv : Grid F64 d) (ev : rv.make s d = .ok gv) (dt : F64) (τ : ℚ) (hdt : HasValue dt τ) (vel : LsVelocity F64)
    (u : Cell → Vec3 F64) (m : Cell → Mat3 F64) (hu : FieldIs s rv gv vel.velocity u) (hg : FieldIs s rv gv vel.grad m)
    (υ : Cell → Fin 3 → ℚ)
    (hcfl : ∀ c, r.Interior c → ∀ a : Fin 3, a.val < d → HasValue ((u c).get a) (υ c a) ∧
      |υ c a * τ| ≤ (1 - 1 / 2 ^ 16) * ((hi a - lo a) / r.n.get a))
    (ls : Levelset F64) (phi : Cell → F64) (psi : Cell → Vec3 F64) (mix : Cell → List F64)
    (hm : ∀ c, (mix c).length = numMixed d) (P : PrevIs s r g ls phi psi mix) (p0 p1 : Cell → F64) (q0 q1 : Cell → Vec3 F64)
    (hp : FieldIs s r g ls.phi p0) (hq : FieldIs s r g ls.psi q0) (hp1 : FieldIs s r g ls.phiInterpPrev p1)
    (hq1 : FieldIs s r g ls.psiInterpPrev q1) :
    ∃ ls', temporal .semiLagrangian s g gv dt vel ls = .ok ls' := by
  obtain ⟨ls', k, -⟩ := step_fields s d hs r h hpad hpn lo hi hbox hres g e rv hv hn gv ev dt τ hdt vel u m hu hg υ hcfl ls phi psi
    mix hm P p0 p1 q0 q1 hp hq hp1 hq1
  exact ⟨ls', k⟩

/-- The double `1/8`. -/
def eighth : F64 := .fin false (1 / 8) ⟨1, -3, by norm_num, by norm_num, by norm_num,
  lt_of_lt_of_le (by norm_num : _ < (1 : ℚ)) (one_le_pow₀ (by norm_num))⟩

theorem eighth_value : HasValue eighth (1 / 8) := ⟨false, _, _, rfl, rfl⟩

/-- Velocity of the instance: direction depends on the cell; the unused component is NaN. -/
def zigzag (c : Cell) : Vec3 F64 := ⟨if c.1 = 3 then 1 else F64.neg 1, if c.2.1 = 2 then F64.neg 1 else 1, .nan⟩

/-- The value of `zigzag`. -/
def zigzagQ (c : Cell) (a : Fin 3) : ℚ := if a = 0 then if c.1 = 3 then 1 else -1 else if c.2.1 = 2 then -1 else 1

theorem zigzag_cfl (c : Cell) (a : Fin 3) (ha : a.val < 2) : HasValue ((zigzag c).get a) (zigzagQ c a) ∧
    |zigzagQ c a * (1 / 8)| ≤ (1 - 1 / 2 ^ 16) * ((1 - if a = 0 then (-1 : ℚ) else 0) / plate.n.get a) := by
  match a with
  | 0 =>
    have hn : ((plate.n.get 0 : ℤ) : ℚ) = 10 := by simp [plate, Vec3.get]
    rw [hn]
    by_cases h : c.1 = 3
    · refine ⟨?_, ?_⟩
      · simp only [zigzag, zigzagQ, Vec3.get, if_pos h, if_pos]
        exact hasValue_one
      · simp only [zigzagQ, if_pos h, if_pos]
        norm_num
    · refine ⟨?_, ?_⟩
      · simp only [zigzag, zigzagQ, Vec3.get, if_neg h, if_pos]
        exact hasValue_neg hasValue_one
      · simp only [zigzagQ, if_neg h, if_pos]
        norm_num
  | 1 =>
    have hn : ((plate.n.get 1 : ℤ) : ℚ) = 6 := by simp [plate, Vec3.get]
    rw [hn]
    by_cases h : c.2.1 = 2
    · refine ⟨?_, ?_⟩
      · simp only [zigzag, zigzagQ, Vec3.get, if_pos h, one_ne_zero, if_false]
        exact hasValue_neg hasValue_one
      · simp only [zigzagQ, if_pos h, one_ne_zero, if_false]
        norm_num
    · refine ⟨?_, ?_⟩
      · simp only [zigzag, zigzagQ, Vec3.get, if_neg h, one_ne_zero, if_false]
        exact hasValue_one
      · simp only [zigzagQ, if_neg h, one_ne_zero, if_false]
        norm_num
  | 2 => exact absurd ha (by decide)

theorem plate_res (a : Fin 3) (ha : a.val < 2) : (plate.n.get a : ℚ) * (|if a = 0 then (-1 : ℚ) else 0| + (1 - if a = 0 then (-1 : ℚ) else 0))
    ≤ 2 ^ 28 * (1 - if a = 0 then (-1 : ℚ) else 0) := by
  match a with
  | 0 => norm_num [plate, Vec3.get]
  | 1 => norm_num [plate, Vec3.get]
  | 2 => exact absurd ha (by decide)

/-- Instance of C86: 10 × 6 cells, two layers of padding, time step `1/8`, infinite and NaN level set data. -/
example : ∃ g : Grid F64 2, plate.make .wrap 2 = .ok g ∧ ∃ (vel : LsVelocity F64) (ls ls' : Levelset F64),
    vel.velocity.get .wrap g 3 2 0 = .ok ⟨1, F64.neg 1, .nan⟩ ∧ ls.phiPrev.get .wrap g 3 2 0 = .ok (.inf true) ∧
    temporal .semiLagrangian .wrap g g eighth vel ls = .ok ls' := by
  obtain ⟨g, e, G⟩ := make_ok .wrap plate_valid
  obtain ⟨va, h1⟩ := fieldIs_exists (s := .wrap) G zigzag
  obtain ⟨vb, h2⟩ := fieldIs_exists (s := .wrap) G fun _ => (Mat3.zero : Mat3 F64)
  obtain ⟨a0, k0⟩ := fieldIs_exists (s := .wrap) G fun _ => (0 : F64)
  obtain ⟨b0, k1⟩ := fieldIs_exists (s := .wrap) G fun _ => (⟨0, 0, 0⟩ : Vec3 F64)
  obtain ⟨a, ha⟩ := fieldIs_exists (s := .wrap) G fun _ => F64.inf true
  obtain ⟨b, hb⟩ := fieldIs_exists (s := .wrap) G fun _ => (⟨.nan, .nan, .nan⟩ : Vec3 F64)
  obtain ⟨c, hc⟩ := fieldIs_exists (s := .wrap) G fun _ => ([0] : List F64)
  have hin : plate.Padded 2 (3, 2, 0) := by unfold Req.Padded PaddedCell padAlong plate; simp
  have P : PrevIs .wrap plate g ⟨a0, b0, c, a, b, c, a0, b0⟩ (fun _ => F64.inf true) (fun _ => ⟨.nan, .nan, .nan⟩) (fun _ => [0]) :=
    ⟨ha.val, hb.val, hc.val⟩
  obtain ⟨ls', k⟩ := C86_memory_safe_partial .wrap 2 (fun _ => rfl) plate plate_valid (by decide)
    (fun a ha => by
      match a with
      | 0 => decide
      | 1 => decide
      | 2 => exact absurd ha (by decide))
    _ _ plate_box plate_res g e plate plate_valid rfl g e eighth (1 / 8) eighth_value ⟨va, vb⟩ zigzag _ h1 h2 zigzagQ
    (fun c _ a ha => zigzag_cfl c a ha) ⟨a0, b0, c, a, b, c, a0, b0⟩ _ _ _ (fun _ => rfl) P _ _ _ _ k0 k1 k0 k1
  have hvel := h1.val _ hin
  have hphi := ha.val _ hin
  exact ⟨g, e, ⟨va, vb⟩, ⟨a0, b0, c, a, b, c, a0, b0⟩, ls', hvel, hphi, k⟩

/-! ## What is lost by rounding -/

/-- The same velocity `(u, 0, 0)` everywhere. -/
def constVel (g : Grid F64 1) (u : F64) : LsVelocity F64 := ⟨Arr.mk' g ⟨u, 0, 0⟩, Arr.mk' g Mat3.zero⟩

/-- A level set with previous values `phi` (ghost cells included) and constant previous slope `p`. -/
def lineLs (g : Grid F64 1) (phi : List F64) (p : F64) : Levelset F64 :=
  { Levelset.mk' g with phiPrev := { Arr.mk' g 0 with data := phi }, psiPrev := Arr.mk' g ⟨p, 0, 0⟩ }

/-- One step with time step 1 and the resulting value in cell `i`. -/
def oneStep (r : Req F64) (u : F64) (phi : List F64) (p : F64) (i : ℤ) : M F64 := do
  let g ← r.make .wrap 1
  let ls ← temporal .semiLagrangian .wrap g g 1 (constVel g u) (lineLs g phi p)
  ls.phi.get .wrap g i 0 0

/-- Two cells on `[0, 1]`, one layer of padding. -/
def two : Req F64 := ⟨⟨2, 1, 1⟩, 1, ⟨0, 0, 0⟩, ⟨1, 1, 1⟩⟩

theorem two_valid : two.Valid 1 := ⟨by simp, by decide, by decide, by decide, by decide, by decide, by decide, by decide⟩

/-- The largest double below one half. -/
def belowHalf : F64 := .fin false (9007199254740991 / 18014398509481984) ⟨9007199254740991, -54, by norm_num, by norm_num, by norm_num,
  lt_of_lt_of_le (by norm_num : _ < (1 : ℚ)) (one_le_pow₀ (by norm_num))⟩

theorem belowHalf_value : HasValue belowHalf (1 / 2 - 1 / 2 ^ 54) := ⟨false, _, _, rfl, by norm_num⟩

/-- C86, the bound of the exact analysis does not suffice: two cells of width `1/2`, and the fluid moves by
`1/2 - 2 ^ (-54)`, less than a cell, per step (`C30_memory_safe_partial` applies in exact arithmetic).  In double arithmetic
the departure point is rounded to the ghost node, and the step reads beyond the storage. -/
theorem C86_strict_false : ∃ (g : Grid F64 1) (υ : ℚ), two.make .wrap 1 = .ok g ∧ HasValue (F64.neg belowHalf) υ ∧
    |υ * 1| < (1 - 0) / 2 ∧
    temporal .semiLagrangian .wrap g g 1 (constVel g (F64.neg belowHalf)) (lineLs g [0, 0, 0, 0] 0) = .error .oob := by
  obtain ⟨g, e, -⟩ := make_ok .wrap two_valid
  have key : ((two.make .wrap 1 : M (Grid F64 1)) >>= fun g =>
      (temporal .semiLagrangian .wrap g g 1 (constVel g (F64.neg belowHalf)) (lineLs g [0, 0, 0, 0] 0)) >>= fun _ => pure ())
        = (.error .oob : M Unit) := by
    decide +kernel
  rw [e, M.ok_bind] at key
  refine ⟨g, -(1 / 2 - 1 / 2 ^ 54), e, hasValue_neg belowHalf_value, by norm_num [abs_lt], ?_⟩
  cases h : temporal .semiLagrangian .wrap g g 1 (constVel g (F64.neg belowHalf)) (lineLs g [0, 0, 0, 0] 0) with
  | ok v => rw [h, M.ok_bind] at key; exact absurd key (by simp)
  | error f => rw [h, M.error_bind] at key; rw [Except.error.inj key]

theorem three_mag : IsMag (6755399441055743 / 2251799813685248) :=
  ⟨6755399441055743, -51, by norm_num, by norm_num, by norm_num,
    (by norm_num : (6755399441055743 / 2251799813685248 : ℚ) < 2 ^ 2).trans_le (pow_le_pow_right₀ (by norm_num) (by norm_num))⟩

/-- C86, a step in a fluid at rest changes the level set (in exact arithmetic it does not, `C27_zero_velocity_partial`): six
cells on `[0, 1]`, values `i` in cell `i` with slope 6.  The value 3 becomes `3 - 2 ^ (-51)`. -/
theorem C86_rest_false : ∃ (g : Grid F64 1) (ls : Levelset F64), six.make .wrap 1 = .ok g ∧
    temporal .semiLagrangian .wrap g g 1 (constVel g 0) (lineLs g ([-1, 0, 1, 2, 3, 4, 5, 6].map fun i : ℤ => (i : F64)) ((6 : ℤ) : F64))
      = .ok ls ∧
    (lineLs g ([-1, 0, 1, 2, 3, 4, 5, 6].map fun i : ℤ => (i : F64)) ((6 : ℤ) : F64)).phiPrev.get .wrap g 3 0 0 = .ok ((3 : ℤ) : F64) ∧
    ls.phi.get .wrap g 3 0 0 = .ok (.fin false (6755399441055743 / 2251799813685248) three_mag) := by
  have key : oneStep six 0 ([-1, 0, 1, 2, 3, 4, 5, 6].map fun i : ℤ => (i : F64)) ((6 : ℤ) : F64) 3
      = .ok (.fin false (6755399441055743 / 2251799813685248) three_mag) := by decide +kernel
  have key' : ((six.make .wrap 1 : M (Grid F64 1)) >>= fun g =>
      (lineLs g ([-1, 0, 1, 2, 3, 4, 5, 6].map fun i : ℤ => (i : F64)) ((6 : ℤ) : F64)).phiPrev.get .wrap g 3 0 0)
        = .ok ((3 : ℤ) : F64) := by decide +kernel
  obtain ⟨g, eg, key⟩ := bind_ok key
  obtain ⟨ls, el, key⟩ := bind_ok key
  rw [eg, M.ok_bind] at key'
  exact ⟨g, ls, eg, el, key', key⟩

/-- Three cells on `[-1, 1]`, one layer of padding. -/
def three : Req F64 := ⟨⟨3, 1, 1⟩, 1, ⟨-1, 0, 0⟩, ⟨1, 1, 1⟩⟩

/-- C86, a ghost value enters in a fluid at rest: three cells on `[-1, 1]`, the value 1 in every cell and NaN in the left ghost
cell.  After the step the first cell holds NaN (in exact arithmetic the ghost cell is not used, `C27_zero_velocity_partial`). -/
theorem C86_ghost_false : ∃ (g : Grid F64 1) (ls : Levelset F64), three.make .wrap 1 = .ok g ∧
    temporal .semiLagrangian .wrap g g 1 (constVel g 0) (lineLs g [.nan, 1, 1, 1, 1] 0) = .ok ls ∧
    (lineLs g [.nan, 1, 1, 1, 1] 0).phiPrev.get .wrap g 0 0 0 = .ok 1 ∧ ls.phi.get .wrap g 0 0 0 = .ok .nan := by
  have key : oneStep three 0 [.nan, 1, 1, 1, 1] 0 0 = .ok .nan := by decide +kernel
  have key' : ((three.make .wrap 1 : M (Grid F64 1)) >>= fun g =>
      (lineLs g [.nan, 1, 1, 1, 1] 0).phiPrev.get .wrap g 0 0 0) = .ok 1 := by decide +kernel
  obtain ⟨g, eg, key⟩ := bind_ok key
  obtain ⟨ls, el, key⟩ := bind_ok key
  rw [eg, M.ok_bind] at key'
  exact ⟨g, ls, eg, el, key', key⟩

end Gals.Props
