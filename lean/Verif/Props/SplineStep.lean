import Verif.Lemmas.PullDouble
import Verif.Props.SplineDouble

/-!
# C90: rounding errors of a semi-Lagrangian step of the library
-/

set_option linter.unusedSectionVars false
set_option linter.unusedSimpArgs false

namespace Gals.Props

open Gals Gals.Spec

/-- The departure point computed for an interior cell. -/
theorem depart_double {s : IntSem} {d : ℕ} {r : Req F64} (h : r.Valid d) (hpad : r.pad = 1) {lo hi : Fin 3 → ℚ} (hbox : BoxIs r d lo hi)
    {K : ℚ} (hres : ∀ a : Fin 3, a.val < d → r.n.get a * (|lo a| + (hi a - lo a)) ≤ K * (hi a - lo a)) (hK : K ≤ 2 ^ 28)
    {g : Grid F64 d} (G : g.Made s r) {dt : F64} {τ : ℚ} (hdt : HasValue dt τ) {u : Vec3 F64} {υ : Fin 3 → ℚ} {c : Cell}
    (hc : r.Interior c) (hu : ∀ a : Fin 3, a.val < d → HasValue (u.get a) (υ a) ∧
      lo a - (1 / 2 - 1 / 2 ^ 15) * (axisOf r lo hi a).h ≤ departQ (axisOf r lo hi) τ υ c a ∧
      departQ (axisOf r lo hi) τ υ c a ≤ hi a + (1 / 2 - 1 / 2 ^ 15) * (axisOf r lo hi a).h) :
    ∃ q : Fin 3 → ℚ, ∀ a : Fin 3, a.val < d →
      HasValue (((Grid.elem g g.boxMin g.dx c).sub (u.smul dt)).get a) (q a) ∧
      |q a - departQ (axisOf r lo hi) τ υ c a| ≤ 78 * K * ulp1 * (axisOf r lo hi a).h ∧ 0 < (axisOf r lo hi a).h ∧ 1 ≤ K := by
  have hax : ∀ a : Fin 3, ∃ q : ℚ, a.val < d →
      HasValue (((Grid.elem g g.boxMin g.dx c).sub (u.smul dt)).get a) q ∧
      |q - departQ (axisOf r lo hi) τ υ c a| ≤ 78 * K * ulp1 * (axisOf r lo hi a).h ∧ 0 < (axisOf r lo hi a).h ∧ 1 ≤ K := by
    intro a
    by_cases ha : a.val < d
    · obtain ⟨hl, hh, h1, h2⟩ := hbox a ha
      obtain ⟨huv, d1, d2⟩ := hu a ha
      have hrng := interior_comp hc a
      have n0 := h.n_pos a
      have hnq : (0 : ℚ) < r.n.get a := by exact_mod_cast n0
      have hn1 : (1 : ℚ) ≤ r.n.get a := by exact_mod_cast n0
      have w0 : 0 < hi a - lo a := (two_zpow_pos _).trans_le h1
      have hH : 0 < (hi a - lo a) / r.n.get a := div_pos w0 hnq
      have hHn : r.n.get a * ((hi a - lo a) / r.n.get a) = hi a - lo a := by field_simp
      have hHw : (hi a - lo a) / r.n.get a ≤ hi a - lo a := div_le_self w0.le hn1
      have c0 : (0 : ℚ) ≤ comp c a := by exact_mod_cast hrng.1
      have c1 : (comp c a : ℚ) + 1 ≤ r.n.get a := by exact_mod_cast hrng.2
      have r1 := hres a ha
      have l0 := abs_nonneg (lo a)
      have r2 : r.n.get a * (|lo a| + (hi a - lo a)) ≤ 2 ^ 28 * (hi a - lo a) := r1.trans (mul_le_mul_of_nonneg_right hK w0.le)
      have k1 : (1 : ℚ) ≤ K := hn1.trans (res_n w0 n0 r1)
      simp only [departQ, nodeAt, Axis.h, axisOf] at d1 d2
      have m0 := mul_nonneg c0 hH.le
      have m1 := mul_le_mul_of_nonneg_right c1 hH.le
      have hp : |υ a * τ| ≤ 2 * (hi a - lo a) := by
        rw [abs_le]
        generalize (hi a - lo a) / r.n.get a = H at *
        constructor <;> linarith
      obtain ⟨q, hq, rq, -⟩ := departure_fine hl hh huv hdt h1 h2 n0 r2 (v := comp c a + r.pad) (by omega) (by omega) hp
      refine ⟨q, fun _ => ⟨?_, ?_, hH, k1⟩⟩
      · rw [sub_smul_get, elem_get G c a ha]
        exact hq
      · have e : lo a + (((comp c a + r.pad : ℤ) : ℚ) - 1 + 1 / 2) * ((hi a - lo a) / r.n.get a) - υ a * τ =
            departQ (axisOf r lo hi) τ υ c a := by
          simp only [departQ, nodeAt, Axis.h, axisOf, hpad]
          push_cast
          ring
        rw [← e]
        refine rq.trans ?_
        change _ ≤ 78 * K * ulp1 * ((hi a - lo a) / r.n.get a)
        have s1 : |lo a| + 3 * (hi a - lo a) ≤ 3 * (K * ((hi a - lo a) / r.n.get a)) := by
          refine le_of_mul_le_mul_left ?_ hnq
          calc r.n.get a * (|lo a| + 3 * (hi a - lo a)) ≤ 3 * (r.n.get a * (|lo a| + (hi a - lo a))) := by
                have := mul_nonneg hnq.le l0
                linarith
            _ ≤ 3 * (K * (hi a - lo a)) := by linarith
            _ = r.n.get a * (3 * (K * ((hi a - lo a) / r.n.get a))) := by field_simp
        have s2 := mul_le_mul_of_nonneg_left s1 ulp1_pos.le
        linarith
    · exact ⟨0, fun h => absurd h ha⟩
  choose q hq using hax
  exact ⟨q, hq⟩

/-- Points within half a cell of the box are between stored nodes. -/
theorem inCells_of {r : Req F64} {d : ℕ} {lo hi : Fin 3 → ℚ} {q : Fin 3 → ℚ} (hA : ∀ a : Fin 3, a.val < d → 0 < (axisOf r lo hi a).h)
    (hn : ∀ a : Fin 3, 0 < r.n.get a)
    (hq : ∀ a : Fin 3, a.val < d → lo a - (1 / 2 - 1 / 2 ^ 16) * (axisOf r lo hi a).h ≤ q a ∧
      q a ≤ hi a + (1 / 2 - 1 / 2 ^ 16) * (axisOf r lo hi a).h) : InCells r d (axisOf r lo hi) q := by
  intro a ha
  have h0 := hA a ha
  obtain ⟨h1, h2⟩ := hq a ha
  have hnq : (0 : ℚ) < r.n.get a := by exact_mod_cast hn a
  have e : (axisOf r lo hi a).coord (q a) = (q a - lo a) / (axisOf r lo hi a).h - 1 / 2 := rfl
  have w : hi a - lo a = r.n.get a * (axisOf r lo hi a).h := by
    change _ = r.n.get a * ((hi a - lo a) / r.n.get a)
    field_simp
  constructor
  · rw [Int.le_floor, e]
    have : -(1 / 2 : ℚ) ≤ (q a - lo a) / (axisOf r lo hi a).h := by
      rw [le_div_iff₀ h0]
      linarith
    push_cast
    linarith
  · have : (axisOf r lo hi a).coord (q a) < r.n.get a := by
      rw [e, sub_lt_iff_lt_add, div_lt_iff₀ h0]
      linarith
    have := Int.floor_lt.2 this
    omega

/-- The error of an interpolation at the computed departure point, against the spline at the exact one. -/
theorem depart_interp (s : IntSem) (d : ℕ) (hs : d < 3 → s = .wrap) (r : Req F64) (h : r.Valid d) (hpad : r.pad = 1)
    (lo hi : Fin 3 → ℚ) (hbox : BoxIs r d lo hi)
    (hside : ∀ a : Fin 3, a.val < d → Moderate (hi a - lo a)) (K : ℚ)
    (hres : ∀ a : Fin 3, a.val < d → r.n.get a * (|lo a| + (hi a - lo a)) ≤ K * (hi a - lo a)) (hK : K ≤ 2 ^ 28)
    (g : Grid F64 d) (e : r.make s d = .ok g) (dt : F64) (τ : ℚ) (hdt : HasValue dt τ) (u : Vec3 F64) (υ : Fin 3 → ℚ) (c : Cell)
    (hc : r.Interior c) (hu : ∀ a : Fin 3, a.val < d → HasValue (u.get a) (υ a) ∧
      lo a - (1 / 2 - 1 / 2 ^ 15) * (axisOf r lo hi a).h ≤ departQ (axisOf r lo hi) τ υ c a ∧
      departQ (axisOf r lo hi) τ υ c a ≤ hi a + (1 / 2 - 1 / 2 ^ 15) * (axisOf r lo hi a).h)
    (ls : Levelset F64) (phi : Cell → F64) (psi : Cell → Vec3 F64) (mix : Cell → List F64) (P : PrevIs s r g ls phi psi mix)
    (D : Jet) (hD : JetIs r d phi psi mix D) (M : ℚ) (hM : Moderate M) (hDM : JetLe r d (axisOf r lo hi) D M) :
    ∃ (out : Interp F64) (v : ℚ), interpolate s g ls ((Grid.elem g g.boxMin g.dx c).sub (u.smul dt)) false = .ok out ∧
      HasValue out.phi v ∧
      |v - jetSpline d (axisOf r lo hi) noD D (departQ (axisOf r lo hi) τ υ c)| ≤ (2 ^ (8 + 3 * d) + 78 * cVal d) * K * M / 2 ^ 52 ∧
      (∀ a : Fin 3, d ≤ a.val → out.psi.get a = 0) ∧
      ∀ a : Fin 3, a.val < d → ∃ w : ℚ, HasValue (out.psi.get a) w ∧
        |w - jetSpline d (axisOf r lo hi) (oneD a) D (departQ (axisOf r lo hi) τ υ c)| * (axisOf r lo hi a).h ≤
          (2 ^ (10 + 3 * d) + 78 * cGrad d) * K * M / 2 ^ 52 ∧
        |jetSpline d (axisOf r lo hi) (oneD a) D (departQ (axisOf r lo hi) τ υ c)| * (axisOf r lo hi a).h ≤ 75 / 2 * M := by
  obtain ⟨q, hq⟩ := depart_double h hpad hbox hres hK (make_made h e) hdt hc hu
  have hA : ∀ a : Fin 3, a.val < d → 0 < (axisOf r lo hi a).h := fun a ha => (hq a ha).2.2.1
  have hd : 0 < d := by have := h.dim; omega
  have hK1 : 1 ≤ K := (hq 0 hd).2.2.2
  have δ0 : 78 * K * ulp1 ≤ 1 / 2 ^ 17 := by
    have := mul_le_mul_of_nonneg_right (mul_le_mul_of_nonneg_left hK (by norm_num : (0 : ℚ) ≤ 78)) ulp1_pos.le
    exact this.trans (by norm_num [ulp1])
  have hx : ∀ a : Fin 3, a.val < d → lo a - (1 / 2 - 1 / 2 ^ 16) * (axisOf r lo hi a).h ≤ q a ∧
      q a ≤ hi a + (1 / 2 - 1 / 2 ^ 16) * (axisOf r lo hi a).h := by
    intro a ha
    obtain ⟨-, k2, k3, -⟩ := hq a ha
    obtain ⟨-, d1, d2⟩ := hu a ha
    have := mul_le_mul_of_nonneg_right δ0 k3.le
    obtain ⟨k4, k5⟩ := abs_le.1 k2
    constructor <;> linarith
  have hx' : ∀ a : Fin 3, a.val < d → lo a - (1 / 2 - 1 / 2 ^ 16) * (axisOf r lo hi a).h ≤ departQ (axisOf r lo hi) τ υ c a ∧
      departQ (axisOf r lo hi) τ υ c a ≤ hi a + (1 / 2 - 1 / 2 ^ 16) * (axisOf r lo hi a).h := by
    intro a ha
    obtain ⟨-, d1, d2⟩ := hu a ha
    have := hA a ha
    constructor <;> linarith
  obtain ⟨mv, mg⟩ := move h hpad hA hDM (inCells_of hA h.n_pos hx') (inCells_of hA h.n_pos hx) (δ := 78 * K * ulp1)
    (δ0.trans (by norm_num)) (fun a ha => by
      obtain ⟨-, k2, k3, -⟩ := hq a ha
      rw [Axis.coord, Axis.coord, sub_sub_sub_cancel_right, ← sub_div, sub_sub_sub_cancel_right, abs_div, abs_of_pos k3, div_le_iff₀ k3]
      exact k2)
  obtain ⟨out, v, e1, e2, e3, e4, e5⟩ := C89_interpolation s d hs r h hpad lo hi hbox hside K hres hK g e _ q
    (fun a ha => ⟨(hq a ha).1, hx a ha⟩) ls phi psi mix P D hD M hM hDM
  have eU : ∀ x : ℚ, x * (78 * K * ulp1) * M = 78 * x * K * M / 2 ^ 52 := fun x => by rw [ulp1]; ring
  rw [eU] at mv
  refine ⟨out, v, e1, e2, ?_, e4, fun a ha => ?_⟩
  · have := abs_sub_le v (jetSpline d (axisOf r lo hi) noD D q) (jetSpline d (axisOf r lo hi) noD D (departQ (axisOf r lo hi) τ υ c))
    calc _ ≤ _ := this
      _ ≤ 2 ^ (8 + 3 * d) * K * M / 2 ^ 52 + 78 * cVal d * K * M / 2 ^ 52 := add_le_add e3 mv
      _ = _ := by ring
  · obtain ⟨w, k1, k2⟩ := e5 a ha
    obtain ⟨k3, k4⟩ := mg a ha
    rw [eU] at k3
    refine ⟨w, k1, ?_, k4⟩
    have := abs_sub_le w (jetSpline d (axisOf r lo hi) (oneD a) D q) (jetSpline d (axisOf r lo hi) (oneD a) D (departQ (axisOf r lo hi) τ υ c))
    calc _ ≤ _ := mul_le_mul_of_nonneg_right this (hA a ha).le
      _ = |w - jetSpline d (axisOf r lo hi) (oneD a) D q| * (axisOf r lo hi a).h + |jetSpline d (axisOf r lo hi) (oneD a) D q -
          jetSpline d (axisOf r lo hi) (oneD a) D (departQ (axisOf r lo hi) τ υ c)| * (axisOf r lo hi a).h := add_mul _ _ _
      _ ≤ 2 ^ (10 + 3 * d) * K * M / 2 ^ 52 + 78 * cGrad d * K * M / 2 ^ 52 := add_le_add k2 k3
      _ = _ := by ring

theorem const_val {d : ℕ} (hd : d = 1 ∨ d = 2 ∨ d = 3) : 2 ^ (8 + 3 * d) + 78 * cVal d ≤ 2 ^ (9 + 3 * d) := by
  obtain rfl | rfl | rfl := hd <;> norm_num [cVal]

theorem const_grad {d : ℕ} (hd : d = 1 ∨ d = 2 ∨ d = 3) :
    (2 ^ (10 + 3 * d) + 78 * cGrad d) ≤ 2 ^ 20 ∧
      ((d : ℚ) + 1) * (2 ^ (10 + 3 * d) + 78 * cGrad d) + 1000 ≤ 2 ^ (13 + 3 * d) := by
  obtain rfl | rfl | rfl := hd <;> norm_num [cGrad]

/-- C90. A semi-Lagrangian step of the library in double arithmetic returns, and leaves in each interior cell the value of the
spline through the previous data at the departure point, and its transported gradient, up to `2 ^ (9 + 3 d) K` and `2 ^ (13 + 3 d) K`
units in the last place of the data.  The displacement may be of any length that leaves the departure points within half a cell of
the box; the displacements of neighbours differ by at most a cell. -/
theorem C90_step (s : IntSem) (d : ℕ) (hs : d < 3 → s = .wrap) (r : Req F64) (h : r.Valid d) (hpad : r.pad = 1)
    (lo hi : Fin 3 → ℚ) (hbox : BoxIs r d lo hi)
    (hside : ∀ a : Fin 3, a.val < d → Moderate (hi a - lo a)) (K : ℚ)
    (hres : ∀ a : Fin 3, a.val < d → r.n.get a * (|lo a| + (hi a - lo a)) ≤ K * (hi a - lo a)) (hK : K ≤ 2 ^ 28)
    (g : Grid F64 d) (e : r.make s d = .ok g) (rv : Req F64) (hv : rv.Valid d) (hn : rv.n = r.n)
    (gv : Grid F64 d) (ev : rv.make s d = .ok gv) (dt : F64) (τ : ℚ) (hdt : HasValue dt τ) (vel : LsVelocity F64)
    (u : Cell → Vec3 F64) (m : Cell → Mat3 F64) (hu : FieldIs s rv gv vel.velocity u) (hg : FieldIs s rv gv vel.grad m)
    (υ : Cell → Fin 3 → ℚ) (μ : Cell → Fin 3 → Fin 3 → ℚ)
    (huv : ∀ c, r.Interior c → ∀ a : Fin 3, a.val < d → HasValue ((u c).get a) (υ c a) ∧
      lo a - (1 / 2 - 1 / 2 ^ 15) * (axisOf r lo hi a).h ≤ departQ (axisOf r lo hi) τ (υ c) c a ∧
      departQ (axisOf r lo hi) τ (υ c) c a ≤ hi a + (1 / 2 - 1 / 2 ^ 15) * (axisOf r lo hi a).h)
    (hmu : ∀ c, r.Interior c → ∀ a : Fin 3, a.val < d → ∀ j : Fin 3, HasValue ((m c).entry j a) (μ c j a) ∧
      |μ c j a * τ| ≤ 2 ^ 300 ∧ (j.val < d → |μ c j a * τ| * (axisOf r lo hi a).h ≤ (axisOf r lo hi j).h))
    (ls : Levelset F64) (phi : Cell → F64) (psi : Cell → Vec3 F64) (mix : Cell → List F64)
    (P : PrevIs s r g ls phi psi mix) (p0 p1 : Cell → F64) (q0 q1 : Cell → Vec3 F64)
    (hp : FieldIs s r g ls.phi p0) (hq : FieldIs s r g ls.psi q0) (hp1 : FieldIs s r g ls.phiInterpPrev p1)
    (hq1 : FieldIs s r g ls.psiInterpPrev q1)
    (D : Jet) (hD : JetIs r d phi psi mix D) (M : ℚ) (hM : Moderate M) (hDM : JetLe r d (axisOf r lo hi) D M) :
    ∃ (ls' : Levelset F64) (f : Cell → F64) (p : Cell → Vec3 F64), temporal .semiLagrangian s g gv dt vel ls = .ok ls' ∧
      FieldIs s r g ls'.phi f ∧ FieldIs s r g ls'.psi p ∧ ∀ c, r.Interior c →
        (∃ v : ℚ, HasValue (f c) v ∧
          |v - jetSpline d (axisOf r lo hi) noD D (departQ (axisOf r lo hi) τ (υ c) c)| ≤ 2 ^ (9 + 3 * d) * K * M / 2 ^ 52) ∧
        ∀ a : Fin 3, a.val < d → ∃ w : ℚ, HasValue ((p c).get a) w ∧
          |w - pullGrad d (axisOf r lo hi) D τ (μ c) (departQ (axisOf r lo hi) τ (υ c) c) a| * (axisOf r lo hi a).h ≤
            2 ^ (13 + 3 * d) * K * M / 2 ^ 52 := by
  have G := make_made h e
  have Gv := make_made hv ev
  have hi' : ∀ c, r.Interior c → rv.Padded d c := fun c hc =>
    interior_padded Gv (by unfold Req.Interior; rw [hn]; exact hc)
  have hw0 : ∀ a : Fin 3, a.val < d → 0 < hi a - lo a := fun a ha => (two_zpow_pos _).trans_le (hside a ha).1
  have hnK : ∀ a : Fin 3, a.val < d → (r.n.get a : ℚ) ≤ K := fun a ha => res_n (hw0 a ha) (h.n_pos a) (hres a ha)
  have hd : 0 < d := by have := h.dim; omega
  have hK1 : 1 ≤ K := by
    have : (1 : ℚ) ≤ r.n.get 0 := by exact_mod_cast h.n_pos 0
    exact this.trans (hnK 0 hd)
  have pM := moderate_pw hM
  have M0 := pM.pos
  have pw : ∀ a : Fin 3, a.val < d → Pw (axisOf r lo hi a).h (-328) 300 := fun a ha => width_pw h (hside a ha) ((hnK a ha).trans hK)
  have key := fun c (hc : r.Interior c) => depart_interp s d hs r h hpad lo hi hbox hside K hres hK g e dt τ hdt (u c) (υ c) c hc
    (huv c hc) ls phi psi mix P D hD M hM hDM
  have : Nonempty (Interp F64) := ⟨⟨0, ⟨0, 0, 0⟩⟩⟩
  obtain ⟨o, ho⟩ := choose_ok (p := r.Interior)
    (f := fun c => interpolate s g ls ((Grid.elem g g.boxMin g.dx c).sub ((u c).smul dt)) false) (by
    intro c hc
    obtain ⟨out, -, k, -⟩ := key c hc
    exact ⟨out, k⟩)
  obtain ⟨ls', e2, k2, k3, -⟩ := slEuler_ok (gv := gv) (vel := vel) (ls := ls) (dt := dt) G (v := u) (m := m)
    (pos := fun c => Grid.elem g g.boxMin g.dx c) (fun c hc => hu.val c (hi' c hc)) (fun c hc => hg.val c (hi' c hc))
    (fun c hc => G.node c (G.inPad.2 (interior_padded G hc))) hp hq hp1 hq1 ho
  refine ⟨ls', _, _, e2, k2, k3, fun c hc => ?_⟩
  obtain ⟨out, v, e3, e4, e5, e6, e7⟩ := key c hc
  have eo : o c = out := by
    have := (ho c hc).symm.trans e3
    injection this
  have KM : 0 < K * M / 2 ^ 52 := by positivity
  obtain ⟨g2, g3⟩ := const_grad h.dim
  rw [if_pos hc, if_pos hc, eo]
  refine ⟨⟨v, e4, e5.trans ?_⟩, fun a ha => ?_⟩
  · have := mul_le_mul_of_nonneg_right (const_val h.dim) KM.le
    calc _ = (2 ^ (8 + 3 * d) + 78 * cVal d) * (K * M / 2 ^ 52) := by ring
      _ ≤ _ := this
      _ = _ := by ring
  · obtain ⟨t, t1, t2⟩ := pull_double h.dim pw pM hdt ha (hmu c hc a ha) (E := (2 ^ (10 + 3 * d) + 78 * cGrad d) * K * M / 2 ^ 52)
      (by
        have k1 := mul_le_mul_of_nonneg_right g2 KM.le
        have k2 := mul_le_mul_of_nonneg_right hK M0.le
        have e : (2 ^ (10 + 3 * d) + 78 * cGrad d) * K * M / 2 ^ 52 = (2 ^ (10 + 3 * d) + 78 * cGrad d) * (K * M / 2 ^ 52) := by ring
        rw [e]
        refine k1.trans ?_
        linarith)
      (fun j => jetSpline d (axisOf r lo hi) (oneD j) D (departQ (axisOf r lo hi) τ (υ c) c)) e6 e7
    refine ⟨t, t1, t2.trans ?_⟩
    have k1 := mul_le_mul_of_nonneg_right g3 KM.le
    have k2 : 1000 * (M / 2 ^ 52) ≤ 1000 * (K * M / 2 ^ 52) := by
      have : M ≤ K * M := le_mul_of_one_le_left M0.le hK1
      linarith
    have e1 : (1000 : ℚ) * ulp1 * M = 1000 * (M / 2 ^ 52) := by rw [ulp1]; ring
    rw [e1]
    calc _ = ((d : ℚ) + 1) * (2 ^ (10 + 3 * d) + 78 * cGrad d) * (K * M / 2 ^ 52) + 1000 * (M / 2 ^ 52) := by ring
      _ ≤ (((d : ℚ) + 1) * (2 ^ (10 + 3 * d) + 78 * cGrad d) + 1000) * (K * M / 2 ^ 52) := by linarith
      _ ≤ _ := k1
      _ = _ := by ring

/-! ## A fluid at rest -/

theorem hsum_at_node (o : Fin 2) (b : ℤ) (f : Fin 2 → ℤ → ℚ) : hsum o 1 0 b f = f o b := by
  match o with
  | 0 => simp [hsum, hVal_0, hVal_1, hSlope_0, hSlope_1]
  | 1 => simp [hsum, hVal'_0, hVal'_1, hSlope'_0, hSlope'_1]

/-- At the centre of a cell the spline has the value and the slopes of the cell. -/
theorem spline_node {d : ℕ} {r : Req F64} (h : r.Valid d) {A : Fin 3 → Axis} (hA : ∀ a : Fin 3, a.val < d → 0 < (A a).h) {c : Cell}
    (hc : r.Interior c) (D : Jet) :
    jetSpline d A noD D (nodeAt A c) = D 0 0 0 c ∧
      ∀ a : Fin 3, a.val < d → jetSpline d A (oneD a) D (nodeAt A c) = D (oneD a 0) (oneD a 1) (oneD a 2) c := by
  have hco : ∀ a : Fin 3, a.val < d → (A a).coord (nodeAt A c a) = comp c a := by
    intro a ha
    have := (hA a ha).ne'
    rw [Axis.coord, nodeAt]
    field_simp
    ring
  have hfl : ∀ a : Fin 3, a.val < d → ⌊(A a).coord (nodeAt A c a)⌋ = comp c a := fun a ha => by rw [hco a ha, Int.floor_intCast]
  have hfr : ∀ a : Fin 3, a.val < d → Int.fract ((A a).coord (nodeAt A c a)) = 0 := fun a ha => by rw [hco a ha, Int.fract_intCast]
  obtain ⟨⟨-, -⟩, ⟨y0, y1⟩, ⟨z0, z1⟩⟩ := hc
  obtain ⟨i, j, k⟩ := c
  obtain rfl | rfl | rfl : d = 1 ∨ d = 2 ∨ d = 3 := h.dim
  · have j0 : j = 0 := by have := h.ny_one (by decide); dsimp only at y0 y1; omega
    have k0 : k = 0 := by have := h.nz_one (by decide); dsimp only at z0 z1; omega
    subst j0 k0
    have key : ∀ o, nest1 o (fun a => Int.fract ((A a).coord (nodeAt A (i, 0, 0) a))) (fun a => ⌊(A a).coord (nodeAt A (i, 0, 0) a)⌋)
        (scaleJet (fun a => (A a).h) D) = scaleJet (fun a => (A a).h) D (o 0) 0 0 (i, 0, 0) := by
      intro o
      unfold nest1
      simp only [hfl 0 (by decide), hfr 0 (by decide), hsum_at_node]
      rfl
    refine ⟨?_, fun a ha => ?_⟩
    · rw [jetSpline1_no, key]
      simp [scaleJet, noD]
    · match a with
      | 1 => exact absurd ha (by decide)
      | 2 => exact absurd ha (by decide)
      | 0 =>
        have := (hA 0 ha).ne'
        rw [jetSpline1_x, key, show oneD 0 0 = 1 from rfl, show oneD 0 1 = 0 from rfl, show oneD 0 2 = 0 from rfl]
        simp only [scaleJet, Fin.val_zero, Fin.val_one, pow_zero, pow_one, mul_one, one_mul]
        field_simp
  · have k0 : k = 0 := by have := h.nz_one (by decide); dsimp only at z0 z1; omega
    subst k0
    have key : ∀ o, nest2 o (fun a => Int.fract ((A a).coord (nodeAt A (i, j, 0) a))) (fun a => ⌊(A a).coord (nodeAt A (i, j, 0) a)⌋)
        (scaleJet (fun a => (A a).h) D) = scaleJet (fun a => (A a).h) D (o 0) (o 1) 0 (i, j, 0) := by
      intro o
      unfold nest2
      simp only [hfl 0 (by decide), hfr 0 (by decide), hfl 1 (by decide), hfr 1 (by decide), hsum_at_node]
      rfl
    refine ⟨?_, fun a ha => ?_⟩
    · rw [jetSpline2_no, key]
      simp [scaleJet, noD]
    · match a with
      | 2 => exact absurd ha (by decide)
      | 0 =>
        have := (hA 0 ha).ne'
        rw [jetSpline2_x, key, show oneD 0 0 = 1 from rfl, show oneD 0 1 = 0 from rfl, show oneD 0 2 = 0 from rfl]
        simp only [scaleJet, Fin.val_zero, Fin.val_one, pow_zero, pow_one, mul_one, one_mul]
        field_simp
      | 1 =>
        have := (hA 1 ha).ne'
        rw [jetSpline2_y, key, show oneD 1 0 = 0 from rfl, show oneD 1 1 = 1 from rfl, show oneD 1 2 = 0 from rfl]
        simp only [scaleJet, Fin.val_zero, Fin.val_one, pow_zero, pow_one, mul_one, one_mul]
        field_simp
  · have key : ∀ o, nest3 o (fun a => Int.fract ((A a).coord (nodeAt A (i, j, k) a))) (fun a => ⌊(A a).coord (nodeAt A (i, j, k) a)⌋)
        (scaleJet (fun a => (A a).h) D) = scaleJet (fun a => (A a).h) D (o 0) (o 1) (o 2) (i, j, k) := by
      intro o
      unfold nest3
      simp only [hfl 0 (by decide), hfr 0 (by decide), hfl 1 (by decide), hfr 1 (by decide), hfl 2 (by decide), hfr 2 (by decide),
        hsum_at_node]
      rfl
    refine ⟨?_, fun a ha => ?_⟩
    · rw [jetSpline3_no, key]
      simp [scaleJet, noD]
    · match a with
      | 0 =>
        have := (hA 0 ha).ne'
        rw [jetSpline3_x, key, show oneD 0 0 = 1 from rfl, show oneD 0 1 = 0 from rfl, show oneD 0 2 = 0 from rfl]
        simp only [scaleJet, Fin.val_zero, Fin.val_one, pow_zero, pow_one, mul_one, one_mul]
        field_simp
      | 1 =>
        have := (hA 1 ha).ne'
        rw [jetSpline3_y, key, show oneD 1 0 = 0 from rfl, show oneD 1 1 = 1 from rfl, show oneD 1 2 = 0 from rfl]
        simp only [scaleJet, Fin.val_zero, Fin.val_one, pow_zero, pow_one, mul_one, one_mul]
        field_simp
      | 2 =>
        have := (hA 2 ha).ne'
        rw [jetSpline3_z, key, show oneD 2 0 = 0 from rfl, show oneD 2 1 = 0 from rfl, show oneD 2 2 = 1 from rfl]
        simp only [scaleJet, Fin.val_zero, Fin.val_one, pow_zero, pow_one, mul_one, one_mul]
        field_simp

theorem pullGrad_rest {d : ℕ} {A : Fin 3 → Axis} {D : Jet} {τ : ℚ} {μ : Fin 3 → Fin 3 → ℚ} {a : Fin 3} (hμ : ∀ j, μ j a = 0)
    (ha : a.val < d) (q : Fin 3 → ℚ) : pullGrad d A D τ μ q a = jetSpline d A (oneD a) D q := by
  unfold pullGrad
  rw [Finset.sum_eq_single a]
  · rw [if_pos ha, if_pos rfl, hμ, zero_mul, sub_zero, one_mul]
  · intro j _ hj
    split
    · simp [hμ, hj]
    · rfl
  · intro h
    exact absurd (Finset.mem_univ a) h

/-- C90, a fluid at rest: the step keeps values and gradients up to rounding (not exactly, `C86_rest_false`). -/
theorem C90_rest (s : IntSem) (d : ℕ) (hs : d < 3 → s = .wrap) (r : Req F64) (h : r.Valid d) (hpad : r.pad = 1)
    (lo hi : Fin 3 → ℚ) (hbox : BoxIs r d lo hi)
    (hside : ∀ a : Fin 3, a.val < d → Moderate (hi a - lo a)) (K : ℚ)
    (hres : ∀ a : Fin 3, a.val < d → r.n.get a * (|lo a| + (hi a - lo a)) ≤ K * (hi a - lo a)) (hK : K ≤ 2 ^ 28)
    (g : Grid F64 d) (e : r.make s d = .ok g) (rv : Req F64) (hv : rv.Valid d) (hn : rv.n = r.n)
    (gv : Grid F64 d) (ev : rv.make s d = .ok gv) (dt : F64) (τ : ℚ) (hdt : HasValue dt τ) (vel : LsVelocity F64)
    (u : Cell → Vec3 F64) (m : Cell → Mat3 F64) (hu : FieldIs s rv gv vel.velocity u) (hg : FieldIs s rv gv vel.grad m)
    (hu0 : ∀ c, r.Interior c → ∀ a : Fin 3, a.val < d → HasValue ((u c).get a) 0)
    (hm0 : ∀ c, r.Interior c → ∀ a : Fin 3, a.val < d → ∀ j : Fin 3, HasValue ((m c).entry j a) 0)
    (ls : Levelset F64) (phi : Cell → F64) (psi : Cell → Vec3 F64) (mix : Cell → List F64)
    (P : PrevIs s r g ls phi psi mix) (p0 p1 : Cell → F64) (q0 q1 : Cell → Vec3 F64)
    (hp : FieldIs s r g ls.phi p0) (hq : FieldIs s r g ls.psi q0) (hp1 : FieldIs s r g ls.phiInterpPrev p1)
    (hq1 : FieldIs s r g ls.psiInterpPrev q1)
    (D : Jet) (hD : JetIs r d phi psi mix D) (M : ℚ) (hM : Moderate M) (hDM : JetLe r d (axisOf r lo hi) D M) :
    ∃ (ls' : Levelset F64) (f : Cell → F64) (p : Cell → Vec3 F64), temporal .semiLagrangian s g gv dt vel ls = .ok ls' ∧
      FieldIs s r g ls'.phi f ∧ FieldIs s r g ls'.psi p ∧ ∀ c, r.Interior c →
        (∃ v w : ℚ, HasValue (phi c) w ∧ HasValue (f c) v ∧ |v - w| ≤ 2 ^ (9 + 3 * d) * K * M / 2 ^ 52) ∧
        ∀ a : Fin 3, a.val < d → ∃ v w : ℚ, HasValue ((psi c).get a) w ∧ HasValue ((p c).get a) v ∧
          |v - w| * (axisOf r lo hi a).h ≤ 2 ^ (13 + 3 * d) * K * M / 2 ^ 52 := by
  have hA : ∀ a : Fin 3, a.val < d → 0 < (axisOf r lo hi a).h := fun a ha =>
    div_pos ((two_zpow_pos _).trans_le (hside a ha).1) (by have := h.n_pos a; exact_mod_cast this)
  have hdep : ∀ c, departQ (axisOf r lo hi) τ (fun _ => 0) c = nodeAt (axisOf r lo hi) c := by
    intro c
    funext a
    rw [departQ, zero_mul, sub_zero]
  obtain ⟨ls', f, p, k1, k2, k3, k4⟩ := C90_step s d hs r h hpad lo hi hbox hside K hres hK g e rv hv hn gv ev dt τ hdt vel u m hu hg
    (fun _ _ => 0) (fun _ _ _ => 0)
    (fun c hc a ha => by
      have h0 := hA a ha
      have hrng := interior_comp hc a
      have c0 : (0 : ℚ) ≤ comp c a := by exact_mod_cast hrng.1
      have c1 : (comp c a : ℚ) + 1 ≤ r.n.get a := by exact_mod_cast hrng.2
      have hnq : (0 : ℚ) < r.n.get a := by exact_mod_cast h.n_pos a
      have w : hi a - lo a = r.n.get a * (axisOf r lo hi a).h := by
        change _ = r.n.get a * ((hi a - lo a) / r.n.get a)
        field_simp
      have m0 := mul_nonneg c0 h0.le
      have m1 := mul_le_mul_of_nonneg_right c1 h0.le
      have e : nodeAt (axisOf r lo hi) c a = lo a + (comp c a + 1 / 2) * (axisOf r lo hi a).h := rfl
      refine ⟨hu0 c hc a ha, ?_, ?_⟩ <;> rw [hdep, e] <;> linarith)
    (fun c hc a ha j => ⟨hm0 c hc a ha j, by rw [zero_mul, abs_zero]; positivity,
      fun hj => by rw [zero_mul, abs_zero, zero_mul]; exact (hA j hj).le⟩)
    ls phi psi mix P p0 p1 q0 q1 hp hq hp1 hq1 D hD M hM hDM
  refine ⟨ls', f, p, k1, k2, k3, fun c hc => ?_⟩
  obtain ⟨⟨v, v1, v2⟩, k5⟩ := k4 c hc
  obtain ⟨s1, s2⟩ := spline_node h hA hc D
  have hcp := interior_padded (make_made h e) hc
  rw [hdep, s1] at v2
  refine ⟨⟨v, _, hD.phi c hcp, v1, v2⟩, fun a ha => ?_⟩
  obtain ⟨w, w1, w2⟩ := k5 a ha
  rw [hdep, pullGrad_rest (fun _ => rfl) ha, s2 a ha] at w2
  exact ⟨w, _, hD.psi c hcp a ha, w1, w2⟩

/-! ## An instance of the hypotheses -/

theorem layer_abs (c : Cell) : |layerQ c * (1 / 8)| ≤ 1 / 8 := by unfold layerQ; split <;> norm_num

theorem layer_range (c : Cell) : 0 ≤ layerQ c ∧ layerQ c ≤ 1 := by unfold layerQ; split <;> norm_num

theorem brick_widths : (axisOf brick (fun _ => 0) (fun _ => 1) 0).h = 1 / 6 ∧ (axisOf brick (fun _ => 0) (fun _ => 1) 1).h = 1 / 5 ∧
    (axisOf brick (fun _ => 0) (fun _ => 1) 2).h = 1 / 3 := by
  refine ⟨?_, ?_, ?_⟩ <;> norm_num [axisOf, Axis.h, brick, Vec3.get]

theorem brick_jetLe : JetLe brick 3 (axisOf brick (fun _ => 0) fun _ => 1) (fun _ _ _ => layerQ) 1 := by
  intro c _ o _
  have hl : |layerQ c| ≤ 1 := by unfold layerQ; split <;> norm_num
  have hw := fun a => pow_le_one₀ (n := (o a).val) (brick_width a).1 (brick_width a).2
  have hn := fun a => pow_nonneg (brick_width a).1 (o a).val
  exact mul_le_one₀ hl (mul_nonneg (mul_nonneg (hn 0) (hn 1)) (hn 2))
    (mul_le_one₀ (mul_le_one₀ (hw 0) (hn 1) (hw 1)) (hn 2) (hw 2))

theorem brick_jetIs : JetIs brick 3 layer (fun c => ⟨layer c, layer c, layer c⟩) (fun c => [layer c, layer c, layer c, layer c])
    (fun _ _ _ => layerQ) :=
  ⟨fun c _ => layer_value c,
    fun c _ a _ => by match a with | 0 => exact layer_value c | 1 => exact layer_value c | 2 => exact layer_value c,
    fun c _ => .cons (layer_value c) (.cons (layer_value c) (.cons (layer_value c) (.cons (layer_value c) .nil)))⟩

theorem brick_moves (c : Cell) (hc : brick.Interior c) (a : Fin 3) :
    (0 : ℚ) - (1 / 2 - 1 / 2 ^ 15) * (axisOf brick (fun _ => 0) (fun _ => 1) a).h ≤
      departQ (axisOf brick (fun _ => 0) fun _ => 1) (1 / 8) (fun _ => layerQ c) c a ∧
    departQ (axisOf brick (fun _ => 0) fun _ => 1) (1 / 8) (fun _ => layerQ c) c a ≤
      1 + (1 / 2 - 1 / 2 ^ 15) * (axisOf brick (fun _ => 0) (fun _ => 1) a).h := by
  obtain ⟨l0, l1⟩ := layer_range c
  have hrng := interior_comp hc a
  have c0 : (0 : ℚ) ≤ comp c a := by exact_mod_cast hrng.1
  have c1 : (comp c a : ℚ) + 1 ≤ brick.n.get a := by exact_mod_cast hrng.2
  obtain ⟨w0, w1, w2⟩ := brick_widths
  have e : ∀ a, (axisOf brick (fun _ => 0) (fun _ => 1) a).lo = 0 := fun _ => rfl
  match a with
  | 0 =>
    have n : ((brick.n.get 0 : ℤ) : ℚ) = 6 := by norm_num [brick, Vec3.get]
    rw [n] at c1
    rw [departQ, nodeAt, w0, e]
    constructor <;> linarith
  | 1 =>
    have n : ((brick.n.get 1 : ℤ) : ℚ) = 5 := by norm_num [brick, Vec3.get]
    rw [n] at c1
    rw [departQ, nodeAt, w1, e]
    constructor <;> linarith
  | 2 =>
    have n : ((brick.n.get 2 : ℤ) : ℚ) = 3 := by norm_num [brick, Vec3.get]
    rw [n] at c1
    rw [departQ, nodeAt, w2, e]
    constructor <;> linarith

theorem brick_shear (c : Cell) (a j : Fin 3) : |layerQ c * (1 / 8)| * (axisOf brick (fun _ => 0) (fun _ => 1) a).h ≤
    (axisOf brick (fun _ => 0) (fun _ => 1) j).h := by
  have l := layer_abs c
  obtain ⟨w0, w1, w2⟩ := brick_widths
  have ha : (axisOf brick (fun _ => 0) (fun _ => 1) a).h ≤ 1 := (brick_width a).2
  have hj : 1 / 6 ≤ (axisOf brick (fun _ => 0) (fun _ => 1) j).h := by
    match j with
    | 0 => rw [w0]
    | 1 => rw [w1]; norm_num
    | 2 => rw [w2]; norm_num
  have := mul_le_mul l ha (brick_width a).1 (by norm_num : (0 : ℚ) ≤ 1 / 8)
  linarith

/-- Instance of C90: the layer moves with velocity one along each axis, its neighbours rest. -/
example : ∃ (g : Grid F64 3) (vel : LsVelocity F64) (ls ls' : Levelset F64) (f : Cell → F64), brick.make .wrap 3 = .ok g ∧
    temporal .semiLagrangian .wrap g g eighth vel ls = .ok ls' ∧ FieldIs .wrap brick g ls'.phi f ∧
    ∀ c, brick.Interior c → ∃ v : ℚ, HasValue (f c) v ∧
      |v - jetSpline 3 (axisOf brick (fun _ => 0) fun _ => 1) noD (fun _ _ _ => layerQ)
        (departQ (axisOf brick (fun _ => 0) fun _ => 1) (1 / 8) (fun _ => layerQ c) c)| ≤ 2 ^ (9 + 3 * 3) * 6 * 1 / 2 ^ 52 := by
  obtain ⟨g, e, G⟩ := make_ok .wrap brick_valid
  obtain ⟨a, h1⟩ := fieldIs_exists (s := .wrap) G layer
  obtain ⟨b, h2⟩ := fieldIs_exists (s := .wrap) G fun c => (⟨layer c, layer c, layer c⟩ : Vec3 F64)
  obtain ⟨m, h3⟩ := fieldIs_exists (s := .wrap) G fun c => [layer c, layer c, layer c, layer c]
  obtain ⟨n, h4⟩ := fieldIs_exists (s := .wrap) G fun c => (⟨fun _ => layer c⟩ : Mat3 F64)
  obtain ⟨ls', f, p, k1, k2, -, k3⟩ := C90_step .wrap 3 (fun _ => rfl) brick brick_valid rfl _ _ brick_box
    (fun _ _ => by norm_num [moderate_one]) 6
    (fun a _ => by match a with | 0 => norm_num [brick, Vec3.get] | 1 => norm_num [brick, Vec3.get] | 2 => norm_num [brick, Vec3.get])
    (by norm_num) g e brick brick_valid rfl g e eighth (1 / 8) eighth_value ⟨b, n⟩ _ _ h2 h4 (fun c _ => layerQ c) (fun c _ _ => layerQ c)
    (fun c hc a _ => ⟨by match a with | 0 => exact layer_value c | 1 => exact layer_value c | 2 => exact layer_value c,
      brick_moves c hc a⟩)
    (fun c _ a _ j => ⟨layer_value c, (layer_abs c).trans (le_trans (by norm_num) (one_le_pow₀ (by norm_num))), fun _ => brick_shear c a j⟩)
    ⟨a, b, m, a, b, m, a, b⟩ layer (fun c => ⟨layer c, layer c, layer c⟩) (fun c => [layer c, layer c, layer c, layer c])
    ⟨h1.val, h2.val, h3.val⟩ _ _ _ _ h1 h2 h1 h2 (fun _ _ _ => layerQ) brick_jetIs 1 moderate_one brick_jetLe
  exact ⟨g, ⟨b, n⟩, _, ls', f, e, k1, k2, fun c hc => (k3 c hc).1⟩

/-- Instance of C90 for a fluid at rest. -/
example : ∃ (g : Grid F64 3) (vel : LsVelocity F64) (ls ls' : Levelset F64) (f : Cell → F64), brick.make .wrap 3 = .ok g ∧
    temporal .semiLagrangian .wrap g g eighth vel ls = .ok ls' ∧ FieldIs .wrap brick g ls'.phi f ∧
    ∀ c, brick.Interior c → ∃ v w : ℚ, HasValue (layer c) w ∧ HasValue (f c) v ∧ |v - w| ≤ 2 ^ (9 + 3 * 3) * 6 * 1 / 2 ^ 52 := by
  obtain ⟨g, e, G⟩ := make_ok .wrap brick_valid
  obtain ⟨a, h1⟩ := fieldIs_exists (s := .wrap) G layer
  obtain ⟨b, h2⟩ := fieldIs_exists (s := .wrap) G fun c => (⟨layer c, layer c, layer c⟩ : Vec3 F64)
  obtain ⟨m, h3⟩ := fieldIs_exists (s := .wrap) G fun c => [layer c, layer c, layer c, layer c]
  obtain ⟨z, h5⟩ := fieldIs_exists (s := .wrap) G fun _ => (⟨0, 0, 0⟩ : Vec3 F64)
  obtain ⟨n, h4⟩ := fieldIs_exists (s := .wrap) G fun _ => (Mat3.zero : Mat3 F64)
  obtain ⟨ls', f, p, k1, k2, -, k3⟩ := C90_rest .wrap 3 (fun _ => rfl) brick brick_valid rfl _ _ brick_box
    (fun _ _ => by norm_num [moderate_one]) 6
    (fun a _ => by match a with | 0 => norm_num [brick, Vec3.get] | 1 => norm_num [brick, Vec3.get] | 2 => norm_num [brick, Vec3.get])
    (by norm_num) g e brick brick_valid rfl g e eighth (1 / 8) eighth_value ⟨z, n⟩ _ _ h5 h4
    (fun c _ a _ => by match a with | 0 => exact hasValue_zero | 1 => exact hasValue_zero | 2 => exact hasValue_zero)
    (fun c _ a _ j => hasValue_zero)
    ⟨a, b, m, a, b, m, a, b⟩ layer (fun c => ⟨layer c, layer c, layer c⟩) (fun c => [layer c, layer c, layer c, layer c])
    ⟨h1.val, h2.val, h3.val⟩ _ _ _ _ h1 h2 h1 h2 (fun _ _ _ => layerQ) brick_jetIs 1 moderate_one brick_jetLe
  exact ⟨g, ⟨z, n⟩, _, ls', f, e, k1, k2, fun c hc => (k3 c hc).1⟩

end Gals.Props
