import Verif.Model.Carry
import Verif.Spec.Carry
import Verif.Spec.RunDouble
import Verif.Lemmas.CarryNear
import Verif.Props.TransportDouble

/-!
# C105: repeated steps in uniform flow on a line, in double arithmetic
-/

set_option linter.unusedSectionVars false
set_option linter.unusedSimpArgs false

namespace Gals.Props

open Gals Gals.Spec Set

/-- The data of two nodes. -/
def twoNodes (p : ℤ) (V0 S0 V1 S1 : ℚ) : Jet := fun a β γ c =>
  if β = 0 ∧ γ = 0 then
    if c = (p, 0, 0) then (if a = 0 then V0 else S0) else if c = (p + 1, 0, 0) then (if a = 0 then V1 else S1) else 0
  else 0

/-- The spline through them. -/
theorem twoNodes_spline {A : Fin 3 → Axis} {q : Fin 3 → ℚ} {p : ℤ} {t : ℚ} (hq : (A 0).coord (q 0) = p + t) (t0 : 0 ≤ t) (t1 : t < 1)
    (V0 S0 V1 S1 : ℚ) :
    ((jetSpline 1 A noD (twoNodes p V0 S0 V1 S1) q : ℚ) : ℝ) = cv ((A 0).h : ℝ) V0 S0 V1 S1 t ∧
    ((jetSpline 1 A (Spec.oneD 0) (twoNodes p V0 S0 V1 S1) q : ℚ) : ℝ) = cs ((A 0).h : ℝ) V0 S0 V1 S1 t := by
  have e1 : ⌊(A 0).coord (q 0)⌋ = p := by rw [hq, Int.floor_eq_iff]; constructor <;> linarith
  have e2 : Int.fract ((A 0).coord (q 0)) = t := by rw [Int.fract, e1, hq]; ring
  have ne : ((p + 1, 0, 0) : Cell) ≠ (p, 0, 0) := fun h => by have := congrArg Prod.fst h; simp at this
  rw [jet1_cast, jet1_cast, e1, e2]
  constructor
  · simp [noD, tn1, bas, cv, twoNodes, ne]
  · simp [Spec.oneD, tn1, bas, cs, twoNodes, ne, div_eq_mul_inv]

theorem twoNodes_le {r : Req F64} {A : Fin 3 → Axis} {p : ℤ} {V0 S0 V1 S1 M : ℚ} (M0 : 0 ≤ M) (h1 : |V0| ≤ M) (h2 : |S0| * (A 0).h ≤ M)
    (h3 : |V1| ≤ M) (h4 : |S1| * (A 0).h ≤ M) : JetLe r 1 A (twoNodes p V0 S0 V1 S1) M := by
  intro c hc o ho
  have o1 := ho 1 (by decide)
  have o2 := ho 2 (by decide)
  rw [o1, o2]
  have : o 0 = 0 ∨ o 0 = 1 := by omega
  unfold twoNodes
  rcases this with o0 | o0 <;> rw [o0] <;> simp only [and_self, if_true, Fin.val_zero, Fin.val_one, pow_zero, pow_one, mul_one, one_ne_zero, if_false]
  · split_ifs
    · exact h1
    · exact h3
    · simpa using M0
  · split_ifs
    · exact h2
    · exact h4
    · simpa using M0

/-- A step between two states: the result in a cell depends on the data of two nodes. -/
theorem stepD_ok {r : Req F64} {lo hi : Fin 3 → ℚ} {K : ℚ} {g gv : Grid F64 1} {dt : F64} {τ ω : ℚ} {vel : LsVelocity F64}
    (R : RunD r lo hi K g gv dt τ ω vel) {ls : Levelset F64} {F : Cell → F64} {G : Cell → Vec3 F64} (S : Spec.Holds .wrap r g ls F G []) {b : ℤ} {t : ℚ}
    (hbt : b + t = -(ω * τ / (axisOf r lo hi 0).h)) (t0 : 1 / 2 ^ 15 ≤ t) (t1 : t ≤ 1 - 1 / 2 ^ 15) :
    ∃ ls' F' G', carryStep .wrap g gv dt vel ls = .ok ls' ∧ Spec.Holds .wrap r g ls' F' G' [] ∧
      (∀ c, ¬ r.Interior c → F' c = F c ∧ G' c = G c) ∧
      ∀ i : ℤ, 0 ≤ i → i < r.n.get 0 → ∀ M, Moderate M → ∀ V0 S0 V1 S1 : ℚ, HasValue (F (i + b, 0, 0)) V0 → HasValue (G (i + b, 0, 0)).x S0 →
        HasValue (F (i + b + 1, 0, 0)) V1 → HasValue (G (i + b + 1, 0, 0)).x S1 → |V0| ≤ M → |S0| * (axisOf r lo hi 0).h ≤ M → |V1| ≤ M →
        |S1| * (axisOf r lo hi 0).h ≤ M → ∃ v w : ℚ, HasValue (F' (i, 0, 0)) v ∧ HasValue (G' (i, 0, 0)).x w ∧
          |(v : ℝ) - cv (wid r lo hi 0) V0 S0 V1 S1 t| ≤ 2 ^ 12 * K * M / 2 ^ 52 ∧
          |(w : ℝ) - cs (wid r lo hi 0) V0 S0 V1 S1 t| * wid r lo hi 0 ≤ 2 ^ 16 * K * M / 2 ^ 52 := by
  obtain ⟨h, hpad, hbox, hside, hres, hK, e, ⟨rv, hv, hn, ev, u, m, hu, hg, hum⟩, hdt, -, chi⟩ := R
  have Md := make_made h e
  have Gv := make_made hv ev
  have hw0 : 0 < hi 0 - lo 0 := (two_zpow_pos _).trans_le (hside 0 (by decide)).1
  have hnq : (0 : ℚ) < r.n.get 0 := by exact_mod_cast h.n_pos 0
  have hh : 0 < (axisOf r lo hi 0).h := div_pos hw0 hnq
  have hw : hi 0 - lo 0 = r.n.get 0 * (axisOf r lo hi 0).h := by
    change _ = r.n.get 0 * ((hi 0 - lo 0) / r.n.get 0)
    field_simp
  have hi' : ∀ c, r.Interior c → rv.Padded 1 c := fun c hc =>
    interior_padded Gv (by unfold Req.Interior; rw [hn]; exact hc)
  have huv : ∀ c, r.Interior c → ∀ a : Fin 3, a.val < 1 → HasValue ((u c).get a) ω ∧
      lo a - (1 / 2 - 1 / 2 ^ 15) * (axisOf r lo hi a).h ≤ departQ (axisOf r lo hi) τ (fun _ => ω) c a ∧
      departQ (axisOf r lo hi) τ (fun _ => ω) c a ≤ hi a + (1 / 2 - 1 / 2 ^ 15) * (axisOf r lo hi a).h := by
    intro c hc a ha
    match a with
    | 1 => exact absurd ha (by decide)
    | 2 => exact absurd ha (by decide)
    | 0 =>
      obtain ⟨c0, c1⟩ := interior_comp hc 0
      have c0' : (0 : ℚ) ≤ comp c 0 := by exact_mod_cast c0
      have c1' : (comp c 0 : ℚ) + 1 ≤ r.n.get 0 := by exact_mod_cast c1
      obtain ⟨k1, k2⟩ := abs_le.1 chi
      have m0 := mul_nonneg c0' hh.le
      have m1 := mul_le_mul_of_nonneg_right c1' hh.le
      have hl : (axisOf r lo hi 0).lo = lo 0 := rfl
      refine ⟨(hum c hc).1, ?_, ?_⟩ <;> simp only [departQ, nodeAt, hl] <;> linarith
  have hmu : ∀ c, r.Interior c → ∀ a : Fin 3, a.val < 1 → ∀ j : Fin 3, HasValue ((m c).entry j a) 0 ∧
      |(0 : ℚ) * τ| ≤ 2 ^ 300 ∧ (j.val < 1 → |0 * τ| * (axisOf r lo hi a).h ≤ (axisOf r lo hi j).h) := by
    intro c hc a ha j
    match a with
    | 1 => exact absurd ha (by decide)
    | 2 => exact absurd ha (by decide)
    | 0 =>
      refine ⟨(hum c hc).2 j, by simp, fun hj => ?_⟩
      match j with
      | 1 => exact absurd hj (by decide)
      | 2 => exact absurd hj (by decide)
      | 0 => simpa using hh.le
  have hax : ∀ c, r.Interior c → (axisOf r lo hi 0).coord (departQ (axisOf r lo hi) τ (fun _ => ω) c 0) = ((c.1 + b : ℤ) : ℚ) + t := by
    intro c hc
    have hl : (axisOf r lo hi 0).lo = lo 0 := rfl
    have : (((c.1 + b : ℤ) : ℚ) + t) = c.1 + -(ω * τ / (axisOf r lo hi 0).h) := by rw [← hbt]; push_cast; ring
    rw [this]
    simp only [Axis.coord, departQ, nodeAt, comp]
    field_simp
    ring
  -- the base node of the departure point
  have base : ∀ c, r.Interior c → ∃ bI : Vec3 ℤ, g.baseNodeId ((Grid.elem g g.boxMin g.dx c).sub ((u c).smul dt)) = .ok bI ∧ bI.x = c.1 + b ∧
      -1 ≤ bI.x ∧ bI.x + 1 ≤ r.n.get 0 := by
    intro c hc
    obtain ⟨q, hq⟩ := depart_double h hpad hbox hres hK Md hdt hc (huv c hc)
    have hK1 : 1 ≤ K := (hq 0 (by decide)).2.2.2
    have δ0 : 78 * K * ulp1 ≤ 1 / 2 ^ 17 := by
      have := mul_le_mul_of_nonneg_right (mul_le_mul_of_nonneg_left hK (by norm_num : (0 : ℚ) ≤ 78)) ulp1_pos.le
      exact this.trans (by norm_num [ulp1])
    have δ1 : 80 * K * ulp1 ≤ 1 / 2 ^ 17 := by
      have := mul_le_mul_of_nonneg_right (mul_le_mul_of_nonneg_left hK (by norm_num : (0 : ℚ) ≤ 80)) ulp1_pos.le
      exact this.trans (by norm_num [ulp1])
    have hx : ∀ a : Fin 3, a.val < 1 → HasValue (((Grid.elem g g.boxMin g.dx c).sub ((u c).smul dt)).get a) (q a) ∧
        lo a - (1 / 2 - 1 / 2 ^ 16) * (axisOf r lo hi a).h ≤ q a ∧ q a ≤ hi a + (1 / 2 - 1 / 2 ^ 16) * (axisOf r lo hi a).h := by
      intro a ha
      obtain ⟨k1, k2, k3, -⟩ := hq a ha
      obtain ⟨-, d1, d2⟩ := huv c hc a ha
      have := mul_le_mul_of_nonneg_right δ0 k3.le
      obtain ⟨k4, k5⟩ := abs_le.1 k2
      refine ⟨k1, ?_, ?_⟩ <;> linarith
    obtain ⟨bI, η, eb, pt⟩ := point_double .wrap 1 r h hpad lo hi hbox K hres hK g e _ q hx
    obtain ⟨⟨b1, b2⟩, -, ⟨-, np1, np2, -⟩, -⟩ := pt 0 (by decide)
    refine ⟨bI, eb, ?_, b1, b2⟩
    have cd : |(axisOf r lo hi 0).coord (q 0) - (((c.1 + b : ℤ) : ℚ) + t)| ≤ 78 * K * ulp1 := by
      rw [← hax c hc]
      obtain ⟨-, k2, k3, -⟩ := hq 0 (by decide)
      rw [Axis.coord, Axis.coord, sub_sub_sub_cancel_right, ← sub_div, sub_sub_sub_cancel_right, abs_div, abs_of_pos k3, div_le_iff₀ k3]
      exact k2
    obtain ⟨cd1, cd2⟩ := abs_le.1 cd
    have u1 : (bI.get 0 : ℚ) < ((c.1 + b + 1 : ℤ) : ℚ) := by push_cast at cd2 ⊢; linarith
    have u2 : (((c.1 + b - 1 : ℤ) : ℚ)) < bI.get 0 := by push_cast at cd1 ⊢; linarith
    have u1' : bI.get 0 < c.1 + b + 1 := by exact_mod_cast u1
    have u2' : c.1 + b - 1 < bI.get 0 := by exact_mod_cast u2
    have : bI.x = bI.get 0 := rfl
    omega
  -- the step
  obtain ⟨s1, s2, ⟨f3, s3⟩, ⟨f4, s4⟩, ⟨f5, s5⟩, ⟨f6, s6⟩, s7⟩ := S
  set l1 : Levelset F64 := { ls with phiPrev := ls.phiPrev.assign ls.phi, psiPrev := ls.psiPrev.assign ls.psi } with hl1
  have a1 : FieldIs .wrap r g l1.phiPrev F := s3.assign s1
  have a2 : FieldIs .wrap r g l1.psiPrev G := s4.assign s2
  have P : PrevIs .wrap r g l1 F G (fun _ => []) := ⟨a1.val, a2.val, s7.val⟩
  have inst : Nonempty (Interp F64) := ⟨⟨0, ⟨0, 0, 0⟩⟩⟩
  have rng : ∀ bI : Vec3 ℤ, -1 ≤ bI.x → bI.x + 1 ≤ r.n.get 0 → ∀ a : Fin 3, a.val < 1 → -r.pad ≤ bI.get a ∧ bI.get a + 1 < r.n.get a + r.pad := by
    intro bI b1 b2 a ha
    match a with
    | 1 => exact absurd ha (by decide)
    | 2 => exact absurd ha (by decide)
    | 0 =>
      have : bI.get 0 = bI.x := rfl
      rw [hpad, this]
      omega
  obtain ⟨o, ho⟩ := choose_ok (p := r.Interior) (f := fun c => interpolate .wrap g l1 ((Grid.elem g g.boxMin g.dx c).sub ((u c).smul dt)) false)
    fun c hc => by
      obtain ⟨bI, eb, -, b1, b2⟩ := base c hc
      exact ⟨_, interp1_value Md h P eb (rng bI b1 b2) false⟩
  obtain ⟨ls', k1, k2, k3, -, k5, k6, k7, k8, k9⟩ := slEuler_ok (gv := gv) (vel := vel) (dt := dt) (ls := l1) Md (v := u) (m := m)
    (pos := fun c => Grid.elem g g.boxMin g.dx c) (fun c hc => hu.val c (hi' c hc)) (fun c hc => hg.val c (hi' c hc))
    (fun c hc => Md.node c (Md.inPad.2 (interior_padded Md hc))) s1 s2 s5 s6 ho
  refine ⟨ls', _, _, k1, ⟨k2, k3, ⟨F, by rw [k5]; exact a1⟩, ⟨G, by rw [k6]; exact a2⟩, ⟨_, k8⟩, ⟨_, k9⟩, by rw [k7]; exact s7⟩,
    fun c hc => ⟨if_neg hc, if_neg hc⟩, fun i i0 i1 M hM V0 S0 V1 S1 v0 w0 v1 w1 v0' w0' v1' w1' => ?_⟩
  have n1 : r.n.y = 1 := h.ny_one (by decide)
  have n2 : r.n.z = 1 := h.nz_one (by decide)
  have hc : r.Interior (i, 0, 0) :=
    ⟨⟨i0, i1⟩, ⟨le_refl _, by rw [n1]; exact Int.zero_lt_one⟩, ⟨le_refl _, by rw [n2]; exact Int.zero_lt_one⟩⟩
  -- the same step with zeros in all other nodes
  set F0 : Cell → F64 := fun c => if c = (i + b, 0, 0) ∨ c = (i + b + 1, 0, 0) then F c else 0 with hF0
  set G0 : Cell → Vec3 F64 := fun c => if c = (i + b, 0, 0) ∨ c = (i + b + 1, 0, 0) then G c else ⟨0, 0, 0⟩ with hG0
  obtain ⟨z0, hz0⟩ := fieldIs_exists (s := .wrap) Md F0
  obtain ⟨y0, hy0⟩ := fieldIs_exists (s := .wrap) Md G0
  set l2 : Levelset F64 := { ls with phi := z0, psi := y0, phiPrev := z0, psiPrev := y0 } with hl2
  have P2 : PrevIs .wrap r g l2 F0 G0 (fun _ => []) := ⟨hz0.val, hy0.val, s7.val⟩
  set D := twoNodes (i + b) V0 S0 V1 S1 with hD
  have ne : ((i + b + 1, 0, 0) : Cell) ≠ (i + b, 0, 0) := fun h => by have := congrArg Prod.fst h; simp at this
  have JI : JetIs r 1 F0 G0 (fun _ => []) D := by
    refine ⟨fun c _ => ?_, fun c _ a ha => ?_, fun c _ => ?_⟩
    · simp only [hF0, hD, twoNodes, and_self, if_true]
      by_cases q1 : c = (i + b, 0, 0)
      · rw [if_pos (Or.inl q1), if_pos q1, q1]; exact v0
      · by_cases q2 : c = (i + b + 1, 0, 0)
        · rw [if_pos (Or.inr q2), if_neg q1, if_pos q2, q2]; exact v1
        · rw [if_neg (by tauto), if_neg q1, if_neg q2]; exact hasValue_zero
    · match a with
      | 1 => exact absurd ha (by decide)
      | 2 => exact absurd ha (by decide)
      | 0 =>
        simp only [hG0, hD, twoNodes, Spec.oneD, if_true, one_ne_zero, if_false, show ¬ (1 : Fin 3) = 0 by decide, show ¬ (2 : Fin 3) = 0 by decide, and_self]
        by_cases q1 : c = (i + b, 0, 0)
        · rw [if_pos (Or.inl q1), if_pos q1, q1]; exact w0
        · by_cases q2 : c = (i + b + 1, 0, 0)
          · rw [if_pos (Or.inr q2), if_neg q1, if_pos q2, q2]; exact w1
          · rw [if_neg (by tauto), if_neg q1, if_neg q2]; exact hasValue_zero
    · simp [mixedOrders]
  have M0 : 0 ≤ M := (two_zpow_pos _).le.trans hM.1
  obtain ⟨l3, f, p, e3, hf, hp, st⟩ := C90_step .wrap 1 (fun _ => rfl) r h hpad lo hi hbox hside K hres hK g e rv hv hn gv ev dt τ hdt vel u m hu hg
    (fun _ _ => ω) (fun _ _ _ => 0) huv hmu l2 F0 G0 (fun _ => []) P2 F0 f5 G0 f6 hz0 hy0 s5 s6 D JI M hM (twoNodes_le M0 v0' w0' v1' w1')
  obtain ⟨o2, ho2⟩ := choose_ok (p := r.Interior) (f := fun c => interpolate .wrap g l2 ((Grid.elem g g.boxMin g.dx c).sub ((u c).smul dt)) false)
    fun c hc => by
      obtain ⟨bI, eb, -, b1, b2⟩ := base c hc
      exact ⟨_, interp1_value Md h P2 eb (rng bI b1 b2) false⟩
  obtain ⟨l4, j1, j2, j3, -⟩ := slEuler_ok (gv := gv) (vel := vel) (dt := dt) (ls := l2) Md (v := u) (m := m)
    (pos := fun c => Grid.elem g g.boxMin g.dx c) (fun c hc => hu.val c (hi' c hc)) (fun c hc => hg.val c (hi' c hc))
    (fun c hc => Md.node c (Md.inPad.2 (interior_padded Md hc))) hz0 hy0 s5 s6 ho2
  have e4 : l4 = l3 := by
    have := j1.symm.trans e3
    injection this
  subst e4
  have same : o2 (i, 0, 0) = o (i, 0, 0) := by
    obtain ⟨bI, eb, bx, b1, b2⟩ := base _ hc
    have q1 := (ho _ hc).symm.trans (interp1_value Md h P eb (rng bI b1 b2) false)
    have q2 := (ho2 _ hc).symm.trans (interp1_value Md h P2 eb (rng bI b1 b2) false)
    injection q1 with q1
    injection q2 with q2
    rw [q1, q2, bx]
    simp only [hF0, hG0, true_or, or_true, if_true]
  have ef : f (i, 0, 0) = (o (i, 0, 0)).phi := by
    have q1 := (hf.val _ (interior_padded Md hc)).symm.trans (j2.val _ (interior_padded Md hc))
    injection q1 with q1
    rw [q1, if_pos hc, same]
  have ep : p (i, 0, 0) = (Mat3.identity.sub ((m (i, 0, 0)).smul dt)).dot (o (i, 0, 0)).psi := by
    have q1 := (hp.val _ (interior_padded Md hc)).symm.trans (j3.val _ (interior_padded Md hc))
    injection q1 with q1
    rw [q1, if_pos hc, same]
  obtain ⟨⟨v, hv1, hv2⟩, hgr⟩ := st _ hc
  obtain ⟨w, hw1, hw2⟩ := hgr 0 (by decide)
  simp only [if_pos hc, ← ef, ← ep]
  have hq := hax _ hc
  obtain ⟨sp1, sp2⟩ := twoNodes_spline (A := axisOf r lo hi) (q := departQ (axisOf r lo hi) τ (fun _ => ω) (i, 0, 0)) hq
    (le_trans (by norm_num) t0) (lt_of_le_of_lt t1 (by norm_num)) V0 S0 V1 S1
  refine ⟨v, w, hv1, hw1, ?_, ?_⟩
  · rw [← sp1]
    exact_mod_cast hv2
  · rw [← sp2]
    have eg : pullGrad 1 (axisOf r lo hi) D τ (fun _ _ => 0) (departQ (axisOf r lo hi) τ (fun _ => ω) (i, 0, 0)) 0 =
        jetSpline 1 (axisOf r lo hi) (Spec.oneD 0) D (departQ (axisOf r lo hi) τ (fun _ => ω) (i, 0, 0)) := by
      simp [pullGrad, Fin.sum_univ_three]
    rw [eg] at hw2
    exact_mod_cast hw2

/-- What a step makes of the data of two nodes. -/
def StepTo (r : Req F64) (lo hi : Fin 3 → ℚ) (K : ℚ) (b : ℤ) (t : ℚ) (F : Cell → F64) (G : Cell → Vec3 F64) (F' : Cell → F64) (G' : Cell → Vec3 F64) : Prop :=
  ∀ i : ℤ, 0 ≤ i → i < r.n.get 0 → ∀ M, Moderate M → ∀ V0 S0 V1 S1 : ℚ, HasValue (F (i + b, 0, 0)) V0 → HasValue (G (i + b, 0, 0)).x S0 →
    HasValue (F (i + b + 1, 0, 0)) V1 → HasValue (G (i + b + 1, 0, 0)).x S1 → |V0| ≤ M → |S0| * (axisOf r lo hi 0).h ≤ M → |V1| ≤ M →
    |S1| * (axisOf r lo hi 0).h ≤ M → ∃ v w : ℚ, HasValue (F' (i, 0, 0)) v ∧ HasValue (G' (i, 0, 0)).x w ∧
      |(v : ℝ) - cv (wid r lo hi 0) V0 S0 V1 S1 t| ≤ 2 ^ 12 * K * M / 2 ^ 52 ∧
      |(w : ℝ) - cs (wid r lo hi 0) V0 S0 V1 S1 t| * wid r lo hi 0 ≤ 2 ^ 16 * K * M / 2 ^ 52

/-- The states of the first `k` steps. -/
theorem stepsD_ok {r : Req F64} {lo hi : Fin 3 → ℚ} {K : ℚ} {g gv : Grid F64 1} {dt : F64} {τ ω : ℚ} {vel : LsVelocity F64}
    (R : RunD r lo hi K g gv dt τ ω vel) {ls : Levelset F64} {F : Cell → F64} {G : Cell → Vec3 F64} (S : Spec.Holds .wrap r g ls F G []) {b : ℤ} {t : ℚ}
    (hbt : b + t = -(ω * τ / (axisOf r lo hi 0).h)) (t0 : 1 / 2 ^ 15 ≤ t) (t1 : t ≤ 1 - 1 / 2 ^ 15) (k : ℕ) :
    ∃ (ls' : Levelset F64) (f : ℕ → Cell → F64) (q : ℕ → Cell → Vec3 F64), carrySteps .wrap g gv dt vel k ls = .ok ls' ∧
      Spec.Holds .wrap r g ls' (f k) (q k) [] ∧ f 0 = F ∧ q 0 = G ∧
      (∀ j, j < k → ∀ c, ¬ r.Interior c → f (j + 1) c = f j c ∧ q (j + 1) c = q j c) ∧
      ∀ j, j < k → StepTo r lo hi K b t (f j) (q j) (f (j + 1)) (q (j + 1)) := by
  induction k with
  | zero => exact ⟨ls, fun _ => F, fun _ => G, rfl, S, rfl, rfl, fun j hj => absurd hj (by omega), fun j hj => absurd hj (by omega)⟩
  | succ k ih =>
    obtain ⟨l1, f, q, e1, S1, f0, q0, gh, st⟩ := ih
    obtain ⟨l2, F', G', e2, S2, gh', st'⟩ := stepD_ok R S1 hbt t0 t1
    refine ⟨l2, Function.update f (k + 1) F', Function.update q (k + 1) G', ?_, ?_, ?_, ?_, ?_, ?_⟩
    · simp only [carrySteps]
      rw [e1, M.ok_bind]
      exact e2
    · rw [Function.update_self, Function.update_self]
      exact S2
    · rw [Function.update_of_ne (by omega)]
      exact f0
    · rw [Function.update_of_ne (by omega)]
      exact q0
    · intro j hj
      rw [Function.update_of_ne (show j ≠ k + 1 by omega), Function.update_of_ne (show j ≠ k + 1 by omega)]
      rcases Nat.lt_succ_iff_lt_or_eq.1 hj with hj | rfl
      · rw [Function.update_of_ne (show j + 1 ≠ k + 1 by omega), Function.update_of_ne (show j + 1 ≠ k + 1 by omega)]
        exact gh j hj
      · rw [Function.update_self, Function.update_self]
        exact gh'
    · intro j hj
      rw [Function.update_of_ne (show j ≠ k + 1 by omega), Function.update_of_ne (show j ≠ k + 1 by omega)]
      rcases Nat.lt_succ_iff_lt_or_eq.1 hj with hj | rfl
      · rw [Function.update_of_ne (show j + 1 ≠ k + 1 by omega), Function.update_of_ne (show j + 1 ≠ k + 1 by omega)]
        exact st j hj
      · rw [Function.update_self, Function.update_self]
        exact st'

/-- The number a double stands for, 0 for those that stand for none. -/
noncomputable def numD (x : F64) : ℚ := open Classical in if h : ∃ q, HasValue x q then h.choose else 0

theorem numD_of {x : F64} {q : ℚ} (h : HasValue x q) : numD x = q := by
  have e : ∃ q, HasValue x q := ⟨q, h⟩
  unfold numD
  rw [dif_pos e]
  exact hasValue_unique e.choose_spec h

/-- C105: C104 in double arithmetic.  On a line with padding 1 in a flow of the same velocity `ω` at all interior nodes and no velocity
gradient, where a step moves the level set by at least `2^-15` and at most `1 - 2^-15` cells, let the stored doubles be the values
and, when multiplied by the cell width `h`, the derivatives of a four times continuously differentiable function `u` up to `ε`, with
fourth derivative at most `Q`.  Then any number `k` of steps with the gradient carried along returns, and in each interior cell whose
data came only from stored nodes of the start the doubles are finite: the value is at most
`ε + k² (Q h⁴ / 18 + 4 (ε + 2^16 K M / 2^52))` away from the exact solution `u (x - k ω τ)` and the gradient times `h` at most
`ε + k² (Q h⁴ / 2 + 15 (ε + 2^16 K M / 2^52))` from its derivative times `h`.  `K` is the number of cells times the ratio of the largest coordinate to
the side of the box, and `M` bounds `|u|` and `h |u'|` and this last error together.  Nothing is asked of the other cells. -/
theorem C105_line (r : Req F64) (lo hi : Fin 3 → ℚ) (K : ℚ) (g gv : Grid F64 1) (dt : F64) (τ ω : ℚ) (vel : LsVelocity F64)
    (R : RunD r lo hi K g gv dt τ ω vel) (ls : Levelset F64) (F : Cell → F64) (G : Cell → Vec3 F64) (S : Spec.Holds .wrap r g ls F G [])
    (u u' : ℝ → ℝ) (Q U ε : ℝ) (M : ℚ) (hu' : ∀ y, HasDerivAt u (u' y) y)
    (hu : Quartic u (lo 0 - wid r lo hi 0 / 2) (hi 0 + wid r lo hi 0 / 2) Q)
    (hU : ∀ y ∈ Icc (lo 0 - wid r lo hi 0 / 2) (hi 0 + wid r lo hi 0 / 2), |u y| ≤ U ∧ |u' y| * wid r lo hi 0 ≤ U)
    (hF : ∀ i, -1 ≤ i → i ≤ r.n.get 0 → ∃ v w : ℚ, HasValue (F (i, 0, 0)) v ∧ HasValue (G (i, 0, 0)).x w ∧
      |(v : ℝ) - u (nodeAt (axisOf r lo hi) (i, 0, 0) 0 : ℚ)| ≤ ε ∧
      |(w : ℝ) - u' (nodeAt (axisOf r lo hi) (i, 0, 0) 0 : ℚ)| * wid r lo hi 0 ≤ ε) (k : ℕ) (hM : Moderate M)
    (hUM : U + ε + k ^ 2 * (Q * wid r lo hi 0 ^ 4 / 2 + 15 * (ε + 2 ^ 16 * K * M / 2 ^ 52)) ≤ M) :
    ∃ (ls' : Levelset F64) (F' : Cell → F64) (G' : Cell → Vec3 F64), carrySteps .wrap g gv dt vel k ls = .ok ls' ∧
      (∀ c, r.Interior c → ls'.phi.get .wrap g c.1 c.2.1 c.2.2 = .ok (F' c) ∧ ls'.psi.get .wrap g c.1 c.2.1 c.2.2 = .ok (G' c)) ∧
      ∀ i : ℤ, 0 ≤ i → i < r.n.get 0 → (0 < ω * τ → k ≤ i + 1) → (ω * τ < 0 → i + k ≤ r.n.get 0) →
        ∃ v w : ℚ, HasValue (F' (i, 0, 0)) v ∧ HasValue (G' (i, 0, 0)).x w ∧
          |(v : ℝ) - u (nodeAt (axisOf r lo hi) (i, 0, 0) 0 - k * (ω * τ) : ℚ)| ≤
            ε + k ^ 2 * (Q * wid r lo hi 0 ^ 4 / 18 + 4 * (ε + 2 ^ 16 * K * M / 2 ^ 52)) ∧
          |(w : ℝ) - u' (nodeAt (axisOf r lo hi) (i, 0, 0) 0 - k * (ω * τ) : ℚ)| * wid r lo hi 0 ≤
            ε + k ^ 2 * (Q * wid r lo hi 0 ^ 4 / 2 + 15 * (ε + 2 ^ 16 * K * M / 2 ^ 52)) := by
  have h := R.valid
  have Md := make_made h R.made
  have hw0 : 0 < hi 0 - lo 0 := (two_zpow_pos _).trans_le (R.side 0 (by decide)).1
  have n0 := h.n_pos 0
  have hnq : (0 : ℚ) < r.n.get 0 := by exact_mod_cast n0
  have hq : 0 < (axisOf r lo hi 0).h := div_pos hw0 hnq
  have hh : (0 : ℝ) < wid r lo hi 0 := by exact_mod_cast hq
  have hK1 : 1 ≤ K := by
    have : (1 : ℚ) ≤ r.n.get 0 := by exact_mod_cast n0
    exact this.trans (res_n hw0 n0 (R.res 0 (by decide)))
  have M0 : (0 : ℝ) < M := by exact_mod_cast (two_zpow_pos _).trans_le hM.1
  have K0 : (1 : ℝ) ≤ K := by exact_mod_cast hK1
  -- the displacement in cells
  set D : ℚ := ω * τ / (axisOf r lo hi 0).h with hD
  have e5 : D * (axisOf r lo hi 0).h = ω * τ := by rw [hD]; field_simp
  have aD : |D| = |ω * τ| / (axisOf r lo hi 0).h := by rw [hD, abs_div, abs_of_pos hq]
  have dlo : 1 / 2 ^ 15 ≤ |D| := by rw [aD, le_div_iff₀ hq]; exact R.cfl_lo
  have dhi : |D| ≤ 1 - 1 / 2 ^ 15 := by rw [aD, div_le_iff₀ hq]; exact R.cfl_hi
  obtain ⟨b, t, hbt, t0, t1, hb⟩ : ∃ (b : ℤ) (t : ℚ), b + t = -D ∧ 1 / 2 ^ 15 ≤ t ∧ t ≤ 1 - 1 / 2 ^ 15 ∧
      ((b = -1 ∧ 0 < ω * τ) ∨ (b = 0 ∧ ω * τ < 0)) := by
    rcases lt_or_ge D 0 with s | s
    · rw [abs_of_neg s] at dlo dhi
      refine ⟨0, -D, by push_cast; ring, dlo, dhi, Or.inr ⟨rfl, ?_⟩⟩
      rw [← e5]
      exact mul_neg_of_neg_of_pos s hq
    · rw [abs_of_nonneg s] at dlo dhi
      refine ⟨-1, 1 - D, by push_cast; ring, by linarith, by linarith, Or.inl ⟨rfl, ?_⟩⟩
      rw [← e5]
      have : 0 < D := lt_of_lt_of_le (by norm_num) dlo
      positivity
  have tr0 : (0 : ℝ) ≤ t := by exact_mod_cast le_trans (by norm_num) t0
  have tr1 : (t : ℝ) < 1 := by exact_mod_cast lt_of_le_of_lt t1 (by norm_num)
  obtain ⟨ls', f, q, e1, S1, f0, q0, -, st⟩ := stepsD_ok R S hbt t0 t1 k
  refine ⟨ls', f k, q k, e1, fun c hc => ⟨S1.phi.val c (interior_padded Md hc), S1.psi.val c (interior_padded Md hc)⟩, ?_⟩
  -- positions
  set x : ℝ := lo 0 + wid r lo hi 0 / 2 with hx
  have node : ∀ c : ℤ, ((nodeAt (axisOf r lo hi) (c, 0, 0) 0 : ℚ) : ℝ) = x + c * wid r lo hi 0 := by
    intro c
    have hl : (axisOf r lo hi 0).lo = lo 0 := rfl
    simp only [nodeAt, comp, hl, hx]
    push_cast
    ring
  have wn : (hi 0 : ℝ) - lo 0 = r.n.get 0 * wid r lo hi 0 := by
    have : hi 0 - lo 0 = r.n.get 0 * (axisOf r lo hi 0).h := by
      change _ = r.n.get 0 * ((hi 0 - lo 0) / r.n.get 0)
      field_simp
    have := congrArg (Rat.cast : ℚ → ℝ) this
    push_cast at this
    exact this
  have rD : (b : ℝ) + t = -(D : ℝ) := by exact_mod_cast hbt
  have rw5 : (D : ℝ) * wid r lo hi 0 = ω * τ := by exact_mod_cast e5
  set A : ℝ := ε + 2 ^ 16 * K * M / 2 ^ 52 with hA
  have ε0 : 0 ≤ ε := by
    obtain ⟨v, w, -, -, k1, -⟩ := hF 0 (by omega) (by omega)
    exact (abs_nonneg _).trans k1
  have KM0 : (0 : ℝ) ≤ 2 ^ 16 * K * M / 2 ^ 52 := by positivity
  have A0 : 0 ≤ A := by linarith
  have Q0 : 0 ≤ Q := by
    refine (abs_nonneg _).trans (hu.bound (lo 0) ⟨by linarith, ?_⟩)
    have : (0 : ℝ) ≤ r.n.get 0 * wid r lo hi 0 := by positivity
    linarith
  -- the cells whose data came from stored nodes
  set cone : ℕ → ℤ → Prop := fun j c => -1 ≤ c + j * b ∧ c + j * b + j ≤ r.n.get 0 ∧ (0 < j → 0 ≤ c ∧ c < r.n.get 0) with hcone
  have down : ∀ j c, cone (j + 1) c → cone j (c + b) ∧ cone j (c + b + 1) := by
    intro j c ⟨c1, c2, c3⟩
    obtain ⟨c4, c5⟩ := c3 (by omega)
    simp only [hcone]
    rcases hb with ⟨rfl, -⟩ | ⟨rfl, -⟩ <;> push_cast at c1 c2 <;> refine ⟨⟨?_, ?_, fun _ => ⟨?_, ?_⟩⟩, ⟨?_, ?_, fun _ => ⟨?_, ?_⟩⟩⟩ <;> omega
  set V : ℕ → ℤ → ℚ := fun j c => numD (f j (c, 0, 0)) with hV
  set W : ℕ → ℤ → ℚ := fun j c => numD (q j (c, 0, 0)).x with hW
  have key : ∀ j, j ≤ k → ∀ c, cone j c → (HasValue (f j (c, 0, 0)) (V j c) ∧ HasValue (q j (c, 0, 0)).x (W j c)) ∧
      |(V j c : ℝ) - u (x + (c + j * (b + t)) * wid r lo hi 0)| ≤ ε + j ^ 2 * (Q * wid r lo hi 0 ^ 4 / 18 + 4 * A) ∧
      |(W j c : ℝ) - u' (x + (c + j * (b + t)) * wid r lo hi 0)| * wid r lo hi 0 ≤ ε + j ^ 2 * (Q * wid r lo hi 0 ^ 4 / 2 + 15 * A) := by
    intro j
    induction j using Nat.strong_induction_on with
    | _ j ih =>
      intro jk c hc
      match j with
      | 0 =>
        obtain ⟨c1, c2, -⟩ := hc
        obtain ⟨v, w, k1, k2, k3, k4⟩ := hF c (by push_cast at c1; omega) (by push_cast at c2; omega)
        rw [node c] at k3 k4
        simp only [hV, hW, f0, q0]
        rw [numD_of k1, numD_of k2]
        push_cast
        rw [zero_mul, add_zero]
        refine ⟨⟨k1, k2⟩, ?_, ?_⟩
        · linarith
        · linarith
      | j + 1 =>
        -- the data of the earlier steps are bounded
        have bound : ∀ l, l ≤ j → ∀ c, cone l c → |V l c| ≤ M ∧ |W l c| * (axisOf r lo hi 0).h ≤ M := by
          intro l lj c hc
          obtain ⟨-, k1, k2⟩ := ih l (by omega) (by omega) c hc
          obtain ⟨c1, c2, -⟩ := hc
          have inside : x + (c + l * (b + t)) * wid r lo hi 0 ∈ Icc ((lo 0 : ℝ) - wid r lo hi 0 / 2) (hi 0 + wid r lo hi 0 / 2) := by
            have c1' : (-1 : ℝ) ≤ c + l * b := by exact_mod_cast c1
            have c2' : (c : ℝ) + l * b + l ≤ r.n.get 0 := by exact_mod_cast c2
            have l0 : (0 : ℝ) ≤ l := by positivity
            have z1 : -1 ≤ (c : ℝ) + l * (b + t) := by nlinarith [mul_nonneg l0 tr0]
            have z2 : (c : ℝ) + l * (b + t) ≤ r.n.get 0 := by nlinarith [mul_nonneg l0 (by linarith : (0 : ℝ) ≤ 1 - t)]
            have y1 := mul_le_mul_of_nonneg_right z1 hh.le
            have y2 := mul_le_mul_of_nonneg_right z2 hh.le
            rw [hx]
            constructor <;> linarith
          obtain ⟨u1, u2⟩ := hU _ inside
          have lk : ((l : ℝ)) ^ 2 ≤ (k : ℝ) ^ 2 := by
            have : (l : ℝ) ≤ k := by exact_mod_cast (by omega : l ≤ k)
            gcongr
          have X0 : 0 ≤ Q * wid r lo hi 0 ^ 4 := by positivity
          have m1 : (l : ℝ) ^ 2 * (Q * wid r lo hi 0 ^ 4 / 18 + 4 * A) ≤ k ^ 2 * (Q * wid r lo hi 0 ^ 4 / 2 + 15 * A) :=
            mul_le_mul lk (by linarith) (by positivity) (by positivity)
          have m2 : (l : ℝ) ^ 2 * (Q * wid r lo hi 0 ^ 4 / 2 + 15 * A) ≤ k ^ 2 * (Q * wid r lo hi 0 ^ 4 / 2 + 15 * A) :=
            mul_le_mul_of_nonneg_right lk (by positivity)
          have p1 : |(V l c : ℝ)| ≤ M := by
            have := abs_sub_abs_le_abs_sub (V l c : ℝ) (u (x + (c + l * (b + t)) * wid r lo hi 0))
            linarith
          have p2 : |(W l c : ℝ)| * wid r lo hi 0 ≤ M := by
            have := mul_le_mul_of_nonneg_right (abs_sub_abs_le_abs_sub (W l c : ℝ) (u' (x + (c + l * (b + t)) * wid r lo hi 0))) hh.le
            rw [sub_mul] at this
            linarith
          exact ⟨by exact_mod_cast p1, by exact_mod_cast p2⟩
        -- one step
        have one : ∀ l, l ≤ j → ∀ c, cone (l + 1) c → (HasValue (f (l + 1) (c, 0, 0)) (V (l + 1) c) ∧ HasValue (q (l + 1) (c, 0, 0)).x (W (l + 1) c)) ∧
            |(V (l + 1) c : ℝ) - cv (wid r lo hi 0) (V l (c + b)) (W l (c + b)) (V l (c + b + 1)) (W l (c + b + 1)) t| ≤ A ∧
            |(W (l + 1) c : ℝ) - cs (wid r lo hi 0) (V l (c + b)) (W l (c + b)) (V l (c + b + 1)) (W l (c + b + 1)) t| ≤ A / wid r lo hi 0 := by
          intro l lj c hc
          obtain ⟨cn1, cn2⟩ := down l c hc
          obtain ⟨c3, c4⟩ := hc.2.2 (by omega)
          obtain ⟨⟨v1, w1⟩, -⟩ := ih l (by omega) (by omega) _ cn1
          obtain ⟨⟨v2, w2⟩, -⟩ := ih l (by omega) (by omega) _ cn2
          obtain ⟨p1, p2⟩ := bound l lj _ cn1
          obtain ⟨p3, p4⟩ := bound l lj _ cn2
          obtain ⟨v, w, k1, k2, k3, k4⟩ := st l (by omega) c c3 c4 M hM _ _ _ _ v1 w1 v2 w2 p1 p2 p3 p4
          have ev : V (l + 1) c = v := numD_of k1
          have ew : W (l + 1) c = w := numD_of k2
          rw [ev, ew]
          refine ⟨⟨k1, k2⟩, k3.trans ?_, ?_⟩
          · rw [hA]
            have : (2 : ℝ) ^ 12 * K * M / 2 ^ 52 ≤ 2 ^ 16 * K * M / 2 ^ 52 := by gcongr <;> norm_num
            linarith
          · rw [le_div_iff₀ hh, hA]
            linarith
        refine ⟨(one j le_rfl c hc).1, ?_⟩
        obtain ⟨c1, c2, c3⟩ := hc
        have sub : Icc (x + (c + ((j : ℕ) + 1) * b) * wid r lo hi 0) (x + (c + ((j : ℕ) + 1) * b + ((j : ℕ) + 1)) * wid r lo hi 0) ⊆
            Icc ((lo 0 : ℝ) - wid r lo hi 0 / 2) (hi 0 + wid r lo hi 0 / 2) := by
          have c1' : (-1 : ℝ) ≤ c + ((j : ℕ) + 1) * b := by exact_mod_cast c1
          have c2' : (c : ℝ) + ((j : ℕ) + 1) * b + ((j : ℕ) + 1) ≤ r.n.get 0 := by exact_mod_cast c2
          have y1 := mul_le_mul_of_nonneg_right c1' hh.le
          have y2 := mul_le_mul_of_nonneg_right c2' hh.le
          rw [hx]
          refine Icc_subset_Icc ?_ ?_ <;> linarith
        have coneOf : ∀ l m : ℕ, l + m = j + 1 → ∀ d : ℤ, c + m * b ≤ d → d ≤ c + m * b + m → cone l d := by
          intro l m hlm d d1 d2
          have e : ((j + 1 : ℕ) : ℤ) = l + m := by rw [← hlm]; push_cast; rfl
          rw [e] at c1 c2
          obtain ⟨c3, c4⟩ := c3 (by omega)
          simp only [hcone]
          rcases hb with ⟨rfl, -⟩ | ⟨rfl, -⟩ <;> refine ⟨?_, ?_, fun _ => ⟨?_, ?_⟩⟩ <;> omega
        have near := carried_near (h := wid r lo hi 0) (t := t) (M := Q) (x := x) (A := A) (B := A / wid r lo hi 0) hh tr0 tr1 A0 (by positivity)
          (fun l c => (V l c : ℝ)) (fun l c => (W l c : ℝ)) c b j hu' ⟨hu.smooth, fun y hy => hu.bound y (sub hy)⟩
          (fun d d1 d2 => by
            have := (ih 0 (by omega) (by omega) d (coneOf 0 (j + 1) (by omega) d (by push_cast; linarith) (by push_cast; linarith))).2.1
            push_cast at this
            rw [zero_mul, add_zero] at this
            refine this.trans ?_
            rw [hA]
            linarith)
          (fun d d1 d2 => by
            have := (ih 0 (by omega) (by omega) d (coneOf 0 (j + 1) (by omega) d (by push_cast; linarith) (by push_cast; linarith))).2.2
            push_cast at this
            rw [zero_mul, add_zero] at this
            rw [le_div_iff₀ hh, hA]
            linarith)
          (fun l m hlm d d1 d2 => (one l (by omega) d (coneOf (l + 1) m (by omega) d d1 d2)).2.1)
          (fun l m hlm d d1 d2 => (one l (by omega) d (coneOf (l + 1) m (by omega) d d1 d2)).2.2)
        rw [div_mul_cancel₀ _ hh.ne'] at near
        push_cast
        refine ⟨near.1.trans ?_, near.2.trans ?_⟩
        · have e : Q * wid r lo hi 0 ^ 4 / 18 + 3 * A + A = Q * wid r lo hi 0 ^ 4 / 18 + 4 * A := by ring
          rw [e]
          linarith
        · have e : Q * wid r lo hi 0 ^ 4 / 2 + 11 * A + 4 * A = Q * wid r lo hi 0 ^ 4 / 2 + 15 * A := by ring
          rw [e]
          linarith
  intro i i0 i1 up dn
  have ci : cone k i := by
    simp only [hcone]
    rcases hb with ⟨rfl, s⟩ | ⟨rfl, s⟩
    · have := up s
      refine ⟨?_, ?_, fun _ => ⟨?_, ?_⟩⟩ <;> omega
    · have := dn s
      refine ⟨?_, ?_, fun _ => ⟨?_, ?_⟩⟩ <;> omega
  obtain ⟨⟨k1, k2⟩, k3, k4⟩ := key k le_rfl i ci
  refine ⟨_, _, k1, k2, ?_⟩
  have ex : ((nodeAt (axisOf r lo hi) (i, 0, 0) 0 - k * (ω * τ) : ℚ) : ℝ) = x + (i + k * (b + t)) * wid r lo hi 0 := by
    rw [Rat.cast_sub, node i, rD]
    push_cast
    rw [← rw5]
    ring
  rw [ex]
  exact ⟨k3, k4⟩

/-- The unit interval cut into six cells, velocity 1 and time steps of 1/8, that is 3/4 of a cell. -/
theorem cube_run (g : Grid F64 1) (e : (cube 1).make .wrap 1 = .ok g) :
    ∃ vel, RunD (cube 1) (fun _ => 0) (fun _ => 1) 6 g g eighth (1 / 8) 1 vel := by
  have hd : 1 = 1 ∨ 1 = 2 ∨ 1 = 3 := by decide
  have Md := make_made (cube_valid hd) e
  obtain ⟨v, h4⟩ := fieldIs_exists (s := .wrap) Md fun _ => (⟨1, 0, 0⟩ : Vec3 F64)
  obtain ⟨n, h5⟩ := fieldIs_exists (s := .wrap) Md fun _ => (Mat3.zero : Mat3 F64)
  have h6 : (axisOf (cube 1) (fun _ => 0) (fun _ => 1) 0).h = 1 / 6 := by rw [cube_h hd]; norm_num
  exact ⟨⟨v, n⟩, cube_valid hd, rfl, cube_box 1, fun _ _ => by norm_num [moderate_one], cube_res hd, by norm_num, e,
    ⟨cube 1, cube_valid hd, rfl, e, _, _, h4, h5, fun c _ => ⟨hasValue_one, fun _ => hasValue_zero⟩⟩, eighth_value,
    by rw [h6]; norm_num [abs_of_pos], by rw [h6]; norm_num [abs_of_pos]⟩

/-- Instance of `C105_line`: six cells, the sine rounded to doubles, four steps of 3/4 of a cell; at the last node the value is right to
a thousandth and the gradient to a twenty-fifth. -/
example : ∃ (g : Grid F64 1) (vel : LsVelocity F64) (ls ls' : Levelset F64) (z : F64) (p : Vec3 F64) (v w : ℚ), (cube 1).make .wrap 1 = .ok g ∧
    carrySteps .wrap g g eighth vel 4 ls = .ok ls' ∧ ls'.phi.get .wrap g 5 0 0 = .ok z ∧ ls'.psi.get .wrap g 5 0 0 = .ok p ∧
    HasValue z v ∧ HasValue p.x w ∧ |(v : ℝ) - Real.sin (11 / 12 - 1 / 2)| ≤ 1 / 1000 ∧ |(w : ℝ) - Real.cos (11 / 12 - 1 / 2)| ≤ 1 / 25 := by
  have hd : 1 = 1 ∨ 1 = 2 ∨ 1 = 3 := by decide
  obtain ⟨g, e, Md⟩ := make_ok .wrap (cube_valid hd)
  obtain ⟨vel, R⟩ := cube_run g e
  have w0 : wid (cube 1) (fun _ => 0) (fun _ => 1) 0 = 1 / 6 := cube_wid hd 0 (by decide)
  have h6 : (axisOf (cube 1) (fun _ => 0) (fun _ => 1) 0).h = 1 / 6 := by rw [cube_h hd]; norm_num
  choose p v h1 h2 h3 using fun i : ℤ => double_near (Real.sin (nodeAt (axisOf (cube 1) (fun _ => 0) fun _ => 1) (i, 0, 0) 0 : ℚ))
    (Real.abs_sin_le_one _)
  choose p' v' h1' h2' h3' using fun i : ℤ => double_near (Real.cos (nodeAt (axisOf (cube 1) (fun _ => 0) fun _ => 1) (i, 0, 0) 0 : ℚ))
    (Real.abs_cos_le_one _)
  obtain ⟨a0, f0⟩ := fieldIs_exists (s := .wrap) Md fun c : Cell => p c.1
  obtain ⟨b0, k0⟩ := fieldIs_exists (s := .wrap) Md fun c : Cell => (⟨p' c.1, 0, 0⟩ : Vec3 F64)
  obtain ⟨m0, l0⟩ := fieldIs_exists (s := .wrap) Md (fun _ : Cell => ([] : List F64))
  obtain ⟨l⟩ : Nonempty (Levelset F64) := ⟨Levelset.mk' g⟩
  obtain ⟨ls', F', G', e1, e2, e3⟩ := C105_line (cube 1) _ _ 6 g g eighth (1 / 8) 1 vel R
    { l with phi := a0, psi := b0, phiPrev := a0, psiPrev := b0, phiInterpPrev := a0, psiInterpPrev := b0, phiMixedPrev := m0 } _ _
    ⟨f0, k0, ⟨_, f0⟩, ⟨_, k0⟩, ⟨_, f0⟩, ⟨_, k0⟩, l0⟩ Real.sin Real.cos 1 1 (1 / 2 ^ 50) 2 Real.hasDerivAt_sin
    (by simpa using quartic_sin 1 _ _ 1 (by simp))
    (fun y _ => ⟨Real.abs_sin_le_one y, by rw [w0]; linarith [Real.abs_cos_le_one y]⟩)
    (fun i _ _ => ⟨v i, v' i, h1 i, h1' i, h2 i, by
      rw [w0]
      have := h2' i
      have := abs_nonneg ((v' i : ℝ) - Real.cos (nodeAt (axisOf (cube 1) (fun _ => 0) fun _ => 1) (i, 0, 0) 0 : ℚ))
      linarith⟩) 4 moderate_two (by rw [w0]; norm_num)
  have hi : (cube 1).Interior (5, 0, 0) := by decide
  obtain ⟨x, y, k1, k2, k3, k4⟩ := e3 5 (by decide) (by decide) (fun _ => by norm_num) (fun hc => absurd hc (by norm_num))
  refine ⟨g, vel, _, ls', _, _, x, y, e, e1, (e2 (5, 0, 0) hi).1, (e2 (5, 0, 0) hi).2, k1, k2, ?_⟩
  have en : ((nodeAt (axisOf (cube 1) (fun _ => 0) fun _ => 1) (5, 0, 0) 0 - (4 : ℕ) * (1 * (1 / 8)) : ℚ) : ℝ) = 11 / 12 - 1 / 2 := by
    have hl : (axisOf (cube 1) (fun _ => 0) (fun _ => 1) 0).lo = 0 := rfl
    rw [nodeAt, h6, hl]
    norm_num [comp]
  rw [en, w0] at k3 k4
  norm_num at k3 k4 ⊢
  constructor <;> linarith

end Gals.Props
