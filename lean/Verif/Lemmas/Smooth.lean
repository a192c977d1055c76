import Verif.Lemmas.Accum
import Mathlib.Topology.Order.Basic
import Mathlib.Topology.Algebra.Order.Floor

/-!
# Smoothness of the interpolant
-/

set_option linter.unusedSectionVars false

namespace Gals

open Spec Filter Topology

variable {d : ℕ}

theorem Spec.BaseCell.inStorage {r : Req ℝ} (h : r.Valid d) (hpos : r.Pos d) {x : Vec3 ℝ} {b : Cell}
    (H : BaseCell r d x b) : InStorage r d x := by
  intro a ha
  have hs := H.stored a ha
  have hm : ∀ i j : ℤ, i ≤ j → r.centre a i ≤ r.centre a j := fun i j hij => by
    by_contra hc
    have := (centre_lt_iff h hpos a ha).1 (not_le.1 hc)
    omega
  exact ⟨(hm _ _ hs.1).trans (H.lo a ha), (H.hi a ha).trans_le (hm _ _ (by omega))⟩

/-- A point strictly inside its base cell keeps the cell under small changes. -/
theorem eventually_base {Y : Type} [TopologicalSpace Y] {r : Req ℝ} {X : Y → Vec3 ℝ} {y0 : Y} {b : Cell}
    (H : BaseCell r d (X y0) b) (hlt : ∀ a : Fin 3, a.val < d → r.centre a (comp b a) < (X y0).get a)
    (hX : ∀ a : Fin 3, a.val < d → ContinuousAt (fun y => (X y).get a) y0) :
    ∀ᶠ y in 𝓝 y0, BaseCell r d (X y) b := by
  have h1 : ∀ a : Fin 3, ∀ᶠ y in 𝓝 y0, a.val < d →
      r.centre a (comp b a) < (X y).get a ∧ (X y).get a < r.centre a (comp b a + 1) := by
    intro a
    by_cases ha : a.val < d
    · have e1 := (hX a ha).eventually (lt_mem_nhds (hlt a ha))
      have e2 := (hX a ha).eventually (gt_mem_nhds (H.hi a ha))
      filter_upwards [e1, e2] with y y1 y2 _
      exact ⟨y1, y2⟩
    · exact Eventually.of_forall fun y hy => absurd hy ha
  filter_upwards [eventually_all.2 h1] with y hy
  exact ⟨fun a ha => (hy a ha).1.le, fun a ha => (hy a ha).2, H.stored, H.unused⟩

section
variable {E : Type} [NormedAddCommGroup E] [NormedSpace ℝ E]

theorem hasFDerivAt_eta {X : E → ℝ} {L : E →L[ℝ] ℝ} {e : E} (hX : HasFDerivAt X L e) (x0 inv : ℝ) :
    HasFDerivAt (fun e => (X e - x0) * inv) (inv • L) e := by
  exact (hX.sub_const x0).mul_const inv

/-- The derivative of the interpolated value along any differentiable map into the interior of a cell. -/
theorem interp_hasFDerivAt {s : IntSem} (hs : d < 3 → s = .wrap) {r : Req ℝ} {g : Grid ℝ d} (G : g.Made s r)
    (h : r.Valid d) (hpos : r.Pos d) {ls : Levelset ℝ} {phi : Cell → ℝ} {psi : Cell → Vec3 ℝ} {mix : Cell → List ℝ}
    (hm : ∀ c, (mix c).length = numMixed d) (P : PrevIs s r g ls phi psi mix) (lim : Bool)
    {X : E → Vec3 ℝ} {e0 : E} (hst : InStorage r d (X e0))
    (hin : ∀ a : Fin 3, a.val < d → ∃ i : ℤ, r.centre a i < (X e0).get a ∧ (X e0).get a < r.centre a (i + 1))
    {L : Fin 3 → E →L[ℝ] ℝ} (hX : ∀ a : Fin 3, a.val < d → HasFDerivAt (fun e => (X e).get a) (L a) e0)
    {F : E → ℝ} (hF : ∀ᶠ e in 𝓝 e0, ∃ o, interpolate s g ls (X e) lim = .ok o ∧ F e = o.phi)
    {o : Interp ℝ} (ho : interpolate s g ls (X e0) lim = .ok o) :
    HasFDerivAt F (∑ a : Fin 3, o.psi.get a • L a) e0 := by
  have hb : ∀ b, BaseCell r d (X e0) b → ∀ᶠ e in 𝓝 e0, BaseCell r d (X e) b := by
    intro b H
    refine eventually_base H (fun a ha => ?_) fun a ha => (hX a ha).continuousAt
    obtain ⟨i, h1, h2⟩ := hin a ha
    have h3 := (centre_lt_iff h hpos a ha).1 ((H.lo a ha).trans_lt h2)
    have h4 := (centre_lt_iff h hpos a ha).1 (h1.trans (H.hi a ha))
    have : comp b a = i := by omega
    rw [this]; exact h1
  rw [Fin.sum_univ_three]
  rcases h.dim with rfl | rfl | rfl
  · obtain rfl := hs (by decide)
    obtain ⟨b, H, e⟩ := interp1_eval G h hpos P hst lim
    rw [ho] at e
    cases e
    have hev : F =ᶠ[𝓝 e0] fun e => accum (basis (((X e).x - (nodePos r 1 b).x) * (1 / r.h 0)))
        (let p := getControlPoints (phi b) (psi b).x (phi (b.1 + 1, b.2.1, b.2.2)) (psi (b.1 + 1, b.2.1, b.2.2)).x
          (r.h 0) lim
        [p.c30, p.c21, p.c12, p.c03]) := by
      filter_upwards [hF, hb b H] with e he hbe
      obtain ⟨o2, ho2, hFe⟩ := he
      rw [hFe]
      obtain ⟨b', H', e'⟩ := interp1_eval G h hpos P (hbe.inStorage h hpos) lim
      obtain rfl := H'.unique h hpos hbe
      rw [ho2] at e'
      cases e'
      simp only [kernel1, basis, accum_cons, accum_nil]
      ring
    refine HasFDerivAt.congr_of_eventuallyEq ?_ hev
    have hx : HasFDerivAt (fun e => (X e).x) (L 0) e0 := hX 0 (by decide)
    refine (hasFDerivAt_accum1 (hasFDerivAt_eta hx _ _) _).congr_fderiv ?_
    simp only [kernel1, Vec3.get, zero_smul, add_zero, smul_smul]
    congr 1
    simp only [basis', accum_cons, accum_nil]
    ring
  · obtain rfl := hs (by decide)
    rw [mix1_eq hm] at P
    obtain ⟨b, H, e⟩ := interp2_eval G h hpos P hst lim
    rw [ho] at e
    cases e
    have hev : F =ᶠ[𝓝 e0] fun e => accum (weights2 (basis (((X e).x - (nodePos r 2 b).x) * g.oneOverDx.x))
        (basis (((X e).y - (nodePos r 2 b).y) * g.oneOverDx.y)))
        (let n := node2 phi psi (fun c => (mix c).getD 0 0)
        controls2 g.dx (n b) (n (b.1 + 1, b.2.1, b.2.2)) (n (b.1, b.2.1 + 1, b.2.2)) (n (b.1 + 1, b.2.1 + 1, b.2.2))
          lim) := by
      filter_upwards [hF, hb b H] with e he hbe
      obtain ⟨o2, ho2, hFe⟩ := he
      rw [hFe]
      obtain ⟨b', H', e'⟩ := interp2_eval G h hpos P (hbe.inStorage h hpos) lim
      obtain rfl := H'.unique h hpos hbe
      rw [ho2] at e'
      cases e'
      rfl
    refine HasFDerivAt.congr_of_eventuallyEq ?_ hev
    have hx : HasFDerivAt (fun e => (X e).x) (L 0) e0 := hX 0 (by decide)
    have hy : HasFDerivAt (fun e => (X e).y) (L 1) e0 := hX 1 (by decide)
    refine (hasFDerivAt_accum2 (hasFDerivAt_eta hx _ _) (hasFDerivAt_eta hy _ _) _).congr_fderiv ?_
    simp only [kernel2, Vec3.get, zero_smul, add_zero, smul_smul, Vec3.mul, Vec3.sub]
  · rw [mix4_eq hm] at P
    obtain ⟨b, H, e⟩ := interp3_eval G h hpos P hst lim
    rw [ho] at e
    cases e
    have hev : F =ᶠ[𝓝 e0] fun e => accum (weights3 (basis (((X e).x - (nodePos r 3 b).x) * g.oneOverDx.x))
        (basis (((X e).y - (nodePos r 3 b).y) * g.oneOverDx.y))
        (basis (((X e).z - (nodePos r 3 b).z) * g.oneOverDx.z)))
        (let n := node3 phi psi (fun c => (mix c).getD 0 0) (fun c => (mix c).getD 1 0) (fun c => (mix c).getD 2 0)
          (fun c => (mix c).getD 3 0)
        controls3 g.dx (n b) (n (b.1 + 1, b.2.1, b.2.2)) (n (b.1, b.2.1 + 1, b.2.2)) (n (b.1, b.2.1, b.2.2 + 1))
          (n (b.1 + 1, b.2.1 + 1, b.2.2)) (n (b.1, b.2.1 + 1, b.2.2 + 1)) (n (b.1 + 1, b.2.1, b.2.2 + 1))
          (n (b.1 + 1, b.2.1 + 1, b.2.2 + 1)) lim) := by
      filter_upwards [hF, hb b H] with e he hbe
      obtain ⟨o2, ho2, hFe⟩ := he
      rw [hFe]
      obtain ⟨b', H', e'⟩ := interp3_eval G h hpos P (hbe.inStorage h hpos) lim
      obtain rfl := H'.unique h hpos hbe
      rw [ho2] at e'
      cases e'
      simp only [kernel3, Vec3.sub, Vec3.mul]
    refine HasFDerivAt.congr_of_eventuallyEq ?_ hev
    have hx : HasFDerivAt (fun e => (X e).x) (L 0) e0 := hX 0 (by decide)
    have hy : HasFDerivAt (fun e => (X e).y) (L 1) e0 := hX 1 (by decide)
    have hz : HasFDerivAt (fun e => (X e).z) (L 2) e0 := hX 2 (by decide)
    refine (hasFDerivAt_accum3 (hasFDerivAt_eta hx _ _) (hasFDerivAt_eta hy _ _) (hasFDerivAt_eta hz _ _) _).congr_fderiv ?_
    simp only [kernel3, Vec3.get, smul_smul, Vec3.mul, Vec3.sub]

end

end Gals
