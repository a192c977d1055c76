import Verif.Lemmas.SplineReal
import Verif.Lemmas.Transport
import Verif.Props.Transport
import Verif.Props.SplineStep

/-!
# C96: a semi-Lagrangian step in double arithmetic against solutions of the level set equation
-/

set_option linter.unusedSectionVars false
set_option linter.unusedSimpArgs false

namespace Gals.Props

open Gals Gals.Spec Set Filter Topology

theorem vecR_get (v : Fin 3 → ℝ) : (vecR v).get = v := by
  funext a
  match a with
  | 0 => rfl
  | 1 => rfl
  | 2 => rfl

theorem matR_entry (m : Fin 3 → Fin 3 → ℝ) (j a : Fin 3) : (matR m).entry j a = m j a := by
  match j, a with
  | 0, 0 => rfl
  | 0, 1 => rfl
  | 0, 2 => rfl
  | 1, 0 => rfl
  | 1, 1 => rfl
  | 1, 2 => rfl
  | 2, 0 => rfl
  | 2, 1 => rfl
  | 2, 2 => rfl

theorem pull_cast (d : ℕ) (A : Fin 3 → Axis) (D : Jet) (τ : ℚ) (μ : Fin 3 → Fin 3 → ℚ) (q : Fin 3 → ℚ) (a : Fin 3) (ha : a.val < d) :
    ((pullGrad d A D τ μ q a : ℚ) : ℝ) = (jetSpline d A (Spec.oneD a) D q : ℝ) -
      τ * ∑ j : Fin 3, (if j.val < d then (μ j a : ℝ) * (jetSpline d A (Spec.oneD j) D q : ℝ) else 0) := by
  have e : (jetSpline d A (Spec.oneD a) D q : ℝ) =
      ∑ j : Fin 3, if j = a then (if j.val < d then (jetSpline d A (Spec.oneD j) D q : ℝ) else 0) else 0 := by
    rw [Finset.sum_ite_eq' Finset.univ a]
    simp [ha]
  unfold pullGrad
  rw [e, Finset.mul_sum, ← Finset.sum_sub_distrib, Rat.cast_sum]
  refine Finset.sum_congr rfl fun j _ => ?_
  by_cases hj : j.val < d
  · by_cases hja : j = a
    · simp only [hj, hja, if_true, ha]; push_cast; ring
    · simp only [hj, hja, if_true, if_false]; push_cast; ring
  · simp [hj]

/-- A step from data whose spline is accurate at the departure points. -/
theorem step_near (s : IntSem) (d : ℕ) (hs : d < 3 → s = .wrap) (r : Req F64) (h : r.Valid d) (hpad : r.pad = 1)
    (lo hi : Fin 3 → ℚ) (hbox : BoxIs r d lo hi)
    (hside : ∀ a : Fin 3, a.val < d → Moderate (hi a - lo a)) (K : ℚ)
    (hres : ∀ a : Fin 3, a.val < d → r.n.get a * (|lo a| + (hi a - lo a)) ≤ K * (hi a - lo a)) (hK : K ≤ 2 ^ 28)
    (g : Grid F64 d) (e : r.make s d = .ok g) (rv : Req F64) (hv : rv.Valid d) (hn : rv.n = r.n)
    (gv : Grid F64 d) (ev : rv.make s d = .ok gv) (dt : F64) (τ : ℚ) (hdt : HasValue dt τ) (vel : LsVelocity F64)
    (u : Cell → Vec3 F64) (m : Cell → Mat3 F64) (hu : FieldIs s rv gv vel.velocity u) (hg : FieldIs s rv gv vel.grad m)
    (υ : Cell → Fin 3 → ℚ) (μ : Cell → Fin 3 → Fin 3 → ℚ)
    (huv : ∀ c, r.Interior c → ∀ a : Fin 3, a.val < d → HasValue ((u c).get a) (υ c a) ∧
      lo a - (1 / 2 - 1 / 2 ^ 15) * (axisOf r lo hi a).h ≤ departQ (axisOf r lo hi) τ (υ c) c a ∧
      departQ (axisOf r lo hi) τ (υ c) c a ≤ hi a + (1 / 2 - 1 / 2 ^ 15) * (axisOf r lo hi a).h)
    (hmu : ∀ c, r.Interior c → ∀ a : Fin 3, a.val < d → ∀ j : Fin 3, HasValue ((m c).entry j a) (μ c j a) ∧
      |μ c j a * τ| ≤ 2 ^ 300 ∧ (j.val < d → |μ c j a * τ| * (axisOf r lo hi a).h ≤ (axisOf r lo hi j).h))
    (ls : Levelset F64) (phi : Cell → F64) (psi : Cell → Vec3 F64) (mix : Cell → List F64)
    (P : PrevIs s r g ls phi psi mix) (p0 p1 : Cell → F64) (q0 q1 : Cell → Vec3 F64)
    (hp : FieldIs s r g ls.phi p0) (hq : FieldIs s r g ls.psi q0) (hp1 : FieldIs s r g ls.phiInterpPrev p1)
    (hq1 : FieldIs s r g ls.psiInterpPrev q1)
    (D : Jet) (hD : JetIs r d phi psi mix D) (M : ℚ) (hM : Moderate M) (hDM : JetLe r d (axisOf r lo hi) D M)
    (f : (Fin 3 → ℝ) → ℝ → ℝ) (hf : ContDiff ℝ 3 fun z : (Fin 3 → ℝ) × ℝ => f z.1 z.2) (U : (Fin 3 → ℝ) → Fin 3 → ℝ)
    (t B B' L W E E' κ : ℝ) (h0 : 0 ≤ τ) (k0 : 0 ≤ κ) (e0 : 0 ≤ E') (S : ∀ c, r.Interior c → StepData d f U t τ B B' L W
      (vecR (pointR d (nodeAt (axisOf r lo hi) c))) (vecR fun a => (υ c a : ℝ)) (matR fun j a => (μ c j a : ℝ)))
    (I : ∀ c, r.Interior c → let q := departQ (axisOf r lo hi) τ (υ c) c
      |(jetSpline d (axisOf r lo hi) noD D q : ℝ) - f (pointR d q) t| ≤ E ∧ ∀ a : Fin 3, a.val < d →
        |(jetSpline d (axisOf r lo hi) (Spec.oneD a) D q : ℝ) - partialX f a (pointR d q) t| ≤ E' + κ / (axisOf r lo hi a).h) :
    StepNear s d r g (temporal .semiLagrangian s g gv dt vel ls) (axisOf r lo hi) f (t + τ)
      (E + B * τ ^ 2 + 2 ^ (9 + 3 * d) * K * M / 2 ^ 52)
      (fun a => (1 + d * W * τ) * E' + (B' + d * W * L) * τ ^ 2 + ((d + 1) * κ + 2 ^ (13 + 3 * d) * K * M / 2 ^ 52) / (axisOf r lo hi a).h) := by
  have G := make_made h e
  obtain ⟨ls', F, p, k1, k2, k3, k4⟩ := C90_step s d hs r h hpad lo hi hbox hside K hres hK g e rv hv hn gv ev dt τ hdt vel u m hu hg
    υ μ huv hmu ls phi psi mix P p0 p1 q0 q1 hp hq hp1 hq1 D hD M hM hDM
  have hd3 : d ≤ 3 := by rcases h.dim with rfl | rfl | rfl <;> decide
  have hA : ∀ a : Fin 3, a.val < d → (0 : ℝ) < (axisOf r lo hi a).h := fun a ha => by
    have : 0 < (axisOf r lo hi a).h :=
      div_pos ((two_zpow_pos _).trans_le (hside a ha).1) (by have := h.n_pos a; exact_mod_cast this)
    exact_mod_cast this
  have h0' : (0 : ℝ) ≤ τ := by exact_mod_cast h0
  refine ⟨ls', k1, fun c hc => ⟨F c, p c, k2.val c (interior_padded G hc), k3.val c (interior_padded G hc), ?_, ?_⟩⟩
  all_goals
    have T := S c hc
    obtain ⟨i1, i2⟩ := I c hc
    obtain ⟨⟨v, v1, v2⟩, v3⟩ := k4 c hc
    have eqn := T.eqn
    have vel' := T.vel
    have value := T.value
    have slope := T.slope
    have line := T.line
    have grad := T.grad
    have small := T.small
    simp only [vecR_get, matR_entry] at eqn vel' value slope line grad small
    set X := pointR d (nodeAt (axisOf r lo hi) c) with hX
    have ed : pointR d (departQ (axisOf r lo hi) τ (υ c) c) = backward d X (U X) τ := by
      funext a
      simp only [pointR, backward, hX]
      split
      · rename_i ha
        rw [← hX, ← vel' a ha, departQ]
        push_cast
        ring
      · rfl
    simp only [ed] at i1 i2
  · refine ⟨v, v1, ?_⟩
    have tv := transport_value hf h0' eqn.self_of_nhds value
    have v2' : |(v : ℝ) - (jetSpline d (axisOf r lo hi) noD D (departQ (axisOf r lo hi) τ (υ c) c) : ℝ)| ≤
        2 ^ (9 + 3 * d) * K * M / 2 ^ 52 := by exact_mod_cast v2
    rw [abs_sub_comm] at tv
    have := abs_tri (abs_tri v2' i1) tv
    linarith
  · intro a ha
    obtain ⟨w, w1, w2⟩ := v3 a ha
    refine ⟨w, w1, ?_⟩
    have hHa := hA a ha
    have w2' : |(w : ℝ) - (pullGrad d (axisOf r lo hi) D τ (μ c) (departQ (axisOf r lo hi) τ (υ c) c) a : ℝ)| * (axisOf r lo hi a).h ≤
        2 ^ (13 + 3 * d) * K * M / 2 ^ 52 := by exact_mod_cast w2
    rw [← le_div_iff₀ hHa, pull_cast d _ D τ (μ c) _ a ha] at w2'
    have T' := transport_grad hf h0' eqn (a := a) (m := fun j => (μ c j a : ℝ)) (fun j hj => grad j a hj ha) hd3 (slope a ha)
      line (fun j hj => small j a hj ha)
    have W0 : 0 ≤ W := (abs_nonneg _).trans (small a a ha ha)
    have i5 := i2 a ha
    set Q := departQ (axisOf r lo hi) τ (υ c) c
    have e2 : |τ * ∑ j : Fin 3, (if j.val < d then (μ c j a : ℝ) * (jetSpline d (axisOf r lo hi) (Spec.oneD j) D Q : ℝ) else 0) -
        τ * ∑ j : Fin 3, (if j.val < d then (μ c j a : ℝ) * partialX f j (backward d X (U X) τ) t else 0)| ≤
        d * W * τ * E' + d * κ / (axisOf r lo hi a).h := by
      rw [← mul_sub, ← Finset.sum_sub_distrib, Finset.mul_sum]
      have k : ∀ j : Fin 3, |(τ : ℝ) * ((if j.val < d then (μ c j a : ℝ) * (jetSpline d (axisOf r lo hi) (Spec.oneD j) D Q : ℝ) else 0) -
          (if j.val < d then (μ c j a : ℝ) * partialX f j (backward d X (U X) τ) t else 0))| ≤
          if j.val < d then W * τ * E' + κ / (axisOf r lo hi a).h else 0 := by
        intro j
        by_cases hj : j.val < d
        · simp only [hj, if_true]
          have hHj := hA j hj
          have mm : |(μ c j a : ℝ) * τ| * (axisOf r lo hi a).h ≤ (axisOf r lo hi j).h := by
            exact_mod_cast (hmu c hc a ha j).2.2 hj
          rw [← mul_sub, ← mul_assoc, abs_mul, mul_comm (τ : ℝ)]
          have i6 := i2 j hj
          have s1 : |(μ c j a : ℝ) * τ| ≤ W * τ := by
            rw [abs_mul, abs_of_nonneg h0']
            exact mul_le_mul_of_nonneg_right (small j a hj ha) h0'
          have s2 : |(μ c j a : ℝ) * τ| * (κ / (axisOf r lo hi j).h) ≤ κ / (axisOf r lo hi a).h := by
            rw [← mul_div_assoc, div_le_div_iff₀ hHj hHa]
            calc |(μ c j a : ℝ) * τ| * κ * (axisOf r lo hi a).h = (|(μ c j a : ℝ) * τ| * (axisOf r lo hi a).h) * κ := by ring
              _ ≤ (axisOf r lo hi j).h * κ := mul_le_mul_of_nonneg_right mm k0
              _ = _ := by ring
          calc _ ≤ |(μ c j a : ℝ) * τ| * (E' + κ / (axisOf r lo hi j).h) := mul_le_mul_of_nonneg_left i6 (abs_nonneg _)
            _ = |(μ c j a : ℝ) * τ| * E' + |(μ c j a : ℝ) * τ| * (κ / (axisOf r lo hi j).h) := by ring
            _ ≤ _ := add_le_add (mul_le_mul_of_nonneg_right s1 e0) s2
        · simp [hj]
      refine (Finset.abs_sum_le_sum_abs _ _).trans ((Finset.sum_le_sum fun j _ => k j).trans (le_of_eq ?_))
      rw [Fin.sum_univ_three]
      obtain rfl | rfl | rfl := h.dim <;> norm_num <;> ring
    set S1 := (τ : ℝ) * ∑ j : Fin 3, (if j.val < d then (μ c j a : ℝ) * (jetSpline d (axisOf r lo hi) (Spec.oneD j) D Q : ℝ) else 0)
    set S2 := (τ : ℝ) * ∑ j : Fin 3, (if j.val < d then (μ c j a : ℝ) * partialX f j (backward d X (U X) τ) t else 0)
    have i7 : |(jetSpline d (axisOf r lo hi) (Spec.oneD a) D Q : ℝ) - S1 - (partialX f a (backward d X (U X) τ) t - S2)| ≤
        (E' + κ / (axisOf r lo hi a).h) + (d * W * τ * E' + d * κ / (axisOf r lo hi a).h) := by
      rw [show ∀ a b c d : ℝ, a - b - (c - d) = (a - c) - (b - d) by intros; ring]
      exact (abs_sub _ _).trans (add_le_add i5 e2)
    rw [abs_sub_comm] at T'
    have := abs_tri (abs_tri w2' i7) T'
    refine this.trans (le_of_eq ?_)
    ring

/-! ## The spline through data near a smooth function -/

theorem ctr_first (A : Axis) : ctr A (-1) = A.lo - A.h / 2 := by
  unfold ctr
  push_cast
  ring

theorem ctr_last (A : Axis) (hn : A.h * A.n = A.hi - A.lo) : ctr A A.n = A.hi + A.h / 2 := by
  have : A.lo + (A.n + 1 / 2) * A.h = A.hi + A.h / 2 := by linarith
  unfold ctr
  rw [this]
  push_cast
  ring

/-- The interval of centres around a point of an axis. -/
theorem ctr_cell (A : Axis) (hh : 0 < A.h) (hn : A.h * A.n = A.hi - A.lo) {q : ℚ} (h1 : A.lo - A.h / 2 ≤ q) (h2 : q < A.hi + A.h / 2) :
    (A.lo : ℝ) - A.h / 2 ≤ ctr A ⌊A.coord q⌋ ∧ ctr A ⌊A.coord q⌋ + A.h ≤ A.hi + A.h / 2 := by
  obtain ⟨r1, r2⟩ := coord_range A hh hn h1 h2
  rw [← ctr_first, ← ctr_last A hn, ← ctr_succ]
  exact ⟨ctr_mono A hh r1, ctr_mono A hh r2⟩

theorem fract_unit (x : ℚ) : (0 : ℝ) ≤ (Int.fract x : ℚ) ∧ ((Int.fract x : ℚ) : ℝ) ≤ 1 :=
  ⟨by exact_mod_cast Int.fract_nonneg x, by exact_mod_cast (Int.fract_lt_one x).le⟩

theorem pointR1 (q : Fin 3 → ℚ) : pointR 1 q = ![(q 0 : ℝ), 0, 0] := by
  funext a
  match a with
  | 0 => rfl
  | 1 => rfl
  | 2 => rfl

theorem pointR2 (q : Fin 3 → ℚ) : pointR 2 q = ![(q 0 : ℝ), q 1, 0] := by
  funext a
  match a with
  | 0 => rfl
  | 1 => rfl
  | 2 => rfl

theorem pointR3 (q : Fin 3 → ℚ) : pointR 3 q = ![(q 0 : ℝ), q 1, q 2] := by
  funext a
  match a with
  | 0 => rfl
  | 1 => rfl
  | 2 => rfl

theorem node_ctr (A : Fin 3 → Axis) (c : Cell) (a : Fin 3) : ((nodeAt A c a : ℚ) : ℝ) = ctr (A a) (comp c a) := rfl

variable {r : Req F64} {lo hi : Fin 3 → ℚ}

theorem axis_n (h : ∀ a : Fin 3, 0 < r.n.get a) (a : Fin 3) :
    (axisOf r lo hi a).h * (axisOf r lo hi a).n = (axisOf r lo hi a).hi - (axisOf r lo hi a).lo := by
  have : (r.n.get a : ℚ) ≠ 0 := by have := h a; exact_mod_cast this.ne'
  simp only [Axis.h, axisOf]
  field_simp

theorem spline_line (h : r.Valid 1) (hpad : r.pad = 1) (hw : 0 < (axisOf r lo hi 0).h) {D : Jet}
    {F : Fin 2 → Fin 2 → Fin 2 → (Fin 3 → ℝ) → ℝ} {ε M : ℝ} (near : JetNear r 1 (axisOf r lo hi) D F ε)
    (hder : ∀ x : ℝ, HasDerivAt (fun x => F 0 0 0 ![x, 0, 0]) (F 1 0 0 ![x, 0, 0]) x)
    (hM : Quartic (fun x => F 0 0 0 ![x, 0, 0]) (lo 0 - wid r lo hi 0 / 2) (hi 0 + wid r lo hi 0 / 2) M) {q : Fin 3 → ℚ}
    (h1 : lo 0 - (axisOf r lo hi 0).h / 2 ≤ q 0) (h2 : q 0 < hi 0 + (axisOf r lo hi 0).h / 2) :
    |(jetSpline 1 (axisOf r lo hi) noD D q : ℝ) - F 0 0 0 (pointR 1 q)| ≤ M * wid r lo hi 0 ^ 4 / 384 + 5 / 4 * ε ∧
    |(jetSpline 1 (axisOf r lo hi) (Spec.oneD 0) D q : ℝ) - F 1 0 0 (pointR 1 q)| ≤ M * wid r lo hi 0 ^ 3 / 24 + 4 * ε / wid r lo hi 0 := by
  have hn := axis_n (lo := lo) (hi := hi) h.n_pos 0
  have hw' : (0 : ℝ) < wid r lo hi 0 := by exact_mod_cast hw
  obtain ⟨c1, c2⟩ := ctr_cell _ hw hn h1 h2
  obtain ⟨r1, r2⟩ := coord_range _ hw hn h1 h2
  have pt := ctr_point _ hw (q 0)
  obtain ⟨t0, t1⟩ := fract_unit ((axisOf r lo hi 0).coord (q 0))
  have key := near1 hw' (ctr_succ (axisOf r lo hi 0) _) (hM.mono c1 c2) hder t0 t1 (G := fun a i => (D a 0 0 (i, 0, 0) : ℝ)) (ε := ε) (by
    intro a i hi'
    have P : r.Padded 1 (i, 0, 0) := padded_of h hpad (fun b hb => by
      match b with
      | 0 => change -1 ≤ i ∧ i ≤ (axisOf r lo hi 0).n; omega
      | 1 => exact absurd hb (by decide)
      | 2 => exact absurd hb (by decide)) (fun b hb => by
      match b with
      | 0 => exact absurd hb (by decide)
      | 1 => rfl
      | 2 => rfl)
    have := near (i, 0, 0) P ![a, 0, 0] (fun b hb => by
      match b with
      | 0 => exact absurd hb (by decide)
      | 1 => rfl
      | 2 => rfl)
    rw [pointR1, node_ctr] at this
    simp only [Matrix.cons_val_zero, Matrix.cons_val_one, Matrix.cons_val_two, Matrix.tail_cons, Matrix.head_cons, Fin.val_zero, pow_zero, mul_one] at this
    convert this using 4
    match a with
    | 0 => rfl
    | 1 => rfl)
  rw [pt] at key
  rw [jet1_cast, jet1_cast, pointR1]
  simpa [noD, Spec.oneD, bC] using key

theorem spline_plane (h : r.Valid 2) (hpad : r.pad = 1) (hw : ∀ a : Fin 3, a.val < 2 → 0 < (axisOf r lo hi a).h) {D : Jet}
    {F : Fin 2 → Fin 2 → Fin 2 → (Fin 3 → ℝ) → ℝ} {ε M40 M04 M14 M41 : ℝ} (near : JetNear r 2 (axisOf r lo hi) D F ε)
    (hM : Smooth2 (fun x y => F 0 0 0 ![x, y, 0]) (fun x y => F 1 0 0 ![x, y, 0]) (fun x y => F 0 1 0 ![x, y, 0])
      (fun x y => F 1 1 0 ![x, y, 0]) (lo 0 - wid r lo hi 0 / 2) (hi 0 + wid r lo hi 0 / 2) (lo 1 - wid r lo hi 1 / 2)
      (hi 1 + wid r lo hi 1 / 2) M40 M04 M14 M41) {q : Fin 3 → ℚ}
    (hq : ∀ a : Fin 3, a.val < 2 → lo a - (axisOf r lo hi a).h / 2 ≤ q a ∧ q a < hi a + (axisOf r lo hi a).h / 2) :
    |(jetSpline 2 (axisOf r lo hi) noD D q : ℝ) - F 0 0 0 (pointR 2 q)| ≤
      M40 * wid r lo hi 0 ^ 4 / 384 + (M04 + wid r lo hi 0 / 4 * M14) * wid r lo hi 1 ^ 4 / 384 + (5 / 4) ^ 2 * ε ∧
    |(jetSpline 2 (axisOf r lo hi) (Spec.oneD 0) D q : ℝ) - F 1 0 0 (pointR 2 q)| ≤
      M14 * wid r lo hi 1 ^ 4 / 384 + (M40 + wid r lo hi 1 / 4 * M41) * wid r lo hi 0 ^ 3 / 24 + 5 * ε / wid r lo hi 0 ∧
    |(jetSpline 2 (axisOf r lo hi) (Spec.oneD 1) D q : ℝ) - F 0 1 0 (pointR 2 q)| ≤
      M41 * wid r lo hi 0 ^ 4 / 384 + (M04 + wid r lo hi 0 / 4 * M14) * wid r lo hi 1 ^ 3 / 24 + 5 * ε / wid r lo hi 1 := by
  have hn := fun a => axis_n (lo := lo) (hi := hi) h.n_pos a
  have w0 := hw 0 (by decide)
  have w1 := hw 1 (by decide)
  have w0' : (0 : ℝ) < wid r lo hi 0 := by exact_mod_cast w0
  have w1' : (0 : ℝ) < wid r lo hi 1 := by exact_mod_cast w1
  obtain ⟨q1, q2⟩ := hq 0 (by decide)
  obtain ⟨q3, q4⟩ := hq 1 (by decide)
  obtain ⟨c1, c2⟩ := ctr_cell _ w0 (hn 0) q1 q2
  obtain ⟨c3, c4⟩ := ctr_cell _ w1 (hn 1) q3 q4
  obtain ⟨r1, r2⟩ := coord_range _ w0 (hn 0) q1 q2
  obtain ⟨r3, r4⟩ := coord_range _ w1 (hn 1) q3 q4
  have pt0 := ctr_point _ w0 (q 0)
  have pt1 := ctr_point _ w1 (q 1)
  obtain ⟨t0, t1⟩ := fract_unit ((axisOf r lo hi 0).coord (q 0))
  obtain ⟨t2, t3⟩ := fract_unit ((axisOf r lo hi 1).coord (q 1))
  have key := near2 (F := fun α β x y => F α β 0 ![x, y, 0]) w0' w1' (ctr_succ (axisOf r lo hi 0) _) (ctr_succ (axisOf r lo hi 1) _)
    (hM.mono c1 c2 c3 c4) t0 t1 t2 t3 (G := fun a b i j => (D a b 0 (i, j, 0) : ℝ)) (ε := ε) (by
    intro a b i j hi' hj'
    have P : r.Padded 2 (i, j, 0) := padded_of h hpad (fun b hb => by
      match b with
      | 0 => change -1 ≤ i ∧ i ≤ (axisOf r lo hi 0).n; omega
      | 1 => change -1 ≤ j ∧ j ≤ (axisOf r lo hi 1).n; omega
      | 2 => exact absurd hb (by decide)) (fun b hb => by
      match b with
      | 0 => exact absurd hb (by decide)
      | 1 => exact absurd hb (by decide)
      | 2 => rfl)
    have := near (i, j, 0) P ![a, b, 0] (fun b hb => by
      match b with
      | 0 => exact absurd hb (by decide)
      | 1 => exact absurd hb (by decide)
      | 2 => rfl)
    rw [pointR2, node_ctr, node_ctr] at this
    simp only [Matrix.cons_val_zero, Matrix.cons_val_one, Matrix.cons_val_two, Matrix.tail_cons, Matrix.head_cons, Fin.val_zero, pow_zero, mul_one] at this
    exact this)
  simp only [pt0, pt1] at key
  rw [jet2_cast, jet2_cast, jet2_cast, pointR2]
  have b0 : bC 0 = 5 / 4 := by norm_num [bC]
  have b1 : bC 1 = 4 := by norm_num [bC]
  simp only [b0, b1] at key
  obtain ⟨k1, k2, k3⟩ := key
  refine ⟨?_, ?_, ?_⟩
  · simp only [noD, Fin.val_zero, pow_zero, mul_one, div_one]
    exact k1.trans (le_of_eq (by ring))
  · simp only [Spec.oneD, show ¬ (1 : Fin 3) = 0 by decide, if_true, if_false, Fin.val_zero, Fin.val_one, pow_zero, pow_one, mul_one]
    exact k2.trans (le_of_eq (by ring))
  · simp only [Spec.oneD, show ¬ (0 : Fin 3) = 1 by decide, if_true, if_false, Fin.val_zero, Fin.val_one, pow_zero, pow_one, one_mul]
    exact k3.trans (le_of_eq (by ring))

theorem spline_space (h : r.Valid 3) (hpad : r.pad = 1) (hw : ∀ a : Fin 3, 0 < (axisOf r lo hi a).h) {D : Jet}
    {F : Fin 2 → Fin 2 → Fin 2 → (Fin 3 → ℝ) → ℝ} {ε M : ℝ} (near : JetNear r 3 (axisOf r lo hi) D F ε)
    (hM : Smooth3 (fun i j k x y z => F i j k ![x, y, z]) (lo 0 - wid r lo hi 0 / 2) (hi 0 + wid r lo hi 0 / 2)
      (lo 1 - wid r lo hi 1 / 2) (hi 1 + wid r lo hi 1 / 2) (lo 2 - wid r lo hi 2 / 2) (hi 2 + wid r lo hi 2 / 2) M) {q : Fin 3 → ℚ}
    (hq : ∀ a : Fin 3, lo a - (axisOf r lo hi a).h / 2 ≤ q a ∧ q a < hi a + (axisOf r lo hi a).h / 2) :
    |(jetSpline 3 (axisOf r lo hi) noD D q : ℝ) - F 0 0 0 (pointR 3 q)| ≤
      M * (wid r lo hi 1 ^ 4 + (1 + wid r lo hi 1 / 4) * wid r lo hi 2 ^ 4) / 384 +
        (1 + wid r lo hi 1 / 4) * (1 + wid r lo hi 2 / 4) * (M * wid r lo hi 0 ^ 4 / 384) + (5 / 4) ^ 3 * ε ∧
    |(jetSpline 3 (axisOf r lo hi) (Spec.oneD 0) D q : ℝ) - F 1 0 0 (pointR 3 q)| ≤
      M * (wid r lo hi 1 ^ 4 + (1 + wid r lo hi 1 / 4) * wid r lo hi 2 ^ 4) / 384 +
        (1 + wid r lo hi 1 / 4) * (1 + wid r lo hi 2 / 4) * (M * wid r lo hi 0 ^ 3 / 24) + 25 / 4 * ε / wid r lo hi 0 ∧
    |(jetSpline 3 (axisOf r lo hi) (Spec.oneD 1) D q : ℝ) - F 0 1 0 (pointR 3 q)| ≤
      M * (wid r lo hi 0 ^ 4 + (1 + wid r lo hi 0 / 4) * wid r lo hi 2 ^ 4) / 384 +
        (1 + wid r lo hi 0 / 4) * (1 + wid r lo hi 2 / 4) * (M * wid r lo hi 1 ^ 3 / 24) + 25 / 4 * ε / wid r lo hi 1 ∧
    |(jetSpline 3 (axisOf r lo hi) (Spec.oneD 2) D q : ℝ) - F 0 0 1 (pointR 3 q)| ≤
      M * (wid r lo hi 0 ^ 4 + (1 + wid r lo hi 0 / 4) * wid r lo hi 1 ^ 4) / 384 +
        (1 + wid r lo hi 0 / 4) * (1 + wid r lo hi 1 / 4) * (M * wid r lo hi 2 ^ 3 / 24) + 25 / 4 * ε / wid r lo hi 2 := by
  have hn := fun a => axis_n (lo := lo) (hi := hi) h.n_pos a
  have w0' : (0 : ℝ) < wid r lo hi 0 := by exact_mod_cast hw 0
  have w1' : (0 : ℝ) < wid r lo hi 1 := by exact_mod_cast hw 1
  have w2' : (0 : ℝ) < wid r lo hi 2 := by exact_mod_cast hw 2
  have C := fun a => ctr_cell _ (hw a) (hn a) (hq a).1 (hq a).2
  have R := fun a => coord_range _ (hw a) (hn a) (hq a).1 (hq a).2
  have pt := fun a => ctr_point _ (hw a) (q a)
  have T := fun a => fract_unit ((axisOf r lo hi a).coord (q a))
  have key := near3 (F := fun α β γ x y z => F α β γ ![x, y, z]) w0' w1' w2' (ctr_succ (axisOf r lo hi 0) _) (ctr_succ (axisOf r lo hi 1) _)
    (ctr_succ (axisOf r lo hi 2) _)
    (hM.mono (C 0).1 (C 0).2 (C 1).1 (C 1).2 (C 2).1 (C 2).2) (T 0).1 (T 0).2 (T 1).1 (T 1).2 (T 2).1 (T 2).2
    (G := fun a b c i j k => (D a b c (i, j, k) : ℝ)) (ε := ε) (by
    intro a b c i j k hi' hj' hk'
    have P : r.Padded 3 (i, j, k) := padded_of h hpad (fun b hb => by
      match b with
      | 0 => have := R 0; change -1 ≤ i ∧ i ≤ (axisOf r lo hi 0).n; omega
      | 1 => have := R 1; change -1 ≤ j ∧ j ≤ (axisOf r lo hi 1).n; omega
      | 2 => have := R 2; change -1 ≤ k ∧ k ≤ (axisOf r lo hi 2).n; omega) (fun b hb => by
      have := b.isLt
      omega)
    have := near (i, j, k) P ![a, b, c] (fun b hb => by
      have := b.isLt
      omega)
    rw [pointR3, node_ctr, node_ctr, node_ctr] at this
    simp only [Matrix.cons_val_zero, Matrix.cons_val_one, Matrix.cons_val_two, Matrix.tail_cons, Matrix.head_cons, Fin.val_zero, pow_zero, mul_one] at this
    exact this)
  simp only [pt 0, pt 1, pt 2] at key
  rw [jet3_cast, jet3_cast, jet3_cast, jet3_cast, pointR3]
  have b0 : bC 0 = 5 / 4 := by norm_num [bC]
  have b1 : bC 1 = 4 := by norm_num [bC]
  simp only [b0, b1] at key
  obtain ⟨k1, k2, k3, k4⟩ := key
  refine ⟨?_, ?_, ?_, ?_⟩
  · simp only [noD, Fin.val_zero, pow_zero, mul_one, div_one]
    exact k1.trans (le_of_eq (by ring))
  · simp only [Spec.oneD, show ¬ (1 : Fin 3) = 0 by decide, show ¬ (2 : Fin 3) = 0 by decide, if_true, if_false, Fin.val_zero, Fin.val_one,
      pow_zero, pow_one, mul_one]
    exact k2.trans (le_of_eq (by ring))
  · simp only [Spec.oneD, show ¬ (0 : Fin 3) = 1 by decide, show ¬ (2 : Fin 3) = 1 by decide, if_true, if_false, Fin.val_zero, Fin.val_one,
      pow_zero, pow_one, one_mul, mul_one]
    exact k3.trans (le_of_eq (by ring))
  · simp only [Spec.oneD, show ¬ (0 : Fin 3) = 2 by decide, show ¬ (1 : Fin 3) = 2 by decide, if_true, if_false, Fin.val_zero, Fin.val_one,
      pow_zero, pow_one, one_mul]
    exact k4.trans (le_of_eq (by ring))

/-! ## Interpolation -/

/-- The interpolation of data whose spline is accurate at the point. -/
theorem interp_near (s : IntSem) (d : ℕ) (hs : d < 3 → s = .wrap) (r : Req F64) (h : r.Valid d) (hpad : r.pad = 1)
    (lo hi : Fin 3 → ℚ) (hbox : BoxIs r d lo hi) (hside : ∀ a : Fin 3, a.val < d → Moderate (hi a - lo a)) (K : ℚ)
    (hres : ∀ a : Fin 3, a.val < d → r.n.get a * (|lo a| + (hi a - lo a)) ≤ K * (hi a - lo a)) (hK : K ≤ 2 ^ 28)
    (g : Grid F64 d) (e : r.make s d = .ok g)
    (x : Vec3 F64) (q : Fin 3 → ℚ) (hx : ∀ a : Fin 3, a.val < d → HasValue (x.get a) (q a) ∧
      lo a - (1 / 2 - 1 / 2 ^ 16) * (axisOf r lo hi a).h ≤ q a ∧ q a ≤ hi a + (1 / 2 - 1 / 2 ^ 16) * (axisOf r lo hi a).h)
    (ls : Levelset F64) (phi : Cell → F64) (psi : Cell → Vec3 F64) (mix : Cell → List F64) (P : PrevIs s r g ls phi psi mix)
    (D : Jet) (hD : JetIs r d phi psi mix D) (M : ℚ) (hM : Moderate M) (hDM : JetLe r d (axisOf r lo hi) D M)
    (f : (Fin 3 → ℝ) → ℝ) (f' : Fin 3 → (Fin 3 → ℝ) → ℝ) (E E' κ : ℝ)
    (I0 : |(jetSpline d (axisOf r lo hi) noD D q : ℝ) - f (pointR d q)| ≤ E)
    (I1 : ∀ a : Fin 3, a.val < d → |(jetSpline d (axisOf r lo hi) (Spec.oneD a) D q : ℝ) - f' a (pointR d q)| ≤ E' + κ / wid r lo hi a) :
    InterpNear d (interpolate s g ls x false) q f f' (E + 2 ^ (8 + 3 * d) * K * M / 2 ^ 52)
      (fun a => E' + (κ + 2 ^ (10 + 3 * d) * K * M / 2 ^ 52) / wid r lo hi a) := by
  obtain ⟨out, v, k1, k2, k3, k4, k5⟩ := C89_interpolation s d hs r h hpad lo hi hbox hside K hres hK g e x q hx ls phi psi mix P D hD M hM hDM
  refine ⟨out, v, k1, k2, ?_, k4, fun a ha => ?_⟩
  · have k3' : |(v : ℝ) - (jetSpline d (axisOf r lo hi) noD D q : ℝ)| ≤ 2 ^ (8 + 3 * d) * K * M / 2 ^ 52 := by exact_mod_cast k3
    exact abs_tri k3' I0
  · obtain ⟨w, w1, w2⟩ := k5 a ha
    refine ⟨w, w1, ?_⟩
    have hHa : (0 : ℝ) < wid r lo hi a := by
      have : 0 < (axisOf r lo hi a).h :=
        div_pos ((two_zpow_pos _).trans_le (hside a ha).1) (by have := h.n_pos a; exact_mod_cast this)
      exact_mod_cast this
    have w2' : |(w : ℝ) - (jetSpline d (axisOf r lo hi) (Spec.oneD a) D q : ℝ)| * (axisOf r lo hi a).h ≤
        2 ^ (10 + 3 * d) * K * M / 2 ^ 52 := by exact_mod_cast w2
    rw [← le_div_iff₀ hHa] at w2'
    refine (abs_tri w2' (I1 a ha)).trans (le_of_eq ?_)
    ring

theorem width_pos {d : ℕ} (h : r.Valid d) (hside : ∀ a : Fin 3, a.val < d → Moderate (hi a - lo a)) (a : Fin 3) (ha : a.val < d) :
    0 < (axisOf r lo hi a).h :=
  div_pos ((two_zpow_pos _).trans_le (hside a ha).1) (by have := h.n_pos a; exact_mod_cast this)

theorem half_range {l u H q : ℚ} {n : ℕ} (hH : 0 < H) (h : l - (1 / 2 - 1 / 2 ^ n) * H ≤ q ∧ q ≤ u + (1 / 2 - 1 / 2 ^ n) * H) :
    l - H / 2 ≤ q ∧ q < u + H / 2 := by
  have : 0 < 1 / 2 ^ n * H := by positivity
  constructor <;> linarith [h.1, h.2]

/-- C96: interpolation in double arithmetic in one variable.  The stored data are, up to `ε`, the values and derivatives of a smooth
function; the result differs from the function by the interpolation error of C77, the errors of the data and the rounding errors. -/
theorem C96_interpolation_line (r : Req F64) (h : r.Valid 1) (hpad : r.pad = 1)
    (lo hi : Fin 3 → ℚ) (hbox : BoxIs r 1 lo hi) (hside : ∀ a : Fin 3, a.val < 1 → Moderate (hi a - lo a)) (K : ℚ)
    (hres : ∀ a : Fin 3, a.val < 1 → r.n.get a * (|lo a| + (hi a - lo a)) ≤ K * (hi a - lo a)) (hK : K ≤ 2 ^ 28)
    (g : Grid F64 1) (e : r.make .wrap 1 = .ok g)
    (x : Vec3 F64) (q : Fin 3 → ℚ) (hx : ∀ a : Fin 3, a.val < 1 → HasValue (x.get a) (q a) ∧
      lo a - (1 / 2 - 1 / 2 ^ 16) * (axisOf r lo hi a).h ≤ q a ∧ q a ≤ hi a + (1 / 2 - 1 / 2 ^ 16) * (axisOf r lo hi a).h)
    (ls : Levelset F64) (phi : Cell → F64) (psi : Cell → Vec3 F64) (mix : Cell → List F64) (P : PrevIs .wrap r g ls phi psi mix)
    (D : Jet) (hD : JetIs r 1 phi psi mix D) (M : ℚ) (hM : Moderate M) (hDM : JetLe r 1 (axisOf r lo hi) D M)
    (F : Fin 2 → Fin 2 → Fin 2 → (Fin 3 → ℝ) → ℝ) (ε : ℝ) (near : JetNear r 1 (axisOf r lo hi) D F ε)
    (hder : ∀ x : ℝ, HasDerivAt (fun x => F 0 0 0 ![x, 0, 0]) (F 1 0 0 ![x, 0, 0]) x) (Q E E' : ℝ)
    (hQ : Quartic (fun x => F 0 0 0 ![x, 0, 0]) (lo 0 - wid r lo hi 0 / 2) (hi 0 + wid r lo hi 0 / 2) Q)
    (hE : Q * wid r lo hi 0 ^ 4 / 384 ≤ E) (hE' : Q * wid r lo hi 0 ^ 3 / 24 ≤ E') :
    InterpNear 1 (interpolate .wrap g ls x false) q (F 0 0 0) (firstD F) (E + (5 / 4) ^ 1 * ε + 2 ^ 11 * K * M / 2 ^ 52)
      (fun a => E' + (4 * ε + 2 ^ 13 * K * M / 2 ^ 52) / wid r lo hi a) := by
  have W := fun a ha => width_pos (lo := lo) (hi := hi) h hside a ha
  have rng := fun (a : Fin 3) (ha : a.val < 1) => half_range (W a ha) (hx a ha).2
  have I := spline_line h hpad (W 0 (by decide)) near hder hQ (rng 0 (by decide)).1 (rng 0 (by decide)).2
  refine interp_near .wrap 1 (fun _ => rfl) r h hpad lo hi hbox hside K hres hK g e x q hx ls phi psi mix P D hD M hM hDM (F 0 0 0) (firstD F) (E + (5 / 4) ^ 1 * ε) E' (4 * ε)
    (I.1.trans (by linarith)) fun a ha => ?_
  match a with
  | 0 => exact (I.2).trans (by linarith)
  | 1 => exact absurd ha (by decide)
  | 2 => exact absurd ha (by decide)

/-- C96: interpolation in double arithmetic in two variables.  The stored data are, up to `ε`, the values and derivatives of a smooth
function; the result differs from the function by the interpolation error of C77, the errors of the data and the rounding errors. -/
theorem C96_interpolation_plane (r : Req F64) (h : r.Valid 2) (hpad : r.pad = 1)
    (lo hi : Fin 3 → ℚ) (hbox : BoxIs r 2 lo hi) (hside : ∀ a : Fin 3, a.val < 2 → Moderate (hi a - lo a)) (K : ℚ)
    (hres : ∀ a : Fin 3, a.val < 2 → r.n.get a * (|lo a| + (hi a - lo a)) ≤ K * (hi a - lo a)) (hK : K ≤ 2 ^ 28)
    (g : Grid F64 2) (e : r.make .wrap 2 = .ok g)
    (x : Vec3 F64) (q : Fin 3 → ℚ) (hx : ∀ a : Fin 3, a.val < 2 → HasValue (x.get a) (q a) ∧
      lo a - (1 / 2 - 1 / 2 ^ 16) * (axisOf r lo hi a).h ≤ q a ∧ q a ≤ hi a + (1 / 2 - 1 / 2 ^ 16) * (axisOf r lo hi a).h)
    (ls : Levelset F64) (phi : Cell → F64) (psi : Cell → Vec3 F64) (mix : Cell → List F64) (P : PrevIs .wrap r g ls phi psi mix)
    (D : Jet) (hD : JetIs r 2 phi psi mix D) (M : ℚ) (hM : Moderate M) (hDM : JetLe r 2 (axisOf r lo hi) D M)
    (F : Fin 2 → Fin 2 → Fin 2 → (Fin 3 → ℝ) → ℝ) (ε : ℝ) (near : JetNear r 2 (axisOf r lo hi) D F ε)
    (M40 M04 M14 M41 E E' : ℝ)
    (hQ : Smooth2 (fun x y => F 0 0 0 ![x, y, 0]) (fun x y => F 1 0 0 ![x, y, 0]) (fun x y => F 0 1 0 ![x, y, 0])
      (fun x y => F 1 1 0 ![x, y, 0]) (lo 0 - wid r lo hi 0 / 2) (hi 0 + wid r lo hi 0 / 2) (lo 1 - wid r lo hi 1 / 2)
      (hi 1 + wid r lo hi 1 / 2) M40 M04 M14 M41)
    (hE : M40 * wid r lo hi 0 ^ 4 / 384 + (M04 + wid r lo hi 0 / 4 * M14) * wid r lo hi 1 ^ 4 / 384 ≤ E)
    (hEx : M14 * wid r lo hi 1 ^ 4 / 384 + (M40 + wid r lo hi 1 / 4 * M41) * wid r lo hi 0 ^ 3 / 24 ≤ E')
    (hEy : M41 * wid r lo hi 0 ^ 4 / 384 + (M04 + wid r lo hi 0 / 4 * M14) * wid r lo hi 1 ^ 3 / 24 ≤ E') :
    InterpNear 2 (interpolate .wrap g ls x false) q (F 0 0 0) (firstD F) (E + (5 / 4) ^ 2 * ε + 2 ^ 14 * K * M / 2 ^ 52)
      (fun a => E' + (5 * ε + 2 ^ 16 * K * M / 2 ^ 52) / wid r lo hi a) := by
  have W := fun a ha => width_pos (lo := lo) (hi := hi) h hside a ha
  have rng := fun (a : Fin 3) (ha : a.val < 2) => half_range (W a ha) (hx a ha).2
  have I := spline_plane h hpad W near hQ rng
  refine interp_near .wrap 2 (fun _ => rfl) r h hpad lo hi hbox hside K hres hK g e x q hx ls phi psi mix P D hD M hM hDM (F 0 0 0) (firstD F) (E + (5 / 4) ^ 2 * ε) E' (5 * ε)
    (I.1.trans (by linarith)) fun a ha => ?_
  match a with
  | 0 => exact (I.2.1).trans (by linarith)
  | 1 => exact (I.2.2).trans (by linarith)
  | 2 => exact absurd ha (by decide)

/-- C96: interpolation in double arithmetic in three variables.  The stored data are, up to `ε`, the values and derivatives of a smooth
function; the result differs from the function by the interpolation error of C77, the errors of the data and the rounding errors. -/
theorem C96_interpolation_space (s : IntSem) (r : Req F64) (h : r.Valid 3) (hpad : r.pad = 1)
    (lo hi : Fin 3 → ℚ) (hbox : BoxIs r 3 lo hi) (hside : ∀ a : Fin 3, a.val < 3 → Moderate (hi a - lo a)) (K : ℚ)
    (hres : ∀ a : Fin 3, a.val < 3 → r.n.get a * (|lo a| + (hi a - lo a)) ≤ K * (hi a - lo a)) (hK : K ≤ 2 ^ 28)
    (g : Grid F64 3) (e : r.make s 3 = .ok g)
    (x : Vec3 F64) (q : Fin 3 → ℚ) (hx : ∀ a : Fin 3, a.val < 3 → HasValue (x.get a) (q a) ∧
      lo a - (1 / 2 - 1 / 2 ^ 16) * (axisOf r lo hi a).h ≤ q a ∧ q a ≤ hi a + (1 / 2 - 1 / 2 ^ 16) * (axisOf r lo hi a).h)
    (ls : Levelset F64) (phi : Cell → F64) (psi : Cell → Vec3 F64) (mix : Cell → List F64) (P : PrevIs s r g ls phi psi mix)
    (D : Jet) (hD : JetIs r 3 phi psi mix D) (M : ℚ) (hM : Moderate M) (hDM : JetLe r 3 (axisOf r lo hi) D M)
    (F : Fin 2 → Fin 2 → Fin 2 → (Fin 3 → ℝ) → ℝ) (ε : ℝ) (near : JetNear r 3 (axisOf r lo hi) D F ε)
    (Q E E' : ℝ)
    (hQ : Smooth3 (fun i j k x y z => F i j k ![x, y, z]) (lo 0 - wid r lo hi 0 / 2) (hi 0 + wid r lo hi 0 / 2)
      (lo 1 - wid r lo hi 1 / 2) (hi 1 + wid r lo hi 1 / 2) (lo 2 - wid r lo hi 2 / 2) (hi 2 + wid r lo hi 2 / 2) Q)
    (hE : Q * (wid r lo hi 1 ^ 4 + (1 + wid r lo hi 1 / 4) * wid r lo hi 2 ^ 4) / 384 +
      (1 + wid r lo hi 1 / 4) * (1 + wid r lo hi 2 / 4) * (Q * wid r lo hi 0 ^ 4 / 384) ≤ E)
    (hEx : Q * (wid r lo hi 1 ^ 4 + (1 + wid r lo hi 1 / 4) * wid r lo hi 2 ^ 4) / 384 +
      (1 + wid r lo hi 1 / 4) * (1 + wid r lo hi 2 / 4) * (Q * wid r lo hi 0 ^ 3 / 24) ≤ E')
    (hEy : Q * (wid r lo hi 0 ^ 4 + (1 + wid r lo hi 0 / 4) * wid r lo hi 2 ^ 4) / 384 +
      (1 + wid r lo hi 0 / 4) * (1 + wid r lo hi 2 / 4) * (Q * wid r lo hi 1 ^ 3 / 24) ≤ E')
    (hEz : Q * (wid r lo hi 0 ^ 4 + (1 + wid r lo hi 0 / 4) * wid r lo hi 1 ^ 4) / 384 +
      (1 + wid r lo hi 0 / 4) * (1 + wid r lo hi 1 / 4) * (Q * wid r lo hi 2 ^ 3 / 24) ≤ E') :
    InterpNear 3 (interpolate s g ls x false) q (F 0 0 0) (firstD F) (E + (5 / 4) ^ 3 * ε + 2 ^ 17 * K * M / 2 ^ 52)
      (fun a => E' + (25 / 4 * ε + 2 ^ 19 * K * M / 2 ^ 52) / wid r lo hi a) := by
  have W := fun a ha => width_pos (lo := lo) (hi := hi) h hside a ha
  have rng := fun (a : Fin 3) (ha : a.val < 3) => half_range (W a ha) (hx a ha).2
  have I := spline_space h hpad (fun a => W a a.isLt) near hQ (fun a => rng a a.isLt)
  refine interp_near s 3 (fun h => absurd h (by decide)) r h hpad lo hi hbox hside K hres hK g e x q hx ls phi psi mix P D hD M hM hDM (F 0 0 0) (firstD F) (E + (5 / 4) ^ 3 * ε) E' (25 / 4 * ε)
    (I.1.trans (by linarith)) fun a ha => ?_
  match a with
  | 0 => exact (I.2.1).trans (by linarith)
  | 1 => exact (I.2.2.1).trans (by linarith)
  | 2 => exact (I.2.2.2).trans (by linarith)

/-! ## Steps -/

theorem upd3 (x y z w : ℝ) : Function.update ![x, y, z] 0 w = ![w, y, z] ∧ Function.update ![x, y, z] 1 w = ![x, w, z] ∧
    Function.update ![x, y, z] 2 w = ![x, y, w] := by
  refine ⟨?_, ?_, ?_⟩ <;>
  · funext a
    match a with
    | 0 => rfl
    | 1 => rfl
    | 2 => rfl

/-- C96 in one variable: a semi-Lagrangian step in double arithmetic.  The data before the step are, up to `ε`, the values and derivatives
of a solution `f` at the time `t`; afterwards they are those at the time `t + τ` up to the interpolation error of C77, the errors of
the data, an error of second order in the time step and the rounding errors. -/
theorem C96_line (r : Req F64) (h : r.Valid 1) (hpad : r.pad = 1)
    (lo hi : Fin 3 → ℚ) (hbox : BoxIs r 1 lo hi) (hside : ∀ a : Fin 3, a.val < 1 → Moderate (hi a - lo a)) (K : ℚ)
    (hres : ∀ a : Fin 3, a.val < 1 → r.n.get a * (|lo a| + (hi a - lo a)) ≤ K * (hi a - lo a)) (hK : K ≤ 2 ^ 28)
    (g : Grid F64 1) (e : r.make .wrap 1 = .ok g)
    (rv : Req F64) (hv : rv.Valid 1) (hn : rv.n = r.n)
    (gv : Grid F64 1) (ev : rv.make .wrap 1 = .ok gv) (dt : F64) (τ : ℚ) (hdt : HasValue dt τ) (vel : LsVelocity F64)
    (u : Cell → Vec3 F64) (m : Cell → Mat3 F64) (hu : FieldIs .wrap rv gv vel.velocity u) (hg : FieldIs .wrap rv gv vel.grad m)
    (υ : Cell → Fin 3 → ℚ) (μ : Cell → Fin 3 → Fin 3 → ℚ)
    (huv : ∀ c, r.Interior c → ∀ a : Fin 3, a.val < 1 → HasValue ((u c).get a) (υ c a) ∧
      lo a - (1 / 2 - 1 / 2 ^ 15) * (axisOf r lo hi a).h ≤ departQ (axisOf r lo hi) τ (υ c) c a ∧
      departQ (axisOf r lo hi) τ (υ c) c a ≤ hi a + (1 / 2 - 1 / 2 ^ 15) * (axisOf r lo hi a).h)
    (hmu : ∀ c, r.Interior c → ∀ a : Fin 3, a.val < 1 → ∀ j : Fin 3, HasValue ((m c).entry j a) (μ c j a) ∧
      |μ c j a * τ| ≤ 2 ^ 300 ∧ (j.val < 1 → |μ c j a * τ| * (axisOf r lo hi a).h ≤ (axisOf r lo hi j).h))
    (ls : Levelset F64) (phi : Cell → F64) (psi : Cell → Vec3 F64) (mix : Cell → List F64)
    (P : PrevIs .wrap r g ls phi psi mix) (p0 p1 : Cell → F64) (q0 q1 : Cell → Vec3 F64)
    (hp : FieldIs .wrap r g ls.phi p0) (hq : FieldIs .wrap r g ls.psi q0) (hp1 : FieldIs .wrap r g ls.phiInterpPrev p1)
    (hq1 : FieldIs .wrap r g ls.psiInterpPrev q1)
    (D : Jet) (hD : JetIs r 1 phi psi mix D) (M : ℚ) (hM : Moderate M) (hDM : JetLe r 1 (axisOf r lo hi) D M)
    (f : (Fin 3 → ℝ) → ℝ → ℝ) (hf : ContDiff ℝ 3 fun z : (Fin 3 → ℝ) × ℝ => f z.1 z.2) (U : (Fin 3 → ℝ) → Fin 3 → ℝ)
    (t B B' L W : ℝ) (h0 : 0 ≤ τ) (S : ∀ c, r.Interior c → StepData 1 f U t τ B B' L W
      (vecR (pointR 1 (nodeAt (axisOf r lo hi) c))) (vecR fun a => (υ c a : ℝ)) (matR fun j a => (μ c j a : ℝ)))
    (F : Fin 2 → Fin 2 → Fin 2 → (Fin 3 → ℝ) → ℝ) (ε : ℝ) (near : JetNear r 1 (axisOf r lo hi) D F ε) (hF : ∀ x, F 0 0 0 x = f x t)
    (hder : ∀ x : ℝ, HasDerivAt (fun x => F 0 0 0 ![x, 0, 0]) (F 1 0 0 ![x, 0, 0]) x) (Q E E' : ℝ)
    (hQ : Quartic (fun x => F 0 0 0 ![x, 0, 0]) (lo 0 - wid r lo hi 0 / 2) (hi 0 + wid r lo hi 0 / 2) Q)
    (hE : Q * wid r lo hi 0 ^ 4 / 384 ≤ E) (hE' : Q * wid r lo hi 0 ^ 3 / 24 ≤ E') (e0 : 0 ≤ E') (ε0 : 0 ≤ ε) :
    StepNear .wrap 1 r g (temporal .semiLagrangian .wrap g gv dt vel ls) (axisOf r lo hi) f (t + τ)
      (E + (5 / 4) ^ 1 * ε + B * τ ^ 2 + 2 ^ 12 * K * M / 2 ^ 52)
      (fun a => (1 + W * τ) * E' + (B' + W * L) * τ ^ 2 + (8 * ε + 2 ^ 16 * K * M / 2 ^ 52) / wid r lo hi a) := by
  have Wd := fun a ha => width_pos (lo := lo) (hi := hi) h hside a ha
  have rng := fun c hc (a : Fin 3) (ha : a.val < 1) => half_range (Wd a ha) (huv c hc a ha).2
  have d0 : ∀ q : Fin 3 → ℚ, partialX f 0 (pointR 1 q) t = F 1 0 0 (pointR 1 q) := fun q => by
    rw [pointR1]
    unfold partialX
    simp only [(upd3 _ _ _ _).1, ← hF]
    exact (hder _).deriv
  have key := step_near .wrap 1 (fun _ => rfl) r h hpad lo hi hbox hside K hres hK g e rv hv hn gv ev dt τ hdt vel u m hu hg υ μ huv hmu ls phi psi mix P p0 p1 q0 q1
    hp hq hp1 hq1 D hD M hM hDM f hf U t B B' L W (E + (5 / 4) ^ 1 * ε) E' (4 * ε) h0 (by linarith) e0 S (fun c hc => by
      have I := spline_line h hpad (Wd 0 (by decide)) near hder hQ (rng c hc 0 (by decide)).1 (rng c hc 0 (by decide)).2
      refine ⟨by rw [← hF]; exact I.1.trans (by linarith), fun a ha => ?_⟩
      match a with
      | 0 => rw [d0]; exact (I.2).trans (by linarith)
      | 1 => exact absurd ha (by decide)
      | 2 => exact absurd ha (by decide))
  convert key using 1
  funext a
  push_cast
  ring

/-- C96 in two variables: a semi-Lagrangian step in double arithmetic.  The data before the step are, up to `ε`, the values and derivatives
of a solution `f` at the time `t`; afterwards they are those at the time `t + τ` up to the interpolation error of C77, the errors of
the data, an error of second order in the time step and the rounding errors. -/
theorem C96_plane (r : Req F64) (h : r.Valid 2) (hpad : r.pad = 1)
    (lo hi : Fin 3 → ℚ) (hbox : BoxIs r 2 lo hi) (hside : ∀ a : Fin 3, a.val < 2 → Moderate (hi a - lo a)) (K : ℚ)
    (hres : ∀ a : Fin 3, a.val < 2 → r.n.get a * (|lo a| + (hi a - lo a)) ≤ K * (hi a - lo a)) (hK : K ≤ 2 ^ 28)
    (g : Grid F64 2) (e : r.make .wrap 2 = .ok g)
    (rv : Req F64) (hv : rv.Valid 2) (hn : rv.n = r.n)
    (gv : Grid F64 2) (ev : rv.make .wrap 2 = .ok gv) (dt : F64) (τ : ℚ) (hdt : HasValue dt τ) (vel : LsVelocity F64)
    (u : Cell → Vec3 F64) (m : Cell → Mat3 F64) (hu : FieldIs .wrap rv gv vel.velocity u) (hg : FieldIs .wrap rv gv vel.grad m)
    (υ : Cell → Fin 3 → ℚ) (μ : Cell → Fin 3 → Fin 3 → ℚ)
    (huv : ∀ c, r.Interior c → ∀ a : Fin 3, a.val < 2 → HasValue ((u c).get a) (υ c a) ∧
      lo a - (1 / 2 - 1 / 2 ^ 15) * (axisOf r lo hi a).h ≤ departQ (axisOf r lo hi) τ (υ c) c a ∧
      departQ (axisOf r lo hi) τ (υ c) c a ≤ hi a + (1 / 2 - 1 / 2 ^ 15) * (axisOf r lo hi a).h)
    (hmu : ∀ c, r.Interior c → ∀ a : Fin 3, a.val < 2 → ∀ j : Fin 3, HasValue ((m c).entry j a) (μ c j a) ∧
      |μ c j a * τ| ≤ 2 ^ 300 ∧ (j.val < 2 → |μ c j a * τ| * (axisOf r lo hi a).h ≤ (axisOf r lo hi j).h))
    (ls : Levelset F64) (phi : Cell → F64) (psi : Cell → Vec3 F64) (mix : Cell → List F64)
    (P : PrevIs .wrap r g ls phi psi mix) (p0 p1 : Cell → F64) (q0 q1 : Cell → Vec3 F64)
    (hp : FieldIs .wrap r g ls.phi p0) (hq : FieldIs .wrap r g ls.psi q0) (hp1 : FieldIs .wrap r g ls.phiInterpPrev p1)
    (hq1 : FieldIs .wrap r g ls.psiInterpPrev q1)
    (D : Jet) (hD : JetIs r 2 phi psi mix D) (M : ℚ) (hM : Moderate M) (hDM : JetLe r 2 (axisOf r lo hi) D M)
    (f : (Fin 3 → ℝ) → ℝ → ℝ) (hf : ContDiff ℝ 3 fun z : (Fin 3 → ℝ) × ℝ => f z.1 z.2) (U : (Fin 3 → ℝ) → Fin 3 → ℝ)
    (t B B' L W : ℝ) (h0 : 0 ≤ τ) (S : ∀ c, r.Interior c → StepData 2 f U t τ B B' L W
      (vecR (pointR 2 (nodeAt (axisOf r lo hi) c))) (vecR fun a => (υ c a : ℝ)) (matR fun j a => (μ c j a : ℝ)))
    (F : Fin 2 → Fin 2 → Fin 2 → (Fin 3 → ℝ) → ℝ) (ε : ℝ) (near : JetNear r 2 (axisOf r lo hi) D F ε) (hF : ∀ x, F 0 0 0 x = f x t)
    (M40 M04 M14 M41 E E' : ℝ)
    (hQ : Smooth2 (fun x y => F 0 0 0 ![x, y, 0]) (fun x y => F 1 0 0 ![x, y, 0]) (fun x y => F 0 1 0 ![x, y, 0])
      (fun x y => F 1 1 0 ![x, y, 0]) (lo 0 - wid r lo hi 0 / 2) (hi 0 + wid r lo hi 0 / 2) (lo 1 - wid r lo hi 1 / 2)
      (hi 1 + wid r lo hi 1 / 2) M40 M04 M14 M41)
    (hE : M40 * wid r lo hi 0 ^ 4 / 384 + (M04 + wid r lo hi 0 / 4 * M14) * wid r lo hi 1 ^ 4 / 384 ≤ E)
    (hEx : M14 * wid r lo hi 1 ^ 4 / 384 + (M40 + wid r lo hi 1 / 4 * M41) * wid r lo hi 0 ^ 3 / 24 ≤ E')
    (hEy : M41 * wid r lo hi 0 ^ 4 / 384 + (M04 + wid r lo hi 0 / 4 * M14) * wid r lo hi 1 ^ 3 / 24 ≤ E') (e0 : 0 ≤ E') (ε0 : 0 ≤ ε) :
    StepNear .wrap 2 r g (temporal .semiLagrangian .wrap g gv dt vel ls) (axisOf r lo hi) f (t + τ)
      (E + (5 / 4) ^ 2 * ε + B * τ ^ 2 + 2 ^ 15 * K * M / 2 ^ 52)
      (fun a => (1 + 2 * W * τ) * E' + (B' + 2 * W * L) * τ ^ 2 + (15 * ε + 2 ^ 19 * K * M / 2 ^ 52) / wid r lo hi a) := by
  have Wd := fun a ha => width_pos (lo := lo) (hi := hi) h hside a ha
  have rng := fun c hc (a : Fin 3) (ha : a.val < 2) => half_range (Wd a ha) (huv c hc a ha).2
  have d0 : ∀ q : Fin 3 → ℚ, partialX f 0 (pointR 2 q) t = F 1 0 0 (pointR 2 q) := fun q => by
    rw [pointR2]
    unfold partialX
    simp only [(upd3 _ _ _ _).1, ← hF]
    exact (hQ.dx _ _).deriv
  have d1 : ∀ q : Fin 3 → ℚ, partialX f 1 (pointR 2 q) t = F 0 1 0 (pointR 2 q) := fun q => by
    rw [pointR2]
    unfold partialX
    simp only [(upd3 _ _ _ _).2.1, ← hF]
    exact (hQ.dy _ _).deriv
  have key := step_near .wrap 2 (fun _ => rfl) r h hpad lo hi hbox hside K hres hK g e rv hv hn gv ev dt τ hdt vel u m hu hg υ μ huv hmu ls phi psi mix P p0 p1 q0 q1
    hp hq hp1 hq1 D hD M hM hDM f hf U t B B' L W (E + (5 / 4) ^ 2 * ε) E' (5 * ε) h0 (by linarith) e0 S (fun c hc => by
      have I := spline_plane h hpad Wd near hQ (rng c hc)
      refine ⟨by rw [← hF]; exact I.1.trans (by linarith), fun a ha => ?_⟩
      match a with
      | 0 => rw [d0]; exact (I.2.1).trans (by linarith)
      | 1 => rw [d1]; exact (I.2.2).trans (by linarith)
      | 2 => exact absurd ha (by decide))
  convert key using 1
  funext a
  push_cast
  ring

/-- C96 in three variables: a semi-Lagrangian step in double arithmetic.  The data before the step are, up to `ε`, the values and derivatives
of a solution `f` at the time `t`; afterwards they are those at the time `t + τ` up to the interpolation error of C77, the errors of
the data, an error of second order in the time step and the rounding errors. -/
theorem C96_space (s : IntSem) (r : Req F64) (h : r.Valid 3) (hpad : r.pad = 1)
    (lo hi : Fin 3 → ℚ) (hbox : BoxIs r 3 lo hi) (hside : ∀ a : Fin 3, a.val < 3 → Moderate (hi a - lo a)) (K : ℚ)
    (hres : ∀ a : Fin 3, a.val < 3 → r.n.get a * (|lo a| + (hi a - lo a)) ≤ K * (hi a - lo a)) (hK : K ≤ 2 ^ 28)
    (g : Grid F64 3) (e : r.make s 3 = .ok g)
    (rv : Req F64) (hv : rv.Valid 3) (hn : rv.n = r.n)
    (gv : Grid F64 3) (ev : rv.make s 3 = .ok gv) (dt : F64) (τ : ℚ) (hdt : HasValue dt τ) (vel : LsVelocity F64)
    (u : Cell → Vec3 F64) (m : Cell → Mat3 F64) (hu : FieldIs s rv gv vel.velocity u) (hg : FieldIs s rv gv vel.grad m)
    (υ : Cell → Fin 3 → ℚ) (μ : Cell → Fin 3 → Fin 3 → ℚ)
    (huv : ∀ c, r.Interior c → ∀ a : Fin 3, a.val < 3 → HasValue ((u c).get a) (υ c a) ∧
      lo a - (1 / 2 - 1 / 2 ^ 15) * (axisOf r lo hi a).h ≤ departQ (axisOf r lo hi) τ (υ c) c a ∧
      departQ (axisOf r lo hi) τ (υ c) c a ≤ hi a + (1 / 2 - 1 / 2 ^ 15) * (axisOf r lo hi a).h)
    (hmu : ∀ c, r.Interior c → ∀ a : Fin 3, a.val < 3 → ∀ j : Fin 3, HasValue ((m c).entry j a) (μ c j a) ∧
      |μ c j a * τ| ≤ 2 ^ 300 ∧ (j.val < 3 → |μ c j a * τ| * (axisOf r lo hi a).h ≤ (axisOf r lo hi j).h))
    (ls : Levelset F64) (phi : Cell → F64) (psi : Cell → Vec3 F64) (mix : Cell → List F64)
    (P : PrevIs s r g ls phi psi mix) (p0 p1 : Cell → F64) (q0 q1 : Cell → Vec3 F64)
    (hp : FieldIs s r g ls.phi p0) (hq : FieldIs s r g ls.psi q0) (hp1 : FieldIs s r g ls.phiInterpPrev p1)
    (hq1 : FieldIs s r g ls.psiInterpPrev q1)
    (D : Jet) (hD : JetIs r 3 phi psi mix D) (M : ℚ) (hM : Moderate M) (hDM : JetLe r 3 (axisOf r lo hi) D M)
    (f : (Fin 3 → ℝ) → ℝ → ℝ) (hf : ContDiff ℝ 3 fun z : (Fin 3 → ℝ) × ℝ => f z.1 z.2) (U : (Fin 3 → ℝ) → Fin 3 → ℝ)
    (t B B' L W : ℝ) (h0 : 0 ≤ τ) (S : ∀ c, r.Interior c → StepData 3 f U t τ B B' L W
      (vecR (pointR 3 (nodeAt (axisOf r lo hi) c))) (vecR fun a => (υ c a : ℝ)) (matR fun j a => (μ c j a : ℝ)))
    (F : Fin 2 → Fin 2 → Fin 2 → (Fin 3 → ℝ) → ℝ) (ε : ℝ) (near : JetNear r 3 (axisOf r lo hi) D F ε) (hF : ∀ x, F 0 0 0 x = f x t)
    (Q E E' : ℝ)
    (hQ : Smooth3 (fun i j k x y z => F i j k ![x, y, z]) (lo 0 - wid r lo hi 0 / 2) (hi 0 + wid r lo hi 0 / 2)
      (lo 1 - wid r lo hi 1 / 2) (hi 1 + wid r lo hi 1 / 2) (lo 2 - wid r lo hi 2 / 2) (hi 2 + wid r lo hi 2 / 2) Q)
    (hE : Q * (wid r lo hi 1 ^ 4 + (1 + wid r lo hi 1 / 4) * wid r lo hi 2 ^ 4) / 384 +
      (1 + wid r lo hi 1 / 4) * (1 + wid r lo hi 2 / 4) * (Q * wid r lo hi 0 ^ 4 / 384) ≤ E)
    (hEx : Q * (wid r lo hi 1 ^ 4 + (1 + wid r lo hi 1 / 4) * wid r lo hi 2 ^ 4) / 384 +
      (1 + wid r lo hi 1 / 4) * (1 + wid r lo hi 2 / 4) * (Q * wid r lo hi 0 ^ 3 / 24) ≤ E')
    (hEy : Q * (wid r lo hi 0 ^ 4 + (1 + wid r lo hi 0 / 4) * wid r lo hi 2 ^ 4) / 384 +
      (1 + wid r lo hi 0 / 4) * (1 + wid r lo hi 2 / 4) * (Q * wid r lo hi 1 ^ 3 / 24) ≤ E')
    (hEz : Q * (wid r lo hi 0 ^ 4 + (1 + wid r lo hi 0 / 4) * wid r lo hi 1 ^ 4) / 384 +
      (1 + wid r lo hi 0 / 4) * (1 + wid r lo hi 1 / 4) * (Q * wid r lo hi 2 ^ 3 / 24) ≤ E') (e0 : 0 ≤ E') (ε0 : 0 ≤ ε) :
    StepNear s 3 r g (temporal .semiLagrangian s g gv dt vel ls) (axisOf r lo hi) f (t + τ)
      (E + (5 / 4) ^ 3 * ε + B * τ ^ 2 + 2 ^ 18 * K * M / 2 ^ 52)
      (fun a => (1 + 3 * W * τ) * E' + (B' + 3 * W * L) * τ ^ 2 + (25 * ε + 2 ^ 22 * K * M / 2 ^ 52) / wid r lo hi a) := by
  have Wd := fun a ha => width_pos (lo := lo) (hi := hi) h hside a ha
  have rng := fun c hc (a : Fin 3) (ha : a.val < 3) => half_range (Wd a ha) (huv c hc a ha).2
  have d0 : ∀ q : Fin 3 → ℚ, partialX f 0 (pointR 3 q) t = F 1 0 0 (pointR 3 q) := fun q => by
    rw [pointR3]
    unfold partialX
    simp only [(upd3 _ _ _ _).1, ← hF]
    exact (hQ.dx 0 0 _ _ _).deriv
  have d1 : ∀ q : Fin 3 → ℚ, partialX f 1 (pointR 3 q) t = F 0 1 0 (pointR 3 q) := fun q => by
    rw [pointR3]
    unfold partialX
    simp only [(upd3 _ _ _ _).2.1, ← hF]
    exact (hQ.dy 0 0 _ _ _).deriv
  have d2 : ∀ q : Fin 3 → ℚ, partialX f 2 (pointR 3 q) t = F 0 0 1 (pointR 3 q) := fun q => by
    rw [pointR3]
    unfold partialX
    simp only [(upd3 _ _ _ _).2.2, ← hF]
    exact (hQ.dz 0 0 _ _ _).deriv
  have key := step_near s 3 (fun h => absurd h (by decide)) r h hpad lo hi hbox hside K hres hK g e rv hv hn gv ev dt τ hdt vel u m hu hg υ μ huv hmu ls phi psi mix P p0 p1 q0 q1
    hp hq hp1 hq1 D hD M hM hDM f hf U t B B' L W (E + (5 / 4) ^ 3 * ε) E' (25 / 4 * ε) h0 (by linarith) e0 S (fun c hc => by
      have I := spline_space h hpad (fun a => Wd a a.isLt) near hQ (fun a => rng c hc a a.isLt)
      refine ⟨by rw [← hF]; exact I.1.trans (by linarith), fun a ha => ?_⟩
      match a with
      | 0 => rw [d0]; exact (I.2.1).trans (by linarith)
      | 1 => rw [d1]; exact (I.2.2.1).trans (by linarith)
      | 2 => rw [d2]; exact (I.2.2.2).trans (by linarith))
  convert key using 1
  funext a
  push_cast
  ring

/-! ## Instances: a product of waves that moves along the first axis -/

/-- Every number of the interval `[-1, 1]` is near a double. -/
theorem double_near (x : ℝ) (hx : |x| ≤ 1) : ∃ (p : F64) (v : ℚ), HasValue p v ∧ |(v : ℝ) - x| ≤ 1 / 2 ^ 50 ∧ |v| ≤ 2 := by
  obtain ⟨q, q1, q2⟩ := exists_rat_btwn (show x < x + 1 / 2 ^ 51 by linarith [show (0 : ℝ) < 1 / 2 ^ 51 by positivity])
  have hq : |q| ≤ 3 / 2 := by
    have : ((|q| : ℚ) : ℝ) ≤ ((3 / 2 : ℚ) : ℝ) := by
      push_cast
      have := abs_le.1 hx
      rw [abs_le]
      constructor <;> norm_num at q1 q2 <;> linarith
    exact Rat.cast_le.1 this
  have e : F64.signed (decide (q < 0)) |q| = q := by
    unfold F64.signed
    by_cases h : q < 0
    · simp [h, abs_of_neg h]
    · simp [h, abs_of_nonneg (not_lt.1 h)]
  obtain ⟨v, v1, v2⟩ := hasValue_round (s := decide (q < 0)) (q := q) (hq.trans (le_trans (by norm_num : (3 / 2 : ℚ) ≤ 2 ^ 1)
    (pow_le_pow_right₀ (by norm_num) (by norm_num))))
  rw [e] at v2
  have t1 : tiny ≤ 1 / 2 ^ 60 := by
    unfold tiny
    rw [show (1 / 2 ^ 60 : ℚ) = 2 ^ (-60 : ℤ) by norm_num]
    exact zpow_le_zpow_right₀ (by norm_num) (by norm_num)
  have v3 : |v - q| ≤ 1 / 2 ^ 51 := by
    refine v2.trans ?_
    have := mul_le_mul_of_nonneg_left hq (show (0 : ℚ) ≤ unitRoundoff by norm_num [unitRoundoff])
    norm_num [unitRoundoff] at this t1 ⊢
    linarith
  refine ⟨_, v, v1, ?_, ?_⟩
  · have v3' : |(v : ℝ) - q| ≤ 1 / 2 ^ 51 := by
      have : ((|v - q| : ℚ) : ℝ) ≤ ((1 / 2 ^ 51 : ℚ) : ℝ) := Rat.cast_le.2 v3
      push_cast at this
      exact this
    have h2 : |(q : ℝ) - x| ≤ 1 / 2 ^ 51 := by rw [abs_le]; constructor <;> linarith [show (0 : ℝ) < 1 / 2 ^ 51 by positivity]
    refine (abs_tri v3' h2).trans (by norm_num)
  · have := abs_sub_abs_le_abs_sub v q
    norm_num at v3
    linarith

/-- The data of a level set that are the numbers `F`, rounded. -/
theorem jet_exists (r : Req F64) (d : ℕ) (A : Fin 3 → Axis) (hA : ∀ a, 0 ≤ (A a).h ∧ (A a).h ≤ 1)
    (F : Fin 2 → Fin 2 → Fin 2 → (Fin 3 → ℝ) → ℝ) (hF : ∀ i j k x, |F i j k x| ≤ 1) :
    ∃ (phi : Cell → F64) (psi : Cell → Vec3 F64) (mix : Cell → List F64) (D : Jet), JetIs r d phi psi mix D ∧ JetLe r d A D 2 ∧
      JetNear r d A D F (1 / 2 ^ 50) := by
  choose p v h1 h2 h3 using fun i j k c => double_near (F i j k (pointR d (nodeAt A c))) (hF i j k _)
  have hw : ∀ o : Fin 3 → Fin 2, 0 ≤ (A 0).h ^ (o 0).val * (A 1).h ^ (o 1).val * (A 2).h ^ (o 2).val ∧
      (A 0).h ^ (o 0).val * (A 1).h ^ (o 1).val * (A 2).h ^ (o 2).val ≤ 1 := by
    intro o
    have hw := fun a => pow_le_one₀ (n := (o a).val) (hA a).1 (hA a).2
    have hn := fun a => pow_nonneg (hA a).1 (o a).val
    exact ⟨mul_nonneg (mul_nonneg (hn 0) (hn 1)) (hn 2), mul_le_one₀ (mul_le_one₀ (hw 0) (hn 1) (hw 1)) (hn 2) (hw 2)⟩
  refine ⟨p 0 0 0, fun c => ⟨p 1 0 0 c, p 0 1 0 c, p 0 0 1 c⟩, fun c => (mixedOrders d).map fun o => p o.1 o.2.1 o.2.2 c, v,
    ⟨fun c _ => h1 _ _ _ _, fun c _ a _ => ?_, fun c _ => ?_⟩, fun c _ o _ => ?_, fun c _ o _ => ?_⟩
  · match a with
    | 0 => exact h1 1 0 0 c
    | 1 => exact h1 0 1 0 c
    | 2 => exact h1 0 0 1 c
  · rw [List.forall₂_map_left_iff, List.forall₂_same]
    exact fun o _ => h1 _ _ _ _
  · calc _ ≤ |v (o 0) (o 1) (o 2) c| * 1 := mul_le_mul_of_nonneg_left (hw o).2 (abs_nonneg _)
      _ ≤ _ := by rw [mul_one]; exact h3 _ _ _ _
  · have : (((A 0).h : ℝ) ^ (o 0).val * ((A 1).h : ℝ) ^ (o 1).val * ((A 2).h : ℝ) ^ (o 2).val) ≤ 1 := by exact_mod_cast (hw o).2
    calc _ ≤ |(v (o 0) (o 1) (o 2) c : ℝ) - F (o 0) (o 1) (o 2) (pointR d (nodeAt A c))| * 1 :=
          mul_le_mul_of_nonneg_left this (abs_nonneg _)
      _ ≤ _ := by rw [mul_one]; exact h2 _ _ _ _

/-- The sine or, in its place on an axis that is not used, the constant 1; for `i = 1` the derivative. -/
noncomputable def sinIf (u : Bool) (i : Fin 2) (x : ℝ) : ℝ := if u then sinD i x else if i = 0 then 1 else 0

theorem sinIf_le (u : Bool) (i : Fin 2) (x : ℝ) : |sinIf u i x| ≤ 1 := by
  unfold sinIf
  split
  · exact sinD_le i x
  · split <;> norm_num

theorem sinIf_deriv (u : Bool) (x : ℝ) : HasDerivAt (sinIf u 0) (sinIf u 1 x) x := by
  match u with
  | true => exact sinD_deriv x
  | false =>
    have : sinIf false 0 = fun _ => 1 := by funext; simp [sinIf]
    rw [this]
    simpa [sinIf] using hasDerivAt_const x (1 : ℝ)

/-- Product of sines in the first `d` coordinates, the first of which moves with the velocity 1. -/
noncomputable def waves (d : ℕ) (i j k : Fin 2) (x : Fin 3 → ℝ) (t : ℝ) : ℝ :=
  sinD i (x 0 - t) * (sinIf (1 < d) j (x 1) * sinIf (2 < d) k (x 2))

theorem waves_rest (d : ℕ) (j k : Fin 2) (y z : ℝ) : |sinIf (1 < d) j y * sinIf (2 < d) k z| ≤ 1 := by
  rw [abs_mul]
  exact mul_le_one₀ (sinIf_le _ _ _) (abs_nonneg _) (sinIf_le _ _ _)

theorem waves_le (d : ℕ) (i j k : Fin 2) (x : Fin 3 → ℝ) (t : ℝ) : |waves d i j k x t| ≤ 1 := by
  unfold waves
  rw [abs_mul]
  exact mul_le_one₀ (sinD_le _ _) (abs_nonneg _) (waves_rest _ _ _ _ _)

theorem waves_partial (d : ℕ) (a : Fin 3) (x : Fin 3 → ℝ) (t : ℝ) : partialX (waves d 0 0 0) a x t =
    waves d (oneD a 0) (oneD a 1) (oneD a 2) x t := by
  unfold partialX waves
  match a with
  | 0 =>
    simp only [Function.update_self, Function.update_of_ne (show (1 : Fin 3) ≠ 0 by decide),
      Function.update_of_ne (show (2 : Fin 3) ≠ 0 by decide)]
    exact ((wave3_deriv (x 0) t).mul_const _).deriv
  | 1 =>
    simp only [Function.update_self, Function.update_of_ne (show (0 : Fin 3) ≠ 1 by decide),
      Function.update_of_ne (show (2 : Fin 3) ≠ 1 by decide)]
    exact (((sinIf_deriv _ (x 1)).mul_const _).const_mul _).deriv
  | 2 =>
    simp only [Function.update_self, Function.update_of_ne (show (0 : Fin 3) ≠ 2 by decide),
      Function.update_of_ne (show (1 : Fin 3) ≠ 2 by decide)]
    exact (((sinIf_deriv _ (x 2)).const_mul _).const_mul _).deriv

theorem waves_back (d : ℕ) (hd : 0 < d) (i j k : Fin 2) (x : Fin 3 → ℝ) (t : ℝ) :
    (fun s => waves d i j k (backward d x (alongX x) s) t) =
    fun s => sinD i (x 0 - t - s) * (sinIf (1 < d) j (x 1) * sinIf (2 < d) k (x 2)) := by
  funext s
  have e0 : backward d x (alongX x) s 0 = x 0 - s := by simp [backward, alongX, hd]
  have e1 : backward d x (alongX x) s 1 = x 1 := by simp [backward, alongX]
  have e2 : backward d x (alongX x) s 2 = x 2 := by simp [backward, alongX, show (2 : Fin 3) ≠ 0 by decide]
  simp only [waves, e0, e1, e2]
  rw [sub_right_comm]

theorem waves_curved (d : ℕ) (hd : 0 < d) (i j k : Fin 2) (x : Fin 3 → ℝ) (t τ : ℝ) : Curved d (waves d i j k) x (alongX x) t τ 1 := by
  refine ⟨fun s _ => wave3_iter _ _ _ _ (waves_rest _ _ _ _ _), fun s _ => ?_⟩
  rw [waves_back d hd]
  exact wave3_iter _ _ _ _ (waves_rest _ _ _ _ _)

theorem waves_step (d : ℕ) (hd : 0 < d) (x v : Vec3 ℝ) (m : Mat3 ℝ) (hv : ∀ a, v.get a = if a = 0 then 1 else 0)
    (hm : ∀ j a, m.entry j a = 0) (t τ : ℝ) : StepData d (waves d 0 0 0) alongX t τ 1 1 1 0 x v m where
  eqn := Eventually.of_forall fun y => by
    unfold LevelSetEq
    have : HasDerivAt (waves d 0 0 0 y) _ t := wave3_move 0 (sinIf (1 < d) 0 (y 1) * sinIf (2 < d) 0 (y 2)) (y 0) t
    rw [this.deriv, Fin.sum_univ_three]
    simp only [waves_partial]
    norm_num [alongX, waves, oneD, hd, show (2 : Fin 3) ≠ 0 by decide, show (0 : Fin 3) ≠ 2 by decide]
  vel a _ := hv a
  grad j a _ _ := by rw [hm]; simpa [alongX] using hasDerivAt_const (x.get a) (if j = 0 then (1 : ℝ) else 0)
  small j a _ _ := by rw [hm, abs_zero]
  value := waves_curved d hd 0 0 0 x.get t τ
  slope a _ := by
    have e : partialX (waves d 0 0 0) a = waves d (oneD a 0) (oneD a 1) (oneD a 2) := by
      funext x t
      exact waves_partial d a x t
    rw [e]
    exact waves_curved d hd _ _ _ x.get t τ
  line a _ s _ := by
    simp only [waves_partial]
    rw [waves_back d hd, (wave3_move _ _ _ s).deriv]
    split
    · rw [abs_neg, abs_mul]
      exact mul_le_one₀ (sinD_le _ _) (abs_nonneg _) (waves_rest _ _ _ _ _)
    · rw [abs_mul]
      exact mul_le_one₀ (sinD_le _ _) (abs_nonneg _) (waves_rest _ _ _ _ _)

theorem sinIf_smooth (u : Bool) : ContDiff ℝ 3 (sinIf u 0) := by
  match u with
  | true => exact Real.contDiff_sin
  | false => exact contDiff_const

theorem waves_smooth (d : ℕ) : ContDiff ℝ 3 fun z : (Fin 3 → ℝ) × ℝ => waves d 0 0 0 z.1 z.2 := by
  have c : ∀ a : Fin 3, ContDiff ℝ 3 fun z : (Fin 3 → ℝ) × ℝ => z.1 a := fun a => (contDiff_apply ℝ ℝ a).comp contDiff_fst
  simp only [waves, sinD, if_true]
  exact (Real.contDiff_sin.comp ((c 0).sub contDiff_snd)).mul (((sinIf_smooth _).comp (c 1)).mul ((sinIf_smooth _).comp (c 2)))

/-- Six cells along each of the first `d` axes of the unit cube. -/
def cube (d : ℕ) : Req F64 := ⟨⟨6, if 1 < d then 6 else 1, if 2 < d then 6 else 1⟩, 1, ⟨0, 0, 0⟩, ⟨1, 1, 1⟩⟩

theorem cube_box (d : ℕ) : BoxIs (cube d) d (fun _ => 0) (fun _ => 1) := by
  intro a _
  refine ⟨?_, ?_, ?_, ?_⟩
  · match a with
    | 0 => exact hasValue_zero
    | 1 => exact hasValue_zero
    | 2 => exact hasValue_zero
  · match a with
    | 0 => exact hasValue_one
    | 1 => exact hasValue_one
    | 2 => exact hasValue_one
  · rw [sub_zero]; exact zpow_le_one_of_nonpos₀ (by norm_num) (by norm_num)
  · rw [sub_zero]; exact one_le_pow₀ (by norm_num)

theorem cube_valid {d : ℕ} (hd : d = 1 ∨ d = 2 ∨ d = 3) : (cube d).Valid d := by
  obtain rfl | rfl | rfl := hd
  · exact ⟨by simp, by decide, by decide, by decide, by decide, by decide, by decide, by decide⟩
  · exact ⟨by simp, by decide, by decide, by decide, by decide, by decide, by decide, by decide⟩
  · exact ⟨by simp, by decide, by decide, by decide, by decide, by decide, by decide, by decide⟩

theorem cube_n {d : ℕ} (hd : d = 1 ∨ d = 2 ∨ d = 3) (a : Fin 3) : (cube d).n.get a = if a.val < d then 6 else 1 := by
  obtain rfl | rfl | rfl := hd <;> match a with
    | 0 => rfl
    | 1 => rfl
    | 2 => rfl

theorem cube_h {d : ℕ} (hd : d = 1 ∨ d = 2 ∨ d = 3) (a : Fin 3) : (axisOf (cube d) (fun _ => 0) (fun _ => 1) a).h =
    if a.val < d then 1 / 6 else 1 := by
  simp only [axisOf, Axis.h, cube_n hd]
  split <;> norm_num

theorem cube_wid {d : ℕ} (hd : d = 1 ∨ d = 2 ∨ d = 3) (a : Fin 3) (ha : a.val < d) : wid (cube d) (fun _ => 0) (fun _ => 1) a = 1 / 6 := by
  unfold wid
  rw [cube_h hd, if_pos ha]
  norm_num

theorem cube_unit {d : ℕ} (hd : d = 1 ∨ d = 2 ∨ d = 3) (a : Fin 3) : 0 ≤ (axisOf (cube d) (fun _ => 0) (fun _ => 1) a).h ∧
    (axisOf (cube d) (fun _ => 0) (fun _ => 1) a).h ≤ 1 := by
  rw [cube_h hd]
  split <;> norm_num

theorem moderate_two : Moderate 2 :=
  ⟨(moderate_one.1).trans (by norm_num), (by norm_num : (2 : ℚ) ≤ 2 ^ 1).trans (pow_le_pow_right₀ (by norm_num) (by norm_num))⟩

theorem cube_res {d : ℕ} (hd : d = 1 ∨ d = 2 ∨ d = 3) (a : Fin 3) (ha : a.val < d) :
    ((cube d).n.get a : ℚ) * (|0| + (1 - 0)) ≤ 6 * (1 - 0) := by
  rw [cube_n hd, if_pos ha]
  norm_num

/-- Velocity 1 along the first axis. -/
def flowQ (_ : Cell) (a : Fin 3) : ℚ := if a = 0 then 1 else 0

theorem cube_moves {d : ℕ} (hd : d = 1 ∨ d = 2 ∨ d = 3) (c : Cell) (hc : (cube d).Interior c) (a : Fin 3) (ha : a.val < d) :
    (0 : ℚ) - (1 / 2 - 1 / 2 ^ 15) * (axisOf (cube d) (fun _ => 0) (fun _ => 1) a).h ≤
      departQ (axisOf (cube d) (fun _ => 0) fun _ => 1) (1 / 8) (flowQ c) c a ∧
    departQ (axisOf (cube d) (fun _ => 0) fun _ => 1) (1 / 8) (flowQ c) c a ≤
      1 + (1 / 2 - 1 / 2 ^ 15) * (axisOf (cube d) (fun _ => 0) (fun _ => 1) a).h := by
  have hrng := interior_comp hc a
  rw [cube_n hd, if_pos ha] at hrng
  have c0 : (0 : ℚ) ≤ comp c a := by exact_mod_cast hrng.1
  have c1 : (comp c a : ℚ) + 1 ≤ 6 := by exact_mod_cast hrng.2
  have f0 : 0 ≤ flowQ c a ∧ flowQ c a ≤ 1 := by unfold flowQ; split <;> norm_num
  have e : (axisOf (cube d) (fun _ => 0) (fun _ => 1) a).lo = 0 := rfl
  rw [departQ, nodeAt, cube_h hd, if_pos ha, e]
  constructor <;> linarith

theorem StepNear.mono {s : IntSem} {d : ℕ} {r : Req F64} {g : Grid F64 d} {res : M (Levelset F64)} {A : Fin 3 → Axis}
    {f : (Fin 3 → ℝ) → ℝ → ℝ} {t t' E e : ℝ} {E' e' : Fin 3 → ℝ} (h : StepNear s d r g res A f t E E') (ht : t = t') (h1 : E ≤ e)
    (h2 : ∀ a : Fin 3, a.val < d → E' a ≤ e' a) : StepNear s d r g res A f t' e e' := by
  subst ht
  obtain ⟨ls', k1, k2⟩ := h
  refine ⟨ls', k1, fun c hc => ?_⟩
  obtain ⟨p, q, l1, l2, ⟨v, l3, l4⟩, l5⟩ := k2 c hc
  refine ⟨p, q, l1, l2, ⟨v, l3, l4.trans h1⟩, fun a ha => ?_⟩
  obtain ⟨w, m1, m2⟩ := l5 a ha
  exact ⟨w, m1, m2.trans (h2 a ha)⟩

theorem waves_line (x y z : ℝ) : waves 1 0 0 0 ![x, y, z] 0 = 1 * Real.sin x ∧ waves 1 1 0 0 ![x, y, z] 0 = Real.cos x := by
  simp [waves, sinD, sinIf]

theorem waves_plane (i j : Fin 2) (x y z : ℝ) : waves 2 i j 0 ![x, y, z] 0 = sinD i x * sinD j y := by
  simp [waves, sinIf]

theorem waves_space (i j k : Fin 2) (x y z : ℝ) : waves 3 i j k ![x, y, z] 0 = sinD i x * sinD j y * sinD k z := by
  simp [waves, sinIf, mul_assoc]

/-- Instance of `C96_line`: a sine wave in a uniform flow, six cells, time step 1/8, data rounded to doubles. -/
example : ∃ g : Grid F64 1, (cube 1).make .wrap 1 = .ok g ∧ ∃ vel ls,
    StepNear .wrap 1 (cube 1) g (temporal .semiLagrangian .wrap g g eighth vel ls) (axisOf (cube 1) (fun _ => 0) fun _ => 1)
      (waves 1 0 0 0) (1 / 8) (1 / 60) (fun _ => 1 / 60) := by
  have hd : 1 = 1 ∨ 1 = 2 ∨ 1 = 3 := by decide
  obtain ⟨g, e, G⟩ := make_ok .wrap (cube_valid hd)
  obtain ⟨phi, psi, mix, D, j1, j2, j3⟩ := jet_exists (cube 1) 1 (axisOf (cube 1) (fun _ => 0) fun _ => 1) (cube_unit hd)
    (fun i j k x => waves 1 i j k x 0) (fun i j k x => waves_le 1 i j k x 0)
  obtain ⟨a, h1⟩ := fieldIs_exists (s := .wrap) G phi
  obtain ⟨b, h2⟩ := fieldIs_exists (s := .wrap) G psi
  obtain ⟨m, h3⟩ := fieldIs_exists (s := .wrap) G mix
  obtain ⟨v, h4⟩ := fieldIs_exists (s := .wrap) G fun _ => (⟨1, 0, 0⟩ : Vec3 F64)
  obtain ⟨n, h5⟩ := fieldIs_exists (s := .wrap) G fun _ => (Mat3.zero : Mat3 F64)
  have w0 := cube_wid hd 0 (by decide)
  have key := C96_line (cube 1) (cube_valid hd) rfl _ _ (cube_box 1) (fun _ _ => by norm_num [moderate_one]) 6 (cube_res hd) (by norm_num)
    g e (cube 1) (cube_valid hd) rfl g e eighth (1 / 8) eighth_value ⟨v, n⟩ _ _ h4 h5 flowQ (fun _ _ _ => 0)
    (fun c hc a ha => ⟨by match a with | 0 => exact hasValue_one | 1 => exact hasValue_zero | 2 => exact hasValue_zero, cube_moves hd c hc a ha⟩)
    (fun c _ a _ j => ⟨hasValue_zero, by norm_num, fun _ => by rw [zero_mul, abs_zero, zero_mul]; exact (cube_unit hd j).1⟩)
    ⟨a, b, m, a, b, m, a, b⟩ phi psi mix ⟨h1.val, h2.val, h3.val⟩ _ _ _ _ h1 h2 h1 h2 D j1 2 moderate_two j2 (waves 1 0 0 0) (waves_smooth 1)
    alongX 0 1 1 1 0 (by norm_num) (fun c _ => waves_step 1 (by decide) _ _ _ (fun a => by rw [vecR_get]; unfold flowQ; split <;> norm_num)
      (fun j a => by rw [matR_entry]; norm_num) _ _)
    _ _ j3 (fun _ => rfl) (fun x => by simpa only [(waves_line _ _ _).1, (waves_line _ _ _).2, one_mul] using Real.hasDerivAt_sin x)
    1 _ _ (by simp only [(waves_line _ _ _).1]; exact quartic_sin 1 _ _ 1 (by norm_num)) le_rfl le_rfl (by rw [w0]; norm_num) (by norm_num)
  refine ⟨g, e, ⟨v, n⟩, _, StepNear.mono key (by norm_num) (by rw [w0]; norm_num) (fun a ha => ?_)⟩
  rw [cube_wid hd a ha, w0]
  norm_num

/-- Instance of `C96_plane`: a product of sine waves. -/
example : ∃ g : Grid F64 2, (cube 2).make .wrap 2 = .ok g ∧ ∃ vel ls,
    StepNear .wrap 2 (cube 2) g (temporal .semiLagrangian .wrap g g eighth vel ls) (axisOf (cube 2) (fun _ => 0) fun _ => 1)
      (waves 2 0 0 0) (1 / 8) (1 / 60) (fun _ => 1 / 60) := by
  have hd : 2 = 1 ∨ 2 = 2 ∨ 2 = 3 := by decide
  obtain ⟨g, e, G⟩ := make_ok .wrap (cube_valid hd)
  obtain ⟨phi, psi, mix, D, j1, j2, j3⟩ := jet_exists (cube 2) 2 (axisOf (cube 2) (fun _ => 0) fun _ => 1) (cube_unit hd)
    (fun i j k x => waves 2 i j k x 0) (fun i j k x => waves_le 2 i j k x 0)
  obtain ⟨a, h1⟩ := fieldIs_exists (s := .wrap) G phi
  obtain ⟨b, h2⟩ := fieldIs_exists (s := .wrap) G psi
  obtain ⟨m, h3⟩ := fieldIs_exists (s := .wrap) G mix
  obtain ⟨v, h4⟩ := fieldIs_exists (s := .wrap) G fun _ => (⟨1, 0, 0⟩ : Vec3 F64)
  obtain ⟨n, h5⟩ := fieldIs_exists (s := .wrap) G fun _ => (Mat3.zero : Mat3 F64)
  have w0 := cube_wid hd 0 (by decide)
  have w1 := cube_wid hd 1 (by decide)
  have key := C96_plane (cube 2) (cube_valid hd) rfl _ _ (cube_box 2) (fun _ _ => by norm_num [moderate_one]) 6 (cube_res hd) (by norm_num)
    g e (cube 2) (cube_valid hd) rfl g e eighth (1 / 8) eighth_value ⟨v, n⟩ _ _ h4 h5 flowQ (fun _ _ _ => 0)
    (fun c hc a ha => ⟨by match a with | 0 => exact hasValue_one | 1 => exact hasValue_zero | 2 => exact hasValue_zero, cube_moves hd c hc a ha⟩)
    (fun c _ a _ j => ⟨hasValue_zero, by norm_num, fun _ => by rw [zero_mul, abs_zero, zero_mul]; exact (cube_unit hd j).1⟩)
    ⟨a, b, m, a, b, m, a, b⟩ phi psi mix ⟨h1.val, h2.val, h3.val⟩ _ _ _ _ h1 h2 h1 h2 D j1 2 moderate_two j2 (waves 2 0 0 0) (waves_smooth 2)
    alongX 0 1 1 1 0 (by norm_num) (fun c _ => waves_step 2 (by decide) _ _ _ (fun a => by rw [vecR_get]; unfold flowQ; split <;> norm_num)
      (fun j a => by rw [matR_entry]; norm_num) _ _)
    _ _ j3 (fun _ => rfl) 1 1 1 1 (1 / 100000) (1 / 1000) (by simp only [waves_plane]; exact smooth_sin2 _ _ _ _)
    (by rw [w0, w1]; norm_num) (by rw [w0, w1]; norm_num) (by rw [w0, w1]; norm_num) (by norm_num) (by norm_num)
  refine ⟨g, e, ⟨v, n⟩, _, StepNear.mono key (by norm_num) (by norm_num) (fun a ha => ?_)⟩
  rw [cube_wid hd a ha]
  norm_num

/-- Instance of `C96_space`, ISO integer arithmetic. -/
example : ∃ g : Grid F64 3, (cube 3).make .strict 3 = .ok g ∧ ∃ vel ls,
    StepNear .strict 3 (cube 3) g (temporal .semiLagrangian .strict g g eighth vel ls) (axisOf (cube 3) (fun _ => 0) fun _ => 1)
      (waves 3 0 0 0) (1 / 8) (1 / 60) (fun _ => 1 / 60) := by
  have hd : 3 = 1 ∨ 3 = 2 ∨ 3 = 3 := by decide
  obtain ⟨g, e, G⟩ := make_ok .strict (cube_valid hd)
  obtain ⟨phi, psi, mix, D, j1, j2, j3⟩ := jet_exists (cube 3) 3 (axisOf (cube 3) (fun _ => 0) fun _ => 1) (cube_unit hd)
    (fun i j k x => waves 3 i j k x 0) (fun i j k x => waves_le 3 i j k x 0)
  obtain ⟨a, h1⟩ := fieldIs_exists (s := .strict) G phi
  obtain ⟨b, h2⟩ := fieldIs_exists (s := .strict) G psi
  obtain ⟨m, h3⟩ := fieldIs_exists (s := .strict) G mix
  obtain ⟨v, h4⟩ := fieldIs_exists (s := .strict) G fun _ => (⟨1, 0, 0⟩ : Vec3 F64)
  obtain ⟨n, h5⟩ := fieldIs_exists (s := .strict) G fun _ => (Mat3.zero : Mat3 F64)
  have w0 := cube_wid hd 0 (by decide)
  have w1 := cube_wid hd 1 (by decide)
  have w2 := cube_wid hd 2 (by decide)
  have key := C96_space .strict (cube 3) (cube_valid hd) rfl _ _ (cube_box 3) (fun _ _ => by norm_num [moderate_one]) 6 (cube_res hd)
    (by norm_num) g e (cube 3) (cube_valid hd) rfl g e eighth (1 / 8) eighth_value ⟨v, n⟩ _ _ h4 h5 flowQ (fun _ _ _ => 0)
    (fun c hc a ha => ⟨by match a with | 0 => exact hasValue_one | 1 => exact hasValue_zero | 2 => exact hasValue_zero, cube_moves hd c hc a ha⟩)
    (fun c _ a _ j => ⟨hasValue_zero, by norm_num, fun _ => by rw [zero_mul, abs_zero, zero_mul]; exact (cube_unit hd j).1⟩)
    ⟨a, b, m, a, b, m, a, b⟩ phi psi mix ⟨h1.val, h2.val, h3.val⟩ _ _ _ _ h1 h2 h1 h2 D j1 2 moderate_two j2 (waves 3 0 0 0) (waves_smooth 3)
    alongX 0 1 1 1 0 (by norm_num) (fun c _ => waves_step 3 (by decide) _ _ _ (fun a => by rw [vecR_get]; unfold flowQ; split <;> norm_num)
      (fun j a => by rw [matR_entry]; norm_num) _ _)
    _ _ j3 (fun _ => rfl) 1 (1 / 100000) (1 / 1000) (by simp only [waves_space]; exact smooth_sin3 _ _ _ _ _ _)
    (by rw [w0, w1, w2]; norm_num) (by rw [w0, w1, w2]; norm_num) (by rw [w0, w1, w2]; norm_num) (by rw [w0, w1, w2]; norm_num) (by norm_num)
    (by norm_num)
  refine ⟨g, e, ⟨v, n⟩, _, StepNear.mono key (by norm_num) (by norm_num) (fun a ha => ?_)⟩
  rw [cube_wid hd a ha]
  norm_num

theorem InterpNear.mono {d : ℕ} {res : M (Interp F64)} {q : Fin 3 → ℚ} {f : (Fin 3 → ℝ) → ℝ} {f' : Fin 3 → (Fin 3 → ℝ) → ℝ}
    {E e : ℝ} {E' e' : Fin 3 → ℝ} (h : InterpNear d res q f f' E E') (h1 : E ≤ e) (h2 : ∀ a : Fin 3, a.val < d → E' a ≤ e' a) :
    InterpNear d res q f f' e e' := by
  obtain ⟨out, v, k1, k2, k3, k4, k5⟩ := h
  refine ⟨out, v, k1, k2, k3.trans h1, k4, fun a ha => ?_⟩
  obtain ⟨w, m1, m2⟩ := k5 a ha
  exact ⟨w, m1, m2.trans (h2 a ha)⟩

/-- Instance of `C96_interpolation_line` at the point with coordinates 1/8. -/
example : ∃ g : Grid F64 1, (cube 1).make .wrap 1 = .ok g ∧ ∃ ls,
    InterpNear 1 (interpolate .wrap g ls ⟨eighth, eighth, eighth⟩ false) (fun _ => 1 / 8) (fun x => waves 1 0 0 0 x 0)
      (firstD fun i j k x => waves 1 i j k x 0) (1 / 10000) (fun _ => 1 / 100) := by
  have hd : 1 = 1 ∨ 1 = 2 ∨ 1 = 3 := by decide
  obtain ⟨g, e, G⟩ := make_ok .wrap (cube_valid hd)
  obtain ⟨phi, psi, mix, D, j1, j2, j3⟩ := jet_exists (cube 1) 1 (axisOf (cube 1) (fun _ => 0) fun _ => 1) (cube_unit hd)
    (fun i j k x => waves 1 i j k x 0) (fun i j k x => waves_le 1 i j k x 0)
  obtain ⟨a, h1⟩ := fieldIs_exists (s := .wrap) G phi
  obtain ⟨b, h2⟩ := fieldIs_exists (s := .wrap) G psi
  obtain ⟨m, h3⟩ := fieldIs_exists (s := .wrap) G mix
  have w0 := cube_wid hd 0 (by decide)
  have key := C96_interpolation_line (cube 1) (cube_valid hd) rfl _ _ (cube_box 1) (fun _ _ => by norm_num [moderate_one]) 6 (cube_res hd)
    (by norm_num) g e ⟨eighth, eighth, eighth⟩ (fun _ => 1 / 8) (fun a ha => ⟨by match a with | 0 => exact eighth_value | 1 => exact eighth_value | 2 => exact eighth_value,
      by rw [cube_h hd, if_pos ha]; norm_num, by rw [cube_h hd, if_pos ha]; norm_num⟩)
    ⟨a, b, m, a, b, m, a, b⟩ phi psi mix ⟨h1.val, h2.val, h3.val⟩ D j1 2 moderate_two j2 _ _ j3 (fun x => by simpa only [(waves_line _ _ _).1, (waves_line _ _ _).2, one_mul] using Real.hasDerivAt_sin x)
    1 (1 / 100000) (1 / 1000) (by simp only [(waves_line _ _ _).1]; exact quartic_sin 1 _ _ 1 (by norm_num)) (by rw [w0]; norm_num) (by rw [w0]; norm_num)
  refine ⟨g, e, _, InterpNear.mono key (by norm_num) (fun a ha => ?_)⟩
  rw [cube_wid hd a ha]
  norm_num

/-- Instance of `C96_interpolation_plane` at the point with coordinates 1/8. -/
example : ∃ g : Grid F64 2, (cube 2).make .wrap 2 = .ok g ∧ ∃ ls,
    InterpNear 2 (interpolate .wrap g ls ⟨eighth, eighth, eighth⟩ false) (fun _ => 1 / 8) (fun x => waves 2 0 0 0 x 0)
      (firstD fun i j k x => waves 2 i j k x 0) (1 / 10000) (fun _ => 1 / 100) := by
  have hd : 2 = 1 ∨ 2 = 2 ∨ 2 = 3 := by decide
  obtain ⟨g, e, G⟩ := make_ok .wrap (cube_valid hd)
  obtain ⟨phi, psi, mix, D, j1, j2, j3⟩ := jet_exists (cube 2) 2 (axisOf (cube 2) (fun _ => 0) fun _ => 1) (cube_unit hd)
    (fun i j k x => waves 2 i j k x 0) (fun i j k x => waves_le 2 i j k x 0)
  obtain ⟨a, h1⟩ := fieldIs_exists (s := .wrap) G phi
  obtain ⟨b, h2⟩ := fieldIs_exists (s := .wrap) G psi
  obtain ⟨m, h3⟩ := fieldIs_exists (s := .wrap) G mix
  have w0 := cube_wid hd 0 (by decide)
  have w1 := cube_wid hd 1 (by decide)
  have key := C96_interpolation_plane (cube 2) (cube_valid hd) rfl _ _ (cube_box 2) (fun _ _ => by norm_num [moderate_one]) 6 (cube_res hd)
    (by norm_num) g e ⟨eighth, eighth, eighth⟩ (fun _ => 1 / 8) (fun a ha => ⟨by match a with | 0 => exact eighth_value | 1 => exact eighth_value | 2 => exact eighth_value,
      by rw [cube_h hd, if_pos ha]; norm_num, by rw [cube_h hd, if_pos ha]; norm_num⟩)
    ⟨a, b, m, a, b, m, a, b⟩ phi psi mix ⟨h1.val, h2.val, h3.val⟩ D j1 2 moderate_two j2 _ _ j3 1 1 1 1 (1 / 100000) (1 / 1000) (by simp only [waves_plane]; exact smooth_sin2 _ _ _ _)
    (by rw [w0, w1]; norm_num) (by rw [w0, w1]; norm_num) (by rw [w0, w1]; norm_num)
  refine ⟨g, e, _, InterpNear.mono key (by norm_num) (fun a ha => ?_)⟩
  rw [cube_wid hd a ha]
  norm_num

/-- Instance of `C96_interpolation_space` at the point with coordinates 1/8. -/
example : ∃ g : Grid F64 3, (cube 3).make .wrap 3 = .ok g ∧ ∃ ls,
    InterpNear 3 (interpolate .wrap g ls ⟨eighth, eighth, eighth⟩ false) (fun _ => 1 / 8) (fun x => waves 3 0 0 0 x 0)
      (firstD fun i j k x => waves 3 i j k x 0) (1 / 10000) (fun _ => 1 / 100) := by
  have hd : 3 = 1 ∨ 3 = 2 ∨ 3 = 3 := by decide
  obtain ⟨g, e, G⟩ := make_ok .wrap (cube_valid hd)
  obtain ⟨phi, psi, mix, D, j1, j2, j3⟩ := jet_exists (cube 3) 3 (axisOf (cube 3) (fun _ => 0) fun _ => 1) (cube_unit hd)
    (fun i j k x => waves 3 i j k x 0) (fun i j k x => waves_le 3 i j k x 0)
  obtain ⟨a, h1⟩ := fieldIs_exists (s := .wrap) G phi
  obtain ⟨b, h2⟩ := fieldIs_exists (s := .wrap) G psi
  obtain ⟨m, h3⟩ := fieldIs_exists (s := .wrap) G mix
  have w0 := cube_wid hd 0 (by decide)
  have w1 := cube_wid hd 1 (by decide)
  have w2 := cube_wid hd 2 (by decide)
  have key := C96_interpolation_space .wrap (cube 3) (cube_valid hd) rfl _ _ (cube_box 3) (fun _ _ => by norm_num [moderate_one]) 6 (cube_res hd)
    (by norm_num) g e ⟨eighth, eighth, eighth⟩ (fun _ => 1 / 8) (fun a ha => ⟨by match a with | 0 => exact eighth_value | 1 => exact eighth_value | 2 => exact eighth_value,
      by rw [cube_h hd, if_pos ha]; norm_num, by rw [cube_h hd, if_pos ha]; norm_num⟩)
    ⟨a, b, m, a, b, m, a, b⟩ phi psi mix ⟨h1.val, h2.val, h3.val⟩ D j1 2 moderate_two j2 _ _ j3 1 (1 / 100000) (1 / 1000) (by simp only [waves_space]; exact smooth_sin3 _ _ _ _ _ _)
    (by rw [w0, w1, w2]; norm_num) (by rw [w0, w1, w2]; norm_num) (by rw [w0, w1, w2]; norm_num) (by rw [w0, w1, w2]; norm_num)
  refine ⟨g, e, _, InterpNear.mono key (by norm_num) (fun a ha => ?_)⟩
  rw [cube_wid hd a ha]
  norm_num

end Gals.Props
