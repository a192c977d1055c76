import Verif.Spec.Characteristic
import Mathlib.Analysis.Calculus.MeanValue
import Mathlib.Analysis.Calculus.FDeriv.Symmetric
import Mathlib.Analysis.Calculus.ContDiff.Basic
import Mathlib.Analysis.Calculus.Deriv.Pow
import Mathlib.Analysis.Calculus.Deriv.Comp
import Mathlib.Analysis.ODE.ExistUnique

/-!
# Local error of the Runge-Kutta method of the reference code

For an autonomous system `w' = G w` in a normed space.
-/

namespace Gals.RungeKutta

open Set Spec

variable {E : Type} [NormedAddCommGroup E] [NormedSpace ℝ E]

/-! ## Taylor expansion -/

/-- The expansion of `G` at a point to second order. -/
structure Taylor (G : E → E) (K : ℝ) (z : E) (A : E →L[ℝ] E) (B : E →L[ℝ] E →L[ℝ] E) : Prop where
  value : ‖G z‖ ≤ K
  first : ‖A‖ ≤ K
  second : ‖B‖ ≤ K
  r0 : ∀ d, ‖G (z + d) - G z‖ ≤ K * ‖d‖
  r1 : ∀ d, ‖G (z + d) - G z - A d‖ ≤ K * ‖d‖ ^ 2
  r2 : ∀ d, ‖G (z + d) - G z - A d - (1 / 2 : ℝ) • B d d‖ ≤ K * ‖d‖ ^ 3

/-- A function with derivative of norm at most `C` on the ball of radius `‖d‖`. -/
theorem mean {F : Type} [NormedAddCommGroup F] [NormedSpace ℝ F] {R : E → F} {R' : E → E →L[ℝ] F} {C : ℝ} (d : E)
    (hR : ∀ e, HasFDerivAt R (R' e) e) (hC : ∀ e, ‖e‖ ≤ ‖d‖ → ‖R' e‖ ≤ C) : ‖R d - R 0‖ ≤ C * ‖d‖ := by
  have := (convex_closedBall (0 : E) ‖d‖).norm_image_sub_le_of_norm_hasFDerivWithin_le (f := R) (f' := R') (C := C)
    (fun e _ => (hR e).hasFDerivWithinAt) (fun e he => hC e (by simpa using he)) (x := 0) (y := d) (by simp) (by simp)
  simpa using this

theorem taylor {G : E → E} {K : ℝ} (hG : Bounded3 G K) (z : E) : Taylor G K z (fderiv ℝ G z) (fderiv ℝ (fderiv ℝ G) z) := by
  have s1 : ContDiff ℝ 2 (fderiv ℝ G) := hG.smooth.fderiv_right (by norm_num)
  have s2 : ContDiff ℝ 1 (fderiv ℝ (fderiv ℝ G)) := s1.fderiv_right (by norm_num)
  have d0 (p : E) : HasFDerivAt G (fderiv ℝ G p) p := (hG.smooth.differentiable (by norm_num) p).hasFDerivAt
  have d1 (p : E) : HasFDerivAt (fderiv ℝ G) (fderiv ℝ (fderiv ℝ G) p) p := (s1.differentiable (by norm_num) p).hasFDerivAt
  have d2 (p : E) : HasFDerivAt (fderiv ℝ (fderiv ℝ G)) (fderiv ℝ (fderiv ℝ (fderiv ℝ G)) p) p :=
    (s2.differentiable (by norm_num) p).hasFDerivAt
  have b0 (p : E) : ‖G p‖ ≤ K := by simpa using hG.bound 0 (by omega) p
  have b1 (p : E) : ‖fderiv ℝ G p‖ ≤ K := by simpa using hG.bound 1 (by omega) p
  have b2 (p : E) : ‖fderiv ℝ (fderiv ℝ G) p‖ ≤ K := by
    rw [← norm_iteratedFDeriv_one, norm_iteratedFDeriv_fderiv]; exact hG.bound 2 (by omega) p
  have b3 (p : E) : ‖fderiv ℝ (fderiv ℝ (fderiv ℝ G)) p‖ ≤ K := by
    rw [← norm_iteratedFDeriv_one, norm_iteratedFDeriv_fderiv, norm_iteratedFDeriv_fderiv]; exact hG.bound 3 (by omega) p
  have hK : 0 ≤ K := (norm_nonneg _).trans (b0 z)
  have sym : IsSymmSndFDerivAt ℝ G z := (hG.smooth.contDiffAt).isSymmSndFDerivAt (by simp; norm_num)
  have sh (e : E) : HasFDerivAt (fun e => z + e) (ContinuousLinearMap.id ℝ E) e := (hasFDerivAt_id e).const_add z
  have q0 (d : E) : ‖G (z + d) - G z‖ ≤ K * ‖d‖ := by
    have := mean (R := fun e => G (z + e)) d (fun e => (d0 (z + e)).comp e (sh e)) (C := K) fun e _ => by simpa using b1 _
    simpa using this
  have p0 (d : E) : ‖fderiv ℝ G (z + d) - fderiv ℝ G z‖ ≤ K * ‖d‖ := by
    have := mean (R := fun e => fderiv ℝ G (z + e)) d (fun e => (d1 (z + e)).comp e (sh e)) (C := K) fun e _ => by simpa using b2 _
    simpa using this
  have o0 (d : E) : ‖fderiv ℝ (fderiv ℝ G) (z + d) - fderiv ℝ (fderiv ℝ G) z‖ ≤ K * ‖d‖ := by
    have := mean (R := fun e => fderiv ℝ (fderiv ℝ G) (z + e)) d (fun e => (d2 (z + e)).comp e (sh e)) (C := K)
      fun e _ => by simpa using b3 _
    simpa using this
  have q1 (d : E) : ‖G (z + d) - G z - fderiv ℝ G z d‖ ≤ K * ‖d‖ ^ 2 := by
    have := mean (R := fun e => G (z + e) - fderiv ℝ G z e) (R' := fun e => fderiv ℝ G (z + e) - fderiv ℝ G z) d
      (fun e => ((d0 (z + e)).comp e (sh e)).sub (fderiv ℝ G z).hasFDerivAt) (C := K * ‖d‖)
      fun e he => (p0 e).trans (mul_le_mul_of_nonneg_left he hK)
    simp only [add_zero, map_zero, sub_zero] at this
    rw [show G (z + d) - G z - fderiv ℝ G z d = G (z + d) - fderiv ℝ G z d - G z by abel]
    exact this.trans_eq (by ring)
  have p1 (d : E) : ‖fderiv ℝ G (z + d) - fderiv ℝ G z - fderiv ℝ (fderiv ℝ G) z d‖ ≤ K * ‖d‖ ^ 2 := by
    have := mean (R := fun e => fderiv ℝ G (z + e) - fderiv ℝ (fderiv ℝ G) z e)
      (R' := fun e => fderiv ℝ (fderiv ℝ G) (z + e) - fderiv ℝ (fderiv ℝ G) z) d
      (fun e => ((d1 (z + e)).comp e (sh e)).sub (fderiv ℝ (fderiv ℝ G) z).hasFDerivAt) (C := K * ‖d‖)
      fun e he => (o0 e).trans (mul_le_mul_of_nonneg_left he hK)
    simp only [add_zero, map_zero, sub_zero] at this
    rw [show fderiv ℝ G (z + d) - fderiv ℝ G z - fderiv ℝ (fderiv ℝ G) z d =
      fderiv ℝ G (z + d) - fderiv ℝ (fderiv ℝ G) z d - fderiv ℝ G z by abel]
    exact this.trans_eq (by ring)
  have q2 (d : E) : ‖G (z + d) - G z - fderiv ℝ G z d - (1 / 2 : ℝ) • fderiv ℝ (fderiv ℝ G) z d d‖ ≤ K * ‖d‖ ^ 3 := by
    have hB (e : E) : HasFDerivAt (fun e => (1 / 2 : ℝ) • fderiv ℝ (fderiv ℝ G) z e e) (fderiv ℝ (fderiv ℝ G) z e) e := by
      have h := ((fderiv ℝ (fderiv ℝ G) z).hasFDerivAt (x := e)).clm_apply (hasFDerivAt_id e)
      refine (h.const_smul (1 / 2 : ℝ)).congr_fderiv ?_
      ext w
      simp only [id, smul_apply, add_apply, ContinuousLinearMap.comp_apply,
        ContinuousLinearMap.flip_apply, ContinuousLinearMap.id_apply]
      rw [sym w e, ← two_smul ℝ, smul_smul]
      norm_num
    have := mean (R := fun e => G (z + e) - fderiv ℝ G z e - (1 / 2 : ℝ) • fderiv ℝ (fderiv ℝ G) z e e)
      (R' := fun e => fderiv ℝ G (z + e) - fderiv ℝ G z - fderiv ℝ (fderiv ℝ G) z e) d
      (fun e => (((d0 (z + e)).comp e (sh e)).sub (fderiv ℝ G z).hasFDerivAt).sub (hB e)) (C := K * ‖d‖ ^ 2)
      fun e he => (p1 e).trans (mul_le_mul_of_nonneg_left (pow_le_pow_left₀ (norm_nonneg _) he 2) hK)
    simp only [add_zero, map_zero, sub_zero, smul_zero] at this
    rw [show G (z + d) - G z - fderiv ℝ G z d - (1 / 2 : ℝ) • fderiv ℝ (fderiv ℝ G) z d d =
      G (z + d) - fderiv ℝ G z d - (1 / 2 : ℝ) • fderiv ℝ (fderiv ℝ G) z d d - G z by abel]
    exact this.trans_eq (by ring)
  exact ⟨b0 z, b1 z, b2 z, q0, q1, q2⟩

/-! ## The exact solution -/

/-- If the derivative is at most `c s ^ k`, the function grows at most like `c s ^ (k + 1) / (k + 1)`. -/
theorem grow {f f' : ℝ → E} {h c : ℝ} {k : ℕ} (h0 : f 0 = 0) (hf : ∀ s ∈ Icc 0 h, HasDerivWithinAt f (f' s) (Icc 0 h) s)
    (hb : ∀ s ∈ Icc 0 h, ‖f' s‖ ≤ c * s ^ k) : ∀ s ∈ Icc 0 h, ‖f s‖ ≤ c * s ^ (k + 1) / (k + 1) := by
  refine fun s hs => image_norm_le_of_norm_deriv_right_le_deriv_boundary (f := f) (f' := f') (a := 0) (b := h)
    (B := fun s => c * s ^ (k + 1) / (k + 1)) (B' := fun s => c * s ^ k)
    (fun s hs => (hf s hs).continuousWithinAt) (fun s hs => ?_) (by simp [h0]) (fun s => ?_)
    (fun s hs => hb s ⟨hs.1, hs.2.le⟩) hs
  · have := hf s ⟨hs.1, hs.2.le⟩
    have hm : HasDerivWithinAt f (f' s) (Icc s h) s := this.mono (Icc_subset_Icc_left hs.1)
    exact hm.mono_of_mem_nhdsWithin (Icc_mem_nhdsGE hs.2)
  · have := ((hasDerivAt_pow (k + 1) s).const_mul c).div_const ((k : ℝ) + 1)
    have hk : (k : ℝ) + 1 ≠ 0 := by positivity
    refine this.congr_deriv ?_
    push_cast
    field_simp

/-- The expansion of the solution to fourth order. -/
theorem solution {G : E → E} {K : ℝ} {z : E} {A : E →L[ℝ] E} {B : E →L[ℝ] E →L[ℝ] E} (T : Taylor G K z A B) {w : ℝ → E} {h : ℝ}
    (h0 : w 0 = z) (hw : ∀ s ∈ Icc 0 h, HasDerivWithinAt w (G (w s)) (Icc 0 h) s)
    (hK : ∀ s ∈ Icc 0 h, ‖G (w s)‖ ≤ K) (s : ℝ) (hs : s ∈ Icc 0 h) :
    ‖w s - z - s • G z‖ ≤ K ^ 2 * s ^ 2 / 2 ∧
    ‖w s - z - s • G z - (s ^ 2 / 2) • A (G z) - (s ^ 3 / 6) • (A (A (G z)) + B (G z) (G z))‖ ≤ K ^ 4 * s ^ 4 / 2 := by
  have K0 : 0 ≤ K := (norm_nonneg _).trans T.value
  have lin (c : E) (s : ℝ) : HasDerivWithinAt (fun s : ℝ => s • c) c (Icc 0 h) s := by
    simpa using (hasDerivAt_id s).smul_const c |>.hasDerivWithinAt
  have quad (c : E) (s : ℝ) : HasDerivWithinAt (fun s : ℝ => (s ^ 2 / 2) • c) (s • c) (Icc 0 h) s := by
    have := ((hasDerivAt_pow 2 s).div_const 2).smul_const c |>.hasDerivWithinAt (s := Icc 0 h)
    refine this.congr_deriv ?_
    congr 1; simp
  have cub (c : E) (s : ℝ) : HasDerivWithinAt (fun s : ℝ => (s ^ 3 / 6) • c) ((s ^ 2 / 2) • c) (Icc 0 h) s := by
    have := ((hasDerivAt_pow 3 s).div_const 6).smul_const c |>.hasDerivWithinAt (s := Icc 0 h)
    refine this.congr_deriv ?_
    congr 1; norm_num; ring
  have e1 : ∀ s ∈ Icc 0 h, ‖w s - z‖ ≤ K * s := fun s hs => by
    have := grow (f := fun s => w s - z) (k := 0) (c := K) (by simp [h0]) (fun s hs => (hw s hs).sub_const z)
      (fun s hs => by simpa using hK s hs) s hs
    simpa using this
  have ez (s : ℝ) : w s = z + (w s - z) := by abel
  have e2 : ∀ s ∈ Icc 0 h, ‖w s - z - s • G z‖ ≤ K ^ 2 * s ^ 2 / 2 := fun s hs => by
    have := grow (f := fun s => w s - z - s • G z) (k := 1) (c := K ^ 2) (by simp [h0])
      (fun s hs => ((hw s hs).sub_const z).sub (lin (G z) s))
      (fun s hs => by
        have := (T.r0 (w s - z)).trans (mul_le_mul_of_nonneg_left (e1 s hs) K0)
        rw [← ez] at this
        exact this.trans_eq (by ring)) s hs
    norm_num at this
    exact this
  have e3 : ∀ s ∈ Icc 0 h, ‖w s - z - s • G z - (s ^ 2 / 2) • A (G z)‖ ≤ K ^ 3 * s ^ 3 / 2 := fun s hs => by
    have := grow (f := fun s => w s - z - s • G z - (s ^ 2 / 2) • A (G z)) (k := 2) (c := 3 / 2 * K ^ 3) (by simp [h0])
      (fun s hs => (((hw s hs).sub_const z).sub (lin (G z) s)).sub (quad (A (G z)) s))
      (fun s hs => by
        have b1 := (T.r1 (w s - z)).trans (mul_le_mul_of_nonneg_left (pow_le_pow_left₀ (norm_nonneg _) (e1 s hs) 2) K0)
        rw [← ez] at b1
        have b2 := (A.le_of_opNorm_le T.first (w s - z - s • G z)).trans (mul_le_mul_of_nonneg_left (e2 s hs) K0)
        have : G (w s) - G z - s • A (G z) = (G (w s) - G z - A (w s - z)) + A (w s - z - s • G z) := by
          rw [map_sub A (w s - z), map_smul]; abel
        rw [this]
        refine (norm_add_le _ _).trans ((add_le_add b1 b2).trans_eq (by ring))) s hs
    refine this.trans_eq ?_
    norm_num; ring
  refine ⟨e2 s hs, ?_⟩
  have := grow (f := fun s => w s - z - s • G z - (s ^ 2 / 2) • A (G z) - (s ^ 3 / 6) • (A (A (G z)) + B (G z) (G z))) (k := 3)
    (c := 2 * K ^ 4) (by simp [h0])
    (fun s hs => ((((hw s hs).sub_const z).sub (lin (G z) s)).sub (quad (A (G z)) s)).sub (cub _ s))
    (fun s hs => by
      have s0 : 0 ≤ s := hs.1
      have b1 := (T.r2 (w s - z)).trans (mul_le_mul_of_nonneg_left (pow_le_pow_left₀ (norm_nonneg _) (e1 s hs) 3) K0)
      rw [← ez] at b1
      have b2 := (A.le_of_opNorm_le T.first (w s - z - s • G z - (s ^ 2 / 2) • A (G z))).trans
        (mul_le_mul_of_nonneg_left (e3 s hs) K0)
      have b3 : ‖B (w s - z) (w s - z - s • G z)‖ ≤ K * (K * s) * (K ^ 2 * s ^ 2 / 2) := by
        refine (B.le_opNorm₂ _ _).trans ?_
        have := T.second; have := e1 s hs; have := e2 s hs
        gcongr
      have b4 : ‖B (w s - z - s • G z) (s • G z)‖ ≤ K * (K ^ 2 * s ^ 2 / 2) * (s * K) := by
        refine (B.le_opNorm₂ _ _).trans ?_
        have := T.second; have := e2 s hs; have := T.value
        rw [norm_smul, Real.norm_of_nonneg s0]
        gcongr
      have : G (w s) - G z - s • A (G z) - (s ^ 2 / 2) • (A (A (G z)) + B (G z) (G z)) =
          (G (w s) - G z - A (w s - z) - (1 / 2 : ℝ) • B (w s - z) (w s - z)) +
            A (w s - z - s • G z - (s ^ 2 / 2) • A (G z)) +
            (1 / 2 : ℝ) • (B (w s - z) (w s - z - s • G z) + B (w s - z - s • G z) (s • G z)) := by
        simp only [map_sub, map_smul, sub_apply, smul_apply]
        module
      rw [this]
      refine (norm_add₃_le).trans ?_
      rw [norm_smul, Real.norm_of_nonneg (by norm_num : (0 : ℝ) ≤ 1 / 2)]
      have b5 := (norm_add_le (B (w s - z) (w s - z - s • G z)) (B (w s - z - s • G z) (s • G z))).trans (add_le_add b3 b4)
      linarith) s hs
  refine this.trans_eq ?_
  norm_num; ring

/-! ## The method -/

/-- The three stages. -/
noncomputable def stage2 (G : E → E) (h : ℝ) (z : E) : E := G (z + h • G z)
/-- The three stages. -/
noncomputable def stage3 (G : E → E) (h : ℝ) (z : E) : E := G (z + (h / 4) • (G z + stage2 G h z))
/-- A step of the method. -/
noncomputable def step (G : E → E) (h : ℝ) (z : E) : E := z + (h / 6) • (G z + stage2 G h z + (4 : ℝ) • stage3 G h z)

/-- The expansion of a step. -/
theorem step_expansion {G : E → E} {K : ℝ} {z : E} {A : E →L[ℝ] E} {B : E →L[ℝ] E →L[ℝ] E} (T : Taylor G K z A B) {h : ℝ}
    (h0 : 0 ≤ h) (hK : ‖stage2 G h z‖ ≤ K) :
    ‖step G h z - z - h • G z - (h ^ 2 / 2) • A (G z) - (h ^ 3 / 6) • (A (A (G z)) + B (G z) (G z))‖ ≤ K ^ 4 * h ^ 4 / 2 := by
  have K0 : 0 ≤ K := (norm_nonneg _).trans T.value
  have n1 : ‖h • G z‖ ≤ K * h := by
    rw [norm_smul, Real.norm_of_nonneg h0, mul_comm]; exact mul_le_mul_of_nonneg_right T.value h0
  -- second stage
  have a0 : ‖stage2 G h z - G z‖ ≤ K ^ 2 * h :=
    ((T.r0 (h • G z)).trans (mul_le_mul_of_nonneg_left n1 K0)).trans_eq (by ring)
  have a1 : ‖stage2 G h z - G z - h • A (G z)‖ ≤ K ^ 3 * h ^ 2 := by
    have := (T.r1 (h • G z)).trans (mul_le_mul_of_nonneg_left (pow_le_pow_left₀ (norm_nonneg _) n1 2) K0)
    rw [map_smul] at this
    exact this.trans_eq (by ring)
  have a2 : ‖stage2 G h z - G z - h • A (G z) - (h ^ 2 / 2) • B (G z) (G z)‖ ≤ K ^ 4 * h ^ 3 := by
    have := (T.r2 (h • G z)).trans (mul_le_mul_of_nonneg_left (pow_le_pow_left₀ (norm_nonneg _) n1 3) K0)
    simp only [map_smul, smul_apply, smul_smul] at this
    rw [show 1 / 2 * (h * h) = h ^ 2 / 2 by ring] at this
    exact this.trans_eq (by ring)
  -- displacement of the third stage
  let d := (h / 4) • (G z + stage2 G h z)
  have h4 : 0 ≤ h / 4 := by positivity
  have c0 : ‖d‖ ≤ K * h / 2 := by
    rw [norm_smul, Real.norm_of_nonneg h4]
    have := (norm_add_le (G z) (stage2 G h z)).trans (add_le_add T.value hK)
    exact (mul_le_mul_of_nonneg_left this h4).trans_eq (by ring)
  have c1 : ‖d - (h / 2) • G z‖ ≤ K ^ 2 * h ^ 2 / 4 := by
    have : d - (h / 2) • G z = (h / 4) • (stage2 G h z - G z) := by simp only [d]; module
    rw [this, norm_smul, Real.norm_of_nonneg h4]
    exact (mul_le_mul_of_nonneg_left a0 h4).trans_eq (by ring)
  have c2 : ‖d - (h / 2) • G z - (h ^ 2 / 4) • A (G z)‖ ≤ K ^ 3 * h ^ 3 / 4 := by
    have : d - (h / 2) • G z - (h ^ 2 / 4) • A (G z) = (h / 4) • (stage2 G h z - G z - h • A (G z)) := by simp only [d]; module
    rw [this, norm_smul, Real.norm_of_nonneg h4]
    exact (mul_le_mul_of_nonneg_left a1 h4).trans_eq (by ring)
  -- third stage
  have a3 : ‖stage3 G h z - G z - (h / 2) • A (G z) - (h ^ 2 / 4) • A (A (G z)) - (h ^ 2 / 8) • B (G z) (G z)‖ ≤
      K ^ 4 * h ^ 3 / 2 := by
    have b1 : ‖stage3 G h z - G z - A d - (1 / 2 : ℝ) • B d d‖ ≤ K * (K * h / 2) ^ 3 :=
      (T.r2 d).trans (mul_le_mul_of_nonneg_left (pow_le_pow_left₀ (norm_nonneg _) c0 3) K0)
    have b2 := (A.le_of_opNorm_le T.first (d - (h / 2) • G z - (h ^ 2 / 4) • A (G z))).trans (mul_le_mul_of_nonneg_left c2 K0)
    have b3 : ‖B d (d - (h / 2) • G z)‖ ≤ K * (K * h / 2) * (K ^ 2 * h ^ 2 / 4) := by
      refine (B.le_opNorm₂ _ _).trans ?_
      have := T.second
      gcongr
    have b4 : ‖B (d - (h / 2) • G z) ((h / 2) • G z)‖ ≤ K * (K ^ 2 * h ^ 2 / 4) * (h / 2 * K) := by
      refine (B.le_opNorm₂ _ _).trans ?_
      have := T.second; have := T.value
      rw [norm_smul, Real.norm_of_nonneg (by positivity : 0 ≤ h / 2)]
      gcongr
    have : stage3 G h z - G z - (h / 2) • A (G z) - (h ^ 2 / 4) • A (A (G z)) - (h ^ 2 / 8) • B (G z) (G z) =
        (stage3 G h z - G z - A d - (1 / 2 : ℝ) • B d d) + A (d - (h / 2) • G z - (h ^ 2 / 4) • A (G z)) +
          (1 / 2 : ℝ) • (B d (d - (h / 2) • G z) + B (d - (h / 2) • G z) ((h / 2) • G z)) := by
      simp only [map_sub, map_smul, sub_apply, smul_apply]
      module
    rw [this]
    refine (norm_add₃_le).trans ?_
    rw [norm_smul, Real.norm_of_nonneg (by norm_num : (0 : ℝ) ≤ 1 / 2)]
    have b5 := (norm_add_le (B d (d - (h / 2) • G z)) (B (d - (h / 2) • G z) ((h / 2) • G z))).trans (add_le_add b3 b4)
    linarith
  have : step G h z - z - h • G z - (h ^ 2 / 2) • A (G z) - (h ^ 3 / 6) • (A (A (G z)) + B (G z) (G z)) =
      (h / 6) • ((stage2 G h z - G z - h • A (G z) - (h ^ 2 / 2) • B (G z) (G z)) +
        (4 : ℝ) • (stage3 G h z - G z - (h / 2) • A (G z) - (h ^ 2 / 4) • A (A (G z)) - (h ^ 2 / 8) • B (G z) (G z))) := by
    simp only [step]; module
  rw [this, norm_smul, Real.norm_of_nonneg (by positivity : 0 ≤ h / 6)]
  have b : ‖(4 : ℝ) • (stage3 G h z - G z - (h / 2) • A (G z) - (h ^ 2 / 4) • A (A (G z)) - (h ^ 2 / 8) • B (G z) (G z))‖ ≤
      4 * (K ^ 4 * h ^ 3 / 2) := by
    rw [norm_smul, Real.norm_of_nonneg (by norm_num : (0 : ℝ) ≤ 4)]
    exact mul_le_mul_of_nonneg_left a3 (by norm_num)
  exact (mul_le_mul_of_nonneg_left ((norm_add_le _ _).trans (add_le_add a2 b)) (by positivity)).trans_eq (by ring)

/-- The local error of a step of either method. -/
theorem local_error {G : E → E} {K : ℝ} (hG : Bounded3 G K) {w : ℝ → E} {h : ℝ} (h0 : 0 ≤ h)
    (hw : ∀ s ∈ Icc 0 h, HasDerivWithinAt w (G (w s)) (Icc 0 h) s) :
    ‖w h - (w 0 + h • G (w 0))‖ ≤ (K * h) ^ 2 / 2 ∧ ‖w h - step G h (w 0)‖ ≤ (K * h) ^ 4 := by
  have T := taylor hG (w 0)
  have hK (p : E) : ‖G p‖ ≤ K := by simpa using hG.bound 0 (by omega) p
  obtain ⟨s1, s2⟩ := solution T rfl hw (fun s _ => hK _) h ⟨h0, le_rfl⟩
  have s3 := step_expansion T h0 (hK _)
  constructor
  · rw [← sub_sub]; exact s1.trans_eq (by ring)
  · have := (norm_sub_le _ _).trans (add_le_add s2 s3)
    refine (Eq.trans_le ?_ this).trans_eq (by ring)
    congr 1
    module

end Gals.RungeKutta
