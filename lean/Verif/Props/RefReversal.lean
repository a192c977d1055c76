import Verif.Props.RefConsistent
import Mathlib.Analysis.ODE.ExistUnique
import Mathlib.Topology.Order.IntermediateValue

/-!
# C80: exact end of the vortex test

Over the real numbers.  The velocity of the reference programs reverses at half of `T_period`, which is also the final time:
particles return, so that the exact level set at the end is the initial one, to which the programs can be compared.
-/

namespace Gals.Props

open Gals Gals.Ref Spec Set

/-- Paths in the vortex that meet at the end of the interval, or at its beginning, are the same. -/
theorem path_unique {u v : ℝ → ℝ → ℝ → ℝ} {K : ℝ} (hK : 1 ≤ K) (hu : Bounded3 (field u) K) (hv : Bounded3 (field v) K)
    {a b : ℝ} {X Y X' Y' : ℝ → ℝ} (h : Characteristic u v X Y a b) (h' : Characteristic u v X' Y' a b)
    (hm : (X b = X' b ∧ Y b = Y' b) ∨ (X a = X' a ∧ Y a = Y' a)) : ∀ s ∈ Icc a b, X s = X' s ∧ Y s = Y' s := by
  have K0 : 0 ≤ K := zero_le_one.trans hK
  have lip {w : ℝ → ℝ → ℝ → ℝ} (hw : Bounded3 (field w) K) (z z' : ℝ × ℝ × ℝ) : |field w z - field w z'| ≤ K * ‖z - z'‖ :=
    convex_univ.norm_image_sub_le_of_norm_fderiv_le (𝕜 := ℝ) (fun z _ => hw.smooth.differentiable (by norm_num) z)
      (fun z _ => by simpa using hw.bound 1 (by omega) z) (mem_univ z') (mem_univ z)
  let f : ℝ → ℝ × ℝ → ℝ × ℝ := fun t p => (field u (p.1, p.2, t), field v (p.1, p.2, t))
  have L (t : ℝ) : LipschitzOnWith ⟨K, K0⟩ (f t) univ := LipschitzOnWith.of_dist_le_mul fun p _ q _ => by
    rw [dist_eq_norm, dist_eq_norm]
    have e : ‖((p.1, p.2, t) : ℝ × ℝ × ℝ) - (q.1, q.2, t)‖ = ‖p - q‖ := by
      simp [Prod.norm_def]
    exact max_le ((lip hu _ _).trans_eq (by rw [e]; rfl)) ((lip hv _ _).trans_eq (by rw [e]; rfl))
  have D {X Y : ℝ → ℝ} (h : Characteristic u v X Y a b) (s : ℝ) (hs : s ∈ Icc a b) :
      HasDerivWithinAt (fun s => (X s, Y s)) (f s (X s, Y s)) (Icc a b) s := (h s hs).1.prodMk (h s hs).2
  have C {X Y : ℝ → ℝ} (h : Characteristic u v X Y a b) : ContinuousOn (fun s => (X s, Y s)) (Icc a b) :=
    fun s hs => (D h s hs).continuousWithinAt
  have E : EqOn (fun s => (X s, Y s)) (fun s => (X' s, Y' s)) (Icc a b) := by
    rcases hm with ⟨e1, e2⟩ | ⟨e1, e2⟩
    · refine ODE_solution_unique_of_mem_Icc_left (v := f) (s := fun _ => univ) (fun t _ => L t) (C h)
        (fun t ht => (D h t ⟨ht.1.le, ht.2⟩).mono_of_mem_nhdsWithin (Icc_mem_nhdsLE_of_mem ht)) (fun _ _ => trivial) (C h')
        (fun t ht => (D h' t ⟨ht.1.le, ht.2⟩).mono_of_mem_nhdsWithin (Icc_mem_nhdsLE_of_mem ht)) (fun _ _ => trivial) ?_
      simp only [e1, e2]
    · refine ODE_solution_unique_of_mem_Icc_right (v := f) (s := fun _ => univ) (fun t _ => L t) (C h)
        (fun t ht => (D h t ⟨ht.1, ht.2.le⟩).mono_of_mem_nhdsWithin (Icc_mem_nhdsGE_of_mem ht)) (fun _ _ => trivial) (C h')
        (fun t ht => (D h' t ⟨ht.1, ht.2.le⟩).mono_of_mem_nhdsWithin (Icc_mem_nhdsGE_of_mem ht)) (fun _ _ => trivial) ?_
      simp only [e1, e2]
  exact fun s hs => ⟨congrArg Prod.fst (E hs), congrArg Prod.snd (E hs)⟩

/-- Part of a path. -/
theorem _root_.Gals.Spec.Characteristic.mono {u v : ℝ → ℝ → ℝ → ℝ} {X Y : ℝ → ℝ} {a b a' b' : ℝ} (h : Characteristic u v X Y a b)
    (ha : a ≤ a') (hb : b' ≤ b) : Characteristic u v X Y a' b' := fun s hs =>
  have k : Icc a' b' ⊆ Icc a b := Icc_subset_Icc ha hb
  ⟨(h s (k hs)).1.mono k, (h s (k hs)).2.mono k⟩

/-- A velocity that is reversed at the time `c`: the path run backward. -/
theorem reversed {u v : ℝ → ℝ → ℝ → ℝ} {c : ℝ} (hu : ∀ x y t, u x y (2 * c - t) = -u x y t) (hv : ∀ x y t, v x y (2 * c - t) = -v x y t)
    {X Y : ℝ → ℝ} {a b : ℝ} (h : Characteristic u v X Y a b) :
    Characteristic u v (fun s => X (2 * c - s)) (fun s => Y (2 * c - s)) (2 * c - b) (2 * c - a) := by
  intro s hs
  have hs' : 2 * c - s ∈ Icc a b := ⟨by linarith [hs.2], by linarith [hs.1]⟩
  have m : MapsTo (fun s => 2 * c - s) (Icc (2 * c - b) (2 * c - a)) (Icc a b) := fun r hr => ⟨by linarith [hr.2], by linarith [hr.1]⟩
  have d : HasDerivWithinAt (fun s => 2 * c - s) (-1) (Icc (2 * c - b) (2 * c - a)) s :=
    ((hasDerivAt_id s).const_sub (2 * c)).hasDerivWithinAt
  have e1 := (h _ hs').1.scomp s d m
  have e2 := (h _ hs').2.scomp s d m
  simp only [hu, hv, smul_eq_mul, neg_mul_neg, one_mul] at e1 e2
  exact ⟨e1, e2⟩

open Real in
theorem vortex_reverses {T : ℝ} (hT : T ≠ 0) (x y t : ℝ) :
    (vortex T).velx x y (2 * (T / 2) - t) = -(vortex T).velx x y t ∧ (vortex T).vely x y (2 * (T / 2) - t) = -(vortex T).vely x y t := by
  have e : cos (π * (2 * (T / 2) - t) / T) = -cos (π * t / T) := by
    rw [show π * (2 * (T / 2) - t) / T = π - π * t / T by field_simp, cos_pi_sub]
  simp only [vortex, e, mul_neg, and_self]

/-- **C80**: a particle runs its path back in the second half of the period, and is at the end where it was at the beginning. -/
theorem C80_return {T : ℝ} (hT : 0 < T) {X Y : ℝ → ℝ} (h : Characteristic (vortex T).velx (vortex T).vely X Y 0 T) :
    (∀ s ∈ Icc 0 T, X (T - s) = X s ∧ Y (T - s) = Y s) ∧ X T = X 0 ∧ Y T = Y 0 := by
  obtain ⟨K, k1, b1, b2, -⟩ := C78_vortex hT
  have r := reversed (c := T / 2) (fun x y t => (vortex_reverses hT.ne' x y t).1) (fun x y t => (vortex_reverses hT.ne' x y t).2) h
  have e2 : 2 * (T / 2) = T := by ring
  rw [e2, sub_self, sub_zero] at r
  have U := path_unique k1 b1 b2 (r.mono le_rfl (by linarith : T / 2 ≤ T)) (h.mono le_rfl (by linarith : T / 2 ≤ T))
    (.inl ⟨by rw [show T - T / 2 = T / 2 by ring], by rw [show T - T / 2 = T / 2 by ring]⟩)
  have all (s : ℝ) (hs : s ∈ Icc 0 T) : X (T - s) = X s ∧ Y (T - s) = Y s := by
    rcases le_total s (T / 2) with hl | hl
    · exact U s ⟨hs.1, hl⟩
    · obtain ⟨p, q⟩ := U (T - s) ⟨by linarith [hs.2], by linarith⟩
      rw [sub_sub_cancel] at p q
      exact ⟨p.symm, q.symm⟩
  refine ⟨all, ?_⟩
  have := all 0 ⟨le_rfl, hT.le⟩
  rwa [sub_zero] at this

/-- **C80**: the exact level set after `n` steps that reach `T_period` is the initial one at every node, whatever it is. -/
theorem C80_end {T : ℝ} (hT : 0 < T) {c : Setting ℝ} {n : ℕ} (hn : n * c.dt = T) (f : ℝ → ℝ → ℝ) (i j : ℕ) :
    (∃ X Y, Characteristic (vortex T).velx (vortex T).vely X Y 0 (n * c.dt) ∧ X (n * c.dt) = posX c j ∧ Y (n * c.dt) = posY c i) ∧
    ∀ X Y, Characteristic (vortex T).velx (vortex T).vely X Y 0 (n * c.dt) → X (n * c.dt) = posX c j → Y (n * c.dt) = posY c i →
      f (X 0) (Y 0) = f (posX c j) (posY c i) := by
  rw [hn]
  obtain ⟨K, k1, b1, b2, ex⟩ := C78_vortex hT
  refine ⟨ex 0 T hT.le _ _, fun X Y h hX hY => ?_⟩
  obtain ⟨-, e1, e2⟩ := C80_return hT h
  rw [← e1, ← e2, hX, hY]

/-- **C80**: particles do not cross the walls of the unit square, and those on the walls do not move. -/
theorem C80_walls {T : ℝ} (hT : 0 < T) {X Y : ℝ → ℝ} {a b : ℝ} (h : Characteristic (vortex T).velx (vortex T).vely X Y a b) {r : ℝ}
    (hr : r ∈ Icc a b) :
    (((X r = 0 ∨ X r = 1) ∨ Y r = 0 ∨ Y r = 1) → ∀ s ∈ Icc a b, X s = X r ∧ Y s = Y r) ∧
      (X r ∈ Ioo (0 : ℝ) 1 → ∀ s ∈ Icc a b, X s ∈ Ioo (0 : ℝ) 1) ∧ (Y r ∈ Ioo (0 : ℝ) 1 → ∀ s ∈ Icc a b, Y s ∈ Ioo (0 : ℝ) 1) := by
  obtain ⟨K, k1, b1, b2, -⟩ := C78_vortex hT
  have W {r : ℝ} (hr : r ∈ Icc a b) (hw : (X r = 0 ∨ X r = 1) ∨ Y r = 0 ∨ Y r = 1) (s : ℝ) (hs : s ∈ Icc a b) : X s = X r ∧ Y s = Y r := by
    have hc (a b : ℝ) : Characteristic (vortex T).velx (vortex T).vely (fun _ => X r) (fun _ => Y r) a b := fun s _ => by
      obtain ⟨e1, e2⟩ := vortex_rest T hw s
      rw [e1, e2]
      exact ⟨hasDerivWithinAt_const _ _ _, hasDerivWithinAt_const _ _ _⟩
    rcases le_total s r with hl | hl
    · exact path_unique k1 b1 b2 (h.mono hs.1 hr.2) (hc s r) (.inl ⟨rfl, rfl⟩) s ⟨le_rfl, hl⟩
    · exact path_unique k1 b1 b2 (h.mono hr.1 hs.2) (hc r s) (.inr ⟨rfl, rfl⟩) s ⟨hl, le_rfl⟩
  have I {Z : ℝ → ℝ} (hZ : ContinuousOn Z (Icc a b)) (z0 : ∀ q ∈ Icc a b, (Z q = 0 ∨ Z q = 1) → Z r = Z q) (h1 : Z r ∈ Ioo (0 : ℝ) 1)
      (s : ℝ) (hs : s ∈ Icc a b) : Z s ∈ Ioo (0 : ℝ) 1 := by
    have sub : uIcc r s ⊆ Icc a b := by
      intro q hq
      rcases le_total r s with hl | hl
      · rw [uIcc_of_le hl] at hq; exact ⟨hr.1.trans hq.1, hq.2.trans hs.2⟩
      · rw [uIcc_of_ge hl] at hq; exact ⟨hs.1.trans hq.1, hq.2.trans hr.2⟩
    have iv := intermediate_value_uIcc (hZ.mono sub)
    constructor
    · by_contra hn
      obtain ⟨q, hq, e⟩ := iv (show (0 : ℝ) ∈ uIcc (Z r) (Z s) by rw [uIcc_of_ge (by linarith [h1.1])]; exact ⟨by linarith, h1.1.le⟩)
      have := z0 q (sub hq) (.inl e)
      rw [e] at this
      exact absurd this h1.1.ne'
    · by_contra hn
      obtain ⟨q, hq, e⟩ := iv (show (1 : ℝ) ∈ uIcc (Z r) (Z s) by rw [uIcc_of_le (by linarith [h1.2])]; exact ⟨h1.2.le, by linarith⟩)
      have := z0 q (sub hq) (.inr e)
      rw [e] at this
      exact absurd this h1.2.ne
  exact ⟨fun hw => W hr hw, I (fun s hs => (h s hs).1.continuousWithinAt) fun q hq hw => (W hq (.inl hw) r hr).1,
    I (fun s hs => (h s hs).2.continuousWithinAt) fun q hq hw => (W hq (.inr hw) r hr).2⟩

/-! ## Instances -/

/-- 256 steps of 1/256 with the settings of the programs: the level set is again the circle; there is such a path, and it moves. -/
example : Truncated (vortexSetting.tfinal / vortexSetting.dt) 256 ∧
    ∀ X Y, Characteristic (vortex 1).velx (vortex 1).vely X Y 0 ((256 : ℕ) * vortexSetting.dt) →
      X ((256 : ℕ) * vortexSetting.dt) = posX vortexSetting 64 → Y ((256 : ℕ) * vortexSetting.dt) = posY vortexSetting 20 →
      initPhi (X 0) (Y 0) = initPhi (posX vortexSetting 64) (posY vortexSetting 20) := by
  constructor
  · constructor <;> norm_num [vortexSetting]
  · exact (C80_end one_pos (c := vortexSetting) (n := 256) (by norm_num [vortexSetting]) initPhi 20 64).2

/-- The path that is at (1/2, 1/4) at time 1 exists, stays in the open square and has the velocity (-1, 0) at time 1. -/
example : ∃ X Y, Characteristic (vortex 1).velx (vortex 1).vely X Y 0 1 ∧ X 0 = 1 / 2 ∧ Y 0 = 1 / 4 ∧
    (∀ s ∈ Icc (0 : ℝ) 1, X s ∈ Ioo (0 : ℝ) 1 ∧ Y s ∈ Ioo (0 : ℝ) 1) ∧ HasDerivWithinAt X (-1) (Icc 0 1) 1 := by
  obtain ⟨K, -, -, -, ex⟩ := C78_vortex (T := 1) one_pos
  obtain ⟨X, Y, h, hX, hY⟩ := ex 0 1 zero_le_one (1 / 2) (1 / 4)
  obtain ⟨-, e1, e2⟩ := C80_return one_pos h
  obtain ⟨-, w1, w2⟩ := C80_walls one_pos h (r := 1) ⟨zero_le_one, le_rfl⟩
  refine ⟨X, Y, h, by rw [← e1, hX], by rw [← e2, hY], fun s hs => ⟨w1 (by rw [hX]; constructor <;> norm_num) s hs,
    w2 (by rw [hY]; constructor <;> norm_num) s hs⟩, ?_⟩
  have d := (h 1 ⟨zero_le_one, le_rfl⟩).1
  rw [hX, hY] at d
  simp only [vortex] at d
  rw [show Real.pi * (1 / 2) = Real.pi / 2 by ring, show 2 * Real.pi * (1 / 4) = Real.pi / 2 by ring] at d
  simpa using d

end Gals.Props
