import Verif.Lemmas.RungeKutta
import Verif.Props.RefAdvect
import Mathlib.Analysis.Calculus.Deriv.Prod

/-!
# C78: order of the departure points

Over the real numbers.  The departure point of a node is compared with the position, one time step earlier, of the particle that
arrives at the node.
-/

namespace Gals.Props

open Gals Gals.Ref Spec Set

/-- The field of the velocity and the time, backward in time, as a function of position and time. -/
def backward (u v : ℝ → ℝ → ℝ → ℝ) (z : ℝ × ℝ × ℝ) : ℝ × ℝ × ℝ := -(field u z, field v z, 1)

theorem bounded3_backward {u v : ℝ → ℝ → ℝ → ℝ} {K : ℝ} (hK : 1 ≤ K) (hu : Bounded3 (field u) K) (hv : Bounded3 (field v) K) :
    Bounded3 (backward u v) K := by
  have s1 : ContDiff ℝ 3 (fun _ : ℝ × ℝ × ℝ => (1 : ℝ)) := contDiff_const
  refine ⟨(hu.smooth.prodMk (hv.smooth.prodMk s1)).neg, fun k hk z => ?_⟩
  have hk' : (k : WithTop ℕ∞) ≤ 3 := by exact_mod_cast hk
  have e : iteratedFDeriv ℝ k (backward u v) z = -((iteratedFDeriv ℝ k (field u) z).prod
      ((iteratedFDeriv ℝ k (field v) z).prod (iteratedFDeriv ℝ k (fun _ : ℝ × ℝ × ℝ => (1 : ℝ)) z))) := by
    rw [← iteratedFDeriv_prodMk hv.smooth.contDiffAt s1.contDiffAt hk',
      ← iteratedFDeriv_prodMk hu.smooth.contDiffAt (hv.smooth.prodMk s1).contDiffAt hk', ← iteratedFDeriv_neg_apply]
    rfl
  have h1 : ‖iteratedFDeriv ℝ k (fun _ : ℝ × ℝ × ℝ => (1 : ℝ)) z‖ ≤ K := by
    rcases Nat.eq_zero_or_pos k with rfl | hp
    · simpa using hK
    · rw [iteratedFDeriv_const_of_ne hp.ne']; simpa using zero_le_one.trans hK
  rw [e, norm_neg, ContinuousMultilinearMap.opNorm_prod, ContinuousMultilinearMap.opNorm_prod]
  exact max_le (hu.bound k hk z) (max_le (hv.bound k hk z) h1)

/-- A path, backward in time from `b`. -/
theorem backward_path {u v : ℝ → ℝ → ℝ → ℝ} {X Y : ℝ → ℝ} {a b : ℝ} (hc : Characteristic u v X Y a b) :
    ∀ s ∈ Icc 0 (b - a), HasDerivWithinAt (fun s => (X (b - s), Y (b - s), b - s))
      (backward u v (X (b - s), Y (b - s), b - s)) (Icc 0 (b - a)) s := by
  intro s hs
  have hm : b - s ∈ Icc a b := ⟨by linarith [hs.2], by linarith [hs.1]⟩
  have d : HasDerivWithinAt (fun s : ℝ => b - s) (-1) (Icc 0 (b - a)) s := by
    simpa using (hasDerivWithinAt_id s _).const_sub b
  have mt : MapsTo (fun s : ℝ => b - s) (Icc 0 (b - a)) (Icc a b) := fun s hs => ⟨by linarith [hs.2], by linarith [hs.1]⟩
  have dx := (hc _ hm).1.comp s d mt
  have dy := (hc _ hm).2.comp s d mt
  have := dx.prodMk (dy.prodMk d)
  refine this.congr_deriv ?_
  simp [backward, field]

/-- A step of the method, backward in time, is the departure point. -/
theorem departRK3_step (u v : ℝ → ℝ → ℝ → ℝ) (h t1 x y : ℝ) :
    departRK3 u v h (t1 - h) (t1 - h / 2) t1 x y =
      ((RungeKutta.step (backward u v) h (x, y, t1)).1, (RungeKutta.step (backward u v) h (x, y, t1)).2.1) := by
  have b (p q r : ℝ) : backward u v (p, q, r) = (-u p q r, -v p q r, -1) := rfl
  have s2 : RungeKutta.stage2 (backward u v) h (x, y, t1) = backward u v (x - h * u x y t1, y - h * v x y t1, t1 - h) := by
    rw [RungeKutta.stage2, b x y t1]
    refine congrArg (backward u v) ?_
    simp only [Prod.smul_mk, Prod.mk_add_mk, smul_eq_mul, Prod.mk.injEq]
    refine ⟨by ring, by ring, by ring⟩
  have s3 : RungeKutta.stage3 (backward u v) h (x, y, t1) =
      backward u v (x - h * (u x y t1 + u (x - h * u x y t1) (y - h * v x y t1) (t1 - h)) / 4,
        y - h * (v x y t1 + v (x - h * u x y t1) (y - h * v x y t1) (t1 - h)) / 4, t1 - h / 2) := by
    rw [RungeKutta.stage3, s2, b x y t1, b (x - h * u x y t1)]
    refine congrArg (backward u v) ?_
    simp only [Prod.smul_mk, Prod.mk_add_mk, smul_eq_mul, Prod.mk.injEq]
    refine ⟨by ring, by ring, by ring⟩
  rw [RungeKutta.step, s2, s3, b, b, b]
  simp only [departRK3, Prod.smul_mk, Prod.mk_add_mk, smul_eq_mul, Prod.mk.injEq]
  constructor <;> ring

/-- Bound of the error of a departure point: fourth power of the time step for Runge-Kutta, second power for Euler. -/
noncomputable def departBound (rk3 : Bool) (K dt : ℝ) : ℝ := if rk3 then (K * dt) ^ 4 else (K * dt) ^ 2 / 2

/-- **C78**, the formulas: the particle that is at `(X, Y)` at the end of step `t` is, at its beginning, near the departure point of
its position. -/
theorem C78_order {u v : ℝ → ℝ → ℝ → ℝ} {K : ℝ} (hK : 1 ≤ K) (hu : Bounded3 (field u) K) (hv : Bounded3 (field v) K) (rk3 : Bool)
    (t : ℕ) {dt : ℝ} (h0 : 0 ≤ dt) {X Y : ℝ → ℝ} (hc : Characteristic u v X Y (t * dt) ((t + 1) * dt)) :
    let p := departAt u v rk3 t dt (X ((t + 1) * dt)) (Y ((t + 1) * dt))
    |p.1 - X (t * dt)| ≤ departBound rk3 K dt ∧ |p.2 - Y (t * dt)| ≤ departBound rk3 K dt := by
  intro p
  have e0 : (t : ℝ) * dt = ((t : ℝ) + 1) * dt - dt := by ring
  have eh : ((t : ℝ) + 1 / 2) * dt = ((t : ℝ) + 1) * dt - dt / 2 := by ring
  have P := backward_path hc
  rw [show ((t : ℝ) + 1) * dt - t * dt = dt by ring] at P
  obtain ⟨l1, l2⟩ := RungeKutta.local_error (bounded3_backward hK hu hv) h0 P
  simp only [sub_zero] at l1 l2
  have comp (a b : ℝ × ℝ × ℝ) : |b.1 - a.1| ≤ ‖a - b‖ ∧ |b.2.1 - a.2.1| ≤ ‖a - b‖ := by
    rw [abs_sub_comm, abs_sub_comm b.2.1]
    exact ⟨norm_fst_le (a - b), (norm_fst_le (a - b).2).trans (norm_snd_le (a - b))⟩
  simp only [p, departAt, departBound]
  cases rk3
  · simp only [Bool.false_eq_true, if_false]
    have c := comp (X (t * dt), Y (t * dt), (t : ℝ) * dt) ((X ((t + 1) * dt), Y ((t + 1) * dt), ((t : ℝ) + 1) * dt) +
      dt • backward u v (X ((t + 1) * dt), Y ((t + 1) * dt), ((t : ℝ) + 1) * dt))
    rw [← e0] at l1
    refine ⟨(Eq.trans_le ?_ c.1).trans l1, (Eq.trans_le ?_ c.2).trans l1⟩ <;>
      simp [departEuler, backward, field, sub_eq_add_neg]
  · simp only [if_true]
    have r := departRK3_step u v dt ((t + 1) * dt) (X ((t + 1) * dt)) (Y ((t + 1) * dt))
    rw [← eh, ← e0] at r
    rw [r]
    rw [← e0] at l2
    have c := comp (X (t * dt), Y (t * dt), (t : ℝ) * dt)
      (RungeKutta.step (backward u v) dt (X ((t + 1) * dt), Y ((t + 1) * dt), ((t : ℝ) + 1) * dt))
    exact ⟨c.1.trans l2, c.2.trans l2⟩

/-! ## The programs -/

/-- **C78** for the OpenMP and MPI versions: after the loop over columns `lo` to `hi - 1`, run under any schedule, the departure point
of every node is within the bound of the place where the particle that arrives at the node was before the step. -/
theorem C78_openmp_mpi (v : Vel ℝ) {K : ℝ} (hK : 1 ≤ K) (hu : Bounded3 (field v.velx) K) (hv : Bounded3 (field v.vely) K)
    (rk3 : Bool) {t : ℕ} (ht : t + 1 < uMod) {dt : ℝ} (h0 : 0 ≤ dt) {m : Mem (Val ℝ)} {nx ny : ℕ} {xs ys : ℕ → ℝ}
    (hm : CpuAdv m nx ny xs ys) {lo hi : ℕ} (hh : hi ≤ nx) :
    ∃ mf, runAll (advMpi v rk3 t dt ny lo hi) m = .ok mf ∧ Spec.ScheduleIndependent (advMpi v rk3 t dt ny lo hi) m mf ∧
      ∀ i < ny, ∀ j < hi, lo ≤ j → ∃ px py, mf (.d .xadv i j) = .val px ∧ mf (.d .yadv i j) = .val py ∧
        ∀ X Y, Characteristic v.velx v.vely X Y (t * dt) ((t + 1) * dt) → X ((t + 1) * dt) = xs j → Y ((t + 1) * dt) = ys i →
          |px - X (t * dt)| ≤ departBound rk3 K dt ∧ |py - Y (t * dt)| ≤ departBound rk3 K dt := by
  obtain ⟨mf, e, h1, h2, -⟩ := C43_openmp_mpi v rk3 ht dt hm (lo := lo) hh
  refine ⟨mf, e, h1, fun i hi' j hj hlo => ⟨_, _, (h2 i hi' j hj hlo).1, (h2 i hi' j hj hlo).2, fun X Y hc hX hY => ?_⟩⟩
  rw [← hX, ← hY]
  exact C78_order hK hu hv rk3 t h0 hc

/-- **C78** for the serial version, at the nodes that its loop visits (all but the last row and column, C43). -/
theorem C78_serial (v : Vel ℝ) {K : ℝ} (hK : 1 ≤ K) (hu : Bounded3 (field v.velx) K) (hv : Bounded3 (field v.vely) K)
    (rk3 : Bool) {t : ℕ} (ht : t + 1 < uMod) {dt : ℝ} (h0 : 0 ≤ dt) {m : Mem (Val ℝ)} {nx ny : ℕ} {xs ys : ℕ → ℝ}
    (hm : CpuAdv m nx ny xs ys) (hx : 0 < nx) (hx' : nx < uMod) (hy : 0 < ny) (hy' : ny < uMod) :
    ∃ mf, runAll (advSerial v rk3 t dt nx ny) m = .ok mf ∧
      ∀ i, i + 1 < ny → ∀ j, j + 1 < nx → ∃ px py, mf (.d .xadv i j) = .val px ∧ mf (.d .yadv i j) = .val py ∧
        ∀ X Y, Characteristic v.velx v.vely X Y (t * dt) ((t + 1) * dt) → X ((t + 1) * dt) = xs j → Y ((t + 1) * dt) = ys i →
          |px - X (t * dt)| ≤ departBound rk3 K dt ∧ |py - Y (t * dt)| ≤ departBound rk3 K dt := by
  obtain ⟨mf, e, h2, -⟩ := C43_serial_partial v rk3 ht dt hm hx hx' hy hy'
  refine ⟨mf, e, fun i hi j hj => ⟨_, _, (h2 i hi j hj).1, (h2 i hi j hj).2, fun X Y hc hX hY => ?_⟩⟩
  rw [← hX, ← hY]
  exact C78_order hK hu hv rk3 t h0 hc

/-- **C78** for the CUDA version. -/
theorem C78_cuda (v : Vel ℝ) {K : ℝ} (hK : 1 ≤ K) (hu : Bounded3 (field v.velx) K) (hv : Bounded3 (field v.vely) K) {t : ℕ}
    (ht : t + 1 < uMod) {dt : ℝ} (h0 : 0 ≤ dt) {m : Mem (Val ℝ)} {nx ny tile : ℕ} {xs ys : ℕ → ℝ} (hm : CudaAdv m nx ny xs ys)
    (hx : nx < uMod) (hy : ny < uMod) (hxy : nx * ny ≤ uMod) (h1 : 0 < tile) (dx : tile ∣ nx) (dy : tile ∣ ny) :
    ∃ ts mf, launch tile nx ny = .ok ts ∧ runAll (kernel tile ts (advCuda v t dt nx)) m = .ok mf ∧
      Spec.ScheduleIndependent (kernel tile ts (advCuda v t dt nx)) m mf ∧
      ∀ i < ny, ∀ j < nx, ∃ px py, mf (.d .xadv 0 (i * nx + j)) = .val px ∧ mf (.d .yadv 0 (i * nx + j)) = .val py ∧
        ∀ X Y, Characteristic v.velx v.vely X Y (t * dt) ((t + 1) * dt) → X ((t + 1) * dt) = xs j → Y ((t + 1) * dt) = ys i →
          |px - X (t * dt)| ≤ (K * dt) ^ 4 ∧ |py - Y (t * dt)| ≤ (K * dt) ^ 4 := by
  obtain ⟨ts, mf, e, e', h2, h3, -⟩ := C43_cuda v ht dt hm hx hy hxy h1 dx dy
  refine ⟨ts, mf, e, e', h2, fun i hi j hj => ⟨_, _, (h3 i hi j hj).1, (h3 i hi j hj).2, fun X Y hc hX hY => ?_⟩⟩
  rw [← hX, ← hY]
  exact C78_order hK hu hv true t h0 hc

/-! ## Paths exist -/

/-- A bounded smooth field has a path through every point, over any time. -/
theorem exists_path {u v : ℝ → ℝ → ℝ → ℝ} {K : ℝ} (hK : 1 ≤ K) (hu : Bounded3 (field u) K) (hv : Bounded3 (field v) K)
    {a b : ℝ} (hab : a ≤ b) (x y : ℝ) : ∃ X Y, Characteristic u v X Y a b ∧ X b = x ∧ Y b = y := by
  have K0 : 0 ≤ K := zero_le_one.trans hK
  have lip {w : ℝ → ℝ → ℝ → ℝ} (hw : Bounded3 (field w) K) (z z' : ℝ × ℝ × ℝ) : |field w z - field w z'| ≤ K * ‖z - z'‖ :=
    convex_univ.norm_image_sub_le_of_norm_fderiv_le (𝕜 := ℝ) (fun z _ => hw.smooth.differentiable (by norm_num) z)
      (fun z _ => by simpa using hw.bound 1 (by omega) z) (mem_univ z') (mem_univ z)
  have val {w : ℝ → ℝ → ℝ → ℝ} (hw : Bounded3 (field w) K) (z : ℝ × ℝ × ℝ) : |field w z| ≤ K := by
    simpa using hw.bound 0 (by omega) z
  have cont {w : ℝ → ℝ → ℝ → ℝ} (hw : Bounded3 (field w) K) : Continuous (field w) := hw.smooth.continuous
  let f : ℝ → ℝ × ℝ → ℝ × ℝ := fun t p => (field u (p.1, p.2, t), field v (p.1, p.2, t))
  have PL : IsPicardLindelof f (⟨b, hab, le_rfl⟩ : Icc a b) (x, y) ⟨K * (b - a), mul_nonneg K0 (by linarith)⟩ 0 ⟨K, K0⟩ ⟨K, K0⟩ := by
    refine ⟨fun t _ => LipschitzOnWith.of_dist_le_mul fun p _ q _ => ?_, fun p _ => ?_, fun t _ p _ => ?_, ?_⟩
    · rw [dist_eq_norm, dist_eq_norm]
      have e : ‖((p.1, p.2, t) : ℝ × ℝ × ℝ) - (q.1, q.2, t)‖ = ‖p - q‖ := by
        simp [Prod.norm_def]
      exact max_le ((lip hu _ _).trans_eq (by rw [e]; rfl)) ((lip hv _ _).trans_eq (by rw [e]; rfl))
    · exact (((cont hu).comp (by fun_prop)).prodMk ((cont hv).comp (by fun_prop))).continuousOn
    · exact max_le (val hu _) (val hv _)
    · show K * max (b - b) (b - a) ≤ K * (b - a) - 0
      rw [max_eq_right (by linarith), sub_zero]
  obtain ⟨w, w0, hw⟩ := PL.exists_eq_forall_mem_Icc_hasDerivWithinAt₀
  have w0' : w b = (x, y) := w0
  refine ⟨fun s => (w s).1, fun s => (w s).2, fun s hs => ⟨?_, ?_⟩, by simp [w0'], by simp [w0']⟩
  · exact (hasFDerivAt_fst (𝕜 := ℝ) (p := w s)).comp_hasDerivWithinAt s (hw s hs)
  · exact (hasFDerivAt_snd (𝕜 := ℝ) (p := w s)).comp_hasDerivWithinAt s (hw s hs)

/-! ## The vortex -/

/-- A smooth function that is periodic in all variables is bounded, with its derivatives. -/
theorem bounded_of_periodic {f : ℝ × ℝ × ℝ → ℝ} (hf : ContDiff ℝ 3 f) {p q r : ℝ} (hp : 0 < p) (hq : 0 < q) (hr : 0 < r)
    (f1 : ∀ z, f (z + (p, 0, 0)) = f z) (f2 : ∀ z, f (z + (0, q, 0)) = f z) (f3 : ∀ z, f (z + (0, 0, r)) = f z) :
    ∃ K, Bounded3 f K := by
  have one (k : ℕ) (hk : k ≤ 3) : ∃ C, ∀ z, ‖iteratedFDeriv ℝ k f z‖ ≤ C := by
    have hk' : (k : WithTop ℕ∞) ≤ 3 := by exact_mod_cast hk
    have hc := hf.continuous_iteratedFDeriv hk'
    have sh (a : ℝ × ℝ × ℝ) (ha : ∀ z, f (z + a) = f z) (z : ℝ × ℝ × ℝ) : iteratedFDeriv ℝ k f (z + a) = iteratedFDeriv ℝ k f z := by
      rw [← iteratedFDeriv_comp_add_right]; congr 1; funext z; exact ha z
    obtain ⟨C, hC⟩ := (isCompact_Icc (a := ((0, 0, 0) : ℝ × ℝ × ℝ)) (b := (p, q, r))).exists_bound_of_continuousOn hc.continuousOn
    refine ⟨C, fun z => ?_⟩
    have P1 (y t : ℝ) : Function.Periodic (fun x => iteratedFDeriv ℝ k f (x, y, t)) p := fun x => by
      have := sh _ f1 (x, y, t); simpa using this
    have P2 (x t : ℝ) : Function.Periodic (fun y => iteratedFDeriv ℝ k f (x, y, t)) q := fun y => by
      have := sh _ f2 (x, y, t); simpa using this
    have P3 (x y : ℝ) : Function.Periodic (fun t => iteratedFDeriv ℝ k f (x, y, t)) r := fun t => by
      have := sh _ f3 (x, y, t); simpa using this
    obtain ⟨x, hx, ex⟩ := (P1 z.2.1 z.2.2).exists_mem_Ico₀ hp z.1
    obtain ⟨y, hy, ey⟩ := (P2 x z.2.2).exists_mem_Ico₀ hq z.2.1
    obtain ⟨t, ht, et⟩ := (P3 x y).exists_mem_Ico₀ hr z.2.2
    have e : iteratedFDeriv ℝ k f z = iteratedFDeriv ℝ k f (x, y, t) := (ex.trans ey).trans et
    rw [e]
    exact hC _ ⟨⟨hx.1, hy.1, ht.1⟩, hx.2.le, hy.2.le, ht.2.le⟩
  choose! C hC using one
  have n (k : ℕ) (hk : k ≤ 3) : 0 ≤ C k := (norm_nonneg _).trans (hC k hk 0)
  refine ⟨C 0 + C 1 + C 2 + C 3, hf, fun k hk z => ?_⟩
  have := hC k hk z
  have := n 0 (by omega); have := n 1 (by omega); have := n 2 (by omega); have := n 3 (by omega)
  interval_cases k <;> linarith

open Real in
/-- **C78** for the vortex: one constant bounds velocity and derivatives at all points and times, and paths exist. -/
theorem C78_vortex {T : ℝ} (hT : 0 < T) : ∃ K, 1 ≤ K ∧ Bounded3 (field (vortex T).velx) K ∧ Bounded3 (field (vortex T).vely) K ∧
    ∀ a b : ℝ, a ≤ b → ∀ x y, ∃ X Y, Characteristic (vortex T).velx (vortex T).vely X Y a b ∧ X b = x ∧ Y b = y := by
  have hs (a : ℝ) : sin (π * (a + 1)) ^ 2 = sin (π * a) ^ 2 := by
    rw [mul_add, mul_one, sin_add_pi, neg_sq]
  have h2 (a : ℝ) : sin (2 * π * (a + 1)) = sin (2 * π * a) := by
    rw [mul_add, mul_one, sin_add_two_pi]
  have ht (a : ℝ) : cos (π * (a + 2 * T) / T) = cos (π * a / T) := by
    rw [show π * (a + 2 * T) / T = π * a / T + 2 * π by field_simp, cos_add_two_pi]
  obtain ⟨K1, k1⟩ := bounded_of_periodic (f := field (vortex T).velx) (p := 1) (q := 1) (r := 2 * T)
    (by unfold field vortex; fun_prop) one_pos one_pos (by positivity)
    (fun z => by simp [field, vortex, hs]) (fun z => by simp [field, vortex, h2]) (fun z => by simp [field, vortex, ht])
  obtain ⟨K2, k2⟩ := bounded_of_periodic (f := field (vortex T).vely) (p := 1) (q := 1) (r := 2 * T)
    (by unfold field vortex; fun_prop) one_pos one_pos (by positivity)
    (fun z => by simp [field, vortex, h2]) (fun z => by simp [field, vortex, hs]) (fun z => by simp [field, vortex, ht])
  have m1 : Bounded3 (field (vortex T).velx) (max 1 (max K1 K2)) :=
    ⟨k1.smooth, fun k hk z => (k1.bound k hk z).trans ((le_max_left _ _).trans (le_max_right _ _))⟩
  have m2 : Bounded3 (field (vortex T).vely) (max 1 (max K1 K2)) :=
    ⟨k2.smooth, fun k hk z => (k2.bound k hk z).trans ((le_max_right _ _).trans (le_max_right _ _))⟩
  exact ⟨_, le_max_left _ _, m1, m2, fun a b hab x y => exists_path (le_max_left _ _) m1 m2 hab x y⟩

/-! ## Instances -/

/-- 4 x 4 nodes in the unit square, in rows for the CPU versions and flat for the CUDA version. -/
noncomputable def unitAdv (flat : Bool) : Mem (Val ℝ)
  | .d .x 0 j => if j < 4 then .val (j / 3 : ℝ) else .oob
  | .d .y 0 i => if i < 4 then .val (i / 3 : ℝ) else .oob
  | .d .xadv i j => if (if flat then i = 0 ∧ j < 16 else i < 4 ∧ j < 4) then .uninit else .oob
  | .d .yadv i j => if (if flat then i = 0 ∧ j < 16 else i < 4 ∧ j < 4) then .uninit else .oob
  | _ => .oob

theorem unitAdv_cpu : CpuAdv (unitAdv false) 4 4 (fun j => (j / 3 : ℝ)) (fun i => (i / 3 : ℝ)) where
  x j hj := by simp [unitAdv, hj]
  y i hi := by simp [unitAdv, hi]
  xadv i hi j hj := by simp [unitAdv, hi, hj]
  yadv i hi j hj := by simp [unitAdv, hi, hj]

theorem unitAdv_cuda : CudaAdv (unitAdv true) 4 4 (fun j => (j / 3 : ℝ)) (fun i => (i / 3 : ℝ)) where
  x j hj := by simp [unitAdv, hj]
  y i hi := by simp [unitAdv, hi]
  xadv k hk := by simp [unitAdv, show k < 16 by omega]
  yadv k hk := by simp [unitAdv, show k < 16 by omega]

/-- Instance of the theorems for the programs: step 5 of the vortex with period 1, any time step; at the node `(1/3, 2/3)`, which
moves, there is a particle to compare with. -/
example : ∃ K, ∀ dt : ℝ, 0 ≤ dt → (∃ X Y, Characteristic (vortex 1).velx (vortex 1).vely X Y ((5 : ℕ) * dt) (((5 : ℕ) + 1) * dt) ∧
    X (((5 : ℕ) + 1) * dt) = 1 / 3 ∧ Y (((5 : ℕ) + 1) * dt) = 2 / 3 ∧
    (∃ mf px, runAll (advMpi (vortex 1) true 5 dt 4 0 4) (unitAdv false) = .ok mf ∧ mf (.d .xadv 2 1) = .val px ∧
      |px - X ((5 : ℕ) * dt)| ≤ (K * dt) ^ 4) ∧
    (∃ mf px, runAll (advSerial (vortex 1) false 5 dt 4 4) (unitAdv false) = .ok mf ∧ mf (.d .xadv 2 1) = .val px ∧
      |px - X ((5 : ℕ) * dt)| ≤ (K * dt) ^ 2 / 2) ∧
    ∃ ts mf px, launch 2 4 4 = .ok ts ∧ runAll (kernel 2 ts (advCuda (vortex 1) 5 dt 4)) (unitAdv true) = .ok mf ∧
      mf (.d .xadv 0 9) = .val px ∧ |px - X ((5 : ℕ) * dt)| ≤ (K * dt) ^ 4) := by
  obtain ⟨K, hK, hu, hv, path⟩ := C78_vortex one_pos
  refine ⟨K, fun dt h0 => ?_⟩
  obtain ⟨X, Y, hc, hX, hY⟩ := path ((5 : ℕ) * dt) (((5 : ℕ) + 1) * dt) (by nlinarith) (1 / 3) (2 / 3)
  refine ⟨X, Y, hc, hX, hY, ?_, ?_, ?_⟩
  · obtain ⟨mf, e, -, h⟩ := C78_openmp_mpi (vortex 1) hK hu hv true (t := 5) (by decide) h0 unitAdv_cpu (lo := 0) (hi := 4) le_rfl
    obtain ⟨px, py, hx, -, hp⟩ := h 2 (by omega) 1 (by omega) (by omega)
    exact ⟨mf, px, e, hx, (hp X Y hc (by rw [hX]; norm_num) (by rw [hY]; norm_num)).1⟩
  · obtain ⟨mf, e, h⟩ := C78_serial (vortex 1) hK hu hv false (t := 5) (by decide) h0 unitAdv_cpu (by omega) (by decide) (by omega)
      (by decide)
    obtain ⟨px, py, hx, -, hp⟩ := h 2 (by omega) 1 (by omega)
    exact ⟨mf, px, e, hx, (hp X Y hc (by rw [hX]; norm_num) (by rw [hY]; norm_num)).1⟩
  · obtain ⟨ts, mf, el, e, -, h⟩ := C78_cuda (vortex 1) hK hu hv (t := 5) (by decide) h0 unitAdv_cuda (tile := 2) (by decide)
      (by decide) (by decide) (by omega) (by decide) (by decide)
    obtain ⟨px, py, hx, -, hp⟩ := h 2 (by omega) 1 (by omega)
    exact ⟨ts, mf, px, el, e, hx, (hp X Y hc (by rw [hX]; norm_num) (by rw [hY]; norm_num)).1⟩

/-- Instance of `C78_order`: step 5 of the vortex with period 1. -/
example : ∃ K, ∀ dt : ℝ, 0 ≤ dt → ∃ X Y, Characteristic (vortex 1).velx (vortex 1).vely X Y ((5 : ℕ) * dt) (((5 : ℕ) + 1) * dt) ∧
    X (((5 : ℕ) + 1) * dt) = 1 / 3 ∧ Y (((5 : ℕ) + 1) * dt) = 2 / 3 ∧
    |(departAt (vortex 1).velx (vortex 1).vely true 5 dt (1 / 3) (2 / 3)).1 - X ((5 : ℕ) * dt)| ≤ (K * dt) ^ 4 := by
  obtain ⟨K, hK, hu, hv, path⟩ := C78_vortex one_pos
  refine ⟨K, fun dt h0 => ?_⟩
  obtain ⟨X, Y, hc, hX, hY⟩ := path ((5 : ℕ) * dt) (((5 : ℕ) + 1) * dt) (by nlinarith) (1 / 3) (2 / 3)
  have := (C78_order hK hu hv true 5 h0 hc).1
  rw [hX, hY] at this
  exact ⟨X, Y, hc, hX, hY, this⟩

end Gals.Props
