import Verif.Lemmas.RefMixed
import Verif.Lemmas.Sched
import Verif.Props.RefUpdate

/-!
# C45, C47: mixed derivatives of the reference code
-/

set_option linter.unusedSectionVars false
set_option linter.unusedSimpArgs false

namespace Gals.Props

open Gals Gals.Ref

variable {K : Type} [Field K] [CharZero K]

/-! ## Whole loops -/

/-- Arrays of the CPU versions before the mixed derivatives are updated. -/
structure CpuMix (m : Mem (Val K)) (nx ny : ℕ) (px py : ℕ → ℕ → K) : Prop where
  x : Grid2 m .temppsix nx ny px
  y : Grid2 m .temppsiy nx ny py
  xy : ∀ k < ny, ∀ l < nx, m (.d .temppsixy k l) ≠ .oob
  temp : ∀ l, IsTemp l → m l ≠ .oob
  nx2 : 2 ≤ nx
  ny2 : 2 ≤ ny
  nxu : nx < uMod
  nyu : ny < uMod

/-- The sequential loop (serial and MPI versions, and the OpenMP version with one thread) computes the stencil at every
node; no gradient and no other array is changed. -/
theorem mixed_sequential {m : Mem (Val K)} {nx ny : ℕ} {px py : ℕ → ℕ → K} (h : CpuMix m nx ny px py) (dx dy : K) :
    ∃ mf, runAll (mixed nx ny dx dy 0 nx) m = .ok mf ∧
      (∀ i < ny, ∀ j < nx, mf (.d .temppsixy i j) = .val (Spec.mixedStencil px py nx ny dx dy i j)) ∧
      ∀ l, (∀ i < ny, ∀ j < nx, l ≠ .d .temppsixy i j) → ¬ IsTemp l → mf l = m l := by
  obtain ⟨mf, e, h1, h2, -⟩ := mixed_run dx dy h.nx2 h.ny2 h.nxu h.nyu (nodes ny 0 nx)
    (fun c hc => by have := mem_nodes.1 hc; omega) h.x h.y h.xy h.temp
  refine ⟨mf, e, fun i hi j hj => h1 (i, j) (mem_nodes.2 ⟨hi, Nat.zero_le _, hj⟩), fun l hl ht => h2 l (fun c hc => ?_) ht⟩
  have := mem_nodes.1 hc
  exact hl _ this.1 _ this.2.2

/-! ## C45: schedules -/

/-- C45 for the CUDA kernel, whose temporaries are private: any launch on a grid below 2^32 nodes. -/
theorem C45_cuda (dx dy : K) {tile nx ny : ℕ} {ts : List (ℕ × ℕ × ℕ × ℕ)} (el : launch tile nx ny = .ok ts)
    (hx : nx < uMod) (hy : ny < uMod) (hxy : nx * ny ≤ uMod) {m mf : Mem (Val K)}
    (e : runAll (kernel tile ts (mixedCuda nx ny dx dy)) m = .ok mf) :
    Spec.ScheduleIndependent (kernel tile ts (mixedCuda nx ny dx dy)) m mf :=
  scheduleIndependent (kernel_owned el hx hy hxy fun ix iy => mixedCuda_owned nx ny dx dy ix iy).1 e

/-- C45 for the OpenMP loop, partial: when the iterations run whole, one at a time, in any order, the result is that of the
sequential loop.  Missing: iterations that overlap, for which the claim is false (`C45_false`, `C45_race`). -/
theorem C45_atomic_partial {m : Mem (Val K)} {nx ny : ℕ} {px py : ℕ → ℕ → K} (h : CpuMix m nx ny px py) (dx dy : K)
    (cs : List (ℕ × ℕ)) (hp : cs.Perm (nodes ny 0 nx)) :
    ∃ mf mf', runAll (mixed nx ny dx dy 0 nx) m = .ok mf ∧
      runAll (cs.map fun c => mixedBody nx ny dx dy c.1 c.2) m = .ok mf' ∧ ∀ l, ¬ IsTemp l → mf' l = mf l := by
  obtain ⟨mf, e, h1, h2, -⟩ := mixed_run dx dy h.nx2 h.ny2 h.nxu h.nyu (nodes ny 0 nx)
    (fun c hc => by have := mem_nodes.1 hc; omega) h.x h.y h.xy h.temp
  obtain ⟨mf', e', h1', h2', -⟩ := mixed_run dx dy h.nx2 h.ny2 h.nxu h.nyu cs
    (fun c hc => by have := mem_nodes.1 (hp.mem_iff.1 hc); omega) h.x h.y h.xy h.temp
  refine ⟨mf, mf', e, e', fun l hl => ?_⟩
  by_cases hc : ∃ c ∈ nodes ny 0 nx, l = .d .temppsixy c.1 c.2
  · obtain ⟨c, hc, rfl⟩ := hc
    rw [h1 c hc, h1' c (hp.mem_iff.2 hc)]
  · push Not at hc
    rw [h2 l hc hl, h2' l (fun c hc' => hc c (hp.mem_iff.1 hc')) hl]

/-- An interior iteration writes the shared temporary `dxy1`. -/
theorem interior_writes_dxy1 (dx dy : K) {nx ny k l : ℕ} (nxu : nx < uMod) (nyu : ny < uMod) (hk : 0 < k ∧ k + 1 < ny)
    (hl : 0 < l ∧ l + 1 < nx) : (mixedBody nx ny dx dy k l).Writes (.d .dxy1 0 0) := by
  have ex : usub nx 1 = nx - 1 := usub_eq (by omega) nxu
  have ey : usub ny 1 = ny - 1 := usub_eq (by omega) nyu
  unfold mixedBody
  rw [ex, ey, if_neg (by omega), if_neg (by omega), if_neg (by omega)]
  simp [getD, setD, Prog.get, Prog.set, Prog.bind, Prog.Writes, Val]

/-- Two iterations of the OpenMP loop at interior nodes are never independent, on no grid and for no data: `dxy1` and
`dxy2`, declared outside the parallel region, are shared.  By the OpenMP rules this is a data race. -/
theorem C45_race (dx dy : K) {nx ny k l k' l' : ℕ} (nxu : nx < uMod) (nyu : ny < uMod) (hk : 0 < k ∧ k + 1 < ny)
    (hl : 0 < l ∧ l + 1 < nx) (hk' : 0 < k' ∧ k' + 1 < ny) (hl' : 0 < l' ∧ l' + 1 < nx) :
    ¬ Indep (mixedBody nx ny dx dy k l) (mixedBody nx ny dx dy k' l') := fun h =>
  ((h _).1 (interior_writes_dxy1 dx dy nxu nyu hk hl)).2 (interior_writes_dxy1 dx dy nxu nyu hk' hl')

/-- 4 x 3 nodes with gradients `(i² + j, i + j³)` and shared temporaries as declared. -/
def demoMix : Mem (Val ℚ)
  | .d .temppsix i j => if i < 3 ∧ j < 4 then .val (i * i + j) else .oob
  | .d .temppsiy i j => if i < 3 ∧ j < 4 then .val (i + j ^ 3) else .oob
  | .d .temppsixy i j => if i < 3 ∧ j < 4 then .val 0 else .oob
  | .d .d1 0 0 => .uninit
  | .d .d2 0 0 => .uninit
  | .d .d3 0 0 => .uninit
  | .d .d4 0 0 => .uninit
  | .d .dxy1 0 0 => .uninit
  | .d .dxy2 0 0 => .uninit
  | _ => .oob

theorem demoMix_arrays : CpuMix demoMix 4 3 (fun i j => i * i + j) (fun i j => i + j ^ 3) where
  x i hi j hj := by simp [demoMix, hi, hj]
  y i hi j hj := by simp [demoMix, hi, hj]
  xy i hi j hj := by simp [demoMix, hi, hj]
  temp l h := by rcases h with rfl | rfl | rfl | rfl | rfl | rfl <;> simp [demoMix]
  nx2 := by omega
  ny2 := by omega
  nxu := by decide
  nyu := by decide

/-- The 12 iterations of the 4 x 3 grid split as `schedule(static)` splits them over two threads: the first six in loop
order, then the last six. -/
def demoThreads : List (List (P ℚ Unit)) :=
  [(mixed 4 3 1 1 0 4).take 6, (mixed 4 3 1 1 0 4).drop 6]

/-- The interleaving: thread 0 up to and including its assignment to `dxy1` at node (1, 1); thread 1 its first iteration,
node (1, 2); thread 0 to its end; thread 1 to its end. -/
def demoOrder : List ℕ := List.replicate 46 0 ++ List.replicate 9 1 ++ List.replicate 6 0 ++ List.replicate 43 1

/-- The value of a node in the final memory, if the order can be executed and all threads end. -/
def demoOutcome (is : List ℕ) (i j : ℕ) : Option ℚ :=
  match sched is (demoThreads.map Prog.seqAll, demoMix) with
  | none => none
  | some (qs, m) =>
    match qs.all Prog.isEnd, m (.d .temppsixy i j) with
    | true, .val a => some a
    | _, _ => none

theorem demoOutcome_spec {is : List ℕ} {i j : ℕ} {a : ℚ} (h : demoOutcome is i j = some a) :
    ∃ qs m', Interleaves (demoThreads.map Prog.seqAll, demoMix) (qs, m') ∧ Ended qs ∧ m' (.d .temppsixy i j) = .val a := by
  unfold demoOutcome at h
  split at h
  · cases h
  · rename_i qs m' e
    split at h
    · rename_i e1 e2
      cases h
      exact ⟨qs, m', sched_interleaves e, ended_of_isEnd e1, e2⟩
    · cases h

/-- C45 is false for the OpenMP loop: on a 4 x 3 grid with two threads and the static schedule of the code an interleaving
ends with a mixed derivative different from the sequential one. -/
theorem C45_false : ∃ mf, runAll (mixed 4 3 (1 : ℚ) 1 0 4) demoMix = .ok mf ∧
    ¬ Spec.ScheduleIndependent (mixed 4 3 (1 : ℚ) 1 0 4) demoMix mf ∧
    ∃ qs m', Interleaves (demoThreads.map Prog.seqAll, demoMix) (qs, m') ∧ Ended qs ∧
      m' (.d .temppsixy 1 1) ≠ mf (.d .temppsixy 1 1) := by
  obtain ⟨mf, e, h, -⟩ := mixed_sequential demoMix_arrays 1 1
  obtain ⟨qs, m', hi, he, hv⟩ := demoOutcome_spec (is := demoOrder) (i := 1) (j := 1) (a := 15 / 2) (by decide +kernel)
  have hne : m' (.d .temppsixy 1 1) ≠ mf (.d .temppsixy 1 1) := by
    rw [hv, h 1 (by omega) 1 (by omega), ne_eq, slot_val_inj]
    simp [Spec.mixedStencil, Spec.dX, Spec.dY]
    norm_num
  refine ⟨mf, e, fun hs => ?_, qs, m', hi, he, hne⟩
  have hp : demoThreads.flatten.Perm (mixed 4 3 (1 : ℚ) 1 0 4) := by
    simp [demoThreads]
  exact hne (by rw [((hs _ hp _ _ hi).2.1 he)])

/-! ## C47: GPU and CPU -/

/-- Arrays of the CUDA version before the mixed derivatives are updated. -/
structure CudaMix (m : Mem (Val K)) (nx ny : ℕ) (px py : ℕ → ℕ → K) : Prop extends MixIn m nx ny px py where
  xy : ∀ k < nx * ny, m (.d .temppsixy 0 k) ≠ .oob

/-- What the CUDA kernel computes under every schedule, when the tile divides the grid. -/
theorem mixed_kernel {m : Mem (Val K)} {nx ny tile : ℕ} {px py : ℕ → ℕ → K} (h : CudaMix m nx ny px py) (dx dy : K)
    (h0 : 0 < tile) (tx : tile ∣ nx) (ty : tile ∣ ny) :
    ∃ ts mf, launch tile nx ny = .ok ts ∧ runAll (kernel tile ts (mixedCuda nx ny dx dy)) m = .ok mf ∧
      Spec.ScheduleIndependent (kernel tile ts (mixedCuda nx ny dx dy)) m mf ∧
      (∀ i < ny, ∀ j < nx, mf (.d .temppsixy 0 (i * nx + j)) = .val (cudaStencil px py nx ny dx dy i j)) ∧
      ∀ l, (∀ k < nx * ny, l ≠ .d .temppsixy 0 k) → mf l = m l := by
  have hxy := h.size
  have nx2 := h.nx2
  have ny2 := h.ny2
  have nxu : nx < uMod := lt_of_le_of_lt (Nat.le_mul_of_pos_right _ (by omega)) hxy
  have nyu : ny < uMod := lt_of_le_of_lt (Nat.le_mul_of_pos_left _ (by omega)) hxy
  obtain ⟨ts, el, hone⟩ := C46_exactly_once_partial h0 nxu nyu tx ty
  obtain ⟨hin, hnd⟩ := C46_at_most_once el nxu nyu hxy.le
  have hb : ∀ c ∈ ts, Owned mixOwner (0, indexW nx (indexX tile c) (indexY tile c))
      (mixedCuda nx ny dx dy (indexX tile c) (indexY tile c)) := fun c _ => mixedCuda_owned nx ny dx dy _ _
  have hn := (kernel_owned el nxu nyu hxy.le fun ix iy => mixedCuda_owned nx ny dx dy ix iy).2
  obtain ⟨mf, e, h1, h2⟩ := runAll_wp ts hb hn
    (Q := fun c m' => CudaMixedAt m m' (indexW nx (indexX tile c) (indexY tile c))
      (cudaStencil px py nx ny dx dy (indexY tile c) (indexX tile c))) fun c hc => by
      obtain ⟨c1, c2, c3, c4⟩ := hin c hc
      exact mixedCuda_wp h.toMixIn dx dy c2 c1 (by rw [c3]; exact h.xy _ c4)
  refine ⟨ts, mf, el, e, C45_cuda dx dy el nxu nyu hxy.le e, fun i hi j hj => ?_, fun l hl => h2 l fun c hc => ?_⟩
  · have := hone j hj i hi
    obtain ⟨c, hc⟩ := List.length_pos_iff_exists_mem.1 (by omega : 0 < (ts.filter
      fun c => indexX tile c = j ∧ indexY tile c = i).length)
    rw [List.mem_filter, decide_eq_true_iff] at hc
    obtain ⟨hc, eX, eY⟩ := hc
    obtain ⟨m', hs, ho⟩ := h1 c hc
    obtain ⟨c1, c2, c3, c4⟩ := hin c hc
    simp only [eX, eY] at hs ho c3
    rw [← c3]
    exact (ho _ rfl).trans hs.val
  · obtain ⟨c1, c2, c3, c4⟩ := hin c hc
    have := hl _ c4
    rw [c3]
    rintro ho
    cases l with
    | n a i j => cases ho
    | d a i j =>
      cases a <;> simp only [mixOwner, Option.some.injEq, reduceCtorEq, Prod.mk.injEq] at ho
      obtain ⟨rfl, rfl⟩ := ho
      exact this rfl

/-- C47, partial: from the same gradients the CPU loop and the CUDA kernel (tile dividing the grid) store the same mixed
derivative at every node but the first of the last row; there the CUDA value exceeds the CPU value by
`(ψ_x(ny-1, 1) - ψ_x(ny-1, 0)) / (4 dy)`.  Missing: agreement at that node, which is false (`C47_false`). -/
theorem C47_partial {m g : Mem (Val K)} {nx ny tile : ℕ} {px py : ℕ → ℕ → K} (hm : CpuMix m nx ny px py)
    (hg : CudaMix g nx ny px py) (dx dy : K) (h0 : 0 < tile) (tx : tile ∣ nx) (ty : tile ∣ ny) :
    ∃ ts mf gf, launch tile nx ny = .ok ts ∧ runAll (mixed nx ny dx dy 0 nx) m = .ok mf ∧
      runAll (kernel tile ts (mixedCuda nx ny dx dy)) g = .ok gf ∧
      (∀ i < ny, ∀ j < nx, ¬ (i = ny - 1 ∧ j = 0) → gf (.d .temppsixy 0 (i * nx + j)) = mf (.d .temppsixy i j)) ∧
      ∃ a, mf (.d .temppsixy (ny - 1) 0) = .val a ∧
        gf (.d .temppsixy 0 ((ny - 1) * nx)) = .val (a + (px (ny - 1) 1 - px (ny - 1) 0) / (4 * dy)) := by
  have nx2 := hm.nx2
  have ny2 := hm.ny2
  obtain ⟨mf, e, h, -⟩ := mixed_sequential hm dx dy
  obtain ⟨ts, gf, el, e', -, h', -⟩ := mixed_kernel hg dx dy h0 tx ty
  refine ⟨ts, mf, gf, el, e, e', fun i hi j hj hn => ?_, _, h (ny - 1) (by omega) 0 (by omega), ?_⟩
  · rw [h i hi j hj, h' i hi j hj, cudaStencil, if_neg hn]
  · have := h' (ny - 1) (by omega) 0 (by omega)
    rw [Nat.add_zero] at this
    rw [this, slot_val_inj, cudaStencil, if_pos ⟨rfl, rfl⟩]
    simp only [Spec.mixedStencil, Spec.eX, Spec.eY]
    have e1 : ¬ ny - 1 = 0 := by omega
    have e2 : ny - 2 + 1 = ny - 1 := by omega
    rw [if_neg (by omega), if_neg (by omega), if_neg (by omega)]
    simp only [e1, e2, if_true, if_false, Nat.zero_add]
    rw [mul_comm (4 : K) dy, ← div_div (_ - _) dy 4]
    ring

/-- 4 x 4 nodes with gradients `(j, 0)` for the CUDA version. -/
def demoMixCuda : Mem (Val ℚ)
  | .d .temppsix 0 k => if k < 16 then .val ((k % 4 : ℕ) : ℚ) else .oob
  | .d .temppsiy 0 k => if k < 16 then .val 0 else .oob
  | .d .temppsixy 0 k => if k < 16 then .uninit else .oob
  | _ => .oob

theorem demoMixCuda_arrays : CudaMix demoMixCuda 4 4 (fun _ j => (j : ℚ)) (fun _ _ => 0) where
  x i hi j hj := by
    simp only [demoMixCuda]
    rw [if_pos (by omega), show (i * 4 + j) % 4 = j by omega]
  y i hi j hj := by
    simp only [demoMixCuda]
    rw [if_pos (by omega)]
  nx2 := by omega
  ny2 := by omega
  size := by decide
  xy k hk := by simp [demoMixCuda]; omega

/-- The same gradients for the CPU versions. -/
def demoMixCpu : Mem (Val ℚ)
  | .d .temppsix i j => if i < 4 ∧ j < 4 then .val j else .oob
  | .d .temppsiy i j => if i < 4 ∧ j < 4 then .val 0 else .oob
  | .d .temppsixy i j => if i < 4 ∧ j < 4 then .val 7 else .oob
  | .d _ 0 0 => .uninit
  | _ => .oob

theorem demoMixCpu_arrays : CpuMix demoMixCpu 4 4 (fun _ j => (j : ℚ)) (fun _ _ => 0) where
  x i hi j hj := by simp [demoMixCpu, hi, hj]
  y i hi j hj := by simp [demoMixCpu, hi, hj]
  xy i hi j hj := by simp [demoMixCpu, hi, hj]
  temp l h := by rcases h with rfl | rfl | rfl | rfl | rfl | rfl <;> simp [demoMixCpu]
  nx2 := by omega
  ny2 := by omega
  nxu := by decide
  nyu := by decide

/-- C47 is false: 4 x 4 nodes, `ψ = x²/2` (gradient `(x, 0)`, mixed derivative 0): the CPU code stores 0 at the first node of
the last row, the CUDA code 1/4. -/
theorem C47_false : ∃ ts mf gf, launch 2 4 4 = .ok ts ∧ runAll (mixed 4 4 (1 : ℚ) 1 0 4) demoMixCpu = .ok mf ∧
    runAll (kernel 2 ts (mixedCuda 4 4 (1 : ℚ) 1)) demoMixCuda = .ok gf ∧
    mf (.d .temppsixy 3 0) = .val (0 : ℚ) ∧ gf (.d .temppsixy 0 12) = .val (1 / 4 : ℚ) := by
  obtain ⟨mf, e, h, -⟩ := mixed_sequential demoMixCpu_arrays 1 1
  obtain ⟨ts, gf, el, e', -, h', -⟩ := mixed_kernel demoMixCuda_arrays 1 1 (tile := 2) (by omega) (by decide) (by decide)
  refine ⟨ts, mf, gf, el, e, e', ?_, ?_⟩
  · rw [h 3 (by omega) 0 (by omega)]
    simp [Spec.mixedStencil, Spec.eX, Spec.eY]
  · have := h' 3 (by omega) 0 (by omega)
    rw [show 3 * 4 + 0 = 12 from rfl] at this
    rw [this]
    simp [cudaStencil]

/-- The hypotheses of `C47_partial` hold for these memories. -/
example := C47_partial demoMixCpu_arrays demoMixCuda_arrays (1 / 3) (1 / 2) (tile := 4) (by omega) (by decide) (by decide)

/-- The hypotheses of `C45_atomic_partial` hold for the iterations of `demoMix` in reverse order. -/
example := C45_atomic_partial demoMix_arrays (1 / 3) (1 / 2) (nodes 3 0 4).reverse (List.reverse_perm _)

/-- The hypotheses of `C45_cuda` hold for `demoMixCuda`. -/
example : ∃ ts mf, Spec.ScheduleIndependent (kernel 2 ts (mixedCuda 4 4 (1 / 3) (1 / 2))) demoMixCuda mf := by
  obtain ⟨ts, mf, el, e, -⟩ := mixed_kernel demoMixCuda_arrays (1 / 3) (1 / 2) (tile := 2) (by omega) (by decide) (by decide)
  exact ⟨ts, mf, C45_cuda _ _ el (by decide) (by decide) (by decide) e⟩

/-- The hypotheses of `C45_race` hold for the nodes (1, 1) and (1, 2) of the 4 x 3 grid. -/
example : ¬ Indep (mixedBody 4 3 (1 : ℚ) 1 1 1) (mixedBody 4 3 (1 : ℚ) 1 1 2) :=
  C45_race 1 1 (by decide) (by decide) (by omega) (by omega) (by omega) (by omega)

end Gals.Props
