import Verif.Lemmas.RefAdvect
import Verif.Props.RefSearch

/-!
# C43: departure points in the serial, OpenMP, MPI and CUDA versions
-/

set_option linter.unusedSectionVars false

namespace Gals.Props

open Gals Gals.Ref

variable {K : Type} [Field K] [CharZero K]

/-- The arrays of the CPU versions: nodes `xs`, `ys`, and room for the departure points of `ny` rows of `nx` nodes. -/
structure CpuAdv (m : Mem (Val K)) (nx ny : ℕ) (xs ys : ℕ → K) : Prop where
  x : ∀ j < nx, m (.d .x 0 j) = .val (xs j)
  y : ∀ i < ny, m (.d .y 0 i) = .val (ys i)
  xadv : ∀ i < ny, ∀ j < nx, m (.d .xadv i j) ≠ .oob
  yadv : ∀ i < ny, ∀ j < nx, m (.d .yadv i j) ≠ .oob

/-- The arrays of the CUDA version. -/
structure CudaAdv (m : Mem (Val K)) (nx ny : ℕ) (xs ys : ℕ → K) : Prop where
  x : ∀ j < nx, m (.d .x 0 j) = .val (xs j)
  y : ∀ i < ny, m (.d .y 0 i) = .val (ys i)
  xadv : ∀ k < nx * ny, m (.d .xadv 0 k) ≠ .oob
  yadv : ∀ k < nx * ny, m (.d .yadv 0 k) ≠ .oob

/-- Pairwise independent iterations whose sequential run is defined are independent of the schedule. -/
theorem scheduleIndependent {L : Type} [DecidableEq L] {V : L → Type} {ps : List (Prog V Unit)} (hi : ps.Pairwise Indep)
    {m mf : Mem V} (e : runAll ps m = .ok mf) : Spec.ScheduleIndependent ps m mf :=
  fun css hp _ _ h => interleaving_eq_sequential hi e css hp h

/-- The loop over columns `lo` to `hi - 1` (the OpenMP version calls it with `0`, `nx`, each MPI rank with its half): every
schedule of the iterations ends, without undefined behaviour, with the departure point of every node of these columns, and
nothing else is changed. -/
theorem C43_openmp_mpi (v : Vel K) (rk3 : Bool) {t : ℕ} (ht : t + 1 < uMod) (dt : K) {m : Mem (Val K)} {nx ny : ℕ}
    {xs ys : ℕ → K} (hm : CpuAdv m nx ny xs ys) {lo hi : ℕ} (hh : hi ≤ nx) :
    ∃ mf, runAll (advMpi v rk3 t dt ny lo hi) m = .ok mf ∧ Spec.ScheduleIndependent (advMpi v rk3 t dt ny lo hi) m mf ∧
      (∀ i < ny, ∀ j < hi, lo ≤ j →
        mf (.d .xadv i j) = .val (Spec.departAt v.velx v.vely rk3 t dt (xs j) (ys i)).1 ∧
        mf (.d .yadv i j) = .val (Spec.departAt v.velx v.vely rk3 t dt (xs j) (ys i)).2) ∧
      ∀ l, (∀ i < ny, ∀ j < hi, lo ≤ j → l ≠ .d .xadv i j ∧ l ≠ .d .yadv i j) → mf l = m l := by
  have hb : ∀ c ∈ nodes ny lo hi, Owned advOwner (id c) (advBodyMpi v rk3 t dt c.1 c.2) :=
    fun c _ => advBodyMpi_owned v rk3 t dt c.1 c.2
  have hn : ((nodes ny lo hi).map id).Nodup := by simpa using nodup_nodes ny lo hi
  obtain ⟨mf, e, h1, h2⟩ := runAll_wp (nodes ny lo hi) hb hn
    (Q := fun c m' => Stored m m' c.1 c.2 (depart v rk3 t dt (xs c.2) (ys c.1))) fun c hc => by
      obtain ⟨c1, c2, c3⟩ := mem_nodes.1 hc
      exact advBodyMpi_wp v rk3 t dt (hm.x _ (by omega)) (hm.y _ c1) (hm.xadv _ c1 _ (by omega)) (hm.yadv _ c1 _ (by omega))
  refine ⟨mf, e, scheduleIndependent (pairwise_owned _ hb hn) e, fun i hi' j hj hlo => ?_, fun l hl => h2 l fun c hc => ?_⟩
  · obtain ⟨m', hs, ho⟩ := h1 (i, j) (mem_nodes.2 ⟨hi', hlo, hj⟩)
    rw [← depart_eq v rk3 ht]
    exact ⟨(ho _ rfl).trans hs.x, (ho _ rfl).trans hs.y⟩
  · obtain ⟨c1, c2, c3⟩ := mem_nodes.1 hc
    obtain ⟨n1, n2⟩ := hl c.1 c1 c.2 c3 c2
    rintro ho
    cases l with
    | n a i j => cases ho
    | d a i j =>
      cases a <;> simp only [advOwner, id, Option.some.injEq, reduceCtorEq] at ho
      · subst ho; exact n1 rfl
      · subst ho; exact n2 rfl

/-- The serial version computes the departure point of every node but those of the last row and the last column, which it
does not touch. -/
theorem C43_serial_partial (v : Vel K) (rk3 : Bool) {t : ℕ} (ht : t + 1 < uMod) (dt : K) {m : Mem (Val K)} {nx ny : ℕ}
    {xs ys : ℕ → K} (hm : CpuAdv m nx ny xs ys) (hx : 0 < nx) (hx' : nx < uMod) (hy : 0 < ny) (hy' : ny < uMod) :
    ∃ mf, runAll (advSerial v rk3 t dt nx ny) m = .ok mf ∧
      (∀ i, i + 1 < ny → ∀ j, j + 1 < nx →
        mf (.d .xadv i j) = .val (Spec.departAt v.velx v.vely rk3 t dt (xs j) (ys i)).1 ∧
        mf (.d .yadv i j) = .val (Spec.departAt v.velx v.vely rk3 t dt (xs j) (ys i)).2) ∧
      ∀ l, (∀ i, i + 1 < ny → ∀ j, j + 1 < nx → l ≠ .d .xadv i j ∧ l ≠ .d .yadv i j) → mf l = m l := by
  unfold advSerial
  rw [usub_eq (by omega) hx', usub_eq (by omega) hy']
  have hb : ∀ c ∈ nodes (ny - 1) 0 (nx - 1), Owned advOwner (id c) (advBody v rk3 t dt c.1 c.2) :=
    fun c _ => advBody_owned v rk3 t dt c.1 c.2
  have hn : ((nodes (ny - 1) 0 (nx - 1)).map id).Nodup := by simpa using nodup_nodes (ny - 1) 0 (nx - 1)
  obtain ⟨mf, e, h1, h2⟩ := runAll_wp (nodes (ny - 1) 0 (nx - 1)) hb hn
    (Q := fun c m' => Stored m m' c.1 c.2 (depart v rk3 t dt (xs c.2) (ys c.1))) fun c hc => by
      obtain ⟨c1, c2, c3⟩ := mem_nodes.1 hc
      exact advBody_wp v rk3 t dt (hm.x _ (by omega)) (hm.y _ (by omega)) (hm.xadv _ (by omega) _ (by omega))
        (hm.yadv _ (by omega) _ (by omega))
  refine ⟨mf, e, fun i hi' j hj => ?_, fun l hl => h2 l fun c hc => ?_⟩
  · obtain ⟨m', hs, ho⟩ := h1 (i, j) (mem_nodes.2 ⟨by simp only; omega, by simp only; omega, by simp only; omega⟩)
    rw [← depart_eq v rk3 ht]
    exact ⟨(ho _ rfl).trans hs.x, (ho _ rfl).trans hs.y⟩
  · obtain ⟨c1, c2, c3⟩ := mem_nodes.1 hc
    obtain ⟨n1, n2⟩ := hl c.1 (by omega) c.2 (by omega)
    rintro ho
    cases l with
    | n a i j => cases ho
    | d a i j =>
      cases a <;> simp only [advOwner, id, Option.some.injEq, reduceCtorEq] at ho
      · subst ho; exact n1 rfl
      · subst ho; exact n2 rfl

/-- The CUDA version computes, for every interleaving of its threads, the third-order departure point of every node of a
grid whose sides the tile divides, whatever backtracking scheme is configured. -/
theorem C43_cuda (v : Vel K) {t : ℕ} (ht : t + 1 < uMod) (dt : K) {m : Mem (Val K)} {nx ny tile : ℕ}
    {xs ys : ℕ → K} (hm : CudaAdv m nx ny xs ys) (hx : nx < uMod) (hy : ny < uMod) (hxy : nx * ny ≤ uMod) (h0 : 0 < tile)
    (dx : tile ∣ nx) (dy : tile ∣ ny) :
    ∃ ts mf, launch tile nx ny = .ok ts ∧ runAll (kernel tile ts (advCuda v t dt nx)) m = .ok mf ∧
      Spec.ScheduleIndependent (kernel tile ts (advCuda v t dt nx)) m mf ∧
      (∀ i < ny, ∀ j < nx,
        mf (.d .xadv 0 (i * nx + j)) = .val (Spec.departAt v.velx v.vely true t dt (xs j) (ys i)).1 ∧
        mf (.d .yadv 0 (i * nx + j)) = .val (Spec.departAt v.velx v.vely true t dt (xs j) (ys i)).2) ∧
      ∀ l, (∀ k < nx * ny, l ≠ .d .xadv 0 k ∧ l ≠ .d .yadv 0 k) → mf l = m l := by
  obtain ⟨ts, el, hone⟩ := C46_exactly_once_partial h0 hx hy dx dy
  obtain ⟨hin, hnd⟩ := C46_at_most_once el hx hy hxy
  have hb : ∀ c ∈ ts, Owned advOwner (0, indexW nx (indexX tile c) (indexY tile c))
      (advCuda v t dt nx (indexX tile c) (indexY tile c)) := fun c _ => advCuda_owned v t dt nx _ _
  have hn : (ts.map fun c => ((0 : ℕ), indexW nx (indexX tile c) (indexY tile c))).Nodup := by
    rw [show (fun c => ((0 : ℕ), indexW nx (indexX tile c) (indexY tile c))) =
      Prod.mk 0 ∘ fun c => indexW nx (indexX tile c) (indexY tile c) from rfl, ← List.map_map]
    exact hnd.map fun a b h => (Prod.mk.inj h).2
  obtain ⟨mf, e, h1, h2⟩ := runAll_wp ts hb hn
    (Q := fun c m' => Stored m m' 0 (indexW nx (indexX tile c) (indexY tile c))
      (depart v true t dt (xs (indexX tile c)) (ys (indexY tile c)))) fun c hc => by
      obtain ⟨c1, c2, c3, c4⟩ := hin c hc
      refine advCuda_wp v t dt (hm.x _ c1) (hm.y _ c2) (hm.xadv _ ?_) (hm.yadv _ ?_) <;> rw [c3] <;> exact c4
  refine ⟨ts, mf, el, e, scheduleIndependent (pairwise_owned _ hb hn) e, fun i hi j hj => ?_, fun l hl => h2 l fun c hc => ?_⟩
  · have := hone j hj i hi
    obtain ⟨c, hc⟩ := List.length_pos_iff_exists_mem.1 (by omega : 0 < (ts.filter
      fun c => indexX tile c = j ∧ indexY tile c = i).length)
    rw [List.mem_filter, decide_eq_true_iff] at hc
    obtain ⟨hc, eX, eY⟩ := hc
    obtain ⟨m', hs, ho⟩ := h1 c hc
    obtain ⟨c1, c2, c3, c4⟩ := hin c hc
    simp only [eX, eY] at hs ho c3
    rw [← depart_eq v true ht, ← c3]
    exact ⟨(ho _ rfl).trans hs.x, (ho _ rfl).trans hs.y⟩
  · obtain ⟨c1, c2, c3, c4⟩ := hin c hc
    obtain ⟨n1, n2⟩ := hl _ c4
    rw [c3]
    rintro ho
    cases l with
    | n a i j => cases ho
    | d a i j =>
      cases a <;> simp only [advOwner, Option.some.injEq, reduceCtorEq, Prod.mk.injEq] at ho
      · obtain ⟨rfl, rfl⟩ := ho; exact n1 rfl
      · obtain ⟨rfl, rfl⟩ := ho; exact n2 rfl

/-! ## Examples and the counterexamples -/

/-- A velocity field without symmetries, polynomial in `x`, `y`, `t`. -/
def demoVel : Vel ℚ where
  velx x y t := 1 + 2 * x - y + t
  vely x y t := x * y - 3 * t
  gradUx _ _ _ := 2
  gradUy _ _ _ := -1
  gradVx _ y _ := y
  gradVy x _ _ := x

/-- 4 x 3 nodes at the integers; departure points 0 as after `resize`. -/
def demoAdv : Mem (Val ℚ)
  | .d .x 0 j => if j < 4 then .val j else .oob
  | .d .y 0 i => if i < 3 then .val i else .oob
  | .d .xadv i j => if i < 3 ∧ j < 4 then .val 0 else .oob
  | .d .yadv i j => if i < 3 ∧ j < 4 then .val 0 else .oob
  | _ => .oob

theorem demoAdv_arrays : CpuAdv demoAdv 4 3 (fun j => (j : ℚ)) (fun i => (i : ℚ)) where
  x j hj := by simp [demoAdv, hj]
  y i hi := by simp [demoAdv, hi]
  xadv i hi j hj := by simp [demoAdv, hi, hj]
  yadv i hi j hj := by simp [demoAdv, hi, hj]

/-- The hypotheses of `C43_openmp_mpi` and `C43_serial_partial` hold for `demoAdv`, with a departure point that is not
trivial. -/
example : (∃ mf, runAll (advMpi demoVel true 1 (1 / 2) 3 0 4) demoAdv = .ok mf ∧
      Spec.ScheduleIndependent (advMpi demoVel true 1 (1 / 2) 3 0 4) demoAdv mf ∧
      mf (.d .xadv 1 2) = .val (Spec.departAt demoVel.velx demoVel.vely true 1 (1 / 2) 2 1).1) ∧
    (∃ mf, runAll (advSerial demoVel false 1 (1 / 2) 4 3) demoAdv = .ok mf ∧
      mf (.d .xadv 1 2) = .val (Spec.departAt demoVel.velx demoVel.vely false 1 (1 / 2) 2 1).1) ∧
    Spec.departAt demoVel.velx demoVel.vely true 1 (1 / 2) 2 1 ≠ Spec.departAt demoVel.velx demoVel.vely false 1 (1 / 2) 2 1
    := by
  refine ⟨?_, ?_, ?_⟩
  · obtain ⟨mf, e, h1, h2, -⟩ := C43_openmp_mpi demoVel true (t := 1) (by decide) (1 / 2) demoAdv_arrays (lo := 0) (hi := 4)
      le_rfl
    exact ⟨mf, e, h1, by simpa using (h2 1 (by omega) 2 (by omega) (by omega)).1⟩
  · obtain ⟨mf, e, h1, -⟩ := C43_serial_partial demoVel false (t := 1) (by decide) (1 / 2) demoAdv_arrays (by omega)
      (by decide) (by omega) (by decide)
    exact ⟨mf, e, by simpa using (h1 1 (by omega) 2 (by omega)).1⟩
  · simp only [Spec.departAt, Spec.departRK3, Spec.departEuler, demoVel, if_true, Bool.false_eq_true, if_false, ne_eq,
      Prod.mk.injEq, not_and]
    norm_num

/-- **C43** is false for the serial version: on this grid the serial and the OpenMP version, both defined, leave different
departure points at the last node (0, instead of the departure point). -/
theorem C43_false : ∃ ms mo, runAll (advSerial demoVel true 0 (1 / 2) 4 3) demoAdv = .ok ms ∧
    runAll (advMpi demoVel true 0 (1 / 2) 3 0 4) demoAdv = .ok mo ∧ ms (.d .xadv 2 3) = .val 0 ∧
    mo (.d .xadv 2 3) = .val (Spec.departAt demoVel.velx demoVel.vely true 0 (1 / 2) 3 2).1 ∧
    (Spec.departAt demoVel.velx demoVel.vely true 0 (1 / 2) 3 2).1 ≠ 0 := by
  obtain ⟨ms, es, -, h2⟩ := C43_serial_partial demoVel true (t := 0) (by decide) (1 / 2) demoAdv_arrays (by omega)
    (by decide) (by omega) (by decide)
  obtain ⟨mo, eo, -, h3, -⟩ := C43_openmp_mpi demoVel true (t := 0) (by decide) (1 / 2) demoAdv_arrays (lo := 0) (hi := 4)
    le_rfl
  refine ⟨ms, mo, es, eo, ?_, by simpa using (h3 2 (by omega) 3 (by omega) (by omega)).1, ?_⟩
  · rw [h2 _ fun i hi j hj => ⟨by simp; omega, by simp⟩]
    simp [demoAdv]
  · simp only [Spec.departAt, Spec.departRK3, demoVel, if_true]
    norm_num

/-- The same data in flat arrays. -/
def demoAdvCuda : Mem (Val ℚ)
  | .d .x 0 j => if j < 4 then .val j else .oob
  | .d .y 0 i => if i < 6 then .val i else .oob
  | .d .xadv 0 k => if k < 24 then .uninit else .oob
  | .d .yadv 0 k => if k < 24 then .uninit else .oob
  | _ => .oob

/-- The hypotheses of `C43_cuda` hold for 4 x 6 nodes and tile 2. -/
example : ∃ ts mf, launch 2 4 6 = .ok ts ∧ runAll (kernel 2 ts (advCuda demoVel 1 (1 / 2) 4)) demoAdvCuda = .ok mf ∧
    mf (.d .yadv 0 (5 * 4 + 3)) = .val (Spec.departAt demoVel.velx demoVel.vely true 1 (1 / 2) 3 5).2 := by
  obtain ⟨ts, mf, el, e, -, h, -⟩ := C43_cuda demoVel (t := 1) (by decide) (1 / 2) (m := demoAdvCuda) (nx := 4) (ny := 6)
    (tile := 2) (xs := fun j => (j : ℚ)) (ys := fun i => (i : ℚ))
    ⟨fun j hj => by simp [demoAdvCuda, hj], fun i hi => by simp [demoAdvCuda, hi],
      fun k hk => by simp [demoAdvCuda, hk], fun k hk => by simp [demoAdvCuda, hk]⟩
    (by decide) (by decide) (by decide) (by omega) (by decide) (by decide)
  exact ⟨ts, mf, el, e, by simpa using (h 5 (by omega) 3 (by omega)).2⟩

end Gals.Props
