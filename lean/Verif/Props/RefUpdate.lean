import Verif.Lemmas.RefUpdate
import Verif.Props.RefLocate
import Mathlib.Analysis.Calculus.Deriv.Pow
import Mathlib.Analysis.Calculus.Deriv.Comp
import Mathlib.Analysis.Calculus.Deriv.Mul
import Mathlib.Analysis.Calculus.Deriv.Add

/-!
# C44, C59: level-set update of the reference code
-/

set_option linter.unusedSectionVars false
set_option linter.unusedSimpArgs false

namespace Gals.Props

open Gals Gals.Ref

variable {K : Type} [Field K] [CharZero K]

/-! ## C44: schedules -/

theorem updateLoop_indep (v : Vel K) (s : Schemes) (t : ℕ) (dt dx dy : K) (ny lo hi : ℕ) :
    (updateLoop v s t dt dx dy ny lo hi).Pairwise Indep :=
  pairwise_owned (own := updOwner) (key := id) (nodes ny lo hi) (fun c _ => updateBody_owned v s t dt dx dy c.1 c.2)
    (by simpa using nodup_nodes ny lo hi)

/-- C44 for the OpenMP loop: for every velocity, scheme, spacing, grid size and memory for which the sequential loop is
defined, every distribution of the iterations over threads and every interleaving of their accesses is free of undefined
behaviour and ends in the memory of the sequential loop. -/
theorem C44_openmp (v : Vel K) (s : Schemes) (t : ℕ) (dt dx dy : K) (ny lo hi : ℕ) {m mf : Mem (Val K)}
    (e : runAll (updateLoop v s t dt dx dy ny lo hi) m = .ok mf) :
    Spec.ScheduleIndependent (updateLoop v s t dt dx dy ny lo hi) m mf :=
  scheduleIndependent (updateLoop_indep v s t dt dx dy ny lo hi) e

theorem kernel_owned {tile nx ny : ℕ} {ts : List (ℕ × ℕ × ℕ × ℕ)} (el : launch tile nx ny = .ok ts) (hx : nx < uMod)
    (hy : ny < uMod) (hxy : nx * ny ≤ uMod) {own : Loc → Option (ℕ × ℕ)} {b : ℕ → ℕ → P K Unit}
    (hb : ∀ ix iy, Owned own (0, indexW nx ix iy) (b ix iy)) :
    (kernel tile ts b).Pairwise Indep ∧ (ts.map fun c => ((0 : ℕ), indexW nx (indexX tile c) (indexY tile c))).Nodup := by
  obtain ⟨hin, hnd⟩ := C46_at_most_once el hx hy hxy
  have hn : (ts.map fun c => ((0 : ℕ), indexW nx (indexX tile c) (indexY tile c))).Nodup := by
    rw [show (fun c => ((0 : ℕ), indexW nx (indexX tile c) (indexY tile c))) =
      Prod.mk 0 ∘ fun c => indexW nx (indexX tile c) (indexY tile c) from rfl, ← List.map_map]
    exact hnd.map fun a b h => (Prod.mk.inj h).2
  exact ⟨pairwise_owned (own := own) ts (fun c _ => hb _ _) hn, hn⟩

/-- C44 for the CUDA kernel, any launch on a grid below 2^32 nodes. -/
theorem C44_cuda (v : Vel K) (t : ℕ) (dt : K) {tile nx ny : ℕ} {ts : List (ℕ × ℕ × ℕ × ℕ)}
    (el : launch tile nx ny = .ok ts) (hx : nx < uMod) (hy : ny < uMod) (hxy : nx * ny ≤ uMod) {m mf : Mem (Val K)}
    (e : runAll (kernel tile ts (updateCuda v t dt nx)) m = .ok mf) :
    Spec.ScheduleIndependent (kernel tile ts (updateCuda v t dt nx)) m mf :=
  scheduleIndependent (kernel_owned el hx hy hxy fun ix iy => updateCuda_owned v t dt nx ix iy).1 e

/-! ## C59: what the update stores -/

/-- Arrays of the CPU versions before the update: nodes, departure points, cells and classes, and the level-set data
(`f`: the arrays `m...`, `g`: the arrays `temp...`). -/
structure CpuUpd (m : Mem (Val K)) (nx ny : ℕ) (xs ys : ℕ → K) (xa ya : ℕ → ℕ → K) (cx cy cls : ℕ → ℕ → ℕ)
    (f fx fy fxy g gx gy gxy : ℕ → ℕ → K) : Prop where
  x : ∀ k < nx, m (.d .x 0 k) = .val (xs k)
  y : ∀ k < ny, m (.d .y 0 k) = .val (ys k)
  xadv : Grid2 m .xadv nx ny xa
  yadv : Grid2 m .yadv nx ny ya
  cellx : ∀ i < ny, ∀ j < nx, m (.n .cellx i j) = .val (cx i j) ∧ cx i j + 1 < nx
  celly : ∀ i < ny, ∀ j < nx, m (.n .celly i j) = .val (cy i j) ∧ cy i j + 1 < ny
  tracker : ∀ i < ny, ∀ j < nx, m (.n .tracker i j) = .val (cls i j)
  phi : Grid2 m .mphi nx ny f
  psix : Grid2 m .mpsix nx ny fx
  psiy : Grid2 m .mpsiy nx ny fy
  psixy : Grid2 m .mpsixy nx ny fxy
  tphi : Grid2 m .tempphi nx ny g
  tpsix : Grid2 m .temppsix nx ny gx
  tpsiy : Grid2 m .temppsiy nx ny gy
  tpsixy : Grid2 m .temppsixy nx ny gxy

/-- The same in flat arrays; the CUDA version interpolates with `temppsixy`. -/
structure CudaUpd (m : Mem (Val K)) (nx ny : ℕ) (xs ys : ℕ → K) (xa ya : ℕ → ℕ → K) (cx cy cls : ℕ → ℕ → ℕ)
    (f fx fy g gx gy gxy : ℕ → ℕ → K) : Prop where
  x : ∀ k < nx, m (.d .x 0 k) = .val (xs k)
  y : ∀ k < ny, m (.d .y 0 k) = .val (ys k)
  xadv : Flat2 m .xadv nx ny xa
  yadv : Flat2 m .yadv nx ny ya
  cellx : ∀ i < ny, ∀ j < nx, m (.n .cellx 0 (i * nx + j)) = .val (cx i j) ∧ cx i j + 1 < nx
  celly : ∀ i < ny, ∀ j < nx, m (.n .celly 0 (i * nx + j)) = .val (cy i j) ∧ cy i j + 1 < ny
  tracker : ∀ i < ny, ∀ j < nx, m (.n .tracker 0 (i * nx + j)) = .val (cls i j)
  phi : Flat2 m .mphi nx ny f
  psix : Flat2 m .mpsix nx ny fx
  psiy : Flat2 m .mpsiy nx ny fy
  tphi : Flat2 m .tempphi nx ny g
  tpsix : Flat2 m .temppsix nx ny gx
  tpsiy : Flat2 m .temppsiy nx ny gy
  tpsixy : Flat2 m .temppsixy nx ny gxy

/-- The two-stage update of `psi_x` at a node of class 2, whose characteristic leaves along `y`. -/
def edgeX (v : Vel K) (dt x y t0 t1 px py pxy rx : K) : K :=
  Spec.heunEdge dt px rx (v.gradVx x y t0 * py + v.vely x y t0 * pxy) (v.gradUx x y t0)
    (v.gradVx x y t1 * py + v.vely x y t1 * pxy) (v.gradUx x y t1)

/-- The two-stage update of `psi_y` at a node of class 3. -/
def edgeY (v : Vel K) (dt x y t0 t1 px py pxy ry : K) : K :=
  Spec.heunEdge dt py ry (v.gradUy x y t0 * px + v.velx x y t0 * pxy) (v.gradVy x y t0)
    (v.gradUy x y t1 * px + v.velx x y t1 * pxy) (v.gradVy x y t1)

/-- New data of a node in step `t`: `Spec.updateNode` with the bicubic interpolant on the node's cell of the data `f...`,
the edge formulas with the old data `(p, px, py, pxy)`, and `tr` for the transport of the gradient. -/
def nodeSpec (v : Vel K) (tr : K → K → K × K) (t : ℕ) (dt dx dy : K) (f fx fy fxy : ℕ → ℕ → K) (xs ys : ℕ → K)
    (cls cx cy : ℕ) (x y xa ya p px py pxy : K) : K × K × K :=
  Spec.updateNode cls dt (Spec.cellBicubic f fx fy fxy xs ys dx dy cy cx) (Spec.cellBicubicX f fx fy fxy xs ys dx dy cy cx)
    (Spec.cellBicubicY f fx fy fxy xs ys dx dy cy cx) tr (edgeX v dt x y (t * dt) ((t + 1) * dt) px py pxy)
    (edgeY v dt x y (t * dt) ((t + 1) * dt) px py pxy) (v.velx x y (t * dt)) (v.vely x y (t * dt)) x y xa ya p px py

theorem newNode_eq (v : Vel K) (tr : K → K → K × K) {t : ℕ} (ht : t + 1 < uMod) (dt dx dy : K) (f fx fy fxy : ℕ → ℕ → K)
    (xs ys : ℕ → K) (cls cx cy : ℕ) (x y xa ya p px py pxy : K) :
    newNode v tr t dt dx dy f fx fy fxy xs ys cls cx cy x y xa ya p px py pxy =
      nodeSpec v tr t dt dx dy f fx fy fxy xs ys cls cx cy x y xa ya p px py pxy := by
  simp only [newNode, nodeSpec, heunsX_eq, heunsY_eq, tm, uadd_eq ht, Nat.cast_add, Nat.cast_one]
  rfl

/-- C59 for the CPU versions: the loop over the columns `lo` to `hi - 1` is defined, for every schedule, and stores the
specified value and gradient at each of these nodes; nothing else changes. -/
theorem C59_update_cpu (v : Vel K) (s : Schemes) {t : ℕ} (ht : t + 1 < uMod) (dt dx dy : K) {m : Mem (Val K)} {nx ny : ℕ}
    {xs ys : ℕ → K} {xa ya : ℕ → ℕ → K} {cx cy cls : ℕ → ℕ → ℕ} {f fx fy fxy g gx gy gxy : ℕ → ℕ → K}
    (hm : CpuUpd m nx ny xs ys xa ya cx cy cls f fx fy fxy g gx gy gxy) (nxu : nx < uMod) (nyu : ny < uMod) {lo hi : ℕ}
    (hh : hi ≤ nx) :
    ∃ mf, runAll (updateLoop v s t dt dx dy ny lo hi) m = .ok mf ∧
      Spec.ScheduleIndependent (updateLoop v s t dt dx dy ny lo hi) m mf ∧
      (∀ i < ny, ∀ j < hi, lo ≤ j →
        let r := nodeSpec v (transport v s t dt (xs j) (ys i) (xa i j) (ya i j) (gx i j) (gy i j)) t dt dx dy f fx fy fxy
          xs ys (cls i j) (cx i j) (cy i j) (xs j) (ys i) (xa i j) (ya i j) (g i j) (gx i j) (gy i j) (gxy i j)
        mf (.d .tempphi i j) = .val r.1 ∧ mf (.d .temppsix i j) = .val r.2.1 ∧ mf (.d .temppsiy i j) = .val r.2.2) ∧
      ∀ l, (∀ i < ny, ∀ j < hi, lo ≤ j → l ≠ .d .tempphi i j ∧ l ≠ .d .temppsix i j ∧ l ≠ .d .temppsiy i j) →
        mf l = m l := by
  have hb : ∀ c ∈ nodes ny lo hi, Owned updOwner (id c) (updateBody v s t dt dx dy c.1 c.2) :=
    fun c _ => updateBody_owned v s t dt dx dy c.1 c.2
  have hn : ((nodes ny lo hi).map id).Nodup := by simpa using nodup_nodes ny lo hi
  obtain ⟨mf, e, h1, h2⟩ := runAll_wp (nodes ny lo hi) hb hn
    (Q := fun c m' => Updated m m' c.1 c.2 (newNode v (transport v s t dt (xs c.2) (ys c.1) (xa c.1 c.2) (ya c.1 c.2)
      (gx c.1 c.2) (gy c.1 c.2)) t dt dx dy f fx fy fxy xs ys (cls c.1 c.2) (cx c.1 c.2) (cy c.1 c.2) (xs c.2) (ys c.1)
      (xa c.1 c.2) (ya c.1 c.2) (g c.1 c.2) (gx c.1 c.2) (gy c.1 c.2) (gxy c.1 c.2))) fun c hc => by
      obtain ⟨c1, c2, c3⟩ := mem_nodes.1 hc
      have c3' : c.2 < nx := by omega
      exact updateBody_wp v s t dt dx dy hm.x hm.y hm.phi hm.psix hm.psiy hm.psixy c1 c3' nxu nyu (hm.xadv _ c1 _ c3')
        (hm.yadv _ c1 _ c3') (hm.tphi _ c1 _ c3') (hm.tpsix _ c1 _ c3') (hm.tpsiy _ c1 _ c3') (hm.tpsixy _ c1 _ c3')
        (hm.cellx _ c1 _ c3').1 (hm.celly _ c1 _ c3').1 (hm.tracker _ c1 _ c3') (hm.cellx _ c1 _ c3').2
        (hm.celly _ c1 _ c3').2
  refine ⟨mf, e, C44_openmp v s t dt dx dy ny lo hi e, fun i hi' j hj hlo => ?_, fun l hl => h2 l fun c hc => ?_⟩
  · obtain ⟨m', hs, ho⟩ := h1 (i, j) (mem_nodes.2 ⟨hi', hlo, hj⟩)
    rw [← newNode_eq v _ ht]
    exact ⟨(ho _ rfl).trans hs.phi, (ho _ rfl).trans hs.psix, (ho _ rfl).trans hs.psiy⟩
  · obtain ⟨c1, c2, c3⟩ := mem_nodes.1 hc
    obtain ⟨n1, n2, n3⟩ := hl c.1 c1 c.2 c3 c2
    rintro ho
    cases l with
    | n a i j => cases ho
    | d a i j =>
      cases a <;> simp only [updOwner, id, Option.some.injEq, reduceCtorEq] at ho
      · subst ho; exact n1 rfl
      · subst ho; exact n2 rfl
      · subst ho; exact n3 rfl

/-- C59 for `update_levelset_data` as called: the spacings are those of the nodes 1 and 2, and all columns are updated. -/
theorem C59_update_function (v : Vel K) (s : Schemes) {t : ℕ} (ht : t + 1 < uMod) (dt : K) {m : Mem (Val K)} {nx ny : ℕ}
    {xs ys : ℕ → K} {xa ya : ℕ → ℕ → K} {cx cy cls : ℕ → ℕ → ℕ} {f fx fy fxy g gx gy gxy : ℕ → ℕ → K}
    (hm : CpuUpd m nx ny xs ys xa ya cx cy cls f fx fy fxy g gx gy gxy) (nx3 : 2 < nx) (ny3 : 2 < ny) (nxu : nx < uMod)
    (nyu : ny < uMod) :
    ∃ mf, (update v s t dt nx ny).run m = .ok ((), mf) ∧
      (∀ i < ny, ∀ j < nx,
        let r := nodeSpec v (transport v s t dt (xs j) (ys i) (xa i j) (ya i j) (gx i j) (gy i j)) t dt (xs 2 - xs 1)
          (ys 2 - ys 1) f fx fy fxy xs ys (cls i j) (cx i j) (cy i j) (xs j) (ys i) (xa i j) (ya i j) (g i j) (gx i j) (gy i j)
          (gxy i j)
        mf (.d .tempphi i j) = .val r.1 ∧ mf (.d .temppsix i j) = .val r.2.1 ∧ mf (.d .temppsiy i j) = .val r.2.2) ∧
      ∀ l, (∀ i < ny, ∀ j < nx, l ≠ .d .tempphi i j ∧ l ≠ .d .temppsix i j ∧ l ≠ .d .temppsiy i j) → mf l = m l := by
  obtain ⟨mf, e, -, h1, h2⟩ := C59_update_cpu v s ht dt (xs 2 - xs 1) (ys 2 - ys 1) hm nxu nyu (lo := 0) (hi := nx) le_rfl
  refine ⟨mf, ?_, fun i hi j hj => h1 i hi j hj (Nat.zero_le _), fun l hl => h2 l fun i hi j hj _ => hl i hi j hj⟩
  simp only [update, spacing, getD, Prog.get, Prog.bind_eq, Prog.pure_eq, Prog.bind, Prog.run, hm.x 2 nx3, hm.x 1 (by omega),
    hm.y 2 ny3, hm.y 1 (by omega)]
  rw [Prog.run_seqAll, e]
  rfl

/-- C59 for the CUDA version: with the cell of every node set and in range. -/
theorem C59_update_cuda (v : Vel K) {t : ℕ} (ht : t + 1 < uMod) (dt : K) {m : Mem (Val K)} {nx ny tile : ℕ}
    {xs ys : ℕ → K} {xa ya : ℕ → ℕ → K} {cx cy cls : ℕ → ℕ → ℕ} {f fx fy g gx gy gxy : ℕ → ℕ → K}
    (hm : CudaUpd m nx ny xs ys xa ya cx cy cls f fx fy g gx gy gxy) (nx3 : 2 < nx) (ny3 : 2 < ny) (nxu : nx < uMod)
    (nyu : ny < uMod) (hxy : nx * ny ≤ uMod) (h0 : 0 < tile) (dx : tile ∣ nx) (dy : tile ∣ ny) :
    ∃ ts mf, launch tile nx ny = .ok ts ∧ runAll (kernel tile ts (updateCuda v t dt nx)) m = .ok mf ∧
      Spec.ScheduleIndependent (kernel tile ts (updateCuda v t dt nx)) m mf ∧
      (∀ i < ny, ∀ j < nx,
        let r := nodeSpec v (fun rx ry => superConsistent v true (xs j) (ys i) rx ry t dt) t dt (xs 2 - xs 1) (ys 2 - ys 1)
          f fx fy gxy xs ys (cls i j) (cx i j) (cy i j) (xs j) (ys i) (xa i j) (ya i j) (g i j) (gx i j) (gy i j) (gxy i j)
        mf (.d .tempphi 0 (i * nx + j)) = .val r.1 ∧ mf (.d .temppsix 0 (i * nx + j)) = .val r.2.1 ∧
          mf (.d .temppsiy 0 (i * nx + j)) = .val r.2.2) ∧
      ∀ l, (∀ k < nx * ny, l ≠ .d .tempphi 0 k ∧ l ≠ .d .temppsix 0 k ∧ l ≠ .d .temppsiy 0 k) → mf l = m l := by
  obtain ⟨ts, el, hone⟩ := C46_exactly_once_partial h0 nxu nyu dx dy
  obtain ⟨hin, hnd⟩ := C46_at_most_once el nxu nyu hxy
  have hb : ∀ c ∈ ts, Owned updOwner (0, indexW nx (indexX tile c) (indexY tile c))
      (updateCuda v t dt nx (indexX tile c) (indexY tile c)) := fun c _ => updateCuda_owned v t dt nx _ _
  have hn := (kernel_owned el nxu nyu hxy fun ix iy => updateCuda_owned v t dt nx ix iy).2
  obtain ⟨mf, e, h1, h2⟩ := runAll_wp ts hb hn
    (Q := fun c m' =>
      let i := indexY tile c
      let j := indexX tile c
      Updated m m' 0 (indexW nx j i) (newNode v (fun rx ry => superConsistent v true (xs j) (ys i) rx ry t dt) t dt
        (xs 2 - xs 1) (ys 2 - ys 1) f fx fy gxy xs ys (cls i j) (cx i j) (cy i j) (xs j) (ys i) (xa i j) (ya i j) (g i j)
        (gx i j) (gy i j) (gxy i j))) fun c hc => by
      obtain ⟨c1, c2, c3, c4⟩ := hin c hc
      refine updateCuda_wp v t dt hm.x hm.y nx3 ny3 hm.phi hm.psix hm.psiy hm.tpsixy c2 c1 hxy ?_ ?_ ?_ ?_ ?_ ?_ ?_ ?_ ?_
        (hm.cellx _ c2 _ c1).2 (hm.celly _ c2 _ c1).2 <;> rw [c3]
      · exact hm.xadv _ c2 _ c1
      · exact hm.yadv _ c2 _ c1
      · exact hm.tphi _ c2 _ c1
      · exact hm.tpsix _ c2 _ c1
      · exact hm.tpsiy _ c2 _ c1
      · exact hm.tpsixy _ c2 _ c1
      · exact (hm.cellx _ c2 _ c1).1
      · exact (hm.celly _ c2 _ c1).1
      · exact hm.tracker _ c2 _ c1
  refine ⟨ts, mf, el, e, C44_cuda v t dt el nxu nyu hxy e, fun i hi j hj => ?_, fun l hl => h2 l fun c hc => ?_⟩
  · have := hone j hj i hi
    obtain ⟨c, hc⟩ := List.length_pos_iff_exists_mem.1 (by omega : 0 < (ts.filter
      fun c => indexX tile c = j ∧ indexY tile c = i).length)
    rw [List.mem_filter, decide_eq_true_iff] at hc
    obtain ⟨hc, eX, eY⟩ := hc
    obtain ⟨m', hs, ho⟩ := h1 c hc
    obtain ⟨c1, c2, c3, c4⟩ := hin c hc
    simp only [eX, eY] at hs ho c3
    rw [← newNode_eq v _ ht, ← c3]
    exact ⟨(ho _ rfl).trans hs.phi, (ho _ rfl).trans hs.psix, (ho _ rfl).trans hs.psiy⟩
  · obtain ⟨c1, c2, c3, c4⟩ := hin c hc
    obtain ⟨n1, n2, n3⟩ := hl _ c4
    rw [c3]
    rintro ho
    cases l with
    | n a i j => cases ho
    | d a i j =>
      cases a <;> simp only [updOwner, Option.some.injEq, reduceCtorEq, Prod.mk.injEq] at ho
      · obtain ⟨rfl, rfl⟩ := ho; exact n1 rfl
      · obtain ⟨rfl, rfl⟩ := ho; exact n2 rfl
      · obtain ⟨rfl, rfl⟩ := ho; exact n3 rfl

/-! ### The interpolant of the specification -/

theorem hVal_deriv (a : Fin 2) (s : ℝ) : HasDerivAt (Spec.hVal a) (Spec.hVal' a s) s := by
  unfold Spec.hVal Spec.hVal'
  fin_cases a
  · simp only [Fin.zero_eta, if_true]
    exact HasDerivAt.congr_deriv ((((hasDerivAt_pow 3 s).const_mul 2).sub ((hasDerivAt_pow 2 s).const_mul 3)).add_const (1 : ℝ)) (by norm_num; try ring)
  · simp only [Fin.mk_one, one_ne_zero, if_false]
    exact HasDerivAt.congr_deriv (((hasDerivAt_pow 3 s).const_mul (-2)).add ((hasDerivAt_pow 2 s).const_mul 3)) (by norm_num; try ring)

theorem hSlope_deriv (a : Fin 2) (s : ℝ) : HasDerivAt (Spec.hSlope a) (Spec.hSlope' a s) s := by
  unfold Spec.hSlope Spec.hSlope'
  fin_cases a
  · simp only [Fin.zero_eta, if_true]
    exact HasDerivAt.congr_deriv (((hasDerivAt_pow 3 s).sub ((hasDerivAt_pow 2 s).const_mul 2)).add (hasDerivAt_id s)) (by norm_num; try ring)
  · simp only [Fin.mk_one, one_ne_zero, if_false]
    exact HasDerivAt.congr_deriv ((hasDerivAt_pow 3 s).sub (hasDerivAt_pow 2 s)) (by norm_num)

theorem bicubicWith_derivX {V S : Fin 2 → ℝ → ℝ} {V' S' W Z : Fin 2 → ℝ} {x : ℝ} (hV : ∀ a, HasDerivAt (V a) (V' a) x)
    (hS : ∀ a, HasDerivAt (S a) (S' a) x) (f fx fy fxy : ℕ → ℕ → ℝ) (dx dy : ℝ) (r c : ℕ) :
    HasDerivAt (fun x => Spec.bicubicWith (V · x) (S · x) W Z f fx fy fxy dx dy r c)
      (Spec.bicubicWith V' S' W Z f fx fy fxy dx dy r c) x := by
  unfold Spec.bicubicWith
  refine HasDerivAt.fun_sum fun a _ => HasDerivAt.fun_sum fun b _ => ?_
  exact (((((hV a).mul_const _).mul_const _).add ((((hS a).const_mul _).mul_const _).mul_const _)).add
    ((((hV a).const_mul _).mul_const _).mul_const _)).add ((((hS a).const_mul _).mul_const _).mul_const _)

theorem bicubicWith_derivY {V S : Fin 2 → ℝ → ℝ} {V' S' W Z : Fin 2 → ℝ} {x : ℝ} (hV : ∀ a, HasDerivAt (V a) (V' a) x)
    (hS : ∀ a, HasDerivAt (S a) (S' a) x) (f fx fy fxy : ℕ → ℕ → ℝ) (dx dy : ℝ) (r c : ℕ) :
    HasDerivAt (fun x => Spec.bicubicWith W Z (V · x) (S · x) f fx fy fxy dx dy r c)
      (Spec.bicubicWith W Z V' S' f fx fy fxy dx dy r c) x := by
  unfold Spec.bicubicWith
  refine HasDerivAt.fun_sum fun a _ => HasDerivAt.fun_sum fun b _ => ?_
  exact (((((hV b).const_mul _).mul_const _).add (((hV b).const_mul _).mul_const _)).add
    (((hS b).const_mul _).mul_const _)).add (((hS b).const_mul _).mul_const _)

/-- The interpolant of the specification takes the nodal values and gradients, and `bicubicX`, `bicubicY` are its partial
derivatives. -/
theorem C59_bicubic (f fx fy fxy : ℕ → ℕ → ℝ) (xs ys : ℕ → ℝ) {dx dy : ℝ} (hx : dx ≠ 0) (hy : dy ≠ 0) (r c : ℕ)
    (ex : xs (c + 1) = xs c + dx) (ey : ys (r + 1) = ys r + dy) :
    (∀ a b : Fin 2, Spec.cellBicubic f fx fy fxy xs ys dx dy r c (xs (c + a)) (ys (r + b)) = f (r + b) (c + a) ∧
      Spec.cellBicubicX f fx fy fxy xs ys dx dy r c (xs (c + a)) (ys (r + b)) = fx (r + b) (c + a) ∧
      Spec.cellBicubicY f fx fy fxy xs ys dx dy r c (xs (c + a)) (ys (r + b)) = fy (r + b) (c + a)) ∧
    (∀ x y, HasDerivAt (fun x => Spec.cellBicubic f fx fy fxy xs ys dx dy r c x y)
      (Spec.cellBicubicX f fx fy fxy xs ys dx dy r c x y) x) ∧
    ∀ x y, HasDerivAt (fun y => Spec.cellBicubic f fx fy fxy xs ys dx dy r c x y)
      (Spec.cellBicubicY f fx fy fxy xs ys dx dy r c x y) y := by
  refine ⟨fun a b => ?_, fun x y => ?_, fun x y => ?_⟩
  · have e1 : (xs c + dx - xs c) / dx = 1 := by field_simp; ring
    have e2 : (ys r + dy - ys r) / dy = 1 := by field_simp; ring
    fin_cases a <;> fin_cases b <;>
      simp [Spec.cellBicubic, Spec.cellBicubicX, Spec.cellBicubicY, Spec.bicubicWith, Spec.hVal, Spec.hSlope, Spec.hVal', Spec.hSlope',
        Fin.sum_univ_two, ex, ey, e1, e2, hx, hy] <;> norm_num [hx, hy]
  · have hs : HasDerivAt (fun x => (x - xs c) / dx) (1 / dx) x := ((hasDerivAt_id x).sub_const _).div_const _
    refine HasDerivAt.congr_deriv (bicubicWith_derivX (W := (Spec.hVal · ((y - ys r) / dy)))
      (Z := (Spec.hSlope · ((y - ys r) / dy)))
      (fun a => (hVal_deriv a _).comp x hs) (fun a => (hSlope_deriv a _).comp x hs) f fx fy fxy dx dy r c) ?_
    simp only [Spec.cellBicubicX, Spec.bicubicWith, Fin.sum_univ_two]
    ring
  · have hs : HasDerivAt (fun y => (y - ys r) / dy) (1 / dy) y := ((hasDerivAt_id y).sub_const _).div_const _
    refine HasDerivAt.congr_deriv (bicubicWith_derivY (W := (Spec.hVal · ((x - xs c) / dx)))
      (Z := (Spec.hSlope · ((x - xs c) / dx)))
      (fun a => (hVal_deriv a _).comp y hs) (fun a => (hSlope_deriv a _).comp y hs) f fx fy fxy dx dy r c) ?_
    simp only [Spec.cellBicubicY, Spec.bicubicWith, Fin.sum_univ_two]
    ring

/-- Data of no polynomial on nodes with spacing 1/2. -/
noncomputable def demoBicubic (r c : ℕ) : ℝ := 1 / (1 + r + 2 * c)

/-- A cell of 1/2 by 1/4. -/
example : HasDerivAt (fun x => Spec.cellBicubic demoBicubic demoBicubic demoBicubic demoBicubic (fun j => (j : ℝ) / 2)
      (fun i => (i : ℝ) / 4) (1 / 2) (1 / 4) 1 2 x (1 / 3))
    (Spec.cellBicubicX demoBicubic demoBicubic demoBicubic demoBicubic (fun j => (j : ℝ) / 2) (fun i => (i : ℝ) / 4)
      (1 / 2) (1 / 4) 1 2 (6 / 5) (1 / 3)) (6 / 5) :=
  (C59_bicubic _ _ _ _ _ _ (by norm_num) (by norm_num) 1 2 (by norm_num) (by norm_num)).2.1 _ _

/-! ### Examples -/

/-- 4 x 3 nodes at the integers, every array set; all five classes occur. -/
def demoUpd : Mem (Val ℚ)
  | .d .x 0 j => if j < 4 then .val j else .oob
  | .d .y 0 i => if i < 3 then .val i else .oob
  | .d .xadv i j => if i < 3 ∧ j < 4 then .val (j - 1 / 3) else .oob
  | .d .yadv i j => if i < 3 ∧ j < 4 then .val (i + 1 / 5) else .oob
  | .d _ i j => if i < 3 ∧ j < 4 then .val (i + 2 * j) else .oob
  | .n .cellx i j => if i < 3 ∧ j < 4 then .val (min j 2) else .oob
  | .n .celly i j => if i < 3 ∧ j < 4 then .val (min i 1) else .oob
  | .n .tracker i j => if i < 3 ∧ j < 4 then .val (i + j) else .oob

theorem demoUpd_arrays : CpuUpd demoUpd 4 3 (fun j => (j : ℚ)) (fun i => (i : ℚ)) (fun _ j => j - 1 / 3) (fun i _ => i + 1 / 5)
    (fun _ j => min j 2) (fun i _ => min i 1) (fun i j => i + j) (fun i j => i + 2 * j) (fun i j => i + 2 * j)
    (fun i j => i + 2 * j) (fun i j => i + 2 * j) (fun i j => i + 2 * j) (fun i j => i + 2 * j) (fun i j => i + 2 * j)
    (fun i j => i + 2 * j) where
  x j hj := by simp [demoUpd, hj]
  y i hi := by simp [demoUpd, hi]
  xadv i hi j hj := by simp [demoUpd, hi, hj]
  yadv i hi j hj := by simp [demoUpd, hi, hj]
  cellx i hi j hj := ⟨by simp [demoUpd, hi, hj], by omega⟩
  celly i hi j hj := ⟨by simp [demoUpd, hi, hj], by omega⟩
  tracker i hi j hj := by simp [demoUpd, hi, hj]
  phi i hi j hj := by simp [demoUpd, hi, hj]
  psix i hi j hj := by simp [demoUpd, hi, hj]
  psiy i hi j hj := by simp [demoUpd, hi, hj]
  psixy i hi j hj := by simp [demoUpd, hi, hj]
  tphi i hi j hj := by simp [demoUpd, hi, hj]
  tpsix i hi j hj := by simp [demoUpd, hi, hj]
  tpsiy i hi j hj := by simp [demoUpd, hi, hj]
  tpsixy i hi j hj := by simp [demoUpd, hi, hj]

/-- The hypotheses of `C44_openmp` and `C59_update_cpu` hold for `demoUpd`, and something is changed: node (1, 3) is of class
4 and gets `7 - dt (u ψ_x + v ψ_y)`. -/
example : ∃ mf, runAll (updateLoop demoVel ⟨"SuperConsistent", "RK3"⟩ 1 (1 / 2) 1 1 3 0 4) demoUpd = .ok mf ∧
    Spec.ScheduleIndependent (updateLoop demoVel ⟨"SuperConsistent", "RK3"⟩ 1 (1 / 2) 1 1 3 0 4) demoUpd mf ∧
    mf (.d .tempphi 1 3) = .val (-21 : ℚ) := by
  obtain ⟨mf, e, h1, h2, -⟩ := C59_update_cpu demoVel ⟨"SuperConsistent", "RK3"⟩ (t := 1) (by decide) (1 / 2) 1 1
    demoUpd_arrays (by decide) (by decide) (lo := 0) (hi := 4) le_rfl
  refine ⟨mf, e, h1, ?_⟩
  rw [(h2 1 (by omega) 3 (by omega) (by omega)).1]
  simp only [nodeSpec, Spec.updateNode, demoVel]
  norm_num

/-- The hypotheses of `C59_update_function` hold for `demoUpd`. -/
example : ∃ mf, (update demoVel ⟨"SuperConsistent", "RK3"⟩ 1 (1 / 2) 4 3).run demoUpd = .ok ((), mf) ∧
    mf (.d .tempphi 1 3) = .val (-21 : ℚ) := by
  obtain ⟨mf, e, h2, -⟩ := C59_update_function demoVel ⟨"SuperConsistent", "RK3"⟩ (t := 1) (by decide) (1 / 2)
    demoUpd_arrays (by decide) (by decide) (by decide) (by decide)
  refine ⟨mf, e, ?_⟩
  rw [(h2 1 (by omega) 3 (by omega)).1]
  simp only [nodeSpec, Spec.updateNode, demoVel]
  norm_num

/-- 4 x 4 nodes in flat arrays. -/
def demoUpdCuda : Mem (Val ℚ)
  | .d .x 0 j => if j < 4 then .val j else .oob
  | .d .y 0 i => if i < 4 then .val i else .oob
  | .d _ 0 k => if k < 16 then .val 5 else .oob
  | .n .tracker 0 k => if k < 16 then .val 4 else .oob
  | .n _ 0 k => if k < 16 then .val 2 else .oob
  | _ => .oob

/-- The hypotheses of `C44_cuda` and `C59_update_cuda` hold for `demoUpdCuda`. -/
example : ∃ ts mf, launch 2 4 4 = .ok ts ∧ runAll (kernel 2 ts (updateCuda demoVel 1 (1 / 2) 4)) demoUpdCuda = .ok mf ∧
    Spec.ScheduleIndependent (kernel 2 ts (updateCuda demoVel 1 (1 / 2) 4)) demoUpdCuda mf ∧
    mf (.d .tempphi 0 (1 * 4 + 3)) = .val (-15 : ℚ) := by
  obtain ⟨ts, mf, el, e, h1, h2, -⟩ := C59_update_cuda demoVel (t := 1) (by decide) (1 / 2) (m := demoUpdCuda) (nx := 4)
    (ny := 4) (tile := 2) (xs := fun j => (j : ℚ)) (ys := fun i => (i : ℚ)) (xa := fun _ _ => 5) (ya := fun _ _ => 5)
    (cx := fun _ _ => 2) (cy := fun _ _ => 2) (cls := fun _ _ => 4) (f := fun _ _ => 5) (fx := fun _ _ => 5)
    (fy := fun _ _ => 5) (g := fun _ _ => 5) (gx := fun _ _ => 5) (gy := fun _ _ => 5) (gxy := fun _ _ => 5)
    ⟨fun j hj => by simp [demoUpdCuda, hj], fun i hi => by simp [demoUpdCuda, hi],
      fun i hi j hj => by simp [demoUpdCuda]; omega, fun i hi j hj => by simp [demoUpdCuda]; omega,
      fun i hi j hj => ⟨by simp [demoUpdCuda]; omega, by omega⟩, fun i hi j hj => ⟨by simp [demoUpdCuda]; omega, by omega⟩,
      fun i hi j hj => by simp [demoUpdCuda]; omega, fun i hi j hj => by simp [demoUpdCuda]; omega,
      fun i hi j hj => by simp [demoUpdCuda]; omega, fun i hi j hj => by simp [demoUpdCuda]; omega,
      fun i hi j hj => by simp [demoUpdCuda]; omega, fun i hi j hj => by simp [demoUpdCuda]; omega,
      fun i hi j hj => by simp [demoUpdCuda]; omega, fun i hi j hj => by simp [demoUpdCuda]; omega⟩
    (by omega) (by omega) (by decide) (by decide) (by decide) (by omega) (by decide) (by decide)
  refine ⟨ts, mf, el, e, h1, ?_⟩
  rw [(h2 1 (by omega) 3 (by omega)).1]
  simp only [nodeSpec, Spec.updateNode, demoVel]
  norm_num

end Gals.Props
