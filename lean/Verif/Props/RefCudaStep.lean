import Verif.Model.RefCudaMain
import Verif.Props.RefRace

/-!
# C63: a time step of the CUDA program
-/

set_option linter.unusedSectionVars false
set_option linter.unusedSimpArgs false

namespace Gals.Props

open Gals Gals.Ref

/-! ## Kernels -/

section kernels
variable {K : Type} [Field K] [LinearOrder K] [IsStrictOrderedRing K]

/-- Threads that touch only their own node: a terminated execution under any schedule is the sequential one. -/
theorem parFor_runAll {ps : List (P K Unit)} (hi : ps.Pairwise Indep) {m m' : Mem (Val K)} (h : ParFor ps m m') :
    runAll ps m = .ok m' := by
  obtain ⟨css, qs, hp, hs, he⟩ := h
  exact ended_runAll hi hp hs he

/-- Kernel `b` is defined from `m` under every schedule, always with the result `m'`. -/
structure KernelOk (tile nx ny : ℕ) (b : ℕ → ℕ → P K Unit) (m m' : Mem (Val K)) : Prop where
  seq : execKernel tile nx ny b m = .ok m'
  ran : ParKernel tile nx ny b m m'
  par : ∀ m'', ParKernel tile nx ny b m m'' → m'' = m'
  safe : ¬ KernelFault tile nx ny b m

theorem KernelOk.of {tile nx ny : ℕ} {b : ℕ → ℕ → P K Unit} {m m' : Mem (Val K)} {ts : List (ℕ × ℕ × ℕ × ℕ)}
    (hl : launch tile nx ny = .ok ts) (e : runAll (kernel tile ts b) m = .ok m')
    (hs : Spec.ScheduleIndependent (kernel tile ts b) m m') : KernelOk tile nx ny b m m' where
  seq := by rw [execKernel, hl, M.ok_bind, exec_seqAll, e]
  ran := ⟨ts, hl, parFor_of_runAll e⟩
  par m'' h := by
    obtain ⟨ts', hl', h⟩ := h
    rw [hl] at hl'; cases hl'
    exact parFor_eq hs h
  safe h := by
    obtain ⟨ts', css, qs, n, hl', hp, hi, hf⟩ := h
    rw [hl] at hl'; cases hl'
    exact (hs css hp qs n hi).1 hf

/-- Settings of a CUDA run: valid, a tile that divides the grid, and fewer than 2^32 nodes. -/
structure CudaValid (tile : ℕ) (c : Setting K) : Prop extends Valid c where
  tile0 : 0 < tile
  tx : tile ∣ c.nx
  ty : tile ∣ c.ny
  size : c.nx * c.ny < uMod

/-- A kernel whose threads touch only their own elements. -/
theorem kernel_wp {tile : ℕ} {c : Setting K} (hc : CudaValid tile c) {own : Loc → Option (ℕ × ℕ)} {b : ℕ → ℕ → P K Unit}
    (hb : ∀ ix iy, Owned own (0, indexW c.nx ix iy) (b ix iy)) {m : Mem (Val K)} {Q : ℕ → ℕ → Mem (Val K) → Prop}
    (hw : ∀ i < c.ny, ∀ j < c.nx, indexW c.nx j i = i * c.nx + j → i * c.nx + j < c.nx * c.ny → (b j i).wp m fun _ m' => Q i j m') :
    ∃ mf, KernelOk tile c.nx c.ny b m mf ∧
      (∀ i < c.ny, ∀ j < c.nx, ∃ m', Q i j m' ∧ ∀ l, own l = some (0, i * c.nx + j) → mf l = m' l) ∧
      ∀ l, (∀ k < c.nx * c.ny, own l ≠ some (0, k)) → mf l = m l := by
  obtain ⟨ts, el, hone⟩ := C46_exactly_once_partial hc.tile0 hc.nxu hc.nyu hc.tx hc.ty
  obtain ⟨hin, hnd⟩ := C46_at_most_once el hc.nxu hc.nyu hc.size.le
  obtain ⟨hpw, hn⟩ := kernel_owned el hc.nxu hc.nyu hc.size.le hb
  obtain ⟨mf, e, h1, h2⟩ := runAll_wp ts (fun k _ => hb (indexX tile k) (indexY tile k)) hn
    (Q := fun k m' => Q (indexY tile k) (indexX tile k) m') fun k hk => by
      obtain ⟨c1, c2, c3, c4⟩ := hin k hk
      exact hw _ c2 _ c1 c3 c4
  refine ⟨mf, .of el e (scheduleIndependent hpw e), fun i hi j hj => ?_, fun l hl => h2 l fun k hk => ?_⟩
  · have := hone j hj i hi
    obtain ⟨k, hk⟩ := List.length_pos_iff_exists_mem.1 (by omega : 0 < (ts.filter
      fun c => indexX tile c = j ∧ indexY tile c = i).length)
    rw [List.mem_filter, decide_eq_true_iff] at hk
    obtain ⟨hk, eX, eY⟩ := hk
    obtain ⟨m', hs, ho⟩ := h1 k hk
    obtain ⟨c1, c2, c3, c4⟩ := hin k hk
    simp only [eX, eY] at hs ho c3
    exact ⟨m', hs, fun l hl => ho l (by rw [c3]; exact hl)⟩
  · obtain ⟨c1, c2, c3, c4⟩ := hin k hk
    rw [c3]
    exact hl _ c4

/-! ## Copy -/

/-- The node whose thread writes or reads the location in `devicetodevicecopy`. -/
def copyOwner : Loc → Option (ℕ × ℕ)
  | .d .mphi i j => some (i, j)
  | .d .mpsix i j => some (i, j)
  | .d .mpsiy i j => some (i, j)
  | _ => none

theorem copyOwner_other {a : DVar} (p : a ≠ .mphi) (q : a ≠ .mpsix) (r : a ≠ .mpsiy) (i j : ℕ) :
    copyOwner (.d a i j) = none := by
  cases a <;> first | rfl | contradiction

theorem copyCuda_owned (nx ix iy : ℕ) : Owned copyOwner (0, indexW nx ix iy) (copyCuda (K := K) nx ix iy) := by
  simp [Owned, copyCuda, getD, setD, Prog.get, Prog.set, Prog.bind, Prog.Fits, copyOwner]

theorem copyCuda_wp {m : Mem (Val K)} {nx ix iy : ℕ} {a b d : K} (ha : m (.d .tempphi 0 (indexW nx ix iy)) = .val a)
    (hb : m (.d .temppsix 0 (indexW nx ix iy)) = .val b) (hd : m (.d .temppsiy 0 (indexW nx ix iy)) = .val d)
    (h1 : m (.d .mphi 0 (indexW nx ix iy)) ≠ .oob) (h2 : m (.d .mpsix 0 (indexW nx ix iy)) ≠ .oob)
    (h3 : m (.d .mpsiy 0 (indexW nx ix iy)) ≠ .oob) :
    (copyCuda nx ix iy).wp m fun _ m' => m' (.d .mphi 0 (indexW nx ix iy)) = .val a ∧
      m' (.d .mpsix 0 (indexW nx ix iy)) = .val b ∧ m' (.d .mpsiy 0 (indexW nx ix iy)) = .val d := by
  simp only [copyCuda, bind, pure, Prog.wp_bind, Prog.wp_pure, wp_getD, wp_setD]
  refine ⟨a, ha, h1, b, ?_, ?_, d, ?_, ?_, ?_⟩ <;>
    simp [Mem.upd_other, Mem.upd_same, hb, hd, h2, h3]

end kernels

/-! ## A step -/

section step
variable {K : Type} [Field K] [LinearOrder K] [IsStrictOrderedRing K]

/-- Device memory at the beginning of a time step. -/
structure CudaReady (m : Mem (Val K)) (c : Setting K) (F : Spec.Fields K) : Prop where
  x : ∀ j < c.nx, m (.d .x 0 j) = .val (posX c j)
  y : ∀ i < c.ny, m (.d .y 0 i) = .val (posY c i)
  phi : Flat2 m .mphi c.nx c.ny F.phi
  psix : Flat2 m .mpsix c.nx c.ny F.psix
  psiy : Flat2 m .mpsiy c.nx c.ny F.psiy
  tphi : Flat2 m .tempphi c.nx c.ny F.phi
  tpsix : Flat2 m .temppsix c.nx c.ny F.psix
  tpsiy : Flat2 m .temppsiy c.nx c.ny F.psiy
  tpsixy : Flat2 m .temppsixy c.nx c.ny F.psixy

/-- The schemes written into the kernels. -/
def cudaSchemes : Schemes := ⟨"SuperConsistent", "RK3"⟩

/-- Departure points, third order whatever scheme is configured. -/
def departsCuda (c : Setting K) (v : Vel K) (t : ℕ) (i j : ℕ) : K × K :=
  Spec.departAt v.velx v.vely true t c.dt (posX c j) (posY c i)

/-- All fields after step `t` of the CUDA program: like `advance` with the stencil of the kernel, which differs from the
stencil of the CPU program at one corner (C47). -/
def advanceCuda (c : Setting K) (v : Vel K) (t : ℕ) (F : Spec.Fields K) : Spec.Fields K :=
  let N := fun i j => nodeAt v cudaSchemes t c.dt ((c.xlim2 - c.xlim1) / (c.nx - 1)) ((c.ylim2 - c.ylim1) / (c.ny - 1)) (posX c)
    (posY c) c.nx c.ny F (departsCuda c v t i j) i j
  ⟨fun i j => (N i j).1, fun i j => (N i j).2.1, fun i j => (N i j).2.2,
    cudaStencil (fun i j => (N i j).2.1) (fun i j => (N i j).2.2) c.nx c.ny ((c.xlim2 - c.xlim1) / (c.nx - 1))
      ((c.ylim2 - c.ylim1) / (c.ny - 1))⟩

/-- Class of the departure point of a node. -/
def departClass (c : Setting K) (v : Vel K) (t i j : ℕ) : ℕ :=
  Spec.classOf (posX c) (posY c) c.nx c.ny (departsCuda c v t i j)

variable {tile : ℕ} {c : Setting K} (hc : CudaValid tile c) (v : Vel K) {t : ℕ} (ht : t + 1 < uMod) {m : Mem (Val K)}
  {F : Spec.Fields K}

/-- Nothing but departure points, cells and classes changed. -/
theorem CudaReady.frame {m' : Mem (Val K)} (h : CudaReady m c F)
    (hf : ∀ a i j, a ≠ .xadv → a ≠ .yadv → m' (.d a i j) = m (.d a i j)) : CudaReady m' c F where
  x j hj := by rw [hf _ _ _ (by simp) (by simp)]; exact h.x j hj
  y j hj := by rw [hf _ _ _ (by simp) (by simp)]; exact h.y j hj
  phi i hi j hj := by rw [hf _ _ _ (by simp) (by simp)]; exact h.phi i hi j hj
  psix i hi j hj := by rw [hf _ _ _ (by simp) (by simp)]; exact h.psix i hi j hj
  psiy i hi j hj := by rw [hf _ _ _ (by simp) (by simp)]; exact h.psiy i hi j hj
  tphi i hi j hj := by rw [hf _ _ _ (by simp) (by simp)]; exact h.tphi i hi j hj
  tpsix i hi j hj := by rw [hf _ _ _ (by simp) (by simp)]; exact h.tpsix i hi j hj
  tpsiy i hi j hj := by rw [hf _ _ _ (by simp) (by simp)]; exact h.tpsiy i hi j hj
  tpsixy i hi j hj := by rw [hf _ _ _ (by simp) (by simp)]; exact h.tpsixy i hi j hj

/-- Device memory after the first kernel. -/
structure CudaDeparted (m : Mem (Val K)) (c : Setting K) (v : Vel K) (t : ℕ) (F : Spec.Fields K) : Prop extends
    CudaReady m c F where
  xadv : Flat2 m .xadv c.nx c.ny fun i j => (departsCuda c v t i j).1
  yadv : Flat2 m .yadv c.nx c.ny fun i j => (departsCuda c v t i j).2
  room : ∀ k < c.nx * c.ny, ∀ a, m (.n a 0 k) = .uninit

/-- Device memory after the second kernel. -/
structure CudaFound (m : Mem (Val K)) (c : Setting K) (v : Vel K) (t : ℕ) (F : Spec.Fields K) : Prop extends
    CudaReady m c F where
  xadv : Flat2 m .xadv c.nx c.ny fun i j => (departsCuda c v t i j).1
  yadv : Flat2 m .yadv c.nx c.ny fun i j => (departsCuda c v t i j).2
  loc : ∀ i < c.ny, ∀ j < c.nx, Spec.Located (fun n => (Slot.val n : Slot ℕ)) (posX c) (posY c) c.nx c.ny
    (departsCuda c v t i j).1 (departsCuda c v t i j).2 .uninit .uninit (m (.n .tracker 0 (i * c.nx + j)))
    (m (.n .cellx 0 (i * c.nx + j))) (m (.n .celly 0 (i * c.nx + j)))

include hc in
theorem gridSize_eq : gridSize c.nx c.ny = c.nx * c.ny := umul_eq hc.size

include hc ht in
theorem cuda_adv (h : CudaReady m c F) :
    ∃ m', KernelOk tile c.nx c.ny (advCuda v t c.dt c.nx) (stepArraysCuda (gridSize c.nx c.ny) m) m' ∧
      CudaDeparted m' c v t F := by
  rw [gridSize_eq hc]
  obtain ⟨ts, m', el, e, hs, h1, h2⟩ := C43_cuda v ht c.dt (m := stepArraysCuda (c.nx * c.ny) m) (xs := posX c) (ys := posY c)
    ⟨h.x, h.y, fun k hk => by simp [stepArraysCuda, mallocD, mallocN, hk],
      fun k hk => by simp [stepArraysCuda, mallocD, mallocN, hk]⟩
    hc.nxu hc.nyu hc.size.le hc.tile0 hc.tx hc.ty
  refine ⟨m', .of el e hs, ⟨CudaReady.frame (m := stepArraysCuda (c.nx * c.ny) m) ⟨h.x, h.y, h.phi, h.psix, h.psiy, h.tphi,
    h.tpsix, h.tpsiy, h.tpsixy⟩ fun a i j ha hb => h2 _ fun k _ => ⟨by simp [ha], by simp [hb]⟩, ?_, ?_, ?_⟩⟩
  · exact fun i hi j hj => (h1 i hi j hj).1
  · exact fun i hi j hj => (h1 i hi j hj).2
  · intro k hk a
    rw [h2 _ fun k _ => ⟨by simp, by simp⟩]
    cases a <;> simp [stepArraysCuda, mallocD, mallocN, hk]

include hc in
theorem cuda_find (h : CudaDeparted m c v t F) :
    ∃ m', KernelOk tile c.nx c.ny (findCuda c.xlim1 c.xlim2 c.ylim1 c.ylim2 c.nx c.ny) m m' ∧ CudaFound m' c v t F := by
  have hx3 := hc.nx3
  have hy3 := hc.ny3
  obtain ⟨ts, m', el, e, hs, h1, h2⟩ := C58_locate_cuda (m := m) (xs := posX c) (ys := posY c)
    (xa := fun i j => (departsCuda c v t i j).1) (ya := fun i j => (departsCuda c v t i j).2)
    ⟨h.x, h.y, hc.incX, hc.incY, h.xadv, h.yadv, fun k hk a => by rw [h.room k hk a]; simp⟩
    (by omega) (by omega) hc.nxu hc.nyu hc.size.le hc.tile0 hc.tx hc.ty
  rw [hc.firstX, hc.lastX, hc.firstY, hc.lastY] at e hs
  have hd : ∀ a i j, m' (.d a i j) = m (.d a i j) := fun a i j => h2 _ fun k _ b => by simp
  refine ⟨m', .of el e hs, ⟨h.toCudaReady.frame fun a i j _ _ => hd a i j, ?_, ?_, ?_⟩⟩
  · exact fun i hi j hj => (hd ..).trans (h.xadv i hi j hj)
  · exact fun i hi j hj => (hd ..).trans (h.yadv i hi j hj)
  · intro i hi j hj
    have := h1 i hi j hj
    rwa [h.room _ (flat_lt hi hj), h.room _ (flat_lt hi hj)] at this

/-- Device memory after the update. -/
structure CudaMoved (m : Mem (Val K)) (c : Setting K) (G : Spec.Fields K) : Prop where
  x : ∀ j < c.nx, m (.d .x 0 j) = .val (posX c j)
  y : ∀ i < c.ny, m (.d .y 0 i) = .val (posY c i)
  tphi : Flat2 m .tempphi c.nx c.ny G.phi
  tpsix : Flat2 m .temppsix c.nx c.ny G.psix
  tpsiy : Flat2 m .temppsiy c.nx c.ny G.psiy
  phi : ∀ k < c.nx * c.ny, m (.d .mphi 0 k) ≠ .oob
  psix : ∀ k < c.nx * c.ny, m (.d .mpsix 0 k) ≠ .oob
  psiy : ∀ k < c.nx * c.ny, m (.d .mpsiy 0 k) ≠ .oob
  tpsixy : ∀ k < c.nx * c.ny, m (.d .temppsixy 0 k) ≠ .oob

theorem flat_room {a : DVar} {f : ℕ → ℕ → K} (h : Flat2 m a c.nx c.ny f) {k : ℕ} (hk : k < c.nx * c.ny) :
    m (.d a 0 k) ≠ .oob := by
  have h0 : 0 < c.nx := Nat.pos_of_ne_zero fun e => by rw [e, Nat.zero_mul] at hk; omega
  have := h (k / c.nx) (Nat.div_lt_of_lt_mul hk) (k % c.nx) (Nat.mod_lt _ h0)
  rw [Nat.div_add_mod'] at this
  rw [this]
  simp

include hc ht in
theorem cuda_update (h : CudaFound m c v t F) (h4 : ∀ i < c.ny, ∀ j < c.nx, departClass c v t i j ≠ 4) :
    ∃ m', KernelOk tile c.nx c.ny (updateCuda v t c.dt c.nx) m m' ∧ CudaMoved m' c (advanceCuda c v t F) := by
  have hx3 := hc.nx3
  have hy3 := hc.ny3
  have hl : ∀ i < c.ny, ∀ j < c.nx, _ := fun i hi j hj => located_class (by omega) (by omega) hc.incX hc.incY
    (xa := (departsCuda c v t i j).1) (ya := (departsCuda c v t i j).2) (tr := m (.n .tracker 0 (i * c.nx + j)))
    (cx := m (.n .cellx 0 (i * c.nx + j))) (cy := m (.n .celly 0 (i * c.nx + j))) (by
    have l := h.loc i hi j hj
    refine ⟨l.inside, l.outY, l.outX, fun px py => absurd ?_ (h4 i hi j hj)⟩
    rw [departClass, Spec.classOf, if_neg px, if_neg py])
  obtain ⟨ts, m', el, e, hs, h1, h2⟩ := C59_update_cuda v ht c.dt (m := m) (xs := posX c) (ys := posY c)
    (xa := fun i j => (departsCuda c v t i j).1) (ya := fun i j => (departsCuda c v t i j).2)
    (cx := fun i j => cellX (posX c) (posY c) c.nx c.ny (departsCuda c v t i j))
    (cy := fun i j => cellY (posX c) (posY c) c.nx c.ny (departsCuda c v t i j))
    (cls := fun i j => Spec.classOf (posX c) (posY c) c.nx c.ny (departsCuda c v t i j))
    (f := F.phi) (fx := F.psix) (fy := F.psiy) (g := F.phi) (gx := F.psix) (gy := F.psiy) (gxy := F.psixy)
    ⟨h.x, h.y, h.xadv, h.yadv, fun i hi j hj => ⟨(hl i hi j hj).2.1, (hl i hi j hj).2.2.2.1⟩,
      fun i hi j hj => ⟨(hl i hi j hj).2.2.1, (hl i hi j hj).2.2.2.2⟩, fun i hi j hj => (hl i hi j hj).1, h.phi, h.psix, h.psiy,
      h.tphi, h.tpsix, h.tpsiy, h.tpsixy⟩
    (by omega) (by omega) hc.nxu hc.nyu hc.size.le hc.tile0 hc.tx hc.ty
  have hd : ∀ a i j, a ≠ .tempphi → a ≠ .temppsix → a ≠ .temppsiy → m' (.d a i j) = m (.d a i j) := fun a i j p q r =>
    h2 _ fun k _ => ⟨by simp [p], by simp [q], by simp [r]⟩
  have tr : ∀ i j, (fun rx ry => superConsistent v true (posX c j) (posY c i) rx ry t c.dt) =
      transportSpec v cudaSchemes t c.dt (posX c j) (posY c i) (departsCuda c v t i j).1 (departsCuda c v t i j).2 (F.psix i j)
        (F.psiy i j) := by
    intro i j
    funext rx ry
    rw [superConsistent_eq v true _ _ rx ry ht]
    rfl
  simp only [tr, hc.spaceX, hc.spaceY, hc.dx_eq, hc.dy_eq] at h1
  refine ⟨m', .of el e hs, ?_, ?_, ?_, ?_, ?_, ?_, ?_, ?_, ?_⟩
  · exact fun j hj => (hd _ _ _ (by simp) (by simp) (by simp)).trans (h.x j hj)
  · exact fun j hj => (hd _ _ _ (by simp) (by simp) (by simp)).trans (h.y j hj)
  · exact fun i hi j hj => (h1 i hi j hj).1
  · exact fun i hi j hj => (h1 i hi j hj).2.1
  · exact fun i hi j hj => (h1 i hi j hj).2.2
  · intro k hk; rw [hd _ _ _ (by simp) (by simp) (by simp)]; exact flat_room h.phi hk
  · intro k hk; rw [hd _ _ _ (by simp) (by simp) (by simp)]; exact flat_room h.psix hk
  · intro k hk; rw [hd _ _ _ (by simp) (by simp) (by simp)]; exact flat_room h.psiy hk
  · intro k hk; rw [hd _ _ _ (by simp) (by simp) (by simp)]; exact flat_room h.tpsixy hk

include hc in
theorem cuda_copy {G : Spec.Fields K} (h : CudaMoved m c G) :
    ∃ m', KernelOk tile c.nx c.ny (copyCuda c.nx) m m' ∧ CudaMoved m' c G ∧ Flat2 m' .mphi c.nx c.ny G.phi ∧
      Flat2 m' .mpsix c.nx c.ny G.psix ∧ Flat2 m' .mpsiy c.nx c.ny G.psiy := by
  obtain ⟨mf, hk, h1, h2⟩ := kernel_wp hc (copyCuda_owned (K := K) c.nx) (m := m)
    (Q := fun i j m' => m' (.d .mphi 0 (i * c.nx + j)) = .val (G.phi i j) ∧
      m' (.d .mpsix 0 (i * c.nx + j)) = .val (G.psix i j) ∧ m' (.d .mpsiy 0 (i * c.nx + j)) = .val (G.psiy i j))
    fun i hi j hj e hlt => by
      have := copyCuda_wp (m := m) (nx := c.nx) (ix := j) (iy := i) (a := G.phi i j) (b := G.psix i j) (d := G.psiy i j)
      rw [e] at this
      exact this (h.tphi i hi j hj) (h.tpsix i hi j hj) (h.tpsiy i hi j hj) (h.phi _ hlt) (h.psix _ hlt) (h.psiy _ hlt)
  have hd : ∀ a i j, a ≠ .mphi → a ≠ .mpsix → a ≠ .mpsiy → mf (.d a i j) = m (.d a i j) := fun a i j p q r =>
    h2 _ fun k _ => by rw [copyOwner_other p q r]; simp
  have f1 : Flat2 mf .mphi c.nx c.ny G.phi := fun i hi j hj => by
    obtain ⟨m', q, ho⟩ := h1 i hi j hj
    rw [ho _ rfl]; exact q.1
  have f2 : Flat2 mf .mpsix c.nx c.ny G.psix := fun i hi j hj => by
    obtain ⟨m', q, ho⟩ := h1 i hi j hj
    rw [ho _ rfl]; exact q.2.1
  have f3 : Flat2 mf .mpsiy c.nx c.ny G.psiy := fun i hi j hj => by
    obtain ⟨m', q, ho⟩ := h1 i hi j hj
    rw [ho _ rfl]; exact q.2.2
  refine ⟨mf, hk, ⟨?_, ?_, ?_, ?_, ?_, ?_, ?_, ?_, ?_⟩, f1, f2, f3⟩
  · exact fun j hj => (hd _ _ _ (by simp) (by simp) (by simp)).trans (h.x j hj)
  · exact fun j hj => (hd _ _ _ (by simp) (by simp) (by simp)).trans (h.y j hj)
  · exact fun i hi j hj => (hd _ _ _ (by simp) (by simp) (by simp)).trans (h.tphi i hi j hj)
  · exact fun i hi j hj => (hd _ _ _ (by simp) (by simp) (by simp)).trans (h.tpsix i hi j hj)
  · exact fun i hi j hj => (hd _ _ _ (by simp) (by simp) (by simp)).trans (h.tpsiy i hi j hj)
  · exact fun k hk => flat_room f1 hk
  · exact fun k hk => flat_room f2 hk
  · exact fun k hk => flat_room f3 hk
  · intro k hk; rw [hd _ _ _ (by simp) (by simp) (by simp)]; exact h.tpsixy k hk

include hc in
theorem cuda_mixed {G : Spec.Fields K} (h : CudaMoved m c G) (f1 : Flat2 m .mphi c.nx c.ny G.phi)
    (f2 : Flat2 m .mpsix c.nx c.ny G.psix) (f3 : Flat2 m .mpsiy c.nx c.ny G.psiy)
    (hG : G.psixy = cudaStencil G.psix G.psiy c.nx c.ny c.dx c.dy) :
    ∃ m', KernelOk tile c.nx c.ny (mixedCuda c.nx c.ny c.dx c.dy) m m' ∧ CudaReady (stepFreeCuda m') c G := by
  have hx3 := hc.nx3
  have hy3 := hc.ny3
  obtain ⟨ts, m', el, e, hs, h1, h2⟩ := mixed_kernel (m := m) (px := G.psix) (py := G.psiy)
    ⟨⟨h.tpsix, h.tpsiy, by omega, by omega, hc.size⟩, h.tpsixy⟩ c.dx c.dy hc.tile0 hc.tx hc.ty
  have hd : ∀ a i j, a ≠ .temppsixy → m' (.d a i j) = m (.d a i j) := fun a i j p => h2 _ fun k _ => by simp [p]
  refine ⟨m', .of el e hs, CudaReady.frame (m := m') ⟨?_, ?_, ?_, ?_, ?_, ?_, ?_, ?_, ?_⟩ fun a i j p q => by
    simp [stepFreeCuda, mallocD, mallocN, p, q]⟩
  · exact fun j hj => (hd _ _ _ (by simp)).trans (h.x j hj)
  · exact fun j hj => (hd _ _ _ (by simp)).trans (h.y j hj)
  · exact fun i hi j hj => (hd _ _ _ (by simp)).trans (f1 i hi j hj)
  · exact fun i hi j hj => (hd _ _ _ (by simp)).trans (f2 i hi j hj)
  · exact fun i hi j hj => (hd _ _ _ (by simp)).trans (f3 i hi j hj)
  · exact fun i hi j hj => (hd _ _ _ (by simp)).trans (h.tphi i hi j hj)
  · exact fun i hi j hj => (hd _ _ _ (by simp)).trans (h.tpsix i hi j hj)
  · exact fun i hi j hj => (hd _ _ _ (by simp)).trans (h.tpsiy i hi j hj)
  · rw [hG]; exact h1

theorem KernelOk.chain {m0 : Mem (Val K)} {b1 b2 b3 b4 b5 : ℕ → ℕ → P K Unit} {m1 m2 m3 m4 m5 : Mem (Val K)} {nx ny : ℕ}
    (h1 : KernelOk tile nx ny b1 m0 m1) (h2 : KernelOk tile nx ny b2 m1 m2) (h3 : KernelOk tile nx ny b3 m2 m3)
    (h4 : KernelOk tile nx ny b4 m3 m4) (h5 : KernelOk tile nx ny b5 m4 m5) :
    [b1, b2, b3, b4, b5].foldlM (fun m b => execKernel tile nx ny b m) m0 = .ok m5 ∧
      (∀ m', ParKernels tile nx ny [b1, b2, b3, b4, b5] m0 m' ↔ m' = m5) ∧
      ¬ ∃ bs b bs' m', [b1, b2, b3, b4, b5] = bs ++ b :: bs' ∧ ParKernels tile nx ny bs m0 m' ∧ KernelFault tile nx ny b m' := by
  refine ⟨?_, ?_, ?_⟩
  · simp only [List.foldlM, h1.seq, h2.seq, h3.seq, h4.seq, h5.seq, M.ok_bind]
    rfl
  · refine fun m' => ⟨?_, fun e => ⟨m1, h1.ran, m2, h2.ran, m3, h3.ran, m4, h4.ran, m5, h5.ran, e⟩⟩
    rintro ⟨n1, p1, n2, p2, n3, p3, n4, p4, n5, p5, rfl⟩
    rw [h1.par _ p1] at p2; rw [h2.par _ p2] at p3; rw [h3.par _ p3] at p4; rw [h4.par _ p4] at p5
    exact h5.par _ p5
  · rintro ⟨bs, b, bs', m', e, hp, hf⟩
    match bs, e, hp with
    | [], e, hp =>
      obtain ⟨rfl, -⟩ := List.cons.inj e
      cases hp
      exact h1.safe hf
    | [_], e, ⟨n1, p1, hp⟩ =>
      simp only [List.cons_append, List.nil_append, List.cons.injEq] at e
      obtain ⟨rfl, rfl, -⟩ := e
      cases hp
      rw [h1.par _ p1] at hf
      exact h2.safe hf
    | [_, _], e, ⟨n1, p1, n2, p2, hp⟩ =>
      simp only [List.cons_append, List.nil_append, List.cons.injEq] at e
      obtain ⟨rfl, rfl, rfl, -⟩ := e
      cases hp
      rw [h1.par _ p1] at p2; rw [h2.par _ p2] at hf
      exact h3.safe hf
    | [_, _, _], e, ⟨n1, p1, n2, p2, n3, p3, hp⟩ =>
      simp only [List.cons_append, List.nil_append, List.cons.injEq] at e
      obtain ⟨rfl, rfl, rfl, rfl, -⟩ := e
      cases hp
      rw [h1.par _ p1] at p2; rw [h2.par _ p2] at p3; rw [h3.par _ p3] at hf
      exact h4.safe hf
    | [_, _, _, _], e, ⟨n1, p1, n2, p2, n3, p3, n4, p4, hp⟩ =>
      simp only [List.cons_append, List.nil_append, List.cons.injEq] at e
      obtain ⟨rfl, rfl, rfl, rfl, rfl, -⟩ := e
      cases hp
      rw [h1.par _ p1] at p2; rw [h2.par _ p2] at p3; rw [h3.par _ p3] at p4; rw [h4.par _ p4] at hf
      exact h5.safe hf
    | _ :: _ :: _ :: _ :: _ :: l, e, _ => simp at e

include hc ht in
/-- **C63**, partial: when no node departs outside along both axes, a time step of the CUDA program is defined under every
schedule of the threads and always ends with the specified fields.  Missing: nodes that depart outside along both axes, for
which the step is undefined (`C63_corner_undefined`). -/
theorem C63_step_partial (h : CudaReady m c F) (h4 : ∀ i < c.ny, ∀ j < c.nx, departClass c v t i j ≠ 4) :
    ∃ m', stepCuda tile c v t m = .ok m' ∧ (∀ m'', CudaStep tile c v t m m'' ↔ m'' = m') ∧ ¬ CudaFault tile c v t m ∧
      CudaReady m' c (advanceCuda c v t F) := by
  obtain ⟨m1, k1, r1⟩ := cuda_adv hc v ht h
  obtain ⟨m2, k2, r2⟩ := cuda_find hc v r1
  obtain ⟨m3, k3, r3⟩ := cuda_update hc v ht r2 h4
  obtain ⟨m4, k4, r4, f1, f2, f3⟩ := cuda_copy hc r3
  obtain ⟨m5, k5, r5⟩ := cuda_mixed hc r4 f1 f2 f3 (by rw [hc.dx_eq, hc.dy_eq]; rfl)
  obtain ⟨e1, e2, e3⟩ := k1.chain k2 k3 k4 k5
  refine ⟨stepFreeCuda m5, ?_, ?_, e3, r5⟩
  · rw [stepCuda, stepKernels, e1]; rfl
  · refine fun m'' => ⟨?_, fun e => ⟨m5, (e2 _).2 rfl, e⟩⟩
    rintro ⟨m1, hp, rfl⟩
    rw [(e2 _).1 hp]

/-- In a list of threads that runs to its end every thread runs to its end, in a memory that differs only where threads
write. -/
theorem runAll_each {own : Loc → Option (ℕ × ℕ)} {ps : List (P K Unit)} (ho : ∀ p ∈ ps, ∃ k, Owned own k p)
    {m mf : Mem (Val K)} (e : runAll ps m = .ok mf) :
    ∀ p ∈ ps, ∃ m1, (∀ l, own l = none → m1 l = m l) ∧ p.wp m1 fun _ _ => True := by
  induction ps generalizing m with
  | nil => simp
  | cons q qs ih =>
    rw [runAll] at e
    cases e' : q.run m with
    | error f => rw [e'] at e; cases e
    | ok r =>
      rw [e', M.ok_bind] at e
      intro p hp
      rcases List.mem_cons.1 hp with rfl | hp
      · exact ⟨m, fun _ _ => rfl, r.1, r.2, e', trivial⟩
      · obtain ⟨m1, h1, h2⟩ := ih (fun p hp => ho p (by simp [hp])) e p hp
        refine ⟨m1, fun l hl => ?_, h2⟩
        obtain ⟨k, hk⟩ := ho q (by simp)
        rw [h1 l hl]
        refine Prog.run_frame (fun hw => ?_) e'
        have := Prog.Fits.writes hk hw
        rw [hl] at this
        cases this

include hc in
/-- The update kernel is undefined when the cell of some node was never written. -/
theorem update_undefined {i j : ℕ} (hi : i < c.ny) (hj : j < c.nx) (hu : m (.n .cellx 0 (i * c.nx + j)) = .uninit) :
    (∀ m', execKernel tile c.nx c.ny (updateCuda v t c.dt c.nx) m ≠ .ok m') ∧
      (∀ m', ¬ ParKernel tile c.nx c.ny (updateCuda v t c.dt c.nx) m m') ∧
      KernelFault tile c.nx c.ny (updateCuda v t c.dt c.nx) m := by
  obtain ⟨ts, el, hone⟩ := C46_exactly_once_partial hc.tile0 hc.nxu hc.nyu hc.tx hc.ty
  obtain ⟨hin, hnd⟩ := C46_at_most_once el hc.nxu hc.nyu hc.size.le
  obtain ⟨hpw, hn⟩ := kernel_owned el hc.nxu hc.nyu hc.size.le (fun ix iy => updateCuda_owned v t c.dt c.nx ix iy)
  have hno : ∀ mf, runAll (kernel tile ts (updateCuda v t c.dt c.nx)) m ≠ .ok mf := by
    intro mf e
    have := hone j hj i hi
    obtain ⟨k, hk⟩ := List.length_pos_iff_exists_mem.1 (by omega : 0 < (ts.filter
      fun c => indexX tile c = j ∧ indexY tile c = i).length)
    rw [List.mem_filter, decide_eq_true_iff] at hk
    obtain ⟨hk, eX, eY⟩ := hk
    obtain ⟨c1, c2, c3, c4⟩ := hin k hk
    obtain ⟨m1, h1, h2⟩ := runAll_each (own := updOwner) (fun p hp => by
      obtain ⟨k, hk, rfl⟩ := List.mem_map.1 hp
      exact ⟨_, updateCuda_owned v t c.dt c.nx _ _⟩) e _ (List.mem_map.2 ⟨k, hk, rfl⟩)
    rw [eX, eY] at h2 c3
    simp only [updateCuda, spacing, bind, pure, Prog.wp_bind, Prog.wp_pure, wp_getD, wp_getN] at h2
    obtain ⟨_, -, _, -, _, -, _, -, cx, hcx, -⟩ := h2
    rw [c3, h1 _ rfl, hu] at hcx
    cases hcx
  refine ⟨fun m' e => ?_, fun m' h => ?_, ?_⟩
  · rw [execKernel, el, M.ok_bind, exec_seqAll] at e
    exact hno _ e
  · obtain ⟨ts', el', h⟩ := h
    rw [el] at el'; cases el'
    exact hno _ (parFor_runAll hpw h)
  · obtain ⟨⟨qs, m'⟩, h1, h2⟩ := reaches_fault hpw hno (css := [kernel tile ts (updateCuda v t c.dt c.nx)]) (by simp) .refl
    exact ⟨ts, _, qs, m', el, by simp, h1, h2⟩

include hc ht in
/-- **C63**: a node that departs outside along both axes makes the step undefined: its cell is never written and then read.
No execution, under no schedule, ends, and some execution reaches the undefined read. -/
theorem C63_corner_undefined (h : CudaReady m c F) {i j : ℕ} (hi : i < c.ny) (hj : j < c.nx)
    (h4 : departClass c v t i j = 4) :
    (∀ m', stepCuda tile c v t m ≠ .ok m') ∧ (∀ m', ¬ CudaStep tile c v t m m') ∧ CudaFault tile c v t m := by
  obtain ⟨m1, k1, r1⟩ := cuda_adv hc v ht h
  obtain ⟨m2, k2, r2⟩ := cuda_find hc v r1
  have hu : m2 (.n .cellx 0 (i * c.nx + j)) = .uninit := by
    have hx : ¬ (posX c 0 < (departsCuda c v t i j).1 ∧ (departsCuda c v t i j).1 < posX c (c.nx - 1)) := fun hx => by
      rw [departClass, Spec.classOf, if_pos hx] at h4
      split at h4 <;> simp at h4
    have hy : ¬ (posY c 0 < (departsCuda c v t i j).2 ∧ (departsCuda c v t i j).2 < posY c (c.ny - 1)) := fun hy => by
      rw [departClass, Spec.classOf, if_neg hx, if_pos hy] at h4
      simp at h4
    exact ((r2.loc i hi j hj).outXY hx hy).2.1
  obtain ⟨u1, u2, u3⟩ := update_undefined hc v (t := t) hi hj hu
  refine ⟨fun m' e => ?_, fun m' e => ?_, ?_⟩
  · rw [stepCuda, stepKernels] at e
    simp only [List.foldlM, k1.seq, k2.seq, M.ok_bind] at e
    cases e' : execKernel tile c.nx c.ny (updateCuda v t c.dt c.nx) m2 with
    | ok m3 => exact u1 _ e'
    | error f => rw [e'] at e; cases e
  · obtain ⟨mf, ⟨n1, p1, n2, p2, n3, p3, -⟩, -⟩ := e
    rw [k1.par _ p1] at p2; rw [k2.par _ p2] at p3
    exact u2 _ p3
  · exact ⟨[advCuda v t c.dt c.nx, findCuda c.xlim1 c.xlim2 c.ylim1 c.ylim2 c.nx c.ny], updateCuda v t c.dt c.nx, _, m2, rfl,
      ⟨m1, k1.ran, m2, k2.ran, rfl⟩, u3⟩

end step

end Gals.Props
