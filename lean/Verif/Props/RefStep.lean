import Verif.Props.RefFrames
import Verif.Props.RefMixed
import Verif.Props.RefHeun

/-!
# C60: a whole time step of the CPU versions of the reference code
-/

set_option linter.unusedSectionVars false
set_option linter.unusedSimpArgs false

namespace Gals.Props

open Gals Gals.Ref

variable {K : Type} [Field K] [LinearOrder K] [IsStrictOrderedRing K]

/-! ## Specification of a step -/

/-- The Heun step of the gradient with the deviation stated in C55. -/
def heunCoded (v : Vel K) (x y xa ya qx qy : K) (t : ℕ) (dt : K) : K × K :=
  let e := heunSpec v x y xa ya qx qy t dt
  let s := heunSlopes v x y xa ya qx qy t dt
  (e.1, e.2 - dt ^ 2 / 4 * v.gradUy x y ((t + 1) * dt) * (s.1 - s.2))

/-- Jacobian of the velocity. -/
def jacobian (v : Vel K) (x y t : K) : Spec.Mat2 K := ⟨v.gradUx x y t, v.gradUy x y t, v.gradVx x y t, v.gradVy x y t⟩

/-- Transport of the gradient `(rx, ry)` at the departure point to the node; `(px, py)` is the old gradient at the node,
kept for an unknown scheme. -/
def transportSpec (v : Vel K) (s : Schemes) (t : ℕ) (dt x y xa ya px py rx ry : K) : K × K :=
  if s.psischeme = "Heuns" then heunCoded v x y xa ya rx ry t dt
  else if s.psischeme = "SuperConsistent" then Spec.gradientAt v.velx v.vely (jacobian v) s.rk3 t dt x y (rx, ry) else (px, py)

/-- Column of the cell; the first one when the point is outside along both axes. -/
def cellX (xs ys : ℕ → K) (nx ny : ℕ) (p : K × K) : ℕ :=
  if Spec.classOf xs ys nx ny p = 4 then 0 else Spec.cellAlong xs nx p.1
/-- Row of the cell. -/
def cellY (xs ys : ℕ → K) (nx ny : ℕ) (p : K × K) : ℕ :=
  if Spec.classOf xs ys nx ny p = 4 then 0 else Spec.cellAlong ys ny p.2

/-- New value and gradient at the node `(i, j)` with departure point `p`. -/
def nodeAt (v : Vel K) (s : Schemes) (t : ℕ) (dt dx dy : K) (xs ys : ℕ → K) (nx ny : ℕ) (F : Spec.Fields K) (p : K × K)
    (i j : ℕ) : K × K × K :=
  nodeSpec v (transportSpec v s t dt (xs j) (ys i) p.1 p.2 (F.psix i j) (F.psiy i j)) t dt dx dy F.phi F.psix F.psiy F.psixy
    xs ys (Spec.classOf xs ys nx ny p) (cellX xs ys nx ny p) (cellY xs ys nx ny p) (xs j) (ys i) p.1 p.2 (F.phi i j)
    (F.psix i j) (F.psiy i j) (F.psixy i j)

/-- All fields after step `t`, when `dep i j` is the departure point of the node `(i, j)`. -/
def advance (v : Vel K) (s : Schemes) (t : ℕ) (dt dx dy : K) (xs ys : ℕ → K) (nx ny : ℕ) (dep : ℕ → ℕ → K × K)
    (F : Spec.Fields K) : Spec.Fields K :=
  let N := fun i j => nodeAt v s t dt dx dy xs ys nx ny F (dep i j) i j
  ⟨fun i j => (N i j).1, fun i j => (N i j).2.1, fun i j => (N i j).2.2,
    Spec.mixedStencil (fun i j => (N i j).2.1) (fun i j => (N i j).2.2) nx ny dx dy⟩

/-! ## Transport -/

theorem superConsistent_eq (v : Vel K) (rk3 : Bool) (x y a b : K) {t : ℕ} (ht : t + 1 < uMod) (dt : K) :
    superConsistent v rk3 x y a b t dt = Spec.gradientAt v.velx v.vely (jacobian v) rk3 t dt x y (a, b) := by
  have et : tm (uadd t 1) dt = ((t : K) + 1) * dt := by
    rw [tm, uadd_eq (by omega)]; push_cast; ring
  have e0 : tm t dt = (t : K) * dt := rfl
  have eh : (t : K) * dt + dt / 2 = ((t : K) + 1 / 2) * dt := by ring
  have q1 : ∀ z p q : K, z - dt / 2 * (1 / 2 * p + 1 / 2 * q) = z - dt * (p + q) / 4 := fun z p q => by ring
  cases rk3 with
  | false =>
    ext <;> simp only [superConsistent, Spec.gradientAt, jacobian, Spec.Mat2.idSub, Spec.Mat2.transposeMul, et,
      Bool.false_eq_true, if_false] <;> ring
  | true =>
    ext <;> simp only [superConsistent, Spec.gradientAt, jacobian, Spec.Mat2.idSub, Spec.Mat2.mul, Spec.Mat2.add,
      Spec.Mat2.smul, Spec.Mat2.transposeMul, et, e0, eh, if_true, q1, mul_comm _ dt] <;> ring_nf

theorem transport_eq (v : Vel K) (s : Schemes) {t : ℕ} (ht : t + 1 < uMod) (dt x y xa ya px py : K) :
    transport v s t dt x y xa ya px py = transportSpec v s t dt x y xa ya px py := by
  funext rx ry
  simp only [transport, transportSpec]
  split
  · obtain ⟨h1, h2⟩ := C55_partial v x y xa ya rx ry ht dt
    exact Prod.ext h1 h2
  · split
    · exact superConsistent_eq v _ x y rx ry ht dt
    · rfl

/-! ## Location -/

theorem filter_lt_length (n q : ℕ) : ((List.range n).filter fun k => decide (k < q)).length = min n q := by
  induction n with
  | zero => simp
  | succ n ih =>
    rw [List.range_succ, List.filter_append, List.length_append, ih, List.filter_singleton]
    by_cases h : n < q
    · simp only [h, decide_true, cond_true, if_true, List.length_singleton]; omega
    · simp only [h, decide_false, cond_false, List.length_nil, Bool.false_eq_true, if_false]; omega

theorem cellAlong_inside {xs : ℕ → K} {n : ℕ} (inc : ∀ i j, i < j → j < n → xs i < xs j) {p : K} {c : ℕ}
    (h : Spec.Encloses xs n p c) (h0 : xs 0 < p) (h1 : p < xs (n - 1)) : Spec.cellAlong xs n p = c := by
  obtain ⟨hc, hl, hr⟩ := h
  rw [Spec.cellAlong, if_neg (not_le.2 h0), if_pos h1]
  have : ((List.range n).filter fun k => decide (xs k < p)) = (List.range n).filter fun k => decide (k < c + 1) := by
    refine List.filter_congr fun k hk => ?_
    rw [List.mem_range] at hk
    rw [decide_eq_decide]
    constructor
    · intro h
      by_contra hk'
      have hk2 : c + 1 ≤ k := by omega
      rcases hk2.eq_or_lt with e | hlt
      · rw [← e] at h; exact absurd h (not_lt.2 hr)
      · exact absurd (h.trans_le hr) (not_lt.2 (inc _ _ hlt hk).le)
    · intro h
      rcases (Nat.lt_succ_iff.1 h).eq_or_lt with e | hlt
      · rw [e]; exact hl
      · exact (inc _ _ hlt (by omega)).trans hl
  rw [this, filter_lt_length]
  omega

theorem cellAlong_outside {xs : ℕ → K} {n : ℕ} {p : K} (h : ¬ (xs 0 < p ∧ p < xs (n - 1))) :
    Spec.cellAlong xs n p = if p ≤ xs 0 then 0 else n - 2 := by
  rw [Spec.cellAlong]
  split
  · rfl
  · rename_i h0
    rw [if_neg fun h1 => h ⟨not_le.1 h0, h1⟩]

theorem located_class {xs ys : ℕ → K} {nx ny : ℕ} {xa ya : K} {tr cx cy : Slot ℕ} (nx2 : 2 ≤ nx) (ny2 : 2 ≤ ny)
    (incX : ∀ i j, i < j → j < nx → xs i < xs j) (incY : ∀ i j, i < j → j < ny → ys i < ys j)
    (h : Spec.Located (fun n => (Slot.val n : Slot ℕ)) xs ys nx ny xa ya (.val 0) (.val 0) tr cx cy) :
    tr = .val (Spec.classOf xs ys nx ny (xa, ya)) ∧ cx = .val (cellX xs ys nx ny (xa, ya)) ∧
      cy = .val (cellY xs ys nx ny (xa, ya)) ∧ cellX xs ys nx ny (xa, ya) + 1 < nx ∧ cellY xs ys nx ny (xa, ya) + 1 < ny := by
  by_cases hx : xs 0 < xa ∧ xa < xs (nx - 1) <;> by_cases hy : ys 0 < ya ∧ ya < ys (ny - 1)
  · obtain ⟨a, b, ha, hb, h1, h2, h3⟩ := h.inside hx hy
    have ec : Spec.classOf xs ys nx ny (xa, ya) = 1 := by simp only [Spec.classOf, if_pos hx, if_pos hy]
    have ex := cellAlong_inside incX ha hx.1 hx.2
    have ey := cellAlong_inside incY hb hy.1 hy.2
    simp only [cellX, cellY, ec, ex, ey, OfNat.one_ne_ofNat, if_false]
    exact ⟨h1, h2, h3, ha.1, hb.1⟩
  · obtain ⟨a, ha, h1, h2, h3⟩ := h.outY hx hy
    have ec : Spec.classOf xs ys nx ny (xa, ya) = 2 := by simp only [Spec.classOf, if_pos hx, if_neg hy]
    have ex := cellAlong_inside incX ha hx.1 hx.2
    have ey := cellAlong_outside hy
    simp only [cellX, cellY, ec, ex, ey, OfNat.ofNat_eq_ofNat, Nat.succ_ne_self, Nat.reduceEqDiff, if_false]
    exact ⟨h1, h2, h3, ha.1, by split <;> omega⟩
  · obtain ⟨b, hb, h1, h2, h3⟩ := h.outX hx hy
    have ec : Spec.classOf xs ys nx ny (xa, ya) = 3 := by simp only [Spec.classOf, if_neg hx, if_pos hy]
    have ex := cellAlong_outside hx
    have ey := cellAlong_inside incY hb hy.1 hy.2
    simp only [cellX, cellY, ec, ex, ey, Nat.reduceEqDiff, if_false]
    exact ⟨h1, h2, h3, by split <;> omega, hb.1⟩
  · obtain ⟨h1, h2, h3⟩ := h.outXY hx hy
    have ec : Spec.classOf xs ys nx ny (xa, ya) = 4 := by simp only [Spec.classOf, if_neg hx, if_neg hy]
    simp only [cellX, cellY, ec, if_true]
    exact ⟨h1, h2, h3, by omega, by omega⟩

/-! ## A step -/

/-- Memory at the beginning of a time step. -/
structure Ready (m : Mem (Val K)) (nx ny : ℕ) (xs ys : ℕ → K) (F : Spec.Fields K) : Prop extends
    Printable m nx ny xs ys F where
  tphi : Grid2 m .tempphi nx ny F.phi
  tpsix : Grid2 m .temppsix nx ny F.psix
  tpsiy : Grid2 m .temppsiy nx ny F.psiy
  tpsixy : Grid2 m .temppsixy nx ny F.psixy

/-- Settings of a run: at least three nodes per axis, and a domain of positive size. -/
structure Valid (c : Setting K) : Prop where
  nx3 : 3 ≤ c.nx
  ny3 : 3 ≤ c.ny
  nxu : c.nx < uMod
  nyu : c.ny < uMod
  x : c.xlim1 < c.xlim2
  y : c.ylim1 < c.ylim2

/-- Node positions. -/
def posX (c : Setting K) (j : ℕ) : K := c.xlim1 + (c.xlim2 - c.xlim1) / (c.nx - 1) * j
/-- Node positions. -/
def posY (c : Setting K) (i : ℕ) : K := c.ylim1 + (c.ylim2 - c.ylim1) / (c.ny - 1) * i

section valid
variable {c : Setting K} (h : Valid c)
include h

theorem Valid.dx_eq : c.dx = (c.xlim2 - c.xlim1) / (c.nx - 1) := by
  rw [Setting.dx, usub_eq (by have := h.nx3; omega) h.nxu, Nat.cast_sub (by have := h.nx3; omega), Nat.cast_one]
theorem Valid.dy_eq : c.dy = (c.ylim2 - c.ylim1) / (c.ny - 1) := by
  rw [Setting.dy, usub_eq (by have := h.ny3; omega) h.nyu, Nat.cast_sub (by have := h.ny3; omega), Nat.cast_one]
theorem Valid.nx_pos : (0 : K) < c.nx - 1 := by
  have : (1 : K) < c.nx := by exact_mod_cast (by have := h.nx3; omega : 1 < c.nx)
  linarith
theorem Valid.ny_pos : (0 : K) < c.ny - 1 := by
  have : (1 : K) < c.ny := by exact_mod_cast (by have := h.ny3; omega : 1 < c.ny)
  linarith
theorem Valid.dx_pos : 0 < c.dx := by rw [h.dx_eq]; exact div_pos (sub_pos.2 h.x) h.nx_pos
theorem Valid.dy_pos : 0 < c.dy := by rw [h.dy_eq]; exact div_pos (sub_pos.2 h.y) h.ny_pos
theorem Valid.posX_eq (j : ℕ) : posX c j = c.xlim1 + c.dx * j := by rw [posX, h.dx_eq]
theorem Valid.posY_eq (i : ℕ) : posY c i = c.ylim1 + c.dy * i := by rw [posY, h.dy_eq]
theorem Valid.incX (i j : ℕ) (hij : i < j) (_ : j < c.nx) : posX c i < posX c j := by
  have : (i : K) < j := by exact_mod_cast hij
  rw [h.posX_eq, h.posX_eq]
  nlinarith [h.dx_pos]
theorem Valid.incY (i j : ℕ) (hij : i < j) (_ : j < c.ny) : posY c i < posY c j := by
  have : (i : K) < j := by exact_mod_cast hij
  rw [h.posY_eq, h.posY_eq]
  nlinarith [h.dy_pos]
theorem Valid.firstX : posX c 0 = c.xlim1 := by simp [posX]
theorem Valid.firstY : posY c 0 = c.ylim1 := by simp [posY]
theorem Valid.lastX : posX c (c.nx - 1) = c.xlim2 := by
  rw [posX, Nat.cast_sub (by have := h.nx3; omega), Nat.cast_one, div_mul_cancel₀ _ h.nx_pos.ne']; ring
theorem Valid.lastY : posY c (c.ny - 1) = c.ylim2 := by
  rw [posY, Nat.cast_sub (by have := h.ny3; omega), Nat.cast_one, div_mul_cancel₀ _ h.ny_pos.ne']; ring
theorem Valid.spaceX : posX c 2 - posX c 1 = c.dx := by rw [h.posX_eq, h.posX_eq]; push_cast; ring
theorem Valid.spaceY : posY c 2 - posY c 1 = c.dy := by rw [h.posY_eq, h.posY_eq]; push_cast; ring

end valid

theorem exec_seqAll (ps : List (P K Unit)) (m : Mem (Val K)) : exec (.seqAll ps) m = runAll ps m := by
  rw [exec, Prog.run_seqAll]
  cases runAll ps m <;> rfl

theorem exec_update (v : Vel K) (s : Schemes) (t : ℕ) (dt : K) {nx ny : ℕ} {m : Mem (Val K)} {xs ys : ℕ → K} (hx : 2 < nx)
    (hy : 2 < ny) (h1 : ∀ k < nx, m (.d .x 0 k) = .val (xs k)) (h2 : ∀ k < ny, m (.d .y 0 k) = .val (ys k)) :
    exec (update v s t dt nx ny) m = runAll (updateLoop v s t dt (xs 2 - xs 1) (ys 2 - ys 1) ny 0 nx) m := by
  have a1 := h1 1 (by omega)
  have a2 := h1 2 (by omega)
  have b1 := h2 1 (by omega)
  have b2 := h2 2 (by omega)
  have e : (update v s t dt nx ny).run m =
      (Prog.seqAll (updateLoop v s t dt (xs 2 - xs 1) (ys 2 - ys 1) ny 0 nx)).run m := by
    simp only [update, spacing, getD, Prog.get, Prog.bind_eq, Prog.pure_eq, Prog.bind, Prog.run, a1, a2, b1, b2]
  rw [← exec_seqAll, exec, e, exec]

/-! ### Stages -/

section stages
variable {c : Setting K} (hc : Valid c) (v : Vel K) {t : ℕ} (ht : t + 1 < uMod) {m : Mem (Val K)} {F : Spec.Fields K}

/-- Memory after the departure points are stored. -/
structure Departed (m : Mem (Val K)) (c : Setting K) (F : Spec.Fields K) (dep : ℕ → ℕ → K × K) : Prop extends
    Ready m c.nx c.ny (posX c) (posY c) F where
  xadv : Grid2 m .xadv c.nx c.ny fun i j => (dep i j).1
  yadv : Grid2 m .yadv c.nx c.ny fun i j => (dep i j).2
  tracker : ∀ i < c.ny, ∀ j < c.nx, m (.n .tracker i j) ≠ .oob

/-- Memory after the cells are stored. -/
structure Found (m : Mem (Val K)) (c : Setting K) (F : Spec.Fields K) (dep : ℕ → ℕ → K × K) : Prop extends
    Departed m c F dep where
  cls : ∀ i < c.ny, ∀ j < c.nx, m (.n .tracker i j) = .val (Spec.classOf (posX c) (posY c) c.nx c.ny (dep i j))
  cellx : ∀ i < c.ny, ∀ j < c.nx, m (.n .cellx i j) = .val (cellX (posX c) (posY c) c.nx c.ny (dep i j)) ∧
    cellX (posX c) (posY c) c.nx c.ny (dep i j) + 1 < c.nx
  celly : ∀ i < c.ny, ∀ j < c.nx, m (.n .celly i j) = .val (cellY (posX c) (posY c) c.nx c.ny (dep i j)) ∧
    cellY (posX c) (posY c) c.nx c.ny (dep i j) + 1 < c.ny

/-- Memory after the update. -/
structure Moved (m : Mem (Val K)) (c : Setting K) (G : Spec.Fields K) : Prop where
  x : ∀ j < c.nx, m (.d .x 0 j) = .val (posX c j)
  y : ∀ i < c.ny, m (.d .y 0 i) = .val (posY c i)
  tphi : Grid2 m .tempphi c.nx c.ny G.phi
  tpsix : Grid2 m .temppsix c.nx c.ny G.psix
  tpsiy : Grid2 m .temppsiy c.nx c.ny G.psiy
  tpsixy : ∀ i < c.ny, ∀ j < c.nx, m (.d .temppsixy i j) ≠ .oob

theorem Ready.arrays (h : Ready m c.nx c.ny (posX c) (posY c) F) : Ready (stepArrays c m) c.nx c.ny (posX c) (posY c) F where
  x := h.x
  y := h.y
  phi := h.phi
  psix := h.psix
  psiy := h.psiy
  psixy := h.psixy
  tphi := h.tphi
  tpsix := h.tpsix
  tpsiy := h.tpsiy
  tpsixy := h.tpsixy

/-- Nothing but departure points, cells and classes changed. -/
theorem Ready.frame {m' : Mem (Val K)} {nx ny : ℕ} {xs ys : ℕ → K} (h : Ready m nx ny xs ys F)
    (hf : ∀ a i j, a ≠ .xadv → a ≠ .yadv → m' (.d a i j) = m (.d a i j)) : Ready m' nx ny xs ys F where
  x j hj := by rw [hf _ _ _ (by simp) (by simp)]; exact h.x j hj
  y j hj := by rw [hf _ _ _ (by simp) (by simp)]; exact h.y j hj
  phi i hi j hj := by rw [hf _ _ _ (by simp) (by simp)]; exact h.phi i hi j hj
  psix i hi j hj := by rw [hf _ _ _ (by simp) (by simp)]; exact h.psix i hi j hj
  psiy i hi j hj := by rw [hf _ _ _ (by simp) (by simp)]; exact h.psiy i hi j hj
  psixy i hi j hj := by rw [hf _ _ _ (by simp) (by simp)]; exact h.psixy i hi j hj
  tphi i hi j hj := by rw [hf _ _ _ (by simp) (by simp)]; exact h.tphi i hi j hj
  tpsix i hi j hj := by rw [hf _ _ _ (by simp) (by simp)]; exact h.tpsix i hi j hj
  tpsiy i hi j hj := by rw [hf _ _ _ (by simp) (by simp)]; exact h.tpsiy i hi j hj
  tpsixy i hi j hj := by rw [hf _ _ _ (by simp) (by simp)]; exact h.tpsixy i hi j hj

/-- Departure points of all nodes: OpenMP and MPI text. -/
def departs (c : Setting K) (v : Vel K) (t : ℕ) (i j : ℕ) : K × K :=
  Spec.departAt v.velx v.vely c.schemes.rk3 t c.dt (posX c j) (posY c i)

/-- Departure points that the serial text stores: the last row and the last column keep the initial zero. -/
def departsSerial (c : Setting K) (v : Vel K) (t : ℕ) (i j : ℕ) : K × K :=
  if i + 1 < c.ny ∧ j + 1 < c.nx then departs c v t i j else (0, 0)

theorem adv_room (h : Ready m c.nx c.ny (posX c) (posY c) F) : CpuAdv (stepArrays c m) c.nx c.ny (posX c) (posY c) where
  x := h.x
  y := h.y
  xadv i hi j hj := by simp [stepArrays, allocD, hi, hj]
  yadv i hi j hj := by simp [stepArrays, allocD, hi, hj]

include hc ht

theorem stage_adv (h : Ready m c.nx c.ny (posX c) (posY c) F) :
    ∃ m', runAll (advMpi v c.schemes.rk3 t c.dt c.ny 0 c.nx) (stepArrays c m) = .ok m' ∧
      Spec.ScheduleIndependent (advMpi v c.schemes.rk3 t c.dt c.ny 0 c.nx) (stepArrays c m) m' ∧
      Departed m' c F (departs c v t) := by
  obtain ⟨m', e, hs, h1, h2⟩ := C43_openmp_mpi v c.schemes.rk3 ht c.dt (adv_room h) (lo := 0) (hi := c.nx) le_rfl
  refine ⟨m', e, hs, ⟨h.arrays.frame fun a i j ha hb => h2 _ fun i hi j hj _ => ⟨by simp [ha], by simp [hb]⟩, ?_, ?_, ?_⟩⟩
  · exact fun i hi j hj => (h1 i hi j hj (Nat.zero_le _)).1
  · exact fun i hi j hj => (h1 i hi j hj (Nat.zero_le _)).2
  · intro i hi j hj
    rw [h2 _ fun i hi j hj _ => ⟨by simp, by simp⟩]
    simp [stepArrays, allocD, allocN, hi, hj]

theorem stage_advSerial (h : Ready m c.nx c.ny (posX c) (posY c) F) :
    ∃ m', runAll (advSerial v c.schemes.rk3 t c.dt c.nx c.ny) (stepArrays c m) = .ok m' ∧
      Departed m' c F (departsSerial c v t) := by
  obtain ⟨m', e, h1, h2⟩ := C43_serial_partial v c.schemes.rk3 ht c.dt (adv_room h) (by have := hc.nx3; omega) hc.nxu
    (by have := hc.ny3; omega) hc.nyu
  refine ⟨m', e, ⟨h.arrays.frame fun a i j ha hb => h2 _ fun i hi j hj => ⟨by simp [ha], by simp [hb]⟩, ?_, ?_, ?_⟩⟩
  · intro i hi j hj
    by_cases hl : i + 1 < c.ny ∧ j + 1 < c.nx
    · simpa only [departsSerial, departs, if_pos hl] using (h1 i hl.1 j hl.2).1
    · simp only [departsSerial, if_neg hl]
      rw [h2 _ fun i' hi' j' hj' => ⟨by simp; rintro rfl rfl; exact hl ⟨hi', hj'⟩, by simp⟩]
      simp [stepArrays, allocD, hi, hj]
  · intro i hi j hj
    by_cases hl : i + 1 < c.ny ∧ j + 1 < c.nx
    · simpa only [departsSerial, departs, if_pos hl] using (h1 i hl.1 j hl.2).2
    · simp only [departsSerial, if_neg hl]
      rw [h2 _ fun i' hi' j' hj' => ⟨by simp, by simp; rintro rfl rfl; exact hl ⟨hi', hj'⟩⟩]
      simp [stepArrays, allocD, hi, hj]
  · intro i hi j hj
    rw [h2 _ fun i hi j hj => ⟨by simp, by simp⟩]
    simp [stepArrays, allocD, allocN, hi, hj]

omit ht in
theorem stage_find {dep : ℕ → ℕ → K × K} (h : Departed m c F dep) :
    ∃ m', runAll (find c.xlim1 c.xlim2 c.ylim1 c.ylim2 c.nx c.ny 0 c.nx) (stepCells c m) = .ok m' ∧
      Spec.ScheduleIndependent (find c.xlim1 c.xlim2 c.ylim1 c.ylim2 c.nx c.ny 0 c.nx) (stepCells c m) m' ∧ Found m' c F dep := by
  have hx3 := hc.nx3
  have hy3 := hc.ny3
  have hf : CpuFind (stepCells c m) c.nx c.ny (posX c) (posY c) (fun i j => (dep i j).1) (fun i j => (dep i j).2) :=
    { x := h.x, y := h.y, incX := hc.incX, incY := hc.incY, xadv := h.xadv, yadv := h.yadv
      room := fun i hi j hj a => by
        cases a
        · simp [stepCells, allocN, hi, hj]
        · simp [stepCells, allocN, hi, hj]
        · simpa [stepCells, allocN] using h.tracker i hi j hj }
  obtain ⟨m', e, hs, h1, h2⟩ := C58_locate_cpu hf (by omega) (by omega) hc.nxu hc.nyu (lo := 0) (hi := c.nx) le_rfl
  rw [hc.firstX, hc.lastX, hc.firstY, hc.lastY] at e hs
  have hd : ∀ a i j, m' (.d a i j) = m (.d a i j) := fun a i j => h2 _ fun i hi j hj _ b => by simp
  have hl : ∀ i < c.ny, ∀ j < c.nx, _ := fun i hi j hj => located_class (by omega) (by omega) hc.incX hc.incY (by
    have := h1 i hi j hj (Nat.zero_le _)
    simpa [stepCells, allocN, hi, hj] using this)
  refine ⟨m', e, hs, ⟨⟨h.toReady.frame fun a i j _ _ => hd a i j, ?_, ?_, ?_⟩, ?_, ?_, ?_⟩⟩
  · exact fun i hi j hj => (hd ..).trans (h.xadv i hi j hj)
  · exact fun i hi j hj => (hd ..).trans (h.yadv i hi j hj)
  · intro i hi j hj
    rw [(hl i hi j hj).1]
    simp
  · exact fun i hi j hj => (hl i hi j hj).1
  · exact fun i hi j hj => ⟨(hl i hi j hj).2.1, (hl i hi j hj).2.2.2.1⟩
  · exact fun i hi j hj => ⟨(hl i hi j hj).2.2.1, (hl i hi j hj).2.2.2.2⟩

theorem stage_update {dep : ℕ → ℕ → K × K} (h : Found m c F dep) :
    ∃ m', runAll (updateLoop v c.schemes t c.dt c.dx c.dy c.ny 0 c.nx) m = .ok m' ∧
      Spec.ScheduleIndependent (updateLoop v c.schemes t c.dt c.dx c.dy c.ny 0 c.nx) m m' ∧
      Moved m' c (advance v c.schemes t c.dt c.dx c.dy (posX c) (posY c) c.nx c.ny dep F) := by
  have hu : CpuUpd m c.nx c.ny (posX c) (posY c) (fun i j => (dep i j).1) (fun i j => (dep i j).2)
      (fun i j => cellX (posX c) (posY c) c.nx c.ny (dep i j)) (fun i j => cellY (posX c) (posY c) c.nx c.ny (dep i j))
      (fun i j => Spec.classOf (posX c) (posY c) c.nx c.ny (dep i j)) F.phi F.psix F.psiy F.psixy F.phi F.psix F.psiy F.psixy :=
    { x := h.x, y := h.y, xadv := h.xadv, yadv := h.yadv, cellx := h.cellx, celly := h.celly, tracker := h.cls, phi := h.phi
      psix := h.psix, psiy := h.psiy, psixy := h.psixy, tphi := h.tphi, tpsix := h.tpsix, tpsiy := h.tpsiy
      tpsixy := h.tpsixy }
  obtain ⟨m', e, hs, h1, h2⟩ := C59_update_cpu v c.schemes ht c.dt c.dx c.dy hu hc.nxu hc.nyu (lo := 0) (hi := c.nx) le_rfl
  have hd : ∀ a i j, a ≠ .tempphi → a ≠ .temppsix → a ≠ .temppsiy → m' (.d a i j) = m (.d a i j) := fun a i j p q r =>
    h2 _ fun i hi j hj _ => ⟨by simp [p], by simp [q], by simp [r]⟩
  simp only [transport_eq v _ ht] at h1
  refine ⟨m', e, hs, ?_, ?_, ?_, ?_, ?_, ?_⟩
  · exact fun j hj => (hd _ _ _ (by simp) (by simp) (by simp)).trans (h.x j hj)
  · exact fun j hj => (hd _ _ _ (by simp) (by simp) (by simp)).trans (h.y j hj)
  · exact fun i hi j hj => (h1 i hi j hj (Nat.zero_le _)).1
  · exact fun i hi j hj => (h1 i hi j hj (Nat.zero_le _)).2.1
  · exact fun i hi j hj => (h1 i hi j hj (Nat.zero_le _)).2.2
  · intro i hi j hj
    rw [hd _ _ _ (by simp) (by simp) (by simp), h.tpsixy i hi j hj]
    simp

omit ht in
/-- Any order of the iterations of the mixed-derivative loop, then the copies. -/
theorem stage_mixed {G : Spec.Fields K} (h : Moved m c G)
    (hG : G.psixy = Spec.mixedStencil G.psix G.psiy c.nx c.ny c.dx c.dy) {cs : List (ℕ × ℕ)}
    (hp : cs.Perm (nodes c.ny 0 c.nx)) :
    ∃ m', runAll (cs.map fun k => mixedBody c.nx c.ny c.dx c.dy k.1 k.2) (declMixed m) = .ok m' ∧
      Ready (stepFinish m') c.nx c.ny (posX c) (posY c) G := by
  have hx3 := hc.nx3
  have hy3 := hc.ny3
  obtain ⟨m', e, h1, h2, -⟩ := mixed_run c.dx c.dy (m := declMixed m) (px := G.psix) (py := G.psiy) (by omega) (by omega) hc.nxu
    hc.nyu cs (fun k hk => by have := mem_nodes.1 (hp.mem_iff.1 hk); omega) h.tpsix h.tpsiy h.tpsixy (by
      rintro l (rfl | rfl | rfl | rfl | rfl | rfl) <;> simp [declMixed])
  have hd : ∀ a i j, a ≠ .temppsixy → ¬ IsTemp (.d a i j) → m' (.d a i j) = declMixed m (.d a i j) := fun a i j p q =>
    h2 _ (fun k hk => by simp [p]) q
  have hxy : Grid2 m' .temppsixy c.nx c.ny G.psixy := fun i hi j hj => by
    rw [h1 (i, j) (hp.mem_iff.2 (mem_nodes.2 ⟨hi, Nat.zero_le _, hj⟩)), hG]
  have hphi : Grid2 m' .tempphi c.nx c.ny G.phi := fun i hi j hj =>
    (hd _ _ _ (by simp) (by simp [IsTemp])).trans (h.tphi i hi j hj)
  have hpx : Grid2 m' .temppsix c.nx c.ny G.psix := fun i hi j hj =>
    (hd _ _ _ (by simp) (by simp [IsTemp])).trans (h.tpsix i hi j hj)
  have hpy : Grid2 m' .temppsiy c.nx c.ny G.psiy := fun i hi j hj =>
    (hd _ _ _ (by simp) (by simp [IsTemp])).trans (h.tpsiy i hi j hj)
  refine ⟨m', e, ⟨⟨?_, ?_, hphi, hpx, hpy, hxy⟩, hphi, hpx, hpy, hxy⟩⟩
  · exact fun j hj => (hd _ _ _ (by simp) (by simp [IsTemp])).trans (h.x j hj)
  · exact fun j hj => (hd _ _ _ (by simp) (by simp [IsTemp])).trans (h.y j hj)

theorem stepTail_ready {dep : ℕ → ℕ → K × K} (h : Departed m c F dep) :
    ∃ m', stepTail c v c.dx c.dy t m = .ok m' ∧ Ready m' c.nx c.ny (posX c) (posY c)
      (advance v c.schemes t c.dt c.dx c.dy (posX c) (posY c) c.nx c.ny dep F) := by
  have hx3 := hc.nx3
  have hy3 := hc.ny3
  obtain ⟨m1, e1, -, h1⟩ := stage_find hc h
  obtain ⟨m2, e2, -, h2⟩ := stage_update hc v ht h1
  obtain ⟨m3, e3, h3⟩ := stage_mixed hc h2 rfl (List.Perm.refl _)
  refine ⟨_, ?_, h3⟩
  rw [stepTail, exec_seqAll, e1, M.ok_bind, exec_update v c.schemes t c.dt (by omega) (by omega) h1.x h1.y, hc.spaceX,
    hc.spaceY, e2, M.ok_bind, exec_seqAll, mixed, e3]
  rfl

end stages

end Gals.Props
