import Verif.Props.RefCudaStep
import Verif.Props.RefFields

/-!
# C63, C64: runs of the CUDA program
-/

set_option linter.unusedSectionVars false
set_option linter.unusedSimpArgs false

namespace Gals.Props

open Gals Gals.Ref

section setup
variable {K : Type} [Field K] [LinearOrder K] [IsStrictOrderedRing K]

/-- A copy inside both arrays: whole numbers, possibly half a number, the rest untouched. -/
theorem memcpy_ok (splice : K → K → K) {a : DVar} {words : ℕ} {src dst : Mem (Val K)}
    (h : ∀ k, 2 * k < words → src (.d a 0 k) ≠ .oob ∧ dst (.d a 0 k) ≠ .oob) :
    ∃ m', memcpy splice a words src dst = .ok m' ∧ (∀ k, 2 * k + 2 ≤ words → m' (.d a 0 k) = src (.d a 0 k)) ∧
      (∀ k, words = 2 * k + 1 → m' (.d a 0 k) = spliceSlot splice (src (.d a 0 k)) (dst (.d a 0 k))) ∧
      (∀ k, words ≤ 2 * k → m' (.d a 0 k) = dst (.d a 0 k)) ∧ ∀ l, (∀ k, l ≠ .d a 0 k) → m' l = dst l := by
  have hb : ((List.range ((words + 1) / 2)).any fun k => isOob (src (.d a 0 k)) || isOob (dst (.d a 0 k))) = false := by
    rw [List.any_eq_false]
    intro k hk
    rw [List.mem_range] at hk
    obtain ⟨h1, h2⟩ := h k (by omega)
    have : ∀ {α : Type} {s : Slot α}, s ≠ .oob → isOob s = false := fun {α s} h => by
      cases s <;> first | exact absurd rfl h | rfl
    simp [this h1, this h2]
  rw [memcpy, if_neg (by rw [hb]; simp)]
  refine ⟨_, rfl, fun k hk => ?_, fun k hk => ?_, fun k hk => ?_, fun l hl => ?_⟩
  · simp [hk]
  · subst hk
    simp
  · simp [show ¬ 2 * k + 2 ≤ words by omega, show ¬ 2 * k < words by omega]
  · rcases l with ⟨b, i, j⟩ | ⟨b, i, j⟩
    · have : ¬ (b = a ∧ i = 0) := fun ⟨h1, h2⟩ => hl j (by rw [h1, h2])
      simp [this]
    · rfl

/-- The node whose thread writes the location when the arrays `a`, `b`, `c`, `d` are initialised. -/
def initOwnerAt (a b c d : DVar) : Loc → Option (ℕ × ℕ)
  | .d e i j => if e = a ∨ e = b ∨ e = c ∨ e = d then some (i, j) else none
  | .n .. => none

theorem indexW_eq {nx ny i j : ℕ} (h : nx * ny < uMod) (hi : i < ny) (hj : j < nx) : indexW nx j i = i * nx + j := by
  have := flat_lt hi hj
  rw [indexW, umul_eq (by omega), uadd_eq (by omega)]

theorem initCuda_owned (f : Initial K) {a b c d : DVar} (hx : a ≠ .x ∧ b ≠ .x ∧ c ≠ .x ∧ d ≠ .x)
    (hy : a ≠ .y ∧ b ≠ .y ∧ c ≠ .y ∧ d ≠ .y) (nx ix iy : ℕ) :
    Owned (initOwnerAt a b c d) (0, indexW nx ix iy) (initCuda f a b c d nx ix iy) := by
  simp [Owned, initCuda, getD, setD, Prog.get, Prog.set, Prog.bind, Prog.Fits, initOwnerAt, hx.1.symm, hx.2.1.symm,
    hx.2.2.1.symm, hx.2.2.2.symm, hy.1.symm, hy.2.1.symm, hy.2.2.1.symm, hy.2.2.2.symm]

theorem initCuda_wp (f : Initial K) {a b c d : DVar} (hab : a ≠ b) (hac : a ≠ c) (had : a ≠ d) (hbc : b ≠ c) (hbd : b ≠ d)
    (hcd : c ≠ d) {nx ix iy : ℕ} {x y : K} {m : Mem (Val K)} (ex : m (.d .x 0 ix) = .val x) (ey : m (.d .y 0 iy) = .val y)
    (h : ∀ e, e = a ∨ e = b ∨ e = c ∨ e = d → m (.d e 0 (indexW nx ix iy)) ≠ .oob) :
    (initCuda f a b c d nx ix iy).wp m fun _ m' => m' (.d a 0 (indexW nx ix iy)) = .val (f.phi x y) ∧
      m' (.d b 0 (indexW nx ix iy)) = .val (f.psix x y) ∧ m' (.d c 0 (indexW nx ix iy)) = .val (f.psiy x y) ∧
      m' (.d d 0 (indexW nx ix iy)) = .val (f.psixy x y) := by
  simp only [initCuda, bind, pure, Prog.wp_bind, Prog.wp_pure, wp_getD, wp_setD]
  refine ⟨x, ex, y, ey, h a (by simp), ?_, ?_, ?_, ?_, ?_, ?_, ?_⟩ <;>
    simp [Mem.upd_other, Mem.upd_same, Mem.upd_oob_iff, h, hab, hac, had, hbc, hbd, hcd, hab.symm, hac.symm, had.symm, hbc.symm,
      hbd.symm, hcd.symm]

variable {tile : ℕ} {c : Setting K} (hc : CudaValid tile c)

include hc in
/-- The kernel that initialises four arrays. -/
theorem init_kernel (f : Initial K) {a₁ a₂ a₃ a₄ : DVar} (hx : a₁ ≠ .x ∧ a₂ ≠ .x ∧ a₃ ≠ .x ∧ a₄ ≠ .x)
    (hy : a₁ ≠ .y ∧ a₂ ≠ .y ∧ a₃ ≠ .y ∧ a₄ ≠ .y) (h12 : a₁ ≠ a₂) (h13 : a₁ ≠ a₃) (h14 : a₁ ≠ a₄) (h23 : a₂ ≠ a₃)
    (h24 : a₂ ≠ a₄) (h34 : a₃ ≠ a₄) {m : Mem (Val K)} (ex : ∀ j < c.nx, m (.d .x 0 j) = .val (posX c j))
    (ey : ∀ i < c.ny, m (.d .y 0 i) = .val (posY c i))
    (h : ∀ e, e = a₁ ∨ e = a₂ ∨ e = a₃ ∨ e = a₄ → ∀ k < c.nx * c.ny, m (.d e 0 k) ≠ .oob) :
    ∃ m', KernelOk tile c.nx c.ny (initCuda f a₁ a₂ a₃ a₄ c.nx) m m' ∧
      (let F := initialFields f (posX c) (posY c)
      Flat2 m' a₁ c.nx c.ny F.phi ∧ Flat2 m' a₂ c.nx c.ny F.psix ∧ Flat2 m' a₃ c.nx c.ny F.psiy ∧
        Flat2 m' a₄ c.nx c.ny F.psixy) ∧
      ∀ e i j, ¬ (e = a₁ ∨ e = a₂ ∨ e = a₃ ∨ e = a₄) → m' (.d e i j) = m (.d e i j) := by
  obtain ⟨mf, hk, h1, h2⟩ := kernel_wp hc (initCuda_owned f hx hy c.nx) (m := m)
    (Q := fun i j m' => m' (.d a₁ 0 (i * c.nx + j)) = .val (f.phi (posX c j) (posY c i)) ∧
      m' (.d a₂ 0 (i * c.nx + j)) = .val (f.psix (posX c j) (posY c i)) ∧
      m' (.d a₃ 0 (i * c.nx + j)) = .val (f.psiy (posX c j) (posY c i)) ∧
      m' (.d a₄ 0 (i * c.nx + j)) = .val (f.psixy (posX c j) (posY c i)))
    fun i hi j hj e hlt => by
      have := initCuda_wp f h12 h13 h14 h23 h24 h34 (nx := c.nx) (ex j hj) (ey i hi)
      rw [e] at this
      exact this fun e he => h e he _ hlt
  refine ⟨mf, hk, ⟨fun i hi j hj => ?_, fun i hi j hj => ?_, fun i hi j hj => ?_, fun i hi j hj => ?_⟩, fun e i j he => ?_⟩
  · obtain ⟨m', q, ho⟩ := h1 i hi j hj
    rw [ho _ (by simp [initOwnerAt])]; exact q.1
  · obtain ⟨m', q, ho⟩ := h1 i hi j hj
    rw [ho _ (by simp [initOwnerAt])]; exact q.2.1
  · obtain ⟨m', q, ho⟩ := h1 i hi j hj
    rw [ho _ (by simp [initOwnerAt])]; exact q.2.2.1
  · obtain ⟨m', q, ho⟩ := h1 i hi j hj
    rw [ho _ (by simp [initOwnerAt])]; exact q.2.2.2
  · exact h2 _ fun k _ => by rw [initOwnerAt, if_neg he]; simp

/-- The host arrays. -/
structure HostHas (m : Mem (Val K)) (c : Setting K) (F : Spec.Fields K) : Prop where
  x : ∀ j < c.nx, m (.d .x 0 j) = .val (posX c j)
  y : ∀ i < c.ny, m (.d .y 0 i) = .val (posY c i)
  phi : Flat2 m .mphi c.nx c.ny F.phi
  psix : Flat2 m .mpsix c.nx c.ny F.psix
  psiy : Flat2 m .mpsiy c.nx c.ny F.psiy
  psixy : Flat2 m .mpsixy c.nx c.ny F.psixy

include hc in
theorem host_init (f : Initial K) {m : Mem (Val K)} (ex : ∀ j < c.nx, m (.d .x 0 j) = .val (posX c j))
    (ey : ∀ i < c.ny, m (.d .y 0 i) = .val (posY c i)) :
    ∃ m', exec (.seqAll ((nodes c.ny 0 c.nx).map fun k => initFlat f c.nx k.1 k.2)) (mallocHost (c.nx * c.ny) m) = .ok m' ∧
      HostHas m' c (initialFields f (posX c) (posY c)) := by
  have hw : ∀ k ∈ nodes c.ny 0 c.nx, indexW c.nx k.2 k.1 = k.1 * c.nx + k.2 := fun k hk =>
    indexW_eq hc.size (mem_nodes.1 hk).1 (mem_nodes.1 hk).2.2
  obtain ⟨mf, e, h1, h2⟩ := runAll_wp (V := Val K) (own := initOwnerAt .mphi .mpsix .mpsiy .mpsixy)
    (b := fun k => initFlat f c.nx k.1 k.2) (key := fun k => (0, indexW c.nx k.2 k.1)) (nodes c.ny 0 c.nx)
    (fun k _ => initCuda_owned f (by decide) (by decide) c.nx k.2 k.1)
    (by
      refine List.Nodup.map_on (fun k hk k' hk' e => ?_) (nodup_nodes ..)
      rw [Prod.mk.injEq, hw k hk, hw k' hk'] at e
      have a1 := (mem_nodes.1 hk).2.2
      have a2 := (mem_nodes.1 hk').2.2
      have a0 : 0 < c.nx := by omega
      have d1 : (k.1 * c.nx + k.2) / c.nx = k.1 := by rw [Nat.add_comm, Nat.add_mul_div_right _ _ a0, Nat.div_eq_of_lt a1]; omega
      have d2 : (k'.1 * c.nx + k'.2) / c.nx = k'.1 := by
        rw [Nat.add_comm, Nat.add_mul_div_right _ _ a0, Nat.div_eq_of_lt a2]; omega
      have e1 : k.1 = k'.1 := by rw [← d1, ← d2, e.2]
      have e2 := e.2
      rw [e1] at e2
      exact Prod.ext e1 (by omega))
    (m := mallocHost (c.nx * c.ny) m)
    (Q := fun k m' => m' (.d .mphi 0 (indexW c.nx k.2 k.1)) = .val (f.phi (posX c k.2) (posY c k.1)) ∧
      m' (.d .mpsix 0 (indexW c.nx k.2 k.1)) = .val (f.psix (posX c k.2) (posY c k.1)) ∧
      m' (.d .mpsiy 0 (indexW c.nx k.2 k.1)) = .val (f.psiy (posX c k.2) (posY c k.1)) ∧
      m' (.d .mpsixy 0 (indexW c.nx k.2 k.1)) = .val (f.psixy (posX c k.2) (posY c k.1)))
    (fun k hk => by
      obtain ⟨k1, -, k2⟩ := mem_nodes.1 hk
      refine initCuda_wp f (by decide) (by decide) (by decide) (by decide) (by decide) (by decide) (ex _ k2) (ey _ k1) ?_
      rintro e (rfl | rfl | rfl | rfl) <;> simp [mallocHost, mallocD, hw k hk, flat_lt k1 k2])
  have hin : ∀ {i j}, i < c.ny → j < c.nx → (i, j) ∈ nodes c.ny 0 c.nx := fun hi hj => mem_nodes.2 ⟨hi, Nat.zero_le _, hj⟩
  refine ⟨mf, by rw [exec_seqAll, e], fun j hj => ?_, fun j hj => ?_, fun i hi j hj => ?_, fun i hi j hj => ?_,
    fun i hi j hj => ?_, fun i hi j hj => ?_⟩
  · rw [h2 _ fun k _ => by simp [initOwnerAt]]; exact ex j hj
  · rw [h2 _ fun k _ => by simp [initOwnerAt]]; exact ey j hj
  all_goals
    obtain ⟨m', q, ho⟩ := h1 _ (hin hi hj)
    have ew := hw _ (hin hi hj)
    dsimp only at ew q ho
    rw [ew] at q ho
    rw [ho _ (by simp [initOwnerAt])]
  · exact q.1
  · exact q.2.1
  · exact q.2.2.1
  · exact q.2.2.2

include hc in
/-- Before the time loop the device has the fields of the kernel formulas and the host those of its own formulas. -/
theorem setup_cuda (splice : K → K → K) (f g : Initial K) :
    ∃ s, setupCuda tile splice c f g = .ok s ∧ CudaReady s.dev c (initialFields g (posX c) (posY c)) ∧
      HostHas s.host c (initialFields f (posX c) (posY c)) := by
  obtain ⟨m1, e1, h1, f1⟩ := fill_line (a := .x) (n := c.nx) (g := fun j => c.xlim1 + c.dx * (j : K))
    (m := mallocD .y c.ny (mallocD .x c.nx fun _ => .oob)) fun j hj => by simp [mallocD, hj]
  obtain ⟨m2, e2, h2, f2⟩ := fill_line (a := .y) (n := c.ny) (g := fun j => c.ylim1 + c.dy * (j : K)) (m := m1)
    fun j hj => by rw [f1 _ fun j => by simp]; simp [mallocD, hj]
  have hx : ∀ j < c.nx, m2 (.d .x 0 j) = .val (posX c j) := fun j hj => by
    rw [f2 _ fun j => by simp, h1 j hj, ← hc.posX_eq]
  have hy : ∀ j < c.ny, m2 (.d .y 0 j) = .val (posY c j) := fun j hj => by rw [h2 j hj, ← hc.posY_eq]
  obtain ⟨d1, ed1, p1, -, -, q1⟩ := memcpy_ok splice (a := .x) (words := 2 * c.nx) (src := m2)
    (dst := mallocD .y c.ny (mallocD .x c.nx fun _ => .oob)) fun k hk =>
      ⟨by rw [hx k (by omega)]; simp, by simp [mallocD, show k < c.nx by omega]⟩
  obtain ⟨d2, ed2, p2, -, -, q2⟩ := memcpy_ok splice (a := .y) (words := 2 * c.ny) (src := m2) (dst := d1) fun k hk =>
      ⟨by rw [hy k (by omega)]; simp, by rw [q1 _ fun k => by simp]; simp [mallocD, show k < c.ny by omega]⟩
  obtain ⟨d3, k3, g3, r3⟩ := init_kernel hc g (a₁ := .mphi) (a₂ := .mpsix) (a₃ := .mpsiy) (a₄ := .mpsixy) (by decide) (by decide)
    (by decide) (by decide) (by decide) (by decide) (by decide) (by decide) (m := mallocDevice (c.nx * c.ny) d2)
    (fun j hj => by
      show d2 _ = _
      rw [q2 _ fun k => by simp, p1 j (by omega), hx j hj])
    (fun i hi => by
      show d2 _ = _
      rw [p2 i (by omega), hy i hi])
    (by rintro e (rfl | rfl | rfl | rfl) k hk <;> simp [mallocDevice, mallocHost, mallocD, hk])
  have x3 : ∀ j < c.nx, d3 (.d .x 0 j) = .val (posX c j) := fun j hj => by
    rw [r3 _ _ _ (by simp)]
    show d2 _ = _
    rw [q2 _ fun k => by simp, p1 j (by omega), hx j hj]
  have y3 : ∀ j < c.ny, d3 (.d .y 0 j) = .val (posY c j) := fun j hj => by
    rw [r3 _ _ _ (by simp)]
    show d2 _ = _
    rw [p2 j (by omega), hy j hj]
  obtain ⟨d4, k4, g4, r4⟩ := init_kernel hc g (a₁ := .tempphi) (a₂ := .temppsix) (a₃ := .temppsiy) (a₄ := .temppsixy) (by decide)
    (by decide) (by decide) (by decide) (by decide) (by decide) (by decide) (by decide) (m := d3) x3 y3
    (by
      rintro e (rfl | rfl | rfl | rfl) k hk <;> rw [r3 _ _ _ (by simp)] <;> simp [mallocDevice, mallocHost, mallocD, hk])
  obtain ⟨m5, e5, h5⟩ := host_init hc f hx hy
  refine ⟨⟨d4, m5⟩, ?_, ?_, h5⟩
  · simp only [setupCuda, gridnodesCuda, e1, M.ok_bind, e2, ed1, ed2, gridSize_eq hc, k3.seq, k4.seq, e5]
    rfl
  · refine ⟨?_, ?_, ?_, ?_, ?_, g4.1, g4.2.1, g4.2.2.1, g4.2.2.2⟩
    · exact fun j hj => (r4 _ _ _ (by simp)).trans (x3 j hj)
    · exact fun j hj => (r4 _ _ _ (by simp)).trans (y3 j hj)
    · exact fun i hi j hj => (r4 _ _ _ (by simp)).trans (g3.1 i hi j hj)
    · exact fun i hi j hj => (r4 _ _ _ (by simp)).trans (g3.2.1 i hi j hj)
    · exact fun i hi j hj => (r4 _ _ _ (by simp)).trans (g3.2.2.1 i hi j hj)

theorem velocityFlat_eq (hc : CudaValid tile c) {m : Mem (Val K)} (hx : ∀ j < c.nx, m (.d .x 0 j) = .val (posX c j))
    (hy : ∀ i < c.ny, m (.d .y 0 i) = .val (posY c i)) (f : K → K → K → K) (time : K) :
    ∃ g, velocityFlat f c.nx c.ny time m = .ok g ∧ ∀ i < c.ny, ∀ j < c.nx, g i j = .ok (f (posX c j) (posY c i) time) := by
  rw [velocityFlat, mapM_ok (g := fun i => (List.range c.nx).map fun j => f (posX c j) (posY c i) time), M.ok_bind]
  · refine ⟨_, rfl, fun i hi j hj => ?_⟩
    simp [hi, hj]
  · intro i hi
    have hi := List.mem_range.1 hi
    refine mapM_ok fun j hj => ?_
    have hj := List.mem_range.1 hj
    rw [look_eq (hx j hj), M.ok_bind, look_eq (hy i hi), M.ok_bind, indexW_eq hc.size hi hj, gridSize_eq hc,
      if_pos (flat_lt hi hj)]
    rfl

/-- One call of `fileprint` appends one frame to each file. -/
theorem fileprintCuda_eq (hc : CudaValid tile c) {m : Mem (Val K)} {F : Spec.Fields K} (h : HostHas m c F) (v : Vel K)
    (time : K) (o : Out K) : ∃ o', fileprintCuda v c.nx c.ny time m o = .ok o' ∧
      Spec.Appended c.nx c.ny o o' [Spec.snapshot v.velx v.vely (posX c) (posY c) F time] := by
  have h0 : 0 < c.nx := by have := hc.nx3; omega
  obtain ⟨u, eu, hu⟩ := velocityFlat_eq hc h.x h.y v.velx time
  obtain ⟨w, ew, hw⟩ := velocityFlat_eq hc h.x h.y v.vely time
  have lk : ∀ {a : DVar} {f : ℕ → ℕ → K}, Flat2 m a c.nx c.ny f → ∀ i < c.ny, ∀ j < c.nx,
      look m a 0 (indexW c.nx j i) = .ok (f i j) := fun hf i hi j hj => by
    rw [indexW_eq hc.size hi hj]; exact look_eq (hf i hi j hj)
  rw [fileprintCuda]
  simp only [eu, ew, M.ok_bind, printGrid_eq h0 (lk h.phi), printGrid_eq h0 (lk h.psix), printGrid_eq h0 (lk h.psiy),
    printGrid_eq h0 (lk h.psixy), printGrid_eq h0 hu, printGrid_eq h0 hw]
  refine ⟨_, rfl, ?_⟩
  constructor <;> simp [Spec.snapshot]

end setup

/-! ## Output -/

section run
variable {K : Type} [Field K] [LinearOrder K] [IsStrictOrderedRing K]

/-- Fields on the device after `t` steps. -/
def cudaFieldsAt (c : Setting K) (v : Vel K) (g : Initial K) : ℕ → Spec.Fields K
  | 0 => initialFields g (posX c) (posY c)
  | t + 1 => advanceCuda c v t (cudaFieldsAt c v g t)

/-- What a frame after the first shows when the fields are `F`: of the `y` derivative only the first half of the bytes is
current, the mixed derivative not at all. -/
def shown (splice : K → K → K) (c : Setting K) (f : Initial K) (F : Spec.Fields K) : Spec.Fields K :=
  ⟨F.phi, F.psix,
    fun i j => if 2 * (i * c.nx + j) + 2 ≤ c.nx * c.ny then F.psiy i j
      else if 2 * (i * c.nx + j) < c.nx * c.ny then splice (F.psiy i j) (f.psiy (posX c j) (posY c i))
      else f.psiy (posX c j) (posY c i),
    fun i j => f.psixy (posX c j) (posY c i)⟩

/-- What stays on the host of the initial fields. -/
structure Stale (splice : K → K → K) (c : Setting K) (f : Initial K) (H : Spec.Fields K) : Prop where
  psiy : ∀ i j, c.nx * c.ny ≤ 2 * (i * c.nx + j) → H.psiy i j = f.psiy (posX c j) (posY c i)
  mid : ∀ i j, c.nx * c.ny = 2 * (i * c.nx + j) + 1 → ∀ a, splice a (H.psiy i j) = splice a (f.psiy (posX c j) (posY c i))
  psixy : ∀ i j, H.psixy i j = f.psixy (posX c j) (posY c i)

variable {tile : ℕ} {c : Setting K} (hc : CudaValid tile c) {splice : K → K → K}

theorem shown_stale (hs : ∀ a b c, splice a (splice b c) = splice a c) (f : Initial K) (F : Spec.Fields K) :
    Stale splice c f (shown splice c f F) where
  psiy i j h := by simp only [shown]; rw [if_neg (by omega), if_neg (by omega)]
  mid i j h a := by simp only [shown]; rw [if_neg (by omega), if_pos (by omega), hs]
  psixy _ _ := rfl

include hc in
theorem download_eq {f : Initial K} {F H : Spec.Fields K} {s : Machine K} (hd : CudaReady s.dev c F) (hh : HostHas s.host c H)
    (hst : Stale splice c f H) :
    ∃ s', download splice c.nx c.ny s = .ok s' ∧ s'.dev = s.dev ∧ HostHas s'.host c (shown splice c f F) := by
  obtain ⟨h1, e1, p1, -, -, q1⟩ := memcpy_ok splice (a := .mphi) (words := 2 * (c.nx * c.ny)) (src := s.dev) (dst := s.host)
    fun k hk => ⟨flat_room hd.phi (by omega), flat_room hh.phi (by omega)⟩
  obtain ⟨h2, e2, p2, -, -, q2⟩ := memcpy_ok splice (a := .mpsix) (words := 2 * (c.nx * c.ny)) (src := s.dev) (dst := h1)
    fun k hk => ⟨flat_room hd.psix (by omega), by rw [q1 _ fun k => by simp]; exact flat_room hh.psix (by omega)⟩
  have r2 : ∀ k, h2 (.d .mpsiy 0 k) = s.host (.d .mpsiy 0 k) := fun k => by rw [q2 _ fun k => by simp, q1 _ fun k => by simp]
  obtain ⟨h3, e3, p3, t3, u3, q3⟩ := memcpy_ok splice (a := .mpsiy) (words := c.nx * c.ny) (src := s.dev) (dst := h2)
    fun k hk => ⟨flat_room hd.psiy (by omega), by rw [r2]; exact flat_room hh.psiy (by omega)⟩
  refine ⟨⟨s.dev, h3⟩, by simp only [download, gridSize_eq hc, e1, e2, e3, M.ok_bind]; rfl, rfl, ?_, ?_, ?_, ?_, ?_, ?_⟩
  · exact fun j hj => ((q3 _ fun k => by simp).trans ((q2 _ fun k => by simp).trans (q1 _ fun k => by simp))).trans (hh.x j hj)
  · exact fun j hj => ((q3 _ fun k => by simp).trans ((q2 _ fun k => by simp).trans (q1 _ fun k => by simp))).trans (hh.y j hj)
  · intro i hi j hj
    have := flat_lt hi hj
    show h3 _ = _
    rw [q3 _ fun k => by simp, q2 _ fun k => by simp, p1 _ (by omega)]
    exact hd.phi i hi j hj
  · intro i hi j hj
    have := flat_lt hi hj
    show h3 _ = _
    rw [q3 _ fun k => by simp, p2 _ (by omega)]
    exact hd.psix i hi j hj
  · intro i hi j hj
    show h3 _ = _
    simp only [shown]
    split_ifs with a1 a2
    · rw [p3 _ a1]; exact hd.psiy i hi j hj
    · rw [t3 _ (by omega), r2, hd.psiy i hi j hj, hh.psiy i hi j hj, spliceSlot, hst.mid i j (by omega)]
    · rw [u3 _ (by omega), r2, hh.psiy i hi j hj, hst.psiy i j (by omega)]
  · intro i hi j hj
    show h3 _ = _
    rw [q3 _ fun k => by simp, q2 _ fun k => by simp, q1 _ fun k => by simp, hh.psixy i hi j hj, hst.psixy]
    rfl

include hc in
theorem timeLoopCuda_frames (hs : ∀ a b c, splice a (splice b c) = splice a c) {v : Vel K} {f g : Initial K} {p : ℕ} (hp : 1 ≤ p)
    {n : ℕ} (hn : n < uMod) (h4 : ∀ t < n, ∀ i < c.ny, ∀ j < c.nx, departClass c v t i j ≠ 4) (r t : ℕ) (ht : t + r = n)
    {s : Machine K} {H : Spec.Fields K} (hd : CudaReady s.dev c (cudaFieldsAt c v g t)) (hh : HostHas s.host c H)
    (hst : Stale splice c f H) (o : Out K) :
    ∃ s' o', timeLoopCuda tile splice c v p r t (s, o) = .ok (s', o') ∧ CudaReady s'.dev c (cudaFieldsAt c v g n) ∧
      Spec.Appended c.nx c.ny o o' ((List.range' (t / p + 1) (n / p - t / p)).map fun k =>
        Spec.snapshot v.velx v.vely (posX c) (posY c) (shown splice c f (cudaFieldsAt c v g (k * p))) ((k * p : ℕ) * c.dt)) := by
  induction r generalizing t o s H with
  | zero =>
    obtain rfl : t = n := by omega
    refine ⟨s, o, rfl, hd, ?_⟩
    simpa using appended_nil o
  | succ r ih =>
    have hu : uadd t 1 = t + 1 := uadd_eq (by omega)
    obtain ⟨m', e', -, -, r'⟩ := C63_step_partial hc v (by omega) hd (h4 t (by omega))
    rw [timeLoopCuda]
    simp only [e', M.ok_bind, hu, if_neg (show ¬ p = 0 by omega)]
    have hdv := div_succ (t := t) (p := p)
    have hle : (t + 1) / p ≤ n / p := Nat.div_le_div_right (by omega)
    by_cases hm : (t + 1) % p = 0
    · rw [if_pos hm] at hdv
      obtain ⟨s1, es, hs1, hh1⟩ := download_eq hc (s := ⟨m', s.host⟩) r' hh hst
      obtain ⟨o1, e1, a1⟩ := fileprintCuda_eq hc hh1 v (tm (t + 1) c.dt) o
      simp only [hm, if_true, es, e1, M.ok_bind]
      obtain ⟨s', o', e', hd', a'⟩ := ih (t + 1) (by omega) (s := s1) (by rw [hs1]; exact r') hh1 (shown_stale hs f _) o1
      refine ⟨s', o', e', hd', ?_⟩
      have := appended_append a1 a'
      rw [hdv] at this
      rw [show n / p - t / p = (n / p - (t / p + 1)) + 1 by omega, List.range'_succ, List.map_cons]
      have hk : (t / p + 1) * p = t + 1 := by rw [← hdv]; exact Nat.div_mul_cancel (Nat.dvd_of_mod_eq_zero hm)
      simpa only [hk, tm, List.singleton_append, cudaFieldsAt] using this
    · rw [if_neg hm, Nat.add_zero] at hdv
      simp only [hm, if_false, M.ok_bind]
      obtain ⟨s', o', e', hd', a'⟩ := ih (t + 1) (by omega) (s := ⟨m', s.host⟩) r' hh hst o
      rw [hdv] at a'
      exact ⟨s', o', e', hd', a'⟩

variable [FloorRing K]

include hc in
/-- **C64**, partial: what the CUDA program writes.  With `n` steps, print step `p` and no node departing outside along both
axes, a run is defined, the device ends with the fields after `n` steps, and the files get `n / p + 1` frames.  The frames of
`phi`, of the `x` derivative and of the velocity show the fields after `k p` steps; those of the `y` derivative only in the
first half of the bytes, those of the mixed derivative never: there the initial fields of the host appear again.  Missing:
current frames of the `y` and mixed derivatives, which the program does not write (`C64_false`). -/
theorem C64_frames_partial (hs : ∀ a b c, splice a (splice b c) = splice a c) (v : Vel K) (f g : Initial K) (hdt : c.dt ≠ 0)
    {n : ℕ} (hn : Spec.Truncated (c.tfinal / c.dt) n) (hnu : n < uMod) (hp : 1 ≤ printStep c n ∨ n = 0)
    (h4 : ∀ t < n, ∀ i < c.ny, ∀ j < c.nx, departClass c v t i j ≠ 4) :
    ∃ s o, mainCuda tile splice c v f g = .ok (s, o) ∧ CudaReady s.dev c (cudaFieldsAt c v g n) ∧
      Written c v (fun t => if t = 0 then initialFields f (posX c) (posY c) else shown splice c f (cudaFieldsAt c v g t)) n
        (printStep c n) o := by
  have hn' := (stepCount_ok hdt n).2 ⟨hnu, .inl hn⟩
  obtain ⟨s, e, hd, hh⟩ := setup_cuda hc splice f g
  obtain ⟨o0, eo, a0⟩ := fileprintCuda_eq hc hh v 0 Out.none
  let D : Details K := ⟨c.nx, c.ny, c.dx, c.dy, c.xlim1, c.xlim2, c.ylim1, c.ylim2, n, c.dt, printStep c n⟩
  have a1 : Spec.Appended c.nx c.ny ⟨[], [], [], [], [], [], [D]⟩ { o0 with details := o0.details ++ [D] }
      [Spec.snapshot v.velx v.vely (posX c) (posY c) (initialFields f (posX c) (posY c)) 0] :=
    ⟨a0.phi, a0.psix, a0.psiy, a0.psixy, a0.velx, a0.vely, by rw [a0.details]; rfl⟩
  have hloop : ∃ s' o', timeLoopCuda tile splice c v (printStep c n) n 0 (s, { o0 with details := o0.details ++ [D] }) =
      .ok (s', o') ∧ CudaReady s'.dev c (cudaFieldsAt c v g n) ∧
        Spec.Appended c.nx c.ny { o0 with details := o0.details ++ [D] } o'
          ((List.range' 1 (n / printStep c n)).map fun k => Spec.snapshot v.velx v.vely (posX c) (posY c)
            (shown splice c f (cudaFieldsAt c v g (k * printStep c n))) ((k * printStep c n : ℕ) * c.dt)) := by
    rcases hp with hp | rfl
    · have := timeLoopCuda_frames hc hs (v := v) (f := f) (g := g) hp hnu h4 n 0 (by omega) hd hh
        ⟨fun _ _ _ => rfl, fun _ _ _ _ => rfl, fun _ _ => rfl⟩ { o0 with details := o0.details ++ [D] }
      simpa only [Nat.zero_div, Nat.zero_add, Nat.sub_zero] using this
    · exact ⟨_, _, rfl, hd, by simpa using appended_nil _⟩
  obtain ⟨s', o', e', hd', a'⟩ := hloop
  refine ⟨s', o', ?_, hd', ?_⟩
  · rw [mainCuda, hn', M.ok_bind]
    simp only [e, eo, M.ok_bind]
    exact e'
  · have := appended_append a1 a'
    rw [Written, ← hc.dx_eq, ← hc.dy_eq, List.range_eq_range', List.range'_succ, List.map_cons]
    refine cast (congrArg _ ?_) this
    simp only [Nat.zero_mul, if_true, Nat.cast_zero, zero_mul, List.singleton_append, List.cons.injEq, true_and]
    refine List.map_congr_left fun k hk => ?_
    rw [List.mem_range'_1] at hk
    have h0 : printStep c n ≠ 0 := fun h => by rw [h] at hk; simp at hk; omega
    rw [if_neg (Nat.mul_ne_zero (by omega) h0)]

include hc in
/-- **C63**: when at the first step some node departs outside along both axes, no run of the program with at least one step
is defined. -/
theorem C63_main_undefined (v : Vel K) (f g : Initial K) (hdt : c.dt ≠ 0) {n : ℕ} (hn : Spec.Truncated (c.tfinal / c.dt) n)
    (hnu : n < uMod) (h1 : 1 ≤ n) {i j : ℕ} (hi : i < c.ny) (hj : j < c.nx) (h4 : departClass c v 0 i j = 4)
    (r : Machine K × Out K) : mainCuda tile splice c v f g ≠ .ok r := by
  have hn' := (stepCount_ok hdt n).2 ⟨hnu, .inl hn⟩
  obtain ⟨s, e, hd, hh⟩ := setup_cuda hc splice f g
  obtain ⟨o0, eo, a0⟩ := fileprintCuda_eq hc hh v 0 Out.none
  obtain ⟨k, rfl⟩ : ∃ k, n = k + 1 := ⟨n - 1, by omega⟩
  have hu := (C63_corner_undefined hc v (t := 0) (by decide) hd hi hj h4).1
  intro h
  rw [mainCuda, hn', M.ok_bind] at h
  simp only [e, eo, M.ok_bind, timeLoopCuda] at h
  cases e' : stepCuda tile c v 0 s.dev with
  | ok m' => exact hu _ e'
  | error x => rw [e'] at h; cases h

end run

/-! ## The program as it is -/

theorem settingCuda_valid : CudaValid 16 settingCuda where
  nx3 := by norm_num [settingCuda]
  ny3 := by norm_num [settingCuda]
  nxu := by norm_num [settingCuda, uMod]
  nyu := by norm_num [settingCuda, uMod]
  x := by norm_num [settingCuda]
  y := by norm_num [settingCuda]
  tile0 := by norm_num
  tx := by norm_num [settingCuda]
  ty := by norm_num [settingCuda]
  size := by norm_num [settingCuda, uMod]

/-- **C63** is false of the program as it is: with its settings (128 by 128 nodes, tiles of 16 by 16, 256 steps) and its
vortex, whatever the period, the corner nodes depart from themselves, which counts as outside along both axes, and no run is
defined. -/
theorem C63_false (T : ℝ) (splice : ℝ → ℝ → ℝ) (r : Machine ℝ × Out ℝ) :
    mainCuda 16 splice settingCuda (vortex T) initialCircle initialKernel ≠ .ok r := by
  have hd : departsCuda settingCuda (vortex T) 0 0 0 = (0, 0) := by
    have hx : posX settingCuda 0 = 0 := by simp [posX, settingCuda]
    have hy : posY settingCuda 0 = 0 := by simp [posY, settingCuda]
    have w : ∀ t, (vortex T).velx 0 0 t = 0 ∧ (vortex T).vely 0 0 t = 0 := fun t =>
      (C49_walls T 0 t).2.2.2.2 0 0 (.inl rfl) (.inl rfl)
    simp [departsCuda, hx, hy, Spec.departAt, Spec.departRK3, w]
  refine C63_main_undefined settingCuda_valid (vortex T) _ _ (n := 256) ?_ ?_ (by decide) (by decide) (i := 0) (j := 0) ?_ ?_ ?_ r
  · norm_num [settingCuda]
  · constructor <;> norm_num [settingCuda]
  · norm_num [settingCuda]
  · norm_num [settingCuda]
  · rw [departClass, hd, Spec.classOf]
    simp [posX, posY, settingCuda]

/-! ## Example -/

/-- Four by four nodes, one step, output after it. -/
def cudaC : Setting ℚ := ⟨0, 1, 4, 0, 1, 4, 1 / 10, 1 / 10, 1, 1, ⟨"SuperConsistent", "RK3"⟩⟩

/-- A flow out of the square. -/
def cudaV : Vel ℚ :=
  ⟨fun x _ _ => x - 1 / 2, fun _ y _ => y - 1 / 2, fun _ _ _ => 1, fun _ _ _ => 0, fun _ _ _ => 0, fun _ _ _ => 1⟩

/-- `x y²` with its derivatives. -/
def cudaI : Initial ℚ := ⟨fun x y => x * y * y, fun _ y => y * y, fun x y => 2 * x * y, fun _ y => 2 * y⟩

theorem cudaC_valid : CudaValid 2 cudaC :=
  ⟨⟨by decide, by decide, by decide, by decide, by norm_num [cudaC], by norm_num [cudaC]⟩, by decide, by decide, by decide, by decide⟩

/-- The hypotheses of `C63_step_partial` and `C64_frames_partial` hold in the example. -/
theorem cudaC_inside : ∀ t < 1, ∀ i < cudaC.ny, ∀ j < cudaC.nx, departClass cudaC cudaV t i j ≠ 4 := by decide +kernel

theorem cudaC_count : Spec.Truncated (cudaC.tfinal / cudaC.dt) 1 ∧ cudaC.dt ≠ 0 ∧ 1 ≤ printStep cudaC 1 := by
  refine ⟨⟨?_, ?_⟩, ?_, by decide⟩ <;> norm_num [cudaC]

/-- **C64** is false: four by four nodes, one step, one frame before and one after it.  The frames of the `y` derivative and
of the mixed derivative are not those of the fields on the device. -/
theorem C64_false {splice : ℚ → ℚ → ℚ} (hs : ∀ a b c, splice a (splice b c) = splice a c) :
    ∃ s o, mainCuda 2 splice cudaC cudaV cudaI cudaI = .ok (s, o) ∧ CudaReady s.dev cudaC (cudaFieldsAt cudaC cudaV cudaI 1) ∧
      o.psiy ≠ Spec.frame 4 4 (cudaFieldsAt cudaC cudaV cudaI 0).psiy ++ Spec.frame 4 4 (cudaFieldsAt cudaC cudaV cudaI 1).psiy ∧
      o.psixy ≠
        Spec.frame 4 4 (cudaFieldsAt cudaC cudaV cudaI 0).psixy ++ Spec.frame 4 4 (cudaFieldsAt cudaC cudaV cudaI 1).psixy := by
  obtain ⟨s, o, e, hd, hw⟩ := C64_frames_partial cudaC_valid hs cudaV cudaI cudaI cudaC_count.2.1 cudaC_count.1 (by decide)
    (.inl cudaC_count.2.2) cudaC_inside
  have fr : ∀ {f g h : ℕ → ℕ → ℚ}, Spec.frame 4 4 f ++ Spec.frame 4 4 g = Spec.frame 4 4 f ++ Spec.frame 4 4 h → g 3 3 = h 3 3 := by
    intro f g h e
    have := List.append_cancel_left e
    simp [Spec.frame, Spec.rowText, List.range_succ] at this
    tauto
  have e1 : o.psiy = Spec.frame 4 4 (cudaFieldsAt cudaC cudaV cudaI 0).psiy ++
      Spec.frame 4 4 (shown splice cudaC cudaI (cudaFieldsAt cudaC cudaV cudaI 1)).psiy := by
    rw [hw.psiy]
    simp only [show printStep cudaC 1 = 1 from rfl, List.range_succ, List.range_zero]
    simp [Spec.snapshot, cudaFieldsAt]
    rfl
  have e2 : o.psixy = Spec.frame 4 4 (cudaFieldsAt cudaC cudaV cudaI 0).psixy ++
      Spec.frame 4 4 (shown splice cudaC cudaI (cudaFieldsAt cudaC cudaV cudaI 1)).psixy := by
    rw [hw.psixy]
    simp only [show printStep cudaC 1 = 1 from rfl, List.range_succ, List.range_zero]
    simp [Spec.snapshot, cudaFieldsAt]
    rfl
  refine ⟨s, o, e, hd, fun h => ?_, fun h => ?_⟩
  · rw [e1] at h
    have := fr h
    simp only [shown] at this
    rw [if_neg (by decide), if_neg (by decide)] at this
    revert this
    decide +kernel
  · rw [e2] at h
    have := fr h
    simp only [shown] at this
    revert this
    decide +kernel

/-- A splice as the theorems ask for. -/
example : ∀ a b c : ℚ, (fun a _ => a) a ((fun a _ => a) b c) = (fun a _ => a) a c := fun _ _ _ => rfl

/-- Instances of `C63_step_partial`, and of `C63_corner_undefined` and `C63_main_undefined` for a fluid at rest. -/
example (splice : ℚ → ℚ → ℚ) : ∃ (s : Machine ℚ) (m' : Mem (Val ℚ)), stepCuda 2 cudaC cudaV 0 s.dev = .ok m' ∧
    (∀ m'', CudaStep 2 cudaC cudaV 0 s.dev m'' ↔ m'' = m') ∧
    CudaFault 2 cudaC ⟨fun _ _ _ => 0, fun _ _ _ => 0, fun _ _ _ => 0, fun _ _ _ => 0, fun _ _ _ => 0, fun _ _ _ => 0⟩ 0 s.dev ∧
    ∀ r, mainCuda 2 splice cudaC
      ⟨fun _ _ _ => 0, fun _ _ _ => 0, fun _ _ _ => 0, fun _ _ _ => 0, fun _ _ _ => 0, fun _ _ _ => 0⟩ cudaI cudaI ≠ .ok r := by
  obtain ⟨s, -, hd, -⟩ := setup_cuda cudaC_valid splice cudaI cudaI
  obtain ⟨m', e, h1, -⟩ := C63_step_partial cudaC_valid cudaV (t := 0) (by decide) hd (cudaC_inside 0 (by decide))
  have h4 : departClass cudaC ⟨fun _ _ _ => 0, fun _ _ _ => 0, fun _ _ _ => 0, fun _ _ _ => 0, fun _ _ _ => 0, fun _ _ _ => 0⟩
      0 0 0 = 4 := by decide +kernel
  exact ⟨s, m', e, h1, (C63_corner_undefined cudaC_valid _ (t := 0) (by decide) hd (by decide) (by decide) h4).2.2,
    C63_main_undefined cudaC_valid _ cudaI cudaI cudaC_count.2.1 cudaC_count.1 (by decide) (by decide) (by decide) (by decide) h4⟩

end Gals.Props
