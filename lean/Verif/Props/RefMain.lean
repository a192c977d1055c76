import Verif.Props.RefStep
import Mathlib.Data.List.Perm.Basic
import Mathlib.Algebra.Order.Floor.Ring

/-!
# C54, C60: runs of the CPU versions of the reference code
-/

set_option linter.unusedSectionVars false
set_option linter.unusedSimpArgs false

namespace Gals.Props

open Gals Gals.Ref

/-! ## A step -/

section step
variable {K : Type} [Field K] [LinearOrder K] [IsStrictOrderedRing K]
variable {c : Setting K} (hc : Valid c) (v : Vel K) {t : ℕ} (ht : t + 1 < uMod) {m : Mem (Val K)} {F : Spec.Fields K}
include hc ht

/-- C60, one thread: a step of the OpenMP program is free of undefined behaviour and computes the specified fields. -/
theorem C60_step (h : Ready m c.nx c.ny (posX c) (posY c) F) :
    ∃ m', stepOpenMP c v c.dx c.dy t m = .ok m' ∧ Ready m' c.nx c.ny (posX c) (posY c)
      (advance v c.schemes t c.dt c.dx c.dy (posX c) (posY c) c.nx c.ny (departs c v t) F) := by
  obtain ⟨m1, e1, -, h1⟩ := stage_adv hc v ht h
  obtain ⟨m2, e2, h2⟩ := stepTail_ready hc v ht h1
  exact ⟨m2, by rw [stepOpenMP, exec_seqAll, e1, M.ok_bind, e2], h2⟩

/-- C60, serial program: the same with the departure points at zero in the last row and column. -/
theorem C60_step_serial (h : Ready m c.nx c.ny (posX c) (posY c) F) :
    ∃ m', stepSerial c v c.dx c.dy t m = .ok m' ∧ Ready m' c.nx c.ny (posX c) (posY c)
      (advance v c.schemes t c.dt c.dx c.dy (posX c) (posY c) c.nx c.ny (departsSerial c v t) F) := by
  obtain ⟨m1, e1, h1⟩ := stage_advSerial hc v ht h
  obtain ⟨m2, e2, h2⟩ := stepTail_ready hc v ht h1
  exact ⟨m2, by rw [stepSerial, exec_seqAll, e1, M.ok_bind, e2], h2⟩

omit hc ht in
theorem parFor_eq {ps : List (P K Unit)} {m m' mf : Mem (Val K)} (hs : Spec.ScheduleIndependent ps m mf)
    (h : ParFor ps m m') : m' = mf := by
  obtain ⟨css, qs, hp, hi, he⟩ := h
  exact (hs css hp qs m' hi).2.1 he

omit hc ht in
theorem parFor_frame {ps : List (P K Unit)} {m m' : Mem (Val K)} (h : ParFor ps m m') {l : Loc}
    (hl : ∀ p ∈ ps, ¬ p.Writes l) : m' l = m l := by
  obtain ⟨css, qs, hp, hi, -⟩ := h
  have h0 : ∀ p ∈ css.map Prog.seqAll, ¬ p.Writes l := by
    intro p hp' hw
    obtain ⟨ps', hps, rfl⟩ := List.mem_map.1 hp'
    obtain ⟨q, hq, hw⟩ := Prog.writes_seqAll hw
    exact hl q (hp.mem_iff.1 (List.mem_flatten.2 ⟨ps', hps, hq⟩)) hw
  have key : ∀ s s' : List (P K Unit) × Mem (Val K), Interleaves s s' → (∀ p ∈ s.1, ¬ p.Writes l) →
      (∀ p ∈ s'.1, ¬ p.Writes l) ∧ s'.2 l = s.2 l := by
    intro s s' h hs
    induction h with
    | refl => exact ⟨hs, rfl⟩
    | tail _ st ih =>
      obtain ⟨ih1, ih2⟩ := ih
      cases st with
      | mk pre post hst =>
        refine ⟨fun q hq hw => ?_, ?_⟩
        · rcases List.mem_append.1 hq with hq | hq
          · exact ih1 q (List.mem_append_left _ hq) hw
          · rcases List.mem_cons.1 hq with rfl | hq
            · exact ih1 _ (List.mem_append_right _ List.mem_cons_self) (hst.writes hw)
            · exact ih1 q (List.mem_append_right _ (List.mem_cons_of_mem _ hq)) hw
        · rw [← ih2]
          have hn := ih1 _ (List.mem_append_right _ List.mem_cons_self)
          cases hst with
          | read h => rfl
          | write h => exact Mem.upd_other _ (fun e => hn (Or.inl e)) _
  exact (key _ _ hi h0).2

omit hc ht in
theorem mixedBody_writes (nx ny : ℕ) (dx dy : K) (k l : ℕ) : (mixedBody nx ny dx dy k l).Fits (fun _ => True)
    fun l' => l' = .d .temppsixy k l ∨ IsTemp l' := by
  unfold mixedBody
  split_ifs <;> simp [getD, setD, Prog.get, Prog.set, Prog.bind, Prog.Fits, IsTemp]

/-- What the parallel loops before the mixed derivatives leave. -/
theorem omp_moved {loop : List (P K Unit) → Mem (Val K) → Mem (Val K) → Prop} {m' : Mem (Val K)}
    (h : Ready m c.nx c.ny (posX c) (posY c) F) (hs : OmpStep loop c v c.dx c.dy t m m') :
    ∃ m3 m4, Moved m3 c (advance v c.schemes t c.dt c.dx c.dy (posX c) (posY c) c.nx c.ny (departs c v t) F) ∧
      loop (mixed c.nx c.ny c.dx c.dy 0 c.nx) (declMixed m3) m4 ∧ m' = stepFinish m4 := by
  have hx3 := hc.nx3
  have hy3 := hc.ny3
  obtain ⟨m1, m2, m3, m4, sx, sy, p1, p2, ex, ey, p3, p4, rfl⟩ := hs
  obtain ⟨n1, -, s1, h1⟩ := stage_adv hc v ht h
  obtain rfl := parFor_eq s1 p1
  obtain ⟨n2, -, s2, h2⟩ := stage_find hc h1
  obtain rfl := parFor_eq s2 p2
  obtain ⟨n3, -, s3, h3⟩ := stage_update hc v ht h2
  have wx := (wp_spacing h2.x (by omega) fun a _ => a = c.dx).2 hc.spaceX
  have wy := (wp_spacing h2.y (by omega) fun a _ => a = c.dy).2 hc.spaceY
  obtain ⟨a, _, ea, rfl⟩ := wx
  obtain ⟨b, _, eb, rfl⟩ := wy
  rw [ex] at ea
  rw [ey] at eb
  cases ea
  cases eb
  obtain rfl := parFor_eq s3 p3
  exact ⟨_, _, h3, p4, rfl⟩

omit ht in
/-- The loop for the mixed derivatives when its iterations do not overlap. -/
theorem mixed_serial {G : Spec.Fields K} {m3 m4 : Mem (Val K)} (h3 : Moved m3 c G)
    (hG : G.psixy = Spec.mixedStencil G.psix G.psiy c.nx c.ny c.dx c.dy)
    (h : SerialFor (mixed c.nx c.ny c.dx c.dy 0 c.nx) (declMixed m3) m4) :
    Ready (stepFinish m4) c.nx c.ny (posX c) (posY c) G := by
  obtain ⟨qs, hp, e⟩ := h
  rw [mixed] at hp
  obtain ⟨cs, hcs, rfl⟩ : ∃ cs : List (ℕ × ℕ), cs.Perm (nodes c.ny 0 c.nx) ∧
      qs = cs.map fun k => mixedBody c.nx c.ny c.dx c.dy k.1 k.2 := by
    have e' := congrFun (congrFun (List.eq_map_comp_perm fun k : ℕ × ℕ => mixedBody c.nx c.ny c.dx c.dy k.1 k.2) qs)
      (nodes c.ny 0 c.nx)
    obtain ⟨cs, h1, h2⟩ := e'.mpr hp
    exact ⟨cs, h2, h1⟩
  obtain ⟨m5, e5, h5⟩ := stage_mixed hc h3 hG hcs
  rw [exec_seqAll, e5] at e
  cases e
  exact h5

omit hc ht in
/-- Under every schedule that loop leaves the other fields. -/
theorem mixed_par {G : Spec.Fields K} {m3 m4 : Mem (Val K)} (h3 : Moved m3 c G)
    (hl : ParFor (mixed c.nx c.ny c.dx c.dy 0 c.nx) (declMixed m3) m4) :
    Grid2 (stepFinish m4) .mphi c.nx c.ny G.phi ∧ Grid2 (stepFinish m4) .mpsix c.nx c.ny G.psix ∧
      Grid2 (stepFinish m4) .mpsiy c.nx c.ny G.psiy := by
  have hf : ∀ a i j, a ≠ .temppsixy → ¬ IsTemp (.d a i j) → m4 (.d a i j) = declMixed m3 (.d a i j) := by
    intro a i j ha hb
    refine parFor_frame hl fun p hp hw => ?_
    obtain ⟨k, hk, rfl⟩ := List.mem_map.1 hp
    rcases (mixedBody_writes ..).writes hw with e | e
    · simp [ha] at e
    · exact hb e
  refine ⟨fun i hi j hj => ?_, fun i hi j hj => ?_, fun i hi j hj => ?_⟩
  · exact (hf .tempphi i j (by simp) (by simp [IsTemp])).trans (h3.tphi i hi j hj)
  · exact (hf .temppsix i j (by simp) (by simp [IsTemp])).trans (h3.tpsix i hi j hj)
  · exact (hf .temppsiy i j (by simp) (by simp [IsTemp])).trans (h3.tpsiy i hi j hj)

/-- **C60**, several threads, partial: under every schedule of the loops for departure points, location and update, a step of
the OpenMP program that ends leaves the specified level set and gradient; the mixed derivative too, when the iterations of
the loop in `update_mixed_derivatives` do not overlap.  Missing: the mixed derivative under every schedule, which is false
(`C45_false`). -/
theorem C60_openmp_partial {m' : Mem (Val K)} (h : Ready m c.nx c.ny (posX c) (posY c) F) :
    (OmpStep SerialFor c v c.dx c.dy t m m' → Ready m' c.nx c.ny (posX c) (posY c)
      (advance v c.schemes t c.dt c.dx c.dy (posX c) (posY c) c.nx c.ny (departs c v t) F)) ∧
    (OmpStep ParFor c v c.dx c.dy t m m' →
      let G := advance v c.schemes t c.dt c.dx c.dy (posX c) (posY c) c.nx c.ny (departs c v t) F
      Grid2 m' .mphi c.nx c.ny G.phi ∧ Grid2 m' .mpsix c.nx c.ny G.psix ∧ Grid2 m' .mpsiy c.nx c.ny G.psiy) := by
  constructor
  · intro hs
    obtain ⟨m3, m4, h3, hl, rfl⟩ := omp_moved hc v ht h hs
    exact mixed_serial hc h3 rfl hl
  · intro hs
    obtain ⟨m3, m4, h3, hl, rfl⟩ := omp_moved hc v ht h hs
    exact mixed_par h3 hl

end step

/-! ## Setup -/

section setup
variable {K : Type} [Field K] [LinearOrder K] [IsStrictOrderedRing K]

/-- Fields of the initial functions at the nodes. -/
def initialFields (f : Initial K) (xs ys : ℕ → K) : Spec.Fields K :=
  ⟨fun i j => f.phi (xs j) (ys i), fun i j => f.psix (xs j) (ys i), fun i j => f.psiy (xs j) (ys i),
    fun i j => f.psixy (xs j) (ys i)⟩

/-- Filling a one-dimensional array. -/
theorem fill_line {a : DVar} {n : ℕ} {g : ℕ → K} {m : Mem (Val K)} (h : ∀ j < n, m (.d a 0 j) ≠ .oob) :
    ∃ m', exec (.seqAll ((List.range n).map fun i => setD a 0 i (g i))) m = .ok m' ∧
      (∀ j < n, m' (.d a 0 j) = .val (g j)) ∧ ∀ l, (∀ j, l ≠ .d a 0 j) → m' l = m l := by
  have key := runAll_wp (V := Val K) (own := fun l : Loc => match l with
      | .d b 0 j => if b = a then some j else none
      | _ => none) (b := fun i => setD a 0 i (g i)) (key := id) (List.range n)
    (fun c _ => by simp [Owned, setD, Prog.set, Prog.Fits]) (by simpa using List.nodup_range) (m := m)
    (Q := fun j m' => m' (.d a 0 j) = .val (g j)) (fun c hc => by
      rw [wp_setD]
      exact ⟨h c (List.mem_range.1 hc), Mem.upd_same ..⟩)
  obtain ⟨mf, e, h1, h2⟩ := key
  refine ⟨mf, by rw [exec_seqAll, e], fun j hj => ?_, fun l hl => h2 l fun c _ => ?_⟩
  · obtain ⟨m', hq, hm⟩ := h1 j (List.mem_range.2 hj)
    rw [hm _ (by simp), hq]
  · rcases l with ⟨b, _ | i, j⟩ | ⟨b, i, j⟩
    · by_cases hb : b = a
      · exact absurd (by rw [hb]) (hl j)
      · simp [hb]
    · simp
    · simp

theorem gridnodes_eq (xlim1 ylim1 dx dy : K) (nx ny : ℕ) (m : Mem (Val K)) :
    ∃ m', gridnodes xlim1 ylim1 dx dy nx ny m = .ok m' ∧ (∀ j < nx, m' (.d .x 0 j) = .val (xlim1 + dx * j)) ∧
      ∀ i < ny, m' (.d .y 0 i) = .val (ylim1 + dy * i) := by
  obtain ⟨m1, e1, h1, f1⟩ := fill_line (a := .x) (n := nx) (g := fun j => xlim1 + dx * (j : K))
    (m := allocD .y 1 ny 0 (allocD .x 1 nx 0 m)) fun j hj => by simp [allocD, hj]
  obtain ⟨m2, e2, h2, f2⟩ := fill_line (a := .y) (n := ny) (g := fun j => ylim1 + dy * (j : K)) (m := m1) fun j hj => by
    rw [f1 _ fun j => by simp]
    simp [allocD, hj]
  refine ⟨m2, ?_, fun j hj => ?_, h2⟩
  · simp only [gridnodes, e1, M.ok_bind, e2]
  · rw [f2 _ fun j => by simp]
    exact h1 j hj

/-- The node whose iteration writes the location in `allocate_levelset_matrices`. -/
def initOwner : Loc → Option (ℕ × ℕ)
  | .d .mphi i j => some (i, j)
  | .d .mpsix i j => some (i, j)
  | .d .mpsiy i j => some (i, j)
  | .d .mpsixy i j => some (i, j)
  | _ => none

theorem allocateLevelset_eq (f : Initial K) {nx ny : ℕ} {m : Mem (Val K)} {xs ys : ℕ → K}
    (hx : ∀ j < nx, m (.d .x 0 j) = .val (xs j)) (hy : ∀ i < ny, m (.d .y 0 i) = .val (ys i)) :
    ∃ m', allocateLevelset f nx ny m = .ok m' ∧ Printable m' nx ny xs ys (initialFields f xs ys) := by
  obtain ⟨mf, e, h1, h2⟩ := runAll_wp (V := Val K) (own := initOwner) (b := fun c => initBody f c.1 c.2) (key := id)
    (nodes ny 0 nx) (fun c _ => by
      simp [Owned, initBody, getD, setD, Prog.get, Prog.set, Prog.bind, Prog.Fits, initOwner])
    (by simpa using nodup_nodes ny 0 nx)
    (m := allocD .mpsixy ny nx 0 (allocD .mpsiy ny nx 0 (allocD .mpsix ny nx 0 (allocD .mphi ny nx 0 m))))
    (Q := fun c m' => m' (.d .mphi c.1 c.2) = .val (f.phi (xs c.2) (ys c.1)) ∧
      m' (.d .mpsix c.1 c.2) = .val (f.psix (xs c.2) (ys c.1)) ∧ m' (.d .mpsiy c.1 c.2) = .val (f.psiy (xs c.2) (ys c.1)) ∧
      m' (.d .mpsixy c.1 c.2) = .val (f.psixy (xs c.2) (ys c.1))) (fun c hc => by
      obtain ⟨h1, -, h2⟩ := mem_nodes.1 hc
      have hx' := hx _ h2
      have hy' := hy _ h1
      simp only [initBody, bind, pure, Prog.wp_bind, Prog.wp_pure, wp_getD, wp_setD]
      simp [allocD, hx', hy', h1, h2, Mem.upd_other, Mem.upd_same])
  have hn : ∀ i < ny, ∀ j < nx, _ := fun i hi j hj => h1 (i, j) (mem_nodes.2 ⟨hi, Nat.zero_le _, hj⟩)
  refine ⟨mf, by rw [allocateLevelset, exec_seqAll]; exact e, ?_, ?_, ?_, ?_, ?_, ?_⟩
  · intro j hj
    rw [h2 _ fun c _ => by simp [initOwner]]
    exact hx j hj
  · intro j hj
    rw [h2 _ fun c _ => by simp [initOwner]]
    exact hy j hj
  · intro i hi j hj
    obtain ⟨m', q, hm⟩ := hn i hi j hj
    rw [hm _ rfl]; exact q.1
  · intro i hi j hj
    obtain ⟨m', q, hm⟩ := hn i hi j hj
    rw [hm _ rfl]; exact q.2.1
  · intro i hi j hj
    obtain ⟨m', q, hm⟩ := hn i hi j hj
    rw [hm _ rfl]; exact q.2.2.1
  · intro i hi j hj
    obtain ⟨m', q, hm⟩ := hn i hi j hj
    rw [hm _ rfl]; exact q.2.2.2

theorem setup_ready {c : Setting K} (hc : Valid c) (f : Initial K) :
    ∃ m, setup c f = .ok m ∧ Ready m c.nx c.ny (posX c) (posY c) (initialFields f (posX c) (posY c)) := by
  obtain ⟨m1, e1, hx, hy⟩ := gridnodes_eq c.xlim1 c.ylim1 c.dx c.dy c.nx c.ny fun _ => .oob
  obtain ⟨m2, e2, h⟩ := allocateLevelset_eq f (xs := posX c) (ys := posY c)
    (fun j hj => (hx j hj).trans (by rw [hc.posX_eq])) (fun j hj => (hy j hj).trans (by rw [hc.posY_eq]))
  rw [setup, e1, M.ok_bind, e2, M.ok_bind]
  exact ⟨_, rfl, ⟨⟨h.x, h.y, h.phi, h.psix, h.psiy, h.psixy⟩, h.phi, h.psix, h.psiy, h.psixy⟩⟩

end setup

/-! ## Number of steps -/

section count
variable {K : Type} [Field K] [LinearOrder K] [IsStrictOrderedRing K] [FloorRing K]

theorem truncated_iff {q : K} {n : ℕ} (hq : 0 ≤ q) : Spec.Truncated q n ↔ n = ⌊q⌋.toNat := by
  have h0 := Int.floor_nonneg.2 hq
  constructor
  · intro h
    have : ⌊q⌋ = (n : ℤ) := Int.floor_eq_iff.2 ⟨by exact_mod_cast h.1, by exact_mod_cast h.2⟩
    rw [this]; simp
  · rintro rfl
    have e : ((⌊q⌋.toNat : ℕ) : K) = (⌊q⌋ : K) := by
      have : ((⌊q⌋.toNat : ℕ) : ℤ) = ⌊q⌋ := Int.toNat_of_nonneg h0
      exact_mod_cast congrArg (Int.cast : ℤ → K) this
    exact ⟨by rw [e]; exact Int.floor_le q, by rw [e]; exact Int.lt_floor_add_one q⟩

/-- The number of steps is the truncated quotient, when that is a value of `unsigned int`; else the conversion is
undefined. -/
theorem stepCount_ok {c : Setting K} (hdt : c.dt ≠ 0) (n : ℕ) :
    stepCount c = .ok n ↔ n < uMod ∧ (Spec.Truncated (c.tfinal / c.dt) n ∨
      (-1 < c.tfinal / c.dt ∧ c.tfinal / c.dt < 0 ∧ n = 0)) := by
  rw [stepCount, if_neg fun h => hdt (le_antisymm h.1 h.2)]
  generalize c.tfinal / c.dt = q
  rw [toUnsigned]
  split_ifs with h1 h2
  · constructor
    · intro h; cases h
    · rintro ⟨-, h | ⟨h, -⟩⟩
      · have : (0 : K) ≤ n := n.cast_nonneg
        have := h.1
        linarith
      · exact absurd h (not_lt.2 h1)
  · constructor
    · rintro ⟨⟩
      exact ⟨by decide, .inr ⟨not_le.1 h1, h2, rfl⟩⟩
    · rintro ⟨-, h | ⟨-, -, rfl⟩⟩
      · have : (0 : K) ≤ n := n.cast_nonneg
        have := h.1
        linarith
      · rfl
  · rw [truncated_iff (not_lt.1 h2)]
    simp only [floorI_eq]
    split_ifs with h3
    · constructor
      · rintro ⟨⟩; exact ⟨h3, .inl rfl⟩
      · rintro ⟨-, rfl | ⟨-, h, -⟩⟩
        · rfl
        · exact absurd h h2
    · constructor
      · intro h; cases h
      · rintro ⟨h, rfl | ⟨-, h', -⟩⟩
        · exact absurd h h3
        · exact absurd h' h2

end count

/-! ## Runs -/

section run
variable {K : Type} [Field K] [LinearOrder K] [IsStrictOrderedRing K] [FloorRing K]

/-- Fields after `t` steps, when `dep t i j` is the departure point of the node `(i, j)` in step `t`. -/
def fieldsAt (c : Setting K) (v : Vel K) (f : Initial K) (dep : ℕ → ℕ → ℕ → K × K) : ℕ → Spec.Fields K
  | 0 => initialFields f (posX c) (posY c)
  | t + 1 => advance v c.schemes t c.dt ((c.xlim2 - c.xlim1) / (c.nx - 1)) ((c.ylim2 - c.ylim1) / (c.ny - 1)) (posX c) (posY c)
      c.nx c.ny (dep t) (fieldsAt c v f dep t)

/-- What a run of `n` steps with print step `p` writes: one entry in `details.txt`, and for `k = 0, ..., n / p` the fields
after `k p` steps with the velocity at time `k p dt`. -/
def Written (c : Setting K) (v : Vel K) (F : ℕ → Spec.Fields K) (n p : ℕ) (o : Out K) : Prop :=
  Spec.Appended c.nx c.ny ⟨[], [], [], [], [], [], [⟨c.nx, c.ny, (c.xlim2 - c.xlim1) / (c.nx - 1),
      (c.ylim2 - c.ylim1) / (c.ny - 1), c.xlim1, c.xlim2, c.ylim1, c.ylim2, n, c.dt, p⟩]⟩ o
    ((List.range (n / p + 1)).map fun k => Spec.snapshot v.velx v.vely (posX c) (posY c) (F (k * p)) ((k * p : ℕ) * c.dt))

theorem main_run {c : Setting K} (hc : Valid c) (v : Vel K) (f : Initial K) {dep : ℕ → ℕ → ℕ → K × K}
    {step : Setting K → Vel K → K → K → ℕ → Mem (Val K) → M (Mem (Val K))}
    (hstep : ∀ t m F, t + 1 < uMod → Ready m c.nx c.ny (posX c) (posY c) F → ∃ m', step c v c.dx c.dy t m = .ok m' ∧
      Ready m' c.nx c.ny (posX c) (posY c)
        (advance v c.schemes t c.dt c.dx c.dy (posX c) (posY c) c.nx c.ny (dep t) F))
    {n : ℕ} (hn : stepCount c = .ok n) (hnu : n < uMod) (hp : 1 ≤ printStep c n ∨ n = 0) :
    ∃ m o, mainWith step c v f = .ok (m, o) ∧ Ready m c.nx c.ny (posX c) (posY c) (fieldsAt c v f dep n) ∧
      Written c v (fieldsAt c v f dep) n (printStep c n) o := by
  obtain ⟨m0, e0, h0⟩ := setup_ready hc f
  obtain ⟨o0, eo, a0⟩ := fileprint_eq h0.toPrintable (by have := hc.nx3; omega) v 0 Out.none
  let T : ℕ → Mem (Val K) := fun t => Nat.rec m0 (fun t m => match step c v c.dx c.dy t m with
    | .ok m' => m'
    | .error _ => m) t
  have hT : ∀ t ≤ n, Ready (T t) c.nx c.ny (posX c) (posY c) (fieldsAt c v f dep t) := by
    intro t
    induction t with
    | zero => exact fun _ => h0
    | succ t ih =>
      intro ht
      obtain ⟨m', e', h'⟩ := hstep t _ _ (by omega) (ih (by omega))
      have : T (t + 1) = m' := by
        show (match step c v c.dx c.dy t (T t) with
          | .ok m' => m'
          | .error _ => T t) = m'
        rw [e']
      rw [this, fieldsAt, ← hc.dx_eq, ← hc.dy_eq]
      exact h'
  have hs : ∀ t < n, step c v c.dx c.dy t (T t) = .ok (T (t + 1)) := by
    intro t ht
    obtain ⟨m', e', -⟩ := hstep t _ _ (by omega) (hT t (by omega))
    show _ = Except.ok (match step c v c.dx c.dy t (T t) with
      | .ok m' => m'
      | .error _ => T t)
    rw [e']
  let D : Details K := ⟨c.nx, c.ny, c.dx, c.dy, c.xlim1, c.xlim2, c.ylim1, c.ylim2, n, c.dt, printStep c n⟩
  have a1 : Spec.Appended c.nx c.ny ⟨[], [], [], [], [], [], [D]⟩ { o0 with details := o0.details ++ [D] }
      [Spec.snapshot v.velx v.vely (posX c) (posY c) (fieldsAt c v f dep 0) 0] :=
    ⟨a0.phi, a0.psix, a0.psiy, a0.psixy, a0.velx, a0.vely, by rw [a0.details]; rfl⟩
  have hloop : ∃ o', timeLoop (step c v c.dx c.dy) c v (printStep c n) n 0 (T 0, { o0 with details := o0.details ++ [D] }) =
      .ok (T n, o') ∧ Spec.Appended c.nx c.ny { o0 with details := o0.details ++ [D] } o'
        ((List.range' 1 (n / printStep c n)).map fun k =>
          Spec.snapshot v.velx v.vely (posX c) (posY c) (fieldsAt c v f dep (k * printStep c n))
            ((k * printStep c n : ℕ) * c.dt)) := by
    rcases hp with hp | rfl
    · have := timeLoop_frames (v := v) hp hnu (by have := hc.nx3; omega) hs (fun t ht => (hT t ht).toPrintable) n 0 (by omega)
        { o0 with details := o0.details ++ [D] }
      simpa only [Nat.zero_div, Nat.zero_add, Nat.sub_zero] using this
    · exact ⟨_, rfl, by simpa using appended_nil _⟩
  obtain ⟨o', e', a'⟩ := hloop
  refine ⟨T n, o', ?_, hT n le_rfl, ?_⟩
  · rw [mainWith, hn, M.ok_bind, e0, M.ok_bind, eo, M.ok_bind]
    exact e'
  · have := appended_append a1 a'
    rw [Written, ← hc.dx_eq, ← hc.dy_eq, List.range_eq_range', List.range'_succ, List.map_cons]
    simpa using this

variable {c : Setting K} (hc : Valid c) (v : Vel K) (f : Initial K) (hdt : c.dt ≠ 0) {n : ℕ}
  (hn : Spec.Truncated (c.tfinal / c.dt) n) (hnu : n < uMod) (hp : 1 ≤ printStep c n ∨ n = 0)
include hc hdt hn hnu hp

/-- **C54**, **C60** for the serial program: with `n` the truncated quotient of the final time and `dt`, and `p` the print
step, a run is free of undefined behaviour, ends with the fields after `n` specified steps, and writes exactly the fields
after `k p` steps for `k = 0, ..., n / p`. -/
theorem C54_serial : ∃ m o, mainSerial c v f = .ok (m, o) ∧
    Ready m c.nx c.ny (posX c) (posY c) (fieldsAt c v f (departsSerial c v) n) ∧
    Written c v (fieldsAt c v f (departsSerial c v)) n (printStep c n) o :=
  main_run hc v f (fun _ _ _ ht h => C60_step_serial hc v ht h) ((stepCount_ok hdt n).2 ⟨hnu, .inl hn⟩) hnu hp

/-- **C54**, **C60** for the OpenMP program run by one thread. -/
theorem C54_openmp {argc : ℕ} (ha : 2 ≤ argc) : ∃ m o, mainOpenMP argc c v f = .ok (m, o) ∧
    Ready m c.nx c.ny (posX c) (posY c) (fieldsAt c v f (departs c v) n) ∧
    Written c v (fieldsAt c v f (departs c v)) n (printStep c n) o := by
  rw [mainOpenMP, if_neg (by omega)]
  exact main_run hc v f (fun _ _ _ ht h => C60_step hc v ht h) ((stepCount_ok hdt n).2 ⟨hnu, .inl hn⟩) hnu hp

end run

/-! ## Frames -/

section frames
variable {K : Type}

/-- Number tokens. -/
def isNum : Tok K → Bool
  | .num _ => true
  | _ => false

theorem rowText_num (f : ℕ → K) (nx : ℕ) : (Spec.rowText f nx).countP isNum = nx := by
  cases nx with
  | zero => rfl
  | succ n =>
    rw [Spec.rowText, List.range_succ_eq_map, List.map_cons, intersperse_cons, List.countP_append, List.countP_cons,
      List.countP_flatMap, List.map_map, List.map_map, List.sum_eq_card_nsmul _ 1 (by simp [isNum])]
    simp [isNum]

theorem frame_num (nx ny : ℕ) (f : ℕ → ℕ → K) : (Spec.frame nx ny f).countP isNum = ny * nx := by
  rw [Spec.frame, List.countP_append, List.countP_flatMap, List.sum_eq_card_nsmul _ nx]
  · simp [isNum]
  · simp only [List.mem_map, Function.comp]
    rintro x ⟨i, -, rfl⟩
    exact rowText_num ..

/-- C54, size: a file with the frames of a list of snapshots has `ny * nx` numbers per snapshot, so a run leaves
`(n / p + 1) * (ny * nx)` numbers in each of the six files. -/
theorem C54_size {S : Type} (ss : List S) (nx ny : ℕ) (sel : S → ℕ → ℕ → K) :
    (ss.flatMap fun s => Spec.frame nx ny (sel s)).countP isNum = ss.length * (ny * nx) := by
  rw [List.countP_flatMap, List.sum_eq_card_nsmul _ (ny * nx)]
  · simp
  · simp only [List.mem_map, Function.comp]
    rintro x ⟨s, -, rfl⟩
    exact frame_num ..

end frames

/-! ## Undefined behaviour -/

section negative
variable {K : Type} [Field K] [LinearOrder K] [IsStrictOrderedRing K] [FloorRing K]

/-- C54: print step zero with at least one step is a remainder by zero. -/
theorem C54_print_zero {c : Setting K} (hc : Valid c) (v : Vel K) (f : Initial K) {n : ℕ} (hn : stepCount c = .ok n)
    (h1 : 1 ≤ n) (h2 : n < uMod) (ho : c.option = 1) (hp : c.printstep = 0) : mainSerial c v f = .error .exn := by
  obtain ⟨m0, e0, h0⟩ := setup_ready hc f
  obtain ⟨o0, eo, a0⟩ := fileprint_eq h0.toPrintable (by have := hc.nx3; omega) v 0 Out.none
  obtain ⟨m1, e1, -⟩ := C60_step_serial hc v (t := 0) (by decide) h0
  obtain ⟨k, rfl⟩ : ∃ k, n = k + 1 := ⟨n - 1, by omega⟩
  rw [mainSerial, mainWith, hn, M.ok_bind, e0, M.ok_bind, eo, M.ok_bind, timeLoop]
  simp only [e1, M.ok_bind, printStep, ho, hp, ne_eq, not_true_eq_false, if_false, if_true]

/-- C54: a final time too large for `unsigned int` makes the conversion undefined. -/
theorem C54_overflow {c : Setting K} (hdt : 0 < c.dt) (h : (uMod : K) * c.dt ≤ c.tfinal) (v : Vel K) (f : Initial K) :
    mainSerial c v f = .error .conv := by
  have hq : (uMod : K) ≤ c.tfinal / c.dt := (le_div_iff₀ hdt).2 h
  have h0 : (0 : K) ≤ (uMod : K) := Nat.cast_nonneg _
  have : stepCount c = .error .conv := by
    rw [stepCount, if_neg fun h => hdt.ne' (le_antisymm h.1 h.2), toUnsigned, if_neg (by linarith), if_neg (by linarith)]
    simp only [floorI_eq]
    rw [if_neg]
    have : (uMod : ℤ) ≤ ⌊c.tfinal / c.dt⌋ := Int.le_floor.2 (by exact_mod_cast hq)
    omega
  rw [mainSerial, mainWith, this, M.error_bind]

/-- The OpenMP program started without an argument passes a null pointer to `strtol`. -/
theorem C54_no_argument (c : Setting K) (v : Vel K) (f : Initial K) : mainOpenMP 1 c v f = .error .oob := rfl

end negative

/-! ## Example -/

/-- Three by four nodes, six steps, output after every second. -/
def runC : Setting ℚ := ⟨0, 1, 3, 0, 3, 4, 1 / 2, 3, 1, 2, ⟨"SuperConsistent", "RK3"⟩⟩

/-- A rotation with its derivatives. -/
def runV : Vel ℚ := ⟨fun _ y _ => 1 - y, fun x _ _ => x - 1, fun _ _ _ => 0, fun _ _ _ => -1, fun _ _ _ => 1, fun _ _ _ => 0⟩

example : Valid runC := ⟨by decide, by decide, by decide, by decide, by norm_num [runC], by norm_num [runC]⟩
example : Spec.Truncated (runC.tfinal / runC.dt) 6 ∧ runC.dt ≠ 0 ∧ 1 ≤ printStep runC 6 := by
  refine ⟨⟨?_, ?_⟩, ?_, by decide⟩ <;> norm_num [runC]

/-- Instances of `C54_serial`, `C54_openmp`, `C54_print_zero` and `C54_overflow`. -/
example (f : Initial ℚ) : (∃ m o, mainSerial runC runV f = .ok (m, o) ∧
      Written runC runV (fieldsAt runC runV f (departsSerial runC runV)) 6 2 o) ∧
    (∃ m o, mainOpenMP 2 runC runV f = .ok (m, o) ∧ Written runC runV (fieldsAt runC runV f (departs runC runV)) 6 2 o) ∧
    mainSerial { runC with printstep := 0 } runV f = .error .exn ∧
    mainSerial { runC with tfinal := 3000000000 } runV f = .error .conv := by
  have hv : Valid runC := ⟨by decide, by decide, by decide, by decide, by norm_num [runC], by norm_num [runC]⟩
  have hn : Spec.Truncated (runC.tfinal / runC.dt) 6 := ⟨by norm_num [runC], by norm_num [runC]⟩
  have hd : runC.dt ≠ 0 := by norm_num [runC]
  obtain ⟨m, o, e, -, w⟩ := C54_serial hv runV f hd hn (by decide) (.inl (by decide))
  obtain ⟨m', o', e', -, w'⟩ := C54_openmp hv runV f hd hn (by decide) (.inl (by decide)) (argc := 2) le_rfl
  have h0 : Valid { runC with printstep := 0 } := ⟨hv.1, hv.2, hv.3, hv.4, hv.5, hv.6⟩
  exact ⟨⟨m, o, e, w⟩, ⟨m', o', e', w'⟩, C54_print_zero h0 runV f ((stepCount_ok hd 6).2 ⟨by decide, .inl hn⟩) (by decide)
    (by decide) rfl rfl, C54_overflow (by norm_num [runC]) (by norm_num [runC, uMod]) runV f⟩

/-- Instances of `C60_step`, `C60_step_serial` and `C60_openmp_partial`: the first step of `runC`. -/
example (f : Initial ℚ) : ∃ m, setup runC f = .ok m ∧ (∃ m', stepOpenMP runC runV runC.dx runC.dy 0 m = .ok m') ∧
    (∃ m', stepSerial runC runV runC.dx runC.dy 0 m = .ok m') ∧ ∀ m', OmpStep ParFor runC runV runC.dx runC.dy 0 m m' →
      Grid2 m' .mphi 3 4 (advance runV runC.schemes 0 runC.dt runC.dx runC.dy (posX runC) (posY runC) 3 4 (departs runC runV 0)
        (initialFields f (posX runC) (posY runC))).phi := by
  have hv : Valid runC := ⟨by decide, by decide, by decide, by decide, by norm_num [runC], by norm_num [runC]⟩
  obtain ⟨m, e, h⟩ := setup_ready hv f
  obtain ⟨m1, e1, -⟩ := C60_step hv runV (t := 0) (by decide) h
  obtain ⟨m2, e2, -⟩ := C60_step_serial hv runV (t := 0) (by decide) h
  exact ⟨m, e, ⟨m1, e1⟩, ⟨m2, e2⟩, fun m' hs => ((C60_openmp_partial hv runV (t := 0) (by decide) h (m' := m')).2 hs).1⟩

end Gals.Props
