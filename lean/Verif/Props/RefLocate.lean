import Verif.Props.RefAdvect

/-!
# C58: location of the departure points
-/

set_option linter.unusedSectionVars false
set_option linter.unusedSimpArgs false

namespace Gals.Props

open Gals Gals.Ref

variable {K : Type} [LinearOrder K]

/-- The owner of a location in the loops that locate departure points. -/
def findOwner : Loc → Option (ℕ × ℕ)
  | .n _ i j => some (i, j)
  | _ => none

theorem lowerBound_fits (a : DVar) (p : K) {R W : Loc → Prop} (h : ∀ k, R (.d a 0 k)) (first len : ℕ) :
    (lowerBound a p first len).Fits R W := by
  induction len using Nat.strong_induction_on generalizing first with
  | _ len ih =>
    rw [lowerBound]
    split
    · trivial
    · refine Prog.fits_bind (Prog.fits_get (h _)) fun v => Prog.fits_ite (fun _ => ih _ (by omega) _) fun _ => ih _ (by omega) _

theorem cellOf_fits (a : DVar) (n : ℕ) (p : K) {R W : Loc → Prop} (h : ∀ k, R (.d a 0 k)) : (cellOf a n p).Fits R W :=
  Prog.fits_bind (lowerBound_fits a p h 0 n) fun _ => trivial

theorem locationLoop_fits (a : DVar) (p : K) {R W : Loc → Prop} (h : ∀ k, R (.d a 0 k)) (n loc : ℕ) :
    (locationLoop a p n loc).Fits R W := by
  obtain ⟨d, hd⟩ : ∃ d, n - loc = d := ⟨_, rfl⟩
  induction d generalizing loc with
  | zero =>
    rw [locationLoop]
    refine Prog.fits_bind (Prog.fits_get (h _)) fun v => Prog.fits_ite (fun hh => absurd hh.2 (by omega)) fun _ => trivial
  | succ d ih =>
    rw [locationLoop]
    exact Prog.fits_bind (Prog.fits_get (h _)) fun v => Prog.fits_ite (fun hh => ih _ (by omega)) fun _ => trivial

theorem locationAlgo_fits (a : DVar) (n : ℕ) (p : K) {R W : Loc → Prop} (h : ∀ k, R (.d a 0 k)) :
    (locationAlgo a p n).Fits R W :=
  Prog.fits_bind (locationLoop_fits a p h n 0) fun _ => trivial

theorem findBody_owned (l1 l2 l3 l4 : K) (nx ny i j : ℕ) : Owned findOwner (i, j) (findBody l1 l2 l3 l4 nx ny i j) := by
  unfold Owned findBody
  simp only [Prog.bind_eq, Prog.pure_eq]
  refine Prog.fits_bind (Prog.fits_get (Or.inr rfl)) fun xa => Prog.fits_bind (Prog.fits_get (Or.inr rfl)) fun ya => ?_
  have hs : ∀ a v, (setN a i j v : P K Unit).Fits (fun l => findOwner l = some (i, j) ∨ findOwner l = none)
      (fun l => findOwner l = some (i, j)) := fun a v => Prog.fits_set rfl
  have hc : ∀ a n p, (cellOf a n p : P K ℕ).Fits (fun l => findOwner l = some (i, j) ∨ findOwner l = none)
      (fun l => findOwner l = some (i, j)) := fun a n p => cellOf_fits a n p fun _ => Or.inr rfl
  repeat' first
    | exact hs _ _
    | exact hc _ _ _
    | exact Prog.fits_pure _
    | refine Prog.fits_ite (fun _ => ?_) (fun _ => ?_)
    | refine Prog.fits_bind ?_ (fun _ => ?_)

theorem findCuda_owned (l1 l2 l3 l4 : K) (nx ny ix iy : ℕ) :
    Owned findOwner (0, indexW nx ix iy) (findCuda l1 l2 l3 l4 nx ny ix iy) := by
  unfold Owned findCuda
  simp only [Prog.bind_eq, Prog.pure_eq]
  refine Prog.fits_bind (Prog.fits_get (Or.inr rfl)) fun xa => Prog.fits_bind (Prog.fits_get (Or.inr rfl)) fun ya => ?_
  have hs : ∀ a v, (setN a 0 (indexW nx ix iy) v : P K Unit).Fits
      (fun l => findOwner l = some (0, indexW nx ix iy) ∨ findOwner l = none)
      (fun l => findOwner l = some (0, indexW nx ix iy)) := fun a v => Prog.fits_set rfl
  have hc : ∀ a n p, (locationAlgo a p n : P K ℕ).Fits
      (fun l => findOwner l = some (0, indexW nx ix iy) ∨ findOwner l = none)
      (fun l => findOwner l = some (0, indexW nx ix iy)) := fun a n p => locationAlgo_fits a n p fun _ => Or.inr rfl
  repeat' first
    | exact hs _ _
    | exact hc _ _ _
    | exact Prog.fits_pure _
    | refine Prog.fits_ite (fun _ => ?_) (fun _ => ?_)
    | refine Prog.fits_bind ?_ (fun _ => ?_)

/-- Memory after locating the departure point stored at `(i, j)`. -/
structure LocatedAt (m m' : Mem (Val K)) (i j : ℕ) (xs ys : ℕ → K) (nx ny : ℕ) (xa ya : K) : Prop where
  loc : Spec.Located (fun n => (Slot.val n : Slot ℕ)) xs ys nx ny xa ya (m (.n .cellx i j)) (m (.n .celly i j))
    (m' (.n .tracker i j)) (m' (.n .cellx i j)) (m' (.n .celly i j))
  frame : ∀ l, (∀ a, l ≠ .n a i j) → m' l = m l

theorem nodes_upd {m : Mem (Val K)} {a : DVar} {n : ℕ} {xs : ℕ → K} (h : Nodes m a n xs) (b : NVar) (i j v : ℕ) :
    Nodes (m.upd (.n b i j) v) a n xs := fun k hk => by rw [Mem.upd_other _ (by simp)]; exact h k hk

theorem wp_cellOf {m : Mem (Val K)} {a : DVar} {n : ℕ} {xs : ℕ → K} (hm : Nodes m a n xs) (hn : n < uMod)
    (hs : ∀ i j, i < j → j < n → xs i < xs j) (h2 : 2 ≤ n) {p : K} (h0 : xs 0 < p) (h1 : p < xs (n - 1))
    {Q : ℕ → Mem (Val K) → Prop} (hq : ∀ c, Spec.Encloses xs n p c → Q c m) : (cellOf a n p).wp m Q := by
  obtain ⟨c, hc, -, e, -⟩ := C42_search hm hn hs h2 h0 h1.le
  exact Prog.wp_of_run e (hq c hc)

theorem wp_locationAlgo {m : Mem (Val K)} {a : DVar} {n : ℕ} {xs : ℕ → K} (hm : Nodes m a n xs) (hn : n < uMod)
    (hs : ∀ i j, i < j → j < n → xs i < xs j) (h2 : 2 ≤ n) {p : K} (h0 : xs 0 < p) (h1 : p < xs (n - 1))
    {Q : ℕ → Mem (Val K) → Prop} (hq : ∀ c, Spec.Encloses xs n p c → Q c m) : (locationAlgo a p n).wp m Q := by
  obtain ⟨c, hc, -, -, e⟩ := C42_search hm hn hs h2 h0 h1.le
  exact Prog.wp_of_run e (hq c hc)

theorem room_upd {m : Mem (Val K)} {i j : ℕ} (h : ∀ a, m (.n a i j) ≠ .oob) (b : NVar) (v : ℕ) (a : NVar) :
    (m.upd (.n b i j) v) (.n a i j) ≠ .oob := by
  rw [Ne, Mem.upd_oob_iff _ _ _ _ (h b)]
  exact h a

/-- Closes a goal `LocatedAt` whose memory is a few stores. -/
theorem located_of {m m' : Mem (Val K)} {i j : ℕ} {xs ys : ℕ → K} {nx ny : ℕ} {xa ya : K}
    (hl : Spec.Located (fun n => (Slot.val n : Slot ℕ)) xs ys nx ny xa ya (m (.n .cellx i j)) (m (.n .celly i j))
      (m' (.n .tracker i j)) (m' (.n .cellx i j)) (m' (.n .celly i j)))
    (hf : ∀ l, (∀ a, l ≠ .n a i j) → m' l = m l) : LocatedAt m m' i j xs ys nx ny xa ya := ⟨hl, hf⟩

theorem findBody_wp {m : Mem (Val K)} {nx ny i j : ℕ} {xs ys : ℕ → K} {xa ya : K} (hx : Nodes m .x nx xs)
    (hy : Nodes m .y ny ys) (sx : ∀ i j, i < j → j < nx → xs i < xs j) (sy : ∀ i j, i < j → j < ny → ys i < ys j)
    (nx2 : 2 ≤ nx) (ny2 : 2 ≤ ny) (nxu : nx < uMod) (nyu : ny < uMod)
    (ha : m (.d .xadv i j) = .val xa) (hb : m (.d .yadv i j) = .val ya) (hr : ∀ a, m (.n a i j) ≠ .oob) :
    (findBody (xs 0) (xs (nx - 1)) (ys 0) (ys (ny - 1)) nx ny i j).wp m
      fun _ m' => LocatedAt m m' i j xs ys nx ny xa ya := by
  unfold findBody
  simp only [Prog.bind_eq, Prog.pure_eq, Prog.wp_bind, wp_getD, ha, hb, slot_val_inj, exists_eq_left']
  by_cases px : xs 0 < xa ∧ xa < xs (nx - 1) <;> by_cases py : ys 0 < ya ∧ ya < ys (ny - 1)
  · simp only [px, py, and_self, decide_true, Bool.not_true, Bool.not_false, Bool.and_self, if_true, Prog.wp_bind, wp_setN]
    refine ⟨hr _, wp_cellOf (nodes_upd hx _ _ _ _) nxu sx nx2 px.1 px.2 fun a ea => ⟨room_upd hr _ _ _,
      wp_cellOf (nodes_upd (nodes_upd hy _ _ _ _) _ _ _ _) nyu sy ny2 py.1 py.2 fun b eb =>
        ⟨room_upd (room_upd hr _ _) _ _ _, located_of ⟨fun _ _ => ⟨a, b, ea, eb, ?_⟩, fun _ h => absurd py h,
          fun h => absurd px h, fun h => absurd px h⟩ fun l hl => ?_⟩⟩⟩
    · simp [Mem.upd_other, Mem.upd_same]
    · simp only [Mem.upd_other _ (hl _)]
  · simp only [px, py, and_self, decide_true, decide_false, Bool.not_true, Bool.not_false, Bool.and_self, Bool.and_true,
      Bool.and_false, Bool.false_eq_true, if_true, if_false, Prog.wp_bind, wp_setN]
    refine ⟨hr _, ?_⟩
    by_cases h1 : ya ≤ ys 0
    · rw [if_pos h1]
      simp only [Prog.wp_bind, wp_setN]
      refine wp_cellOf (nodes_upd hx _ _ _ _) nxu sx nx2 px.1 px.2 fun a ea => ⟨room_upd hr _ _ _,
        room_upd (room_upd hr _ _) _ _ _, located_of ⟨fun _ h => absurd h py, fun _ _ => ⟨a, ea, ?_⟩,
          fun h => absurd px h, fun h => absurd px h⟩ fun l hl => ?_⟩
      · simp [Mem.upd_other, Mem.upd_same, h1]
      · simp only [Mem.upd_other _ (hl _)]
    · have h2 : ys (ny - 1) ≤ ya := by
        by_contra h
        exact py ⟨not_le.1 h1, not_le.1 h⟩
      rw [if_neg h1, if_pos h2]
      simp only [Prog.wp_bind, wp_setN]
      refine wp_cellOf (nodes_upd hx _ _ _ _) nxu sx nx2 px.1 px.2 fun a ea => ⟨room_upd hr _ _ _,
        room_upd (room_upd hr _ _) _ _ _, located_of ⟨fun _ h => absurd h py, fun _ _ => ⟨a, ea, ?_⟩,
          fun h => absurd px h, fun h => absurd px h⟩ fun l hl => ?_⟩
      · simp [Mem.upd_other, Mem.upd_same, h1, usub_eq ny2 nyu]
      · simp only [Mem.upd_other _ (hl _)]
  · simp only [px, py, and_self, decide_true, decide_false, Bool.not_true, Bool.not_false, Bool.and_self, Bool.and_true,
      Bool.and_false, Bool.false_eq_true, if_true, if_false, Prog.wp_bind, wp_setN]
    refine ⟨hr _, ?_⟩
    by_cases h1 : xa ≤ xs 0
    · rw [if_pos h1]
      simp only [Prog.wp_bind, wp_setN]
      refine wp_cellOf (nodes_upd hy _ _ _ _) nyu sy ny2 py.1 py.2 fun a ea => ⟨room_upd hr _ _ _,
        room_upd (room_upd hr _ _) _ _ _, located_of ⟨fun h => absurd h px, fun h => absurd h px,
          fun _ _ => ⟨a, ea, ?_⟩, fun _ h => absurd py h⟩ fun l hl => ?_⟩
      · simp [Mem.upd_other, Mem.upd_same, h1]
      · simp only [Mem.upd_other _ (hl _)]
    · have h2 : xs (nx - 1) ≤ xa := by
        by_contra h
        exact px ⟨not_le.1 h1, not_le.1 h⟩
      rw [if_neg h1, if_pos h2]
      simp only [Prog.wp_bind, wp_setN]
      refine wp_cellOf (nodes_upd hy _ _ _ _) nyu sy ny2 py.1 py.2 fun a ea => ⟨room_upd hr _ _ _,
        room_upd (room_upd hr _ _) _ _ _, located_of ⟨fun h => absurd h px, fun h => absurd h px,
          fun _ _ => ⟨a, ea, ?_⟩, fun _ h => absurd py h⟩ fun l hl => ?_⟩
      · simp [Mem.upd_other, Mem.upd_same, h1, usub_eq nx2 nxu]
      · simp only [Mem.upd_other _ (hl _)]
  · simp only [px, py, and_self, decide_true, decide_false, Bool.not_true, Bool.not_false, Bool.and_self, Bool.and_true,
      Bool.and_false, Bool.false_eq_true, if_true, if_false, Prog.wp_bind, wp_setN]
    refine ⟨hr _, located_of ⟨fun h => absurd h px, fun h => absurd h px, fun _ h => absurd h py, fun _ _ => ?_⟩ fun l hl => ?_⟩
    · simp [Mem.upd_other, Mem.upd_same]
    · simp only [Mem.upd_other _ (hl _)]

theorem findCuda_wp {m : Mem (Val K)} {nx ny ix iy : ℕ} {xs ys : ℕ → K} {xa ya : K} (hx : Nodes m .x nx xs)
    (hy : Nodes m .y ny ys) (sx : ∀ i j, i < j → j < nx → xs i < xs j) (sy : ∀ i j, i < j → j < ny → ys i < ys j)
    (nx2 : 2 ≤ nx) (ny2 : 2 ≤ ny) (nxu : nx < uMod) (nyu : ny < uMod)
    (ha : m (.d .xadv 0 (indexW nx ix iy)) = .val xa) (hb : m (.d .yadv 0 (indexW nx ix iy)) = .val ya)
    (hr : ∀ a, m (.n a 0 (indexW nx ix iy)) ≠ .oob) :
    (findCuda (xs 0) (xs (nx - 1)) (ys 0) (ys (ny - 1)) nx ny ix iy).wp m
      fun _ m' => LocatedAt m m' 0 (indexW nx ix iy) xs ys nx ny xa ya := by
  unfold findCuda
  simp only [Prog.bind_eq, Prog.pure_eq, Prog.wp_bind, wp_getD, ha, hb, slot_val_inj, exists_eq_left']
  by_cases px : xs 0 < xa ∧ xa < xs (nx - 1) <;> by_cases py : ys 0 < ya ∧ ya < ys (ny - 1)
  · simp only [px, py, and_self, decide_true, Bool.not_true, Bool.not_false, Bool.and_self, if_true, Prog.wp_bind, wp_setN]
    refine ⟨hr _, wp_locationAlgo (nodes_upd hx _ _ _ _) nxu sx nx2 px.1 px.2 fun a ea => ⟨room_upd hr _ _ _,
      wp_locationAlgo (nodes_upd (nodes_upd hy _ _ _ _) _ _ _ _) nyu sy ny2 py.1 py.2 fun b eb =>
        ⟨room_upd (room_upd hr _ _) _ _ _, located_of ⟨fun _ _ => ⟨a, b, ea, eb, ?_⟩, fun _ h => absurd py h,
          fun h => absurd px h, fun h => absurd px h⟩ fun l hl => ?_⟩⟩⟩
    · simp [Mem.upd_other, Mem.upd_same]
    · simp only [Mem.upd_other _ (hl _)]
  · simp only [px, py, and_self, decide_true, decide_false, Bool.not_true, Bool.not_false, Bool.and_self, Bool.and_true,
      Bool.and_false, Bool.false_eq_true, if_true, if_false, Prog.wp_bind, wp_setN]
    refine ⟨hr _, wp_locationAlgo (nodes_upd hx _ _ _ _) nxu sx nx2 px.1 px.2 fun a ea => ⟨room_upd hr _ _ _, ?_⟩⟩
    by_cases h1 : ya ≤ ys 0
    · rw [if_pos h1]
      simp only [wp_setN]
      refine ⟨room_upd (room_upd hr _ _) _ _ _, located_of ⟨fun _ h => absurd h py, fun _ _ => ⟨a, ea, ?_⟩,
          fun h => absurd px h, fun h => absurd px h⟩ fun l hl => ?_⟩
      · simp [Mem.upd_other, Mem.upd_same, h1]
      · simp only [Mem.upd_other _ (hl _)]
    · have h2 : ys (ny - 1) ≤ ya := by
        by_contra h
        exact py ⟨not_le.1 h1, not_le.1 h⟩
      rw [if_neg h1, if_pos h2]
      simp only [wp_setN]
      refine ⟨room_upd (room_upd hr _ _) _ _ _, located_of ⟨fun _ h => absurd h py, fun _ _ => ⟨a, ea, ?_⟩,
          fun h => absurd px h, fun h => absurd px h⟩ fun l hl => ?_⟩
      · simp [Mem.upd_other, Mem.upd_same, h1, usub_eq ny2 nyu]
      · simp only [Mem.upd_other _ (hl _)]
  · simp only [px, py, and_self, decide_true, decide_false, Bool.not_true, Bool.not_false, Bool.and_self, Bool.and_true,
      Bool.and_false, Bool.false_eq_true, if_true, if_false, Prog.wp_bind, wp_setN]
    refine ⟨hr _, wp_locationAlgo (nodes_upd hy _ _ _ _) nyu sy ny2 py.1 py.2 fun a ea => ⟨room_upd hr _ _ _, ?_⟩⟩
    by_cases h1 : xa ≤ xs 0
    · rw [if_pos h1]
      simp only [wp_setN]
      refine ⟨room_upd (room_upd hr _ _) _ _ _, located_of ⟨fun h => absurd h px, fun h => absurd h px,
          fun _ _ => ⟨a, ea, ?_⟩, fun _ h => absurd py h⟩ fun l hl => ?_⟩
      · simp [Mem.upd_other, Mem.upd_same, h1]
      · simp only [Mem.upd_other _ (hl _)]
    · have h2 : xs (nx - 1) ≤ xa := by
        by_contra h
        exact px ⟨not_le.1 h1, not_le.1 h⟩
      rw [if_neg h1, if_pos h2]
      simp only [wp_setN]
      refine ⟨room_upd (room_upd hr _ _) _ _ _, located_of ⟨fun h => absurd h px, fun h => absurd h px,
          fun _ _ => ⟨a, ea, ?_⟩, fun _ h => absurd py h⟩ fun l hl => ?_⟩
      · simp [Mem.upd_other, Mem.upd_same, h1, usub_eq nx2 nxu]
      · simp only [Mem.upd_other _ (hl _)]
  · simp only [px, py, and_self, decide_true, decide_false, Bool.not_true, Bool.not_false, Bool.and_self, Bool.and_true,
      Bool.and_false, Bool.false_eq_true, if_true, if_false, Prog.wp_bind, wp_setN]
    refine ⟨hr _, located_of ⟨fun h => absurd h px, fun h => absurd h px, fun _ h => absurd h py, fun _ _ => ?_⟩ fun l hl => ?_⟩
    · simp [Mem.upd_other, Mem.upd_same]
    · simp only [Mem.upd_other _ (hl _)]

/-! ## C58 -/

/-- Node coordinates, departure points, and room for the location of every node; the limits are the first and last node. -/
structure CpuFind (m : Mem (Val K)) (nx ny : ℕ) (xs ys : ℕ → K) (xa ya : ℕ → ℕ → K) : Prop where
  x : Nodes m .x nx xs
  y : Nodes m .y ny ys
  incX : ∀ i j, i < j → j < nx → xs i < xs j
  incY : ∀ i j, i < j → j < ny → ys i < ys j
  xadv : ∀ i < ny, ∀ j < nx, m (.d .xadv i j) = .val (xa i j)
  yadv : ∀ i < ny, ∀ j < nx, m (.d .yadv i j) = .val (ya i j)
  room : ∀ i < ny, ∀ j < nx, ∀ a, m (.n a i j) ≠ .oob

/-- The same in flat arrays. -/
structure CudaFind (m : Mem (Val K)) (nx ny : ℕ) (xs ys : ℕ → K) (xa ya : ℕ → ℕ → K) : Prop where
  x : Nodes m .x nx xs
  y : Nodes m .y ny ys
  incX : ∀ i j, i < j → j < nx → xs i < xs j
  incY : ∀ i j, i < j → j < ny → ys i < ys j
  xadv : ∀ i < ny, ∀ j < nx, m (.d .xadv 0 (i * nx + j)) = .val (xa i j)
  yadv : ∀ i < ny, ∀ j < nx, m (.d .yadv 0 (i * nx + j)) = .val (ya i j)
  room : ∀ k < nx * ny, ∀ a, m (.n a 0 k) ≠ .oob

/-- **C58** for the CPU versions (serial: `lo = 0`, `hi = nx`; OpenMP the same with threads; an MPI rank its half): the loop
ends without undefined behaviour under every schedule, every node of its columns gets its location, and nothing else
changes. -/
theorem C58_locate_cpu {m : Mem (Val K)} {nx ny : ℕ} {xs ys : ℕ → K} {xa ya : ℕ → ℕ → K} (hm : CpuFind m nx ny xs ys xa ya)
    (nx2 : 2 ≤ nx) (ny2 : 2 ≤ ny) (nxu : nx < uMod) (nyu : ny < uMod) {lo hi : ℕ} (hh : hi ≤ nx) :
    ∃ mf, runAll (find (xs 0) (xs (nx - 1)) (ys 0) (ys (ny - 1)) nx ny lo hi) m = .ok mf ∧
      Spec.ScheduleIndependent (find (xs 0) (xs (nx - 1)) (ys 0) (ys (ny - 1)) nx ny lo hi) m mf ∧
      (∀ i < ny, ∀ j < hi, lo ≤ j → Spec.Located (fun n => (Slot.val n : Slot ℕ)) xs ys nx ny (xa i j) (ya i j)
        (m (.n .cellx i j)) (m (.n .celly i j)) (mf (.n .tracker i j)) (mf (.n .cellx i j)) (mf (.n .celly i j))) ∧
      ∀ l, (∀ i < ny, ∀ j < hi, lo ≤ j → ∀ a, l ≠ .n a i j) → mf l = m l := by
  have hb : ∀ c ∈ nodes ny lo hi, Owned findOwner (id c)
      (findBody (xs 0) (xs (nx - 1)) (ys 0) (ys (ny - 1)) nx ny c.1 c.2) := fun c _ => findBody_owned _ _ _ _ nx ny c.1 c.2
  have hn : ((nodes ny lo hi).map id).Nodup := by simpa using nodup_nodes ny lo hi
  obtain ⟨mf, e, h1, h2⟩ := runAll_wp (nodes ny lo hi) hb hn
    (Q := fun c m' => LocatedAt m m' c.1 c.2 xs ys nx ny (xa c.1 c.2) (ya c.1 c.2)) fun c hc => by
      obtain ⟨c1, c2, c3⟩ := mem_nodes.1 hc
      exact findBody_wp hm.x hm.y hm.incX hm.incY nx2 ny2 nxu nyu (hm.xadv _ c1 _ (by omega)) (hm.yadv _ c1 _ (by omega))
        (hm.room _ c1 _ (by omega))
  refine ⟨mf, e, scheduleIndependent (pairwise_owned _ hb hn) e, fun i hi' j hj hlo => ?_, fun l hl => h2 l fun c hc => ?_⟩
  · obtain ⟨m', hs, ho⟩ := h1 (i, j) (mem_nodes.2 ⟨hi', hlo, hj⟩)
    rw [ho _ rfl, ho _ rfl, ho _ rfl]
    exact hs.loc
  · obtain ⟨c1, c2, c3⟩ := mem_nodes.1 hc
    have n1 := hl c.1 c1 c.2 c3 c2
    rintro ho
    cases l with
    | d a i j => cases ho
    | n a i j =>
      simp only [findOwner, id, Option.some.injEq] at ho
      subst ho
      exact n1 a rfl

/-- **C58** for the CUDA version. -/
theorem C58_locate_cuda {m : Mem (Val K)} {nx ny tile : ℕ} {xs ys : ℕ → K} {xa ya : ℕ → ℕ → K}
    (hm : CudaFind m nx ny xs ys xa ya) (nx2 : 2 ≤ nx) (ny2 : 2 ≤ ny) (nxu : nx < uMod) (nyu : ny < uMod)
    (hxy : nx * ny ≤ uMod) (h0 : 0 < tile) (dx : tile ∣ nx) (dy : tile ∣ ny) :
    ∃ ts mf, launch tile nx ny = .ok ts ∧
      runAll (kernel tile ts (findCuda (xs 0) (xs (nx - 1)) (ys 0) (ys (ny - 1)) nx ny)) m = .ok mf ∧
      Spec.ScheduleIndependent (kernel tile ts (findCuda (xs 0) (xs (nx - 1)) (ys 0) (ys (ny - 1)) nx ny)) m mf ∧
      (∀ i < ny, ∀ j < nx, Spec.Located (fun n => (Slot.val n : Slot ℕ)) xs ys nx ny (xa i j) (ya i j)
        (m (.n .cellx 0 (i * nx + j))) (m (.n .celly 0 (i * nx + j))) (mf (.n .tracker 0 (i * nx + j)))
        (mf (.n .cellx 0 (i * nx + j))) (mf (.n .celly 0 (i * nx + j)))) ∧
      ∀ l, (∀ k < nx * ny, ∀ a, l ≠ .n a 0 k) → mf l = m l := by
  obtain ⟨ts, el, hone⟩ := C46_exactly_once_partial h0 nxu nyu dx dy
  obtain ⟨hin, hnd⟩ := C46_at_most_once el nxu nyu hxy
  have hb : ∀ c ∈ ts, Owned findOwner (0, indexW nx (indexX tile c) (indexY tile c))
      (findCuda (xs 0) (xs (nx - 1)) (ys 0) (ys (ny - 1)) nx ny (indexX tile c) (indexY tile c)) :=
    fun c _ => findCuda_owned _ _ _ _ nx ny _ _
  have hn : (ts.map fun c => ((0 : ℕ), indexW nx (indexX tile c) (indexY tile c))).Nodup := by
    rw [show (fun c => ((0 : ℕ), indexW nx (indexX tile c) (indexY tile c))) =
      Prod.mk 0 ∘ fun c => indexW nx (indexX tile c) (indexY tile c) from rfl, ← List.map_map]
    exact hnd.map fun a b h => (Prod.mk.inj h).2
  obtain ⟨mf, e, h1, h2⟩ := runAll_wp ts hb hn
    (Q := fun c m' => LocatedAt m m' 0 (indexW nx (indexX tile c) (indexY tile c)) xs ys nx ny
      (xa (indexY tile c) (indexX tile c)) (ya (indexY tile c) (indexX tile c))) fun c hc => by
      obtain ⟨c1, c2, c3, c4⟩ := hin c hc
      refine findCuda_wp hm.x hm.y hm.incX hm.incY nx2 ny2 nxu nyu ?_ ?_ ?_ <;> rw [c3]
      · exact hm.xadv _ c2 _ c1
      · exact hm.yadv _ c2 _ c1
      · exact hm.room _ c4
  refine ⟨ts, mf, el, e, scheduleIndependent (pairwise_owned _ hb hn) e, fun i hi j hj => ?_, fun l hl => h2 l fun c hc => ?_⟩
  · have := hone j hj i hi
    obtain ⟨c, hc⟩ := List.length_pos_iff_exists_mem.1 (by omega : 0 < (ts.filter
      fun c => indexX tile c = j ∧ indexY tile c = i).length)
    rw [List.mem_filter, decide_eq_true_iff] at hc
    obtain ⟨hc, eX, eY⟩ := hc
    obtain ⟨m', hs, ho⟩ := h1 c hc
    obtain ⟨c1, c2, c3, c4⟩ := hin c hc
    simp only [eX, eY] at hs ho c3
    rw [← c3, ho _ rfl, ho _ rfl, ho _ rfl]
    exact hs.loc
  · obtain ⟨c1, c2, c3, c4⟩ := hin c hc
    have n1 := hl _ c4
    rw [c3]
    rintro ho
    cases l with
    | d a i j => cases ho
    | n a i j =>
      simp only [findOwner, Option.some.injEq, Prod.mk.injEq] at ho
      obtain ⟨rfl, rfl⟩ := ho
      exact n1 a rfl

/-- 4 x 3 nodes; departure points inside, outside in `y`, outside in `x` and outside in both. -/
def demoFind : Mem (Val ℚ)
  | .d .x 0 j => if j < 4 then .val j else .oob
  | .d .y 0 i => if i < 3 then .val i else .oob
  | .d .xadv i j => if i < 3 ∧ j < 4 then .val (2 * j - 1 / 2) else .oob
  | .d .yadv i j => if i < 3 ∧ j < 4 then .val (2 * i - 1 / 3) else .oob
  | .n _ i j => if i < 3 ∧ j < 4 then .val 0 else .oob
  | _ => .oob

theorem demoFind_arrays : CpuFind demoFind 4 3 (fun j => (j : ℚ)) (fun i => (i : ℚ)) (fun _ j => 2 * j - 1 / 2)
    (fun i _ => 2 * i - 1 / 3) where
  x j hj := by simp [demoFind, hj]
  y i hi := by simp [demoFind, hi]
  incX i j h _ := by exact_mod_cast h
  incY i j h _ := by exact_mod_cast h
  xadv i hi j hj := by simp [demoFind, hi, hj]
  yadv i hi j hj := by simp [demoFind, hi, hj]
  room i hi j hj a := by simp [demoFind, hi, hj]

/-- The hypotheses of `C58_locate_cpu` hold for `demoFind`; node (1, 1) is located in cell (1, 1) (departure point
(1.5, 1.67)) and node (0, 2) is outside in both directions. -/
example : ∃ mf, runAll (find ((0 : ℕ) : ℚ) ((3 : ℕ) : ℚ) ((0 : ℕ) : ℚ) ((2 : ℕ) : ℚ) 4 3 0 4) demoFind = .ok mf ∧
    mf (.n .tracker 1 1) = .val (1 : ℕ) ∧ mf (.n .cellx 1 1) = .val (1 : ℕ) ∧ mf (.n .celly 1 1) = .val (1 : ℕ) ∧
    mf (.n .tracker 0 2) = .val (4 : ℕ) ∧ mf (.n .tracker 2 1) = .val (2 : ℕ) ∧ mf (.n .celly 2 1) = .val (1 : ℕ) := by
  obtain ⟨mf, e, -, h, -⟩ := C58_locate_cpu demoFind_arrays (by omega) (by omega) (by decide) (by decide) (lo := 0) (hi := 4)
    le_rfl
  obtain ⟨a, b, ea, eb, h1, h2, h3⟩ := (h 1 (by omega) 1 (by omega) (by omega)).inside (by norm_num) (by norm_num)
  have ha : a = 1 := encloses_unique (demoFind_arrays.incX) ea ⟨by omega, by norm_num, by norm_num⟩
  have hb : b = 1 := encloses_unique (demoFind_arrays.incY) eb ⟨by omega, by norm_num, by norm_num⟩
  subst ha hb
  obtain ⟨c, ec, h4, h5, h6⟩ := (h 2 (by omega) 1 (by omega) (by omega)).outY (by norm_num) (by norm_num)
  refine ⟨mf, e, h1, h2, h3, ((h 0 (by omega) 2 (by omega) (by omega)).outXY (by norm_num) (by norm_num)).1, h4, ?_⟩
  rw [h6]
  norm_num

/-- 2 x 4 nodes in flat arrays, location arrays as allocated by `cudaMalloc`. -/
def demoFindCuda : Mem (Val ℚ)
  | .d .x 0 j => if j < 2 then .val j else .oob
  | .d .y 0 i => if i < 4 then .val i else .oob
  | .d .xadv 0 k => if k < 8 then .val (1 / 2) else .oob
  | .d .yadv 0 k => if k < 8 then .val (5 / 2) else .oob
  | .n _ 0 k => if k < 8 then .uninit else .oob
  | _ => .oob

/-- The hypotheses of `C58_locate_cuda` hold for `demoFindCuda`. -/
example : ∃ ts mf, launch 2 2 4 = .ok ts ∧
    runAll (kernel 2 ts (findCuda ((0 : ℕ) : ℚ) ((1 : ℕ) : ℚ) ((0 : ℕ) : ℚ) ((3 : ℕ) : ℚ) 2 4)) demoFindCuda = .ok mf ∧
    mf (.n .celly 0 (3 * 2 + 1)) = .val (2 : ℕ) := by
  obtain ⟨ts, mf, el, e, -, h, -⟩ := C58_locate_cuda (m := demoFindCuda) (nx := 2) (ny := 4) (tile := 2)
    (xs := fun j => (j : ℚ)) (ys := fun i => (i : ℚ)) (xa := fun _ _ => 1 / 2) (ya := fun _ _ => 5 / 2)
    ⟨fun j hj => by simp [demoFindCuda, hj], fun i hi => by simp [demoFindCuda, hi],
      fun i j h _ => by exact_mod_cast h, fun i j h _ => by exact_mod_cast h,
      fun i hi j hj => by simp [demoFindCuda]; omega, fun i hi j hj => by simp [demoFindCuda]; omega,
      fun k hk a => by simp [demoFindCuda, hk]⟩
    (by omega) (by omega) (by decide) (by decide) (by decide) (by omega) (by decide) (by decide)
  obtain ⟨a, b, ea, eb, h1, h2, h3⟩ := (h 3 (by omega) 1 (by omega)).inside (by norm_num) (by norm_num)
  have hb : b = 2 := encloses_unique (n := 4) (fun i j h _ => by exact_mod_cast h) eb ⟨by omega, by norm_num, by norm_num⟩
  subst hb
  exact ⟨ts, mf, el, e, h3⟩

end Gals.Props
