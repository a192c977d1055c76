import Verif.Props.RefMpi

/-!
# C52: what rank 0 of the MPI version of the reference code receives
-/

set_option linter.unusedSectionVars false
set_option linter.unusedSimpArgs false

namespace Gals.Props

open Gals Gals.Ref

variable {K : Type} [Field K] [LinearOrder K] [IsStrictOrderedRing K] [FloorRing K]

/-- Settings of a two-rank run whose sizes fit the types. -/
structure Halved (c : Setting K) : Prop extends Valid c where
  even : c.nx = 2 * half c
  count : c.ny * half c < 2 ^ 31

/-! ## Buffers -/

/-- Node of a word of a buffer: the buffer is the transposed second half. -/
def keyOf (c : Setting K) (k : ℕ) : ℕ × ℕ := (k / 2 % c.ny, half c + k / 2 / c.ny)

/-- A send buffer in which the nodes `ns` are filled with the values `f`. -/
structure FilledWith (c : Setting K) (f : ℕ → ℕ → K) (ns : List (ℕ × ℕ)) (b : Block K) : Prop where
  rows : b.rows = half c
  cols : b.cols = c.ny
  word : ∀ k, b.word k = if k < 2 * (c.ny * half c) then
    (if keyOf c k ∈ ns then .val (f (keyOf c k).1 (keyOf c k).2) else .uninit) else .oob

section fill
variable {c : Setting K} (hc : Halved c)
include hc

theorem half_pos : 1 < half c := by have := hc.nx3; have := hc.even; omega

theorem umul_half {r : ℕ} (hr : r ≤ half c) : umul c.ny r = c.ny * r := by
  have := hc.count
  have : c.ny * r ≤ c.ny * half c := Nat.mul_le_mul_left _ hr
  exact umul_eq (by have : (2 : ℕ) ^ 31 < uMod := by decide
                    omega)

theorem key_iff {i j k : ℕ} (hi : i < c.ny) (hj : half c ≤ j) :
    keyOf c k = (i, j) ↔ k = 2 * (c.ny * (j - half c) + i) ∨ k = 2 * (c.ny * (j - half c) + i) + 1 := by
  have hy : 0 < c.ny := by have := hc.ny3; omega
  have key : keyOf c k = (i, j) ↔ k / 2 = c.ny * (j - half c) + i := by
    rw [keyOf, Prod.mk.injEq]
    constructor
    · rintro ⟨h1, h2⟩
      have := Nat.div_add_mod (k / 2) c.ny
      rw [h1, show k / 2 / c.ny = j - half c by omega] at this
      omega
    · intro h
      rw [h, Nat.mul_add_mod, Nat.mod_eq_of_lt hi, Nat.mul_add_div hy, Nat.div_eq_of_lt hi]
      exact ⟨rfl, by omega⟩
  rw [key]
  omega

theorem key_room {i j : ℕ} (hi : i < c.ny) (hj : half c ≤ j) (hj' : j < c.nx) :
    2 * (c.ny * (j - half c) + i) + 1 < 2 * (c.ny * half c) := by
  have := hc.even
  have : c.ny * (j - half c + 1) ≤ c.ny * half c := Nat.mul_le_mul_left _ (by omega)
  rw [Nat.mul_add] at this
  omega

theorem alloc_filled (f : ℕ → ℕ → K) : FilledWith c f [] (.alloc (half c) c.ny) :=
  ⟨rfl, rfl, fun k => by
    have : umul (half c) c.ny = c.ny * half c := by rw [umul, Nat.mul_comm]; exact umul_half hc le_rfl
    simp [Block.alloc, this]⟩

theorem store_filled {f : ℕ → ℕ → K} {ns : List (ℕ × ℕ)} {b : Block K} (h : FilledWith c f ns b) {i j : ℕ} (hi : i < c.ny)
    (hj : half c ≤ j) (hj' : j < c.nx) :
    ∃ b', b.store (usub j (half c)) i (f i j) = .ok b' ∧ FilledWith c f ((i, j) :: ns) b' := by
  have he := hc.even
  have hxu := hc.nxu
  have e1 : usub j (half c) = j - half c := usub_eq hj (by omega)
  have e2 : b.at (j - half c) i = 2 * (c.ny * (j - half c) + i) := by
    rw [Block.at, h.cols, umul_half hc (by omega)]
  have hr := key_room hc hi hj hj'
  have hk := fun k => key_iff hc (k := k) hi hj
  rw [e1, Block.store, h.rows, if_pos (by omega), e2]
  have n1 : b.word (2 * (c.ny * (j - half c) + i)) ≠ .oob := by
    rw [h.word, if_pos (by omega)]; split <;> simp
  have n2 : b.word (2 * (c.ny * (j - half c) + i) + 1) ≠ .oob := by
    rw [h.word, if_pos (by omega)]; split <;> simp
  split
  · exact absurd ‹b.word (2 * (c.ny * (j - half c) + i)) = .oob› n1
  · exact absurd ‹b.word (2 * (c.ny * (j - half c) + i) + 1) = .oob› n2
  · refine ⟨_, rfl, rfl, h.cols, fun k => ?_⟩
    show (if _ then _ else _) = _
    rw [h.word k]
    by_cases hkk : k = 2 * (c.ny * (j - half c) + i) ∨ k = 2 * (c.ny * (j - half c) + i) + 1
    · have := (hk k).2 hkk
      rw [if_pos hkk, if_pos (by omega), this, if_pos List.mem_cons_self]
    · have hne : keyOf c k ≠ (i, j) := fun e => hkk ((hk k).1 e)
      rw [if_neg hkk]
      simp only [List.mem_cons, hne, false_or]

theorem fill_filled {f : ℕ → ℕ → K} {g : ℕ → ℕ → M K} (hg : ∀ i < c.ny, ∀ j < c.nx, half c ≤ j → g i j = .ok (f i j)) :
    ∃ b, fill c g (.alloc (half c) c.ny) = .ok b ∧ b.rows = half c ∧ b.cols = c.ny ∧
      ∀ k, b.word k = if k < 2 * (c.ny * half c) then .val (f (keyOf c k).1 (keyOf c k).2) else .oob := by
  have key : ∀ (cs ns : List (ℕ × ℕ)) (b : Block K), (∀ k ∈ cs, k.1 < c.ny ∧ half c ≤ k.2 ∧ k.2 < c.nx) → FilledWith c f ns b →
      ∃ b', cs.foldlM (fun b k => do b.store (usub k.2 (half c)) k.1 (← g k.1 k.2)) b = .ok b' ∧
        FilledWith c f (cs.reverse ++ ns) b' := by
    intro cs
    induction cs with
    | nil => exact fun ns b _ h => ⟨b, rfl, h⟩
    | cons k cs ih =>
      intro ns b hcs h
      obtain ⟨h1, h2, h3⟩ := hcs k List.mem_cons_self
      obtain ⟨b', e', h'⟩ := store_filled hc h h1 h2 h3
      obtain ⟨b'', e'', h''⟩ := ih _ b' (fun k hk => hcs k (List.mem_cons_of_mem _ hk)) h'
      refine ⟨b'', ?_, by simpa using h''⟩
      rw [List.foldlM_cons, hg _ h1 _ h3 h2, M.ok_bind, e', M.ok_bind, e'']
  obtain ⟨b, e, h⟩ := key (nodes c.ny (half c) c.nx) [] _ (fun k hk => mem_nodes.1 hk) (alloc_filled hc f)
  refine ⟨b, e, h.rows, h.cols, fun k => ?_⟩
  have hy : 0 < c.ny := by have := hc.ny3; omega
  have he := hc.even
  rw [h.word]
  by_cases hk : k < 2 * (c.ny * half c)
  · have hm : keyOf c k ∈ nodes c.ny (half c) c.nx := by
      have : k / 2 / c.ny < half c := by
        rw [Nat.div_lt_iff_lt_mul hy, Nat.mul_comm]; omega
      exact mem_nodes.2 ⟨Nat.mod_lt _ hy, by simp [keyOf], by simp only [keyOf]; omega⟩
    rw [if_pos hk, if_pos hk, if_pos (by simpa using hm)]
  · rw [if_neg hk, if_neg hk]

/-- What arrives: with `w` words per element the first `w ny nx/2` words, the rest is uninitialised. -/
theorem arrives {w : ℕ} (hw : w ≤ 2) {f : ℕ → ℕ → K} {b : Block K} (h1 : b.rows = half c)
    (h3 : ∀ k, b.word k = if k < 2 * (c.ny * half c) then .val (f (keyOf c k).1 (keyOf c k).2) else .oob) :
    ∃ b', (mpiCount c.ny (half c) >>= fun n => b.message w n) = .ok ((List.range (w * (c.ny * half c))).map b.word) ∧
      incoming c w (.ok ((List.range (w * (c.ny * half c))).map b.word)) = .ok b' ∧
      ∀ i < c.ny, ∀ r < half c, b'.load r i =
        if 2 * (c.ny * r + i) + 1 < w * (c.ny * half c) then .ok (f i (half c + r)) else .error .uninit := by
  have hp := half_pos hc
  have hw2 : w * (c.ny * half c) ≤ 2 * (c.ny * half c) := Nat.mul_le_mul_right _ hw
  have en : mpiCount c.ny (half c) = .ok (c.ny * half c) := by
    rw [mpiCount, umul_half hc le_rfl, if_pos hc.count]
  have em : b.message w (c.ny * half c) = .ok ((List.range (w * (c.ny * half c))).map b.word) := by
    rw [Block.message, h1, if_pos (by omega)]
    refine mapM_ok fun k hk => ?_
    rw [List.mem_range] at hk
    rw [h3, if_pos (by omega)]
  have ha := alloc_filled hc f
  refine ⟨⟨half c, c.ny, fun k => ((List.range (w * (c.ny * half c))).map b.word)[k]?.getD
    ((Block.alloc (half c) c.ny : Block K).word k)⟩, by rw [en, M.ok_bind, em], ?_, ?_⟩
  · rw [incoming, en, M.ok_bind, M.ok_bind, Block.receive, ha.rows, if_pos (by omega), if_neg (by simp), if_pos]
    · rfl
    · rw [List.all_eq_true]
      intro k hk
      rw [List.mem_range, List.length_map, List.length_range] at hk
      rw [ha.word, if_pos (by omega)]
      rfl
  · intro i hi r hr
    have e2 : umul c.ny r = c.ny * r := umul_half hc (by omega)
    have hroom := key_room hc hi (j := half c + r) (by omega) (by have := hc.even; omega)
    rw [Nat.add_sub_cancel_left] at hroom
    have hk := fun k => key_iff hc (k := k) hi (j := half c + r) (by omega)
    rw [Nat.add_sub_cancel_left] at hk
    have word : ∀ k, keyOf c k = (i, half c + r) → k < 2 * (c.ny * half c) →
        ((List.range (w * (c.ny * half c))).map b.word)[k]?.getD ((Block.alloc (half c) c.ny : Block K).word k) =
          if k < w * (c.ny * half c) then .val (f i (half c + r)) else .uninit := by
      intro k e hlt
      by_cases hk' : k < w * (c.ny * half c)
      · rw [List.getElem?_map, List.getElem?_range hk', Option.map_some, Option.getD_some, h3, if_pos hlt, if_pos hk', e]
      · rw [List.getElem?_eq_none (by simpa using hk'), Option.getD_none, ha.word, if_pos hlt, if_neg hk']
        simp
    simp only [Block.load, if_pos hr, Block.at, e2]
    rw [word _ ((hk _).2 (.inl rfl)) (by omega), word _ ((hk _).2 (.inr rfl)) (by omega)]
    by_cases hlt : 2 * (c.ny * r + i) + 1 < w * (c.ny * half c)
    · rw [if_pos (by omega), if_pos hlt, if_pos hlt]
    · rw [if_neg hlt, if_neg hlt]
      by_cases h2 : 2 * (c.ny * r + i) < w * (c.ny * half c)
      · rw [if_pos h2]
      · rw [if_neg h2]

/-- **C52**, partial: of every buffer that rank 1 sends, rank 0 receives the elements of the first half of the buffer; the
rest of its buffer stays uninitialised.  Missing: the second half of every buffer, which is lost (`C52_false`). -/
theorem C52_partial {f : ℕ → ℕ → K} {g : ℕ → ℕ → M K}
    (hg : ∀ i < c.ny, ∀ j < c.nx, half c ≤ j → g i j = .ok (f i j)) :
    ∃ b, incoming c mpiWords (outgoing c mpiWords (fill c g (.alloc (half c) c.ny)) id) = .ok b ∧
      ∀ i < c.ny, ∀ r < half c, b.load r i =
        if 2 * (c.ny * r + i) + 1 < c.ny * half c then .ok (f i (half c + r)) else .error .uninit := by
  obtain ⟨b, e, h1, h2, h3⟩ := fill_filled hc hg
  obtain ⟨b', e1, e2, h'⟩ := arrives hc (w := mpiWords) (by decide) h1 h3
  refine ⟨b', ?_, by simpa [mpiWords] using h'⟩
  rw [outgoing, e, M.ok_bind]
  simp only [id]
  rw [e1, e2]

end fill

/-! ## Loops with failures -/

theorem foldlM_error {α σ : Type} {e : Fault} {step : σ → α → M σ} (P : σ → Prop) {cs : List α}
    (h : ∀ s, P s → ∀ k ∈ cs, (∃ s', step s k = .ok s' ∧ P s') ∨ step s k = .error e)
    (hk : ∃ k ∈ cs, ∀ s, P s → step s k = .error e) {s : σ} (hs : P s) : cs.foldlM step s = .error e := by
  induction cs generalizing s with
  | nil => obtain ⟨k, h, -⟩ := hk; cases h
  | cons a cs ih =>
    rw [List.foldlM_cons]
    rcases h s hs a List.mem_cons_self with ⟨s', e', hs'⟩ | e'
    · rw [e', M.ok_bind]
      obtain ⟨k, hk, hf⟩ := hk
      rcases List.mem_cons.1 hk with rfl | hk
      · have := hf s hs
        rw [e'] at this
        cases this
      · exact ih (fun s hs k hk => h s hs k (List.mem_cons_of_mem _ hk)) ⟨k, hk, hf⟩ hs'
    · rw [e']; rfl

theorem foldlM_exec {α : Type} {cs : List α} {step : Mem (Val K) → α → M (Mem (Val K))} {p : α → P K Unit}
    (h : ∀ k ∈ cs, ∀ m, step m k = exec (p k) m) (m : Mem (Val K)) : cs.foldlM step m = runAll (cs.map p) m := by
  induction cs generalizing m with
  | nil => rfl
  | cons a cs ih =>
    rw [List.foldlM_cons, h a List.mem_cons_self, List.map_cons, runAll, exec]
    cases (p a).run m with
    | error f => rfl
    | ok r => exact ih (fun k hk => h k (List.mem_cons_of_mem _ hk)) r.2

/-! ## Stages of a rank -/

section stages
variable {c : Setting K} (hc : Valid c) (v : Vel K) {t : ℕ} (ht : t + 1 < uMod) {m : Mem (Val K)} {F : Spec.Fields K}

/-- Departure points that a rank with the columns `lo <= j < hi` has. -/
def departsRange (c : Setting K) (v : Vel K) (t lo hi i j : ℕ) : K × K :=
  if lo ≤ j ∧ j < hi then departs c v t i j else (0, 0)

include ht in
theorem rank_adv_par {lo hi : ℕ} (hh : hi ≤ c.nx) (h : Ready m c.nx c.ny (posX c) (posY c) F) :
    ∃ m', exec (.seqAll (advMpi v c.schemes.rk3 t c.dt c.ny lo hi)) (stepArrays c m) = .ok m' ∧
      Spec.ScheduleIndependent (advMpi v c.schemes.rk3 t c.dt c.ny lo hi) (stepArrays c m) m' ∧
      Departed m' c F (departsRange c v t lo hi) := by
  obtain ⟨m', e, hs, h1, h2⟩ := C43_openmp_mpi v c.schemes.rk3 ht c.dt (adv_room h) (lo := lo) (hi := hi) hh
  refine ⟨m', by rw [exec_seqAll, e], hs, ⟨h.arrays.frame fun a i j ha hb => h2 _ fun i hi j hj _ => ⟨by simp [ha], by simp [hb]⟩,
    ?_, ?_, ?_⟩⟩
  · intro i hi' j hj
    by_cases hl : lo ≤ j ∧ j < hi
    · simpa only [departsRange, departs, if_pos hl] using (h1 i hi' j hl.2 hl.1).1
    · simp only [departsRange, if_neg hl]
      rw [h2 _ fun i' hi' j' hj' hl' => ⟨by simp; rintro rfl rfl; exact hl ⟨hl', hj'⟩, by simp⟩]
      simp [stepArrays, allocD, hi', hj]
  · intro i hi' j hj
    by_cases hl : lo ≤ j ∧ j < hi
    · simpa only [departsRange, departs, if_pos hl] using (h1 i hi' j hl.2 hl.1).2
    · simp only [departsRange, if_neg hl]
      rw [h2 _ fun i' hi' j' hj' hl' => ⟨by simp, by simp; rintro rfl rfl; exact hl ⟨hl', hj'⟩⟩]
      simp [stepArrays, allocD, hi', hj]
  · intro i hi j hj
    rw [h2 _ fun i hi j hj _ => ⟨by simp, by simp⟩]
    simp [stepArrays, allocD, allocN, hi, hj]

include ht in
theorem rank_adv {lo hi : ℕ} (hh : hi ≤ c.nx) (h : Ready m c.nx c.ny (posX c) (posY c) F) :
    ∃ m', exec (.seqAll (advMpi v c.schemes.rk3 t c.dt c.ny lo hi)) (stepArrays c m) = .ok m' ∧
      Departed m' c F (departsRange c v t lo hi) := by
  obtain ⟨m', e, -, h⟩ := rank_adv_par v ht hh h
  exact ⟨m', e, h⟩

/-- The cells and classes of the columns `lo <= j < hi`. -/
structure FoundRange (m : Mem (Val K)) (c : Setting K) (dep : ℕ → ℕ → K × K) (lo hi : ℕ) : Prop where
  room : ∀ i < c.ny, ∀ j < c.nx, ∀ a, m (.n a i j) ≠ .oob
  cls : ∀ i < c.ny, ∀ j < hi, lo ≤ j → m (.n .tracker i j) = .val (Spec.classOf (posX c) (posY c) c.nx c.ny (dep i j))
  cellx : ∀ i < c.ny, ∀ j < hi, lo ≤ j → m (.n .cellx i j) = .val (cellX (posX c) (posY c) c.nx c.ny (dep i j)) ∧
    cellX (posX c) (posY c) c.nx c.ny (dep i j) + 1 < c.nx
  celly : ∀ i < c.ny, ∀ j < hi, lo ≤ j → m (.n .celly i j) = .val (cellY (posX c) (posY c) c.nx c.ny (dep i j)) ∧
    cellY (posX c) (posY c) c.nx c.ny (dep i j) + 1 < c.ny

include hc in
theorem rank_find_par {dep : ℕ → ℕ → K × K} {lo hi : ℕ} (hh : hi ≤ c.nx) (h : Departed m c F dep) :
    ∃ m', exec (.seqAll (find c.xlim1 c.xlim2 c.ylim1 c.ylim2 c.nx c.ny lo hi)) (stepCells c m) = .ok m' ∧
      Spec.ScheduleIndependent (find c.xlim1 c.xlim2 c.ylim1 c.ylim2 c.nx c.ny lo hi) (stepCells c m) m' ∧
      Departed m' c F dep ∧ FoundRange m' c dep lo hi := by
  have hx3 := hc.nx3
  have hy3 := hc.ny3
  have hf : CpuFind (stepCells c m) c.nx c.ny (posX c) (posY c) (fun i j => (dep i j).1) (fun i j => (dep i j).2) :=
    { x := h.x, y := h.y, incX := hc.incX, incY := hc.incY, xadv := h.xadv, yadv := h.yadv
      room := fun i hi j hj a => by
        cases a
        · simp [stepCells, allocN, hi, hj]
        · simp [stepCells, allocN, hi, hj]
        · simpa [stepCells, allocN] using h.tracker i hi j hj }
  obtain ⟨m', e, hs, h1, h2⟩ := C58_locate_cpu hf (by omega) (by omega) hc.nxu hc.nyu (lo := lo) (hi := hi) hh
  rw [hc.firstX, hc.lastX, hc.firstY, hc.lastY] at e hs
  have hd : ∀ a i j, m' (.d a i j) = m (.d a i j) := fun a i j => h2 _ fun i hi j hj _ b => by simp
  have hl : ∀ i < c.ny, ∀ j < hi, lo ≤ j → _ := fun i hi' j hj hlo =>
    located_class (by omega) (by omega) hc.incX hc.incY (by
      have := h1 i hi' j hj hlo
      have hj' : j < c.nx := by omega
      simpa [stepCells, allocN, hi', hj'] using this)
  have hroom : ∀ i < c.ny, ∀ j < c.nx, ∀ a, m' (.n a i j) ≠ .oob := by
    intro i hi' j hj a
    by_cases hr : lo ≤ j ∧ j < hi
    · have := hl i hi' j hr.2 hr.1
      cases a
      · rw [this.2.1]; simp
      · rw [this.2.2.1]; simp
      · rw [this.1]; simp
    · rw [h2 _ fun i' hi' j' hj' hl' b => by simp; rintro - rfl rfl; exact hr ⟨hl', hj'⟩]
      exact hf.room i hi' j hj a
  refine ⟨m', by rw [exec_seqAll, e], hs, ⟨h.toReady.frame fun a i j _ _ => hd a i j, ?_, ?_, ?_⟩, hroom, ?_, ?_, ?_⟩
  · exact fun i hi j hj => (hd ..).trans (h.xadv i hi j hj)
  · exact fun i hi j hj => (hd ..).trans (h.yadv i hi j hj)
  · exact fun i hi j hj => hroom i hi j hj _
  · exact fun i hi j hj hlo => (hl i hi j hj hlo).1
  · exact fun i hi j hj hlo => ⟨(hl i hi j hj hlo).2.1, (hl i hi j hj hlo).2.2.2.1⟩
  · exact fun i hi j hj hlo => ⟨(hl i hi j hj hlo).2.2.1, (hl i hi j hj hlo).2.2.2.2⟩

include hc in
theorem rank_find {dep : ℕ → ℕ → K × K} {lo hi : ℕ} (hh : hi ≤ c.nx) (h : Departed m c F dep) :
    ∃ m', exec (.seqAll (find c.xlim1 c.xlim2 c.ylim1 c.ylim2 c.nx c.ny lo hi)) (stepCells c m) = .ok m' ∧
      Departed m' c F dep ∧ FoundRange m' c dep lo hi := by
  obtain ⟨m', e, -, h⟩ := rank_find_par hc hh h
  exact ⟨m', e, h⟩

end stages

/-! ## A step of both ranks -/

section both
variable {c : Setting K} (hc : Halved c) (v : Vel K) {t : ℕ} (ht : t + 1 < uMod) {m : Mem (Val K)} {F : Spec.Fields K}

/-- A received buffer, when rank 1 has the values `f`. -/
def Arrived (c : Setting K) (w : ℕ) (f : ℕ → ℕ → K) (x : Msg K) : Prop :=
  ∃ b, incoming c w x = .ok b ∧ ∀ i < c.ny, ∀ r < half c, b.load r i =
    if 2 * (c.ny * r + i) + 1 < w * (c.ny * half c) then .ok (f i (half c + r)) else .error .uninit

theorem lookN_eq {a : NVar} {i j n : ℕ} (h : m (.n a i j) = .val n) : lookN m a i j = .ok n := by rw [lookN, h]

include hc ht in
/-- A step of rank 1 and what rank 0 receives of it. -/
theorem rank1_step {w : ℕ} (hw : w ≤ 2) (h : Ready m c.nx c.ny (posX c) (posY c) F) :
    ∃ m', next1 c v t (.ok m) = .ok m' ∧ Ready m' c.nx c.ny (posX c) (posY c) F ∧
      let x := fiveOf c v w t (.ok m)
      let d := departs c v t
      Arrived c w (fun i j => (d i j).1) x.a1 ∧ Arrived c w (fun i j => (d i j).2) x.b1 ∧
      Arrived c w (fun i j => (cellX (posX c) (posY c) c.nx c.ny (d i j) : ℕ)) x.a3 ∧
      Arrived c w (fun i j => (cellY (posX c) (posY c) c.nx c.ny (d i j) : ℕ)) x.b3 ∧
      Arrived c w (fun i j => (Spec.classOf (posX c) (posY c) c.nx c.ny (d i j) : ℕ)) x.c3 ∧
      ∀ i < c.ny, ∀ j < c.nx, half c ≤ j → cellX (posX c) (posY c) c.nx c.ny (d i j) + 1 < c.nx ∧
        cellY (posX c) (posY c) c.nx c.ny (d i j) + 1 < c.ny := by
  obtain ⟨m1, e1, h1⟩ := rank_adv v ht (lo := half c) (hi := c.nx) le_rfl h
  obtain ⟨m2, e2, h2, f2⟩ := rank_find hc.toValid (lo := half c) (hi := c.nx) le_rfl h1
  have ed : ∀ i j, j < c.nx → half c ≤ j → departsRange c v t (half c) c.nx i j = departs c v t i j := fun i j h1 h2 => by
    rw [departsRange, if_pos ⟨h2, h1⟩]
  obtain ⟨A, eA, A1, A2, A3⟩ := fill_filled hc (g := look m1 .xadv) (f := fun i j => (departs c v t i j).1)
    fun i hi j hj hl => by rw [← ed i j hj hl]; exact look_eq (h1.xadv i hi j hj)
  obtain ⟨B, eB, B1, B2, B3⟩ := fill_filled hc (g := look m1 .yadv) (f := fun i j => (departs c v t i j).2)
    fun i hi j hj hl => by rw [← ed i j hj hl]; exact look_eq (h1.yadv i hi j hj)
  obtain ⟨C, eC, C1, C2, C3⟩ := fill_filled hc (g := fun i j => do return ((← lookN m2 .cellx i j : ℕ) : K))
    (f := fun i j => (cellX (posX c) (posY c) c.nx c.ny (departs c v t i j) : ℕ))
    fun i hi j hj hl => by rw [← ed i j hj hl, lookN_eq (f2.cellx i hi j hj hl).1]; rfl
  obtain ⟨D, eD, D1, D2, D3⟩ := fill_filled hc (g := fun i j => do return ((← lookN m2 .celly i j : ℕ) : K))
    (f := fun i j => (cellY (posX c) (posY c) c.nx c.ny (departs c v t i j) : ℕ))
    fun i hi j hj hl => by rw [← ed i j hj hl, lookN_eq (f2.celly i hi j hj hl).1]; rfl
  obtain ⟨E, eE, E1, E2, E3⟩ := fill_filled hc (g := fun i j => do return ((← lookN m2 .tracker i j : ℕ) : K))
    (f := fun i j => (Spec.classOf (posX c) (posY c) c.nx c.ny (departs c v t i j) : ℕ))
    fun i hi j hj hl => by rw [← ed i j hj hl, lookN_eq (f2.cls i hi j hj hl)]; rfl
  have s1 : rank1First c v t m = .ok (m1, A, B) := by
    rw [rank1First, e1, M.ok_bind, eA, M.ok_bind, eB, M.ok_bind]; rfl
  have s2 : rank1Second c m1 = .ok (m2, C, D, E) := by
    rw [rank1Second, e2, M.ok_bind, eC, M.ok_bind, eD, M.ok_bind, eE, M.ok_bind]; rfl
  have arr : ∀ {f : ℕ → ℕ → K} {b : Block K}, b.rows = half c →
      (∀ k, b.word k = if k < 2 * (c.ny * half c) then .val (f (keyOf c k).1 (keyOf c k).2) else .oob) →
      Arrived c w f ((mpiCount c.ny (half c) >>= fun n => b.message w n : M (List (Slot K)))) := by
    intro f b b1 b2
    obtain ⟨b', g1, g2, g3⟩ := arrives hc hw b1 b2
    exact ⟨b', by rw [g1, g2], g3⟩
  refine ⟨m2, by simp only [next1, M.ok_bind, s1, s2]; rfl, h2.toReady, ?_⟩
  simp only [fiveOf, outgoing, M.ok_bind, s1, s2]
  exact ⟨arr A1 A3, arr B1 B3, arr C1 C3, arr D1 D3, arr E1 E3, fun i hi j hj hl =>
    ⟨by rw [← ed i j hj hl]; exact (f2.cellx i hi j hj hl).2, by rw [← ed i j hj hl]; exact (f2.celly i hi j hj hl).2⟩⟩

/-! ### Unpacking -/

include hc in
theorem sub_half {j : ℕ} (h1 : half c ≤ j) (h2 : j < c.nx) : usub j (half c) = j - half c ∧ j - half c < half c := by
  have := hc.even
  have := hc.nxu
  exact ⟨usub_eq h1 (by omega), by omega⟩

include hc in
/-- With two words per element everything arrives. -/
theorem arrived_all {f : ℕ → ℕ → K} {x : Msg K} (h : Arrived c 2 f x) : ∃ b, incoming c 2 x = .ok b ∧
    ∀ i < c.ny, ∀ j < c.nx, half c ≤ j → b.load (usub j (half c)) i = .ok (f i j) := by
  obtain ⟨b, e, h⟩ := h
  refine ⟨b, e, fun i hi j hj hl => ?_⟩
  obtain ⟨h1, h2⟩ := sub_half hc hl hj
  rw [h1, h i hi _ h2, if_pos, show half c + (j - half c) = j by omega]
  have := key_room hc hi hl hj
  omega

include hc in
theorem unpackD_eq {a : DVar} {b : Block K} {f : ℕ → ℕ → K}
    (hb : ∀ i < c.ny, ∀ j < c.nx, half c ≤ j → b.load (usub j (half c)) i = .ok (f i j))
    (hm : ∀ i < c.ny, ∀ j < c.nx, m (.d a i j) ≠ .oob) :
    ∃ m', unpackD c a b m = .ok m' ∧ (∀ i < c.ny, ∀ j < c.nx, half c ≤ j → m' (.d a i j) = .val (f i j)) ∧
      ∀ l, (∀ i < c.ny, ∀ j < c.nx, half c ≤ j → l ≠ .d a i j) → m' l = m l := by
  rw [unpackD, foldlM_exec (p := fun k => setD a k.1 k.2 (f k.1 k.2)) fun k hk m => by
    obtain ⟨h1, h2, h3⟩ := mem_nodes.1 hk
    rw [hb _ h1 _ h3 h2, M.ok_bind]]
  obtain ⟨mf, e, h1, h2⟩ := runAll_wp (V := Val K) (own := fun l : Loc => match l with
      | .d b i j => if b = a then some (i, j) else none
      | _ => none) (b := fun k : ℕ × ℕ => setD a k.1 k.2 (f k.1 k.2)) (key := id) (nodes c.ny (half c) c.nx)
    (fun k _ => by simp [Owned, setD, Prog.set, Prog.Fits]) (by simpa using nodup_nodes c.ny (half c) c.nx) (m := m)
    (Q := fun k m' => m' (.d a k.1 k.2) = .val (f k.1 k.2)) (fun k hk => by
      obtain ⟨h1, h2, h3⟩ := mem_nodes.1 hk
      rw [wp_setD]
      exact ⟨hm _ h1 _ h3, Mem.upd_same ..⟩)
  refine ⟨mf, e, fun i hi j hj hl => ?_, fun l hl => h2 l fun k hk => ?_⟩
  · obtain ⟨m', hq, hm⟩ := h1 (i, j) (mem_nodes.2 ⟨hi, hl, hj⟩)
    rw [hm _ (by simp), hq]
  · obtain ⟨g1, g2, g3⟩ := mem_nodes.1 hk
    rcases l with ⟨b, i, j⟩ | ⟨b, i, j⟩
    · by_cases hb : b = a
      · subst hb
        simp only [if_true, id]
        intro he
        cases he
        exact hl _ g1 _ g3 g2 rfl
      · simp [hb]
    · simp

theorem toUnsigned_cast {n : ℕ} (h : n < uMod) : toUnsigned (n : K) = .ok n := by
  have h0 : (0 : K) ≤ n := n.cast_nonneg
  rw [toUnsigned, if_neg (by linarith), if_neg (not_lt.2 h0)]
  simp only [floorI_eq, Int.floor_natCast, Int.toNat_natCast, if_pos h]

include hc in
theorem unpackN_eq {a : NVar} {b : Block K} {f : ℕ → ℕ → ℕ}
    (hb : ∀ i < c.ny, ∀ j < c.nx, half c ≤ j → b.load (usub j (half c)) i = .ok (f i j : K))
    (hf : ∀ i < c.ny, ∀ j < c.nx, half c ≤ j → f i j < uMod)
    (hm : ∀ i < c.ny, ∀ j < c.nx, m (.n a i j) ≠ .oob) :
    ∃ m', unpackN c a b m = .ok m' ∧ (∀ i < c.ny, ∀ j < c.nx, half c ≤ j → m' (.n a i j) = .val (f i j)) ∧
      ∀ l, (∀ i < c.ny, ∀ j < c.nx, half c ≤ j → l ≠ .n a i j) → m' l = m l := by
  rw [unpackN, foldlM_exec (p := fun k => setN a k.1 k.2 (f k.1 k.2)) fun k hk m => by
    obtain ⟨h1, h2, h3⟩ := mem_nodes.1 hk
    rw [hb _ h1 _ h3 h2, M.ok_bind, toUnsigned_cast (hf _ h1 _ h3 h2), M.ok_bind]]
  obtain ⟨mf, e, h1, h2⟩ := runAll_wp (V := Val K) (own := fun l : Loc => match l with
      | .n b i j => if b = a then some (i, j) else none
      | _ => none) (b := fun k : ℕ × ℕ => setN a k.1 k.2 (f k.1 k.2)) (key := id) (nodes c.ny (half c) c.nx)
    (fun k _ => by simp [Owned, setN, Prog.set, Prog.Fits]) (by simpa using nodup_nodes c.ny (half c) c.nx) (m := m)
    (Q := fun k m' => m' (.n a k.1 k.2) = .val (f k.1 k.2)) (fun k hk => by
      obtain ⟨h1, h2, h3⟩ := mem_nodes.1 hk
      rw [wp_setN]
      exact ⟨hm _ h1 _ h3, Mem.upd_same ..⟩)
  refine ⟨mf, e, fun i hi j hj hl => ?_, fun l hl => h2 l fun k hk => ?_⟩
  · obtain ⟨m', hq, hm⟩ := h1 (i, j) (mem_nodes.2 ⟨hi, hl, hj⟩)
    rw [hm _ (by simp), hq]
  · obtain ⟨g1, g2, g3⟩ := mem_nodes.1 hk
    rcases l with ⟨b, i, j⟩ | ⟨b, i, j⟩
    · simp
    · by_cases hb : b = a
      · subst hb
        simp only [if_true, id]
        intro he
        cases he
        exact hl _ g1 _ g3 g2 rfl
      · simp [hb]

/-! ### Rank 0 -/

include hc ht in
/-- With two words per element, rank 0 has all departure points and cells after the exchange. -/
theorem rank0_found {m' : Mem (Val K)} {F' : Spec.Fields K} (h : Ready m c.nx c.ny (posX c) (posY c) F)
    (h' : Ready m' c.nx c.ny (posX c) (posY c) F') :
    ∃ (A B C D E : Block K) (m1 m2 m3 m4 m5 m6 m7 : Mem (Val K)),
      (let x := fiveOf c v 2 t (.ok m')
      incoming c 2 x.a1 = .ok A ∧ incoming c 2 x.b1 = .ok B ∧ incoming c 2 x.a3 = .ok C ∧ incoming c 2 x.b3 = .ok D ∧
        incoming c 2 x.c3 = .ok E) ∧
      exec (.seqAll (advMpi v c.schemes.rk3 t c.dt c.ny 0 (half c))) (stepArrays c m) = .ok m1 ∧
      Spec.ScheduleIndependent (advMpi v c.schemes.rk3 t c.dt c.ny 0 (half c)) (stepArrays c m) m1 ∧
      unpackD c .xadv A m1 = .ok m2 ∧ unpackD c .yadv B m2 = .ok m3 ∧
      exec (.seqAll (find c.xlim1 c.xlim2 c.ylim1 c.ylim2 c.nx c.ny 0 (half c))) (stepCells c m3) = .ok m4 ∧
      Spec.ScheduleIndependent (find c.xlim1 c.xlim2 c.ylim1 c.ylim2 c.nx c.ny 0 (half c)) (stepCells c m3) m4 ∧
      unpackN c .cellx C m4 = .ok m5 ∧ unpackN c .celly D m5 = .ok m6 ∧ unpackN c .tracker E m6 = .ok m7 ∧
      Found m7 c F (departs c v t) := by
  have hv := hc.toValid
  have hx3 := hc.nx3
  have hy3 := hc.ny3
  have hhalf : half c ≤ c.nx := by have := hc.even; omega
  obtain ⟨-, -, -, a1, a2, a3, a4, a5, hcell⟩ := rank1_step hc v ht (w := 2) le_rfl h'
  obtain ⟨A, eA, lA⟩ := arrived_all hc a1
  obtain ⟨B, eB, lB⟩ := arrived_all hc a2
  obtain ⟨C, eC, lC⟩ := arrived_all hc a3
  obtain ⟨D, eD, lD⟩ := arrived_all hc a4
  obtain ⟨E, eE, lE⟩ := arrived_all hc a5
  -- departure points
  obtain ⟨m1, e1, s1, h1⟩ := rank_adv_par v ht (lo := 0) (hi := half c) hhalf h
  obtain ⟨m2, e2, p2, q2⟩ := unpackD_eq hc (a := .xadv) (m := m1) lA fun i hi j hj => by
    rw [h1.xadv i hi j hj]; simp
  obtain ⟨m3, e3, p3, q3⟩ := unpackD_eq hc (a := .yadv) (m := m2) lB fun i hi j hj => by
    rw [q2 _ fun _ _ _ _ _ => by simp, h1.yadv i hi j hj]; simp
  have d3 : Departed m3 c F (departs c v t) := by
    refine ⟨h1.toReady.frame fun a i j ha hb => ?_, fun i hi j hj => ?_, fun i hi j hj => ?_, fun i hi j hj => ?_⟩
    · rw [q3 _ fun _ _ _ _ _ => by simp [hb], q2 _ fun _ _ _ _ _ => by simp [ha]]
    · rw [q3 _ fun _ _ _ _ _ => by simp]
      by_cases hl : half c ≤ j
      · exact p2 i hi j hj hl
      · rw [q2 _ fun _ _ _ _ hl' => by simp; rintro - rfl; exact hl hl', h1.xadv i hi j hj]
        simp only [departsRange, if_pos (show 0 ≤ j ∧ j < half c by omega)]
    · by_cases hl : half c ≤ j
      · exact p3 i hi j hj hl
      · rw [q3 _ fun _ _ _ _ hl' => by simp; rintro - rfl; exact hl hl', q2 _ fun _ _ _ _ _ => by simp, h1.yadv i hi j hj]
        simp only [departsRange, if_pos (show 0 ≤ j ∧ j < half c by omega)]
    · rw [q3 _ fun _ _ _ _ _ => by simp, q2 _ fun _ _ _ _ _ => by simp]
      exact h1.tracker i hi j hj
  -- cells
  obtain ⟨m4, e4, s4, d4, f4⟩ := rank_find_par hv (lo := 0) (hi := half c) hhalf d3
  have hxu := hc.nxu
  have hyu := hc.nyu
  obtain ⟨m5, e5, p5, q5⟩ := unpackN_eq hc (a := .cellx) (m := m4) lC
    (fun i hi j hj hl => by have := (hcell i hi j hj hl).1; omega) fun i hi j hj => f4.room i hi j hj _
  obtain ⟨m6, e6, p6, q6⟩ := unpackN_eq hc (a := .celly) (m := m5) lD
    (fun i hi j hj hl => by have := (hcell i hi j hj hl).2; omega) fun i hi j hj => by
      rw [q5 _ fun _ _ _ _ _ => by simp]; exact f4.room i hi j hj _
  obtain ⟨m7, e7, p7, q7⟩ := unpackN_eq hc (a := .tracker) (m := m6) lE
    (fun i hi j hj hl => by
      have : (4 : ℕ) < uMod := by decide
      rw [Spec.classOf]; split_ifs <;> omega) fun i hi j hj => by
      rw [q6 _ fun _ _ _ _ _ => by simp, q5 _ fun _ _ _ _ _ => by simp]; exact f4.room i hi j hj _
  have hd : ∀ a i j, m7 (.d a i j) = m4 (.d a i j) := fun a i j => by
    rw [q7 _ fun _ _ _ _ _ => by simp, q6 _ fun _ _ _ _ _ => by simp, q5 _ fun _ _ _ _ _ => by simp]
  have v7 : ∀ i < c.ny, ∀ j < c.nx,
      m7 (.n .tracker i j) = .val (Spec.classOf (posX c) (posY c) c.nx c.ny (departs c v t i j)) ∧
      m7 (.n .cellx i j) = .val (cellX (posX c) (posY c) c.nx c.ny (departs c v t i j)) ∧
      m7 (.n .celly i j) = .val (cellY (posX c) (posY c) c.nx c.ny (departs c v t i j)) ∧
      cellX (posX c) (posY c) c.nx c.ny (departs c v t i j) + 1 < c.nx ∧
      cellY (posX c) (posY c) c.nx c.ny (departs c v t i j) + 1 < c.ny := by
    intro i hi j hj
    by_cases hl : half c ≤ j
    · refine ⟨p7 i hi j hj hl, ?_, ?_, (hcell i hi j hj hl).1, (hcell i hi j hj hl).2⟩
      · rw [q7 _ fun _ _ _ _ _ => by simp, q6 _ fun _ _ _ _ _ => by simp]; exact p5 i hi j hj hl
      · rw [q7 _ fun _ _ _ _ _ => by simp]; exact p6 i hi j hj hl
    · have hn : ∀ a, m7 (.n a i j) = m4 (.n a i j) := fun a => by
        rw [q7 _ fun _ _ _ _ hl' => by simp; rintro - - rfl; exact hl hl',
          q6 _ fun _ _ _ _ hl' => by simp; rintro - - rfl; exact hl hl',
          q5 _ fun _ _ _ _ hl' => by simp; rintro - - rfl; exact hl hl']
      rw [hn, hn, hn]
      have hj' : j < half c := by omega
      exact ⟨f4.cls i hi j hj' (Nat.zero_le _), (f4.cellx i hi j hj' (Nat.zero_le _)).1,
        (f4.celly i hi j hj' (Nat.zero_le _)).1, (f4.cellx i hi j hj' (Nat.zero_le _)).2,
        (f4.celly i hi j hj' (Nat.zero_le _)).2⟩
  have f7 : Found m7 c F (departs c v t) := by
    refine ⟨⟨d4.toReady.frame fun a i j _ _ => hd a i j, fun i hi j hj => ?_, fun i hi j hj => ?_, fun i hi j hj => ?_⟩,
      fun i hi j hj => (v7 i hi j hj).1, fun i hi j hj => ⟨(v7 i hi j hj).2.1, (v7 i hi j hj).2.2.2.1⟩,
      fun i hi j hj => ⟨(v7 i hi j hj).2.2.1, (v7 i hi j hj).2.2.2.2⟩⟩
    · exact (hd ..).trans (d4.xadv i hi j hj)
    · exact (hd ..).trans (d4.yadv i hi j hj)
    · rw [(v7 i hi j hj).1]; simp
  exact ⟨A, B, C, D, E, m1, m2, m3, m4, m5, m6, m7, ⟨eA, eB, eC, eD, eE⟩, e1, s1, e2, e3, e4, s4, e5, e6, e7, f7⟩

include hc ht in
/-- With two words per element, rank 0 computes the step of the OpenMP program. -/
theorem rank0_step {m' : Mem (Val K)} {F' : Spec.Fields K} (h : Ready m c.nx c.ny (posX c) (posY c) F)
    (h' : Ready m' c.nx c.ny (posX c) (posY c) F') :
    ∃ m2, stepWith c v 2 t (fiveOf c v 2 t (.ok m')) m = .ok m2 ∧ Ready m2 c.nx c.ny (posX c) (posY c)
      (advance v c.schemes t c.dt c.dx c.dy (posX c) (posY c) c.nx c.ny (departs c v t) F) := by
  have hv := hc.toValid
  have hx3 := hc.nx3
  have hy3 := hc.ny3
  obtain ⟨A, B, C, D, E, m1, m2, m3, m4, m5, m6, m7, ⟨eA, eB, eC, eD, eE⟩, e1, -, e2, e3, e4, -, e5, e6, e7, f7⟩ :=
    rank0_found hc v ht h h'
  obtain ⟨m8, e8, -, h8⟩ := stage_update hv v ht f7
  obtain ⟨m9, e9, h9⟩ := stage_mixed hv h8 rfl (List.Perm.refl _)
  refine ⟨_, ?_, h9⟩
  rw [stepWith, rank0First, e1, M.ok_bind, rank0Second, eA, M.ok_bind, eB, M.ok_bind, e2, M.ok_bind, e3, M.ok_bind, e4,
    M.ok_bind, rank0Third, eC, M.ok_bind, eD, M.ok_bind, eE, M.ok_bind, e5, M.ok_bind, e6, M.ok_bind, e7, M.ok_bind,
    exec_update v c.schemes t c.dt (by omega) (by omega) f7.x f7.y, hv.spaceX, hv.spaceY, e8, M.ok_bind, exec_seqAll, mixed,
    e9]
  rfl

include hc ht in
/-- With one word per element, unpacking the first buffer reads an uninitialised value. -/
theorem unpack_uninit {m' : Mem (Val K)} {F' : Spec.Fields K} (h : Ready m c.nx c.ny (posX c) (posY c) F)
    (h' : Ready m' c.nx c.ny (posX c) (posY c) F') :
    ∃ A B m1, incoming c 1 (fiveOf c v 1 t (.ok m')).a1 = .ok A ∧ incoming c 1 (fiveOf c v 1 t (.ok m')).b1 = .ok B ∧
      exec (.seqAll (advMpi v c.schemes.rk3 t c.dt c.ny 0 (half c))) (stepArrays c m) = .ok m1 ∧
      unpackD c .xadv A m1 = .error .uninit := by
  have hy3 := hc.ny3
  have hh := half_pos hc
  have he := hc.even
  obtain ⟨-, -, -, ⟨A, eA, lA⟩, ⟨B, eB, -⟩, -⟩ := rank1_step hc v ht (w := 1) (by decide) h'
  obtain ⟨m1, e1, h1⟩ := rank_adv v ht (lo := 0) (hi := half c) (by omega) h
  have key : unpackD c .xadv A m1 = .error .uninit := by
    refine foldlM_error (P := fun m => ∀ i < c.ny, ∀ j < c.nx, m (.d .xadv i j) ≠ .oob) (fun s hs k hk => ?_)
      ⟨(0, c.nx - 1), mem_nodes.2 ⟨by simp; omega, by simp; omega, by simp; omega⟩, fun s hs => ?_⟩ fun i hi j hj => by
        rw [h1.xadv i hi j hj]; simp
    · obtain ⟨k1, k2, k3⟩ := mem_nodes.1 hk
      obtain ⟨g1, g2⟩ := sub_half hc k2 k3
      rw [g1, lA _ k1 _ g2]
      split
      · left
        have hw := (wp_setD .xadv k.1 k.2 (departs c v t k.1 (half c + (k.2 - half c))).1 s
          (fun _ m => ∀ i < c.ny, ∀ j < c.nx, m (.d .xadv i j) ≠ .oob)).2
          ⟨hs _ k1 _ k3, fun i hi j hj e => hs i hi j hj ((Mem.upd_oob_iff _ _ _ _ (hs _ k1 _ k3)).1 e)⟩
        obtain ⟨r, m2, er, hr⟩ := hw
        exact ⟨m2, by rw [M.ok_bind, exec, er]; rfl, hr⟩
      · exact .inr rfl
    · obtain ⟨g1, g2⟩ := sub_half hc (j := c.nx - 1) (by omega) (by omega)
      simp only
      rw [g1, lA 0 (by omega) _ g2, if_neg]
      · rfl
      · rw [show c.nx - 1 - half c = half c - 1 by omega]
        obtain ⟨q, hq⟩ : ∃ q, half c = q + 2 := ⟨half c - 2, by omega⟩
        rw [hq]
        have : 2 * (c.ny * (q + 2 - 1)) = c.ny * (q + 2) + c.ny * q := by
          rw [show q + 2 - 1 = q + 1 by omega]; ring
        omega
  exact ⟨A, B, m1, eA, eB, e1, key⟩

include hc ht in
/-- With one word per element, rank 0 reads an uninitialised value when it unpacks the first buffer. -/
theorem rank0_uninit {m' : Mem (Val K)} {F' : Spec.Fields K} (h : Ready m c.nx c.ny (posX c) (posY c) F)
    (h' : Ready m' c.nx c.ny (posX c) (posY c) F') :
    stepWith c v 1 t (fiveOf c v 1 t (.ok m')) m = .error .uninit := by
  obtain ⟨A, B, m1, eA, eB, e1, key⟩ := unpack_uninit hc v ht h h'
  rw [stepWith, rank0First, e1, M.ok_bind, rank0Second, eA, M.ok_bind, eB, M.ok_bind, key]
  rfl

/-- The states of rank 1 never change its level set. -/
theorem traj1_ready (hc : Halved c) (n : ℕ) (hn : n < uMod) (h : Ready m c.nx c.ny (posX c) (posY c) F) :
    ∃ m', traj1 c v 0 (.ok m) n = .ok m' ∧ Ready m' c.nx c.ny (posX c) (posY c) F := by
  induction n with
  | zero => exact ⟨m, rfl, h⟩
  | succ n ih =>
    obtain ⟨m1, e1, h1⟩ := ih (by omega)
    obtain ⟨m2, e2, h2, -⟩ := rank1_step hc v (t := n) (by omega) (w := 2) le_rfl h1
    exact ⟨m2, by rw [traj1, e1, Nat.zero_add, e2], h2⟩

end both

/-! ## Runs -/

section runs
variable {c : Setting K} (v : Vel K) (f : Initial K)

/-- How a run starts. -/
theorem mpiMain_start (hc : Valid c) {n : ℕ} (hn : stepCount c = .ok n) (w : ℕ) :
    ∃ m o, setup c f = .ok m ∧ Ready m c.nx c.ny (posX c) (posY c) (initialFields f (posX c) (posY c)) ∧
      mpiMain c v f w = .ok (mpiStart c v w (printStep c n) n m o) ∧
      ∀ step : Setting K → Vel K → K → K → ℕ → Mem (Val K) → M (Mem (Val K)),
        mainWith step c v f = timeLoop (step c v c.dx c.dy) c v (printStep c n) n 0 (m, o) := by
  obtain ⟨m, e, h⟩ := setup_ready hc f
  obtain ⟨o, eo, -⟩ := fileprint_eq h.toPrintable (by have := hc.nx3; omega) v 0 Out.none
  refine ⟨m, { o with details := o.details ++ [⟨c.nx, c.ny, c.dx, c.dy, c.xlim1, c.xlim2, c.ylim1, c.ylim2, n, c.dt,
    printStep c n⟩] }, e, h, ?_, fun step => ?_⟩
  · rw [mpiMain, hn, M.ok_bind, e, M.ok_bind, eo, M.ok_bind]; rfl
  · rw [mainWith, hn, M.ok_bind, e, M.ok_bind, eo, M.ok_bind]

variable (hc : Halved c) (hdt : c.dt ≠ 0) {n : ℕ} (hn : Spec.Truncated (c.tfinal / c.dt) n) (hnu : n < uMod)
include hc hdt hn hnu

/-- **C52**, negative: on every grid with an even number of columns, every run of the MPI program with at least one step ends,
and it has read an uninitialised value on rank 0. -/
theorem C52_false (h1 : 1 ≤ n) : ∃ s b, mpiMain c v f mpiWords = .ok s ∧ Works (.error .uninit) b (10 * n) s := by
  obtain ⟨m, o, -, h, e, -⟩ := mpiMain_start v f hc.toValid ((stepCount_ok hdt n).2 ⟨hnu, .inl hn⟩) mpiWords
  refine ⟨_, traj1 c v 0 (.ok m) n, e, ?_⟩
  have := C53_exchange c v mpiWords (printStep c n) hnu m o
  obtain ⟨r, rfl⟩ : ∃ r, n = r + 1 := ⟨n - 1, by omega⟩
  have hs : stepWith c v mpiWords 0 (fiveOf c v mpiWords 0 (traj1 c v 0 (.ok m) 0)) m = .error .uninit :=
    rank0_uninit hc v (t := 0) (by decide) h h
  rw [timeLoop] at this
  simp only [hs, M.error_bind] at this
  exact this

/-- **C52** for the program corrected to send `MPI_DOUBLE`: every run ends, free of undefined behaviour, with the fields
after `n` specified steps on rank 0, and rank 0 writes what the OpenMP program writes. -/
theorem C52_double (hp : 1 ≤ printStep c n ∨ n = 0) : ∃ s m o m1, mpiMain c v f 2 = .ok s ∧ Works (.ok (m, o)) (.ok m1) (10 * n) s ∧
    Ready m c.nx c.ny (posX c) (posY c) (fieldsAt c v f (departs c v) n) ∧
    Written c v (fieldsAt c v f (departs c v)) n (printStep c n) o := by
  have hcount := (stepCount_ok hdt n).2 ⟨hnu, .inl hn⟩
  obtain ⟨m, o, -, h, e, hmain⟩ := mpiMain_start v f hc.toValid hcount 2
  obtain ⟨m1, e1, -⟩ := traj1_ready v hc n hnu h
  have hw := C53_exchange c v 2 (printStep c n) hnu m o
  obtain ⟨m2, o2, e2, h2, w2⟩ := main_run hc.toValid v f (dep := departs c v)
    (step := fun c v _ _ t m' => if t < n then stepWith c v 2 t (fiveOf c v 2 t (traj1 c v 0 (.ok m) t)) m'
      else stepOpenMP c v c.dx c.dy t m') (fun t m' F ht hr => by
      by_cases hlt : t < n
      · obtain ⟨m3, e3, h3⟩ := traj1_ready v hc t (by omega) h
        simp only [if_pos hlt]
        rw [e3]
        exact rank0_step hc v ht hr h3
      · simp only [if_neg hlt]
        exact C60_step hc.toValid v ht hr) hcount hnu hp
  rw [hmain] at e2
  refine ⟨_, m2, o2, m1, e, ?_, h2, w2⟩
  rw [e1] at hw
  have key : ∀ r t s, t + r = n → timeLoop (fun t m' => if t < n then stepWith c v 2 t (fiveOf c v 2 t (traj1 c v 0 (.ok m) t)) m'
      else stepOpenMP c v c.dx c.dy t m') c v (printStep c n) r t s =
      timeLoop (fun t m' => stepWith c v 2 t (fiveOf c v 2 t (traj1 c v 0 (.ok m) t)) m') c v (printStep c n) r t s := by
    intro r
    induction r with
    | zero => exact fun _ _ _ => rfl
    | succ r ih =>
      intro t s ht
      rw [timeLoop, timeLoop]
      simp only [if_pos (show t < n by omega), uadd_eq (show t + 1 < uMod by omega)]
      simp only [ih (t + 1) _ (show t + 1 + r = n by omega)]
  rw [key n 0 _ (by omega)] at e2
  rwa [e2] at hw

end runs

/-! ## Odd number of columns -/

section odd
variable {c : Setting K} (hc : Valid c) (hodd : c.nx = 2 * half c + 1) (hcount : c.ny * half c < 2 ^ 31)
include hc hodd hcount

theorem fill_odd {g : ℕ → ℕ → M K} (hg : ∀ i < c.ny, ∀ j < c.nx, ∃ x, g i j = .ok x) :
    fill c g (.alloc (half c) c.ny) = .error .oob := by
  have hx3 := hc.nx3
  have hy3 := hc.ny3
  have hxu := hc.nxu
  have hum : ∀ r ≤ half c, umul c.ny r = c.ny * r := fun r hr => by
    have : c.ny * r ≤ c.ny * half c := Nat.mul_le_mul_left _ hr
    exact umul_eq (by have : (2 : ℕ) ^ 31 < uMod := by decide
                      omega)
  refine foldlM_error (P := fun b => b.rows = half c ∧ b.cols = c.ny ∧ ∀ k < 2 * (c.ny * half c), b.word k ≠ .oob)
    (fun b hb k hk => ?_) ⟨(0, c.nx - 1), mem_nodes.2 ⟨by simp; omega, by simp; omega, by simp; omega⟩, fun b hb => ?_⟩
    ⟨rfl, rfl, fun k hk => ?_⟩
  · obtain ⟨k1, k2, k3⟩ := mem_nodes.1 hk
    obtain ⟨x, ex⟩ := hg _ k1 _ k3
    obtain ⟨b1, b2, b3⟩ := hb
    have e1 : usub k.2 (half c) = k.2 - half c := usub_eq k2 (by omega)
    rw [ex, M.ok_bind, e1, Block.store, b1]
    by_cases hr : k.2 - half c < half c
    · left
      have room : 2 * (c.ny * (k.2 - half c) + k.1) + 1 < 2 * (c.ny * half c) := by
        have : c.ny * (k.2 - half c + 1) ≤ c.ny * half c := Nat.mul_le_mul_left _ (by omega)
        rw [Nat.mul_add] at this
        omega
      have eat : b.at (k.2 - half c) k.1 = 2 * (c.ny * (k.2 - half c) + k.1) := by rw [Block.at, b2, hum _ (by omega)]
      have n1 := b3 (2 * (c.ny * (k.2 - half c) + k.1)) (by omega)
      have n2 := b3 (2 * (c.ny * (k.2 - half c) + k.1) + 1) (by omega)
      rw [if_pos hr, eat]
      split
      · exact absurd ‹b.word (2 * (c.ny * (k.2 - half c) + k.1)) = .oob› n1
      · exact absurd ‹b.word (2 * (c.ny * (k.2 - half c) + k.1) + 1) = .oob› n2
      · refine ⟨_, rfl, rfl, b2, fun k' hk' => ?_⟩
        show (if _ then _ else _) ≠ _
        split
        · simp
        · exact b3 k' hk'
    · right
      rw [if_neg hr]
  · obtain ⟨b1, b2, b3⟩ := hb
    obtain ⟨x, ex⟩ := hg 0 (by omega) (c.nx - 1) (by omega)
    have e1 : usub (c.nx - 1) (half c) = c.nx - 1 - half c := usub_eq (by omega) (by omega)
    simp only
    rw [ex, M.ok_bind, e1, Block.store, b1, if_neg (by omega)]
  · have : umul (half c) c.ny = c.ny * half c := by rw [umul, Nat.mul_comm]; exact hum _ le_rfl
    simp [Block.alloc, this, hk]

variable (v : Vel K) (f : Initial K) (hdt : c.dt ≠ 0) {n : ℕ} (hn : Spec.Truncated (c.tfinal / c.dt) n) (hnu : n < uMod)
include hdt hn hnu

/-- **C52**, negative: on every grid with an odd number of columns, rank 1 of the MPI program writes outside its send buffer
in the first step, whatever type is sent. -/
theorem C52_odd (h1 : 1 ≤ n) (w : ℕ) : ∃ s, mpiMain c v f w = .ok s ∧ Works (.error .oob) (.error .oob) (10 * n) s := by
  have hx3 := hc.nx3
  obtain ⟨m, o, -, h, e, -⟩ := mpiMain_start v f hc ((stepCount_ok hdt n).2 ⟨hnu, .inl hn⟩) w
  refine ⟨_, e, ?_⟩
  have := C53_exchange c v w (printStep c n) hnu m o
  obtain ⟨m1, e1, d1⟩ := rank_adv v (t := 0) (by decide) (lo := half c) (hi := c.nx) le_rfl h
  obtain ⟨m2, e2, d2⟩ := rank_adv v (t := 0) (by decide) (lo := 0) (hi := half c) (by omega) h
  have hr1 : rank1First c v 0 m = .error .oob := by
    rw [rank1First, e1, M.ok_bind, fill_odd hc hodd hcount (g := look m1 .xadv) fun i hi j hj =>
      ⟨_, look_eq (d1.xadv i hi j hj)⟩]
    rfl
  have ht : ∀ k, traj1 c v 0 (.ok m) (k + 1) = .error .oob := by
    intro k
    induction k with
    | zero => simp only [traj1, next1, M.ok_bind, hr1, M.error_bind, Nat.zero_add]
    | succ k ih => rw [traj1, ih]; rfl
  have hcnt : mpiCount c.ny (half c) = .ok (c.ny * half c) := by
    have : umul c.ny (half c) = c.ny * half c := umul_eq (by
      have : (2 : ℕ) ^ 31 < uMod := by decide
      omega)
    rw [mpiCount, this, if_pos hcount]
  have hs : stepWith c v w 0 (fiveOf c v w 0 (traj1 c v 0 (.ok m) 0)) m = .error .oob := by
    simp only [stepWith, rank0First, e2, M.ok_bind, rank0Second, fiveOf, traj1, hr1, M.error_bind, outgoing, incoming, hcnt]
  obtain ⟨r, rfl⟩ : ∃ r, n = r + 1 := ⟨n - 1, by omega⟩
  rw [timeLoop, ht] at this
  simp only [hs, M.error_bind] at this
  exact this

end odd

/-! ## Examples -/

/-- A grid of 4 x 3 nodes, six steps of size 1/2. -/
def mpiC : Setting ℚ := ⟨0, 3, 4, 0, 2, 3, 1 / 2, 3, 1, 2, ⟨"SuperConsistent", "RK3"⟩⟩

theorem mpiC_halved : Halved mpiC :=
  ⟨⟨by decide, by decide, by decide, by decide, by norm_num [mpiC], by norm_num [mpiC]⟩, by decide, by decide⟩

/-- The hypotheses of `C52_false` and `C52_double` hold for `mpiC`. -/
example : Halved mpiC ∧ mpiC.dt ≠ 0 ∧ Spec.Truncated (mpiC.tfinal / mpiC.dt) 6 ∧ 6 < uMod ∧ 1 ≤ printStep mpiC 6 := by
  refine ⟨mpiC_halved, by norm_num [mpiC], ⟨?_, ?_⟩, by decide, by decide⟩ <;> norm_num [mpiC]

/-- The hypotheses of `C52_odd` hold for `runC` (three columns). -/
example : Valid runC ∧ runC.nx = 2 * half runC + 1 ∧ runC.ny * half runC < 2 ^ 31 ∧ runC.dt ≠ 0 ∧
    Spec.Truncated (runC.tfinal / runC.dt) 6 := by
  refine ⟨⟨by decide, by decide, by decide, by decide, by norm_num [runC], by norm_num [runC]⟩, by decide, by decide,
    by norm_num [runC], ⟨?_, ?_⟩⟩ <;> norm_num [runC]

/-- `C52_partial` on `mpiC` with the numbers of the nodes as values: of the six values of the second half rank 0 gets the
first three. -/
example : ∃ b, incoming mpiC mpiWords (outgoing mpiC mpiWords (fill mpiC (fun i j => .ok ((10 * i + j : ℕ) : ℚ))
    (.alloc (half mpiC) mpiC.ny)) id) = .ok b ∧
    b.load 0 0 = .ok 2 ∧ b.load 0 1 = .ok 12 ∧ b.load 0 2 = .ok 22 ∧ b.load 1 0 = .error .uninit := by
  obtain ⟨b, e, h⟩ := C52_partial mpiC_halved (f := fun i j => ((10 * i + j : ℕ) : ℚ)) fun _ _ _ _ _ => rfl
  refine ⟨b, e, ?_, ?_, ?_, ?_⟩
  · rw [h 0 (by decide) 0 (by decide), if_pos (by decide)]; norm_num [half, mpiC]
  · rw [h 1 (by decide) 0 (by decide), if_pos (by decide)]; norm_num [half, mpiC]
  · rw [h 2 (by decide) 0 (by decide), if_pos (by decide)]; norm_num [half, mpiC]
  · rw [h 0 (by decide) 1 (by decide), if_neg (by decide)]

end Gals.Props
