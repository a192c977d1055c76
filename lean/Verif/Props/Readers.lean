import Verif.Props.RefMain
import Verif.Spec.Readers

/-!
# C75: the reader of the reference output shows every frame
-/

set_option linter.unusedSectionVars false
set_option linter.unusedSimpArgs false

namespace Gals.Props

open Gals Gals.Ref

/-! ## One file -/

section text
variable {K : Type}

theorem textscan_nl (ts : List (Tok K)) (n : ℕ) : textscan (.nl :: ts) (n + 1) = textscan ts (n + 1) := by
  rw [textscan]

theorem textscan_line (l : List K) (rest : List (Tok K)) :
    textscan ((l.map Tok.num).intersperse Tok.comma ++ .nl :: rest) l.length = (l.map some, .nl :: rest) := by
  induction l with
  | nil => rfl
  | cons a l ih =>
    cases l with
    | nil => simp [textscan]
    | cons b l =>
      simp only [List.map_cons, List.intersperse_cons_cons, List.cons_append, List.length_cons] at ih ⊢
      rw [textscan, ih]

theorem textscan_row (f : ℕ → K) (nx : ℕ) (rest : List (Tok K)) :
    textscan (Spec.rowText f nx ++ rest) nx = ((List.range nx).map fun j => some (f j), .nl :: rest) := by
  have h := textscan_line ((List.range nx).map f) rest
  rw [List.length_map, List.length_range, List.map_map, List.map_map] at h
  rw [Spec.rowText, List.append_assoc]
  exact h

theorem readRows_nl {nx : ℕ} (h : 0 < nx) (r : ℕ) (ts : List (Tok K)) :
    readRows nx (r + 1) (.nl :: ts) = readRows nx (r + 1) ts := by
  obtain ⟨n, rfl⟩ : ∃ n, nx = n + 1 := ⟨nx - 1, by omega⟩
  rw [readRows, readRows, textscan_nl]

theorem readRows_rows {nx : ℕ} (h : 0 < nx) (fs : List (ℕ → K)) (hf : fs ≠ []) (rest : List (Tok K)) :
    readRows nx fs.length ((fs.flatMap fun f => Spec.rowText f nx) ++ rest) =
      .ok (fs.map fun f => (List.range nx).map fun j => some (f j), .nl :: rest) := by
  induction fs with
  | nil => exact absurd rfl hf
  | cons f fs ih =>
    rw [List.flatMap_cons, List.append_assoc, List.length_cons, readRows, textscan_row]
    simp only [assignRow, List.length_map, List.length_range, if_true, M.ok_bind]
    cases fs with
    | nil => rfl
    | cons g fs =>
      rw [List.length_cons, readRows_nl h, ← List.length_cons, ih (by simp)]
      rfl

theorem readRows_frame {nx ny : ℕ} (hx : 0 < nx) (hy : 0 < ny) (f : ℕ → ℕ → K) (rest : List (Tok K)) :
    readRows nx ny (Spec.frame nx ny f ++ rest) = .ok (Spec.table nx ny f, .nl :: .nl :: rest) := by
  have h := readRows_rows hx ((List.range ny).map f) (by simp; omega) (.nl :: rest)
  rw [List.length_map, List.length_range, List.map_map, List.flatMap_map] at h
  rw [Spec.frame, List.append_assoc]
  exact h

theorem readFrames_nl {nx ny : ℕ} (hx : 0 < nx) (hy : 0 < ny) (n : ℕ) (ts : List (Tok K)) :
    readFrames nx ny (n + 1) (.nl :: ts) = readFrames nx ny (n + 1) ts := by
  obtain ⟨r, rfl⟩ : ∃ r, ny = r + 1 := ⟨ny - 1, by omega⟩
  rw [readFrames, readFrames, readRows_nl hx]

theorem readFrames_more {nx ny : ℕ} (hx : 0 < nx) (hy : 0 < ny) {S : Type} (sel : S → ℕ → ℕ → K) (ss : List S) (k : ℕ)
    (rest : List (Tok K)) :
    readFrames nx ny (ss.length + k) ((ss.flatMap fun s => Spec.frame nx ny (sel s)) ++ rest) = (do
      let r ← readFrames nx ny k rest
      return (ss.map fun s => Spec.table nx ny (sel s)) ++ r) := by
  induction ss with
  | nil =>
    rw [List.length_nil, Nat.zero_add, List.flatMap_nil, List.nil_append]
    cases readFrames nx ny k rest <;> rfl
  | cons s ss ih =>
    rw [List.flatMap_cons, List.append_assoc, List.length_cons, show ss.length + 1 + k = (ss.length + k) + 1 by omega,
      readFrames, readRows_frame hx hy, M.ok_bind]
    have e : readFrames nx ny (ss.length + k) (.nl :: .nl :: ((ss.flatMap fun s => Spec.frame nx ny (sel s)) ++ rest)) =
        readFrames nx ny (ss.length + k) ((ss.flatMap fun s => Spec.frame nx ny (sel s)) ++ rest) := by
      cases ss.length + k with
      | zero => rfl
      | succ n => rw [readFrames_nl hx hy, readFrames_nl hx hy]
    simp only [e, ih]
    cases readFrames nx ny k rest <;> rfl

/-- The file of `ss` frames, read for as many frames. -/
theorem readFrames_all {nx ny : ℕ} (hx : 0 < nx) (hy : 0 < ny) {S : Type} (sel : S → ℕ → ℕ → K) (ss : List S) :
    readFrames nx ny ss.length (ss.flatMap fun s => Spec.frame nx ny (sel s)) =
      .ok (ss.map fun s => Spec.table nx ny (sel s)) := by
  have h := readFrames_more hx hy sel ss 0 []
  rw [List.append_nil, Nat.add_zero, readFrames, M.ok_bind, List.append_nil] at h
  exact h

/-- The same file, read for more frames. -/
theorem readFrames_short {nx ny : ℕ} (hx : 2 ≤ nx) (hy : 0 < ny) {S : Type} (sel : S → ℕ → ℕ → K) (ss : List S) {n : ℕ}
    (hn : ss.length < n) : readFrames nx ny n (ss.flatMap fun s => Spec.frame nx ny (sel s)) = .error .exn := by
  obtain ⟨k, rfl⟩ : ∃ k, n = ss.length + (k + 1) := ⟨n - ss.length - 1, by omega⟩
  have h := readFrames_more (nx := nx) (by omega) hy sel ss (k + 1) []
  rw [List.append_nil] at h
  obtain ⟨r, rfl⟩ : ∃ r, ny = r + 1 := ⟨ny - 1, by omega⟩
  obtain ⟨m, rfl⟩ : ∃ m, nx = m + 2 := ⟨nx - 2, by omega⟩
  rw [h, readFrames, readRows, textscan]
  simp [assignRow]

end text

/-! ## The script -/

theorem int32Div_eq {n p : ℕ} (hp : 1 ≤ p) : int32Div n p = n / p + if 2 * (n % p) < p then 0 else 1 := by
  rw [int32Div, if_neg (by omega)]
  have h := Nat.div_add_mod n p
  have hm := Nat.mod_lt n (show 0 < p by omega)
  generalize n / p = q at h ⊢
  generalize n % p = s at h hm ⊢
  subst h
  split_ifs with hs
  · refine Nat.div_eq_of_lt_le ?_ ?_ <;> nlinarith
  · refine Nat.div_eq_of_lt_le ?_ ?_ <;> nlinarith

section script
variable {K : Type} [Field K] [LinearOrder K] [IsStrictOrderedRing K]

theorem linspace_eq {a b : K} {n : ℕ} (hn : 2 ≤ n) :
    linspace a b n = (List.range n).map fun (j : ℕ) => a + (b - a) / (n - 1) * j := by
  refine List.map_congr_left fun j hj => ?_
  have h1 : (n : K) - 1 ≠ 0 := by
    have : (2 : K) ≤ n := by exact_mod_cast hn
    exact sub_ne_zero.2 (by linarith [this] : (1 : K) < n).ne'
  split_ifs with h
  · have : (j : K) = n - 1 := by rw [← h]; push_cast; ring
    rw [this, div_mul_cancel₀ _ h1]
    ring
  · ring

variable {c : Setting K} (hc : Valid c) (v : Vel K) {F : ℕ → Spec.Fields K} {n p : ℕ} {o : Out K}
  (hw : Written c v F n p o)

/-- The snapshots of a run of `n` steps with print step `p`. -/
def snapshots (c : Setting K) (v : Vel K) (F : ℕ → Spec.Fields K) (n p : ℕ) : List (Spec.Snapshot K) :=
  (List.range (n / p + 1)).map fun k => Spec.snapshot v.velx v.vely (posX c) (posY c) (F (k * p)) ((k * p : ℕ) * c.dt)

/-- The times of these snapshots. -/
def frameTimes (c : Setting K) (n p : ℕ) : List K := (List.range (n / p + 1)).map fun k => ((k * p : ℕ) : K) * c.dt

include hc hw

/-- **C75**, partial: if the number of steps is a multiple of the print step, or exceeds one by less than half the print step, the
reader shows every frame that was written and nothing else, on the nodes of the grid and with the time of the frame.  Missing: the
other numbers of steps, for which the claim is false (`C75_error`). -/
theorem C75_read_partial (h1 : c.nx ≤ 2147483647) (h2 : c.ny ≤ 2147483647) (h3 : n < 2147483647) (h4 : p ≤ 2147483647)
    (hr : 2 * (n % p) < p ∨ n = 0 ∧ p = 0) :
    ∃ m, readfiles o = .ok m ∧
      Spec.Shows c.nx c.ny (posX c) (posY c) (frameTimes c n p) (snapshots c v F n p) m := by
  have hx := hc.nx3
  have hy := hc.ny3
  have hq : int32Div n p = n / p := by
    rcases hr with hr | ⟨rfl, rfl⟩
    · rw [int32Div_eq (by omega), if_pos hr, Nat.add_zero]
    · rfl
  have hd : n / p + 1 ≤ 2147483647 := by have := Nat.div_le_self n p; omega
  have hl : (snapshots c v F n p).length = n / p + 1 := by simp [snapshots]
  have key : ∀ sel : Spec.Snapshot K → ℕ → ℕ → K, readFrames c.nx c.ny (n / p + 1)
      ((snapshots c v F n p).flatMap fun s => Spec.frame c.nx c.ny (sel s)) =
      .ok ((snapshots c v F n p).map fun s => Spec.table c.nx c.ny (sel s)) := by
    intro sel
    rw [← hl]
    exact readFrames_all (by omega) (by omega) sel _
  have e1 : int32Of c.nx = c.nx := min_eq_left h1
  have e2 : int32Of c.ny = c.ny := min_eq_left h2
  have e3 : int32Of n = n := min_eq_left h3.le
  have e4 : int32Of p = p := min_eq_left h4
  have e5 : int32Succ (n / p) = n / p + 1 := min_eq_left hd
  have k1 : readFrames c.nx c.ny (n / p + 1) o.phi = _ := (congrArg _ hw.phi).trans (key Spec.Snapshot.phi)
  have k2 : readFrames c.nx c.ny (n / p + 1) o.psix = _ := (congrArg _ hw.psix).trans (key Spec.Snapshot.psix)
  have k3 : readFrames c.nx c.ny (n / p + 1) o.psiy = _ := (congrArg _ hw.psiy).trans (key Spec.Snapshot.psiy)
  have k4 : readFrames c.nx c.ny (n / p + 1) o.psixy = _ := (congrArg _ hw.psixy).trans (key Spec.Snapshot.psixy)
  have k5 : readFrames c.nx c.ny (n / p + 1) o.velx = _ := (congrArg _ hw.velx).trans (key Spec.Snapshot.velx)
  have k6 : readFrames c.nx c.ny (n / p + 1) o.vely = _ := (congrArg _ hw.vely).trans (key Spec.Snapshot.vely)
  rw [readfiles, hw.details]
  simp only [e1, e2, e3, e4, hq, e5, k1, k2, k3, k4, k5, k6, M.ok_bind]
  refine ⟨_, rfl, ?_, ?_, ?_, rfl, rfl, rfl, rfl, rfl, rfl⟩
  · exact linspace_eq (by omega)
  · exact linspace_eq (by omega)
  · refine List.map_congr_left fun k _ => ?_
    push_cast
    ring

/-- **C75**, the other numbers of steps: the reader expects a frame more than there is and ends with an error. -/
theorem C75_error (h1 : c.nx ≤ 2147483647) (h2 : c.ny ≤ 2147483647) (h3 : n < 2147483647) (h4 : p ≤ 2147483647)
    (hr : p ≤ 2 * (n % p)) (hp : 1 ≤ p) : readfiles o = .error .exn := by
  have hx := hc.nx3
  have hy := hc.ny3
  have hq : int32Div n p = n / p + 1 := by rw [int32Div_eq hp, if_neg (by omega)]
  have hd : n / p + 1 + 1 ≤ 2147483647 := by
    have h5 : p ≠ 1 := by rintro rfl; simp [Nat.mod_one] at hr
    have := Nat.div_le_div_left (show 2 ≤ p by omega) (by omega) (a := n)
    omega
  have hl : (snapshots c v F n p).length = n / p + 1 := by simp [snapshots]
  have e1 : int32Of c.nx = c.nx := min_eq_left h1
  have e2 : int32Of c.ny = c.ny := min_eq_left h2
  have e3 : int32Of n = n := min_eq_left h3.le
  have e4 : int32Of p = p := min_eq_left h4
  have e5 : int32Succ (n / p + 1) = n / p + 1 + 1 := min_eq_left hd
  have key : readFrames c.nx c.ny (n / p + 1 + 1) o.phi = .error .exn := by
    rw [hw.phi]
    exact readFrames_short (ss := snapshots c v F n p) (by omega) (by omega) Spec.Snapshot.phi (by omega)
  rw [readfiles, hw.details]
  simp only [e1, e2, e3, e4, hq, e5, key]
  rfl

end script

/-! ## Runs -/

section run
variable {K : Type} [Field K] [LinearOrder K] [IsStrictOrderedRing K] [FloorRing K]
variable {c : Setting K} (hc : Valid c) (v : Vel K) (f : Initial K) (hdt : c.dt ≠ 0) {n : ℕ}
  (hn : Spec.Truncated (c.tfinal / c.dt) n) (h1 : c.nx ≤ 2147483647) (h2 : c.ny ≤ 2147483647) (h3 : n < 2147483647)
  (h4 : printStep c n ≤ 2147483647) (hp : 1 ≤ printStep c n ∨ n = 0)
include hc hdt hn h1 h2 h3 h4 hp

/-- C75 for the serial and the OpenMP program: the program runs to the end, and the reader either shows all its frames or, if the
number of steps exceeds a multiple of the print step by half of it or more, ends with an error. -/
theorem C75_run_partial {argc : ℕ} (ha : 2 ≤ argc) :
    ∃ (ms mp : Mem (Val K)) (os op : Out K), mainSerial c v f = .ok (ms, os) ∧ mainOpenMP argc c v f = .ok (mp, op) ∧
      ((2 * (n % printStep c n) < printStep c n ∨ n = 0) →
        (∃ m, readfiles os = .ok m ∧ Spec.Shows c.nx c.ny (posX c) (posY c) (frameTimes c n (printStep c n))
          (snapshots c v (fieldsAt c v f (departsSerial c v)) n (printStep c n)) m) ∧
        ∃ m, readfiles op = .ok m ∧ Spec.Shows c.nx c.ny (posX c) (posY c) (frameTimes c n (printStep c n))
          (snapshots c v (fieldsAt c v f (departs c v)) n (printStep c n)) m) ∧
      (¬ (2 * (n % printStep c n) < printStep c n ∨ n = 0) → readfiles os = .error .exn ∧ readfiles op = .error .exn) := by
  have hnu : n < uMod := by rw [uMod]; omega
  obtain ⟨ms, os, es, -, ws⟩ := C54_serial hc v f hdt hn hnu hp
  obtain ⟨mp, op, ep, -, wp⟩ := C54_openmp hc v f hdt hn hnu hp ha
  refine ⟨ms, mp, os, op, es, ep, fun h => ?_, fun h => ?_⟩
  · have h' : 2 * (n % printStep c n) < printStep c n ∨ n = 0 ∧ printStep c n = 0 := by
      rcases h with h | rfl
      · exact .inl h
      · rcases Nat.eq_zero_or_pos (printStep c 0) with e | e
        · exact .inr ⟨rfl, e⟩
        · left; rw [Nat.zero_mod]; exact e
    exact ⟨C75_read_partial hc v ws h1 h2 h3 h4 h', C75_read_partial hc v wp h1 h2 h3 h4 h'⟩
  · have hp' : 1 ≤ printStep c n := hp.resolve_right fun e => h (.inr e)
    exact ⟨C75_error hc v ws h1 h2 h3 h4 (by omega) hp', C75_error hc v wp h1 h2 h3 h4 (by omega) hp'⟩

end run

/-! ## Examples -/

/-- Six steps with output after every fourth: frames after none and four steps. -/
def readC : Setting ℚ := { runC with printstep := 4 }

theorem readC_valid : Valid readC :=
  ⟨by decide, by decide, by decide, by decide, by norm_num [readC, runC], by norm_num [readC, runC]⟩

theorem readC_count : Spec.Truncated (readC.tfinal / readC.dt) 6 ∧ readC.dt ≠ 0 := by
  refine ⟨⟨?_, ?_⟩, ?_⟩ <;> norm_num [readC, runC]

/-- **C75** is false: six steps with a print step of four give two frames, the reader wants three. -/
theorem C75_false (f : Initial ℚ) : ∃ m o, mainSerial readC runV f = .ok (m, o) ∧ readfiles o = .error .exn := by
  obtain ⟨m, _, o, _, e, -, -, h⟩ := C75_run_partial readC_valid runV f readC_count.2 readC_count.1 (by decide) (by decide)
    (by decide) (by decide) (.inl (by decide)) (argc := 2) le_rfl
  exact ⟨m, o, e, (h (by decide)).1⟩

/-- The hypotheses of `C75_read_partial` hold for six steps with a print step of two, and the reader shows four frames. -/
example (f : Initial ℚ) : ∃ m o M, mainSerial runC runV f = .ok (m, o) ∧ readfiles o = .ok M ∧ M.phi.length = 4 ∧
    M.times = [0, 1, 2, 3] := by
  have hv : Valid runC := ⟨by decide, by decide, by decide, by decide, by norm_num [runC], by norm_num [runC]⟩
  have hn : Spec.Truncated (runC.tfinal / runC.dt) 6 ∧ runC.dt ≠ 0 := by refine ⟨⟨?_, ?_⟩, ?_⟩ <;> norm_num [runC]
  obtain ⟨m, _, o, _, e, -, h, -⟩ := C75_run_partial hv runV f hn.2 hn.1 (by decide) (by decide) (by decide) (by decide)
    (.inl (by decide)) (argc := 2) le_rfl
  obtain ⟨M, eM, hM⟩ := (h (by decide)).1
  refine ⟨m, o, M, e, eM, ?_, ?_⟩
  · rw [hM.phi]; rfl
  · rw [hM.times]; norm_num [frameTimes, runC, printStep, List.range_succ]

/-- A file of two frames of two by two nodes, read for two frames and for three. -/
example : readFrames 2 2 2 (Spec.frame 2 2 (fun i j => (10 * i + j : ℚ)) ++ Spec.frame 2 2 fun i j => (100 + 10 * i + j : ℚ)) =
      .ok [[[some 0, some 1], [some 10, some 11]], [[some 100, some 101], [some 110, some 111]]] ∧
    readFrames 2 2 3 (Spec.frame 2 2 (fun i j => (10 * i + j : ℚ)) ++ Spec.frame 2 2 fun i j => (100 + 10 * i + j : ℚ)) =
      .error .exn := by
  constructor
  · norm_num [readFrames, readRows, textscan, assignRow, Spec.frame, Spec.rowText, List.range_succ]
  · norm_num [readFrames, readRows, textscan, assignRow, Spec.frame, Spec.rowText, List.range_succ]

end Gals.Props
