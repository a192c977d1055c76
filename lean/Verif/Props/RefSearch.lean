import Verif.Lemmas.RefRun
import Verif.Spec.Ref
import Mathlib.Tactic.NormNum
import Mathlib.Tactic.IntervalCases
import Mathlib.Tactic.FinCases

/-!
# C42: cell search; C46: launch configuration
-/

set_option linter.unusedSectionVars false

namespace Gals.Props

open Gals Gals.Ref

/-! ## C42 -/

section search
variable {K : Type} [LinearOrder K]

/-- `a` is an array of the `n` nodes `xs` (nothing is said about `a[n]` and beyond). -/
def Nodes (m : Mem (Val K)) (a : DVar) (n : ℕ) (xs : ℕ → K) : Prop := ∀ k < n, m (.d a 0 k) = .val (xs k)

theorem lowerBound_run {m : Mem (Val K)} {a : DVar} {n : ℕ} {xs : ℕ → K} (hm : Nodes m a n xs)
    (hs : ∀ i j, i < j → j < n → xs i < xs j) (p : K) (len first : ℕ) (hn : first + len ≤ n)
    (hl : ∀ k < first, xs k < p) (hr : ∀ k, first + len ≤ k → k < n → p ≤ xs k) :
    ∃ r, (lowerBound a p first len).run m = .ok (r, m) ∧ r ≤ n ∧ (∀ k < r, xs k < p) ∧ ∀ k, r ≤ k → k < n → p ≤ xs k := by
  induction len using Nat.strong_induction_on generalizing first with
  | _ len ih =>
    rw [lowerBound]
    by_cases h0 : len = 0
    · subst h0
      exact ⟨first, rfl, hn, hl, hr⟩
    · rw [if_neg h0, Prog.run_bind, run_getD (hm (first + len / 2) (by omega)), M.ok_bind]
      by_cases hv : xs (first + len / 2) < p
      · rw [if_pos hv]
        refine ih (len - len / 2 - 1) (by omega) _ (by omega) (fun k hk => ?_) fun k hk hkn => hr k (by omega) hkn
        rcases Nat.lt_or_ge k (first + len / 2) with h | h
        · exact (hs k _ h (by omega)).trans hv
        · have : k = first + len / 2 := by omega
          rw [this]; exact hv
      · rw [if_neg hv]
        refine ih (len / 2) (by omega) _ (by omega) hl fun k hk hkn => ?_
        rcases Nat.lt_or_ge (first + len / 2) k with h | h
        · exact (not_lt.1 hv).trans (hs _ k h hkn).le
        · have : k = first + len / 2 := by omega
          rw [this]; exact not_lt.1 hv

theorem locationLoop_run {m : Mem (Val K)} {a : DVar} {n : ℕ} {xs : ℕ → K} (hm : Nodes m a n xs) (p : K) (d loc : ℕ)
    (hd : n - loc = d) (hl : ∀ k < loc, xs k < p) (hex : ∃ k, loc ≤ k ∧ k < n ∧ p ≤ xs k) :
    ∃ r, (locationLoop a p n loc).run m = .ok (r, m) ∧ r < n ∧ (∀ k < r, xs k < p) ∧ p ≤ xs r := by
  induction d using Nat.strong_induction_on generalizing loc with
  | _ d ih =>
    obtain ⟨k, hk, hkn, hkp⟩ := hex
    rw [locationLoop, Prog.run_bind, run_getD (hm loc (by omega)), M.ok_bind]
    by_cases hv : xs loc < p
    · rw [if_pos ⟨hv, by omega⟩]
      have hne : k ≠ loc := by rintro rfl; exact absurd hv (not_lt.2 hkp)
      refine ih (n - (loc + 1)) (by omega) (loc + 1) rfl (fun i hi => ?_) ⟨k, by omega, hkn, hkp⟩
      rcases Nat.lt_or_ge i loc with h | h
      · exact hl i h
      · have : i = loc := by omega
        rw [this]; exact hv
    · rw [if_neg fun h => hv h.1]
      exact ⟨loc, rfl, by omega, hl, not_lt.1 hv⟩

theorem encloses_unique {n : ℕ} {xs : ℕ → K} (hs : ∀ i j, i < j → j < n → xs i < xs j) {p : K} {c c' : ℕ}
    (h : Spec.Encloses xs n p c) (h' : Spec.Encloses xs n p c') : c = c' := by
  obtain ⟨h1, h2, h3⟩ := h
  obtain ⟨h1', h2', h3'⟩ := h'
  by_contra hne
  rcases Nat.lt_or_gt_of_ne hne with hlt | hlt
  · have : xs (c + 1) ≤ xs c' := by
      rcases Nat.lt_or_ge (c + 1) c' with h | h
      · exact (hs _ _ h (by omega)).le
      · have : c + 1 = c' := by omega
        rw [this]
    exact absurd (h2'.trans_le h3) (not_lt.2 this)
  · have : xs (c' + 1) ≤ xs c := by
      rcases Nat.lt_or_ge (c' + 1) c with h | h
      · exact (hs _ _ h (by omega)).le
      · have : c' + 1 = c := by omega
        rw [this]
    exact absurd (h2.trans_le h3') (not_lt.2 this)

/-- **C42.**  On any strictly increasing node array and for any point after the first and not after the last node, the
binary search of the CPU code and the linear search of the GPU code end without leaving the array, change nothing and
return the one cell that encloses the point. -/
theorem C42_search {m : Mem (Val K)} {a : DVar} {n : ℕ} {xs : ℕ → K} (hm : Nodes m a n xs) (hn : n < uMod)
    (hs : ∀ i j, i < j → j < n → xs i < xs j) (h2 : 2 ≤ n) {p : K} (h0 : xs 0 < p) (h1 : p ≤ xs (n - 1)) :
    ∃ c, Spec.Encloses xs n p c ∧ (∀ c', Spec.Encloses xs n p c' → c' = c) ∧
      (cellOf a n p).run m = .ok (c, m) ∧ (locationAlgo a p n).run m = .ok (c, m) := by
  obtain ⟨r, er, hrn, hrl, hrr⟩ := lowerBound_run hm hs p n 0 (by omega) (fun k hk => by omega) (fun k hk hkn => by omega)
  obtain ⟨q, eq, hqn, hql, hqr⟩ := locationLoop_run hm p _ 0 rfl (fun k hk => by omega) ⟨n - 1, by omega, by omega, h1⟩
  have hr0 : r ≠ 0 := by
    rintro rfl
    exact absurd h0 (not_lt.2 (hrr 0 le_rfl (by omega)))
  have hrn' : r < n := by
    by_contra h
    exact absurd (hrl (n - 1) (by omega)) (not_lt.2 h1)
  have hqr' : q = r := by
    rcases Nat.lt_trichotomy q r with h | h | h
    · exact absurd (hrl q h) (not_lt.2 hqr)
    · exact h
    · exact absurd (hql r h) (not_lt.2 (hrr r le_rfl hrn'))
  have hc : Spec.Encloses xs n p (r - 1) := by
    refine ⟨by omega, hrl _ (by omega), ?_⟩
    rw [show r - 1 + 1 = r by omega]
    exact hrr r le_rfl hrn'
  refine ⟨r - 1, hc, fun c' h' => encloses_unique hs h' hc, ?_, ?_⟩
  · simp only [cellOf, Prog.bind_eq, Prog.run_bind, er, M.ok_bind, Prog.pure_eq, Prog.run]
    rw [usub_eq (by omega) (by omega)]
  · simp only [locationAlgo, Prog.bind_eq, Prog.run_bind, eq, M.ok_bind, Prog.pure_eq, Prog.run]
    rw [hqr', if_neg hr0]

/-- Beyond the last node the GPU search reads one element past the array. -/
theorem C42_gpu_overrun {m : Mem (Val K)} {a : DVar} {n : ℕ} {xs : ℕ → K} (hm : Nodes m a n xs) (ho : m (.d a 0 n) = .oob)
    {p : K} (hp : ∀ k < n, xs k < p) : (locationAlgo a p n).run m = .error .oob := by
  have key : ∀ d loc, n - loc = d → loc ≤ n → (locationLoop a p n loc).run m = .error .oob := by
    intro d
    induction d with
    | zero =>
      intro loc hd hl
      have : loc = n := by omega
      subst this
      rw [locationLoop, Prog.run_bind]
      simp only [getD, Prog.get, Prog.run, ho]
      rfl
    | succ d ih =>
      intro loc hd hl
      rw [locationLoop, Prog.run_bind, run_getD (hm loc (by omega)), M.ok_bind, if_pos ⟨hp loc (by omega), by omega⟩]
      exact ih (loc + 1) (by omega) (by omega)
  simp only [locationAlgo, Prog.bind_eq, Prog.run_bind]
  rw [key n 0 (by omega) (by omega)]
  rfl

end search

/-- A memory with the five nodes `0, 1, 4, 9, 16` in `x` and nothing else. -/
def demoNodes : Mem (Val ℚ)
  | .d .x 0 k => if k < 5 then .val ((k : ℚ) ^ 2) else .oob
  | _ => .oob

theorem demoNodes_nodes : Nodes demoNodes .x 5 (fun k => (k : ℚ) ^ 2) := by
  intro k hk
  simp [demoNodes, hk]

theorem demoNodes_incr (i j : ℕ) (h : i < j) (_ : j < 5) : ((i : ℚ)) ^ 2 < (j : ℚ) ^ 2 := by
  have hij : (i : ℚ) < j := by exact_mod_cast h
  have h0 : (0 : ℚ) ≤ i := by positivity
  nlinarith

/-- The hypotheses of `C42_search` hold for the point 5 among the nodes `0, 1, 4, 9, 16`; the cell is 2. -/
example : ∃ c, Spec.Encloses (fun k : ℕ => (k : ℚ) ^ 2) 5 5 c ∧ c = 2 ∧
    (cellOf .x 5 (5 : ℚ)).run demoNodes = .ok (c, demoNodes) ∧
    (locationAlgo .x (5 : ℚ) 5).run demoNodes = .ok (c, demoNodes) := by
  obtain ⟨c, h1, h2, h3, h4⟩ := C42_search (p := (5 : ℚ)) demoNodes_nodes (by decide) demoNodes_incr (by omega)
    (by norm_num) (by norm_num)
  exact ⟨c, h1, (h2 2 ⟨by omega, by norm_num, by norm_num⟩).symm, h3, h4⟩

/-- The hypotheses of `C42_gpu_overrun` hold for the point 17. -/
example : (locationAlgo .x (17 : ℚ) 5).run demoNodes = .error .oob := by
  refine C42_gpu_overrun demoNodes_nodes (by simp [demoNodes]) fun k hk => ?_
  have : (k : ℚ) ≤ 4 := by exact_mod_cast Nat.le_of_lt_succ hk
  have h0 : (0 : ℚ) ≤ k := by positivity
  nlinarith

/-! ## C46 -/

theorem mem_launch {tile nx ny : ℕ} {ts : List (ℕ × ℕ × ℕ × ℕ)} (h : launch tile nx ny = .ok ts) (c : ℕ × ℕ × ℕ × ℕ) :
    0 < tile ∧ (c ∈ ts ↔ c.1 < nx / tile ∧ c.2.1 < ny / tile ∧ c.2.2.1 < tile ∧ c.2.2.2 < tile) := by
  unfold launch at h
  split at h
  · cases h
  · cases h
    obtain ⟨bx, by_, tx, ty⟩ := c
    refine ⟨by omega, ?_⟩
    simp only [List.mem_flatMap, List.mem_range, List.mem_map, Prod.mk.injEq]
    constructor
    · rintro ⟨a, ha, b, hb, c, hc, d, hd, rfl, rfl, rfl, rfl⟩
      exact ⟨hb, ha, hd, hc⟩
    · rintro ⟨h1, h2, h3, h4⟩
      exact ⟨by_, h2, bx, h1, ty, h4, tx, h3, rfl, rfl, rfl, rfl⟩

theorem nodup_launch {tile nx ny : ℕ} {ts : List (ℕ × ℕ × ℕ × ℕ)} (h : launch tile nx ny = .ok ts) : ts.Nodup := by
  unfold launch at h
  split at h
  · cases h
  · cases h
    refine List.nodup_flatMap.2 ⟨fun a _ => List.nodup_flatMap.2 ⟨fun b _ => List.nodup_flatMap.2 ⟨fun c _ => ?_, ?_⟩, ?_⟩, ?_⟩
    · exact List.Nodup.map (fun d d' e => by simpa using e) List.nodup_range
    all_goals
      refine List.nodup_range.pairwise_of_forall_ne fun i _ i' _ hne => ?_
      intro d hd hd'
      simp only [List.mem_flatMap, List.mem_range, List.mem_map] at hd hd'
      apply hne
      simp_all only
      grind

/-- Block and thread index within an axis. -/
theorem index_bound {tile n b t : ℕ} (hb : b < n / tile) (ht : t < tile) : b * tile + t < n := by
  have h1 : (b + 1) * tile ≤ n / tile * tile := Nat.mul_le_mul_right _ hb
  have h2 : n / tile * tile ≤ n := Nat.div_mul_le_self _ _
  have h3 : (b + 1) * tile = b * tile + tile := by ring
  omega

theorem index_eq {tile n b t : ℕ} (hb : b < n / tile) (ht : t < tile) (hn : n < uMod) :
    uadd (umul b tile) t = b * tile + t := by
  have h := index_bound hb ht
  rw [umul_eq (by omega), uadd_eq (by omega)]

/-- The thread that has given indices. -/
theorem index_thread {tile nx ny : ℕ} {ts : List (ℕ × ℕ × ℕ × ℕ)} (h : launch tile nx ny = .ok ts)
    (hx : nx < uMod) (hy : ny < uMod) {c : ℕ × ℕ × ℕ × ℕ} (hc : c ∈ ts) {ix iy : ℕ} :
    (indexX tile c = ix ∧ indexY tile c = iy) ↔ c = (ix / tile, iy / tile, ix % tile, iy % tile) := by
  obtain ⟨ht, hmem⟩ := mem_launch h c
  obtain ⟨h1, h2, h3, h4⟩ := hmem.1 hc
  obtain ⟨bx, by_, tx, ty⟩ := c
  simp only at h1 h2 h3 h4
  simp only [indexX, indexY, index_eq h1 h3 hx, index_eq h2 h4 hy, Prod.mk.injEq]
  have e : ∀ b t i : ℕ, t < tile → (b * tile + t = i ↔ b = i / tile ∧ t = i % tile) := by
    intro b t i hti
    constructor
    · rintro rfl
      constructor
      · rw [Nat.add_comm, Nat.add_mul_div_right _ _ ht, Nat.div_eq_of_lt hti, Nat.zero_add]
      · rw [Nat.add_comm, Nat.add_mul_mod_self_right, Nat.mod_eq_of_lt hti]
    · rintro ⟨rfl, rfl⟩
      rw [Nat.mul_comm]
      exact Nat.div_add_mod i tile
  rw [e _ _ _ h3, e _ _ _ h4]
  tauto

/-- **C46** (part): for every tile and grid, no thread is outside the grid, its flat index is the node's, and no node is
processed twice. -/
theorem C46_at_most_once {tile nx ny : ℕ} {ts : List (ℕ × ℕ × ℕ × ℕ)} (h : launch tile nx ny = .ok ts)
    (hx : nx < uMod) (hy : ny < uMod) (hxy : nx * ny ≤ uMod) :
    (∀ c ∈ ts, indexX tile c < nx ∧ indexY tile c < ny ∧
      indexW nx (indexX tile c) (indexY tile c) = indexY tile c * nx + indexX tile c ∧
      indexY tile c * nx + indexX tile c < nx * ny) ∧
    (ts.map fun c => indexW nx (indexX tile c) (indexY tile c)).Nodup := by
  have key : ∀ c ∈ ts, indexX tile c < nx ∧ indexY tile c < ny ∧
      indexW nx (indexX tile c) (indexY tile c) = indexY tile c * nx + indexX tile c ∧
      indexY tile c * nx + indexX tile c < nx * ny := by
    intro c hc
    obtain ⟨h1, h2, h3, h4⟩ := (mem_launch h c).2.1 hc
    have hX : indexX tile c < nx := by rw [indexX, index_eq h1 h3 hx]; exact index_bound h1 h3
    have hY : indexY tile c < ny := by rw [indexY, index_eq h2 h4 hy]; exact index_bound h2 h4
    have hlt : indexY tile c * nx + indexX tile c < nx * ny := by
      have : (indexY tile c + 1) * nx ≤ ny * nx := Nat.mul_le_mul_right _ hY
      have e : (indexY tile c + 1) * nx = indexY tile c * nx + nx := by ring
      rw [Nat.mul_comm nx ny]
      omega
    exact ⟨hX, hY, by rw [indexW, umul_eq (by omega), uadd_eq (by omega)], hlt⟩
  refine ⟨key, ?_⟩
  refine List.Nodup.map_on (fun c hc c' hc' e => ?_) (nodup_launch h)
  obtain ⟨a1, a2, a3, -⟩ := key c hc
  obtain ⟨b1, b2, b3, -⟩ := key c' hc'
  rw [a3, b3] at e
  have hX : indexX tile c = indexX tile c' := by
    have := congrArg (· % nx) e
    simpa [Nat.add_comm, Nat.add_mul_mod_self_right, Nat.mod_eq_of_lt a1, Nat.mod_eq_of_lt b1] using this
  have hY : indexY tile c = indexY tile c' := by
    rw [hX] at e
    exact Nat.eq_of_mul_eq_mul_right (by omega) (Nat.add_right_cancel e)
  rw [(index_thread h hx hy hc).1 ⟨rfl, rfl⟩, (index_thread h hx hy hc').1 ⟨rfl, rfl⟩, hX, hY]

/-- **C46.**  On a grid whose sides the tile divides, for each node exactly one thread has its indices. -/
theorem C46_exactly_once_partial {tile nx ny : ℕ} (ht : 0 < tile) (hx : nx < uMod) (hy : ny < uMod) (dx : tile ∣ nx)
    (dy : tile ∣ ny) : ∃ ts, launch tile nx ny = .ok ts ∧
      ∀ ix < nx, ∀ iy < ny, (ts.filter fun c => indexX tile c = ix ∧ indexY tile c = iy).length = 1 := by
  obtain ⟨ts, e⟩ : ∃ ts, launch tile nx ny = .ok ts := by
    unfold launch
    rw [if_neg (by omega)]
    exact ⟨_, rfl⟩
  refine ⟨ts, e, fun ix hix iy hiy => ?_⟩
  have hf : ts.filter (fun c => indexX tile c = ix ∧ indexY tile c = iy) =
      ts.filter (fun c => c = (ix / tile, iy / tile, ix % tile, iy % tile)) := by
    refine List.filter_congr fun c hc => ?_
    simp only [index_thread e hx hy hc]
  have hin : (ix / tile, iy / tile, ix % tile, iy % tile) ∈ ts := by
    refine (mem_launch e _).2.2 ⟨?_, ?_, Nat.mod_lt _ ht, Nat.mod_lt _ ht⟩
    · obtain ⟨k, rfl⟩ := dx
      rw [Nat.mul_div_cancel_left _ ht]
      exact Nat.div_lt_of_lt_mul hix
    · obtain ⟨k, rfl⟩ := dy
      rw [Nat.mul_div_cancel_left _ ht]
      exact Nat.div_lt_of_lt_mul hiy
  rw [hf]
  have := List.count_eq_one_of_mem (nodup_launch e) hin
  rw [List.count_eq_length_filter] at this
  rw [← this]
  congr 1
  exact List.filter_congr fun c _ => by rw [Bool.eq_iff_iff]; simp

/-- **C46** is false for every other grid: if the tile does not divide both sides, a node is processed by no thread. -/
theorem C46_false {tile nx ny : ℕ} (ht : 0 < tile) (hx : nx < uMod) (hy : ny < uMod) (h0 : 0 < nx) (h1 : 0 < ny)
    (h : ¬ (tile ∣ nx ∧ tile ∣ ny)) : ∃ ts, launch tile nx ny = .ok ts ∧
      ∃ ix < nx, ∃ iy < ny, ∀ c ∈ ts, ¬ (indexX tile c = ix ∧ indexY tile c = iy) := by
  obtain ⟨ts, e⟩ : ∃ ts, launch tile nx ny = .ok ts := by
    unfold launch
    rw [if_neg (by omega)]
    exact ⟨_, rfl⟩
  have last : ∀ n, 0 < n → ¬ tile ∣ n → n / tile ≤ (n - 1) / tile := by
    intro n hn hd
    refine (Nat.le_div_iff_mul_le ht).2 ?_
    have h1 : n / tile * tile ≤ n := Nat.div_mul_le_self _ _
    have h2 : n / tile * tile ≠ n := fun hh => hd ⟨n / tile, by rw [Nat.mul_comm]; exact hh.symm⟩
    omega
  refine ⟨ts, e, nx - 1, by omega, ny - 1, by omega, fun c hc hh => ?_⟩
  obtain ⟨b1, b2, -, -⟩ := (mem_launch e c).2.1 hc
  have hh := (index_thread e hx hy hc).1 hh
  rw [hh] at b1 b2
  simp only at b1 b2
  by_cases hdx : tile ∣ nx
  · have hdy : ¬ tile ∣ ny := fun hd => h ⟨hdx, hd⟩
    exact absurd b2 (not_lt.2 (last ny h1 hdy))
  · exact absurd b1 (not_lt.2 (last nx h0 hdx))

/-- The configuration in the source (tile 16, 128 x 128 nodes): the hypotheses of `C46_at_most_once` and
`C46_exactly_once_partial` hold. -/
example : ∃ ts, launch 16 128 128 = .ok ts ∧ (ts.map fun c => indexW 128 (indexX 16 c) (indexY 16 c)).Nodup ∧
    (ts.filter fun c => indexX 16 c = 127 ∧ indexY 16 c = 3).length = 1 := by
  obtain ⟨ts, e, h⟩ := C46_exactly_once_partial (tile := 16) (nx := 128) (ny := 128) (by omega) (by decide) (by decide)
    (by decide) (by decide)
  exact ⟨ts, e, (C46_at_most_once e (by decide) (by decide) (by decide)).2, h 127 (by omega) 3 (by omega)⟩

/-- Tile 16 with 129 x 129 nodes (128 x 128 cells) is a grid as in `C46_false`. -/
example : ∃ ts, launch 16 129 129 = .ok ts ∧
    ∃ ix < 129, ∃ iy < 129, ∀ c ∈ ts, ¬ (indexX 16 c = ix ∧ indexY 16 c = iy) :=
  C46_false (by omega) (by decide) (by decide) (by omega) (by omega) (by decide)

end Gals.Props
