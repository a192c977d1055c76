import Verif.Lemmas.InflowNear
import Verif.Props.Inflow
import Verif.Props.ConvergeDouble

/-!
# C109: any number of steps of a line in double arithmetic, with the ghost cell at the inflow
-/

set_option linter.unusedSectionVars false
set_option linter.unusedSimpArgs false

namespace Gals.Props

open Gals Gals.Spec Set

/-- C109: C107 in double arithmetic.  On a line of `n` interior nodes with padding 1, in a flow of the same velocity `ω` at all
interior nodes and no velocity gradient, where a step moves the level set to the right by at least `2^-15` and at most `1 - 2^-15`
cells, let the doubles from the ghost node at the inflow to the last interior node be the numbers `V` and `W`, and the bending energy
of the spline through them be at most `X² h`.  Let `v` and `s` be value and slope of the ghost node, and let `M` bound
`|v| + n h |s| + 2 n^(3/2) h² (X + k (7/2) (ω τ / h) |s| / h) + 9 k n² (2^16 K M / 2^52)`.  Then `k` steps with the gradient carried
along return, all doubles are finite, the ghost node is as it was, and with
`Y = X + k ((7/2) (ω τ / h) |s| / h + (9/2) √n (2^16 K M / 2^52) / h²)` the energy is at most `Y² h`, all slopes are within `√(i + 1) h Y`
of `s`, and all values within `2 (i + 1)^(3/2) h² Y` of the line through the ghost node. -/
theorem C109_right (r : Req F64) (lo hi : Fin 3 → ℚ) (K : ℚ) (g gv : Grid F64 1) (dt : F64) (τ ω : ℚ) (vel : LsVelocity F64)
    (R : RunD r lo hi K g gv dt τ ω vel) (h0 : 0 < ω * τ) (n : ℕ) (hn : r.n.get 0 = n) (ls : Levelset F64) (F : Cell → F64)
    (G : Cell → Vec3 F64) (S : Spec.Holds .wrap r g ls F G []) (V W : ℤ → ℚ)
    (hV : ∀ i : ℤ, -1 ≤ i → i < n → HasValue (F (i, 0, 0)) (V i) ∧ HasValue (G (i, 0, 0)).x (W i)) (X : ℝ) (X0 : 0 ≤ X)
    (hX : splineBending (wid r lo hi 0) (fun i => V i) (fun i => W i) (-1) n ≤ X ^ 2 * wid r lo hi 0) (k : ℕ) (M : ℚ) (hM : Moderate M)
    (hXM : |(V (-1) : ℝ)| + n * wid r lo hi 0 * |(W (-1) : ℝ)| + 2 * n * √n * wid r lo hi 0 ^ 2 *
      (X + k * (7 / 2 * (ω * τ / wid r lo hi 0) * |(W (-1) : ℝ)| / wid r lo hi 0)) + 9 * k * n ^ 2 * (2 ^ 16 * K * M / 2 ^ 52) ≤ M)
    (Y : ℝ) (hY : Y = X + k * (7 / 2 * (ω * τ / wid r lo hi 0) * |(W (-1) : ℝ)| / wid r lo hi 0 +
      √n * (9 / 2 * (2 ^ 16 * K * M / 2 ^ 52) / wid r lo hi 0 ^ 2))) :
    ∃ (ls' : Levelset F64) (F' : Cell → F64) (G' : Cell → Vec3 F64) (V' W' : ℤ → ℚ), carrySteps .wrap g gv dt vel k ls = .ok ls' ∧
      (∀ c, r.Padded 1 c → ls'.phi.get .wrap g c.1 c.2.1 c.2.2 = .ok (F' c) ∧ ls'.psi.get .wrap g c.1 c.2.1 c.2.2 = .ok (G' c)) ∧
      (∀ i : ℤ, -1 ≤ i → i < n → HasValue (F' (i, 0, 0)) (V' i) ∧ HasValue (G' (i, 0, 0)).x (W' i)) ∧
      F' (-1, 0, 0) = F (-1, 0, 0) ∧ (G' (-1, 0, 0)).x = (G (-1, 0, 0)).x ∧
      splineBending (wid r lo hi 0) (fun i => V' i) (fun i => W' i) (-1) n ≤ Y ^ 2 * wid r lo hi 0 ∧
      ∀ i : ℕ, i < n → |(W' i : ℝ) - W (-1)| ≤ √(i + 1) * wid r lo hi 0 * Y ∧
        |(V' i : ℝ) - (V (-1) + W (-1) * ((i + 1) * wid r lo hi 0))| ≤ 2 * (i + 1) * √(i + 1) * wid r lo hi 0 ^ 2 * Y := by
  have h := R.valid
  have hw0 : 0 < hi 0 - lo 0 := (two_zpow_pos _).trans_le (R.side 0 (by decide)).1
  have n0 := h.n_pos 0
  have hq : 0 < (axisOf r lo hi 0).h := div_pos hw0 (by exact_mod_cast n0)
  have hh : (0 : ℝ) < wid r lo hi 0 := by exact_mod_cast hq
  have hK1 : 1 ≤ K := by
    have : (1 : ℚ) ≤ r.n.get 0 := by exact_mod_cast n0
    exact this.trans (res_n hw0 n0 (R.res 0 (by decide)))
  have M0 : (0 : ℝ) < M := by exact_mod_cast (two_zpow_pos _).trans_le hM.1
  have K0 : (1 : ℝ) ≤ K := by exact_mod_cast hK1
  set D : ℚ := ω * τ / (axisOf r lo hi 0).h with hD
  have D0 : 0 < D := div_pos h0 hq
  have aD : |D| = |ω * τ| / (axisOf r lo hi 0).h := by rw [hD, abs_div, abs_of_pos hq]
  have dlo : 1 / 2 ^ 15 ≤ D := by rw [← abs_of_pos D0, aD, le_div_iff₀ hq]; exact R.cfl_lo
  have dhi : D ≤ 1 - 1 / 2 ^ 15 := by rw [← abs_of_pos D0, aD, div_le_iff₀ hq]; exact R.cfl_hi
  have rD : (ω * τ / wid r lo hi 0 : ℝ) = D := by
    rw [hD]
    push_cast
    rfl
  rw [rD] at hXM hY
  have Dr0 : (0 : ℝ) < D := by exact_mod_cast D0
  have Dr1 : (D : ℝ) < 1 := by exact_mod_cast lt_of_le_of_lt dhi (by norm_num)
  obtain ⟨ls', f, q, e1, S1, f0, q0, gh, st⟩ := stepsD_ok R S (b := -1) (t := 1 - D) (by push_cast; ring) (by linarith) (by linarith) k
  have im : ¬ r.Interior (-1, 0, 0) := fun hc => absurd hc.1.1 (by decide)
  obtain ⟨N, rfl⟩ : ∃ N, n = N + 1 := ⟨n - 1, by omega⟩
  have fin0 : ∀ i : ℤ, -1 ≤ i → i < ((N + 1 : ℕ) : ℤ) → numD (f 0 (i, 0, 0)) = V i ∧ numD (q 0 (i, 0, 0)).x = W i := fun i i0 i1 => by
    rw [f0, q0]
    exact ⟨numD_of (hV i i0 i1).1, numD_of (hV i i0 i1).2⟩
  have s0 := fin0 (-1) le_rfl (by omega)
  set s : ℝ := (W (-1) : ℝ) with hs
  set δ := 7 / 2 * D * |s| / wid r lo hi 0 with hδ
  have δ0 : 0 ≤ δ := by rw [hδ]; positivity
  set ρ : ℝ := 2 ^ 16 * K * M / 2 ^ 52 with hρ
  have ρ0 : 0 ≤ ρ := by rw [hρ]; positivity
  have key := inflow_near (h := wid r lo hi 0) (t := 1 - D) (X := X) (δ := δ) (ρ := ρ) (M := M) hh (by linarith) (by linarith) X0 δ0 ρ0
    (fun j z => HasValue (f j (z, 0, 0)) (numD (f j (z, 0, 0))) ∧ HasValue (q j (z, 0, 0)).x (numD (q j (z, 0, 0)).x))
    (fun j z => (numD (f j (z, 0, 0)) : ℝ)) (fun j z => (numD (q j (z, 0, 0)).x : ℝ)) (-1) N k
    (fun i hi => by
      obtain ⟨a1, a2⟩ := fin0 (-1 + i) (by omega) (by omega)
      rw [a1, a2, f0, q0]
      exact hV _ (by omega) (by omega))
    (fun j hj hP => by
      rw [(gh j hj _ im).1, (gh j hj _ im).2]
      exact ⟨hP, rfl, rfl⟩)
    (by
      have : δ * wid r lo hi 0 = 7 / 2 * D * |s| := by rw [hδ]; field_simp
      rw [this, s0.2, ← hs]
      have e3 : (7 / 2 * (D : ℝ) * |s|) ^ 2 = 49 / 4 * (D * s) ^ 2 := by rw [mul_pow, sq_abs]; ring
      rw [e3, sub_sub_cancel, mul_comm s]
      nlinarith [sq_nonneg ((D : ℝ) * s)])
    (fun j hj i hi p1 p2 b1 b2 b3 b4 => by
      have e : (i : ℤ) + -1 = -1 + i := by ring
      have := st j hj i (by omega) (by omega) M hM
      rw [e] at this
      obtain ⟨v, w, k1, k2, k3, k4⟩ := this _ _ _ _ p1.1 p1.2 p2.1 p2.2 (by exact_mod_cast b1) (by exact_mod_cast b2)
        (by exact_mod_cast b3) (by exact_mod_cast b4)
      have e2 : (-1 : ℤ) + i + 1 = i := by ring
      rw [e2] at k3 k4 ⊢
      rw [numD_of k1, numD_of k2]
      push_cast at k3 k4
      refine ⟨⟨k1, k2⟩, k3.trans (le_of_eq ?_), k4⟩
      rw [hρ]
      ring)
    (by
      rw [splineBending_ec hh] at hX
      refine le_of_eq_of_le (Finset.sum_congr rfl fun i hi => ?_) hX
      have hi := Finset.mem_range.1 hi
      obtain ⟨a1, a2⟩ := fin0 (-1 + i) (by omega) (by omega)
      obtain ⟨a3, a4⟩ := fin0 (-1 + i + 1) (by omega) (by omega)
      simp only [ec, a1, a2, a3, a4])
    (by
      rw [s0.1, s0.2, ← hs]
      push_cast at hXM
      exact hXM) k le_rfl
  obtain ⟨k0, k1, k2, k3⟩ := key
  rw [s0.1] at k1
  rw [s0.2] at k2
  have eY : Y = X + k * (δ + √(N + 1) * (9 / 2 * ρ / wid r lo hi 0 ^ 2)) := by
    rw [hY]
    push_cast
    rfl
  rw [← eY] at k3
  have Y0 : 0 ≤ Y := by rw [eY]; positivity
  have keep : ∀ j, j ≤ k → f j (-1, 0, 0) = F (-1, 0, 0) ∧ q j (-1, 0, 0) = G (-1, 0, 0) := by
    intro j
    induction j with
    | zero => exact fun _ => ⟨by rw [f0], by rw [q0]⟩
    | succ j ih => exact fun hj => ⟨(gh j (by omega) _ im).1.trans (ih (by omega)).1, (gh j (by omega) _ im).2.trans (ih (by omega)).2⟩
  refine ⟨ls', f k, q k, fun z => numD (f k (z, 0, 0)), fun z => numD (q k (z, 0, 0)).x, e1,
    fun c hc => ⟨S1.phi.val c hc, S1.psi.val c hc⟩, fun i i0 i1 => ?_, (keep k le_rfl).1, congrArg Vec3.x (keep k le_rfl).2, ?_, fun i hi => ?_⟩
  · have := k0 (i + 1).toNat (by omega)
    rwa [show (-1 : ℤ) + ((i + 1).toNat : ℤ) = i by omega] at this
  · rw [splineBending_ec hh]
    exact k3
  · have := inflow_bound hh Y0 _ _ (-1) (N + 1) k3 (i + 1) hi
    push_cast at this
    rw [show (-1 : ℤ) + (i + 1) = i by ring, k1, k2] at this
    exact this

/-- C109, flow to the left: the same with the ghost node at the other end of the line. -/
theorem C109_left (r : Req F64) (lo hi : Fin 3 → ℚ) (K : ℚ) (g gv : Grid F64 1) (dt : F64) (τ ω : ℚ) (vel : LsVelocity F64)
    (R : RunD r lo hi K g gv dt τ ω vel) (h0 : ω * τ < 0) (n : ℕ) (hn : r.n.get 0 = n) (ls : Levelset F64) (F : Cell → F64)
    (G : Cell → Vec3 F64) (S : Spec.Holds .wrap r g ls F G []) (V W : ℤ → ℚ)
    (hV : ∀ i : ℤ, 0 ≤ i → i ≤ n → HasValue (F (i, 0, 0)) (V i) ∧ HasValue (G (i, 0, 0)).x (W i)) (X : ℝ) (X0 : 0 ≤ X)
    (hX : splineBending (wid r lo hi 0) (fun i => V i) (fun i => W i) 0 n ≤ X ^ 2 * wid r lo hi 0) (k : ℕ) (M : ℚ) (hM : Moderate M)
    (hXM : |(V n : ℝ)| + n * wid r lo hi 0 * |(W n : ℝ)| + 2 * n * √n * wid r lo hi 0 ^ 2 *
      (X + k * (7 / 2 * (-(ω * τ) / wid r lo hi 0) * |(W n : ℝ)| / wid r lo hi 0)) + 9 * k * n ^ 2 * (2 ^ 16 * K * M / 2 ^ 52) ≤ M)
    (Y : ℝ) (hY : Y = X + k * (7 / 2 * (-(ω * τ) / wid r lo hi 0) * |(W n : ℝ)| / wid r lo hi 0 +
      √n * (9 / 2 * (2 ^ 16 * K * M / 2 ^ 52) / wid r lo hi 0 ^ 2))) :
    ∃ (ls' : Levelset F64) (F' : Cell → F64) (G' : Cell → Vec3 F64) (V' W' : ℤ → ℚ), carrySteps .wrap g gv dt vel k ls = .ok ls' ∧
      (∀ c, r.Padded 1 c → ls'.phi.get .wrap g c.1 c.2.1 c.2.2 = .ok (F' c) ∧ ls'.psi.get .wrap g c.1 c.2.1 c.2.2 = .ok (G' c)) ∧
      (∀ i : ℤ, 0 ≤ i → i ≤ n → HasValue (F' (i, 0, 0)) (V' i) ∧ HasValue (G' (i, 0, 0)).x (W' i)) ∧
      F' (n, 0, 0) = F (n, 0, 0) ∧ (G' (n, 0, 0)).x = (G (n, 0, 0)).x ∧
      splineBending (wid r lo hi 0) (fun i => V' i) (fun i => W' i) 0 n ≤ Y ^ 2 * wid r lo hi 0 ∧
      ∀ i : ℕ, i < n → |(W' (n - 1 - i) : ℝ) - W n| ≤ √(i + 1) * wid r lo hi 0 * Y ∧
        |(V' (n - 1 - i) : ℝ) - (V n - W n * ((i + 1) * wid r lo hi 0))| ≤ 2 * (i + 1) * √(i + 1) * wid r lo hi 0 ^ 2 * Y := by
  have h := R.valid
  have hw0 : 0 < hi 0 - lo 0 := (two_zpow_pos _).trans_le (R.side 0 (by decide)).1
  have n0 := h.n_pos 0
  have hq : 0 < (axisOf r lo hi 0).h := div_pos hw0 (by exact_mod_cast n0)
  have hh : (0 : ℝ) < wid r lo hi 0 := by exact_mod_cast hq
  have hK1 : 1 ≤ K := by
    have : (1 : ℚ) ≤ r.n.get 0 := by exact_mod_cast n0
    exact this.trans (res_n hw0 n0 (R.res 0 (by decide)))
  have M0 : (0 : ℝ) < M := by exact_mod_cast (two_zpow_pos _).trans_le hM.1
  have K0 : (1 : ℝ) ≤ K := by exact_mod_cast hK1
  set D : ℚ := -(ω * τ) / (axisOf r lo hi 0).h with hD
  have D0 : 0 < D := div_pos (by linarith) hq
  have aD : |D| = |ω * τ| / (axisOf r lo hi 0).h := by rw [hD, abs_div, abs_of_pos hq, abs_neg]
  have dlo : 1 / 2 ^ 15 ≤ D := by rw [← abs_of_pos D0, aD, le_div_iff₀ hq]; exact R.cfl_lo
  have dhi : D ≤ 1 - 1 / 2 ^ 15 := by rw [← abs_of_pos D0, aD, div_le_iff₀ hq]; exact R.cfl_hi
  have rD : (-(ω * τ) / wid r lo hi 0 : ℝ) = D := by
    rw [hD]
    push_cast
    rfl
  rw [rD] at hXM hY
  have Dr0 : (0 : ℝ) < D := by exact_mod_cast D0
  have Dr1 : (D : ℝ) < 1 := by exact_mod_cast lt_of_le_of_lt dhi (by norm_num)
  obtain ⟨ls', f, q, e1, S1, f0, q0, gh, st⟩ := stepsD_ok R S (b := 0) (t := D) (by rw [hD]; push_cast; ring) dlo dhi k
  have im : ¬ r.Interior (n, 0, 0) := fun hc => absurd hc.1.2 (by show ¬ (n : ℤ) < r.n.get 0; omega)
  obtain ⟨N, rfl⟩ : ∃ N, n = N + 1 := ⟨n - 1, by omega⟩
  set n' : ℤ := ((N + 1 : ℕ) : ℤ) with hn'
  have fin0 : ∀ i : ℤ, 0 ≤ i → i ≤ n' → numD (f 0 (i, 0, 0)) = V i ∧ numD (q 0 (i, 0, 0)).x = W i := fun i i0 i1 => by
    rw [f0, q0]
    exact ⟨numD_of (hV i i0 i1).1, numD_of (hV i i0 i1).2⟩
  have s0 := fin0 n' (by omega) le_rfl
  set s : ℝ := (W n' : ℝ) with hs
  set δ := 7 / 2 * D * |s| / wid r lo hi 0 with hδ
  have δ0 : 0 ≤ δ := by rw [hδ]; positivity
  set ρ : ℝ := 2 ^ 16 * K * M / 2 ^ 52 with hρ
  have ρ0 : 0 ≤ ρ := by rw [hρ]; positivity
  have eb : n' - 1 - -1 = n' := by omega
  have key := inflow_near (h := wid r lo hi 0) (t := 1 - D) (X := X) (δ := δ) (ρ := ρ) (M := M) hh (by linarith) (by linarith) X0 δ0 ρ0
    (fun j z => HasValue (f j (n' - 1 - z, 0, 0)) (numD (f j (n' - 1 - z, 0, 0))) ∧
      HasValue (q j (n' - 1 - z, 0, 0)).x (numD (q j (n' - 1 - z, 0, 0)).x))
    (fun j z => (numD (f j (n' - 1 - z, 0, 0)) : ℝ)) (fun j z => -(numD (q j (n' - 1 - z, 0, 0)).x : ℝ)) (-1) N k
    (fun i hi => by
      obtain ⟨a1, a2⟩ := fin0 (n' - 1 - (-1 + i)) (by omega) (by omega)
      rw [a1, a2, f0, q0]
      exact hV _ (by omega) (by omega))
    (fun j hj hP => by
      simp only [eb] at hP ⊢
      rw [(gh j hj _ im).1, (gh j hj _ im).2]
      exact ⟨hP, rfl, rfl⟩)
    (by
      have : δ * wid r lo hi 0 = 7 / 2 * D * |s| := by rw [hδ]; field_simp
      simp only [eb]
      rw [this, s0.2, ← hs]
      have e3 : (7 / 2 * (D : ℝ) * |s|) ^ 2 = 49 / 4 * (D * s) ^ 2 := by rw [mul_pow, sq_abs]; ring
      rw [e3, sub_sub_cancel]
      nlinarith [sq_nonneg ((D : ℝ) * s)])
    (fun j hj i hN p1 p2 b1 b2 b3 b4 => by
      have z1 : n' - 1 - (-1 + (i : ℤ) + 1) = N - i := by omega
      have z2 : n' - 1 - (-1 + (i : ℤ)) = N - i + 1 := by omega
      simp only [z1, z2, abs_neg] at p1 p2 b1 b2 b3 b4 ⊢
      have := st j hj (N - i) (by omega) (by omega) M hM
      rw [add_zero] at this
      obtain ⟨v, w, k1, k2, k3, k4⟩ := this _ _ _ _ p2.1 p2.2 p1.1 p1.2 (by exact_mod_cast b3) (by exact_mod_cast b4)
        (by exact_mod_cast b1) (by exact_mod_cast b2)
      rw [cv_mirror] at k3
      rw [cs_mirror] at k4
      rw [numD_of k1, numD_of k2]
      refine ⟨⟨k1, k2⟩, k3.trans (le_of_eq ?_), ?_⟩
      · rw [hρ]
        ring
      · rw [← abs_neg]
        refine le_of_eq_of_le (congrArg (fun z => |z| * wid r lo hi 0) ?_) k4
        ring)
    (by
      rw [← splineBending_mirror hh, splineBending_ec hh] at hX
      refine le_of_eq_of_le (Finset.sum_congr rfl fun i hi => ?_) hX
      have hi := Finset.mem_range.1 hi
      obtain ⟨a1, a2⟩ := fin0 (n' - 1 - (-1 + i)) (by omega) (by omega)
      obtain ⟨a3, a4⟩ := fin0 (n' - 1 - (-1 + i + 1)) (by omega) (by omega)
      simp only [ec, a1, a2, a3, a4, ← hn'])
    (by
      simp only [eb, abs_neg]
      rw [s0.1, s0.2, ← hs]
      push_cast at hXM
      exact hXM) k le_rfl
  obtain ⟨k0, k1, k2, k3⟩ := key
  simp only [eb] at k1 k2
  rw [s0.1] at k1
  rw [s0.2] at k2
  have eY : Y = X + k * (δ + √(N + 1) * (9 / 2 * ρ / wid r lo hi 0 ^ 2)) := by
    rw [hY]
    push_cast
    rfl
  rw [← eY] at k3
  have Y0 : 0 ≤ Y := by rw [eY]; positivity
  have keep : ∀ j, j ≤ k → f j (n', 0, 0) = F (n', 0, 0) ∧ q j (n', 0, 0) = G (n', 0, 0) := by
    intro j
    induction j with
    | zero => exact fun _ => ⟨by rw [f0], by rw [q0]⟩
    | succ j ih => exact fun hj => ⟨(gh j (by omega) _ im).1.trans (ih (by omega)).1, (gh j (by omega) _ im).2.trans (ih (by omega)).2⟩
  refine ⟨ls', f k, q k, fun z => numD (f k (z, 0, 0)), fun z => numD (q k (z, 0, 0)).x, e1,
    fun c hc => ⟨S1.phi.val c hc, S1.psi.val c hc⟩, fun i i0 i1 => ?_, (keep k le_rfl).1, congrArg Vec3.x (keep k le_rfl).2, ?_, fun i hi => ?_⟩
  · have := k0 (n' - i).toNat (by omega)
    rwa [show n' - 1 - ((-1 : ℤ) + ((n' - i).toNat : ℤ)) = i by omega] at this
  · rw [← splineBending_mirror hh, splineBending_ec hh]
    exact k3
  · have := inflow_bound hh Y0 _ _ (-1) (N + 1) k3 (i + 1) hi
    rw [show (-1 : ℤ) + ((i + 1 : ℕ) : ℤ) = i by push_cast; ring] at this
    simp only [eb] at this
    rw [k1, k2, ← hs] at this
    obtain ⟨a1, a2⟩ := this
    push_cast at a1 a2
    constructor
    · rw [← abs_neg]
      refine le_of_eq_of_le (congrArg abs ?_) a1
      ring
    · refine le_of_eq_of_le (congrArg abs ?_) a2
      ring

/-- C109, how many steps: if `B` bounds `|v| + n h |s| + 2 n^(3/2) h² (X + k (7/2) (ω τ / h) |s| / h)`, the bound of exact
arithmetic, then in double arithmetic all values and all slopes times `h` are finite and at most `2 B` as long as `k n² K ≤ 2^31`.
Without a slope at the inflow `B` is the same for all these `k`. -/
theorem C109_steps (r : Req F64) (lo hi : Fin 3 → ℚ) (K : ℚ) (g gv : Grid F64 1) (dt : F64) (τ ω : ℚ) (vel : LsVelocity F64)
    (R : RunD r lo hi K g gv dt τ ω vel) (h0 : 0 < ω * τ) (n : ℕ) (hn : r.n.get 0 = n) (ls : Levelset F64) (F : Cell → F64)
    (G : Cell → Vec3 F64) (S : Spec.Holds .wrap r g ls F G []) (V W : ℤ → ℚ)
    (hV : ∀ i : ℤ, -1 ≤ i → i < n → HasValue (F (i, 0, 0)) (V i) ∧ HasValue (G (i, 0, 0)).x (W i)) (X : ℝ) (X0 : 0 ≤ X)
    (hX : splineBending (wid r lo hi 0) (fun i => V i) (fun i => W i) (-1) n ≤ X ^ 2 * wid r lo hi 0) (k : ℕ) (B : ℚ) (hB : Moderate (2 * B))
    (hXB : |(V (-1) : ℝ)| + n * wid r lo hi 0 * |(W (-1) : ℝ)| + 2 * n * √n * wid r lo hi 0 ^ 2 *
      (X + k * (7 / 2 * (ω * τ / wid r lo hi 0) * |(W (-1) : ℝ)| / wid r lo hi 0)) ≤ B) (hk : k * n ^ 2 * K ≤ 2 ^ 31) :
    ∃ (ls' : Levelset F64) (F' : Cell → F64) (G' : Cell → Vec3 F64), carrySteps .wrap g gv dt vel k ls = .ok ls' ∧
      (∀ c, r.Padded 1 c → ls'.phi.get .wrap g c.1 c.2.1 c.2.2 = .ok (F' c) ∧ ls'.psi.get .wrap g c.1 c.2.1 c.2.2 = .ok (G' c)) ∧
      ∀ i : ℤ, 0 ≤ i → i < n → ∃ v w : ℚ, HasValue (F' (i, 0, 0)) v ∧ HasValue (G' (i, 0, 0)).x w ∧ |v| ≤ 2 * B ∧
        |w| * (axisOf r lo hi 0).h ≤ 2 * B := by
  have h := R.valid
  have hw0 : 0 < hi 0 - lo 0 := (two_zpow_pos _).trans_le (R.side 0 (by decide)).1
  have n0 := h.n_pos 0
  have hq : 0 < (axisOf r lo hi 0).h := div_pos hw0 (by exact_mod_cast n0)
  have hh : (0 : ℝ) < wid r lo hi 0 := by exact_mod_cast hq
  have hK1 : 1 ≤ K := by
    have : (1 : ℚ) ≤ r.n.get 0 := by exact_mod_cast n0
    exact this.trans (res_n hw0 n0 (R.res 0 (by decide)))
  have K0 : (1 : ℝ) ≤ K := by exact_mod_cast hK1
  have B0 : (0 : ℝ) < 2 * B := by exact_mod_cast (two_zpow_pos _).trans_le hB.1
  have hkr : (k : ℝ) * n ^ 2 * K ≤ 2 ^ 31 := by exact_mod_cast hk
  have small : 9 * (k : ℝ) * n ^ 2 * (2 ^ 16 * K * ((2 * B : ℚ) : ℝ) / 2 ^ 52) ≤ B := by
    push_cast
    have : 9 * (k : ℝ) * n ^ 2 * (2 ^ 16 * K * (2 * B) / 2 ^ 52) = (k * n ^ 2 * K) * (9 / 2 ^ 36 * (2 * B)) := by ring
    rw [this]
    refine (mul_le_mul_of_nonneg_right hkr (by positivity)).trans ?_
    linarith
  have hXM : |(V (-1) : ℝ)| + n * wid r lo hi 0 * |(W (-1) : ℝ)| + 2 * n * √n * wid r lo hi 0 ^ 2 *
      (X + k * (7 / 2 * (ω * τ / wid r lo hi 0) * |(W (-1) : ℝ)| / wid r lo hi 0)) +
      9 * k * n ^ 2 * (2 ^ 16 * K * ((2 * B : ℚ) : ℝ) / 2 ^ 52) ≤ ((2 * B : ℚ) : ℝ) := by
    refine (add_le_add hXB small).trans (le_of_eq ?_)
    push_cast
    ring
  obtain ⟨ls', F', G', V', W', e1, e2, e3, e4, e5, e6, -⟩ :=
    C109_right r lo hi K g gv dt τ ω vel R h0 n hn ls F G S V W hV X X0 hX k (2 * B) hB hXM _ rfl
  refine ⟨ls', F', G', e1, e2, fun i i0 i1 => ⟨V' i, W' i, (e3 i (by omega) i1).1, (e3 i (by omega) i1).2, ?_⟩⟩
  have v1 : V' (-1) = V (-1) := hasValue_unique (e3 (-1) le_rfl (by omega)).1 (by rw [e4]; exact (hV (-1) le_rfl (by omega)).1)
  have w1 : W' (-1) = W (-1) := hasValue_unique (e3 (-1) le_rfl (by omega)).2 (by rw [e5]; exact (hV (-1) le_rfl (by omega)).2)
  obtain ⟨N, rfl⟩ : ∃ N, n = N + 1 := ⟨n - 1, by omega⟩
  rw [splineBending_ec hh] at e6
  have D0 : (0 : ℝ) < ω * τ / wid r lo hi 0 := div_pos (by exact_mod_cast h0) hh
  have Bq : 0 < B := by linarith [(two_zpow_pos _).trans_le hB.1]
  have Y0 : 0 ≤ X + k * (7 / 2 * (ω * τ / wid r lo hi 0) * |(W (-1) : ℝ)| / wid r lo hi 0 +
      √((N + 1 : ℕ) : ℝ) * (9 / 2 * (2 ^ 16 * K * ((2 * B : ℚ) : ℝ) / 2 ^ 52) / wid r lo hi 0 ^ 2)) := by
    generalize (ω * τ / wid r lo hi 0 : ℝ) = x at D0
    positivity
  have size := inflow_size hh Y0 _ _ (-1) N e6 (i + 1).toNat (by omega)
  rw [show (-1 : ℤ) + ((i + 1).toNat : ℤ) = i by omega, v1, w1] at size
  have ss : √((N : ℝ) + 1) * √((N : ℝ) + 1) = N + 1 := Real.mul_self_sqrt (by positivity)
  have ee : ∀ x y : ℝ, 2 * ((N : ℝ) + 1) * √(N + 1) * wid r lo hi 0 ^ 2 * (X + k * (x + √(N + 1) * (9 / 2 * y / wid r lo hi 0 ^ 2))) =
      2 * (N + 1) * √(N + 1) * wid r lo hi 0 ^ 2 * (X + k * x) + 9 * k * (N + 1) ^ 2 * y := by
    intro x y
    have : 2 * ((N : ℝ) + 1) * √(N + 1) * wid r lo hi 0 ^ 2 * (X + k * (x + √(N + 1) * (9 / 2 * y / wid r lo hi 0 ^ 2))) =
        2 * (N + 1) * √(N + 1) * wid r lo hi 0 ^ 2 * (X + k * x) +
          9 * k * (N + 1) * (√(N + 1) * √(N + 1)) * y * (wid r lo hi 0 ^ 2 / wid r lo hi 0 ^ 2) := by ring
    rw [this, ss, div_self (by positivity)]
    ring
  push_cast at size hXM
  rw [ee] at size
  obtain ⟨a1, a2⟩ := size
  have b1 : |(V' i : ℝ)| ≤ 2 * B := by linarith
  have b2 : |(W' i : ℝ)| * wid r lo hi 0 ≤ 2 * B := by linarith
  exact ⟨by exact_mod_cast b1, by exact_mod_cast b2⟩

/-- The same interval and time steps with velocity -1. -/
theorem cube_run_left (g : Grid F64 1) (e : (cube 1).make .wrap 1 = .ok g) :
    ∃ vel, RunD (cube 1) (fun _ => 0) (fun _ => 1) 6 g g eighth (1 / 8) (-1) vel := by
  have hd : 1 = 1 ∨ 1 = 2 ∨ 1 = 3 := by decide
  have Md := make_made (cube_valid hd) e
  obtain ⟨v, h4⟩ := fieldIs_exists (s := .wrap) Md fun _ => (⟨-1, 0, 0⟩ : Vec3 F64)
  obtain ⟨n, h5⟩ := fieldIs_exists (s := .wrap) Md fun _ => (Mat3.zero : Mat3 F64)
  have h6 : (axisOf (cube 1) (fun _ => 0) (fun _ => 1) 0).h = 1 / 6 := by rw [cube_h hd]; norm_num
  exact ⟨⟨v, n⟩, cube_valid hd, rfl, cube_box 1, fun _ _ => by norm_num [moderate_one], cube_res hd, by norm_num, e,
    ⟨cube 1, cube_valid hd, rfl, e, _, _, h4, h5, fun c _ => ⟨hasValue_neg hasValue_one, fun _ => hasValue_zero⟩⟩, eighth_value,
    by rw [h6]; norm_num [abs_of_pos], by rw [h6]; norm_num [abs_of_pos]⟩

/-- The value 0 at one node and 1 at all others, as doubles and as numbers. -/
def jumpD (j : ℤ) (c : Cell) : F64 := if c.1 = j then 0 else 1

def jumpQ (j : ℤ) (i : ℤ) : ℚ := if i = j then 0 else 1

theorem jump_value (j i : ℤ) : HasValue (jumpD j (i, 0, 0)) (jumpQ j i) := by
  unfold jumpD jumpQ
  split_ifs
  · exact hasValue_zero
  · exact hasValue_one

/-- The level set that holds it, without slopes. -/
theorem jump_holds {g : Grid F64 1} (e : (cube 1).make .wrap 1 = .ok g) (j : ℤ) :
    ∃ ls : Levelset F64, Spec.Holds .wrap (cube 1) g ls (jumpD j) (fun _ => ⟨0, 0, 0⟩) [] := by
  have Md := make_made (cube_valid (by decide)) e
  obtain ⟨a0, f0⟩ := fieldIs_exists (s := .wrap) Md (jumpD j)
  obtain ⟨b0, k0⟩ := fieldIs_exists (s := .wrap) Md fun _ : Cell => (⟨0, 0, 0⟩ : Vec3 F64)
  obtain ⟨m0, l0⟩ := fieldIs_exists (s := .wrap) Md (fun _ : Cell => ([] : List F64))
  obtain ⟨l⟩ : Nonempty (Levelset F64) := ⟨Levelset.mk' g⟩
  exact ⟨{ l with phi := a0, psi := b0, phiPrev := a0, psiPrev := b0, phiInterpPrev := a0, psiInterpPrev := b0, phiMixedPrev := m0 },
    f0, k0, ⟨_, f0⟩, ⟨_, k0⟩, ⟨_, f0⟩, ⟨_, k0⟩, l0⟩

theorem moderate_jump : Moderate 128 :=
  ⟨le_trans (zpow_le_one_of_nonpos₀ (by norm_num) (by norm_num)) (by norm_num), le_trans (by norm_num : (128 : ℚ) ≤ 2 ^ 7)
    (pow_le_pow_right₀ (by norm_num) (by norm_num))⟩

theorem moderate_jump2 : Moderate 256 :=
  ⟨le_trans (zpow_le_one_of_nonpos₀ (by norm_num) (by norm_num)) (by norm_num), le_trans (by norm_num : (256 : ℚ) ≤ 2 ^ 8)
    (pow_le_pow_right₀ (by norm_num) (by norm_num))⟩

theorem sqrt_six : √((6 : ℕ) : ℝ) ≤ 5 / 2 := by
  rw [Real.sqrt_le_left (by norm_num)]
  norm_num

theorem jump_right : splineBending (1 / 6) (fun i => (jumpQ (-1) i : ℝ)) (fun _ => ((0 : ℚ) : ℝ)) (-1) 6 ≤ 125 ^ 2 * (1 / 6) := by
  rw [splineBending_eq (by norm_num)]
  simp only [Finset.sum_range_succ, Finset.sum_range_zero, en, jumpQ]
  norm_num

theorem jump_left : splineBending (1 / 6) (fun i => (jumpQ 6 i : ℝ)) (fun _ => ((0 : ℚ) : ℝ)) 0 6 ≤ 125 ^ 2 * (1 / 6) := by
  rw [splineBending_eq (by norm_num)]
  simp only [Finset.sum_range_succ, Finset.sum_range_zero, en, jumpQ]
  norm_num

/-- Instance of `C109_right`: six cells, the ghost cell holds 0 and all nodes behind it 1; after a thousand steps of 3/4 of a cell the
doubles are finite and the first value is at most 7. -/
example : ∃ (g : Grid F64 1) (vel : LsVelocity F64) (ls ls' : Levelset F64) (z : F64) (v : ℚ), (cube 1).make .wrap 1 = .ok g ∧
    ls.phi.get .wrap g (-1) 0 0 = .ok 0 ∧ ls.phi.get .wrap g 0 0 0 = .ok 1 ∧
    carrySteps .wrap g g eighth vel 1000 ls = .ok ls' ∧ ls'.phi.get .wrap g 0 0 0 = .ok z ∧ HasValue z v ∧ |v| ≤ 7 := by
  have hd : 1 = 1 ∨ 1 = 2 ∨ 1 = 3 := by decide
  obtain ⟨g, e, Md⟩ := make_ok .wrap (cube_valid hd)
  obtain ⟨vel, R⟩ := cube_run g e
  have w0 : wid (cube 1) (fun _ => 0) (fun _ => 1) 0 = 1 / 6 := cube_wid hd 0 (by decide)
  obtain ⟨ls, S⟩ := jump_holds e (-1)
  obtain ⟨ls', F', G', V', W', e1, e2, e3, -, -, -, e4⟩ := C109_right (cube 1) _ _ 6 g g eighth (1 / 8) 1 vel R (by norm_num) 6 rfl ls _ _ S
    (jumpQ (-1)) (fun _ => 0) (fun i _ _ => ⟨jump_value _ _, hasValue_zero⟩) 125 (by norm_num)
    (by rw [w0]; exact jump_right) 1000 128 moderate_jump
    (by
      rw [w0]
      have := sqrt_six
      simp only [jumpQ, if_true]
      norm_num at this ⊢
      linarith) _ rfl
  have hi : (cube 1).Interior (0, 0, 0) := by decide
  have hg : (cube 1).Padded 1 (-1, 0, 0) := by unfold Req.Padded PaddedCell padAlong cube; simp
  refine ⟨g, vel, ls, ls', _, V' 0, e, (S.phi.val _ hg).trans (congrArg _ (if_pos rfl)),
    (S.phi.val _ (interior_padded Md hi)).trans (congrArg _ (if_neg (by decide))), e1, (e2 _ (interior_padded Md hi)).1,
    (e3 0 (by norm_num) (by norm_num)).1, ?_⟩
  have k4 := (e4 0 (by norm_num)).2
  rw [w0] at k4
  have := sqrt_six
  simp only [jumpQ, if_true] at k4
  norm_num at k4 this
  have : |(V' 0 : ℝ)| ≤ 7 := by linarith
  exact_mod_cast this

/-- Instance of `C109_left`: the same to the left. -/
example : ∃ (g : Grid F64 1) (vel : LsVelocity F64) (ls ls' : Levelset F64) (z : F64) (v : ℚ), (cube 1).make .wrap 1 = .ok g ∧
    ls.phi.get .wrap g 6 0 0 = .ok 0 ∧ ls.phi.get .wrap g 5 0 0 = .ok 1 ∧
    carrySteps .wrap g g eighth vel 1000 ls = .ok ls' ∧ ls'.phi.get .wrap g 5 0 0 = .ok z ∧ HasValue z v ∧ |v| ≤ 7 := by
  have hd : 1 = 1 ∨ 1 = 2 ∨ 1 = 3 := by decide
  obtain ⟨g, e, Md⟩ := make_ok .wrap (cube_valid hd)
  obtain ⟨vel, R⟩ := cube_run_left g e
  have w0 : wid (cube 1) (fun _ => 0) (fun _ => 1) 0 = 1 / 6 := cube_wid hd 0 (by decide)
  obtain ⟨ls, S⟩ := jump_holds e 6
  obtain ⟨ls', F', G', V', W', e1, e2, e3, -, -, -, e4⟩ := C109_left (cube 1) _ _ 6 g g eighth (1 / 8) (-1) vel R (by norm_num) 6 rfl ls _ _ S
    (jumpQ 6) (fun _ => 0) (fun i _ _ => ⟨jump_value _ _, hasValue_zero⟩) 125 (by norm_num)
    (by rw [w0]; exact jump_left) 1000 128 moderate_jump
    (by
      rw [w0]
      have := sqrt_six
      simp only [jumpQ, Nat.cast_ofNat, if_true]
      norm_num at this ⊢
      linarith) _ rfl
  have hi : (cube 1).Interior (5, 0, 0) := by decide
  have hg : (cube 1).Padded 1 (6, 0, 0) := by unfold Req.Padded PaddedCell padAlong cube; simp
  refine ⟨g, vel, ls, ls', _, V' 5, e, (S.phi.val _ hg).trans (congrArg _ (if_pos rfl)),
    (S.phi.val _ (interior_padded Md hi)).trans (congrArg _ (if_neg (by decide))), e1, (e2 _ (interior_padded Md hi)).1,
    (e3 5 (by norm_num) (by norm_num)).1, ?_⟩
  have k4 := (e4 0 (by norm_num)).2
  rw [w0] at k4
  have := sqrt_six
  simp only [jumpQ, Nat.cast_ofNat, if_true] at k4
  norm_num at k4 this
  have : |(V' 5 : ℝ)| ≤ 7 := by linarith
  exact_mod_cast this

/-- Instance of `C109_steps`: the same start; for nine million steps all doubles are finite and at most 256. -/
example : ∃ (g : Grid F64 1) (vel : LsVelocity F64) (ls : Levelset F64), (cube 1).make .wrap 1 = .ok g ∧
    ls.phi.get .wrap g (-1) 0 0 = .ok 0 ∧ ls.phi.get .wrap g 0 0 0 = .ok 1 ∧
    ∀ k : ℕ, k ≤ 9000000 → ∃ ls' z v, carrySteps .wrap g g eighth vel k ls = .ok ls' ∧ ls'.phi.get .wrap g 3 0 0 = .ok z ∧
      HasValue z v ∧ |v| ≤ 256 := by
  have hd : 1 = 1 ∨ 1 = 2 ∨ 1 = 3 := by decide
  obtain ⟨g, e, Md⟩ := make_ok .wrap (cube_valid hd)
  obtain ⟨vel, R⟩ := cube_run g e
  have w0 : wid (cube 1) (fun _ => 0) (fun _ => 1) 0 = 1 / 6 := cube_wid hd 0 (by decide)
  obtain ⟨ls, S⟩ := jump_holds e (-1)
  have hi : (cube 1).Interior (0, 0, 0) := by decide
  have hg : (cube 1).Padded 1 (-1, 0, 0) := by unfold Req.Padded PaddedCell padAlong cube; simp
  refine ⟨g, vel, ls, e, (S.phi.val _ hg).trans (congrArg _ (if_pos rfl)),
    (S.phi.val _ (interior_padded Md hi)).trans (congrArg _ (if_neg (by decide))), fun k hk => ?_⟩
  obtain ⟨ls', F', G', e1, e2, e3⟩ := C109_steps (cube 1) _ _ 6 g g eighth (1 / 8) 1 vel R (by norm_num) 6 rfl ls _ _ S
    (jumpQ (-1)) (fun _ => 0) (fun i _ _ => ⟨jump_value _ _, hasValue_zero⟩) 125 (by norm_num)
    (by rw [w0]; exact jump_right) k 128 (by norm_num; exact moderate_jump2)
    (by
      rw [w0]
      have := sqrt_six
      simp only [jumpQ, if_true]
      norm_num at this ⊢
      linarith)
    (by
      have : (k : ℚ) ≤ 9000000 := by exact_mod_cast hk
      push_cast
      linarith)
  obtain ⟨v, w, k1, -, k2, -⟩ := e3 3 (by norm_num) (by norm_num)
  have h3 : (cube 1).Interior (3, 0, 0) := by decide
  exact ⟨ls', _, v, e1, (e2 _ (interior_padded Md h3)).1, k1, by linarith⟩

end Gals.Props
