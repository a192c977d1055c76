import Verif.Lemmas.Inflow
import Verif.Props.Converge

/-!
# C107: any number of steps of a line are bounded, with the ghost cell at the inflow
-/

set_option linter.unusedSectionVars false
set_option linter.unusedSimpArgs false

namespace Gals.Props

open Gals Gals.Spec Set

/-- The sum of the lemmas. -/
theorem splineBending_ec {h : ℝ} (hh : 0 < h) (f g : ℤ → ℝ) (b : ℤ) (m : ℕ) :
    splineBending h f g b m = ∑ i ∈ Finset.range m, ec h f g (b + i) := splineBending_eq hh f g b m

theorem cv_mirror {h : ℝ} (a a' b b' t : ℝ) : cv h a a' b b' t = cv h b (-b') a (-a') (1 - t) := by
  simp only [cv, basis, T1_four, B0, B1, B2, B3, sqr, cube]
  ring

theorem cs_mirror {h : ℝ} (a a' b b' t : ℝ) : cs h a a' b b' t = -cs h b (-b') a (-a') (1 - t) := by
  simp only [cs, basis', T1_four, B0', B1', B2', B3', sqr, cube]
  ring

/-- Energy of the mirrored spline. -/
theorem splineBending_mirror {h : ℝ} (hh : 0 < h) (f g : ℤ → ℝ) (n : ℕ) :
    splineBending h (fun i => f (n - 1 - i)) (fun i => -g (n - 1 - i)) (-1) n = splineBending h f g 0 n := by
  rw [splineBending_eq hh, splineBending_eq hh, ← Finset.sum_range_reflect]
  refine Finset.sum_congr rfl fun i hi => ?_
  have hi := Finset.mem_range.1 hi
  have e1 : (n : ℤ) - 1 - (-1 + ((n - 1 - i : ℕ) : ℤ)) = 0 + i + 1 := by omega
  have e2 : (n : ℤ) - 1 - (-1 + ((n - 1 - i : ℕ) : ℤ) + 1) = 0 + i := by omega
  rw [e1, e2]
  unfold en
  field_simp
  ring

/-- C107: on a line of `n` interior nodes with padding 1, in a flow of the same velocity `w` at all interior nodes (and no velocity
gradient) with `0 < w τ < h`, let the spline through the stored values and slopes from the ghost node at the inflow to the last
interior node have bending energy at most `X² h`.  Then any number `k` of steps with the gradient carried along returns, the ghost
node keeps its value `v` and its slope `s`, and with `Y = X + k (7/2) (w τ / h) |s| / h` the energy is at most `Y² h`, all slopes are
within `√(i + 1) h Y` of `s`, and all values within `2 (i + 1)^(3/2) h² Y` of the line through the ghost node. -/
theorem C107_right (r : Req ℝ) (h : r.Valid 1) (hpos : r.Pos 1) (hpad : r.pad = 1) (g : Grid ℝ 1)
    (e : r.make .wrap 1 = .ok g) (gv : Grid ℝ 1) (vel : LsVelocity ℝ) (v : Cell → Vec3 ℝ) (m : Cell → Mat3 ℝ)
    (hv : ∀ c, r.Interior c → vel.velocity.get .wrap gv c.1 c.2.1 c.2.2 = .ok (v c))
    (hg : ∀ c, r.Interior c → vel.grad.get .wrap gv c.1 c.2.1 c.2.2 = .ok (m c)) (τ w : ℝ)
    (hw : ∀ c, r.Interior c → (v c).x = w) (hm : ∀ c, r.Interior c → (m c).entry 0 0 = 0) (h0 : 0 < w * τ) (hcfl : w * τ < r.h 0)
    (n : ℕ) (hn : r.n.get 0 = n) (ls : Levelset ℝ) (F : Cell → ℝ) (G : Cell → Vec3 ℝ) (S : Holds .wrap r g ls F G []) (X : ℝ) (X0 : 0 ≤ X)
    (hX : splineBending (r.h 0) (fun i => F (i, 0, 0)) (fun i => (G (i, 0, 0)).x) (-1) n ≤ X ^ 2 * r.h 0) (k : ℕ) :
    ∃ (ls' : Levelset ℝ) (F' : Cell → ℝ) (G' : Cell → Vec3 ℝ), carrySteps .wrap g gv τ vel k ls = .ok ls' ∧
      (∀ c, r.Padded 1 c → ls'.phi.get .wrap g c.1 c.2.1 c.2.2 = .ok (F' c) ∧ ls'.psi.get .wrap g c.1 c.2.1 c.2.2 = .ok (G' c)) ∧
      F' (-1, 0, 0) = F (-1, 0, 0) ∧ (G' (-1, 0, 0)).x = (G (-1, 0, 0)).x ∧
      splineBending (r.h 0) (fun i => F' (i, 0, 0)) (fun i => (G' (i, 0, 0)).x) (-1) n ≤
        (X + k * (7 / 2 * (w * τ / r.h 0) * |(G (-1, 0, 0)).x| / r.h 0)) ^ 2 * r.h 0 ∧
      ∀ i : ℕ, i < n →
        |(G' (i, 0, 0)).x - (G (-1, 0, 0)).x| ≤ √(i + 1) * r.h 0 * (X + k * (7 / 2 * (w * τ / r.h 0) * |(G (-1, 0, 0)).x| / r.h 0)) ∧
        |F' (i, 0, 0) - (F (-1, 0, 0) + (G (-1, 0, 0)).x * ((i + 1) * r.h 0))| ≤
          2 * (i + 1) * √(i + 1) * r.h 0 ^ 2 * (X + k * (7 / 2 * (w * τ / r.h 0) * |(G (-1, 0, 0)).x| / r.h 0)) := by
  have hh : 0 < r.h 0 := h.h_pos hpos 0 (by decide)
  have n0 : 0 < r.n.get 0 := h.nx_pos
  obtain ⟨ls', f, q, e1, S1, f0, q0, gh, st⟩ := carrySteps_ok h hpos hpad e hv hg hw hm (abs_lt.2 ⟨by linarith, hcfl⟩) S k
  have im : ¬ r.Interior (-1, 0, 0) := fun hc => absurd hc.1.1 (by decide)
  set D := w * τ / r.h 0 with hD
  have dlo : 0 < D := by rw [hD]; positivity
  have dhi : D < 1 := by rw [hD, div_lt_one hh]; exact hcfl
  have fl : ⌊-D⌋ = -1 := by
    rw [Int.floor_eq_iff]
    push_cast
    constructor <;> linarith
  have fr : Int.fract (-D) = 1 - D := by
    unfold Int.fract
    rw [fl]
    push_cast
    ring
  rw [fl, fr] at st
  obtain ⟨N, rfl⟩ : ∃ N, n = N + 1 := ⟨n - 1, by omega⟩
  rw [splineBending_ec hh, ← f0, ← q0] at hX
  set s := (G (-1, 0, 0)).x with hs
  set δ := 7 / 2 * D * |s| / r.h 0 with hδ
  have δ0 : 0 ≤ δ := by rw [hδ]; positivity
  have key := inflow_steps hh (t := 1 - D) (by linarith) (by linarith) X0 δ0 (fun j i => f j (i, 0, 0)) (fun j i => (q j (i, 0, 0)).x) (-1) N k
    (fun j hj => ⟨(gh j hj _ im).1, congrArg Vec3.x (gh j hj _ im).2⟩) (by
      have : δ * r.h 0 = 7 / 2 * D * |s| := by rw [hδ]; field_simp
      rw [this, q0]
      have e3 : (7 / 2 * D * |s|) ^ 2 = 49 / 4 * (D * s) ^ 2 := by rw [mul_pow, sq_abs]; ring
      rw [e3, sub_sub_cancel, mul_comm s]
      nlinarith [sq_nonneg (D * s)])
    (fun j hj i hi => by
      have := st j hj i (by omega) (by omega)
      rw [show (i : ℤ) + -1 = -1 + i by ring] at this
      rwa [show ((-1 : ℤ) + i + 1, (0 : ℤ), (0 : ℤ)) = ((i : ℤ), 0, 0) by rw [show (-1 : ℤ) + i + 1 = i by ring]] at this ⊢) hX
  obtain ⟨k1, k2, k3⟩ := key
  rw [f0] at k1
  rw [q0] at k2
  have Y0 : 0 ≤ X + k * δ := by positivity
  refine ⟨ls', f k, q k, e1, fun c hc => ⟨S1.phi.val c hc, S1.psi.val c hc⟩, k1, k2, ?_, fun i hi => ?_⟩
  · rw [splineBending_ec hh]
    exact k3
  · have := inflow_bound hh Y0 _ _ (-1) (N + 1) k3 (i + 1) hi
    push_cast at this
    rw [show (-1 : ℤ) + (i + 1) = i by ring, k1, k2] at this
    exact this

/-- C107, flow to the left: the same with the ghost node at the other end of the line. -/
theorem C107_left (r : Req ℝ) (h : r.Valid 1) (hpos : r.Pos 1) (hpad : r.pad = 1) (g : Grid ℝ 1)
    (e : r.make .wrap 1 = .ok g) (gv : Grid ℝ 1) (vel : LsVelocity ℝ) (v : Cell → Vec3 ℝ) (m : Cell → Mat3 ℝ)
    (hv : ∀ c, r.Interior c → vel.velocity.get .wrap gv c.1 c.2.1 c.2.2 = .ok (v c))
    (hg : ∀ c, r.Interior c → vel.grad.get .wrap gv c.1 c.2.1 c.2.2 = .ok (m c)) (τ w : ℝ)
    (hw : ∀ c, r.Interior c → (v c).x = w) (hm : ∀ c, r.Interior c → (m c).entry 0 0 = 0) (h0 : w * τ < 0) (hcfl : -(w * τ) < r.h 0)
    (n : ℕ) (hn : r.n.get 0 = n) (ls : Levelset ℝ) (F : Cell → ℝ) (G : Cell → Vec3 ℝ) (S : Holds .wrap r g ls F G []) (X : ℝ) (X0 : 0 ≤ X)
    (hX : splineBending (r.h 0) (fun i => F (i, 0, 0)) (fun i => (G (i, 0, 0)).x) 0 n ≤ X ^ 2 * r.h 0) (k : ℕ) :
    ∃ (ls' : Levelset ℝ) (F' : Cell → ℝ) (G' : Cell → Vec3 ℝ), carrySteps .wrap g gv τ vel k ls = .ok ls' ∧
      (∀ c, r.Padded 1 c → ls'.phi.get .wrap g c.1 c.2.1 c.2.2 = .ok (F' c) ∧ ls'.psi.get .wrap g c.1 c.2.1 c.2.2 = .ok (G' c)) ∧
      F' (n, 0, 0) = F (n, 0, 0) ∧ (G' (n, 0, 0)).x = (G (n, 0, 0)).x ∧
      splineBending (r.h 0) (fun i => F' (i, 0, 0)) (fun i => (G' (i, 0, 0)).x) 0 n ≤
        (X + k * (7 / 2 * (-(w * τ) / r.h 0) * |(G (n, 0, 0)).x| / r.h 0)) ^ 2 * r.h 0 ∧
      ∀ i : ℕ, i < n →
        |(G' (n - 1 - i, 0, 0)).x - (G (n, 0, 0)).x| ≤
          √(i + 1) * r.h 0 * (X + k * (7 / 2 * (-(w * τ) / r.h 0) * |(G (n, 0, 0)).x| / r.h 0)) ∧
        |F' (n - 1 - i, 0, 0) - (F (n, 0, 0) - (G (n, 0, 0)).x * ((i + 1) * r.h 0))| ≤
          2 * (i + 1) * √(i + 1) * r.h 0 ^ 2 * (X + k * (7 / 2 * (-(w * τ) / r.h 0) * |(G (n, 0, 0)).x| / r.h 0)) := by
  have hh : 0 < r.h 0 := h.h_pos hpos 0 (by decide)
  have n0 : 0 < r.n.get 0 := h.nx_pos
  obtain ⟨ls', f, q, e1, S1, f0, q0, gh, st⟩ := carrySteps_ok (τ := τ) h hpos hpad e hv hg hw hm (abs_lt.2 ⟨by linarith, by linarith⟩) S k
  have im : ¬ r.Interior (n, 0, 0) := fun hc => absurd hc.1.2 (by show ¬ (n : ℤ) < r.n.get 0; omega)
  rw [show w * τ / r.h 0 = -(-(w * τ) / r.h 0) by ring, neg_neg] at st
  set D := -(w * τ) / r.h 0 with hD
  have dlo : 0 < D := by rw [hD]; exact div_pos (by linarith) hh
  have dhi : D < 1 := by rw [hD, div_lt_one hh]; exact hcfl
  have fl : ⌊D⌋ = 0 := by
    rw [Int.floor_eq_iff]
    push_cast
    constructor <;> linarith
  have fr : Int.fract D = D := by
    unfold Int.fract
    rw [fl]
    push_cast
    ring
  rw [fl, fr] at st
  obtain ⟨N, rfl⟩ : ∃ N, n = N + 1 := ⟨n - 1, by omega⟩
  rw [← splineBending_mirror hh, splineBending_ec hh, ← f0, ← q0] at hX
  set s := (G (((N + 1 : ℕ) : ℤ), 0, 0)).x with hs
  set δ := 7 / 2 * D * |s| / r.h 0 with hδ
  have δ0 : 0 ≤ δ := by rw [hδ]; positivity
  have eb : ((N + 1 : ℕ) : ℤ) - 1 - -1 = ((N + 1 : ℕ) : ℤ) := by omega
  have key := inflow_steps hh (t := 1 - D) (by linarith) (by linarith) X0 δ0 (fun j i => f j (((N + 1 : ℕ) : ℤ) - 1 - i, 0, 0))
    (fun j i => -(q j (((N + 1 : ℕ) : ℤ) - 1 - i, 0, 0)).x) (-1) N k
    (fun j hj => by
      simp only [eb]
      exact ⟨(gh j hj _ im).1, by rw [(gh j hj _ im).2]⟩) (by
      have : δ * r.h 0 = 7 / 2 * D * |s| := by rw [hδ]; field_simp
      simp only [eb]
      rw [this, q0]
      have e3 : (7 / 2 * D * |s|) ^ 2 = 49 / 4 * (D * s) ^ 2 := by rw [mul_pow, sq_abs]; ring
      rw [e3, sub_sub_cancel, ← hs]
      nlinarith [sq_nonneg (D * s)])
    (fun j hj i hi => by
      have := st j hj (N - i) (by omega) (by omega)
      have z1 : ((N + 1 : ℕ) : ℤ) - 1 - (-1 + i + 1) = N - i := by push_cast; ring
      have z2 : ((N + 1 : ℕ) : ℤ) - 1 - (-1 + i) = N - i + 1 := by push_cast; ring
      simp only [z1, z2]
      rw [add_zero] at this
      rw [this.1, this.2, cv_mirror, cs_mirror]
      exact ⟨rfl, neg_neg _⟩) hX
  obtain ⟨k1, k2, k3⟩ := key
  simp only [eb] at k1 k2
  rw [f0] at k1
  rw [q0, neg_inj] at k2
  have Y0 : 0 ≤ X + k * δ := by positivity
  refine ⟨ls', f k, q k, e1, fun c hc => ⟨S1.phi.val c hc, S1.psi.val c hc⟩, k1, k2, ?_, fun i hi => ?_⟩
  · rw [← splineBending_mirror hh, splineBending_ec hh]
    exact k3
  · have := inflow_bound hh Y0 _ _ (-1) (N + 1) k3 (i + 1) hi
    rw [show (-1 : ℤ) + ((i + 1 : ℕ) : ℤ) = i by push_cast; ring] at this
    simp only [eb] at this
    rw [k1, k2, ← hs] at this
    obtain ⟨a1, a2⟩ := this
    push_cast at a1 a2 ⊢
    constructor
    · rw [← abs_neg]
      refine le_of_eq_of_le (congrArg abs ?_) a1
      ring
    · refine le_of_eq_of_le (congrArg abs ?_) a2
      ring

/-- C107, with no slope at the inflow: the bounds are the same after any number of steps. -/
theorem C107_bounded (r : Req ℝ) (h : r.Valid 1) (hpos : r.Pos 1) (hpad : r.pad = 1) (g : Grid ℝ 1)
    (e : r.make .wrap 1 = .ok g) (gv : Grid ℝ 1) (vel : LsVelocity ℝ) (v : Cell → Vec3 ℝ) (m : Cell → Mat3 ℝ)
    (hv : ∀ c, r.Interior c → vel.velocity.get .wrap gv c.1 c.2.1 c.2.2 = .ok (v c))
    (hg : ∀ c, r.Interior c → vel.grad.get .wrap gv c.1 c.2.1 c.2.2 = .ok (m c)) (τ w : ℝ)
    (hw : ∀ c, r.Interior c → (v c).x = w) (hm : ∀ c, r.Interior c → (m c).entry 0 0 = 0) (h0 : 0 < w * τ) (hcfl : w * τ < r.h 0)
    (n : ℕ) (hn : r.n.get 0 = n) (ls : Levelset ℝ) (F : Cell → ℝ) (G : Cell → Vec3 ℝ) (S : Holds .wrap r g ls F G [])
    (hs : (G (-1, 0, 0)).x = 0) :
    ∃ B : ℝ, ∀ k : ℕ, ∃ (ls' : Levelset ℝ) (F' : Cell → ℝ) (G' : Cell → Vec3 ℝ), carrySteps .wrap g gv τ vel k ls = .ok ls' ∧
      ∀ c, r.Interior c → ls'.phi.get .wrap g c.1 c.2.1 c.2.2 = .ok (F' c) ∧ ls'.psi.get .wrap g c.1 c.2.1 c.2.2 = .ok (G' c) ∧
        |F' c| ≤ B ∧ |(G' c).x| ≤ B := by
  have Md := make_made h e
  have hh : 0 < r.h 0 := h.h_pos hpos 0 (by decide)
  have n1 : r.n.y = 1 := h.ny_one (by decide)
  have n2 : r.n.z = 1 := h.nz_one (by decide)
  set E := splineBending (r.h 0) (fun i => F (i, 0, 0)) (fun i => (G (i, 0, 0)).x) (-1) n with hE
  have E0 : 0 ≤ E := by
    rw [hE, splineBending_ec hh]
    exact Finset.sum_nonneg fun i _ => ec_nonneg hh _ _ _
  set X := √(E / r.h 0) with hX
  have X0 : 0 ≤ X := Real.sqrt_nonneg _
  have XE : E ≤ X ^ 2 * r.h 0 := by
    rw [hX, Real.sq_sqrt (div_nonneg E0 hh.le)]
    exact le_of_eq (by field_simp)
  refine ⟨|F (-1, 0, 0)| + 2 * n * √n * r.h 0 ^ 2 * X + √n * r.h 0 * X, fun k => ?_⟩
  obtain ⟨ls', F', G', e1, e2, -, -, -, e3⟩ := C107_right r h hpos hpad g e gv vel v m hv hg τ w hw hm h0 hcfl n hn ls F G S X X0 XE k
  refine ⟨ls', F', G', e1, fun c hc => ⟨(e2 c (interior_padded Md hc)).1, (e2 c (interior_padded Md hc)).2, ?_⟩⟩
  obtain ⟨i, y, z⟩ := c
  obtain ⟨⟨i0, i1⟩, ⟨y0, y1⟩, ⟨z0, z1⟩⟩ := hc
  have hy : y = 0 := by
    have : (y : ℤ) < r.n.y := y1
    have : (0 : ℤ) ≤ y := y0
    omega
  have hz : z = 0 := by
    have : (z : ℤ) < r.n.z := z1
    have : (0 : ℤ) ≤ z := z0
    omega
  subst hy hz
  have i0 : 0 ≤ i := i0
  have i1 : i < r.n.get 0 := i1
  obtain ⟨j, rfl⟩ := Int.eq_ofNat_of_zero_le i0
  have hj : j < n := by omega
  obtain ⟨a1, a2⟩ := e3 j hj
  rw [hs] at a1 a2
  simp only [abs_zero, mul_zero, zero_div, add_zero, sub_zero, zero_mul] at a1 a2
  have jn : (j : ℝ) + 1 ≤ n := by exact_mod_cast hj
  have sj : √((j : ℝ) + 1) ≤ √(n : ℝ) := Real.sqrt_le_sqrt jn
  have b1 : √((j : ℝ) + 1) * r.h 0 * X ≤ √(n : ℝ) * r.h 0 * X := by gcongr
  have b2 : 2 * ((j : ℝ) + 1) * √((j : ℝ) + 1) * r.h 0 ^ 2 * X ≤ 2 * n * √(n : ℝ) * r.h 0 ^ 2 * X := by gcongr
  have c1 : 0 ≤ √(n : ℝ) * r.h 0 * X := by positivity
  have c2 : 0 ≤ 2 * n * √(n : ℝ) * r.h 0 ^ 2 * X := by positivity
  have tri := abs_sub_abs_le_abs_sub (F' ((j : ℤ), 0, 0)) (F (-1, 0, 0))
  constructor
  · show |F' ((j : ℤ), 0, 0)| ≤ _
    linarith
  · show |(G' ((j : ℤ), 0, 0)).x| ≤ _
    linarith [abs_nonneg (F (-1, 0, 0))]

/-- Instance of `C107_right`: three cells of width 1, the level set holds the squares of the distances to the first ghost
node, velocity 1, time step 3/10; after any number of steps the first interior value is at most 8. -/
example : ∃ (g : Grid ℝ 1) (vel : LsVelocity ℝ) (ls : Levelset ℝ), (lineR 1).make .wrap 1 = .ok g ∧
    (∀ c, (lineR 1).Padded 1 c → ls.phi.get .wrap g c.1 c.2.1 c.2.2 = .ok (((c.1 : ℝ) + 1) ^ 2)) ∧
    ∀ k, ∃ ls' z, carrySteps .wrap g g (3 / 10) vel k ls = .ok ls' ∧ ls'.phi.get .wrap g 0 0 0 = .ok z ∧ |z| ≤ 8 := by
  obtain ⟨g, e, -⟩ := C01_padded_addressing .wrap 1 (lineR 1) lineR_valid
  have Md := make_made lineR_valid e
  obtain ⟨vel, hv, hg⟩ := velocity_exists (s := .wrap) Md (fun _ => ⟨1, 0, 0⟩) (fun _ => Mat3.zero)
  obtain ⟨ls, S⟩ := holds_exists Md (fun c => ((c.1 : ℝ) + 1) ^ 2) (fun c => ⟨2 * ((c.1 : ℝ) + 1), 0, 0⟩) []
  have hh : (lineR 1).h 0 = 1 := by norm_num [lineR, Req.h, Vec3.get]
  refine ⟨g, vel, ls, e, fun c hc => S.phi.val c hc, fun k => ?_⟩
  obtain ⟨ls', F', G', e1, e2, -, -, -, e3⟩ := C107_right (lineR 1) lineR_valid (lineR_pos 1) rfl g e g vel _ _
    (fun c hc => hv.val c (interior_padded Md hc)) (fun c hc => hg.val c (interior_padded Md hc)) (3 / 10) 1 (fun _ _ => rfl)
    (fun _ _ => rfl) (by norm_num) (by rw [hh]; norm_num) 3 rfl ls _ _ S 4 (by norm_num)
    (by
      rw [splineBending_eq (by rw [hh]; norm_num), hh]
      simp only [Finset.sum_range_succ, Finset.sum_range_zero, en]
      norm_num) k
  have hi : (lineR 1).Interior (0, 0, 0) := by decide
  refine ⟨ls', _, e1, (e2 (0, 0, 0) (interior_padded Md hi)).1, ?_⟩
  have := (e3 0 (by norm_num)).2
  rw [hh] at this
  norm_num at this
  exact this

/-- Instance of `C107_left`: the same to the left, with a slope at the inflow. -/
example : ∃ (g : Grid ℝ 1) (vel : LsVelocity ℝ) (ls : Levelset ℝ), (lineR 1).make .wrap 1 = .ok g ∧
    (∀ c, (lineR 1).Padded 1 c → ls.phi.get .wrap g c.1 c.2.1 c.2.2 = .ok (c.1 : ℝ)) ∧
    ∀ k : ℕ, ∃ ls' z, carrySteps .wrap g g (3 / 10) vel k ls = .ok ls' ∧ ls'.phi.get .wrap g 2 0 0 = .ok z ∧ |z - 2| ≤ k * 21 / 10 := by
  obtain ⟨g, e, -⟩ := C01_padded_addressing .wrap 1 (lineR 1) lineR_valid
  have Md := make_made lineR_valid e
  obtain ⟨vel, hv, hg⟩ := velocity_exists (s := .wrap) Md (fun _ => ⟨-1, 0, 0⟩) (fun _ => Mat3.zero)
  obtain ⟨ls, S⟩ := holds_exists Md (fun c => (c.1 : ℝ)) (fun _ => ⟨1, 0, 0⟩) []
  have hh : (lineR 1).h 0 = 1 := by norm_num [lineR, Req.h, Vec3.get]
  refine ⟨g, vel, ls, e, fun c hc => S.phi.val c hc, fun k => ?_⟩
  obtain ⟨ls', F', G', e1, e2, -, -, -, e3⟩ := C107_left (lineR 1) lineR_valid (lineR_pos 1) rfl g e g vel _ _
    (fun c hc => hv.val c (interior_padded Md hc)) (fun c hc => hg.val c (interior_padded Md hc)) (3 / 10) (-1) (fun _ _ => rfl)
    (fun _ _ => rfl) (by norm_num) (by rw [hh]; norm_num) 3 rfl ls _ _ S 0 le_rfl
    (by
      rw [splineBending_eq (by rw [hh]; norm_num), hh]
      simp only [Finset.sum_range_succ, Finset.sum_range_zero, en]
      norm_num) k
  have hi : (lineR 1).Interior (2, 0, 0) := by decide
  refine ⟨ls', _, e1, (e2 (2, 0, 0) (interior_padded Md hi)).1, ?_⟩
  have := (e3 0 (by norm_num)).2
  rw [hh] at this
  norm_num at this ⊢
  linarith

/-- Instance of `C107_bounded`: the data of the instance of `C107_right`. -/
example : ∃ (g : Grid ℝ 1) (vel : LsVelocity ℝ) (ls : Levelset ℝ), (lineR 1).make .wrap 1 = .ok g ∧
    (∀ c, (lineR 1).Padded 1 c → ls.phi.get .wrap g c.1 c.2.1 c.2.2 = .ok (((c.1 : ℝ) + 1) ^ 2)) ∧
    ∃ B : ℝ, ∀ k, ∃ ls' z, carrySteps .wrap g g (3 / 10) vel k ls = .ok ls' ∧ ls'.phi.get .wrap g 2 0 0 = .ok z ∧ |z| ≤ B := by
  obtain ⟨g, e, -⟩ := C01_padded_addressing .wrap 1 (lineR 1) lineR_valid
  have Md := make_made lineR_valid e
  obtain ⟨vel, hv, hg⟩ := velocity_exists (s := .wrap) Md (fun _ => ⟨1, 0, 0⟩) (fun _ => Mat3.zero)
  obtain ⟨ls, S⟩ := holds_exists Md (fun c => ((c.1 : ℝ) + 1) ^ 2) (fun c => ⟨2 * ((c.1 : ℝ) + 1), 0, 0⟩) []
  have hh : (lineR 1).h 0 = 1 := by norm_num [lineR, Req.h, Vec3.get]
  obtain ⟨B, hB⟩ := C107_bounded (lineR 1) lineR_valid (lineR_pos 1) rfl g e g vel _ _
    (fun c hc => hv.val c (interior_padded Md hc)) (fun c hc => hg.val c (interior_padded Md hc)) (3 / 10) 1 (fun _ _ => rfl)
    (fun _ _ => rfl) (by norm_num) (by rw [hh]; norm_num) 3 rfl ls _ _ S (by norm_num)
  refine ⟨g, vel, ls, e, fun c hc => S.phi.val c hc, B, fun k => ?_⟩
  obtain ⟨ls', F', G', e1, e2⟩ := hB k
  have hi : (lineR 1).Interior (2, 0, 0) := by decide
  exact ⟨ls', _, e1, (e2 _ hi).1, (e2 _ hi).2.2.1⟩

end Gals.Props
