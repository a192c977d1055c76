import Verif.Lemmas.Flush
import Verif.Props.Inflow

/-!
# C108: long runs on a line converge to data of the ghost cell at the inflow
-/

set_option linter.unusedSectionVars false
set_option linter.unusedSimpArgs false

namespace Gals.Props

open Gals Gals.Spec Set Filter Topology

/-- All steps of a run. -/
theorem carryRun_exists {r : Req ℝ} (h : r.Valid 1) (hpos : r.Pos 1) (hpad : r.pad = 1) {g : Grid ℝ 1}
    (e : r.make .wrap 1 = .ok g) {gv : Grid ℝ 1} {vel : LsVelocity ℝ} {v : Cell → Vec3 ℝ} {m : Cell → Mat3 ℝ}
    (hv : ∀ c, r.Interior c → vel.velocity.get .wrap gv c.1 c.2.1 c.2.2 = .ok (v c))
    (hg : ∀ c, r.Interior c → vel.grad.get .wrap gv c.1 c.2.1 c.2.2 = .ok (m c)) {τ w : ℝ}
    (hw : ∀ c, r.Interior c → (v c).x = w) (hm : ∀ c, r.Interior c → (m c).entry 0 0 = 0) (hcfl : |w * τ| < r.h 0)
    {ls : Levelset ℝ} {F : Cell → ℝ} {G : Cell → Vec3 ℝ} (S : Holds .wrap r g ls F G []) :
    ∃ (L : ℕ → Levelset ℝ) (f : ℕ → Cell → ℝ) (q : ℕ → Cell → Vec3 ℝ), f 0 = F ∧ q 0 = G ∧
      ∀ k, carrySteps .wrap g gv τ vel k ls = .ok (L k) ∧ Holds .wrap r g (L k) (f k) (q k) [] ∧
      (∀ c, ¬ r.Interior c → f (k + 1) c = f k c ∧ q (k + 1) c = q k c) ∧
      ∀ i : ℤ, 0 ≤ i → i < r.n.get 0 →
        f (k + 1) (i, 0, 0) = cv (r.h 0) (f k (i + ⌊-(w * τ / r.h 0)⌋, 0, 0)) (q k (i + ⌊-(w * τ / r.h 0)⌋, 0, 0)).x
          (f k (i + ⌊-(w * τ / r.h 0)⌋ + 1, 0, 0)) (q k (i + ⌊-(w * τ / r.h 0)⌋ + 1, 0, 0)).x (Int.fract (-(w * τ / r.h 0))) ∧
        (q (k + 1) (i, 0, 0)).x = cs (r.h 0) (f k (i + ⌊-(w * τ / r.h 0)⌋, 0, 0)) (q k (i + ⌊-(w * τ / r.h 0)⌋, 0, 0)).x
          (f k (i + ⌊-(w * τ / r.h 0)⌋ + 1, 0, 0)) (q k (i + ⌊-(w * τ / r.h 0)⌋ + 1, 0, 0)).x (Int.fract (-(w * τ / r.h 0))) := by
  have one := fun x : { p : Levelset ℝ × (Cell → ℝ) × (Cell → Vec3 ℝ) // Holds .wrap r g p.1 p.2.1 p.2.2 [] } =>
    carryStep_ok h hpos hpad e hv hg hw hm hcfl x.2
  choose L' F' G' k1 k2 k3 k4 using one
  let run : ℕ → { p : Levelset ℝ × (Cell → ℝ) × (Cell → Vec3 ℝ) // Holds .wrap r g p.1 p.2.1 p.2.2 [] } :=
    fun k => Nat.rec ⟨(ls, F, G), S⟩ (fun _ x => ⟨(L' x, F' x, G' x), k2 x⟩) k
  have all : ∀ k, carrySteps .wrap g gv τ vel k ls = .ok (run k).1.1 := by
    intro k
    induction k with
    | zero => rfl
    | succ k ih =>
      simp only [carrySteps]
      rw [ih, M.ok_bind]
      exact k1 (run k)
  exact ⟨fun k => (run k).1.1, fun k => (run k).1.2.1, fun k => (run k).1.2.2, rfl, rfl,
    fun k => ⟨all k, (run k).2, k3 (run k), k4 (run k)⟩⟩

/-- Data that a step does not change. -/
theorem steady {h t : ℝ} (hh : 0 < h) (t0 : 0 < t) (v s x : ℝ) :
    cv h (v + s * h * (1 + t) / 6 * (1 - x)) (s * x) (v + s * h * (1 + t) / 6 * (1 - (1 - t) ^ 2 / (1 + 4 * t + t ^ 2) * x))
      (s * ((1 - t) ^ 2 / (1 + 4 * t + t ^ 2) * x)) t = v + s * h * (1 + t) / 6 * (1 - (1 - t) ^ 2 / (1 + 4 * t + t ^ 2) * x) ∧
    cs h (v + s * h * (1 + t) / 6 * (1 - x)) (s * x) (v + s * h * (1 + t) / 6 * (1 - (1 - t) ^ 2 / (1 + 4 * t + t ^ 2) * x))
      (s * ((1 - t) ^ 2 / (1 + 4 * t + t ^ 2) * x)) t = s * ((1 - t) ^ 2 / (1 + 4 * t + t ^ 2) * x) := by
  have d0 : 0 < 1 + 4 * t + t ^ 2 := by positivity
  constructor
  · simp only [cv, basis, T1_four, B0, B1, B2, B3, sqr, cube]
    field_simp
    ring
  · simp only [cs, basis', T1_four, B0', B1', B2', B3', sqr, cube]
    field_simp
    ring

/-- The limit of all nodes of a line whose first node keeps its data. -/
theorem flush_limit {h t : ℝ} (hh : 0 < h) (t0 : 0 < t) (t1 : t < 1) (f q : ℕ → ℤ → ℝ) (n : ℕ) (hf : ∀ k, f (k + 1) (-1) = f k (-1) ∧ q (k + 1) (-1) = q k (-1))
    (st : ∀ k, ∀ i : ℕ, i < n → f (k + 1) i = cv h (f k (-1 + i)) (q k (-1 + i)) (f k i) (q k i) t ∧
      q (k + 1) i = cs h (f k (-1 + i)) (q k (-1 + i)) (f k i) (q k i) t) (i : ℕ) (hi : i ≤ n) :
    Tendsto (fun k => f k (-1 + i)) atTop (𝓝 (f 0 (-1) + q 0 (-1) * h * (1 + t) / 6 * (1 - ((1 - t) ^ 2 / (1 + 4 * t + t ^ 2)) ^ i))) ∧
    Tendsto (fun k => q k (-1 + i)) atTop (𝓝 (q 0 (-1) * ((1 - t) ^ 2 / (1 + 4 * t + t ^ 2)) ^ i)) := by
  induction i with
  | zero =>
    have c : ∀ k, f k (-1) = f 0 (-1) ∧ q k (-1) = q 0 (-1) := by
      intro k
      induction k with
      | zero => exact ⟨rfl, rfl⟩
      | succ k ih => exact ⟨(hf k).1.trans ih.1, (hf k).2.trans ih.2⟩
    simp only [Nat.cast_zero, add_zero, pow_zero, sub_self, mul_zero, mul_one]
    constructor
    · exact tendsto_const_nhds.congr fun k => (c k).1.symm
    · exact tendsto_const_nhds.congr fun k => (c k).2.symm
  | succ i ih =>
    obtain ⟨l1, l2⟩ := ih (by omega)
    have fx := steady hh t0 (f 0 (-1)) (q 0 (-1)) (((1 - t) ^ 2 / (1 + 4 * t + t ^ 2)) ^ i)
    have := node_limit hh t0 t1 l1 l2 fx.1 fx.2 (f := fun k => f k i) (p := fun k => q k i) (fun k => (st k i (by omega)).1) (fun k => (st k i (by omega)).2)
    rw [pow_succ', show (-1 : ℤ) + ((i + 1 : ℕ) : ℤ) = i by push_cast; ring]
    exact this

/-- C108: on a line with padding 1, in a flow of the same velocity `w` at all interior nodes (and no velocity gradient) with
`0 < w τ < h`, every number of steps with the gradient carried along returns, and with the number of steps the values and slopes at
the interior nodes converge to limits that depend only on the value `v` and the slope `s` stored at the ghost node at the inflow:
with `D = w τ / h` and `ρ = D² / (6 - 6 D + D²)`, the slope at the node `i` tends to `s ρ^(i+1)` and the value to
`v + s h (2 - D) / 6 (1 - ρ^(i+1))`. -/
theorem C108_right (r : Req ℝ) (h : r.Valid 1) (hpos : r.Pos 1) (hpad : r.pad = 1) (g : Grid ℝ 1)
    (e : r.make .wrap 1 = .ok g) (gv : Grid ℝ 1) (vel : LsVelocity ℝ) (v : Cell → Vec3 ℝ) (m : Cell → Mat3 ℝ)
    (hv : ∀ c, r.Interior c → vel.velocity.get .wrap gv c.1 c.2.1 c.2.2 = .ok (v c))
    (hg : ∀ c, r.Interior c → vel.grad.get .wrap gv c.1 c.2.1 c.2.2 = .ok (m c)) (τ w : ℝ)
    (hw : ∀ c, r.Interior c → (v c).x = w) (hm : ∀ c, r.Interior c → (m c).entry 0 0 = 0) (h0 : 0 < w * τ) (hcfl : w * τ < r.h 0)
    (ls : Levelset ℝ) (F : Cell → ℝ) (G : Cell → Vec3 ℝ) (S : Holds .wrap r g ls F G []) (D ρ : ℝ) (hD : D = w * τ / r.h 0)
    (hρ : ρ = D ^ 2 / (6 - 6 * D + D ^ 2)) :
    ∃ (L : ℕ → Levelset ℝ) (f : ℕ → Cell → ℝ) (q : ℕ → Cell → Vec3 ℝ),
      (∀ k, carrySteps .wrap g gv τ vel k ls = .ok (L k) ∧ ∀ c, r.Interior c →
        (L k).phi.get .wrap g c.1 c.2.1 c.2.2 = .ok (f k c) ∧ (L k).psi.get .wrap g c.1 c.2.1 c.2.2 = .ok (q k c)) ∧
      ∀ i : ℕ, i < r.n.get 0 →
        Tendsto (fun k => f k (i, 0, 0)) atTop
          (𝓝 (F (-1, 0, 0) + (G (-1, 0, 0)).x * r.h 0 * (2 - D) / 6 * (1 - ρ ^ (i + 1)))) ∧
        Tendsto (fun k => (q k (i, 0, 0)).x) atTop (𝓝 ((G (-1, 0, 0)).x * ρ ^ (i + 1))) := by
  have Md := make_made h e
  have hh : 0 < r.h 0 := h.h_pos hpos 0 (by decide)
  obtain ⟨L, f, q, f0, q0, run⟩ := carryRun_exists (τ := τ) h hpos hpad e hv hg hw hm (abs_lt.2 ⟨by linarith, hcfl⟩) S
  refine ⟨L, f, q, fun k => ⟨(run k).1, fun c hc => ⟨(run k).2.1.phi.val c (interior_padded Md hc), (run k).2.1.psi.val c (interior_padded Md hc)⟩⟩, ?_⟩
  intro i hi
  have im : ¬ r.Interior (-1, 0, 0) := fun hc => absurd hc.1.1 (by decide)
  have dlo : 0 < D := by rw [hD]; positivity
  have dhi : D < 1 := by rw [hD, div_lt_one hh]; exact hcfl
  have fl : ⌊-D⌋ = -1 := by
    rw [Int.floor_eq_iff]
    push_cast
    constructor <;> linarith
  have fr : Int.fract (-D) = 1 - D := by
    unfold Int.fract
    rw [fl]
    push_cast
    ring
  rw [← hD, fl, fr] at run
  have n0 : 0 ≤ r.n.get 0 := h.nx_pos.le
  obtain ⟨n, hn⟩ := Int.eq_ofNat_of_zero_le n0
  have key := flush_limit hh (t := 1 - D) (by linarith) (by linarith) (fun k i => f k (i, 0, 0)) (fun k i => (q k (i, 0, 0)).x) n
    (fun k => ⟨((run k).2.2.1 _ im).1, congrArg Vec3.x ((run k).2.2.1 _ im).2⟩)
    (fun k i hi => by
      have := (run k).2.2.2 i (by omega) (by omega)
      rw [show (i : ℤ) + -1 = -1 + i by ring] at this
      rwa [show ((-1 : ℤ) + i + 1, (0 : ℤ), (0 : ℤ)) = ((i : ℤ), 0, 0) by rw [show (-1 : ℤ) + i + 1 = i by ring]] at this)
    (i + 1) (by omega)
  rw [show (-1 : ℤ) + ((i + 1 : ℕ) : ℤ) = i by push_cast; ring] at key
  rw [f0, q0] at key
  have e1 : (1 - (1 - D)) ^ 2 / (1 + 4 * (1 - D) + (1 - D) ^ 2) = ρ := by rw [hρ]; congr 1 <;> ring
  have e2 : 1 + (1 - D) = 2 - D := by ring
  rw [e1, e2] at key
  exact key

/-- C108, flow to the left: the same with the ghost node at the other end of the line. -/
theorem C108_left (r : Req ℝ) (h : r.Valid 1) (hpos : r.Pos 1) (hpad : r.pad = 1) (g : Grid ℝ 1)
    (e : r.make .wrap 1 = .ok g) (gv : Grid ℝ 1) (vel : LsVelocity ℝ) (v : Cell → Vec3 ℝ) (m : Cell → Mat3 ℝ)
    (hv : ∀ c, r.Interior c → vel.velocity.get .wrap gv c.1 c.2.1 c.2.2 = .ok (v c))
    (hg : ∀ c, r.Interior c → vel.grad.get .wrap gv c.1 c.2.1 c.2.2 = .ok (m c)) (τ w : ℝ)
    (hw : ∀ c, r.Interior c → (v c).x = w) (hm : ∀ c, r.Interior c → (m c).entry 0 0 = 0) (h0 : w * τ < 0) (hcfl : -(w * τ) < r.h 0)
    (ls : Levelset ℝ) (F : Cell → ℝ) (G : Cell → Vec3 ℝ) (S : Holds .wrap r g ls F G []) (D ρ : ℝ) (hD : D = -(w * τ) / r.h 0)
    (hρ : ρ = D ^ 2 / (6 - 6 * D + D ^ 2)) (n : ℕ) (hn : r.n.get 0 = n) :
    ∃ (L : ℕ → Levelset ℝ) (f : ℕ → Cell → ℝ) (q : ℕ → Cell → Vec3 ℝ),
      (∀ k, carrySteps .wrap g gv τ vel k ls = .ok (L k) ∧ ∀ c, r.Interior c →
        (L k).phi.get .wrap g c.1 c.2.1 c.2.2 = .ok (f k c) ∧ (L k).psi.get .wrap g c.1 c.2.1 c.2.2 = .ok (q k c)) ∧
      ∀ i : ℕ, i < n →
        Tendsto (fun k => f k (n - 1 - i, 0, 0)) atTop
          (𝓝 (F (n, 0, 0) - (G (n, 0, 0)).x * r.h 0 * (2 - D) / 6 * (1 - ρ ^ (i + 1)))) ∧
        Tendsto (fun k => (q k (n - 1 - i, 0, 0)).x) atTop (𝓝 ((G (n, 0, 0)).x * ρ ^ (i + 1))) := by
  have Md := make_made h e
  have hh : 0 < r.h 0 := h.h_pos hpos 0 (by decide)
  obtain ⟨L, f, q, f0, q0, run⟩ := carryRun_exists (τ := τ) h hpos hpad e hv hg hw hm (abs_lt.2 ⟨by linarith, by linarith⟩) S
  refine ⟨L, f, q, fun k => ⟨(run k).1, fun c hc => ⟨(run k).2.1.phi.val c (interior_padded Md hc), (run k).2.1.psi.val c (interior_padded Md hc)⟩⟩, ?_⟩
  intro i hi
  have im : ¬ r.Interior (n, 0, 0) := fun hc => absurd hc.1.2 (by show ¬ (n : ℤ) < r.n.get 0; omega)
  have dlo : 0 < D := by rw [hD]; exact div_pos (by linarith) hh
  have dhi : D < 1 := by rw [hD, div_lt_one hh]; exact hcfl
  have fl : ⌊D⌋ = 0 := by
    rw [Int.floor_eq_iff]
    push_cast
    constructor <;> linarith
  have fr : Int.fract D = D := by
    unfold Int.fract
    rw [fl]
    push_cast
    ring
  rw [show -(w * τ / r.h 0) = D by rw [hD]; ring, fl, fr] at run
  have eb : (n : ℤ) - 1 - -1 = n := by omega
  have key := flush_limit hh (t := 1 - D) (by linarith) (by linarith) (fun k i => f k (n - 1 - i, 0, 0)) (fun k i => -(q k (n - 1 - i, 0, 0)).x) n
    (fun k => by
      simp only [eb]
      exact ⟨((run k).2.2.1 _ im).1, by rw [((run k).2.2.1 _ im).2]⟩)
    (fun k i hi => by
      have := (run k).2.2.2 (n - 1 - i) (by omega) (by omega)
      have z2 : (n : ℤ) - 1 - (-1 + i) = n - 1 - i + 1 := by ring
      simp only [z2]
      rw [add_zero] at this
      rw [this.1, this.2, cv_mirror, cs_mirror]
      exact ⟨rfl, neg_neg _⟩)
    (i + 1) (by omega)
  have z1 : (n : ℤ) - 1 - (-1 + ((i + 1 : ℕ) : ℤ)) = n - 1 - i := by push_cast; ring
  simp only [eb, z1] at key
  rw [f0, q0] at key
  have e1 : (1 - (1 - D)) ^ 2 / (1 + 4 * (1 - D) + (1 - D) ^ 2) = ρ := by rw [hρ]; congr 1 <;> ring
  have e2 : 1 + (1 - D) = 2 - D := by ring
  rw [e1, e2] at key
  refine ⟨key.1.trans (le_of_eq (congrArg 𝓝 (by ring))), ?_⟩
  have := key.2.neg
  simp only [neg_neg] at this
  refine this.trans (le_of_eq (congrArg 𝓝 (by ring)))

/-- C108, against the exact solution: for the level set `phi = x` the values at the interior nodes converge, while the exact values
`x - k w τ` do not: the error grows beyond every bound at every interior node. -/
theorem C108_drift (r : Req ℝ) (h : r.Valid 1) (hpos : r.Pos 1) (hpad : r.pad = 1) (g : Grid ℝ 1)
    (e : r.make .wrap 1 = .ok g) (gv : Grid ℝ 1) (vel : LsVelocity ℝ) (v : Cell → Vec3 ℝ) (m : Cell → Mat3 ℝ)
    (hv : ∀ c, r.Interior c → vel.velocity.get .wrap gv c.1 c.2.1 c.2.2 = .ok (v c))
    (hg : ∀ c, r.Interior c → vel.grad.get .wrap gv c.1 c.2.1 c.2.2 = .ok (m c)) (τ w : ℝ)
    (hw : ∀ c, r.Interior c → (v c).x = w) (hm : ∀ c, r.Interior c → (m c).entry 0 0 = 0) (h0 : 0 < w * τ) (hcfl : w * τ < r.h 0)
    (ls : Levelset ℝ) (S : Holds .wrap r g ls (fun c => r.centre 0 c.1) (fun _ => ⟨1, 0, 0⟩) []) :
    ∃ (L : ℕ → Levelset ℝ) (f : ℕ → Cell → ℝ),
      (∀ k, carrySteps .wrap g gv τ vel k ls = .ok (L k) ∧ ∀ c, r.Interior c → (L k).phi.get .wrap g c.1 c.2.1 c.2.2 = .ok (f k c)) ∧
      ∀ i : ℕ, i < r.n.get 0 → Tendsto (fun k : ℕ => f k (i, 0, 0) - (r.centre 0 i - k * (w * τ))) atTop atTop := by
  obtain ⟨L, f, q, a1, a2⟩ := C108_right r h hpos hpad g e gv vel v m hv hg τ w hw hm h0 hcfl ls _ _ S _ _ rfl rfl
  refine ⟨L, f, fun k => ⟨(a1 k).1, fun c hc => ((a1 k).2 c hc).1⟩, fun i hi => ?_⟩
  have lin : Tendsto (fun k : ℕ => -(r.centre 0 i) + (k : ℝ) * (w * τ)) atTop atTop :=
    tendsto_atTop_add_const_left _ _ (tendsto_natCast_atTop_atTop.atTop_mul_const h0)
  refine ((a2 i hi).1.add_atTop lin).congr fun k => ?_
  ring

/-- Instance of `C108_right`: three cells of width 1, velocity 1, time step 1/2, sine data with value 2 and slope 13 in the ghost
cell at the inflow; the first node tends to `2 + 3 = 5`, with the slope 1. -/
example : ∃ (g : Grid ℝ 1) (vel : LsVelocity ℝ) (ls : Levelset ℝ) (L : ℕ → Levelset ℝ) (z : ℕ → ℝ), (lineR 1).make .wrap 1 = .ok g ∧
    (∀ c, (lineR 1).Interior c → ls.phi.get .wrap g c.1 c.2.1 c.2.2 = .ok (Real.sin c.1)) ∧
    (∀ k, carrySteps .wrap g g (1 / 2) vel k ls = .ok (L k) ∧ (L k).phi.get .wrap g 0 0 0 = .ok (z k)) ∧ Tendsto z atTop (𝓝 5) := by
  obtain ⟨g, e, -⟩ := C01_padded_addressing .wrap 1 (lineR 1) lineR_valid
  have Md := make_made lineR_valid e
  obtain ⟨vel, hv, hg⟩ := velocity_exists (s := .wrap) Md (fun _ => ⟨1, 0, 0⟩) (fun _ => Mat3.zero)
  obtain ⟨ls, S⟩ := holds_exists Md (fun c => if c.1 = -1 then 2 else Real.sin c.1) (fun c => ⟨if c.1 = -1 then 13 else Real.cos c.1, 0, 0⟩) []
  have hh : (lineR 1).h 0 = 1 := by norm_num [lineR, Req.h, Vec3.get]
  obtain ⟨L, f, q, a1, a2⟩ := C108_right (lineR 1) lineR_valid (lineR_pos 1) rfl g e g vel _ _
    (fun c hc => hv.val c (interior_padded Md hc)) (fun c hc => hg.val c (interior_padded Md hc)) (1 / 2) 1 (fun _ _ => rfl)
    (fun _ _ => rfl) (by norm_num) (by rw [hh]; norm_num) ls _ _ S (1 / 2) (1 / 13) (by rw [hh]; norm_num) (by norm_num)
  refine ⟨g, vel, ls, L, fun k => f k (0, 0, 0), e, fun c hc => ?_, fun k => ⟨(a1 k).1, ((a1 k).2 (0, 0, 0) (by decide)).1⟩, ?_⟩
  · have := S.phi.val c (interior_padded Md hc)
    have c0 : (0 : ℤ) ≤ c.1 := hc.1.1
    rwa [if_neg (by omega)] at this
  · have := (a2 0 (by decide)).1
    rw [hh] at this
    norm_num at this
    exact this

/-- Instance of `C108_left`: the same to the left, sine data in the ghost cell as well; the last node tends to
`sin 3 - 3 / 13 cos 3`. -/
example : ∃ (g : Grid ℝ 1) (vel : LsVelocity ℝ) (ls : Levelset ℝ) (L : ℕ → Levelset ℝ) (z : ℕ → ℝ), (lineR 1).make .wrap 1 = .ok g ∧
    (∀ c, (lineR 1).Padded 1 c → ls.phi.get .wrap g c.1 c.2.1 c.2.2 = .ok (Real.sin c.1)) ∧
    (∀ k, carrySteps .wrap g g (1 / 2) vel k ls = .ok (L k) ∧ (L k).phi.get .wrap g 2 0 0 = .ok (z k)) ∧
    Tendsto z atTop (𝓝 (Real.sin 3 - 3 / 13 * Real.cos 3)) := by
  obtain ⟨g, e, -⟩ := C01_padded_addressing .wrap 1 (lineR 1) lineR_valid
  have Md := make_made lineR_valid e
  obtain ⟨vel, hv, hg⟩ := velocity_exists (s := .wrap) Md (fun _ => ⟨-1, 0, 0⟩) (fun _ => Mat3.zero)
  obtain ⟨ls, S⟩ := holds_exists Md (fun c => Real.sin c.1) (fun c => ⟨Real.cos c.1, 0, 0⟩) []
  have hh : (lineR 1).h 0 = 1 := by norm_num [lineR, Req.h, Vec3.get]
  obtain ⟨L, f, q, a1, a2⟩ := C108_left (lineR 1) lineR_valid (lineR_pos 1) rfl g e g vel _ _
    (fun c hc => hv.val c (interior_padded Md hc)) (fun c hc => hg.val c (interior_padded Md hc)) (1 / 2) (-1) (fun _ _ => rfl)
    (fun _ _ => rfl) (by norm_num) (by rw [hh]; norm_num) ls _ _ S (1 / 2) (1 / 13) (by rw [hh]; norm_num) (by norm_num) 3 rfl
  refine ⟨g, vel, ls, L, fun k => f k (2, 0, 0), e, fun c hc => S.phi.val c hc, fun k => ⟨(a1 k).1, ((a1 k).2 (2, 0, 0) (by decide)).1⟩, ?_⟩
  have := (a2 0 (by decide)).1
  rw [hh] at this
  norm_num at this
  refine this.trans (le_of_eq (congrArg 𝓝 ?_))
  ring

/-- Instance of `C108_drift`: the same to the right. -/
example : ∃ (g : Grid ℝ 1) (vel : LsVelocity ℝ) (ls : Levelset ℝ) (L : ℕ → Levelset ℝ) (z : ℕ → ℝ), (lineR 1).make .wrap 1 = .ok g ∧
    (∀ k, carrySteps .wrap g g (1 / 2) vel k ls = .ok (L k) ∧ (L k).phi.get .wrap g 2 0 0 = .ok (z k)) ∧
    Tendsto (fun k : ℕ => z k - ((lineR 1).centre 0 2 - k * (1 * (1 / 2)))) atTop atTop := by
  obtain ⟨g, e, -⟩ := C01_padded_addressing .wrap 1 (lineR 1) lineR_valid
  have Md := make_made lineR_valid e
  obtain ⟨vel, hv, hg⟩ := velocity_exists (s := .wrap) Md (fun _ => ⟨1, 0, 0⟩) (fun _ => Mat3.zero)
  obtain ⟨ls, S⟩ := holds_exists Md (fun c => (lineR 1).centre 0 c.1) (fun _ => ⟨1, 0, 0⟩) []
  have hh : (lineR 1).h 0 = 1 := by norm_num [lineR, Req.h, Vec3.get]
  obtain ⟨L, f, a1, a2⟩ := C108_drift (lineR 1) lineR_valid (lineR_pos 1) rfl g e g vel _ _
    (fun c hc => hv.val c (interior_padded Md hc)) (fun c hc => hg.val c (interior_padded Md hc)) (1 / 2) 1 (fun _ _ => rfl)
    (fun _ _ => rfl) (by norm_num) (by rw [hh]; norm_num) ls S
  exact ⟨g, vel, ls, L, fun k => f k (2, 0, 0), e, fun k => ⟨(a1 k).1, (a1 k).2 (2, 0, 0) (by decide)⟩, a2 2 (by decide)⟩

end Gals.Props
