import Verif.Lemmas.Bending
import Verif.Props.Accuracy
import Verif.Props.Transport

/-!
# C97: in uniform flow on a line a step does not increase the bending energy
-/

set_option linter.unusedSectionVars false
set_option linter.unusedSimpArgs false

namespace Gals.Props

open Gals Gals.Spec Set

theorem centre_sub (r : Req ℝ) (a : Fin 3) (i j : ℤ) : r.centre a i - r.centre a j = ((i : ℝ) - j) * r.h a := by
  unfold Req.centre
  ring

/-- The interpolation at the point that is `D` cells to the left of the node `i`. -/
theorem shifted {r : Req ℝ} (h : r.Valid 1) (hpos : r.Pos 1) (hpad : r.pad = 1) {g : Grid ℝ 1} (G : g.Made .wrap r)
    {ls : Levelset ℝ} {phi : Cell → ℝ} {psi : Cell → Vec3 ℝ} {mix : Cell → List ℝ} (P : PrevIs .wrap r g ls phi psi mix)
    {x : Vec3 ℝ} (hx : InStorage r 1 x) {i : ℤ} {D : ℝ} (hD : x.x = r.centre 0 i - D * r.h 0) :
    let b := i + ⌊-D⌋
    let t := Int.fract (-D);
    (-1 ≤ b) ∧ b + 1 ≤ r.n.get 0 ∧ interpolate .wrap g ls x false = .ok
      ⟨cv (r.h 0) (phi (b, 0, 0)) (psi (b, 0, 0)).x (phi (b + 1, 0, 0)) (psi (b + 1, 0, 0)).x t,
        ⟨cs (r.h 0) (phi (b, 0, 0)) (psi (b, 0, 0)).x (phi (b + 1, 0, 0)) (psi (b + 1, 0, 0)).x t, 0, 0⟩⟩ := by
  intro b t
  obtain ⟨⟨bx, by', bz⟩, H, eb⟩ := interp1_eval G h hpos P hx false
  have hh : 0 < r.h 0 := h.h_pos hpos 0 (by decide)
  have u1 : by' = 0 := H.unused 1 (by decide)
  have u2 : bz = 0 := H.unused 2 (by decide)
  subst u1 u2
  have l0 : r.centre 0 bx ≤ r.centre 0 i - D * r.h 0 := hD ▸ H.lo 0 (by decide)
  have l1 : r.centre 0 i - D * r.h 0 < r.centre 0 (bx + 1) := hD ▸ H.hi 0 (by decide)
  have k0 : ((bx : ℝ) - i + D) * r.h 0 ≤ 0 := by linarith [centre_sub r 0 bx i]
  have k1 : 0 < ((bx : ℝ) + 1 - i + D) * r.h 0 := by
    have := centre_sub r 0 (bx + 1) i
    push_cast at this
    linarith
  have m0 : (bx : ℝ) - i + D ≤ 0 := by
    by_contra hc
    exact absurd k0 (not_le.2 (mul_pos (not_le.1 hc) hh))
  have m1 : 0 < (bx : ℝ) + 1 - i + D := pos_of_mul_pos_left k1 hh.le
  have fl : ⌊-D⌋ = bx - i := by
    rw [Int.floor_eq_iff]
    push_cast
    constructor <;> linarith
  have eb' : b = bx := by simp only [b, fl]; ring
  have st := H.stored 0 (by decide)
  have st0 : -r.pad ≤ bx ∧ bx + 1 < r.n.get 0 + r.pad := st
  rw [hpad] at st0
  refine ⟨by omega, by omega, ?_⟩
  rw [eb, kernel1_eq, eb']
  have et : (x.x - (nodePos r 1 (bx, 0, 0)).x) * (1 / r.h 0) = t := by
    have en' : (nodePos r 1 (bx, 0, 0)).x = r.centre 0 bx := by
      have := nodePos_get (d := 1) r (bx, 0, 0) 0
      rw [hpad] at this
      simpa [Vec3.get, comp] using this
    have e2 : t = -D - (bx - i) := by
      simp only [t, Int.fract, fl]
      push_cast
      ring
    rw [en', hD, e2]
    have := centre_sub r 0 bx i
    field_simp
    linarith
  rw [et]
  rfl

theorem splineBending_eq {h : ℝ} (hh : 0 < h) (f g : ℤ → ℝ) (b : ℤ) (m : ℕ) : splineBending h f g b m =
    ∑ i ∈ Finset.range m, en h (f (b + i)) (g (b + i)) (f (b + i + 1)) (g (b + i + 1)) := by
  unfold splineBending
  exact Finset.sum_congr rfl fun i _ => bending_eq hh _ _ _ _

/-- Fewer intervals have less energy. -/
theorem bending_inside {h : ℝ} (hh : 0 < h) (f g : ℤ → ℝ) {a b : ℤ} {m k : ℕ} (h1 : a ≤ b) (h2 : b + m ≤ a + k) :
    splineBending h f g b m ≤ splineBending h f g a k := by
  obtain ⟨s, rfl⟩ := Int.exists_add_of_le h1
  rw [splineBending_eq hh, splineBending_eq hh, Finset.range_eq_Ico, Finset.range_eq_Ico]
  have e := Finset.sum_Ico_add' (fun i : ℕ => en h (f (a + i)) (g (a + i)) (f (a + i + 1)) (g (a + i + 1))) 0 m s
  have e' : ∑ i ∈ Finset.Ico 0 m, en h (f (a + s + i)) (g (a + s + i)) (f (a + s + i + 1)) (g (a + s + i + 1)) =
      ∑ i ∈ Finset.Ico (0 + s) (m + s), en h (f (a + i)) (g (a + i)) (f (a + i + 1)) (g (a + i + 1)) := by
    rw [← e]
    refine Finset.sum_congr rfl fun i _ => ?_
    have : a + (s : ℤ) + i = a + ((i + s : ℕ) : ℤ) := by push_cast; ring
    rw [this]
  rw [e']
  refine Finset.sum_le_sum_of_subset_of_nonneg (fun i hi => ?_) fun i _ _ => en_nonneg hh _ _ _ _
  rw [Finset.mem_Ico] at hi ⊢
  omega

/-- C97: on a line with padding 1, in a flow of the same velocity `w` at all interior nodes (and no velocity gradient), a
semi-Lagrangian step whose departure points are in storage gives a spline through the interior nodes with no more bending energy
(the integral of the square of the second derivative of the piecewise cubic with the stored values and gradients) than the spline
before the step had over the stored nodes.  No bound on `w τ / h` is needed beyond the departure points being in storage. -/
theorem C97_line (r : Req ℝ) (h : r.Valid 1) (hpos : r.Pos 1) (hpad : r.pad = 1) (g : Grid ℝ 1)
    (e : r.make .wrap 1 = .ok g) (gv : Grid ℝ 1) (vel : LsVelocity ℝ) (v : Cell → Vec3 ℝ) (m : Cell → Mat3 ℝ)
    (hv : ∀ c, r.Interior c → vel.velocity.get .wrap gv c.1 c.2.1 c.2.2 = .ok (v c))
    (hg : ∀ c, r.Interior c → vel.grad.get .wrap gv c.1 c.2.1 c.2.2 = .ok (m c)) (ls : Levelset ℝ)
    (phi : Cell → ℝ) (psi : Cell → Vec3 ℝ) (P : PrevIs .wrap r g ls phi psi (fun _ => []))
    (p0 p1 : Cell → ℝ) (q0 q1 : Cell → Vec3 ℝ) (hp : FieldIs .wrap r g ls.phi p0)
    (hq : FieldIs .wrap r g ls.psi q0) (hp1 : FieldIs .wrap r g ls.phiInterpPrev p1) (hq1 : FieldIs .wrap r g ls.psiInterpPrev q1)
    (τ w : ℝ) (hw : ∀ c, r.Interior c → (v c).x = w) (hm : ∀ c, r.Interior c → (m c).entry 0 0 = 0)
    (hst : ∀ c, r.Interior c → InStorage r 1 ((nodePos r 1 c).sub ((v c).smul τ))) :
    ∃ (ls' : Levelset ℝ) (F : Cell → ℝ) (G : Cell → Vec3 ℝ), temporal .semiLagrangian .wrap g gv τ vel ls = .ok ls' ∧
      (∀ c, r.Interior c → ls'.phi.get .wrap g c.1 c.2.1 c.2.2 = .ok (F c) ∧ ls'.psi.get .wrap g c.1 c.2.1 c.2.2 = .ok (G c)) ∧
      splineBending (r.h 0) (fun i => F (i, 0, 0)) (fun i => (G (i, 0, 0)).x) 0 (r.n.get 0 - 1).toNat ≤
        splineBending (r.h 0) (fun i => phi (i, 0, 0)) (fun i => (psi (i, 0, 0)).x) (-1) (r.n.get 0 + 1).toNat := by
  have M := make_made h e
  have hh : 0 < r.h 0 := h.h_pos hpos 0 (by decide)
  obtain ⟨ls', o, h1, h2, -⟩ := slEuler_in_storage (fun _ => rfl) h hpos M hv hg (fun _ => rfl) P hp hq hp1 hq1 hst
  refine ⟨ls', fun c => (o c).phi, fun c => (Mat3.identity.sub ((m c).smul τ)).dot (o c).psi, h1, fun c hc => (h2 c hc).2, ?_⟩
  have hn : 0 < r.n.get 0 := h.nx_pos
  have n1 : r.n.y = 1 := h.ny_one (by decide)
  have n2 : r.n.z = 1 := h.nz_one (by decide)
  have inn : ∀ i : ℤ, 0 ≤ i → i < r.n.get 0 → r.Interior (i, 0, 0) := by
    intro i i0 i1
    exact ⟨⟨i0, i1⟩, ⟨le_refl _, by rw [n1]; exact Int.zero_lt_one⟩, ⟨le_refl _, by rw [n2]; exact Int.zero_lt_one⟩⟩
  set D := w * τ / r.h 0 with hD
  have cell : ∀ i : ℤ, 0 ≤ i → i < r.n.get 0 →
      -1 ≤ i + ⌊-D⌋ ∧ i + ⌊-D⌋ + 1 ≤ r.n.get 0 ∧
      (o (i, 0, 0)).phi = cv (r.h 0) (phi (⌊-D⌋ + i, 0, 0)) (psi (⌊-D⌋ + i, 0, 0)).x (phi (⌊-D⌋ + i + 1, 0, 0))
        (psi (⌊-D⌋ + i + 1, 0, 0)).x (Int.fract (-D)) ∧
      ((Mat3.identity.sub ((m (i, 0, 0)).smul τ)).dot (o (i, 0, 0)).psi).x =
        cs (r.h 0) (phi (⌊-D⌋ + i, 0, 0)) (psi (⌊-D⌋ + i, 0, 0)).x (phi (⌊-D⌋ + i + 1, 0, 0))
        (psi (⌊-D⌋ + i + 1, 0, 0)).x (Int.fract (-D)) := by
    intro i i0 i1
    have hc := inn i i0 i1
    have px : ((nodePos r 1 (i, 0, 0)).sub ((v (i, 0, 0)).smul τ)).x = r.centre 0 i - D * r.h 0 := by
      have e1 := nodePos_get (d := 1) r (i, 0, 0) 0
      rw [hpad] at e1
      have e2 : (nodePos r 1 (i, 0, 0)).x = r.centre 0 i := by simpa [Vec3.get, comp] using e1
      have e3 := get_step (nodePos r 1 (i, 0, 0)) (v (i, 0, 0)) τ 0
      have e4 : (v (i, 0, 0)).get 0 = w := hw _ hc
      rw [e4] at e3
      have e5 : D * r.h 0 = w * τ := by rw [hD]; field_simp
      rw [e5, ← e2]
      exact e3
    obtain ⟨k1, k2, k3⟩ := shifted h hpos hpad M P (hst _ hc) px
    rw [(h2 _ hc).1] at k3
    have k4 := Except.ok.inj k3
    refine ⟨k1, k2, ?_, ?_⟩
    · rw [k4, add_comm i]
    · have := entry_step (m (i, 0, 0)) τ (o (i, 0, 0)).psi 0
      rw [Fin.sum_univ_three, hm _ hc] at this
      rw [k4] at this ⊢
      simp only [Vec3.get, zero_mul, mul_zero, add_zero, sub_zero, Fin.isValue] at this
      rw [add_comm i] at this ⊢
      exact this
  obtain ⟨k, hk⟩ : ∃ k : ℕ, r.n.get 0 = k + 1 := ⟨(r.n.get 0 - 1).toNat, by omega⟩
  have first := cell 0 le_rfl (by omega)
  have last := cell k (by omega) (by omega)
  have e1 : (r.n.get 0 - 1).toNat = k := by omega
  have e2 : (r.n.get 0 + 1).toNat = k + 2 := by omega
  rw [e1, e2]
  refine le_trans ?_ (bending_inside hh _ _ (a := -1) (b := ⌊-D⌋) (m := k + 1) (k := k + 2) (by omega) (by push_cast; omega))
  rw [splineBending_eq hh, splineBending_eq hh]
  refine le_trans (le_of_eq (Finset.sum_congr rfl fun i hi => ?_))
    (shift_le hh (Int.fract_nonneg (-D)) (Int.fract_lt_one (-D)) (fun i => phi (i, 0, 0)) (fun i => (psi (i, 0, 0)).x) ⌊-D⌋ k)
  have ik : i < k := Finset.mem_range.1 hi
  obtain ⟨-, -, a1, a2⟩ := cell (0 + i) (by omega) (by omega)
  obtain ⟨-, -, b1, b2⟩ := cell (0 + i + 1) (by omega) (by omega)
  simp only [a1, a2, b1, b2]
  simp only [zero_add, add_assoc]

/-- Instance of `C97_line`: sine data, velocity 1, time step 3/10, three cells of width 1. -/
example : ∃ g : Grid ℝ 1, (lineR 1).make .wrap 1 = .ok g ∧ ∃ vel ls ls', temporal .semiLagrangian .wrap g g (3 / 10) vel ls = .ok ls' ∧
    ∃ (F : Cell → ℝ) (G : Cell → Vec3 ℝ), (∀ c, (lineR 1).Interior c → ls'.phi.get .wrap g c.1 c.2.1 c.2.2 = .ok (F c) ∧
      ls'.psi.get .wrap g c.1 c.2.1 c.2.2 = .ok (G c)) ∧
    splineBending 1 (fun i => F (i, 0, 0)) (fun i => (G (i, 0, 0)).x) 0 2 ≤
      splineBending 1 (fun i => Real.sin i) (fun i => Real.cos i) (-1) 4 := by
  obtain ⟨g, e, -⟩ := C01_padded_addressing .wrap 1 (lineR 1) lineR_valid
  have M := make_made lineR_valid e
  obtain ⟨vel, hv, hg⟩ := velocity_exists (s := .wrap) M (fun _ => ⟨1, 0, 0⟩) (fun _ => Mat3.zero)
  obtain ⟨ls, h0, h1, h2, h3, P⟩ := levelset_exists (s := .wrap) M (fun _ => 7) (fun _ => 0) (fun c => Real.sin c.1)
    (fun _ => ⟨0, 0, 0⟩) (fun _ => ⟨0, 0, 0⟩) (fun c => ⟨Real.cos c.1, 0, 0⟩) (fun _ => [])
  obtain ⟨ls', F, G, k1, k2, k3⟩ := C97_line (lineR 1) lineR_valid (lineR_pos 1) rfl g e g vel _ _
    (fun c hc => hv.val c (interior_padded M hc)) (fun c hc => hg.val c (interior_padded M hc)) ls _ _ P _ _ _ _ h0 h1 h2 h3
    (3 / 10) 1 (fun _ _ => rfl) (fun _ _ => rfl) (fun c hc a ha => by
      have := near_node lineR_valid (lineR_pos 1) (by decide) hc (near_step (u := ⟨1, 0, 0⟩) (dt := 3 / 10) (fun a ha => by
        match a with
        | 0 => norm_num [lineR, Vec3.get, Req.h, abs_lt]
        | 1 => exact absurd ha (by decide)
        | 2 => exact absurd ha (by decide))) a ha
      exact ⟨this.1.le, this.2⟩)
  refine ⟨g, e, vel, ls, ls', k1, F, G, k2, ?_⟩
  have hh : (lineR 1).h 0 = 1 := by norm_num [lineR, Req.h, Vec3.get]
  have e1 : ((lineR 1).n.get 0 - 1).toNat = 2 := by decide
  have e2 : ((lineR 1).n.get 0 + 1).toNat = 4 := by decide
  rw [hh, e1, e2] at k3
  exact k3

/-- The bound of C97 does not extend to the intervals next to the ghost nodes, which a step never writes: on every line with
padding 1 and for every displacement `w τ` other than 0 of less than a cell, data without any bending energy (`phi = x`, stored in
both generations, ghost nodes included) have after a step positive bending energy over the stored nodes. -/
theorem C97_ghost_false (r : Req ℝ) (h : r.Valid 1) (hpos : r.Pos 1) (hpad : r.pad = 1) (g : Grid ℝ 1)
    (e : r.make .wrap 1 = .ok g) (τ w : ℝ) (h0 : w * τ ≠ 0) (hcfl : |w * τ| < r.h 0) :
    ∃ (vel : LsVelocity ℝ) (ls ls' : Levelset ℝ) (phi F : Cell → ℝ) (psi G : Cell → Vec3 ℝ),
      (∀ c, r.Padded 1 c → vel.velocity.get .wrap g c.1 c.2.1 c.2.2 = .ok ⟨w, 0, 0⟩ ∧
        vel.grad.get .wrap g c.1 c.2.1 c.2.2 = .ok Mat3.zero ∧
        ls.phi.get .wrap g c.1 c.2.1 c.2.2 = .ok (phi c) ∧ ls.psi.get .wrap g c.1 c.2.1 c.2.2 = .ok (psi c) ∧
        ls.phiPrev.get .wrap g c.1 c.2.1 c.2.2 = .ok (phi c) ∧ ls.psiPrev.get .wrap g c.1 c.2.1 c.2.2 = .ok (psi c)) ∧
      temporal .semiLagrangian .wrap g g τ vel ls = .ok ls' ∧
      (∀ c, r.Padded 1 c → ls'.phi.get .wrap g c.1 c.2.1 c.2.2 = .ok (F c) ∧ ls'.psi.get .wrap g c.1 c.2.1 c.2.2 = .ok (G c)) ∧
      splineBending (r.h 0) (fun i => phi (i, 0, 0)) (fun i => (psi (i, 0, 0)).x) (-1) (r.n.get 0 + 1).toNat = 0 ∧
      0 < splineBending (r.h 0) (fun i => F (i, 0, 0)) (fun i => (G (i, 0, 0)).x) (-1) (r.n.get 0 + 1).toNat := by
  classical
  have M := make_made h e
  have hh : 0 < r.h 0 := h.h_pos hpos 0 (by decide)
  have hn : 0 < r.n.get 0 := h.nx_pos
  have n1 : r.n.y = 1 := h.ny_one (by decide)
  have n2 : r.n.z = 1 := h.nz_one (by decide)
  set phi : Cell → ℝ := fun c => r.centre 0 c.1 with ephi
  set psi : Cell → Vec3 ℝ := fun _ => ⟨1, 0, 0⟩ with epsi
  obtain ⟨vel, hv, hg⟩ := velocity_exists (s := .wrap) M (fun _ => ⟨w, 0, 0⟩) (fun _ => Mat3.zero)
  obtain ⟨ls, a0, a1, a2, a3, P⟩ := levelset_exists (s := .wrap) M phi (fun _ => 0) phi psi (fun _ => ⟨0, 0, 0⟩) psi (fun _ => [])
  have hst : ∀ c, r.Interior c → InStorage r 1 ((nodePos r 1 c).sub ((⟨w, 0, 0⟩ : Vec3 ℝ).smul τ)) := by
    intro c hc a ha
    have := near_node h hpos hpad.ge hc (near_step (u := ⟨w, 0, 0⟩) (dt := τ) (fun a ha => by
        match a with
        | 0 => exact hcfl
        | 1 => exact absurd ha (by decide)
        | 2 => exact absurd ha (by decide))) a ha
    exact ⟨this.1.le, this.2⟩
  obtain ⟨ls', o, h1, h2, h3⟩ := slEuler_in_storage (fun _ => rfl) h hpos M (u := fun _ => ⟨w, 0, 0⟩) (m := fun _ => Mat3.zero)
    (fun c hc => hv.val c (interior_padded M hc)) (fun c hc => hg.val c (interior_padded M hc)) (fun _ => rfl) P a0 a1 a2 a3 hst
  refine ⟨vel, ls, ls', phi, fun c => if r.Interior c then (o c).phi else phi c, psi,
    fun c => if r.Interior c then (Mat3.identity.sub (Mat3.zero.smul τ)).dot (o c).psi else psi c,
    fun c hc => ⟨hv.val c hc, hg.val c hc, a0.val c hc, a1.val c hc, P.phi c hc, P.psi c hc⟩, h1, fun c hc => ?_, ?_, ?_⟩
  · by_cases hi : r.Interior c
    · simp only [if_pos hi]
      exact (h2 c hi).2
    · simp only [if_neg hi]
      exact h3 c hc hi
  · rw [splineBending_eq hh]
    refine Finset.sum_eq_zero fun i _ => ?_
    have := centre_sub r 0 (-1 + i + 1) (-1 + i)
    push_cast at this
    have e1 : r.centre 0 (-1 + i + 1) = r.centre 0 (-1 + i) + r.h 0 := by linarith
    simp only [ephi, epsi, e1, en]
    field_simp
    ring
  · have i0 : r.Interior (0, 0, 0) := ⟨⟨le_rfl, hn⟩, ⟨le_refl _, by rw [n1]; exact Int.zero_lt_one⟩, ⟨le_refl _, by rw [n2]; exact Int.zero_lt_one⟩⟩
    have im : ¬ r.Interior (-1, 0, 0) := fun hc => absurd hc.1.1 (by decide)
    set D := w * τ / r.h 0 with hD
    have e5 : D * r.h 0 = w * τ := by rw [hD]; field_simp
    have px : ((nodePos r 1 (0, 0, 0)).sub ((⟨w, 0, 0⟩ : Vec3 ℝ).smul τ)).x = r.centre 0 0 - D * r.h 0 := by
      have e1 := nodePos_get (d := 1) r (0, 0, 0) 0
      rw [hpad] at e1
      have e2 : (nodePos r 1 (0, 0, 0)).x = r.centre 0 0 := by simpa [Vec3.get, comp] using e1
      have e3 := get_step (nodePos r 1 (0, 0, 0)) (⟨w, 0, 0⟩ : Vec3 ℝ) τ 0
      rw [e5, ← e2]
      exact e3
    obtain ⟨-, -, k3⟩ := shifted h hpos hpad M P (hst _ i0) px
    rw [(h2 _ i0).1] at k3
    have k4 := Except.ok.inj k3
    have up := centre_sub r 0 (0 + ⌊-D⌋ + 1) (0 + ⌊-D⌋)
    have low := centre_sub r 0 (0 + ⌊-D⌋) 0
    push_cast at up low
    have e1 : r.centre 0 (0 + ⌊-D⌋ + 1) = r.centre 0 (0 + ⌊-D⌋) + r.h 0 := by linarith
    have fr : Int.fract (-D) = -D - ⌊-D⌋ := rfl
    have ephi0 : (o (0, 0, 0)).phi = r.centre 0 0 - w * τ := by
      rw [k4]
      simp only [ephi, epsi, e1, cv, basis, T1_four, B0, B1, B2, B3, sqr, cube]
      rw [← e5]
      have : r.centre 0 (0 + ⌊-D⌋) = r.centre 0 0 + ⌊-D⌋ * r.h 0 := by linarith
      rw [this, fr]
      ring
    have epsi0 : ((Mat3.identity.sub (Mat3.zero.smul τ)).dot (o (0, 0, 0)).psi).x = 1 := by
      have := entry_step Mat3.zero τ (o (0, 0, 0)).psi 0
      rw [Fin.sum_univ_three, k4] at this
      rw [k4]
      refine Eq.trans this ?_
      simp only [ephi, epsi, e1, cs, basis', T1_four, B0', B1', B2', B3', sqr, cube, Vec3.get, Mat3.zero, Mat3.entry]
      field_simp
      ring
    have hpos' : 0 < splineBending (r.h 0) (fun i => if r.Interior (i, 0, 0) then (o (i, 0, 0)).phi else phi (i, 0, 0))
        (fun i => (if r.Interior (i, 0, 0) then (Mat3.identity.sub (Mat3.zero.smul τ)).dot (o (i, 0, 0)).psi else psi (i, 0, 0)).x)
        (-1) 1 := by
      rw [splineBending_eq hh, Finset.sum_range_one]
      have z1 : (-1 : ℤ) + ((0 : ℕ) : ℤ) = -1 := by simp
      have z2 : (-1 : ℤ) + 1 = 0 := by decide
      simp only [z1, z2, if_pos i0, if_neg im, ephi0, epsi0]
      have lo := centre_sub r 0 0 (-1)
      push_cast at lo
      have z3 : r.centre 0 0 = r.centre 0 (-1) + r.h 0 := by linarith
      simp only [ephi, epsi, z3]
      have : en (r.h 0) (r.centre 0 (-1)) 1 (r.centre 0 (-1) + r.h 0 - w * τ) 1 = 12 / r.h 0 ^ 3 * (w * τ) ^ 2 := by
        unfold en
        field_simp
        ring
      rw [this]
      positivity
    exact hpos'.trans_le (bending_inside hh _ _ le_rfl (by omega))

/-- Instance of `C97_ghost_false`: three cells of width 1, velocity 1, time step 3/10. -/
example : ∃ g : Grid ℝ 1, (lineR 1).make .wrap 1 = .ok g ∧ ∃ (vel : LsVelocity ℝ) (ls ls' : Levelset ℝ) (F : Cell → ℝ) (G : Cell → Vec3 ℝ),
    temporal .semiLagrangian .wrap g g (3 / 10) vel ls = .ok ls' ∧
    (∀ c, (lineR 1).Padded 1 c → ls'.phi.get .wrap g c.1 c.2.1 c.2.2 = .ok (F c) ∧ ls'.psi.get .wrap g c.1 c.2.1 c.2.2 = .ok (G c)) ∧
    0 < splineBending ((lineR 1).h 0) (fun i => F (i, 0, 0)) (fun i => (G (i, 0, 0)).x) (-1) 4 := by
  obtain ⟨g, e, -⟩ := C01_padded_addressing .wrap 1 (lineR 1) lineR_valid
  obtain ⟨vel, ls, ls', phi, F, psi, G, -, k1, k2, -, k3⟩ := C97_ghost_false (lineR 1) lineR_valid (lineR_pos 1) rfl g e
    (3 / 10) 1 (by norm_num) (by norm_num [lineR, Req.h, Vec3.get, abs_lt])
  exact ⟨g, e, vel, ls, ls', F, G, k1, k2, k3⟩

end Gals.Props
