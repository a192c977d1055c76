import Verif.Props.Converge
import Verif.Props.Gradient

/-!
# C103: steps with recomputed gradients amplify noise
-/

set_option linter.unusedSectionVars false
set_option linter.unusedSimpArgs false

namespace Gals.Props

open Gals Gals.Spec Set

/-- The interpolation at the point that is `D` cells to the left of the node `i`, for any padding. -/
theorem shiftedPad {r : Req ℝ} (h : r.Valid 1) (hpos : r.Pos 1) {g : Grid ℝ 1} (G : g.Made .wrap r)
    {ls : Levelset ℝ} {phi : Cell → ℝ} {psi : Cell → Vec3 ℝ} {mix : Cell → List ℝ} (P : PrevIs .wrap r g ls phi psi mix)
    {x : Vec3 ℝ} (hx : InStorage r 1 x) {i : ℤ} {D : ℝ} (hD : x.x = r.centre 0 (i + (r.pad - 1)) - D * r.h 0) :
    let b := i + (r.pad - 1) + ⌊-D⌋
    let t := Int.fract (-D) - (r.pad - 1 : ℤ);
    interpolate .wrap g ls x false = .ok
      ⟨cv (r.h 0) (phi (b, 0, 0)) (psi (b, 0, 0)).x (phi (b + 1, 0, 0)) (psi (b + 1, 0, 0)).x t,
        ⟨cs (r.h 0) (phi (b, 0, 0)) (psi (b, 0, 0)).x (phi (b + 1, 0, 0)) (psi (b + 1, 0, 0)).x t, 0, 0⟩⟩ := by
  intro b t
  obtain ⟨⟨bx, by', bz⟩, H, eb⟩ := interp1_eval G h hpos P hx false
  have hh : 0 < r.h 0 := h.h_pos hpos 0 (by decide)
  have u1 : by' = 0 := H.unused 1 (by decide)
  have u2 : bz = 0 := H.unused 2 (by decide)
  subst u1 u2
  have l0 : r.centre 0 bx ≤ r.centre 0 (i + (r.pad - 1)) - D * r.h 0 := hD ▸ H.lo 0 (by decide)
  have l1 : r.centre 0 (i + (r.pad - 1)) - D * r.h 0 < r.centre 0 (bx + 1) := hD ▸ H.hi 0 (by decide)
  have k0 : ((bx : ℝ) - (i + (r.pad - 1) : ℤ) + D) * r.h 0 ≤ 0 := by linarith [centre_sub r 0 bx (i + (r.pad - 1))]
  have k1 : 0 < ((bx : ℝ) + 1 - (i + (r.pad - 1) : ℤ) + D) * r.h 0 := by
    have := centre_sub r 0 (bx + 1) (i + (r.pad - 1))
    push_cast at this ⊢
    linarith
  have m0 : (bx : ℝ) - (i + (r.pad - 1) : ℤ) + D ≤ 0 := by
    by_contra hc
    exact absurd k0 (not_le.2 (mul_pos (not_le.1 hc) hh))
  have m1 : 0 < (bx : ℝ) + 1 - (i + (r.pad - 1) : ℤ) + D := pos_of_mul_pos_left k1 hh.le
  have fl : ⌊-D⌋ = bx - (i + (r.pad - 1)) := by
    rw [Int.floor_eq_iff]
    push_cast at m0 m1 ⊢
    constructor <;> linarith
  have eb' : b = bx := by simp only [b, fl]; ring
  rw [eb, kernel1_eq, eb']
  have et : (x.x - (nodePos r 1 (bx, 0, 0)).x) * (1 / r.h 0) = t := by
    have en' : (nodePos r 1 (bx, 0, 0)).x = r.centre 0 (bx + (r.pad - 1)) := by
      have := nodePos_get (d := 1) r (bx, 0, 0) 0
      simpa [Vec3.get, comp] using this
    have e2 : t = -D - (bx - (i + (r.pad - 1) : ℤ)) - (r.pad - 1 : ℤ) := by
      simp only [t, Int.fract, fl]
      push_cast
      ring
    rw [en', hD, e2]
    have := centre_sub r 0 (i + (r.pad - 1)) (bx + (r.pad - 1))
    push_cast at this ⊢
    field_simp
    linarith
  rw [et]
  rfl

/-- The difference quotient that replaces the gradient. -/
noncomputable def slope3 (h : ℝ) (f : ℤ → ℝ) (i : ℤ) : ℝ := (2 * f (i + 1) + 3 * f i - 6 * f (i - 1) + f (i - 2)) / (6 * h)

/-- A step between two states, for padding 2 and a displacement to the left. -/
theorem recomputeStep_ok {r : Req ℝ} (h : r.Valid 1) (hpos : r.Pos 1) (hpad : r.pad = 2) {g : Grid ℝ 1}
    (e : r.make .wrap 1 = .ok g) {gv : Grid ℝ 1} {vel : LsVelocity ℝ} {v : Cell → Vec3 ℝ} {m : Cell → Mat3 ℝ}
    (hv : ∀ c, r.Interior c → vel.velocity.get .wrap gv c.1 c.2.1 c.2.2 = .ok (v c))
    (hg : ∀ c, r.Interior c → vel.grad.get .wrap gv c.1 c.2.1 c.2.2 = .ok (m c)) {τ w : ℝ}
    (hw : ∀ c, r.Interior c → (v c).x = w) (hlo : -r.h 0 < w * τ) (hhi : w * τ ≤ 0)
    {ls : Levelset ℝ} {F : Cell → ℝ} {G : Cell → Vec3 ℝ} (S : Holds .wrap r g ls F G []) :
    ∃ ls' F' G', recomputeStep .wrap g gv τ vel ls = .ok ls' ∧ Holds .wrap r g ls' F' G' [] ∧
      ∀ i : ℤ, 0 ≤ i → i + 3 ≤ r.n.get 0 →
        F' (i, 0, 0) = cv (r.h 0) (F (i + 1, 0, 0)) (slope3 (r.h 0) (fun j => F (j, 0, 0)) (i + 1)) (F (i + 2, 0, 0))
          (slope3 (r.h 0) (fun j => F (j, 0, 0)) (i + 2)) (-(w * τ / r.h 0) - 1) := by
  have M := make_made h e
  have hh : 0 < r.h 0 := h.h_pos hpos 0 (by decide)
  have hst : ∀ c, r.Interior c → InStorage r 1 ((nodePos r 1 c).sub ((v c).smul τ)) := by
    intro c hc a ha
    have := near_node h hpos (by omega) hc (near_step (u := v c) (dt := τ) (fun a ha => by
      match a with
      | 0 => show |(v c).x * τ| < _; rw [hw c hc, abs_lt]; constructor <;> linarith
      | 1 => exact absurd ha (by decide)
      | 2 => exact absurd ha (by decide))) a ha
    exact ⟨this.1.le, this.2⟩
  obtain ⟨s1, s2, ⟨f3, s3⟩, ⟨f4, s4⟩, ⟨f5, s5⟩, ⟨f6, s6⟩, s7⟩ := S
  obtain ⟨grad', q', g1, g2, -, g4⟩ := gradScalar_ok (sch := .third) M M rfl hpad.ge s1 s2
  set l1 : Levelset ℝ := { ls with psi := grad', phiPrev := ls.phiPrev.assign ls.phi, psiPrev := ls.psiPrev.assign grad' } with hl1
  have a1 : FieldIs .wrap r g l1.phiPrev F := s3.assign s1
  have a2 : FieldIs .wrap r g l1.psiPrev q' := s4.assign g2
  have P : PrevIs .wrap r g l1 F q' (fun _ => []) := ⟨a1.val, a2.val, s7.val⟩
  have : Nonempty (Interp ℝ) := ⟨⟨0, ⟨0, 0, 0⟩⟩⟩
  obtain ⟨o, ho⟩ := choose_ok (p := r.Interior) (f := fun c => interpolate .wrap g l1 ((nodePos r 1 c).sub ((v c).smul τ)) false)
    fun c hc => interp_ok (fun _ => rfl) M h hpos (fun _ => rfl) P (hst c hc) false
  obtain ⟨ls', k1, k2, k3, -, k5, k6, k7, k8, k9⟩ := slEuler_ok (dt := τ) (ls := l1) M hv hg (fun c hc => M.atC (interior_padded M hc))
    s1 g2 s5 s6 ho
  refine ⟨ls', _, _, ?_, ⟨k2, k3, ⟨F, by rw [k5]; exact a1⟩, ⟨q', by rw [k6]; exact a2⟩, ⟨_, k8⟩, ⟨_, k9⟩, by rw [k7]; exact s7⟩,
    fun i i0 i1 => ?_⟩
  · unfold recomputeStep
    rw [g1, _root_.Gals.M.ok_bind]
    exact k1
  have n1 : r.n.y = 1 := h.ny_one (by decide)
  have n2 : r.n.z = 1 := h.nz_one (by decide)
  have inn : ∀ i : ℤ, 0 ≤ i → i < r.n.get 0 → r.Interior (i, 0, 0) := by
    intro i i0 i1
    exact ⟨⟨i0, i1⟩, ⟨le_refl _, by rw [n1]; exact Int.zero_lt_one⟩, ⟨le_refl _, by rw [n2]; exact Int.zero_lt_one⟩⟩
  have hc := inn i i0 (by omega)
  set D := w * τ / r.h 0 with hD
  have e5 : D * r.h 0 = w * τ := by rw [hD]; field_simp
  have px : ((nodePos r 1 (i, 0, 0)).sub ((v (i, 0, 0)).smul τ)).x = r.centre 0 (i + (r.pad - 1)) - D * r.h 0 := by
    have e1 := nodePos_get (d := 1) r (i, 0, 0) 0
    have e2 : (nodePos r 1 (i, 0, 0)).x = r.centre 0 (i + (r.pad - 1)) := by simpa [Vec3.get, comp] using e1
    have e3 := get_step (nodePos r 1 (i, 0, 0)) (v (i, 0, 0)) τ 0
    have e4 : (v (i, 0, 0)).get 0 = w := hw _ hc
    rw [e4] at e3
    rw [e5, ← e2]
    exact e3
  have q3 := shiftedPad h hpos M P (hst _ hc) px
  have q4 := Except.ok.inj ((ho _ hc).symm.trans q3)
  have d0 : D ≤ 0 := by rw [hD]; exact div_nonpos_of_nonpos_of_nonneg hhi hh.le
  have d1 : -1 < D := by rw [hD, lt_div_iff₀ hh]; linarith
  have fl : ⌊-D⌋ = 0 := by
    rw [Int.floor_eq_iff]
    push_cast
    constructor <;> linarith
  have fr : Int.fract (-D) = -D := by unfold Int.fract; rw [fl]; simp
  simp only [if_pos hc]
  rw [q4]
  dsimp only
  rw [fl, fr, hpad]
  have z1 : i + (2 - 1) + 0 = i + 1 := by ring
  have z2 : i + 1 + 1 = i + 2 := by ring
  rw [z1, z2]
  have sl : ∀ j : ℤ, 0 ≤ j → j < r.n.get 0 → (q' (j, 0, 0)).x = slope3 (r.h 0) (fun j => F (j, 0, 0)) j := by
    intro j j0 j1
    have := g4 _ (inn j j0 j1) 0
    rw [if_pos (by decide), rawDiff_eq] at this
    exact this
  rw [sl (i + 1) (by omega) (by omega), sl (i + 2) (by omega) (by omega)]
  norm_num

/-- The response to alternating data. -/
theorem alternating {h D E s : ℝ} (hh : 0 < h) (f f' : ℤ → ℝ) (i : ℤ) (h0 : f' (i - 1) = f (i - 1) - E * s) (h1 : f' i = f i + E * s)
    (h2 : f' (i + 1) = f (i + 1) - E * s) (h3 : f' (i + 2) = f (i + 2) + E * s) (h4 : f' (i + 3) = f (i + 3) - E * s) :
    cv h (f' (i + 1)) (slope3 h f' (i + 1)) (f' (i + 2)) (slope3 h f' (i + 2)) (-D - 1) =
      cv h (f (i + 1)) (slope3 h f (i + 1)) (f (i + 2)) (slope3 h f (i + 2)) (-D - 1) +
        (4 * (1 + D) ^ 3 + 22 / 3 * (1 + D) ^ 2 + 4 / 3 * (1 + D) - 1) * E * s := by
  unfold slope3
  have z1 : i + 1 + 1 = i + 2 := by ring
  have z2 : i + 1 - 1 = i := by ring
  have z3 : i + 1 - 2 = i - 1 := by ring
  have z4 : i + 2 + 1 = i + 3 := by ring
  have z5 : i + 2 - 1 = i + 1 := by ring
  have z6 : i + 2 - 2 = i := by ring
  rw [z1, z2, z3, z4, z5, z6, h0, h1, h2, h3, h4]
  simp only [cv, basis, T1_four, B0, B1, B2, B3, sqr, cube]
  field_simp
  ring

/-- C103: on a line with padding 2 (the least for which the gradient of third order can be computed), in a flow of the same
velocity `w` to the left with `|w τ| < h` or at rest, take two level sets whose values differ by `ε` times the sign that alternates
from node to node, whatever they are.  Then any number `k` of steps with recomputed gradients returns for both, and at the nodes
whose data came only from stored nodes of the start the difference has been multiplied by the same factor in each step. -/
theorem C103_factor (r : Req ℝ) (h : r.Valid 1) (hpos : r.Pos 1) (hpad : r.pad = 2) (g : Grid ℝ 1)
    (e : r.make .wrap 1 = .ok g) (gv : Grid ℝ 1) (vel : LsVelocity ℝ) (v : Cell → Vec3 ℝ) (m : Cell → Mat3 ℝ)
    (hv : ∀ c, r.Interior c → vel.velocity.get .wrap gv c.1 c.2.1 c.2.2 = .ok (v c))
    (hg : ∀ c, r.Interior c → vel.grad.get .wrap gv c.1 c.2.1 c.2.2 = .ok (m c)) (τ w : ℝ)
    (hw : ∀ c, r.Interior c → (v c).x = w) (hlo : -r.h 0 < w * τ) (hhi : w * τ ≤ 0)
    (l1 l2 : Levelset ℝ) (F1 F2 : Cell → ℝ) (G1 G2 : Cell → Vec3 ℝ) (S1 : Holds .wrap r g l1 F1 G1 [])
    (S2 : Holds .wrap r g l2 F2 G2 []) (ε : ℝ)
    (hF : ∀ i : ℤ, -1 ≤ i → i ≤ r.n.get 0 → F2 (i, 0, 0) = F1 (i, 0, 0) + ε * (-1) ^ i) (k : ℕ) :
    ∃ l1' l2' F1' F2' G1' G2', recomputeSteps .wrap g gv τ vel k l1 = .ok l1' ∧ recomputeSteps .wrap g gv τ vel k l2 = .ok l2' ∧
      Holds .wrap r g l1' F1' G1' [] ∧ Holds .wrap r g l2' F2' G2' [] ∧
      ∀ i : ℤ, k ≤ i + 1 → i + 3 * k ≤ r.n.get 0 → F2' (i, 0, 0) = F1' (i, 0, 0) +
        (4 * (1 + w * τ / r.h 0) ^ 3 + 22 / 3 * (1 + w * τ / r.h 0) ^ 2 + 4 / 3 * (1 + w * τ / r.h 0) - 1) ^ k * (ε * (-1) ^ i) := by
  have hh : 0 < r.h 0 := h.h_pos hpos 0 (by decide)
  induction k with
  | zero => exact ⟨l1, l2, F1, F2, G1, G2, rfl, rfl, S1, S2, fun i i0 i1 => by rw [hF i (by push_cast at i0; omega) (by push_cast at i1; omega)]; ring⟩
  | succ k ih =>
    obtain ⟨a1, a2, f1, f2, q1, q2, e1, e2, T1, T2, dif⟩ := ih
    obtain ⟨b1, f1', q1', k1, U1, st1⟩ := recomputeStep_ok h hpos hpad e hv hg hw hlo hhi T1
    obtain ⟨b2, f2', q2', k2, U2, st2⟩ := recomputeStep_ok h hpos hpad e hv hg hw hlo hhi T2
    refine ⟨b1, b2, f1', f2', q1', q2', ?_, ?_, U1, U2, fun i i0 i1 => ?_⟩
    · simp only [recomputeSteps]
      rw [e1, _root_.Gals.M.ok_bind]
      exact k1
    · simp only [recomputeSteps]
      rw [e2, _root_.Gals.M.ok_bind]
      exact k2
    · push_cast at i0 i1
      have up : ∀ j : ℤ, (-1 : ℝ) ^ (j + 1) = -(-1) ^ j := by
        intro j
        rw [zpow_add_one₀ (by norm_num)]
        ring
      have s0 : (-1 : ℝ) ^ (i - 1) = -(-1) ^ i := by
        have := up (i - 1)
        rw [sub_add_cancel] at this
        linarith
      have s1 := up i
      have s2 := up (i + 1)
      have s3 := up (i + 2)
      rw [show i + 1 + 1 = i + 2 by ring] at s2
      rw [show i + 2 + 1 = i + 3 by ring] at s3
      rw [s1, neg_neg] at s2
      rw [s2] at s3
      set L := 4 * (1 + w * τ / r.h 0) ^ 3 + 22 / 3 * (1 + w * τ / r.h 0) ^ 2 + 4 / 3 * (1 + w * τ / r.h 0) - 1 with hL
      rw [st1 i (by omega) (by omega), st2 i (by omega) (by omega)]
      have := alternating (D := w * τ / r.h 0) (E := L ^ k * ε) (s := (-1) ^ i) hh (fun j => f1 (j, 0, 0)) (fun j => f2 (j, 0, 0)) i
        (by rw [dif (i - 1) (by omega) (by omega), s0]; ring) (by rw [dif i (by omega) (by omega)]; ring)
        (by rw [dif (i + 1) (by omega) (by omega), s1]; ring) (by rw [dif (i + 2) (by omega) (by omega), s2]; ring)
        (by rw [dif (i + 3) (by omega) (by omega), s3]; ring)
      rw [this, ← hL]
      ring

/-- C103 for displacements of at most half a cell to the left: each step at least doubles the difference.  At rest the factor is
35/3. -/
theorem C103_doubles (r : Req ℝ) (h : r.Valid 1) (hpos : r.Pos 1) (hpad : r.pad = 2) (g : Grid ℝ 1)
    (e : r.make .wrap 1 = .ok g) (gv : Grid ℝ 1) (vel : LsVelocity ℝ) (v : Cell → Vec3 ℝ) (m : Cell → Mat3 ℝ)
    (hv : ∀ c, r.Interior c → vel.velocity.get .wrap gv c.1 c.2.1 c.2.2 = .ok (v c))
    (hg : ∀ c, r.Interior c → vel.grad.get .wrap gv c.1 c.2.1 c.2.2 = .ok (m c)) (τ w : ℝ)
    (hw : ∀ c, r.Interior c → (v c).x = w) (hlo : -(r.h 0 / 2) ≤ w * τ) (hhi : w * τ ≤ 0)
    (l1 l2 : Levelset ℝ) (F1 F2 : Cell → ℝ) (G1 G2 : Cell → Vec3 ℝ) (S1 : Holds .wrap r g l1 F1 G1 [])
    (S2 : Holds .wrap r g l2 F2 G2 []) (ε : ℝ)
    (hF : ∀ i : ℤ, -1 ≤ i → i ≤ r.n.get 0 → F2 (i, 0, 0) = F1 (i, 0, 0) + ε * (-1) ^ i) (k : ℕ) :
    ∃ l1' l2' F1' F2' G1' G2', recomputeSteps .wrap g gv τ vel k l1 = .ok l1' ∧ recomputeSteps .wrap g gv τ vel k l2 = .ok l2' ∧
      Holds .wrap r g l1' F1' G1' [] ∧ Holds .wrap r g l2' F2' G2' [] ∧
      ∀ i : ℤ, k ≤ i + 1 → i + 3 * k ≤ r.n.get 0 → 2 ^ k * |ε| ≤ |F2' (i, 0, 0) - F1' (i, 0, 0)| ∧
        (w * τ = 0 → |F2' (i, 0, 0) - F1' (i, 0, 0)| = (35 / 3) ^ k * |ε|) := by
  have hh : 0 < r.h 0 := h.h_pos hpos 0 (by decide)
  obtain ⟨l1', l2', F1', F2', G1', G2', e1, e2, T1, T2, dif⟩ := C103_factor r h hpos hpad g e gv vel v m hv hg τ w hw (by linarith) hhi
    l1 l2 F1 F2 G1 G2 S1 S2 ε hF k
  refine ⟨l1', l2', F1', F2', G1', G2', e1, e2, T1, T2, fun i i0 i1 => ?_⟩
  have ab : |F2' (i, 0, 0) - F1' (i, 0, 0)| =
      |4 * (1 + w * τ / r.h 0) ^ 3 + 22 / 3 * (1 + w * τ / r.h 0) ^ 2 + 4 / 3 * (1 + w * τ / r.h 0) - 1| ^ k * |ε| := by
    rw [dif i i0 i1, add_sub_cancel_left, abs_mul, abs_mul, abs_pow, abs_zpow, abs_neg, abs_one, one_zpow, mul_one]
  have d1 : -(1 / 2) ≤ w * τ / r.h 0 := by rw [le_div_iff₀ hh]; linarith
  rw [ab]
  constructor
  · generalize w * τ / r.h 0 = D at d1
    have two : 2 ≤ 4 * (1 + D) ^ 3 + 22 / 3 * (1 + D) ^ 2 + 4 / 3 * (1 + D) - 1 := by
      have h2 : (1 / 2 : ℝ) ≤ 1 + D := by linarith
      generalize 1 + D = y at h2
      have y2 : 1 / 4 ≤ y ^ 2 := by nlinarith
      have y3 : 1 / 8 ≤ y ^ 3 := by nlinarith
      linarith
    refine mul_le_mul_of_nonneg_right (pow_le_pow_left₀ (by norm_num) (two.trans (le_abs_self _)) k) (abs_nonneg _)
  · intro h0
    rw [h0, zero_div]
    norm_num [abs_of_pos]

/-- 200 cells of width 1, padding 2. -/
noncomputable def longR : Req ℝ := ⟨⟨200, 1, 1⟩, 2, ⟨0, 0, 0⟩, ⟨200, 0, 0⟩⟩

theorem longR_valid : longR.Valid 1 :=
  ⟨by simp, by decide, by decide, by decide, by decide, by decide, by decide, by decide⟩

theorem longR_pos : longR.Pos 1 := by
  intro a ha
  match a with
  | 0 => show (0 : ℝ) < 200; norm_num
  | 1 => exact absurd ha (by decide)
  | 2 => exact absurd ha (by decide)

/-- The steps with recomputed gradients are not stable: on 200 cells of width 1, in a flow that moves half a cell to the left per
step, starts from `phi = x - 100` that differ by `2 ^ (-40)` at most give after 40 steps values that differ by at least 1. -/
theorem C103_false : ∃ (g : Grid ℝ 1) (vel : LsVelocity ℝ) (l1 l2 l1' l2' : Levelset ℝ) (F1 F2 : Cell → ℝ) (G1 G2 : Cell → Vec3 ℝ) (z1 z2 : ℝ),
    longR.make .wrap 1 = .ok g ∧
    (∀ c, longR.Padded 1 c → vel.velocity.get .wrap g c.1 c.2.1 c.2.2 = .ok ⟨-1, 0, 0⟩ ∧ vel.grad.get .wrap g c.1 c.2.1 c.2.2 = .ok Mat3.zero) ∧
    Holds .wrap longR g l1 F1 G1 [] ∧ Holds .wrap longR g l2 F2 G2 [] ∧
    (∀ c, F1 c = longR.centre 0 c.1 - 100 ∧ |F2 c - F1 c| ≤ 1 / 2 ^ 40) ∧
    recomputeSteps .wrap g g (1 / 2) vel 40 l1 = .ok l1' ∧ recomputeSteps .wrap g g (1 / 2) vel 40 l2 = .ok l2' ∧
    l1'.phi.get .wrap g 50 0 0 = .ok z1 ∧ l2'.phi.get .wrap g 50 0 0 = .ok z2 ∧ 1 ≤ |z2 - z1| := by
  obtain ⟨g, e, -⟩ := C01_padded_addressing .wrap 1 longR longR_valid
  have Md := make_made longR_valid e
  obtain ⟨vel, hv, hg⟩ := velocity_exists (s := .wrap) Md (fun _ => ⟨-1, 0, 0⟩) (fun _ => Mat3.zero)
  obtain ⟨l1, S1⟩ := holds_exists Md (fun c => longR.centre 0 c.1 - 100) (fun _ => ⟨1, 0, 0⟩) []
  obtain ⟨l2, S2⟩ := holds_exists Md (fun c => longR.centre 0 c.1 - 100 + 1 / 2 ^ 40 * (-1) ^ c.1) (fun _ => ⟨1, 0, 0⟩) []
  have hh : longR.h 0 = 1 := by norm_num [longR, Req.h, Vec3.get]
  obtain ⟨l1', l2', F1', F2', G1', G2', e1, e2, T1, T2, dif⟩ := C103_doubles longR longR_valid longR_pos rfl g e g vel _ _
    (fun c hc => hv.val c (interior_padded Md hc)) (fun c hc => hg.val c (interior_padded Md hc)) (1 / 2) (-1) (fun _ _ => rfl)
    (by rw [hh]; norm_num) (by norm_num) l1 l2 _ _ _ _ S1 S2 (1 / 2 ^ 40) (fun i _ _ => rfl) 40
  have hi : longR.Interior (50, 0, 0) := by decide
  have := (dif 50 (by decide) (by decide)).1
  refine ⟨g, vel, l1, l2, l1', l2', _, _, _, _, F1' (50, 0, 0), F2' (50, 0, 0), e, fun c hc => ⟨hv.val c hc, hg.val c hc⟩, S1, S2, fun c => ⟨rfl, ?_⟩, e1, e2,
    T1.phi.val (50, 0, 0) (interior_padded Md hi), T2.phi.val (50, 0, 0) (interior_padded Md hi), ?_⟩
  · rw [add_sub_cancel_left, abs_mul, abs_zpow, abs_neg, abs_one, one_zpow, mul_one, abs_of_pos (by positivity)]
  · refine le_trans (le_of_eq ?_) this
    rw [abs_of_pos (by positivity)]
    norm_num

/-- Instance of `C103_factor` and of `C103_doubles`: zero and noise of size 1 at rest, three steps. -/
example : ∃ (g : Grid ℝ 1) (vel : LsVelocity ℝ) (l1 l2 l1' l2' : Levelset ℝ) (z1 z2 : ℝ), longR.make .wrap 1 = .ok g ∧
    recomputeSteps .wrap g g (1 / 2) vel 3 l1 = .ok l1' ∧ recomputeSteps .wrap g g (1 / 2) vel 3 l2 = .ok l2' ∧
    l1'.phi.get .wrap g 50 0 0 = .ok z1 ∧ l2'.phi.get .wrap g 50 0 0 = .ok z2 ∧ |z2 - z1| = (35 / 3) ^ 3 * |1| := by
  obtain ⟨g, e, -⟩ := C01_padded_addressing .wrap 1 longR longR_valid
  have Md := make_made longR_valid e
  obtain ⟨vel, hv, hg⟩ := velocity_exists (s := .wrap) Md (fun _ => ⟨0, 0, 0⟩) (fun _ => Mat3.zero)
  obtain ⟨l1, S1⟩ := holds_exists Md (fun _ => 0) (fun _ => ⟨1, 0, 0⟩) []
  obtain ⟨l2, S2⟩ := holds_exists Md (fun c => 0 + 1 * (-1) ^ c.1) (fun _ => ⟨1, 0, 0⟩) []
  have hh : longR.h 0 = 1 := by norm_num [longR, Req.h, Vec3.get]
  obtain ⟨l1', l2', F1', F2', G1', G2', e1, e2, T1, T2, dif⟩ := C103_doubles longR longR_valid longR_pos rfl g e g vel _ _
    (fun c hc => hv.val c (interior_padded Md hc)) (fun c hc => hg.val c (interior_padded Md hc)) (1 / 2) 0 (fun _ _ => rfl)
    (by rw [hh]; norm_num) (by norm_num) l1 l2 _ _ _ _ S1 S2 1 (fun i _ _ => rfl) 3
  have hi : longR.Interior (50, 0, 0) := by decide
  exact ⟨g, vel, l1, l2, l1', l2', F1' (50, 0, 0), F2' (50, 0, 0), e, e1, e2, T1.phi.val (50, 0, 0) (interior_padded Md hi),
    T2.phi.val (50, 0, 0) (interior_padded Md hi), (dif 50 (by decide) (by decide)).2 (by norm_num)⟩

end Gals.Props
