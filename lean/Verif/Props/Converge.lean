import Verif.Model.Carry
import Verif.Spec.Carry
import Verif.Lemmas.Converge
import Verif.Props.Stability

/-!
# C102: repeated steps in uniform flow on a line converge
-/

set_option linter.unusedSectionVars false
set_option linter.unusedSimpArgs false

namespace Gals.Props

open Gals Gals.Spec Set

/-- The departure points are in storage. -/
theorem carry_storage {r : Req ℝ} (h : r.Valid 1) (hpos : r.Pos 1) (hpad : r.pad = 1) {v : Cell → Vec3 ℝ} {τ w : ℝ}
    (hw : ∀ c, r.Interior c → (v c).x = w) (hcfl : |w * τ| < r.h 0) (c : Cell) (hc : r.Interior c) :
    InStorage r 1 ((nodePos r 1 c).sub ((v c).smul τ)) := by
  intro a ha
  have := near_node h hpos hpad.ge hc (near_step (u := v c) (dt := τ) (fun a ha => by
      match a with
      | 0 => show |(v c).x * τ| < _; rw [hw c hc]; exact hcfl
      | 1 => exact absurd ha (by decide)
      | 2 => exact absurd ha (by decide))) a ha
  exact ⟨this.1.le, this.2⟩

/-- A step between two states. -/
theorem carryStep_ok {r : Req ℝ} (h : r.Valid 1) (hpos : r.Pos 1) (hpad : r.pad = 1) {g : Grid ℝ 1}
    (e : r.make .wrap 1 = .ok g) {gv : Grid ℝ 1} {vel : LsVelocity ℝ} {v : Cell → Vec3 ℝ} {m : Cell → Mat3 ℝ}
    (hv : ∀ c, r.Interior c → vel.velocity.get .wrap gv c.1 c.2.1 c.2.2 = .ok (v c))
    (hg : ∀ c, r.Interior c → vel.grad.get .wrap gv c.1 c.2.1 c.2.2 = .ok (m c)) {τ w : ℝ}
    (hw : ∀ c, r.Interior c → (v c).x = w) (hm : ∀ c, r.Interior c → (m c).entry 0 0 = 0) (hcfl : |w * τ| < r.h 0)
    {ls : Levelset ℝ} {F : Cell → ℝ} {G : Cell → Vec3 ℝ} (S : Holds .wrap r g ls F G []) :
    ∃ ls' F' G', carryStep .wrap g gv τ vel ls = .ok ls' ∧ Holds .wrap r g ls' F' G' [] ∧
      (∀ c, ¬ r.Interior c → F' c = F c ∧ G' c = G c) ∧
      ∀ i : ℤ, 0 ≤ i → i < r.n.get 0 →
        F' (i, 0, 0) = cv (r.h 0) (F (i + ⌊-(w * τ / r.h 0)⌋, 0, 0)) (G (i + ⌊-(w * τ / r.h 0)⌋, 0, 0)).x
          (F (i + ⌊-(w * τ / r.h 0)⌋ + 1, 0, 0)) (G (i + ⌊-(w * τ / r.h 0)⌋ + 1, 0, 0)).x (Int.fract (-(w * τ / r.h 0))) ∧
        (G' (i, 0, 0)).x = cs (r.h 0) (F (i + ⌊-(w * τ / r.h 0)⌋, 0, 0)) (G (i + ⌊-(w * τ / r.h 0)⌋, 0, 0)).x
          (F (i + ⌊-(w * τ / r.h 0)⌋ + 1, 0, 0)) (G (i + ⌊-(w * τ / r.h 0)⌋ + 1, 0, 0)).x (Int.fract (-(w * τ / r.h 0))) := by
  have M := make_made h e
  have hh : 0 < r.h 0 := h.h_pos hpos 0 (by decide)
  have hst := carry_storage h hpos hpad hw hcfl
  obtain ⟨s1, s2, ⟨f3, s3⟩, ⟨f4, s4⟩, ⟨f5, s5⟩, ⟨f6, s6⟩, s7⟩ := S
  set l1 : Levelset ℝ := { ls with phiPrev := ls.phiPrev.assign ls.phi, psiPrev := ls.psiPrev.assign ls.psi } with hl1
  have a1 : FieldIs .wrap r g l1.phiPrev F := s3.assign s1
  have a2 : FieldIs .wrap r g l1.psiPrev G := s4.assign s2
  have P : PrevIs .wrap r g l1 F G (fun _ => []) := ⟨a1.val, a2.val, s7.val⟩
  have : Nonempty (Interp ℝ) := ⟨⟨0, ⟨0, 0, 0⟩⟩⟩
  obtain ⟨o, ho⟩ := choose_ok (p := r.Interior) (f := fun c => interpolate .wrap g l1 ((nodePos r 1 c).sub ((v c).smul τ)) false)
    fun c hc => interp_ok (fun _ => rfl) M h hpos (fun _ => rfl) P (hst c hc) false
  obtain ⟨ls', k1, k2, k3, -, k5, k6, k7, k8, k9⟩ := slEuler_ok (dt := τ) (ls := l1) M hv hg (fun c hc => M.atC (interior_padded M hc))
    s1 s2 s5 s6 ho
  refine ⟨ls', _, _, k1, ⟨k2, k3, ⟨F, by rw [k5]; exact a1⟩, ⟨G, by rw [k6]; exact a2⟩, ⟨_, k8⟩, ⟨_, k9⟩, by rw [k7]; exact s7⟩,
    fun c hc => ⟨if_neg hc, if_neg hc⟩, fun i i0 i1 => ?_⟩
  have n1 : r.n.y = 1 := h.ny_one (by decide)
  have n2 : r.n.z = 1 := h.nz_one (by decide)
  have hc : r.Interior (i, 0, 0) :=
    ⟨⟨i0, i1⟩, ⟨le_refl _, by rw [n1]; exact Int.zero_lt_one⟩, ⟨le_refl _, by rw [n2]; exact Int.zero_lt_one⟩⟩
  set D := w * τ / r.h 0 with hD
  have px : ((nodePos r 1 (i, 0, 0)).sub ((v (i, 0, 0)).smul τ)).x = r.centre 0 i - D * r.h 0 := by
    have e1 := nodePos_get (d := 1) r (i, 0, 0) 0
    rw [hpad] at e1
    have e2 : (nodePos r 1 (i, 0, 0)).x = r.centre 0 i := by simpa [Vec3.get, comp] using e1
    have e3 := get_step (nodePos r 1 (i, 0, 0)) (v (i, 0, 0)) τ 0
    have e4 : (v (i, 0, 0)).get 0 = w := hw _ hc
    rw [e4] at e3
    have e5 : D * r.h 0 = w * τ := by rw [hD]; field_simp
    rw [e5, ← e2]
    exact e3
  obtain ⟨-, -, q3⟩ := shifted h hpos hpad M P (hst _ hc) px
  have q4 := Except.ok.inj ((ho _ hc).symm.trans q3)
  simp only [if_pos hc]
  refine ⟨by rw [q4], ?_⟩
  have := entry_step (m (i, 0, 0)) τ (o (i, 0, 0)).psi 0
  rw [Fin.sum_univ_three, hm _ hc] at this
  rw [q4] at this ⊢
  simp only [Vec3.get, zero_mul, mul_zero, add_zero, sub_zero, Fin.isValue] at this
  exact this

/-- The states of the first `k` steps. -/
theorem carrySteps_ok {r : Req ℝ} (h : r.Valid 1) (hpos : r.Pos 1) (hpad : r.pad = 1) {g : Grid ℝ 1}
    (e : r.make .wrap 1 = .ok g) {gv : Grid ℝ 1} {vel : LsVelocity ℝ} {v : Cell → Vec3 ℝ} {m : Cell → Mat3 ℝ}
    (hv : ∀ c, r.Interior c → vel.velocity.get .wrap gv c.1 c.2.1 c.2.2 = .ok (v c))
    (hg : ∀ c, r.Interior c → vel.grad.get .wrap gv c.1 c.2.1 c.2.2 = .ok (m c)) {τ w : ℝ}
    (hw : ∀ c, r.Interior c → (v c).x = w) (hm : ∀ c, r.Interior c → (m c).entry 0 0 = 0) (hcfl : |w * τ| < r.h 0)
    {ls : Levelset ℝ} {F : Cell → ℝ} {G : Cell → Vec3 ℝ} (S : Holds .wrap r g ls F G []) (k : ℕ) :
    ∃ (ls' : Levelset ℝ) (f : ℕ → Cell → ℝ) (q : ℕ → Cell → Vec3 ℝ), carrySteps .wrap g gv τ vel k ls = .ok ls' ∧
      Holds .wrap r g ls' (f k) (q k) [] ∧ f 0 = F ∧ q 0 = G ∧
      (∀ j, j < k → ∀ c, ¬ r.Interior c → f (j + 1) c = f j c ∧ q (j + 1) c = q j c) ∧
      ∀ j, j < k → ∀ i : ℤ, 0 ≤ i → i < r.n.get 0 →
        f (j + 1) (i, 0, 0) = cv (r.h 0) (f j (i + ⌊-(w * τ / r.h 0)⌋, 0, 0)) (q j (i + ⌊-(w * τ / r.h 0)⌋, 0, 0)).x
          (f j (i + ⌊-(w * τ / r.h 0)⌋ + 1, 0, 0)) (q j (i + ⌊-(w * τ / r.h 0)⌋ + 1, 0, 0)).x (Int.fract (-(w * τ / r.h 0))) ∧
        (q (j + 1) (i, 0, 0)).x = cs (r.h 0) (f j (i + ⌊-(w * τ / r.h 0)⌋, 0, 0)) (q j (i + ⌊-(w * τ / r.h 0)⌋, 0, 0)).x
          (f j (i + ⌊-(w * τ / r.h 0)⌋ + 1, 0, 0)) (q j (i + ⌊-(w * τ / r.h 0)⌋ + 1, 0, 0)).x (Int.fract (-(w * τ / r.h 0))) := by
  induction k with
  | zero => exact ⟨ls, fun _ => F, fun _ => G, rfl, S, rfl, rfl, fun j hj => absurd hj (by omega), fun j hj => absurd hj (by omega)⟩
  | succ k ih =>
    obtain ⟨l1, f, q, e1, S1, f0, q0, gh, st⟩ := ih
    obtain ⟨l2, F', G', e2, S2, gh', st'⟩ := carryStep_ok h hpos hpad e hv hg hw hm hcfl S1
    refine ⟨l2, Function.update f (k + 1) F', Function.update q (k + 1) G', ?_, ?_, ?_, ?_, ?_, ?_⟩
    · simp only [carrySteps]
      rw [e1, M.ok_bind]
      exact e2
    · rw [Function.update_self, Function.update_self]
      exact S2
    · rw [Function.update_of_ne (by omega)]
      exact f0
    · rw [Function.update_of_ne (by omega)]
      exact q0
    · intro j hj c hc
      rw [Function.update_of_ne (show j ≠ k + 1 by omega), Function.update_of_ne (show j ≠ k + 1 by omega)]
      rcases Nat.lt_succ_iff_lt_or_eq.1 hj with hj | rfl
      · rw [Function.update_of_ne (show j + 1 ≠ k + 1 by omega), Function.update_of_ne (show j + 1 ≠ k + 1 by omega)]
        exact gh j hj c hc
      · rw [Function.update_self, Function.update_self]
        exact gh' c hc
    · intro j hj i i0 i1
      rw [Function.update_of_ne (show j ≠ k + 1 by omega), Function.update_of_ne (show j ≠ k + 1 by omega)]
      rcases Nat.lt_succ_iff_lt_or_eq.1 hj with hj | rfl
      · rw [Function.update_of_ne (show j + 1 ≠ k + 1 by omega), Function.update_of_ne (show j + 1 ≠ k + 1 by omega)]
        exact st j hj i i0 i1
      · rw [Function.update_self, Function.update_self]
        exact st' i i0 i1

/-- C102: on a line with padding 1, in a flow of the same velocity `w` at all interior nodes (and no velocity gradient) with
`|w τ| < h`, let the level set hold a function `u` and its derivative at the stored nodes, where `u` is twice differentiable with
second derivative at most `M` between the first and the last of them.  Then any number `k` of steps with the gradient carried along
returns, and at each interior node whose data came only from stored nodes of the start (at least `k - 1` nodes lie upstream of
it) the value is at most `k M h² / 13` away from the exact solution `u (x - k w τ)`. -/
theorem C102_line (r : Req ℝ) (h : r.Valid 1) (hpos : r.Pos 1) (hpad : r.pad = 1) (g : Grid ℝ 1)
    (e : r.make .wrap 1 = .ok g) (gv : Grid ℝ 1) (vel : LsVelocity ℝ) (v : Cell → Vec3 ℝ) (m : Cell → Mat3 ℝ)
    (hv : ∀ c, r.Interior c → vel.velocity.get .wrap gv c.1 c.2.1 c.2.2 = .ok (v c))
    (hg : ∀ c, r.Interior c → vel.grad.get .wrap gv c.1 c.2.1 c.2.2 = .ok (m c)) (τ w : ℝ)
    (hw : ∀ c, r.Interior c → (v c).x = w) (hm : ∀ c, r.Interior c → (m c).entry 0 0 = 0) (hcfl : |w * τ| < r.h 0)
    (u u' u'' : ℝ → ℝ) (M : ℝ) (h1 : ∀ y ∈ Icc (r.centre 0 (-1)) (r.centre 0 (r.n.get 0)), HasDerivAt u (u' y) y)
    (h2 : ∀ y ∈ Icc (r.centre 0 (-1)) (r.centre 0 (r.n.get 0)), HasDerivAt u' (u'' y) y)
    (hM : ∀ y ∈ Icc (r.centre 0 (-1)) (r.centre 0 (r.n.get 0)), |u'' y| ≤ M)
    (ls : Levelset ℝ) (F : Cell → ℝ) (G : Cell → Vec3 ℝ) (S : Holds .wrap r g ls F G [])
    (hF : ∀ i, -1 ≤ i → i ≤ r.n.get 0 → F (i, 0, 0) = u (r.centre 0 i) ∧ (G (i, 0, 0)).x = u' (r.centre 0 i)) (k : ℕ) :
    ∃ (ls' : Levelset ℝ) (F' : Cell → ℝ), carrySteps .wrap g gv τ vel k ls = .ok ls' ∧
      (∀ c, r.Interior c → ls'.phi.get .wrap g c.1 c.2.1 c.2.2 = .ok (F' c)) ∧
      ∀ i : ℤ, 0 ≤ i → i < r.n.get 0 → (0 < w * τ → k ≤ i + 1) → (w * τ ≤ 0 → i + k ≤ r.n.get 0) →
        13 * |F' (i, 0, 0) - u (r.centre 0 i - k * (w * τ))| ≤ k * M * r.h 0 ^ 2 := by
  have Md := make_made h e
  have hh : 0 < r.h 0 := h.h_pos hpos 0 (by decide)
  obtain ⟨ls', f, q, e1, S1, f0, q0, -, st⟩ := carrySteps_ok h hpos hpad e hv hg hw hm hcfl S k
  refine ⟨ls', f k, e1, fun c hc => S1.phi.val c (interior_padded Md hc), fun i i0 i1 up dn => ?_⟩
  have M0 : 0 ≤ M := by
    have hle : r.centre 0 (-1) ≤ r.centre 0 (r.n.get 0) := by
      have := centre_sub r 0 (r.n.get 0) (-1)
      have n0 : (0 : ℝ) ≤ r.n.get 0 := by exact_mod_cast (by omega : (0 : ℤ) ≤ r.n.get 0)
      push_cast at this
      nlinarith
    exact (abs_nonneg _).trans (hM _ (left_mem_Icc.2 hle))
  rcases Nat.eq_zero_or_pos k with rfl | k0
  · rw [f0, (hF i (by omega) (by omega)).1]
    simp
  obtain ⟨K, rfl⟩ : ∃ K, k = K + 1 := ⟨k - 1, by omega⟩
  set D := w * τ / r.h 0 with hD
  have e5 : D * r.h 0 = w * τ := by rw [hD]; field_simp
  obtain ⟨d0, d1⟩ := abs_lt.1 hcfl
  have dlo : -1 < D := by rw [hD, lt_div_iff₀ hh]; linarith
  have dhi : D < 1 := by rw [hD, div_lt_one hh]; exact d1
  -- the side of the flow
  have side : (⌊-D⌋ = -1 ∧ ((K + 1 : ℕ) : ℤ) ≤ i + 1) ∨ (⌊-D⌋ = 0 ∧ i + ((K + 1 : ℕ) : ℤ) ≤ r.n.get 0) := by
    rcases lt_or_ge 0 (w * τ) with hp | hp
    · left
      have : 0 < D := by rw [hD]; positivity
      refine ⟨?_, up hp⟩
      rw [Int.floor_eq_iff]
      push_cast
      constructor <;> linarith
    · right
      have : D ≤ 0 := by rw [hD]; exact div_nonpos_of_nonpos_of_nonneg hp hh.le
      refine ⟨?_, dn hp⟩
      rw [Int.floor_eq_iff]
      push_cast
      constructor <;> linarith
  set b := ⌊-D⌋ with hb
  set t := Int.fract (-D) with ht
  have ebt : (b : ℝ) + t = -D := Int.floor_add_fract (-D)
  have cen : ∀ c : ℤ, r.centre 0 c = r.centre 0 0 + c * r.h 0 := by
    intro c
    have := centre_sub r 0 c 0
    push_cast at this
    linarith
  have lo : -1 ≤ i + (K + 1) * b := by rcases side with ⟨s1, s2⟩ | ⟨s1, s2⟩ <;> rw [s1] <;> push_cast at s2 <;> linarith
  have hi : i + (K + 1) * b + (K + 1) ≤ r.n.get 0 := by
    rcases side with ⟨s1, s2⟩ | ⟨s1, s2⟩ <;> rw [s1] <;> push_cast at s2 <;> linarith
  have sub : Icc (r.centre 0 0 + (i + (K + 1) * b) * r.h 0) (r.centre 0 0 + (i + (K + 1) * b + (K + 1)) * r.h 0) ⊆
      Icc (r.centre 0 (-1)) (r.centre 0 (r.n.get 0)) := by
    rw [cen (-1), cen (r.n.get 0)]
    have lo' : ((-1 : ℤ) : ℝ) ≤ i + (K + 1) * b := by exact_mod_cast lo
    have hi' : (i : ℝ) + (K + 1) * b + (K + 1) ≤ r.n.get 0 := by exact_mod_cast hi
    refine Icc_subset_Icc ?_ ?_
    · nlinarith
    · nlinarith
  have inn : ∀ m : ℕ, m ≤ K → ∀ c : ℤ, i + m * b ≤ c → c ≤ i + m * b + m → 0 ≤ c ∧ c < r.n.get 0 := by
    intro m mK c c0 c1
    have mK' : (m : ℤ) ≤ K := by exact_mod_cast mK
    rcases side with ⟨s1, s2⟩ | ⟨s1, s2⟩ <;> rw [s1] at c0 c1 <;> push_cast at s2 <;> constructor <;> omega
  have := carried hh (Int.fract_nonneg (-D)) (Int.fract_lt_one (-D)) (x := r.centre 0 0) (fun j c => f j (c, 0, 0)) (fun j c => (q j (c, 0, 0)).x) i b K
    (fun y hy => h1 y (sub hy)) (fun y hy => h2 y (sub hy)) (fun y hy => hM y (sub hy))
    (fun c c0 c1 => by rw [f0, (hF c (by omega) (by omega)).1, cen c]) (fun c c0 c1 => by rw [q0, (hF c (by omega) (by omega)).2, cen c])
    (fun j m hjm c c0 c1 => (st j (by omega) c (inn m (by omega) c c0 c1).1 (inn m (by omega) c c0 c1).2).1)
    (fun j m hjm c c0 c1 => (st j (by omega) c (inn m (by omega) c c0 c1).1 (inn m (by omega) c c0 c1).2).2)
  have ex : r.centre 0 0 + (i + (K + 1) * (b + Int.fract (-D))) * r.h 0 = r.centre 0 i - ((K + 1 : ℕ) : ℝ) * (w * τ) := by
    rw [ebt, cen i, ← e5]
    push_cast
    ring
  rw [ex] at this
  rw [abs_sub_comm]
  generalize u (r.centre 0 i - ((K + 1 : ℕ) : ℝ) * (w * τ)) - f (K + 1) (i, 0, 0) = z at this
  have B0 : 0 ≤ ((K + 1 : ℕ) : ℝ) * M * r.h 0 ^ 2 := by positivity
  push_cast at B0 ⊢
  refine abs_le_of_sq_le_sq' ?_ B0 |>.2
  rw [mul_pow, sq_abs]
  nlinarith [sq_nonneg z]

/-- C102 as a rate: steps of at least `λ` cells take the level set over the time `k τ` with an error of at most
`|w| (k τ) M h / (13 λ)`, which is of first order in the cell width. -/
theorem C102_rate (r : Req ℝ) (h : r.Valid 1) (hpos : r.Pos 1) (hpad : r.pad = 1) (g : Grid ℝ 1)
    (e : r.make .wrap 1 = .ok g) (gv : Grid ℝ 1) (vel : LsVelocity ℝ) (v : Cell → Vec3 ℝ) (m : Cell → Mat3 ℝ)
    (hv : ∀ c, r.Interior c → vel.velocity.get .wrap gv c.1 c.2.1 c.2.2 = .ok (v c))
    (hg : ∀ c, r.Interior c → vel.grad.get .wrap gv c.1 c.2.1 c.2.2 = .ok (m c)) (τ w l : ℝ) (hl : 0 < l) (hτ : l * r.h 0 ≤ |w| * τ)
    (hw : ∀ c, r.Interior c → (v c).x = w) (hm : ∀ c, r.Interior c → (m c).entry 0 0 = 0) (hcfl : |w * τ| < r.h 0)
    (u u' u'' : ℝ → ℝ) (M : ℝ) (h1 : ∀ y ∈ Icc (r.centre 0 (-1)) (r.centre 0 (r.n.get 0)), HasDerivAt u (u' y) y)
    (h2 : ∀ y ∈ Icc (r.centre 0 (-1)) (r.centre 0 (r.n.get 0)), HasDerivAt u' (u'' y) y)
    (hM : ∀ y ∈ Icc (r.centre 0 (-1)) (r.centre 0 (r.n.get 0)), |u'' y| ≤ M)
    (ls : Levelset ℝ) (F : Cell → ℝ) (G : Cell → Vec3 ℝ) (S : Holds .wrap r g ls F G [])
    (hF : ∀ i, -1 ≤ i → i ≤ r.n.get 0 → F (i, 0, 0) = u (r.centre 0 i) ∧ (G (i, 0, 0)).x = u' (r.centre 0 i)) (k : ℕ) :
    ∃ (ls' : Levelset ℝ) (F' : Cell → ℝ), carrySteps .wrap g gv τ vel k ls = .ok ls' ∧
      (∀ c, r.Interior c → ls'.phi.get .wrap g c.1 c.2.1 c.2.2 = .ok (F' c)) ∧
      ∀ i : ℤ, 0 ≤ i → i < r.n.get 0 → (0 < w * τ → k ≤ i + 1) → (w * τ ≤ 0 → i + k ≤ r.n.get 0) →
        13 * l * |F' (i, 0, 0) - u (r.centre 0 i - w * (k * τ))| ≤ |w| * (k * τ) * M * r.h 0 := by
  have hh : 0 < r.h 0 := h.h_pos hpos 0 (by decide)
  obtain ⟨ls', F', e1, e2, e3⟩ := C102_line r h hpos hpad g e gv vel v m hv hg τ w hw hm hcfl u u' u'' M h1 h2 hM ls F G S hF k
  refine ⟨ls', F', e1, e2, fun i i0 i1 up dn => ?_⟩
  have key := e3 i i0 i1 up dn
  rw [show w * ((k : ℝ) * τ) = k * (w * τ) by ring]
  have M0 : 0 ≤ (k : ℝ) * M * r.h 0 := by
    have : 0 ≤ (k : ℝ) * M * r.h 0 ^ 2 := le_trans (by positivity) key
    rw [pow_two, ← mul_assoc] at this
    exact nonneg_of_mul_nonneg_left this hh
  calc 13 * l * |F' (i, 0, 0) - u (r.centre 0 i - k * (w * τ))| = l * (13 * |F' (i, 0, 0) - u (r.centre 0 i - k * (w * τ))|) := by ring
    _ ≤ l * (k * M * r.h 0 ^ 2) := mul_le_mul_of_nonneg_left key hl.le
    _ = k * M * r.h 0 * (l * r.h 0) := by ring
    _ ≤ k * M * r.h 0 * (|w| * τ) := mul_le_mul_of_nonneg_left hτ M0
    _ = _ := by ring

/-- Level sets with given values and gradients. -/
theorem holds_exists {r : Req ℝ} {g : Grid ℝ 1} (Md : g.Made .wrap r) (F : Cell → ℝ) (G : Cell → Vec3 ℝ) (mix : List ℝ) :
    ∃ ls : Levelset ℝ, Holds .wrap r g ls F G mix := by
  obtain ⟨a0, h0⟩ := fieldIs_exists (s := .wrap) Md F
  obtain ⟨b0, k0⟩ := fieldIs_exists (s := .wrap) Md G
  obtain ⟨m0, l0⟩ := fieldIs_exists (s := .wrap) Md (fun _ : Cell => mix)
  obtain ⟨l⟩ : Nonempty (Levelset ℝ) := ⟨Levelset.mk' g⟩
  exact ⟨{ l with phi := a0, psi := b0, phiPrev := a0, psiPrev := b0, phiInterpPrev := a0, psiInterpPrev := b0, phiMixedPrev := m0 },
    h0, k0, ⟨_, h0⟩, ⟨_, k0⟩, ⟨_, h0⟩, ⟨_, k0⟩, l0⟩

/-- Instance of `C102_line`: three cells of width 1, sine data, velocity 1, time step 3/10, three steps; the last node has moved by
9/10 with an error of at most 3/13. -/
example : ∃ (g : Grid ℝ 1) (vel : LsVelocity ℝ) (ls ls' : Levelset ℝ) (z : ℝ), (lineR 1).make .wrap 1 = .ok g ∧
    (∀ c, (lineR 1).Padded 1 c → ls.phi.get .wrap g c.1 c.2.1 c.2.2 = .ok (Real.sin ((lineR 1).centre 0 c.1))) ∧
    carrySteps .wrap g g (3 / 10) vel 3 ls = .ok ls' ∧ ls'.phi.get .wrap g 2 0 0 = .ok z ∧
    |z - Real.sin ((lineR 1).centre 0 2 - 9 / 10)| ≤ 3 / 13 := by
  obtain ⟨g, e, -⟩ := C01_padded_addressing .wrap 1 (lineR 1) lineR_valid
  have Md := make_made lineR_valid e
  obtain ⟨vel, hv, hg⟩ := velocity_exists (s := .wrap) Md (fun _ => ⟨1, 0, 0⟩) (fun _ => Mat3.zero)
  obtain ⟨ls, S⟩ := holds_exists Md (fun c => Real.sin ((lineR 1).centre 0 c.1)) (fun c => ⟨Real.cos ((lineR 1).centre 0 c.1), 0, 0⟩) []
  have hh : (lineR 1).h 0 = 1 := by norm_num [lineR, Req.h, Vec3.get]
  obtain ⟨ls', F', e1, e2, e3⟩ := C102_line (lineR 1) lineR_valid (lineR_pos 1) rfl g e g vel _ _
    (fun c hc => hv.val c (interior_padded Md hc)) (fun c hc => hg.val c (interior_padded Md hc)) (3 / 10) 1 (fun _ _ => rfl)
    (fun _ _ => rfl) (by rw [hh]; norm_num [abs_lt]) Real.sin Real.cos (fun y => -Real.sin y) 1 (fun y _ => Real.hasDerivAt_sin y)
    (fun y _ => Real.hasDerivAt_cos y) (fun y _ => by rw [abs_neg]; exact Real.abs_sin_le_one y) ls _ _ S (fun i _ _ => ⟨rfl, rfl⟩) 3
  have hi : (lineR 1).Interior (2, 0, 0) := by decide
  refine ⟨g, vel, ls, ls', _, e, fun c hc => S.phi.val c hc, e1, e2 (2, 0, 0) hi, ?_⟩
  have := e3 2 (by decide) (by decide) (fun _ => by norm_num) (fun hc => absurd hc (by norm_num))
  rw [hh] at this
  norm_num at this ⊢
  linarith

/-- Instance of `C102_rate`: the same with `l = 3/10`. -/
example : ∃ (g : Grid ℝ 1) (vel : LsVelocity ℝ) (ls ls' : Levelset ℝ) (z : ℝ), (lineR 1).make .wrap 1 = .ok g ∧
    carrySteps .wrap g g (3 / 10) vel 3 ls = .ok ls' ∧ ls'.phi.get .wrap g 2 0 0 = .ok z ∧
    13 * (3 / 10) * |z - Real.sin ((lineR 1).centre 0 2 - 1 * (3 * (3 / 10)))| ≤ |1| * (3 * (3 / 10)) * 1 * 1 := by
  obtain ⟨g, e, -⟩ := C01_padded_addressing .wrap 1 (lineR 1) lineR_valid
  have Md := make_made lineR_valid e
  obtain ⟨vel, hv, hg⟩ := velocity_exists (s := .wrap) Md (fun _ => ⟨1, 0, 0⟩) (fun _ => Mat3.zero)
  obtain ⟨ls, S⟩ := holds_exists Md (fun c => Real.sin ((lineR 1).centre 0 c.1)) (fun c => ⟨Real.cos ((lineR 1).centre 0 c.1), 0, 0⟩) []
  have hh : (lineR 1).h 0 = 1 := by norm_num [lineR, Req.h, Vec3.get]
  obtain ⟨ls', F', e1, e2, e3⟩ := C102_rate (lineR 1) lineR_valid (lineR_pos 1) rfl g e g vel _ _
    (fun c hc => hv.val c (interior_padded Md hc)) (fun c hc => hg.val c (interior_padded Md hc)) (3 / 10) 1 (3 / 10) (by norm_num)
    (by rw [hh]; norm_num) (fun _ _ => rfl)
    (fun _ _ => rfl) (by rw [hh]; norm_num [abs_lt]) Real.sin Real.cos (fun y => -Real.sin y) 1 (fun y _ => Real.hasDerivAt_sin y)
    (fun y _ => Real.hasDerivAt_cos y) (fun y _ => by rw [abs_neg]; exact Real.abs_sin_le_one y) ls _ _ S (fun i _ _ => ⟨rfl, rfl⟩) 3
  have hi : (lineR 1).Interior (2, 0, 0) := by decide
  have := e3 2 (by decide) (by decide) (fun _ => by norm_num) (fun hc => absurd hc (by norm_num))
  rw [hh] at this
  exact ⟨g, vel, ls, ls', _, e, e1, e2 (2, 0, 0) hi, this⟩

/-- Upstream of the nodes of C102 the bound is false, since no step writes the ghost cells: on every line with padding 1 and for
every displacement `w τ` to the right of less than a cell, the level set `phi = x` (for which the bound says that the steps are
exact) is after two steps too large at the first node. -/
theorem C102_inflow_false (r : Req ℝ) (h : r.Valid 1) (hpos : r.Pos 1) (hpad : r.pad = 1) (g : Grid ℝ 1)
    (e : r.make .wrap 1 = .ok g) (τ w : ℝ) (h0 : 0 < w * τ) (hcfl : w * τ < r.h 0) :
    ∃ (vel : LsVelocity ℝ) (ls ls' : Levelset ℝ) (z : ℝ),
      (∀ c, r.Padded 1 c → vel.velocity.get .wrap g c.1 c.2.1 c.2.2 = .ok ⟨w, 0, 0⟩ ∧ vel.grad.get .wrap g c.1 c.2.1 c.2.2 = .ok Mat3.zero) ∧
      Holds .wrap r g ls (fun c => r.centre 0 c.1) (fun _ => ⟨1, 0, 0⟩) [] ∧
      carrySteps .wrap g g τ vel 2 ls = .ok ls' ∧ ls'.phi.get .wrap g 0 0 0 = .ok z ∧ r.centre 0 0 - 2 * (w * τ) < z := by
  have Md := make_made h e
  have hh : 0 < r.h 0 := h.h_pos hpos 0 (by decide)
  have hn : 0 < r.n.get 0 := h.nx_pos
  have n1 : r.n.y = 1 := h.ny_one (by decide)
  have n2 : r.n.z = 1 := h.nz_one (by decide)
  obtain ⟨vel, hv, hg⟩ := velocity_exists (s := .wrap) Md (fun _ => ⟨w, 0, 0⟩) (fun _ => Mat3.zero)
  obtain ⟨ls, S⟩ := holds_exists Md (fun c => r.centre 0 c.1) (fun _ => ⟨1, 0, 0⟩) []
  obtain ⟨ls', f, q, e1, S1, f0, q0, gh, st⟩ := carrySteps_ok h hpos hpad e (fun c hc => hv.val c (interior_padded Md hc))
    (fun c hc => hg.val c (interior_padded Md hc)) (τ := τ) (w := w) (fun _ _ => rfl) (fun _ _ => rfl) (abs_lt.2 ⟨by linarith, hcfl⟩) S 2
  have i0 : r.Interior (0, 0, 0) := ⟨⟨le_rfl, hn⟩, ⟨le_refl _, by rw [n1]; exact Int.zero_lt_one⟩, ⟨le_refl _, by rw [n2]; exact Int.zero_lt_one⟩⟩
  have im : ¬ r.Interior (-1, 0, 0) := fun hc => absurd hc.1.1 (by decide)
  refine ⟨vel, ls, ls', f 2 (0, 0, 0), fun c hc => ⟨hv.val c hc, hg.val c hc⟩, S, e1, S1.phi.val (0, 0, 0) (interior_padded Md i0), ?_⟩
  set D := w * τ / r.h 0 with hD
  have e5 : w * τ = D * r.h 0 := by rw [hD]; field_simp
  have dlo : 0 < D := by rw [hD]; positivity
  have dhi : D < 1 := by rw [hD, div_lt_one hh]; exact hcfl
  have fl : ⌊-D⌋ = -1 := by
    rw [Int.floor_eq_iff]
    push_cast
    constructor <;> linarith
  have fr : Int.fract (-D) = 1 - D := by
    unfold Int.fract
    rw [fl]
    push_cast
    ring
  have s0 := st 0 (by omega) 0 le_rfl hn
  have s1 := (st 1 (by omega) 0 le_rfl hn).1
  rw [fl, fr] at s0 s1
  have z1 : (0 : ℤ) + -1 + 1 = 0 := by decide
  have z2 : (0 : ℤ) + -1 = -1 := by decide
  rw [z1, z2] at s0 s1
  rw [(gh 0 (by omega) _ im).1, (gh 0 (by omega) _ im).2, s0.1, s0.2] at s1
  have lo := centre_sub r 0 0 (-1)
  push_cast at lo
  have z3 : r.centre 0 0 = r.centre 0 (-1) + r.h 0 := by linarith
  rw [s1, f0, q0]
  simp only [z3, cv, cs, basis, basis', T1_four, B0, B1, B2, B3, B0', B1', B2', B3', sqr, cube]
  rw [e5]
  have key : 0 < r.h 0 * D ^ 3 * (3 - 2 * D) := by
    have : 0 < 3 - 2 * D := by linarith
    positivity
  refine lt_of_sub_pos (lt_of_lt_of_eq key ?_)
  field_simp
  ring

/-- Instance of `C102_inflow_false`: three cells of width 1, velocity 1, time step 3/10. -/
example : ∃ (g : Grid ℝ 1) (vel : LsVelocity ℝ) (ls ls' : Levelset ℝ) (z : ℝ), (lineR 1).make .wrap 1 = .ok g ∧
    carrySteps .wrap g g (3 / 10) vel 2 ls = .ok ls' ∧ ls'.phi.get .wrap g 0 0 0 = .ok z ∧ (lineR 1).centre 0 0 - 2 * (1 * (3 / 10)) < z := by
  obtain ⟨g, e, -⟩ := C01_padded_addressing .wrap 1 (lineR 1) lineR_valid
  obtain ⟨vel, ls, ls', z, -, -, k1, k2, k3⟩ := C102_inflow_false (lineR 1) lineR_valid (lineR_pos 1) rfl g e
    (3 / 10) 1 (by norm_num) (by norm_num [lineR, Req.h, Vec3.get])
  exact ⟨g, vel, ls, ls', z, e, k1, k2, k3⟩

end Gals.Props
