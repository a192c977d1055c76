import Verif.Lemmas.SecondOrder
import Verif.Props.Converge
import Verif.Props.Accuracy

/-!
# C104: in uniform flow on a line the steps are of second order for smooth level sets
-/

set_option linter.unusedSectionVars false
set_option linter.unusedSimpArgs false

namespace Gals.Props

open Gals Gals.Spec Set

/-- C104: on a line with padding 1, in a flow of the same velocity `w` at all interior nodes (and no velocity gradient) with
`|w τ| < h`, let the level set hold at the stored nodes the values and derivatives of a four times continuously differentiable
function `u`, with fourth derivative at most `M` between the first and the last of them.  Then any number `k` of steps with the
gradient carried along returns, and at each interior node whose data came only from stored nodes of the start the value is at most
`k² M h⁴ / 27` away from the exact solution `u (x - k w τ)` and the gradient at most `k² M h³ / 4` away from its derivative. -/
theorem C104_line (r : Req ℝ) (h : r.Valid 1) (hpos : r.Pos 1) (hpad : r.pad = 1) (g : Grid ℝ 1)
    (e : r.make .wrap 1 = .ok g) (gv : Grid ℝ 1) (vel : LsVelocity ℝ) (v : Cell → Vec3 ℝ) (m : Cell → Mat3 ℝ)
    (hv : ∀ c, r.Interior c → vel.velocity.get .wrap gv c.1 c.2.1 c.2.2 = .ok (v c))
    (hg : ∀ c, r.Interior c → vel.grad.get .wrap gv c.1 c.2.1 c.2.2 = .ok (m c)) (τ w : ℝ)
    (hw : ∀ c, r.Interior c → (v c).x = w) (hm : ∀ c, r.Interior c → (m c).entry 0 0 = 0) (hcfl : |w * τ| < r.h 0)
    (u u' : ℝ → ℝ) (M : ℝ) (hu' : ∀ y, HasDerivAt u (u' y) y) (hu : Quartic u (r.centre 0 (-1)) (r.centre 0 (r.n.get 0)) M)
    (ls : Levelset ℝ) (F : Cell → ℝ) (G : Cell → Vec3 ℝ) (S : Holds .wrap r g ls F G [])
    (hF : ∀ i, -1 ≤ i → i ≤ r.n.get 0 → F (i, 0, 0) = u (r.centre 0 i) ∧ (G (i, 0, 0)).x = u' (r.centre 0 i)) (k : ℕ) :
    ∃ (ls' : Levelset ℝ) (F' : Cell → ℝ) (G' : Cell → Vec3 ℝ), carrySteps .wrap g gv τ vel k ls = .ok ls' ∧
      (∀ c, r.Interior c → ls'.phi.get .wrap g c.1 c.2.1 c.2.2 = .ok (F' c) ∧ ls'.psi.get .wrap g c.1 c.2.1 c.2.2 = .ok (G' c)) ∧
      ∀ i : ℤ, 0 ≤ i → i < r.n.get 0 → (0 < w * τ → k ≤ i + 1) → (w * τ ≤ 0 → i + k ≤ r.n.get 0) →
        27 * |F' (i, 0, 0) - u (r.centre 0 i - k * (w * τ))| ≤ k ^ 2 * M * r.h 0 ^ 4 ∧
        4 * |(G' (i, 0, 0)).x - u' (r.centre 0 i - k * (w * τ))| ≤ k ^ 2 * M * r.h 0 ^ 3 := by
  have Md := make_made h e
  have hh : 0 < r.h 0 := h.h_pos hpos 0 (by decide)
  obtain ⟨ls', f, q, e1, S1, f0, q0, -, st⟩ := carrySteps_ok h hpos hpad e hv hg hw hm hcfl S k
  refine ⟨ls', f k, q k, e1, fun c hc => ⟨S1.phi.val c (interior_padded Md hc), S1.psi.val c (interior_padded Md hc)⟩, fun i i0 i1 up dn => ?_⟩
  rcases Nat.eq_zero_or_pos k with rfl | k0
  · rw [f0, q0, (hF i (by omega) (by omega)).1, (hF i (by omega) (by omega)).2]
    simp
  obtain ⟨K, rfl⟩ : ∃ K, k = K + 1 := ⟨k - 1, by omega⟩
  set D := w * τ / r.h 0 with hD
  have e5 : D * r.h 0 = w * τ := by rw [hD]; field_simp
  obtain ⟨d0, d1⟩ := abs_lt.1 hcfl
  have dlo : -1 < D := by rw [hD, lt_div_iff₀ hh]; linarith
  have dhi : D < 1 := by rw [hD, div_lt_one hh]; exact d1
  -- the side of the flow
  have side : (⌊-D⌋ = -1 ∧ ((K + 1 : ℕ) : ℤ) ≤ i + 1) ∨ (⌊-D⌋ = 0 ∧ i + ((K + 1 : ℕ) : ℤ) ≤ r.n.get 0) := by
    rcases lt_or_ge 0 (w * τ) with hp | hp
    · left
      have : 0 < D := by rw [hD]; positivity
      refine ⟨?_, up hp⟩
      rw [Int.floor_eq_iff]
      push_cast
      constructor <;> linarith
    · right
      have : D ≤ 0 := by rw [hD]; exact div_nonpos_of_nonpos_of_nonneg hp hh.le
      refine ⟨?_, dn hp⟩
      rw [Int.floor_eq_iff]
      push_cast
      constructor <;> linarith
  set b := ⌊-D⌋ with hb
  set t := Int.fract (-D) with ht
  have ebt : (b : ℝ) + t = -D := Int.floor_add_fract (-D)
  have cen : ∀ c : ℤ, r.centre 0 c = r.centre 0 0 + c * r.h 0 := by
    intro c
    have := centre_sub r 0 c 0
    push_cast at this
    linarith
  have lo : -1 ≤ i + (K + 1) * b := by rcases side with ⟨s1, s2⟩ | ⟨s1, s2⟩ <;> rw [s1] <;> push_cast at s2 <;> linarith
  have hi : i + (K + 1) * b + (K + 1) ≤ r.n.get 0 := by
    rcases side with ⟨s1, s2⟩ | ⟨s1, s2⟩ <;> rw [s1] <;> push_cast at s2 <;> linarith
  have sub : Icc (r.centre 0 0 + (i + (K + 1) * b) * r.h 0) (r.centre 0 0 + (i + (K + 1) * b + (K + 1)) * r.h 0) ⊆
      Icc (r.centre 0 (-1)) (r.centre 0 (r.n.get 0)) := by
    rw [cen (-1), cen (r.n.get 0)]
    have lo' : ((-1 : ℤ) : ℝ) ≤ i + (K + 1) * b := by exact_mod_cast lo
    have hi' : (i : ℝ) + (K + 1) * b + (K + 1) ≤ r.n.get 0 := by exact_mod_cast hi
    refine Icc_subset_Icc ?_ ?_
    · nlinarith
    · nlinarith
  have inn : ∀ m : ℕ, m ≤ K → ∀ c : ℤ, i + m * b ≤ c → c ≤ i + m * b + m → 0 ≤ c ∧ c < r.n.get 0 := by
    intro m mK c c0 c1
    have mK' : (m : ℤ) ≤ K := by exact_mod_cast mK
    rcases side with ⟨s1, s2⟩ | ⟨s1, s2⟩ <;> rw [s1] at c0 c1 <;> push_cast at s2 <;> constructor <;> omega
  have := carried4 hh (Int.fract_nonneg (-D)) (Int.fract_lt_one (-D)) (x := r.centre 0 0) (fun j c => f j (c, 0, 0)) (fun j c => (q j (c, 0, 0)).x) i b K
    hu' ⟨hu.smooth, fun y hy => hu.bound y (sub hy)⟩
    (fun c c0 c1 => by rw [f0, (hF c (by omega) (by omega)).1, cen c]) (fun c c0 c1 => by rw [q0, (hF c (by omega) (by omega)).2, cen c])
    (fun j m hjm c c0 c1 => (st j (by omega) c (inn m (by omega) c c0 c1).1 (inn m (by omega) c c0 c1).2).1)
    (fun j m hjm c c0 c1 => (st j (by omega) c (inn m (by omega) c c0 c1).1 (inn m (by omega) c c0 c1).2).2)
  have ex : r.centre 0 0 + (i + (K + 1) * (b + Int.fract (-D))) * r.h 0 = r.centre 0 i - ((K + 1 : ℕ) : ℝ) * (w * τ) := by
    rw [ebt, cen i, ← e5]
    push_cast
    ring
  rw [ex] at this
  push_cast at this ⊢
  exact this

/-- C104 as a rate: steps of at least `l` cells take the level set over the time `k τ` with an error of second order in the cell
width in the value and of first order in the gradient. -/
theorem C104_rate (r : Req ℝ) (h : r.Valid 1) (hpos : r.Pos 1) (hpad : r.pad = 1) (g : Grid ℝ 1)
    (e : r.make .wrap 1 = .ok g) (gv : Grid ℝ 1) (vel : LsVelocity ℝ) (v : Cell → Vec3 ℝ) (m : Cell → Mat3 ℝ)
    (hv : ∀ c, r.Interior c → vel.velocity.get .wrap gv c.1 c.2.1 c.2.2 = .ok (v c))
    (hg : ∀ c, r.Interior c → vel.grad.get .wrap gv c.1 c.2.1 c.2.2 = .ok (m c)) (τ w l : ℝ) (hl : 0 < l) (hτ : l * r.h 0 ≤ |w| * τ)
    (hw : ∀ c, r.Interior c → (v c).x = w) (hm : ∀ c, r.Interior c → (m c).entry 0 0 = 0) (hcfl : |w * τ| < r.h 0)
    (u u' : ℝ → ℝ) (M : ℝ) (hu' : ∀ y, HasDerivAt u (u' y) y) (hu : Quartic u (r.centre 0 (-1)) (r.centre 0 (r.n.get 0)) M)
    (ls : Levelset ℝ) (F : Cell → ℝ) (G : Cell → Vec3 ℝ) (S : Holds .wrap r g ls F G [])
    (hF : ∀ i, -1 ≤ i → i ≤ r.n.get 0 → F (i, 0, 0) = u (r.centre 0 i) ∧ (G (i, 0, 0)).x = u' (r.centre 0 i)) (k : ℕ) :
    ∃ (ls' : Levelset ℝ) (F' : Cell → ℝ) (G' : Cell → Vec3 ℝ), carrySteps .wrap g gv τ vel k ls = .ok ls' ∧
      (∀ c, r.Interior c → ls'.phi.get .wrap g c.1 c.2.1 c.2.2 = .ok (F' c) ∧ ls'.psi.get .wrap g c.1 c.2.1 c.2.2 = .ok (G' c)) ∧
      ∀ i : ℤ, 0 ≤ i → i < r.n.get 0 → (0 < w * τ → k ≤ i + 1) → (w * τ ≤ 0 → i + k ≤ r.n.get 0) →
        27 * l ^ 2 * |F' (i, 0, 0) - u (r.centre 0 i - w * (k * τ))| ≤ (|w| * (k * τ)) ^ 2 * M * r.h 0 ^ 2 ∧
        4 * l ^ 2 * |(G' (i, 0, 0)).x - u' (r.centre 0 i - w * (k * τ))| ≤ (|w| * (k * τ)) ^ 2 * M * r.h 0 := by
  have hh : 0 < r.h 0 := h.h_pos hpos 0 (by decide)
  obtain ⟨ls', F', G', e1, e2, e3⟩ := C104_line r h hpos hpad g e gv vel v m hv hg τ w hw hm hcfl u u' M hu' hu ls F G S hF k
  refine ⟨ls', F', G', e1, e2, fun i i0 i1 up dn => ?_⟩
  obtain ⟨k1, k2⟩ := e3 i i0 i1 up dn
  rw [show w * ((k : ℝ) * τ) = k * (w * τ) by ring]
  have M0 : 0 ≤ M := by
    have hle : r.centre 0 (-1) ≤ r.centre 0 (r.n.get 0) := by
      have := centre_sub r 0 (r.n.get 0) (-1)
      have n0 : (0 : ℝ) ≤ r.n.get 0 := by exact_mod_cast (by omega : (0 : ℤ) ≤ r.n.get 0)
      push_cast at this
      nlinarith
    exact (abs_nonneg _).trans (hu.bound _ (left_mem_Icc.2 hle))
  have sq : (l * r.h 0) ^ 2 ≤ (|w| * τ) ^ 2 := pow_le_pow_left₀ (by positivity) hτ 2
  constructor
  · calc 27 * l ^ 2 * |F' (i, 0, 0) - u (r.centre 0 i - k * (w * τ))| = l ^ 2 * (27 * |F' (i, 0, 0) - u (r.centre 0 i - k * (w * τ))|) := by ring
      _ ≤ l ^ 2 * (k ^ 2 * M * r.h 0 ^ 4) := mul_le_mul_of_nonneg_left k1 (sq_nonneg l)
      _ = k ^ 2 * M * r.h 0 ^ 2 * (l * r.h 0) ^ 2 := by ring
      _ ≤ k ^ 2 * M * r.h 0 ^ 2 * (|w| * τ) ^ 2 := mul_le_mul_of_nonneg_left sq (by positivity)
      _ = _ := by ring
  · calc 4 * l ^ 2 * |(G' (i, 0, 0)).x - u' (r.centre 0 i - k * (w * τ))| = l ^ 2 * (4 * |(G' (i, 0, 0)).x - u' (r.centre 0 i - k * (w * τ))|) := by ring
      _ ≤ l ^ 2 * (k ^ 2 * M * r.h 0 ^ 3) := mul_le_mul_of_nonneg_left k2 (sq_nonneg l)
      _ = k ^ 2 * M * r.h 0 * (l * r.h 0) ^ 2 := by ring
      _ ≤ k ^ 2 * M * r.h 0 * (|w| * τ) ^ 2 := mul_le_mul_of_nonneg_left sq (by positivity)
      _ = _ := by ring

/-- A hundred cells on the unit interval. -/
noncomputable def unitR : Req ℝ := ⟨⟨100, 1, 1⟩, 1, ⟨0, 0, 0⟩, ⟨1, 0, 0⟩⟩

theorem unitR_valid : unitR.Valid 1 :=
  ⟨Or.inl rfl, by decide, by decide, by decide, fun _ => rfl, fun _ => rfl, by decide, by decide⟩

theorem unitR_pos : unitR.Pos 1 := by
  intro a ha
  match a with
  | 0 => norm_num [unitR, Vec3.get]
  | 1 => exact absurd ha (by decide)
  | 2 => exact absurd ha (by decide)

/-- Instance of `C104_line`: a hundred cells on the unit interval, sine data, velocity 1, twenty steps of half a
cell; at the middle node the value is right to less than `10⁻⁶` and the gradient to `10⁻⁴`. -/
example : ∃ (g : Grid ℝ 1) (vel : LsVelocity ℝ) (ls ls' : Levelset ℝ) (z : ℝ) (p : Vec3 ℝ), unitR.make .wrap 1 = .ok g ∧
    (∀ c, unitR.Padded 1 c → ls.phi.get .wrap g c.1 c.2.1 c.2.2 = .ok (Real.sin (unitR.centre 0 c.1))) ∧
    carrySteps .wrap g g (1 / 200) vel 20 ls = .ok ls' ∧ ls'.phi.get .wrap g 50 0 0 = .ok z ∧ ls'.psi.get .wrap g 50 0 0 = .ok p ∧
    |z - Real.sin (unitR.centre 0 50 - 1 / 10)| ≤ 1 / 10 ^ 6 ∧ |p.x - Real.cos (unitR.centre 0 50 - 1 / 10)| ≤ 1 / 10 ^ 4 := by
  obtain ⟨g, e, -⟩ := C01_padded_addressing .wrap 1 unitR unitR_valid
  have Md := make_made unitR_valid e
  obtain ⟨vel, hv, hg⟩ := velocity_exists (s := .wrap) Md (fun _ => ⟨1, 0, 0⟩) (fun _ => Mat3.zero)
  obtain ⟨ls, S⟩ := holds_exists Md (fun c => Real.sin (unitR.centre 0 c.1)) (fun c => ⟨Real.cos (unitR.centre 0 c.1), 0, 0⟩) []
  have hh : unitR.h 0 = 1 / 100 := by norm_num [unitR, Req.h, Vec3.get]
  obtain ⟨ls', F', G', e1, e2, e3⟩ := C104_line unitR unitR_valid unitR_pos rfl g e g vel _ _
    (fun c hc => hv.val c (interior_padded Md hc)) (fun c hc => hg.val c (interior_padded Md hc)) (1 / 200) 1 (fun _ _ => rfl)
    (fun _ _ => rfl) (by rw [hh]; norm_num [abs_lt]) Real.sin Real.cos 1 Real.hasDerivAt_sin (by simpa using quartic_sin 1 _ _ 1 (by simp))
    ls _ _ S (fun i _ _ => ⟨rfl, rfl⟩) 20
  have hi : unitR.Interior (50, 0, 0) := by decide
  have := e3 50 (by decide) (by decide) (fun _ => by norm_num) (fun hc => absurd hc (by norm_num))
  rw [hh] at this
  refine ⟨g, vel, ls, ls', _, _, e, fun c hc => S.phi.val c hc, e1, (e2 (50, 0, 0) hi).1, (e2 (50, 0, 0) hi).2, ?_⟩
  norm_num at this ⊢
  constructor <;> linarith [this.1, this.2]

/-- Instance of `C104_rate`: the same with `l = 1/2`. -/
example : ∃ (g : Grid ℝ 1) (vel : LsVelocity ℝ) (ls ls' : Levelset ℝ) (z : ℝ) (p : Vec3 ℝ), unitR.make .wrap 1 = .ok g ∧
    carrySteps .wrap g g (1 / 200) vel 20 ls = .ok ls' ∧ ls'.phi.get .wrap g 50 0 0 = .ok z ∧ ls'.psi.get .wrap g 50 0 0 = .ok p ∧
    27 * (1 / 2) ^ 2 * |z - Real.sin (unitR.centre 0 50 - 1 * ((20 : ℕ) * (1 / 200)))| ≤ (|1| * ((20 : ℕ) * (1 / 200))) ^ 2 * 1 * (1 / 100) ^ 2 ∧
    4 * (1 / 2) ^ 2 * |p.x - Real.cos (unitR.centre 0 50 - 1 * ((20 : ℕ) * (1 / 200)))| ≤ (|1| * ((20 : ℕ) * (1 / 200))) ^ 2 * 1 * (1 / 100) := by
  obtain ⟨g, e, -⟩ := C01_padded_addressing .wrap 1 unitR unitR_valid
  have Md := make_made unitR_valid e
  obtain ⟨vel, hv, hg⟩ := velocity_exists (s := .wrap) Md (fun _ => ⟨1, 0, 0⟩) (fun _ => Mat3.zero)
  obtain ⟨ls, S⟩ := holds_exists Md (fun c => Real.sin (unitR.centre 0 c.1)) (fun c => ⟨Real.cos (unitR.centre 0 c.1), 0, 0⟩) []
  have hh : unitR.h 0 = 1 / 100 := by norm_num [unitR, Req.h, Vec3.get]
  obtain ⟨ls', F', G', e1, e2, e3⟩ := C104_rate unitR unitR_valid unitR_pos rfl g e g vel _ _
    (fun c hc => hv.val c (interior_padded Md hc)) (fun c hc => hg.val c (interior_padded Md hc)) (1 / 200) 1 (1 / 2) (by norm_num)
    (by rw [hh]; norm_num) (fun _ _ => rfl) (fun _ _ => rfl) (by rw [hh]; norm_num [abs_lt]) Real.sin Real.cos 1 Real.hasDerivAt_sin
    (by simpa using quartic_sin 1 _ _ 1 (by simp)) ls _ _ S (fun i _ _ => ⟨rfl, rfl⟩) 20
  have hi : unitR.Interior (50, 0, 0) := by decide
  have := e3 50 (by decide) (by decide) (fun _ => by norm_num) (fun hc => absurd hc (by norm_num))
  rw [hh] at this
  exact ⟨g, vel, ls, ls', _, _, e, e1, (e2 (50, 0, 0) hi).1, (e2 (50, 0, 0) hi).2, this.1, this.2⟩

end Gals.Props
