import Verif.Model.Carry
import Verif.Spec.Carry
import Verif.Spec.Saddle
import Verif.Props.Temporal

/-!
# C106: level sets with a term `m x y` in uniform flow
-/

set_option linter.unusedSectionVars false
set_option linter.unusedSimpArgs false

namespace Gals.Props

open Gals Gals.Spec

section
variable {K : Type} [Field K] [LinearOrder K] [IsStrictOrderedRing K] [FloorRing K]

/-- The polynomial of a cell through the data of `crossed` with constant errors `A`, `B`, `C` in the value and in the components of the
gradient, and `μ` for the mixed derivative. -/
theorem kernel_crossed (hx hy X Y s w A B C μ m : K) (hx0 : hx ≠ 0) (hy0 : hy ≠ 0) (P Q : Fin 4 → K) (d inv eta : Vec3 K) (n : Fin 2 → Fin 2 → Node2 K)
    (dx : d.x = hx) (dy : d.y = hy) (ix : inv.x = 1 / hx) (iy : inv.y = 1 / hy) (ex : eta.x = s) (ey : eta.y = w)
    (hf : ∀ i j : Fin 2, (n i j).phi = crossed P Q m (X + i * hx) (Y + j * hy) + A)
    (hpx : ∀ i j : Fin 2, (n i j).psi.x = crossedX P m (X + i * hx) (Y + j * hy) + B)
    (hpy : ∀ i j : Fin 2, (n i j).psi.y = crossedY Q m (X + i * hx) (Y + j * hy) + C) (hm : ∀ i j : Fin 2, (n i j).xy = μ) :
    kernel2 d inv eta (n 0 0) (n 1 0) (n 0 1) (n 1 1) false =
      ⟨crossed P Q m (X + s * hx) (Y + w * hy) + (A + B * hx * slopeSum s + C * hy * slopeSum w - (m - μ) * hx * hy * (slopeSum s * slopeSum w)),
        ⟨crossedX P m (X + s * hx) (Y + w * hy) + slopeTurn s * (B - (m - μ) * hy * slopeSum w),
         crossedY Q m (X + s * hx) (Y + w * hy) + slopeTurn w * (C - (m - μ) * hx * slopeSum s), 0⟩⟩ := by
  rw [kernel2_eq]
  simp only [dx, dy, ix, iy, ex, ey, hf, hpx, hpy, hm, basis, basis', T1_four, B0, B1, B2, B3, B0', B1', B2', B3', cube, sqr, crossed, crossedX, crossedY,
    slopeSum, slopeTurn, Fin.val_zero, Fin.val_one, Nat.cast_zero, Nat.cast_one, zero_mul, add_zero, one_mul]
  congr 1
  · ring
  · congr 1
    · field_simp
      ring
    · field_simp
      ring

/-- The mesh and the local coordinate of the point that is `D` cells to the left of the node `i`. -/
theorem base_of (r : Req K) (a : Fin 3) (hh : 0 < r.h a) {b i : ℤ} {D x : K} (hx : x = r.centre a i - D * r.h a) (lo : r.centre a b ≤ x)
    (hi : x < r.centre a (b + 1)) : b = i + ⌊-D⌋ ∧ (x - r.centre a b) * (1 / r.h a) = Int.fract (-D) := by
  have sub : ∀ i j : ℤ, r.centre a i - r.centre a j = ((i : K) - j) * r.h a := fun i j => by unfold Req.centre; ring
  rw [hx] at lo hi
  have k0 : ((b : K) - i + D) * r.h a ≤ 0 := by linarith [sub b i]
  have k1 : 0 < ((b : K) + 1 - i + D) * r.h a := by
    have := sub (b + 1) i
    push_cast at this
    linarith
  have m0 : (b : K) - i + D ≤ 0 := by
    by_contra hc
    exact absurd k0 (not_le.2 (mul_pos (not_le.1 hc) hh))
  have m1 : 0 < (b : K) + 1 - i + D := pos_of_mul_pos_left k1 hh.le
  have fl : ⌊-D⌋ = b - i := by
    rw [Int.floor_eq_iff]
    push_cast
    constructor <;> linarith
  refine ⟨by rw [fl]; ring, ?_⟩
  have e : Int.fract (-D) = -D - (b - i) := by
    unfold Int.fract
    rw [fl]
    push_cast
    rfl
  rw [e, hx]
  field_simp
  linarith [sub i b]

/-- A step where the data of the four nodes used are those of `crossed` with constant errors. -/
theorem saddleStep_ok {r : Req K} {g gv : Grid K 2} {τ : K} {u : Vec3 K} {vel : LsVelocity K} (R : RunPlane r g gv τ u vel)
    {ls : Levelset K} {F : Cell → K} {G : Cell → Vec3 K} {μ : K} (S : Spec.Holds .wrap r g ls F G [μ]) (P Q : Fin 4 → K) (m : K) :
    ∃ ls' F' G', carryStep .wrap g gv τ vel ls = .ok ls' ∧ Spec.Holds .wrap r g ls' F' G' [μ] ∧
      ∀ i j : ℤ, 0 ≤ i → i < r.n.get 0 → 0 ≤ j → j < r.n.get 1 → ∀ A B C X Y : K,
        (∀ a b : Fin 2, F (i + ⌊-(u.x * τ / r.h 0)⌋ + a, j + ⌊-(u.y * τ / r.h 1)⌋ + b, 0) =
          crossed P Q m (X + r.centre 0 (i + ⌊-(u.x * τ / r.h 0)⌋ + a)) (Y + r.centre 1 (j + ⌊-(u.y * τ / r.h 1)⌋ + b)) + A) →
        (∀ a b : Fin 2, (G (i + ⌊-(u.x * τ / r.h 0)⌋ + a, j + ⌊-(u.y * τ / r.h 1)⌋ + b, 0)).x =
          crossedX P m (X + r.centre 0 (i + ⌊-(u.x * τ / r.h 0)⌋ + a)) (Y + r.centre 1 (j + ⌊-(u.y * τ / r.h 1)⌋ + b)) + B) →
        (∀ a b : Fin 2, (G (i + ⌊-(u.x * τ / r.h 0)⌋ + a, j + ⌊-(u.y * τ / r.h 1)⌋ + b, 0)).y =
          crossedY Q m (X + r.centre 0 (i + ⌊-(u.x * τ / r.h 0)⌋ + a)) (Y + r.centre 1 (j + ⌊-(u.y * τ / r.h 1)⌋ + b)) + C) →
        let s := Int.fract (-(u.x * τ / r.h 0))
        let w := Int.fract (-(u.y * τ / r.h 1))
        F' (i, j, 0) = crossed P Q m (X + r.centre 0 i - u.x * τ) (Y + r.centre 1 j - u.y * τ) +
          (A + B * r.h 0 * slopeSum s + C * r.h 1 * slopeSum w - (m - μ) * r.h 0 * r.h 1 * (slopeSum s * slopeSum w)) ∧
        (G' (i, j, 0)).x = crossedX P m (X + r.centre 0 i - u.x * τ) (Y + r.centre 1 j - u.y * τ) +
          slopeTurn s * (B - (m - μ) * r.h 1 * slopeSum w) ∧
        (G' (i, j, 0)).y = crossedY Q m (X + r.centre 0 i - u.x * τ) (Y + r.centre 1 j - u.y * τ) +
          slopeTurn w * (C - (m - μ) * r.h 0 * slopeSum s) := by
  obtain ⟨h, hpos, hpad, e, hv, hg, hcfl⟩ := R
  have Md := make_made h e
  have hx0 : 0 < r.h 0 := h.h_pos hpos 0 (by decide)
  have hy0 : 0 < r.h 1 := h.h_pos hpos 1 (by decide)
  have hst : ∀ c, r.Interior c → InStorage r 2 ((nodePos r 2 c).sub (u.smul τ)) := fun c hc a ha =>
    have := near_node h hpos hpad.ge hc (near_step hcfl) a ha
    ⟨this.1.le, this.2⟩
  obtain ⟨s1, s2, ⟨f3, s3⟩, ⟨f4, s4⟩, ⟨f5, s5⟩, ⟨f6, s6⟩, s7⟩ := S
  set l1 : Levelset K := { ls with phiPrev := ls.phiPrev.assign ls.phi, psiPrev := ls.psiPrev.assign ls.psi } with hl1
  have a1 : FieldIs .wrap r g l1.phiPrev F := s3.assign s1
  have a2 : FieldIs .wrap r g l1.psiPrev G := s4.assign s2
  have Pr : PrevIs .wrap r g l1 F G (fun _ => [μ]) := ⟨a1.val, a2.val, s7.val⟩
  have : Nonempty (Interp K) := ⟨⟨0, ⟨0, 0, 0⟩⟩⟩
  obtain ⟨o, ho⟩ := choose_ok (p := r.Interior) (f := fun c => interpolate .wrap g l1 ((nodePos r 2 c).sub (u.smul τ)) false)
    fun c hc => interp_ok (fun _ => rfl) Md h hpos (fun _ => rfl) Pr (hst c hc) false
  obtain ⟨ls', k1, k2, k3, -, k5, k6, k7, k8, k9⟩ := slEuler_ok (dt := τ) (ls := l1) Md hv hg (fun c hc => Md.atC (interior_padded Md hc))
    s1 s2 s5 s6 ho
  refine ⟨ls', _, _, k1, ⟨k2, k3, ⟨F, by rw [k5]; exact a1⟩, ⟨G, by rw [k6]; exact a2⟩, ⟨_, k8⟩, ⟨_, k9⟩, by rw [k7]; exact s7⟩,
    fun i j i0 i1 j0 j1 A B C X Y hF hGx hGy => ?_⟩
  intro s w
  have n2 : r.n.z = 1 := h.nz_one (by decide)
  have hc : r.Interior (i, j, 0) := ⟨⟨i0, i1⟩, ⟨j0, j1⟩, ⟨le_refl _, by rw [n2]; exact Int.zero_lt_one⟩⟩
  obtain ⟨⟨bx, by', bz⟩, H, eb⟩ := interp2_eval Md h hpos Pr (hst _ hc) false
  have u2 : bz = 0 := H.unused 2 (by decide)
  subst u2
  have node : ∀ (c : Cell) (a : Fin 3), a.val < 2 → (nodePos r 2 c).get a = r.centre a (comp c a) := by
    intro c a ha
    rw [nodePos_get, if_pos ha, hpad, sub_self, add_zero]
  set D0 := u.x * τ / r.h 0 with hD0
  set D1 := u.y * τ / r.h 1 with hD1
  have e50 : D0 * r.h 0 = u.x * τ := by rw [hD0]; field_simp
  have e51 : D1 * r.h 1 = u.y * τ := by rw [hD1]; field_simp
  have px : ((nodePos r 2 (i, j, 0)).sub (u.smul τ)).get 0 = r.centre 0 i - D0 * r.h 0 := by
    rw [get_step, node _ 0 (by decide), e50]
    rfl
  have py : ((nodePos r 2 (i, j, 0)).sub (u.smul τ)).get 1 = r.centre 1 j - D1 * r.h 1 := by
    rw [get_step, node _ 1 (by decide), e51]
    rfl
  obtain ⟨b0, t0⟩ := base_of r 0 hx0 px (H.lo 0 (by decide)) (H.hi 0 (by decide))
  obtain ⟨b1, t1⟩ := base_of r 1 hy0 py (H.lo 1 (by decide)) (H.hi 1 (by decide))
  simp only [comp] at b0 b1 t0 t1
  subst b0 b1
  have q := kernel_crossed (r.h 0) (r.h 1) (X + r.centre 0 (i + ⌊-D0⌋)) (Y + r.centre 1 (j + ⌊-D1⌋)) s w A B C μ m hx0.ne' hy0.ne' P Q
    g.dx g.oneOverDx ((((nodePos r 2 (i, j, 0)).sub (u.smul τ)).sub (nodePos r 2 (i + ⌊-D0⌋, j + ⌊-D1⌋, 0))).mul g.oneOverDx)
    (fun a b => node2 F G (fun _ => μ) (i + ⌊-D0⌋ + (a : ℕ), j + ⌊-D1⌋ + (b : ℕ), 0)) (Md.dx 0) (Md.dx 1) (Md.oneOverDx 0 (by decide))
    (Md.oneOverDx 1 (by decide)) ?_ ?_ ?_ ?_ ?_ (fun _ _ => rfl)
  · have q3 := Except.ok.inj ((ho _ hc).symm.trans eb)
    simp only [Fin.val_zero, Fin.val_one, Nat.cast_zero, Nat.cast_one, add_zero] at q
    rw [q] at q3
    have c0 : X + r.centre 0 (i + ⌊-D0⌋) + s * r.h 0 = X + r.centre 0 i - u.x * τ := by
      rw [← e50]
      have : s = -D0 - ⌊-D0⌋ := rfl
      rw [this]
      unfold Req.centre
      push_cast
      ring
    have c1 : Y + r.centre 1 (j + ⌊-D1⌋) + w * r.h 1 = Y + r.centre 1 j - u.y * τ := by
      rw [← e51]
      have : w = -D1 - ⌊-D1⌋ := rfl
      rw [this]
      unfold Req.centre
      push_cast
      ring
    rw [c0, c1] at q3
    simp only [if_pos hc, identity_dot]
    rw [q3]
    exact ⟨rfl, rfl, rfl⟩
  · have en := node (i + ⌊-D0⌋, j + ⌊-D1⌋, 0) 0 (by decide)
    simp only [comp] at en
    rw [← en, ← (Md.oneOverDx 0 (by decide))] at t0
    exact t0
  · have en := node (i + ⌊-D0⌋, j + ⌊-D1⌋, 0) 1 (by decide)
    simp only [comp] at en
    rw [← en, ← (Md.oneOverDx 1 (by decide))] at t1
    exact t1
  · intro a b
    have := hF a b
    simp only [node2]
    rw [this]
    unfold Req.centre
    push_cast
    congr 2 <;> ring
  · intro a b
    have := hGx a b
    simp only [node2]
    rw [this]
    unfold Req.centre
    push_cast
    congr 2 <;> ring
  · intro a b
    have := hGy a b
    simp only [node2]
    rw [this]
    unfold Req.centre
    push_cast
    congr 2 <;> ring

theorem powers_succ (x : K) (k : ℕ) : powers x (k + 1) = x * (1 + powers x k) := by
  unfold powers
  rw [Finset.sum_range_succ', mul_add, Finset.mul_sum, mul_one, zero_add, pow_one, add_comm]
  congr 1
  refine Finset.sum_congr rfl fun i _ => ?_
  ring

theorem missed_succ (s w : K) (k : ℕ) : missed s w (k + 1) = missed s w k + (1 + powers (slopeTurn s) k + powers (slopeTurn w) k) :=
  Finset.sum_range_succ _ _

/-- C106: on a plane grid with padding 1 in a flow of the same velocity `u` at all interior nodes and no velocity gradient, with less than a
cell per step along each axis, let the level set hold the values and derivatives of a polynomial `p(x) + q(y) + m x y` with cubics `p` and
`q`, and the same number `μ` as mixed derivative at all nodes (0 unless the client writes them: no code of the library does).  After `k`
steps with the gradient carried along, at each interior node whose data came only from stored nodes of the start, the value differs from the
translated polynomial by exactly `m - μ` times the area of a cell, times a factor that depends on the Courant numbers and `k` alone, and
likewise for the gradient. -/
theorem C106_saddle (r : Req K) (g gv : Grid K 2) (τ : K) (u : Vec3 K) (vel : LsVelocity K) (R : RunPlane r g gv τ u vel) (ls : Levelset K)
    (F : Cell → K) (G : Cell → Vec3 K) (μ : K) (S : Spec.Holds .wrap r g ls F G [μ]) (P Q : Fin 4 → K) (m : K)
    (hF : ∀ i j, -1 ≤ i → i ≤ r.n.get 0 → -1 ≤ j → j ≤ r.n.get 1 → F (i, j, 0) = crossed P Q m (r.centre 0 i) (r.centre 1 j) ∧
      (G (i, j, 0)).x = crossedX P m (r.centre 0 i) (r.centre 1 j) ∧ (G (i, j, 0)).y = crossedY Q m (r.centre 0 i) (r.centre 1 j)) (k : ℕ) :
    ∃ (ls' : Levelset K) (F' : Cell → K) (G' : Cell → Vec3 K), carrySteps .wrap g gv τ vel k ls = .ok ls' ∧
      (∀ c, r.Interior c → ls'.phi.get .wrap g c.1 c.2.1 c.2.2 = .ok (F' c) ∧ ls'.psi.get .wrap g c.1 c.2.1 c.2.2 = .ok (G' c)) ∧
      ∀ i j : ℤ, 0 ≤ i → i < r.n.get 0 → 0 ≤ j → j < r.n.get 1 → (0 < u.x * τ → k ≤ i + 1) → (u.x * τ ≤ 0 → i + k ≤ r.n.get 0) →
        (0 < u.y * τ → k ≤ j + 1) → (u.y * τ ≤ 0 → j + k ≤ r.n.get 1) →
        let s := Int.fract (-(u.x * τ / r.h 0))
        let w := Int.fract (-(u.y * τ / r.h 1))
        F' (i, j, 0) = crossed P Q m (r.centre 0 i - k * (u.x * τ)) (r.centre 1 j - k * (u.y * τ)) -
          (m - μ) * (r.h 0 * r.h 1) * (slopeSum s * slopeSum w * missed s w k) ∧
        (G' (i, j, 0)).x = crossedX P m (r.centre 0 i - k * (u.x * τ)) (r.centre 1 j - k * (u.y * τ)) -
          (m - μ) * r.h 1 * (slopeSum w * powers (slopeTurn s) k) ∧
        (G' (i, j, 0)).y = crossedY Q m (r.centre 0 i - k * (u.x * τ)) (r.centre 1 j - k * (u.y * τ)) -
          (m - μ) * r.h 0 * (slopeSum s * powers (slopeTurn w) k) := by
  have Md := make_made R.valid R.made
  have hx0 : 0 < r.h 0 := R.valid.h_pos R.pos 0 (by decide)
  have hy0 : 0 < r.h 1 := R.valid.h_pos R.pos 1 (by decide)
  have floors : ∀ (h z : K), 0 < h → |z| < h → (⌊-(z / h)⌋ = -1 ∧ 0 < z) ∨ (⌊-(z / h)⌋ = 0 ∧ z ≤ 0) := by
    intro h z h0 hz
    obtain ⟨z1, z2⟩ := abs_lt.1 hz
    have k1 : -1 < z / h := by rw [lt_div_iff₀ h0]; linarith
    have k2 : z / h < 1 := by rw [div_lt_one h0]; exact z2
    rcases lt_or_ge 0 z with s | s
    · left
      have : 0 < z / h := by positivity
      refine ⟨?_, s⟩
      rw [Int.floor_eq_iff]
      push_cast
      constructor <;> linarith
    · right
      have : z / h ≤ 0 := div_nonpos_of_nonpos_of_nonneg s h0.le
      refine ⟨?_, s⟩
      rw [Int.floor_eq_iff]
      push_cast
      constructor <;> linarith
  have fx := floors (r.h 0) (u.x * τ) hx0 (R.cfl 0 (by decide))
  have fy := floors (r.h 1) (u.y * τ) hy0 (R.cfl 1 (by decide))
  set bx := ⌊-(u.x * τ / r.h 0)⌋ with hbx
  set by' := ⌊-(u.y * τ / r.h 1)⌋ with hby
  set s := Int.fract (-(u.x * τ / r.h 0)) with hs
  set w := Int.fract (-(u.y * τ / r.h 1)) with hw
  -- the nodes whose data came from stored nodes of the start
  set cone : ℤ → ℤ → ℕ → ℤ → Prop := fun n b k i => -1 ≤ i + k * b ∧ i + k * b + k ≤ n ∧ (0 < k → 0 ≤ i ∧ i < n) with hcone
  have down : ∀ n b k i, b = -1 ∨ b = 0 → cone n b (k + 1) i → ∀ a : Fin 2, cone n b k (i + b + (a : ℕ)) := by
    intro n b k i hb ⟨c1, c2, c3⟩ a
    obtain ⟨c4, c5⟩ := c3 (by omega)
    have : ((a : ℕ) : ℤ) = 0 ∨ ((a : ℕ) : ℤ) = 1 := by
      have := a.2
      omega
    simp only [hcone]
    push_cast at c1 c2
    rcases hb with rfl | rfl <;> refine ⟨?_, ?_, fun _ => ⟨?_, ?_⟩⟩ <;> omega
  have key : ∃ (ls' : Levelset K) (F' : Cell → K) (G' : Cell → Vec3 K), carrySteps .wrap g gv τ vel k ls = .ok ls' ∧
      Spec.Holds .wrap r g ls' F' G' [μ] ∧ ∀ i j, cone (r.n.get 0) bx k i → cone (r.n.get 1) by' k j →
        F' (i, j, 0) = crossed P Q m (-(k * (u.x * τ)) + r.centre 0 i) (-(k * (u.y * τ)) + r.centre 1 j) +
          -((m - μ) * (r.h 0 * r.h 1) * (slopeSum s * slopeSum w * missed s w k)) ∧
        (G' (i, j, 0)).x = crossedX P m (-(k * (u.x * τ)) + r.centre 0 i) (-(k * (u.y * τ)) + r.centre 1 j) +
          -((m - μ) * r.h 1 * (slopeSum w * powers (slopeTurn s) k)) ∧
        (G' (i, j, 0)).y = crossedY Q m (-(k * (u.x * τ)) + r.centre 0 i) (-(k * (u.y * τ)) + r.centre 1 j) +
          -((m - μ) * r.h 0 * (slopeSum s * powers (slopeTurn w) k)) := by
    induction k with
    | zero =>
      refine ⟨ls, F, G, rfl, S, fun i j ⟨i0, i1, _⟩ ⟨j0, j1, _⟩ => ?_⟩
      push_cast at i0 i1 j0 j1 ⊢
      obtain ⟨k1, k2, k3⟩ := hF i j (by omega) (by omega) (by omega) (by omega)
      simp only [zero_mul, neg_zero, zero_add, missed, powers, Finset.range_zero, Finset.sum_empty, mul_zero, add_zero]
      exact ⟨k1, k2, k3⟩
    | succ k ih =>
      obtain ⟨l1, F1, G1, e1, S1, k1⟩ := ih
      obtain ⟨l2, F2, G2, e2, S2, k2⟩ := saddleStep_ok R S1 P Q m
      refine ⟨l2, F2, G2, ?_, S2, fun i j ci cj => ?_⟩
      · simp only [carrySteps]
        rw [e1, M.ok_bind]
        exact e2
      have di := down _ _ _ _ (fx.imp And.left And.left) ci
      have dj := down _ _ _ _ (fy.imp And.left And.left) cj
      obtain ⟨i0, i1⟩ := ci.2.2 (by omega)
      obtain ⟨j0, j1⟩ := cj.2.2 (by omega)
      obtain ⟨m1, m2, m3⟩ := k2 i j i0 i1 j0 j1 _ _ _ (-(k * (u.x * τ))) (-(k * (u.y * τ))) (fun a b => (k1 _ _ (di a) (dj b)).1)
        (fun a b => (k1 _ _ (di a) (dj b)).2.1) (fun a b => (k1 _ _ (di a) (dj b)).2.2)
      have px : -(((k + 1 : ℕ) : K) * (u.x * τ)) + r.centre 0 i = -(k * (u.x * τ)) + r.centre 0 i - u.x * τ := by push_cast; ring
      have py : -(((k + 1 : ℕ) : K) * (u.y * τ)) + r.centre 1 j = -(k * (u.y * τ)) + r.centre 1 j - u.y * τ := by push_cast; ring
      rw [px, py, m1, m2, m3, missed_succ, powers_succ, powers_succ]
      refine ⟨?_, ?_, ?_⟩ <;> congr 1 <;> ring
  obtain ⟨ls', F', G', e1, S1, k1⟩ := key
  refine ⟨ls', F', G', e1, fun c hc => ⟨S1.phi.val c (interior_padded Md hc), S1.psi.val c (interior_padded Md hc)⟩, ?_⟩
  intro i j i0 i1 j0 j1 xp xn yp yn
  have side : ∀ (n b i : ℤ) (z : K), 0 ≤ i → i < n → (b = -1 ∧ 0 < z) ∨ (b = 0 ∧ z ≤ 0) → (0 < z → (k : ℤ) ≤ i + 1) → (z ≤ 0 → i + k ≤ n) → cone n b k i := by
    intro n b i z i0 i1 hb up dn
    simp only [hcone]
    rcases hb with ⟨rfl, hz⟩ | ⟨rfl, hz⟩
    · have := up hz
      refine ⟨?_, ?_, fun _ => ⟨?_, ?_⟩⟩ <;> omega
    · have := dn hz
      refine ⟨?_, ?_, fun _ => ⟨?_, ?_⟩⟩ <;> omega
  have := k1 i j (side _ _ _ _ i0 i1 fx xp xn) (side _ _ _ _ j0 j1 fy yp yn)
  simp only [neg_add_eq_sub, ← sub_eq_add_neg] at this
  exact this

/-- With the right mixed derivative the steps are exact. -/
theorem C106_right (r : Req K) (g gv : Grid K 2) (τ : K) (u : Vec3 K) (vel : LsVelocity K) (R : RunPlane r g gv τ u vel) (ls : Levelset K)
    (F : Cell → K) (G : Cell → Vec3 K) (P Q : Fin 4 → K) (m : K) (S : Spec.Holds .wrap r g ls F G [m])
    (hF : ∀ i j, -1 ≤ i → i ≤ r.n.get 0 → -1 ≤ j → j ≤ r.n.get 1 → F (i, j, 0) = crossed P Q m (r.centre 0 i) (r.centre 1 j) ∧
      (G (i, j, 0)).x = crossedX P m (r.centre 0 i) (r.centre 1 j) ∧ (G (i, j, 0)).y = crossedY Q m (r.centre 0 i) (r.centre 1 j)) (k : ℕ) :
    ∃ ls' : Levelset K, carrySteps .wrap g gv τ vel k ls = .ok ls' ∧
      ∀ i j : ℤ, 0 ≤ i → i < r.n.get 0 → 0 ≤ j → j < r.n.get 1 → (0 < u.x * τ → k ≤ i + 1) → (u.x * τ ≤ 0 → i + k ≤ r.n.get 0) →
        (0 < u.y * τ → k ≤ j + 1) → (u.y * τ ≤ 0 → j + k ≤ r.n.get 1) →
        ls'.phi.get .wrap g i j 0 = .ok (crossed P Q m (r.centre 0 i - k * (u.x * τ)) (r.centre 1 j - k * (u.y * τ))) := by
  obtain ⟨ls', F', G', e1, e2, e3⟩ := C106_saddle r g gv τ u vel R ls F G m S P Q m hF k
  refine ⟨ls', e1, fun i j i0 i1 j0 j1 xp xn yp yn => ?_⟩
  have n2 : r.n.z = 1 := R.valid.nz_one (by decide)
  have hc : r.Interior (i, j, 0) := ⟨⟨i0, i1⟩, ⟨j0, j1⟩, ⟨le_refl _, by rw [n2]; exact Int.zero_lt_one⟩⟩
  have := (e3 i j i0 i1 j0 j1 xp xn yp yn).1
  rw [sub_self, zero_mul, zero_mul, sub_zero] at this
  rw [(e2 _ hc).1, this]

/-- The local coordinate of a displacement by less than a cell. -/
theorem fract_small {D : K} (h : |D| < 1) : (Int.fract (-D)) * (1 - Int.fract (-D)) = |D| * (1 - |D|) ∧
    |1 - 2 * Int.fract (-D)| = |1 - 2 * (|D|)| ∧ 0 ≤ Int.fract (-D) ∧ Int.fract (-D) < 1 := by
  refine ⟨?_, ?_, Int.fract_nonneg _, Int.fract_lt_one _⟩
  all_goals
    obtain ⟨d0, d1⟩ := abs_lt.1 h
    rcases lt_or_ge 0 D with s | s
    · have fl : ⌊-D⌋ = -1 := by
        rw [Int.floor_eq_iff]
        push_cast
        constructor <;> linarith
      have e : Int.fract (-D) = 1 - D := by
        unfold Int.fract
        rw [fl]
        push_cast
        ring
      rw [e, abs_of_pos s]
      first
        | (rw [← abs_neg]; congr 1; ring1)
        | ring1
    · have fl : ⌊-D⌋ = 0 := by
        rw [Int.floor_eq_iff]
        push_cast
        constructor <;> linarith
      have e : Int.fract (-D) = -D := by
        unfold Int.fract
        rw [fl]
        push_cast
        ring
      rw [e, abs_of_nonpos s]

theorem powers_nonneg {x : K} (h : 0 ≤ x) (k : ℕ) : 0 ≤ powers x k := Finset.sum_nonneg fun _ _ => pow_nonneg h _

theorem powers_geom (x : K) (k : ℕ) : (1 - x) * (1 + powers x k) = 1 - x ^ (k + 1) := by
  induction k with
  | zero => simp [powers]
  | succ k ih =>
    rw [powers_succ]
    linear_combination x * ih

/-- The powers of a number above `-1` are at least that number or 0. -/
theorem neg_pow_le {a : K} (a0 : 0 ≤ a) (a1 : a ≤ 1 / 4) (k : ℕ) : -(1 - 6 * a) ^ (k + 1) ≤ 2 * a := by
  rcases le_or_gt 0 (1 - 6 * a) with s | s
  · have := pow_nonneg s (k + 1)
    linarith
  · have hb : |1 - 6 * a| ≤ 1 := by rw [abs_of_neg s]; linarith
    have := pow_le_one₀ (n := k) (abs_nonneg _) hb
    calc -(1 - 6 * a) ^ (k + 1) ≤ |(1 - 6 * a) ^ (k + 1)| := neg_le_abs _
      _ = |1 - 6 * a| * |1 - 6 * a| ^ k := by rw [abs_pow, pow_succ, mul_comm]
      _ ≤ |1 - 6 * a| * 1 := mul_le_mul_of_nonneg_left this (abs_nonneg _)
      _ = 6 * a - 1 := by rw [abs_of_neg s]; ring
      _ ≤ 2 * a := by linarith

theorem missed_le {s w a b : K} (ea : s * (1 - s) = a) (eb : w * (1 - w) = b) (a0 : 0 ≤ a) (a1 : a ≤ 1 / 4) (b0 : 0 ≤ b) (b1 : b ≤ 1 / 4) (k : ℕ) :
    0 ≤ a * b * missed s w k ∧ a * b * missed s w k ≤ k * ((a + b) / 6) := by
  have xs : slopeTurn s = 1 - 6 * a := by rw [slopeTurn, ← ea]; ring
  have yw : slopeTurn w = 1 - 6 * b := by rw [slopeTurn, ← eb]; ring
  have term : ∀ j, 0 ≤ a * b * (1 + powers (slopeTurn s) j + powers (slopeTurn w) j) ∧
      a * b * (1 + powers (slopeTurn s) j + powers (slopeTurn w) j) ≤ (a + b) / 6 := by
    intro j
    have g1 := powers_geom (slopeTurn s) j
    have g2 := powers_geom (slopeTurn w) j
    rw [xs] at g1 ⊢
    rw [yw] at g2 ⊢
    have e : a * b * (1 + powers (1 - 6 * a) j + powers (1 - 6 * b) j) =
        (b * (1 - (1 - 6 * a) ^ (j + 1)) + a * (1 - (1 - 6 * b) ^ (j + 1)) - 6 * (a * b)) / 6 := by
      rw [← g1, ← g2]
      ring
    have n1 := mul_le_mul_of_nonneg_left (neg_pow_le a0 a1 j) b0
    have n2 := mul_le_mul_of_nonneg_left (neg_pow_le b0 b1 j) a0
    have ab0 := mul_nonneg a0 b0
    have up : ∀ {c : K}, 0 ≤ c → c ≤ 1 / 4 → (1 - 6 * c) ^ (j + 1) ≤ 1 - 3 * c := by
      intro c c0 c1
      rcases le_or_gt 0 (1 - 6 * c) with t | t
      · have := pow_le_one₀ (n := j) t (by linarith)
        have := mul_le_mul_of_nonneg_left this t
        rw [pow_succ, mul_comm]
        linarith
      · rcases Nat.eq_zero_or_pos j with rfl | j0
        · rw [zero_add, pow_one]; linarith
        · have hb : |1 - 6 * c| ≤ 1 / 2 := by rw [abs_of_neg t]; linarith
          calc (1 - 6 * c) ^ (j + 1) ≤ |1 - 6 * c| ^ (j + 1) := by rw [← abs_pow]; exact le_abs_self _
            _ ≤ (1 / 2) ^ (j + 1) := pow_le_pow_left₀ (abs_nonneg _) hb _
            _ ≤ (1 / 2) ^ 2 := pow_le_pow_of_le_one (by norm_num) (by norm_num) (by omega)
            _ ≤ 1 - 3 * c := by norm_num; linarith
    have u1 := mul_le_mul_of_nonneg_left (up a0 a1) b0
    have u2 := mul_le_mul_of_nonneg_left (up b0 b1) a0
    rw [e]
    constructor
    · apply div_nonneg _ (by norm_num)
      linarith
    · apply div_le_div_of_nonneg_right _ (by norm_num)
      linarith
  rw [missed, Finset.mul_sum]
  constructor
  · exact Finset.sum_nonneg fun j _ => (term j).1
  · calc _ ≤ ∑ _j ∈ Finset.range k, (a + b) / 6 := Finset.sum_le_sum fun j _ => (term j).2
      _ = _ := by rw [Finset.sum_const, Finset.card_range, nsmul_eq_mul]

theorem turn_nonneg {z Z : K} (ez : z * (1 - z) = Z * (1 - Z)) (z0 : 0 ≤ Z) (z5 : Z ≤ 1 / 5) : 0 ≤ slopeTurn z := by
  have : slopeTurn z = 1 - 6 * (Z * (1 - Z)) := by rw [slopeTurn, ← ez]; ring
  rw [this]
  nlinarith

theorem fifth_le {Z : K} (z0 : 0 ≤ Z) (z5 : Z ≤ 1 / 5) : 12 / 25 * Z ≤ |1 - 2 * Z| * (Z * (1 - Z)) := by
  rw [abs_of_nonneg (by linarith)]
  have : 12 / 25 ≤ (1 - 2 * Z) * (1 - Z) := by nlinarith
  have := mul_le_mul_of_nonneg_right this z0
  linarith

/-- C106, the size of the error: it grows in proportion to the number of steps, by at most `(|u_x τ| h_y + |u_y τ| h_x) / 6` times
`m - μ` in each, and for steps of at most a fifth of a cell by at least `144/625 |u_x τ| |u_y τ|` times it.  So after a fixed time it is of
first order in the cell width and the time step, and no better, although with the right mixed derivatives there is none. -/
theorem C106_drift (r : Req K) (g gv : Grid K 2) (τ : K) (u : Vec3 K) (vel : LsVelocity K) (R : RunPlane r g gv τ u vel) (ls : Levelset K)
    (F : Cell → K) (G : Cell → Vec3 K) (μ : K) (S : Spec.Holds .wrap r g ls F G [μ]) (P Q : Fin 4 → K) (m : K)
    (hF : ∀ i j, -1 ≤ i → i ≤ r.n.get 0 → -1 ≤ j → j ≤ r.n.get 1 → F (i, j, 0) = crossed P Q m (r.centre 0 i) (r.centre 1 j) ∧
      (G (i, j, 0)).x = crossedX P m (r.centre 0 i) (r.centre 1 j) ∧ (G (i, j, 0)).y = crossedY Q m (r.centre 0 i) (r.centre 1 j)) (k : ℕ) :
    ∃ (ls' : Levelset K) (F' : Cell → K), carrySteps .wrap g gv τ vel k ls = .ok ls' ∧
      (∀ c, r.Interior c → ls'.phi.get .wrap g c.1 c.2.1 c.2.2 = .ok (F' c)) ∧
      ∀ i j : ℤ, 0 ≤ i → i < r.n.get 0 → 0 ≤ j → j < r.n.get 1 → (0 < u.x * τ → k ≤ i + 1) → (u.x * τ ≤ 0 → i + k ≤ r.n.get 0) →
        (0 < u.y * τ → k ≤ j + 1) → (u.y * τ ≤ 0 → j + k ≤ r.n.get 1) →
        |F' (i, j, 0) - crossed P Q m (r.centre 0 i - k * (u.x * τ)) (r.centre 1 j - k * (u.y * τ))| ≤
          |m - μ| * (k * ((|u.x * τ| * r.h 1 + |u.y * τ| * r.h 0) / 6)) ∧
        (|u.x * τ| ≤ r.h 0 / 5 → |u.y * τ| ≤ r.h 1 / 5 → |m - μ| * (k * (144 / 625 * (|u.x * τ| * |u.y * τ|))) ≤
          |F' (i, j, 0) - crossed P Q m (r.centre 0 i - k * (u.x * τ)) (r.centre 1 j - k * (u.y * τ))|) := by
  obtain ⟨ls', F', G', e1, e2, e3⟩ := C106_saddle r g gv τ u vel R ls F G μ S P Q m hF k
  refine ⟨ls', F', e1, fun c hc => (e2 c hc).1, fun i j i0 i1 j0 j1 xp xn yp yn => ?_⟩
  obtain ⟨k1, -, -⟩ := e3 i j i0 i1 j0 j1 xp xn yp yn
  have hx0 : 0 < r.h 0 := R.valid.h_pos R.pos 0 (by decide)
  have hy0 : 0 < r.h 1 := R.valid.h_pos R.pos 1 (by decide)
  set s := Int.fract (-(u.x * τ / r.h 0)) with hs
  set w := Int.fract (-(u.y * τ / r.h 1)) with hw
  have d0 : |u.x * τ / r.h 0| < 1 := by
    rw [abs_div, abs_of_pos hx0, div_lt_one hx0]
    exact R.cfl 0 (by decide)
  have d1 : |u.y * τ / r.h 1| < 1 := by
    rw [abs_div, abs_of_pos hy0, div_lt_one hy0]
    exact R.cfl 1 (by decide)
  obtain ⟨ea, ra, s0, s1⟩ := fract_small d0
  obtain ⟨eb, rb, w0, w1⟩ := fract_small d1
  rw [← hs] at ea ra s0 s1
  rw [← hw] at eb rb w0 w1
  have ux : |u.x * τ| = |u.x * τ / r.h 0| * r.h 0 := by rw [abs_div, abs_of_pos hx0]; field_simp
  have uy : |u.y * τ| = |u.y * τ / r.h 1| * r.h 1 := by rw [abs_div, abs_of_pos hy0]; field_simp
  rw [k1, sub_sub_cancel_left, abs_neg, ux, uy]
  generalize |u.x * τ / r.h 0| = X at *
  generalize |u.y * τ / r.h 1| = Y at *
  have X0 : 0 ≤ X := by
    by_contra hn
    have : X * (1 - X) < 0 := mul_neg_of_neg_of_pos (not_le.1 hn) (by linarith)
    have := mul_nonneg s0 (by linarith : 0 ≤ 1 - s)
    linarith
  have Y0 : 0 ≤ Y := by
    by_contra hn
    have : Y * (1 - Y) < 0 := mul_neg_of_neg_of_pos (not_le.1 hn) (by linarith)
    have := mul_nonneg w0 (by linarith : 0 ≤ 1 - w)
    linarith
  have a0 : 0 ≤ X * (1 - X) := mul_nonneg X0 (by linarith)
  have b0 : 0 ≤ Y * (1 - Y) := mul_nonneg Y0 (by linarith)
  have a1 : X * (1 - X) ≤ 1 / 4 := by linarith [sq_nonneg (X - 1 / 2)]
  have b1 : Y * (1 - Y) ≤ 1 / 4 := by linarith [sq_nonneg (Y - 1 / 2)]
  have mb := missed_le ea eb a0 a1 b0 b1 k
  have val : |(m - μ) * (r.h 0 * r.h 1) * (slopeSum s * slopeSum w * missed s w k)| =
      |m - μ| * (r.h 0 * r.h 1) * (|1 - 2 * X| * |1 - 2 * Y|) * (X * (1 - X) * (Y * (1 - Y)) * missed s w k) := by
    have e : slopeSum s * slopeSum w * missed s w k =
        (1 - 2 * s) * (1 - 2 * w) * (X * (1 - X) * (Y * (1 - Y)) * missed s w k) := by
      rw [slopeSum, slopeSum, ← ea, ← eb]
      ring
    rw [e, abs_mul, abs_mul, abs_mul ((1 - 2 * s) * (1 - 2 * w)), abs_mul (1 - 2 * s), ra, rb, abs_of_nonneg mb.1, abs_of_pos (mul_pos hx0 hy0)]
    ring
  rw [val]
  constructor
  · have f0 : |1 - 2 * X| * |1 - 2 * Y| ≤ 1 := by
      have p1 : |1 - 2 * X| ≤ 1 := by rw [abs_le]; constructor <;> linarith
      have p2 : |1 - 2 * Y| ≤ 1 := by rw [abs_le]; constructor <;> linarith
      exact mul_le_one₀ p1 (abs_nonneg _) p2
    have H : 0 ≤ |m - μ| * (r.h 0 * r.h 1) := by positivity
    calc _ ≤ |m - μ| * (r.h 0 * r.h 1) * 1 * (k * ((X * (1 - X) + Y * (1 - Y)) / 6)) :=
          mul_le_mul (mul_le_mul_of_nonneg_left f0 H) mb.2 mb.1 (by positivity)
      _ ≤ |m - μ| * (r.h 0 * r.h 1) * 1 * (k * ((X + Y) / 6)) := by
          have c1 : X * (1 - X) + Y * (1 - Y) ≤ X + Y := by linarith [mul_nonneg X0 X0, mul_nonneg Y0 Y0]
          gcongr
      _ = _ := by ring
  · intro hx5 hy5
    have X5 : X ≤ 1 / 5 := by
      by_contra hn
      have := mul_lt_mul_of_pos_right (not_le.1 hn) hx0
      linarith
    have Y5 : Y ≤ 1 / 5 := by
      by_contra hn
      have := mul_lt_mul_of_pos_right (not_le.1 hn) hy0
      linarith
    have big : (k : K) ≤ missed s w k := by
      calc (k : K) = ∑ _j ∈ Finset.range k, (1 : K) := by rw [Finset.sum_const, Finset.card_range, nsmul_eq_mul, mul_one]
        _ ≤ _ := Finset.sum_le_sum fun j _ => by
          have := powers_nonneg (turn_nonneg ea X0 X5) j
          have := powers_nonneg (turn_nonneg eb Y0 Y5) j
          linarith
    have H : 0 ≤ |m - μ| * (r.h 0 * r.h 1) := by positivity
    have pX := fifth_le X0 X5
    have pY := fifth_le Y0 Y5
    have x0 : 0 ≤ 12 / 25 * X := mul_nonneg (by norm_num) X0
    have y0 : 0 ≤ 12 / 25 * Y := mul_nonneg (by norm_num) Y0
    have prod := mul_le_mul pX pY y0 (x0.trans pX)
    calc _ = |m - μ| * (r.h 0 * r.h 1) * (12 / 25 * X * (12 / 25 * Y) * k) := by ring
      _ ≤ |m - μ| * (r.h 0 * r.h 1) * (|1 - 2 * X| * (X * (1 - X)) * (|1 - 2 * Y| * (Y * (1 - Y))) * missed s w k) := by
          exact mul_le_mul_of_nonneg_left (mul_le_mul prod big (Nat.cast_nonneg k) ((mul_nonneg x0 y0).trans prod)) H
      _ = _ := by ring

end

/-! ## Instances -/

/-- Six by six cells of width 1. -/
def square6 : Req ℚ := ⟨⟨6, 6, 1⟩, 1, ⟨0, 0, 0⟩, ⟨6, 6, 0⟩⟩

theorem square6_valid : square6.Valid 2 :=
  ⟨by simp, by decide, by decide, by decide, by decide, by decide, by decide, by decide⟩

theorem square6_h : square6.h 0 = 1 ∧ square6.h 1 = 1 := by norm_num [square6, Req.h, Vec3.get]

/-- The function `x y` on six by six cells in the flow with velocity (1, 1), time step 1/10, and `μ` for the mixed derivatives. -/
theorem square6_run (μ : ℚ) : ∃ (g : Grid ℚ 2) (vel : LsVelocity ℚ) (ls : Levelset ℚ) (F : Cell → ℚ) (G : Cell → Vec3 ℚ),
    RunPlane square6 g g (1 / 10) ⟨1, 1, 0⟩ vel ∧ Spec.Holds .wrap square6 g ls F G [μ] ∧
    ∀ i j, -1 ≤ i → i ≤ square6.n.get 0 → -1 ≤ j → j ≤ square6.n.get 1 → F (i, j, 0) = crossed 0 0 1 (square6.centre 0 i) (square6.centre 1 j) ∧
      (G (i, j, 0)).x = crossedX 0 1 (square6.centre 0 i) (square6.centre 1 j) ∧
      (G (i, j, 0)).y = crossedY 0 1 (square6.centre 0 i) (square6.centre 1 j) := by
  obtain ⟨g, e, -⟩ := C01_padded_addressing .wrap 2 square6 square6_valid
  have Md := make_made square6_valid e
  obtain ⟨vel, hv, hg⟩ := velocity_exists (s := .wrap) Md (fun _ => ⟨1, 1, 0⟩) (fun _ => Mat3.zero)
  obtain ⟨a0, h0⟩ := fieldIs_exists (s := .wrap) Md fun c : Cell => crossed 0 0 (1 : ℚ) (square6.centre 0 c.1) (square6.centre 1 c.2.1)
  obtain ⟨b0, k0⟩ := fieldIs_exists (s := .wrap) Md fun c : Cell => (⟨crossedX 0 1 (square6.centre 0 c.1) (square6.centre 1 c.2.1),
    crossedY 0 1 (square6.centre 0 c.1) (square6.centre 1 c.2.1), 0⟩ : Vec3 ℚ)
  obtain ⟨m0, l0⟩ := fieldIs_exists (s := .wrap) Md (fun _ : Cell => [μ])
  obtain ⟨l⟩ : Nonempty (Levelset ℚ) := ⟨Levelset.mk' g⟩
  refine ⟨g, vel, { l with phi := a0, psi := b0, phiPrev := a0, psiPrev := b0, phiInterpPrev := a0, psiInterpPrev := b0, phiMixedPrev := m0 },
    _, _, ⟨square6_valid, ?_, rfl, e, fun c hc => hv.val c (interior_padded Md hc), fun c hc => hg.val c (interior_padded Md hc), ?_⟩,
    ⟨h0, k0, ⟨_, h0⟩, ⟨_, k0⟩, ⟨_, h0⟩, ⟨_, k0⟩, l0⟩, fun i j _ _ _ _ => ⟨rfl, rfl, rfl⟩⟩
  · intro a ha
    match a with
    | 0 => show (0 : ℚ) < 6; norm_num
    | 1 => show (0 : ℚ) < 6; norm_num
    | 2 => exact absurd ha (by decide)
  · intro a ha
    match a with
    | 0 => rw [square6_h.1]; norm_num [Vec3.get, abs_lt]
    | 1 => rw [square6_h.2]; norm_num [Vec3.get, abs_lt]
    | 2 => exact absurd ha (by decide)

/-- Instance of `C106_saddle`: three steps without mixed derivatives, the node at (9/2, 9/2); the exact value is 441/25. -/
example : ∃ (g : Grid ℚ 2) (vel : LsVelocity ℚ) (ls ls' : Levelset ℚ), square6.make .wrap 2 = .ok g ∧
    carrySteps .wrap g g (1 / 10) vel 3 ls = .ok ls' ∧ ls'.phi.get .wrap g 4 4 0 = .ok (441 / 25 - 5184 / 10 ^ 6 * (52632 / 10 ^ 4)) := by
  obtain ⟨g, vel, ls, F, G, R, S, hF⟩ := square6_run 0
  obtain ⟨ls', F', G', e1, e2, e3⟩ := C106_saddle square6 g g (1 / 10) ⟨1, 1, 0⟩ vel R ls F G 0 S 0 0 1 hF 3
  refine ⟨g, vel, ls, ls', R.made, e1, ?_⟩
  obtain ⟨h0, h1⟩ := square6_h
  have hc : square6.Interior (4, 4, 0) := by decide
  have := (e3 4 4 (by decide) (by decide) (by decide) (by decide) (fun _ => by norm_num) (fun hc => absurd hc (by norm_num))
    (fun _ => by norm_num) (fun hc => absurd hc (by norm_num))).1
  rw [(e2 (4, 4, 0) hc).1, this]
  have fr : Int.fract (-(1 * (1 / 10) / 1 : ℚ)) = 9 / 10 := by
    rw [Int.fract_eq_iff]
    exact ⟨by norm_num, by norm_num, -1, by norm_num⟩
  have c0 : square6.centre 0 4 = 9 / 2 := by norm_num [square6, Req.centre, Req.h, Vec3.get]
  have c1 : square6.centre 1 4 = 9 / 2 := by norm_num [square6, Req.centre, Req.h, Vec3.get]
  simp only [h0, h1, fr, c0, c1]
  congr 1
  norm_num [crossed, slopeSum, slopeTurn, missed, powers, Finset.sum_range_succ]

/-- Instance of `C106_right`: the same with the mixed derivatives 1. -/
example : ∃ (g : Grid ℚ 2) (vel : LsVelocity ℚ) (ls ls' : Levelset ℚ), square6.make .wrap 2 = .ok g ∧
    carrySteps .wrap g g (1 / 10) vel 3 ls = .ok ls' ∧ ls'.phi.get .wrap g 4 4 0 = .ok (441 / 25) := by
  obtain ⟨g, vel, ls, F, G, R, S, hF⟩ := square6_run 1
  obtain ⟨ls', e1, e3⟩ := C106_right square6 g g (1 / 10) ⟨1, 1, 0⟩ vel R ls F G 0 0 1 S hF 3
  refine ⟨g, vel, ls, ls', R.made, e1, ?_⟩
  rw [e3 4 4 (by decide) (by decide) (by decide) (by decide) (fun _ => by norm_num) (fun hc => absurd hc (by norm_num))
    (fun _ => by norm_num) (fun hc => absurd hc (by norm_num))]
  congr 1
  norm_num [square6, Req.centre, Req.h, Vec3.get, crossed]

/-- Instance of `C106_drift`: the error of the first run is between 0.006912 and 0.1. -/
example : ∃ (g : Grid ℚ 2) (vel : LsVelocity ℚ) (ls ls' : Levelset ℚ) (z : ℚ), square6.make .wrap 2 = .ok g ∧
    carrySteps .wrap g g (1 / 10) vel 3 ls = .ok ls' ∧ ls'.phi.get .wrap g 4 4 0 = .ok z ∧ |z - 441 / 25| ≤ 1 / 10 ∧
    6912 / 10 ^ 6 ≤ |z - 441 / 25| := by
  obtain ⟨g, vel, ls, F, G, R, S, hF⟩ := square6_run 0
  obtain ⟨ls', F', e1, e2, e3⟩ := C106_drift square6 g g (1 / 10) ⟨1, 1, 0⟩ vel R ls F G 0 S 0 0 1 hF 3
  obtain ⟨h0, h1⟩ := square6_h
  have hc : square6.Interior (4, 4, 0) := by decide
  obtain ⟨k1, k2⟩ := e3 4 4 (by decide) (by decide) (by decide) (by decide) (fun _ => by norm_num) (fun hc => absurd hc (by norm_num))
    (fun _ => by norm_num) (fun hc => absurd hc (by norm_num))
  have k2 := k2 (by rw [h0]; norm_num [abs_of_pos]) (by rw [h1]; norm_num [abs_of_pos])
  have ev : crossed 0 0 1 (square6.centre 0 4 - (3 : ℕ) * (1 * (1 / 10) : ℚ)) (square6.centre 1 4 - (3 : ℕ) * (1 * (1 / 10) : ℚ)) = 441 / 25 := by
    norm_num [square6, Req.centre, Req.h, Vec3.get, crossed]
  rw [ev] at k1 k2
  refine ⟨g, vel, ls, ls', _, R.made, e1, e2 (4, 4, 0) hc, k1.trans ?_, le_trans ?_ k2⟩
  · rw [h0, h1]
    norm_num [abs_of_pos]
  · norm_num [abs_of_pos]

end Gals.Props
