import Verif.Lemmas.KernelDouble
import Verif.Lemmas.PointDouble
import Verif.Spec.Limit

/-!
# Gradient limiting in double arithmetic
-/

namespace Gals

open Gals.Spec

/-- A rounded product has the sign of the product, or it is zero. -/
theorem mul_sign {x y : F64} {p q r : ℚ} (hx : HasValue x p) (hy : HasValue y q) (hr : HasValue (x * y) r) :
    (r < 0 → p * q < 0) ∧ (0 < r → 0 < p * q) := by
  obtain ⟨s, a, ha, rfl, rfl⟩ := hx
  obtain ⟨t, b, hb, rfl, rfl⟩ := hy
  obtain ⟨u, m, hm, e, rfl⟩ := hr
  have a0 := isMag_nonneg ha
  have b0 := isMag_nonneg hb
  have m0 := isMag_nonneg hm
  change F64.mul _ _ = _ at e
  simp only [F64.mul, F64.round] at e
  split at e
  · injection e with e1 e2
    have pos : m ≠ 0 → 0 < a * b := by
      intro h
      refine lt_of_le_of_ne (mul_nonneg a0 b0) fun h' => h ?_
      rw [← e2, ← h', abs_zero, roundMag_zero]
    subst e1
    cases s <;> cases t <;> simp only [Bool.xor_false, Bool.xor_true, Bool.not_false, Bool.not_true, Bool.false_eq_true, if_true, if_false,
      neg_mul, mul_neg, neg_neg] <;> constructor <;> intro h
    all_goals first
      | (exfalso; linarith)
      | (have := pos (by intro h'; rw [h'] at h; simp at h); linarith)
  · exact absurd e (by simp)

theorem apx_three_half : Apx (3 / 2 : F64) (3 / 2) (3 / 2) 2 1 := by
  have h := hasValue_div (hasValue_nat (n := 3) (by norm_num)) (hasValue_nat (n := 2) (by norm_num)) (by norm_num)
    (by rw [abs_of_pos (by norm_num)]; exact le_trans (by norm_num : _ ≤ (2 : ℚ) ^ 1) (pow_le_pow_right₀ (by norm_num) (by norm_num)))
  have e : (3 / 2 : F64) = ((3 : ℕ) : F64) / ((2 : ℕ) : F64) := rfl
  rw [← e] at h
  refine (apx_round (a := 3 / 2) (k := 0) (v := 3 / 2) scaled_one h (by norm_num) (by norm_num [abs_of_pos]) (by norm_num)).mono
    (by norm_num) le_rfl (by norm_num)

theorem apx_two_thirds : Apx (twoThirds : F64) (2 / 3) (2 / 3) 2 1 := by
  have h := hasValue_div (hasValue_nat (n := 2) (by norm_num)) (hasValue_nat (n := 3) (by norm_num)) (by norm_num)
    (by rw [abs_of_pos (by norm_num)]; exact le_trans (by norm_num) (one_le_pow₀ (by norm_num : (1 : ℚ) ≤ 2)))
  have e : (twoThirds : F64) = ((2 : ℕ) : F64) / ((3 : ℕ) : F64) := rfl
  rw [← e] at h
  refine (apx_round (a := 2 / 3) (k := 0) (v := 2 / 3) scaled_one h (by norm_num) (by norm_num [abs_of_pos]) (by norm_num)).mono
    (by norm_num) le_rfl (by norm_num)

/-- The limited control points, computed in doubles, are near numbers between the node values. -/
theorem apx_limited {dx : F64} {h S S' : ℚ} (hd : Apx dx h 1 3 h) (h0 : 0 < h) (hS : Scaled S) (hSS : Scaled (S * S)) (e : S' * h = S)
    {f0 g0 f1 g1 : F64} {F0 G0 F1 G1 : ℚ} (a0 : Apx f0 F0 1 0 S) (b0 : Apx g0 G0 1 0 S') (a1 : Apx f1 F1 1 0 S)
    (b1 : Apx g1 G1 1 0 S') (hc : AlongChord (G0 * h) (G1 * h) (F1 - F0) (128 * ulp1 * S)) :
    (getControlPoints f0 g0 f1 g1 dx true).c30 = f0 ∧ (getControlPoints f0 g0 f1 g1 dx true).c03 = f1 ∧
    ∃ u w : ℚ, Apx (getControlPoints f0 g0 f1 g1 dx true).c21 u 4 40 S ∧ Apx (getControlPoints f0 g0 f1 g1 dx true).c12 w 4 40 S ∧
      (min F0 F1 - 100 * ulp1 * S ≤ u ∧ u ≤ max F0 F1 + 100 * ulp1 * S) ∧
      (min F0 F1 - 100 * ulp1 * S ≤ w ∧ w ≤ max F0 F1 + 100 * ulp1 * S) := by
  have s0 := hS.pos
  have S1 : Scaled (1 * S) := by rw [one_mul]; exact hS
  have C := apx_controlPoints hd h0 hS e a0 b0 a1 b1
  set c21 := f0 + g0 * dx * oneThird with h21
  set c12 := f1 - g1 * dx * oneThird with h12
  have e3 : (oneThird : ℚ) = 1 / 3 := rfl
  have q21 : Apx c21 (F0 + G0 * h / 3) (4 / 3) 12 S := by
    have := C.c21
    simp only [getControlPoints, Bool.false_eq_true, if_false, e3] at this
    rwa [mul_one_div] at this
  have q12 : Apx c12 (F1 - G1 * h / 3) (4 / 3) 12 S := by
    have := C.c12
    simp only [getControlPoints, Bool.false_eq_true, if_false, e3] at this
    rwa [mul_one_div] at this
  set A := G0 * h with hA
  set B := G1 * h with hB
  have aF0 := a0.size
  have aF1 := a1.size
  have u0 := ulp1_pos
  have us : 0 < ulp1 * S := mul_pos u0 s0
  have sA : |A| ≤ 1 * S := by
    rw [hA, abs_mul, abs_of_pos h0, one_mul, ← e]
    have := b0.size
    rw [one_mul] at this
    exact mul_le_mul_of_nonneg_right this h0.le
  have sB : |B| ≤ 1 * S := by
    rw [hB, abs_mul, abs_of_pos h0, one_mul, ← e]
    have := b1.size
    rw [one_mul] at this
    exact mul_le_mul_of_nonneg_right this h0.le
  obtain ⟨A1, A2⟩ := abs_le.1 sA
  obtain ⟨B1, B2⟩ := abs_le.1 sB
  obtain ⟨F01, F02⟩ := abs_le.1 aF0
  obtain ⟨F11, F12⟩ := abs_le.1 aF1
  -- the differences
  have D1 : Apx (3 * (c21 - f0)) A 1 46 S := by
    have := (q21.sub a0 hS).bound (b := 1 / 3) (by rw [abs_le]; constructor <;> linarith)
    have := ((apx_three.mul this one_pos s0 S1).scale (one_mul S)).mono (b := 1) (l := 46) s0 (by norm_num) (by norm_num)
    rwa [show 3 * (F0 + A / 3 - F0) = A by ring] at this
  have D2 : Apx (3 * (f1 - c12)) B 1 46 S := by
    have := (a1.sub q12 hS).bound (b := 1 / 3) (by rw [abs_le]; constructor <;> linarith)
    have := ((apx_three.mul this one_pos s0 S1).scale (one_mul S)).mono (b := 1) (l := 46) s0 (by norm_num) (by norm_num)
    rwa [show 3 * (F1 - (F1 - B / 3)) = B by ring] at this
  have D3 : Apx (3 / 2 * (c12 - f0)) (3 / 2 * (F1 - B / 3 - F0)) (7 / 2) 32 S :=
    ((apx_three_half.mul (q12.sub a0 hS) one_pos s0 S1).scale (one_mul S)).mono s0 (by norm_num) (by norm_num)
  have D4 : Apx (3 / 2 * (f1 - c21)) (3 / 2 * (F1 - (F0 + A / 3))) (7 / 2) 32 S :=
    ((apx_three_half.mul (a1.sub q21 hS) one_pos s0 S1).scale (one_mul S)).mono s0 (by norm_num) (by norm_num)
  have D5 : Apx (f1 - f0) (F1 - F0) 2 2 S := (a1.sub a0 hS).mono s0 (by norm_num) (by norm_num)
  have x13 := (D1.sub D3 hS).mono (b := 9 / 2) (l := 100) s0 (by norm_num) (by norm_num)
  have x15 := (D1.sub D5 hS).mono (b := 9 / 2) (l := 100) s0 (by norm_num) (by norm_num)
  have x24 := (D2.sub D4 hS).mono (b := 9 / 2) (l := 100) s0 (by norm_num) (by norm_num)
  have x25 := (D2.sub D5 hS).mono (b := 9 / 2) (l := 100) s0 (by norm_num) (by norm_num)
  obtain ⟨⟨r1, w1, -⟩, -⟩ := x13.mul x15 s0 s0 hSS
  obtain ⟨⟨r2, w2, -⟩, -⟩ := x24.mul x25 s0 s0 hSS
  obtain ⟨⟨r3, w3, -⟩, -⟩ := x15.mul x25 s0 s0 hSS
  obtain ⟨⟨p13, v13, n13⟩, -⟩ := x13
  obtain ⟨⟨p15, v15, n15⟩, -⟩ := x15
  obtain ⟨⟨p24, v24, n24⟩, -⟩ := x24
  obtain ⟨⟨p25, v25, n25⟩, -⟩ := x25
  have t1 : (3 * (c21 - f0) - 3 / 2 * (c12 - f0)) * (3 * (c21 - f0) - (f1 - f0)) < 0 ↔ r1 < 0 := hasValue_lt w1 hasValue_zero
  have t2 : (3 * (f1 - c12) - 3 / 2 * (f1 - c21)) * (3 * (f1 - c12) - (f1 - f0)) < 0 ↔ r2 < 0 := hasValue_lt w2 hasValue_zero
  have t3 : (3 * (c21 - f0) - (f1 - f0)) * (3 * (f1 - c12) - (f1 - f0)) ≤ 0 ↔ r3 ≤ 0 := hasValue_le w3 hasValue_zero
  have sg1 := (mul_sign v13 v15 w1).1
  have sg2 := (mul_sign v24 v25 w2).1
  have sg3 := (mul_sign v15 v25 w3).2
  rw [abs_le] at n13 n15 n24 n25
  obtain ⟨n13, m13⟩ := n13
  obtain ⟨n15, m15⟩ := n15
  obtain ⟨n24, m24⟩ := n24
  obtain ⟨n25, m25⟩ := n25
  have lo0 := min_le_left F0 F1
  have lo1 := min_le_right F0 F1
  have hi0 := le_max_left F0 F1
  have hi1 := le_max_right F0 F1
  have e1 : 100 * ulp1 * S = 100 * (ulp1 * S) := by ring
  have e2 : 128 * ulp1 * S = 128 * (ulp1 * S) := by ring
  rw [e1] at *
  unfold AlongChord at hc
  rw [e2] at hc
  simp only [getControlPoints, if_true, ← h21, ← h12]
  split
  · rename_i c
    have sg := sg1 (t1.1 c)
    refine ⟨rfl, rfl, F0 + A / 3, F0 + 2 * A / 3, q21.mono s0 (by norm_num) (by norm_num), ?_, ?_⟩
    · have := ((apx_two.mul q21 one_pos s0 S1).scale (one_mul S)).sub a0 hS
      refine (show F0 + 2 * A / 3 = 2 * (F0 + A / 3) - F0 by ring) ▸ this.mono s0 (by norm_num) (by norm_num)
    · have : (p13 < 0 ∧ 0 < p15) ∨ (0 < p13 ∧ p15 < 0) := by
        rcases mul_neg_iff.1 sg with h | h
        · exact Or.inr h
        · exact Or.inl h
      rcases hc with ⟨k1, k2, k3, -⟩ | ⟨k1, k2, k3, -⟩ <;> rcases this with ⟨l1, l2⟩ | ⟨l1, l2⟩ <;>
        refine ⟨⟨?_, ?_⟩, ?_, ?_⟩ <;> linarith
  · split
    · rename_i c
      have sg := sg2 (t2.1 c)
      refine ⟨rfl, rfl, F1 - 2 * B / 3, F1 - B / 3, ?_, q12.mono s0 (by norm_num) (by norm_num), ?_⟩
      · have := ((apx_two.mul q12 one_pos s0 S1).scale (one_mul S)).sub a1 hS
        refine (show F1 - 2 * B / 3 = 2 * (F1 - B / 3) - F1 by ring) ▸ this.mono s0 (by norm_num) (by norm_num)
      · have : (p24 < 0 ∧ 0 < p25) ∨ (0 < p24 ∧ p25 < 0) := by
          rcases mul_neg_iff.1 sg with h | h
          · exact Or.inr h
          · exact Or.inl h
        rcases hc with ⟨k1, k2, k3, -⟩ | ⟨k1, k2, k3, -⟩ <;> rcases this with ⟨l1, l2⟩ | ⟨l1, l2⟩ <;>
          refine ⟨⟨?_, ?_⟩, ?_, ?_⟩ <;> linarith
    · split
      · have third : ∀ {x y : F64} {X Y : ℚ}, Apx x X 1 0 S → Apx y Y 1 0 S →
            Apx (twoThirds * x + oneThird * y) (2 / 3 * X + 1 / 3 * Y) 4 40 S := fun hx hy =>
          (((apx_two_thirds.mul hx one_pos s0 S1).scale (one_mul S)).add ((apx_third.mul hy one_pos s0 S1).scale (one_mul S)) hS).mono s0
            (by norm_num) (by norm_num)
        refine ⟨rfl, rfl, _, _, third a0 a1, third a1 a0, ?_⟩
        refine ⟨⟨?_, ?_⟩, ?_, ?_⟩ <;> linarith
      · rename_i c
        have sg := sg3 (not_le.1 fun h => c (t3.2 h))
        refine ⟨rfl, rfl, _, _, q21.mono s0 (by norm_num) (by norm_num), q12.mono s0 (by norm_num) (by norm_num), ?_⟩
        have : (0 < p15 ∧ 0 < p25) ∨ (p15 < 0 ∧ p25 < 0) := mul_pos_iff.1 sg
        rcases hc with ⟨k1, k2, k3, (k4 | k4) | ⟨k4, k5⟩⟩ | ⟨k1, k2, k3, (k4 | k4) | ⟨k4, k5⟩⟩ <;> rcases this with ⟨l1, l2⟩ | ⟨l1, l2⟩ <;>
          refine ⟨⟨?_, ?_⟩, ?_, ?_⟩ <;> linarith

/-- A cubic with control points in an interval, up to its ends. -/
theorem bernstein_range {η δ lo hi a b c d : ℚ} (δ0 : 0 ≤ δ) (δ1 : δ ≤ 1 / 16) (h0 : -δ ≤ η) (h1 : η ≤ 1 + δ) (a0 : lo ≤ a) (a1 : a ≤ hi) (b0 : lo ≤ b)
    (b1 : b ≤ hi) (c0 : lo ≤ c) (c1 : c ≤ hi) (d0 : lo ≤ d) (d1 : d ≤ hi) :
    lo - 4 * δ * (hi - lo) ≤ a * B0 η + b * B1 η + c * B2 η + d * B3 η ∧
      a * B0 η + b * B1 η + c * B2 η + d * B3 η ≤ hi + 4 * δ * (hi - lo) := by
  have w0 : 0 ≤ hi - lo := by linarith
  have one : B0 η + B1 η + B2 η + B3 η = 1 := by simp only [B0, B1, B2, B3, sqr, cube]; ring
  -- the negative weights
  have neg : ∃ e0 e1 e2 e3 : ℚ, 0 ≤ e0 ∧ 0 ≤ e1 ∧ 0 ≤ e2 ∧ 0 ≤ e3 ∧ e0 + e1 + e2 + e3 ≤ 4 * δ ∧ -e0 ≤ B0 η ∧ -e1 ≤ B1 η ∧ -e2 ≤ B2 η ∧ -e3 ≤ B3 η := by
    simp only [B0, B1, B2, B3, sqr, cube]
    by_cases n0 : η < 0
    · have q1 : 0 ≤ -η := by linarith
      have q2 : 0 ≤ 1 + η := by linarith
      have q3 : (1 - η) * (1 - η) ≤ 289 / 256 := by nlinarith
      have q4 : -η * (η * η) ≤ -η * (1 / 256) := mul_le_mul_of_nonneg_left (by nlinarith) q1
      have q5 := mul_nonneg q1 (sub_nonneg.2 q3)
      refine ⟨0, -(3 * η * ((1 - η) * (1 - η))), 0, -(η * η * η), le_rfl, ?_, le_rfl, ?_, ?_, ?_, ?_, ?_, ?_⟩
      · have := mul_nonneg q1 (mul_self_nonneg (1 - η)); linarith
      · have := mul_nonneg q1 (mul_self_nonneg η); linarith
      · linarith
      · have := mul_nonneg (mul_self_nonneg (1 - η)) (by linarith : 0 ≤ 1 - η); linarith
      · linarith
      · have := mul_nonneg (mul_self_nonneg η) (by linarith : 0 ≤ 1 - η); linarith
      · linarith
    · have q0 : 0 ≤ η := not_lt.1 n0
      by_cases n1 : 1 < η
      · have q1 : 0 ≤ η - 1 := by linarith
        have q3 : η * η ≤ 289 / 256 := by nlinarith
        have q4 : (η - 1) * ((η - 1) * (η - 1)) ≤ (η - 1) * (1 / 256) := mul_le_mul_of_nonneg_left (by nlinarith) q1
        have q5 := mul_nonneg q1 (sub_nonneg.2 q3)
        refine ⟨-((1 - η) * (1 - η) * (1 - η)), 0, -(3 * (η * η) * (1 - η)), 0, ?_, le_rfl, ?_, le_rfl, ?_, ?_, ?_, ?_, ?_⟩
        · have := mul_nonneg q1 (mul_self_nonneg (1 - η)); linarith
        · have := mul_nonneg q1 (mul_self_nonneg η); linarith
        · linarith
        · linarith
        · have := mul_nonneg q0 (mul_self_nonneg (1 - η)); linarith
        · linarith
        · have := mul_nonneg q0 (mul_self_nonneg η); linarith
      · have q1 : 0 ≤ 1 - η := by linarith
        refine ⟨0, 0, 0, 0, le_rfl, le_rfl, le_rfl, le_rfl, by linarith, ?_, ?_, ?_, ?_⟩
        · have := mul_nonneg q1 (mul_self_nonneg (1 - η)); linarith
        · have := mul_nonneg q0 (mul_self_nonneg (1 - η)); linarith
        · have := mul_nonneg q1 (mul_self_nonneg η); linarith
        · have := mul_nonneg q0 (mul_self_nonneg η); linarith
  obtain ⟨e0, e1, e2, e3, z0, z1, z2, z3, zs, g0, g1, g2, g3⟩ := neg
  have each : ∀ x e B : ℚ, lo ≤ x → x ≤ hi → 0 ≤ e → -e ≤ B → lo * B - e * (hi - lo) ≤ x * B ∧ x * B ≤ hi * B + e * (hi - lo) := by
    intro x e B x0 x1 e0 eB
    have m1 := mul_nonneg (sub_nonneg.2 x0) (by linarith : 0 ≤ B + e)
    have m2 := mul_nonneg (sub_nonneg.2 x1) (by linarith : 0 ≤ B + e)
    have m3 := mul_nonneg (sub_nonneg.2 x0) e0
    have m4 := mul_nonneg (sub_nonneg.2 x1) e0
    constructor <;> linarith
  obtain ⟨i0, j0⟩ := each a e0 _ a0 a1 z0 g0
  obtain ⟨i1, j1⟩ := each b e1 _ b0 b1 z1 g1
  obtain ⟨i2, j2⟩ := each c e2 _ c0 c1 z2 g2
  obtain ⟨i3, j3⟩ := each d e3 _ d0 d1 z3 g3
  have zz := mul_le_mul_of_nonneg_right zs w0
  have l1 : lo * B0 η + lo * B1 η + lo * B2 η + lo * B3 η = lo := by rw [← mul_add, ← mul_add, ← mul_add, one, mul_one]
  have l2 : hi * B0 η + hi * B1 η + hi * B2 η + hi * B3 η = hi := by rw [← mul_add, ← mul_add, ← mul_add, one, mul_one]
  constructor <;> linarith

/-- The limited 1D interpolant in doubles. -/
theorem apx_limited_kernel {dx inv x : F64} {h η P δ : ℚ} (hd : Apx dx h 1 3 h) (h0 : 0 < h) (hP : Scaled P) (hPP : Scaled (P * P)) (hx : HasValue x η)
    (δ0 : 0 ≤ δ) (δ1 : δ ≤ 1 / 16) (lo : -δ ≤ η) (hi : η ≤ 1 + δ) {n0 n1 : Node1 F64} {N0 N1 : Node1 ℚ} (k0 : Node1Is n0 N0 P h) (k1 : Node1Is n1 N1 P h)
    (hc : AlongChord (N0.psi.x * h) (N1.psi.x * h) (N1.phi - N0.phi) (128 * ulp1 * P)) :
    ∃ v, HasValue (kernel1 dx inv x n0 n1 true).phi v ∧ min N0.phi N1.phi - (1100 * ulp1 + 12 * δ) * P ≤ v ∧
      v ≤ max N0.phi N1.phi + (1100 * ulp1 + 12 * δ) * P := by
  have s0 := hP.pos
  obtain ⟨c1, c2, u, w, au, aw, ⟨u1, u2⟩, w1, w2⟩ := apx_limited hd h0 hP hPP (div_mul_cancel₀ P h0.ne') k0.phi k0.x k1.phi k1.x hc
  have hη : NearCell η := ⟨by linarith, by linarith⟩
  have pr : ∀ {c b : F64} {u v : ℚ}, Apx c u 4 40 P → Apx b v (5 / 4) 40 1 → Apx (c * b) (u * v) 5 220 P := by
    intro c b u v hc hb
    exact ((hc.mul hb s0 one_pos (by rw [mul_one]; exact hP)).scale (mul_one P)).mono s0 (by norm_num) (by norm_num)
  have small : ∀ {c : F64} {u : ℚ}, Apx c u 1 0 P → Apx c u 4 40 P := fun h => h.mono s0 (by norm_num) (by norm_num)
  have t0 := pr (small k0.phi) ((apx_B0 hx hη).mono (by norm_num) le_rfl (by norm_num : _ ≤ (40 : ℚ)))
  have t1 := pr au (apx_B1 hx hη)
  have t2 := pr aw (apx_B2 hx hη)
  have t3 := pr (small k1.phi) (apx_B3 hx hη)
  obtain ⟨⟨v, hv, nv⟩, -⟩ := (((t0.add t1 hP).add t2 hP).add t3 hP).mono s0 (by norm_num : _ ≤ (20 : ℚ)) (by norm_num : _ ≤ (1000 : ℚ))
  have us : 0 < ulp1 * P := mul_pos ulp1_pos s0
  have e1 : 100 * ulp1 * P = 100 * (ulp1 * P) := by ring
  have lo0 := min_le_left N0.phi N1.phi
  have lo1 := min_le_right N0.phi N1.phi
  have hi0 := le_max_left N0.phi N1.phi
  have hi1 := le_max_right N0.phi N1.phi
  obtain ⟨R1, R2⟩ := bernstein_range (lo := min N0.phi N1.phi - 100 * ulp1 * P) (hi := max N0.phi N1.phi + 100 * ulp1 * P) δ0 δ1 lo hi
    (a := N0.phi) (b := u) (c := w) (d := N1.phi) (by linarith) (by linarith) u1 u2 w1 w2 (by linarith) (by linarith)
  have wid : max N0.phi N1.phi + 100 * ulp1 * P - (min N0.phi N1.phi - 100 * ulp1 * P) ≤ 3 * P := by
    obtain ⟨s1, s2⟩ := abs_le.1 k0.phi.size
    obtain ⟨s3, s4⟩ := abs_le.1 k1.phi.size
    have m1 : max N0.phi N1.phi ≤ P := max_le (by linarith) (by linarith)
    have m2 : -P ≤ min N0.phi N1.phi := le_min (by linarith) (by linarith)
    have : 200 * (ulp1 * P) ≤ P := by
      have : ulp1 ≤ 1 / 200 := by norm_num [ulp1]
      have := mul_le_mul_of_nonneg_right this s0.le
      linarith
    linarith
  have w12 := mul_le_mul_of_nonneg_left wid (by linarith : 0 ≤ 4 * δ)
  rw [abs_le] at nv
  obtain ⟨n1', n2'⟩ := nv
  refine ⟨v, ?_, ?_, ?_⟩
  · simp only [kernel1]
    rw [c1, c2]
    exact hv
  · linarith
  · linarith

end Gals
