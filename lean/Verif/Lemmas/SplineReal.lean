import Verif.Lemmas.SplineNest
import Verif.Lemmas.HermiteError
import Verif.Spec.TransportDouble

/-!
# Splines through data near a smooth function
-/

set_option linter.unusedSectionVars false

namespace Gals

open Spec Set

/-- Basis functions (`o = 0`) or their derivatives. -/
noncomputable def bas (o : Fin 2) (t : ℝ) : List ℝ := if o = 0 then basis t else basis' t

/-- Largest value of the sum for data of size 1. -/
noncomputable def bC (o : Fin 2) : ℝ := if o = 0 then 5 / 4 else 4

theorem bC_nonneg (o : Fin 2) : 0 ≤ bC o := by unfold bC; split <;> norm_num

/-- Interpolation on the cell between nodes `b` and `b + 1`. -/
noncomputable def tn1 (o : Fin 2) (t h : ℝ) (b : ℤ) (G : Fin 2 → ℤ → ℝ) : ℝ :=
  T1 (bas o t) h (G 0 b) (G 1 b) (G 0 (b + 1)) (G 1 (b + 1))

theorem tn1_zero (t h : ℝ) (b : ℤ) (G : Fin 2 → ℤ → ℝ) : tn1 0 t h b G =
    (2 * t ^ 3 - 3 * t ^ 2 + 1) * G 0 b + (-2 * t ^ 3 + 3 * t ^ 2) * G 0 (b + 1) +
      ((t ^ 3 - 2 * t ^ 2 + t) * (h * G 1 b) + (t ^ 3 - t ^ 2) * (h * G 1 (b + 1))) := by
  simp only [tn1, bas, if_true, basis, B0, B1, B2, B3, sqr, cube, T1_four]
  ring

theorem tn1_one (t h : ℝ) (b : ℤ) (G : Fin 2 → ℤ → ℝ) : tn1 1 t h b G =
    (6 * t ^ 2 - 6 * t) * G 0 b + (-6 * t ^ 2 + 6 * t) * G 0 (b + 1) +
      ((3 * t ^ 2 - 4 * t + 1) * (h * G 1 b) + (3 * t ^ 2 - 2 * t) * (h * G 1 (b + 1))) := by
  simp only [tn1, bas, show ¬ (1 : Fin 2) = 0 by decide, if_false, basis', B0', B1', B2', B3', sqr, T1_four]
  ring

theorem hsum_cast (o : Fin 2) (h t : ℚ) (b : ℤ) (f : Fin 2 → ℤ → ℚ) :
    ((hsum o h t b f : ℚ) : ℝ) = tn1 o t h b fun a i => (f a i : ℝ) := by
  match o with
  | 0 =>
    rw [tn1_zero]
    simp only [hsum, if_true, hVal_0, hVal_1, hSlope_0, hSlope_1]
    push_cast
    ring
  | 1 =>
    rw [tn1_one]
    simp only [hsum, show ¬ (1 : Fin 2) = 0 by decide, if_false, hVal'_0, hVal'_1, hSlope'_0, hSlope'_1]
    push_cast
    ring

theorem spline_cast (A : Axis) (o : Fin 2) (q : ℚ) (f : Fin 2 → ℤ → ℚ) :
    ((A.spline o q f : ℚ) : ℝ) = tn1 o (Int.fract (A.coord q) : ℚ) A.h ⌊A.coord q⌋ (fun a i => (f a i : ℝ)) / (A.h : ℝ) ^ o.val := by
  rw [spline_eq, Rat.cast_div, hsum_cast, Rat.cast_pow]

theorem tn1_sub (o : Fin 2) (t h : ℝ) (b : ℤ) (G H : Fin 2 → ℤ → ℝ) :
    tn1 o t h b G - tn1 o t h b H = tn1 o t h b fun a i => G a i - H a i := T1_sub ..

theorem tn1_mul (o : Fin 2) (t h c : ℝ) (b : ℤ) (G : Fin 2 → ℤ → ℝ) :
    tn1 o t h b (fun a i => G a i * c) = tn1 o t h b G * c := by
  match o with
  | 0 => rw [tn1_zero, tn1_zero]; ring
  | 1 => rw [tn1_one, tn1_one]; ring

/-- Interpolation of small data is small. -/
theorem tn1_le {o : Fin 2} {t h ε : ℝ} {b : ℤ} {G : Fin 2 → ℤ → ℝ} (t0 : 0 ≤ t) (t1 : t ≤ 1) (hh : 0 < h)
    (hG : ∀ a i, (i = b ∨ i = b + 1) → |G a i| * h ^ a.val ≤ ε) : |tn1 o t h b G| ≤ bC o * ε := by
  have v0 := hG 0 b (.inl rfl)
  have v1 := hG 0 (b + 1) (.inr rfl)
  have e0 := hG 1 b (.inl rfl)
  have e1 := hG 1 (b + 1) (.inr rfl)
  simp only [Fin.val_zero, pow_zero, mul_one] at v0 v1
  simp only [Fin.val_one, pow_one] at e0 e1
  have m0 : |h * G 1 b| ≤ ε := by rwa [abs_mul, abs_of_pos hh, mul_comm]
  have m1 : |h * G 1 (b + 1)| ≤ ε := by rwa [abs_mul, abs_of_pos hh, mul_comm]
  have r : 0 ≤ 1 - t := by linarith
  have prod : ∀ {c x C : ℝ}, |c| ≤ C → |x| ≤ ε → |c * x| ≤ C * ε := fun {c x C} hc hx => by
    rw [abs_mul]
    exact mul_le_mul hc hx (abs_nonneg _) ((abs_nonneg _).trans hc)
  have four : ∀ {p q u v : ℝ}, |p + q + (u + v)| ≤ |p| + |q| + (|u| + |v|) := fun {p q u v} =>
    (abs_add_le _ _).trans (add_le_add (abs_add_le _ _) (abs_add_le _ _))
  match o with
  | 0 =>
    rw [tn1_zero]
    have c0 : |2 * t ^ 3 - 3 * t ^ 2 + 1| ≤ (1 - t) ^ 2 * (1 + 2 * t) := by
      rw [abs_of_nonneg]
      · exact le_of_eq (by ring)
      · rw [show 2 * t ^ 3 - 3 * t ^ 2 + 1 = (1 - t) ^ 2 * (1 + 2 * t) by ring]; positivity
    have c1 : |-2 * t ^ 3 + 3 * t ^ 2| ≤ t ^ 2 * (3 - 2 * t) := by
      rw [abs_of_nonneg]
      · exact le_of_eq (by ring)
      · rw [show -2 * t ^ 3 + 3 * t ^ 2 = t ^ 2 * (3 - 2 * t) by ring]
        exact mul_nonneg (sq_nonneg t) (by linarith)
    have c2 : |t ^ 3 - 2 * t ^ 2 + t| ≤ t * (1 - t) ^ 2 := by
      rw [show t ^ 3 - 2 * t ^ 2 + t = t * (1 - t) ^ 2 by ring, abs_of_nonneg (by positivity)]
    have c3 : |t ^ 3 - t ^ 2| ≤ t ^ 2 * (1 - t) := by
      rw [show t ^ 3 - t ^ 2 = -(t ^ 2 * (1 - t)) by ring, abs_neg, abs_of_nonneg (by positivity)]
    have k := (add_le_add (add_le_add (prod c0 v0) (prod c1 v1)) (add_le_add (prod c2 m0) (prod c3 m1)))
    refine four.trans (k.trans ?_)
    have e : 0 ≤ ε := (abs_nonneg _).trans v0
    have : t * (1 - t) ≤ 1 / 4 := by nlinarith [sq_nonneg (t - 1 / 2)]
    have := mul_le_mul_of_nonneg_right this e
    simp only [bC, if_true]
    linarith [this]
  | 1 =>
    rw [tn1_one]
    have q : t * (1 - t) ≤ 1 / 4 := by nlinarith [sq_nonneg (t - 1 / 2)]
    have c0 : |6 * t ^ 2 - 6 * t| ≤ 3 / 2 := by
      rw [abs_le]; constructor <;> nlinarith [mul_nonneg t0 r]
    have c1 : |-6 * t ^ 2 + 6 * t| ≤ 3 / 2 := by
      rw [abs_le]; constructor <;> nlinarith [mul_nonneg t0 r]
    have c23 : |3 * t ^ 2 - 4 * t + 1| + |3 * t ^ 2 - 2 * t| ≤ 1 := by
      rcases abs_cases (3 * t ^ 2 - 4 * t + 1) with ⟨h1, -⟩ | ⟨h1, -⟩ <;> rcases abs_cases (3 * t ^ 2 - 2 * t) with ⟨h2, -⟩ | ⟨h2, -⟩ <;>
        rw [h1, h2] <;> nlinarith [mul_nonneg t0 r, sq_nonneg (t - 1 / 2)]
    have k := (add_le_add (add_le_add (prod c0 v0) (prod c1 v1)) (add_le_add (prod (le_refl |3 * t ^ 2 - 4 * t + 1|) m0)
      (prod (le_refl |3 * t ^ 2 - 2 * t|) m1)))
    refine four.trans (k.trans ?_)
    have e : 0 ≤ ε := (abs_nonneg _).trans v0
    have := mul_le_mul_of_nonneg_right c23 e
    simp only [bC, show ¬ (1 : Fin 2) = 0 by decide, if_false]
    linarith [this]

theorem tn1_near {o : Fin 2} {t h ε : ℝ} {b : ℤ} {G H : Fin 2 → ℤ → ℝ} (t0 : 0 ≤ t) (t1 : t ≤ 1) (hh : 0 < h)
    (hG : ∀ a i, (i = b ∨ i = b + 1) → |G a i - H a i| * h ^ a.val ≤ ε) : |tn1 o t h b G - tn1 o t h b H| ≤ bC o * ε := by
  rw [tn1_sub]
  exact tn1_le t0 t1 hh hG

/-- Two axes. -/
noncomputable def tn2 (o o' : Fin 2) (t t' h h' : ℝ) (b b' : ℤ) (G : Fin 2 → Fin 2 → ℤ → ℤ → ℝ) : ℝ :=
  tn1 o t h b fun a i => tn1 o' t' h' b' fun c j => G a c i j

theorem tn2_near {o o' : Fin 2} {t t' h h' ε : ℝ} {b b' : ℤ} {G H : Fin 2 → Fin 2 → ℤ → ℤ → ℝ} (t0 : 0 ≤ t) (t1 : t ≤ 1) (hh : 0 < h)
    (t0' : 0 ≤ t') (t1' : t' ≤ 1) (hh' : 0 < h')
    (hG : ∀ a c i j, (i = b ∨ i = b + 1) → (j = b' ∨ j = b' + 1) → |G a c i j - H a c i j| * (h ^ a.val * h' ^ c.val) ≤ ε) :
    |tn2 o o' t t' h h' b b' G - tn2 o o' t t' h h' b b' H| ≤ bC o * (bC o' * ε) := by
  refine tn1_near t0 t1 hh fun a i hi => ?_
  have p : 0 < h ^ a.val := pow_pos hh _
  rw [← le_div_iff₀ p, mul_div_assoc]
  refine tn1_near t0' t1' hh' fun c j hj => ?_
  rw [le_div_iff₀ p, mul_assoc, mul_comm (h' ^ c.val)]
  exact hG a c i j hi hj

/-- Three axes. -/
noncomputable def tn3 (o o' o'' : Fin 2) (t t' t'' h h' h'' : ℝ) (b b' b'' : ℤ) (G : Fin 2 → Fin 2 → Fin 2 → ℤ → ℤ → ℤ → ℝ) : ℝ :=
  tn1 o t h b fun a i => tn2 o' o'' t' t'' h' h'' b' b'' fun c e j k => G a c e i j k

theorem tn3_near {o o' o'' : Fin 2} {t t' t'' h h' h'' ε : ℝ} {b b' b'' : ℤ} {G H : Fin 2 → Fin 2 → Fin 2 → ℤ → ℤ → ℤ → ℝ}
    (t0 : 0 ≤ t) (t1 : t ≤ 1) (hh : 0 < h) (t0' : 0 ≤ t') (t1' : t' ≤ 1) (hh' : 0 < h') (t0'' : 0 ≤ t'') (t1'' : t'' ≤ 1) (hh'' : 0 < h'')
    (hG : ∀ a c e i j k, (i = b ∨ i = b + 1) → (j = b' ∨ j = b' + 1) → (k = b'' ∨ k = b'' + 1) →
      |G a c e i j k - H a c e i j k| * (h ^ a.val * h' ^ c.val * h'' ^ e.val) ≤ ε) :
    |tn3 o o' o'' t t' t'' h h' h'' b b' b'' G - tn3 o o' o'' t t' t'' h h' h'' b b' b'' H| ≤ bC o * (bC o' * (bC o'' * ε)) := by
  refine tn1_near t0 t1 hh fun a i hi => ?_
  have p : 0 < h ^ a.val := pow_pos hh _
  rw [← le_div_iff₀ p, mul_div_assoc, mul_div_assoc]
  refine tn2_near t0' t1' hh' t0'' t1'' hh'' fun c e j k hj hk => ?_
  rw [le_div_iff₀ p]
  exact (le_of_eq (by ring)).trans (hG a c e i j k hi hj hk)

/-! ## The spline of rational data -/

theorem jet1_cast (A : Fin 3 → Axis) (o : Fin 3 → Fin 2) (D : Jet) (q : Fin 3 → ℚ) :
    ((jetSpline 1 A o D q : ℚ) : ℝ) = tn1 (o 0) (Int.fract ((A 0).coord (q 0)) : ℚ) (A 0).h ⌊(A 0).coord (q 0)⌋
      (fun a i => (D a 0 0 (i, 0, 0) : ℝ)) / ((A 0).h : ℝ) ^ (o 0).val := by
  rw [jetSpline, spline_cast]
  simp only [if_true]

theorem tn1_div (o : Fin 2) (t h c : ℝ) (b : ℤ) (G : Fin 2 → ℤ → ℝ) :
    tn1 o t h b (fun a i => G a i / c) = tn1 o t h b G / c := by
  simp only [div_eq_mul_inv]
  exact tn1_mul ..

theorem jet2_cast (A : Fin 3 → Axis) (o : Fin 3 → Fin 2) (D : Jet) (q : Fin 3 → ℚ) :
    ((jetSpline 2 A o D q : ℚ) : ℝ) = tn2 (o 0) (o 1) (Int.fract ((A 0).coord (q 0)) : ℚ) (Int.fract ((A 1).coord (q 1)) : ℚ)
      (A 0).h (A 1).h ⌊(A 0).coord (q 0)⌋ ⌊(A 1).coord (q 1)⌋ (fun a c i j => (D a c 0 (i, j, 0) : ℝ)) /
      (((A 0).h : ℝ) ^ (o 0).val * ((A 1).h : ℝ) ^ (o 1).val) := by
  rw [jetSpline, spline_cast]
  simp only [if_true, show ¬ (2 : ℕ) = 1 by decide, if_false, spline_cast, tn1_div]
  rw [div_div, mul_comm]
  rfl

theorem jet3_cast (A : Fin 3 → Axis) (o : Fin 3 → Fin 2) (D : Jet) (q : Fin 3 → ℚ) :
    ((jetSpline 3 A o D q : ℚ) : ℝ) = tn3 (o 0) (o 1) (o 2) (Int.fract ((A 0).coord (q 0)) : ℚ) (Int.fract ((A 1).coord (q 1)) : ℚ)
      (Int.fract ((A 2).coord (q 2)) : ℚ) (A 0).h (A 1).h (A 2).h ⌊(A 0).coord (q 0)⌋ ⌊(A 1).coord (q 1)⌋ ⌊(A 2).coord (q 2)⌋
      (fun a c e i j k => (D a c e (i, j, k) : ℝ)) /
      (((A 0).h : ℝ) ^ (o 0).val * ((A 1).h : ℝ) ^ (o 1).val * ((A 2).h : ℝ) ^ (o 2).val) := by
  rw [jetSpline, spline_cast]
  simp only [show ¬ (3 : ℕ) = 2 by decide, show ¬ (3 : ℕ) = 1 by decide, if_false, spline_cast, tn1_div]
  rw [div_div, div_div]
  congr 1
  ring

/-! ## Data near a smooth function -/

theorem abs_tri {p q r A B : ℝ} (h1 : |p - q| ≤ A) (h2 : |q - r| ≤ B) : |p - r| ≤ B + A := abs_parts h1 h2

theorem near1 {f f' : ℝ → ℝ} {x : ℤ → ℝ} {h M ε t : ℝ} {b : ℤ} (hh : 0 < h) (hx : x (b + 1) = x b + h)
    (hf : Quartic f (x b) (x b + h) M) (hf' : ∀ x, HasDerivAt f (f' x) x) (t0 : 0 ≤ t) (t1 : t ≤ 1) {G : Fin 2 → ℤ → ℝ}
    (hG : ∀ a i, (i = b ∨ i = b + 1) → |G a i - (if a = 0 then f (x i) else f' (x i))| * h ^ a.val ≤ ε) :
    |tn1 0 t h b G - f (x b + t * h)| ≤ M * h ^ 4 / 384 + bC 0 * ε ∧
    |tn1 1 t h b G / h - f' (x b + t * h)| ≤ M * h ^ 3 / 24 + bC 1 * ε / h := by
  obtain ⟨e1, e2⟩ := error1 hh hf hf' t0 t1
  have k0 := tn1_near (o := 0) t0 t1 hh hG
  have k1 := tn1_near (o := 1) t0 t1 hh hG
  simp only [tn1, bas, if_true, show ¬ (1 : Fin 2) = 0 by decide, if_false, hx] at k0 k1 ⊢
  refine ⟨abs_tri k0 e1, abs_tri ?_ e2⟩
  rw [mul_one_div, ← sub_div, abs_div, abs_of_pos hh]
  gcongr

theorem near2 {F : Fin 2 → Fin 2 → ℝ → ℝ → ℝ} {x y : ℤ → ℝ} {h k M40 M04 M14 M41 ε s w : ℝ} {b c : ℤ} (hh : 0 < h) (hk : 0 < k)
    (hx : x (b + 1) = x b + h) (hy : y (c + 1) = y c + k)
    (S : Smooth2 (F 0 0) (F 1 0) (F 0 1) (F 1 1) (x b) (x b + h) (y c) (y c + k) M40 M04 M14 M41)
    (s0 : 0 ≤ s) (s1 : s ≤ 1) (w0 : 0 ≤ w) (w1 : w ≤ 1) {G : Fin 2 → Fin 2 → ℤ → ℤ → ℝ}
    (hG : ∀ α β i j, (i = b ∨ i = b + 1) → (j = c ∨ j = c + 1) → |G α β i j - F α β (x i) (y j)| * (h ^ α.val * k ^ β.val) ≤ ε) :
    |tn2 0 0 s w h k b c G - F 0 0 (x b + s * h) (y c + w * k)| ≤
      M40 * h ^ 4 / 384 + (M04 + h / 4 * M14) * k ^ 4 / 384 + bC 0 * (bC 0 * ε) ∧
    |tn2 1 0 s w h k b c G / h - F 1 0 (x b + s * h) (y c + w * k)| ≤
      M14 * k ^ 4 / 384 + (M40 + k / 4 * M41) * h ^ 3 / 24 + bC 1 * (bC 0 * ε) / h ∧
    |tn2 0 1 s w h k b c G / k - F 0 1 (x b + s * h) (y c + w * k)| ≤
      M41 * h ^ 4 / 384 + (M04 + h / 4 * M14) * k ^ 3 / 24 + bC 0 * (bC 1 * ε) / k := by
  obtain ⟨e1, e2, e3⟩ := error2 hh hk S s0 s1 w0 w1
  have k0 := tn2_near (o := 0) (o' := 0) s0 s1 hh w0 w1 hk hG
  have k1 := tn2_near (o := 1) (o' := 0) s0 s1 hh w0 w1 hk hG
  have k2 := tn2_near (o := 0) (o' := 1) s0 s1 hh w0 w1 hk hG
  simp only [tn2, tn1, bas, if_true, show ¬ (1 : Fin 2) = 0 by decide, if_false, hx, hy] at k0 k1 k2 ⊢
  refine ⟨abs_tri k0 e1, abs_tri ?_ e2, abs_tri ?_ e3⟩
  · rw [mul_one_div, ← sub_div, abs_div, abs_of_pos hh]
    gcongr
  · rw [mul_one_div, ← sub_div, abs_div, abs_of_pos hk]
    gcongr

theorem near3 {F : Fin 2 → Fin 2 → Fin 2 → ℝ → ℝ → ℝ → ℝ} {x y z : ℤ → ℝ} {h k l M ε s w v : ℝ} {b c d : ℤ} (hh : 0 < h) (hk : 0 < k)
    (hl : 0 < l) (hx : x (b + 1) = x b + h) (hy : y (c + 1) = y c + k) (hz : z (d + 1) = z d + l)
    (S : Smooth3 F (x b) (x b + h) (y c) (y c + k) (z d) (z d + l) M)
    (s0 : 0 ≤ s) (s1 : s ≤ 1) (w0 : 0 ≤ w) (w1 : w ≤ 1) (v0 : 0 ≤ v) (v1 : v ≤ 1) {G : Fin 2 → Fin 2 → Fin 2 → ℤ → ℤ → ℤ → ℝ}
    (hG : ∀ α β γ i j m, (i = b ∨ i = b + 1) → (j = c ∨ j = c + 1) → (m = d ∨ m = d + 1) →
      |G α β γ i j m - F α β γ (x i) (y j) (z m)| * (h ^ α.val * k ^ β.val * l ^ γ.val) ≤ ε) :
    |tn3 0 0 0 s w v h k l b c d G - F 0 0 0 (x b + s * h) (y c + w * k) (z d + v * l)| ≤
      M * (k ^ 4 + (1 + k / 4) * l ^ 4) / 384 + (1 + k / 4) * (1 + l / 4) * (M * h ^ 4 / 384) + bC 0 * (bC 0 * (bC 0 * ε)) ∧
    |tn3 1 0 0 s w v h k l b c d G / h - F 1 0 0 (x b + s * h) (y c + w * k) (z d + v * l)| ≤
      M * (k ^ 4 + (1 + k / 4) * l ^ 4) / 384 + (1 + k / 4) * (1 + l / 4) * (M * h ^ 3 / 24) + bC 1 * (bC 0 * (bC 0 * ε)) / h ∧
    |tn3 0 1 0 s w v h k l b c d G / k - F 0 1 0 (x b + s * h) (y c + w * k) (z d + v * l)| ≤
      M * (h ^ 4 + (1 + h / 4) * l ^ 4) / 384 + (1 + h / 4) * (1 + l / 4) * (M * k ^ 3 / 24) + bC 0 * (bC 1 * (bC 0 * ε)) / k ∧
    |tn3 0 0 1 s w v h k l b c d G / l - F 0 0 1 (x b + s * h) (y c + w * k) (z d + v * l)| ≤
      M * (h ^ 4 + (1 + h / 4) * k ^ 4) / 384 + (1 + h / 4) * (1 + k / 4) * (M * l ^ 3 / 24) + bC 0 * (bC 0 * (bC 1 * ε)) / l := by
  obtain ⟨e1, e2, e3, e4⟩ := error3 hh hk hl S s0 s1 w0 w1 v0 v1
  have k0 := tn3_near (o := 0) (o' := 0) (o'' := 0) s0 s1 hh w0 w1 hk v0 v1 hl hG
  have k1 := tn3_near (o := 1) (o' := 0) (o'' := 0) s0 s1 hh w0 w1 hk v0 v1 hl hG
  have k2 := tn3_near (o := 0) (o' := 1) (o'' := 0) s0 s1 hh w0 w1 hk v0 v1 hl hG
  have k3 := tn3_near (o := 0) (o' := 0) (o'' := 1) s0 s1 hh w0 w1 hk v0 v1 hl hG
  simp only [tn3, tn2, tn1, bas, if_true, show ¬ (1 : Fin 2) = 0 by decide, if_false, hx, hy, hz] at k0 k1 k2 k3 ⊢
  simp only [T3, T2] at e1 e2 e3 e4
  refine ⟨abs_tri k0 e1, abs_tri ?_ e2, abs_tri ?_ e3, abs_tri ?_ e4⟩
  · rw [mul_one_div, ← sub_div, abs_div, abs_of_pos hh]
    gcongr
  · rw [mul_one_div, ← sub_div, abs_div, abs_of_pos hk]
    gcongr
  · rw [mul_one_div, ← sub_div, abs_div, abs_of_pos hl]
    gcongr

/-! ## Points of an axis -/

/-- Centre of the cell `i`. -/
noncomputable def ctr (A : Axis) (i : ℤ) : ℝ := ((A.lo + (i + 1 / 2) * A.h : ℚ) : ℝ)

theorem ctr_succ (A : Axis) (i : ℤ) : ctr A (i + 1) = ctr A i + A.h := by
  unfold ctr
  push_cast
  ring

theorem ctr_mono (A : Axis) (hh : 0 < A.h) {i j : ℤ} (h : i ≤ j) : ctr A i ≤ ctr A j := by
  unfold ctr
  have : (i : ℚ) ≤ j := by exact_mod_cast h
  exact_mod_cast (add_le_add_right (mul_le_mul_of_nonneg_right (add_le_add_left this _) hh.le) _)

theorem ctr_point (A : Axis) (hh : 0 < A.h) (q : ℚ) : ctr A ⌊A.coord q⌋ + (Int.fract (A.coord q) : ℚ) * (A.h : ℝ) = q := by
  unfold ctr
  rw [← Rat.cast_mul, ← Rat.cast_add]
  congr 1
  unfold Int.fract Axis.coord
  field_simp
  ring

/-- The cell of a point less than half a cell outside of the box. -/
theorem coord_range (A : Axis) (hh : 0 < A.h) (hn : A.h * A.n = A.hi - A.lo) {q : ℚ} (h1 : A.lo - A.h / 2 ≤ q) (h2 : q < A.hi + A.h / 2) :
    -1 ≤ ⌊A.coord q⌋ ∧ ⌊A.coord q⌋ + 1 ≤ A.n := by
  have e : q = A.lo + (A.coord q + 1 / 2) * A.h := by unfold Axis.coord; field_simp; ring
  constructor
  · rw [Int.le_floor]
    push_cast
    by_contra hc
    rw [not_le] at hc
    have := mul_lt_mul_of_pos_right hc hh
    linarith
  · rw [Int.add_one_le_iff, Int.floor_lt]
    by_contra hc
    rw [not_lt] at hc
    have := mul_le_mul_of_nonneg_right hc hh.le
    linarith

end Gals
