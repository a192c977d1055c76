import Verif.Lemmas.Hermite
import Verif.Spec.Smooth
import Mathlib.Analysis.Calculus.MeanValue
import Mathlib.Analysis.Calculus.Deriv.Pow
import Mathlib.Analysis.Calculus.LocalExtr.Rolle
import Mathlib.Analysis.Calculus.IteratedDeriv.Lemmas
import Mathlib.Tactic.LinearCombination

/-!
# Error of cubic Hermite interpolation

One variable by Rolle's theorem, more variables by the tensor form of the interpolant.
-/

namespace Gals

open Spec Set

set_option linter.unusedSectionVars false

/-! ## One variable -/

/-- Successive derivatives. -/
structure Chain (e e1 e2 e3 e4 : ℝ → ℝ) : Prop where
  d1 : ∀ x, HasDerivAt e (e1 x) x
  d2 : ∀ x, HasDerivAt e1 (e2 x) x
  d3 : ∀ x, HasDerivAt e2 (e3 x) x
  d4 : ∀ x, HasDerivAt e3 (e4 x) x

theorem rolle {f f' : ℝ → ℝ} (h : ∀ x, HasDerivAt f (f' x) x) {a b : ℝ} (hab : a < b) (ha : f a = 0) (hb : f b = 0) :
    ∃ c, a < c ∧ c < b ∧ f' c = 0 := by
  obtain ⟨c, hc, e⟩ := exists_hasDerivAt_eq_zero (f := f) (f' := f') hab
    (fun x _ => (h x).continuousAt.continuousWithinAt) (ha.trans hb.symm) fun x _ => h x
  exact ⟨c, hc.1, hc.2, e⟩

/-- Derivative of the difference of a function and a polynomial. -/
theorem hasDerivAt_sub_poly {f f' : ℝ → ℝ} (h : ∀ x, HasDerivAt f (f' x) x) {p q : ℝ → ℝ} (c0 c1 c2 c3 c4 : ℝ)
    (hp : ∀ x, p x = c0 + c1 * x + c2 * x ^ 2 + c3 * x ^ 3 + c4 * x ^ 4)
    (hq : ∀ x, q x = c1 + 2 * c2 * x + 3 * c3 * x ^ 2 + 4 * c4 * x ^ 3) (x : ℝ) :
    HasDerivAt (fun x => f x - p x) (f' x - q x) x := by
  have P (c : ℝ) (n : ℕ) : HasDerivAt (fun x : ℝ => c * x ^ n) (c * (n * x ^ (n - 1))) x := (hasDerivAt_pow n x).const_mul c
  have := ((((P c0 0).add (P c1 1)).add (P c2 2)).add (P c3 3)).add (P c4 4)
  have e : p = fun x => c0 + c1 * x + c2 * x ^ 2 + c3 * x ^ 3 + c4 * x ^ 4 := funext hp
  refine ((h x).sub (g := p) (g' := q x) ?_)
  rw [e]
  convert this using 1
  · funext y; simp
  · rw [hq]; push_cast; ring

/-- A function with four zeros has a third derivative with a zero between them. -/
theorem rolle3 {f f1 f2 f3 : ℝ → ℝ} (h1 : ∀ x, HasDerivAt f (f1 x) x) (h2 : ∀ x, HasDerivAt f1 (f2 x) x)
    (h3 : ∀ x, HasDerivAt f2 (f3 x) x) {a b c d : ℝ} (ab : a < b) (bc : b < c) (cd : c < d) (ha : f a = 0) (hb : f b = 0)
    (hc : f c = 0) (hd : f d = 0) : ∃ x, a < x ∧ x < d ∧ f3 x = 0 := by
  obtain ⟨p, p1, p2, p3⟩ := rolle h1 ab ha hb
  obtain ⟨q, q1, q2, q3⟩ := rolle h1 bc hb hc
  obtain ⟨r, r1, r2, r3⟩ := rolle h1 cd hc hd
  obtain ⟨s, s1, s2, s3⟩ := rolle h2 (p2.trans q1) p3 q3
  obtain ⟨t, t1, t2, t3⟩ := rolle h2 (q2.trans r1) q3 r3
  obtain ⟨x, x1, x2, x3⟩ := rolle h3 (s2.trans t1) s3 t3
  exact ⟨x, (p1.trans s1).trans x1, (x2.trans t2).trans r2, x3⟩

/-- The remainder of a function with double zeros at both ends. -/
theorem remainder {e e1 e2 e3 e4 : ℝ → ℝ} (C : Chain e e1 e2 e3 e4) {a b t : ℝ} (hab : a < b) (ht : t ∈ Icc a b) (ha : e a = 0)
    (hb : e b = 0) (ha' : e1 a = 0) (hb' : e1 b = 0) : ∃ x ∈ Icc a b, e t = e4 x / 24 * ((t - a) * (b - t)) ^ 2 := by
  rcases eq_or_lt_of_le ht.1 with rfl | h1
  · exact ⟨a, left_mem_Icc.2 hab.le, by rw [ha]; simp⟩
  rcases eq_or_lt_of_le ht.2 with rfl | h2
  · exact ⟨t, right_mem_Icc.2 hab.le, by rw [hb]; simp⟩
  have hw : (t - a) * (b - t) ≠ 0 := mul_ne_zero (sub_pos.2 h1).ne' (sub_pos.2 h2).ne'
  obtain ⟨k, hk⟩ : ∃ k, e t = k * ((t - a) * (b - t)) ^ 2 := ⟨e t / ((t - a) * (b - t)) ^ 2, by field_simp⟩
  -- subtract the multiple of the weight that makes the difference vanish at `t`
  have g0 := hasDerivAt_sub_poly (p := fun x => k * ((x - a) * (b - x)) ^ 2)
    (q := fun x => k * (2 * ((x - a) * (b - x)) * ((b - x) - (x - a)))) C.d1 (k * (a ^ 2 * b ^ 2)) (k * (-2 * a * b * (a + b)))
    (k * ((a + b) ^ 2 + 2 * a * b)) (k * (-2 * (a + b))) k (fun x => by ring) (fun x => by ring)
  have g1 := hasDerivAt_sub_poly (p := fun x => k * (2 * ((x - a) * (b - x)) * ((b - x) - (x - a))))
    (q := fun x => k * (2 * ((b - x) - (x - a)) ^ 2 - 4 * ((x - a) * (b - x)))) C.d2 (k * (-2 * a * b * (a + b)))
    (2 * (k * ((a + b) ^ 2 + 2 * a * b))) (3 * (k * (-2 * (a + b)))) (4 * k) 0 (fun x => by ring) (fun x => by ring)
  have g2 := hasDerivAt_sub_poly (p := fun x => k * (2 * ((b - x) - (x - a)) ^ 2 - 4 * ((x - a) * (b - x))))
    (q := fun x => k * (-12 * ((b - x) - (x - a)))) C.d3 (2 * (k * ((a + b) ^ 2 + 2 * a * b))) (6 * (k * (-2 * (a + b)))) (12 * k)
    0 0 (fun x => by ring) (fun x => by ring)
  have g3 := hasDerivAt_sub_poly (p := fun x => k * (-12 * ((b - x) - (x - a)))) (q := fun _ => k * 24) C.d4
    (6 * (k * (-2 * (a + b)))) (24 * k) 0 0 0 (fun x => by ring) (fun x => by ring)
  obtain ⟨p, p1, p2, p3⟩ := rolle g0 h1 (by simp [ha]) (by simp only [hk]; ring)
  obtain ⟨q, q1, q2, q3⟩ := rolle g0 h2 (by simp only [hk]; ring) (by simp [hb])
  obtain ⟨x, x1, x2, x3⟩ := rolle3 g1 g2 g3 p1 (p2.trans q1) q2 (by simp [ha']) p3 q3 (by simp [hb'])
  exact ⟨x, ⟨x1.le, x2.le⟩, by rw [hk]; linear_combination (-((t - a) * (b - t)) ^ 2 / 24) * x3⟩

/-- The derivative of such a function. -/
theorem remainder' {e e1 e2 e3 e4 : ℝ → ℝ} (C : Chain e e1 e2 e3 e4) {a b t : ℝ} (hab : a < b) (ht : t ∈ Icc a b) (ha : e a = 0)
    (hb : e b = 0) (ha' : e1 a = 0) (hb' : e1 b = 0) :
    ∃ x ∈ Icc a b, ∃ m ∈ Icc a b, e1 t = e4 x / 6 * ((t - a) * (t - m) * (t - b)) := by
  obtain ⟨m, m1, m2, m3⟩ := rolle C.d1 hab ha hb
  have hm : m ∈ Icc a b := ⟨m1.le, m2.le⟩
  by_cases h0 : (t - a) * (t - m) * (t - b) = 0
  · refine ⟨a, left_mem_Icc.2 hab.le, m, hm, ?_⟩
    rw [h0, mul_zero]
    rcases mul_eq_zero.1 h0 with h0 | h0
    · rcases mul_eq_zero.1 h0 with h0 | h0
      · rw [sub_eq_zero.1 h0, ha']
      · rw [sub_eq_zero.1 h0, m3]
    · rw [sub_eq_zero.1 h0, hb']
  obtain ⟨k, hk⟩ : ∃ k, e1 t = k * ((t - a) * (t - m) * (t - b)) := ⟨e1 t / ((t - a) * (t - m) * (t - b)), (div_mul_cancel₀ _ h0).symm⟩
  have g1 := hasDerivAt_sub_poly (p := fun x => k * ((x - a) * (x - m) * (x - b)))
    (q := fun x => k * (((x - m) + (x - a)) * (x - b) + (x - a) * (x - m))) C.d2 (k * (-(a * m * b)))
    (k * (a * m + a * b + m * b)) (k * (-(a + m + b))) k 0 (fun x => by ring) (fun x => by ring)
  have g2 := hasDerivAt_sub_poly (p := fun x => k * (((x - m) + (x - a)) * (x - b) + (x - a) * (x - m)))
    (q := fun x => k * (2 * ((x - a) + (x - m) + (x - b)))) C.d3 (k * (a * m + a * b + m * b)) (2 * (k * (-(a + m + b)))) (3 * k)
    0 0 (fun x => by ring) (fun x => by ring)
  have g3 := hasDerivAt_sub_poly (p := fun x => k * (2 * ((x - a) + (x - m) + (x - b)))) (q := fun _ => k * 6) C.d4
    (2 * (k * (-(a + m + b)))) (6 * k) 0 0 0 (fun x => by ring) (fun x => by ring)
  have za : e1 a - k * ((a - a) * (a - m) * (a - b)) = 0 := by simp [ha']
  have zb : e1 b - k * ((b - a) * (b - m) * (b - b)) = 0 := by simp [hb']
  have zm : e1 m - k * ((m - a) * (m - m) * (m - b)) = 0 := by simp [m3]
  have zt : e1 t - k * ((t - a) * (t - m) * (t - b)) = 0 := by rw [hk]; ring
  have ta : a < t := lt_of_le_of_ne ht.1 fun h => h0 (by simp [h])
  have tb : t < b := lt_of_le_of_ne ht.2 fun h => h0 (by simp [h])
  obtain ⟨x, x1, x2, x3⟩ : ∃ x, a < x ∧ x < b ∧ e4 x - k * 6 = 0 := by
    rcases lt_trichotomy t m with h | h | h
    · exact rolle3 g1 g2 g3 ta h m2 za zt zm zb
    · exact absurd (by simp [h]) h0
    · exact rolle3 g1 g2 g3 m1 h tb za zm zt zb
  exact ⟨x, ⟨x1.le, x2.le⟩, m, hm, by rw [hk]; linear_combination (-((t - a) * (t - m) * (t - b)) / 6) * x3⟩

/-- Derivatives of a four times differentiable function. -/
theorem chain_of {f : ℝ → ℝ} (h : ContDiff ℝ 4 f) :
    Chain f (deriv f) (iteratedDeriv 2 f) (iteratedDeriv 3 f) (iteratedDeriv 4 f) := by
  have key (m : ℕ) (hm : m < 4) (x : ℝ) : HasDerivAt (iteratedDeriv m f) (iteratedDeriv (m + 1) f x) x := by
    rw [iteratedDeriv_succ]
    exact ((h.differentiable_iteratedDeriv m (by exact_mod_cast hm)) x).hasDerivAt
  refine ⟨fun x => ?_, fun x => ?_, key 2 (by norm_num), key 3 (by norm_num)⟩
  · simpa [iteratedDeriv_zero, iteratedDeriv_one] using key 0 (by norm_num) x
  · simpa [iteratedDeriv_one] using key 1 (by norm_num) x

/-- Subtracting the interpolant from a function: a chain with double zeros at both ends. -/
theorem error_chain {f f1 f2 f3 f4 : ℝ → ℝ} (C : Chain f f1 f2 f3 f4) (a h : ℝ) (hh : 0 < h) :
    ∃ e e1 e2 e3 : ℝ → ℝ, Chain e e1 e2 e3 f4 ∧ e a = 0 ∧ e (a + h) = 0 ∧ e1 a = 0 ∧ e1 (a + h) = 0 ∧
      ∀ s, e (a + s * h) = f (a + s * h) - T1 (basis s) h (f a) (f1 a) (f (a + h)) (f1 (a + h)) ∧
        e1 (a + s * h) = f1 (a + s * h) - T1 (basis' s) h (f a) (f1 a) (f (a + h)) (f1 (a + h)) * (1 / h) := by
  -- coefficients of the interpolant in powers of `x - a`
  set c2 : ℝ := (3 * (f (a + h) - f a) / h - 2 * f1 a - f1 (a + h)) / h with hc2
  set c3 : ℝ := (f1 a + f1 (a + h) - 2 * (f (a + h) - f a) / h) / h ^ 2 with hc3
  have e0 := hh.ne'
  refine ⟨fun x => f x - (f a + f1 a * (x - a) + c2 * (x - a) ^ 2 + c3 * (x - a) ^ 3),
    fun x => f1 x - (f1 a + 2 * c2 * (x - a) + 3 * c3 * (x - a) ^ 2), fun x => f2 x - (2 * c2 + 6 * c3 * (x - a)),
    fun x => f3 x - 6 * c3, ⟨fun x => ?_, fun x => ?_, fun x => ?_, fun x => ?_⟩, ?_, ?_, ?_, ?_, fun s => ⟨?_, ?_⟩⟩
  · exact hasDerivAt_sub_poly (p := fun x => f a + f1 a * (x - a) + c2 * (x - a) ^ 2 + c3 * (x - a) ^ 3)
      (q := fun x => f1 a + 2 * c2 * (x - a) + 3 * c3 * (x - a) ^ 2) C.d1 (f a - f1 a * a + c2 * a ^ 2 - c3 * a ^ 3)
      (f1 a - 2 * c2 * a + 3 * c3 * a ^ 2) (c2 - 3 * c3 * a) c3 0 (fun x => by ring) (fun x => by ring) x
  · exact hasDerivAt_sub_poly (p := fun x => f1 a + 2 * c2 * (x - a) + 3 * c3 * (x - a) ^ 2)
      (q := fun x => 2 * c2 + 6 * c3 * (x - a)) C.d2 (f1 a - 2 * c2 * a + 3 * c3 * a ^ 2) (2 * (c2 - 3 * c3 * a)) (3 * c3) 0 0
      (fun x => by ring) (fun x => by ring) x
  · exact hasDerivAt_sub_poly (p := fun x => 2 * c2 + 6 * c3 * (x - a)) (q := fun _ => 6 * c3) C.d3 (2 * (c2 - 3 * c3 * a))
      (6 * c3) 0 0 0 (fun x => by ring) (fun x => by ring) x
  · exact ((C.d4 x).sub_const _)
  · simp
  · simp only [hc2, hc3, add_sub_cancel_left]; field_simp; ring
  · simp
  · simp only [hc2, hc3, add_sub_cancel_left]; field_simp; ring
  · simp only [hc2, hc3, add_sub_cancel_left, basis, B0, B1, B2, B3, sqr, cube, T1_four]; field_simp; ring
  · simp only [hc2, hc3, add_sub_cancel_left, basis', B0', B1', B2', B3', sqr, T1_four]; field_simp; ring

/-- Error of the value and of the slope in one variable. -/
theorem error1 {f f' : ℝ → ℝ} {a h M : ℝ} (hh : 0 < h) (hf : Quartic f a (a + h) M) (hf' : ∀ x, HasDerivAt f (f' x) x) {s : ℝ}
    (s0 : 0 ≤ s) (s1 : s ≤ 1) :
    |T1 (basis s) h (f a) (f' a) (f (a + h)) (f' (a + h)) - f (a + s * h)| ≤ M * h ^ 4 / 384 ∧
    |T1 (basis' s) h (f a) (f' a) (f (a + h)) (f' (a + h)) * (1 / h) - f' (a + s * h)| ≤ M * h ^ 3 / 24 := by
  have C := chain_of hf.smooth
  have ed : deriv f = f' := funext fun x => (hf' x).deriv
  rw [ed] at C
  obtain ⟨e, e1, e2, e3, E, z1, z2, z3, z4, hs⟩ := error_chain C a h hh
  obtain ⟨q1, q2⟩ := hs s
  have hab : a < a + h := by linarith
  have ht : a + s * h ∈ Icc a (a + h) := ⟨by nlinarith, by nlinarith⟩
  have M0 : 0 ≤ M := (abs_nonneg _).trans (hf.bound a (left_mem_Icc.2 hab.le))
  constructor
  · obtain ⟨x, hx, ex⟩ := remainder E hab ht z1 z2 z3 z4
    rw [abs_sub_comm, ← q1, ex, abs_mul, abs_div]
    have w : ((a + s * h - a) * (a + h - (a + s * h))) ^ 2 ≤ h ^ 4 / 16 := by
      have e : (a + s * h - a) * (a + h - (a + s * h)) = h ^ 2 * (s * (1 - s)) := by ring
      have l : 0 ≤ s * (1 - s) := mul_nonneg s0 (by linarith)
      have u : s * (1 - s) ≤ 1 / 4 := by nlinarith [sq_nonneg (s - 1 / 2)]
      rw [e, mul_pow]
      have : (s * (1 - s)) ^ 2 ≤ (1 / 4) ^ 2 := pow_le_pow_left₀ l u 2
      nlinarith [pow_pos hh 4]
    have hb := hf.bound x hx
    have w0 : 0 ≤ ((a + s * h - a) * (a + h - (a + s * h))) ^ 2 := sq_nonneg _
    rw [abs_of_nonneg w0, abs_of_pos (by norm_num : (0 : ℝ) < 24)]
    calc |iteratedDeriv 4 f x| / 24 * ((a + s * h - a) * (a + h - (a + s * h))) ^ 2 ≤ M / 24 * (h ^ 4 / 16) := by gcongr
      _ = M * h ^ 4 / 384 := by ring
  · obtain ⟨x, hx, m, hm, ex⟩ := remainder' E hab ht z1 z2 z3 z4
    rw [abs_sub_comm, ← q2, ex, abs_mul, abs_div]
    have w : |(a + s * h - a) * (a + s * h - m) * (a + s * h - (a + h))| ≤ h ^ 3 / 4 := by
      have e : (a + s * h - a) * (a + s * h - m) * (a + s * h - (a + h)) = -(h ^ 2 * (s * (1 - s)) * (a + s * h - m)) := by ring
      have l : 0 ≤ s * (1 - s) := mul_nonneg s0 (by linarith)
      have u : s * (1 - s) ≤ 1 / 4 := by nlinarith [sq_nonneg (s - 1 / 2)]
      have v : |a + s * h - m| ≤ h := by rw [abs_le]; constructor <;> linarith [ht.1, ht.2, hm.1, hm.2]
      rw [e, abs_neg, abs_mul, abs_of_nonneg (mul_nonneg (sq_nonneg h) l)]
      calc h ^ 2 * (s * (1 - s)) * |a + s * h - m| ≤ h ^ 2 * (1 / 4) * h := by gcongr
        _ = h ^ 3 / 4 := by ring
    have hb := hf.bound x hx
    rw [abs_of_pos (by norm_num : (0 : ℝ) < 6)]
    calc |iteratedDeriv 4 f x| / 6 * |(a + s * h - a) * (a + s * h - m) * (a + s * h - (a + h))| ≤ M / 6 * (h ^ 3 / 4) := by
          gcongr
      _ = M * h ^ 3 / 24 := by ring

/-! ## Tensor form -/

theorem T1_sub (b : List ℝ) (h v0 e0 v1 e1 w0 d0 w1 d1 : ℝ) :
    T1 b h v0 e0 v1 e1 - T1 b h w0 d0 w1 d1 = T1 b h (v0 - w0) (e0 - d0) (v1 - w1) (e1 - d1) := by
  unfold T1
  split
  · ring
  · ring

/-- Interpolation in one variable of small data is small. -/
theorem T1_le {s h A B v0 e0 v1 e1 : ℝ} (s0 : 0 ≤ s) (s1 : s ≤ 1) (hh : 0 < h) (hv0 : |v0| ≤ A) (hv1 : |v1| ≤ A) (he0 : |e0| ≤ B)
    (he1 : |e1| ≤ B) : |T1 (basis s) h v0 e0 v1 e1| ≤ A + h / 4 * B := by
  have e : T1 (basis s) h v0 e0 v1 e1 = (1 - s) ^ 2 * (1 + 2 * s) * v0 + s ^ 2 * (3 - 2 * s) * v1 +
      (h * (s * (1 - s) ^ 2) * e0 - h * (s ^ 2 * (1 - s)) * e1) := by
    simp only [basis, B0, B1, B2, B3, sqr, cube, T1_four]; ring
  have r : 0 ≤ 1 - s := by linarith
  have c0 : 0 ≤ (1 - s) ^ 2 * (1 + 2 * s) := by positivity
  have c1 : 0 ≤ s ^ 2 * (3 - 2 * s) := mul_nonneg (sq_nonneg s) (by linarith)
  have c2 : 0 ≤ h * (s * (1 - s) ^ 2) := by positivity
  have c3 : 0 ≤ h * (s ^ 2 * (1 - s)) := by positivity
  have B0 : 0 ≤ B := (abs_nonneg _).trans he0
  rw [e]
  calc _ ≤ |(1 - s) ^ 2 * (1 + 2 * s) * v0| + |s ^ 2 * (3 - 2 * s) * v1| +
        (|h * (s * (1 - s) ^ 2) * e0| + |h * (s ^ 2 * (1 - s)) * e1|) :=
        (abs_add_le _ _).trans (add_le_add (abs_add_le _ _) (abs_sub _ _))
    _ ≤ (1 - s) ^ 2 * (1 + 2 * s) * A + s ^ 2 * (3 - 2 * s) * A +
        (h * (s * (1 - s) ^ 2) * B + h * (s ^ 2 * (1 - s)) * B) := by
        rw [abs_mul _ v0, abs_mul _ v1, abs_mul _ e0, abs_mul _ e1, abs_of_nonneg c0, abs_of_nonneg c1, abs_of_nonneg c2, abs_of_nonneg c3]
        gcongr
    _ = A + h * (s * (1 - s)) * B := by ring
    _ ≤ A + h / 4 * B := by
        have u : s * (1 - s) ≤ 1 / 4 := by nlinarith [sq_nonneg (s - 1 / 2)]
        have : h * (s * (1 - s)) ≤ h / 4 := by nlinarith
        gcongr

/-- The order of the two interpolations of the tensor form does not matter. -/
theorem T1_comm (b c : List ℝ) (h k p q r s p1 q1 r1 s1 p2 q2 r2 s2 p3 q3 r3 s3 : ℝ) :
    T1 b h (T1 c k p q r s) (T1 c k p1 q1 r1 s1) (T1 c k p2 q2 r2 s2) (T1 c k p3 q3 r3 s3) =
      T1 c k (T1 b h p p1 p2 p3) (T1 b h q q1 q2 q3) (T1 b h r r1 r2 r3) (T1 b h s s1 s2 s3) := by
  unfold T1
  split <;> split <;> ring

/-- `a = c + d` bounded by parts. -/
theorem abs_parts {p q r A B : ℝ} (h1 : |p - q| ≤ A) (h2 : |q - r| ≤ B) : |p - r| ≤ B + A :=
  (abs_sub_le p q r).trans ((add_le_add h1 h2).trans_eq (add_comm _ _))

/-- Error in two variables. -/
theorem error2 {f fx fy fxy : ℝ → ℝ → ℝ} {a b h k M40 M04 M14 M41 : ℝ} (hh : 0 < h) (hk : 0 < k)
    (S : Smooth2 f fx fy fxy a (a + h) b (b + k) M40 M04 M14 M41) {s w : ℝ} (s0 : 0 ≤ s) (s1 : s ≤ 1) (w0 : 0 ≤ w) (w1 : w ≤ 1) :
    let T := fun p q : List ℝ => T1 p h (T1 q k (f a b) (fy a b) (f a (b + k)) (fy a (b + k)))
      (T1 q k (fx a b) (fxy a b) (fx a (b + k)) (fxy a (b + k)))
      (T1 q k (f (a + h) b) (fy (a + h) b) (f (a + h) (b + k)) (fy (a + h) (b + k)))
      (T1 q k (fx (a + h) b) (fxy (a + h) b) (fx (a + h) (b + k)) (fxy (a + h) (b + k)))
    |T (basis s) (basis w) - f (a + s * h) (b + w * k)| ≤ M40 * h ^ 4 / 384 + (M04 + h / 4 * M14) * k ^ 4 / 384 ∧
    |T (basis' s) (basis w) * (1 / h) - fx (a + s * h) (b + w * k)| ≤ M14 * k ^ 4 / 384 + (M40 + k / 4 * M41) * h ^ 3 / 24 ∧
    |T (basis s) (basis' w) * (1 / k) - fy (a + s * h) (b + w * k)| ≤ M41 * h ^ 4 / 384 + (M04 + h / 4 * M14) * k ^ 3 / 24 := by
  intro T
  have ax : a + s * h ∈ Icc a (a + h) := ⟨by nlinarith, by nlinarith⟩
  have by' : b + w * k ∈ Icc b (b + k) := ⟨by nlinarith, by nlinarith⟩
  have a0 : a ∈ Icc a (a + h) := left_mem_Icc.2 (by linarith)
  have a1 : a + h ∈ Icc a (a + h) := right_mem_Icc.2 (by linarith)
  have b0 : b ∈ Icc b (b + k) := left_mem_Icc.2 (by linarith)
  have b1 : b + k ∈ Icc b (b + k) := right_mem_Icc.2 (by linarith)
  -- errors of one-dimensional interpolation along `y` and along `x`
  have Y (x : ℝ) (hx : x ∈ Icc a (a + h)) := error1 hk (S.yyyy x hx) (S.dy x) w0 w1
  have Y1 (x : ℝ) (hx : x ∈ Icc a (a + h)) := error1 hk (S.xyyyy x hx) (S.dxy x) w0 w1
  have X (y : ℝ) (hy : y ∈ Icc b (b + k)) := error1 hh (S.xxxx y hy) (fun x => S.dx x y) s0 s1
  have X1 (y : ℝ) (hy : y ∈ Icc b (b + k)) := error1 hh (S.xxxxy y hy) (fun x => S.dyx x y) s0 s1
  refine ⟨?_, ?_, ?_⟩
  · refine abs_parts (q := T1 (basis s) h (f a (b + w * k)) (fx a (b + w * k)) (f (a + h) (b + w * k)) (fx (a + h) (b + w * k)))
      ?_ (X _ by').1
    rw [T1_sub]
    refine (T1_le s0 s1 hh (Y a a0).1 (Y _ a1).1 (Y1 a a0).1 (Y1 _ a1).1).trans (le_of_eq (by ring))
  · refine abs_parts (q := T1 (basis w) k (fx (a + s * h) b) (fxy (a + s * h) b) (fx (a + s * h) (b + k)) (fxy (a + s * h) (b + k)))
      ?_ (Y1 _ ax).1
    have e : T (basis' s) (basis w) * (1 / h) = T1 (basis w) k
        (T1 (basis' s) h (f a b) (fx a b) (f (a + h) b) (fx (a + h) b) * (1 / h))
        (T1 (basis' s) h (fy a b) (fxy a b) (fy (a + h) b) (fxy (a + h) b) * (1 / h))
        (T1 (basis' s) h (f a (b + k)) (fx a (b + k)) (f (a + h) (b + k)) (fx (a + h) (b + k)) * (1 / h))
        (T1 (basis' s) h (fy a (b + k)) (fxy a (b + k)) (fy (a + h) (b + k)) (fxy (a + h) (b + k)) * (1 / h)) := by
      rw [T1_smul, ← T1_comm]
    rw [e, T1_sub]
    refine (T1_le w0 w1 hk (X b b0).2 (X _ b1).2 (X1 b b0).2 (X1 _ b1).2).trans (le_of_eq (by ring))
  · refine abs_parts (q := T1 (basis s) h (fy a (b + w * k)) (fxy a (b + w * k)) (fy (a + h) (b + w * k)) (fxy (a + h) (b + w * k)))
      ?_ (X1 _ by').1
    have e : T (basis s) (basis' w) * (1 / k) = T1 (basis s) h
        (T1 (basis' w) k (f a b) (fy a b) (f a (b + k)) (fy a (b + k)) * (1 / k))
        (T1 (basis' w) k (fx a b) (fxy a b) (fx a (b + k)) (fxy a (b + k)) * (1 / k))
        (T1 (basis' w) k (f (a + h) b) (fy (a + h) b) (f (a + h) (b + k)) (fy (a + h) (b + k)) * (1 / k))
        (T1 (basis' w) k (fx (a + h) b) (fxy (a + h) b) (fx (a + h) (b + k)) (fxy (a + h) (b + k)) * (1 / k)) := by
      rw [T1_smul]
    rw [e, T1_sub]
    refine (T1_le s0 s1 hh (Y a a0).2 (Y _ a1).2 (Y1 a a0).2 (Y1 _ a1).2).trans (le_of_eq (by ring))

/-- Interpolation in two variables of data at the corners of a rectangle. -/
noncomputable def T2 (p q : List ℝ) (h k : ℝ) (g gx gy gxy : ℝ → ℝ → ℝ) (a b : ℝ) : ℝ :=
  T1 p h (T1 q k (g a b) (gy a b) (g a (b + k)) (gy a (b + k)))
    (T1 q k (gx a b) (gxy a b) (gx a (b + k)) (gxy a (b + k)))
    (T1 q k (g (a + h) b) (gy (a + h) b) (g (a + h) (b + k)) (gy (a + h) (b + k)))
    (T1 q k (gx (a + h) b) (gxy (a + h) b) (gx (a + h) (b + k)) (gxy (a + h) (b + k)))

theorem T2_sub_le {s w h k E : ℝ} (s0 : 0 ≤ s) (s1 : s ≤ 1) (w0 : 0 ≤ w) (w1 : w ≤ 1) (hh : 0 < h) (hk : 0 < k)
    {g gx gy gxy f fx fy fxy : ℝ → ℝ → ℝ} {a b : ℝ} (h0 : ∀ x ∈ Icc a (a + h), ∀ y ∈ Icc b (b + k), |g x y - f x y| ≤ E)
    (h1 : ∀ x ∈ Icc a (a + h), ∀ y ∈ Icc b (b + k), |gx x y - fx x y| ≤ E)
    (h2 : ∀ x ∈ Icc a (a + h), ∀ y ∈ Icc b (b + k), |gy x y - fy x y| ≤ E)
    (h3 : ∀ x ∈ Icc a (a + h), ∀ y ∈ Icc b (b + k), |gxy x y - fxy x y| ≤ E) :
    |T2 (basis s) (basis w) h k g gx gy gxy a b - T2 (basis s) (basis w) h k f fx fy fxy a b| ≤ (1 + h / 4) * (1 + k / 4) * E := by
  have a0 : a ∈ Icc a (a + h) := left_mem_Icc.2 (by linarith)
  have a1 : a + h ∈ Icc a (a + h) := right_mem_Icc.2 (by linarith)
  have b0 : b ∈ Icc b (b + k) := left_mem_Icc.2 (by linarith)
  have b1 : b + k ∈ Icc b (b + k) := right_mem_Icc.2 (by linarith)
  unfold T2
  rw [T1_sub, T1_sub, T1_sub, T1_sub, T1_sub]
  have I (x : ℝ) (hx : x ∈ Icc a (a + h)) := T1_le w0 w1 hk (h0 x hx _ b0) (h0 x hx _ b1) (h2 x hx _ b0) (h2 x hx _ b1)
  have J (x : ℝ) (hx : x ∈ Icc a (a + h)) := T1_le w0 w1 hk (h1 x hx _ b0) (h1 x hx _ b1) (h3 x hx _ b0) (h3 x hx _ b1)
  exact (T1_le s0 s1 hh (I _ a0) (I _ a1) (J _ a0) (J _ a1)).trans (le_of_eq (by ring))

section three
variable {F : Fin 2 → Fin 2 → Fin 2 → ℝ → ℝ → ℝ → ℝ} {a b c h k l M : ℝ}

/-- Interpolation in three variables. -/
noncomputable def T3 (F : Fin 2 → Fin 2 → Fin 2 → ℝ → ℝ → ℝ → ℝ) (a b c h k l : ℝ) (p q r : List ℝ) : ℝ :=
  T1 p h (T2 q r k l (F 0 0 0 a) (F 0 1 0 a) (F 0 0 1 a) (F 0 1 1 a) b c)
    (T2 q r k l (F 1 0 0 a) (F 1 1 0 a) (F 1 0 1 a) (F 1 1 1 a) b c)
    (T2 q r k l (F 0 0 0 (a + h)) (F 0 1 0 (a + h)) (F 0 0 1 (a + h)) (F 0 1 1 (a + h)) b c)
    (T2 q r k l (F 1 0 0 (a + h)) (F 1 1 0 (a + h)) (F 1 0 1 (a + h)) (F 1 1 1 (a + h)) b c)

/-- The same with interpolation in `x` first. -/
theorem T3_x (p q r : List ℝ) : T3 F a b c h k l p q r = T2 q r k l
    (fun y z => T1 p h (F 0 0 0 a y z) (F 1 0 0 a y z) (F 0 0 0 (a + h) y z) (F 1 0 0 (a + h) y z))
    (fun y z => T1 p h (F 0 1 0 a y z) (F 1 1 0 a y z) (F 0 1 0 (a + h) y z) (F 1 1 0 (a + h) y z))
    (fun y z => T1 p h (F 0 0 1 a y z) (F 1 0 1 a y z) (F 0 0 1 (a + h) y z) (F 1 0 1 (a + h) y z))
    (fun y z => T1 p h (F 0 1 1 a y z) (F 1 1 1 a y z) (F 0 1 1 (a + h) y z) (F 1 1 1 (a + h) y z)) b c := by
  unfold T3 T2
  rw [T1_comm p q, T1_comm p r, T1_comm p r, T1_comm p r, T1_comm p r]

/-- The same with interpolation in `y` first. -/
theorem T3_y (p q r : List ℝ) : T3 F a b c h k l p q r = T2 p r h l
    (fun x z => T1 q k (F 0 0 0 x b z) (F 0 1 0 x b z) (F 0 0 0 x (b + k) z) (F 0 1 0 x (b + k) z))
    (fun x z => T1 q k (F 1 0 0 x b z) (F 1 1 0 x b z) (F 1 0 0 x (b + k) z) (F 1 1 0 x (b + k) z))
    (fun x z => T1 q k (F 0 0 1 x b z) (F 0 1 1 x b z) (F 0 0 1 x (b + k) z) (F 0 1 1 x (b + k) z))
    (fun x z => T1 q k (F 1 0 1 x b z) (F 1 1 1 x b z) (F 1 0 1 x (b + k) z) (F 1 1 1 x (b + k) z)) a c := by
  unfold T3 T2
  rw [T1_comm q r, T1_comm q r, T1_comm q r, T1_comm q r]

/-- The same with interpolation in `z` first. -/
theorem T3_z (p q r : List ℝ) : T3 F a b c h k l p q r = T2 p q h k
    (fun x y => T1 r l (F 0 0 0 x y c) (F 0 0 1 x y c) (F 0 0 0 x y (c + l)) (F 0 0 1 x y (c + l)))
    (fun x y => T1 r l (F 1 0 0 x y c) (F 1 0 1 x y c) (F 1 0 0 x y (c + l)) (F 1 0 1 x y (c + l)))
    (fun x y => T1 r l (F 0 1 0 x y c) (F 0 1 1 x y c) (F 0 1 0 x y (c + l)) (F 0 1 1 x y (c + l)))
    (fun x y => T1 r l (F 1 1 0 x y c) (F 1 1 1 x y c) (F 1 1 0 x y (c + l)) (F 1 1 1 x y (c + l))) a b := rfl

theorem T2_smul (p q : List ℝ) (g gx gy gxy : ℝ → ℝ → ℝ) (m : ℝ) : T2 p q h k g gx gy gxy a b * m =
    T2 p q h k (fun x y => g x y * m) (fun x y => gx x y * m) (fun x y => gy x y * m) (fun x y => gxy x y * m) a b := by
  unfold T2
  simp only [T1_smul]

/-- Error in three variables. -/
theorem error3 (hh : 0 < h) (hk : 0 < k) (hl : 0 < l) (S : Smooth3 F a (a + h) b (b + k) c (c + l) M) {s w v : ℝ}
    (s0 : 0 ≤ s) (s1 : s ≤ 1) (w0 : 0 ≤ w) (w1 : w ≤ 1) (v0 : 0 ≤ v) (v1 : v ≤ 1) :
    |T3 F a b c h k l (basis s) (basis w) (basis v) - F 0 0 0 (a + s * h) (b + w * k) (c + v * l)| ≤
      M * (k ^ 4 + (1 + k / 4) * l ^ 4) / 384 + (1 + k / 4) * (1 + l / 4) * (M * h ^ 4 / 384) ∧
    |T3 F a b c h k l (basis' s) (basis w) (basis v) * (1 / h) - F 1 0 0 (a + s * h) (b + w * k) (c + v * l)| ≤
      M * (k ^ 4 + (1 + k / 4) * l ^ 4) / 384 + (1 + k / 4) * (1 + l / 4) * (M * h ^ 3 / 24) ∧
    |T3 F a b c h k l (basis s) (basis' w) (basis v) * (1 / k) - F 0 1 0 (a + s * h) (b + w * k) (c + v * l)| ≤
      M * (h ^ 4 + (1 + h / 4) * l ^ 4) / 384 + (1 + h / 4) * (1 + l / 4) * (M * k ^ 3 / 24) ∧
    |T3 F a b c h k l (basis s) (basis w) (basis' v) * (1 / l) - F 0 0 1 (a + s * h) (b + w * k) (c + v * l)| ≤
      M * (h ^ 4 + (1 + h / 4) * k ^ 4) / 384 + (1 + h / 4) * (1 + k / 4) * (M * l ^ 3 / 24) := by
  have ax : a + s * h ∈ Icc a (a + h) := ⟨by nlinarith, by nlinarith⟩
  have by' : b + w * k ∈ Icc b (b + k) := ⟨by nlinarith, by nlinarith⟩
  have cz : c + v * l ∈ Icc c (c + l) := ⟨by nlinarith, by nlinarith⟩
  -- interpolation along one axis
  have X (j m : Fin 2) (y : ℝ) (hy : y ∈ Icc b (b + k)) (z : ℝ) (hz : z ∈ Icc c (c + l)) :=
    error1 hh (S.xxxx j m y hy z hz) (fun x => S.dx j m x y z) s0 s1
  have Y (i m : Fin 2) (x : ℝ) (hx : x ∈ Icc a (a + h)) (z : ℝ) (hz : z ∈ Icc c (c + l)) :=
    error1 hk (S.yyyy i m x hx z hz) (fun y => S.dy i m x y z) w0 w1
  have Z (i j : Fin 2) (x : ℝ) (hx : x ∈ Icc a (a + h)) (y : ℝ) (hy : y ∈ Icc b (b + k)) :=
    error1 hl (S.zzzz i j x hx y hy) (fun z => S.dz i j x y z) v0 v1
  -- and along the other two
  have YZ (i : Fin 2) := (error2 hk hl (f := F i 0 0 (a + s * h)) (fx := F i 1 0 (a + s * h)) (fy := F i 0 1 (a + s * h))
    (fxy := F i 1 1 (a + s * h)) (a := b) (b := c) (M40 := M) (M04 := M) (M14 := M) (M41 := M)
    ⟨fun y z => S.dy i 0 _ y z, fun y z => S.dz i 0 _ y z, fun y z => S.dz i 1 _ y z, fun y z => S.dy i 1 _ y z,
      fun z hz => S.yyyy i 0 _ ax z hz, fun y hy => S.zzzz i 0 _ ax y hy, fun y hy => S.zzzz i 1 _ ax y hy,
      fun z hz => S.yyyy i 1 _ ax z hz⟩ w0 w1 v0 v1).1
  have XZ := (error2 hh hl (f := fun x z => F 0 1 0 x (b + w * k) z) (fx := fun x z => F 1 1 0 x (b + w * k) z)
    (fy := fun x z => F 0 1 1 x (b + w * k) z) (fxy := fun x z => F 1 1 1 x (b + w * k) z) (a := a) (b := c) (M40 := M) (M04 := M)
    (M14 := M) (M41 := M)
    ⟨fun x z => S.dx 1 0 x _ z, fun x z => S.dz 0 1 x _ z, fun x z => S.dz 1 1 x _ z, fun x z => S.dx 1 1 x _ z,
      fun z hz => S.xxxx 1 0 _ by' z hz, fun x hx => S.zzzz 0 1 x hx _ by', fun x hx => S.zzzz 1 1 x hx _ by',
      fun z hz => S.xxxx 1 1 _ by' z hz⟩ s0 s1 v0 v1).1
  have XY := (error2 hh hk (f := fun x y => F 0 0 1 x y (c + v * l)) (fx := fun x y => F 1 0 1 x y (c + v * l))
    (fy := fun x y => F 0 1 1 x y (c + v * l)) (fxy := fun x y => F 1 1 1 x y (c + v * l)) (a := a) (b := b) (M40 := M) (M04 := M)
    (M14 := M) (M41 := M)
    ⟨fun x y => S.dx 0 1 x y _, fun x y => S.dy 0 1 x y _, fun x y => S.dy 1 1 x y _, fun x y => S.dx 1 1 x y _,
      fun y hy => S.xxxx 0 1 y hy _ cz, fun x hx => S.yyyy 0 1 x hx _ cz, fun x hx => S.yyyy 1 1 x hx _ cz,
      fun y hy => S.xxxx 1 1 y hy _ cz⟩ s0 s1 w0 w1).1
  refine ⟨?_, ?_, ?_, ?_⟩
  · refine abs_parts (q := T2 (basis w) (basis v) k l (F 0 0 0 (a + s * h)) (F 0 1 0 (a + s * h)) (F 0 0 1 (a + s * h))
      (F 0 1 1 (a + s * h)) b c) ?_ ((YZ 0).trans (le_of_eq (by ring)))
    rw [T3_x]
    exact T2_sub_le w0 w1 v0 v1 hk hl (fun y hy z hz => (X 0 0 y hy z hz).1) (fun y hy z hz => (X 1 0 y hy z hz).1)
      (fun y hy z hz => (X 0 1 y hy z hz).1) (fun y hy z hz => (X 1 1 y hy z hz).1)
  · refine abs_parts (q := T2 (basis w) (basis v) k l (F 1 0 0 (a + s * h)) (F 1 1 0 (a + s * h)) (F 1 0 1 (a + s * h))
      (F 1 1 1 (a + s * h)) b c) ?_ ((YZ 1).trans (le_of_eq (by ring)))
    rw [T3_x, T2_smul]
    exact T2_sub_le w0 w1 v0 v1 hk hl (fun y hy z hz => (X 0 0 y hy z hz).2) (fun y hy z hz => (X 1 0 y hy z hz).2)
      (fun y hy z hz => (X 0 1 y hy z hz).2) (fun y hy z hz => (X 1 1 y hy z hz).2)
  · refine abs_parts (q := T2 (basis s) (basis v) h l (fun x z => F 0 1 0 x (b + w * k) z) (fun x z => F 1 1 0 x (b + w * k) z)
      (fun x z => F 0 1 1 x (b + w * k) z) (fun x z => F 1 1 1 x (b + w * k) z) a c) ?_ (XZ.trans (le_of_eq (by ring)))
    rw [T3_y, T2_smul]
    exact T2_sub_le s0 s1 v0 v1 hh hl (fun x hx z hz => (Y 0 0 x hx z hz).2) (fun x hx z hz => (Y 1 0 x hx z hz).2)
      (fun x hx z hz => (Y 0 1 x hx z hz).2) (fun x hx z hz => (Y 1 1 x hx z hz).2)
  · refine abs_parts (q := T2 (basis s) (basis w) h k (fun x y => F 0 0 1 x y (c + v * l)) (fun x y => F 1 0 1 x y (c + v * l))
      (fun x y => F 0 1 1 x y (c + v * l)) (fun x y => F 1 1 1 x y (c + v * l)) a b) ?_ (XY.trans (le_of_eq (by ring)))
    rw [T3_z, T2_smul]
    exact T2_sub_le s0 s1 w0 w1 hh hk (fun x hx y hy => (Z 0 0 x hx y hy).2) (fun x hx y hy => (Z 1 0 x hx y hy).2)
      (fun x hx y hy => (Z 0 1 x hx y hy).2) (fun x hx y hy => (Z 1 1 x hx y hy).2)

end three

end Gals
