import Verif.Lemmas.PointDouble
import Verif.Lemmas.Gradient

/-!
# Rounding errors of the difference quotients
-/

set_option linter.unusedSectionVars false

namespace Gals

open Gals.Spec

theorem apx_six : Apx (6 : F64) 6 6 0 1 := by
  have h : Apx ((6 : ℕ) : F64) ((6 : ℕ) : ℚ) ((6 : ℕ) : ℚ) 0 1 := apx_nat
  exact h

theorem apx_half : Apx (1 / 2 : F64) (1 / 2) (1 / 2) 0 1 := Apx.exact hasValue_half (by norm_num [abs_of_pos])

/-- Reciprocal of a number close to `6 h`. -/
theorem apx_inv6 {x : F64} {h : ℚ} (hx : Apx x (6 * h) 6 23 h) (h0 : 0 < h) (hs : Scaled (1 / h)) :
    Apx (1 / x) (1 / (6 * h)) (1 / 6) 3 (1 / h) := by
  obtain ⟨⟨q, hq, eq⟩, -⟩ := hx
  have u0 := ulp1_pos
  have u1 : ulp1 ≤ 1 / 2 ^ 20 := by norm_num [ulp1]
  have uh : ulp1 * h ≤ 1 / 2 ^ 20 * h := mul_le_mul_of_nonneg_right u1 h0.le
  obtain ⟨q1, q2⟩ := abs_le.1 eq
  have q0 : 5 * h < q := by linarith
  have qp : 0 < q := by linarith
  have hi : 1 / q ≤ 1 / h := one_div_le_one_div_of_le h0 (by linarith)
  have e1 : |1 / q - 1 / (6 * h)| ≤ 23 / 30 * ulp1 * (1 / h) := by
    have : 1 / q - 1 / (6 * h) = (6 * h - q) / (q * (6 * h)) := by field_simp
    rw [this, abs_div, abs_of_pos (show 0 < q * (6 * h) by positivity), div_le_iff₀ (by positivity), abs_sub_comm]
    refine eq.trans ?_
    have : 23 / 30 * ulp1 * (1 / h) * (q * (6 * h)) = 23 / 5 * ulp1 * q := by field_simp; ring
    rw [this]
    have := mul_le_mul_of_nonneg_left q0.le u0.le
    linarith
  have hb : |1 / q| ≤ 2 ^ 1020 := hs.big (m := 1) (by norm_num) (by rw [abs_of_pos (by positivity), one_mul]; exact hi)
  refine (apx_round hs (hasValue_div hasValue_one hq qp.ne' hb) e1 (a := 1 / 6) ?_ (by norm_num)).mono hs.pos le_rfl (by norm_num)
  rw [abs_of_pos (by positivity)]
  apply le_of_eq
  field_simp

section
variable {f : Cell → F64} {D : Cell → ℚ} {c : Cell} {a : Fin 3} {M h : ℚ} {x : F64}

/-- The central difference quotient. -/
theorem central_double (hM : Scaled M) (hh : 0 < h) (hS : Scaled (M / h)) (hi : Apx (1 / x) (1 / h) 1 4 (1 / h))
    (data : ∀ m : ℤ, -1 ≤ m → m ≤ 1 → HasValue (f (shift c a m)) (D (shift c a m)) ∧ |D (shift c a m)| ≤ M) :
    Apx (centralRaw f c a x) (fdCentral D c a h) 1 9 (M / h) := by
  have dt := fun m h1 h2 => Apx.exact (a := 1) (s := M) (data m h1 h2).1 (by rw [one_mul]; exact (data m h1 h2).2)
  have h1 := (dt 1 (by norm_num) (by norm_num)).sub (dt (-1) (by norm_num) (by norm_num)) hM
  have h2 := apx_mul_inv h1 hM.pos hi hh hS
  have h3 := (h2.mul apx_half hS.pos one_pos (by rw [mul_one]; exact hS)).scale (mul_one _)
  have e : (D (shift c a 1) - D (shift c a (-1))) * (1 / h) * (1 / 2) = fdCentral D c a h := by
    unfold fdCentral
    field_simp
  rw [e] at h3
  exact h3.mono hS.pos (by norm_num) (by norm_num)

/-- The third-order difference quotient. -/
theorem third_double (hM : Scaled M) (hh : Scaled h) (hS : Scaled (M / h)) (hI : Scaled (1 / h)) (hx : Apx x h 1 3 h)
    (data : ∀ m : ℤ, -2 ≤ m → m ≤ 1 → HasValue (f (shift c a m)) (D (shift c a m)) ∧ |D (shift c a m)| ≤ M) :
    Apx (thirdRaw f c a x) (fdThird D c a h) 2 48 (M / h) := by
  have h0 := hh.pos
  have dt := fun m h1 h2 => Apx.exact (a := 1) (s := M) (data m h1 h2).1 (by rw [one_mul]; exact (data m h1 h2).2)
  have h6 : Apx (6 * x) (6 * h) 6 23 h := by
    refine ((apx_six.mul hx one_pos h0 (by rw [one_mul]; exact hh)).scale (one_mul h)).mono h0 (by norm_num) (by norm_num)
  have hi := apx_inv6 h6 h0 hI
  have mk : ∀ {y z : F64} {u v p : ℚ}, Apx y u p 0 1 → p ≤ 2 ^ 10 → Apx z v 1 0 M → Apx (y * z) (u * v) p (p / 2 + 2) M := by
    intro y z u v p hy hp hz
    have := (hy.mul hz one_pos hM.pos (by rw [one_mul]; exact hM) hp).scale (one_mul M)
    exact this.mono hM.pos (by linarith) (by linarith)
  have d1 := mk apx_two (by norm_num) (dt 1 (by norm_num) (by norm_num))
  have d0 := dt 0 (by norm_num) (by norm_num)
  rw [shift_zero] at d0
  have d2 := mk apx_three (by norm_num) d0
  have d3 := mk apx_six (by norm_num) (dt (-1) (by norm_num) (by norm_num))
  have d4 := mk apx_one (by norm_num) (dt (-2) (by norm_num) (by norm_num))
  have hn := ((d1.add d2 hM).sub d3 hM).add d4 hM
  have e1 : M * (1 / h) = M / h := by ring
  have hr := (hn.mul hi hM.pos hI.pos (by rw [e1]; exact hS)).scale e1
  have e : (2 * D (shift c a 1) + 3 * D c - 6 * D (shift c a (-1)) + 1 * D (shift c a (-2))) * (1 / (6 * h)) = fdThird D c a h := by
    unfold fdThird
    rw [one_mul, mul_one_div]
  rw [e] at hr
  exact hr.mono hS.pos (by norm_num) (by norm_num)

end

end Gals
