import Verif.Spec.Spline
import Mathlib.Tactic.Linarith
import Mathlib.Tactic.Ring
import Mathlib.Tactic.FieldSimp
import Mathlib.Tactic.NormNum

/-!
# Dependence of the Hermite sums on the cell, the local coordinate and the data
-/

namespace Gals

open Gals.Spec

/-- The sum multiplied by the width of the cell for a derivative. -/
def hsum (o : Fin 2) (h t : ℚ) (b : ℤ) (f : Fin 2 → ℤ → ℚ) : ℚ :=
  if o = 0 then hVal 0 t * f 0 b + hVal 1 t * f 0 (b + 1) + (hSlope 0 t * (h * f 1 b) + hSlope 1 t * (h * f 1 (b + 1)))
  else hVal' 0 t * f 0 b + hVal' 1 t * f 0 (b + 1) + (hSlope' 0 t * (h * f 1 b) + hSlope' 1 t * (h * f 1 (b + 1)))

theorem hermiteSum_eq {h : ℚ} (o : Fin 2) (t : ℚ) (b : ℤ) (f : Fin 2 → ℤ → ℚ) :
    hermiteSum o h t b f = hsum o h t b f / h ^ o.val := by
  match o with
  | 0 =>
    simp only [hermiteSum, hsum, if_pos, Fin.sum_univ_two, Fin.val_zero, Fin.val_one, pow_zero, div_one]
    push_cast
    rw [add_zero]
    ring
  | 1 =>
    simp only [hermiteSum, hsum, Fin.sum_univ_two, Fin.val_zero, Fin.val_one, pow_one]
    push_cast
    rw [add_zero]
    congr 1
    ring

/-- Bound of the sum of the basis functions. -/
def hC (o : Fin 2) : ℚ := if o = 0 then 5 / 2 else 6

/-- Bound of their variation. -/
def hL (o : Fin 2) : ℚ := if o = 0 then 6 else 24

theorem hC_nonneg (o : Fin 2) : 0 ≤ hC o := by unfold hC; split <;> norm_num

theorem hL_nonneg (o : Fin 2) : 0 ≤ hL o := by unfold hL; split <;> norm_num

theorem four_terms {a b c d w x y z A B C E P : ℚ} (ha : |a| ≤ A) (hb : |b| ≤ B) (hc : |c| ≤ C) (he : |d| ≤ E)
    (hw : |w| ≤ P) (hx : |x| ≤ P) (hy : |y| ≤ P) (hz : |z| ≤ P) :
    |a * w + b * x + (c * y + d * z)| ≤ (A + B + (C + E)) * P := by
  have P0 := (abs_nonneg w).trans hw
  have m1 : |a * w| ≤ A * P := by rw [abs_mul]; exact mul_le_mul ha hw (abs_nonneg _) ((abs_nonneg _).trans ha)
  have m2 : |b * x| ≤ B * P := by rw [abs_mul]; exact mul_le_mul hb hx (abs_nonneg _) ((abs_nonneg _).trans hb)
  have m3 : |c * y| ≤ C * P := by rw [abs_mul]; exact mul_le_mul hc hy (abs_nonneg _) ((abs_nonneg _).trans hc)
  have m4 : |d * z| ≤ E * P := by rw [abs_mul]; exact mul_le_mul he hz (abs_nonneg _) ((abs_nonneg _).trans he)
  have := abs_add_le (a * w + b * x) (c * y + d * z)
  have := abs_add_le (a * w) (b * x)
  have := abs_add_le (c * y) (d * z)
  linarith

theorem hVal_0 (t : ℚ) : hVal 0 t = 2 * t ^ 3 - 3 * t ^ 2 + 1 := rfl
theorem hVal_1 (t : ℚ) : hVal 1 t = -2 * t ^ 3 + 3 * t ^ 2 := rfl
theorem hSlope_0 (t : ℚ) : hSlope 0 t = t ^ 3 - 2 * t ^ 2 + t := rfl
theorem hSlope_1 (t : ℚ) : hSlope 1 t = t ^ 3 - t ^ 2 := rfl
theorem hVal'_0 (t : ℚ) : hVal' 0 t = 6 * t ^ 2 - 6 * t := rfl
theorem hVal'_1 (t : ℚ) : hVal' 1 t = -6 * t ^ 2 + 6 * t := rfl
theorem hSlope'_0 (t : ℚ) : hSlope' 0 t = 3 * t ^ 2 - 4 * t + 1 := rfl
theorem hSlope'_1 (t : ℚ) : hSlope' 1 t = 3 * t ^ 2 - 2 * t := rfl

/-- Local coordinates in the cell or slightly outside. -/
structure NearCell (η : ℚ) : Prop where
  lo : -(1 / 16) ≤ η
  hi : η ≤ 17 / 16

theorem hVal_abs {t : ℚ} (h : NearCell t) : |hVal 0 t| ≤ 1 ∧ |hVal 1 t| ≤ 1 ∧ |hSlope 0 t| ≤ 1 / 4 ∧ |hSlope 1 t| ≤ 1 / 4 := by
  obtain ⟨h0, h1⟩ := h
  have p0 : 0 ≤ t + 1 / 16 := by linarith
  have p1 : 0 ≤ 17 / 16 - t := by linarith
  have q1 := mul_nonneg p0 p1
  have q2 := mul_nonneg (mul_nonneg p0 p0) p1
  have q3 := mul_nonneg (mul_nonneg p0 p1) p1
  have q4 := mul_nonneg (mul_nonneg p0 p0) p0
  have q5 := mul_nonneg (mul_nonneg p1 p1) p1
  simp only [hVal_0, hVal_1, hSlope_0, hSlope_1]
  have r1 := mul_nonneg p0 (sq_nonneg t)
  have r2 := mul_nonneg p1 (sq_nonneg t)
  have r3 := mul_nonneg p0 (sq_nonneg (t - 1))
  have r4 := mul_nonneg p1 (sq_nonneg (t - 1))
  have r5 := sq_nonneg t
  have r7 := mul_nonneg p1 (sq_nonneg (t - 1 / 3))
  have r8 := mul_nonneg p0 (sq_nonneg (t - 2 / 3))
  have r6 := sq_nonneg (t - 1)
  refine ⟨?_, ?_, ?_, ?_⟩ <;> rw [abs_le] <;> constructor <;> linarith only [q1, q2, q3, q4, q5, r1, r2, r3, r4, r5, r6, r7, r8, p0, p1]

theorem hVal'_abs {t : ℚ} (h : NearCell t) : |hVal' 0 t| ≤ 3 / 2 ∧ |hVal' 1 t| ≤ 3 / 2 ∧ |hSlope' 0 t| ≤ 4 / 3 ∧ |hSlope' 1 t| ≤ 4 / 3 := by
  obtain ⟨h0, h1⟩ := h
  have p0 : 0 ≤ t + 1 / 16 := by linarith
  have p1 : 0 ≤ 17 / 16 - t := by linarith
  have q1 := mul_nonneg p0 p1
  simp only [hVal'_0, hVal'_1, hSlope'_0, hSlope'_1]
  refine ⟨?_, ?_, ?_, ?_⟩ <;> rw [abs_le] <;> constructor <;> linarith [q1, sq_nonneg (t - 1 / 2), sq_nonneg (t - 2 / 3), sq_nonneg (t - 1 / 3)]

/-- Divided differences of the basis functions. -/
theorem hVal_diff {t u : ℚ} (ht : NearCell t) (hu : NearCell u) : |hVal 0 t - hVal 0 u| ≤ 5 / 3 * |t - u| ∧
    |hVal 1 t - hVal 1 u| ≤ 5 / 3 * |t - u| ∧ |hSlope 0 t - hSlope 0 u| ≤ 4 / 3 * |t - u| ∧
    |hSlope 1 t - hSlope 1 u| ≤ 4 / 3 * |t - u| := by
  obtain ⟨h0, h1⟩ := ht
  obtain ⟨g0, g1⟩ := hu
  have p0 : 0 ≤ t + 1 / 16 := by linarith
  have p1 : 0 ≤ 17 / 16 - t := by linarith
  have r0 : 0 ≤ u + 1 / 16 := by linarith
  have r1 : 0 ≤ 17 / 16 - u := by linarith
  have m1 := mul_nonneg p0 p1
  have m2 := mul_nonneg r0 r1
  have m3 := mul_nonneg p0 r0
  have m4 := mul_nonneg p0 r1
  have m5 := mul_nonneg p1 r0
  have m6 := mul_nonneg p1 r1
  have s1 := sq_nonneg (t + u - 1)
  have s2 := sq_nonneg (t - u)
  have s3 := sq_nonneg (t + u - 4 / 3)
  have s4 := sq_nonneg (t + u - 2 / 3)
  simp only [hVal_0, hVal_1, hSlope_0, hSlope_1]
  have key : ∀ {x q B : ℚ}, x = q * (t - u) → |q| ≤ B → |x| ≤ B * |t - u| := by
    rintro x q B rfl hq
    rw [abs_mul]
    exact mul_le_mul_of_nonneg_right hq (abs_nonneg _)
  refine ⟨key (q := 2 * (t ^ 2 + t * u + u ^ 2) - 3 * (t + u)) (by ring) ?_, key (q := -(2 * (t ^ 2 + t * u + u ^ 2) - 3 * (t + u))) (by ring) ?_,
    key (q := t ^ 2 + t * u + u ^ 2 - 2 * (t + u) + 1) (by ring) ?_, key (q := t ^ 2 + t * u + u ^ 2 - (t + u)) (by ring) ?_⟩ <;>
    rw [abs_le] <;> constructor <;> linarith

theorem hVal'_diff {t u : ℚ} (ht : NearCell t) (hu : NearCell u) : |hVal' 0 t - hVal' 0 u| ≤ 7 * |t - u| ∧
    |hVal' 1 t - hVal' 1 u| ≤ 7 * |t - u| ∧ |hSlope' 0 t - hSlope' 0 u| ≤ 5 * |t - u| ∧
    |hSlope' 1 t - hSlope' 1 u| ≤ 5 * |t - u| := by
  obtain ⟨h0, h1⟩ := ht
  obtain ⟨g0, g1⟩ := hu
  simp only [hVal'_0, hVal'_1, hSlope'_0, hSlope'_1]
  have key : ∀ {x q B : ℚ}, x = q * (t - u) → |q| ≤ B → |x| ≤ B * |t - u| := by
    rintro x q B rfl hq
    rw [abs_mul]
    exact mul_le_mul_of_nonneg_right hq (abs_nonneg _)
  refine ⟨key (q := 6 * (t + u) - 6) (by ring) ?_, key (q := -(6 * (t + u) - 6)) (by ring) ?_,
    key (q := 3 * (t + u) - 4) (by ring) ?_, key (q := 3 * (t + u) - 2) (by ring) ?_⟩ <;>
    rw [abs_le] <;> constructor <;> linarith

/-- Data of the cell `b` bounded by `P`. -/
def CellLe (h : ℚ) (f : Fin 2 → ℤ → ℚ) (b : ℤ) (P : ℚ) : Prop := |f 0 b| ≤ P ∧ |f 0 (b + 1)| ≤ P ∧ |h * f 1 b| ≤ P ∧ |h * f 1 (b + 1)| ≤ P

theorem hsum_abs (o : Fin 2) {h t P : ℚ} {b : ℤ} {f : Fin 2 → ℤ → ℚ} (ht : NearCell t) (hf : CellLe h f b P) :
    |hsum o h t b f| ≤ hC o * P := by
  obtain ⟨f0, f1, f2, f3⟩ := hf
  unfold hsum hC
  split
  · obtain ⟨a, b, c, e⟩ := hVal_abs ht
    refine (four_terms a b c e f0 f1 f2 f3).trans (le_of_eq (by norm_num))
  · obtain ⟨a, b, c, e⟩ := hVal'_abs ht
    have P0 := (abs_nonneg _).trans f0
    exact (four_terms a b c e f0 f1 f2 f3).trans (mul_le_mul_of_nonneg_right (by norm_num) P0)

theorem hsum_move (o : Fin 2) {h t u P : ℚ} {b : ℤ} {f : Fin 2 → ℤ → ℚ} (ht : NearCell t) (hu : NearCell u) (hf : CellLe h f b P) :
    |hsum o h t b f - hsum o h u b f| ≤ hL o * |t - u| * P := by
  obtain ⟨f0, f1, f2, f3⟩ := hf
  unfold hsum hL
  split
  · obtain ⟨a, b', c, e⟩ := hVal_diff ht hu
    have := four_terms a b' c e f0 f1 f2 f3
    refine le_of_eq_of_le (congrArg _ (by ring)) (this.trans (le_of_eq (by ring)))
  · obtain ⟨a, b', c, e⟩ := hVal'_diff ht hu
    have := four_terms a b' c e f0 f1 f2 f3
    refine le_of_eq_of_le (congrArg _ (by ring)) (this.trans (le_of_eq (by ring)))

theorem hsum_sub (o : Fin 2) (h t : ℚ) (b : ℤ) (f g : Fin 2 → ℤ → ℚ) :
    hsum o h t b f - hsum o h t b g = hsum o h t b fun a i => f a i - g a i := by
  unfold hsum
  split <;> ring

/-- Neighbouring pieces meet with their derivatives. -/
theorem hsum_meet (o : Fin 2) (h : ℚ) (b : ℤ) (f : Fin 2 → ℤ → ℚ) : hsum o h 1 b f = hsum o h 0 (b + 1) f := by
  unfold hsum
  split <;> simp only [hVal_0, hVal_1, hSlope_0, hSlope_1, hVal'_0, hVal'_1, hSlope'_0, hSlope'_1] <;> ring

/-- The computed cell `b` and local coordinate `η` are within `δ` of the exact ones, up to the choice of the cell at a
node. -/
structure NearPoint (T η δ : ℚ) (b : ℤ) : Prop where
  small : δ ≤ 1 / 32
  lo : -δ ≤ T - b
  hi : T - b ≤ 1 + δ
  near : |η - (T - b)| ≤ δ

theorem NearPoint.cell {T η δ : ℚ} {b : ℤ} (h : NearPoint T η δ b) : NearCell η := by
  obtain ⟨h1, h2, h3, h4⟩ := h
  obtain ⟨a, b⟩ := abs_le.1 h4
  constructor <;> linarith

theorem nearCell_fract (T : ℚ) : NearCell (Int.fract T) := by
  have := Int.fract_nonneg T
  have := (Int.fract_lt_one T).le
  constructor <;> linarith

theorem hsum_near (o : Fin 2) {h T η δ P E : ℚ} {b : ℤ} {f g : Fin 2 → ℤ → ℚ} (H : NearPoint T η δ b)
    (hb : CellLe h g b P) (hB : CellLe h g ⌊T⌋ P) (hd : CellLe h (fun a i => f a i - g a i) b E) :
    |hsum o h η b f - hsum o h (Int.fract T) ⌊T⌋ g| ≤ hC o * E + 3 * hL o * δ * P := by
  have P0 := (abs_nonneg _).trans hb.1
  have δ0 : 0 ≤ δ := (abs_nonneg _).trans H.near
  have L0 := hL_nonneg o
  have LP := mul_nonneg L0 P0
  have e1 : |hsum o h η b f - hsum o h η b g| ≤ hC o * E := by
    rw [hsum_sub]
    exact hsum_abs o H.cell hd
  have e2 : |hsum o h η b g - hsum o h (Int.fract T) ⌊T⌋ g| ≤ 3 * hL o * δ * P := by
    have c0 : NearCell 0 := ⟨by norm_num, by norm_num⟩
    have c1 : NearCell 1 := ⟨by norm_num, by norm_num⟩
    have cF := nearCell_fract T
    obtain ⟨n1, n2⟩ := abs_le.1 H.near
    have hlo := H.lo
    have hhi := H.hi
    have hs := H.small
    have fl := Int.floor_add_fract T
    have fn := Int.fract_nonneg T
    have f1 := Int.fract_lt_one T
    have scale : ∀ {x y : ℚ}, |x| ≤ y → hL o * |x| * P ≤ hL o * y * P := fun hx =>
      mul_le_mul_of_nonneg_right (mul_le_mul_of_nonneg_left hx L0) P0
    rcases lt_trichotomy ⌊T⌋ b with hlt | heq | hgt
    · have e : ⌊T⌋ + 1 = b := by
        have : (b : ℚ) - 2 < ⌊T⌋ := by linarith
        have : b - 2 < ⌊T⌋ := by exact_mod_cast this
        omega
      have eq : ((⌊T⌋ : ℤ) : ℚ) + 1 = b := by exact_mod_cast e
      have m1 := hsum_move o H.cell c0 hb
      have m2 := hsum_move o c1 cF hB
      rw [hsum_meet, e] at m2
      have s1 := scale (x := η - 0) (y := 2 * δ) (by rw [abs_le]; constructor <;> linarith)
      have s2 := scale (x := 1 - Int.fract T) (y := δ) (by rw [abs_le]; constructor <;> linarith)
      have := abs_sub_le (hsum o h η b g) (hsum o h 0 b g) (hsum o h (Int.fract T) ⌊T⌋ g)
      linarith
    · subst heq
      have m1 := hsum_move o H.cell cF hb
      have s1 := scale (x := η - Int.fract T) (y := δ) (by rw [abs_le]; constructor <;> linarith)
      have := mul_nonneg LP δ0
      linarith
    · have e : ⌊T⌋ = b + 1 := by
        have : ((⌊T⌋ : ℤ) : ℚ) < b + 2 := by linarith
        have : ⌊T⌋ < b + 2 := by exact_mod_cast this
        omega
      have eq : ((⌊T⌋ : ℤ) : ℚ) = b + 1 := by exact_mod_cast e
      have m1 := hsum_move o H.cell c1 hb
      rw [e] at hB
      have m2 := hsum_move o c0 cF hB
      rw [← hsum_meet, ← e] at m2
      have s1 := scale (x := η - 1) (y := 2 * δ) (by rw [abs_le]; constructor <;> linarith)
      have s2 := scale (x := 0 - Int.fract T) (y := δ) (by rw [abs_le]; constructor <;> linarith)
      have := abs_sub_le (hsum o h η b g) (hsum o h 1 b g) (hsum o h (Int.fract T) ⌊T⌋ g)
      linarith
  have := abs_sub_le (hsum o h η b f) (hsum o h η b g) (hsum o h (Int.fract T) ⌊T⌋ g)
  linarith

end Gals
