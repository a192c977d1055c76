import Verif.Props.Smooth
import Mathlib.Tactic.FieldSimp

/-!
# Property C19 (gradient limiting)

`a`, `b` are the end slopes, `D = phi1 - phi0`; the chord slope is `D / dx`.
-/

set_option linter.unusedSectionVars false
set_option linter.unnecessarySeqFocus false

namespace Gals.Props

open Gals Spec

section
variable {K : Type} [Field K] [LinearOrder K] [IsStrictOrderedRing K]

/-- C19, end points: limited or not, the outer control points are the node values; and the 1D interpolant takes the
node values at the ends of the cell. -/
theorem C19_ends_kept (phi0 a phi1 b dx inv : K) (v w : Vec3 K) (lim : Bool) :
    (getControlPoints phi0 a phi1 b dx lim).c30 = phi0 ∧ (getControlPoints phi0 a phi1 b dx lim).c03 = phi1 ∧
    (kernel1 dx inv 0 ⟨phi0, v⟩ ⟨phi1, w⟩ lim).phi = phi0 ∧ (kernel1 dx inv 1 ⟨phi0, v⟩ ⟨phi1, w⟩ lim).phi = phi1 := by
  have h : ∀ a b : K, (getControlPoints phi0 a phi1 b dx lim).c30 = phi0 ∧
      (getControlPoints phi0 a phi1 b dx lim).c03 = phi1 := by
    intro a b
    unfold getControlPoints
    dsimp only
    split
    · split
      · exact ⟨rfl, rfl⟩
      · split
        · exact ⟨rfl, rfl⟩
        · split <;> exact ⟨rfl, rfl⟩
    · exact ⟨rfl, rfl⟩
  refine ⟨(h a b).1, (h a b).2, ?_, ?_⟩
  · simp [kernel1, (h v.x w.x).1, B0, B1, B2, B3, cube, sqr]
  · simp [kernel1, (h v.x w.x).2, B0, B1, B2, B3, cube, sqr]

/-- Instance: slopes 9/10 and 9/5, limited. -/
example : (getControlPoints (0 : ℚ) (9 / 10) 1 (9 / 5) 1 true).c03 = 1 :=
  (C19_ends_kept 0 (9 / 10) 1 (9 / 5) 1 1 ⟨0, 0, 0⟩ ⟨0, 0, 0⟩ true).2.1

/-- The limiter in terms of slopes. -/
theorem limited_eq (phi0 a phi1 b dx : K) :
    let D := phi1 - phi0
    getControlPoints phi0 a phi1 b dx true =
      if (2 * (a * dx) + b * dx - 3 * D) * (a * dx - D) < 0 then
        ⟨phi0, phi0 + a * dx / 3, phi0 + 2 * (a * dx) / 3, phi1⟩
      else if (2 * (b * dx) + a * dx - 3 * D) * (b * dx - D) < 0 then
        ⟨phi0, phi1 - 2 * (b * dx) / 3, phi1 - b * dx / 3, phi1⟩
      else if (a * dx - D) * (b * dx - D) ≤ 0 then ⟨phi0, phi0 + D / 3, phi1 - D / 3, phi1⟩
      else ⟨phi0, phi0 + a * dx / 3, phi1 - b * dx / 3, phi1⟩ := by
  intro D
  have h3 : (3 : K) ≠ 0 := by norm_num
  have e1 : (3 * ((phi0 + a * dx * oneThird) - phi0) - 3 / 2 * ((phi1 - b * dx * oneThird) - phi0)) *
      (3 * ((phi0 + a * dx * oneThird) - phi0) - (phi1 - phi0))
        = 1 / 2 * ((2 * (a * dx) + b * dx - 3 * D) * (a * dx - D)) := by
    simp only [oneThird, D]; field_simp; ring
  have e2 : (3 * (phi1 - (phi1 - b * dx * oneThird)) - 3 / 2 * (phi1 - (phi0 + a * dx * oneThird))) *
      (3 * (phi1 - (phi1 - b * dx * oneThird)) - (phi1 - phi0))
        = 1 / 2 * ((2 * (b * dx) + a * dx - 3 * D) * (b * dx - D)) := by
    simp only [oneThird, D]; field_simp; ring
  have e3 : (3 * ((phi0 + a * dx * oneThird) - phi0) - (phi1 - phi0)) *
      (3 * (phi1 - (phi1 - b * dx * oneThird)) - (phi1 - phi0)) = (a * dx - D) * (b * dx - D) := by
    simp only [oneThird, D]; field_simp; ring
  have hp : ∀ x : K, (1 / 2 * x < 0 ↔ x < 0) := fun x => by constructor <;> intro h <;> linarith
  unfold getControlPoints
  simp only [if_true, e1, e2, e3, hp]
  simp only [oneThird, twoThirds, D]
  split
  · congr 1 <;> field_simp <;> ring
  · split
    · congr 1 <;> field_simp <;> ring
    · split
      · congr 1 <;> field_simp <;> ring
      · congr 1 <;> field_simp

/-- C19 "data already monotone are not altered" is false: values 0, 1 and slopes 0.9, 1.8 on a unit cell give a
non-decreasing cubic (its control points 0, 0.3, 0.4, 1 increase), and limiting changes it. -/
theorem C19_monotone_unaltered_false :
    (∀ s t : ℚ, 0 ≤ s → s ≤ t → t ≤ 1 → (kernel1 1 1 s ⟨0, ⟨9 / 10, 0, 0⟩⟩ ⟨1, ⟨9 / 5, 0, 0⟩⟩ false).phi ≤
      (kernel1 1 1 t ⟨0, ⟨9 / 10, 0, 0⟩⟩ ⟨1, ⟨9 / 5, 0, 0⟩⟩ false).phi) ∧
    (kernel1 (1 : ℚ) 1 (1 / 2) ⟨0, ⟨9 / 10, 0, 0⟩⟩ ⟨1, ⟨9 / 5, 0, 0⟩⟩ false).phi = 31 / 80 ∧
    (kernel1 (1 : ℚ) 1 (1 / 2) ⟨0, ⟨9 / 10, 0, 0⟩⟩ ⟨1, ⟨9 / 5, 0, 0⟩⟩ true).phi = 37 / 80 := by
  refine ⟨fun s t h0 h1 h2 => ?_, ?_, ?_⟩
  · simp only [kernel1, getControlPoints, oneThird, B0, B1, B2, B3, cube, sqr, Bool.false_eq_true, if_false]
    norm_num
    nlinarith [mul_nonneg h0 (sub_nonneg.2 h1), mul_nonneg (sub_nonneg.2 h1) (sub_nonneg.2 h2),
      mul_nonneg (mul_nonneg h0 h0) (sub_nonneg.2 h1), mul_nonneg (sub_nonneg.2 h1) (sq_nonneg (s + t - 2 / 3)),
      mul_nonneg (sub_nonneg.2 h1) (sq_nonneg (s - t)), mul_nonneg (mul_nonneg h0 (h0.trans h1)) (sub_nonneg.2 h1)]
  · norm_num [kernel1, getControlPoints, oneThird, B0, B1, B2, B3, cube, sqr]
  · norm_num [kernel1, getControlPoints, oneThird, twoThirds, B0, B1, B2, B3, cube, sqr]

/-- C19 "the limited cubic stays between the node values" is false: values 0, 1 and slopes 12, 12 on a unit cell are
left alone and give 41/32 at 1/4; and values 0, 1 with slopes -3 and 18 are changed to give -1 at 1/2. -/
theorem C19_no_overshoot_false :
    (kernel1 (1 : ℚ) 1 (1 / 4) ⟨0, ⟨12, 0, 0⟩⟩ ⟨1, ⟨12, 0, 0⟩⟩ true).phi = 41 / 32 ∧
    (kernel1 (1 : ℚ) 1 (1 / 4) ⟨0, ⟨12, 0, 0⟩⟩ ⟨1, ⟨12, 0, 0⟩⟩ false).phi = 41 / 32 ∧
    (kernel1 (1 : ℚ) 1 (1 / 2) ⟨0, ⟨-3, 0, 0⟩⟩ ⟨1, ⟨18, 0, 0⟩⟩ true).phi = -1 := by
  refine ⟨?_, ?_, ?_⟩ <;> norm_num [kernel1, getControlPoints, oneThird, twoThirds, B0, B1, B2, B3, cube, sqr]

/-- C19, data that are not altered: if both end slopes are steeper than the chord, or both are less steep, limiting
changes nothing.  Missing for the full claim: other monotone data, for which it is false
(`C19_monotone_unaltered_false`). -/
theorem C19_unaltered_partial (phi0 a phi1 b dx : K)
    (h : (phi1 - phi0 < a * dx ∧ phi1 - phi0 < b * dx) ∨ (a * dx < phi1 - phi0 ∧ b * dx < phi1 - phi0)) :
    getControlPoints phi0 a phi1 b dx true = getControlPoints phi0 a phi1 b dx false := by
  have h3 : (3 : K) ≠ 0 := by norm_num
  have hf : getControlPoints phi0 a phi1 b dx false = ⟨phi0, phi0 + a * dx / 3, phi1 - b * dx / 3, phi1⟩ := by
    simp only [getControlPoints, oneThird, Bool.false_eq_true, if_false]
    congr 1 <;> field_simp
  rw [limited_eq, hf]
  generalize a * dx = A at *
  generalize b * dx = B at *
  rcases h with ⟨h1, h2⟩ | ⟨h1, h2⟩
  · rw [if_neg (not_lt.2 (mul_nonneg (by linarith) (by linarith))),
      if_neg (not_lt.2 (mul_nonneg (by linarith) (by linarith))),
      if_neg (not_le.2 (mul_pos (by linarith) (by linarith)))]
  · rw [if_neg (not_lt.2 (mul_nonneg_of_nonpos_of_nonpos (by linarith) (by linarith))),
      if_neg (not_lt.2 (mul_nonneg_of_nonpos_of_nonpos (by linarith) (by linarith))),
      if_neg (not_le.2 (mul_pos_of_neg_of_neg (by linarith) (by linarith)))]

/-- Instance: slopes 2 and 5/2 on values 0, 1. -/
example : getControlPoints (0 : ℚ) 2 1 (5 / 2) 1 true = getControlPoints (0 : ℚ) 2 1 (5 / 2) 1 false :=
  C19_unaltered_partial 0 2 1 (5 / 2) 1 (by norm_num)

/-- C19, data that are altered: if the end slopes are on different sides of the chord slope (or one equals it), the
limited cubic never has both slopes of the data, unless they equal the chord slope.  So the limiter distinguishes
exactly the cases of `C19_unaltered_partial` from the others. -/
theorem C19_altered (phi0 a phi1 b dx : K) (h : (a * dx - (phi1 - phi0)) * (b * dx - (phi1 - phi0)) ≤ 0)
    (hne : a * dx ≠ phi1 - phi0 ∨ b * dx ≠ phi1 - phi0) :
    getControlPoints phi0 a phi1 b dx true ≠ getControlPoints phi0 a phi1 b dx false := by
  have h3 : (3 : K) ≠ 0 := by norm_num
  have hf : getControlPoints phi0 a phi1 b dx false = ⟨phi0, phi0 + a * dx / 3, phi1 - b * dx / 3, phi1⟩ := by
    simp only [getControlPoints, oneThird, Bool.false_eq_true, if_false]
    congr 1 <;> field_simp
  rw [limited_eq, hf]
  generalize a * dx = A at *
  generalize b * dx = B at *
  intro he
  split at he
  · rename_i hc
    have : phi0 + 2 * A / 3 = phi1 - B / 3 := congrArg ControlPoints.c12 he
    have e : 2 * A + B - 3 * (phi1 - phi0) = 0 := by field_simp at this; linarith
    rw [e, zero_mul] at hc
    exact lt_irrefl _ hc
  · split at he
    · rename_i hc
      have : phi1 - 2 * B / 3 = phi0 + A / 3 := congrArg ControlPoints.c21 he
      have e : 2 * B + A - 3 * (phi1 - phi0) = 0 := by field_simp at this; linarith
      rw [e, zero_mul] at hc
      exact lt_irrefl _ hc
    · have e1 : phi0 + (phi1 - phi0) / 3 = phi0 + A / 3 := congrArg ControlPoints.c21 he
      have e2 : phi1 - (phi1 - phi0) / 3 = phi1 - B / 3 := congrArg ControlPoints.c12 he
      field_simp at e1 e2
      rcases hne with h | h
      · exact h (by linarith)
      · exact h (by linarith)

/-- Instance: slopes 9/10 and 9/5 around the chord slope 1. -/
example : getControlPoints (0 : ℚ) (9 / 10) 1 (9 / 5) 1 true ≠ getControlPoints (0 : ℚ) (9 / 10) 1 (9 / 5) 1 false :=
  C19_altered 0 (9 / 10) 1 (9 / 5) 1 (by norm_num) (by norm_num)

/-- Control points of limited non-decreasing data are between the node values. -/
theorem limited_bounds {phi0 a phi1 b dx : K} (ha : 0 ≤ a * dx) (hb : 0 ≤ b * dx) (hD : phi0 ≤ phi1)
    (hst : (a * dx ≤ phi1 - phi0 ∨ b * dx ≤ phi1 - phi0) ∨
      (a * dx ≤ 3 * (phi1 - phi0) ∧ b * dx ≤ 3 * (phi1 - phi0))) :
    let p := getControlPoints phi0 a phi1 b dx true
    ∀ c ∈ [p.c30, p.c21, p.c12, p.c03], phi0 ≤ c ∧ c ≤ phi1 := by
  rw [limited_eq]
  dsimp only
  generalize a * dx = A at *
  generalize b * dx = B at *
  obtain ⟨D, rfl⟩ : ∃ D, phi1 = phi0 + D := ⟨phi1 - phi0, by ring⟩
  simp only [add_sub_cancel_left] at *
  have hD0 : 0 ≤ D := by linarith
  have fin : ∀ p q : K, 0 ≤ p → p ≤ D → 0 ≤ q → q ≤ D →
      ∀ c ∈ [phi0, phi0 + p, phi0 + q, phi0 + D], phi0 ≤ c ∧ c ≤ phi0 + D := by
    intro p q p0 p1 q0 q1 c hc
    simp only [List.mem_cons, List.not_mem_nil, or_false] at hc
    rcases hc with rfl | rfl | rfl | rfl <;> constructor <;> linarith
  split
  · rename_i hc
    have hA : A ≤ 3 / 2 * D := by
      by_contra hn
      push Not at hn
      have h1 : 0 ≤ A - D := by linarith
      have h2 : 0 ≤ 2 * A + B - 3 * D := by linarith
      nlinarith
    have := fin (A / 3) (2 * A / 3) (by positivity) (by linarith) (by positivity) (by linarith)
    exact this
  · split
    · rename_i hc
      have hB : B ≤ 3 / 2 * D := by
        by_contra hn
        push Not at hn
        have h1 : 0 ≤ B - D := by linarith
        have h2 : 0 ≤ 2 * B + A - 3 * D := by linarith
        nlinarith
      have := fin (D - 2 * B / 3) (D - B / 3) (by linarith) (by linarith) (by linarith) (by linarith)
      simpa only [add_sub_assoc] using this
    · split
      · have := fin (D / 3) (D - D / 3) (by linarith) (by linarith) (by linarith) (by linarith)
        simpa only [add_sub_assoc] using this
      · rename_i hc
        push Not at hc
        have hAB : A ≤ 3 * D ∧ B ≤ 3 * D := by
          rcases hst with (h | h) | h
          · have : A - D < 0 := lt_of_le_of_ne (by linarith) (fun h0 => by rw [h0, zero_mul] at hc; exact lt_irrefl _ hc)
            have : B - D < 0 := neg_of_mul_pos_right hc this.le
            constructor <;> linarith
          · have : B - D < 0 := lt_of_le_of_ne (by linarith) (fun h0 => by rw [h0, mul_zero] at hc; exact lt_irrefl _ hc)
            have : A - D < 0 := neg_of_mul_pos_left hc this.le
            constructor <;> linarith
          · exact h
        have := fin (A / 3) (D - B / 3) (by positivity) (by linarith) (by linarith) (by linarith)
        simpa only [add_sub_assoc] using this

theorem limited_neg (phi0 a phi1 b dx : K) :
    getControlPoints (-phi0) (-a) (-phi1) (-b) dx true =
      let p := getControlPoints phi0 a phi1 b dx true
      ⟨-p.c30, -p.c21, -p.c12, -p.c03⟩ := by
  rw [limited_eq, limited_eq]
  dsimp only
  have e1 : (2 * (-a * dx) + -b * dx - 3 * (-phi1 - -phi0)) * (-a * dx - (-phi1 - -phi0))
      = (2 * (a * dx) + b * dx - 3 * (phi1 - phi0)) * (a * dx - (phi1 - phi0)) := by ring
  have e2 : (2 * (-b * dx) + -a * dx - 3 * (-phi1 - -phi0)) * (-b * dx - (-phi1 - -phi0))
      = (2 * (b * dx) + a * dx - 3 * (phi1 - phi0)) * (b * dx - (phi1 - phi0)) := by ring
  have e3 : (-a * dx - (-phi1 - -phi0)) * (-b * dx - (-phi1 - -phi0))
      = (a * dx - (phi1 - phi0)) * (b * dx - (phi1 - phi0)) := by ring
  rw [e1, e2, e3]
  split
  · congr 1 <;> ring
  · split
    · congr 1 <;> ring
    · split
      · congr 1 <;> ring
      · congr 1 <;> ring

/-- C19, no overshoot: if both end slopes have the direction of the chord (the data look monotone at the nodes) and
are not both steeper than the chord with one more than three times as steep, then with limiting the 1D interpolant
stays between the two node values everywhere in the cell.  Without limiting this fails for steep slopes.  Missing for
the full claim: slopes against the direction of the chord, and two very steep slopes, for which it is false
(`C19_no_overshoot_false`). -/
theorem C19_no_overshoot_partial (phi0 phi1 dx inv eta : K) (v w : Vec3 K) (h0 : 0 ≤ eta) (h1 : eta ≤ 1)
    (hsl : let a := v.x * dx; let b := w.x * dx; let D := phi1 - phi0
      (0 ≤ D ∧ 0 ≤ a ∧ 0 ≤ b ∧ ((a ≤ D ∨ b ≤ D) ∨ (a ≤ 3 * D ∧ b ≤ 3 * D))) ∨
      (D ≤ 0 ∧ a ≤ 0 ∧ b ≤ 0 ∧ ((D ≤ a ∨ D ≤ b) ∨ (3 * D ≤ a ∧ 3 * D ≤ b)))) :
    min phi0 phi1 ≤ (kernel1 dx inv eta ⟨phi0, v⟩ ⟨phi1, w⟩ true).phi ∧
      (kernel1 dx inv eta ⟨phi0, v⟩ ⟨phi1, w⟩ true).phi ≤ max phi0 phi1 := by
  rcases hsl with ⟨hD, ha, hb, hst⟩ | ⟨hD, ha, hb, hst⟩
  · have hle : phi0 ≤ phi1 := sub_nonneg.1 hD
    rw [min_eq_left hle, max_eq_right hle]
    exact kernel1_bounds h0 h1 (limited_bounds ha hb hle hst)
  · have hle : phi1 ≤ phi0 := sub_nonpos.1 hD
    rw [min_eq_right hle, max_eq_left hle]
    refine kernel1_bounds h0 h1 ?_
    have := limited_bounds (phi0 := -phi0) (a := -v.x) (phi1 := -phi1) (b := -w.x) (dx := dx) (by linarith) (by linarith)
      (by linarith) (by
        rcases hst with (h | h) | ⟨h, h'⟩
        · left; left; linarith
        · left; right; linarith
        · right; constructor <;> linarith)
    rw [limited_neg] at this
    dsimp only at this ⊢
    intro c hc
    have hm : -c ∈ [-(getControlPoints phi0 v.x phi1 w.x dx true).c30, -(getControlPoints phi0 v.x phi1 w.x dx true).c21,
        -(getControlPoints phi0 v.x phi1 w.x dx true).c12, -(getControlPoints phi0 v.x phi1 w.x dx true).c03] := by
      simp only [List.mem_cons, List.not_mem_nil, or_false, neg_inj] at hc ⊢
      exact hc
    have := this (-c) hm
    constructor <;> linarith

/-- Instance: slopes 1/2 and 9 on values 0, 1 (without limiting the cubic falls to -9/16 at 1/2). -/
example : 0 ≤ (kernel1 (1 : ℚ) 1 (1 / 2) ⟨0, ⟨1 / 2, 0, 0⟩⟩ ⟨1, ⟨9, 0, 0⟩⟩ true).phi ∧
    (kernel1 (1 : ℚ) 1 (1 / 2) ⟨0, ⟨1 / 2, 0, 0⟩⟩ ⟨1, ⟨9, 0, 0⟩⟩ false).phi < 0 := by
  have := C19_no_overshoot_partial (0 : ℚ) 1 1 1 (1 / 2) ⟨1 / 2, 0, 0⟩ ⟨9, 0, 0⟩ (by norm_num) (by norm_num) (by norm_num)
  refine ⟨by simpa using this.1, ?_⟩
  norm_num [kernel1, getControlPoints, oneThird, twoThirds, B0, B1, B2, B3, cube, sqr]

end

end Gals.Props
