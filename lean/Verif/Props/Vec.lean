import Verif.Model.Vec
import Mathlib.Algebra.Order.Field.Basic
import Mathlib.Algebra.Order.Group.Abs
import Mathlib.Algebra.BigOperators.Fin
import Mathlib.LinearAlgebra.Matrix.Notation
import Mathlib.Data.Matrix.Mul
import Mathlib.Tactic.NormNum
import Mathlib.Tactic.LinearCombination

/-!
# Properties C10, C11, C12 and the vector part of C13
-/

namespace Gals.Props

open Gals

/-! ## C10: vector minimum is the least component -/

section C10
variable {T : Type} [LinearOrder T]

/-- The result is one of the components. -/
theorem C10_min_is_component (v : Vec3 T) : v.min = v.x ∨ v.min = v.y ∨ v.min = v.z := by
  unfold Vec3.min
  split
  · exact Or.inl rfl
  · split
    · exact Or.inr (Or.inl rfl)
    · exact Or.inr (Or.inr rfl)

/-- C10, exactly when it holds: the result is a lower bound of the components iff the first two components are not
tied strictly below the third. -/
theorem C10_min_iff (v : Vec3 T) :
    (v.min ≤ v.x ∧ v.min ≤ v.y ∧ v.min ≤ v.z) ↔ ¬ (v.x = v.y ∧ v.x < v.z) := by
  obtain ⟨x, y, z⟩ := v
  unfold Vec3.min
  simp only
  split
  · rename_i h
    exact ⟨fun _ hc => absurd h.1 (by rw [hc.1]; exact lt_irrefl _), fun _ => ⟨le_refl _, h.1.le, h.2.le⟩⟩
  · rename_i h1
    split
    · rename_i h
      exact ⟨fun _ hc => absurd h.1 (by rw [hc.1]; exact lt_irrefl _), fun _ => ⟨h.1.le, le_refl _, h.2.le⟩⟩
    · rename_i h2
      constructor
      · rintro ⟨a, -, -⟩ ⟨-, hc⟩
        exact absurd a (not_le.2 hc)
      · intro hc
        have key : z ≤ x ∧ z ≤ y := by
          by_contra hcon
          rw [not_and_or, not_le, not_le] at hcon
          rcases lt_trichotomy x y with hxy | hxy | hxy
          · have : ¬ x < z := fun h => h1 ⟨hxy, h⟩
            rcases hcon with h | h
            · exact this h
            · exact this (hxy.trans h)
          · subst hxy
            rcases hcon with h | h <;> exact hc ⟨rfl, h⟩
          · have : ¬ y < z := fun h => h2 ⟨hxy, h⟩
            rcases hcon with h | h
            · exact this (hxy.trans h)
            · exact this h
        exact ⟨key.1, key.2, le_refl _⟩

/-- C10 without the tie.  Missing for the full claim: the tie of the first two components, where it is false. -/
theorem C10_min_partial (v : Vec3 T) (h : v.x ≠ v.y) : v.min ≤ v.x ∧ v.min ≤ v.y ∧ v.min ≤ v.z :=
  (C10_min_iff v).2 fun hc => h hc.1

end C10

/-- C10 is false: the minimum of (1, 1, 2) is reported as 2. -/
theorem C10_false : ∃ v : Vec3 ℤ, ¬ (v.min ≤ v.x ∧ v.min ≤ v.y ∧ v.min ≤ v.z) :=
  ⟨⟨1, 1, 2⟩, by decide⟩

/-- Instance of `C10_min_partial`. -/
example : (⟨3, 1, 2⟩ : Vec3 ℤ).min = 1 ∧ (⟨3, 1, 2⟩ : Vec3 ℤ).x ≠ (⟨3, 1, 2⟩ : Vec3 ℤ).y := by decide

/-! ## C11: tolerant comparison laws -/

section C11
variable {K : Type} [Field K] [LinearOrder K] [IsStrictOrderedRing K]

theorem fabs_eq (a : K) : fabs a = |a| := by
  unfold fabs
  split
  · rename_i h; exact (abs_of_neg h).symm
  · rename_i h; exact (abs_of_nonneg (not_lt.1 h)).symm

/-- C11. Tolerant comparison of floating values: within 1e-10, reflexive, symmetric. -/
theorem C11_tolerant (a b : K) :
    (isEqual a b = true ↔ |a - b| ≤ 1 / 10 ^ 10) ∧ isEqual a a = true ∧ (isEqual a b = isEqual b a) ∧
      (a = b → isEqual a b = true) := by
  have key : ∀ a b : K, isEqual a b = true ↔ |a - b| ≤ 1 / 10 ^ 10 := by
    intro a b
    unfold isEqual vsmall
    rw [decide_eq_true_iff, fabs_eq]
    norm_num
  have hrefl : ∀ a : K, isEqual a a = true := by
    intro a
    rw [key, sub_self, abs_zero]
    positivity
  refine ⟨key a b, hrefl a, ?_, fun h => h ▸ hrefl a⟩
  have : isEqual a b = true ↔ isEqual b a = true := by rw [key, key, abs_sub_comm]
  exact Bool.eq_iff_iff.2 this

/-- C11. It is not an equality: not transitive. -/
theorem C11_not_transitive : ∃ a b c : K, isEqual a b = true ∧ isEqual b c = true ∧ isEqual a c = false := by
  refine ⟨0, 1 / 10 ^ 10, 2 / 10 ^ 10, ?_, ?_, ?_⟩
  · rw [(C11_tolerant _ _).1, zero_sub, abs_neg, abs_of_nonneg (by positivity)]
  · rw [(C11_tolerant _ _).1]
    rw [abs_sub_comm, abs_of_nonneg] <;> norm_num
  · rw [← Bool.not_eq_true, (C11_tolerant _ _).1, zero_sub, abs_neg, abs_of_nonneg (by positivity)]
    norm_num

/-- C11. Vector equality is the conjunction over components. -/
theorem C11_vec (v w : Vec3 K) : v.beq w = true ↔ ∀ a : Fin 3, |v.get a - w.get a| ≤ 1 / 10 ^ 10 := by
  unfold Vec3.beq
  rw [Bool.and_eq_true, Bool.and_eq_true, (C11_tolerant _ _).1, (C11_tolerant _ _).1, (C11_tolerant _ _).1]
  constructor
  · rintro ⟨⟨h0, h1⟩, h2⟩ a
    match a with
    | 0 => exact h0
    | 1 => exact h1
    | 2 => exact h2
  · intro h
    exact ⟨⟨h 0, h 1⟩, h 2⟩

/-- C11. Matrix equality is the conjunction over entries. -/
theorem C11_mat (a b : Mat3 K) : a.beq b = true ↔ ∀ r c : Fin 3, |a.entry r c - b.entry r c| ≤ 1 / 10 ^ 10 := by
  unfold Mat3.beq
  simp only [Bool.and_eq_true, (C11_tolerant _ _).1]
  constructor
  · rintro ⟨⟨⟨⟨⟨⟨⟨⟨h0, h1⟩, h2⟩, h3⟩, h4⟩, h5⟩, h6⟩, h7⟩, h8⟩ r c
    match r, c with
    | 0, 0 => exact h0
    | 0, 1 => exact h1
    | 0, 2 => exact h2
    | 1, 0 => exact h3
    | 1, 1 => exact h4
    | 1, 2 => exact h5
    | 2, 0 => exact h6
    | 2, 1 => exact h7
    | 2, 2 => exact h8
  · intro h
    exact ⟨⟨⟨⟨⟨⟨⟨⟨h 0 0, h 0 1⟩, h 0 2⟩, h 1 0⟩, h 1 1⟩, h 1 2⟩, h 2 0⟩, h 2 1⟩, h 2 2⟩

end C11

/-- C11. Integer comparison is exact. -/
theorem C11_int (a b : ℤ) (v w : Vec3 ℤ) :
    (isEqualInt a b = true ↔ a = b) ∧ (v.beqInt w = true ↔ v = w) := by
  refine ⟨by simp [isEqualInt], ?_⟩
  obtain ⟨x, y, z⟩ := v
  obtain ⟨x', y', z'⟩ := w
  simp [Vec3.beqInt, isEqualInt, and_assoc]

/-- Instance of C11: values 1e-11 apart compare equal, values 1e-9 apart do not. -/
example : isEqual (1 : ℚ) (1 + 1 / 10 ^ 11) = true ∧ isEqual (1 : ℚ) (1 + 1 / 10 ^ 9) = false := by
  constructor
  · rw [(C11_tolerant _ _).1]; norm_num [abs_le]
  · rw [← Bool.not_eq_true, (C11_tolerant _ _).1, not_le, lt_abs]; norm_num

/-! ## C12: matrix-vector contraction uses the Jacobian transpose -/

section C12
variable {K : Type} [CommRing K]

/-- The matrix given by the entries. -/
def toMatrix (a : Mat3 K) : Matrix (Fin 3) (Fin 3) K := Matrix.of fun r c => a.entry r c

/-- C12. `dot` is the transposed matrix times the vector. -/
theorem C12_dot_transpose (a : Mat3 K) (v : Vec3 K) (i : Fin 3) :
    (a.dot v).get i = ∑ j : Fin 3, a.entry j i * v.get j := by
  rw [Fin.sum_univ_three]
  match i with
  | 0 => simp only [Mat3.dot, Mat3.entry, Vec3.get]; ring
  | 1 => simp only [Mat3.dot, Mat3.entry, Vec3.get]; ring
  | 2 => simp only [Mat3.dot, Mat3.entry, Vec3.get]; ring

/-- C12 in matrix notation. -/
theorem C12_dot_mulVec (a : Mat3 K) (v : Vec3 K) : (a.dot v).get = (toMatrix a).transpose.mulVec v.get := by
  funext i
  rw [C12_dot_transpose]
  simp [Matrix.mulVec, dotProduct, toMatrix]

/-- C12. Linear in both arguments. -/
theorem C12_dot_linear (a b : Mat3 K) (v w : Vec3 K) (t : K) (i : Fin 3) :
    (a.dot (v.sub w)).get i = (a.dot v).get i - (a.dot w).get i ∧
    ((a.sub b).dot v).get i = (a.dot v).get i - (b.dot v).get i ∧
    (a.dot (v.smul t)).get i = (a.dot v).get i * t ∧
    ((a.smul t).dot v).get i = (a.dot v).get i * t := by
  simp only [C12_dot_transpose]
  simp only [Fin.sum_univ_three, Mat3.entry, Mat3.sub, Mat3.smul, Vec3.sub, Vec3.smul, Vec3.get]
  refine ⟨?_, ?_, ?_, ?_⟩ <;> ring

/-- C12. The identity matrix leaves the vector unchanged. -/
theorem C12_dot_identity (v : Vec3 K) : (Mat3.identity : Mat3 K).dot v = v := by
  obtain ⟨x, y, z⟩ := v
  simp [Mat3.dot, Mat3.identity, Mat3.mk9, Mat3.pos]

end C12

/-- C12. The constructor lists entries row by row, and `(r, c)` and `setEntry` address the same entry. -/
theorem C12_entries {T : Type} (e : Fin 3 → Fin 3 → T) (r c : Fin 3) :
    (Mat3.mk9 (e 0 0) (e 0 1) (e 0 2) (e 1 0) (e 1 1) (e 1 2) (e 2 0) (e 2 1) (e 2 2)).entry r c = e r c := by
  match r, c with
  | 0, 0 => rfl
  | 0, 1 => rfl
  | 0, 2 => rfl
  | 1, 0 => rfl
  | 1, 1 => rfl
  | 1, 2 => rfl
  | 2, 0 => rfl
  | 2, 1 => rfl
  | 2, 2 => rfl

/-- C12. Writing entry `(r, c)` changes that entry only. -/
theorem C12_setEntry {T : Type} (a : Mat3 T) (r c r' c' : Fin 3) (t : T) :
    (a.setEntry r c t).entry r' c' = if r' = r ∧ c' = c then t else a.entry r' c' := by
  have h : Mat3.pos r' c' = Mat3.pos r c ↔ r' = r ∧ c' = c := by
    unfold Mat3.pos
    rw [Fin.mk.injEq, Fin.ext_iff, Fin.ext_iff]
    omega
  unfold Mat3.setEntry Mat3.entry
  simp only [h]

/-- Instance of C12: a non-symmetric matrix. -/
example : (Mat3.mk9 1 2 0 0 1 0 0 0 1 : Mat3 ℤ).dot ⟨1, 0, 0⟩ = ⟨1, 2, 0⟩ := by decide

/-! ## C13, vector part: valid arguments never terminate the process -/

/-- C13 for `Vec3(std::vector)` in the test build.  Missing for the full claim: the non-test build, where it is
false (`C13_vec_false`). -/
theorem C13_vec_partial {T : Type} (x y z : T) : Vec3.ofVector .tests [x, y, z] = .ok ⟨x, y, z⟩ := rfl

/-- C13 is false in the non-test build: constructing a vector from **any** list, in particular from a three-element
one, ends the process. -/
theorem C13_vec_false {T : Type} (a : List T) : Vec3.ofVector .release a = .error .exited := rfl

/-- In the test build a list that is too short is read out of bounds after the message. -/
theorem C13_vec_short {T : Type} (x y : T) : Vec3.ofVector .tests [x, y] = .error .oob := rfl

end Gals.Props
