import Verif.Lemmas.Flip
import Verif.Lemmas.Double

/-!
# Opposite doubles
-/

namespace Gals

open Gals.Spec

/-! ## Doubles -/

/-- Equal up to the sign of zero. -/
def Near0 : F64 → F64 → Prop
  | .nan, .nan => True
  | .inf s, .inf t => t = s
  | .fin s a _, .fin t b _ => a = b ∧ (a = 0 ∨ t = s)
  | _, _ => False

theorem opp_cases {a b : F64} (h : Opp a b) : (a = .nan ∧ b = .nan) ∨ (∃ s, a = .inf s ∧ b = .inf !s) ∨
    ∃ s t x hx, a = .fin s x hx ∧ b = .fin t x hx ∧ (x = 0 ∨ t = !s) := by
  cases a with
  | nan =>
    cases b with
    | nan => exact Or.inl ⟨rfl, rfl⟩
    | inf t => exact False.elim h
    | fin t y hy => exact False.elim h
  | inf s =>
    cases b with
    | nan => exact False.elim h
    | inf t => exact Or.inr (Or.inl ⟨s, rfl, congrArg F64.inf h⟩)
    | fin t y hy => exact False.elim h
  | fin s x hx =>
    cases b with
    | nan => exact False.elim h
    | inf t => exact False.elim h
    | fin t y hy =>
      obtain ⟨e, h⟩ : x = y ∧ (x = 0 ∨ t = !s) := h
      subst e
      exact Or.inr (Or.inr ⟨s, t, x, hx, rfl, rfl, h⟩)

theorem near_cases {a b : F64} (h : Near0 a b) : (a = .nan ∧ b = .nan) ∨ (∃ s, a = .inf s ∧ b = .inf s) ∨
    ∃ s t x hx, a = .fin s x hx ∧ b = .fin t x hx ∧ (x = 0 ∨ t = s) := by
  cases a with
  | nan =>
    cases b with
    | nan => exact Or.inl ⟨rfl, rfl⟩
    | inf t => exact False.elim h
    | fin t y hy => exact False.elim h
  | inf s =>
    cases b with
    | nan => exact False.elim h
    | inf t => exact Or.inr (Or.inl ⟨s, rfl, congrArg F64.inf h⟩)
    | fin t y hy => exact False.elim h
  | fin s x hx =>
    cases b with
    | nan => exact False.elim h
    | inf t => exact False.elim h
    | fin t y hy =>
      obtain ⟨e, h⟩ : x = y ∧ (x = 0 ∨ t = s) := h
      subst e
      exact Or.inr (Or.inr ⟨s, t, x, hx, rfl, rfl, h⟩)

theorem opp_fin {s t : Bool} {x : ℚ} {hx hx' : IsMag x} (h : x = 0 ∨ t = !s) : Opp (.fin s x hx) (.fin t x hx') := by
  unfold Opp; exact ⟨rfl, h⟩

theorem near_fin {s t : Bool} {x : ℚ} {hx hx' : IsMag x} (h : x = 0 ∨ t = s) : Near0 (.fin s x hx) (.fin t x hx') := by
  unfold Near0; exact ⟨rfl, h⟩

theorem opp_inf {s t : Bool} (h : t = !s) : Opp (.inf s) (.inf t) := by unfold Opp; exact h
theorem near_inf {s t : Bool} (h : t = s) : Near0 (.inf s) (.inf t) := by unfold Near0; exact h
theorem opp_nan : Opp .nan .nan := by unfold Opp; trivial
theorem near_nan : Near0 .nan .nan := by unfold Near0; trivial

theorem F64.signed_opp {s t : Bool} {a : ℚ} (h : a = 0 ∨ t = !s) : F64.signed t a = -F64.signed s a := by
  rcases h with rfl | rfl
  · cases s <;> cases t <;> simp [F64.signed]
  · cases s <;> simp [F64.signed]

theorem opp_round {s t : Bool} (h : t = !s) {p q : ℚ} (e : |p| = |q|) : Opp (F64.round s p) (F64.round t q) := by
  unfold F64.round
  simp only [e]
  split
  · exact opp_fin (Or.inr h)
  · exact opp_inf h

theorem near_round {s t : Bool} (h : t = s) {p q : ℚ} (e : |p| = |q|) : Near0 (F64.round s p) (F64.round t q) := by
  unfold F64.round
  simp only [e]
  split
  · exact near_fin (Or.inr h)
  · exact near_inf h

theorem round_zero (s : Bool) : ∃ h, F64.round s 0 = .fin s 0 h := by
  have e : roundMag |(0 : ℚ)| = 0 := by rw [abs_zero, roundMag_zero]
  have p : (0 : ℚ) < 2 ^ 1024 := pow_pos (by norm_num) _
  refine ⟨isMag_zero, ?_⟩
  unfold F64.round
  simp only [e]
  rw [dif_pos p]

theorem opp_round_zero {s t : Bool} : Opp (F64.round s 0) (F64.round t 0) := by
  obtain ⟨h, e⟩ := round_zero s
  obtain ⟨h', e'⟩ := round_zero t
  rw [e, e']
  exact opp_fin (Or.inl rfl)

theorem near_round_zero {s t : Bool} : Near0 (F64.round s 0) (F64.round t 0) := by
  obtain ⟨h, e⟩ := round_zero s
  obtain ⟨h', e'⟩ := round_zero t
  rw [e, e']
  exact near_fin (Or.inl rfl)

theorem Spec.Opp.add {a a' b b' : F64} (ha : Opp a a') (hb : Opp b b') : Opp (a + b) (a' + b') := by
  change Opp (F64.add a b) (F64.add a' b')
  rcases opp_cases ha with ⟨rfl, rfl⟩ | ⟨s, rfl, rfl⟩ | ⟨s, t, x, hx, rfl, rfl, h⟩
  · simp only [F64.add]; exact opp_nan
  · rcases opp_cases hb with ⟨rfl, rfl⟩ | ⟨u, rfl, rfl⟩ | ⟨u, v, z, hz, rfl, rfl, k⟩
    · simp only [F64.add]; exact opp_nan
    · simp only [F64.add, Bool.not_inj_iff]
      split
      · exact opp_inf rfl
      · exact opp_nan
    · exact opp_inf rfl
  · rcases opp_cases hb with ⟨rfl, rfl⟩ | ⟨u, rfl, rfl⟩ | ⟨u, v, z, hz, rfl, rfl, k⟩
    · simp only [F64.add]; exact opp_nan
    · exact opp_inf rfl
    · simp only [F64.add, F64.signed_opp h, F64.signed_opp k]
      rw [← neg_add]
      simp only [neg_eq_zero]
      generalize F64.signed s x + F64.signed u z = q
      split
      · exact opp_fin (Or.inl rfl)
      · rename_i q0
        refine opp_round ?_ (abs_neg q).symm
        rcases lt_or_gt_of_ne q0 with h | h
        · simp [h, h.le]
        · simp [h, h.le]

theorem Spec.Opp.neg {a a' : F64} (ha : Opp a a') : Opp (-a) (-a') := by
  change Opp (F64.neg a) (F64.neg a')
  rcases opp_cases ha with ⟨rfl, rfl⟩ | ⟨s, rfl, rfl⟩ | ⟨s, t, x, hx, rfl, rfl, h⟩
  · exact opp_nan
  · exact opp_inf rfl
  · refine opp_fin (h.imp id fun h => ?_)
    subst h
    rfl

/-- A double and its negative are opposite. -/
theorem opp_neg (a : F64) : Opp a (-a) := by
  cases a with
  | nan => exact opp_nan
  | inf s => exact opp_inf rfl
  | fin s x hx => exact opp_fin (Or.inr rfl)

theorem Spec.Opp.mulL {b b' : F64} (c : F64) (hb : Opp b b') : Opp (c * b) (c * b') := by
  change Opp (F64.mul c b) (F64.mul c b')
  rcases opp_cases hb with ⟨rfl, rfl⟩ | ⟨s, rfl, rfl⟩ | ⟨s, t, x, hx, rfl, rfl, h⟩
  · cases c <;> exact opp_nan
  · cases c with
    | nan => exact opp_nan
    | inf u => exact opp_inf (by simp)
    | fin u x hx =>
      simp only [F64.mul]
      split
      · exact opp_nan
      · exact opp_inf (by simp)
  · cases c with
    | nan => exact opp_nan
    | inf u =>
      simp only [F64.mul]
      split
      · exact opp_nan
      · rename_i x0
        exact opp_inf (by rw [h.resolve_left x0]; simp)
    | fin u w hw =>
      simp only [F64.mul]
      rcases h with rfl | rfl
      · rw [mul_zero]
        exact opp_round_zero
      · exact opp_round (by simp) rfl

theorem F64.mul_comm' (a b : F64) : a * b = b * a := by
  change F64.mul a b = F64.mul b a
  cases a with
  | nan => cases b <;> rfl
  | inf s =>
    cases b with
    | nan => rfl
    | inf t => simp only [F64.mul, Bool.xor_comm]
    | fin t y hy => simp only [F64.mul, Bool.xor_comm]
  | fin s x hx =>
    cases b with
    | nan => rfl
    | inf t => simp only [F64.mul, Bool.xor_comm]
    | fin t y hy => simp only [F64.mul, Bool.xor_comm, mul_comm]

theorem Spec.Opp.mul {a a' b b' : F64} (ha : Opp a a') (hb : Opp b b') : Near0 (a * b) (a' * b') := by
  change Near0 (F64.mul a b) (F64.mul a' b')
  rcases opp_cases ha with ⟨rfl, rfl⟩ | ⟨s, rfl, rfl⟩ | ⟨s, t, x, hx, rfl, rfl, h⟩
  · cases b <;> cases b' <;> exact near_nan
  · rcases opp_cases hb with ⟨rfl, rfl⟩ | ⟨u, rfl, rfl⟩ | ⟨u, v, z, hz, rfl, rfl, k⟩
    · exact near_nan
    · exact near_inf (by simp)
    · simp only [F64.mul]
      split
      · exact near_nan
      · rename_i x0
        exact near_inf (by rw [k.resolve_left x0]; simp)
  · rcases opp_cases hb with ⟨rfl, rfl⟩ | ⟨u, rfl, rfl⟩ | ⟨u, v, z, hz, rfl, rfl, k⟩
    · exact near_nan
    · simp only [F64.mul]
      split
      · exact near_nan
      · rename_i x0
        exact near_inf (by rw [h.resolve_left x0]; simp)
    · simp only [F64.mul]
      rcases h with rfl | rfl
      · rw [zero_mul]
        exact near_round_zero
      · rcases k with rfl | rfl
        · rw [mul_zero]
          exact near_round_zero
        · exact near_round (by simp) rfl

theorem near_signed {s t : Bool} {a : ℚ} (h : a = 0 ∨ t = s) : F64.signed t a = F64.signed s a := by
  rcases h with rfl | rfl
  · cases s <;> cases t <;> simp [F64.signed]
  · rfl

theorem near_lt {a a' : F64} (h : Near0 a a') : a < 0 ↔ a' < 0 := by
  rcases near_cases h with ⟨rfl, rfl⟩ | ⟨s, rfl, rfl⟩ | ⟨s, t, x, hx, rfl, rfl, k⟩
  · exact Iff.rfl
  · exact Iff.rfl
  · change decide (F64.signed s x < F64.signed false 0) = true ↔ decide (F64.signed t x < F64.signed false 0) = true
    rw [near_signed k]

theorem near_le {a a' : F64} (h : Near0 a a') : a ≤ 0 ↔ a' ≤ 0 := by
  rcases near_cases h with ⟨rfl, rfl⟩ | ⟨s, rfl, rfl⟩ | ⟨s, t, x, hx, rfl, rfl, k⟩
  · exact Iff.rfl
  · exact Iff.rfl
  · change decide (F64.signed s x ≤ F64.signed false 0) = true ↔ decide (F64.signed t x ≤ F64.signed false 0) = true
    rw [near_signed k]

/-- Opposite doubles are respected by the operations on the data. -/
theorem scaling_opp : Scaling F64 Opp Near0 where
  zero := opp_fin (Or.inl rfl)
  add := Opp.add
  sub := fun ha hb => Opp.add ha (Opp.neg hb)
  mulL := Opp.mulL
  mulR := fun c h => by rw [F64.mul_comm' _ c, F64.mul_comm' _ c]; exact Opp.mulL c h
  mul := Opp.mul
  lt := near_lt
  le := near_le

/-- Multiples by a number that is not zero are respected in exact arithmetic. -/
theorem scaling_mul {K : Type} [Field K] [LinearOrder K] [IsStrictOrderedRing K] {k : K} (hk : k ≠ 0) :
    Scaling K (fun a b => b = k * a) (fun a b => b = k * k * a) where
  zero := by rw [mul_zero]
  add := fun h1 h2 => by rw [h1, h2, mul_add]
  sub := fun h1 h2 => by rw [h1, h2, mul_sub]
  mulL := fun c h => by rw [h]; ring
  mulR := fun c h => by rw [h]; ring
  mul := fun h1 h2 => by rw [h1, h2]; ring
  lt := fun h => by rw [h]; exact ⟨fun h => mul_neg_of_pos_of_neg (mul_self_pos.2 hk) h, fun h => by
    by_contra h'
    exact absurd h (not_lt.2 (mul_nonneg (mul_self_nonneg k) (not_lt.1 h')))⟩
  le := fun h => by rw [h]; exact ⟨fun h => mul_nonpos_of_nonneg_of_nonpos (mul_self_nonneg k) h, fun h => by
    by_contra h'
    exact absurd h (not_le.2 (mul_pos (mul_self_pos.2 hk) (not_le.1 h')))⟩

end Gals
