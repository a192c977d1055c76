import Mathlib.Algebra.MvPolynomial.PDeriv
import Mathlib.Algebra.MvPolynomial.Degrees
import Mathlib.Algebra.Polynomial.Derivative
import Mathlib.Algebra.Polynomial.BigOperators
import Verif.Spec.Poly

/-!
# A polynomial in several variables along a line parallel to an axis
-/

namespace Gals

open MvPolynomial

variable {K : Type} [CommRing K] {σ : Type} [DecidableEq σ]

/-- `P` with all variables except `a` fixed at `x`. -/
noncomputable def lineMap (x : σ → K) (a : σ) : MvPolynomial σ K →ₐ[K] Polynomial K :=
  aeval fun b => if b = a then Polynomial.X else Polynomial.C (x b)

theorem lineMap_eval (x : σ → K) (a : σ) (P : MvPolynomial σ K) (t : K) :
    (lineMap x a P).eval t = eval (Function.update x a t) P := by
  induction P using MvPolynomial.induction_on with
  | C c => simp [lineMap]
  | add p q hp hq => simp [hp, hq]
  | mul_X p b hp =>
    rw [map_mul, Polynomial.eval_mul, hp, map_mul, eval_X]
    congr 1
    unfold lineMap
    rw [aeval_X]
    by_cases h : b = a
    · subst h; simp
    · simp [h]

theorem lineMap_derivative (x : σ → K) (a : σ) (P : MvPolynomial σ K) :
    (lineMap x a P).derivative = lineMap x a (pderiv a P) := by
  induction P using MvPolynomial.induction_on with
  | C c => simp [lineMap]
  | add p q hp hq => simp [hp, hq]
  | mul_X p b hp =>
    rw [map_mul, Polynomial.derivative_mul, hp, Derivation.leibniz, map_add, pderiv_X]
    unfold lineMap
    by_cases h : b = a
    · subst h
      simp
      ring
    · simp [h]
      ring

theorem lineMap_natDegree (x : σ → K) (a : σ) (P : MvPolynomial σ K) :
    (lineMap x a P).natDegree ≤ P.degreeOf a := by
  conv_lhs => rw [P.as_sum, map_sum]
  refine (Polynomial.natDegree_sum_le_of_forall_le _ _ (n := P.degreeOf a) ?_)
  intro m hm
  have hma : m a ≤ P.degreeOf a := monomial_le_degreeOf a hm
  unfold lineMap
  rw [aeval_monomial]
  refine (Polynomial.natDegree_mul_le).trans ?_
  rw [Finsupp.prod]
  refine (Nat.add_le_add (Polynomial.natDegree_C _).le (Polynomial.natDegree_prod_le _ _)).trans ?_
  rw [Nat.zero_add]
  refine le_trans ?_ hma
  calc ∑ b ∈ m.support, ((if b = a then (Polynomial.X : Polynomial K) else Polynomial.C (x b)) ^ m b).natDegree
      ≤ ∑ b ∈ m.support, (if b = a then m a else 0) := by
        refine Finset.sum_le_sum fun b _ => ?_
        by_cases h : b = a
        · subst h
          simp only [if_true]
          exact Polynomial.natDegree_X_pow_le _
        · simp only [h, if_false]
          rw [← Polynomial.C_pow, Polynomial.natDegree_C]
    _ ≤ m a := by
        rw [Finset.sum_ite_eq']
        split <;> simp

/-- Along a line parallel to axis `a` a polynomial of degree at most 3 in that variable is a cubic, and its partial
derivative is the derivative of the cubic. -/
theorem mv_line (P : MvPolynomial σ K) (a : σ) (x : σ → K) {n : ℕ} (hn : n ≤ 3) (h : P.degreeOf a ≤ n) :
    ∃ q : Fin 4 → K, (∀ i : Fin 4, n < i.val → q i = 0) ∧
      (∀ t, eval (Function.update x a t) P = Spec.cubic q t) ∧
      ∀ t, eval (Function.update x a t) (pderiv a P) = Spec.cubic' q t := by
  have hd := (lineMap_natDegree x a P).trans h
  have e := Spec.cubic_of_poly (lineMap x a P) (by omega)
  refine ⟨fun i => (lineMap x a P).coeff i, ?_, ?_, ?_⟩
  · intro i hi
    exact Polynomial.coeff_eq_zero_of_natDegree_lt (by omega)
  · intro t
    rw [← lineMap_eval, ← Spec.toPoly_eval, ← e]
  · intro t
    rw [← lineMap_eval, ← lineMap_derivative, ← Spec.toPoly_derivative_eval, ← e]

end Gals

/-! ## Polynomials in three variables of degree at most 3 in each -/

namespace Gals

open MvPolynomial Spec

variable {K : Type} [CommRing K]

theorem pderiv_cubic {σ : Type} (b : σ) (q : Fin 4 → MvPolynomial σ K) (y : MvPolynomial σ K) :
    pderiv b (cubic q y) = cubic (fun i => pderiv b (q i)) y + cubic' q y * pderiv b y := by
  simp only [cubic, cubic', map_add, Derivation.leibniz, Derivation.leibniz_pow, smul_eq_mul, nsmul_eq_mul]
  push_cast
  ring

theorem pderiv_cubic' {σ : Type} (b : σ) (q : Fin 4 → MvPolynomial σ K) (y : MvPolynomial σ K) (hy : pderiv b y = 0) :
    pderiv b (cubic' q y) = cubic' (fun i => pderiv b (q i)) y := by
  have h2 : pderiv b (2 : MvPolynomial σ K) = 0 := by
    rw [show (2 : MvPolynomial σ K) = C 2 from (map_ofNat C 2).symm]; exact pderiv_C
  have h3 : pderiv b (3 : MvPolynomial σ K) = 0 := by
    rw [show (3 : MvPolynomial σ K) = C 3 from (map_ofNat C 3).symm]; exact pderiv_C
  simp only [cubic', map_add, Derivation.leibniz, Derivation.leibniz_pow, smul_eq_mul, nsmul_eq_mul, hy, h2, h3]
  ring

/-- `∑ aᵢⱼₖ X₀ⁱ X₁ʲ X₂ᵏ`. -/
noncomputable def triPoly (fx fy fz : (Fin 4 → MvPolynomial (Fin 3) K) → MvPolynomial (Fin 3) K → MvPolynomial (Fin 3) K)
    (a : Fin 4 → Fin 4 → Fin 4 → K) : MvPolynomial (Fin 3) K :=
  tri fx fy fz (fun i j k => C (a i j k)) (X 0) (X 1) (X 2)

theorem eval_cubic {σ : Type} (x : σ → K) (q : Fin 4 → MvPolynomial σ K) (y : MvPolynomial σ K) :
    eval x (cubic q y) = cubic (fun i => eval x (q i)) (eval x y) := by
  simp [cubic]

theorem eval_cubic' {σ : Type} (x : σ → K) (q : Fin 4 → MvPolynomial σ K) (y : MvPolynomial σ K) :
    eval x (cubic' q y) = cubic' (fun i => eval x (q i)) (eval x y) := by
  simp [cubic']

theorem cubic_zero {R : Type} [CommRing R] (y : R) : cubic (fun _ => 0) y = 0 := by simp [cubic]
theorem cubic'_zero {R : Type} [CommRing R] (y : R) : cubic' (fun _ => 0) y = 0 := by simp [cubic']

theorem triPoly_single (i j k : Fin 4) (c : K) :
    triPoly cubic cubic cubic (fun i' j' k' => if i' = i ∧ j' = j ∧ k' = k then c else 0) =
      C c * X 0 ^ (i : ℕ) * X 1 ^ (j : ℕ) * X 2 ^ (k : ℕ) := by
  unfold triPoly
  rw [tri_eq_sum, Finset.sum_eq_single i, Finset.sum_eq_single j, Finset.sum_eq_single k]
  · simp
  · intro k' _ h; simp [h]
  · simp
  · intro j' _ h; simp [h]
  · simp
  · intro i' _ h; simp [h]
  · simp

theorem triPoly_add (a b : Fin 4 → Fin 4 → Fin 4 → K) :
    triPoly cubic cubic cubic (fun i j k => a i j k + b i j k) = triPoly cubic cubic cubic a + triPoly cubic cubic cubic b := by
  unfold triPoly
  simp only [tri_eq_sum, map_add, add_mul, Finset.sum_add_distrib]

/-- Every polynomial of degree at most 3 in each of three variables is given by a table of coefficients. -/
theorem triPoly_exists (P : MvPolynomial (Fin 3) K) (h : ∀ a, P.degreeOf a ≤ 3) :
    ∃ a, P = triPoly cubic cubic cubic a := by
  have key : ∀ m ∈ P.support, ∃ a, monomial m (P.coeff m) = triPoly cubic cubic cubic a := by
    intro m hm
    have h0 : m 0 < 4 := by have := (monomial_le_degreeOf 0 hm).trans (h 0); omega
    have h1 : m 1 < 4 := by have := (monomial_le_degreeOf 1 hm).trans (h 1); omega
    have h2 : m 2 < 4 := by have := (monomial_le_degreeOf 2 hm).trans (h 2); omega
    refine ⟨_, Eq.trans ?_ (triPoly_single ⟨m 0, h0⟩ ⟨m 1, h1⟩ ⟨m 2, h2⟩ (P.coeff m)).symm⟩
    rw [monomial_eq, Finsupp.prod_fintype _ _ (by intro i; simp), Fin.prod_univ_three, mul_assoc, mul_assoc, mul_assoc]
  rw [P.as_sum]
  refine Finset.sum_induction _ (fun Q => ∃ a, Q = triPoly cubic cubic cubic a) ?_ ?_ key
  · rintro _ _ ⟨a, rfl⟩ ⟨b, rfl⟩
    exact ⟨_, (triPoly_add a b).symm⟩
  · refine ⟨fun _ _ _ => 0, ?_⟩
    unfold triPoly
    rw [tri_eq_sum]
    simp

theorem pderiv0_tri (fy fz : (Fin 4 → MvPolynomial (Fin 3) K) → MvPolynomial (Fin 3) K → MvPolynomial (Fin 3) K)
    (hy : fy = cubic ∨ fy = cubic') (hz : fz = cubic ∨ fz = cubic') (a : Fin 4 → Fin 4 → Fin 4 → K) :
    pderiv 0 (triPoly cubic fy fz a) = triPoly cubic' fy fz a := by
  have X10 : pderiv 0 (X 1 : MvPolynomial (Fin 3) K) = 0 := pderiv_X_of_ne (by decide)
  have X20 : pderiv 0 (X 2 : MvPolynomial (Fin 3) K) = 0 := pderiv_X_of_ne (by decide)
  have hz' : ∀ q : Fin 4 → K, pderiv 0 (fz (fun k => C (q k)) (X 2)) = 0 := by
    intro q
    rcases hz with rfl | rfl
    · rw [pderiv_cubic, X20]; simp only [pderiv_C, cubic_zero]; ring
    · rw [pderiv_cubic' _ _ _ X20]; simp only [pderiv_C, cubic'_zero]
  have hy' : ∀ q : Fin 4 → Fin 4 → K, pderiv 0 (fy (fun j => fz (fun k => C (q j k)) (X 2)) (X 1)) = 0 := by
    intro q
    rcases hy with rfl | rfl
    · rw [pderiv_cubic, X10]; simp only [hz', cubic_zero]; ring
    · rw [pderiv_cubic' _ _ _ X10]; simp only [hz', cubic'_zero]
  unfold triPoly tri
  rw [pderiv_cubic]
  simp only [hy', cubic_zero, pderiv_X_self]
  ring

theorem pderiv1_tri (fz : (Fin 4 → MvPolynomial (Fin 3) K) → MvPolynomial (Fin 3) K → MvPolynomial (Fin 3) K)
    (hz : fz = cubic ∨ fz = cubic') (a : Fin 4 → Fin 4 → Fin 4 → K) :
    pderiv 1 (triPoly cubic cubic fz a) = triPoly cubic cubic' fz a := by
  have X01 : pderiv 1 (X 0 : MvPolynomial (Fin 3) K) = 0 := pderiv_X_of_ne (by decide)
  have X21 : pderiv 1 (X 2 : MvPolynomial (Fin 3) K) = 0 := pderiv_X_of_ne (by decide)
  have hz' : ∀ q : Fin 4 → K, pderiv 1 (fz (fun k => C (q k)) (X 2)) = 0 := by
    intro q
    rcases hz with rfl | rfl
    · rw [pderiv_cubic, X21]; simp only [pderiv_C, cubic_zero]; ring
    · rw [pderiv_cubic' _ _ _ X21]; simp only [pderiv_C, cubic'_zero]
  unfold triPoly tri
  rw [pderiv_cubic, X01]
  simp only [pderiv_cubic, hz', cubic_zero, pderiv_X_self]
  simp only [mul_one, mul_zero, add_zero, zero_add]

theorem pderiv2_tri (a : Fin 4 → Fin 4 → Fin 4 → K) :
    pderiv 2 (triPoly cubic cubic cubic a) = triPoly cubic cubic cubic' a := by
  have X02 : pderiv 2 (X 0 : MvPolynomial (Fin 3) K) = 0 := pderiv_X_of_ne (by decide)
  have X12 : pderiv 2 (X 1 : MvPolynomial (Fin 3) K) = 0 := pderiv_X_of_ne (by decide)
  unfold triPoly tri
  rw [pderiv_cubic, X02]
  simp only [pderiv_cubic, X12, pderiv_C, cubic_zero, pderiv_X_self]
  simp only [mul_one, mul_zero, add_zero, zero_add]

theorem eval_tri (bx by' bz : Bool) (a : Fin 4 → Fin 4 → Fin 4 → K) (x : Fin 3 → K) :
    eval x (triPoly (if bx then cubic' else cubic) (if by' then cubic' else cubic) (if bz then cubic' else cubic) a) =
      tri (if bx then cubic' else cubic) (if by' then cubic' else cubic) (if bz then cubic' else cubic) a (x 0) (x 1) (x 2) := by
  cases bx <;> cases by' <;> cases bz <;> simp [triPoly, tri, eval_cubic, eval_cubic']

/-- Value, first and mixed derivatives of a polynomial of degree at most 3 in each variable, by one coefficient table. -/
theorem mv_tri (P : MvPolynomial (Fin 3) K) (h : ∀ a, P.degreeOf a ≤ 3) :
    ∃ a, ∀ x : Fin 3 → K, eval x P = tri cubic cubic cubic a (x 0) (x 1) (x 2) ∧
      eval x (pderiv 0 P) = tri cubic' cubic cubic a (x 0) (x 1) (x 2) ∧
      eval x (pderiv 1 P) = tri cubic cubic' cubic a (x 0) (x 1) (x 2) ∧
      eval x (pderiv 2 P) = tri cubic cubic cubic' a (x 0) (x 1) (x 2) ∧
      eval x (pderiv 0 (pderiv 1 P)) = tri cubic' cubic' cubic a (x 0) (x 1) (x 2) ∧
      eval x (pderiv 1 (pderiv 2 P)) = tri cubic cubic' cubic' a (x 0) (x 1) (x 2) ∧
      eval x (pderiv 0 (pderiv 2 P)) = tri cubic' cubic cubic' a (x 0) (x 1) (x 2) ∧
      eval x (pderiv 0 (pderiv 1 (pderiv 2 P))) = tri cubic' cubic' cubic' a (x 0) (x 1) (x 2) := by
  obtain ⟨a, rfl⟩ := triPoly_exists P h
  have l : ∀ {R : Type} [CommRing R], (cubic : (Fin 4 → R) → R → R) = cubic ∨ (cubic : (Fin 4 → R) → R → R) = cubic' :=
    fun {R} _ => .inl rfl
  have r : ∀ {R : Type} [CommRing R], (cubic' : (Fin 4 → R) → R → R) = cubic ∨ (cubic' : (Fin 4 → R) → R → R) = cubic' :=
    fun {R} _ => .inr rfl
  refine ⟨a, fun x => ⟨eval_tri false false false a x, ?_, ?_, ?_, ?_, ?_, ?_, ?_⟩⟩
  · rw [pderiv0_tri _ _ l l]; exact eval_tri true false false a x
  · rw [pderiv1_tri _ l]; exact eval_tri false true false a x
  · rw [pderiv2_tri]; exact eval_tri false false true a x
  · rw [pderiv1_tri _ l, pderiv0_tri _ _ r l]; exact eval_tri true true false a x
  · rw [pderiv2_tri, pderiv1_tri _ r]; exact eval_tri false true true a x
  · rw [pderiv2_tri, pderiv0_tri _ _ l r]; exact eval_tri true false true a x
  · rw [pderiv2_tri, pderiv1_tri _ r, pderiv0_tri _ _ r r]; exact eval_tri true true true a x

end Gals
