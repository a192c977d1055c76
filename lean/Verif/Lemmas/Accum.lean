import Verif.Lemmas.Generic
import Mathlib.Algebra.BigOperators.Fin
import Mathlib.Analysis.Calculus.FDeriv.Mul
import Mathlib.Analysis.Calculus.FDeriv.Add
import Mathlib.Analysis.Calculus.Deriv.Add
import Mathlib.Analysis.Calculus.Deriv.Mul
import Mathlib.Analysis.Calculus.Deriv.Pow
import Mathlib.Analysis.Calculus.Deriv.Comp

/-!
# The weighted sums of the Hermite kernels: bounds and derivatives
-/

set_option linter.unusedSectionVars false

namespace Gals

open Spec

section Alg
variable {K : Type} [Field K]

theorem foldl_mul_add (l : List (K × K)) (z : K) :
    l.foldl (fun acc p => acc + p.1 * p.2) z = z + l.foldl (fun acc p => acc + p.1 * p.2) 0 := by
  induction l generalizing z with
  | nil => simp
  | cons p l ih =>
    simp only [List.foldl_cons]
    rw [ih (z + _), ih (0 + _)]
    ring

@[simp] theorem accum_nil (cs : List K) : accum [] cs = 0 := rfl

@[simp] theorem accum_nil_right (ws : List K) : accum ws [] = 0 := by
  unfold accum; simp

@[simp] theorem accum_cons (w : K) (ws : List K) (c : K) (cs : List K) :
    accum (w :: ws) (c :: cs) = w * c + accum ws cs := by
  unfold accum
  simp only [List.zip_cons_cons, List.foldl_cons]
  rw [foldl_mul_add]
  ring

theorem accum_append (l l' cs : List K) : accum (l ++ l') cs = accum l cs + accum l' (cs.drop l.length) := by
  induction l generalizing cs with
  | nil => simp
  | cons a l ih =>
    cases cs with
    | nil => simp
    | cons c cs => simp [ih, add_assoc]

theorem accum_map_mul (a : K) (l cs : List K) : accum (l.map fun b => a * b) cs = a * accum l cs := by
  induction l generalizing cs with
  | nil => simp
  | cons b l ih =>
    cases cs with
    | nil => simp
    | cons c cs => simp [ih]; ring

/-- Four weights. -/
def four (b : Fin 4 → K) : List K := [b 0, b 1, b 2, b 3]

theorem accum_four (b : Fin 4 → K) (cs : List K) : accum (four b) cs = ∑ i : Fin 4, b i * cs.getD i 0 := by
  rw [Fin.sum_univ_four]
  unfold four
  match cs with
  | [] => simp
  | [c0] => simp
  | [c0, c1] => simp
  | [c0, c1, c2] => simp; ring
  | c0 :: c1 :: c2 :: c3 :: cs => simp; ring

theorem accum_flat (b : Fin 4 → K) (l cs : List K) :
    accum ((four b).flatMap fun a => l.map fun c => a * c) cs
      = ∑ i : Fin 4, b i * accum l (cs.drop (i * l.length)) := by
  rw [Fin.sum_univ_four]
  simp only [four, List.flatMap_cons, List.flatMap_nil, List.append_nil, accum_append, accum_map_mul, List.drop_drop,
    List.length_map]
  simp
  ring_nf

theorem weights3_eq (bx by' bz : List K) :
    weights3 bx by' bz = bx.flatMap fun a => (weights2 by' bz).map fun c => a * c := by
  unfold weights3 weights2
  simp only [List.map_flatMap, List.map_map, Function.comp_def, mul_assoc]

/-- The 16-term sum. -/
theorem accum_w2 (bx by' : Fin 4 → K) (cs : List K) :
    accum (weights2 (four bx) (four by')) cs
      = ∑ i : Fin 4, bx i * ∑ j : Fin 4, by' j * (cs.drop (i * 4)).getD j 0 := by
  unfold weights2
  rw [accum_flat]
  simp only [accum_four]
  rfl

/-- The 64-term sum. -/
theorem accum_w3 (bx by' bz : Fin 4 → K) (cs : List K) :
    accum (weights3 (four bx) (four by') (four bz)) cs
      = ∑ i : Fin 4, bx i * ∑ j : Fin 4, by' j * ∑ k : Fin 4, bz k * ((cs.drop (i * 16)).drop (j * 4)).getD k 0 := by
  rw [weights3_eq, accum_flat]
  simp only [accum_w2]
  rfl

/-- The basis functions by number. -/
def Bf (η : K) : Fin 4 → K | 0 => B0 η | 1 => B1 η | 2 => B2 η | 3 => B3 η
/-- Their coded derivatives by number. -/
def Bf' (η : K) : Fin 4 → K | 0 => B0' η | 1 => B1' η | 2 => B2' η | 3 => B3' η

theorem basis_four (η : K) : basis η = four (Bf η) := rfl
theorem basis'_four (η : K) : basis' η = four (Bf' η) := rfl

end Alg

section Order
variable {K : Type} [Field K] [LinearOrder K] [IsStrictOrderedRing K]

theorem accum_bounds {ws cs : List K} (h0 : ∀ w ∈ ws, 0 ≤ w) (hl : ws.length = cs.length) {m M : K}
    (hc : ∀ c ∈ cs, m ≤ c ∧ c ≤ M) : m * ws.sum ≤ accum ws cs ∧ accum ws cs ≤ M * ws.sum := by
  induction ws generalizing cs with
  | nil => simp
  | cons w ws ih =>
    cases cs with
    | nil => simp at hl
    | cons c cs =>
      have hw := h0 w (by simp)
      have hc0 := hc c (by simp)
      obtain ⟨i1, i2⟩ := ih (cs := cs) (fun w hw => h0 w (by simp [hw])) (by simpa using hl)
        (fun c' h' => hc c' (by simp [h']))
      simp only [accum_cons, List.sum_cons]
      constructor <;> nlinarith

theorem Bf_nonneg {η : K} (h0 : 0 ≤ η) (h1 : η ≤ 1) : ∀ w ∈ basis η, 0 ≤ w := by
  have h2 : 0 ≤ 1 - η := sub_nonneg.2 h1
  intro w hw
  simp only [basis, List.mem_cons, List.not_mem_nil, or_false] at hw
  rcases hw with rfl | rfl | rfl | rfl
  · unfold B0 cube; positivity
  · unfold B1 sqr; positivity
  · unfold B2 sqr; positivity
  · unfold B3 cube; positivity

theorem basis_sum {K : Type} [Field K] (η : K) : (basis η).sum = 1 := by
  simp only [basis, List.sum_cons, List.sum_nil, B0, B1, B2, B3, cube, sqr]; ring

theorem sum_map_mul {K : Type} [Field K] (a : K) (l : List K) : (l.map fun b => a * b).sum = a * l.sum := by
  induction l with
  | nil => simp
  | cons b l ih => simp [ih]; ring

theorem sum_flat {K : Type} [Field K] (l l' : List K) :
    (l.flatMap fun a => l'.map fun b => a * b).sum = l.sum * l'.sum := by
  induction l with
  | nil => simp
  | cons a l ih => simp [ih, sum_map_mul]; ring

theorem weights2_sum {K : Type} [Field K] (l l' : List K) : (weights2 l l').sum = l.sum * l'.sum := sum_flat l l'

theorem weights3_sum {K : Type} [Field K] (l l' l'' : List K) :
    (weights3 l l' l'').sum = l.sum * (l'.sum * l''.sum) := by
  rw [weights3_eq, sum_flat, weights2_sum]

theorem weights2_nonneg {l l' : List K} (h : ∀ w ∈ l, 0 ≤ w) (h' : ∀ w ∈ l', 0 ≤ w) : ∀ w ∈ weights2 l l', 0 ≤ w := by
  intro w hw
  simp only [weights2, List.mem_flatMap, List.mem_map] at hw
  obtain ⟨a, ha, b, hb, rfl⟩ := hw
  exact mul_nonneg (h a ha) (h' b hb)

theorem weights3_nonneg {l l' l'' : List K} (h : ∀ w ∈ l, 0 ≤ w) (h' : ∀ w ∈ l', 0 ≤ w) (h'' : ∀ w ∈ l'', 0 ≤ w) :
    ∀ w ∈ weights3 l l' l'', 0 ≤ w := by
  intro w hw
  simp only [weights3, List.mem_flatMap, List.mem_map] at hw
  obtain ⟨a, ha, b, hb, c, hc, rfl⟩ := hw
  exact mul_nonneg (mul_nonneg (h a ha) (h' b hb)) (h'' c hc)

theorem kernel1_bounds {dx inv eta : K} {n0 n1 : Node1 K} {lim : Bool} (h0 : 0 ≤ eta) (h1 : eta ≤ 1) {m M : K}
    (hc : let p := getControlPoints n0.phi n0.psi.x n1.phi n1.psi.x dx lim
      ∀ c ∈ [p.c30, p.c21, p.c12, p.c03], m ≤ c ∧ c ≤ M) :
    m ≤ (kernel1 dx inv eta n0 n1 lim).phi ∧ (kernel1 dx inv eta n0 n1 lim).phi ≤ M := by
  obtain ⟨a, b⟩ := accum_bounds (Bf_nonneg h0 h1) (by simp [basis]) hc
  rw [basis_sum] at a b
  have : (kernel1 dx inv eta n0 n1 lim).phi = accum (basis eta) (let p := getControlPoints n0.phi n0.psi.x n1.phi n1.psi.x dx lim
      [p.c30, p.c21, p.c12, p.c03]) := by
    simp only [kernel1, basis, accum_cons, accum_nil]; ring
  rw [this]
  constructor <;> linarith

theorem kernel2_bounds {dx inv eta : Vec3 K} {n00 n10 n01 n11 : Node2 K} {lim : Bool}
    (h0 : 0 ≤ eta.x) (h1 : eta.x ≤ 1) (h2 : 0 ≤ eta.y) (h3 : eta.y ≤ 1) {m M : K}
    (hc : ∀ c ∈ controls2 dx n00 n10 n01 n11 lim, m ≤ c ∧ c ≤ M) :
    m ≤ (kernel2 dx inv eta n00 n10 n01 n11 lim).phi ∧ (kernel2 dx inv eta n00 n10 n01 n11 lim).phi ≤ M := by
  obtain ⟨a, b⟩ := accum_bounds (weights2_nonneg (Bf_nonneg h0 h1) (Bf_nonneg h2 h3)) (by rfl) hc
  rw [weights2_sum, basis_sum, basis_sum] at a b
  simp only [kernel2]
  constructor <;> linarith

theorem kernel3_bounds {dx inv eta : Vec3 K} {n0 n1 n2 n3 n4 n5 n6 n7 : Node3 K} {lim : Bool}
    (h0 : 0 ≤ eta.x) (h1 : eta.x ≤ 1) (h2 : 0 ≤ eta.y) (h3 : eta.y ≤ 1) (h4 : 0 ≤ eta.z) (h5 : eta.z ≤ 1) {m M : K}
    (hc : ∀ c ∈ controls3 dx n0 n1 n2 n3 n4 n5 n6 n7 lim, m ≤ c ∧ c ≤ M) :
    m ≤ (kernel3 dx inv eta n0 n1 n2 n3 n4 n5 n6 n7 lim).phi ∧
      (kernel3 dx inv eta n0 n1 n2 n3 n4 n5 n6 n7 lim).phi ≤ M := by
  obtain ⟨a, b⟩ := accum_bounds (weights3_nonneg (Bf_nonneg h0 h1) (Bf_nonneg h2 h3) (Bf_nonneg h4 h5)) (by rfl) hc
  rw [weights3_sum, basis_sum, basis_sum, basis_sum] at a b
  simp only [kernel3]
  constructor <;> linarith

end Order

section Deriv

theorem hasDerivAt_Bf (η : ℝ) (i : Fin 4) : HasDerivAt (fun t => Bf t i) (Bf' η i) η := by
  have hid : HasDerivAt (fun t : ℝ => t) 1 η := hasDerivAt_id η
  have h1 : HasDerivAt (fun t : ℝ => 1 - t) (-1) η := by
    have := HasDerivAt.sub (hasDerivAt_const η (1 : ℝ)) hid
    exact this.congr_deriv (by ring)
  have s1 : HasDerivAt (fun t : ℝ => (1 - t) * (1 - t)) _ η := h1.mul h1
  have s : HasDerivAt (fun t : ℝ => t * t) _ η := hid.mul hid
  match i with
  | 0 =>
    have := s1.mul h1
    refine this.congr_deriv ?_
    simp only [Bf', B0', sqr]; ring
  | 1 =>
    have := (hid.const_mul 3).mul s1
    refine this.congr_deriv ?_
    simp only [Bf', B1']; ring
  | 2 =>
    have := (s.const_mul 3).mul h1
    refine this.congr_deriv ?_
    simp only [Bf', B2']; ring
  | 3 =>
    have := s.mul hid
    refine this.congr_deriv ?_
    simp only [Bf', B3', sqr]; ring

variable {E : Type} [NormedAddCommGroup E] [NormedSpace ℝ E]

theorem hasFDerivAt_dot {η : E → ℝ} {L : E →L[ℝ] ℝ} {e : E} (hη : HasFDerivAt η L e) {v : Fin 4 → E → ℝ}
    {V : Fin 4 → E →L[ℝ] ℝ} (hv : ∀ i, HasFDerivAt (v i) (V i) e) :
    HasFDerivAt (fun e => ∑ i : Fin 4, Bf (η e) i * v i e)
      ((∑ i : Fin 4, Bf' (η e) i * v i e) • L + ∑ i : Fin 4, Bf (η e) i • V i) e := by
  have : ∀ i ∈ (Finset.univ : Finset (Fin 4)), HasFDerivAt (fun e => Bf (η e) i * v i e)
      (Bf (η e) i • V i + v i e • (Bf' (η e) i • L)) e := by
    intro i _
    exact ((hasDerivAt_Bf (η e) i).comp_hasFDerivAt e hη).mul (hv i)
  have key := HasFDerivAt.fun_sum this
  refine key.congr_fderiv ?_
  ext w
  simp only [add_apply, smul_apply, smul_eq_mul, Fin.sum_univ_four]
  ring

theorem hasFDerivAt_accum1 {η : E → ℝ} {L : E →L[ℝ] ℝ} {e : E} (hη : HasFDerivAt η L e) (cs : List ℝ) :
    HasFDerivAt (fun e => accum (basis (η e)) cs) (accum (basis' (η e)) cs • L) e := by
  simp only [basis_four, basis'_four, accum_four]
  refine (hasFDerivAt_dot hη (v := fun i _ => cs.getD i 0) (V := fun _ => 0)
    fun i => hasFDerivAt_const _ _).congr_fderiv ?_
  simp

theorem hasFDerivAt_accum2 {ηx ηy : E → ℝ} {Lx Ly : E →L[ℝ] ℝ} {e : E} (hx : HasFDerivAt ηx Lx e)
    (hy : HasFDerivAt ηy Ly e) (cs : List ℝ) :
    HasFDerivAt (fun e => accum (weights2 (basis (ηx e)) (basis (ηy e))) cs)
      (accum (weights2 (basis' (ηx e)) (basis (ηy e))) cs • Lx + accum (weights2 (basis (ηx e)) (basis' (ηy e))) cs • Ly)
      e := by
  simp only [basis_four, basis'_four, accum_w2]
  have h1 : ∀ i : Fin 4, HasFDerivAt (fun e => ∑ j : Fin 4, Bf (ηy e) j * (cs.drop (i * 4)).getD j 0)
      ((∑ j : Fin 4, Bf' (ηy e) j * (cs.drop (i * 4)).getD j 0) • Ly) e := by
    intro i
    have := hasFDerivAt_accum1 hy (cs.drop (i * 4))
    simpa only [basis_four, basis'_four, accum_four] using this
  refine (hasFDerivAt_dot hx h1).congr_fderiv ?_
  congr 1
  rw [Finset.sum_smul]
  exact Finset.sum_congr rfl fun i _ => (smul_smul _ _ _)

theorem hasFDerivAt_accum3 {ηx ηy ηz : E → ℝ} {Lx Ly Lz : E →L[ℝ] ℝ} {e : E} (hx : HasFDerivAt ηx Lx e)
    (hy : HasFDerivAt ηy Ly e) (hz : HasFDerivAt ηz Lz e) (cs : List ℝ) :
    HasFDerivAt (fun e => accum (weights3 (basis (ηx e)) (basis (ηy e)) (basis (ηz e))) cs)
      (accum (weights3 (basis' (ηx e)) (basis (ηy e)) (basis (ηz e))) cs • Lx +
        accum (weights3 (basis (ηx e)) (basis' (ηy e)) (basis (ηz e))) cs • Ly +
        accum (weights3 (basis (ηx e)) (basis (ηy e)) (basis' (ηz e))) cs • Lz) e := by
  simp only [weights3_eq, basis_four (ηx _), basis'_four (ηx _), accum_flat]
  have hl : ∀ l l' : Fin 4 → ℝ, (weights2 (four l) (four l')).length = 16 := fun _ _ => rfl
  simp only [basis_four (ηy _), basis_four (ηz _), basis'_four, hl]
  have h1 : ∀ i : Fin 4, HasFDerivAt (fun e => accum (weights2 (four (Bf (ηy e))) (four (Bf (ηz e)))) (cs.drop (i * 16)))
      (accum (weights2 (four (Bf' (ηy e))) (four (Bf (ηz e)))) (cs.drop (i * 16)) • Ly +
       accum (weights2 (four (Bf (ηy e))) (four (Bf' (ηz e)))) (cs.drop (i * 16)) • Lz) e :=
    fun i => hasFDerivAt_accum2 hy hz _
  refine (hasFDerivAt_dot hx h1).congr_fderiv ?_
  rw [add_assoc]
  congr 1
  simp only [Finset.sum_smul, ← Finset.sum_add_distrib, smul_add, smul_smul]

end Deriv

end Gals
