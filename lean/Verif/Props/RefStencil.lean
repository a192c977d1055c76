import Verif.Props.RefMixed
import Mathlib.Algebra.MvPolynomial.PDeriv
import Mathlib.Algebra.MvPolynomial.Degrees
import Mathlib.Data.Finsupp.BigOperators
import Mathlib.Tactic.FieldSimp

/-!
# C51: consistency of the mixed-derivative stencils
-/

set_option linter.unusedSectionVars false
set_option linter.unusedSimpArgs false

namespace Gals.Props

open Gals Gals.Ref MvPolynomial

variable {K : Type} [Field K] [CharZero K]

/-- Position of the node in row `i`, column `j` of a uniform grid. -/
def nodePos (x0 y0 dx dy : K) (i j : ℕ) : Fin 2 → K := ![x0 + j * dx, y0 + i * dy]

/-- The stencil applied to the gradient of `F` at the nodes gives the mixed derivative of `F` at node `(i, j)`. -/
def StencilExact (x0 y0 dx dy : K) (nx ny i j : ℕ) (F : MvPolynomial (Fin 2) K) : Prop :=
  Spec.mixedStencil (fun i j => eval (nodePos x0 y0 dx dy i j) (pderiv 0 F))
    (fun i j => eval (nodePos x0 y0 dx dy i j) (pderiv 1 F)) nx ny dx dy i j =
  eval (nodePos x0 y0 dx dy i j) (pderiv 0 (pderiv 1 F))

theorem stencilExact_zero (x0 y0 dx dy : K) (nx ny i j : ℕ) : StencilExact x0 y0 dx dy nx ny i j 0 := by
  simp [StencilExact, Spec.mixedStencil, Spec.dX, Spec.dY, Spec.eX, Spec.eY]

theorem mixedStencil_add (px py qx qy : ℕ → ℕ → K) (nx ny : ℕ) (dx dy : K) (i j : ℕ) :
    Spec.mixedStencil (fun i j => px i j + qx i j) (fun i j => py i j + qy i j) nx ny dx dy i j =
    Spec.mixedStencil px py nx ny dx dy i j + Spec.mixedStencil qx qy nx ny dx dy i j := by
  simp only [Spec.mixedStencil, Spec.dX, Spec.dY, Spec.eX, Spec.eY]
  split_ifs <;> ring

theorem stencilExact_add {x0 y0 dx dy : K} {nx ny i j : ℕ} {F G : MvPolynomial (Fin 2) K}
    (hF : StencilExact x0 y0 dx dy nx ny i j F) (hG : StencilExact x0 y0 dx dy nx ny i j G) :
    StencilExact x0 y0 dx dy nx ny i j (F + G) := by
  unfold StencilExact at *
  simp only [map_add]
  rw [mixedStencil_add, hF, hG]

/-- It suffices to check the monomials that occur. -/
theorem stencilExact_of_monomials {x0 y0 dx dy : K} {nx ny i j : ℕ} {F : MvPolynomial (Fin 2) K}
    (h : ∀ s ∈ F.support, ∀ c, StencilExact x0 y0 dx dy nx ny i j (monomial s c)) :
    StencilExact x0 y0 dx dy nx ny i j F := by
  rw [F.as_sum]
  exact Finset.sum_induction _ (StencilExact x0 y0 dx dy nx ny i j) (fun _ _ => stencilExact_add)
    (stencilExact_zero ..) fun s hs => h s hs _

theorem eval_monomial2 (p : Fin 2 → K) (s : Fin 2 →₀ ℕ) (c : K) : eval p (monomial s c) = c * (p 0 ^ s 0 * p 1 ^ s 1) := by
  rw [eval_monomial, Finsupp.prod_fintype _ _ (by simp), Fin.prod_univ_two]

/-- Derivatives of a monomial at a node. -/
theorem eval_mono_x (x0 y0 dx dy : K) (s : Fin 2 →₀ ℕ) (c : K) (i j : ℕ) :
    eval (nodePos x0 y0 dx dy i j) (pderiv 0 (monomial s c)) =
      c * s 0 * ((x0 + j * dx) ^ (s 0 - 1) * (y0 + i * dy) ^ s 1) := by
  rw [pderiv_monomial, eval_monomial2]
  simp [nodePos]

theorem eval_mono_y (x0 y0 dx dy : K) (s : Fin 2 →₀ ℕ) (c : K) (i j : ℕ) :
    eval (nodePos x0 y0 dx dy i j) (pderiv 1 (monomial s c)) =
      c * s 1 * ((x0 + j * dx) ^ s 0 * (y0 + i * dy) ^ (s 1 - 1)) := by
  rw [pderiv_monomial, eval_monomial2]
  simp [nodePos]

theorem eval_mono_xy (x0 y0 dx dy : K) (s : Fin 2 →₀ ℕ) (c : K) (i j : ℕ) :
    eval (nodePos x0 y0 dx dy i j) (pderiv 0 (pderiv 1 (monomial s c))) =
      c * s 0 * s 1 * ((x0 + j * dx) ^ (s 0 - 1) * (y0 + i * dy) ^ (s 1 - 1)) := by
  rw [pderiv_monomial, pderiv_monomial, eval_monomial2]
  simp [nodePos]
  exact Or.inl (by ring)

/-- Central differences of a quadratic. -/
theorem central {x0 dx : K} (hdx : dx ≠ 0) {a j : ℕ} (ha : a ≤ 2) (hj : 0 < j) :
    ((x0 + (j + 1 : ℕ) * dx) ^ a - (x0 + (j - 1 : ℕ) * dx) ^ a) / (2 * dx) = a * (x0 + j * dx) ^ (a - 1) := by
  obtain ⟨k, rfl⟩ : ∃ k, j = k + 1 := ⟨j - 1, by omega⟩
  rw [div_eq_iff (mul_ne_zero two_ne_zero hdx)]
  push_cast
  interval_cases a <;> simp <;> ring

theorem dX_mono {x0 y0 dx dy : K} (hdx : dx ≠ 0) {s : Fin 2 →₀ ℕ} (hs : s 1 = 0 ∨ s 0 ≤ 2) (c : K) {i j : ℕ} (hj : 0 < j) :
    Spec.dX (fun i j => eval (nodePos x0 y0 dx dy i j) (pderiv 1 (monomial s c))) dx i j =
      eval (nodePos x0 y0 dx dy i j) (pderiv 0 (pderiv 1 (monomial s c))) := by
  simp only [Spec.dX, eval_mono_y, eval_mono_xy]
  rcases hs with hs | hs
  · simp [hs]
  · have h := central (x0 := x0) hdx hs hj
    linear_combination (c * s 1 * (y0 + i * dy) ^ (s 1 - 1)) * h

theorem dY_mono {x0 y0 dx dy : K} (hdy : dy ≠ 0) {s : Fin 2 →₀ ℕ} (hs : s 0 = 0 ∨ s 1 ≤ 2) (c : K) {i j : ℕ} (hi : 0 < i) :
    Spec.dY (fun i j => eval (nodePos x0 y0 dx dy i j) (pderiv 0 (monomial s c))) dy i j =
      eval (nodePos x0 y0 dx dy i j) (pderiv 0 (pderiv 1 (monomial s c))) := by
  simp only [Spec.dY, eval_mono_x, eval_mono_xy]
  rcases hs with hs | hs
  · simp [hs]
  · have h := central (x0 := y0) hdy hs hi
    linear_combination (c * s 0 * (x0 + j * dx) ^ (s 0 - 1)) * h

/-- C51, interior nodes: exact for every polynomial whose monomials `x^a y^b` with `a, b ≥ 1` have `a ≤ 2` and `b ≤ 2`. -/
theorem C51_interior {x0 y0 dx dy : K} (hdx : dx ≠ 0) (hdy : dy ≠ 0) {nx ny i j : ℕ} (hi : 0 < i ∧ i + 1 < ny)
    (hj : 0 < j ∧ j + 1 < nx) {F : MvPolynomial (Fin 2) K}
    (hF : ∀ s ∈ F.support, (s 1 = 0 ∨ s 0 ≤ 2) ∧ (s 0 = 0 ∨ s 1 ≤ 2)) : StencilExact x0 y0 dx dy nx ny i j F := by
  refine stencilExact_of_monomials fun s hs c => ?_
  unfold StencilExact Spec.mixedStencil
  simp only []
  rw [if_pos ⟨hj, hi⟩, dX_mono hdx (hF s hs).1 c hj.1, dY_mono hdy (hF s hs).2 c hi.1]
  ring

/-- C51, first and last row without the corners: exact for every polynomial whose monomials `x^a y^b` with `b ≥ 1` have
`a ≤ 2`; the degree in `y` does not matter. -/
theorem C51_row {x0 y0 dx dy : K} (hdx : dx ≠ 0) {nx ny i j : ℕ} (hi : i = 0 ∨ i + 1 = ny) (hj : 0 < j ∧ j + 1 < nx)
    {F : MvPolynomial (Fin 2) K} (hF : ∀ s ∈ F.support, s 1 = 0 ∨ s 0 ≤ 2) : StencilExact x0 y0 dx dy nx ny i j F := by
  refine stencilExact_of_monomials fun s hs c => ?_
  unfold StencilExact Spec.mixedStencil
  simp only []
  rw [if_neg (by omega), if_pos hj, dX_mono hdx (hF s hs) c hj.1]

/-- C51, first and last column without the corners: exact for every polynomial whose monomials `x^a y^b` with `a ≥ 1` have
`b ≤ 2`; the degree in `x` does not matter. -/
theorem C51_column {x0 y0 dx dy : K} (hdy : dy ≠ 0) {nx ny i j : ℕ} (hi : 0 < i ∧ i + 1 < ny) (hj : j = 0 ∨ j + 1 = nx)
    {F : MvPolynomial (Fin 2) K} (hF : ∀ s ∈ F.support, s 0 = 0 ∨ s 1 ≤ 2) : StencilExact x0 y0 dx dy nx ny i j F := by
  refine stencilExact_of_monomials fun s hs c => ?_
  unfold StencilExact Spec.mixedStencil
  simp only []
  rw [if_neg (by omega), if_neg (by omega), if_pos hi, dY_mono hdy (hF s hs) c hi.1]

/-- One-sided differences at the corner `(X + σ dx, Y + τ dy)` of the cell at `(X, Y)`. -/
theorem corner_mono {X Y dx dy : K} (hdx : dx ≠ 0) (hdy : dy ≠ 0) {a b : ℕ} (hab : a + b ≤ 3) {σ τ : K}
    (hσ : σ = 0 ∨ σ = 1) (hτ : τ = 0 ∨ τ = 1) :
    3 / 4 * ((b * ((X + dx) ^ a * (Y + τ * dy) ^ (b - 1)) - b * (X ^ a * (Y + τ * dy) ^ (b - 1))) / dx +
        (a * ((X + σ * dx) ^ (a - 1) * (Y + dy) ^ b) - a * ((X + σ * dx) ^ (a - 1) * Y ^ b)) / dy) -
      1 / 4 * ((b * ((X + dx) ^ a * (Y + (1 - τ) * dy) ^ (b - 1)) - b * (X ^ a * (Y + (1 - τ) * dy) ^ (b - 1))) / dx +
        (a * ((X + (1 - σ) * dx) ^ (a - 1) * (Y + dy) ^ b) - a * ((X + (1 - σ) * dx) ^ (a - 1) * Y ^ b)) / dy) =
      a * b * ((X + σ * dx) ^ (a - 1) * (Y + τ * dy) ^ (b - 1)) := by
  have ha : a ≤ 3 := by omega
  have hb : b ≤ 3 := by omega
  rcases hσ with rfl | rfl <;> rcases hτ with rfl | rfl <;> interval_cases a <;> interval_cases b <;>
    first | omega | (field_simp; push_cast; ring)

/-- C51, corners: exact for every polynomial of total degree at most 3. -/
theorem C51_corner {x0 y0 dx dy : K} (hdx : dx ≠ 0) (hdy : dy ≠ 0) {nx ny i j : ℕ} (nx2 : 2 ≤ nx) (ny2 : 2 ≤ ny)
    (hi : i = 0 ∨ i + 1 = ny) (hj : j = 0 ∨ j + 1 = nx) {F : MvPolynomial (Fin 2) K}
    (hF : ∀ s ∈ F.support, s 0 + s 1 ≤ 3) : StencilExact x0 y0 dx dy nx ny i j F := by
  refine stencilExact_of_monomials fun s hs c => ?_
  unfold StencilExact
  simp only [eval_mono_x, eval_mono_y, eval_mono_xy]
  obtain ⟨n, rfl⟩ : ∃ n, nx = n + 2 := ⟨nx - 2, by omega⟩
  obtain ⟨k, rfl⟩ : ∃ k, ny = k + 2 := ⟨ny - 2, by omega⟩
  unfold Spec.mixedStencil
  simp only [Spec.eX, Spec.eY, Nat.add_sub_cancel]
  rw [if_neg (by omega), if_neg (by omega), if_neg (by omega)]
  rcases hi with rfl | hi <;> rcases hj with rfl | hj
  · have h := corner_mono (X := x0) (Y := y0) hdx hdy (hF s hs) (σ := 0) (τ := 0) (.inl rfl) (.inl rfl)
    simp only [if_true]
    push_cast
    simp only [zero_mul, one_mul, zero_add, add_zero, sub_zero] at h ⊢
    linear_combination c * h
  · obtain rfl : j = n + 1 := by omega
    have h := corner_mono (X := x0 + n * dx) (Y := y0) hdx hdy (hF s hs) (σ := 1) (τ := 0) (.inr rfl) (.inl rfl)
    simp only [if_true, Nat.add_one_ne_zero, if_false]
    push_cast
    rw [show x0 + n * dx + dx = x0 + (n + 1) * dx by ring, show x0 + n * dx + 1 * dx = x0 + (n + 1) * dx by ring] at h
    simp only [zero_mul, one_mul, zero_add, add_zero, sub_zero, sub_self] at h ⊢
    linear_combination c * h
  · obtain rfl : i = k + 1 := by omega
    have h := corner_mono (X := x0) (Y := y0 + k * dy) hdx hdy (hF s hs) (σ := 0) (τ := 1) (.inl rfl) (.inr rfl)
    simp only [if_true, Nat.add_one_ne_zero, if_false]
    push_cast
    rw [show y0 + k * dy + dy = y0 + (k + 1) * dy by ring, show y0 + k * dy + 1 * dy = y0 + (k + 1) * dy by ring] at h
    simp only [zero_mul, one_mul, zero_add, add_zero, sub_zero, sub_self] at h ⊢
    linear_combination c * h
  · obtain rfl : j = n + 1 := by omega
    obtain rfl : i = k + 1 := by omega
    have h := corner_mono (X := x0 + n * dx) (Y := y0 + k * dy) hdx hdy (hF s hs) (σ := 1) (τ := 1) (.inr rfl) (.inr rfl)
    simp only [Nat.add_one_ne_zero, if_false]
    push_cast
    rw [show x0 + n * dx + dx = x0 + (n + 1) * dx by ring, show x0 + n * dx + 1 * dx = x0 + (n + 1) * dx by ring,
      show y0 + k * dy + dy = y0 + (k + 1) * dy by ring, show y0 + k * dy + 1 * dy = y0 + (k + 1) * dy by ring] at h
    simp only [zero_mul, one_mul, zero_add, add_zero, sub_zero, sub_self] at h ⊢
    linear_combination c * h

theorem support_degree {F : MvPolynomial (Fin 2) K} {d : ℕ} (hF : F.totalDegree ≤ d) {s : Fin 2 →₀ ℕ} (hs : s ∈ F.support) :
    s 0 + s 1 ≤ d := by
  have := (le_totalDegree hs).trans hF
  rwa [Finsupp.sum_fintype _ _ (by simp), Fin.sum_univ_two] at this

/-- C51 for the CPU code: on every grid of at least 2 x 2 nodes, whatever the spacings and the position, when the gradient
arrays hold the gradient of a polynomial of total degree at most 3 the loop stores its exact mixed derivative at every node
(so the error on smooth data is of second order in the spacings). -/
theorem C51_cubic {m : Mem (Val K)} {nx ny : ℕ} {x0 y0 dx dy : K} (hdx : dx ≠ 0) (hdy : dy ≠ 0)
    {F : MvPolynomial (Fin 2) K} (hF : F.totalDegree ≤ 3)
    (h : CpuMix m nx ny (fun i j => eval (nodePos x0 y0 dx dy i j) (pderiv 0 F))
      (fun i j => eval (nodePos x0 y0 dx dy i j) (pderiv 1 F))) :
    ∃ mf, runAll (mixed nx ny dx dy 0 nx) m = .ok mf ∧ ∀ i < ny, ∀ j < nx,
      mf (.d .temppsixy i j) = .val (eval (nodePos x0 y0 dx dy i j) (pderiv 0 (pderiv 1 F))) := by
  obtain ⟨mf, e, h1, -⟩ := mixed_sequential h dx dy
  refine ⟨mf, e, fun i hi j hj => ?_⟩
  rw [h1 i hi j hj]
  refine congrArg Slot.val ?_
  have hs : ∀ s ∈ F.support, s 0 + s 1 ≤ 3 := fun s hs => support_degree hF hs
  by_cases ci : 0 < i ∧ i + 1 < ny <;> by_cases cj : 0 < j ∧ j + 1 < nx
  · exact C51_interior hdx hdy ci cj fun s h => by have := hs s h; omega
  · exact C51_column hdy ci (by omega) fun s h => by have := hs s h; omega
  · exact C51_row hdx (by omega) cj fun s h => by have := hs s h; omega
  · exact C51_corner hdx hdy h.nx2 h.ny2 (by omega) (by omega) hs

/-- The same code computes at each kind of node the exact derivative for the larger classes of `C51_interior`, `C51_row` and
`C51_column`: stated for the stored value. -/
theorem C51_stored {m : Mem (Val K)} {nx ny : ℕ} {x0 y0 dx dy : K} {F : MvPolynomial (Fin 2) K}
    (h : CpuMix m nx ny (fun i j => eval (nodePos x0 y0 dx dy i j) (pderiv 0 F))
      (fun i j => eval (nodePos x0 y0 dx dy i j) (pderiv 1 F))) :
    ∃ mf, runAll (mixed nx ny dx dy 0 nx) m = .ok mf ∧ ∀ i < ny, ∀ j < nx, StencilExact x0 y0 dx dy nx ny i j F ↔
      mf (.d .temppsixy i j) = .val (eval (nodePos x0 y0 dx dy i j) (pderiv 0 (pderiv 1 F))) := by
  obtain ⟨mf, e, h1, -⟩ := mixed_sequential h dx dy
  exact ⟨mf, e, fun i hi j hj => by rw [h1 i hi j hj, slot_val_inj]; rfl⟩

/-- The degree is the best possible: for `x² y²` every corner is wrong, for `x³ y` every interior node is wrong, for every
spacing and position. -/
theorem C51_sharp {x0 y0 dx dy : K} (hdx : dx ≠ 0) (hdy : dy ≠ 0) {nx ny : ℕ} :
    ¬ StencilExact x0 y0 dx dy nx ny 0 0 (X 0 ^ 2 * X 1 ^ 2) ∧
    ∀ i j, 0 < i ∧ i + 1 < ny → 0 < j ∧ j + 1 < nx → ¬ StencilExact x0 y0 dx dy nx ny i j (X 0 ^ 3 * X 1) := by
  constructor
  · intro h
    unfold StencilExact Spec.mixedStencil at h
    have p2 : pderiv (0 : Fin 2) (2 : MvPolynomial (Fin 2) K) = 0 := by
      rw [show (2 : MvPolynomial (Fin 2) K) = C 2 from rfl, pderiv_C]
    simp [Spec.eX, Spec.eY, nodePos, pderiv_X, p2] at h
    field_simp at h
    have : dx * dy * (dx * dy) = 0 := by linear_combination (-1 / 2 : K) * h
    simp [hdx, hdy] at this
  · intro i j hi hj h
    obtain ⟨k, rfl⟩ : ∃ k, j = k + 1 := ⟨j - 1, by omega⟩
    obtain ⟨l, rfl⟩ : ∃ l, i = l + 1 := ⟨i - 1, by omega⟩
    unfold StencilExact Spec.mixedStencil at h
    simp only [] at h
    rw [if_pos ⟨hj, hi⟩] at h
    simp [Spec.dX, Spec.dY, nodePos, pderiv_X] at h
    field_simp at h
    have : dx * dx * dx * dy = 0 := by linear_combination (1 / 2 : K) * h
    simp [hdx, hdy] at this

/-! ### Examples -/

/-- 4 x 3 nodes at spacings 1/2 and 1/3 from the origin with the gradient of `x² y + 5 y³`. -/
def demoCubic : Mem (Val ℚ)
  | .d .temppsix i j => if i < 3 ∧ j < 4 then .val (2 * (j * (1 / 2)) * (i * (1 / 3))) else .oob
  | .d .temppsiy i j => if i < 3 ∧ j < 4 then .val ((j * (1 / 2)) ^ 2 + 15 * (i * (1 / 3)) ^ 2) else .oob
  | .d .temppsixy i j => if i < 3 ∧ j < 4 then .val 0 else .oob
  | .d _ 0 0 => .uninit
  | _ => .oob

/-- The hypotheses of `C51_cubic` hold and the conclusion is not trivial: at the corner (2, 3) the mixed derivative 3 is
stored. -/
example : ∃ mf, runAll (mixed 4 3 (1 / 2 : ℚ) (1 / 3) 0 4) demoCubic = .ok mf ∧ mf (.d .temppsixy 2 3) = .val (3 : ℚ) := by
  have p3 : pderiv (0 : Fin 2) (3 : MvPolynomial (Fin 2) ℚ) = 0 := by
    rw [show (3 : MvPolynomial (Fin 2) ℚ) = C 3 from rfl, pderiv_C]
  obtain ⟨mf, e, h⟩ := C51_cubic (m := demoCubic) (nx := 4) (ny := 3) (x0 := (0 : ℚ)) (y0 := 0) (dx := 1 / 2) (dy := 1 / 3)
    (by norm_num) (by norm_num) (F := X 0 ^ 2 * X 1 + C 5 * X 1 ^ 3) (by
      refine (totalDegree_add _ _).trans (max_le ?_ ?_)
      · refine (totalDegree_mul _ _).trans (Nat.add_le_add (b := 2) (d := 1) ((totalDegree_pow _ _).trans ?_) ?_) <;> simp
      · exact (totalDegree_mul _ _).trans (by
          rw [totalDegree_C]
          exact (Nat.zero_add _).le.trans ((totalDegree_pow _ _).trans (by simp))))
    { x := fun i hi j hj => by
        simp only [demoCubic, hi, hj, and_self, if_true, slot_val_inj]
        simp [nodePos, pderiv_X]
        ring
      y := fun i hi j hj => by
        simp only [demoCubic, hi, hj, and_self, if_true, slot_val_inj]
        simp [nodePos, pderiv_X]
        ring
      xy := fun i hi j hj => by simp [demoCubic, hi, hj]
      temp := fun l h => by rcases h with rfl | rfl | rfl | rfl | rfl | rfl <;> simp [demoCubic]
      nx2 := by omega
      ny2 := by omega
      nxu := by decide
      nyu := by decide }
  refine ⟨mf, e, ?_⟩
  rw [h 2 (by omega) 3 (by omega), slot_val_inj]
  simp [nodePos, pderiv_X, p3]
  norm_num

/-- The hypotheses of `C51_interior` hold for `x² y²` at node (1, 1) of 3 x 3 nodes (degree 4, beyond `C51_cubic`). -/
example : StencilExact (1 : ℚ) 2 (1 / 2) (1 / 3) 3 3 1 1 (monomial (Finsupp.single 0 2 + Finsupp.single 1 2) 1) := by
  refine C51_interior (by norm_num) (by norm_num) (by omega) (by omega) fun s hs => ?_
  have := Finset.mem_singleton.1 (support_monomial_subset hs)
  subst this
  simp

/-- Likewise `C51_row` for `x² y⁷` and `C51_column` for `x⁷ y²`. -/
example : StencilExact (1 : ℚ) 2 (1 / 2) (1 / 3) 3 3 2 1 (monomial (Finsupp.single 0 2 + Finsupp.single 1 7) 1) ∧
    StencilExact (1 : ℚ) 2 (1 / 2) (1 / 3) 3 3 1 0 (monomial (Finsupp.single 0 7 + Finsupp.single 1 2) 1) := by
  constructor
  · refine C51_row (by norm_num) (by omega) (by omega) fun s hs => ?_
    have := Finset.mem_singleton.1 (support_monomial_subset hs)
    subst this
    simp
  · refine C51_column (by norm_num) (by omega) (by omega) fun s hs => ?_
    have := Finset.mem_singleton.1 (support_monomial_subset hs)
    subst this
    simp

/-- `C51_corner` for `x² y` at the corner (2, 0) of 3 x 3 nodes. -/
example : StencilExact (1 : ℚ) 2 (1 / 2) (1 / 3) 3 3 2 0 (monomial (Finsupp.single 0 2 + Finsupp.single 1 1) 1) := by
  refine C51_corner (by norm_num) (by norm_num) (by omega) (by omega) (by omega) (by omega) fun s hs => ?_
  have := Finset.mem_singleton.1 (support_monomial_subset hs)
  subst this
  simp

/-- `C51_stored` for `demoCubic`. -/
example : ∃ mf, runAll (mixed 4 3 (1 / 2 : ℚ) (1 / 3) 0 4) demoCubic = .ok mf ∧ ∀ i < 3, ∀ j < 4,
    StencilExact (0 : ℚ) 0 (1 / 2) (1 / 3) 4 3 i j (X 0 ^ 2 * X 1 + C 5 * X 1 ^ 3) ↔ mf (.d .temppsixy i j) =
      .val (eval (nodePos 0 0 (1 / 2) (1 / 3) i j) (pderiv 0 (pderiv 1 (X 0 ^ 2 * X 1 + C 5 * X 1 ^ 3 : MvPolynomial (Fin 2) ℚ)))) :=
  C51_stored (m := demoCubic)
    { x := fun i hi j hj => by
        simp only [demoCubic, hi, hj, and_self, if_true, slot_val_inj]
        simp [nodePos, pderiv_X]
        ring
      y := fun i hi j hj => by
        simp only [demoCubic, hi, hj, and_self, if_true, slot_val_inj]
        simp [nodePos, pderiv_X]
        ring
      xy := fun i hi j hj => by simp [demoCubic, hi, hj]
      temp := fun l h => by rcases h with rfl | rfl | rfl | rfl | rfl | rfl <;> simp [demoCubic]
      nx2 := by omega
      ny2 := by omega
      nxu := by decide
      nyu := by decide }

end Gals.Props
