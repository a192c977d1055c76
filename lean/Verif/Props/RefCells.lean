import Verif.Lemmas.RefUpdate
import Verif.Spec.RefOld
import Mathlib.Tactic.Linarith
import Mathlib.Tactic.NormNum

/-!
# C65: the interpolants of neighbouring cells fit together
-/

set_option linter.unusedSectionVars false

namespace Gals.Props

open Gals Gals.Ref

section edges
variable {K : Type} [Field K] (f fx fy fxy : ℕ → ℕ → K) (xs ys : ℕ → K) {dx dy : K}

theorem edge_x (hx : dx ≠ 0) {c : ℕ} (hs : xs (c + 1) = xs c + dx) (r : ℕ) (y : K) :
    Spec.cellBicubic f fx fy fxy xs ys dx dy r c (xs (c + 1)) y =
      Spec.cellBicubic f fx fy fxy xs ys dx dy r (c + 1) (xs (c + 1)) y ∧
    Spec.cellBicubicX f fx fy fxy xs ys dx dy r c (xs (c + 1)) y =
      Spec.cellBicubicX f fx fy fxy xs ys dx dy r (c + 1) (xs (c + 1)) y ∧
    Spec.cellBicubicY f fx fy fxy xs ys dx dy r c (xs (c + 1)) y =
      Spec.cellBicubicY f fx fy fxy xs ys dx dy r (c + 1) (xs (c + 1)) y := by
  have e1 : (xs (c + 1) - xs c) / dx = 1 := by rw [hs, add_sub_cancel_left, div_self hx]
  have e0 : (xs (c + 1) - xs (c + 1)) / dx = 0 := by rw [sub_self, zero_div]
  refine ⟨?_, ?_, ?_⟩
  all_goals
    simp only [Spec.cellBicubic, Spec.cellBicubicX, Spec.cellBicubicY, Spec.bicubicWith, e1, e0, Fin.sum_univ_two, Spec.hVal,
      Spec.hSlope, Spec.hVal', Spec.hSlope']
    norm_num [add_assoc]

theorem edge_y (hy : dy ≠ 0) {r : ℕ} (hs : ys (r + 1) = ys r + dy) (c : ℕ) (x : K) :
    Spec.cellBicubic f fx fy fxy xs ys dx dy r c x (ys (r + 1)) =
      Spec.cellBicubic f fx fy fxy xs ys dx dy (r + 1) c x (ys (r + 1)) ∧
    Spec.cellBicubicX f fx fy fxy xs ys dx dy r c x (ys (r + 1)) =
      Spec.cellBicubicX f fx fy fxy xs ys dx dy (r + 1) c x (ys (r + 1)) ∧
    Spec.cellBicubicY f fx fy fxy xs ys dx dy r c x (ys (r + 1)) =
      Spec.cellBicubicY f fx fy fxy xs ys dx dy (r + 1) c x (ys (r + 1)) := by
  have e1 : (ys (r + 1) - ys r) / dy = 1 := by rw [hs, add_sub_cancel_left, div_self hy]
  have e0 : (ys (r + 1) - ys (r + 1)) / dy = 0 := by rw [sub_self, zero_div]
  refine ⟨?_, ?_, ?_⟩
  all_goals
    simp only [Spec.cellBicubic, Spec.cellBicubicX, Spec.cellBicubicY, Spec.bicubicWith, e1, e0, Fin.sum_univ_two, Spec.hVal,
      Spec.hSlope, Spec.hVal', Spec.hSlope']
    norm_num [add_assoc]

end edges

variable {K : Type} [Field K] [LinearOrder K] [IsStrictOrderedRing K]

/-- `n` nodes at distance `d`. -/
def Spaced (xs : ℕ → K) (n : ℕ) (d : K) : Prop := 0 < d ∧ ∀ k, k + 1 < n → xs (k + 1) = xs k + d

theorem Spaced.lt {xs : ℕ → K} {n : ℕ} {d : K} (h : Spaced xs n d) {i j : ℕ} (hij : i < j) (hj : j < n) : xs i < xs j := by
  induction j with
  | zero => omega
  | succ j ih =>
    rw [h.2 j hj]
    rcases Nat.lt_succ_iff_lt_or_eq.1 hij with h' | rfl
    · linarith [ih h' (by omega), h.1]
    · linarith [h.1]

theorem Spaced.le {xs : ℕ → K} {n : ℕ} {d : K} (h : Spaced xs n d) {i j : ℕ} (hij : i ≤ j) (hj : j < n) : xs i ≤ xs j := by
  rcases hij.eq_or_lt with rfl | h'
  · exact le_rfl
  · exact (h.lt h' hj).le

/-- Two intervals with a common point are equal or neighbours, and then it is the common node. -/
theorem inCell_two {xs : ℕ → K} {n : ℕ} {d p : K} (h : Spaced xs n d) {c c' : ℕ} (hc : Spec.InCell xs n p c)
    (hc' : Spec.InCell xs n p c') : c = c' ∨ (c' = c + 1 ∧ p = xs (c + 1)) ∨ (c = c' + 1 ∧ p = xs (c' + 1)) := by
  obtain ⟨h1, h2, h3⟩ := hc
  obtain ⟨h1', h2', h3'⟩ := hc'
  have key : ∀ a b, a + 1 < n → b + 1 < n → p ≤ xs (a + 1) → xs b ≤ p → a < b → b = a + 1 ∧ p = xs (a + 1) := by
    intro a b ha hb hp hp' hab
    have hle : xs (a + 1) ≤ xs b := h.le (by omega) (by omega)
    have e : p = xs (a + 1) := le_antisymm hp (hle.trans hp')
    refine ⟨?_, e⟩
    by_contra hne
    exact absurd (h.lt (show a + 1 < b by omega) (by omega)) (not_lt.2 (hp'.trans hp))
  rcases lt_trichotomy c c' with hl | rfl | hl
  · exact .inr (.inl (key _ _ h1 h1' h3 h2' hl))
  · exact .inl rfl
  · exact .inr (.inr (key _ _ h1' h1 h3' h2 hl))

section same
variable (f fx fy fxy : ℕ → ℕ → K) {xs ys : ℕ → K} {nx ny : ℕ} {dx dy : K}

theorem same_x (hx : Spaced xs nx dx) {p : K} {c c' : ℕ} (hc : Spec.InCell xs nx p c) (hc' : Spec.InCell xs nx p c') (r : ℕ)
    (y : K) :
    Spec.cellBicubic f fx fy fxy xs ys dx dy r c p y = Spec.cellBicubic f fx fy fxy xs ys dx dy r c' p y ∧
    Spec.cellBicubicX f fx fy fxy xs ys dx dy r c p y = Spec.cellBicubicX f fx fy fxy xs ys dx dy r c' p y ∧
    Spec.cellBicubicY f fx fy fxy xs ys dx dy r c p y = Spec.cellBicubicY f fx fy fxy xs ys dx dy r c' p y := by
  rcases inCell_two hx hc hc' with rfl | ⟨rfl, rfl⟩ | ⟨rfl, rfl⟩
  · exact ⟨rfl, rfl, rfl⟩
  · exact edge_x f fx fy fxy xs ys hx.1.ne' (hx.2 _ hc.1) r y
  · obtain ⟨h1, h2, h3⟩ := edge_x f fx fy fxy xs ys (dx := dx) (dy := dy) hx.1.ne' (hx.2 _ hc'.1) r y
    exact ⟨h1.symm, h2.symm, h3.symm⟩

theorem same_y (hy : Spaced ys ny dy) {q : K} {r r' : ℕ} (hr : Spec.InCell ys ny q r) (hr' : Spec.InCell ys ny q r') (c : ℕ)
    (x : K) :
    Spec.cellBicubic f fx fy fxy xs ys dx dy r c x q = Spec.cellBicubic f fx fy fxy xs ys dx dy r' c x q ∧
    Spec.cellBicubicX f fx fy fxy xs ys dx dy r c x q = Spec.cellBicubicX f fx fy fxy xs ys dx dy r' c x q ∧
    Spec.cellBicubicY f fx fy fxy xs ys dx dy r c x q = Spec.cellBicubicY f fx fy fxy xs ys dx dy r' c x q := by
  rcases inCell_two hy hr hr' with rfl | ⟨rfl, rfl⟩ | ⟨rfl, rfl⟩
  · exact ⟨rfl, rfl, rfl⟩
  · exact edge_y f fx fy fxy xs ys hy.1.ne' (hy.2 _ hr.1) c x
  · obtain ⟨h1, h2, h3⟩ := edge_y f fx fy fxy xs ys (dx := dx) (dy := dy) hy.1.ne' (hy.2 _ hr'.1) c x
    exact ⟨h1.symm, h2.symm, h3.symm⟩

theorem same_cell (hx : Spaced xs nx dx) (hy : Spaced ys ny dy) {p q : K} {c c' r r' : ℕ} (hc : Spec.InCell xs nx p c)
    (hc' : Spec.InCell xs nx p c') (hr : Spec.InCell ys ny q r) (hr' : Spec.InCell ys ny q r') :
    Spec.cellBicubic f fx fy fxy xs ys dx dy r c p q = Spec.cellBicubic f fx fy fxy xs ys dx dy r' c' p q ∧
    Spec.cellBicubicX f fx fy fxy xs ys dx dy r c p q = Spec.cellBicubicX f fx fy fxy xs ys dx dy r' c' p q ∧
    Spec.cellBicubicY f fx fy fxy xs ys dx dy r c p q = Spec.cellBicubicY f fx fy fxy xs ys dx dy r' c' p q := by
  obtain ⟨a1, a2, a3⟩ := same_x f fx fy fxy (ys := ys) (dy := dy) hx hc hc' r q
  obtain ⟨b1, b2, b3⟩ := same_y f fx fy fxy (xs := xs) (dx := dx) hy hr hr' c' p
  exact ⟨a1.trans b1, a2.trans b2, a3.trans b3⟩

/-- **C65**: at a point that belongs to two (closed) cells of an equispaced grid, `hp`, `hermx` and `hermy` give the same
value and gradient for both cells, whatever the nodal data: it does not matter which of the cells a search returns. -/
theorem C65_continuous (hx : Spaced xs nx dx) (hy : Spaced ys ny dy) {p q : K} {c c' r r' : ℕ} (hc : Spec.InCell xs nx p c)
    (hc' : Spec.InCell xs nx p c') (hr : Spec.InCell ys ny q r) (hr' : Spec.InCell ys ny q r') :
    hp (cellData f fx fy fxy r c) p q (xs c) (ys r) dx dy = hp (cellData f fx fy fxy r' c') p q (xs c') (ys r') dx dy ∧
    hermx (cellData f fx fy fxy r c) p q (xs c) (ys r) dx dy = hermx (cellData f fx fy fxy r' c') p q (xs c') (ys r') dx dy ∧
    hermy (cellData f fx fy fxy r c) p q (xs c) (ys r) dx dy = hermy (cellData f fx fy fxy r' c') p q (xs c') (ys r') dx dy := by
  simp only [hp_eq, hermx_eq, hermy_eq]
  exact same_cell f fx fy fxy hx hy hc hc' hr hr'

end same

/-- At the nodes of its cell the interpolant takes the nodal value and gradient, so the cells around a node agree there too:
an instance of C65 with a node of four cells. -/
example : Spec.InCell (fun k => (k : ℚ) / 2) 4 (1 / 2) 0 ∧ Spec.InCell (fun k => (k : ℚ) / 2) 4 (1 / 2) 1 ∧
    Spaced (fun k => (k : ℚ) / 2) 4 (1 / 2) ∧ Spec.InCell (fun k => (k : ℚ)) 3 1 0 ∧ Spec.InCell (fun k => (k : ℚ)) 3 1 1 ∧
    Spaced (fun k => (k : ℚ)) 3 1 := by
  refine ⟨⟨by decide, ?_, ?_⟩, ⟨by decide, ?_, ?_⟩, ⟨by norm_num, fun k _ => ?_⟩, ⟨by decide, ?_, ?_⟩, ⟨by decide, ?_, ?_⟩,
    by norm_num, fun k _ => ?_⟩
  all_goals first | (norm_num; done) | (push_cast; ring)

end Gals.Props
