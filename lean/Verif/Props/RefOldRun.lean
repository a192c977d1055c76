import Verif.Props.RefOldStep

/-!
# C66, C67: runs of the first serial program
-/

set_option linter.unusedSectionVars false
set_option linter.unusedSimpArgs false

namespace Gals.Props

open Gals Gals.Ref

variable {K : Type} [Field K] [LinearOrder K] [IsStrictOrderedRing K]

/-! ## Departure points at most one cell away -/

section near
variable {xs : ℕ → K} {n : ℕ} {d : K} (hs : Spaced xs n d) {b : ℕ} {p : K}
include hs

theorem Spaced.succ {b : ℕ} (h : b + 1 < n) : xs (b + 1) = xs b + d := hs.2 b h

theorem near_inside (hb : b < n) (n2 : 2 ≤ n) (h : Spec.Near (xs b) d p) (h0 : xs 0 ≤ p) (h1 : p ≤ xs (n - 1)) :
    ∃ q, Spec.NextTo xs n p b q := by
  rcases le_total p (xs b) with hp | hp
  · rcases Nat.eq_zero_or_pos b with rfl | h2
    · exact ⟨0, ⟨.inl rfl, by omega⟩, by omega, h0, hp.trans (hs.le (by omega) (by omega))⟩
    · obtain ⟨k, rfl⟩ : ∃ k, b = k + 1 := ⟨b - 1, by omega⟩
      have := hs.succ hb
      exact ⟨k, ⟨.inr rfl, hb⟩, hb, by linarith [h.1], hp⟩
  · rcases Nat.lt_or_ge (b + 1) n with h2 | h2
    · exact ⟨b, ⟨.inl rfl, h2⟩, h2, hp, by rw [hs.succ h2]; exact h.2⟩
    · have e : b = n - 1 := by omega
      refine ⟨n - 2, ⟨.inr (by omega), by omega⟩, by omega, (hs.le (show n - 2 ≤ b by omega) hb).trans hp, ?_⟩
      rw [show n - 2 + 1 = n - 1 by omega]
      exact h1

theorem near_before (hb : b < n) (h : Spec.Near (xs b) d p) (h0 : p < xs 0) : b = 0 := by
  rcases Nat.eq_zero_or_pos b with rfl | h2
  · rfl
  · obtain ⟨k, rfl⟩ : ∃ k, b = k + 1 := ⟨b - 1, by omega⟩
    have := hs.succ hb
    have := hs.le (Nat.zero_le k) (by omega)
    have := h.1
    exact absurd h0 (not_lt.2 (by linarith))

theorem near_after (hb : b < n) (h : Spec.Near (xs b) d p) (h1 : xs (n - 1) < p) : b = n - 1 := by
  rcases Nat.lt_or_ge (b + 1) n with h2 | h2
  · have := hs.succ h2
    have := hs.le (show b + 1 ≤ n - 1 by omega) (by omega)
    have := h.2
    exact absurd h1 (not_lt.2 (by linarith))
  · omega

/-- Inside the domain the newer search finds a cell that contains the point. -/
theorem near_cell_inside (hb : b < n) (n2 : 2 ≤ n) (h : Spec.Near (xs b) d p) (h0 : xs 0 < p) (h1 : p < xs (n - 1)) :
    Spec.InCell xs n p (Spec.cellAlong xs n p) := by
  obtain ⟨q, -, q1, q2, q3⟩ := near_inside hs hb n2 h h0.le h1.le
  have inc : ∀ i j, i < j → j < n → xs i < xs j := fun i j => hs.lt
  rcases q2.lt_or_eq with h2 | h2
  · rw [cellAlong_inside inc ⟨q1, h2, q3⟩ h0 h1]
    exact ⟨q1, q2, q3⟩
  · have h3 : q ≠ 0 := by rintro rfl; exact absurd h2 h0.ne
    have e : q - 1 + 1 = q := by omega
    have h4 : xs (q - 1) < p := by rw [← h2]; exact inc _ _ (by omega) (by omega)
    rw [cellAlong_inside inc (c := q - 1) ⟨by omega, h4, by rw [e, h2]⟩ h0 h1]
    exact ⟨by omega, h4.le, by rw [e, h2]⟩

/-- Outside the domain the newer search gives the interval next to the node. -/
theorem near_cell_outside (hb : b < n) (n2 : 2 ≤ n) (h : Spec.Near (xs b) d p) (ho : p < xs 0 ∨ xs (n - 1) < p) :
    Spec.Touches n b (Spec.cellAlong xs n p) := by
  have h01 := hs.le (Nat.zero_le (n - 1)) (by omega)
  rw [cellAlong_outside (by rintro ⟨h1, h2⟩; rcases ho with ho | ho <;> [exact lt_asymm h1 ho; exact lt_asymm h2 ho])]
  rcases ho with ho | ho
  · rw [if_pos ho.le, near_before hs hb h ho]
    exact ⟨.inl rfl, by omega⟩
  · rw [if_neg (not_le.2 (h01.trans_lt ho)), near_after hs hb h ho]
    exact ⟨.inr (by omega), by omega⟩

end near

/-! ## One step -/

section step
variable {c : Setting K} (hc : Valid c) (v : Vel K) (t : ℕ) {m : Mem (Val K)} {F : Spec.Fields K}

/-- The departure point of each node is at most one cell away from it along each axis. -/
def Courant (c : Setting K) (v : Vel K) (t : ℕ) : Prop := ∀ a < c.ny, ∀ b < c.nx,
  Spec.Near (posX c b) c.dx (departs c v t a b).1 ∧ Spec.Near (posY c a) c.dy (departs c v t a b).2

/-- No departure point has a coordinate exactly on the boundary of the domain. -/
def OffWalls (c : Setting K) (v : Vel K) (t : ℕ) : Prop := ∀ a < c.ny, ∀ b < c.nx,
  (departs c v t a b).1 ≠ c.xlim1 ∧ (departs c v t a b).1 ≠ c.xlim2 ∧ (departs c v t a b).2 ≠ c.ylim1 ∧
    (departs c v t a b).2 ≠ c.ylim2

/-- The specification of a step has one solution at each node. -/
theorem CellStep.unique {a b : ℕ} {r s : K × K × K} (hr : CellStep c v t F a b r) (hs : CellStep c v t F a b s)
    (ta : ∃ i, Spec.Touches c.ny a i) (tb : ∃ j, Spec.Touches c.nx b j) : r = s := by
  obtain ⟨i, ti⟩ := ta
  obtain ⟨j, tj⟩ := tb
  by_cases hX : ∃ q, Spec.NextTo (posX c) c.nx (departs c v t a b).1 b q
  · by_cases hY : ∃ r, Spec.NextTo (posY c) c.ny (departs c v t a b).2 a r
    · obtain ⟨q, hq⟩ := hX
      obtain ⟨k, hk⟩ := hY
      rw [hr.inside q k hq hk, hs.inside q k hq hk]
    · by_cases ho : (departs c v t a b).2 < c.ylim1 ∨ c.ylim2 < (departs c v t a b).2
      · obtain ⟨q, hq⟩ := hX
        rw [hr.outY ho q i hq ti, hs.outY ho q i hq ti]
      · rw [hr.still (fun h => hY h.2) (fun h => ho h.2) (fun h => hY h.1) (fun h => h.2.1 hX),
          hs.still (fun h => hY h.2) (fun h => ho h.2) (fun h => hY h.1) (fun h => h.2.1 hX)]
  · by_cases hY : ∃ r, Spec.NextTo (posY c) c.ny (departs c v t a b).2 a r
    · by_cases ho : (departs c v t a b).1 < c.xlim1 ∨ c.xlim2 < (departs c v t a b).1
      · obtain ⟨k, hk⟩ := hY
        rw [hr.outX ho j k tj hk, hs.outX ho j k tj hk]
      · rw [hr.still (fun h => hX h.1) (fun h => hX h.1) (fun h => ho h.2) (fun h => h.2.2 hY),
          hs.still (fun h => hX h.1) (fun h => hX h.1) (fun h => ho h.2) (fun h => h.2.2 hY)]
    · by_cases hk : (a = 0 ∨ a = c.ny - 1) ∧ (b = 0 ∨ b = c.nx - 1)
      · have nX := fun q hq => hX ⟨q, hq⟩
        have nY := fun q hq => hY ⟨q, hq⟩
        rw [hr.corner hk.1 hk.2 nX nY, hs.corner hk.1 hk.2 nX nY]
      · rw [hr.still (fun h => hX h.1) (fun h => hX h.1) (fun h => hY h.1) (fun h => hk h.1),
          hs.still (fun h => hX h.1) (fun h => hX h.1) (fun h => hY h.1) (fun h => hk h.1)]

include hc

theorem touchesX {b : ℕ} (hb : b < c.nx) : ∃ j, Spec.Touches c.nx b j := by
  have := hc.nx3
  rcases Nat.eq_zero_or_pos b with rfl | h
  · exact ⟨0, .inl rfl, by omega⟩
  · exact ⟨b - 1, .inr (by omega), by omega⟩
theorem touchesY {a : ℕ} (ha : a < c.ny) : ∃ i, Spec.Touches c.ny a i := by
  have := hc.ny3
  rcases Nat.eq_zero_or_pos a with rfl | h
  · exact ⟨0, .inl rfl, by omega⟩
  · exact ⟨a - 1, .inr (by omega), by omega⟩

/-- With departure points at most one cell away each node is advanced, according to the class of its departure point in the closed
domain: the cell may be any one that contains the departure point along an axis where this is in the domain, and has the node as a
corner along an axis where it is not. -/
theorem cellStep_courant {a b : ℕ} {new : K × K × K} (ha : a < c.ny) (hb : b < c.nx)
    (h : CellStep c v t F a b new) (nX : Spec.Near (posX c b) c.dx (departs c v t a b).1)
    (nY : Spec.Near (posY c a) c.dy (departs c v t a b).2) {q r : ℕ}
    (hq : Spec.InCell (posX c) c.nx (departs c v t a b).1 q ∨
      (((departs c v t a b).1 < c.xlim1 ∨ c.xlim2 < (departs c v t a b).1) ∧ Spec.Touches c.nx b q))
    (hr : Spec.InCell (posY c) c.ny (departs c v t a b).2 r ∨
      (((departs c v t a b).2 < c.ylim1 ∨ c.ylim2 < (departs c v t a b).2) ∧ Spec.Touches c.ny a r)) :
    new = oldSpec c v t (posX c) (posY c) c.dx c.dy F a b (departs c v t a b)
      (Spec.closedClass (posX c) (posY c) c.nx c.ny (departs c v t a b)) q r := by
  have hx3 := hc.nx3
  have hy3 := hc.ny3
  have oX : ∀ {p : K}, (p < c.xlim1 ∨ c.xlim2 < p) → ∀ q, ¬ Spec.InCell (posX c) c.nx p q := fun ho q hq => by
    obtain ⟨h1, h2⟩ := inX hc hq
    rcases ho with ho | ho
    · exact absurd ho (not_lt.2 h1)
    · exact absurd ho (not_lt.2 h2)
  have oY : ∀ {p : K}, (p < c.ylim1 ∨ c.ylim2 < p) → ∀ q, ¬ Spec.InCell (posY c) c.ny p q := fun ho q hq => by
    obtain ⟨h1, h2⟩ := inY hc hq
    rcases ho with ho | ho
    · exact absurd ho (not_lt.2 h1)
    · exact absurd ho (not_lt.2 h2)
  have nin : ∀ {p l u : K}, (p < l ∨ u < p) → ¬ (l ≤ p ∧ p ≤ u) := fun ho h => by
    rcases ho with ho | ho
    · exact absurd ho (not_lt.2 h.1)
    · exact absurd ho (not_lt.2 h.2)
  have eX : ∀ {p : K}, Spec.Near (posX c b) c.dx p → (p < c.xlim1 ∨ c.xlim2 < p) → b = 0 ∨ b = c.nx - 1 := fun hn ho => by
    rcases ho with ho | ho
    · exact .inl (near_before (spacedX hc) hb hn (by rw [hc.firstX]; exact ho))
    · exact .inr (near_after (spacedX hc) hb hn (by rw [hc.lastX]; exact ho))
  have eY : ∀ {p : K}, Spec.Near (posY c a) c.dy p → (p < c.ylim1 ∨ c.ylim2 < p) → a = 0 ∨ a = c.ny - 1 := fun hn ho => by
    rcases ho with ho | ho
    · exact .inl (near_before (spacedY hc) ha hn (by rw [hc.firstY]; exact ho))
    · exact .inr (near_after (spacedY hc) ha hn (by rw [hc.lastY]; exact ho))
  rw [Spec.closedClass, hc.firstX, hc.lastX, hc.firstY, hc.lastY]
  rcases hq with hq | ⟨ox, hq⟩
  · obtain ⟨q', hq'⟩ := near_inside (spacedX hc) hb (by omega) nX (by rw [hc.firstX]; exact (inX hc hq).1)
      (by rw [hc.lastX]; exact (inX hc hq).2)
    rcases hr with hr | ⟨oy, hr⟩
    · obtain ⟨r', hr'⟩ := near_inside (spacedY hc) ha (by omega) nY (by rw [hc.firstY]; exact (inY hc hr).1)
        (by rw [hc.lastY]; exact (inY hc hr).2)
      rw [if_pos (inX hc hq), if_pos (inY hc hr), h.inside q' r' hq' hr']
      obtain ⟨e1, e2, e3⟩ := same_cell F.phi F.psix F.psiy F.psixy (spacedX hc) (spacedY hc) hq hq'.2 hr hr'.2
      simp only [oldSpec, nodeSpec, Spec.updateNode, e1, e2, e3]
    · rw [if_pos (inX hc hq), if_neg (nin oy), h.outY oy q' r hq' hr]
      obtain ⟨e1, e2, e3⟩ := same_cell F.phi F.psix F.psiy F.psixy (spacedX hc) (spacedY hc) hq hq'.2
        (touches_self (spacedY hc) hr) (touches_self (spacedY hc) hr)
      simp only [oldSpec, nodeSpec, Spec.updateNode, e1, e2, e3]
  · rcases hr with hr | ⟨oy, hr⟩
    · obtain ⟨r', hr'⟩ := near_inside (spacedY hc) ha (by omega) nY (by rw [hc.firstY]; exact (inY hc hr).1)
        (by rw [hc.lastY]; exact (inY hc hr).2)
      rw [if_neg (nin ox), if_pos (inY hc hr), h.outX ox q r' hq hr']
      obtain ⟨e1, e2, e3⟩ := same_cell F.phi F.psix F.psiy F.psixy (spacedX hc) (spacedY hc)
        (touches_self (spacedX hc) hq) (touches_self (spacedX hc) hq) hr hr'.2
      simp only [oldSpec, nodeSpec, Spec.updateNode, e1, e2, e3]
    · rw [if_neg (nin ox), if_neg (nin oy), h.corner (eY nY oy) (eX nX ox) (fun q hq => oX ox q hq.2) fun r hr => oY oy r hr.2]
      rfl

/-- The newer step, for departure points at most one cell away and not on the boundary. -/
theorem cellStep_new {a b : ℕ} {new : K × K × K} (ha : a < c.ny) (hb : b < c.nx)
    (h : CellStep c v t F a b new) (nX : Spec.Near (posX c b) c.dx (departs c v t a b).1)
    (nY : Spec.Near (posY c a) c.dy (departs c v t a b).2) (w : (departs c v t a b).1 ≠ c.xlim1 ∧ (departs c v t a b).1 ≠ c.xlim2 ∧
      (departs c v t a b).2 ≠ c.ylim1 ∧ (departs c v t a b).2 ≠ c.ylim2) :
    new = nodeAt v c.schemes t c.dt c.dx c.dy (posX c) (posY c) c.nx c.ny F (departs c v t a b) a b := by
  have hx3 := hc.nx3
  have hy3 := hc.ny3
  obtain ⟨w1, w2, w3, w4⟩ := w
  have kX : Spec.InCell (posX c) c.nx (departs c v t a b).1 (Spec.cellAlong (posX c) c.nx (departs c v t a b).1) ∨
      (((departs c v t a b).1 < c.xlim1 ∨ c.xlim2 < (departs c v t a b).1) ∧
        Spec.Touches c.nx b (Spec.cellAlong (posX c) c.nx (departs c v t a b).1)) := by
    by_cases ho : (departs c v t a b).1 < c.xlim1 ∨ c.xlim2 < (departs c v t a b).1
    · exact .inr ⟨ho, near_cell_outside (spacedX hc) hb (by omega) nX (by rw [hc.firstX, hc.lastX]; exact ho)⟩
    · rw [not_or, not_lt, not_lt] at ho
      exact .inl (near_cell_inside (spacedX hc) hb (by omega) nX (by rw [hc.firstX]; exact lt_of_le_of_ne ho.1 (Ne.symm w1))
        (by rw [hc.lastX]; exact lt_of_le_of_ne ho.2 w2))
  have kY : Spec.InCell (posY c) c.ny (departs c v t a b).2 (Spec.cellAlong (posY c) c.ny (departs c v t a b).2) ∨
      (((departs c v t a b).2 < c.ylim1 ∨ c.ylim2 < (departs c v t a b).2) ∧
        Spec.Touches c.ny a (Spec.cellAlong (posY c) c.ny (departs c v t a b).2)) := by
    by_cases ho : (departs c v t a b).2 < c.ylim1 ∨ c.ylim2 < (departs c v t a b).2
    · exact .inr ⟨ho, near_cell_outside (spacedY hc) ha (by omega) nY (by rw [hc.firstY, hc.lastY]; exact ho)⟩
    · rw [not_or, not_lt, not_lt] at ho
      exact .inl (near_cell_inside (spacedY hc) ha (by omega) nY (by rw [hc.firstY]; exact lt_of_le_of_ne ho.1 (Ne.symm w3))
        (by rw [hc.lastY]; exact lt_of_le_of_ne ho.2 w4))
  have e := cellStep_courant hc v t ha hb h nX nY kX kY
  have ec : Spec.closedClass (posX c) (posY c) c.nx c.ny (departs c v t a b) =
      Spec.classOf (posX c) (posY c) c.nx c.ny (departs c v t a b) := by
    have l1 : ∀ {p l u : K}, p ≠ l → p ≠ u → ((l ≤ p ∧ p ≤ u) ↔ (l < p ∧ p < u)) := fun h1 h2 =>
      ⟨fun h => ⟨lt_of_le_of_ne h.1 (Ne.symm h1), lt_of_le_of_ne h.2 h2⟩, fun h => ⟨h.1.le, h.2.le⟩⟩
    rw [Spec.closedClass, Spec.classOf, hc.firstX, hc.lastX, hc.firstY, hc.lastY]
    simp only [l1 w1 w2, l1 w3 w4]
  rw [e, ec, nodeAt, cellX, cellY]
  split_ifs with h4
  · rw [h4]; rfl
  · rfl

omit hc in
theorem mixedStencil_congr {px py qx qy : ℕ → ℕ → K} {nx ny : ℕ} (nx2 : 2 ≤ nx) (ny2 : 2 ≤ ny)
    (hx : ∀ a < ny, ∀ b < nx, px a b = qx a b) (hy : ∀ a < ny, ∀ b < nx, py a b = qy a b) (dx dy : K) {a b : ℕ} (ha : a < ny)
    (hb : b < nx) : Spec.mixedStencil px py nx ny dx dy a b = Spec.mixedStencil qx qy nx ny dx dy a b := by
  have h1 : ∀ i j, i < ny → j + 1 < nx → Spec.dX py dx i j = Spec.dX qy dx i j := fun i j hi hj => by
    rw [Spec.dX, Spec.dX, hy i hi _ (by omega), hy i hi _ (by omega)]
  have h2 : ∀ i j, i + 1 < ny → j < nx → Spec.dY px dy i j = Spec.dY qx dy i j := fun i j hi hj => by
    rw [Spec.dY, Spec.dY, hx _ (by omega) j hj, hx _ (by omega) j hj]
  have h3 : ∀ i j, i < ny → j + 1 < nx → Spec.eX py dx i j = Spec.eX qy dx i j := fun i j hi hj => by
    rw [Spec.eX, Spec.eX, hy i hi _ (by omega), hy i hi _ (by omega)]
  have h4 : ∀ i j, i + 1 < ny → j < nx → Spec.eY px dy i j = Spec.eY qx dy i j := fun i j hi hj => by
    rw [Spec.eY, Spec.eY, hx _ (by omega) j hj, hx _ (by omega) j hj]
  simp only [Spec.mixedStencil]
  by_cases i1 : 0 < b ∧ b + 1 < nx
  · by_cases i2 : 0 < a ∧ a + 1 < ny
    · rw [if_pos ⟨i1, i2⟩, if_pos ⟨i1, i2⟩, h1 _ _ ha i1.2, h2 _ _ i2.2 hb]
    · have i3 : ¬ ((0 < b ∧ b + 1 < nx) ∧ 0 < a ∧ a + 1 < ny) := fun h => i2 h.2
      rw [if_neg i3, if_neg i3, if_pos i1, if_pos i1, h1 _ _ ha i1.2]
  · have i3 : ¬ ((0 < b ∧ b + 1 < nx) ∧ 0 < a ∧ a + 1 < ny) := fun h => i1 h.1
    rw [if_neg i3, if_neg i3, if_neg i1, if_neg i1]
    by_cases i2 : 0 < a ∧ a + 1 < ny
    · rw [if_pos i2, if_pos i2, h2 _ _ i2.2 hb]
    · rw [if_neg i2, if_neg i2, h3 _ _ ha (by split_ifs <;> omega), h4 _ _ (by split_ifs <;> omega) hb,
        h3 _ _ (by split_ifs <;> omega) (by split_ifs <;> omega), h4 _ _ (by split_ifs <;> omega) (by split_ifs <;> omega)]

omit hc in
/-- Fields that agree at the nodes describe the same memory. -/
theorem OldReady.congr {G : Spec.Fields K} (h : OldReady m c F) (h1 : ∀ a < c.ny, ∀ b < c.nx, F.phi a b = G.phi a b)
    (h2 : ∀ a < c.ny, ∀ b < c.nx, F.psix a b = G.psix a b) (h3 : ∀ a < c.ny, ∀ b < c.nx, F.psiy a b = G.psiy a b)
    (h4 : ∀ a < c.ny, ∀ b < c.nx, F.psixy a b = G.psixy a b) : OldReady m c G where
  x := h.x
  y := h.y
  phi := fun a ha b hb => by rw [h.phi a ha b hb, h1 a ha b hb]
  psix := fun a ha b hb => by rw [h.psix a ha b hb, h2 a ha b hb]
  psiy := fun a ha b hb => by rw [h.psiy a ha b hb, h3 a ha b hb]
  psixy := fun a ha b hb => by rw [h.psixy a ha b hb, h4 a ha b hb]
  tphi := fun a ha b hb => by rw [h.tphi a ha b hb, h1 a ha b hb]
  tpsix := fun a ha b hb => by rw [h.tpsix a ha b hb, h2 a ha b hb]
  tpsiy := fun a ha b hb => by rw [h.tpsiy a ha b hb, h3 a ha b hb]
  tpsixy := fun a ha b hb => by rw [h.tpsixy a ha b hb, h4 a ha b hb]
  tracker := h.tracker

theorem stepOld_advance (hC : Courant c v t) (hW : OffWalls c v t) (h : OldReady m c F) :
    ∃ m', stepOld c v c.dx c.dy t m = .ok m' ∧
      OldReady m' c (advance v c.schemes t c.dt c.dx c.dy (posX c) (posY c) c.nx c.ny (departs c v t) F) := by
  have hx3 := hc.nx3
  have hy3 := hc.ny3
  obtain ⟨m', G, e, hG, hr⟩ := stepOld_run hc v t h
  have k : ∀ a < c.ny, ∀ b < c.nx, (G.phi a b, G.psix a b, G.psiy a b) =
      nodeAt v c.schemes t c.dt c.dx c.dy (posX c) (posY c) c.nx c.ny F (departs c v t a b) a b := fun a ha b hb =>
    cellStep_new hc v t ha hb (hG.node a ha b hb) (hC a ha b hb).1 (hC a ha b hb).2 (hW a ha b hb)
  have k2 : ∀ a < c.ny, ∀ b < c.nx, G.psix a b =
      (nodeAt v c.schemes t c.dt c.dx c.dy (posX c) (posY c) c.nx c.ny F (departs c v t a b) a b).2.1 := fun a ha b hb => by
    rw [← k a ha b hb]
  have k3 : ∀ a < c.ny, ∀ b < c.nx, G.psiy a b =
      (nodeAt v c.schemes t c.dt c.dx c.dy (posX c) (posY c) c.nx c.ny F (departs c v t a b) a b).2.2 := fun a ha b hb => by
    rw [← k a ha b hb]
  refine ⟨m', e, hr.congr (fun a ha b hb => ?_) k2 k3 fun a ha b hb => ?_⟩
  · show _ = (nodeAt v c.schemes t c.dt c.dx c.dy (posX c) (posY c) c.nx c.ny F (departs c v t a b) a b).1
    rw [← k a ha b hb]
  · rw [hG.psixy]
    exact mixedStencil_congr (by omega) (by omega) k2 k3 _ _ ha hb

end step

/-! ## The whole run -/

section setup
variable {c : Setting K} (hc : Valid c)
include hc

theorem oldDx_eq : oldDx c = c.dx := by rw [hc.dx_eq, oldDx]
theorem oldDy_eq : oldDy c = c.dy := by rw [hc.dy_eq, oldDy]

theorem setupOld_ready (f : Initial K) :
    ∃ m, setupOld c f = .ok m ∧ OldReady m c (initialFields f (posX c) (posY c)) := by
  obtain ⟨m1, e1, h1, f1⟩ := fill_line (a := .x) (n := c.nx) (g := fun j => c.xlim1 + oldDx c * (j : K))
    (m := oldArrays c.nx c.ny fun _ => .oob) fun j hj => by simp [oldArrays, declD, declN, hj]
  obtain ⟨m2, e2, h2, f2⟩ := fill_line (a := .y) (n := c.ny) (g := fun j => c.ylim1 + oldDy c * (j : K)) (m := m1) fun j hj => by
    rw [f1 _ fun j => by simp]; simp [oldArrays, declD, declN, hj]
  have fr : ∀ l, (∀ j, l ≠ .d .x 0 j) → (∀ j, l ≠ .d .y 0 j) → m2 l = oldArrays c.nx c.ny (fun _ => .oob) l := fun l p q => by
    rw [f2 l q, f1 l p]
  have hx : ∀ j < c.nx, m2 (.d .x 0 j) = .val (posX c j) := fun j hj => by
    rw [f2 _ fun j => by simp, h1 j hj, oldDx_eq hc, ← hc.posX_eq]
  have hy : ∀ j < c.ny, m2 (.d .y 0 j) = .val (posY c j) := fun j hj => by rw [h2 j hj, oldDy_eq hc, ← hc.posY_eq]
  let A : DVar → Prop := fun q => q = .mphi ∨ q = .tempphi ∨ q = .mpsix ∨ q = .temppsix ∨ q = .mpsiy ∨ q = .temppsiy ∨
    q = .mpsixy ∨ q = .temppsixy
  obtain ⟨m3, e3, i1, i2, i3⟩ := runAll_inv (K := K) (b := fun n => oldInitBody f n.1 n.2) (I := fun pre m3 =>
      (∀ l, (∀ q i j, l = .d q i j → ¬ A q) → m3 l = m2 l) ∧ (∀ q, A q → ∀ a < c.ny, ∀ b < c.nx, m3 (.d q a b) ≠ .oob) ∧
      ∀ n ∈ pre, m3 (.d .mphi n.1 n.2) = .val (f.phi (posX c n.2) (posY c n.1)) ∧
        m3 (.d .tempphi n.1 n.2) = .val (f.phi (posX c n.2) (posY c n.1)) ∧
        m3 (.d .mpsix n.1 n.2) = .val (f.psix (posX c n.2) (posY c n.1)) ∧
        m3 (.d .temppsix n.1 n.2) = .val (f.psix (posX c n.2) (posY c n.1)) ∧
        m3 (.d .mpsiy n.1 n.2) = .val (f.psiy (posX c n.2) (posY c n.1)) ∧
        m3 (.d .temppsiy n.1 n.2) = .val (f.psiy (posX c n.2) (posY c n.1)) ∧
        m3 (.d .mpsixy n.1 n.2) = .val (f.psixy (posX c n.2) (posY c n.1)) ∧
        m3 (.d .temppsixy n.1 n.2) = .val (f.psixy (posX c n.2) (posY c n.1)))
      (nodes c.ny 0 c.nx) (pre := []) (m := m2)
    (by
      rintro pre ⟨a, b⟩ m1 hn ⟨i1, i2, i3⟩
      have hab := mem_nodes.1 hn
      have ha : a < c.ny := hab.1
      have hb : b < c.nx := hab.2.2
      have gx := (i1 (.d .x 0 b) (by rintro q i j ⟨⟩; simp [A])).trans (hx b hb)
      have gy := (i1 (.d .y 0 a) (by rintro q i j ⟨⟩; simp [A])).trans (hy a ha)
      have n1 := i2 .mphi (by simp [A]) a ha b hb
      have n2 := i2 .tempphi (by simp [A]) a ha b hb
      have n3 := i2 .mpsix (by simp [A]) a ha b hb
      have n4 := i2 .temppsix (by simp [A]) a ha b hb
      have n5 := i2 .mpsiy (by simp [A]) a ha b hb
      have n6 := i2 .temppsiy (by simp [A]) a ha b hb
      have n7 := i2 .mpsixy (by simp [A]) a ha b hb
      have n8 := i2 .temppsixy (by simp [A]) a ha b hb
      simp only [oldInitBody, bind, Prog.wp_bind, wp_getD, wp_setD, gx, gy, slot_val_inj, exists_eq_left', n1, ne_eq,
        not_false_eq_true, true_and, Mem.upd_other, Mem.upd_same, reduceCtorEq, Loc.d.injEq, false_and, n2, n3, n4, n5, n6, n7, n8]
      refine ⟨fun l hl => ?_, fun q hq a' ha' b' hb' => ?_, fun n hn => ?_⟩
      · have ho : ∀ q, A q → l ≠ .d q a b := fun q hq e => hl q a b e hq
        rw [Mem.upd_other _ (ho _ (by simp [A])), Mem.upd_other _ (ho _ (by simp [A])), Mem.upd_other _ (ho _ (by simp [A])),
          Mem.upd_other _ (ho _ (by simp [A])), Mem.upd_other _ (ho _ (by simp [A])), Mem.upd_other _ (ho _ (by simp [A])),
          Mem.upd_other _ (ho _ (by simp [A])), Mem.upd_other _ (ho _ (by simp [A])), i1 l hl]
      · have o := i2 q hq a' ha' b' hb'
        by_cases en : a' = a ∧ b' = b
        · obtain ⟨rfl, rfl⟩ := en
          rcases hq with rfl | rfl | rfl | rfl | rfl | rfl | rfl | rfl <;> simp [Mem.upd_same, Mem.upd_other]
        · rcases hq with rfl | rfl | rfl | rfl | rfl | rfl | rfl | rfl <;> simp [Mem.upd_other, en, o]
      · by_cases en : n = (a, b)
        · subst en
          simp [Mem.upd_same, Mem.upd_other]
        · have hn' : n ∈ pre := by
            rcases List.mem_append.1 hn with hn | hn
            · exact hn
            · exact absurd (List.mem_singleton.1 hn) en
          have en' : ¬ (n.1 = a ∧ n.2 = b) := fun h => en (Prod.ext h.1 h.2)
          obtain ⟨o1, o2, o3, o4, o5, o6, o7, o8⟩ := i3 n hn'
          simp [Mem.upd_other, en', o1, o2, o3, o4, o5, o6, o7, o8])
    ⟨fun _ _ => rfl, fun q hq a ha b hb => by
      rcases hq with rfl | rfl | rfl | rfl | rfl | rfl | rfl | rfl <;>
        (rw [fr _ (by simp) (by simp)]; simp [oldArrays, declD, declN, ha, hb]), by simp⟩
  have hn : ∀ a < c.ny, ∀ b < c.nx, (a, b) ∈ [] ++ nodes c.ny 0 c.nx := fun a ha b hb => by
    simpa using mem_nodes.2 ⟨ha, Nat.zero_le _, hb⟩
  refine ⟨m3, ?_, ⟨⟨⟨?_, ?_, ?_, ?_, ?_, ?_⟩, ?_, ?_, ?_, ?_⟩, ?_⟩⟩
  · simp only [setupOld, e1, e2, M.ok_bind]
    rw [exec_seqAll]
    exact e3
  · exact fun j hj => (i1 _ (by rintro q i j ⟨⟩; simp [A])).trans (hx j hj)
  · exact fun j hj => (i1 _ (by rintro q i j ⟨⟩; simp [A])).trans (hy j hj)
  · exact fun a ha b hb => (i3 _ (hn a ha b hb)).1
  · exact fun a ha b hb => (i3 _ (hn a ha b hb)).2.2.1
  · exact fun a ha b hb => (i3 _ (hn a ha b hb)).2.2.2.2.1
  · exact fun a ha b hb => (i3 _ (hn a ha b hb)).2.2.2.2.2.2.1
  · exact fun a ha b hb => (i3 _ (hn a ha b hb)).2.1
  · exact fun a ha b hb => (i3 _ (hn a ha b hb)).2.2.2.1
  · exact fun a ha b hb => (i3 _ (hn a ha b hb)).2.2.2.2.2.1
  · exact fun a ha b hb => (i3 _ (hn a ha b hb)).2.2.2.2.2.2.2
  · intro a ha b hb
    rw [i1 _ (by simp), fr _ (by simp) (by simp)]
    simp [oldArrays, declD, declN, ha, hb]

theorem loopOld_run (v : Vel K) (r : ℕ) : ∀ (t : ℕ) {m : Mem (Val K)} {F : Spec.Fields K}, OldReady m c F →
    ∃ (m' : Mem (Val K)) (Fs : ℕ → Spec.Fields K), loopOld c v r t m = .ok m' ∧ Fs t = F ∧ (∀ k, t ≤ k → k < t + r → OldStep c v k (Fs k) (Fs (k + 1))) ∧
      OldReady m' c (Fs (t + r)) := by
  induction r with
  | zero => exact fun t m F h => ⟨m, fun _ => F, rfl, rfl, fun k h1 h2 => by omega, h⟩
  | succ r ih =>
    intro t m F h
    obtain ⟨m1, G, e1, hG, h1⟩ := stepOld_run hc v t h
    obtain ⟨m2, Fs, e2, f1, f2, f3⟩ := ih (t + 1) h1
    refine ⟨m2, fun k => if k ≤ t then F else Fs k, ?_, by simp, fun k k1 k2 => ?_, ?_⟩
    · rw [loopOld, oldDx_eq hc, oldDy_eq hc, e1, M.ok_bind, e2]
    · rcases k1.eq_or_lt with rfl | k3
      · simp only [if_pos (le_refl t), if_neg (show ¬ t + 1 ≤ t by omega), f1]
        exact hG
      · simp only [if_neg (show ¬ k ≤ t by omega), if_neg (show ¬ k + 1 ≤ t by omega)]
        exact f2 k (by omega) (by omega)
    · simp only [if_neg (show ¬ t + (r + 1) ≤ t by omega)]
      rw [show t + (r + 1) = t + 1 + r by omega]
      exact f3

theorem loopOld_new (v : Vel K) (f : Initial K) (r : ℕ) : ∀ (t : ℕ) {m : Mem (Val K)},
    (∀ k < t + r, Courant c v k ∧ OffWalls c v k) → OldReady m c (fieldsAt c v f (departs c v) t) →
    ∃ m', loopOld c v r t m = .ok m' ∧ OldReady m' c (fieldsAt c v f (departs c v) (t + r)) := by
  induction r with
  | zero => exact fun t m _ h => ⟨m, rfl, h⟩
  | succ r ih =>
    intro t m hk h
    obtain ⟨m1, e1, h1⟩ := stepOld_advance hc v t (hk t (by omega)).1 (hk t (by omega)).2 h
    obtain ⟨m2, e2, h2⟩ := ih (t + 1) (fun k h => hk k (by omega)) (m := m1) (by
      rw [fieldsAt, ← hc.dx_eq, ← hc.dy_eq]
      exact h1)
    refine ⟨m2, by rw [loopOld, oldDx_eq hc, oldDy_eq hc, e1, M.ok_bind, e2], ?_⟩
    rw [show t + (r + 1) = t + 1 + r by omega]
    exact h2

end setup

section run
variable {K : Type} [Field K] [LinearOrder K] [IsStrictOrderedRing K] [FloorRing K]
variable {c : Setting K} (hc : Valid c)

/-- The number of steps: the truncated quotient, if it is a value of `int`. -/
theorem oldSteps_ok (hdt : c.dt ≠ 0) {n : ℕ} (hn : Spec.Truncated (c.tfinal / c.dt) n) (h : n ≤ 2147483647) :
    oldSteps c = .ok n := by
  have h0 : (0 : K) ≤ c.tfinal / c.dt := (Nat.cast_nonneg n).trans hn.1
  have e : ⌊c.tfinal / c.dt⌋ = (n : ℤ) := Int.floor_eq_iff.2 ⟨by exact_mod_cast hn.1, by exact_mod_cast hn.2⟩
  rw [oldSteps, if_neg fun h => hdt (le_antisymm h.1 h.2)]
  simp only [if_neg (not_lt.2 h0), floorI_eq, e]
  rw [if_pos (by omega)]

include hc

/-- C66: the first serial program, for every velocity and initial state, whatever the size of the steps: it ends without undefined
behaviour, and in each step each node gets what `CellStep` says.  Missing from the claim: that each node is advanced. -/
theorem C66_run_partial (v : Vel K) (f : Initial K) (hdt : c.dt ≠ 0) {n : ℕ} (hn : Spec.Truncated (c.tfinal / c.dt) n)
    (h : n ≤ 2147483647) : ∃ (m : Mem (Val K)) (Fs : ℕ → Spec.Fields K), mainOld c v f = .ok m ∧ Fs 0 = initialFields f (posX c) (posY c) ∧
      (∀ t < n, OldStep c v t (Fs t) (Fs (t + 1))) ∧ OldReady m c (Fs n) := by
  obtain ⟨m0, e0, h0⟩ := setupOld_ready hc f
  obtain ⟨m, Fs, e, f1, f2, f3⟩ := loopOld_run hc v n 0 h0
  refine ⟨m, Fs, ?_, f1, fun t ht => f2 t (Nat.zero_le _) (by omega), by rw [Nat.zero_add] at f3; exact f3⟩
  rw [mainOld, oldSteps_ok hdt hn h, M.ok_bind, e0, M.ok_bind, Int.toNat_natCast, e]

omit [FloorRing K] in
/-- C66: in a step whose departure points are at most one cell away from the nodes each node is advanced: it gets the specified data
of the class of its departure point in the domain with its boundary, and of any cell that contains the departure point along an axis
where this is in the domain and has the node as a corner along an axis where it is not. -/
theorem C66_courant {v : Vel K} {t : ℕ} {F G : Spec.Fields K} (hG : OldStep c v t F G) (hC : Courant c v t) {a b : ℕ}
    (ha : a < c.ny) (hb : b < c.nx) {q r : ℕ}
    (hq : Spec.InCell (posX c) c.nx (departs c v t a b).1 q ∨
      (((departs c v t a b).1 < c.xlim1 ∨ c.xlim2 < (departs c v t a b).1) ∧ Spec.Touches c.nx b q))
    (hr : Spec.InCell (posY c) c.ny (departs c v t a b).2 r ∨
      (((departs c v t a b).2 < c.ylim1 ∨ c.ylim2 < (departs c v t a b).2) ∧ Spec.Touches c.ny a r)) :
    (G.phi a b, G.psix a b, G.psiy a b) = oldSpec c v t (posX c) (posY c) c.dx c.dy F a b (departs c v t a b)
      (Spec.closedClass (posX c) (posY c) c.nx c.ny (departs c v t a b)) q r :=
  cellStep_courant hc v t ha hb (hG.node a ha b hb) (hC a ha b hb).1 (hC a ha b hb).2 hq hr

/-- C67: with departure points at most one cell away from the nodes and off the boundary, the first serial program and the OpenMP
program run by one thread end with the same fields.  Missing from the claim: longer steps and points on the boundary. -/
theorem C67_run_partial (v : Vel K) (f : Initial K) (hdt : c.dt ≠ 0) {n : ℕ} (hn : Spec.Truncated (c.tfinal / c.dt) n)
    (h : n ≤ 2147483647) (hp : 1 ≤ printStep c n ∨ n = 0) (hk : ∀ t < n, Courant c v t ∧ OffWalls c v t) :
    ∃ m m' o, mainOld c v f = .ok m ∧ mainOpenMP 2 c v f = .ok (m', o) ∧
      OldReady m c (fieldsAt c v f (departs c v) n) ∧ ∀ i < c.ny, ∀ j < c.nx, m (.d .mphi i j) = m' (.d .mphi i j) ∧
        m (.d .mpsix i j) = m' (.d .mpsix i j) ∧ m (.d .mpsiy i j) = m' (.d .mpsiy i j) ∧
        m (.d .mpsixy i j) = m' (.d .mpsixy i j) := by
  obtain ⟨m0, e0, h0⟩ := setupOld_ready hc f
  obtain ⟨m, e, h1⟩ := loopOld_new hc v f n 0 (by simpa using hk) h0
  rw [Nat.zero_add] at h1
  obtain ⟨m', o, e', h2, -⟩ := C54_openmp hc v f hdt hn (lt_of_le_of_lt h (by decide)) hp (argc := 2) le_rfl
  refine ⟨m, m', o, ?_, e', h1, fun i hi j hj => ⟨?_, ?_, ?_, ?_⟩⟩
  · rw [mainOld, oldSteps_ok hdt hn h, M.ok_bind, e0, M.ok_bind, Int.toNat_natCast, e]
  · rw [h1.phi i hi j hj, h2.phi i hi j hj]
  · rw [h1.psix i hi j hj, h2.psix i hi j hj]
  · rw [h1.psiy i hi j hj, h2.psiy i hi j hj]
  · rw [h1.psixy i hi j hj, h2.psixy i hi j hj]

end run

/-! ## Examples and counterexamples -/

/-- Three by three nodes, two steps. -/
def oldC : Setting ℚ := ⟨0, 2, 3, 0, 2, 3, 1, 2, 1, 1, ⟨"SuperConsistent", "RK3"⟩⟩
/-- A uniform flow, a quarter and an eighth of a cell per step. -/
def oldV : Vel ℚ := ⟨fun _ _ _ => 1 / 4, fun _ _ _ => 1 / 8, fun _ _ _ => 0, fun _ _ _ => 0, fun _ _ _ => 0, fun _ _ _ => 0⟩
/-- `φ = x`. -/
def oldF : Initial ℚ := ⟨fun x _ => x, fun _ _ => 1, fun _ _ => 0, fun _ _ => 0⟩

theorem oldC_valid : Valid oldC := ⟨by decide, by decide, by decide, by decide, by norm_num [oldC], by norm_num [oldC]⟩

theorem oldC_departs (t a b : ℕ) : departs oldC oldV t a b = (posX oldC b - 1 / 4, posY oldC a - 1 / 8) := by
  ext <;> simp only [departs, Spec.departAt, Spec.departRK3, oldV, Spec.departEuler] <;> split_ifs <;> norm_num [oldC]

example : oldC.dt ≠ 0 ∧ Spec.Truncated (oldC.tfinal / oldC.dt) 2 ∧ 1 ≤ printStep oldC 2 ∧
    ∀ t < 2, Courant oldC oldV t ∧ OffWalls oldC oldV t := by
  refine ⟨by norm_num [oldC], ⟨by norm_num [oldC], by norm_num [oldC]⟩, by decide, fun t _ => ⟨fun a ha b hb => ?_, fun a ha b hb => ?_⟩⟩
  · rw [oldC_departs, oldC_valid.dx_eq, oldC_valid.dy_eq]
    constructor <;> constructor <;> norm_num [oldC] <;> linarith
  · have ha : a < 3 := ha
    have hb : b < 3 := hb
    rw [oldC_departs]
    interval_cases a <;> interval_cases b <;> norm_num [posX, posY, oldC]

/-- Five by three nodes, one step of two cells. -/
def stuckC : Setting ℚ := ⟨0, 4, 5, 0, 2, 3, 2, 2, 1, 1, ⟨"SuperConsistent", "RK3"⟩⟩
/-- A uniform flow. -/
def stuckV : Vel ℚ := ⟨fun _ _ _ => 1, fun _ _ _ => 0, fun _ _ _ => 0, fun _ _ _ => 0, fun _ _ _ => 0, fun _ _ _ => 0⟩

theorem stuckC_valid : Valid stuckC := ⟨by decide, by decide, by decide, by decide, by norm_num [stuckC], by norm_num [stuckC]⟩

/-- C66 is false for longer steps: in a uniform flow the interior node at `(3, 1)`, whose departure point `(1, 1)` is a node inside
the domain, keeps its value 3; the value at the departure point is 1. -/
theorem C66_false : departs stuckC stuckV 0 1 3 = (1, 1) ∧ oldF.phi 1 1 = 1 ∧
    ∃ m, mainOld stuckC stuckV oldF = .ok m ∧ m (.d .mphi 1 3) = .val 3 := by
  have hd : departs stuckC stuckV 0 1 3 = (1, 1) := by decide +kernel
  refine ⟨hd, rfl, ?_⟩
  obtain ⟨m, Fs, e, h0, h1, h2⟩ := C66_run_partial stuckC_valid stuckV oldF (by norm_num [stuckC]) (n := 1)
    ⟨by norm_num [stuckC], by norm_num [stuckC]⟩ (by norm_num)
  refine ⟨m, e, (h2.phi 1 (by decide) 3 (by decide)).trans ?_⟩
  have hn := (h1 0 (by norm_num)).node 1 (by decide) 3 (by decide)
  have hX : ¬ ∃ q, Spec.NextTo (posX stuckC) stuckC.nx (departs stuckC stuckV 0 1 3).1 3 q := by
    rw [hd]
    rintro ⟨q, ⟨rfl | hq, -⟩, -, h, -⟩
    · norm_num [posX, stuckC] at h
    · obtain rfl : q = 2 := by omega
      norm_num [posX, stuckC] at h
  have := congrArg Prod.fst (hn.still (fun h => hX h.1) (fun h => hX h.1)
    (fun h => by rw [hd] at h; norm_num [stuckC] at h) (fun h => by norm_num [stuckC] at h))
  simp only [h0, zero_add] at this
  rw [this]
  exact congrArg Slot.val (by norm_num [initialFields, oldF, posX, stuckC])

/-- Three by three nodes, one step. -/
def wallC : Setting ℚ := ⟨0, 2, 3, 0, 2, 3, 1 / 2, 1 / 2, 1, 1, ⟨"SuperConsistent", "Euler"⟩⟩
/-- The flow `u = x`: no flow through the wall `x = 0`. -/
def wallV : Vel ℚ := ⟨fun x _ _ => x, fun _ _ _ => 0, fun _ _ _ => 1, fun _ _ _ => 0, fun _ _ _ => 0, fun _ _ _ => 0⟩

theorem wallC_valid : Valid wallC := ⟨by decide, by decide, by decide, by decide, by norm_num [wallC], by norm_num [wallC]⟩

/-- C67 is false on the boundary: the node `(0, 1)` on a wall without flow through it is its own departure point.  The first serial
program treats it as inside and transports the gradient to 1/2; the OpenMP program treats it as outside and leaves the gradient 1. -/
theorem C67_false : ∃ m m' o, mainOld wallC wallV oldF = .ok m ∧ mainOpenMP 2 wallC wallV oldF = .ok (m', o) ∧
    m (.d .mpsix 1 0) = .val (1 / 2) ∧ m' (.d .mpsix 1 0) = .val 1 := by
  obtain ⟨m, Fs, e, h0, h1, h2⟩ := C66_run_partial wallC_valid wallV oldF (by norm_num [wallC]) (n := 1)
    ⟨by norm_num [wallC], by norm_num [wallC]⟩ (by norm_num)
  obtain ⟨m', o, e', h3, -⟩ := C54_openmp wallC_valid wallV oldF (by norm_num [wallC]) (n := 1)
    ⟨by norm_num [wallC], by norm_num [wallC]⟩ (by decide) (.inl (by decide)) (argc := 2) le_rfl
  refine ⟨m, m', o, e, e', (h2.psix 1 (by decide) 0 (by decide)).trans ?_, (h3.psix 1 (by decide) 0 (by decide)).trans ?_⟩
  · have hn := (h1 0 (by norm_num)).node 1 (by decide) 0 (by decide)
    have hd : departs wallC wallV 0 1 0 = (0, 1) := by decide +kernel
    have := congrArg (fun r => r.2.1) (hn.inside 0 0
      (by rw [hd]; refine ⟨⟨.inl rfl, by decide⟩, by decide, ?_, ?_⟩ <;> norm_num [posX, wallC])
      (by rw [hd]; refine ⟨⟨.inr rfl, by decide⟩, by decide, ?_, ?_⟩ <;> norm_num [posY, wallC]))
    simp only [h0, zero_add] at this
    rw [this]
    exact congrArg Slot.val (by decide +kernel)
  · exact congrArg Slot.val (by decide +kernel)

/-- Instances of `C66_run_partial` and `C66_courant`: the node (1, 1) in both steps of `oldC`, cells (0, 0). -/
example : ∃ (m : Mem (Val ℚ)) (Fs : ℕ → Spec.Fields ℚ), mainOld oldC oldV oldF = .ok m ∧ OldReady m oldC (Fs 2) ∧ ∀ t < 2,
    ((Fs (t + 1)).phi 1 1, (Fs (t + 1)).psix 1 1, (Fs (t + 1)).psiy 1 1) = oldSpec oldC oldV t (posX oldC) (posY oldC) oldC.dx oldC.dy
      (Fs t) 1 1 (departs oldC oldV t 1 1) (Spec.closedClass (posX oldC) (posY oldC) 3 3 (departs oldC oldV t 1 1)) 0 0 := by
  obtain ⟨m, Fs, e, -, h, r⟩ := C66_run_partial oldC_valid oldV oldF (by norm_num [oldC]) (n := 2)
    ⟨by norm_num [oldC], by norm_num [oldC]⟩ (by decide)
  refine ⟨m, Fs, e, r, fun t ht => C66_courant oldC_valid (h t ht) (fun a _ b _ => ?_) (by decide) (by decide) (.inl ?_) (.inl ?_)⟩
  · rw [oldC_departs, oldC_valid.dx_eq, oldC_valid.dy_eq]
    constructor <;> constructor <;> norm_num [oldC] <;> linarith
  · rw [oldC_departs]
    norm_num [Spec.InCell, posX, oldC]
  · rw [oldC_departs]
    norm_num [Spec.InCell, posY, oldC]

end Gals.Props
