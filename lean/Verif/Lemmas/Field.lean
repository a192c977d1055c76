import Verif.Lemmas.Make
import Mathlib.Algebra.Order.Floor.Ring
import Mathlib.Algebra.Order.Field.Basic
import Mathlib.Tactic.FieldSimp
import Mathlib.Tactic.Positivity

/-!
# Grids over an ordered field: node coordinates and base nodes
-/

namespace Gals

open Spec

/-- Over an ordered field with floor, `floor` is the mathematical one. -/
instance (priority := low) hasFloorOfFloorRing {K : Type} [Ring K] [LinearOrder K] [FloorRing K] : HasFloor K :=
  ⟨Int.floor⟩

theorem floorI_eq {K : Type} [Ring K] [LinearOrder K] [FloorRing K] (x : K) : HasFloor.floorI x = ⌊x⌋ := rfl

variable {K : Type} {d : ℕ} [Field K]

/-- Coordinates of the stored nodes along used axes: cell centres displaced by `pad - 1` cells. -/
theorem Grid.elem_active {s : IntSem} {r : Req K} {g : Grid K d}
    (G : g.Made s r) (c : Cell) (a : Fin 3) (ha : a.val < d) :
    (Grid.elem g g.boxMin g.dx c).get a
      = g.boxMin.get a + ((comp c a : K) + 1 / 2 + ((r.pad : K) - 1)) * g.dx.get a := by
  have h0 := G.shape.m0
  have h1 := G.shape.m1
  have h2 := G.shape.m2
  have hp := G.pad
  match a with
  | 0 =>
    have : (0 : ℕ) < d := ha
    simp [Grid.elem, Vec3.get, Grid.domainMinNew, h0, hp, comp, this]
    ring
  | 1 =>
    have hd : (1 : ℕ) < d := ha
    have hd' : 2 ≤ d := hd
    simp [Grid.elem, Vec3.get, Grid.domainMinNew, h1, hp, comp, hd, hd']
    ring
  | 2 =>
    have hd : (2 : ℕ) < d := ha
    have hd' : 3 ≤ d := hd
    simp [Grid.elem, Vec3.get, Grid.domainMinNew, h2, hp, comp, hd, hd']
    ring

theorem Grid.elem_inactive (g : Grid K d) (b dx : Vec3 K) (c : Cell) (a : Fin 3) (ha : ¬ a.val < d) :
    (Grid.elem g b dx c).get a = 0 := by
  match a with
  | 0 => exact if_neg ha
  | 1 => exact if_neg ha
  | 2 => exact if_neg ha

variable [LinearOrder K] [IsStrictOrderedRing K] [FloorRing K]

/-- The value computed by the floor in `baseNodeId` brackets the point. -/
theorem floor_base {lo h x : K} (hh : 0 < h) (b : ℤ) :
    ⌊(x - lo) * (1 / h) - 1 / 2⌋ = b ↔
      lo + ((b : K) + 1 / 2) * h ≤ x ∧ x < lo + (((b + 1 : ℤ) : K) + 1 / 2) * h := by
  rw [Int.floor_eq_iff]
  push_cast
  rw [mul_one_div]
  constructor
  · rintro ⟨a, c⟩
    constructor
    · have : ((b : K) + 1 / 2) ≤ (x - lo) / h := by linarith
      rw [le_div_iff₀ hh] at this
      linarith
    · have : (x - lo) / h < (b : K) + 1 + 1 / 2 := by linarith
      rw [div_lt_iff₀ hh] at this
      linarith
  · rintro ⟨a, c⟩
    constructor
    · have : ((b : K) + 1 / 2) ≤ (x - lo) / h := by rw [le_div_iff₀ hh]; linarith
      linarith
    · have : (x - lo) / h < (b : K) + 1 + 1 / 2 := by rw [div_lt_iff₀ hh]; linarith
      linarith

theorem Spec.Req.Valid.n_pos {K : Type} {r : Req K} (h : r.Valid d) (a : Fin 3) : 0 < r.n.get a := by
  match a with
  | 0 => exact h.nx_pos
  | 1 => exact h.ny_pos
  | 2 => exact h.nz_pos

omit [FloorRing K] in
theorem Spec.Req.Valid.h_pos {r : Req K} (h : r.Valid d) (hpos : r.Pos d) (a : Fin 3) (ha : a.val < d) : 0 < r.h a := by
  have : (0 : K) < ((r.n.get a : ℤ) : K) := by exact_mod_cast h.n_pos a
  exact div_pos (sub_pos.2 (hpos a ha)) this

omit [FloorRing K] in
theorem centre_lt_iff {r : Req K} (h : r.Valid d) (hpos : r.Pos d) (a : Fin 3) (ha : a.val < d) {i j : ℤ} :
    r.centre a i < r.centre a j ↔ i < j := by
  have hh := h.h_pos hpos a ha
  unfold Req.centre
  rw [add_lt_add_iff_left, mul_lt_mul_iff_left₀ hh, add_lt_add_iff_right]
  exact Int.cast_lt

/-- Base node: the enclosing interval along each used axis. -/
theorem Grid.Made.base {s : IntSem} {r : Req K} {g : Grid K d} (G : g.Made s r) (h : r.Valid d) (hpos : r.Pos d)
    (x : Vec3 K)
    (hx : ∀ a : Fin 3, a.val < d → r.centre a (-2147483648) ≤ x.get a ∧ x.get a < r.centre a (2147483647 + 1)) :
    ∃ b : Vec3 ℤ, g.baseNodeId x = .ok b ∧
      ∀ a : Fin 3, a.val < d →
        (r.centre a (b.get a) ≤ x.get a ∧ x.get a < r.centre a (b.get a + 1)) ∧
        ∀ b' : ℤ, r.centre a b' ≤ x.get a → x.get a < r.centre a (b' + 1) → b' = b.get a := by
  have hb : ∀ a : Fin 3, a.val < d → ∀ b : ℤ,
      ⌊(x.get a - g.boxMin.get a) * g.oneOverDx.get a - 1 / 2⌋ = b ↔
        r.centre a b ≤ x.get a ∧ x.get a < r.centre a (b + 1) := by
    intro a ha b
    rw [G.boxMin, G.oneOverDx a ha, floor_base (h.h_pos hpos a ha)]
    rfl
  have hint : ∀ a : Fin 3, a.val < d →
      InInt ⌊(x.get a - g.boxMin.get a) * g.oneOverDx.get a - 1 / 2⌋ := by
    intro a ha
    obtain ⟨l, u⟩ := hx a ha
    obtain ⟨l', u'⟩ := (hb a ha _).1 rfl
    have h1 := (centre_lt_iff h hpos a ha).1 (lt_of_le_of_lt l u')
    have h2 := (centre_lt_iff h hpos a ha).1 (lt_of_le_of_lt l' u)
    unfold InInt intMin intMax
    omega
  have hone : ∀ a : Fin 3, ∃ z : ℤ,
      (if a.val < d then
        toInt (HasFloor.floorI ((x.get a - g.boxMin.get a) * g.oneOverDx.get a - 1 / 2))
      else .ok intMax) = .ok z ∧
      (a.val < d → (r.centre a z ≤ x.get a ∧ x.get a < r.centre a (z + 1)) ∧
        ∀ b' : ℤ, r.centre a b' ≤ x.get a → x.get a < r.centre a (b' + 1) → b' = z) := by
    intro a
    by_cases ha : a.val < d
    · refine ⟨⌊(x.get a - g.boxMin.get a) * g.oneOverDx.get a - 1 / 2⌋, ?_, fun _ => ⟨?_, ?_⟩⟩
      · rw [if_pos ha, floorI_eq]
        unfold toInt
        rw [if_pos (hint a ha)]
      · exact (hb a ha _).1 rfl
      · intro b' h1 h2
        exact ((hb a ha b').2 ⟨h1, h2⟩).symm
    · exact ⟨intMax, by rw [if_neg ha], fun h => absurd h ha⟩
  obtain ⟨z0, e0, p0⟩ := hone 0
  obtain ⟨z1, e1, p1⟩ := hone 1
  obtain ⟨z2, e2, p2⟩ := hone 2
  refine ⟨⟨z0, z1, z2⟩, ?_, ?_⟩
  · unfold Grid.baseNodeId
    simp only [e0, e1, e2, M.ok_bind, M.pure_eq]
  · intro a ha
    match a with
    | 0 => exact p0 ha
    | 1 => exact p1 ha
    | 2 => exact p2 ha


/-- Base node of a point of the closed box. -/
theorem Grid.Made.base_box {s : IntSem} {r : Req K} {g : Grid K d} (G : g.Made s r) (h : r.Valid d) (hpos : r.Pos d)
    (x : Vec3 K) (hx : ∀ a : Fin 3, a.val < d → r.lo.get a ≤ x.get a ∧ x.get a ≤ r.hi.get a) :
    ∃ b : Vec3 ℤ, g.baseNodeId x = .ok b ∧
      (∀ a : Fin 3, a.val < d → r.centre a (b.get a) ≤ x.get a ∧ x.get a < r.centre a (b.get a + 1)) ∧
      ∀ a : Fin 3, a.val < d → -1 ≤ b.get a ∧ b.get a ≤ r.n.get a - 1 := by
  have hn : ∀ a : Fin 3, 0 < r.n.get a ∧ r.n.get a ≤ 2147483647 := by
    have a1 := h.nx_pos
    have a2 := h.ny_pos
    have a3 := h.nz_pos
    have i1 := h.inInt.2
    have p1 : 0 < r.n.x * r.n.y := mul_pos a1 a2
    have p2 : r.n.x ≤ r.n.x * r.n.y := by nlinarith
    have p3 : r.n.y ≤ r.n.x * r.n.y := by nlinarith
    have p4 : r.n.x * r.n.y ≤ r.n.x * r.n.y * r.n.z := by nlinarith
    have p5 : r.n.z ≤ r.n.x * r.n.y * r.n.z := by nlinarith
    have := i1.2
    unfold intMax at this
    intro a
    match a with
    | 0 => exact ⟨a1, show r.n.x ≤ _ by omega⟩
    | 1 => exact ⟨a2, show r.n.y ≤ _ by omega⟩
    | 2 => exact ⟨a3, show r.n.z ≤ _ by omega⟩
  have hhi : ∀ a : Fin 3, r.hi.get a = r.lo.get a + ((r.n.get a : ℤ) : K) * r.h a := by
    intro a
    have : ((r.n.get a : ℤ) : K) ≠ 0 := by
      have := (hn a).1.ne'
      exact_mod_cast this
    unfold Req.h
    field_simp
    ring
  obtain ⟨b, e1, H⟩ := G.base h hpos x (by
    intro a ha
    have hh := h.h_pos hpos a ha
    obtain ⟨l, u⟩ := hx a ha
    have hna : ((r.n.get a : ℤ) : K) ≤ 2147483647 := by exact_mod_cast (hn a).2
    rw [hhi] at u
    unfold Req.centre
    push_cast
    constructor
    · nlinarith
    · nlinarith)
  refine ⟨b, e1, fun a ha => (H a ha).1, ?_⟩
  · intro a ha
    have hh := h.h_pos hpos a ha
    obtain ⟨l, u⟩ := hx a ha
    obtain ⟨⟨l', u'⟩, -⟩ := H a ha
    rw [hhi] at u
    unfold Req.centre at l' u'
    push_cast at l' u'
    constructor
    · have h1 : (0 : K) < ((b.get a : ℤ) : K) + 1 + 1 / 2 := by
        by_contra hcon
        push Not at hcon
        have := mul_nonpos_of_nonpos_of_nonneg hcon hh.le
        linarith
      have h2 : (-2 : K) < ((b.get a : ℤ) : K) := by linarith
      have h3 : (-2 : ℤ) < b.get a := by exact_mod_cast h2
      omega
    · have h1 : ((b.get a : ℤ) : K) + 1 / 2 ≤ ((r.n.get a : ℤ) : K) := by
        by_contra hcon
        push Not at hcon
        have := mul_lt_mul_of_pos_right hcon hh
        linarith
      have h2 : ((b.get a : ℤ) : K) < ((r.n.get a : ℤ) : K) := by linarith
      have h3 : b.get a < r.n.get a := by exact_mod_cast h2
      omega

end Gals
