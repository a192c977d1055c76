import Verif.Lemmas.Field
import Verif.Lemmas.Array
import Verif.Spec.Levelset
import Verif.Model.Hermite
import Verif.Model.Linear

/-!
# Reading the stencil of a point
-/

namespace Gals

open Spec

section
variable {K : Type} {d : ℕ}

theorem Spec.Req.Valid.side_le {r : Req K} (h : r.Valid d) (a : Fin 3) : r.n.get a + 2 * r.pad ≤ 2147483647 := by
  have h1 := h.nx_pos
  have h2 := h.ny_pos
  have h3 := h.nz_pos
  have hp := h.pad_nonneg
  have hf := h.fits
  generalize hx : r.n.x + 2 * r.pad = X at *
  generalize hy : r.n.y + 2 * r.pad = Y at *
  generalize hz : r.n.z + 2 * r.pad = Z at *
  have x1 : 1 ≤ X := by omega
  have y1 : 1 ≤ Y := by omega
  have z1 : 1 ≤ Z := by omega
  have p : 1 ≤ X * Y := by nlinarith
  have q1 : X ≤ X * Y := by nlinarith
  have q2 : Y ≤ X * Y := by nlinarith
  have q3 : X * Y ≤ X * Y * Z := by nlinarith
  have q4 : Z ≤ X * Y * Z := by nlinarith
  match a with
  | 0 => show r.n.x + _ ≤ _; omega
  | 1 => show r.n.y + _ ≤ _; omega
  | 2 => show r.n.z + _ ≤ _; omega

/-- With wrap-around arithmetic the third coordinate is ignored on a grid of dimension below 3. -/
theorem Arr.getV_wrap_z {T : Type} {g : Grid K d} (hs : g.Shape) (hd : d < 3) (a : Arr T) (i j k k' : ℤ) :
    a.getV .wrap g ⟨i, j, k⟩ = a.getV .wrap g ⟨i, j, k'⟩ := by
  unfold Arr.getV Arr.get
  simp only
  rw [Grid.index_wrap_z hs hd i j k k']

theorem Arr.getV_wrap_yz {T : Type} {g : Grid K d} (hs : g.Shape) (hd : d < 2) (a : Arr T) (i j j' k k' : ℤ) :
    a.getV .wrap g ⟨i, j, k⟩ = a.getV .wrap g ⟨i, j', k'⟩ := by
  rw [Arr.getV_wrap_z hs (by omega) a i j k k']
  unfold Arr.getV Arr.get
  simp only
  rw [Grid.index_wrap_y hs hd i j j' k']

theorem Grid.atV_wrap_z {g : Grid K d} (hs : g.Shape) (hd : d < 3) (i j k k' : ℤ) :
    g.atV .wrap ⟨i, j, k⟩ = g.atV .wrap ⟨i, j, k'⟩ := by
  unfold Grid.atV Grid.at'
  simp only
  rw [Grid.index_wrap_z hs hd i j k k']

theorem Grid.atV_wrap_yz {g : Grid K d} (hs : g.Shape) (hd : d < 2) (i j j' k k' : ℤ) :
    g.atV .wrap ⟨i, j, k⟩ = g.atV .wrap ⟨i, j', k'⟩ := by
  rw [Grid.atV_wrap_z hs (by omega) i j k k']
  unfold Grid.atV Grid.at'
  simp only
  rw [Grid.index_wrap_y hs hd i j j' k']

/-- For any three functions there are fields that hold them. -/
theorem Arr.exists_rep {T : Type} {g : Grid K d} (hs : g.Shape) (f : Cell → T) : ∃ a : Arr T, a.Rep g f := by
  classical
  set a0 : Arr T := { nx := g.nx, ny := g.ny, nz := g.nz, pad := g.pad,
                      data := List.replicate g.slots.toNat (f (0, 0, 0)) } with ha0
  obtain ⟨-, hpos, -⟩ := Grid.storageSize_ok .strict hs
  have h0 : a0.Rep g (fun _ => f (0, 0, 0)) := by
    refine ⟨by simp [ha0]; omega, ?_⟩
    intro c hc
    have := Grid.lin_bound hs hc
    rw [rd_eq_ok_iff]
    refine ⟨this.1, ?_⟩
    simp only [ha0]
    rw [List.getElem?_replicate]
    simp; omega
  obtain ⟨a, -, h, -⟩ := h0.loop_set (s := .strict) hs (l := g.genCells)
    (fun c hc => (Grid.mem_genCells hs).1 hc) (v := fun c => .ok (f c)) f (fun _ _ => rfl)
  exact ⟨a, h.congr fun c hc => by rw [if_pos ((Grid.mem_genCells hs).2 hc)]⟩

end

section
variable {K : Type} {d : ℕ} [Field K] [LinearOrder K] [IsStrictOrderedRing K] [FloorRing K]

/-- `baseNodeId` leaves `INT_MAX` along unused axes. -/
theorem Grid.baseNodeId_unused {K : Type} [One K] [Sub K] [Mul K] [Div K] [NatCast K] [HasFloor K] {g : Grid K d} {x : Vec3 K} {b : Vec3 ℤ}
    (e : g.baseNodeId x = .ok b) (a : Fin 3) (ha : ¬ a.val < d) : b.get a = intMax := by
  unfold Grid.baseNodeId at e
  simp only [M.pure_eq] at e
  generalize hf : (fun a : Fin 3 => (if a.val < d then
      toInt (HasFloor.floorI ((x.get a - g.boxMin.get a) * g.oneOverDx.get a - 1 / 2)) else .ok intMax : M ℤ)) = f at e
  have hfa : f a = .ok intMax := by rw [← hf]; exact if_neg ha
  have e' : (f 0 >>= fun b0 => f 1 >>= fun b1 => f 2 >>= fun b2 => (.ok ⟨b0, b1, b2⟩ : M (Vec3 ℤ))) = .ok b := by
    rw [← hf]; exact e
  cases h0 : f 0 with
  | error => rw [h0] at e'; cases e'
  | ok b0 =>
    cases h1 : f 1 with
    | error => rw [h0, h1] at e'; cases e'
    | ok b1 =>
      cases h2 : f 2 with
      | error => rw [h0, h1, h2] at e'; cases e'
      | ok b2 =>
        rw [h0, h1, h2] at e'
        cases e'
        match a with
        | 0 => rw [h0] at hfa; exact Except.ok.inj hfa
        | 1 => rw [h1] at hfa; exact Except.ok.inj hfa
        | 2 => rw [h2] at hfa; exact Except.ok.inj hfa

omit [LinearOrder K] [IsStrictOrderedRing K] [FloorRing K] in
/-- There is a level set with any given previous-step fields. -/
theorem prevIs_exists {s : IntSem} {r : Req K} {g : Grid K d} (G : g.Made s r) (phi : Cell → K) (psi : Cell → Vec3 K)
    (mix : Cell → List K) : ∃ ls, PrevIs s r g ls phi psi mix := by
  obtain ⟨a, ha⟩ := Arr.exists_rep G.shape phi
  obtain ⟨b, hb⟩ := Arr.exists_rep G.shape psi
  obtain ⟨c, hc⟩ := Arr.exists_rep G.shape mix
  refine ⟨{ Levelset.mk' g with phiPrev := a, psiPrev := b, phiMixedPrev := c }, ?_, ?_, ?_⟩
  · exact fun c hc => ha.get G.shape (G.inPad.2 hc)
  · exact fun c hc => hb.get G.shape (G.inPad.2 hc)
  · exact fun c' hc' => hc.get G.shape (G.inPad.2 hc')

omit [FloorRing K] in
/-- Base cells are unique. -/
theorem Spec.BaseCell.unique {r : Req K} (h : r.Valid d) (hpos : r.Pos d) {x : Vec3 K} {b b' : Cell}
    (H : BaseCell r d x b) (H' : BaseCell r d x b') : b = b' := by
  have : ∀ a, comp b a = comp b' a := by
    intro a
    by_cases ha : a.val < d
    · have h1 := (centre_lt_iff h hpos a ha).1 (lt_of_le_of_lt (H.lo a ha) (H'.hi a ha))
      have h2 := (centre_lt_iff h hpos a ha).1 (lt_of_le_of_lt (H'.lo a ha) (H.hi a ha))
      omega
    · rw [H.unused a ha, H'.unused a ha]
  obtain ⟨i, j, k⟩ := b
  obtain ⟨i', j', k'⟩ := b'
  have h0 : i = i' := this 0
  have h1 : j = j' := this 1
  have h2 : k = k' := this 2
  rw [h0, h1, h2]

omit [FloorRing K] in
/-- Points of the closed box are between stored nodes, for every padding at least 1. -/
theorem inStorage_of_box {r : Req K} (h : r.Valid d) (hpos : r.Pos d) (hpad : 1 ≤ r.pad) {x : Vec3 K}
    (hx : ∀ a : Fin 3, a.val < d → r.lo.get a ≤ x.get a ∧ x.get a ≤ r.hi.get a) : InStorage r d x := by
  intro a ha
  have hh := h.h_pos hpos a ha
  obtain ⟨l, u⟩ := hx a ha
  have hhi : r.hi.get a = r.lo.get a + ((r.n.get a : ℤ) : K) * r.h a := by
    have : ((r.n.get a : ℤ) : K) ≠ 0 := by
      have := (h.n_pos a).ne'
      exact_mod_cast this
    unfold Req.h
    field_simp
    ring
  rw [hhi] at u
  have hp : (1 : K) ≤ ((r.pad : ℤ) : K) := by exact_mod_cast hpad
  unfold Req.centre
  push_cast
  constructor <;> nlinarith

/-- A point between stored nodes has a base cell, and `baseNodeId` finds it (leaving `INT_MAX` along unused axes). -/
theorem Grid.Made.baseCell {s : IntSem} {r : Req K} {g : Grid K d} (G : g.Made s r) (h : r.Valid d) (hpos : r.Pos d)
    {x : Vec3 K} (hx : InStorage r d x) :
    ∃ b : Cell, BaseCell r d x b ∧ g.baseNodeId x = .ok
      ⟨b.1, if 1 < d then b.2.1 else intMax, if 2 < d then b.2.2 else intMax⟩ := by
  have hp := h.pad_nonneg
  obtain ⟨b, e, H⟩ := G.base h hpos x (by
    intro a ha
    obtain ⟨l, u⟩ := hx a ha
    have hs := h.side_le a
    have hn := h.n_pos a
    constructor
    · refine le_trans ?_ l
      by_contra hcon
      push Not at hcon
      rw [centre_lt_iff h hpos a ha] at hcon
      omega
    · refine lt_trans u ?_
      rw [centre_lt_iff h hpos a ha]
      omega)
  have h0 : (0 : Fin 3).val < d := by rcases h.dim with rfl | rfl | rfl <;> decide
  have hst : ∀ a : Fin 3, a.val < d → -r.pad ≤ b.get a ∧ b.get a + 1 < r.n.get a + r.pad := by
    intro a ha
    obtain ⟨l, u⟩ := hx a ha
    obtain ⟨⟨l', u'⟩, -⟩ := H a ha
    have h1 := (centre_lt_iff h hpos a ha).1 (lt_of_le_of_lt l u')
    have h2 := (centre_lt_iff h hpos a ha).1 (lt_of_le_of_lt l' u)
    omega
  set c : Cell := (b.x, if 1 < d then b.y else 0, if 2 < d then b.z else 0) with hc
  have hcomp : ∀ a : Fin 3, a.val < d → comp c a = b.get a := by
    intro a ha
    match a with
    | 0 => rfl
    | 1 => exact if_pos ha
    | 2 => exact if_pos ha
  refine ⟨c, ⟨?_, ?_, ?_, ?_⟩, ?_⟩
  · intro a ha
    rw [hcomp a ha]
    exact (H a ha).1.1
  · intro a ha
    rw [hcomp a ha]
    exact (H a ha).1.2
  · intro a ha
    rw [hcomp a ha]
    exact hst a ha
  · intro a ha
    match a with
    | 0 => exact absurd h0 ha
    | 1 => exact if_neg ha
    | 2 => exact if_neg ha
  · have hb2 := Grid.baseNodeId_unused e
    rw [e]
    congr 1
    apply Vec3.ext
    · rfl
    · show b.y = if 1 < d then (if 1 < d then b.y else 0) else intMax
      split
      · rfl
      · rename_i hd; exact hb2 1 hd
    · show b.z = if 2 < d then (if 2 < d then b.z else 0) else intMax
      split
      · rfl
      · rename_i hd; exact hb2 2 hd

omit [IsStrictOrderedRing K] [FloorRing K] in
theorem Spec.BaseCell.stencil {r : Req K} (h : r.Valid d) {x : Vec3 K} {b : Cell} (H : BaseCell r d x b) (i j k : ℤ)
    (hi : i = 0 ∨ i = 1) (hj : j = 0 ∨ j = 1 ∧ 1 < d) (hk : k = 0 ∨ k = 1 ∧ 2 < d) :
    r.Padded d (b.1 + i, b.2.1 + j, b.2.2 + k) := by
  have hp := h.pad_nonneg
  have n0 := h.nx_pos
  have n1 := h.ny_pos
  have n2 := h.nz_pos
  have h0 : (0 : Fin 3).val < d := by rcases h.dim with rfl | rfl | rfl <;> decide
  refine ⟨?_, ?_, ?_⟩
  · have := H.stored 0 h0
    have e : padAlong d r.pad 0 = r.pad := if_pos h0
    rw [e]
    change -r.pad ≤ b.1 ∧ b.1 + 1 < r.n.x + r.pad at this
    show -r.pad ≤ b.1 + i ∧ b.1 + i < r.n.x + r.pad
    rcases hi with hi | hi <;> omega
  · show -padAlong d r.pad 1 ≤ b.2.1 + j ∧ b.2.1 + j < r.n.y + padAlong d r.pad 1
    by_cases hd : 1 < d
    · have := H.stored 1 hd
      have e : padAlong d r.pad 1 = r.pad := if_pos hd
      rw [e]
      change -r.pad ≤ b.2.1 ∧ b.2.1 + 1 < r.n.y + r.pad at this
      rcases hj with hj | hj <;> omega
    · have : b.2.1 = 0 := H.unused 1 hd
      have e : padAlong d r.pad 1 = 0 := if_neg hd
      rw [e, this]
      omega
  · show -padAlong d r.pad 2 ≤ b.2.2 + k ∧ b.2.2 + k < r.n.z + padAlong d r.pad 2
    by_cases hd : 2 < d
    · have := H.stored 2 hd
      have e : padAlong d r.pad 2 = r.pad := if_pos hd
      rw [e]
      change -r.pad ≤ b.2.2 ∧ b.2.2 + 1 < r.n.z + r.pad at this
      rcases hk with hk | hk <;> omega
    · have : b.2.2 = 0 := H.unused 2 hd
      have e : padAlong d r.pad 2 = 0 := if_neg hd
      rw [e, this]
      omega

omit [IsStrictOrderedRing K] [FloorRing K] in
theorem Spec.BaseCell.succ_ok {r : Req K} (h : r.Valid d) {x : Vec3 K} {b : Cell} (H : BaseCell r d x b) (s : IntSem)
    (a : Fin 3) (ha : a.val < d) (z : ℤ) (hz : z = comp b a) : iadd s z (axisVec a a) = .ok (z + 1) := by
  subst hz
  have hp := h.pad_nonneg
  have h1 := H.stored a ha
  have h2 := h.side_le a
  have h3 := h.n_pos a
  unfold iadd axisVec
  rw [if_pos rfl]
  exact ck_ok s ⟨by unfold intMin; omega, by unfold intMax; omega⟩

/-- Position of the node read for cell `c`. -/
def nodePos (r : Req K) (d : ℕ) (c : Cell) : Vec3 K :=
  let p (a : Fin 3) : K := if a.val < d then r.centre a (comp c a + (r.pad - 1)) else 0
  ⟨p 0, p 1, p 2⟩

omit [LinearOrder K] [IsStrictOrderedRing K] [FloorRing K] in
theorem nodePos_get (r : Req K) (c : Cell) (a : Fin 3) :
    (nodePos r d c).get a = if a.val < d then r.centre a (comp c a + (r.pad - 1)) else 0 := by
  match a with
  | 0 => rfl
  | 1 => rfl
  | 2 => rfl

omit [LinearOrder K] [IsStrictOrderedRing K] [FloorRing K] in
theorem Grid.Made.atV {s : IntSem} {r : Req K} {g : Grid K d} (G : g.Made s r) {c : Cell} (hc : r.Padded d c) :
    g.atV s ⟨c.1, c.2.1, c.2.2⟩ = .ok (nodePos r d c) := by
  have e := G.node c (G.inPad.2 hc)
  have : Grid.elem g g.boxMin g.dx c = nodePos r d c := by
    have key : ∀ a, (Grid.elem g g.boxMin g.dx c).get a = (nodePos r d c).get a := by
      intro a
      rw [nodePos_get]
      split
      · rename_i ha
        rw [Grid.elem_active G c a ha, G.boxMin, G.dx]
        unfold Req.centre
        push_cast
        ring
      · rename_i ha
        exact Grid.elem_inactive g _ _ c a ha
    exact Vec3.ext (key 0) (key 1) (key 2)
  rw [← this]
  exact e

/-- 1D: what `interpolate` computes (wrap-around reading of the index arithmetic). -/
theorem interp1_eval {r : Req K} {g : Grid K 1} (G : g.Made .wrap r) (h : r.Valid 1) (hpos : r.Pos 1)
    {ls : Levelset K} {phi : Cell → K} {psi : Cell → Vec3 K} {mix : Cell → List K} (P : PrevIs .wrap r g ls phi psi mix)
    {x : Vec3 K} (hx : InStorage r 1 x) (lim : Bool) :
    ∃ b, BaseCell r 1 x b ∧ interpolate .wrap g ls x lim = .ok
      (kernel1 (r.h 0) (1 / r.h 0) ((x.x - (nodePos r 1 b).x) * (1 / r.h 0))
        ⟨phi b, psi b⟩ ⟨phi (b.1 + 1, b.2.1, b.2.2), psi (b.1 + 1, b.2.1, b.2.2)⟩ lim) := by
  obtain ⟨b, H, e⟩ := G.baseCell h hpos hx
  refine ⟨b, H, ?_⟩
  have s0 := H.stencil h 0 0 0 (by simp) (by simp) (by simp)
  have s1 := H.stencil h 1 0 0 (by simp) (by simp) (by simp)
  obtain ⟨i, j, k⟩ := b
  simp only [add_zero] at s0 s1
  have hj : j = 0 := H.unused 1 (by decide)
  have hk : k = 0 := H.unused 2 (by decide)
  subst hj hk
  simp only [lt_irrefl, if_false, show ¬ (2 < 1) by decide] at e
  have hdx : g.dx.x = r.h 0 := G.dx 0
  have hinv : g.oneOverDx.x = 1 / r.h 0 := G.oneOverDx 0 (by decide)
  have rn : ∀ c, r.Padded 1 c → readNode1 .wrap g ls ⟨c.1, c.2.1, c.2.2⟩ = .ok ⟨phi c, psi c⟩ := by
    intro c hc
    have r0 : ls.phiPrev.getV .wrap g ⟨c.1, c.2.1, c.2.2⟩ = _ := P.phi _ hc
    have r1 : ls.psiPrev.getV .wrap g ⟨c.1, c.2.1, c.2.2⟩ = _ := P.psi _ hc
    unfold readNode1
    rw [r0, r1]
    rfl
  have hz : ∀ m : ℤ, readNode1 .wrap g ls ⟨i, m, m⟩ = readNode1 .wrap g ls ⟨i, 0, 0⟩ := by
    intro m
    unfold readNode1
    simp only [Arr.getV_wrap_yz G.shape (by decide) _ i m 0 m 0]
  unfold interpolate interp1
  rw [if_pos rfl, e, M.ok_bind]
  simp only
  rw [H.succ_ok h .wrap 0 (by decide) i rfl, M.ok_bind, Grid.atV_wrap_yz G.shape (by decide) i _ 0 _ 0,
    G.atV s0, M.ok_bind, hz, rn _ s0, M.ok_bind, rn _ s1, M.ok_bind, hdx, hinv]
  rfl

/-- Node data of a 2D cell. -/
def node2 (phi : Cell → K) (psi : Cell → Vec3 K) (xy : Cell → K) (c : Cell) : Node2 K := ⟨phi c, psi c, xy c⟩

/-- 2D: what `interpolate` computes (wrap-around reading of the index arithmetic). -/
theorem interp2_eval {r : Req K} {g : Grid K 2} (G : g.Made .wrap r) (h : r.Valid 2) (hpos : r.Pos 2)
    {ls : Levelset K} {phi : Cell → K} {psi : Cell → Vec3 K} {xy : Cell → K}
    (P : PrevIs .wrap r g ls phi psi (fun c => [xy c]))
    {x : Vec3 K} (hx : InStorage r 2 x) (lim : Bool) :
    ∃ b, BaseCell r 2 x b ∧ interpolate .wrap g ls x lim = .ok
      (kernel2 g.dx g.oneOverDx ((x.sub (nodePos r 2 b)).mul g.oneOverDx)
        (node2 phi psi xy b) (node2 phi psi xy (b.1 + 1, b.2.1, b.2.2))
        (node2 phi psi xy (b.1, b.2.1 + 1, b.2.2)) (node2 phi psi xy (b.1 + 1, b.2.1 + 1, b.2.2)) lim) := by
  obtain ⟨b, H, e⟩ := G.baseCell h hpos hx
  refine ⟨b, H, ?_⟩
  have s00 := H.stencil h 0 0 0 (by simp) (by simp) (by simp)
  have s10 := H.stencil h 1 0 0 (by simp) (by simp) (by simp)
  have s01 := H.stencil h 0 1 0 (by simp) (by simp) (by simp)
  have s11 := H.stencil h 1 1 0 (by simp) (by simp) (by simp)
  obtain ⟨i, j, k⟩ := b
  simp only [add_zero] at s00 s10 s01 s11
  have hk : k = 0 := H.unused 2 (by decide)
  subst hk
  simp only [lt_irrefl, if_false, show (1 < 2) by decide, if_true] at e
  unfold interpolate interp2
  rw [if_neg (by decide), if_pos rfl, e, M.ok_bind]
  simp only
  rw [H.succ_ok h .wrap 0 (by decide) i rfl, M.ok_bind, H.succ_ok h .wrap 1 (by decide) j rfl, M.ok_bind,
    Grid.atV_wrap_z G.shape (by decide) i j _ 0, G.atV s00, M.ok_bind]
  have rn : ∀ c, r.Padded 2 c → readNode2 .wrap g ls ⟨c.1, c.2.1, c.2.2⟩ = .ok (node2 phi psi xy c) := by
    intro c hc
    have r0 : ls.phiPrev.getV .wrap g ⟨c.1, c.2.1, c.2.2⟩ = _ := P.phi _ hc
    have r1 : ls.psiPrev.getV .wrap g ⟨c.1, c.2.1, c.2.2⟩ = _ := P.psi _ hc
    have r2 : ls.phiMixedPrev.getV .wrap g ⟨c.1, c.2.1, c.2.2⟩ = _ := P.mix _ hc
    unfold readNode2
    rw [r0, r1, r2]
    rfl
  have hz : ∀ m : ℤ, readNode2 .wrap g ls ⟨i, j, m⟩ = readNode2 .wrap g ls ⟨i, j, 0⟩ := by
    intro m
    unfold readNode2
    simp only [Arr.getV_wrap_z G.shape (by decide) _ i j m 0]
  rw [hz, rn _ s00, M.ok_bind, rn _ s10, M.ok_bind, rn _ s01, M.ok_bind, rn _ s11, M.ok_bind]
  rfl

/-- Node data of a 3D cell. -/
def node3 (phi : Cell → K) (psi : Cell → Vec3 K) (xy yz zx xyz : Cell → K) (c : Cell) : Node3 K :=
  ⟨phi c, psi c, xy c, yz c, zx c, xyz c⟩

/-- 3D: what `interpolate` computes, for both readings of the index arithmetic. -/
theorem interp3_eval {s : IntSem} {r : Req K} {g : Grid K 3} (G : g.Made s r) (h : r.Valid 3) (hpos : r.Pos 3)
    {ls : Levelset K} {phi : Cell → K} {psi : Cell → Vec3 K} {xy yz zx xyz : Cell → K}
    (P : PrevIs s r g ls phi psi (fun c => [xy c, yz c, zx c, xyz c]))
    {x : Vec3 K} (hx : InStorage r 3 x) (lim : Bool) :
    ∃ b, BaseCell r 3 x b ∧ interpolate s g ls x lim = .ok
      (kernel3 g.dx g.oneOverDx ((x.sub (nodePos r 3 b)).mul g.oneOverDx)
        (node3 phi psi xy yz zx xyz b) (node3 phi psi xy yz zx xyz (b.1 + 1, b.2.1, b.2.2))
        (node3 phi psi xy yz zx xyz (b.1, b.2.1 + 1, b.2.2)) (node3 phi psi xy yz zx xyz (b.1, b.2.1, b.2.2 + 1))
        (node3 phi psi xy yz zx xyz (b.1 + 1, b.2.1 + 1, b.2.2))
        (node3 phi psi xy yz zx xyz (b.1, b.2.1 + 1, b.2.2 + 1))
        (node3 phi psi xy yz zx xyz (b.1 + 1, b.2.1, b.2.2 + 1))
        (node3 phi psi xy yz zx xyz (b.1 + 1, b.2.1 + 1, b.2.2 + 1)) lim) := by
  obtain ⟨b, H, e⟩ := G.baseCell h hpos hx
  refine ⟨b, H, ?_⟩
  have s000 := H.stencil h 0 0 0 (by simp) (by simp) (by simp)
  have s100 := H.stencil h 1 0 0 (by simp) (by simp) (by simp)
  have s010 := H.stencil h 0 1 0 (by simp) (by simp) (by simp)
  have s001 := H.stencil h 0 0 1 (by simp) (by simp) (by simp)
  have s110 := H.stencil h 1 1 0 (by simp) (by simp) (by simp)
  have s011 := H.stencil h 0 1 1 (by simp) (by simp) (by simp)
  have s101 := H.stencil h 1 0 1 (by simp) (by simp) (by simp)
  have s111 := H.stencil h 1 1 1 (by simp) (by simp) (by simp)
  obtain ⟨i, j, k⟩ := b
  simp only [add_zero] at s000 s100 s010 s001 s110 s011 s101 s111
  simp only [show (1 < 3) by decide, show (2 < 3) by decide, if_true] at e
  unfold interpolate interp3
  rw [if_neg (by decide), if_neg (by decide), e, M.ok_bind]
  simp only
  rw [H.succ_ok h s 0 (by decide) i rfl, M.ok_bind, H.succ_ok h s 1 (by decide) j rfl, M.ok_bind,
    H.succ_ok h s 2 (by decide) k rfl, M.ok_bind, G.atV s000, M.ok_bind]
  have rn : ∀ c, r.Padded 3 c → readNode3 s g ls ⟨c.1, c.2.1, c.2.2⟩ = .ok (node3 phi psi xy yz zx xyz c) := by
    intro c hc
    have r0 : ls.phiPrev.getV s g ⟨c.1, c.2.1, c.2.2⟩ = _ := P.phi _ hc
    have r1 : ls.psiPrev.getV s g ⟨c.1, c.2.1, c.2.2⟩ = _ := P.psi _ hc
    have r2 : ls.phiMixedPrev.getV s g ⟨c.1, c.2.1, c.2.2⟩ = _ := P.mix _ hc
    unfold readNode3
    rw [r0, r1, r2]
    rfl
  rw [rn _ s000, M.ok_bind, rn _ s100, M.ok_bind, rn _ s010, M.ok_bind, rn _ s001, M.ok_bind, rn _ s110, M.ok_bind,
    rn _ s011, M.ok_bind, rn _ s101, M.ok_bind, rn _ s111, M.ok_bind]
  rfl

/-- 1D linear interpolation: what is computed (wrap-around reading of the index arithmetic). -/
theorem linear_eval {r : Req K} {g : Grid K 1} (G : g.Made .wrap r) (h : r.Valid 1) (hpos : r.Pos 1)
    {al : Arr K} {f : Cell → K} (P : ∀ c, r.Padded 1 c → al.get .wrap g c.1 c.2.1 c.2.2 = .ok (f c))
    {x : Vec3 K} (hx : InStorage r 1 x) :
    ∃ b, BaseCell r 1 x b ∧ linearInterp .wrap g x al = .ok
      ((1 - (x.x - (nodePos r 1 b).x) * (1 / r.h 0)) * f b
        + (x.x - (nodePos r 1 b).x) * (1 / r.h 0) * f (b.1 + 1, b.2.1, b.2.2)) := by
  obtain ⟨b, H, e⟩ := G.baseCell h hpos hx
  refine ⟨b, H, ?_⟩
  have s0 := H.stencil h 0 0 0 (by simp) (by simp) (by simp)
  have s1 := H.stencil h 1 0 0 (by simp) (by simp) (by simp)
  obtain ⟨i, j, k⟩ := b
  simp only [add_zero] at s0 s1
  have hj : j = 0 := H.unused 1 (by decide)
  have hk : k = 0 := H.unused 2 (by decide)
  subst hj hk
  simp only [lt_irrefl, if_false, show ¬ (2 < 1) by decide] at e
  have hinv : g.oneOverDx.x = 1 / r.h 0 := G.oneOverDx 0 (by decide)
  have rn : ∀ c, r.Padded 1 c → al.getV .wrap g ⟨c.1, c.2.1, c.2.2⟩ = .ok (f c) := fun c hc => P c hc
  unfold linearInterp
  rw [e, M.ok_bind]
  simp only
  rw [H.succ_ok h .wrap 0 (by decide) i rfl, M.ok_bind, Grid.atV_wrap_yz G.shape (by decide) i _ 0 _ 0,
    G.atV s0, M.ok_bind, Arr.getV_wrap_yz G.shape (by decide) al i _ 0 _ 0, rn _ s0, M.ok_bind, rn _ s1, M.ok_bind, hinv]
  rfl

/-- ISO reading: adding the padding to the `INT_MAX` left in an unused coordinate overflows. -/
theorem Grid.index_strict_overflow {K : Type} {g : Grid K d} (hp : 1 ≤ g.pad) (i j : ℤ) :
    g.index .strict i j intMax = .error .overflow := by
  unfold Grid.index
  have : iadd .strict intMax g.pad = .error .overflow :=
    ck_strict_overflow (by unfold InInt intMax; omega)
  rw [this, M.error_bind]

omit [LinearOrder K] [IsStrictOrderedRing K] [FloorRing K] in
theorem nodePos_succ (r : Req K) (c c' : Cell) (a : Fin 3) (ha : a.val < d) (h : comp c' a = comp c a + 1) :
    (nodePos r d c').get a = (nodePos r d c).get a + r.h a := by
  rw [nodePos_get, nodePos_get, if_pos ha, if_pos ha, h]
  unfold Req.centre
  push_cast
  ring

omit [LinearOrder K] [IsStrictOrderedRing K] [FloorRing K] in
theorem nodePos_same (r : Req K) (c c' : Cell) (a : Fin 3) (h : comp c' a = comp c a) :
    (nodePos r d c').get a = (nodePos r d c).get a := by
  rw [nodePos_get, nodePos_get, h]

omit [LinearOrder K] [IsStrictOrderedRing K] [FloorRing K] in
theorem Grid.Made.atC {s : IntSem} {r : Req K} {g : Grid K d} (G : g.Made s r) {c : Cell} (hc : r.Padded d c) :
    g.at' s c.1 c.2.1 c.2.2 = .ok (nodePos r d c) := by
  have := G.atV hc
  unfold Grid.atV at this
  exact this

end

end Gals
