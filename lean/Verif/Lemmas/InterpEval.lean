import Verif.Lemmas.InterpAny

/-!
# Interpolation in any arithmetic: the result when the base node and its neighbours are stored
-/

set_option linter.unusedSectionVars false

namespace Gals

open Spec

variable {K : Type}
variable [Zero K] [One K] [Add K] [Sub K] [Mul K] [Div K] [Neg K] [NatCast K] [IntCast K]
  [LT K] [DecidableLT K] [LE K] [DecidableLE K] [HasFloor K]

/-- 1D. -/
theorem interp1_value {r : Req K} {g : Grid K 1} (G : g.Made .wrap r) (h : r.Valid 1)
    {ls : Levelset K} {phi : Cell → K} {psi : Cell → Vec3 K} {mix : Cell → List K}
    (P : PrevIs .wrap r g ls phi psi mix) {x : Vec3 K} {b : Vec3 ℤ}
    (e : g.baseNodeId x = .ok b)
    (hb : ∀ a : Fin 3, a.val < 1 → -r.pad ≤ b.get a ∧ b.get a + 1 < r.n.get a + r.pad) (lim : Bool) :
    interpolate .wrap g ls x lim = .ok (kernel1 g.dx.x g.oneOverDx.x
      ((x.x - (Grid.elem g g.boxMin g.dx (b.x, 0, 0)).x) * g.oneOverDx.x)
      ⟨phi (b.x, 0, 0), psi (b.x, 0, 0)⟩ ⟨phi (b.x + 1, 0, 0), psi (b.x + 1, 0, 0)⟩ lim) := by
  have hp := h.pad_nonneg
  have n0 := h.nx_pos
  have n1 := h.ny_pos
  have n2 := h.nz_pos
  have at_ok : ∀ c, r.Padded 1 c → g.atV .wrap ⟨c.1, c.2.1, c.2.2⟩ = .ok (Grid.elem g g.boxMin g.dx c) :=
    fun c hc => G.node c (G.inPad.2 hc)
  obtain ⟨bx, by', bz⟩ := b
  have c0 := hb 0 (by decide)
  simp only [Vec3.get] at c0
  have pc : ∀ i, (i = bx ∨ i = bx + 1) → r.Padded 1 (i, 0, 0) := by
    intro i hi
    have e0 : padAlong 1 r.pad 0 = r.pad := rfl
    have e1 : padAlong 1 r.pad 1 = 0 := rfl
    have e2 : padAlong 1 r.pad 2 = 0 := rfl
    refine ⟨?_, ?_, ?_⟩
    · rw [e0]; rcases hi with rfl | rfl <;> (constructor <;> dsimp only <;> omega)
    · rw [e1]; constructor <;> dsimp only <;> omega
    · rw [e2]; constructor <;> dsimp only <;> omega
  have rn : ∀ i j k, (i = bx ∨ i = bx + 1) → readNode1 .wrap g ls ⟨i, j, k⟩ = .ok ⟨phi (i, 0, 0), psi (i, 0, 0)⟩ := by
    intro i j k hi
    have r0 : ls.phiPrev.getV .wrap g ⟨i, 0, 0⟩ = .ok (phi (i, 0, 0)) := by
      unfold Arr.getV
      exact P.phi (i, 0, 0) (pc i hi)
    have r1 : ls.psiPrev.getV .wrap g ⟨i, 0, 0⟩ = .ok (psi (i, 0, 0)) := by
      unfold Arr.getV
      exact P.psi (i, 0, 0) (pc i hi)
    unfold readNode1
    rw [Arr.getV_wrap_yz G.shape (by decide) _ i j 0 k 0, Arr.getV_wrap_yz G.shape (by decide) _ i j 0 k 0, r0, r1]
    rfl
  unfold interpolate interp1
  rw [if_pos rfl, e, M.ok_bind]
  simp only
  rw [base_succ h .wrap 0 c0, M.ok_bind, Grid.atV_wrap_yz G.shape (by decide) bx _ 0 _ 0, at_ok _ (pc bx (.inl rfl)), M.ok_bind,
    rn bx by' bz (.inl rfl), M.ok_bind, rn (bx + 1) 0 0 (.inr rfl), M.ok_bind]
  rfl

/-- 2D. -/
theorem interp2_value {r : Req K} {g : Grid K 2} (G : g.Made .wrap r) (h : r.Valid 2)
    {ls : Levelset K} {phi : Cell → K} {psi : Cell → Vec3 K} {mix : Cell → List K} {xy : Cell → K}
    (hm : ∀ c, r.Padded 2 c → mix c = [xy c]) (P : PrevIs .wrap r g ls phi psi mix) {x : Vec3 K} {b : Vec3 ℤ}
    (e : g.baseNodeId x = .ok b)
    (hb : ∀ a : Fin 3, a.val < 2 → -r.pad ≤ b.get a ∧ b.get a + 1 < r.n.get a + r.pad) (lim : Bool) :
    let N := fun i j : ℤ => (⟨phi (i, j, 0), psi (i, j, 0), xy (i, j, 0)⟩ : Node2 K)
    interpolate .wrap g ls x lim = .ok (kernel2 g.dx g.oneOverDx
      ((x.sub (Grid.elem g g.boxMin g.dx (b.x, b.y, 0))).mul g.oneOverDx)
      (N b.x b.y) (N (b.x + 1) b.y) (N b.x (b.y + 1)) (N (b.x + 1) (b.y + 1)) lim) := by
  intro N
  have hp := h.pad_nonneg
  have n0 := h.nx_pos
  have n1 := h.ny_pos
  have n2 := h.nz_pos
  have at_ok : ∀ c, r.Padded 2 c → g.atV .wrap ⟨c.1, c.2.1, c.2.2⟩ = .ok (Grid.elem g g.boxMin g.dx c) :=
    fun c hc => G.node c (G.inPad.2 hc)
  obtain ⟨bx, by', bz⟩ := b
  have c0 := hb 0 (by decide)
  have c1 := hb 1 (by decide)
  simp only [Vec3.get] at c0 c1
  have pc : ∀ i j, (i = bx ∨ i = bx + 1) → (j = by' ∨ j = by' + 1) → r.Padded 2 (i, j, 0) := by
    intro i j hi hj
    have e0 : padAlong 2 r.pad 0 = r.pad := rfl
    have e1 : padAlong 2 r.pad 1 = r.pad := rfl
    have e2 : padAlong 2 r.pad 2 = 0 := rfl
    refine ⟨?_, ?_, ?_⟩
    · rw [e0]; rcases hi with rfl | rfl <;> (constructor <;> dsimp only <;> omega)
    · rw [e1]; rcases hj with rfl | rfl <;> (constructor <;> dsimp only <;> omega)
    · rw [e2]; constructor <;> dsimp only <;> omega
  have rn : ∀ i j k, (i = bx ∨ i = bx + 1) → (j = by' ∨ j = by' + 1) → readNode2 .wrap g ls ⟨i, j, k⟩ = .ok (N i j) := by
    intro i j k hi hj
    have r0 : ls.phiPrev.getV .wrap g ⟨i, j, 0⟩ = .ok (phi (i, j, 0)) := by
      unfold Arr.getV
      exact P.phi (i, j, 0) (pc i j hi hj)
    have r1 : ls.psiPrev.getV .wrap g ⟨i, j, 0⟩ = .ok (psi (i, j, 0)) := by
      unfold Arr.getV
      exact P.psi (i, j, 0) (pc i j hi hj)
    have r2 : ls.phiMixedPrev.getV .wrap g ⟨i, j, 0⟩ = .ok (mix (i, j, 0)) := by
      unfold Arr.getV
      exact P.mix (i, j, 0) (pc i j hi hj)
    unfold readNode2
    rw [Arr.getV_wrap_z G.shape (by decide) _ i j k 0, Arr.getV_wrap_z G.shape (by decide) _ i j k 0,
      Arr.getV_wrap_z G.shape (by decide) _ i j k 0, r0, r1, r2, M.ok_bind, M.ok_bind, M.ok_bind, hm _ (pc i j hi hj)]
    rfl
  unfold interpolate interp2
  rw [if_neg (by decide), if_pos rfl, e, M.ok_bind]
  simp only
  rw [base_succ h .wrap 0 c0, M.ok_bind, base_succ h .wrap 1 c1, M.ok_bind,
    Grid.atV_wrap_z G.shape (by decide) bx by' _ 0, at_ok _ (pc bx by' (.inl rfl) (.inl rfl)), M.ok_bind,
    rn bx by' bz (.inl rfl) (.inl rfl), M.ok_bind, rn (bx + 1) by' 0 (.inr rfl) (.inl rfl), M.ok_bind,
    rn bx (by' + 1) 0 (.inl rfl) (.inr rfl), M.ok_bind, rn (bx + 1) (by' + 1) 0 (.inr rfl) (.inr rfl), M.ok_bind]
  rfl

/-- 3D. -/
theorem interp3_value {s : IntSem} {r : Req K} {g : Grid K 3} (G : g.Made s r) (h : r.Valid 3)
    {ls : Levelset K} {phi : Cell → K} {psi : Cell → Vec3 K} {mix : Cell → List K} {xy yz zx xyz : Cell → K}
    (hm : ∀ c, r.Padded 3 c → mix c = [xy c, yz c, zx c, xyz c]) (P : PrevIs s r g ls phi psi mix) {x : Vec3 K} {b : Vec3 ℤ}
    (e : g.baseNodeId x = .ok b)
    (hb : ∀ a : Fin 3, a.val < 3 → -r.pad ≤ b.get a ∧ b.get a + 1 < r.n.get a + r.pad) (lim : Bool) :
    let N := fun i j k : ℤ =>
      (⟨phi (i, j, k), psi (i, j, k), xy (i, j, k), yz (i, j, k), zx (i, j, k), xyz (i, j, k)⟩ : Node3 K)
    interpolate s g ls x lim = .ok (kernel3 g.dx g.oneOverDx
      ((x.sub (Grid.elem g g.boxMin g.dx (b.x, b.y, b.z))).mul g.oneOverDx)
      (N b.x b.y b.z) (N (b.x + 1) b.y b.z) (N b.x (b.y + 1) b.z) (N b.x b.y (b.z + 1))
      (N (b.x + 1) (b.y + 1) b.z) (N b.x (b.y + 1) (b.z + 1)) (N (b.x + 1) b.y (b.z + 1))
      (N (b.x + 1) (b.y + 1) (b.z + 1)) lim) := by
  intro N
  have hp := h.pad_nonneg
  have n0 := h.nx_pos
  have n1 := h.ny_pos
  have n2 := h.nz_pos
  have at_ok : ∀ c, r.Padded 3 c → g.atV s ⟨c.1, c.2.1, c.2.2⟩ = .ok (Grid.elem g g.boxMin g.dx c) :=
    fun c hc => G.node c (G.inPad.2 hc)
  obtain ⟨bx, by', bz⟩ := b
  have c0 := hb 0 (by decide)
  have c1 := hb 1 (by decide)
  have c2 := hb 2 (by decide)
  simp only [Vec3.get] at c0 c1 c2
  have pc : ∀ i j k, (i = bx ∨ i = bx + 1) → (j = by' ∨ j = by' + 1) → (k = bz ∨ k = bz + 1) → r.Padded 3 (i, j, k) := by
    intro i j k hi hj hk
    have e0 : padAlong 3 r.pad 0 = r.pad := rfl
    have e1 : padAlong 3 r.pad 1 = r.pad := rfl
    have e2 : padAlong 3 r.pad 2 = r.pad := rfl
    refine ⟨?_, ?_, ?_⟩
    · rw [e0]; rcases hi with rfl | rfl <;> (constructor <;> dsimp only <;> omega)
    · rw [e1]; rcases hj with rfl | rfl <;> (constructor <;> dsimp only <;> omega)
    · rw [e2]; rcases hk with rfl | rfl <;> (constructor <;> dsimp only <;> omega)
  have rn : ∀ i j k, (i = bx ∨ i = bx + 1) → (j = by' ∨ j = by' + 1) → (k = bz ∨ k = bz + 1) →
      readNode3 s g ls ⟨i, j, k⟩ = .ok (N i j k) := by
    intro i j k hi hj hk
    have r0 : ls.phiPrev.getV s g ⟨i, j, k⟩ = .ok (phi (i, j, k)) := by
      unfold Arr.getV
      exact P.phi (i, j, k) (pc i j k hi hj hk)
    have r1 : ls.psiPrev.getV s g ⟨i, j, k⟩ = .ok (psi (i, j, k)) := by
      unfold Arr.getV
      exact P.psi (i, j, k) (pc i j k hi hj hk)
    have r2 : ls.phiMixedPrev.getV s g ⟨i, j, k⟩ = .ok (mix (i, j, k)) := by
      unfold Arr.getV
      exact P.mix (i, j, k) (pc i j k hi hj hk)
    unfold readNode3
    rw [r0, r1, r2, M.ok_bind, M.ok_bind, M.ok_bind, hm _ (pc i j k hi hj hk)]
    rfl
  unfold interpolate interp3
  rw [if_neg (by decide), if_neg (by decide), e, M.ok_bind]
  simp only
  rw [base_succ h s 0 c0, M.ok_bind, base_succ h s 1 c1, M.ok_bind, base_succ h s 2 c2, M.ok_bind,
    at_ok _ (pc bx by' bz (.inl rfl) (.inl rfl) (.inl rfl)), M.ok_bind,
    rn bx by' bz (.inl rfl) (.inl rfl) (.inl rfl), M.ok_bind, rn (bx + 1) by' bz (.inr rfl) (.inl rfl) (.inl rfl), M.ok_bind,
    rn bx (by' + 1) bz (.inl rfl) (.inr rfl) (.inl rfl), M.ok_bind, rn bx by' (bz + 1) (.inl rfl) (.inl rfl) (.inr rfl), M.ok_bind,
    rn (bx + 1) (by' + 1) bz (.inr rfl) (.inr rfl) (.inl rfl), M.ok_bind,
    rn bx (by' + 1) (bz + 1) (.inl rfl) (.inr rfl) (.inr rfl), M.ok_bind,
    rn (bx + 1) by' (bz + 1) (.inr rfl) (.inl rfl) (.inr rfl), M.ok_bind,
    rn (bx + 1) (by' + 1) (bz + 1) (.inr rfl) (.inr rfl) (.inr rfl), M.ok_bind]
  rfl

end Gals
