import Verif.Lemmas.Interp
import Verif.Lemmas.Temporal

/-!
# Interpolation in any arithmetic: it returns when the base node and its neighbours are stored
-/

set_option linter.unusedSectionVars false

namespace Gals

open Spec

variable {K : Type} {d : ℕ}
variable [Zero K] [One K] [Add K] [Sub K] [Mul K] [Div K] [Neg K] [NatCast K] [IntCast K]
  [LT K] [DecidableLT K] [LE K] [DecidableLE K] [HasFloor K]

theorem base_succ {r : Req K} (h : r.Valid d) (s : IntSem) {z : ℤ} (a : Fin 3)
    (hz : -r.pad ≤ z ∧ z + 1 < r.n.get a + r.pad) : iadd s z (axisVec a a) = .ok (z + 1) := by
  have hp := h.pad_nonneg
  have h2 := h.side_le a
  have h3 := h.n_pos a
  unfold iadd axisVec
  rw [if_pos rfl]
  exact ck_ok s ⟨by unfold intMin; omega, by unfold intMax; omega⟩

theorem rd_some {T : Type} {l : List T} {k : ℤ} (h0 : 0 ≤ k) (h : k < l.length) : ∃ v, rd l k = .ok v := by
  obtain ⟨n, rfl⟩ := Int.eq_ofNat_of_zero_le h0
  have hn : n < l.length := by exact_mod_cast h
  exact ⟨l[n], (rd_eq_ok_iff ..).2 ⟨h0, by simp [hn]⟩⟩

/-- Interpolation returns when the base node and its neighbours are stored. -/
theorem interp_any {s : IntSem} (hs : d < 3 → s = .wrap) {r : Req K} {g : Grid K d} (G : g.Made s r) (h : r.Valid d)
    {ls : Levelset K} {phi : Cell → K} {psi : Cell → Vec3 K} {mix : Cell → List K}
    (hm : ∀ c, (mix c).length = numMixed d) (P : PrevIs s r g ls phi psi mix) {x : Vec3 K} {b : Vec3 ℤ}
    (e : g.baseNodeId x = .ok b)
    (hb : ∀ a : Fin 3, a.val < d → -r.pad ≤ b.get a ∧ b.get a + 1 < r.n.get a + r.pad) (lim : Bool) :
    ∃ out, interpolate s g ls x lim = .ok out := by
  have hp := h.pad_nonneg
  have n0 := h.nx_pos
  have n1 := h.ny_pos
  have n2 := h.nz_pos
  have at_ok : ∀ c, r.Padded d c → ∃ v, g.atV s ⟨c.1, c.2.1, c.2.2⟩ = .ok v := fun c hc => ⟨_, G.node c (G.inPad.2 hc)⟩
  obtain ⟨bx, by', bz⟩ := b
  have b0 := fun ha => hb 0 ha
  have b1 := fun ha => hb 1 ha
  have b2 := fun ha => hb 2 ha
  simp only [Vec3.get] at b0 b1 b2
  rcases h.dim with rfl | rfl | rfl
  · obtain rfl := hs (by decide)
    have c0 := b0 (by decide)
    have pc : ∀ i, (i = bx ∨ i = bx + 1) → r.Padded 1 (i, 0, 0) := by
      intro i hi
      have e0 : padAlong 1 r.pad 0 = r.pad := rfl
      have e1 : padAlong 1 r.pad 1 = 0 := rfl
      have e2 : padAlong 1 r.pad 2 = 0 := rfl
      refine ⟨?_, ?_, ?_⟩
      · rw [e0]; rcases hi with rfl | rfl <;> (constructor <;> dsimp only <;> omega)
      · rw [e1]; constructor <;> dsimp only <;> omega
      · rw [e2]; constructor <;> dsimp only <;> omega
    have rn : ∀ i j k, (i = bx ∨ i = bx + 1) → ∃ v, readNode1 .wrap g ls ⟨i, j, k⟩ = .ok v := by
      intro i j k hi
      have r0 : ls.phiPrev.getV .wrap g ⟨i, 0, 0⟩ = .ok (phi (i, 0, 0)) := by
        unfold Arr.getV
        exact P.phi (i, 0, 0) (pc i hi)
      have r1 : ls.psiPrev.getV .wrap g ⟨i, 0, 0⟩ = .ok (psi (i, 0, 0)) := by
        unfold Arr.getV
        exact P.psi (i, 0, 0) (pc i hi)
      unfold readNode1
      rw [Arr.getV_wrap_yz G.shape (by decide) _ i j 0 k 0, Arr.getV_wrap_yz G.shape (by decide) _ i j 0 k 0, r0, r1]
      exact ⟨_, rfl⟩
    obtain ⟨xb, exb⟩ := at_ok _ (pc bx (.inl rfl))
    obtain ⟨v0, e0⟩ := rn bx by' bz (.inl rfl)
    obtain ⟨v1, e1⟩ := rn (bx + 1) 0 0 (.inr rfl)
    unfold interpolate interp1
    rw [if_pos rfl, e, M.ok_bind]
    simp only
    rw [base_succ h .wrap 0 c0, M.ok_bind, Grid.atV_wrap_yz G.shape (by decide) bx _ 0 _ 0, exb, M.ok_bind, e0, M.ok_bind,
      e1, M.ok_bind]
    exact ⟨_, rfl⟩
  · obtain rfl := hs (by decide)
    have c0 := b0 (by decide)
    have c1 := b1 (by decide)
    have pc : ∀ i j, (i = bx ∨ i = bx + 1) → (j = by' ∨ j = by' + 1) → r.Padded 2 (i, j, 0) := by
      intro i j hi hj
      have e0 : padAlong 2 r.pad 0 = r.pad := rfl
      have e1 : padAlong 2 r.pad 1 = r.pad := rfl
      have e2 : padAlong 2 r.pad 2 = 0 := rfl
      refine ⟨?_, ?_, ?_⟩
      · rw [e0]; rcases hi with rfl | rfl <;> (constructor <;> dsimp only <;> omega)
      · rw [e1]; rcases hj with rfl | rfl <;> (constructor <;> dsimp only <;> omega)
      · rw [e2]; constructor <;> dsimp only <;> omega
    have rn : ∀ i j k, (i = bx ∨ i = bx + 1) → (j = by' ∨ j = by' + 1) → ∃ v, readNode2 .wrap g ls ⟨i, j, k⟩ = .ok v := by
      intro i j k hi hj
      have r0 : ls.phiPrev.getV .wrap g ⟨i, j, 0⟩ = .ok (phi (i, j, 0)) := by
        unfold Arr.getV
        exact P.phi (i, j, 0) (pc i j hi hj)
      have r1 : ls.psiPrev.getV .wrap g ⟨i, j, 0⟩ = .ok (psi (i, j, 0)) := by
        unfold Arr.getV
        exact P.psi (i, j, 0) (pc i j hi hj)
      have r2 : ls.phiMixedPrev.getV .wrap g ⟨i, j, 0⟩ = .ok (mix (i, j, 0)) := by
        unfold Arr.getV
        exact P.mix (i, j, 0) (pc i j hi hj)
      obtain ⟨v, ev⟩ := rd_some (l := mix (i, j, 0)) (k := 0) le_rfl (by rw [hm]; decide)
      unfold readNode2
      rw [Arr.getV_wrap_z G.shape (by decide) _ i j k 0, Arr.getV_wrap_z G.shape (by decide) _ i j k 0,
        Arr.getV_wrap_z G.shape (by decide) _ i j k 0, r0, r1, r2, M.ok_bind, M.ok_bind, M.ok_bind, ev]
      exact ⟨_, rfl⟩
    obtain ⟨xb, exb⟩ := at_ok _ (pc bx by' (.inl rfl) (.inl rfl))
    obtain ⟨v0, e0⟩ := rn bx by' bz (.inl rfl) (.inl rfl)
    obtain ⟨v1, e1⟩ := rn (bx + 1) by' 0 (.inr rfl) (.inl rfl)
    obtain ⟨v2, e2⟩ := rn bx (by' + 1) 0 (.inl rfl) (.inr rfl)
    obtain ⟨v3, e3⟩ := rn (bx + 1) (by' + 1) 0 (.inr rfl) (.inr rfl)
    unfold interpolate interp2
    rw [if_neg (by decide), if_pos rfl, e, M.ok_bind]
    simp only
    rw [base_succ h .wrap 0 c0, M.ok_bind, base_succ h .wrap 1 c1, M.ok_bind,
      Grid.atV_wrap_z G.shape (by decide) bx by' _ 0, exb, M.ok_bind, e0, M.ok_bind, e1, M.ok_bind, e2, M.ok_bind, e3,
      M.ok_bind]
    exact ⟨_, rfl⟩
  · have c0 := b0 (by decide)
    have c1 := b1 (by decide)
    have c2 := b2 (by decide)
    have pc : ∀ i j k, (i = bx ∨ i = bx + 1) → (j = by' ∨ j = by' + 1) → (k = bz ∨ k = bz + 1) → r.Padded 3 (i, j, k) := by
      intro i j k hi hj hk
      have e0 : padAlong 3 r.pad 0 = r.pad := rfl
      have e1 : padAlong 3 r.pad 1 = r.pad := rfl
      have e2 : padAlong 3 r.pad 2 = r.pad := rfl
      refine ⟨?_, ?_, ?_⟩
      · rw [e0]; rcases hi with rfl | rfl <;> (constructor <;> dsimp only <;> omega)
      · rw [e1]; rcases hj with rfl | rfl <;> (constructor <;> dsimp only <;> omega)
      · rw [e2]; rcases hk with rfl | rfl <;> (constructor <;> dsimp only <;> omega)
    have rn : ∀ i j k, (i = bx ∨ i = bx + 1) → (j = by' ∨ j = by' + 1) → (k = bz ∨ k = bz + 1) →
        ∃ v, readNode3 s g ls ⟨i, j, k⟩ = .ok v := by
      intro i j k hi hj hk
      have r0 : ls.phiPrev.getV s g ⟨i, j, k⟩ = .ok (phi (i, j, k)) := by
        unfold Arr.getV
        exact P.phi (i, j, k) (pc i j k hi hj hk)
      have r1 : ls.psiPrev.getV s g ⟨i, j, k⟩ = .ok (psi (i, j, k)) := by
        unfold Arr.getV
        exact P.psi (i, j, k) (pc i j k hi hj hk)
      have r2 : ls.phiMixedPrev.getV s g ⟨i, j, k⟩ = .ok (mix (i, j, k)) := by
        unfold Arr.getV
        exact P.mix (i, j, k) (pc i j k hi hj hk)
      have hl : (mix (i, j, k)).length = 4 := hm _
      obtain ⟨v0, e0⟩ := rd_some (l := mix (i, j, k)) (k := 0) (by decide) (by rw [hl]; decide)
      obtain ⟨v1, e1⟩ := rd_some (l := mix (i, j, k)) (k := 1) (by decide) (by rw [hl]; decide)
      obtain ⟨v2, e2⟩ := rd_some (l := mix (i, j, k)) (k := 2) (by decide) (by rw [hl]; decide)
      obtain ⟨v3, e3⟩ := rd_some (l := mix (i, j, k)) (k := 3) (by decide) (by rw [hl]; decide)
      unfold readNode3
      rw [r0, r1, r2, M.ok_bind, M.ok_bind, M.ok_bind, e0, M.ok_bind, e1, M.ok_bind, e2, M.ok_bind, e3, M.ok_bind]
      exact ⟨_, rfl⟩
    obtain ⟨xb, exb⟩ := at_ok _ (pc bx by' bz (.inl rfl) (.inl rfl) (.inl rfl))
    obtain ⟨v0, e0⟩ := rn bx by' bz (.inl rfl) (.inl rfl) (.inl rfl)
    obtain ⟨v1, e1⟩ := rn (bx + 1) by' bz (.inr rfl) (.inl rfl) (.inl rfl)
    obtain ⟨v2, e2⟩ := rn bx (by' + 1) bz (.inl rfl) (.inr rfl) (.inl rfl)
    obtain ⟨v3, e3⟩ := rn bx by' (bz + 1) (.inl rfl) (.inl rfl) (.inr rfl)
    obtain ⟨v4, e4⟩ := rn (bx + 1) (by' + 1) bz (.inr rfl) (.inr rfl) (.inl rfl)
    obtain ⟨v5, e5⟩ := rn bx (by' + 1) (bz + 1) (.inl rfl) (.inr rfl) (.inr rfl)
    obtain ⟨v6, e6⟩ := rn (bx + 1) by' (bz + 1) (.inr rfl) (.inl rfl) (.inr rfl)
    obtain ⟨v7, e7⟩ := rn (bx + 1) (by' + 1) (bz + 1) (.inr rfl) (.inr rfl) (.inr rfl)
    unfold interpolate interp3
    rw [if_neg (by decide), if_neg (by decide), e, M.ok_bind]
    simp only
    rw [base_succ h s 0 c0, M.ok_bind, base_succ h s 1 c1, M.ok_bind, base_succ h s 2 c2, M.ok_bind, exb, M.ok_bind, e0,
      M.ok_bind, e1, M.ok_bind, e2, M.ok_bind, e3, M.ok_bind, e4, M.ok_bind, e5, M.ok_bind, e6, M.ok_bind, e7, M.ok_bind]
    exact ⟨_, rfl⟩

end Gals
