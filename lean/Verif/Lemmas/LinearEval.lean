import Verif.Lemmas.InterpEval
import Verif.Model.Linear

/-!
# Linear interpolation in any arithmetic
-/

set_option linter.unusedSectionVars false
set_option linter.unusedSimpArgs false

namespace Gals

open Spec

variable {K : Type}
variable [Zero K] [One K] [Add K] [Sub K] [Mul K] [Div K] [Neg K] [NatCast K] [IntCast K]
  [LT K] [DecidableLT K] [LE K] [DecidableLE K] [HasFloor K]

/-- Linear interpolation in any arithmetic, when the base node is known. -/
theorem linear_value {r : Req K} {g : Grid K 1} (G : g.Made .wrap r) (h : r.Valid 1)
    {al : Arr K} {f : Cell → K} (P : ∀ c, r.Padded 1 c → al.get .wrap g c.1 c.2.1 c.2.2 = .ok (f c)) {x : Vec3 K} {b : Vec3 ℤ}
    (e : g.baseNodeId x = .ok b)
    (hb : ∀ a : Fin 3, a.val < 1 → -r.pad ≤ b.get a ∧ b.get a + 1 < r.n.get a + r.pad) :
    linearInterp .wrap g x al = .ok ((1 - (x.x - (Grid.elem g g.boxMin g.dx (b.x, 0, 0)).x) * g.oneOverDx.x) * f (b.x, 0, 0) +
      (x.x - (Grid.elem g g.boxMin g.dx (b.x, 0, 0)).x) * g.oneOverDx.x * f (b.x + 1, 0, 0)) := by
  have hp := h.pad_nonneg
  have n0 := h.nx_pos
  have n1 := h.ny_pos
  have n2 := h.nz_pos
  have at_ok : ∀ c, r.Padded 1 c → g.atV .wrap ⟨c.1, c.2.1, c.2.2⟩ = .ok (Grid.elem g g.boxMin g.dx c) :=
    fun c hc => G.node c (G.inPad.2 hc)
  obtain ⟨bx, by', bz⟩ := b
  have c0 := hb 0 (by decide)
  simp only [Vec3.get] at c0
  have pc : ∀ i, (i = bx ∨ i = bx + 1) → r.Padded 1 (i, 0, 0) := by
    intro i hi
    have e0 : padAlong 1 r.pad 0 = r.pad := rfl
    have e1 : padAlong 1 r.pad 1 = 0 := rfl
    have e2 : padAlong 1 r.pad 2 = 0 := rfl
    refine ⟨?_, ?_, ?_⟩
    · rw [e0]; rcases hi with rfl | rfl <;> (constructor <;> dsimp only <;> omega)
    · rw [e1]; constructor <;> dsimp only <;> omega
    · rw [e2]; constructor <;> dsimp only <;> omega
  have rn : ∀ i, (i = bx ∨ i = bx + 1) → al.getV .wrap g ⟨i, 0, 0⟩ = .ok (f (i, 0, 0)) := fun i hi => P (i, 0, 0) (pc i hi)
  unfold linearInterp
  rw [e, M.ok_bind]
  simp only
  rw [base_succ h .wrap 0 c0, M.ok_bind, Grid.atV_wrap_yz G.shape (by decide) bx _ 0 _ 0, at_ok _ (pc bx (.inl rfl)), M.ok_bind,
    Arr.getV_wrap_yz G.shape (by decide) al bx _ 0 _ 0, rn bx (.inl rfl), M.ok_bind, rn (bx + 1) (.inr rfl), M.ok_bind]
  rfl

end Gals
