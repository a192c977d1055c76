import Verif.Lemmas.Field
import Verif.Props.Grid

/-!
# Property C06: grid generation forgets history
-/

namespace Gals.Props

open Gals Spec

section C06
variable {K : Type} [Zero K] [One K] [Add K] [Sub K] [Mul K] [Div K] [NatCast K] [IntCast K]

/-- A public call that changes a grid. -/
inductive GridOp (K : Type)
  | setPadding (pad : ℤ)
  | generate (lo hi : Vec3 K)

/-- Execute one call. -/
def GridOp.run (s : IntSem) {d : ℕ} (g : Grid K d) : GridOp K → M (Grid K d)
  | .setPadding p => .ok (g.setPadding p)
  | .generate lo hi => g.generate s lo.x hi.x lo.y hi.y lo.z hi.z

/-- Padding after a sequence of calls: the last one set, or the constructor's. -/
def lastPad (p : ℤ) : List (GridOp K) → ℤ
  | [] => p
  | .setPadding q :: l => lastPad q l
  | .generate _ _ :: l => lastPad p l

/-- The part of the state that `generate` depends on. -/
structure SameInput {d : ℕ} (g g' : Grid K d) : Prop where
  nx : g.nx = g'.nx
  ny : g.ny = g'.ny
  nz : g.nz = g'.nz
  mask0 : g.mask0 = g'.mask0
  mask1 : g.mask1 = g'.mask1
  mask2 : g.mask2 = g'.mask2
  inv : ∀ a : Fin 3, ¬ a.val < d → g.oneOverDx.get a = g'.oneOverDx.get a

theorem generate_same {s : IntSem} {d : ℕ} {g g' : Grid K d} (h : SameInput g g') (hp : g.pad = g'.pad)
    (a b c e f i : K) : g.generate s a b c e f i = g'.generate s a b c e f i := by
  obtain ⟨nx, ny, nz, pad, m0, m1, m2, bm, bM, dx, od, gr, tc⟩ := g
  obtain ⟨nx', ny', nz', pad', m0', m1', m2', bm', bM', dx', od', gr', tc'⟩ := g'
  obtain ⟨h1, h2, h3, h4, h5, h6, h7⟩ := h
  simp only at h1 h2 h3 h4 h5 h6 hp
  subst h1 h2 h3 h4 h5 h6 hp
  have hinv : ∀ q : Vec3 K, Grid.newInv d q od = Grid.newInv d q od' := by
    intro q
    have key : ∀ ax : Fin 3, (if ax.val < d then 1 / q.get ax else od.get ax) =
        if ax.val < d then 1 / q.get ax else od'.get ax := by
      intro ax
      by_cases h : ax.val < d
      · rw [if_pos h, if_pos h]
      · rw [if_neg h, if_neg h]; exact h7 ax h
    exact Vec3.ext (key 0) (key 1) (key 2)
  unfold Grid.generate
  simp only [hinv]
  rfl

theorem run_same {s : IntSem} {d : ℕ} (ops : List (GridOp K)) {g0 g g' : Grid K d} (h : SameInput g g0)
    (e : loop ops g (GridOp.run s) = .ok g') : SameInput g' g0 ∧ g'.pad = lastPad g.pad ops := by
  induction ops generalizing g with
  | nil => cases e; exact ⟨h, rfl⟩
  | cons op ops ih =>
    rw [loop_cons] at e
    cases op with
    | setPadding p =>
      simp only [GridOp.run, M.ok_bind] at e
      exact ih (g := g.setPadding p) ⟨h.nx, h.ny, h.nz, h.mask0, h.mask1, h.mask2, h.inv⟩ e
    | generate lo hi =>
      simp only [GridOp.run] at e
      cases hg : g.generate s lo.x hi.x lo.y hi.y lo.z hi.z with
      | error er => rw [hg] at e; cases e
      | ok g1 =>
        rw [hg, M.ok_bind] at e
        have key : SameInput g1 g0 ∧ g1.pad = g.pad := by
          unfold Grid.generate at hg
          cases h1 : g.storageSize s with
          | error er => rw [h1] at hg; cases hg
          | ok n =>
            rw [h1, M.ok_bind] at hg
            cases h2 : (Grid.resizeEmpty n : M (List (Vec3 K))) with
            | error er => rw [h2] at hg; cases hg
            | ok v =>
              rw [h2, M.ok_bind] at hg
              simp only at hg
              cases h3 : loop g.genCells v (fun acc c => do
                  let idx ← g.index s c.1 c.2.1 c.2.2
                  wr acc idx (g.elem ⟨lo.x, lo.y, lo.z⟩ ⟨(hi.x - lo.x) / ((g.nx : ℤ) : K),
                    (hi.y - lo.y) / ((g.ny : ℤ) : K), (hi.z - lo.z) / ((g.nz : ℤ) : K)⟩ c)) with
              | error er => rw [h3] at hg; cases hg
              | ok w =>
                rw [h3, M.ok_bind] at hg
                cases hg
                refine ⟨⟨h.nx, h.ny, h.nz, h.mask0, h.mask1, h.mask2, ?_⟩, rfl⟩
                intro a ha
                rw [← h.inv a ha]
                match a with
                | 0 => exact if_neg ha
                | 1 => exact if_neg ha
                | 2 => exact if_neg ha
        rw [show lastPad g.pad (.generate lo hi :: ops) = lastPad g1.pad ops from by rw [key.2]; rfl]
        exact ih key.1 e

/-- C06. Start from a freshly constructed grid, run any sequence of `setPadding` and `generate` calls, then generate.
If this returns, the resulting object (extents, padding, spacing, coordinates, size, cell total: the whole state) is
the one obtained from a fresh grid with the last padding set and a single generation with the last box.  No laws on
`K`, both readings of `int`, valid or invalid intermediate requests. -/
theorem C06_generate_forgets (s : IntSem) (d : ℕ) (nx ny nz : ℤ) (g0 g : Grid K d)
    (e0 : Grid.mk3 s d nx ny nz = .ok g0) (ops : List (GridOp K)) (lo hi : Vec3 K)
    (e : loop (ops ++ [.generate lo hi]) g0 (GridOp.run s) = .ok g) :
    Req.make ⟨⟨nx, ny, nz⟩, lastPad 1 ops, lo, hi⟩ s d = .ok g := by
  have hpad : g0.pad = 1 := by
    unfold Grid.mk3 at e0
    cases h1 : imul s nx ny with
    | error er => rw [h1] at e0; cases e0
    | ok t =>
      rw [h1, M.ok_bind] at e0
      cases h2 : imul s t nz with
      | error er => rw [h2] at e0; cases e0
      | ok u => rw [h2, M.ok_bind] at e0; cases e0; rfl
  rw [loop_append] at e
  cases hl : loop ops g0 (GridOp.run s) with
  | error er => rw [hl] at e; cases e
  | ok g1 =>
    rw [hl, M.ok_bind, loop_cons] at e
    obtain ⟨hs, hp⟩ := run_same ops (g0 := g0) ⟨rfl, rfl, rfl, rfl, rfl, rfl, fun _ _ => rfl⟩ hl
    simp only [GridOp.run] at e
    cases hg : g1.generate s lo.x hi.x lo.y hi.y lo.z hi.z with
    | error er => rw [hg] at e; cases e
    | ok g2 =>
      rw [hg, M.ok_bind, loop_nil] at e
      cases e
      unfold Req.make
      simp only [e0, M.ok_bind]
      rw [← hg]
      refine (generate_same (g' := g0.setPadding (lastPad 1 ops)) ⟨hs.nx, hs.ny, hs.nz, hs.mask0, hs.mask1, hs.mask2, hs.inv⟩ ?_ _ _ _ _ _ _).symm
      rw [hp, hpad]; rfl

/-- C06, the history does return if the request is supported with the initial padding and every padding set. -/
theorem C06_history_returns (s : IntSem) (d : ℕ) (nx ny nz : ℤ) (ops : List (GridOp K))
    (h1 : ValidGrid d nx ny nz 1) (hv : ∀ p, GridOp.setPadding p ∈ ops → ValidGrid d nx ny nz p) :
    ∃ g0 g : Grid K d, Grid.mk3 s d nx ny nz = .ok g0 ∧ loop ops g0 (GridOp.run s) = .ok g := by
  obtain ⟨g0, e0, a1, a2, a3, a4, -⟩ := Grid.mk3_ok (K := K) (d := d) s h1.inInt.1 h1.inInt.2
  refine ⟨g0, ?_⟩
  have hs0 : (g0.setPadding 1).Shape := Grid.shape_of_mk3 h1 e0
  suffices H : ∀ g : Grid K d, g.Shape → (∀ p, GridOp.setPadding p ∈ ops → (g.setPadding p).Shape) →
      ∃ g', loop ops g (GridOp.run s) = .ok g' by
    have hs : g0.Shape := ⟨hs0.dim, hs0.m0, hs0.m1, hs0.m2, hs0.nx_pos, hs0.ny_pos, hs0.nz_pos, hs0.ny_one,
      hs0.nz_one, by omega, by rw [a4]; exact hs0.fits⟩
    obtain ⟨g', e'⟩ := H g0 hs fun p hp => Grid.shape_of_mk3 (hv p hp) e0
    exact ⟨g', e0, e'⟩
  clear hs0 e0 a1 a2 a3 a4 hv
  induction ops with
  | nil => intro g _ _; exact ⟨g, rfl⟩
  | cons op ops ih =>
    intro g hs hp
    rw [loop_cons]
    cases op with
    | setPadding p =>
      have h2 := hp p (by simp)
      exact ih _ h2 fun q hq => by
        have := hp q (by simp [hq])
        exact ⟨this.dim, this.m0, this.m1, this.m2, this.nx_pos, this.ny_pos, this.nz_pos, this.ny_one, this.nz_one,
          this.pad_nonneg, this.fits⟩
    | generate lo hi =>
      obtain ⟨g1, e1, G⟩ := Grid.generate_ok s hs lo.x hi.x lo.y hi.y lo.z hi.z
      simp only [GridOp.run, e1, M.ok_bind]
      refine ih g1 G.shape fun q hq => ?_
      have := hp q (by simp [hq])
      exact ⟨this.dim, G.mask0.trans this.m0, G.mask1.trans this.m1, G.mask2.trans this.m2,
        lt_of_lt_of_eq this.nx_pos G.nx.symm, lt_of_lt_of_eq this.ny_pos G.ny.symm,
        lt_of_lt_of_eq this.nz_pos G.nz.symm, fun h => G.ny.trans (this.ny_one h), fun h => G.nz.trans (this.nz_one h),
        this.pad_nonneg, by
          have := this.fits
          show (g1.nx + 2 * q) * (g1.ny + 2 * q) * (g1.nz + 2 * q) ≤ intMax
          rw [G.nx, G.ny, G.nz]; exact this⟩

end C06

/-- Instance of C06: padding changed twice, generated twice, then generated on the final box. -/
example : ∃ g0 g : Grid ℚ 2, Grid.mk3 .strict 2 4 3 1 = .ok g0 ∧
    loop [.setPadding 3, .generate ⟨0, 0, 0⟩ ⟨1, 1, 0⟩, .setPadding 2, .generate ⟨0, 0, 0⟩ ⟨2, 3, 0⟩] g0
      (GridOp.run .strict) = .ok g ∧ (demo 2).make .strict 2 = .ok g := by
  obtain ⟨g0, g, e0, e⟩ := C06_history_returns (K := ℚ) .strict 2 4 3 1
    [.setPadding 3, .generate ⟨0, 0, 0⟩ ⟨1, 1, 0⟩, .setPadding 2, .generate ⟨0, 0, 0⟩ ⟨2, 3, 0⟩]
    ⟨by simp, by decide, by decide, by decide, by decide, by decide, by decide, by decide⟩ (by
      intro p hp
      have : p = 3 ∨ p = 2 := by simpa using hp
      rcases this with rfl | rfl <;>
        exact ⟨by simp, by decide, by decide, by decide, by decide, by decide, by decide, by decide⟩)
  exact ⟨g0, g, e0, e, C06_generate_forgets .strict 2 4 3 1 g0 g e0
    [.setPadding 3, .generate ⟨0, 0, 0⟩ ⟨1, 1, 0⟩, .setPadding 2] ⟨0, 0, 0⟩ ⟨2, 3, 0⟩ e⟩

end Gals.Props
