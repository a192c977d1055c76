import Verif.Props.RefOld

/-!
# C66, C67: steps of the first serial program
-/

set_option linter.unusedSectionVars false
set_option linter.unusedSimpArgs false

namespace Gals.Props

open Gals Gals.Ref

variable {K : Type} [Field K] [LinearOrder K] [IsStrictOrderedRing K]

section step
variable {c : Setting K} (hc : Valid c) (v : Vel K) (t : ℕ) {m : Mem (Val K)} {F : Spec.Fields K}

/-- Memory between two steps. -/
structure OldReady (m : Mem (Val K)) (c : Setting K) (F : Spec.Fields K) : Prop extends
    Ready m c.nx c.ny (posX c) (posY c) F where
  tracker : ∀ a < c.ny, ∀ b < c.nx, m (.n .tracker a b) ≠ .oob

/-- Fields `G` after a step from the fields `F`. -/
structure OldStep (c : Setting K) (v : Vel K) (t : ℕ) (F G : Spec.Fields K) : Prop where
  node : ∀ a < c.ny, ∀ b < c.nx, CellStep c v t F a b (G.phi a b, G.psix a b, G.psiy a b)
  psixy : G.psixy = Spec.mixedStencil G.psix G.psiy c.nx c.ny c.dx c.dy

theorem old_zero (h : OldReady m c F) : ∃ m', exec (.seqAll ((nodes c.ny 0 c.nx).map fun n => setN (K := K) .tracker n.1 n.2 0)) m = .ok m' ∧
    OldMid c v t (posX c) (posY c) c.dx c.dy F (fun _ _ _ _ => False) m' := by
  obtain ⟨m', e, h1⟩ := runAll_inv (K := K) (b := fun n => setN .tracker n.1 n.2 0) (I := fun pre m' =>
      (∀ l, (∀ i j, l ≠ .n .tracker i j) → m' l = m l) ∧ (∀ a < c.ny, ∀ b < c.nx, m' (.n .tracker a b) ≠ .oob) ∧
      ∀ n ∈ pre, m' (.n .tracker n.1 n.2) = .val 0) (nodes c.ny 0 c.nx) (pre := []) (m := m)
    (by
      rintro pre ⟨a, b⟩ m1 hx ⟨i1, i2, i3⟩
      have hab := mem_nodes.1 hx
      rw [wp_setN]
      refine ⟨i2 _ hab.1 _ hab.2.2, fun l hl => ?_, fun a' ha b' hb => ?_, fun n hn => ?_⟩
      · rw [Mem.upd_other _ (hl _ _)]
        exact i1 l hl
      · by_cases e : (Loc.n .tracker a' b') = .n .tracker a b
        · rw [e, Mem.upd_same]; simp
        · rw [Mem.upd_other _ e]; exact i2 _ ha _ hb
      · by_cases e : (Loc.n .tracker n.1 n.2) = .n .tracker a b
        · rw [Loc.n.injEq] at e
          rw [e.2.1, e.2.2]
          exact Mem.upd_same ..
        · rw [Mem.upd_other _ e]
          rcases List.mem_append.1 hn with hn | hn
          · exact i3 n hn
          · rw [List.mem_singleton] at hn
            subst hn
            exact absurd rfl e)
    ⟨fun _ _ => rfl, h.tracker, by simp⟩
  obtain ⟨h1, -, h3⟩ := h1
  have hd : ∀ q r s, m' (.d q r s) = m (.d q r s) := fun q r s => h1 _ (by simp)
  refine ⟨m', by rw [exec_seqAll]; exact e, ⟨⟨?_, ?_, ?_, ?_, ?_, ?_⟩, ?_, ?_⟩⟩
  · exact fun k hk => (hd _ _ _).trans (h.x k hk)
  · exact fun k hk => (hd _ _ _).trans (h.y k hk)
  · exact fun r hr s hs => (hd _ _ _).trans (h.phi r hr s hs)
  · exact fun r hr s hs => (hd _ _ _).trans (h.psix r hr s hs)
  · exact fun r hr s hs => (hd _ _ _).trans (h.psiy r hr s hs)
  · exact fun r hr s hs => (hd _ _ _).trans (h.psixy r hr s hs)
  · exact fun r hr s hs => (hd _ _ _).trans (h.tpsixy r hr s hs)
  · intro a ha b hb
    refine .inl ⟨⟨h3 (a, b) (by simpa using mem_nodes.2 ⟨ha, Nat.zero_le _, hb⟩), ?_, ?_, ?_, ?_⟩, fun _ _ h => h.elim⟩
    · exact (hd _ _ _).trans (h.tphi a ha b hb)
    · exact (hd _ _ _).trans (h.tpsix a ha b hb)
    · exact (hd _ _ _).trans (h.tpsiy a ha b hb)
    · exact (hd _ _ _).trans (h.tpsixy a ha b hb)

theorem old_cells (h : OldMid c v t (posX c) (posY c) c.dx c.dy F (fun _ _ _ _ => False) m) :
    ∃ m', exec (.seqAll ((nodes (c.ny - 1) 0 (c.nx - 1)).map fun n => oldCell c v c.dx c.dy (t : K) n.1 n.2)) m = .ok m' ∧
    OldMid c v t (posX c) (posY c) c.dx c.dy F (fun a b i j => Spec.Touches c.ny a i ∧ Spec.Touches c.nx b j) m' := by
  obtain ⟨m', e, h1⟩ := runAll_inv (K := K) (b := fun n => oldCell c v c.dx c.dy (t : K) n.1 n.2) (I := fun pre m' =>
      OldMid c v t (posX c) (posY c) c.dx c.dy F (fun a b i j => (i, j) ∈ pre ∧ Spec.Touches c.ny a i ∧ Spec.Touches c.nx b j) m')
      (nodes (c.ny - 1) 0 (c.nx - 1)) (pre := []) (m := m)
    (by
      rintro pre ⟨i, j⟩ m1 hx h1
      have hij := mem_nodes.1 hx
      refine Prog.wp_mono (oldMid_cell h1 (show i + 1 < c.ny by omega) (show j + 1 < c.nx by omega)) fun _ m2 h2 => h2.mono ?_
      rintro a b i' j' ⟨hm, ta, tb⟩
      rcases List.mem_append.1 hm with hm | hm
      · exact .inl ⟨hm, ta, tb⟩
      · rw [List.mem_singleton, Prod.mk.injEq] at hm
        obtain ⟨rfl, rfl⟩ := hm
        exact .inr ⟨ta, tb, rfl, rfl⟩)
    (h.mono fun _ _ _ _ h => absurd h.1 List.not_mem_nil)
  refine ⟨m', by rw [exec_seqAll]; exact e, h1.mono ?_⟩
  rintro a b i j ⟨ta, tb⟩
  have h1 := ta.2
  have h2 := tb.2
  exact ⟨by simpa using mem_nodes.2 (show i < c.ny - 1 ∧ 0 ≤ j ∧ j < c.nx - 1 by omega), ta, tb⟩

include hc

theorem oldStep_moved (h : OldMid c v t (posX c) (posY c) c.dx c.dy F
    (fun a b i j => Spec.Touches c.ny a i ∧ Spec.Touches c.nx b j) m) :
    ∃ G, OldStep c v t F G ∧ Moved m c G ∧ ∀ a < c.ny, ∀ b < c.nx, m (.n .tracker a b) ≠ .oob := by
  have hn : ∀ a b, ∃ r : K × K × K, a < c.ny → b < c.nx → CellStep c v t F a b r ∧ m (.d .tempphi a b) = .val r.1 ∧
      m (.d .temppsix a b) = .val r.2.1 ∧ m (.d .temppsiy a b) = .val r.2.2 ∧ m (.n .tracker a b) ≠ .oob := by
    intro a b
    by_cases ha : a < c.ny
    · by_cases hb : b < c.nx
      · rcases h.node a ha b hb with ⟨h1, h2⟩ | ⟨i, j, ti, tj, h0, h1⟩
        · exact ⟨(F.phi a b, F.psix a b, F.psiy a b), fun _ _ =>
            ⟨oldMid_new hc v t (.inl ⟨rfl, fun i j ti tj => h2 i j ⟨ti, tj⟩⟩) ha hb, h1.phi, h1.psix, h1.psiy, by
              rw [h1.tracker]; simp⟩⟩
        · exact ⟨_, fun _ _ => ⟨oldMid_new hc v t (.inr ⟨i, j, ti, tj, h0, rfl⟩) ha hb, h1.phi, h1.psix, h1.psiy, by
              rw [h1.cls]; simp⟩⟩
      · exact ⟨(0, 0, 0), fun _ h => absurd h hb⟩
    · exact ⟨(0, 0, 0), fun h _ => absurd h ha⟩
  choose g hg using hn
  refine ⟨⟨fun a b => (g a b).1, fun a b => (g a b).2.1, fun a b => (g a b).2.2,
    Spec.mixedStencil (fun a b => (g a b).2.1) (fun a b => (g a b).2.2) c.nx c.ny c.dx c.dy⟩, ⟨fun a ha b hb => (hg a b ha hb).1, rfl⟩,
    ⟨h.x, h.y, fun a ha b hb => (hg a b ha hb).2.1, fun a ha b hb => (hg a b ha hb).2.2.1,
      fun a ha b hb => (hg a b ha hb).2.2.2.1, fun a ha b hb => by rw [h.tpsixy a ha b hb]; simp⟩,
    fun a ha b hb => (hg a b ha hb).2.2.2.2⟩

theorem old_mixed {G : Spec.Fields K} (h : Moved m c G) (ht : ∀ a < c.ny, ∀ b < c.nx, m (.n .tracker a b) ≠ .oob)
    (hm : ∀ a < c.ny, ∀ b < c.nx, m (.d .mphi a b) ≠ .oob ∧ m (.d .mpsix a b) ≠ .oob ∧ m (.d .mpsiy a b) ≠ .oob ∧
      m (.d .mpsixy a b) ≠ .oob)
    (hG : G.psixy = Spec.mixedStencil G.psix G.psiy c.nx c.ny c.dx c.dy) :
    ∃ m1, exec (.seqAll (mixed c.nx c.ny c.dx c.dy 0 c.nx)) (declMixed m) = .ok m1 ∧
    ∃ m2, exec (.seqAll ((nodes c.ny 0 c.nx).map fun n => oldCopy n.1 n.2)) m1 = .ok m2 ∧ OldReady m2 c G := by
  have hx3 := hc.nx3
  have hy3 := hc.ny3
  obtain ⟨m', e, h1, h2, -⟩ := mixed_run c.dx c.dy (m := declMixed m) (px := G.psix) (py := G.psiy) (by omega) (by omega) hc.nxu
    hc.nyu (nodes c.ny 0 c.nx) (fun k hk => by have := mem_nodes.1 hk; omega) h.tpsix h.tpsiy h.tpsixy (by
      rintro l (rfl | rfl | rfl | rfl | rfl | rfl) <;> simp [declMixed])
  have hd : ∀ a i j, a ≠ .temppsixy → ¬ IsTemp (.d a i j) → m' (.d a i j) = declMixed m (.d a i j) := fun a i j p q =>
    h2 _ (fun k hk => by simp [p]) q
  have hxy : Grid2 m' .temppsixy c.nx c.ny G.psixy := fun i hi j hj => by
    rw [h1 (i, j) (mem_nodes.2 ⟨hi, Nat.zero_le _, hj⟩), hG]
  have hphi : Grid2 m' .tempphi c.nx c.ny G.phi := fun i hi j hj =>
    (hd _ _ _ (by simp) (by simp [IsTemp])).trans (h.tphi i hi j hj)
  have hpx : Grid2 m' .temppsix c.nx c.ny G.psix := fun i hi j hj =>
    (hd _ _ _ (by simp) (by simp [IsTemp])).trans (h.tpsix i hi j hj)
  have hpy : Grid2 m' .temppsiy c.nx c.ny G.psiy := fun i hi j hj =>
    (hd _ _ _ (by simp) (by simp [IsTemp])).trans (h.tpsiy i hi j hj)
  have hf : ∀ a < c.ny, ∀ b < c.nx, m' (.d .mphi a b) ≠ .oob ∧ m' (.d .mpsix a b) ≠ .oob ∧ m' (.d .mpsiy a b) ≠ .oob ∧
      m' (.d .mpsixy a b) ≠ .oob := fun a ha b hb => by
    rw [hd _ _ _ (by simp) (by simp [IsTemp]), hd _ _ _ (by simp) (by simp [IsTemp]), hd _ _ _ (by simp) (by simp [IsTemp]),
      hd _ _ _ (by simp) (by simp [IsTemp])]
    exact hm a ha b hb
  obtain ⟨m2, e2, i1, i2, i3⟩ := runAll_inv (K := K) (b := fun n => oldCopy n.1 n.2) (I := fun pre m2 =>
      (∀ l, (∀ q i j, l = .d q i j → q ≠ .mphi ∧ q ≠ .mpsix ∧ q ≠ .mpsiy ∧ q ≠ .mpsixy) → m2 l = m' l) ∧
      (∀ a < c.ny, ∀ b < c.nx, m2 (.d .mphi a b) ≠ .oob ∧ m2 (.d .mpsix a b) ≠ .oob ∧ m2 (.d .mpsiy a b) ≠ .oob ∧
        m2 (.d .mpsixy a b) ≠ .oob) ∧
      ∀ n ∈ pre, m2 (.d .mphi n.1 n.2) = .val (G.phi n.1 n.2) ∧ m2 (.d .mpsix n.1 n.2) = .val (G.psix n.1 n.2) ∧
        m2 (.d .mpsiy n.1 n.2) = .val (G.psiy n.1 n.2) ∧ m2 (.d .mpsixy n.1 n.2) = .val (G.psixy n.1 n.2))
      (nodes c.ny 0 c.nx) (pre := []) (m := m')
    (by
      rintro pre ⟨a, b⟩ m1 hx ⟨i1, i2, i3⟩
      have hab := mem_nodes.1 hx
      have ha : a < c.ny := hab.1
      have hb : b < c.nx := hab.2.2
      have g1 := (i1 (.d .tempphi a b) (by rintro q i j ⟨⟩; simp)).trans (hphi a ha b hb)
      have g2 := (i1 (.d .temppsix a b) (by rintro q i j ⟨⟩; simp)).trans (hpx a ha b hb)
      have g3 := (i1 (.d .temppsiy a b) (by rintro q i j ⟨⟩; simp)).trans (hpy a ha b hb)
      have g4 := (i1 (.d .temppsixy a b) (by rintro q i j ⟨⟩; simp)).trans (hxy a ha b hb)
      obtain ⟨n1, n2, n3, n4⟩ := i2 a ha b hb
      simp only [oldCopy, bind, Prog.wp_bind, wp_getD, wp_setD, g1, slot_val_inj, exists_eq_left', n1, ne_eq, not_false_eq_true,
        true_and, Mem.upd_other, reduceCtorEq, Loc.d.injEq, false_and, g2, g3, g4, n2, n3, n4]
      refine ⟨fun l hl => ?_, fun a' ha' b' hb' => ?_, fun n hn => ?_⟩
      · rw [Mem.upd_other, Mem.upd_other, Mem.upd_other, Mem.upd_other, i1 l hl]
        · rintro rfl; exact (hl _ _ _ rfl).1 rfl
        · rintro rfl; exact (hl _ _ _ rfl).2.1 rfl
        · rintro rfl; exact (hl _ _ _ rfl).2.2.1 rfl
        · rintro rfl; exact (hl _ _ _ rfl).2.2.2 rfl
      · obtain ⟨o1, o2, o3, o4⟩ := i2 a' ha' b' hb'
        by_cases en : a' = a ∧ b' = b
        · obtain ⟨rfl, rfl⟩ := en
          simp [Mem.upd_same, Mem.upd_other]
        · simp [Mem.upd_other, en, o1, o2, o3, o4]
      · by_cases en : n = (a, b)
        · subst en
          simp [Mem.upd_same, Mem.upd_other]
        · have hn' : n ∈ pre := by
            rcases List.mem_append.1 hn with hn | hn
            · exact hn
            · exact absurd (List.mem_singleton.1 hn) en
          have en' : ¬ (n.1 = a ∧ n.2 = b) := fun h => en (Prod.ext h.1 h.2)
          obtain ⟨o1, o2, o3, o4⟩ := i3 n hn'
          simp [Mem.upd_other, en', o1, o2, o3, o4])
    ⟨fun _ _ => rfl, hf, by simp⟩
  have hk : ∀ q i j, (q ≠ .mphi ∧ q ≠ .mpsix ∧ q ≠ .mpsiy ∧ q ≠ .mpsixy) → m2 (.d q i j) = m' (.d q i j) := fun q i j hq =>
    i1 _ (by rintro q i j ⟨⟩; exact hq)
  have hn : ∀ a < c.ny, ∀ b < c.nx, (a, b) ∈ [] ++ nodes c.ny 0 c.nx := fun a ha b hb => by
    simpa using mem_nodes.2 ⟨ha, Nat.zero_le _, hb⟩
  refine ⟨m', by rw [exec_seqAll, mixed, e], m2, by rw [exec_seqAll]; exact e2, ⟨⟨⟨?_, ?_, ?_, ?_, ?_, ?_⟩, ?_, ?_, ?_, ?_⟩, ?_⟩⟩
  · exact fun j hj => (hk _ _ _ (by simp)).trans ((hd _ _ _ (by simp) (by simp [IsTemp])).trans (h.x j hj))
  · exact fun j hj => (hk _ _ _ (by simp)).trans ((hd _ _ _ (by simp) (by simp [IsTemp])).trans (h.y j hj))
  · exact fun a ha b hb => (i3 _ (hn a ha b hb)).1
  · exact fun a ha b hb => (i3 _ (hn a ha b hb)).2.1
  · exact fun a ha b hb => (i3 _ (hn a ha b hb)).2.2.1
  · exact fun a ha b hb => (i3 _ (hn a ha b hb)).2.2.2
  · exact fun a ha b hb => (hk _ _ _ (by simp)).trans (hphi a ha b hb)
  · exact fun a ha b hb => (hk _ _ _ (by simp)).trans (hpx a ha b hb)
  · exact fun a ha b hb => (hk _ _ _ (by simp)).trans (hpy a ha b hb)
  · exact fun a ha b hb => (hk _ _ _ (by simp)).trans (hxy a ha b hb)
  · intro a ha b hb
    rw [i1 _ (by simp), h2 _ (fun k hk => by simp) (by simp [IsTemp])]
    exact ht a ha b hb

/-- A step of the first serial program: it does not fail, and its new fields are those of `OldStep`. -/
theorem stepOld_run (h : OldReady m c F) :
    ∃ m' G, stepOld c v c.dx c.dy t m = .ok m' ∧ OldStep c v t F G ∧ OldReady m' c G := by
  obtain ⟨m1, e1, h1⟩ := old_zero v t h
  obtain ⟨m2, e2, h2⟩ := old_cells v t h1
  obtain ⟨G, hG, h3, h4⟩ := oldStep_moved hc v t h2
  obtain ⟨m3, e3, m4, e4, h5⟩ := old_mixed hc h3 h4 (fun a ha b hb => by
    rw [h2.phi a ha b hb, h2.psix a ha b hb, h2.psiy a ha b hb, h2.psixy a ha b hb]; simp) hG.psixy
  refine ⟨m4, G, ?_, hG, h5⟩
  simp only [stepOld, e1, e2, e3, e4, M.ok_bind]

end step

end Gals.Props
