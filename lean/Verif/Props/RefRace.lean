import Verif.Props.RefMain

/-!
# C61: the race of the OpenMP program in a whole time step
-/

set_option linter.unusedSectionVars false
set_option linter.unusedSimpArgs false

namespace Gals.Props

open Gals Gals.Ref

/-- A sequential run of the first part of a thread is an interleaving. -/
theorem prefix_interleaves {L : Type} [DecidableEq L] {V : L → Type} {α : Type} {p : Prog V α} {m m' : Mem V} {a : α}
    (h : p.run m = .ok (a, m')) (k : α → Prog V Unit) (pre post : List (Prog V Unit)) :
    Interleaves (pre ++ p.bind k :: post, m) (pre ++ k a :: post, m') := by
  induction p generalizing m with
  | pure a => cases h; exact .refl
  | fault e => cases h
  | read l k ih =>
    simp only [Prog.run] at h
    cases e : m l with
    | oob => rw [e] at h; cases h
    | uninit => rw [e] at h; cases h
    | val v =>
      rw [e] at h
      exact .head (.mk pre post (.read e)) (ih v h)
  | write l v k ih =>
    simp only [Prog.run] at h
    have hne : m l ≠ .oob := fun e => by rw [e] at h; cases h
    refine .head (.mk pre post (.write hne)) (ih ?_)
    cases e : m l with
    | oob => exact absurd e hne
    | uninit => rw [e] at h; exact h
    | val w => rw [e] at h; exact h

section race
variable {K : Type} [Field K] [LinearOrder K] [IsStrictOrderedRing K]

theorem parFor_of_runAll {ps : List (P K Unit)} {m m' : Mem (Val K)} (h : runAll ps m = .ok m') : ParFor ps m m' := by
  refine ⟨[ps], [.pure ()], by simp, ?_, by simp [Ended]⟩
  have e : (Prog.seqAll ps).run m = .ok ((), m') := by rw [Prog.run_seqAll, h]; rfl
  exact run_interleaves e [] []

/-- First part of an interior iteration: the shared temporaries. -/
def mixedStore (dx dy : K) (k l : ℕ) : P K Unit := do
  setD .dxy1 0 0 (((← getD .temppsiy k (uadd l 1)) - (← getD .temppsiy k (usub l 1))) / (2 * dx))
  setD .dxy2 0 0 (((← getD .temppsix (uadd k 1) l) - (← getD .temppsix (usub k 1) l)) / (2 * dy))

/-- Second part: the result. -/
def mixedLoad (k l : ℕ) : P K Unit := do
  setD .temppsixy k l (((← getD .dxy1 0 0) + (← getD .dxy2 0 0)) / 2)

theorem mixedBody_split (dx dy : K) {nx ny k l : ℕ} (nxu : nx < uMod) (nyu : ny < uMod) (hk : 0 < k ∧ k + 1 < ny)
    (hl : 0 < l ∧ l + 1 < nx) : mixedBody nx ny dx dy k l = (mixedStore dx dy k l).bind fun _ => mixedLoad k l := by
  have ex : usub nx 1 = nx - 1 := usub_eq (by omega) nxu
  have ey : usub ny 1 = ny - 1 := usub_eq (by omega) nyu
  unfold mixedBody
  rw [ex, ey, if_neg (by omega), if_neg (by omega), if_neg (by omega)]
  rfl

/-- Memory after the first part. -/
structure StoredAt (m m' : Mem (Val K)) (r : K) : Prop where
  temps : ∃ d1 d2, m' (.d .dxy1 0 0) = .val d1 ∧ m' (.d .dxy2 0 0) = .val d2 ∧ (d1 + d2) / 2 = r
  frame : ∀ l', ¬ IsTemp l' → m' l' = m l'
  room : ∀ l', IsTemp l' → m l' ≠ .oob → m' l' ≠ .oob

theorem mixedStore_run {m : Mem (Val K)} {nx ny k l : ℕ} {px py : ℕ → ℕ → K} (dx dy : K) (hx : Grid2 m .temppsix nx ny px)
    (hy : Grid2 m .temppsiy nx ny py) (nxu : nx < uMod) (nyu : ny < uMod) (hk : 0 < k ∧ k + 1 < ny)
    (hl : 0 < l ∧ l + 1 < nx) (ht : ∀ l', IsTemp l' → m l' ≠ .oob) :
    ∃ m', (mixedStore dx dy k l).run m = .ok ((), m') ∧ StoredAt m m' (Spec.mixedStencil px py nx ny dx dy k l) := by
  have t5 : m (.d .dxy1 0 0) ≠ .oob := ht _ (by simp [IsTemp])
  have t6 : m (.d .dxy2 0 0) ≠ .oob := ht _ (by simp [IsTemp])
  have a1 := hy k (by omega) (l + 1) (by omega)
  have a2 := hy k (by omega) (l - 1) (by omega)
  have a3 := hx (k + 1) (by omega) l (by omega)
  have a4 := hx (k - 1) (by omega) l (by omega)
  have key : (mixedStore dx dy k l).wp m fun _ m' => StoredAt m m' (Spec.mixedStencil px py nx ny dx dy k l) := by
    have e1 : uadd l 1 = l + 1 := uadd_eq (by omega)
    have e2 : usub l 1 = l - 1 := usub_eq (by omega) (by omega)
    have e3 : uadd k 1 = k + 1 := uadd_eq (by omega)
    have e4 : usub k 1 = k - 1 := usub_eq (by omega) (by omega)
    simp only [mixedStore, bind, pure, Prog.wp_bind, Prog.wp_pure, wp_getD, wp_setD, e1, e2, e3, e4]
    simp only [a1, a2, slot_val_inj, exists_eq_left', t5, ne_eq, not_false_eq_true, true_and]
    simp only [Mem.upd_other _ (show (Loc.d .temppsix (k + 1) l) ≠ .d .dxy1 0 0 by simp),
      Mem.upd_other _ (show (Loc.d .temppsix (k - 1) l) ≠ .d .dxy1 0 0 by simp),
      Mem.upd_other _ (show (Loc.d .dxy2 0 0) ≠ .d .dxy1 0 0 by simp), a3, a4, slot_val_inj, exists_eq_left', t6, ne_eq,
      not_false_eq_true, true_and]
    refine ⟨⟨(py k (l + 1) - py k (l - 1)) / (2 * dx), _, ?_, Mem.upd_same .., ?_⟩, fun l' h' => ?_, fun l' h' hm => ?_⟩
    · rw [Mem.upd_other _ (by simp), Mem.upd_same]
    · simp only [Spec.mixedStencil, Spec.dX, Spec.dY]
      rw [if_pos ⟨hl, hk⟩]
    · rw [Mem.upd_other _ (by rintro rfl; exact h' (by simp [IsTemp])),
        Mem.upd_other _ (by rintro rfl; exact h' (by simp [IsTemp]))]
    · rw [ne_eq, Mem.upd_oob_iff, Mem.upd_oob_iff]
      · exact hm
      · exact t5
      · rw [Mem.upd_other _ (by simp)]; exact t6
  obtain ⟨⟨⟩, m', e, h⟩ := key
  exact ⟨m', e, h⟩

theorem mixedLoad_run {m : Mem (Val K)} {k l : ℕ} {d1 d2 : K} (h1 : m (.d .dxy1 0 0) = .val d1)
    (h2 : m (.d .dxy2 0 0) = .val d2) (hr : m (.d .temppsixy k l) ≠ .oob) :
    (mixedLoad k l).run m = .ok ((), m.upd (.d .temppsixy k l) ((d1 + d2) / 2)) := by
  simp only [mixedLoad, getD, setD, Prog.get, Prog.set, Prog.bind_eq, Prog.bind, Prog.run, h1, h2]

/-- Any two interior nodes `a`, `b`: some schedule of the mixed-derivative loop stores at `a` the mixed derivative of `b`,
and the right one everywhere else. -/
theorem mixed_race {m : Mem (Val K)} {nx ny : ℕ} {px py : ℕ → ℕ → K} (h : CpuMix m nx ny px py) (dx dy : K) {a b : ℕ × ℕ}
    (ha : (0 < a.1 ∧ a.1 + 1 < ny) ∧ 0 < a.2 ∧ a.2 + 1 < nx) (hb : (0 < b.1 ∧ b.1 + 1 < ny) ∧ 0 < b.2 ∧ b.2 + 1 < nx)
    (hab : a ≠ b) : ∃ m', ParFor (mixed nx ny dx dy 0 nx) m m' ∧
      m' (.d .temppsixy a.1 a.2) = .val (Spec.mixedStencil px py nx ny dx dy b.1 b.2) := by
  have mema : a ∈ nodes ny 0 nx := mem_nodes.2 ⟨by omega, by omega, by omega⟩
  have memb : b ∈ (nodes ny 0 nx).erase a := (List.mem_erase_of_ne hab.symm).2 (mem_nodes.2 ⟨by omega, by omega, by omega⟩)
  obtain ⟨m1, e1, -, f1, t1⟩ := mixed_run dx dy h.nx2 h.ny2 h.nxu h.nyu (((nodes ny 0 nx).erase a).erase b)
    (fun c hc => by have := mem_nodes.1 (List.mem_of_mem_erase (List.mem_of_mem_erase hc)); omega) h.x h.y h.xy h.temp
  have gx : Grid2 m1 .temppsix nx ny px := fun i hi j hj => by
    rw [f1 _ (fun c _ => by simp) (by simp [IsTemp])]; exact h.x i hi j hj
  have gy : Grid2 m1 .temppsiy nx ny py := fun i hi j hj => by
    rw [f1 _ (fun c _ => by simp) (by simp [IsTemp])]; exact h.y i hi j hj
  have gr : ∀ i < ny, ∀ j < nx, m1 (.d .temppsixy i j) ≠ .oob := fun i hi j hj hm => by
    have e : (Prog.seqAll ((((nodes ny 0 nx).erase a).erase b).map fun c => mixedBody nx ny dx dy c.1 c.2)).run m =
        .ok ((), m1) := by rw [Prog.run_seqAll, e1]; rfl
    exact h.xy i hi j hj ((Prog.run_oob e _).1 hm)
  obtain ⟨m2, e2, s2⟩ := mixedStore_run dx dy gx gy h.nxu h.nyu ha.1 ha.2 t1
  obtain ⟨m3, e3, s3⟩ := mixedStore_run (m := m2) dx dy
    (fun i hi j hj => by rw [s2.frame _ (by simp [IsTemp])]; exact gx i hi j hj)
    (fun i hi j hj => by rw [s2.frame _ (by simp [IsTemp])]; exact gy i hi j hj) h.nxu h.nyu hb.1 hb.2
    (fun l' hl => s2.room l' hl (t1 l' hl))
  have r3 : ∀ i < ny, ∀ j < nx, m3 (.d .temppsixy i j) ≠ .oob := fun i hi j hj => by
    rw [s3.frame _ (by simp [IsTemp]), s2.frame _ (by simp [IsTemp])]; exact gr i hi j hj
  obtain ⟨d1, d2, v1, v2, hd⟩ := s3.temps
  have e4 := mixedLoad_run v1 v2 (r3 b.1 (by omega) b.2 (by omega))
  have eb : (mixedBody nx ny dx dy b.1 b.2).run m2 = .ok ((), m3.upd (.d .temppsixy b.1 b.2) ((d1 + d2) / 2)) := by
    rw [mixedBody_split dx dy h.nxu h.nyu hb.1 hb.2, Prog.run_bind, e3, M.ok_bind, e4]
  have e5 := mixedLoad_run (m := m3.upd (.d .temppsixy b.1 b.2) ((d1 + d2) / 2)) (k := a.1) (l := a.2) (d1 := d1) (d2 := d2)
    (by rw [Mem.upd_other _ (by simp)]; exact v1) (by rw [Mem.upd_other _ (by simp)]; exact v2)
    (fun hm => r3 a.1 (by omega) a.2 (by omega) ((Mem.upd_oob_iff _ _ _ _ (r3 b.1 (by omega) b.2 (by omega))).1 hm))
  let g : ℕ × ℕ → P K Unit := fun c => mixedBody nx ny dx dy c.1 c.2
  let R := (((nodes ny 0 nx).erase a).erase b).map g
  refine ⟨(m3.upd (.d .temppsixy b.1 b.2) ((d1 + d2) / 2)).upd (.d .temppsixy a.1 a.2) ((d1 + d2) / 2), ⟨[R, [g a], [g b]], [.pure (), .pure (), .pure ()], ?_, ?_, by simp [Ended]⟩, ?_⟩
  rotate_left 1
  · have eR : (Prog.seqAll R).run m = .ok ((), m1) := by rw [Prog.run_seqAll, e1]; rfl
    have one : ∀ p : P K Unit, Prog.seqAll [p] = p.bind fun _ => .pure () := fun p => rfl
    have i1 := run_interleaves eR [] [Prog.seqAll [g a], Prog.seqAll [g b]]
    have ea : Prog.seqAll [g a] = (mixedStore dx dy a.1 a.2).bind fun _ => (mixedLoad a.1 a.2).bind fun _ => .pure () := by
      rw [one, show g a = mixedBody nx ny dx dy a.1 a.2 from rfl, mixedBody_split dx dy h.nxu h.nyu ha.1 ha.2]
      rfl
    have i2 := prefix_interleaves e2 (fun _ => (mixedLoad a.1 a.2).bind fun _ => .pure ()) [.pure ()] [Prog.seqAll [g b]]
    have i3 := prefix_interleaves eb (fun _ => .pure ()) [.pure (), (mixedLoad a.1 a.2).bind fun _ => .pure ()] []
    have i4 := prefix_interleaves e5 (fun _ => .pure ()) [.pure ()] [.pure ()]
    rw [← ea] at i2
    exact ((i1.trans i2).trans i3).trans i4
  · rw [Mem.upd_same, hd]
  · have hperm : (a :: b :: ((nodes ny 0 nx).erase a).erase b).Perm (nodes ny 0 nx) :=
      ((List.perm_cons_erase memb).symm.cons a).trans (List.perm_cons_erase mema).symm
    refine List.Perm.trans ?_ (hperm.map g)
    simp only [List.flatten_cons, List.flatten_nil, List.append_nil, List.map_cons, R, List.singleton_append]
    exact List.perm_append_comm

/-- **C61** is false on every grid of at least 4 x 3 nodes, for every velocity and data whose new mixed derivatives differ at
two interior nodes: some schedule of a step of the OpenMP program stores the mixed derivative of one at the other. -/
theorem C61_race {c : Setting K} (hc : Valid c) (v : Vel K) {t : ℕ} (ht : t + 1 < uMod) {m : Mem (Val K)} {F : Spec.Fields K}
    (h : Ready m c.nx c.ny (posX c) (posY c) F) {a b : ℕ × ℕ}
    (ha : (0 < a.1 ∧ a.1 + 1 < c.ny) ∧ 0 < a.2 ∧ a.2 + 1 < c.nx) (hb : (0 < b.1 ∧ b.1 + 1 < c.ny) ∧ 0 < b.2 ∧ b.2 + 1 < c.nx)
    (hab : a ≠ b) :
    ∃ m', OmpStep ParFor c v c.dx c.dy t m m' ∧ m' (.d .mpsixy a.1 a.2) =
      .val ((advance v c.schemes t c.dt c.dx c.dy (posX c) (posY c) c.nx c.ny (departs c v t) F).psixy b.1 b.2) := by
  have hx3 := hc.nx3
  have hy3 := hc.ny3
  obtain ⟨m1, e1, -, h1⟩ := stage_adv hc v ht h
  obtain ⟨m2, e2, -, h2⟩ := stage_find hc h1
  obtain ⟨m3, e3, -, h3⟩ := stage_update hc v ht h2
  have hm : CpuMix (declMixed m3) c.nx c.ny
      (advance v c.schemes t c.dt c.dx c.dy (posX c) (posY c) c.nx c.ny (departs c v t) F).psix
      (advance v c.schemes t c.dt c.dx c.dy (posX c) (posY c) c.nx c.ny (departs c v t) F).psiy :=
    ⟨h3.tpsix, h3.tpsiy, h3.tpsixy, by rintro l (rfl | rfl | rfl | rfl | rfl | rfl) <;> simp [declMixed], by omega, by omega,
      hc.nxu, hc.nyu⟩
  obtain ⟨m4, p4, hv⟩ := mixed_race hm c.dx c.dy ha hb hab
  obtain ⟨sx, mx, ex, hsx, hmx⟩ := (wp_spacing h2.x (by omega) fun a m' => a = c.dx ∧ m' = m2).2 ⟨hc.spaceX, rfl⟩
  obtain ⟨sy, my, ey, hsy, hmy⟩ := (wp_spacing h2.y (by omega) fun a m' => a = c.dy ∧ m' = m2).2 ⟨hc.spaceY, rfl⟩
  rw [hsx, hmx] at ex
  rw [hsy, hmy] at ey
  exact ⟨_, ⟨m1, m2, m3, m4, _, _, parFor_of_runAll e1, parFor_of_runAll e2, ex, ey, parFor_of_runAll e3, p4, rfl⟩, hv⟩

end race

/-! ## Counterexample -/

/-- Four by three nodes with unit spacing. -/
def raceC : Setting ℚ := ⟨0, 3, 4, 0, 2, 3, 1 / 2, 3, 1, 1, ⟨"SuperConsistent", "RK3"⟩⟩
/-- At rest. -/
def raceV : Vel ℚ := ⟨fun _ _ _ => 0, fun _ _ _ => 0, fun _ _ _ => 0, fun _ _ _ => 0, fun _ _ _ => 0, fun _ _ _ => 0⟩
/-- `x² y²`. -/
def raceF : Initial ℚ := ⟨fun x y => x ^ 2 * y ^ 2, fun x y => 2 * x * y ^ 2, fun x y => 2 * x ^ 2 * y, fun x y => 4 * x * y⟩

theorem raceC_valid : Valid raceC := ⟨by decide, by decide, by decide, by decide, by norm_num [raceC], by norm_num [raceC]⟩

/-- **C61** is false: the first step of the OpenMP program on a 4 x 3 grid with `x² y²` at rest can end with a mixed
derivative different from the one a single thread computes. -/
theorem C61_false : ∃ m m' m'', setup raceC raceF = .ok m ∧ stepOpenMP raceC raceV raceC.dx raceC.dy 0 m = .ok m' ∧
    OmpStep ParFor raceC raceV raceC.dx raceC.dy 0 m m'' ∧ m'' (.d .mpsixy 1 1) ≠ m' (.d .mpsixy 1 1) := by
  obtain ⟨m, e, h⟩ := setup_ready raceC_valid raceF
  obtain ⟨m', e', h'⟩ := C60_step raceC_valid raceV (t := 0) (by decide) h
  obtain ⟨m'', e'', h''⟩ := C61_race raceC_valid raceV (t := 0) (by decide) h (a := (1, 1)) (b := (1, 2))
    (by decide) (by decide) (by decide)
  refine ⟨m, m', m'', e, e', e'', ?_⟩
  rw [h'', h'.psixy 1 (by decide) 1 (by decide), ne_eq, slot_val_inj]
  decide +kernel

end Gals.Props
