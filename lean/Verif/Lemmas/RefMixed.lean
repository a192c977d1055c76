import Verif.Lemmas.RefUpdate

/-!
# Mixed derivatives in the reference code
-/

set_option linter.unusedSectionVars false
set_option linter.unusedSimpArgs false

namespace Gals.Ref

variable {K : Type} [Field K] [CharZero K]

/-- The shared temporaries of `update_mixed_derivatives`. -/
def IsTemp (l : Loc) : Prop :=
  l = .d .d1 0 0 ∨ l = .d .d2 0 0 ∨ l = .d .d3 0 0 ∨ l = .d .d4 0 0 ∨ l = .d .dxy1 0 0 ∨ l = .d .dxy2 0 0

/-- Memory after a body of the CPU loop. -/
structure MixedAt (m m' : Mem (Val K)) (k l : ℕ) (r : K) : Prop where
  val : m' (.d .temppsixy k l) = .val r
  frame : ∀ l', l' ≠ .d .temppsixy k l → ¬ IsTemp l' → m' l' = m l'
  temp : ∀ l', IsTemp l' → m' l' ≠ .oob

theorem mixedBody_wp {m : Mem (Val K)} {nx ny k l : ℕ} {px py : ℕ → ℕ → K} (dx dy : K) (hx : Grid2 m .temppsix nx ny px)
    (hy : Grid2 m .temppsiy nx ny py) (nx2 : 2 ≤ nx) (ny2 : 2 ≤ ny) (nxu : nx < uMod) (nyu : ny < uMod) (hk : k < ny)
    (hl : l < nx) (hr : m (.d .temppsixy k l) ≠ .oob) (ht : ∀ l', IsTemp l' → m l' ≠ .oob) :
    (mixedBody nx ny dx dy k l).wp m fun _ m' => MixedAt m m' k l (Spec.mixedStencil px py nx ny dx dy k l) := by
  have t1 : m (.d .d1 0 0) ≠ .oob := ht _ (by simp [IsTemp])
  have t2 : m (.d .d2 0 0) ≠ .oob := ht _ (by simp [IsTemp])
  have t3 : m (.d .d3 0 0) ≠ .oob := ht _ (by simp [IsTemp])
  have t4 : m (.d .d4 0 0) ≠ .oob := ht _ (by simp [IsTemp])
  have t5 : m (.d .dxy1 0 0) ≠ .oob := ht _ (by simp [IsTemp])
  have t6 : m (.d .dxy2 0 0) ≠ .oob := ht _ (by simp [IsTemp])
  have ex1 : usub nx 1 = nx - 1 := usub_eq (by omega) nxu
  have ex2 : usub nx 2 = nx - 2 := usub_eq (by omega) nxu
  have ey1 : usub ny 1 = ny - 1 := usub_eq (by omega) nyu
  have ey2 : usub ny 2 = ny - 2 := usub_eq (by omega) nyu
  have ek : uadd k 1 = k + 1 := uadd_eq (by omega)
  have el : uadd l 1 = l + 1 := uadd_eq (by omega)
  unfold mixedBody
  simp only [ex1, ex2, ey1, ey2, ek, el]
  by_cases c1 : (k = 0 ∨ k = ny - 1) ∧ (l ≠ 0 ∧ l ≠ nx - 1)
  · rw [if_pos c1]
    have h1 := hy k hk (l + 1) (by omega)
    have h2 := hy k hk (l - 1) (by omega)
    have e' : usub l 1 = l - 1 := usub_eq (by omega) (by omega)
    simp only [bind, Prog.wp_bind, wp_getD, wp_setD, h1, h2, e', slot_val_inj, exists_eq_left', hr, ne_eq, not_false_eq_true,
      true_and]
    refine ⟨?_, fun l' h _ => Mem.upd_other _ h _, fun l' h => ?_⟩
    · rw [Mem.upd_same, Spec.mixedStencil, if_neg (by omega), if_pos (by omega)]
      rfl
    · rw [Mem.upd_other _ (by rintro rfl; simp [IsTemp] at h)]
      exact ht _ h
  rw [if_neg c1]
  by_cases c2 : (k ≠ 0 ∧ k ≠ ny - 1) ∧ (l = 0 ∨ l = nx - 1)
  · rw [if_pos c2]
    have h1 := hx (k + 1) (by omega) l hl
    have h2 := hx (k - 1) (by omega) l hl
    have e' : usub k 1 = k - 1 := usub_eq (by omega) (by omega)
    simp only [bind, Prog.wp_bind, wp_getD, wp_setD, h1, h2, e', slot_val_inj, exists_eq_left', hr, ne_eq, not_false_eq_true,
      true_and]
    refine ⟨?_, fun l' h _ => Mem.upd_other _ h _, fun l' h => ?_⟩
    · rw [Mem.upd_same, Spec.mixedStencil, if_neg (by omega), if_neg (by omega), if_pos (by omega)]
      rfl
    · rw [Mem.upd_other _ (by rintro rfl; simp [IsTemp] at h)]
      exact ht _ h
  rw [if_neg c2]
  have hframe : ∀ {l' : Loc}, ¬ IsTemp l' → l' ≠ .d .d1 0 0 ∧ l' ≠ .d .d2 0 0 ∧ l' ≠ .d .d3 0 0 ∧ l' ≠ .d .d4 0 0 ∧
      l' ≠ .d .dxy1 0 0 ∧ l' ≠ .d .dxy2 0 0 := fun h => by
    simp only [IsTemp, not_or] at h
    exact h
  by_cases c3 : (k = 0 ∨ k = ny - 1) ∧ (l = 0 ∨ l = nx - 1)
  · rw [if_pos c3]
    have spec : Spec.mixedStencil px py nx ny dx dy k l =
        3 / 4 * (Spec.eX py dx k (if l = 0 then 0 else nx - 2) + Spec.eY px dy (if k = 0 then 0 else ny - 2) l) -
        1 / 4 * (Spec.eX py dx (if k = 0 then 1 else ny - 2) (if l = 0 then 0 else nx - 2) +
          Spec.eY px dy (if k = 0 then 0 else ny - 2) (if l = 0 then 1 else nx - 2)) := by
      rw [Spec.mixedStencil, if_neg (by omega), if_neg (by omega), if_neg (by omega)]
    rw [spec]
    have eN : nx - 2 + 1 = nx - 1 := by omega
    have eM : ny - 2 + 1 = ny - 1 := by omega
    have n1 : nx - 1 ≠ 0 := by omega
    have n2 : ny - 1 ≠ 0 := by omega
    rcases c3 with ⟨rfl | rfl, rfl | rfl⟩
    · have a1 := hy 0 (by omega) 0 (by omega)
      have a2 := hy 0 (by omega) 1 (by omega)
      have a3 := hy 1 (by omega) 0 (by omega)
      have a4 := hy 1 (by omega) 1 (by omega)
      have b1 := hx 0 (by omega) 0 (by omega)
      have b2 := hx 0 (by omega) 1 (by omega)
      have b3 := hx 1 (by omega) 0 (by omega)
      have b4 := hx 1 (by omega) 1 (by omega)
      simp [Prog.wp_bind, wp_getD, wp_setD, Mem.upd_other, Mem.upd_same, a1, a2, a3, a4, b1, b2, b3, b4, hr, t1, t2,
        t3, t4]
      refine ⟨?_, fun l' h h' => ?_, fun l' h => ?_⟩
      · rw [Mem.upd_same]
        simp only [Spec.eX, Spec.eY, eN, eM]
        refine congrArg Slot.val ?_
        ring
      · obtain ⟨f1, f2, f3, f4, -⟩ := hframe h'
        rw [Mem.upd_other _ h, Mem.upd_other _ f4, Mem.upd_other _ f3, Mem.upd_other _ f2, Mem.upd_other _ f1]
      · rcases h with rfl | rfl | rfl | rfl | rfl | rfl <;> simp [Mem.upd_other, Mem.upd_same, t5, t6]
    · have a1 := hy 0 (by omega) (nx - 1) (by omega)
      have a2 := hy 0 (by omega) (nx - 2) (by omega)
      have a3 := hy 1 (by omega) (nx - 1) (by omega)
      have a4 := hy 1 (by omega) (nx - 2) (by omega)
      have b1 := hx 0 (by omega) (nx - 1) (by omega)
      have b2 := hx 0 (by omega) (nx - 2) (by omega)
      have b3 := hx 1 (by omega) (nx - 1) (by omega)
      have b4 := hx 1 (by omega) (nx - 2) (by omega)
      simp [n1, Prog.wp_bind, wp_getD, wp_setD, Mem.upd_other, Mem.upd_same, a1, a2, a3, a4, b1, b2, b3, b4, hr, t1, t2,
        t3, t4]
      refine ⟨?_, fun l' h h' => ?_, fun l' h => ?_⟩
      · rw [Mem.upd_same]
        simp only [Spec.eX, Spec.eY, eN, eM]
        refine congrArg Slot.val ?_
        ring
      · obtain ⟨f1, f2, f3, f4, -⟩ := hframe h'
        rw [Mem.upd_other _ h, Mem.upd_other _ f4, Mem.upd_other _ f3, Mem.upd_other _ f2, Mem.upd_other _ f1]
      · rcases h with rfl | rfl | rfl | rfl | rfl | rfl <;> simp [Mem.upd_other, Mem.upd_same, t5, t6]
    · have a1 := hy (ny - 1) (by omega) 0 (by omega)
      have a2 := hy (ny - 1) (by omega) 1 (by omega)
      have a3 := hy (ny - 2) (by omega) 0 (by omega)
      have a4 := hy (ny - 2) (by omega) 1 (by omega)
      have b1 := hx (ny - 1) (by omega) 0 (by omega)
      have b2 := hx (ny - 1) (by omega) 1 (by omega)
      have b3 := hx (ny - 2) (by omega) 0 (by omega)
      have b4 := hx (ny - 2) (by omega) 1 (by omega)
      simp [n2, Prog.wp_bind, wp_getD, wp_setD, Mem.upd_other, Mem.upd_same, a1, a2, a3, a4, b1, b2, b3, b4, hr, t1, t2,
        t3, t4]
      refine ⟨?_, fun l' h h' => ?_, fun l' h => ?_⟩
      · rw [Mem.upd_same]
        simp only [Spec.eX, Spec.eY, eN, eM]
        refine congrArg Slot.val ?_
        ring
      · obtain ⟨f1, f2, f3, f4, -⟩ := hframe h'
        rw [Mem.upd_other _ h, Mem.upd_other _ f4, Mem.upd_other _ f3, Mem.upd_other _ f2, Mem.upd_other _ f1]
      · rcases h with rfl | rfl | rfl | rfl | rfl | rfl <;> simp [Mem.upd_other, Mem.upd_same, t5, t6]
    · have a1 := hy (ny - 1) (by omega) (nx - 1) (by omega)
      have a2 := hy (ny - 1) (by omega) (nx - 2) (by omega)
      have a3 := hy (ny - 2) (by omega) (nx - 1) (by omega)
      have a4 := hy (ny - 2) (by omega) (nx - 2) (by omega)
      have b1 := hx (ny - 1) (by omega) (nx - 1) (by omega)
      have b2 := hx (ny - 1) (by omega) (nx - 2) (by omega)
      have b3 := hx (ny - 2) (by omega) (nx - 1) (by omega)
      have b4 := hx (ny - 2) (by omega) (nx - 2) (by omega)
      simp [n1, n2, Prog.wp_bind, wp_getD, wp_setD, Mem.upd_other, Mem.upd_same, a1, a2, a3, a4, b1, b2, b3, b4, hr, t1, t2,
        t3, t4]
      refine ⟨?_, fun l' h h' => ?_, fun l' h => ?_⟩
      · rw [Mem.upd_same]
        simp only [Spec.eX, Spec.eY, eN, eM]
        refine congrArg Slot.val ?_
        ring
      · obtain ⟨f1, f2, f3, f4, -⟩ := hframe h'
        rw [Mem.upd_other _ h, Mem.upd_other _ f4, Mem.upd_other _ f3, Mem.upd_other _ f2, Mem.upd_other _ f1]
      · rcases h with rfl | rfl | rfl | rfl | rfl | rfl <;> simp [Mem.upd_other, Mem.upd_same, t5, t6]
  · rw [if_neg c3]
    have h1 := hy k hk (l + 1) (by omega)
    have h2 := hy k hk (l - 1) (by omega)
    have h3 := hx (k + 1) (by omega) l hl
    have h4 := hx (k - 1) (by omega) l hl
    have e' : usub k 1 = k - 1 := usub_eq (by omega) (by omega)
    have e'' : usub l 1 = l - 1 := usub_eq (by omega) (by omega)
    simp [Prog.wp_bind, wp_getD, wp_setD, Mem.upd_other, Mem.upd_same, h1, h2, h3, h4, e', e'', hr, t5, t6]
    refine ⟨?_, fun l' h h' => ?_, fun l' h => ?_⟩
    · rw [Mem.upd_same, Spec.mixedStencil, if_pos (by omega)]
      rfl
    · obtain ⟨-, -, -, -, f5, f6⟩ := hframe h'
      rw [Mem.upd_other _ h, Mem.upd_other _ f6, Mem.upd_other _ f5]
    · rcases h with rfl | rfl | rfl | rfl | rfl | rfl <;> simp [Mem.upd_other, Mem.upd_same, t1, t2, t3, t4]

/-! ## Any order of whole iterations -/

theorem mixed_run {nx ny : ℕ} {px py : ℕ → ℕ → K} (dx dy : K) (nx2 : 2 ≤ nx) (ny2 : 2 ≤ ny) (nxu : nx < uMod)
    (nyu : ny < uMod) (cs : List (ℕ × ℕ)) (hin : ∀ c ∈ cs, c.1 < ny ∧ c.2 < nx) {m : Mem (Val K)}
    (hx : Grid2 m .temppsix nx ny px) (hy : Grid2 m .temppsiy nx ny py)
    (hr : ∀ k < ny, ∀ l < nx, m (.d .temppsixy k l) ≠ .oob) (ht : ∀ l', IsTemp l' → m l' ≠ .oob) :
    ∃ mf, runAll (cs.map fun c => mixedBody nx ny dx dy c.1 c.2) m = .ok mf ∧
      (∀ c ∈ cs, mf (.d .temppsixy c.1 c.2) = .val (Spec.mixedStencil px py nx ny dx dy c.1 c.2)) ∧
      (∀ l', (∀ c ∈ cs, l' ≠ .d .temppsixy c.1 c.2) → ¬ IsTemp l' → mf l' = m l') ∧ ∀ l', IsTemp l' → mf l' ≠ .oob := by
  induction cs generalizing m with
  | nil => exact ⟨m, rfl, fun c hc => absurd hc List.not_mem_nil, fun l' _ _ => rfl, ht⟩
  | cons c cs ih =>
    obtain ⟨c1, c2⟩ := hin c List.mem_cons_self
    obtain ⟨⟨⟩, m1, e1, h1⟩ := mixedBody_wp dx dy hx hy nx2 ny2 nxu nyu c1 c2 (hr _ c1 _ c2) ht
    have fx : ∀ a i j, a ≠ .temppsixy → ¬ IsTemp (.d a i j) → m1 (.d a i j) = m (.d a i j) := fun a i j ha hi =>
      h1.frame _ (by rintro ⟨⟩; exact ha rfl) hi
    obtain ⟨mf, e2, h2, h3, h4⟩ := ih (fun d hd => hin d (List.mem_cons_of_mem _ hd)) (m := m1)
      (fun r hr c hc => by rw [fx _ _ _ (by simp) (by simp [IsTemp])]; exact hx r hr c hc)
      (fun r hr c hc => by rw [fx _ _ _ (by simp) (by simp [IsTemp])]; exact hy r hr c hc)
      (fun k hk l hl => by
        by_cases e : (Loc.d .temppsixy k l) = .d .temppsixy c.1 c.2
        · rw [e, h1.val]; simp
        · rw [h1.frame _ e (by simp [IsTemp])]; exact hr k hk l hl)
      h1.temp
    refine ⟨mf, ?_, fun d hd => ?_, fun l' hl ht' => ?_, h4⟩
    · simp only [List.map_cons, runAll, e1, M.ok_bind]
      exact e2
    · by_cases hd' : d ∈ cs
      · exact h2 d hd'
      · rcases List.mem_cons.1 hd with rfl | hd
        · rw [h3 _ (fun c hc e => hd' (by
            have : d = c := by
              rw [Loc.d.injEq] at e
              exact Prod.ext e.2.1 e.2.2
            rw [this]; exact hc)) (by simp [IsTemp]), h1.val]
        · exact absurd hd hd'
    · rw [h3 l' (fun c hc => hl c (List.mem_cons_of_mem _ hc)) ht', h1.frame l' (hl c List.mem_cons_self) ht']

/-! ## CUDA -/

/-- The node whose thread writes the location in the CUDA kernel. -/
def mixOwner : Loc → Option (ℕ × ℕ)
  | .d .temppsixy i j => some (i, j)
  | _ => none

theorem mixedCuda_owned (nx ny : ℕ) (dx dy : K) (ix iy : ℕ) :
    Owned mixOwner (0, indexW nx ix iy) (mixedCuda nx ny dx dy ix iy) := by
  unfold Owned mixedCuda
  split_ifs <;> simp [getD, setD, Prog.get, Prog.set, Prog.bind, Prog.Fits, mixOwner]

/-- What the CUDA kernel computes: the stencil, except at the upper left corner, where one of the four differences uses the
wrong node. -/
def cudaStencil (px py : ℕ → ℕ → K) (nx ny : ℕ) (dx dy : K) (i j : ℕ) : K :=
  if i = ny - 1 ∧ j = 0 then
    3 / 4 * ((px (ny - 1) 0 - px (ny - 2) 0) / dy + (py (ny - 1) 1 - py (ny - 1) 0) / dx) -
      1 / 4 * ((px (ny - 1) 0 - px (ny - 2) 1) / dy + (py (ny - 2) 1 - py (ny - 2) 0) / dx)
  else Spec.mixedStencil px py nx ny dx dy i j

/-- Memory after a thread of the kernel. -/
structure CudaMixedAt (m m' : Mem (Val K)) (w : ℕ) (r : K) : Prop where
  val : m' (.d .temppsixy 0 w) = .val r
  frame : ∀ l', l' ≠ .d .temppsixy 0 w → m' l' = m l'

/-- A flat array and the sizes. -/
structure MixIn (m : Mem (Val K)) (nx ny : ℕ) (px py : ℕ → ℕ → K) : Prop where
  x : Flat2 m .temppsix nx ny px
  y : Flat2 m .temppsiy nx ny py
  nx2 : 2 ≤ nx
  ny2 : 2 ≤ ny
  size : nx * ny < uMod

theorem flat2_at {m : Mem (Val K)} {a : DVar} {nx ny : ℕ} {f : ℕ → ℕ → K} (h : Flat2 m a nx ny f) {r c k : ℕ} (hr : r < ny)
    (hc : c < nx) (e : k = nx * r + c) : m (.d a 0 k) = .val (f r c) := by
  subst e
  rw [Nat.mul_comm]
  exact h r hr c hc

theorem mul_sub_one_add {nx ny : ℕ} (h : 1 ≤ ny) : nx * ny = nx * (ny - 1) + nx := by
  obtain ⟨k, rfl⟩ : ∃ k, ny = k + 1 := ⟨ny - 1, by omega⟩
  simp only [Nat.add_sub_cancel]
  ring

section corners
variable {m : Mem (Val K)} {nx ny : ℕ} {px py : ℕ → ℕ → K} (h : MixIn m nx ny px py) (dx dy : K) (w : ℕ)
  (hr : m (.d .temppsixy 0 w) ≠ .oob)
include h hr

theorem corner00 : Prog.wp (V := Val K) (do
    let d1 := ((← getD .temppsiy 0 1) - (← getD .temppsiy 0 0)) / dx
    let d2 := ((← getD .temppsix 0 nx) - (← getD .temppsix 0 0)) / dy
    let d3 := ((← getD .temppsix 0 (uadd nx 1)) - (← getD .temppsix 0 1)) / dy
    let d4 := ((← getD .temppsiy 0 (uadd nx 1)) - (← getD .temppsiy 0 nx)) / dx
    setD .temppsixy 0 w (3 / 4 * (d1 + d2) - 1 / 4 * (d3 + d4))) m fun _ m' => CudaMixedAt m m' w (3 / 4 * (((py (0) (1) - py (0) (0)) / dx) + ((px (1) (0) - px (0) (0)) / dy)) - 1 / 4 * (((px (1) (1) - px (0) (1)) / dy) + ((py (1) (1) - py (1) (0)) / dx))) := by
  obtain ⟨hx, hy, nx2, ny2, hxy⟩ := h
  have p1 := mul_sub_one_add (nx := nx) (ny := ny) (by omega)
  have p2 : nx * (ny - 1) = nx * (ny - 2) + nx := mul_sub_one_add (nx := nx) (ny := ny - 1) (by omega)
  have a1 : m (.d .temppsiy 0 0) = .val (py (0) (0)) :=
    flat2_at hy (by omega) (by omega) (by omega)
  have a2 : m (.d .temppsiy 0 1) = .val (py (0) (1)) :=
    flat2_at hy (by omega) (by omega) (by omega)
  have a3 : m (.d .temppsiy 0 nx) = .val (py (1) (0)) :=
    flat2_at hy (by omega) (by omega) (by omega)
  have a4 : m (.d .temppsiy 0 (uadd nx 1)) = .val (py (1) (1)) :=
    flat2_at hy (by omega) (by omega) (by rw [uadd_eq (by omega)]; omega)
  have b1 : m (.d .temppsix 0 0) = .val (px (0) (0)) :=
    flat2_at hx (by omega) (by omega) (by omega)
  have b2 : m (.d .temppsix 0 1) = .val (px (0) (1)) :=
    flat2_at hx (by omega) (by omega) (by omega)
  have b3 : m (.d .temppsix 0 nx) = .val (px (1) (0)) :=
    flat2_at hx (by omega) (by omega) (by omega)
  have b4 : m (.d .temppsix 0 (uadd nx 1)) = .val (px (1) (1)) :=
    flat2_at hx (by omega) (by omega) (by rw [uadd_eq (by omega)]; omega)
  simp only [bind, Prog.wp_bind, wp_getD, wp_setD, a1, a2, a3, a4, b1, b2, b3, b4, slot_val_inj, exists_eq_left', hr, ne_eq,
    not_false_eq_true, true_and]
  exact ⟨Mem.upd_same _ _ _, fun l' h => Mem.upd_other _ h _⟩

theorem corner01 : Prog.wp (V := Val K) (do
    let d1 := ((← getD .temppsiy 0 (nx - 1)) - (← getD .temppsiy 0 (nx - 2))) / dx
    let d2 := ((← getD .temppsix 0 (usub (uadd nx nx) 2)) - (← getD .temppsix 0 (nx - 2))) / dy
    let d3 := ((← getD .temppsix 0 (usub (uadd nx nx) 1)) - (← getD .temppsix 0 (nx - 1))) / dy
    let d4 := ((← getD .temppsiy 0 (usub (uadd nx nx) 1)) - (← getD .temppsiy 0 (usub (uadd nx nx) 2))) / dx
    setD .temppsixy 0 w (3 / 4 * (d1 + d3) - 1 / 4 * (d2 + d4))) m fun _ m' => CudaMixedAt m m' w (3 / 4 * (((py (0) (nx - 1) - py (0) (nx - 2)) / dx) + ((px (1) (nx - 1) - px (0) (nx - 1)) / dy)) - 1 / 4 * (((px (1) (nx - 2) - px (0) (nx - 2)) / dy) + ((py (1) (nx - 1) - py (1) (nx - 2)) / dx))) := by
  obtain ⟨hx, hy, nx2, ny2, hxy⟩ := h
  have p1 := mul_sub_one_add (nx := nx) (ny := ny) (by omega)
  have p2 : nx * (ny - 1) = nx * (ny - 2) + nx := mul_sub_one_add (nx := nx) (ny := ny - 1) (by omega)
  have a1 : m (.d .temppsiy 0 (nx - 1)) = .val (py (0) (nx - 1)) :=
    flat2_at hy (by omega) (by omega) (by omega)
  have a2 : m (.d .temppsiy 0 (nx - 2)) = .val (py (0) (nx - 2)) :=
    flat2_at hy (by omega) (by omega) (by omega)
  have a3 : m (.d .temppsiy 0 (usub (uadd nx nx) 1)) = .val (py (1) (nx - 1)) :=
    flat2_at hy (by omega) (by omega) (by rw [uadd_eq (by omega), usub_eq (by omega) (by omega)]; omega)
  have a4 : m (.d .temppsiy 0 (usub (uadd nx nx) 2)) = .val (py (1) (nx - 2)) :=
    flat2_at hy (by omega) (by omega) (by rw [uadd_eq (by omega), usub_eq (by omega) (by omega)]; omega)
  have b1 : m (.d .temppsix 0 (nx - 1)) = .val (px (0) (nx - 1)) :=
    flat2_at hx (by omega) (by omega) (by omega)
  have b2 : m (.d .temppsix 0 (nx - 2)) = .val (px (0) (nx - 2)) :=
    flat2_at hx (by omega) (by omega) (by omega)
  have b3 : m (.d .temppsix 0 (usub (uadd nx nx) 1)) = .val (px (1) (nx - 1)) :=
    flat2_at hx (by omega) (by omega) (by rw [uadd_eq (by omega), usub_eq (by omega) (by omega)]; omega)
  have b4 : m (.d .temppsix 0 (usub (uadd nx nx) 2)) = .val (px (1) (nx - 2)) :=
    flat2_at hx (by omega) (by omega) (by rw [uadd_eq (by omega), usub_eq (by omega) (by omega)]; omega)
  simp only [bind, Prog.wp_bind, wp_getD, wp_setD, a1, a2, a3, a4, b1, b2, b3, b4, slot_val_inj, exists_eq_left', hr, ne_eq,
    not_false_eq_true, true_and]
  exact ⟨Mem.upd_same _ _ _, fun l' h => Mem.upd_other _ h _⟩

theorem corner10 : Prog.wp (V := Val K) (do
    let d1 := ((← getD .temppsiy 0 (uadd (umul nx (ny - 2)) 1)) - (← getD .temppsiy 0 (umul nx (ny - 2)))) / dx
    let d2 := ((← getD .temppsix 0 (umul nx (ny - 1))) - (← getD .temppsix 0 (umul nx (ny - 2)))) / dy
    let d3 := ((← getD .temppsix 0 (umul nx (ny - 1))) - (← getD .temppsix 0 (uadd (umul nx (ny - 2)) 1))) / dy
    let d4 := ((← getD .temppsiy 0 (uadd (umul nx (ny - 1)) 1)) - (← getD .temppsiy 0 (umul nx (ny - 1)))) / dx
    setD .temppsixy 0 w (3 / 4 * (d2 + d4) - 1 / 4 * (d3 + d1))) m fun _ m' => CudaMixedAt m m' w (3 / 4 * (((px (ny - 1) (0) - px (ny - 2) (0)) / dy) + ((py (ny - 1) (1) - py (ny - 1) (0)) / dx)) - 1 / 4 * (((px (ny - 1) (0) - px (ny - 2) (1)) / dy) + ((py (ny - 2) (1) - py (ny - 2) (0)) / dx))) := by
  obtain ⟨hx, hy, nx2, ny2, hxy⟩ := h
  have p1 := mul_sub_one_add (nx := nx) (ny := ny) (by omega)
  have p2 : nx * (ny - 1) = nx * (ny - 2) + nx := mul_sub_one_add (nx := nx) (ny := ny - 1) (by omega)
  have a1 : m (.d .temppsiy 0 (umul nx (ny - 1))) = .val (py (ny - 1) (0)) :=
    flat2_at hy (by omega) (by omega) (by rw [umul_eq (by omega)]; omega)
  have a2 : m (.d .temppsiy 0 (uadd (umul nx (ny - 1)) 1)) = .val (py (ny - 1) (1)) :=
    flat2_at hy (by omega) (by omega) (by rw [umul_eq (by omega), uadd_eq (by omega)])
  have a3 : m (.d .temppsiy 0 (umul nx (ny - 2))) = .val (py (ny - 2) (0)) :=
    flat2_at hy (by omega) (by omega) (by rw [umul_eq (by omega)]; omega)
  have a4 : m (.d .temppsiy 0 (uadd (umul nx (ny - 2)) 1)) = .val (py (ny - 2) (1)) :=
    flat2_at hy (by omega) (by omega) (by rw [umul_eq (by omega), uadd_eq (by omega)])
  have b1 : m (.d .temppsix 0 (umul nx (ny - 1))) = .val (px (ny - 1) (0)) :=
    flat2_at hx (by omega) (by omega) (by rw [umul_eq (by omega)]; omega)
  have b2 : m (.d .temppsix 0 (uadd (umul nx (ny - 1)) 1)) = .val (px (ny - 1) (1)) :=
    flat2_at hx (by omega) (by omega) (by rw [umul_eq (by omega), uadd_eq (by omega)])
  have b3 : m (.d .temppsix 0 (umul nx (ny - 2))) = .val (px (ny - 2) (0)) :=
    flat2_at hx (by omega) (by omega) (by rw [umul_eq (by omega)]; omega)
  have b4 : m (.d .temppsix 0 (uadd (umul nx (ny - 2)) 1)) = .val (px (ny - 2) (1)) :=
    flat2_at hx (by omega) (by omega) (by rw [umul_eq (by omega), uadd_eq (by omega)])
  simp only [bind, Prog.wp_bind, wp_getD, wp_setD, a1, a2, a3, a4, b1, b2, b3, b4, slot_val_inj, exists_eq_left', hr, ne_eq,
    not_false_eq_true, true_and]
  exact ⟨Mem.upd_same _ _ _, fun l' h => Mem.upd_other _ h _⟩

theorem corner11 : Prog.wp (V := Val K) (do
    let d1 := ((← getD .temppsiy 0 (usub (uadd (umul nx (ny - 2)) nx) 1)) - (← getD .temppsiy 0 (usub (uadd (umul nx (ny - 2)) nx) 2))) / dx
    let d2 := ((← getD .temppsix 0 (usub (uadd (umul nx (ny - 1)) nx) 2)) - (← getD .temppsix 0 (usub (uadd (umul nx (ny - 2)) nx) 2))) / dy
    let d3 := ((← getD .temppsix 0 (usub (uadd (umul nx (ny - 1)) nx) 1)) - (← getD .temppsix 0 (usub (uadd (umul nx (ny - 2)) nx) 1))) / dy
    let d4 := ((← getD .temppsiy 0 (usub (uadd (umul nx (ny - 1)) nx) 1)) - (← getD .temppsiy 0 (usub (uadd (umul nx (ny - 1)) nx) 2))) / dx
    setD .temppsixy 0 w (3 / 4 * (d3 + d4) - 1 / 4 * (d1 + d2))) m fun _ m' => CudaMixedAt m m' w (3 / 4 * (((px (ny - 1) (nx - 1) - px (ny - 2) (nx - 1)) / dy) + ((py (ny - 1) (nx - 1) - py (ny - 1) (nx - 2)) / dx)) - 1 / 4 * (((py (ny - 2) (nx - 1) - py (ny - 2) (nx - 2)) / dx) + ((px (ny - 1) (nx - 2) - px (ny - 2) (nx - 2)) / dy))) := by
  obtain ⟨hx, hy, nx2, ny2, hxy⟩ := h
  have p1 := mul_sub_one_add (nx := nx) (ny := ny) (by omega)
  have p2 : nx * (ny - 1) = nx * (ny - 2) + nx := mul_sub_one_add (nx := nx) (ny := ny - 1) (by omega)
  have a1 : m (.d .temppsiy 0 (usub (uadd (umul nx (ny - 1)) nx) 1)) = .val (py (ny - 1) (nx - 1)) :=
    flat2_at hy (by omega) (by omega) (by rw [umul_eq (by omega), uadd_eq (by omega), usub_eq (by omega) (by omega)]; omega)
  have a2 : m (.d .temppsiy 0 (usub (uadd (umul nx (ny - 1)) nx) 2)) = .val (py (ny - 1) (nx - 2)) :=
    flat2_at hy (by omega) (by omega) (by rw [umul_eq (by omega), uadd_eq (by omega), usub_eq (by omega) (by omega)]; omega)
  have a3 : m (.d .temppsiy 0 (usub (uadd (umul nx (ny - 2)) nx) 1)) = .val (py (ny - 2) (nx - 1)) :=
    flat2_at hy (by omega) (by omega) (by rw [umul_eq (by omega), uadd_eq (by omega), usub_eq (by omega) (by omega)]; omega)
  have a4 : m (.d .temppsiy 0 (usub (uadd (umul nx (ny - 2)) nx) 2)) = .val (py (ny - 2) (nx - 2)) :=
    flat2_at hy (by omega) (by omega) (by rw [umul_eq (by omega), uadd_eq (by omega), usub_eq (by omega) (by omega)]; omega)
  have b1 : m (.d .temppsix 0 (usub (uadd (umul nx (ny - 1)) nx) 1)) = .val (px (ny - 1) (nx - 1)) :=
    flat2_at hx (by omega) (by omega) (by rw [umul_eq (by omega), uadd_eq (by omega), usub_eq (by omega) (by omega)]; omega)
  have b2 : m (.d .temppsix 0 (usub (uadd (umul nx (ny - 1)) nx) 2)) = .val (px (ny - 1) (nx - 2)) :=
    flat2_at hx (by omega) (by omega) (by rw [umul_eq (by omega), uadd_eq (by omega), usub_eq (by omega) (by omega)]; omega)
  have b3 : m (.d .temppsix 0 (usub (uadd (umul nx (ny - 2)) nx) 1)) = .val (px (ny - 2) (nx - 1)) :=
    flat2_at hx (by omega) (by omega) (by rw [umul_eq (by omega), uadd_eq (by omega), usub_eq (by omega) (by omega)]; omega)
  have b4 : m (.d .temppsix 0 (usub (uadd (umul nx (ny - 2)) nx) 2)) = .val (px (ny - 2) (nx - 2)) :=
    flat2_at hx (by omega) (by omega) (by rw [umul_eq (by omega), uadd_eq (by omega), usub_eq (by omega) (by omega)]; omega)
  simp only [bind, Prog.wp_bind, wp_getD, wp_setD, a1, a2, a3, a4, b1, b2, b3, b4, slot_val_inj, exists_eq_left', hr, ne_eq,
    not_false_eq_true, true_and]
  exact ⟨Mem.upd_same _ _ _, fun l' h => Mem.upd_other _ h _⟩

end corners

theorem mixedCuda_wp {m : Mem (Val K)} {nx ny ix iy : ℕ} {px py : ℕ → ℕ → K} (h : MixIn m nx ny px py) (dx dy : K)
    (hi : iy < ny) (hj : ix < nx) (hr : m (.d .temppsixy 0 (indexW nx ix iy)) ≠ .oob) :
    (mixedCuda nx ny dx dy ix iy).wp m fun _ m' =>
      CudaMixedAt m m' (indexW nx ix iy) (cudaStencil px py nx ny dx dy iy ix) := by
  have nx2 := h.nx2
  have ny2 := h.ny2
  have hxy := h.size
  have nxu : nx < uMod := lt_of_le_of_lt (Nat.le_mul_of_pos_right _ (by omega)) hxy
  have nyu : ny < uMod := lt_of_le_of_lt (Nat.le_mul_of_pos_left _ (by omega)) hxy
  have lw := flat_lt hi hj
  have ew : indexW nx ix iy = iy * nx + ix := by
    unfold indexW
    rw [umul_eq (by omega), uadd_eq (by omega)]
  have ex1 : usub nx 1 = nx - 1 := usub_eq (by omega) nxu
  have ex2 : usub nx 2 = nx - 2 := usub_eq (by omega) nxu
  have ey1 : usub ny 1 = ny - 1 := usub_eq (by omega) nyu
  have ey2 : usub ny 2 = ny - 2 := usub_eq (by omega) nyu
  unfold mixedCuda
  simp only [ex1, ex2, ey1, ey2]
  by_cases c1 : (iy = 0 ∨ iy = ny - 1) ∧ (ix ≠ 0 ∧ ix ≠ nx - 1)
  · rw [if_pos c1]
    have h1 := h.y iy hi (ix + 1) (by omega)
    have h2 := h.y iy hi (ix - 1) (by omega)
    have lw' := flat_lt hi (show ix + 1 < nx by omega)
    have e1 : uadd (indexW nx ix iy) 1 = iy * nx + (ix + 1) := by rw [ew, uadd_eq (by omega)]; omega
    have e2 : usub (indexW nx ix iy) 1 = iy * nx + (ix - 1) := by rw [ew, usub_eq (by omega) (by omega)]; omega
    simp only [bind, Prog.wp_bind, wp_getD, wp_setD, h1, h2, e1, e2, slot_val_inj, exists_eq_left', hr, ne_eq,
      not_false_eq_true, true_and]
    refine ⟨?_, fun l' h => Mem.upd_other _ h _⟩
    rw [Mem.upd_same, cudaStencil, if_neg (by omega), Spec.mixedStencil, if_neg (by omega), if_pos (by omega)]
    rfl
  rw [if_neg c1]
  by_cases c2 : (iy ≠ 0 ∧ iy ≠ ny - 1) ∧ (ix = 0 ∨ ix = nx - 1)
  · rw [if_pos c2]
    have h1 := h.x (iy + 1) (by omega) ix hj
    have h2 := h.x (iy - 1) (by omega) ix hj
    have lw' := flat_lt (show iy + 1 < ny by omega) hj
    have g1 : (iy + 1) * nx = iy * nx + nx := by ring
    have g2 : iy * nx = (iy - 1) * nx + nx := by
      obtain ⟨k, rfl⟩ : ∃ k, iy = k + 1 := ⟨iy - 1, by omega⟩
      simp only [Nat.add_sub_cancel]; ring
    have e1 : uadd (indexW nx ix iy) nx = (iy + 1) * nx + ix := by rw [ew, uadd_eq (by omega)]; omega
    have e2 : usub (indexW nx ix iy) nx = (iy - 1) * nx + ix := by rw [ew, usub_eq (by omega) (by omega)]; omega
    simp only [bind, Prog.wp_bind, wp_getD, wp_setD, h1, h2, e1, e2, slot_val_inj, exists_eq_left', hr, ne_eq,
      not_false_eq_true, true_and]
    refine ⟨?_, fun l' h => Mem.upd_other _ h _⟩
    rw [Mem.upd_same, cudaStencil, if_neg (by omega), Spec.mixedStencil, if_neg (by omega), if_neg (by omega),
      if_pos (by omega)]
    rfl
  rw [if_neg c2]
  by_cases c3 : (iy = 0 ∨ iy = ny - 1) ∧ (ix = 0 ∨ ix = nx - 1)
  · rw [if_pos c3]
    have eN : nx - 2 + 1 = nx - 1 := by omega
    have eM : ny - 2 + 1 = ny - 1 := by omega
    have n1 : nx - 1 ≠ 0 := by omega
    have n2 : ny - 1 ≠ 0 := by omega
    have spec : Spec.mixedStencil px py nx ny dx dy iy ix =
        3 / 4 * (Spec.eX py dx iy (if ix = 0 then 0 else nx - 2) + Spec.eY px dy (if iy = 0 then 0 else ny - 2) ix) -
        1 / 4 * (Spec.eX py dx (if iy = 0 then 1 else ny - 2) (if ix = 0 then 0 else nx - 2) +
          Spec.eY px dy (if iy = 0 then 0 else ny - 2) (if ix = 0 then 1 else nx - 2)) := by
      rw [Spec.mixedStencil, if_neg (by omega), if_neg (by omega), if_neg (by omega)]
    generalize hw : indexW nx ix iy = w at hr ⊢
    rcases c3 with ⟨rfl | rfl, rfl | rfl⟩
    · simp only [and_self, if_true]
      refine Prog.wp_mono (corner00 h dx dy w hr) fun _ m' hm => ?_
      rw [cudaStencil, if_neg (by omega), spec]
      simp only [Spec.eX, Spec.eY, if_true]
      convert hm using 1
      ring
    · simp only [n1, and_false, if_false, and_self, if_true]
      refine Prog.wp_mono (corner01 h dx dy w hr) fun _ m' hm => ?_
      rw [cudaStencil, if_neg (by omega), spec]
      simp only [Spec.eX, Spec.eY, if_true, n1, if_false, eN]
      convert hm using 1
      ring
    · simp only [n2, false_and, if_false, and_self, if_true]
      refine Prog.wp_mono (corner10 h dx dy w hr) fun _ m' hm => ?_
      rw [cudaStencil, if_pos ⟨rfl, rfl⟩]
      convert hm using 1
    · simp only [n1, n2, and_false, if_false, and_self, if_true]
      refine Prog.wp_mono (corner11 h dx dy w hr) fun _ m' hm => ?_
      rw [cudaStencil, if_neg (by omega), spec]
      simp only [Spec.eX, Spec.eY, if_true, n1, n2, if_false, eN, eM]
      convert hm using 1
      ring
  · rw [if_neg c3]
    have h1 := h.y iy hi (ix + 1) (by omega)
    have h2 := h.y iy hi (ix - 1) (by omega)
    have h3 := h.x (iy + 1) (by omega) ix hj
    have h4 := h.x (iy - 1) (by omega) ix hj
    have lw' := flat_lt (show iy + 1 < ny by omega) hj
    have g1 : (iy + 1) * nx = iy * nx + nx := by ring
    have g2 : iy * nx = (iy - 1) * nx + nx := by
      obtain ⟨k, rfl⟩ : ∃ k, iy = k + 1 := ⟨iy - 1, by omega⟩
      simp only [Nat.add_sub_cancel]; ring
    have e1 : uadd (indexW nx ix iy) nx = (iy + 1) * nx + ix := by rw [ew, uadd_eq (by omega)]; omega
    have e2 : usub (indexW nx ix iy) nx = (iy - 1) * nx + ix := by rw [ew, usub_eq (by omega) (by omega)]; omega
    have e3 : uadd (indexW nx ix iy) 1 = iy * nx + (ix + 1) := by rw [ew, uadd_eq (by omega)]; omega
    have e4 : usub (indexW nx ix iy) 1 = iy * nx + (ix - 1) := by rw [ew, usub_eq (by omega) (by omega)]; omega
    simp only [bind, Prog.wp_bind, wp_getD, wp_setD, h1, h2, h3, h4, e1, e2, e3, e4, slot_val_inj, exists_eq_left', hr, ne_eq,
      not_false_eq_true, true_and]
    refine ⟨?_, fun l' h => Mem.upd_other _ h _⟩
    rw [Mem.upd_same, cudaStencil, if_neg (by omega), Spec.mixedStencil, if_pos (by omega)]
    rfl

end Gals.Ref
