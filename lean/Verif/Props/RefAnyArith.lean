import Verif.Lemmas.RefSafe
import Verif.Props.RefFrames

/-!
# C83: the reference programs stay inside their arrays, with any arithmetic

Nothing is assumed about the operations and comparisons of the numbers.
-/

set_option linter.unusedSectionVars false
set_option linter.unusedSimpArgs false

namespace Gals.Props

open Gals Gals.Ref

section any
variable {K : Type} [Zero K] [One K] [Add K] [_root_.Sub K] [Mul K] [Div K] [Neg K] [NatCast K]
variable [LT K] [DecidableLT K] [LE K] [DecidableLE K]

/-- The stored node `x[j]`, with the operations of the program. -/
def nodeX (c : Setting K) (j : ℕ) : K := c.xlim1 + c.dx * (j : K)
/-- The stored node `y[i]`. -/
def nodeY (c : Setting K) (i : ℕ) : K := c.ylim1 + c.dy * (i : K)

/-- The grid is large enough, its size fits `unsigned int`, and the stored nodes reach both limits: no number lies strictly
between a limit and the first or last node. -/
structure Reaches (c : Setting K) : Prop where
  nx : 3 ≤ c.nx
  ny : 3 ≤ c.ny
  nxu : c.nx < uMod
  nyu : c.ny < uMod
  x0 : ∀ q, c.xlim1 < q → nodeX c 0 < q
  x1 : ∀ q, q < c.xlim2 → ¬ nodeX c (c.nx - 1) < q
  y0 : ∀ q, c.ylim1 < q → nodeY c 0 < q
  y1 : ∀ q, q < c.ylim2 → ¬ nodeY c (c.ny - 1) < q

/-- Invariant of the values: the nodes, and cells inside the grid. -/
abbrev CellInv (c : Setting K) : (l : Loc) → Val K l → Prop :=
  ValInv (nodeX c) (nodeY c) (fun _ _ _ => True) (fun _ _ _ => True) (fun _ _ k => k + 1 < c.nx) (fun _ _ k => k + 1 < c.ny)

/-- Memory with values in the locations `R` and room in the locations `W`. -/
abbrev Sound (c : Setting K) (W R : Loc → Prop) (m : Mem (Val K)) : Prop := Holds W (fun _ => False) (CellInv c) R m

variable {c : Setting K} {m : Mem (Val K)}

theorem exec_loop (ps : List (P K Unit)) (m : Mem (Val K)) : exec (.seqAll ps) m = runAll ps m := by
  rw [exec, Prog.run_seqAll]
  cases runAll ps m <;> rfl

theorem Sound.loop {W R : Loc → Prop} (h : Sound c W R m) {κ : Type} {b : κ → P K Unit} (cs : List κ)
    (hp : ∀ k ∈ cs, (b k).safe W (fun _ => False) (CellInv c) R fun _ _ => True) :
    ∃ m', exec (.seqAll (cs.map b)) m = .ok m' ∧ Sound c W R m' := by
  rcases safe_loop (fun _ _ => False) cs (fun k hk => Prog.safe_mono (hp k hk) (fun _ => id) fun _ _ _ _ _ _ hl => hl.elim) h with
    ⟨⟨l, hl⟩, _⟩ | ⟨m', e, hm⟩
  · exact hl.elim
  · exact ⟨m', by rw [exec_loop]; exact e, hm.mono fun l hl => .inl hl⟩

theorem seqAll_safe {W B R : Loc → Prop} {I : ∀ l, Val K l → Prop} {ps : List (P K Unit)}
    (h : ∀ p ∈ ps, p.safe W B I R fun _ _ => True) : (Prog.seqAll ps).safe W B I R fun _ _ => True := by
  suffices H : ∀ R' : Loc → Prop, (∀ l, R l → R' l) → (Prog.seqAll ps).safe W B I R' fun _ _ => True from H R fun _ => id
  induction ps with
  | nil => exact fun _ _ => trivial
  | cons p ps ih =>
    intro R' hR
    rw [Prog.seqAll, Prog.safe_bind]
    exact Prog.safe_mono (Prog.safe_grows (h p List.mem_cons_self)) hR fun _ S S' hS hq =>
      ih (fun q hq' => h q (List.mem_cons_of_mem _ hq')) S' fun l hl => hS l (hq.1 l hl)

/-! ## Memory between the loops of a step -/

variable (hc : Reaches c)
include hc

omit hc in
theorem Sound.of_val {W : Loc → Prop} (h : ∀ l, W l → ∃ v, m l = .val v ∧ CellInv c l v) : Sound c W W m :=
  ⟨h, fun l hl => by obtain ⟨v, e, _⟩ := h l hl; rw [e]; nofun, fun l hl => hl.elim⟩

theorem Sound.arrays (h : Sound c (Kept c.nx c.ny) (Kept c.nx c.ny) m) :
    Sound c (Kept1 c.nx c.ny) (Kept1 c.nx c.ny) (stepArrays c m) := by
  refine Sound.of_val fun l hl => ?_
  match l with
  | .n .tracker i j =>
    obtain ⟨h1, h2⟩ : i < c.ny ∧ j < c.nx := hl
    exact ⟨0, by simp [stepArrays, allocD, allocN, h1, h2], trivial⟩
  | .n .cellx i j => exact hl.elim
  | .n .celly i j => exact hl.elim
  | .d a i j =>
    cases a with
    | xadv =>
      obtain ⟨h1, h2⟩ : i < c.ny ∧ j < c.nx := hl
      exact ⟨0, by simp [stepArrays, allocD, allocN, h1, h2], trivial⟩
    | yadv =>
      obtain ⟨h1, h2⟩ : i < c.ny ∧ j < c.nx := hl
      exact ⟨0, by simp [stepArrays, allocD, allocN, h1, h2], trivial⟩
    | _ => exact h.val (.d _ i j) hl

theorem Sound.cells (h : Sound c (Kept1 c.nx c.ny) (Kept1 c.nx c.ny) m) :
    Sound c (Kept2 c.nx c.ny) (Kept2 c.nx c.ny) (stepCells c m) where
  val l hl := by
    have := hc.nx
    have := hc.ny
    match l with
    | .n .tracker i j => simpa [stepCells, allocN] using h.val (.n .tracker i j) hl
    | .n .cellx i j => 
      obtain ⟨h1, h2⟩ : i < c.ny ∧ j < c.nx := hl
      exact ⟨0, by simp [stepCells, allocN, h1, h2], by show 0 + 1 < c.nx; omega⟩
    | .n .celly i j => 
      obtain ⟨h1, h2⟩ : i < c.ny ∧ j < c.nx := hl
      exact ⟨0, by simp [stepCells, allocN, h1, h2], by show 0 + 1 < c.ny; omega⟩
    | .d a i j => simpa [stepCells, allocN] using h.val (.d a i j) hl
  room l hl := by
    match l with
    | .n .tracker i j => simpa [stepCells, allocN] using h.room (.n .tracker i j) hl
    | .n .cellx i j => 
      obtain ⟨h1, h2⟩ : i < c.ny ∧ j < c.nx := hl
      simp [stepCells, allocN, h1, h2]
    | .n .celly i j => 
      obtain ⟨h1, h2⟩ : i < c.ny ∧ j < c.nx := hl
      simp [stepCells, allocN, h1, h2]
    | .d a i j => simpa [stepCells, allocN] using h.room (.d a i j) hl
  bad l hl := hl.elim

theorem Sound.decl (h : Sound c (Kept2 c.nx c.ny) (Kept2 c.nx c.ny) m) :
    Sound c (Kept3 c.nx c.ny) (Kept2 c.nx c.ny) (declMixed m) where
  val l hl := by
    match l with
    | .n a i j => simpa [declMixed] using h.val (.n a i j) hl
    | .d a i j =>
      have h1 := h.val (.d a i j) hl
      cases a <;> first | exact hl.elim | simpa [declMixed] using h1
  room l hl := by
    rcases hl with hl | rfl | rfl | rfl | rfl | rfl | rfl
    · match l with
      | .n a i j => simpa [declMixed] using h.room (.n a i j) hl
      | .d a i j =>
        have h1 := h.room (.d a i j) hl
        cases a <;> first | exact hl.elim | simpa [declMixed] using h1
    all_goals simp [declMixed]
  bad l hl := hl.elim

theorem Sound.finish (h : Sound c (Kept3 c.nx c.ny) (Kept2 c.nx c.ny) m) :
    Sound c (Kept c.nx c.ny) (Kept c.nx c.ny) (stepFinish m) := by
  have hv : ∀ l, Kept c.nx c.ny l → ∃ v, stepFinish m l = .val v ∧ CellInv c l v := by
    intro l hl
    match l with
    | .n a i j => exact hl.elim
    | .d a i j => 
      cases a with
      | xadv => exact hl.elim
      | yadv => exact hl.elim
      | mphi => exact h.val (.d .tempphi i j) hl
      | mpsix => exact h.val (.d .temppsix i j) hl
      | mpsiy => exact h.val (.d .temppsiy i j) hl
      | mpsixy => exact h.val (.d .temppsixy i j) hl
      | _ => exact h.val (.d _ i j) hl
  exact Sound.of_val hv

/-! ## One step -/

omit hc in
theorem kept1_of {nx ny : ℕ} {l : Loc} (h : Kept nx ny l) : Kept1 nx ny l := by
  match l with
  | .n a i j => exact h.elim
  | .d a i j => cases a <;> first | exact h.elim | exact h

theorem adv_ok (v : Vel K) (rk3 : Bool) (t : ℕ) (dt : K) {i j : ℕ} (hi : i < c.ny) (hj : j < c.nx) :
    (advBody v rk3 t dt i j).safe (Kept1 c.nx c.ny) (fun _ => False) (CellInv c) (Kept1 c.nx c.ny) fun _ _ => True :=
  adv_safe v rk3 t dt hi hj (fun _ => kept1_of) (fun _ => id) (fun _ => ⟨trivial, trivial⟩) _ fun _ _ => trivial

theorem find_ok {i j : ℕ} (hi : i < c.ny) (hj : j < c.nx) :
    (findBody c.xlim1 c.xlim2 c.ylim1 c.ylim2 c.nx c.ny i j).safe (Kept2 c.nx c.ny) (fun _ => False) (CellInv c)
      (Kept2 c.nx c.ny) fun _ _ => True := by
  have h1 := hc.nx
  have h2 := hc.ny
  refine find_safe hi hj (by omega) (by omega) hc.nxu hc.nyu (fun _ => id) (fun _ => id) ⟨hc.x0, ?_, by omega, by omega⟩
    ⟨hc.y0, ?_, by omega, by omega⟩ _ fun _ _ => trivial
  · intro q _ _ hq r hr hl _
    by_contra hn
    have : r = c.nx - 1 := by omega
    subst this
    exact hc.x1 q hq hl
  · intro q _ _ hq r hr hl _
    by_contra hn
    have : r = c.ny - 1 := by omega
    subst this
    exact hc.y1 q hq hl

theorem update_ok (v : Vel K) (s : Schemes) (t : ℕ) (dt dx dy : K) {i j : ℕ} (hi : i < c.ny) (hj : j < c.nx) :
    (updateBody v s t dt dx dy i j).safe (Kept2 c.nx c.ny) (fun _ => False) (CellInv c) (Kept2 c.nx c.ny) fun _ _ => True :=
  update_safe v s t dt dx dy hi hj hc.nxu hc.nyu (fun _ => id) (fun _ => id) (fun k hk => by omega) (fun k hk => by omega)
    (.inl ⟨fun _ => id, fun _ => id⟩) _ fun _ _ _ _ _ _ _ _ => trivial

theorem mixed_ok (dx dy : K) {i j : ℕ} (hi : i < c.ny) (hj : j < c.nx) :
    (mixedBody c.nx c.ny dx dy i j).safe (Kept3 c.nx c.ny) (fun _ => False) (CellInv c) (Kept2 c.nx c.ny) fun _ _ => True :=
  mixed_safe dx dy hi hj hc.nx hc.ny hc.nxu hc.nyu (fun _ => id) (fun _ => id) _ fun _ _ => trivial

theorem spacing_ok (h : Sound c (Kept2 c.nx c.ny) (Kept2 c.nx c.ny) m) :
    (spacing .x).run m = .ok (nodeX c 2 - nodeX c 1, m) ∧ (spacing .y).run m = .ok (nodeY c 2 - nodeY c 1, m) := by
  have h1 := hc.nx
  have h2 := hc.ny
  obtain ⟨a, ea, ha⟩ := h.val (.d .x 0 2) ⟨rfl, by omega⟩
  obtain ⟨b, eb, hb⟩ := h.val (.d .x 0 1) ⟨rfl, by omega⟩
  obtain ⟨d, ed, hd⟩ := h.val (.d .y 0 2) ⟨rfl, by omega⟩
  obtain ⟨e, ee, he⟩ := h.val (.d .y 0 1) ⟨rfl, by omega⟩
  cases ha; cases hb; cases hd; cases he
  constructor
  · simp only [spacing, bind, pure, getD, Prog.get, Prog.bind, Prog.run, ea, eb]
  · simp only [spacing, bind, pure, getD, Prog.get, Prog.bind, Prog.run, ed, ee]

theorem stepTail_ok (v : Vel K) (dx dy : K) (t : ℕ) (h : Sound c (Kept1 c.nx c.ny) (Kept1 c.nx c.ny) m) :
    ∃ m', stepTail c v dx dy t m = .ok m' ∧ Sound c (Kept c.nx c.ny) (Kept c.nx c.ny) m' := by
  obtain ⟨m1, e1, h1⟩ := (h.cells hc).loop (b := fun c' : ℕ × ℕ => findBody c.xlim1 c.xlim2 c.ylim1 c.ylim2 c.nx c.ny c'.1 c'.2)
    (nodes c.ny 0 c.nx) fun k hk => find_ok hc (mem_nodes.1 hk).1 (mem_nodes.1 hk).2.2
  obtain ⟨s1, s2⟩ := spacing_ok hc h1
  obtain ⟨m2, e2, h2⟩ := h1.loop
    (b := fun c' : ℕ × ℕ => updateBody v c.schemes t c.dt (nodeX c 2 - nodeX c 1) (nodeY c 2 - nodeY c 1) c'.1 c'.2)
    (nodes c.ny 0 c.nx) fun k hk => update_ok hc _ _ _ _ _ _ (mem_nodes.1 hk).1 (mem_nodes.1 hk).2.2
  obtain ⟨m3, e3, h3⟩ := (h2.decl hc).loop (b := fun c' : ℕ × ℕ => mixedBody c.nx c.ny dx dy c'.1 c'.2)
    (nodes c.ny 0 c.nx) fun k hk => mixed_ok hc _ _ (mem_nodes.1 hk).1 (mem_nodes.1 hk).2.2
  refine ⟨_, ?_, h3.finish hc⟩
  have eu : exec (update v c.schemes t c.dt c.nx c.ny) m1 = .ok m2 := by
    rw [← e2]
    simp only [exec, update, bind, Prog.run_bind, s1, Except.bind, s2, updateLoop]
  rw [stepTail, find, e1, M.ok_bind, eu, M.ok_bind, mixed, e3, M.ok_bind]
  rfl

theorem stepSerial_ok (v : Vel K) (dx dy : K) (t : ℕ) (h : Sound c (Kept c.nx c.ny) (Kept c.nx c.ny) m) :
    ∃ m', stepSerial c v dx dy t m = .ok m' ∧ Sound c (Kept c.nx c.ny) (Kept c.nx c.ny) m' := by
  have e1 : usub c.ny 1 = c.ny - 1 := usub_eq (by have := hc.ny; omega) hc.nyu
  have e2 : usub c.nx 1 = c.nx - 1 := usub_eq (by have := hc.nx; omega) hc.nxu
  obtain ⟨m1, e, h1⟩ := (h.arrays hc).loop (b := fun c' : ℕ × ℕ => advBody v c.schemes.rk3 t c.dt c'.1 c'.2)
    (nodes (usub c.ny 1) 0 (usub c.nx 1)) fun k hk => adv_ok hc _ _ _ _ (by have := (mem_nodes.1 hk).1; omega)
      (by have := (mem_nodes.1 hk).2.2; omega)
  rw [stepSerial, advSerial, e, M.ok_bind]
  exact stepTail_ok hc v dx dy t h1

theorem stepOpenMP_ok (v : Vel K) (dx dy : K) (t : ℕ) (h : Sound c (Kept c.nx c.ny) (Kept c.nx c.ny) m) :
    ∃ m', stepOpenMP c v dx dy t m = .ok m' ∧ Sound c (Kept c.nx c.ny) (Kept c.nx c.ny) m' := by
  obtain ⟨m1, e, h1⟩ := (h.arrays hc).loop (b := fun c' : ℕ × ℕ => advBodyMpi v c.schemes.rk3 t c.dt c'.1 c'.2)
    (nodes c.ny 0 c.nx) fun k hk => adv_ok hc _ _ _ _ (mem_nodes.1 hk).1 (mem_nodes.1 hk).2.2
  rw [stepOpenMP, advMpi, e, M.ok_bind]
  exact stepTail_ok hc v dx dy t h1

/-! ## Start -/

/-- The nodes. -/
def NodesOnly (nx ny : ℕ) : Loc → Prop
  | .d .x i j => i = 0 ∧ j < nx
  | .d .y i j => i = 0 ∧ j < ny
  | _ => False

omit hc in
theorem gridnodes_sound : ∃ m', gridnodes c.xlim1 c.ylim1 c.dx c.dy c.nx c.ny (fun _ => .oob) = .ok m' ∧
    Sound c (NodesOnly c.nx c.ny) (NodesOnly c.nx c.ny) m' := by
  have h0 : Sound c (NodesOnly c.nx c.ny) (fun _ => False) (allocD .y 1 c.ny 0 (allocD .x 1 c.nx 0 fun _ => .oob)) := by
    refine ⟨fun l hl => hl.elim, fun l hl => ?_, fun l hl => hl.elim⟩
    match l with
    | .d .x i j =>
      obtain ⟨rfl, h⟩ := hl
      simp [allocD, h]
    | .d .y i j =>
      obtain ⟨rfl, h⟩ := hl
      simp [allocD, h]
  rcases safe_loop (b := fun i => setD .x 0 i (nodeX c i)) (fun i l => l = .d .x 0 i) (List.range c.nx)
    (fun i hi => ⟨⟨rfl, List.mem_range.1 hi⟩, rfl, fun l hl => .inr hl⟩) h0 with ⟨⟨l, hl⟩, _⟩ | ⟨m1, e1, h1⟩
  · exact hl.elim
  rcases safe_loop (b := fun i => setD .y 0 i (nodeY c i)) (fun i l => l = .d .y 0 i) (List.range c.ny)
    (fun i hi => ⟨⟨rfl, List.mem_range.1 hi⟩, rfl, fun l hl => .inr hl⟩) h1 with ⟨⟨l, hl⟩, _⟩ | ⟨m2, e2, h2⟩
  · exact hl.elim
  refine ⟨m2, ?_, h2.mono fun l hl => ?_⟩
  · simp only [gridnodes, exec_loop]
    erw [e1, M.ok_bind, e2]
  · match l with
    | .d .x i j =>
      obtain ⟨rfl, h⟩ := hl
      exact .inl (.inr ⟨j, List.mem_range.2 h, rfl⟩)
    | .d .y i j =>
      obtain ⟨rfl, h⟩ := hl
      exact .inr ⟨j, List.mem_range.2 h, rfl⟩

/-- The nodes and the level-set data. -/
def DataOnly (nx ny : ℕ) : Loc → Prop
  | .d .x i j => i = 0 ∧ j < nx
  | .d .y i j => i = 0 ∧ j < ny
  | .d .mphi i j => i < ny ∧ j < nx
  | .d .mpsix i j => i < ny ∧ j < nx
  | .d .mpsiy i j => i < ny ∧ j < nx
  | .d .mpsixy i j => i < ny ∧ j < nx
  | _ => False

omit hc in
theorem allocateLevelset_sound (f : Initial K) (h : Sound c (NodesOnly c.nx c.ny) (NodesOnly c.nx c.ny) m) :
    ∃ m', allocateLevelset f c.nx c.ny m = .ok m' ∧ Sound c (DataOnly c.nx c.ny) (DataOnly c.nx c.ny) m' := by
  have h0 : Sound c (DataOnly c.nx c.ny) (DataOnly c.nx c.ny) (allocD .mpsixy c.ny c.nx 0
      (allocD .mpsiy c.ny c.nx 0 (allocD .mpsix c.ny c.nx 0 (allocD .mphi c.ny c.nx 0 m)))) := by
    refine Sound.of_val fun l hl => ?_
    match l with
    | .d .x i j => exact h.val (.d .x i j) hl
    | .d .y i j => exact h.val (.d .y i j) hl
    | .d .mphi i j => exact ⟨0, by obtain ⟨h1, h2⟩ : i < c.ny ∧ j < c.nx := hl; simp [allocD, h1, h2], trivial⟩
    | .d .mpsix i j => exact ⟨0, by obtain ⟨h1, h2⟩ : i < c.ny ∧ j < c.nx := hl; simp [allocD, h1, h2], trivial⟩
    | .d .mpsiy i j => exact ⟨0, by obtain ⟨h1, h2⟩ : i < c.ny ∧ j < c.nx := hl; simp [allocD, h1, h2], trivial⟩
    | .d .mpsixy i j => exact ⟨0, by obtain ⟨h1, h2⟩ : i < c.ny ∧ j < c.nx := hl; simp [allocD, h1, h2], trivial⟩
  refine h0.loop (b := fun k : ℕ × ℕ => initBody f k.1 k.2) _ fun k hk => ?_
  obtain ⟨h1, -, h2⟩ := mem_nodes.1 hk
  exact .inr ⟨⟨rfl, h2⟩, fun _ _ => .inr ⟨⟨rfl, h1⟩, fun _ _ => ⟨⟨h1, h2⟩, trivial, ⟨h1, h2⟩, trivial, ⟨h1, h2⟩, trivial,
    ⟨h1, h2⟩, trivial, trivial⟩⟩⟩

omit hc in
theorem setup_sound (f : Initial K) : ∃ m', setup c f = .ok m' ∧ Sound c (Kept c.nx c.ny) (Kept c.nx c.ny) m' := by
  obtain ⟨m1, e1, h1⟩ := gridnodes_sound (c := c)
  obtain ⟨m2, e2, h2⟩ := allocateLevelset_sound f h1
  refine ⟨_, by rw [setup, e1, M.ok_bind, e2, M.ok_bind]; rfl, Sound.of_val fun l hl => ?_⟩
  match l with
  | .n a i j => exact hl.elim
  | .d a i j =>
    cases a with
    | x => exact h2.val (.d .x i j) hl
    | y => exact h2.val (.d .y i j) hl
    | mphi => exact h2.val (.d .mphi i j) hl
    | mpsix => exact h2.val (.d .mpsix i j) hl
    | mpsiy => exact h2.val (.d .mpsiy i j) hl
    | mpsixy => exact h2.val (.d .mpsixy i j) hl
    | tempphi => exact h2.val (.d .mphi i j) hl
    | temppsix => exact h2.val (.d .mpsix i j) hl
    | temppsiy => exact h2.val (.d .mpsiy i j) hl
    | temppsixy => exact h2.val (.d .mpsixy i j) hl
    | _ => exact hl.elim

/-! ## Output and time loop -/

theorem fileprint_sound (v : Vel K) (time : K) (o : Out K) (h : Sound c (Kept c.nx c.ny) (Kept c.nx c.ny) m) :
    ∃ o', fileprint v c.nx c.ny time m o = .ok o' := by
  have hne : ∀ a : DVar, ∃ f : ℕ → ℕ → K, ∀ i j, Kept c.nx c.ny (.d a i j) → m (.d a i j) = .val (f i j) := fun a => by
    have : ∀ i j, ∃ k : K, Kept c.nx c.ny (.d a i j) → m (.d a i j) = .val k := fun i j => by
      by_cases hk : Kept c.nx c.ny (.d a i j)
      · obtain ⟨k, e, _⟩ := h.val _ hk
        exact ⟨k, fun _ => e⟩
      · exact ⟨0, fun h => absurd h hk⟩
    choose f hf using this
    exact ⟨f, hf⟩
  obtain ⟨f1, g1⟩ := hne .mphi
  obtain ⟨f2, g2⟩ := hne .mpsix
  obtain ⟨f3, g3⟩ := hne .mpsiy
  obtain ⟨f4, g4⟩ := hne .mpsixy
  obtain ⟨f5, g5⟩ := hne .x
  obtain ⟨f6, g6⟩ := hne .y
  obtain ⟨o', e, _⟩ := fileprint_eq (F := ⟨f1, f2, f3, f4⟩) (xs := f5 0) (ys := f6 0)
    ⟨fun j hj => g5 0 j ⟨rfl, hj⟩, fun i hi => g6 0 i ⟨rfl, hi⟩, fun i hi j hj => g1 i j ⟨hi, hj⟩,
      fun i hi j hj => g2 i j ⟨hi, hj⟩, fun i hi j hj => g3 i j ⟨hi, hj⟩, fun i hi j hj => g4 i j ⟨hi, hj⟩⟩
    (by have := hc.nx; omega) v time o
  exact ⟨o', e⟩

theorem timeLoop_sound {step : ℕ → Mem (Val K) → M (Mem (Val K))} (v : Vel K)
    (hs : ∀ t m, Sound c (Kept c.nx c.ny) (Kept c.nx c.ny) m →
      ∃ m', step t m = .ok m' ∧ Sound c (Kept c.nx c.ny) (Kept c.nx c.ny) m') {p : ℕ} (r t : ℕ) (hp : r = 0 ∨ p ≠ 0)
    (o : Out K) (h : Sound c (Kept c.nx c.ny) (Kept c.nx c.ny) m) :
    ∃ m' o', timeLoop step c v p r t (m, o) = .ok (m', o') ∧ Sound c (Kept c.nx c.ny) (Kept c.nx c.ny) m' := by
  induction r generalizing t m o with
  | zero => exact ⟨m, o, rfl, h⟩
  | succ r ih =>
    have hp0 : p ≠ 0 := hp.resolve_left (by omega)
    obtain ⟨m', e, h'⟩ := hs t m h
    rw [timeLoop, e, M.ok_bind, if_neg hp0]
    split_ifs
    · obtain ⟨o', eo⟩ := fileprint_sound hc v (tm (uadd t 1) c.dt) o h'
      rw [eo, M.ok_bind]
      exact ih (uadd t 1) (.inr hp0) o' h'
    · rw [M.ok_bind]
      exact ih (uadd t 1) (.inr hp0) o h'

/-! ## Threads -/

theorem Sound.par {W R : Loc → Prop} (h : Sound c W R m) {ps : List (P K Unit)}
    (hp : ∀ p ∈ ps, p.safe W (fun _ => False) (CellInv c) R fun _ _ => True) :
    Spec.NeverFaulty ps m ∧ ∀ m', ParFor ps m m' → Sound c W R m' := by
  have key : ∀ css : List (List (P K Unit)), css.flatten.Perm ps → ∀ qs m', Interleaves (css.map Prog.seqAll, m) (qs, m') →
      ¬ Faulty (qs, m') ∧ Sound c W R m' := by
    intro css hperm qs m' hi
    refine safe_pool (fun p hps => ?_) h hi
    obtain ⟨ps', hps', rfl⟩ := List.mem_map.1 hps
    exact seqAll_safe fun q hq => hp q (hperm.mem_iff.1 (List.mem_flatten.2 ⟨ps', hps', hq⟩))
  refine ⟨fun css hperm qs m' hi => (key css hperm qs m' hi).1, ?_⟩
  rintro m' ⟨css, qs, hperm, hi, -⟩
  exact (key css hperm qs m' hi).2

theorem adv_safePar (v : Vel K) (t : ℕ) (h : Sound c (Kept c.nx c.ny) (Kept c.nx c.ny) m) :
    Spec.NeverFaulty (advMpi v c.schemes.rk3 t c.dt c.ny 0 c.nx) (stepArrays c m) ∧
      ∀ m', ParFor (advMpi v c.schemes.rk3 t c.dt c.ny 0 c.nx) (stepArrays c m) m' →
        Sound c (Kept1 c.nx c.ny) (Kept1 c.nx c.ny) m' :=
  (h.arrays hc).par hc fun p hp => by
    obtain ⟨k, hk, rfl⟩ := List.mem_map.1 hp
    exact adv_ok hc _ _ _ _ (mem_nodes.1 hk).1 (mem_nodes.1 hk).2.2

theorem find_safePar (h : Sound c (Kept1 c.nx c.ny) (Kept1 c.nx c.ny) m) :
    Spec.NeverFaulty (find c.xlim1 c.xlim2 c.ylim1 c.ylim2 c.nx c.ny 0 c.nx) (stepCells c m) ∧
      ∀ m', ParFor (find c.xlim1 c.xlim2 c.ylim1 c.ylim2 c.nx c.ny 0 c.nx) (stepCells c m) m' →
        Sound c (Kept2 c.nx c.ny) (Kept2 c.nx c.ny) m' :=
  (h.cells hc).par hc fun p hp => by
    obtain ⟨k, hk, rfl⟩ := List.mem_map.1 hp
    exact find_ok hc (mem_nodes.1 hk).1 (mem_nodes.1 hk).2.2

theorem update_safePar (v : Vel K) (t : ℕ) (sx sy : K) (h : Sound c (Kept2 c.nx c.ny) (Kept2 c.nx c.ny) m) :
    Spec.NeverFaulty (updateLoop v c.schemes t c.dt sx sy c.ny 0 c.nx) m ∧
      ∀ m', ParFor (updateLoop v c.schemes t c.dt sx sy c.ny 0 c.nx) m m' → Sound c (Kept2 c.nx c.ny) (Kept2 c.nx c.ny) m' :=
  h.par hc fun p hp => by
    obtain ⟨k, hk, rfl⟩ := List.mem_map.1 hp
    exact update_ok hc _ _ _ _ _ _ (mem_nodes.1 hk).1 (mem_nodes.1 hk).2.2

theorem mixed_safePar (dx dy : K) (h : Sound c (Kept2 c.nx c.ny) (Kept2 c.nx c.ny) m) :
    Spec.NeverFaulty (mixed c.nx c.ny dx dy 0 c.nx) (declMixed m) ∧
      ∀ m', ParFor (mixed c.nx c.ny dx dy 0 c.nx) (declMixed m) m' →
        Sound c (Kept3 c.nx c.ny) (Kept2 c.nx c.ny) m' :=
  (h.decl hc).par hc fun p hp => by
    obtain ⟨k, hk, rfl⟩ := List.mem_map.1 hp
    exact mixed_ok hc _ _ (mem_nodes.1 hk).1 (mem_nodes.1 hk).2.2

/-- Memory before step `t` of the OpenMP program, for any schedules of the steps before. -/
inductive OmpBefore (c : Setting K) (v : Vel K) (f : Initial K) : ℕ → Mem (Val K) → Prop
  | start {m : Mem (Val K)} : setup c f = .ok m → OmpBefore c v f 0 m
  | step {t : ℕ} {m m' : Mem (Val K)} : OmpBefore c v f t m → OmpStep ParFor c v c.dx c.dy t m m' → OmpBefore c v f (t + 1) m'

theorem ompBefore_sound {v : Vel K} {f : Initial K} {t : ℕ} (h : OmpBefore c v f t m) :
    Sound c (Kept c.nx c.ny) (Kept c.nx c.ny) m := by
  induction h with
  | start e =>
    obtain ⟨m', e', h'⟩ := setup_sound (c := c) f
    rw [e] at e'
    cases e'
    exact h'
  | step _ hs ih =>
    obtain ⟨m1, m2, m3, m4, sx, sy, h1, h2, -, -, h3, h4, rfl⟩ := hs
    exact ((mixed_safePar hc _ _ ((update_safePar hc _ _ _ _ ((find_safePar hc ((adv_safePar hc _ _ ih).2 _ h1)).2 _ h2)).2 _ h3)).2 _ h4).finish hc

/-- **C83.**  The OpenMP program with any number of threads and any schedule: no thread is ever about to leave an array or to
read an uninitialised element, in any of the four loops of any step. -/
theorem C83_threads {v : Vel K} {f : Initial K} {t : ℕ} (h : OmpBefore c v f t m) :
    Spec.NeverFaulty (advMpi v c.schemes.rk3 t c.dt c.ny 0 c.nx) (stepArrays c m) ∧
    ∀ m1, ParFor (advMpi v c.schemes.rk3 t c.dt c.ny 0 c.nx) (stepArrays c m) m1 →
      Spec.NeverFaulty (find c.xlim1 c.xlim2 c.ylim1 c.ylim2 c.nx c.ny 0 c.nx) (stepCells c m1) ∧
      ∀ m2, ParFor (find c.xlim1 c.xlim2 c.ylim1 c.ylim2 c.nx c.ny 0 c.nx) (stepCells c m1) m2 →
        ∃ sx sy, (spacing .x).run m2 = .ok (sx, m2) ∧ (spacing .y).run m2 = .ok (sy, m2) ∧
        Spec.NeverFaulty (updateLoop v c.schemes t c.dt sx sy c.ny 0 c.nx) m2 ∧
        ∀ m3, ParFor (updateLoop v c.schemes t c.dt sx sy c.ny 0 c.nx) m2 m3 →
          Spec.NeverFaulty (mixed c.nx c.ny c.dx c.dy 0 c.nx) (declMixed m3) := by
  have h0 := ompBefore_sound hc h
  refine ⟨(adv_safePar hc v t h0).1, fun m1 h1 => ?_⟩
  have s1 := (adv_safePar hc v t h0).2 m1 h1
  refine ⟨(find_safePar hc s1).1, fun m2 h2 => ?_⟩
  have s2 := (find_safePar hc s1).2 m2 h2
  refine ⟨_, _, (spacing_ok hc s2).1, (spacing_ok hc s2).2, (update_safePar hc v t _ _ s2).1, fun m3 h3 => ?_⟩
  exact (mixed_safePar hc _ _ ((update_safePar hc v t _ _ s2).2 m3 h3)).1

variable [HasFloor K]

theorem mainWith_sound {step : Setting K → Vel K → K → K → ℕ → Mem (Val K) → M (Mem (Val K))} (v : Vel K) (f : Initial K)
    (hs : ∀ t m, Sound c (Kept c.nx c.ny) (Kept c.nx c.ny) m →
      ∃ m', step c v c.dx c.dy t m = .ok m' ∧ Sound c (Kept c.nx c.ny) (Kept c.nx c.ny) m')
    {n : ℕ} (hn : stepCount c = .ok n) (hp : n = 0 ∨ printStep c n ≠ 0) : ∃ m' o', mainWith step c v f = .ok (m', o') := by
  obtain ⟨m1, e1, h1⟩ := setup_sound (c := c) f
  obtain ⟨o1, e2⟩ := fileprint_sound hc v 0 .none h1
  obtain ⟨m', o', e, -⟩ := timeLoop_sound hc v (step := step c v c.dx c.dy) hs n 0 hp
    { o1 with details := o1.details ++ [⟨c.nx, c.ny, c.dx, c.dy, c.xlim1, c.xlim2, c.ylim1, c.ylim2, n, c.dt, printStep c n⟩] } h1
  refine ⟨m', o', ?_⟩
  rw [mainWith, hn, M.ok_bind, e1, M.ok_bind, e2, M.ok_bind, e]

/-- **C83.**  With any arithmetic: when the stored nodes reach both limits, the serial program ends without leaving its
arrays, for every velocity and initial data. -/
theorem C83_serial (v : Vel K) (f : Initial K) {n : ℕ} (hn : stepCount c = .ok n) (hp : n = 0 ∨ printStep c n ≠ 0) :
    ∃ m o, mainSerial c v f = .ok (m, o) :=
  mainWith_sound hc v f (fun t _ h => stepSerial_ok hc v c.dx c.dy t h) hn hp

/-- **C83.**  The same for the OpenMP program run by one thread. -/
theorem C83_openmp {argc : ℕ} (ha : 2 ≤ argc) (v : Vel K) (f : Initial K) {n : ℕ} (hn : stepCount c = .ok n)
    (hp : n = 0 ∨ printStep c n ≠ 0) : ∃ m o, mainOpenMP argc c v f = .ok (m, o) := by
  rw [mainOpenMP, if_neg (by omega)]
  exact mainWith_sound hc v f (fun t _ h => stepOpenMP_ok hc v c.dx c.dy t h) hn hp

end any

end Gals.Props
