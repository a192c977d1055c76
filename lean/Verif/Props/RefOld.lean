import Verif.Model.RefOld
import Verif.Props.RefCells
import Verif.Props.RefMain

/-!
# C66: a step of the first serial program
-/

set_option linter.unusedSectionVars false
set_option linter.unusedSimpArgs false

namespace Gals.Props

open Gals Gals.Ref

variable {K : Type} [Field K] [LinearOrder K] [IsStrictOrderedRing K]

/-! ## Formulas -/

theorem oldIndex (i j : ℕ) : oldIndexY i 0 = i ∧ oldIndexX j 0 = j ∧ oldIndexY i 1 = i ∧ oldIndexX j 1 = j + 1 ∧
    oldIndexY i 2 = i + 1 ∧ oldIndexX j 2 = j ∧ oldIndexY i 3 = i + 1 ∧ oldIndexX j 3 = j + 1 := by
  refine ⟨?_, ?_, ?_, ?_, ?_, ?_, ?_, ?_⟩ <;> simp only [oldIndexX, oldIndexY] <;> norm_num

theorem oldTrace_eq (v : Vel K) (rk3 : Bool) (t : ℕ) (dt x y : K) :
    ((oldTrace v rk3 t dt x y).xadv, (oldTrace v rk3 t dt x y).yadv) = Spec.departAt v.velx v.vely rk3 t dt x y := by
  have eh : (t : K) * dt + dt / 2 = ((t : K) + 1 / 2) * dt := by ring
  have q1 : ∀ z p q : K, z - dt / 2 * (1 / 2 * p + 1 / 2 * q) = z - dt * (p + q) / 4 := fun z p q => by ring
  cases rk3 with
  | false =>
    ext <;> simp only [oldTrace, Spec.departAt, Spec.departEuler, Bool.false_eq_true, if_false] <;> ring
  | true =>
    ext <;> simp only [oldTrace, Spec.departAt, Spec.departRK3, eh, if_true, q1, mul_comm _ dt] <;> ring_nf

theorem oldSuper_eq (v : Vel K) (rk3 : Bool) (t : ℕ) (dt x y a b : K) :
    oldSuper v rk3 t dt x y (oldTrace v rk3 t dt x y) a b =
      Spec.gradientAt v.velx v.vely (jacobian v) rk3 t dt x y (a, b) := by
  have eh : (t : K) * dt + dt / 2 = ((t : K) + 1 / 2) * dt := by ring
  have q1 : ∀ z p q : K, z - dt / 2 * (1 / 2 * p + 1 / 2 * q) = z - dt * (p + q) / 4 := fun z p q => by ring
  cases rk3 with
  | false =>
    ext <;> simp only [oldSuper, oldTrace, Spec.gradientAt, jacobian, Spec.Mat2.idSub, Spec.Mat2.transposeMul,
      Bool.false_eq_true, if_false] <;> ring
  | true =>
    ext <;> simp only [oldSuper, oldTrace, Spec.gradientAt, jacobian, Spec.Mat2.idSub, Spec.Mat2.mul, Spec.Mat2.add,
      Spec.Mat2.smul, Spec.Mat2.transposeMul, eh, if_true, q1, mul_comm _ dt] <;> ring_nf

/-- `heunCoded` written as in the program. -/
theorem heunCoded_eq (v : Vel K) (x y xa ya a b : K) (t : ℕ) (dt : K) :
    let t0 := (t : K) * dt
    let t1 := ((t : K) + 1) * dt
    let sx := v.gradUx xa ya t0 * a + v.gradVx xa ya t0 * b
    let sy := v.gradUy xa ya t0 * a + v.gradVy xa ya t0 * b
    let px := a - dt * sx
    let py := b - dt * sy
    let qx := a - 1 / 2 * dt * (sx + v.gradUx x y t1 * px + v.gradVx x y t1 * py)
    heunCoded v x y xa ya a b t dt = (qx, b - 1 / 2 * dt * (sy + v.gradUy x y t1 * qx + v.gradVy x y t1 * py)) := by
  simp only [heunCoded, heunSpec, heunSlopes, Spec.heunGradient]
  ext <;> ring

/-! ## A node of a cell -/

/-- Memory after the body for a node: its class, value and gradient are stored, nothing else changes. -/
structure NodeDone (m m' : Mem (Val K)) (a b cls : ℕ) (r : K × K × K) : Prop where
  cls : m' (.n .tracker a b) = .val cls
  phi : m' (.d .tempphi a b) = .val r.1
  psix : m' (.d .temppsix a b) = .val r.2.1
  psiy : m' (.d .temppsiy a b) = .val r.2.2
  frame : ∀ l, l ≠ .n .tracker a b → l ≠ .d .tempphi a b → l ≠ .d .temppsix a b → l ≠ .d .temppsiy a b → m' l = m l

/-- New data of the node `(a, b)` with departure point `p`, of class `cls` and with the cell in column `cx`, row `cy`. -/
def oldSpec (c : Setting K) (v : Vel K) (t : ℕ) (xs ys : ℕ → K) (dx dy : K) (F : Spec.Fields K) (a b : ℕ) (p : K × K)
    (cls cx cy : ℕ) : K × K × K :=
  nodeSpec v (transportSpec v c.schemes t c.dt (xs b) (ys a) p.1 p.2 (F.psix a b) (F.psiy a b)) t c.dt dx dy F.phi F.psix
    F.psiy F.psixy xs ys cls cx cy (xs b) (ys a) p.1 p.2 (F.phi a b) (F.psix a b) (F.psiy a b) (F.psixy a b)

section node
variable {c : Setting K} {v : Vel K} {t : ℕ} {xs ys : ℕ → K} {dx dy : K} {F : Spec.Fields K} {m : Mem (Val K)} {a b : ℕ}

/-- Data of the node before its update. -/
structure NodeHas (m : Mem (Val K)) (F : Spec.Fields K) (a b : ℕ) : Prop where
  tracker : m (.n .tracker a b) = .val 0
  phi : m (.d .tempphi a b) = .val (F.phi a b)
  psix : m (.d .temppsix a b) = .val (F.psix a b)
  psiy : m (.d .temppsiy a b) = .val (F.psiy a b)
  psixy : m (.d .temppsixy a b) = .val (F.psixy a b)

theorem oldInside_wp (h : NodeHas m F a b) (r q : ℕ) :
    (oldInside v c.schemes t c.dt dx dy (cellData F.phi F.psix F.psiy F.psixy r q) (xs q) (ys r) (xs b) (ys a)
      (oldTrace v c.schemes.rk3 t c.dt (xs b) (ys a)) a b).wp m fun _ m' => NodeDone m m' a b 1
      (oldSpec c v t xs ys dx dy F a b (Spec.departAt v.velx v.vely c.schemes.rk3 t c.dt (xs b) (ys a)) 1 q r) := by
  have et := oldTrace_eq v c.schemes.rk3 t c.dt (xs b) (ys a)
  have es := oldSuper_eq v c.schemes.rk3 t c.dt (xs b) (ys a)
  have e1 : (oldTrace v c.schemes.rk3 t c.dt (xs b) (ys a)).xadv = _ := congrArg Prod.fst et
  have e2 : (oldTrace v c.schemes.rk3 t c.dt (xs b) (ys a)).yadv = _ := congrArg Prod.snd et
  simp only [oldInside, bind, pure, hp_eq, hermx_eq, hermy_eq, es, e1, e2]
  generalize Spec.departAt v.velx v.vely c.schemes.rk3 t c.dt (xs b) (ys a) = p
  simp only [Prog.wp_bind, wp_setD, h.phi, ne_eq, reduceCtorEq, not_false_eq_true, true_and]
  split
  · rename_i hs
    simp only [Prog.wp_bind, Prog.wp_pure, wp_setD, wp_getD, wp_setN, Mem.upd_same, Mem.upd_other, h.psix, h.psiy, h.phi, h.tracker,
      ne_eq, reduceCtorEq, not_false_eq_true, true_and, Loc.d.injEq, and_true, false_and, slot_val_inj, exists_eq_left']
    refine ⟨?_, ?_, ?_, ?_, fun l h1 h2 h3 h4 => ?_⟩
    · exact Mem.upd_same ..
    · simp [Mem.upd_other, Mem.upd_same, oldSpec, nodeSpec, Spec.updateNode]
    · simp [Mem.upd_other, Mem.upd_same, oldSpec, nodeSpec, Spec.updateNode, transportSpec, hs, heunCoded_eq]
    · simp [Mem.upd_other, Mem.upd_same, oldSpec, nodeSpec, Spec.updateNode, transportSpec, hs, heunCoded_eq]
    · simp only [Mem.upd_other _ h1, Mem.upd_other _ h2, Mem.upd_other _ h3, Mem.upd_other _ h4]
  · rename_i hs
    split
    · rename_i hs'
      simp only [Prog.wp_bind, Prog.wp_pure, wp_setD, wp_getD, wp_setN, Mem.upd_same, Mem.upd_other, h.psix, h.psiy, h.phi, h.tracker,
        ne_eq, reduceCtorEq, not_false_eq_true, true_and, Loc.d.injEq, and_true, false_and, slot_val_inj, exists_eq_left']
      refine ⟨?_, ?_, ?_, ?_, fun l h1 h2 h3 h4 => ?_⟩
      · exact Mem.upd_same ..
      · simp [Mem.upd_other, Mem.upd_same, oldSpec, nodeSpec, Spec.updateNode]
      · simp [Mem.upd_other, Mem.upd_same, oldSpec, nodeSpec, Spec.updateNode, transportSpec, hs, hs']
      · simp [Mem.upd_other, Mem.upd_same, oldSpec, nodeSpec, Spec.updateNode, transportSpec, hs, hs']
      · simp only [Mem.upd_other _ h1, Mem.upd_other _ h2, Mem.upd_other _ h3, Mem.upd_other _ h4]
    · rename_i hs'
      simp only [Prog.wp_bind, Prog.wp_pure, wp_setD, wp_getD, wp_setN, Mem.upd_same, Mem.upd_other, h.psix, h.psiy, h.phi, h.tracker,
        ne_eq, reduceCtorEq, not_false_eq_true, true_and, Loc.d.injEq, and_true, false_and, slot_val_inj, exists_eq_left']
      refine ⟨?_, ?_, ?_, ?_, fun l h1 h2 h3 h4 => ?_⟩
      · exact Mem.upd_same ..
      · simp [Mem.upd_other, Mem.upd_same, oldSpec, nodeSpec, Spec.updateNode]
      · simp [Mem.upd_other, Mem.upd_same, oldSpec, nodeSpec, Spec.updateNode, transportSpec, hs, hs', h.psix]
      · simp [Mem.upd_other, Mem.upd_same, oldSpec, nodeSpec, Spec.updateNode, transportSpec, hs, hs', h.psiy]
      · simp only [Mem.upd_other _ h1, Mem.upd_other _ h2, Mem.upd_other _ h3, Mem.upd_other _ h4]

theorem oldOutY_wp (h : NodeHas m F a b) (r q : ℕ) :
    (oldOutY v t c.dt dx dy (cellData F.phi F.psix F.psiy F.psixy r q) (xs q) (ys r) (xs b) (ys a)
      (oldTrace v c.schemes.rk3 t c.dt (xs b) (ys a)) a b).wp m fun _ m' => NodeDone m m' a b 2
      (oldSpec c v t xs ys dx dy F a b (Spec.departAt v.velx v.vely c.schemes.rk3 t c.dt (xs b) (ys a)) 2 q r) := by
  have et := oldTrace_eq v c.schemes.rk3 t c.dt (xs b) (ys a)
  have e1 : (oldTrace v c.schemes.rk3 t c.dt (xs b) (ys a)).xadv = _ := congrArg Prod.fst et
  simp only [oldOutY, bind, pure, hp_eq, hermx_eq, hermy_eq, e1]
  generalize Spec.departAt v.velx v.vely c.schemes.rk3 t c.dt (xs b) (ys a) = p
  simp only [Prog.wp_bind, Prog.wp_pure, wp_setD, wp_getD, wp_setN, Mem.upd_same, Mem.upd_other, h.psix, h.psiy, h.phi, h.psixy,
    h.tracker, ne_eq, reduceCtorEq, not_false_eq_true, true_and, Loc.d.injEq, and_true, false_and, slot_val_inj,
    exists_eq_left']
  refine ⟨?_, ?_, ?_, ?_, fun l h1 h2 h3 h4 => ?_⟩
  · exact Mem.upd_same ..
  · simp [Mem.upd_other, Mem.upd_same, oldSpec, nodeSpec, Spec.updateNode]
  · simp [Mem.upd_other, Mem.upd_same, oldSpec, nodeSpec, Spec.updateNode, edgeX, Spec.heunEdge]
    exact .inl (by ring)
  · simp [Mem.upd_other, Mem.upd_same, oldSpec, nodeSpec, Spec.updateNode, h.psiy]
  · simp only [Mem.upd_other _ h1, Mem.upd_other _ h2, Mem.upd_other _ h3, Mem.upd_other _ h4]

theorem oldOutX_wp (h : NodeHas m F a b) (r q : ℕ) :
    (oldOutX v t c.dt dx dy (cellData F.phi F.psix F.psiy F.psixy r q) (xs q) (ys r) (xs b) (ys a)
      (oldTrace v c.schemes.rk3 t c.dt (xs b) (ys a)) a b).wp m fun _ m' => NodeDone m m' a b 3
      (oldSpec c v t xs ys dx dy F a b (Spec.departAt v.velx v.vely c.schemes.rk3 t c.dt (xs b) (ys a)) 3 q r) := by
  have et := oldTrace_eq v c.schemes.rk3 t c.dt (xs b) (ys a)
  have e2 : (oldTrace v c.schemes.rk3 t c.dt (xs b) (ys a)).yadv = _ := congrArg Prod.snd et
  simp only [oldOutX, bind, pure, hp_eq, hermx_eq, hermy_eq, e2]
  generalize Spec.departAt v.velx v.vely c.schemes.rk3 t c.dt (xs b) (ys a) = p
  simp only [Prog.wp_bind, Prog.wp_pure, wp_setD, wp_getD, wp_setN, Mem.upd_same, Mem.upd_other, h.psix, h.psiy, h.phi, h.psixy,
    h.tracker, ne_eq, reduceCtorEq, not_false_eq_true, true_and, Loc.d.injEq, and_true, false_and, slot_val_inj,
    exists_eq_left']
  refine ⟨?_, ?_, ?_, ?_, fun l h1 h2 h3 h4 => ?_⟩
  · exact Mem.upd_same ..
  · simp [Mem.upd_other, Mem.upd_same, oldSpec, nodeSpec, Spec.updateNode]
  · simp [Mem.upd_other, Mem.upd_same, oldSpec, nodeSpec, Spec.updateNode, h.psix]
  · simp [Mem.upd_other, Mem.upd_same, oldSpec, nodeSpec, Spec.updateNode, edgeY, Spec.heunEdge]
    exact .inl (by ring)
  · simp only [Mem.upd_other _ h1, Mem.upd_other _ h2, Mem.upd_other _ h3, Mem.upd_other _ h4]

theorem oldCorner_wp (h : NodeHas m F a b) (p : K × K) (r q : ℕ) :
    (oldCorner v t c.dt (xs b) (ys a) a b).wp m fun _ m' => NodeDone m m' a b 4
      (oldSpec c v t xs ys dx dy F a b p 4 q r) := by
  simp only [oldCorner, bind, pure, Prog.wp_bind, Prog.wp_pure, wp_setD, wp_getD, wp_setN, Mem.upd_same, Mem.upd_other, h.psix,
    h.psiy, h.phi, h.psixy, h.tracker, ne_eq, reduceCtorEq, not_false_eq_true, true_and, Loc.d.injEq, and_true, false_and,
    slot_val_inj, exists_eq_left']
  refine ⟨?_, ?_, ?_, ?_, fun l h1 h2 h3 h4 => ?_⟩
  · exact Mem.upd_same ..
  · simp [Mem.upd_other, Mem.upd_same, oldSpec, nodeSpec, Spec.updateNode]
  · simp [Mem.upd_other, Mem.upd_same, oldSpec, nodeSpec, Spec.updateNode, h.psix]
  · simp [Mem.upd_other, Mem.upd_same, oldSpec, nodeSpec, Spec.updateNode, h.psiy]
  · simp only [Mem.upd_other _ h1, Mem.upd_other _ h2, Mem.upd_other _ h3, Mem.upd_other _ h4]

theorem oldCount_eq (c : Setting K) (x0 x1 y0 y1 xa ya : K) (a b : ℕ) : oldCount c x0 x1 y0 y1 xa ya a b =
    if x0 ≤ xa ∧ xa ≤ x1 then
      (if y0 ≤ ya ∧ ya ≤ y1 then 1 else if ya < c.ylim1 ∨ c.ylim2 < ya then 2 else 0)
    else
      (if y0 ≤ ya ∧ ya ≤ y1 then (if xa < c.xlim1 ∨ c.xlim2 < xa then 3 else 0)
      else if (a = 0 ∨ a = c.ny - 1) ∧ (b = 0 ∨ b = c.nx - 1) then 4 else 0) := by
  by_cases h1 : x0 ≤ xa ∧ xa ≤ x1 <;> by_cases h2 : y0 ≤ ya ∧ ya ≤ y1 <;> simp [oldCount, h1, h2]

theorem oldCount_le (c : Setting K) (x0 x1 y0 y1 xa ya : K) (a b : ℕ) : oldCount c x0 x1 y0 y1 xa ya a b ≤ 4 := by
  rw [oldCount_eq]
  split_ifs <;> omega

/-- The class that the cell `(i, j)` gives to the node `(a, b)`. -/
def oldClass (c : Setting K) (v : Vel K) (t : ℕ) (xs ys : ℕ → K) (a b i j : ℕ) : ℕ :=
  let p := Spec.departAt v.velx v.vely c.schemes.rk3 t c.dt (xs b) (ys a)
  oldCount c (xs j) (xs (j + 1)) (ys i) (ys (i + 1)) p.1 p.2 a b

theorem oldNode_fresh {nx ny i j k : ℕ} (hx : ∀ k < nx, m (.d .x 0 k) = .val (xs k)) (hy : ∀ k < ny, m (.d .y 0 k) = .val (ys k))
    (hj : j + 1 < nx) (hi : i + 1 < ny) (ha : oldIndexY i k = a) (hb : oldIndexX j k = b) (ha' : a < ny) (hb' : b < nx)
    (h : NodeHas m F a b) :
    (oldNode c v dx dy t (cellData F.phi F.psix F.psiy F.psixy i j) (xs j) (ys i) i j k).wp m fun _ m' =>
      NodeDone m m' a b (oldClass c v t xs ys a b i j) (oldSpec c v t xs ys dx dy F a b
        (Spec.departAt v.velx v.vely c.schemes.rk3 t c.dt (xs b) (ys a)) (oldClass c v t xs ys a b i j) j i) := by
  have et := oldTrace_eq v c.schemes.rk3 t c.dt (xs b) (ys a)
  have e1 : (oldTrace v c.schemes.rk3 t c.dt (xs b) (ys a)).xadv = _ := congrArg Prod.fst et
  have e2 : (oldTrace v c.schemes.rk3 t c.dt (xs b) (ys a)).yadv = _ := congrArg Prod.snd et
  simp only [oldNode, bind, pure, ha, hb, Prog.wp_bind, Prog.wp_pure, wp_getN, h.tracker, slot_val_inj, exists_eq_left',
    if_true, wp_getD, hx _ hb', hy _ ha', hx j (by omega), hx _ hj, hy i (by omega), hy _ hi, e1, e2]
  change Prog.wp (match oldClass c v t xs ys a b i j with
    | 1 => _
    | 2 => _
    | 3 => _
    | 4 => _
    | _ => _) m _
  split
  · rename_i e; rw [e]; exact oldInside_wp h i j
  · rename_i e; rw [e]; exact oldOutY_wp h i j
  · rename_i e; rw [e]; exact oldOutX_wp h i j
  · rename_i e; rw [e]; exact oldCorner_wp h _ i j
  · rename_i n1 n2 n3 n4
    rw [Prog.wp_pure]
    have h0 : oldClass c v t xs ys a b i j = 0 := by
      have : oldClass c v t xs ys a b i j ≤ 4 := oldCount_le ..
      generalize oldClass c v t xs ys a b i j = n at *
      match n, n1, n2, n3, n4, this with
      | 0, _, _, _, _, _ => rfl
      | 1, h, _, _, _, _ => exact absurd rfl h
      | 2, _, h, _, _, _ => exact absurd rfl h
      | 3, _, _, h, _, _ => exact absurd rfl h
      | 4, _, _, _, h, _ => exact absurd rfl h
      | n + 5, _, _, _, _, h => omega
    rw [h0]
    exact ⟨h.tracker, h.phi, h.psix, h.psiy, fun _ _ _ _ _ => rfl⟩

theorem oldNode_done {i j k cls : ℕ} (ha : oldIndexY i k = a) (hb : oldIndexX j k = b) (cell : CellData K) (xo yo : K)
    (h : m (.n .tracker a b) = .val cls) (h0 : cls ≠ 0) (Q : Unit → Mem (Val K) → Prop) (hQ : Q () m) :
    (oldNode c v dx dy t cell xo yo i j k).wp m Q := by
  simp only [oldNode, bind, pure, ha, hb, Prog.wp_bind, Prog.wp_pure, wp_getN, h, slot_val_inj, exists_eq_left', if_neg h0]
  exact hQ

end node

/-! ## The loop over the cells -/

/-- A loop with an invariant on the iterations done. -/
theorem runAll_inv {κ : Type} {b : κ → P K Unit} {I : List κ → Mem (Val K) → Prop} (cs : List κ)
    (h : ∀ pre x m, x ∈ cs → I pre m → (b x).wp m fun _ m' => I (pre ++ [x]) m') {pre : List κ} {m : Mem (Val K)} (h0 : I pre m) :
    ∃ mf, runAll (cs.map b) m = .ok mf ∧ I (pre ++ cs) mf := by
  induction cs generalizing pre m with
  | nil => exact ⟨m, rfl, by simpa using h0⟩
  | cons x cs ih =>
    obtain ⟨⟨⟩, m1, e1, h1⟩ := h pre x m List.mem_cons_self h0
    obtain ⟨mf, e, hf⟩ := ih (fun pre y m hy => h pre y m (List.mem_cons_of_mem _ hy)) h1
    refine ⟨mf, ?_, by simpa using hf⟩
    simp only [List.map_cons, runAll, e1, M.ok_bind]
    exact e

/-- The node has the class `cls`, and value and gradient `r`. -/
structure NodeNow (m : Mem (Val K)) (a b cls : ℕ) (r : K × K × K) : Prop where
  cls : m (.n .tracker a b) = .val cls
  phi : m (.d .tempphi a b) = .val r.1
  psix : m (.d .temppsix a b) = .val r.2.1
  psiy : m (.d .temppsiy a b) = .val r.2.2

section loop
variable {c : Setting K} {v : Vel K} {t : ℕ} {xs ys : ℕ → K} {dx dy : K} {F : Spec.Fields K} {m : Mem (Val K)}

/-- Memory between two nodes of the loop; `D a b i j`: the node `(a, b)` has been tried in the cell `(i, j)`. -/
structure OldMid (c : Setting K) (v : Vel K) (t : ℕ) (xs ys : ℕ → K) (dx dy : K) (F : Spec.Fields K) (D : ℕ → ℕ → ℕ → ℕ → Prop)
    (m : Mem (Val K)) : Prop extends Printable m c.nx c.ny xs ys F where
  tpsixy : Grid2 m .temppsixy c.nx c.ny F.psixy
  node : ∀ a < c.ny, ∀ b < c.nx, (NodeHas m F a b ∧ ∀ i j, D a b i j → oldClass c v t xs ys a b i j = 0) ∨
    ∃ i j, Spec.Touches c.ny a i ∧ Spec.Touches c.nx b j ∧ oldClass c v t xs ys a b i j ≠ 0 ∧
      NodeNow m a b (oldClass c v t xs ys a b i j) (oldSpec c v t xs ys dx dy F a b
        (Spec.departAt v.velx v.vely c.schemes.rk3 t c.dt (xs b) (ys a)) (oldClass c v t xs ys a b i j) j i)

theorem oldMid_node {D : ℕ → ℕ → ℕ → ℕ → Prop} (h : OldMid c v t xs ys dx dy F D m) {i j k a b : ℕ} (hi : i + 1 < c.ny)
    (hj : j + 1 < c.nx) (ha : oldIndexY i k = a) (hb : oldIndexX j k = b) (hai : i = a ∨ i + 1 = a) (hbj : j = b ∨ j + 1 = b) :
    (oldNode c v dx dy t (cellData F.phi F.psix F.psiy F.psixy i j) (xs j) (ys i) i j k).wp m fun _ m' =>
      OldMid c v t xs ys dx dy F (fun a' b' i' j' => D a' b' i' j' ∨ (a' = a ∧ b' = b ∧ i' = i ∧ j' = j)) m' := by
  have ha' : a < c.ny := by omega
  have hb' : b < c.nx := by omega
  rcases h.node a ha' b hb' with ⟨hn, hD⟩ | ⟨i', j', ti, tj, h0, hn⟩
  · refine Prog.wp_mono (oldNode_fresh h.x h.y hj hi ha hb ha' hb' hn) fun _ m' hm => ?_
    have hd : ∀ q r s, q ≠ .tempphi → q ≠ .temppsix → q ≠ .temppsiy → m' (.d q r s) = m (.d q r s) := fun q r s h1 h2 h3 =>
      hm.frame _ (by simp) (by simp [h1]) (by simp [h2]) (by simp [h3])
    refine ⟨⟨?_, ?_, ?_, ?_, ?_, ?_⟩, ?_, ?_⟩
    · exact fun k hk => (hd _ _ _ (by simp) (by simp) (by simp)).trans (h.x k hk)
    · exact fun k hk => (hd _ _ _ (by simp) (by simp) (by simp)).trans (h.y k hk)
    · exact fun r hr s hs => (hd _ _ _ (by simp) (by simp) (by simp)).trans (h.phi r hr s hs)
    · exact fun r hr s hs => (hd _ _ _ (by simp) (by simp) (by simp)).trans (h.psix r hr s hs)
    · exact fun r hr s hs => (hd _ _ _ (by simp) (by simp) (by simp)).trans (h.psiy r hr s hs)
    · exact fun r hr s hs => (hd _ _ _ (by simp) (by simp) (by simp)).trans (h.psixy r hr s hs)
    · exact fun r hr s hs => (hd _ _ _ (by simp) (by simp) (by simp)).trans (h.tpsixy r hr s hs)
    · intro a2 ha2 b2 hb2
      by_cases e : a2 = a ∧ b2 = b
      · obtain ⟨rfl, rfl⟩ := e
        by_cases hc : oldClass c v t xs ys a2 b2 i j = 0
        · left
          have e0 : oldSpec c v t xs ys dx dy F a2 b2 (Spec.departAt v.velx v.vely c.schemes.rk3 t c.dt (xs b2) (ys a2))
            (oldClass c v t xs ys a2 b2 i j) j i = (F.phi a2 b2, F.psix a2 b2, F.psiy a2 b2) := by
            rw [hc]; rfl
          rw [e0] at hm
          refine ⟨⟨hm.cls.trans (by rw [hc]), hm.phi, hm.psix, hm.psiy,
            (hd _ _ _ (by simp) (by simp) (by simp)).trans hn.psixy⟩, ?_⟩
          rintro i' j' (hD' | ⟨-, -, rfl, rfl⟩)
          · exact hD _ _ hD'
          · exact hc
        · exact .inr ⟨i, j, ⟨hai, hi⟩, ⟨hbj, hj⟩, hc, hm.cls, hm.phi, hm.psix, hm.psiy⟩
      · have ho : ∀ l, (l = .n .tracker a2 b2 ∨ l = .d .tempphi a2 b2 ∨ l = .d .temppsix a2 b2 ∨ l = .d .temppsiy a2 b2) →
            m' l = m l := by
          rintro l hl
          refine hm.frame l ?_ ?_ ?_ ?_ <;> rintro rfl <;> simp at hl <;> exact e ⟨hl.1.symm, hl.2.symm⟩
        rcases h.node a2 ha2 b2 hb2 with ⟨hn2, hD2⟩ | ⟨i', j', ti, tj, h0, hn2⟩
        · refine .inl ⟨⟨(ho _ (by simp)).trans hn2.tracker, (ho _ (by simp)).trans hn2.phi, (ho _ (by simp)).trans hn2.psix,
            (ho _ (by simp)).trans hn2.psiy, (hd _ _ _ (by simp) (by simp) (by simp)).trans hn2.psixy⟩, ?_⟩
          rintro i' j' (hD' | ⟨rfl, rfl, -, -⟩)
          · exact hD2 _ _ hD'
          · exact absurd ⟨rfl, rfl⟩ e
        · exact .inr ⟨i', j', ti, tj, h0, (ho _ (by simp)).trans hn2.cls, (ho _ (by simp)).trans hn2.phi,
            (ho _ (by simp)).trans hn2.psix, (ho _ (by simp)).trans hn2.psiy⟩
  · refine oldNode_done ha hb _ _ _ hn.cls h0 _ ⟨h.toPrintable, h.tpsixy, fun a2 ha2 b2 hb2 => ?_⟩
    by_cases e : a2 = a ∧ b2 = b
    · obtain ⟨rfl, rfl⟩ := e
      exact .inr ⟨i', j', ti, tj, h0, hn⟩
    · rcases h.node a2 ha2 b2 hb2 with ⟨hn2, hD2⟩ | h2
      · refine .inl ⟨hn2, ?_⟩
        rintro i' j' (hD' | ⟨rfl, rfl, -, -⟩)
        · exact hD2 _ _ hD'
        · exact absurd ⟨rfl, rfl⟩ e
      · exact .inr h2

theorem OldMid.mono {D D' : ℕ → ℕ → ℕ → ℕ → Prop} (h : OldMid c v t xs ys dx dy F D m)
    (hD : ∀ a b i j, D' a b i j → D a b i j) : OldMid c v t xs ys dx dy F D' m := by
  refine ⟨h.toPrintable, h.tpsixy, fun a ha b hb => ?_⟩
  rcases h.node a ha b hb with ⟨hn, h0⟩ | h2
  · exact .inl ⟨hn, fun i j hd => h0 i j (hD _ _ _ _ hd)⟩
  · exact .inr h2

theorem wp_readFourOld {a : DVar} {nx ny i j : ℕ} {f : ℕ → ℕ → K} (h : Grid2 m a nx ny f) (hx : j + 1 < nx)
    (hy : i + 1 < ny) (Q : (Fin 4 → K) → Mem (Val K) → Prop) :
    (readFourOld a i j).wp m Q ↔ Q ![f i j, f i (j + 1), f (i + 1) j, f (i + 1) (j + 1)] m := by
  simp [readFourOld, Prog.wp_bind, Prog.wp_pure, wp_getD, h i (by omega) j (by omega), h i (by omega) _ hx,
    h _ hy j (by omega), h _ hy _ hx]

theorem oldMid_cell {D : ℕ → ℕ → ℕ → ℕ → Prop} (h : OldMid c v t xs ys dx dy F D m) {i j : ℕ} (hi : i + 1 < c.ny)
    (hj : j + 1 < c.nx) : (oldCell c v dx dy t i j).wp m fun _ m' => OldMid c v t xs ys dx dy F
      (fun a b i' j' => D a b i' j' ∨ (Spec.Touches c.ny a i ∧ Spec.Touches c.nx b j ∧ i' = i ∧ j' = j)) m' := by
  obtain ⟨y0, x0, y1, x1, y2, x2, y3, x3⟩ := oldIndex i j
  have e4 : (List.range 4).map (fun k => oldNode c v dx dy t
      (cellData F.phi F.psix F.psiy F.psixy i j) (xs j) (ys i) i j k) = [oldNode c v dx dy t
      (cellData F.phi F.psix F.psiy F.psixy i j) (xs j) (ys i) i j 0, oldNode c v dx dy t
      (cellData F.phi F.psix F.psiy F.psixy i j) (xs j) (ys i) i j 1, oldNode c v dx dy t
      (cellData F.phi F.psix F.psiy F.psixy i j) (xs j) (ys i) i j 2, oldNode c v dx dy t
      (cellData F.phi F.psix F.psiy F.psixy i j) (xs j) (ys i) i j 3] := rfl
  simp only [oldCell, bind, pure, Prog.wp_bind, Prog.wp_pure, wp_readFourOld h.phi hj hi, wp_readFourOld h.psix hj hi,
    wp_readFourOld h.psiy hj hi, wp_readFourOld h.psixy hj hi, wp_getD, h.x j (by omega), h.y i (by omega), slot_val_inj,
    exists_eq_left']
  change Prog.wp (Prog.seqAll ((List.range 4).map (fun k => oldNode c v dx dy t
      (cellData F.phi F.psix F.psiy F.psixy i j) (xs j) (ys i) i j k))) m _
  rw [e4]
  simp only [Prog.seqAll, bind, Prog.wp_bind, Prog.wp_pure]
  refine Prog.wp_mono (oldMid_node h hi hj y0 x0 (.inl rfl) (.inl rfl)) fun _ m1 h1 => ?_
  refine Prog.wp_mono (oldMid_node h1 hi hj y1 x1 (.inl rfl) (.inr rfl)) fun _ m2 h2 => ?_
  refine Prog.wp_mono (oldMid_node h2 hi hj y2 x2 (.inr rfl) (.inl rfl)) fun _ m3 h3 => ?_
  refine Prog.wp_mono (oldMid_node h3 hi hj y3 x3 (.inr rfl) (.inr rfl)) fun _ m4 h4 => ?_
  refine h4.mono ?_
  rintro a b i' j' (hD | ⟨⟨ha, -⟩, ⟨hb, -⟩, rfl, rfl⟩)
  · exact .inl (.inl (.inl (.inl hD)))
  · rcases ha with rfl | rfl <;> rcases hb with rfl | rfl <;> simp

end loop

/-! ## A step -/

section step
variable {c : Setting K} (hc : Valid c) (v : Vel K) (t : ℕ) {m : Mem (Val K)} {F : Spec.Fields K}

/-- New value and gradient of the node `(a, b)` after a step of the first serial program.  `X`, `Y`: its departure point lies,
along `x`, `y`, in an interval next to the node. -/
structure CellStep (c : Setting K) (v : Vel K) (t : ℕ) (F : Spec.Fields K) (a b : ℕ) (new : K × K × K) : Prop where
  inside : ∀ q r, Spec.NextTo (posX c) c.nx (departs c v t a b).1 b q → Spec.NextTo (posY c) c.ny (departs c v t a b).2 a r →
    new = oldSpec c v t (posX c) (posY c) c.dx c.dy F a b (departs c v t a b) 1 q r
  outY : ((departs c v t a b).2 < c.ylim1 ∨ c.ylim2 < (departs c v t a b).2) →
    ∀ q r, Spec.NextTo (posX c) c.nx (departs c v t a b).1 b q → Spec.Touches c.ny a r →
    new = oldSpec c v t (posX c) (posY c) c.dx c.dy F a b (departs c v t a b) 2 q r
  outX : ((departs c v t a b).1 < c.xlim1 ∨ c.xlim2 < (departs c v t a b).1) →
    ∀ q r, Spec.Touches c.nx b q → Spec.NextTo (posY c) c.ny (departs c v t a b).2 a r →
    new = oldSpec c v t (posX c) (posY c) c.dx c.dy F a b (departs c v t a b) 3 q r
  corner : (a = 0 ∨ a = c.ny - 1) → (b = 0 ∨ b = c.nx - 1) →
    (∀ q, ¬ Spec.NextTo (posX c) c.nx (departs c v t a b).1 b q) → (∀ r, ¬ Spec.NextTo (posY c) c.ny (departs c v t a b).2 a r) →
    new = oldSpec c v t (posX c) (posY c) c.dx c.dy F a b (departs c v t a b) 4 0 0
  still : let X := ∃ q, Spec.NextTo (posX c) c.nx (departs c v t a b).1 b q
    let Y := ∃ r, Spec.NextTo (posY c) c.ny (departs c v t a b).2 a r
    ¬ (X ∧ Y) → ¬ (X ∧ ((departs c v t a b).2 < c.ylim1 ∨ c.ylim2 < (departs c v t a b).2)) →
    ¬ (Y ∧ ((departs c v t a b).1 < c.xlim1 ∨ c.xlim2 < (departs c v t a b).1)) →
    ¬ (((a = 0 ∨ a = c.ny - 1) ∧ (b = 0 ∨ b = c.nx - 1)) ∧ ¬ X ∧ ¬ Y) → new = (F.phi a b, F.psix a b, F.psiy a b)

include hc

theorem spacedX : Spaced (posX c) c.nx c.dx :=
  ⟨hc.dx_pos, fun k _ => by rw [hc.posX_eq, hc.posX_eq]; push_cast; ring⟩
theorem spacedY : Spaced (posY c) c.ny c.dy :=
  ⟨hc.dy_pos, fun k _ => by rw [hc.posY_eq, hc.posY_eq]; push_cast; ring⟩

theorem inX {p : K} {q : ℕ} (h : Spec.InCell (posX c) c.nx p q) : c.xlim1 ≤ p ∧ p ≤ c.xlim2 := by
  obtain ⟨h1, h2, h3⟩ := h
  have a := (spacedX hc).le (Nat.zero_le q) (by omega)
  have b := (spacedX hc).le (show q + 1 ≤ c.nx - 1 by omega) (by omega)
  rw [hc.firstX] at a
  rw [hc.lastX] at b
  exact ⟨a.trans h2, h3.trans b⟩

theorem inY {p : K} {q : ℕ} (h : Spec.InCell (posY c) c.ny p q) : c.ylim1 ≤ p ∧ p ≤ c.ylim2 := by
  obtain ⟨h1, h2, h3⟩ := h
  have a := (spacedY hc).le (Nat.zero_le q) (by omega)
  have b := (spacedY hc).le (show q + 1 ≤ c.ny - 1 by omega) (by omega)
  rw [hc.firstY] at a
  rw [hc.lastY] at b
  exact ⟨a.trans h2, h3.trans b⟩

omit hc in
/-- The end of the grid has one interval. -/
theorem touches_one {n b q q' : ℕ} (hb : b = 0 ∨ b = n - 1) (h : Spec.Touches n b q) (h' : Spec.Touches n b q') : q = q' := by
  obtain ⟨h1, h2⟩ := h
  obtain ⟨h1', h2'⟩ := h'
  omega

omit hc in
theorem touches_self {xs : ℕ → K} {n : ℕ} {d : K} (hs : Spaced xs n d) {b q : ℕ} (h : Spec.Touches n b q) :
    Spec.InCell xs n (xs b) q := by
  obtain ⟨h1 | h1, h2⟩ := h
  · exact ⟨h2, hs.le (by omega) (by omega), hs.le (by omega) (by omega)⟩
  · exact ⟨h2, hs.le (by omega) (by omega), hs.le (by omega) (by omega)⟩

theorem oldMid_new {a b : ℕ} {new : K × K × K}
    (h : (new = (F.phi a b, F.psix a b, F.psiy a b) ∧ ∀ i j, Spec.Touches c.ny a i → Spec.Touches c.nx b j →
        oldClass c v t (posX c) (posY c) a b i j = 0) ∨
      ∃ i j, Spec.Touches c.ny a i ∧ Spec.Touches c.nx b j ∧ oldClass c v t (posX c) (posY c) a b i j ≠ 0 ∧
        new = oldSpec c v t (posX c) (posY c) c.dx c.dy F a b (departs c v t a b) (oldClass c v t (posX c) (posY c) a b i j) j i)
    (ha : a < c.ny) (hb : b < c.nx) : CellStep c v t F a b new := by
  have hx3 := hc.nx3
  have hy3 := hc.ny3
  have ec : ∀ i j, oldClass c v t (posX c) (posY c) a b i j =
      if posX c j ≤ (departs c v t a b).1 ∧ (departs c v t a b).1 ≤ posX c (j + 1) then
        (if posY c i ≤ (departs c v t a b).2 ∧ (departs c v t a b).2 ≤ posY c (i + 1) then 1
          else if (departs c v t a b).2 < c.ylim1 ∨ c.ylim2 < (departs c v t a b).2 then 2 else 0)
      else (if posY c i ≤ (departs c v t a b).2 ∧ (departs c v t a b).2 ≤ posY c (i + 1) then
          (if (departs c v t a b).1 < c.xlim1 ∨ c.xlim2 < (departs c v t a b).1 then 3 else 0)
        else if (a = 0 ∨ a = c.ny - 1) ∧ (b = 0 ∨ b = c.nx - 1) then 4 else 0) := fun i j => oldCount_eq ..
  generalize hp : departs c v t a b = p at *
  obtain ⟨xa, ya⟩ := p
  simp only at *
  have tX : ∃ q, Spec.Touches c.nx b q := by
    rcases Nat.eq_zero_or_pos b with rfl | h0
    · exact ⟨0, .inl rfl, by omega⟩
    · exact ⟨b - 1, .inr (by omega), by omega⟩
  have tY : ∃ q, Spec.Touches c.ny a q := by
    rcases Nat.eq_zero_or_pos a with rfl | h0
    · exact ⟨0, .inl rfl, by omega⟩
    · exact ⟨a - 1, .inr (by omega), by omega⟩
  have oX : (xa < c.xlim1 ∨ c.xlim2 < xa) → ∀ q, ¬ Spec.InCell (posX c) c.nx xa q := fun ho q hq => by
    obtain ⟨h1, h2⟩ := inX hc hq
    rcases ho with ho | ho
    · exact absurd ho (not_lt.2 h1)
    · exact absurd ho (not_lt.2 h2)
  have oY : (ya < c.ylim1 ∨ c.ylim2 < ya) → ∀ q, ¬ Spec.InCell (posY c) c.ny ya q := fun ho q hq => by
    obtain ⟨h1, h2⟩ := inY hc hq
    rcases ho with ho | ho
    · exact absurd ho (not_lt.2 h1)
    · exact absurd ho (not_lt.2 h2)
  rcases h with ⟨rfl, h0⟩ | ⟨i, j, ti, tj, h0, e⟩
  · refine ⟨?_, ?_, ?_, ?_, fun _ _ _ _ => rfl⟩
    · intro q r hq hr
      rw [hp] at hq hr
      have := h0 r q hr.1 hq.1
      rw [ec, if_pos hq.2.2, if_pos hr.2.2] at this
      exact absurd this (by decide)
    · intro ho q r hq hr
      rw [hp] at ho hq
      have := h0 r q hr hq.1
      rw [ec, if_pos hq.2.2, if_neg fun h => oY ho r ⟨hr.2, h⟩, if_pos ho] at this
      exact absurd this (by decide)
    · intro ho q r hq hr
      rw [hp] at ho hr
      have := h0 r q hr.1 hq
      rw [ec, if_neg fun h => oX ho q ⟨hq.2, h⟩, if_pos hr.2.2, if_pos ho] at this
      exact absurd this (by decide)
    · intro h1 h2 hX hY
      rw [hp] at hX hY
      obtain ⟨q, hq⟩ := tX
      obtain ⟨r, hr⟩ := tY
      have := h0 r q hr hq
      rw [ec, if_neg fun h => hX q ⟨hq, hq.2, h⟩, if_neg fun h => hY r ⟨hr, hr.2, h⟩, if_pos ⟨h1, h2⟩] at this
      exact absurd this (by decide)
  · have four : oldClass c v t (posX c) (posY c) a b i j = 4 → (a = 0 ∨ a = c.ny - 1) ∧ (b = 0 ∨ b = c.nx - 1) ∧
        (∀ q, ¬ Spec.NextTo (posX c) c.nx xa b q) ∧ (∀ r, ¬ Spec.NextTo (posY c) c.ny ya a r) := by
      intro h4
      rw [ec] at h4
      split_ifs at h4 with h1 h2 h3 h5 h6 h7 <;> try exact absurd h4 (by decide)
      refine ⟨h7.1, h7.2, fun q hq => ?_, fun r hr => ?_⟩
      · exact h1 (touches_one h7.2 hq.1 tj ▸ hq.2.2)
      · exact h5 (touches_one h7.1 hr.1 ti ▸ hr.2.2)
    have cases : (oldClass c v t (posX c) (posY c) a b i j = 1 ∧ Spec.InCell (posX c) c.nx xa j ∧ Spec.InCell (posY c) c.ny ya i) ∨
        (oldClass c v t (posX c) (posY c) a b i j = 2 ∧ Spec.InCell (posX c) c.nx xa j ∧ (ya < c.ylim1 ∨ c.ylim2 < ya)) ∨
        (oldClass c v t (posX c) (posY c) a b i j = 3 ∧ (xa < c.xlim1 ∨ c.xlim2 < xa) ∧ Spec.InCell (posY c) c.ny ya i) ∨
        oldClass c v t (posX c) (posY c) a b i j = 4 := by
      rw [ec] at h0 ⊢
      split_ifs at h0 ⊢ with h1 h2 h3 h5 h6 h7
      · exact .inl ⟨rfl, ⟨tj.2, h1⟩, ⟨ti.2, h2⟩⟩
      · exact .inr (.inl ⟨rfl, ⟨tj.2, h1⟩, h3⟩)
      · exact absurd rfl h0
      · exact .inr (.inr (.inl ⟨rfl, h6, ⟨ti.2, h5⟩⟩))
      · exact absurd rfl h0
      · exact .inr (.inr (.inr rfl))
      · exact absurd rfl h0
    subst e
    rcases cases with ⟨k, hj, hi⟩ | ⟨k, hj, ho⟩ | ⟨k, ho, hi⟩ | k
    · rw [k]
      refine ⟨?_, ?_, ?_, ?_, ?_⟩ <;> rw [hp]
      · intro q r hq hr
        obtain ⟨e1, e2, e3⟩ := same_cell F.phi F.psix F.psiy F.psixy (spacedX hc) (spacedY hc) hj hq.2 hi hr.2
        simp only [oldSpec, nodeSpec, Spec.updateNode, e1, e2, e3]
      · exact fun ho => absurd hi (oY ho i)
      · exact fun ho => absurd hj (oX ho j)
      · exact fun _ _ hX _ => absurd ⟨tj, hj⟩ (hX j)
      · exact fun h => absurd ⟨⟨j, tj, hj⟩, ⟨i, ti, hi⟩⟩ h
    · rw [k]
      refine ⟨?_, ?_, ?_, ?_, ?_⟩ <;> rw [hp]
      · exact fun q r hq hr => absurd hr.2 (oY ho r)
      · intro _ q r hq hr
        obtain ⟨e1, e2, e3⟩ := same_cell F.phi F.psix F.psiy F.psixy (spacedX hc) (spacedY hc) hj hq.2
          (touches_self (spacedY hc) ti) (touches_self (spacedY hc) hr)
        simp only [oldSpec, nodeSpec, Spec.updateNode, e1, e2, e3]
      · exact fun _ q r hq hr => absurd hr.2 (oY ho r)
      · exact fun _ _ hX _ => absurd ⟨tj, hj⟩ (hX j)
      · exact fun _ h => absurd ⟨⟨j, tj, hj⟩, ho⟩ h
    · rw [k]
      refine ⟨?_, ?_, ?_, ?_, ?_⟩ <;> rw [hp]
      · exact fun q r hq hr => absurd hq.2 (oX ho q)
      · exact fun _ q r hq hr => absurd hq.2 (oX ho q)
      · intro _ q r hq hr
        obtain ⟨e1, e2, e3⟩ := same_cell F.phi F.psix F.psiy F.psixy (spacedX hc) (spacedY hc)
          (touches_self (spacedX hc) tj) (touches_self (spacedX hc) hq) hi hr.2
        simp only [oldSpec, nodeSpec, Spec.updateNode, e1, e2, e3]
      · exact fun _ _ _ hY => absurd ⟨ti, hi⟩ (hY i)
      · exact fun _ _ h => absurd ⟨⟨i, ti, hi⟩, ho⟩ h
    · obtain ⟨c1, c2, nX, nY⟩ := four k
      rw [k]
      refine ⟨?_, ?_, ?_, ?_, ?_⟩ <;> rw [hp]
      · exact fun q r hq hr => absurd hq (nX q)
      · exact fun _ q r hq hr => absurd hq (nX q)
      · exact fun _ q r hq hr => absurd hr (nY r)
      · exact fun _ _ _ _ => rfl
      · exact fun _ _ _ h => absurd ⟨⟨c1, c2⟩, fun ⟨q, hq⟩ => nX q hq, fun ⟨r, hr⟩ => nY r hr⟩ h

end step

end Gals.Props
