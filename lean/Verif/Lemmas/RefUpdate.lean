import Verif.Lemmas.RefRun
import Verif.Spec.Ref
import Mathlib.Tactic.Ring
import Mathlib.Tactic.FieldSimp

/-!
# Level-set update of the reference code
-/

set_option linter.unusedSectionVars false
set_option linter.unusedSimpArgs false

namespace Gals.Ref

variable {K : Type} [Field K] [CharZero K]

/-! ## Interpolant -/

/-- Data of the cell with lower left node `(r, c)`. -/
def cellData (f fx fy fxy : ℕ → ℕ → K) (r c : ℕ) : CellData K :=
  let at4 (g : ℕ → ℕ → K) : Fin 4 → K := ![g r c, g r (c + 1), g (r + 1) c, g (r + 1) (c + 1)]
  ⟨at4 f, at4 fx, at4 fy, at4 fxy⟩

theorem hp_eq (f fx fy fxy : ℕ → ℕ → K) (xs ys : ℕ → K) (dx dy : K) (r c : ℕ) (x y : K) :
    hp (cellData f fx fy fxy r c) x y (xs c) (ys r) dx dy = Spec.cellBicubic f fx fy fxy xs ys dx dy r c x y := by
  simp [hp, outer, inner, basepolynomial, basePoly, powSmall, cellData, Spec.cellBicubic, Spec.bicubicWith, Spec.hVal,
    Spec.hSlope, Fin.sum_univ_two, sqr, cube]
  ring

theorem hermx_eq (f fx fy fxy : ℕ → ℕ → K) (xs ys : ℕ → K) (dx dy : K) (r c : ℕ) (x y : K) :
    hermx (cellData f fx fy fxy r c) x y (xs c) (ys r) dx dy = Spec.cellBicubicX f fx fy fxy xs ys dx dy r c x y := by
  simp [hermx, outer, inner, gradbpx, basePoly, basePoly', powSmall, cellData, Spec.cellBicubicX, Spec.bicubicWith, Spec.hVal,
    Spec.hSlope, Spec.hVal', Spec.hSlope', Fin.sum_univ_two, sqr, cube]
  ring

theorem hermy_eq (f fx fy fxy : ℕ → ℕ → K) (xs ys : ℕ → K) (dx dy : K) (r c : ℕ) (x y : K) :
    hermy (cellData f fx fy fxy r c) x y (xs c) (ys r) dx dy = Spec.cellBicubicY f fx fy fxy xs ys dx dy r c x y := by
  simp [hermy, outer, inner, gradbpy, basePoly, basePoly', powSmall, cellData, Spec.cellBicubicY, Spec.bicubicWith, Spec.hVal,
    Spec.hSlope, Spec.hVal', Spec.hSlope', Fin.sum_univ_two, sqr, cube]
  ring

theorem heunsX_eq (v : Vel K) (x y rx ry pxy px : K) (t : ℕ) (dt : K) : heunsX v x y rx ry pxy px t dt =
    Spec.heunEdge dt px rx (v.gradVx x y (tm t dt) * ry + v.vely x y (tm t dt) * pxy) (v.gradUx x y (tm t dt))
      (v.gradVx x y (tm (uadd t 1) dt) * ry + v.vely x y (tm (uadd t 1) dt) * pxy) (v.gradUx x y (tm (uadd t 1) dt)) := by
  simp only [heunsX, Spec.heunEdge]
  ring

theorem heunsY_eq (v : Vel K) (x y rx ry pxy py : K) (t : ℕ) (dt : K) : heunsY v x y rx ry pxy py t dt =
    Spec.heunEdge dt py ry (v.gradUy x y (tm t dt) * rx + v.velx x y (tm t dt) * pxy) (v.gradVy x y (tm t dt))
      (v.gradUy x y (tm (uadd t 1) dt) * rx + v.velx x y (tm (uadd t 1) dt) * pxy) (v.gradVy x y (tm (uadd t 1) dt)) := by
  simp only [heunsY, Spec.heunEdge]
  ring

/-! ## Footprints -/

/-- The node whose iteration writes the location in the update loops. -/
def updOwner : Loc → Option (ℕ × ℕ)
  | .d .tempphi i j => some (i, j)
  | .d .temppsix i j => some (i, j)
  | .d .temppsiy i j => some (i, j)
  | _ => none

theorem updateBody_owned (v : Vel K) (s : Schemes) (t : ℕ) (dt dx dy : K) (i j : ℕ) :
    Owned updOwner (i, j) (updateBody v s t dt dx dy i j) := by
  unfold Owned updateBody
  simp [readFour, getD, setD, getN, Prog.get, Prog.set, Prog.bind, Prog.Fits, updOwner]
  intros
  split
  · simp [Prog.Fits, updOwner, Prog.bind]
    split
    · simp [Prog.Fits, updOwner, Prog.bind]
    · split <;> simp [Prog.Fits, updOwner, Prog.bind]
  all_goals simp [Prog.Fits, updOwner, Prog.bind]

theorem updateCuda_owned (v : Vel K) (t : ℕ) (dt : K) (nx ix iy : ℕ) :
    Owned updOwner (0, indexW nx ix iy) (updateCuda v t dt nx ix iy) := by
  unfold Owned updateCuda
  simp [readFourCuda, spacing, getD, setD, getN, Prog.get, Prog.set, Prog.bind, Prog.Fits, updOwner]
  intros
  split <;> simp [Prog.Fits, updOwner, Prog.bind]

/-! ## Bodies -/

/-- The array `a` holds `f` at every node. -/
def Grid2 (m : Mem (Val K)) (a : DVar) (nx ny : ℕ) (f : ℕ → ℕ → K) : Prop :=
  ∀ r < ny, ∀ c < nx, m (.d a r c) = .val (f r c)

/-- The flat array `a` holds `f` at every node. -/
def Flat2 (m : Mem (Val K)) (a : DVar) (nx ny : ℕ) (f : ℕ → ℕ → K) : Prop :=
  ∀ r < ny, ∀ c < nx, m (.d a 0 (r * nx + c)) = .val (f r c)

/-- Memory after a body of an update loop: the new value and gradient of the node are stored, nothing else changes. -/
structure Updated (m m' : Mem (Val K)) (i j : ℕ) (r : K × K × K) : Prop where
  phi : m' (.d .tempphi i j) = .val r.1
  psix : m' (.d .temppsix i j) = .val r.2.1
  psiy : m' (.d .temppsiy i j) = .val r.2.2
  frame : ∀ l, updOwner l ≠ some (i, j) → m' l = m l

theorem updated_of {m m' : Mem (Val K)} {i j : ℕ} {r : K × K × K} (h1 : m' (.d .tempphi i j) = .val r.1)
    (h2 : m' (.d .temppsix i j) = .val r.2.1) (h3 : m' (.d .temppsiy i j) = .val r.2.2)
    (h4 : ∀ l, l ≠ .d .tempphi i j → l ≠ .d .temppsix i j → l ≠ .d .temppsiy i j → m' l = m l) : Updated m m' i j r :=
  ⟨h1, h2, h3, fun l hl => h4 l (by rintro rfl; exact hl rfl) (by rintro rfl; exact hl rfl) (by rintro rfl; exact hl rfl)⟩

/-- Transport of the gradient chosen by `psischeme`; the old gradient `(px, py)` stays for an unknown name. -/
def transport (v : Vel K) (s : Schemes) (t : ℕ) (dt x y xa ya px py rx ry : K) : K × K :=
  if s.psischeme = "Heuns" then heunsInternal v x y xa ya rx ry t dt
  else if s.psischeme = "SuperConsistent" then superConsistent v s.rk3 x y rx ry t dt else (px, py)

/-- `Spec.updateNode` with the data of the reference code. -/
def newNode (v : Vel K) (tr : K → K → K × K) (t : ℕ) (dt dx dy : K) (f fx fy fxy : ℕ → ℕ → K) (xs ys : ℕ → K)
    (cls cx cy : ℕ) (x y xa ya p px py pxy : K) : K × K × K :=
  Spec.updateNode cls dt (Spec.cellBicubic f fx fy fxy xs ys dx dy cy cx) (Spec.cellBicubicX f fx fy fxy xs ys dx dy cy cx)
    (Spec.cellBicubicY f fx fy fxy xs ys dx dy cy cx) tr
    (fun rx => heunsX v x y rx py pxy px t dt) (fun ry => heunsY v x y px ry pxy py t dt)
    (v.velx x y (tm t dt)) (v.vely x y (tm t dt)) x y xa ya p px py

theorem wp_readFour {m : Mem (Val K)} {a : DVar} {nx ny cx cy : ℕ} {f : ℕ → ℕ → K} (h : Grid2 m a nx ny f) (hx : cx + 1 < nx)
    (hy : cy + 1 < ny) (hnx : nx < uMod) (hny : ny < uMod) (Q : (Fin 4 → K) → Mem (Val K) → Prop) :
    (readFour a cx cy).wp m Q ↔ Q ![f cy cx, f cy (cx + 1), f (cy + 1) cx, f (cy + 1) (cx + 1)] m := by
  have h0 := h cy (by omega) cx (by omega)
  have h1 := h cy (by omega) (cx + 1) (by omega)
  have h2 := h (cy + 1) (by omega) cx (by omega)
  have h3 := h (cy + 1) (by omega) (cx + 1) (by omega)
  have e1 : uadd cx 1 = cx + 1 := uadd_eq (by omega)
  have e2 : uadd cy 1 = cy + 1 := uadd_eq (by omega)
  simp [readFour, Prog.wp_bind, Prog.wp_pure, wp_getD, h0, h1, h2, h3, e1, e2]

theorem updateBody_wp (v : Vel K) (s : Schemes) (t : ℕ) (dt dx dy : K) {m : Mem (Val K)} {nx ny i j cx cy cls : ℕ}
    {xs ys : ℕ → K} {f fx fy fxy : ℕ → ℕ → K} {xa ya p px py pxy : K}
    (hx : ∀ k < nx, m (.d .x 0 k) = .val (xs k)) (hy : ∀ k < ny, m (.d .y 0 k) = .val (ys k))
    (hf : Grid2 m .mphi nx ny f) (hfx : Grid2 m .mpsix nx ny fx) (hfy : Grid2 m .mpsiy nx ny fy)
    (hfxy : Grid2 m .mpsixy nx ny fxy) (hi : i < ny) (hj : j < nx) (hnx : nx < uMod) (hny : ny < uMod)
    (hxa : m (.d .xadv i j) = .val xa) (hya : m (.d .yadv i j) = .val ya)
    (hp' : m (.d .tempphi i j) = .val p) (hpx : m (.d .temppsix i j) = .val px) (hpy : m (.d .temppsiy i j) = .val py)
    (hpxy : m (.d .temppsixy i j) = .val pxy)
    (hcx : m (.n .cellx i j) = .val cx) (hcy : m (.n .celly i j) = .val cy) (ht : m (.n .tracker i j) = .val cls)
    (bx : cx + 1 < nx) (by_ : cy + 1 < ny) :
    (updateBody v s t dt dx dy i j).wp m fun _ m' => Updated m m' i j
      (newNode v (transport v s t dt (xs j) (ys i) xa ya px py) t dt dx dy f fx fy fxy xs ys cls cx cy (xs j) (ys i) xa ya
        p px py pxy) := by
  have hxo := hx cx (by omega)
  have hyo := hy cy (by omega)
  have hxj := hx j hj
  have hyi := hy i hi
  have eH := hp_eq f fx fy fxy xs ys dx dy cy cx
  have eX := hermx_eq f fx fy fxy xs ys dx dy cy cx
  have eY := hermy_eq f fx fy fxy xs ys dx dy cy cx
  simp only [cellData] at eH eX eY
  simp only [updateBody, bind, pure, Prog.wp_bind, Prog.wp_pure, wp_getD, wp_getN, hcx, hcy, slot_val_inj, exists_eq_left',
    wp_readFour hf bx by_ hnx hny, wp_readFour hfx bx by_ hnx hny, wp_readFour hfy bx by_ hnx hny,
    wp_readFour hfxy bx by_ hnx hny, hxo, hyo, hxj, hyi, hxa, hya, ht, eH, eX, eY]
  split
  · simp only [Prog.wp_bind, wp_setD, hp', ne_eq, reduceCtorEq, not_false_eq_true, true_and]
    split
    · rename_i hs
      simp [Prog.wp_bind, wp_setD, Mem.upd_other, hpx, hpy]
      refine updated_of ?_ ?_ ?_ fun l h1 h2 h3 => by rw [Mem.upd_other _ h3, Mem.upd_other _ h2, Mem.upd_other _ h1]
      all_goals simp [Mem.upd_other, Mem.upd_same, newNode, Spec.updateNode, transport, hs]
    · rename_i hs
      split
      · rename_i hs'
        simp [Prog.wp_bind, wp_setD, Mem.upd_other, hpx, hpy]
        refine updated_of ?_ ?_ ?_ fun l h1 h2 h3 => by rw [Mem.upd_other _ h3, Mem.upd_other _ h2, Mem.upd_other _ h1]
        all_goals simp [Mem.upd_other, Mem.upd_same, newNode, Spec.updateNode, transport, hs, hs']
      · rename_i hs'
        simp [Prog.wp_pure, Mem.upd_other, hpx, hpy]
        refine updated_of ?_ ?_ ?_ fun l h1 h2 h3 => by rw [Mem.upd_other _ h1]
        all_goals simp [Mem.upd_other, Mem.upd_same, newNode, Spec.updateNode, transport, hs, hs', hpx, hpy]
  · simp [Prog.wp_bind, wp_setD, wp_getD, Mem.upd_other, hpx, hpy, hp', hpxy]
    refine updated_of ?_ ?_ ?_ fun l h1 h2 h3 => by rw [Mem.upd_other _ h2, Mem.upd_other _ h1]
    all_goals simp [Mem.upd_other, Mem.upd_same, newNode, Spec.updateNode, hpx, hpy]
  · simp [Prog.wp_bind, wp_setD, wp_getD, Mem.upd_other, hpx, hpy, hp', hpxy]
    refine updated_of ?_ ?_ ?_ fun l h1 h2 h3 => by rw [Mem.upd_other _ h3, Mem.upd_other _ h1]
    all_goals simp [Mem.upd_other, Mem.upd_same, newNode, Spec.updateNode, hpx, hpy]
  · simp [Prog.wp_bind, wp_setD, wp_getD, Mem.upd_other, hpx, hpy, hp', hpxy]
    refine updated_of ?_ ?_ ?_ fun l h1 h2 h3 => by rw [Mem.upd_other _ h1]
    all_goals simp [Mem.upd_other, Mem.upd_same, newNode, Spec.updateNode, hpx, hpy]
  · rename_i n1 n2 n3 n4
    rw [Prog.wp_pure]
    refine updated_of ?_ ?_ ?_ fun l h1 h2 h3 => rfl
    all_goals
      simp only [newNode, Spec.updateNode, hp', hpx, hpy]

theorem flat_lt {nx ny r c : ℕ} (hr : r < ny) (hc : c < nx) : r * nx + c < nx * ny := by
  calc r * nx + c < r * nx + nx := by omega
    _ = (r + 1) * nx := by ring
    _ ≤ ny * nx := Nat.mul_le_mul_right _ hr
    _ = nx * ny := Nat.mul_comm _ _

theorem wp_readFourCuda {m : Mem (Val K)} {a : DVar} {nx ny cx cy : ℕ} {f : ℕ → ℕ → K} (h : Flat2 m a nx ny f)
    (hx : cx + 1 < nx) (hy : cy + 1 < ny) (hxy : nx * ny ≤ uMod) (Q : (Fin 4 → K) → Mem (Val K) → Prop) :
    (readFourCuda a nx (uadd cx (umul cy nx))).wp m Q ↔
      Q ![f cy cx, f cy (cx + 1), f (cy + 1) cx, f (cy + 1) (cx + 1)] m := by
  have h0 := h cy (by omega) cx (by omega)
  have h1 := h cy (by omega) (cx + 1) (by omega)
  have h2 := h (cy + 1) (by omega) cx (by omega)
  have h3 := h (cy + 1) (by omega) (cx + 1) (by omega)
  have l3 := flat_lt (nx := nx) (ny := ny) (r := cy + 1) (c := cx + 1) (by omega) (by omega)
  have hm : (cy + 1) * nx = cy * nx + nx := by ring
  rw [hm] at h2 h3 l3
  have e0 : umul cy nx = cy * nx := umul_eq (by omega)
  have e1 : uadd cx (cy * nx) = cy * nx + cx := by rw [uadd_eq (by omega), Nat.add_comm]
  have e2 : uadd (cy * nx + cx) 1 = cy * nx + (cx + 1) := by rw [uadd_eq (by omega), Nat.add_assoc]
  have e3 : uadd (cy * nx + cx) nx = cy * nx + nx + cx := by rw [uadd_eq (by omega)]; omega
  have e4 : uadd (cy * nx + nx + cx) 1 = cy * nx + nx + (cx + 1) := by rw [uadd_eq (by omega), Nat.add_assoc]
  simp [readFourCuda, Prog.wp_bind, Prog.wp_pure, wp_getD, h0, h1, h2, h3, e0, e1, e2, e3, e4]

theorem wp_spacing {m : Mem (Val K)} {a : DVar} {n : ℕ} {xs : ℕ → K} (h : ∀ k < n, m (.d a 0 k) = .val (xs k)) (hn : 2 < n)
    (Q : K → Mem (Val K) → Prop) : (spacing a).wp m Q ↔ Q (xs 2 - xs 1) m := by
  have h1 := h 1 (by omega)
  have h2 := h 2 (by omega)
  simp [spacing, Prog.wp_bind, Prog.wp_pure, wp_getD, h1, h2]

theorem updateCuda_wp (v : Vel K) (t : ℕ) (dt : K) {m : Mem (Val K)} {nx ny ix iy cx cy cls : ℕ}
    {xs ys : ℕ → K} {f fx fy fxy : ℕ → ℕ → K} {xa ya p px py pxy : K}
    (hx : ∀ k < nx, m (.d .x 0 k) = .val (xs k)) (hy : ∀ k < ny, m (.d .y 0 k) = .val (ys k))
    (nx3 : 2 < nx) (ny3 : 2 < ny)
    (hf : Flat2 m .mphi nx ny f) (hfx : Flat2 m .mpsix nx ny fx) (hfy : Flat2 m .mpsiy nx ny fy)
    (hfxy : Flat2 m .temppsixy nx ny fxy) (hi : iy < ny) (hj : ix < nx) (hxy : nx * ny ≤ uMod)
    (hxa : m (.d .xadv 0 (indexW nx ix iy)) = .val xa) (hya : m (.d .yadv 0 (indexW nx ix iy)) = .val ya)
    (hp' : m (.d .tempphi 0 (indexW nx ix iy)) = .val p) (hpx : m (.d .temppsix 0 (indexW nx ix iy)) = .val px)
    (hpy : m (.d .temppsiy 0 (indexW nx ix iy)) = .val py) (hpxy : m (.d .temppsixy 0 (indexW nx ix iy)) = .val pxy)
    (hcx : m (.n .cellx 0 (indexW nx ix iy)) = .val cx) (hcy : m (.n .celly 0 (indexW nx ix iy)) = .val cy)
    (ht : m (.n .tracker 0 (indexW nx ix iy)) = .val cls) (bx : cx + 1 < nx) (by_ : cy + 1 < ny) :
    (updateCuda v t dt nx ix iy).wp m fun _ m' => Updated m m' 0 (indexW nx ix iy)
      (newNode v (fun rx ry => superConsistent v true (xs ix) (ys iy) rx ry t dt) t dt (xs 2 - xs 1) (ys 2 - ys 1)
        f fx fy fxy xs ys cls cx cy (xs ix) (ys iy) xa ya p px py pxy) := by
  have hxo := hx cx (by omega)
  have hyo := hy cy (by omega)
  have hxj := hx ix hj
  have hyi := hy iy hi
  have eH := hp_eq f fx fy fxy xs ys (xs 2 - xs 1) (ys 2 - ys 1) cy cx
  have eX := hermx_eq f fx fy fxy xs ys (xs 2 - xs 1) (ys 2 - ys 1) cy cx
  have eY := hermy_eq f fx fy fxy xs ys (xs 2 - xs 1) (ys 2 - ys 1) cy cx
  simp only [cellData] at eH eX eY
  simp only [updateCuda, bind, pure, Prog.wp_bind, Prog.wp_pure, wp_getD, wp_getN, hcx, hcy, slot_val_inj, exists_eq_left',
    wp_spacing hx nx3, wp_spacing hy ny3, wp_readFourCuda hf bx by_ hxy, wp_readFourCuda hfx bx by_ hxy,
    wp_readFourCuda hfy bx by_ hxy, wp_readFourCuda hfxy bx by_ hxy, hxo, hyo, hxj, hyi, hxa, hya, ht, eH, eX, eY]
  split
  · simp [Prog.wp_bind, wp_setD, Mem.upd_other, hp', hpx, hpy]
    refine updated_of ?_ ?_ ?_ fun l h1 h2 h3 => by rw [Mem.upd_other _ h3, Mem.upd_other _ h2, Mem.upd_other _ h1]
    all_goals simp [Mem.upd_other, Mem.upd_same, newNode, Spec.updateNode]
  · simp [Prog.wp_bind, wp_setD, wp_getD, Mem.upd_other, hpx, hpy, hp', hpxy]
    refine updated_of ?_ ?_ ?_ fun l h1 h2 h3 => by rw [Mem.upd_other _ h2, Mem.upd_other _ h1]
    all_goals simp [Mem.upd_other, Mem.upd_same, newNode, Spec.updateNode, hpx, hpy]
  · simp [Prog.wp_bind, wp_setD, wp_getD, Mem.upd_other, hpx, hpy, hp', hpxy]
    refine updated_of ?_ ?_ ?_ fun l h1 h2 h3 => by rw [Mem.upd_other _ h3, Mem.upd_other _ h1]
    all_goals simp [Mem.upd_other, Mem.upd_same, newNode, Spec.updateNode, hpx, hpy]
  · simp [Prog.wp_bind, wp_setD, wp_getD, Mem.upd_other, hpx, hpy, hp', hpxy]
    refine updated_of ?_ ?_ ?_ fun l h1 h2 h3 => by rw [Mem.upd_other _ h1]
    all_goals simp [Mem.upd_other, Mem.upd_same, newNode, Spec.updateNode, hpx, hpy]
  · rename_i n1 n2 n3 n4
    rw [Prog.wp_pure]
    refine updated_of ?_ ?_ ?_ fun l h1 h2 h3 => rfl
    all_goals
      simp only [newNode, Spec.updateNode, hp', hpx, hpy]

end Gals.Ref
