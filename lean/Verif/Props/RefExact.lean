import Verif.Props.RefLinear

/-!
# C69, C70, C71: constants, rest and uniform flow
-/

set_option linter.unusedSectionVars false
set_option linter.unusedSimpArgs false
set_option linter.unnecessarySeqFocus false

namespace Gals.Props

open Gals Gals.Ref

variable {K : Type} [Field K] [LinearOrder K] [IsStrictOrderedRing K]

/-! ## Affine data -/

/-- Coefficients of `a + b x + c y`. -/
def affineCoeff (a b c : K) : ℕ → ℕ → K
  | 0, 0 => a
  | 1, 0 => b
  | 0, 1 => c
  | _, _ => 0

theorem poly_affine (a b c x y : K) : Spec.poly (affineCoeff a b c) x y = a + b * x + c * y ∧
    Spec.polyX (affineCoeff a b c) x y = b ∧ Spec.polyY (affineCoeff a b c) x y = c ∧
    Spec.polyXY (affineCoeff a b c) x y = 0 := by
  refine ⟨?_, ?_, ?_, ?_⟩ <;>
    simp [Spec.poly, Spec.polyX, Spec.polyY, Spec.polyXY, Finset.sum_range_succ, affineCoeff] <;> ring

theorem polyFields_affine (a b c : K) (xs ys : ℕ → K) : Spec.polyFields (affineCoeff a b c) xs ys = Spec.affine a b c xs ys := by
  simp only [Spec.polyFields, Spec.affine, poly_affine]

theorem cellBicubic_affine (a b c : K) {xs ys : ℕ → K} {dx dy : K} (hx : dx ≠ 0) (hy : dy ≠ 0) (ex : ∀ k, xs (k + 1) = xs k + dx)
    (ey : ∀ k, ys (k + 1) = ys k + dy) (r q : ℕ) (x y : K) :
    let F := Spec.affine a b c xs ys
    Spec.cellBicubic F.phi F.psix F.psiy F.psixy xs ys dx dy r q x y = a + b * x + c * y ∧
    Spec.cellBicubicX F.phi F.psix F.psiy F.psixy xs ys dx dy r q x y = b ∧
    Spec.cellBicubicY F.phi F.psix F.psiy F.psixy xs ys dx dy r q x y = c := by
  have := cellBicubic_poly (affineCoeff a b c) hx hy (ex q) (ey r) x y
  simp only [polyFields_affine, poly_affine] at this
  exact this

theorem mixedStencil_const (b c : K) (nx ny : ℕ) (dx dy : K) (i j : ℕ) :
    Spec.mixedStencil (fun _ _ => b) (fun _ _ => c) nx ny dx dy i j = 0 := by
  simp only [Spec.mixedStencil, Spec.dX, Spec.dY, Spec.eX, Spec.eY]
  split_ifs <;> ring

theorem cudaStencil_const (b c : K) (nx ny : ℕ) (dx dy : K) (i j : ℕ) :
    cudaStencil (fun _ _ => b) (fun _ _ => c) nx ny dx dy i j = 0 := by
  rw [cudaStencil, mixedStencil_const]
  split_ifs <;> ring

theorem classOf_cases (xs ys : ℕ → K) (nx ny : ℕ) (p : K × K) : Spec.classOf xs ys nx ny p = 1 ∨ Spec.classOf xs ys nx ny p = 2 ∨
    Spec.classOf xs ys nx ny p = 3 ∨ Spec.classOf xs ys nx ny p = 4 := by
  rw [Spec.classOf]
  split_ifs <;> simp

/-! ## C69: constants -/

theorem transport_zero (v : Vel K) (s : Schemes) (t : ℕ) (dt x y xa ya : K) : transportSpec v s t dt x y xa ya 0 0 0 0 = (0, 0) := by
  simp only [transportSpec]
  split_ifs
  · simp [heunCoded, heunSpec, heunSlopes, Spec.heunGradient]
  · simp only [Spec.gradientAt]
    split_ifs <;> simp [Spec.Mat2.transposeMul]
  · rfl

theorem nodeAt_const (v : Vel K) (s : Schemes) (t : ℕ) (dt : K) {dx dy : K} {xs ys : ℕ → K} (hx : dx ≠ 0) (hy : dy ≠ 0)
    (ex : ∀ k, xs (k + 1) = xs k + dx) (ey : ∀ k, ys (k + 1) = ys k + dy) (nx ny : ℕ) (a : K) (p : K × K) (i j : ℕ) :
    nodeAt v s t dt dx dy xs ys nx ny (Spec.affine a 0 0 xs ys) p i j = (a, 0, 0) := by
  have h := fun r q x y => (cellBicubic_affine a 0 0 hx hy ex ey r q x y).1
  have h1 := fun r q x y => (cellBicubic_affine a 0 0 hx hy ex ey r q x y).2.1
  have h2 := fun r q x y => (cellBicubic_affine a 0 0 hx hy ex ey r q x y).2.2
  have e : (Spec.affine a 0 0 xs ys).phi i j = a := by simp [Spec.affine]
  have e1 : (Spec.affine a 0 0 xs ys).psix i j = 0 := rfl
  have e2 : (Spec.affine a 0 0 xs ys).psiy i j = 0 := rfl
  have e3 : (Spec.affine a 0 0 xs ys).psixy i j = 0 := rfl
  simp only [nodeAt, nodeSpec, Spec.updateNode, h, h1, h2, e, e1, e2, e3, transport_zero, edgeX, edgeY, Spec.heunEdge]
  rcases classOf_cases xs ys nx ny p with hc | hc | hc | hc <;> simp only [hc] <;> ext <;> simp

theorem advance_const (v : Vel K) (s : Schemes) (t : ℕ) (dt : K) {dx dy : K} {xs ys : ℕ → K} (hx : dx ≠ 0) (hy : dy ≠ 0)
    (ex : ∀ k, xs (k + 1) = xs k + dx) (ey : ∀ k, ys (k + 1) = ys k + dy) (nx ny : ℕ) (dep : ℕ → ℕ → K × K) (a : K) :
    advance v s t dt dx dy xs ys nx ny dep (Spec.affine a 0 0 xs ys) = Spec.affine a 0 0 xs ys := by
  simp only [advance, nodeAt_const v s t dt hx hy ex ey]
  simp only [Spec.affine, zero_mul, add_zero, Spec.Fields.mk.injEq, true_and]
  funext i j
  exact mixedStencil_const ..

section grid
variable {c : Setting K} (hc : Valid c)
include hc

theorem Valid.stepX (k : ℕ) : posX c (k + 1) = posX c k + (c.xlim2 - c.xlim1) / (c.nx - 1) := by
  simp only [posX]; push_cast; ring
theorem Valid.stepY (k : ℕ) : posY c (k + 1) = posY c k + (c.ylim2 - c.ylim1) / (c.ny - 1) := by
  simp only [posY]; push_cast; ring
theorem Valid.gapX : (c.xlim2 - c.xlim1) / ((c.nx : K) - 1) ≠ 0 := by rw [← hc.dx_eq]; exact hc.dx_pos.ne'
theorem Valid.gapY : (c.ylim2 - c.ylim1) / ((c.ny : K) - 1) ≠ 0 := by rw [← hc.dy_eq]; exact hc.dy_pos.ne'

end grid

/-- The constant `a` with its derivatives. -/
def constInit (a : K) : Initial K := ⟨fun _ _ => a, fun _ _ => 0, fun _ _ => 0, fun _ _ => 0⟩

/-- Constant fields. -/
def constFields (a : K) : Spec.Fields K := ⟨fun _ _ => a, fun _ _ => 0, fun _ _ => 0, fun _ _ => 0⟩

theorem constFields_eq (a : K) (xs ys : ℕ → K) : Spec.affine a 0 0 xs ys = constFields a := by
  simp [Spec.affine, constFields]

theorem fieldsAt_const {c : Setting K} (hc : Valid c) (v : Vel K) (a : K) (dep : ℕ → ℕ → ℕ → K × K) (t : ℕ) :
    fieldsAt c v (constInit a) dep t = constFields a := by
  induction t with
  | zero => rfl
  | succ t ih => rw [fieldsAt, ih, ← constFields_eq a (posX c) (posY c), advance_const v _ t _ hc.gapX hc.gapY hc.stepX hc.stepY]

theorem cudaFieldsAt_const {tile : ℕ} {c : Setting K} (hc : CudaValid tile c) (v : Vel K) (a : K) (t : ℕ) :
    cudaFieldsAt c v (constInit a) t = constFields a := by
  have hv : Valid c := hc.toValid
  induction t with
  | zero => rfl
  | succ t ih =>
    rw [cudaFieldsAt, ih, ← constFields_eq a (posX c) (posY c)]
    simp only [advanceCuda, nodeAt_const v _ t _ hv.gapX hv.gapY hv.stepX hv.stepY]
    rw [constFields_eq]
    simp only [constFields, Spec.Fields.mk.injEq, true_and]
    funext i j
    exact cudaStencil_const ..

section runs
variable [FloorRing K] {c : Setting K} {n : ℕ}

/-- **C69**: a constant level set stays constant, whatever the velocity: OpenMP program run by one thread, all nodes, all
frames. -/
theorem C69_openmp (hc : Valid c) (v : Vel K) (a : K) (hdt : c.dt ≠ 0) (hn : Spec.Truncated (c.tfinal / c.dt) n)
    (hnu : n < uMod) (hp : 1 ≤ printStep c n ∨ n = 0) {argc : ℕ} (ha : 2 ≤ argc) :
    ∃ m o, mainOpenMP argc c v (constInit a) = .ok (m, o) ∧ Ready m c.nx c.ny (posX c) (posY c) (constFields a) ∧
      Written c v (fun _ => constFields a) n (printStep c n) o := by
  obtain ⟨m, o, e, r, w⟩ := C54_openmp hc v (constInit a) hdt hn hnu hp ha
  rw [funext (fieldsAt_const hc v a (departs c v))] at r w
  exact ⟨m, o, e, r, w⟩

/-- **C69**, serial program. -/
theorem C69_serial (hc : Valid c) (v : Vel K) (a : K) (hdt : c.dt ≠ 0) (hn : Spec.Truncated (c.tfinal / c.dt) n)
    (hnu : n < uMod) (hp : 1 ≤ printStep c n ∨ n = 0) :
    ∃ m o, mainSerial c v (constInit a) = .ok (m, o) ∧ Ready m c.nx c.ny (posX c) (posY c) (constFields a) ∧
      Written c v (fun _ => constFields a) n (printStep c n) o := by
  obtain ⟨m, o, e, r, w⟩ := C54_serial hc v (constInit a) hdt hn hnu hp
  rw [funext (fieldsAt_const hc v a (departsSerial c v))] at r w
  exact ⟨m, o, e, r, w⟩

/-- **C69**, CUDA program without a node that departs outside along both axes; `splice` must give back a number spliced with
itself. -/
theorem C69_cuda {tile : ℕ} (hc : CudaValid tile c) {splice : K → K → K} (hs : ∀ a b c, splice a (splice b c) = splice a c)
    (hs' : ∀ a, splice a a = a) (v : Vel K) (a : K) (hdt : c.dt ≠ 0) (hn : Spec.Truncated (c.tfinal / c.dt) n)
    (hnu : n < uMod) (hp : 1 ≤ printStep c n ∨ n = 0)
    (h4 : ∀ t < n, ∀ i < c.ny, ∀ j < c.nx, departClass c v t i j ≠ 4) :
    ∃ s o, mainCuda tile splice c v (constInit a) (constInit a) = .ok (s, o) ∧ CudaReady s.dev c (constFields a) ∧
      Written c v (fun _ => constFields a) n (printStep c n) o := by
  obtain ⟨s, o, e, r, w⟩ := C64_frames_partial hc hs v (constInit a) (constInit a) hdt hn hnu hp h4
  rw [cudaFieldsAt_const hc] at r
  refine ⟨s, o, e, r, ?_⟩
  convert w using 2
  rename_i t
  split_ifs
  · rfl
  · rw [cudaFieldsAt_const hc]
    simp only [shown, constFields, constInit, hs', ite_self]

end runs

/-! ## C70: rest -/

/-- The flow with constant velocity `(u, w)`. -/
def uniform (u w : K) : Vel K :=
  ⟨fun _ _ _ => u, fun _ _ _ => w, fun _ _ _ => 0, fun _ _ _ => 0, fun _ _ _ => 0, fun _ _ _ => 0⟩

theorem departAt_uniform (u w : K) (rk3 : Bool) (t : ℕ) (dt x y : K) :
    Spec.departAt (uniform u w).velx (uniform u w).vely rk3 t dt x y = (x - dt * u, y - dt * w) := by
  simp only [Spec.departAt, Spec.departRK3, Spec.departEuler, uniform]
  split_ifs
  · ext <;> simp only <;> field_simp <;> ring
  · rfl

theorem transport_uniform (u w : K) (s : Schemes) (t : ℕ) (dt x y xa ya px py rx ry : K)
    (h : s.psischeme = "Heuns" ∨ s.psischeme = "SuperConsistent" ∨ (px = rx ∧ py = ry)) :
    transportSpec (uniform u w) s t dt x y xa ya px py rx ry = (rx, ry) := by
  simp only [transportSpec]
  split_ifs with h1 h2
  · simp [heunCoded, heunSpec, heunSlopes, Spec.heunGradient, uniform]
  · simp only [Spec.gradientAt, jacobian, uniform]
    split_ifs <;> simp [Spec.Mat2.transposeMul, Spec.Mat2.idSub, Spec.Mat2.mul, Spec.Mat2.add, Spec.Mat2.smul]
  · rcases h with h | h | ⟨rfl, rfl⟩
    · exact absurd h h1
    · exact absurd h h2
    · rfl

theorem cellAlong_node {xs : ℕ → K} {n : ℕ} (inc : ∀ i j, i < j → j < n → xs i < xs j) {j : ℕ} (hj : j < n) (hn : 2 ≤ n) :
    Spec.cellAlong xs n (xs j) = j - 1 := by
  rcases Nat.eq_zero_or_pos j with rfl | h0
  · simp [Spec.cellAlong]
  have h1 := inc 0 j h0 hj
  by_cases hl : j = n - 1
  · rw [Spec.cellAlong, if_neg (not_le.2 h1), if_neg (by rw [hl]; exact lt_irrefl _)]
    omega
  · refine cellAlong_inside inc ⟨by omega, inc _ _ (by omega) hj, le_of_eq ?_⟩ h1 (inc _ _ (by omega) (by omega))
    congr 1; omega

/-- The interpolant takes the nodal data at the nodes. -/
theorem cellBicubic_node (F : Spec.Fields K) {xs ys : ℕ → K} {dx dy : K} (hx : dx ≠ 0) (hy : dy ≠ 0)
    (ex : ∀ k, xs (k + 1) = xs k + dx) (ey : ∀ k, ys (k + 1) = ys k + dy) (i j : ℕ) :
    Spec.cellBicubic F.phi F.psix F.psiy F.psixy xs ys dx dy (i - 1) (j - 1) (xs j) (ys i) = F.phi i j ∧
    Spec.cellBicubicX F.phi F.psix F.psiy F.psixy xs ys dx dy (i - 1) (j - 1) (xs j) (ys i) = F.psix i j ∧
    Spec.cellBicubicY F.phi F.psix F.psiy F.psixy xs ys dx dy (i - 1) (j - 1) (xs j) (ys i) = F.psiy i j := by
  have e : ∀ {f : ℕ → K} {d : K}, d ≠ 0 → (∀ k, f (k + 1) = f k + d) → ∀ k, (f (k + 1) - f k) / d = 1 := fun hd h k => by
    rw [h]; field_simp; ring
  rcases i with _ | i <;> rcases j with _ | j <;>
    simp [Spec.cellBicubic, Spec.cellBicubicX, Spec.cellBicubicY, Spec.bicubicWith, Spec.hVal, Spec.hSlope, Spec.hVal', Spec.hSlope',
      Fin.sum_univ_two, e hx ex, e hy ey, hx, hy] <;> norm_num [hx, hy]

theorem nodeAt_rest {c : Setting K} (hc : Valid c) (s : Schemes) (t : ℕ) (F : Spec.Fields K) {i j : ℕ} (hi : i < c.ny)
    (hj : j < c.nx) :
    nodeAt (uniform 0 0) s t c.dt ((c.xlim2 - c.xlim1) / (c.nx - 1)) ((c.ylim2 - c.ylim1) / (c.ny - 1)) (posX c) (posY c)
      c.nx c.ny F (posX c j, posY c i) i j = (F.phi i j, F.psix i j, F.psiy i j) := by
  obtain ⟨b0, b1, b2⟩ := cellBicubic_node F hc.gapX hc.gapY hc.stepX hc.stepY i j
  have hx := cellAlong_node hc.incX hj (by have := hc.nx3; omega)
  have hy := cellAlong_node hc.incY hi (by have := hc.ny3; omega)
  have hcl := classOf_cases (posX c) (posY c) c.nx c.ny (posX c j, posY c i)
  simp only [nodeAt, nodeSpec, Spec.updateNode, cellX, cellY, hx, hy]
  rcases hcl with h | h | h | h <;> simp only [h, show ¬ (1 : ℕ) = 4 by decide, show ¬ (2 : ℕ) = 4 by decide,
    show ¬ (3 : ℕ) = 4 by decide, if_false, b0, b1, b2]
  · rw [transport_uniform _ _ _ _ _ _ _ _ _ _ _ _ _ (.inr (.inr ⟨rfl, rfl⟩))]
  · simp [edgeX, Spec.heunEdge, uniform]
  · simp [edgeY, Spec.heunEdge, uniform]
  · simp [uniform]

theorem fieldsAt_rest {c : Setting K} (hc : Valid c) (f : Initial K) (t : ℕ) :
    let F := fieldsAt c (uniform 0 0) f (departs c (uniform 0 0)) t
    let F₀ := initialFields f (posX c) (posY c)
    ∀ i < c.ny, ∀ j < c.nx, F.phi i j = F₀.phi i j ∧ F.psix i j = F₀.psix i j ∧ F.psiy i j = F₀.psiy i j ∧
      (1 ≤ t → F.psixy i j = Spec.mixedStencil F₀.psix F₀.psiy c.nx c.ny ((c.xlim2 - c.xlim1) / (c.nx - 1))
        ((c.ylim2 - c.ylim1) / (c.ny - 1)) i j) := by
  induction t with
  | zero => exact fun i _ j _ => ⟨rfl, rfl, rfl, fun h => absurd h (by decide)⟩
  | succ t ih =>
    intro F F₀
    have hN : ∀ i < c.ny, ∀ j < c.nx, F.phi i j = F₀.phi i j ∧ F.psix i j = F₀.psix i j ∧ F.psiy i j = F₀.psiy i j := by
      intro i hi j hj
      have hd : departs c (uniform 0 0) t i j = (posX c j, posY c i) := by
        rw [departs, departAt_uniform]; simp
      have h := nodeAt_rest hc c.schemes t (fieldsAt c (uniform 0 0) f (departs c (uniform 0 0)) t) hi hj
      rw [← hd] at h
      obtain ⟨h1, h2, h3, -⟩ := ih i hi j hj
      refine ⟨?_, ?_, ?_⟩
      · exact (congrArg Prod.fst h).trans h1
      · exact (congrArg (fun p => p.2.1) h).trans h2
      · exact (congrArg (fun p => p.2.2) h).trans h3
    intro i hi j hj
    obtain ⟨h1, h2, h3⟩ := hN i hi j hj
    refine ⟨h1, h2, h3, fun _ => ?_⟩
    have hx3 := hc.nx3
    have hy3 := hc.ny3
    exact mixedStencil_congr (nx := c.nx) (ny := c.ny) (by omega) (by omega) (fun i hi j hj => (hN i hi j hj).2.1)
      (fun i hi j hj => (hN i hi j hj).2.2) _ _ hi hj

section runs
variable [FloorRing K] {c : Setting K} {n : ℕ}

/-- **C70**: at rest (velocity zero) the level set and its gradient stay as they are at every node, for every number of steps,
and the mixed derivative becomes that of the stencil: OpenMP program run by one thread. -/
theorem C70_openmp (hc : Valid c) (f : Initial K) (hdt : c.dt ≠ 0) (hn : Spec.Truncated (c.tfinal / c.dt) n)
    (hnu : n < uMod) (hp : 1 ≤ printStep c n ∨ n = 0) {argc : ℕ} (ha : 2 ≤ argc) :
    ∃ (m : Mem (Val K)) (o : Out K) (F : ℕ → Spec.Fields K), mainOpenMP argc c (uniform 0 0) f = .ok (m, o) ∧
      Ready m c.nx c.ny (posX c) (posY c) (F n) ∧ Written c (uniform 0 0) F n (printStep c n) o ∧
      ∀ t ≤ n, ∀ i < c.ny, ∀ j < c.nx, (F t).phi i j = f.phi (posX c j) (posY c i) ∧
        (F t).psix i j = f.psix (posX c j) (posY c i) ∧ (F t).psiy i j = f.psiy (posX c j) (posY c i) ∧
        (F t).psixy i j = if t = 0 then f.psixy (posX c j) (posY c i) else
          Spec.mixedStencil (fun i j => f.psix (posX c j) (posY c i)) (fun i j => f.psiy (posX c j) (posY c i)) c.nx c.ny
            ((c.xlim2 - c.xlim1) / (c.nx - 1)) ((c.ylim2 - c.ylim1) / (c.ny - 1)) i j := by
  obtain ⟨m, o, e, r, w⟩ := C54_openmp hc (uniform 0 0) f hdt hn hnu hp ha
  refine ⟨m, o, _, e, r, w, fun t _ i hi j hj => ?_⟩
  obtain ⟨h1, h2, h3, h4⟩ := fieldsAt_rest hc f t i hi j hj
  refine ⟨h1, h2, h3, ?_⟩
  split_ifs with h
  · subst h; rfl
  · exact h4 (by omega)

end runs

/-! ## C71: uniform flow -/

theorem nodeAt_affine (u w : K) (s : Schemes) (t : ℕ) (dt : K) {dx dy : K} {xs ys : ℕ → K} (hx : dx ≠ 0) (hy : dy ≠ 0)
    (ex : ∀ k, xs (k + 1) = xs k + dx) (ey : ∀ k, ys (k + 1) = ys k + dy) (nx ny : ℕ) (a b c : K) (i j : ℕ) :
    nodeAt (uniform u w) s t dt dx dy xs ys nx ny (Spec.affine a b c xs ys) (xs j - dt * u, ys i - dt * w) i j =
      (a + b * (xs j - dt * u) + c * (ys i - dt * w), b, c) := by
  have h := fun r q x y => (cellBicubic_affine a b c hx hy ex ey r q x y).1
  have h1 := fun r q x y => (cellBicubic_affine a b c hx hy ex ey r q x y).2.1
  have h2 := fun r q x y => (cellBicubic_affine a b c hx hy ex ey r q x y).2.2
  have e : (Spec.affine a b c xs ys).phi i j = a + b * xs j + c * ys i := rfl
  have e1 : (Spec.affine a b c xs ys).psix i j = b := rfl
  have e2 : (Spec.affine a b c xs ys).psiy i j = c := rfl
  have e3 : (Spec.affine a b c xs ys).psixy i j = 0 := rfl
  simp only [nodeAt, nodeSpec, Spec.updateNode, h, h1, h2, e, e1, e2, e3, edgeX, edgeY, Spec.heunEdge]
  rcases classOf_cases xs ys nx ny (xs j - dt * u, ys i - dt * w) with hc | hc | hc | hc <;> simp only [hc]
  · rw [transport_uniform _ _ _ _ _ _ _ _ _ _ _ _ _ (.inr (.inr ⟨rfl, rfl⟩))]
  · ext <;> simp only [uniform] <;> ring
  · ext <;> simp only [uniform] <;> ring
  · ext <;> simp only [uniform] <;> ring

theorem fieldsAt_affine {c : Setting K} (hc : Valid c) (u w a b d : K) (t : ℕ) :
    fieldsAt c (uniform u w) ⟨fun x y => a + b * x + d * y, fun _ _ => b, fun _ _ => d, fun _ _ => 0⟩ (departs c (uniform u w)) t =
      Spec.affine (a - t * c.dt * (b * u + d * w)) b d (posX c) (posY c) := by
  induction t with
  | zero => simp [fieldsAt, initialFields, Spec.affine]
  | succ t ih =>
    have hd : ∀ i j, departs c (uniform u w) t i j = (posX c j - c.dt * u, posY c i - c.dt * w) := fun i j => departAt_uniform ..
    rw [fieldsAt, ih]
    simp only [advance, hd, nodeAt_affine u w _ t _ hc.gapX hc.gapY hc.stepX hc.stepY]
    simp only [Spec.affine, Spec.Fields.mk.injEq, true_and]
    refine ⟨?_, ?_⟩
    · funext i j; push_cast; ring
    · funext i j; exact mixedStencil_const ..

section runs
variable [FloorRing K] {c : Setting K} {n : ℕ}

/-- **C71**: in a uniform flow a level set `a + b x + d y` is transported exactly, at every node of the grid, boundary included,
for every time step, scheme and number of steps: after `t` steps the fields are those of
`a + b (x - t dt u) + d (y - t dt w)`.  OpenMP program run by one thread. -/
theorem C71_affine (hc : Valid c) (u w a b d : K) (hdt : c.dt ≠ 0) (hn : Spec.Truncated (c.tfinal / c.dt) n)
    (hnu : n < uMod) (hp : 1 ≤ printStep c n ∨ n = 0) {argc : ℕ} (ha : 2 ≤ argc) :
    ∃ (m : Mem (Val K)) (o : Out K) (F : ℕ → Spec.Fields K),
      mainOpenMP argc c (uniform u w) ⟨fun x y => a + b * x + d * y, fun _ _ => b, fun _ _ => d, fun _ _ => 0⟩ = .ok (m, o) ∧
      Ready m c.nx c.ny (posX c) (posY c) (F n) ∧ Written c (uniform u w) F n (printStep c n) o ∧
      ∀ t i j, (F t).phi i j = a + b * (posX c j - t * c.dt * u) + d * (posY c i - t * c.dt * w) ∧
        (F t).psix i j = b ∧ (F t).psiy i j = d ∧ (F t).psixy i j = 0 := by
  obtain ⟨m, o, e, r, w'⟩ := C54_openmp hc (uniform u w)
    ⟨fun x y => a + b * x + d * y, fun _ _ => b, fun _ _ => d, fun _ _ => 0⟩ hdt hn hnu hp ha
  refine ⟨m, o, _, e, r, w', fun t i j => ?_⟩
  rw [fieldsAt_affine hc]
  refine ⟨?_, rfl, rfl, rfl⟩
  simp only [Spec.affine]
  ring

end runs

/-- **C71**, one step on a polynomial `P` of degree at most three in `x` and in `y`: from the nodal data of `P`, a step in a
uniform flow gives at every node that departs inside the domain the value and the gradient of the translated polynomial
`P(x - dt u, y - dt w)`. -/
theorem C71_poly {c : Setting K} (hc : Valid c) (u w : K) (q : ℕ → ℕ → K) {t : ℕ} (ht : t + 1 < uMod) {m : Mem (Val K)}
    (hs : c.schemes.psischeme = "Heuns" ∨ c.schemes.psischeme = "SuperConsistent")
    (h : Ready m c.nx c.ny (posX c) (posY c) (Spec.polyFields q (posX c) (posY c))) :
    ∃ (m' : Mem (Val K)) (G : Spec.Fields K), stepOpenMP c (uniform u w) c.dx c.dy t m = .ok m' ∧
      Ready m' c.nx c.ny (posX c) (posY c) G ∧
      ∀ i < c.ny, ∀ j < c.nx, c.xlim1 < posX c j - c.dt * u → posX c j - c.dt * u < c.xlim2 →
        c.ylim1 < posY c i - c.dt * w → posY c i - c.dt * w < c.ylim2 →
        G.phi i j = Spec.poly q (posX c j - c.dt * u) (posY c i - c.dt * w) ∧
        G.psix i j = Spec.polyX q (posX c j - c.dt * u) (posY c i - c.dt * w) ∧
        G.psiy i j = Spec.polyY q (posX c j - c.dt * u) (posY c i - c.dt * w) := by
  obtain ⟨m', e, r⟩ := C60_step hc (uniform u w) ht h
  refine ⟨m', _, e, r, fun i hi j hj h1 h2 h3 h4 => ?_⟩
  have hd : departs c (uniform u w) t i j = (posX c j - c.dt * u, posY c i - c.dt * w) := departAt_uniform ..
  have hcl : Spec.classOf (posX c) (posY c) c.nx c.ny (posX c j - c.dt * u, posY c i - c.dt * w) = 1 := by
    rw [Spec.classOf, hc.firstX, hc.lastX, hc.firstY, hc.lastY, if_pos ⟨h1, h2⟩, if_pos ⟨h3, h4⟩]
  have hg : c.dx ≠ 0 := hc.dx_pos.ne'
  have hg' : c.dy ≠ 0 := hc.dy_pos.ne'
  have ex : ∀ k, posX c (k + 1) = posX c k + c.dx := by rw [hc.dx_eq]; exact hc.stepX
  have ey : ∀ k, posY c (k + 1) = posY c k + c.dy := by rw [hc.dy_eq]; exact hc.stepY
  have hN : nodeAt (uniform u w) c.schemes t c.dt c.dx c.dy (posX c) (posY c) c.nx c.ny (Spec.polyFields q (posX c) (posY c))
      (departs c (uniform u w) t i j) i j = (Spec.poly q (posX c j - c.dt * u) (posY c i - c.dt * w),
        Spec.polyX q (posX c j - c.dt * u) (posY c i - c.dt * w), Spec.polyY q (posX c j - c.dt * u) (posY c i - c.dt * w)) := by
    have hb := fun r s => cellBicubic_poly q hg hg' (ex s) (ey r) (posX c j - c.dt * u) (posY c i - c.dt * w)
    rw [hd]
    simp only [nodeAt, nodeSpec, Spec.updateNode, hcl, (hb _ _).1, (hb _ _).2.1, (hb _ _).2.2]
    rw [transport_uniform _ _ _ _ _ _ _ _ _ _ _ _ _ (hs.elim .inl fun h => .inr (.inl h))]
  exact ⟨congrArg Prod.fst hN, congrArg (fun p => p.2.1) hN, congrArg (fun p => p.2.2) hN⟩

/-- **C71** for the CUDA program: in no uniform flow, rest included, is a run with at least one step defined, because some
corner node departs outside along both axes. -/
theorem C71_cuda_undefined [FloorRing K] {tile : ℕ} {c : Setting K} (hc : CudaValid tile c) {splice : K → K → K} (u w : K)
    (f g : Initial K) (hdt : 0 < c.dt) {n : ℕ} (hn : Spec.Truncated (c.tfinal / c.dt) n) (hnu : n < uMod) (h1 : 1 ≤ n)
    (r : Machine K × Out K) : mainCuda tile splice c (uniform u w) f g ≠ .ok r := by
  have hv : Valid c := hc.toValid
  have h3 := hv.nx3
  have h3' := hv.ny3
  have hX : ∃ j < c.nx, ¬ (posX c 0 < posX c j - c.dt * u ∧ posX c j - c.dt * u < posX c (c.nx - 1)) := by
    rcases le_total 0 u with hu | hu
    · exact ⟨0, by omega, fun h => absurd h.1 (not_lt.2 (sub_le_self _ (mul_nonneg hdt.le hu)))⟩
    · refine ⟨c.nx - 1, by omega, fun h => absurd h.2 (not_lt.2 ?_)⟩
      have := mul_nonpos_of_nonneg_of_nonpos hdt.le hu
      linarith
  have hY : ∃ i < c.ny, ¬ (posY c 0 < posY c i - c.dt * w ∧ posY c i - c.dt * w < posY c (c.ny - 1)) := by
    rcases le_total 0 w with hu | hu
    · exact ⟨0, by omega, fun h => absurd h.1 (not_lt.2 (sub_le_self _ (mul_nonneg hdt.le hu)))⟩
    · refine ⟨c.ny - 1, by omega, fun h => absurd h.2 (not_lt.2 ?_)⟩
      have := mul_nonpos_of_nonneg_of_nonpos hdt.le hu
      linarith
  obtain ⟨j, hj, hx⟩ := hX
  obtain ⟨i, hi, hy⟩ := hY
  refine C63_main_undefined hc (uniform u w) f g hdt.ne' hn hnu h1 hi hj ?_ r
  rw [departClass, departsCuda, departAt_uniform, Spec.classOf, if_neg hx, if_neg hy]

/-! ## The serial program -/

/-- Three by three nodes around the origin, one step. -/
def restC : Setting ℚ := ⟨-1, 1, 3, -1, 1, 3, 1, 1, 1, 1, ⟨"Heuns", "RK3"⟩⟩

theorem restC_valid : Valid restC := ⟨by decide, by decide, by decide, by decide, by norm_num [restC], by norm_num [restC]⟩
theorem restC_count : Spec.Truncated (restC.tfinal / restC.dt) 1 ∧ restC.dt ≠ 0 ∧ 1 ≤ printStep restC 1 := by
  refine ⟨⟨?_, ?_⟩, ?_, by decide⟩ <;> norm_num [restC]

/-- C70, C71 are false of the serial program: at rest, from the level set `x`, one step changes the value at the last node from
one to zero, because the last row and column depart from the origin. -/
theorem C70_serial_false : ∃ m o, mainSerial restC (uniform 0 0) ⟨fun x _ => x, fun _ _ => 1, fun _ _ => 0, fun _ _ => 0⟩ = .ok (m, o) ∧
    posX restC 2 = 1 ∧ m (.d .mphi 2 2) = .val 0 := by
  obtain ⟨m, o, e, r, -⟩ := C54_serial restC_valid (uniform 0 0) ⟨fun x _ => x, fun _ _ => 1, fun _ _ => 0, fun _ _ => 0⟩
    restC_count.2.1 restC_count.1 (by decide) (.inl restC_count.2.2)
  refine ⟨m, o, e, by norm_num [posX, restC], ?_⟩
  rw [r.phi 2 (by decide) 2 (by decide)]
  congr 1
  decide +kernel

/-! ## Examples -/

example : ∃ m o, mainOpenMP 2 runC runV (constInit 7) = .ok (m, o) ∧
    Ready m runC.nx runC.ny (posX runC) (posY runC) (constFields 7) ∧ Written runC runV (fun _ => constFields 7) 6 2 o :=
  C69_openmp ⟨by decide, by decide, by decide, by decide, by norm_num [runC], by norm_num [runC]⟩ runV 7 (by norm_num [runC])
    ⟨by norm_num [runC], by norm_num [runC]⟩ (by decide) (.inl (by decide)) le_rfl

example := C68_openmp ⟨by decide, by decide, by decide, by decide, by norm_num [runC], by norm_num [runC]⟩ runV
  ⟨fun x _ => x ^ 2, fun x _ => 2 * x, fun _ _ => 0, fun _ _ => 0⟩ ⟨fun x y => x * y, fun _ y => y, fun x _ => x, fun _ _ => 1⟩ (-3)
  (n := 6) (c := runC) (by norm_num [runC]) ⟨by norm_num [runC], by norm_num [runC]⟩ (by decide) (.inl (by decide)) (argc := 2) le_rfl

/-- Four by four nodes with no node departing outside along both axes. -/
example {splice : ℚ → ℚ → ℚ} (hs : ∀ a b c, splice a (splice b c) = splice a c) (hs' : ∀ a, splice a a = a) :
    ∃ s o, mainCuda 2 splice cudaC cudaV (constInit 7) (constInit 7) = .ok (s, o) ∧ CudaReady s.dev cudaC (constFields 7) ∧
      Written cudaC cudaV (fun _ => constFields 7) 1 (printStep cudaC 1) o :=
  C69_cuda cudaC_valid hs hs' cudaV 7 cudaC_count.2.1 cudaC_count.1 (by decide) (.inl cudaC_count.2.2) cudaC_inside

example := C70_openmp restC_valid ⟨fun x y => x * y, fun _ y => y, fun x _ => x, fun _ _ => 1⟩ restC_count.2.1 restC_count.1
  (by decide) (.inl restC_count.2.2) (argc := 2) le_rfl

example := C71_affine restC_valid 3 (-1) 2 5 7 restC_count.2.1 restC_count.1 (by decide) (.inl restC_count.2.2) (argc := 2) le_rfl

/-- The polynomial `x³ y² - 2 x y³ + 1`. -/
def demoPoly : ℕ → ℕ → ℚ
  | 3, 2 => 1
  | 1, 3 => -2
  | 0, 0 => 1
  | _, _ => 0

example : ∃ m, setup runC ⟨Spec.poly demoPoly, Spec.polyX demoPoly, Spec.polyY demoPoly, Spec.polyXY demoPoly⟩ = .ok m ∧
    Ready m runC.nx runC.ny (posX runC) (posY runC) (Spec.polyFields demoPoly (posX runC) (posY runC)) :=
  setup_ready ⟨by decide, by decide, by decide, by decide, by norm_num [runC], by norm_num [runC]⟩ _

/-- Nodes of `runC` that depart inside the domain in the flow `(1/10, -1/5)`. -/
example : runC.xlim1 < posX runC 1 - runC.dt * (1 / 10) ∧ posX runC 1 - runC.dt * (1 / 10) < runC.xlim2 ∧
    runC.ylim1 < posY runC 2 - runC.dt * (-1 / 5) ∧ posY runC 2 - runC.dt * (-1 / 5) < runC.ylim2 := by
  norm_num [runC, posX, posY]

/-- Instance of `C69_serial`. -/
example : ∃ m o, mainSerial runC runV (constInit 7) = .ok (m, o) ∧
    Ready m runC.nx runC.ny (posX runC) (posY runC) (constFields 7) ∧ Written runC runV (fun _ => constFields 7) 6 2 o :=
  C69_serial ⟨by decide, by decide, by decide, by decide, by norm_num [runC], by norm_num [runC]⟩ runV 7 (by norm_num [runC])
    ⟨by norm_num [runC], by norm_num [runC]⟩ (by decide) (.inl (by decide))

/-- Instance of `C68_serial`. -/
example := C68_serial ⟨by decide, by decide, by decide, by decide, by norm_num [runC], by norm_num [runC]⟩ runV
  ⟨fun x _ => x ^ 2, fun x _ => 2 * x, fun _ _ => 0, fun _ _ => 0⟩ ⟨fun x y => x * y, fun _ y => y, fun x _ => x, fun _ _ => 1⟩ (-3)
  (n := 6) (c := runC) (by norm_num [runC]) ⟨by norm_num [runC], by norm_num [runC]⟩ (by decide) (.inl (by decide))

/-- Instance of `C68_cuda`. -/
example {splice : ℚ → ℚ → ℚ} (hs : ∀ a b c, splice a (splice b c) = splice a c) :=
  C68_cuda cudaC_valid hs cudaV cudaI ⟨fun x _ => x ^ 2, fun x _ => 2 * x, fun _ _ => 0, fun _ _ => 0⟩ cudaI (-3) cudaC_count.2.1
    cudaC_count.1 (by decide) (.inl cudaC_count.2.2) cudaC_inside

/-- Instance of `C71_poly`: the first step of `runC` in the flow `(1/10, -1/5)` takes `demoPoly` at the node (2, 1) to its value
at the departure point. -/
example : ∃ (m m' : Mem (Val ℚ)) (G : Spec.Fields ℚ), stepOpenMP runC (uniform (1 / 10) (-1 / 5)) runC.dx runC.dy 0 m = .ok m' ∧
    Ready m' 3 4 (posX runC) (posY runC) G ∧ G.phi 2 1 = Spec.poly demoPoly (9 / 20) (21 / 10) := by
  have hv : Valid runC := ⟨by decide, by decide, by decide, by decide, by norm_num [runC], by norm_num [runC]⟩
  obtain ⟨m, -, h⟩ := setup_ready hv ⟨Spec.poly demoPoly, Spec.polyX demoPoly, Spec.polyY demoPoly, Spec.polyXY demoPoly⟩
  obtain ⟨m', G, e, r, k⟩ := C71_poly hv (1 / 10) (-1 / 5) demoPoly (t := 0) (by decide) (.inr rfl) h
  refine ⟨m, m', G, e, r, ?_⟩
  rw [(k 2 (by decide) 1 (by decide) (by norm_num [runC, posX]) (by norm_num [runC, posX]) (by norm_num [runC, posY])
    (by norm_num [runC, posY])).1]
  norm_num [runC, posX, posY]

/-- Instance of `C71_cuda_undefined`. -/
example (splice : ℚ → ℚ → ℚ) (r : Machine ℚ × Out ℚ) : mainCuda 2 splice cudaC (uniform 3 (-1)) cudaI cudaI ≠ .ok r :=
  C71_cuda_undefined cudaC_valid 3 (-1) cudaI cudaI (by norm_num [cudaC]) cudaC_count.1 (by decide) (by decide) r

end Gals.Props
