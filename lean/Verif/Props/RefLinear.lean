import Verif.Spec.RefLinear
import Verif.Props.RefCudaMain
import Verif.Props.RefOldRun
import Verif.Props.RefStencil

/-!
# C68, C69, C70, C71: what the reference programs do to data whose transport is known
-/

set_option linter.unusedSectionVars false
set_option linter.unusedSimpArgs false
set_option linter.unnecessarySeqFocus false

namespace Gals.Props

open Gals Gals.Ref

variable {K : Type} [Field K] [LinearOrder K] [IsStrictOrderedRing K]

/-! ## C68: superposition -/

theorem mixedStencil_combine (k : K) (px py qx qy : ℕ → ℕ → K) (nx ny : ℕ) (dx dy : K) (i j : ℕ) :
    Spec.mixedStencil (fun i j => px i j + k * qx i j) (fun i j => py i j + k * qy i j) nx ny dx dy i j =
    Spec.mixedStencil px py nx ny dx dy i j + k * Spec.mixedStencil qx qy nx ny dx dy i j := by
  simp only [Spec.mixedStencil, Spec.dX, Spec.dY, Spec.eX, Spec.eY]
  split_ifs <;> ring

theorem cudaStencil_combine (k : K) (px py qx qy : ℕ → ℕ → K) (nx ny : ℕ) (dx dy : K) (i j : ℕ) :
    cudaStencil (fun i j => px i j + k * qx i j) (fun i j => py i j + k * qy i j) nx ny dx dy i j =
    cudaStencil px py nx ny dx dy i j + k * cudaStencil qx qy nx ny dx dy i j := by
  simp only [cudaStencil, Spec.mixedStencil, Spec.dX, Spec.dY, Spec.eX, Spec.eY]
  split_ifs <;> ring

theorem bicubicWith_combine (V S V' S' : Fin 2 → K) (k : K) (F G : Spec.Fields K) (dx dy : K) (r c : ℕ) :
    Spec.bicubicWith V S V' S' (Spec.combine k F G).phi (Spec.combine k F G).psix (Spec.combine k F G).psiy
      (Spec.combine k F G).psixy dx dy r c =
    Spec.bicubicWith V S V' S' F.phi F.psix F.psiy F.psixy dx dy r c +
      k * Spec.bicubicWith V S V' S' G.phi G.psix G.psiy G.psixy dx dy r c := by
  simp only [Spec.bicubicWith, Spec.combine, Fin.sum_univ_two]
  ring

theorem transport_combine (v : Vel K) (s : Schemes) (t : ℕ) (dt x y xa ya k px py rx ry px' py' rx' ry' : K) :
    transportSpec v s t dt x y xa ya (px + k * px') (py + k * py') (rx + k * rx') (ry + k * ry') =
      ((transportSpec v s t dt x y xa ya px py rx ry).1 + k * (transportSpec v s t dt x y xa ya px' py' rx' ry').1,
       (transportSpec v s t dt x y xa ya px py rx ry).2 + k * (transportSpec v s t dt x y xa ya px' py' rx' ry').2) := by
  simp only [transportSpec]
  split_ifs
  · simp only [heunCoded, heunSpec, heunSlopes, Spec.heunGradient]
    ext <;> ring
  · simp only [Spec.gradientAt]
    split_ifs <;> simp only [Spec.Mat2.transposeMul] <;> ext <;> ring
  · rfl

theorem edgeX_combine (v : Vel K) (dt x y t0 t1 k px py pxy rx px' py' pxy' rx' : K) :
    edgeX v dt x y t0 t1 (px + k * px') (py + k * py') (pxy + k * pxy') (rx + k * rx') =
      edgeX v dt x y t0 t1 px py pxy rx + k * edgeX v dt x y t0 t1 px' py' pxy' rx' := by
  simp only [edgeX, Spec.heunEdge]
  ring

theorem edgeY_combine (v : Vel K) (dt x y t0 t1 k px py pxy ry px' py' pxy' ry' : K) :
    edgeY v dt x y t0 t1 (px + k * px') (py + k * py') (pxy + k * pxy') (ry + k * ry') =
      edgeY v dt x y t0 t1 px py pxy ry + k * edgeY v dt x y t0 t1 px' py' pxy' ry' := by
  simp only [edgeY, Spec.heunEdge]
  ring

theorem nodeAt_combine (v : Vel K) (s : Schemes) (t : ℕ) (dt dx dy : K) (xs ys : ℕ → K) (nx ny : ℕ) (k : K)
    (F G : Spec.Fields K) (p : K × K) (i j : ℕ) :
    let N := nodeAt v s t dt dx dy xs ys nx ny F p i j
    let N' := nodeAt v s t dt dx dy xs ys nx ny G p i j
    nodeAt v s t dt dx dy xs ys nx ny (Spec.combine k F G) p i j =
      (N.1 + k * N'.1, N.2.1 + k * N'.2.1, N.2.2 + k * N'.2.2) := by
  intro N N'
  simp only [N, N', nodeAt, nodeSpec, Spec.updateNode]
  have ex : (Spec.combine k F G).psix i j = F.psix i j + k * G.psix i j := rfl
  have ey : (Spec.combine k F G).psiy i j = F.psiy i j + k * G.psiy i j := rfl
  have e : (Spec.combine k F G).phi i j = F.phi i j + k * G.phi i j := rfl
  have exy : (Spec.combine k F G).psixy i j = F.psixy i j + k * G.psixy i j := rfl
  split
  · simp only [Spec.cellBicubic, Spec.cellBicubicX, Spec.cellBicubicY, bicubicWith_combine, ex, ey]
    rw [add_div, add_div, mul_div_assoc, mul_div_assoc, transport_combine]
  · simp only [Spec.cellBicubic, Spec.cellBicubicX, Spec.cellBicubicY, bicubicWith_combine, ex, ey, exy]
    rw [add_div, mul_div_assoc, edgeX_combine]
    ext <;> simp only <;> ring
  · simp only [Spec.cellBicubic, Spec.cellBicubicX, Spec.cellBicubicY, bicubicWith_combine, ex, ey, exy]
    rw [add_div, mul_div_assoc, edgeY_combine]
    ext <;> simp only <;> ring
  · ext <;> simp only [e, ex, ey] <;> ring
  · rfl

/-- A step of the CPU versions is linear in the fields, whatever the departure points. -/
theorem advance_combine (v : Vel K) (s : Schemes) (t : ℕ) (dt dx dy : K) (xs ys : ℕ → K) (nx ny : ℕ) (dep : ℕ → ℕ → K × K)
    (k : K) (F G : Spec.Fields K) :
    advance v s t dt dx dy xs ys nx ny dep (Spec.combine k F G) =
      Spec.combine k (advance v s t dt dx dy xs ys nx ny dep F) (advance v s t dt dx dy xs ys nx ny dep G) := by
  simp only [advance, nodeAt_combine]
  simp only [Spec.combine, Spec.Fields.mk.injEq, true_and]
  funext i j
  exact mixedStencil_combine ..

theorem advanceCuda_combine (c : Setting K) (v : Vel K) (t : ℕ) (k : K) (F G : Spec.Fields K) :
    advanceCuda c v t (Spec.combine k F G) = Spec.combine k (advanceCuda c v t F) (advanceCuda c v t G) := by
  simp only [advanceCuda, nodeAt_combine]
  simp only [Spec.combine, Spec.Fields.mk.injEq, true_and]
  funext i j
  exact cudaStencil_combine ..

/-- Initial functions `f + k g`. -/
def combineInit (k : K) (f g : Initial K) : Initial K :=
  ⟨fun x y => f.phi x y + k * g.phi x y, fun x y => f.psix x y + k * g.psix x y, fun x y => f.psiy x y + k * g.psiy x y,
    fun x y => f.psixy x y + k * g.psixy x y⟩

theorem fieldsAt_combine (c : Setting K) (v : Vel K) (k : K) (f g : Initial K) (dep : ℕ → ℕ → ℕ → K × K) (t : ℕ) :
    fieldsAt c v (combineInit k f g) dep t = Spec.combine k (fieldsAt c v f dep t) (fieldsAt c v g dep t) := by
  induction t with
  | zero => rfl
  | succ t ih => rw [fieldsAt, ih, advance_combine]; rfl

theorem cudaFieldsAt_combine (c : Setting K) (v : Vel K) (k : K) (f g : Initial K) (t : ℕ) :
    cudaFieldsAt c v (combineInit k f g) t = Spec.combine k (cudaFieldsAt c v f t) (cudaFieldsAt c v g t) := by
  induction t with
  | zero => rfl
  | succ t ih => rw [cudaFieldsAt, ih, advanceCuda_combine]; rfl

section runs
variable [FloorRing K] {c : Setting K} {n : ℕ}

/-- **C68**, OpenMP program run by one thread: the run from `f + k g` ends with the sum of the fields of the runs from `f` and
`g`, and writes the sums of what those write. -/
theorem C68_openmp (hc : Valid c) (v : Vel K) (f g : Initial K) (k : K) (hdt : c.dt ≠ 0)
    (hn : Spec.Truncated (c.tfinal / c.dt) n) (hnu : n < uMod) (hp : 1 ≤ printStep c n ∨ n = 0) {argc : ℕ} (ha : 2 ≤ argc) :
    ∃ (m₁ m₂ m : Mem (Val K)) (o₁ o₂ o : Out K) (F G : ℕ → Spec.Fields K),
      mainOpenMP argc c v f = .ok (m₁, o₁) ∧ mainOpenMP argc c v g = .ok (m₂, o₂) ∧
      mainOpenMP argc c v (combineInit k f g) = .ok (m, o) ∧
      Ready m₁ c.nx c.ny (posX c) (posY c) (F n) ∧ Written c v F n (printStep c n) o₁ ∧
      Ready m₂ c.nx c.ny (posX c) (posY c) (G n) ∧ Written c v G n (printStep c n) o₂ ∧
      Ready m c.nx c.ny (posX c) (posY c) (Spec.combine k (F n) (G n)) ∧
      Written c v (fun t => Spec.combine k (F t) (G t)) n (printStep c n) o := by
  obtain ⟨m₁, o₁, e₁, r₁, w₁⟩ := C54_openmp hc v f hdt hn hnu hp ha
  obtain ⟨m₂, o₂, e₂, r₂, w₂⟩ := C54_openmp hc v g hdt hn hnu hp ha
  obtain ⟨m, o, e, r, w⟩ := C54_openmp hc v (combineInit k f g) hdt hn hnu hp ha
  have h := funext (fieldsAt_combine c v k f g (departs c v))
  rw [h] at r w
  exact ⟨m₁, m₂, m, o₁, o₂, o, _, _, e₁, e₂, e, r₁, w₁, r₂, w₂, r, w⟩

/-- **C68**, serial program. -/
theorem C68_serial (hc : Valid c) (v : Vel K) (f g : Initial K) (k : K) (hdt : c.dt ≠ 0)
    (hn : Spec.Truncated (c.tfinal / c.dt) n) (hnu : n < uMod) (hp : 1 ≤ printStep c n ∨ n = 0) :
    ∃ (m₁ m₂ m : Mem (Val K)) (o₁ o₂ o : Out K) (F G : ℕ → Spec.Fields K),
      mainSerial c v f = .ok (m₁, o₁) ∧ mainSerial c v g = .ok (m₂, o₂) ∧ mainSerial c v (combineInit k f g) = .ok (m, o) ∧
      Ready m₁ c.nx c.ny (posX c) (posY c) (F n) ∧ Written c v F n (printStep c n) o₁ ∧
      Ready m₂ c.nx c.ny (posX c) (posY c) (G n) ∧ Written c v G n (printStep c n) o₂ ∧
      Ready m c.nx c.ny (posX c) (posY c) (Spec.combine k (F n) (G n)) ∧
      Written c v (fun t => Spec.combine k (F t) (G t)) n (printStep c n) o := by
  obtain ⟨m₁, o₁, e₁, r₁, w₁⟩ := C54_serial hc v f hdt hn hnu hp
  obtain ⟨m₂, o₂, e₂, r₂, w₂⟩ := C54_serial hc v g hdt hn hnu hp
  obtain ⟨m, o, e, r, w⟩ := C54_serial hc v (combineInit k f g) hdt hn hnu hp
  have h := funext (fieldsAt_combine c v k f g (departsSerial c v))
  rw [h] at r w
  exact ⟨m₁, m₂, m, o₁, o₂, o, _, _, e₁, e₂, e, r₁, w₁, r₂, w₂, r, w⟩

/-- **C68**, CUDA program: the fields on the device, whatever the host starts from. -/
theorem C68_cuda {tile : ℕ} (hc : CudaValid tile c) {splice : K → K → K} (hs : ∀ a b c, splice a (splice b c) = splice a c)
    (v : Vel K) (h f g : Initial K) (k : K) (hdt : c.dt ≠ 0) (hn : Spec.Truncated (c.tfinal / c.dt) n) (hnu : n < uMod)
    (hp : 1 ≤ printStep c n ∨ n = 0) (h4 : ∀ t < n, ∀ i < c.ny, ∀ j < c.nx, departClass c v t i j ≠ 4) :
    ∃ (s₁ s₂ s : Machine K) (o₁ o₂ o : Out K) (F G : Spec.Fields K),
      mainCuda tile splice c v h f = .ok (s₁, o₁) ∧ mainCuda tile splice c v h g = .ok (s₂, o₂) ∧
      mainCuda tile splice c v h (combineInit k f g) = .ok (s, o) ∧
      CudaReady s₁.dev c F ∧ CudaReady s₂.dev c G ∧ CudaReady s.dev c (Spec.combine k F G) := by
  obtain ⟨s₁, o₁, e₁, r₁, -⟩ := C64_frames_partial hc hs v h f hdt hn hnu hp h4
  obtain ⟨s₂, o₂, e₂, r₂, -⟩ := C64_frames_partial hc hs v h g hdt hn hnu hp h4
  obtain ⟨s, o, e, r, -⟩ := C64_frames_partial hc hs v h (combineInit k f g) hdt hn hnu hp h4
  rw [cudaFieldsAt_combine] at r
  exact ⟨s₁, s₂, s, o₁, o₂, o, _, _, e₁, e₂, e, r₁, r₂, r⟩

end runs

/-! ## Interpolation of polynomials -/

/-- Cubic Hermite interpolation of a power of degree at most three. -/
theorem hermite_pow {x0 d : K} (hd : d ≠ 0) (x : K) {a : ℕ} (ha : a < 4) :
    (Spec.hVal 0 ((x - x0) / d) * x0 ^ a + d * Spec.hSlope 0 ((x - x0) / d) * (a * x0 ^ (a - 1)) +
      (Spec.hVal 1 ((x - x0) / d) * (x0 + d) ^ a + d * Spec.hSlope 1 ((x - x0) / d) * (a * (x0 + d) ^ (a - 1))) = x ^ a) ∧
    (Spec.hVal' 0 ((x - x0) / d) * x0 ^ a + d * Spec.hSlope' 0 ((x - x0) / d) * (a * x0 ^ (a - 1)) +
      (Spec.hVal' 1 ((x - x0) / d) * (x0 + d) ^ a + d * Spec.hSlope' 1 ((x - x0) / d) * (a * (x0 + d) ^ (a - 1))) =
        d * (a * x ^ (a - 1))) := by
  obtain ⟨s, rfl⟩ : ∃ s, x = x0 + s * d := ⟨(x - x0) / d, by field_simp; ring⟩
  have e : (x0 + s * d - x0) / d = s := by field_simp; ring
  rw [e]
  have : a = 0 ∨ a = 1 ∨ a = 2 ∨ a = 3 := by omega
  rcases this with rfl | rfl | rfl | rfl <;> constructor <;>
    simp [Spec.hVal, Spec.hSlope, Spec.hVal', Spec.hSlope'] <;> ring

/-- A tensor basis applied to the data of a polynomial. -/
theorem bicubicWith_poly (V S V' S' : Fin 2 → K) (q : ℕ → ℕ → K) (xs ys : ℕ → K) (dx dy : K) (r c : ℕ) {X Y : ℕ → K}
    (hX : ∀ a < 4, V 0 * xs c ^ a + dx * S 0 * (a * xs c ^ (a - 1)) +
      (V 1 * xs (c + 1) ^ a + dx * S 1 * (a * xs (c + 1) ^ (a - 1))) = X a)
    (hY : ∀ b < 4, V' 0 * ys r ^ b + dy * S' 0 * (b * ys r ^ (b - 1)) +
      (V' 1 * ys (r + 1) ^ b + dy * S' 1 * (b * ys (r + 1) ^ (b - 1))) = Y b) :
    Spec.bicubicWith V S V' S' (Spec.polyFields q xs ys).phi (Spec.polyFields q xs ys).psix (Spec.polyFields q xs ys).psiy
      (Spec.polyFields q xs ys).psixy dx dy r c = ∑ a ∈ Finset.range 4, ∑ b ∈ Finset.range 4, q a b * X a * Y b := by
  have : ∑ a ∈ Finset.range 4, ∑ b ∈ Finset.range 4, q a b * X a * Y b = ∑ a ∈ Finset.range 4, ∑ b ∈ Finset.range 4,
      q a b * (V 0 * xs c ^ a + dx * S 0 * (a * xs c ^ (a - 1)) +
        (V 1 * xs (c + 1) ^ a + dx * S 1 * (a * xs (c + 1) ^ (a - 1)))) *
      (V' 0 * ys r ^ b + dy * S' 0 * (b * ys r ^ (b - 1)) +
        (V' 1 * ys (r + 1) ^ b + dy * S' 1 * (b * ys (r + 1) ^ (b - 1)))) :=
    Finset.sum_congr rfl fun a ha => Finset.sum_congr rfl fun b hb => by
      rw [hX a (Finset.mem_range.1 ha), hY b (Finset.mem_range.1 hb)]
  rw [this]
  simp only [Spec.bicubicWith, Spec.polyFields, Spec.poly, Spec.polyX, Spec.polyY, Spec.polyXY, Fin.sum_univ_two, Fin.val_zero,
    Fin.val_one, Nat.add_zero, Finset.mul_sum, ← Finset.sum_add_distrib]
  refine Finset.sum_congr rfl fun a _ => Finset.sum_congr rfl fun b _ => ?_
  ring

/-- The interpolant of the nodal data of a polynomial of degree at most three in each variable is the polynomial. -/
theorem cellBicubic_poly (q : ℕ → ℕ → K) {xs ys : ℕ → K} {dx dy : K} (hx : dx ≠ 0) (hy : dy ≠ 0) {r c : ℕ}
    (ex : xs (c + 1) = xs c + dx) (ey : ys (r + 1) = ys r + dy) (x y : K) :
    let F := Spec.polyFields q xs ys
    Spec.cellBicubic F.phi F.psix F.psiy F.psixy xs ys dx dy r c x y = Spec.poly q x y ∧
    Spec.cellBicubicX F.phi F.psix F.psiy F.psixy xs ys dx dy r c x y = Spec.polyX q x y ∧
    Spec.cellBicubicY F.phi F.psix F.psiy F.psixy xs ys dx dy r c x y = Spec.polyY q x y := by
  intro F
  have h1 := fun a ha => (hermite_pow (x0 := xs c) hx x (a := a) ha).1
  have h2 := fun a ha => (hermite_pow (x0 := xs c) hx x (a := a) ha).2
  have h3 := fun a ha => (hermite_pow (x0 := ys r) hy y (a := a) ha).1
  have h4 := fun a ha => (hermite_pow (x0 := ys r) hy y (a := a) ha).2
  rw [← ex] at h1 h2
  rw [← ey] at h3 h4
  refine ⟨?_, ?_, ?_⟩
  · exact bicubicWith_poly _ _ _ _ q xs ys dx dy r c h1 h3
  · simp only [Spec.cellBicubicX, F]
    rw [bicubicWith_poly _ _ _ _ q xs ys dx dy r c h2 h3, div_eq_iff hx, Spec.polyX, Finset.sum_mul]
    refine Finset.sum_congr rfl fun a _ => ?_
    rw [Finset.sum_mul]
    exact Finset.sum_congr rfl fun b _ => by ring
  · simp only [Spec.cellBicubicY, F]
    rw [bicubicWith_poly _ _ _ _ q xs ys dx dy r c h1 h4, div_eq_iff hy, Spec.polyY, Finset.sum_mul]
    refine Finset.sum_congr rfl fun a _ => ?_
    rw [Finset.sum_mul]
    exact Finset.sum_congr rfl fun b _ => by ring

end Gals.Props
