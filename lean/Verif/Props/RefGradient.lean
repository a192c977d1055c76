import Verif.Props.RefReversal

/-!
# C81, C82: accuracy of the gradient in a time step of the reference code

Over the real numbers.  The fields before the step are those of a smooth function `f`; the gradient after the step is compared
with the gradient of `f` at the departure point, as a function of the node.
-/

set_option linter.unusedSectionVars false
set_option linter.unusedSimpArgs false

namespace Gals.Props

open Gals Gals.Ref Spec Set

/-! ## Norms of the matrices -/

/-- The columns of the matrix have absolute sums at most `k`. -/
structure Col (A : Mat2 ℝ) (k : ℝ) : Prop where
  x : |A.a| + |A.c| ≤ k
  y : |A.b| + |A.d| ≤ k

theorem Col.idSub {A : Mat2 ℝ} {k h : ℝ} (hA : Col A k) (h0 : 0 ≤ h) : Col (Mat2.idSub h A) (1 + h * k) := by
  have m (w : ℝ) : |h * w| = h * |w| := by rw [abs_mul, abs_of_nonneg h0]
  have o (w : ℝ) : |1 - h * w| ≤ 1 + h * |w| := by
    have := abs_sub 1 (h * w)
    rwa [abs_one, m] at this
  constructor <;> simp only [Mat2.idSub, abs_neg, m]
  · nlinarith [o A.a, mul_le_mul_of_nonneg_left hA.x h0]
  · nlinarith [o A.d, mul_le_mul_of_nonneg_left hA.y h0]

theorem Col.mul {A B : Mat2 ℝ} {k l : ℝ} (hA : Col A k) (hB : Col B l) (k0 : 0 ≤ k) : Col (A.mul B) (k * l) := by
  have s (a b c d p q : ℝ) (h1 : |a| + |c| ≤ k) (h2 : |b| + |d| ≤ k) (h3 : |p| + |q| ≤ l) :
      |a * p + b * q| + |c * p + d * q| ≤ k * l := by
    have e1 := abs_add_le (a * p) (b * q)
    have e2 := abs_add_le (c * p) (d * q)
    rw [abs_mul, abs_mul] at e1 e2
    have e3 := mul_le_mul_of_nonneg_right h1 (abs_nonneg p)
    have e4 := mul_le_mul_of_nonneg_right h2 (abs_nonneg q)
    have e5 := mul_le_mul_of_nonneg_left h3 k0
    linarith
  exact ⟨s _ _ _ _ _ _ hA.x hA.y hB.x, s _ _ _ _ _ _ hA.x hA.y hB.y⟩

theorem Col.add {A B : Mat2 ℝ} {k l : ℝ} (hA : Col A k) (hB : Col B l) : Col (A.add B) (k + l) := by
  have e1 := abs_add_le A.a B.a
  have e2 := abs_add_le A.b B.b
  have e3 := abs_add_le A.c B.c
  have e4 := abs_add_le A.d B.d
  have := hA.x; have := hA.y; have := hB.x; have := hB.y
  constructor <;> simp only [Mat2.add] <;> linarith

theorem Col.smul {A : Mat2 ℝ} {k h : ℝ} (hA : Col A k) (h0 : 0 ≤ h) : Col (A.smul h) (h * k) := by
  have m (w : ℝ) : |h * w| = h * |w| := by rw [abs_mul, abs_of_nonneg h0]
  constructor <;> simp only [Mat2.smul, m]
  · linarith [mul_le_mul_of_nonneg_left hA.x h0]
  · linarith [mul_le_mul_of_nonneg_left hA.y h0]

theorem Col.transposeMul {A : Mat2 ℝ} {k s : ℝ} (hA : Col A k) {q r : ℝ × ℝ} (h1 : |q.1 - r.1| ≤ s) (h2 : |q.2 - r.2| ≤ s) :
    |(A.transposeMul q).1 - (A.transposeMul r).1| ≤ k * s ∧ |(A.transposeMul q).2 - (A.transposeMul r).2| ≤ k * s := by
  have s0 : 0 ≤ s := (abs_nonneg _).trans h1
  have m (a c : ℝ) (h : |a| + |c| ≤ k) : |(a * q.1 + c * q.2) - (a * r.1 + c * r.2)| ≤ k * s := by
    rw [show (a * q.1 + c * q.2) - (a * r.1 + c * r.2) = a * (q.1 - r.1) + c * (q.2 - r.2) by ring]
    have e := abs_add_le (a * (q.1 - r.1)) (c * (q.2 - r.2))
    rw [abs_mul, abs_mul] at e
    have e1 := mul_le_mul_of_nonneg_left h1 (abs_nonneg a)
    have e2 := mul_le_mul_of_nonneg_left h2 (abs_nonneg c)
    have e3 := mul_le_mul_of_nonneg_right h s0
    linarith
  exact ⟨m _ _ hA.x, m _ _ hA.y⟩

/-- Growth of a gradient in a step: the first terms of the exponential series. -/
noncomputable def growth (rk3 : Bool) (z : ℝ) : ℝ := if rk3 then 1 + z + z ^ 2 / 2 + z ^ 3 / 6 else 1 + z

theorem gradientAt_matrix (u v : ℝ → ℝ → ℝ → ℝ) {G : ℝ → ℝ → ℝ → Mat2 ℝ} {k : ℝ} (hG : ∀ x y t, Col (G x y t) k) (rk3 : Bool) (t : ℕ)
    {dt : ℝ} (h0 : 0 ≤ dt) (x y : ℝ) : ∃ J, Col J (growth rk3 (k * dt)) ∧ ∀ q, gradientAt u v G rk3 t dt x y q = J.transposeMul q := by
  have k0 : 0 ≤ k := (add_nonneg (abs_nonneg _) (abs_nonneg _)).trans (hG 0 0 0).x
  have D2 := (hG x y ((t + 1) * dt)).idSub h0
  cases rk3
  · refine ⟨_, ?_, fun q => rfl⟩
    convert D2 using 1
    simp only [growth, Bool.false_eq_true, if_false]
    ring
  · have A2 := (hG (x - dt * u x y ((t + 1) * dt)) (y - dt * v x y ((t + 1) * dt)) (t * dt)).mul D2 k0
    have D3 := ((hG x y ((t + 1) * dt)).add A2).idSub (show 0 ≤ dt / 4 by linarith)
    have A3 := (hG (x - dt * (u x y ((t + 1) * dt) + u (x - dt * u x y ((t + 1) * dt)) (y - dt * v x y ((t + 1) * dt)) (t * dt)) / 4)
      (y - dt * (v x y ((t + 1) * dt) + v (x - dt * u x y ((t + 1) * dt)) (y - dt * v x y ((t + 1) * dt)) (t * dt)) / 4)
      ((t + 1 / 2) * dt)).mul D3 k0
    have J := (((hG x y ((t + 1) * dt)).add A2).add (A3.smul (by norm_num : (0 : ℝ) ≤ 4))).idSub (show 0 ≤ dt / 6 by linarith)
    refine ⟨_, ?_, fun q => rfl⟩
    convert J using 1
    simp only [growth, if_true]
    ring

/-! ## C81 -/

/-- At the nodes of the first `nx` columns and `ny` rows that depart inside the domain, the gradient in memory is near the gradient,
with respect to the node, of `f` at the departure point. -/
def GradientTo (c : Setting ℝ) (v : Vel ℝ) (t nx ny : ℕ) (f : ℝ → ℝ → ℝ) (err : ℝ) (m : Mem (Val ℝ)) : Prop :=
  ∀ i < ny, ∀ j < nx, ∀ p, p = departAt v.velx v.vely c.schemes.rk3 t c.dt (posX c j) (posY c i) →
    c.xlim1 < p.1 ∧ p.1 < c.xlim2 → c.ylim1 < p.2 ∧ p.2 < c.ylim2 →
    ∃ q r gx gy, m (.d .mpsix i j) = .val q ∧ m (.d .mpsiy i j) = .val r ∧
      HasGrad (fun x y => f (departAt v.velx v.vely c.schemes.rk3 t c.dt x y).1 (departAt v.velx v.vely c.schemes.rk3 t c.dt x y).2)
        gx gy (posX c j, posY c i) ∧ |q - gx| ≤ err ∧ |r - gy| ≤ err

section programs
variable {c : Setting ℝ} (hc : Valid c) {f fx fy fxy : ℝ → ℝ → ℝ} {F : Fields ℝ} (hF : SampledOn c f fx fy fxy F)
  {M40 M04 M14 M41 : ℝ} (hf : Smooth2 f fx fy fxy c.xlim1 c.xlim2 c.ylim1 c.ylim2 M40 M04 M14 M41)
  (hg : ∀ x y, HasGrad f (fx x y) (fy x y) (x, y)) {v : Vel ℝ} (hv : VelDeriv v) {k : ℝ}
  (hk : ∀ x y t, Col (jacobian v x y t) k) (h0 : 0 ≤ c.dt) (hs : c.schemes.psischeme = "SuperConsistent")
include hc hF hf hg hv hk h0 hs

theorem gradient_near {t nx ny : ℕ} (ht : t + 1 < uMod) (hx : nx ≤ c.nx) (hy : ny ≤ c.ny) {dep : ℕ → ℕ → ℝ × ℝ}
    (hd : ∀ i < ny, ∀ j < nx, dep i j = departs c v t i j) {m : Mem (Val ℝ)}
    (h1 : Grid2 m .mpsix c.nx c.ny (advance v c.schemes t c.dt c.dx c.dy (posX c) (posY c) c.nx c.ny dep F).psix)
    (h2 : Grid2 m .mpsiy c.nx c.ny (advance v c.schemes t c.dt c.dx c.dy (posX c) (posY c) c.nx c.ny dep F).psiy) :
    GradientTo c v t nx ny f (growth c.schemes.rk3 (k * c.dt) *
      max (slopeBoundX M40 M14 M41 c.dx c.dy) (slopeBoundY M04 M14 M41 c.dx c.dy)) m := by
  rintro i hi j hj p rfl px py
  have g := C48_superconsistent hv c.schemes.rk3 ht c.dt (posX c j) (posY c i)
    (hg (departAt v.velx v.vely c.schemes.rk3 t c.dt (posX c j) (posY c i)).1 (departAt v.velx v.vely c.schemes.rk3 t c.dt (posX c j) (posY c i)).2)
  rw [superConsistent_eq v c.schemes.rk3 _ _ _ _ ht] at g
  refine ⟨_, _, _, _, h1 i (by omega) j (by omega), h2 i (by omega) j (by omega), g, ?_⟩
  obtain ⟨J, hJ, eJ⟩ := gradientAt_matrix v.velx v.vely hk c.schemes.rk3 t h0 (posX c j) (posY c i)
  obtain ⟨-, E1, E2⟩ := bicubic_error hc hF hf ⟨px.1.le, px.2.le⟩ ⟨py.1.le, py.2.le⟩
  have b1 := E1.trans (le_max_left _ (slopeBoundY M04 M14 M41 c.dx c.dy))
  have b2 := E2.trans (le_max_right (slopeBoundX M40 M14 M41 c.dx c.dy) _)
  have e : (nodeAt v c.schemes t c.dt c.dx c.dy (posX c) (posY c) c.nx c.ny F
      (departAt v.velx v.vely c.schemes.rk3 t c.dt (posX c j) (posY c i)) i j).2 = J.transposeMul
      (cellBicubicX F.phi F.psix F.psiy F.psixy (posX c) (posY c) c.dx c.dy
          (cellAlong (posY c) c.ny (departAt v.velx v.vely c.schemes.rk3 t c.dt (posX c j) (posY c i)).2)
          (cellAlong (posX c) c.nx (departAt v.velx v.vely c.schemes.rk3 t c.dt (posX c j) (posY c i)).1)
          (departAt v.velx v.vely c.schemes.rk3 t c.dt (posX c j) (posY c i)).1 (departAt v.velx v.vely c.schemes.rk3 t c.dt (posX c j) (posY c i)).2,
        cellBicubicY F.phi F.psix F.psiy F.psixy (posX c) (posY c) c.dx c.dy
          (cellAlong (posY c) c.ny (departAt v.velx v.vely c.schemes.rk3 t c.dt (posX c j) (posY c i)).2)
          (cellAlong (posX c) c.nx (departAt v.velx v.vely c.schemes.rk3 t c.dt (posX c j) (posY c i)).1)
          (departAt v.velx v.vely c.schemes.rk3 t c.dt (posX c j) (posY c i)).1 (departAt v.velx v.vely c.schemes.rk3 t c.dt (posX c j) (posY c i)).2) := by
    have qx : posX c 0 < (departAt v.velx v.vely c.schemes.rk3 t c.dt (posX c j) (posY c i)).1 ∧
        (departAt v.velx v.vely c.schemes.rk3 t c.dt (posX c j) (posY c i)).1 < posX c (c.nx - 1) := by rwa [hc.firstX, hc.lastX]
    have qy : posY c 0 < (departAt v.velx v.vely c.schemes.rk3 t c.dt (posX c j) (posY c i)).2 ∧
        (departAt v.velx v.vely c.schemes.rk3 t c.dt (posX c j) (posY c i)).2 < posY c (c.ny - 1) := by rwa [hc.firstY, hc.lastY]
    simp only [nodeAt, nodeSpec, updateNode, cellX, cellY, classOf, if_pos qx, if_pos qy, show ¬ (1 : ℕ) = 4 by decide, if_false,
      transportSpec, hs, show ¬ ("SuperConsistent" : String) = "Heuns" by decide, if_true]
    rw [← eJ]
  simp only [advance, hd i hi j hj, departs, e, eJ]
  exact hJ.transposeMul b1 b2

/-- **C81** for the OpenMP program. -/
theorem C81_step {t : ℕ} (ht : t + 1 < uMod) {m : Mem (Val ℝ)} (h : Ready m c.nx c.ny (posX c) (posY c) F) :
    let err := growth c.schemes.rk3 (k * c.dt) * max (slopeBoundX M40 M14 M41 c.dx c.dy) (slopeBoundY M04 M14 M41 c.dx c.dy)
    (∃ m', stepOpenMP c v c.dx c.dy t m = .ok m' ∧ GradientTo c v t c.nx c.ny f err m') ∧
      ∀ m', OmpStep ParFor c v c.dx c.dy t m m' → GradientTo c v t c.nx c.ny f err m' := by
  intro err
  constructor
  · obtain ⟨m', e, r⟩ := C60_step hc v ht h
    exact ⟨m', e, gradient_near hc hF hf hg hv hk h0 hs ht le_rfl le_rfl (fun _ _ _ _ => rfl) r.psix r.psiy⟩
  · intro m' hm
    obtain ⟨-, r1, r2⟩ := (C60_openmp_partial hc v ht h).2 hm
    exact gradient_near hc hF hf hg hv hk h0 hs ht le_rfl le_rfl (fun _ _ _ _ => rfl) r1 r2

/-- **C81** for the serial program, whose last row and column have no departure points. -/
theorem C81_serial {t : ℕ} (ht : t + 1 < uMod) {m : Mem (Val ℝ)} (h : Ready m c.nx c.ny (posX c) (posY c) F) :
    ∃ m', stepSerial c v c.dx c.dy t m = .ok m' ∧ GradientTo c v t (c.nx - 1) (c.ny - 1) f
      (growth c.schemes.rk3 (k * c.dt) * max (slopeBoundX M40 M14 M41 c.dx c.dy) (slopeBoundY M04 M14 M41 c.dx c.dy)) m' := by
  obtain ⟨m', e, r⟩ := C60_step_serial hc v ht h
  exact ⟨m', e, gradient_near hc hF hf hg hv hk h0 hs ht (Nat.sub_le _ _) (Nat.sub_le _ _) (fun i hi j hj => if_pos (by omega)) r.psix r.psiy⟩

end programs

/-! ## The vortex -/

open Real in
theorem vortex_col (T x y t : ℝ) : Col (jacobian (vortex T) x y t) 10 := by
  have hp := pi_lt_d2
  have p0 := pi_pos
  have tri (a b c d : ℝ) (ha : |a| ≤ 1) (hb : |b| ≤ 1) (hc : |c| ≤ 1) (hd : 0 ≤ d) : |d * a * b * c| ≤ d := by
    rw [abs_mul, abs_mul, abs_mul, abs_of_nonneg hd]
    calc d * |a| * |b| * |c| ≤ d * 1 * 1 * 1 := by gcongr
      _ = d := by ring
  have s2 (a : ℝ) : |sin a ^ 2| ≤ 1 := by
    rw [abs_pow]
    exact pow_le_one₀ (abs_nonneg _) (abs_sin_le_one a)
  have e1 := tri (sin (2 * π * y)) (sin (2 * π * x)) (cos (π * t / T)) π (abs_sin_le_one _) (abs_sin_le_one _) (abs_cos_le_one _) p0.le
  have e2 := tri (sin (π * x) ^ 2) (cos (2 * π * y)) (cos (π * t / T)) (2 * π) (s2 _) (abs_cos_le_one _) (abs_cos_le_one _) (by linarith)
  have e3 := tri (sin (π * y) ^ 2) (cos (2 * π * x)) (cos (π * t / T)) (2 * π) (s2 _) (abs_cos_le_one _) (abs_cos_le_one _) (by linarith)
  constructor
  · simp only [jacobian, vortex]
    rw [show -2 * π * sin (π * y) ^ 2 * cos (2 * π * x) * cos (π * t / T) = -(2 * π * sin (π * y) ^ 2 * cos (2 * π * x) * cos (π * t / T)) by
      ring, abs_neg]
    linarith
  · simp only [jacobian, vortex]
    rw [show -π * sin (2 * π * y) * sin (2 * π * x) * cos (π * t / T) = -(π * sin (2 * π * y) * sin (2 * π * x) * cos (π * t / T)) by
      ring, abs_neg]
    linarith

/-- **C81** for the vortex in the unit square with Runge-Kutta: at every node that is not on a wall, for the serial program, the OpenMP
program and every schedule of the latter. -/
theorem C81_vortex (T : ℝ) {c : Setting ℝ} (hc : Valid c) (hq : UnitSquare c) (h0 : 0 ≤ c.dt) (h1 : c.dt ≤ 1 / 40)
    (hs : c.schemes.psischeme = "SuperConsistent") {f fx fy fxy : ℝ → ℝ → ℝ} {F : Fields ℝ} (hF : SampledOn c f fx fy fxy F) {M : ℝ}
    (hf : Smooth2 f fx fy fxy 0 1 0 1 M M M M) (hg : ∀ x y, HasGrad f (fx x y) (fy x y) (x, y)) {t : ℕ} (ht : t + 1 < uMod)
    {m m' : Mem (Val ℝ)} (h : Ready m c.nx c.ny (posX c) (posY c) F)
    (hm : stepSerial c (vortex T) c.dx c.dy t m = .ok m' ∨ stepOpenMP c (vortex T) c.dx c.dy t m = .ok m' ∨
      OmpStep ParFor c (vortex T) c.dx c.dy t m m') {i j : ℕ} (i0 : 0 < i) (hi : i + 1 < c.ny) (j0 : 0 < j) (hj : j + 1 < c.nx) :
    ∃ q r gx gy, m' (.d .mpsix i j) = .val q ∧ m' (.d .mpsiy i j) = .val r ∧
      HasGrad (fun x y => f (departAt (vortex T).velx (vortex T).vely c.schemes.rk3 t c.dt x y).1
        (departAt (vortex T).velx (vortex T).vely c.schemes.rk3 t c.dt x y).2) gx gy (posX c j, posY c i) ∧
      |q - gx| ≤ 13 / 10 * max (slopeBoundX M M M c.dx c.dy) (slopeBoundY M M M c.dx c.dy) ∧
      |r - gy| ≤ 13 / 10 * max (slopeBoundX M M M c.dx c.dy) (slopeBoundY M M M c.dx c.dy) := by
  have hf' : Smooth2 f fx fy fxy c.xlim1 c.xlim2 c.ylim1 c.ylim2 M M M M := by rwa [hq.x1, hq.x2, hq.y1, hq.y2]
  have G : GradientTo c (vortex T) t (c.nx - 1) (c.ny - 1) f (growth c.schemes.rk3 (10 * c.dt) *
      max (slopeBoundX M M M c.dx c.dy) (slopeBoundY M M M c.dx c.dy)) m' := by
    obtain ⟨m1, e1, r1⟩ := C81_serial hc hF hf' hg (C49_gradients T) (vortex_col T) h0 hs ht h
    obtain ⟨⟨m2, e2, r2⟩, r3⟩ := C81_step hc hF hf' hg (C49_gradients T) (vortex_col T) h0 hs ht h
    rcases hm with e | e | e
    · rw [e1] at e; cases e; exact r1
    · rw [e2] at e; cases e
      exact fun i hi j hj => r2 i (by omega) j (by omega)
    · exact fun i hi j hj => r3 m' e i (by omega) j (by omega)
  have px : posX c j ∈ Ioo (0 : ℝ) 1 := by
    rw [← hq.x1, ← hq.x2, ← hc.firstX, ← hc.lastX]
    exact ⟨hc.incX _ _ j0 (by omega), hc.incX _ _ (by omega) (by omega)⟩
  have py : posY c i ∈ Ioo (0 : ℝ) 1 := by
    rw [← hq.y1, ← hq.y2, ← hc.firstY, ← hc.lastY]
    exact ⟨hc.incY _ _ i0 (by omega), hc.incY _ _ (by omega) (by omega)⟩
  obtain ⟨a, b⟩ := vortex_depart T c.schemes.rk3 t h0 h1 ⟨px.1.le, px.2.le⟩ ⟨py.1.le, py.2.le⟩
  have a' := a.resolve_right fun h => h.2.elim px.1.ne' px.2.ne
  have b' := b.resolve_right fun h => h.2.elim py.1.ne' py.2.ne
  obtain ⟨q, r, gx, gy, r1, r2, r3, r4, r5⟩ := G i (by omega) j (by omega) _ rfl (by rwa [hq.x1, hq.x2]) (by rwa [hq.y1, hq.y2])
  have n : 0 ≤ max (slopeBoundX M M M c.dx c.dy) (slopeBoundY M M M c.dx c.dy) := by
    obtain ⟨-, E, -⟩ := bicubic_error hc hF hf' (p := (posX c j, posY c i)) (by rw [hq.x1, hq.x2]; exact ⟨px.1.le, px.2.le⟩)
      (by rw [hq.y1, hq.y2]; exact ⟨py.1.le, py.2.le⟩)
    exact ((abs_nonneg _).trans E).trans (le_max_left _ _)
  have g : growth c.schemes.rk3 (10 * c.dt) ≤ 13 / 10 := by
    have z0 : 0 ≤ 10 * c.dt := by linarith
    have z1 : 10 * c.dt ≤ 1 / 4 := by linarith
    have z2 := pow_le_pow_left₀ z0 z1 2
    have z3 := pow_le_pow_left₀ z0 z1 3
    unfold growth
    split <;> linarith
  have k := mul_le_mul_of_nonneg_right g n
  exact ⟨q, r, gx, gy, r1, r2, r3, r4.trans k, r5.trans k⟩

/-! ## C82: the walls -/

open Real in
/-- Velocity gradients at the walls: only the one across, of the velocity along the wall, is not zero. -/
theorem vortex_jacobian_wall (T : ℝ) (x y t : ℝ) :
    (y = 0 ∨ y = 1 → jacobian (vortex T) x y t = ⟨0, 2 * π * sin (π * x) ^ 2 * cos (π * t / T), 0, 0⟩) ∧
      (x = 0 ∨ x = 1 → jacobian (vortex T) x y t = ⟨0, 0, -2 * π * sin (π * y) ^ 2 * cos (π * t / T), 0⟩) := by
  constructor
  · rintro (rfl | rfl) <;> simp [jacobian, vortex]
  · rintro (rfl | rfl) <;> simp [jacobian, vortex]

/-- A wall node keeps its data, with the departure point of the serial program too. -/
theorem vortex_node_wall {c : Setting ℝ} (hc : Valid c) (hq : UnitSquare c) (T : ℝ) (t : ℕ) (F : Fields ℝ) {i j : ℕ} (hi : i < c.ny)
    (hj : j < c.nx) (hw : (posX c j = 0 ∨ posX c j = 1) ∨ posY c i = 0 ∨ posY c i = 1) {p : ℝ × ℝ}
    (hp : p = (posX c j, posY c i) ∨ p = (0, 0)) :
    nodeAt (vortex T) c.schemes t c.dt ((c.xlim2 - c.xlim1) / (c.nx - 1)) ((c.ylim2 - c.ylim1) / (c.ny - 1)) (posX c) (posY c)
      c.nx c.ny F p i j = (F.phi i j, F.psix i j, F.psiy i j) := by
  obtain ⟨b0, b1, b2⟩ := cellBicubic_node F hc.gapX hc.gapY hc.stepX hc.stepY i j
  have hx := cellAlong_node hc.incX hj (by have := hc.nx3; omega)
  have hy := cellAlong_node hc.incY hi (by have := hc.ny3; omega)
  obtain ⟨u0, v0⟩ := vortex_rest T hw (t * c.dt)
  obtain ⟨u1, v1⟩ := vortex_rest T hw ((t + 1) * c.dt)
  rcases hp with rfl | rfl
  · by_cases cx : posX c 0 < posX c j ∧ posX c j < posX c (c.nx - 1) <;> by_cases cy : posY c 0 < posY c i ∧ posY c i < posY c (c.ny - 1)
    · exfalso
      rw [hc.firstX, hc.lastX, hq.x1, hq.x2] at cx
      rw [hc.firstY, hc.lastY, hq.y1, hq.y2] at cy
      rcases hw with (h | h) | h | h <;> linarith [cx.1, cx.2, cy.1, cy.2]
    · have hw' : posY c i = 0 ∨ posY c i = 1 := hw.resolve_left fun h => by
        rw [hc.firstX, hc.lastX, hq.x1, hq.x2] at cx
        rcases h with h | h <;> linarith [cx.1, cx.2]
      have g (t : ℝ) := (vortex_jacobian_wall T (posX c j) (posY c i) t).1 hw'
      simp only [jacobian, Mat2.mk.injEq] at g
      simp only [nodeAt, nodeSpec, updateNode, cellX, cellY, hx, hy, classOf, if_pos cx, if_neg cy, show ¬ (2 : ℕ) = 4 by decide,
        if_false, b0, b1, edgeX, heunEdge, u0, v0, u1, v1, (g _).1, (g _).2.2.1]
      simp
    · have hw' : posX c j = 0 ∨ posX c j = 1 := hw.resolve_right fun h => by
        rw [hc.firstY, hc.lastY, hq.y1, hq.y2] at cy
        rcases h with h | h <;> linarith [cy.1, cy.2]
      have g (t : ℝ) := (vortex_jacobian_wall T (posX c j) (posY c i) t).2 hw'
      simp only [jacobian, Mat2.mk.injEq] at g
      simp only [nodeAt, nodeSpec, updateNode, cellX, cellY, hx, hy, classOf, if_neg cx, if_pos cy, show ¬ (3 : ℕ) = 4 by decide,
        if_false, b0, b2, edgeY, heunEdge, u0, v0, u1, v1, (g _).2.1, (g _).2.2.2]
      simp
    · simp only [nodeAt, nodeSpec, updateNode, classOf, if_neg cx, if_neg cy, u0, v0, zero_mul, add_zero, mul_zero, sub_zero]
  · have cx : ¬ (posX c 0 < 0 ∧ 0 < posX c (c.nx - 1)) := by rw [hc.firstX, hq.x1]; exact fun h => lt_irrefl _ h.1
    have cy : ¬ (posY c 0 < 0 ∧ 0 < posY c (c.ny - 1)) := by rw [hc.firstY, hq.y1]; exact fun h => lt_irrefl _ h.1
    simp only [nodeAt, nodeSpec, updateNode, classOf, if_neg cx, if_neg cy, u0, v0, zero_mul, add_zero, mul_zero, sub_zero]

/-- A node of the first or last row or column. -/
def OnWall (c : Setting ℝ) (i j : ℕ) : Prop := (j = 0 ∨ j = c.nx - 1) ∨ i = 0 ∨ i = c.ny - 1

theorem OnWall.pos {c : Setting ℝ} (hc : Valid c) (hq : UnitSquare c) {i j : ℕ} (h : OnWall c i j) :
    (posX c j = 0 ∨ posX c j = 1) ∨ posY c i = 0 ∨ posY c i = 1 := by
  rcases h with (rfl | rfl) | rfl | rfl
  · exact .inl (.inl (by rw [hc.firstX, hq.x1]))
  · exact .inl (.inr (by rw [hc.lastX, hq.x2]))
  · exact .inr (.inl (by rw [hc.firstY, hq.y1]))
  · exact .inr (.inr (by rw [hc.lastY, hq.y2]))

theorem fieldsAt_wall {c : Setting ℝ} (hc : Valid c) (hq : UnitSquare c) (T : ℝ) (f : Initial ℝ) {dep : ℕ → ℕ → ℕ → ℝ × ℝ}
    {i j : ℕ} (hi : i < c.ny) (hj : j < c.nx) (hw : OnWall c i j)
    (hd : ∀ t, dep t i j = departs c (vortex T) t i j ∨ dep t i j = (0, 0)) (t : ℕ) :
    let F := fieldsAt c (vortex T) f dep t
    F.phi i j = f.phi (posX c j) (posY c i) ∧ F.psix i j = f.psix (posX c j) (posY c i) ∧ F.psiy i j = f.psiy (posX c j) (posY c i) := by
  induction t with
  | zero => exact ⟨rfl, rfl, rfl⟩
  | succ t ih =>
    have N := vortex_node_wall hc hq T t (fieldsAt c (vortex T) f dep t) hi hj (hw.pos hc hq) (p := dep t i j) ((hd t).imp_left fun e => by
      rw [e, departs, vortex_depart_wall T (hw.pos hc hq)])
    obtain ⟨h1, h2, h3⟩ := ih
    simp only [fieldsAt, advance, N]
    exact ⟨h1, h2, h3⟩

/-- **C82**, what the programs do: in the vortex the nodes on the walls keep their initial value and gradient in the whole run. -/
theorem C82_frozen {T : ℝ} {c : Setting ℝ} (hc : Valid c) (hq : UnitSquare c) (f : Initial ℝ) {n : ℕ} (hdt : c.dt ≠ 0)
    (hn : Truncated (c.tfinal / c.dt) n) (hnu : n < uMod) (hp : 1 ≤ printStep c n ∨ n = 0) :
    (∃ m o, mainSerial c (vortex T) f = .ok (m, o) ∧ ∀ i < c.ny, ∀ j < c.nx, OnWall c i j →
      m (.d .mphi i j) = .val (f.phi (posX c j) (posY c i)) ∧ m (.d .mpsix i j) = .val (f.psix (posX c j) (posY c i)) ∧
        m (.d .mpsiy i j) = .val (f.psiy (posX c j) (posY c i))) ∧
    ∃ m o, mainOpenMP 2 c (vortex T) f = .ok (m, o) ∧ ∀ i < c.ny, ∀ j < c.nx, OnWall c i j →
      m (.d .mphi i j) = .val (f.phi (posX c j) (posY c i)) ∧ m (.d .mpsix i j) = .val (f.psix (posX c j) (posY c i)) ∧
        m (.d .mpsiy i j) = .val (f.psiy (posX c j) (posY c i)) := by
  constructor
  · obtain ⟨m, o, e, r, -⟩ := C54_serial hc (vortex T) f hdt hn hnu hp
    refine ⟨m, o, e, fun i hi j hj hw => ?_⟩
    obtain ⟨h1, h2, h3⟩ := fieldsAt_wall hc hq T f (dep := departsSerial c (vortex T)) hi hj hw (fun t => by
      unfold departsSerial
      split
      · exact .inl rfl
      · exact .inr rfl) n
    exact ⟨by rw [r.phi i hi j hj, h1], by rw [r.psix i hi j hj, h2], by rw [r.psiy i hi j hj, h3]⟩
  · obtain ⟨m, o, e, r, -⟩ := C54_openmp hc (vortex T) f hdt hn hnu hp (le_refl 2)
    refine ⟨m, o, e, fun i hi j hj hw => ?_⟩
    obtain ⟨h1, h2, h3⟩ := fieldsAt_wall hc hq T f (dep := departs c (vortex T)) hi hj hw (fun t => .inl rfl) n
    exact ⟨by rw [r.phi i hi j hj, h1], by rw [r.psix i hi j hj, h2], by rw [r.psiy i hi j hj, h3]⟩

/-- `g` is, at time `t`, the function `f` carried along the paths of the velocity from time 0. -/
def ExactAt (v : Vel ℝ) (t : ℝ) (f g : ℝ → ℝ → ℝ) : Prop :=
  ∀ X Y, Characteristic v.velx v.vely X Y 0 t → g (X t) (Y t) = f (X 0) (Y 0)

/-- The exact solution in the vortex exists at all times. -/
theorem exactAt_exists {T : ℝ} (hT : 0 < T) {t : ℝ} (ht : 0 ≤ t) (f : ℝ → ℝ → ℝ) : ∃ g, ExactAt (vortex T) t f g := by
  obtain ⟨K, k1, b1, b2, ex⟩ := C78_vortex hT
  choose X Y h hX hY using ex 0 t ht
  refine ⟨fun x y => f (X x y 0) (Y x y 0), fun A B hA => ?_⟩
  obtain ⟨e1, e2⟩ := path_unique k1 b1 b2 (h (A t) (B t)) hA (.inl ⟨hX _ _, hY _ _⟩) 0 ⟨le_rfl, ht⟩
  simp only [e1, e2]

/-- On the walls the exact solution does not change. -/
theorem exactAt_wall {T : ℝ} {t : ℝ} {f g : ℝ → ℝ → ℝ} (hg : ExactAt (vortex T) t f g) {x y : ℝ}
    (hw : (x = 0 ∨ x = 1) ∨ y = 0 ∨ y = 1) : g x y = f x y :=
  hg (fun _ => x) (fun _ => y) fun s _ => by
    obtain ⟨e1, e2⟩ := vortex_rest T hw s
    rw [e1, e2]
    exact ⟨hasDerivWithinAt_const _ _ _, hasDerivWithinAt_const _ _ _⟩

/-- **C82**, partial: at a wall node the value and the derivative along the wall that the programs end with are those of the exact
solution.  Missing: the derivative across the wall, for which it is false (`C82_false`). -/
theorem C82_partial {T : ℝ} {c : Setting ℝ} (hc : Valid c) (hq : UnitSquare c) (f : Initial ℝ)
    (hx : ∀ x y, HasDerivAt (fun x => f.phi x y) (f.psix x y) x) (hy : ∀ x y, HasDerivAt (fun y => f.phi x y) (f.psiy x y) y) {n : ℕ}
    (hdt : c.dt ≠ 0) (hn : Truncated (c.tfinal / c.dt) n) (hnu : n < uMod) (hp : 1 ≤ printStep c n ∨ n = 0)
    {g : ℝ → ℝ → ℝ} (hg : ExactAt (vortex T) (n * c.dt) f.phi g) :
    ∃ m o m' o', mainSerial c (vortex T) f = .ok (m, o) ∧ mainOpenMP 2 c (vortex T) f = .ok (m', o') ∧ ∀ i < c.ny, ∀ j < c.nx,
      (OnWall c i j → m (.d .mphi i j) = .val (g (posX c j) (posY c i)) ∧ m' (.d .mphi i j) = .val (g (posX c j) (posY c i))) ∧
      (i = 0 ∨ i = c.ny - 1 → ∃ d, m (.d .mpsix i j) = .val d ∧ m' (.d .mpsix i j) = .val d ∧
        HasDerivAt (fun x => g x (posY c i)) d (posX c j)) ∧
      (j = 0 ∨ j = c.nx - 1 → ∃ d, m (.d .mpsiy i j) = .val d ∧ m' (.d .mpsiy i j) = .val d ∧
        HasDerivAt (fun y => g (posX c j) y) d (posY c i)) := by
  obtain ⟨⟨m, o, e, r⟩, m', o', e', r'⟩ := C82_frozen (T := T) hc hq f hdt hn hnu hp
  refine ⟨m, o, m', o', e, e', fun i hi j hj => ⟨fun hw => ?_, fun hw => ?_, fun hw => ?_⟩⟩
  · rw [exactAt_wall hg (hw.pos hc hq)]
    exact ⟨(r i hi j hj hw).1, (r' i hi j hj hw).1⟩
  · refine ⟨_, (r i hi j hj (.inr hw)).2.1, (r' i hi j hj (.inr hw)).2.1, ?_⟩
    have hw' : posY c i = 0 ∨ posY c i = 1 := by
      rcases hw with rfl | rfl
      · exact .inl (by rw [hc.firstY, hq.y1])
      · exact .inr (by rw [hc.lastY, hq.y2])
    simp only [fun x => exactAt_wall hg (x := x) (.inr hw')]
    exact hx _ _
  · refine ⟨_, (r i hi j hj (.inl hw)).2.2, (r' i hi j hj (.inl hw)).2.2, ?_⟩
    have hw' : posX c j = 0 ∨ posX c j = 1 := by
      rcases hw with rfl | rfl
      · exact .inl (by rw [hc.firstX, hq.x1])
      · exact .inr (by rw [hc.lastX, hq.x2])
    simp only [fun y => exactAt_wall hg (y := y) (.inl hw')]
    exact hy _ _

open Real in
/-- A particle that is at (1/2, y) at time 1/2, near the lower wall, has come from the left by at least 0.9 y. -/
theorem vortex_shear {y : ℝ} (y0 : 0 < y) (y1 : y ≤ 1 / 100) {X Y : ℝ → ℝ}
    (h : Characteristic (vortex 1).velx (vortex 1).vely X Y 0 (1 / 2)) (hX : X (1 / 2) = 1 / 2) (hY : Y (1 / 2) = y) :
    X 0 ≤ 1 / 2 - 9 / 10 * y := by
  have mh : (1 / 2 : ℝ) ∈ Icc (0 : ℝ) (1 / 2) := ⟨by norm_num, le_rfl⟩
  obtain ⟨-, -, wY⟩ := C80_walls one_pos h mh
  have inY := wY (by rw [hY]; exact ⟨y0, by linarith⟩)
  have hp := pi_lt_d2
  have hp' := pi_gt_d2
  -- the height
  have Z (s : ℝ) (hs : s ∈ Icc (0 : ℝ) (1 / 2)) : |(Y s)⁻¹ - y⁻¹| ≤ 5 := by
    have d (r : ℝ) (hr : r ∈ Icc (0 : ℝ) (1 / 2)) :
        HasDerivWithinAt (fun r => (Y r)⁻¹) (-(vortex 1).vely (X r) (Y r) r / Y r ^ 2) (Icc 0 (1 / 2)) r :=
      ((h r hr).2.inv (inY r hr).1.ne')
    have b (r : ℝ) (hr : r ∈ Icc (0 : ℝ) (1 / 2)) : ‖-(vortex 1).vely (X r) (Y r) r / Y r ^ 2‖ ≤ 10 := by
      have p : 0 < Y r ^ 2 := pow_pos (inY r hr).1 2
      rw [norm_eq_abs, abs_div, abs_neg, abs_of_pos p, div_le_iff₀ p]
      exact (vortex_wall 1 (X r) (Y r) r).2.1
    have := (convex_Icc (0 : ℝ) (1 / 2)).norm_image_sub_le_of_norm_hasDerivWithin_le d b mh hs
    rw [hY, norm_eq_abs, norm_eq_abs] at this
    refine this.trans ?_
    have : |s - 1 / 2| ≤ 1 / 2 := abs_le.2 ⟨by linarith [hs.1], by linarith [hs.2]⟩
    linarith
  have yi : 100 ≤ y⁻¹ := by
    rw [le_inv_comm₀ (by norm_num) y0]
    linarith
  have Yb (s : ℝ) (hs : s ∈ Icc (0 : ℝ) (1 / 2)) : 9 / 10 * y ≤ Y s ∧ Y s ≤ 11 / 10 * y := by
    obtain ⟨z1, z2⟩ := abs_le.1 (Z s hs)
    have p := (inY s hs).1
    have e1 : y * y⁻¹ = 1 := mul_inv_cancel₀ y0.ne'
    have e2 : Y s * (Y s)⁻¹ = 1 := mul_inv_cancel₀ p.ne'
    have py := mul_pos p y0
    have w1 : Y s - y ≤ 5 * (Y s * y) := by
      have := mul_le_mul_of_nonneg_left (show y⁻¹ - (Y s)⁻¹ ≤ 5 by linarith) py.le
      rw [show Y s * y * (y⁻¹ - (Y s)⁻¹) = Y s * (y * y⁻¹) - y * (Y s * (Y s)⁻¹) by ring, e1, e2] at this
      linarith
    have w2 : y - Y s ≤ 5 * (Y s * y) := by
      have := mul_le_mul_of_nonneg_left (show (Y s)⁻¹ - y⁻¹ ≤ 5 by linarith) py.le
      rw [show Y s * y * ((Y s)⁻¹ - y⁻¹) = y * (Y s * (Y s)⁻¹) - Y s * (y * y⁻¹) by ring, e1, e2] at this
      linarith
    have w3 : Y s * y ≤ Y s * (1 / 100) := mul_le_mul_of_nonneg_left y1 p.le
    constructor <;> linarith
  -- the way
  have sY (s : ℝ) (hs : s ∈ Icc (0 : ℝ) (1 / 2)) : 4 * Y s ≤ sin (2 * π * Y s) ∧ sin (2 * π * Y s) ≤ 7 * y := by
    obtain ⟨l, u⟩ := Yb s hs
    have p := (inY s hs).1
    constructor
    · have := mul_le_sin (x := 2 * π * Y s) (by positivity) (by nlinarith)
      refine le_trans (le_of_eq ?_) this
      field_simp
      ring
    · have := sin_le (x := 2 * π * Y s) (by positivity)
      nlinarith
  have cosb (s : ℝ) (hs : s ∈ Icc (0 : ℝ) (1 / 2)) : 0 ≤ cos (π * s / 1) ∧ cos (π * s / 1) ≤ 1 :=
    ⟨cos_nonneg_of_mem_Icc ⟨by nlinarith [hs.1], by nlinarith [hs.2]⟩, cos_le_one _⟩
  have Xb (s : ℝ) (hs : s ∈ Icc (0 : ℝ) (1 / 2)) : |X s - 1 / 2| ≤ 4 / 100 := by
    have b (r : ℝ) (hr : r ∈ Icc (0 : ℝ) (1 / 2)) : ‖(vortex 1).velx (X r) (Y r) r‖ ≤ 7 * y := by
      obtain ⟨l, u⟩ := sY r hr
      obtain ⟨c0, c1⟩ := cosb r hr
      have p := (inY r hr).1
      have q0 := sq_nonneg (sin (π * X r))
      have q1 := sin_sq_le_one (π * X r)
      rw [norm_eq_abs]
      simp only [vortex]
      rw [abs_mul, abs_mul, abs_of_nonneg q0, abs_of_nonneg c0, abs_of_nonneg (by linarith : 0 ≤ sin (2 * π * Y r))]
      calc sin (π * X r) ^ 2 * sin (2 * π * Y r) * cos (π * r / 1) ≤ 1 * (7 * y) * 1 := by
            have : 0 ≤ sin (2 * π * Y r) := by linarith
            gcongr
        _ = 7 * y := by ring
    have := (convex_Icc (0 : ℝ) (1 / 2)).norm_image_sub_le_of_norm_hasDerivWithin_le (fun r hr => (h r hr).1) b mh hs
    rw [hX, norm_eq_abs, norm_eq_abs] at this
    refine this.trans ?_
    have : |s - 1 / 2| ≤ 1 / 2 := abs_le.2 ⟨by linarith [hs.1], by linarith [hs.2]⟩
    nlinarith
  have ub (s : ℝ) (hs : s ∈ Icc (0 : ℝ) (1 / 2)) : 3 * y * cos (π * s / 1) ≤ (vortex 1).velx (X s) (Y s) s := by
    obtain ⟨c0, -⟩ := cosb s hs
    obtain ⟨l, -⟩ := sY s hs
    have e : sin (π * X s) ^ 2 = 1 - sin (π * (X s - 1 / 2)) ^ 2 := by
      rw [show π * X s = π * (X s - 1 / 2) + π / 2 by ring, sin_add_pi_div_two, cos_sq']
    have q := (sin_sq_wall (X s - 1 / 2)).1
    have q2 : (X s - 1 / 2) ^ 2 ≤ (4 / 100) ^ 2 := by
      rw [← sq_abs]
      exact pow_le_pow_left₀ (abs_nonneg _) (Xb s hs) 2
    have q3 : 9 / 10 ≤ sin (π * X s) ^ 2 := by rw [e]; linarith
    have q4 : 3 * y ≤ sin (π * X s) ^ 2 * sin (2 * π * Y s) := by
      have := (Yb s hs).1
      have : 9 / 10 * (36 / 10 * y) ≤ sin (π * X s) ^ 2 * sin (2 * π * Y s) :=
        mul_le_mul q3 (by linarith) (by positivity) (sq_nonneg _)
      linarith
    simp only [vortex]
    exact mul_le_mul_of_nonneg_right q4 c0
  have W (s : ℝ) (hs : s ∈ Icc (0 : ℝ) (1 / 2)) : HasDerivWithinAt (fun s => X s - 3 * y / π * sin (π * s / 1))
      ((vortex 1).velx (X s) (Y s) s - 3 * y * cos (π * s / 1)) (Icc 0 (1 / 2)) s := by
    have k : HasDerivAt (fun s : ℝ => π * s / 1) π s := by
      simpa using (hasDerivAt_id s).const_mul π
    have k2 : HasDerivAt (fun s : ℝ => 3 * y / π * sin (π * s / 1)) (3 * y / π * (cos (π * s / 1) * π)) s := k.sin.const_mul _
    refine ((h s hs).1.sub k2.hasDerivWithinAt).congr_deriv ?_
    field_simp
  have mono : MonotoneOn (fun s => X s - 3 * y / π * sin (π * s / 1)) (Icc 0 (1 / 2)) := by
    refine monotoneOn_of_hasDerivWithinAt_nonneg (f' := fun s => (vortex 1).velx (X s) (Y s) s - 3 * y * cos (π * s / 1))
      (convex_Icc _ _) (fun s hs => (W s hs).continuousWithinAt) (fun s hs => ?_) (fun s hs => ?_)
    · exact (W s (interior_subset hs)).mono interior_subset
    · exact sub_nonneg.2 (ub s (interior_subset hs))
  have fin := mono ⟨le_rfl, by norm_num⟩ mh (by norm_num)
  simp only [mul_zero, zero_div, sin_zero, sub_zero, hX, div_one] at fin
  rw [show π * (1 / 2) = π / 2 by ring, sin_pi_div_two, mul_one] at fin
  have : 9 / 10 * y ≤ 3 * y / π := by
    rw [le_div_iff₀ pi_pos]
    nlinarith
  linarith

/-- The coordinate `x` with its derivatives as initial data. -/
def initialX : Initial ℝ := ⟨fun x _ => x, fun _ _ => 1, fun _ _ => 0, fun _ _ => 0⟩

/-- **C82** is false across the walls: on every grid of the unit square with a node at `x = 1/2`, when the programs run to the time
1/2 from the data of the function `x`, they store the derivative 0 across the lower wall there, while the exact solution decreases
from the wall with a slope of at least 0.9. -/
theorem C82_false {c : Setting ℝ} (hc : Valid c) (hq : UnitSquare c) {n : ℕ} (hdt : c.dt ≠ 0)
    (hn : Truncated (c.tfinal / c.dt) n) (hnu : n < uMod) (hp : 1 ≤ printStep c n ∨ n = 0) (hh : n * c.dt = 1 / 2) {j : ℕ} (hj : j < c.nx)
    (hm : posX c j = 1 / 2) {g : ℝ → ℝ → ℝ} (hg : ExactAt (vortex 1) (n * c.dt) initialX.phi g) :
    ∃ m o m' o', mainSerial c (vortex 1) initialX = .ok (m, o) ∧ mainOpenMP 2 c (vortex 1) initialX = .ok (m', o') ∧
      m (.d .mpsiy 0 j) = .val 0 ∧ m' (.d .mpsiy 0 j) = .val 0 ∧
      (∀ y, 0 < y → y ≤ 1 / 100 → g (posX c j) y ≤ g (posX c j) 0 - 9 / 10 * y) ∧
      ∀ d, HasDerivWithinAt (fun y => g (posX c j) y) d (Ici 0) 0 → d ≤ -9 / 10 := by
  obtain ⟨⟨m, o, e, r⟩, m', o', e', r'⟩ := C82_frozen (T := 1) hc hq initialX hdt hn hnu hp
  have hny : 0 < c.ny := by have := hc.ny3; omega
  have S (y : ℝ) (y0 : 0 < y) (y1 : y ≤ 1 / 100) : g (posX c j) y ≤ g (posX c j) 0 - 9 / 10 * y := by
    obtain ⟨K, -, -, -, ex⟩ := C78_vortex (T := 1) one_pos
    obtain ⟨X, Y, h, hX, hY⟩ := ex 0 (1 / 2) (by norm_num) (1 / 2) y
    have k := vortex_shear y0 y1 h hX hY
    rw [hh] at hg
    have := hg X Y h
    rw [hX, hY] at this
    rw [hm, this, exactAt_wall hg (.inr (.inl rfl))]
    exact k
  refine ⟨m, o, m', o', e, e', (r 0 hny j hj (.inr (.inl rfl))).2.2, (r' 0 hny j hj (.inr (.inl rfl))).2.2, S, fun d hd => ?_⟩
  have k := (hasDerivWithinAt_iff_tendsto_slope' (notMem_Ioi.2 le_rfl)).1 (hd.mono Ioi_subset_Ici_self)
  refine le_of_tendsto k ?_
  filter_upwards [Ioo_mem_nhdsGT (show (0 : ℝ) < 1 / 100 by norm_num)] with y hy
  have := S y hy.1 hy.2.le
  rw [slope_def_field, sub_zero, div_le_iff₀ hy.1]
  linarith

/-! ## Instances -/

theorem hasGrad_sin2 (x y : ℝ) : HasGrad (fun x y => sinD 0 x * sinD 0 y) (sinD 1 x * sinD 0 y) (sinD 0 x * sinD 1 y) (x, y) := by
  have h1 : HasFDerivAt (fun q : ℝ × ℝ => sinD 0 q.1) (sinD 1 x • ContinuousLinearMap.fst ℝ ℝ ℝ) (x, y) :=
    HasDerivAt.comp_hasFDerivAt (h₂ := sinD 0) (f := Prod.fst) (x, y) (sinD_deriv x) (hasFDerivAt_fst (𝕜 := ℝ) (p := (x, y)))
  have h2 : HasFDerivAt (fun q : ℝ × ℝ => sinD 0 q.2) (sinD 1 y • ContinuousLinearMap.snd ℝ ℝ ℝ) (x, y) :=
    HasDerivAt.comp_hasFDerivAt (h₂ := sinD 0) (f := Prod.snd) (x, y) (sinD_deriv y) (hasFDerivAt_snd (𝕜 := ℝ) (p := (x, y)))
  unfold HasGrad
  refine (h1.mul h2).congr_fderiv ?_
  ext <;> simp [grad, mul_comm]

/-- `C81_vortex` (and with it `C81_step`, `C81_serial`) for `sin x sin y` in step 7 on the grid of the programs, at an inner node. -/
example : ∃ m m' q r gx gy, stepSerial vortexSetting (vortex 1) vortexSetting.dx vortexSetting.dy 7 m = .ok m' ∧
    m' (.d .mpsix 30 40) = .val q ∧ m' (.d .mpsiy 30 40) = .val r ∧
    HasGrad (fun x y => sinD 0 (departAt (vortex 1).velx (vortex 1).vely vortexSetting.schemes.rk3 7 vortexSetting.dt x y).1 *
      sinD 0 (departAt (vortex 1).velx (vortex 1).vely vortexSetting.schemes.rk3 7 vortexSetting.dt x y).2) gx gy
      (posX vortexSetting 40, posY vortexSetting 30) ∧ |q - gx| ≤ 1 / 10 ^ 7 ∧ |r - gy| ≤ 1 / 10 ^ 7 := by
  obtain ⟨m, -, r⟩ := setup_ready vortexSetting_valid sinInitial
  have S : SampledOn vortexSetting (fun x y => sinD 0 x * sinD 0 y) (fun x y => sinD 1 x * sinD 0 y) (fun x y => sinD 0 x * sinD 1 y)
      (fun x y => sinD 1 x * sinD 1 y) (initialFields sinInitial (posX vortexSetting) (posY vortexSetting)) :=
    ⟨fun _ _ _ _ => rfl, fun _ _ _ _ => rfl, fun _ _ _ _ => rfl, fun _ _ _ _ => rfl⟩
  obtain ⟨m', e, -⟩ := C60_step_serial vortexSetting_valid (vortex 1) (t := 7) (by norm_num [uMod]) r
  obtain ⟨q, r, gx, gy, h1, h2, h3, h4, h5⟩ := C81_vortex 1 vortexSetting_valid vortexSetting_unit (by norm_num [vortexSetting])
    (by norm_num [vortexSetting]) rfl S (smooth_sin2 _ _ _ _) hasGrad_sin2 (t := 7) (by norm_num [uMod]) r (.inl e) (i := 30) (j := 40)
    (by norm_num) (by norm_num [vortexSetting]) (by norm_num) (by norm_num [vortexSetting])
  have hx : vortexSetting.dx = 1 / 127 := by rw [vortexSetting_valid.dx_eq]; norm_num [vortexSetting]
  have hy : vortexSetting.dy = 1 / 127 := by rw [vortexSetting_valid.dy_eq]; norm_num [vortexSetting]
  have b : 13 / 10 * max (slopeBoundX 1 1 1 vortexSetting.dx vortexSetting.dy) (slopeBoundY 1 1 1 vortexSetting.dx vortexSetting.dy) ≤
      1 / 10 ^ 7 := by
    rw [hx, hy]
    norm_num [slopeBoundX, slopeBoundY]
  exact ⟨m, m', q, r, gx, gy, e, h1, h2, h3, h4.trans b, h5.trans b⟩

/-- 3 x 3 nodes, 128 steps of 1/256. -/
noncomputable def halfSetting : Setting ℝ := ⟨0, 1, 3, 0, 1, 3, 1 / 256, 1 / 2, 1, 16, ⟨"SuperConsistent", "RK3"⟩⟩

/-- The hypotheses of `C82_frozen`, `C82_partial` and `C82_false`. -/
example : Valid halfSetting ∧ UnitSquare halfSetting ∧ Truncated (halfSetting.tfinal / halfSetting.dt) 128 ∧
    (1 ≤ printStep halfSetting 128 ∨ 128 = 0) ∧ ((128 : ℕ) : ℝ) * halfSetting.dt = 1 / 2 ∧ posX halfSetting 1 = 1 / 2 ∧
    ∃ g, ExactAt (vortex 1) ((128 : ℕ) * halfSetting.dt) initialX.phi g := by
  refine ⟨by constructor <;> norm_num [halfSetting, uMod], by constructor <;> simp [halfSetting], by constructor <;> norm_num [halfSetting],
    .inl (by norm_num [printStep, halfSetting]), by norm_num [halfSetting], by norm_num [posX, halfSetting], exactAt_exists one_pos (by norm_num [halfSetting]) _⟩

/-- What follows at its middle node of the lower wall: the slope across is stored as 0 although the exact solution is lower by 0.009 at
the height 0.01. -/
example : ∃ m o g, mainOpenMP 2 halfSetting (vortex 1) initialX = .ok (m, o) ∧ m (.d .mpsiy 0 1) = .val 0 ∧
    ExactAt (vortex 1) (1 / 2) (fun x _ => x) g ∧ g (1 / 2) (1 / 100) ≤ g (1 / 2) 0 - 9 / 1000 := by
  have hh : ((128 : ℕ) : ℝ) * halfSetting.dt = 1 / 2 := by norm_num [halfSetting]
  have hm : posX halfSetting 1 = 1 / 2 := by norm_num [posX, halfSetting]
  obtain ⟨g, hg⟩ := exactAt_exists (T := 1) one_pos (t := (128 : ℕ) * halfSetting.dt) (by norm_num [halfSetting]) initialX.phi
  obtain ⟨-, -, m, o, -, e, -, h, s, -⟩ := C82_false (c := halfSetting) (by constructor <;> norm_num [halfSetting, uMod])
    (by constructor <;> simp [halfSetting]) (n := 128) (by norm_num [halfSetting]) (by constructor <;> norm_num [halfSetting])
    (by norm_num [uMod]) (.inl (by norm_num [printStep, halfSetting])) hh (j := 1) (by norm_num [halfSetting]) hm hg
  refine ⟨m, o, g, e, h, by rw [hh] at hg; exact hg, ?_⟩
  have := s (1 / 100) (by norm_num) le_rfl
  rw [hm] at this
  linarith

end Gals.Props
