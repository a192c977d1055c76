import Verif.Props.RefOrder
import Verif.Props.Accuracy
import Verif.Props.RefExact
import Mathlib.Analysis.Real.Pi.Bounds

/-!
# C79: accuracy of a time step of the reference code

Over the real numbers.  The fields before the step are those of a smooth function; the level set after the step is compared with
the function carried along the particle paths.
-/

set_option linter.unusedSectionVars false

namespace Gals.Props

open Gals Gals.Ref Spec Set

/-- The fields are values, gradients and mixed derivatives of `f` at the nodes. -/
structure SampledOn (c : Setting ℝ) (f fx fy fxy : ℝ → ℝ → ℝ) (F : Fields ℝ) : Prop where
  phi : ∀ i < c.ny, ∀ j < c.nx, F.phi i j = f (posX c j) (posY c i)
  psix : ∀ i < c.ny, ∀ j < c.nx, F.psix i j = fx (posX c j) (posY c i)
  psiy : ∀ i < c.ny, ∀ j < c.nx, F.psiy i j = fy (posX c j) (posY c i)
  psixy : ∀ i < c.ny, ∀ j < c.nx, F.psixy i j = fxy (posX c j) (posY c i)

/-- Bound of the interpolation error of the value (C77). -/
noncomputable def valueBound (M40 M04 M14 dx dy : ℝ) : ℝ := M40 * dx ^ 4 / 384 + (M04 + dx / 4 * M14) * dy ^ 4 / 384
/-- Bounds of the interpolation error of the gradient (C77). -/
noncomputable def slopeBoundX (M40 M14 M41 dx dy : ℝ) : ℝ := M14 * dy ^ 4 / 384 + (M40 + dy / 4 * M41) * dx ^ 3 / 24
/-- Bounds of the interpolation error of the gradient (C77). -/
noncomputable def slopeBoundY (M04 M14 M41 dx dy : ℝ) : ℝ := M41 * dx ^ 4 / 384 + (M04 + dx / 4 * M14) * dy ^ 3 / 24

/-- A point between the first and the last of equally spaced nodes is in its cell. -/
theorem cellAlong_mem {xs : ℕ → ℝ} {n : ℕ} {d p : ℝ} (hn : 2 ≤ n) (inc : ∀ i j, i < j → j < n → xs i < xs j)
    (ex : ∀ k, xs (k + 1) = xs k + d) (h0 : xs 0 ≤ p) (h1 : p ≤ xs (n - 1)) :
    cellAlong xs n p + 1 < n ∧ p ∈ Icc (xs (cellAlong xs n p)) (xs (cellAlong xs n p) + d) := by
  by_cases h : xs 0 < p ∧ p < xs (n - 1)
  · obtain ⟨c, hc⟩ : ∃ c, Encloses xs n p c := by
      have : ∃ k, k < n ∧ p ≤ xs k := ⟨n - 1, by omega, h1⟩
      classical
      refine ⟨Nat.find this - 1, ?_⟩
      have s := Nat.find_spec this
      have z : Nat.find this ≠ 0 := fun e => by rw [e] at s; exact absurd s.2 (not_le.2 h.1)
      have m := Nat.find_min this (m := Nat.find this - 1) (by omega)
      refine ⟨by omega, lt_of_not_ge fun hh => m ⟨by omega, hh⟩, ?_⟩
      rw [Nat.sub_add_cancel (by omega)]
      exact s.2
    rw [cellAlong_inside inc hc h.1 h.2, ← ex]
    exact ⟨hc.1, hc.2.1.le, hc.2.2⟩
  · rw [cellAlong_outside h]
    split
    · rename_i hp
      obtain rfl := le_antisymm hp h0
      exact ⟨by omega, le_rfl, by rw [← ex]; exact (inc 0 1 (by omega) (by omega)).le⟩
    · rename_i hp
      have e : p = xs (n - 1) := le_antisymm h1 (not_lt.1 fun hh => h ⟨not_le.1 hp, hh⟩)
      have e2 : n - 1 = n - 2 + 1 := by omega
      rw [← ex, ← e2, ← e]
      exact ⟨by omega, by rw [e]; exact (inc _ _ (by omega) (by omega)).le, le_rfl⟩

section step
variable {c : Setting ℝ} (hc : Valid c) {f fx fy fxy : ℝ → ℝ → ℝ} {F : Fields ℝ} (hF : SampledOn c f fx fy fxy F)
  {M40 M04 M14 M41 : ℝ} (hf : Smooth2 f fx fy fxy c.xlim1 c.xlim2 c.ylim1 c.ylim2 M40 M04 M14 M41)
include hc hF hf

/-- The interpolant on the cell of a point of the domain. -/
theorem bicubic_error {p : ℝ × ℝ} (h0 : p.1 ∈ Icc c.xlim1 c.xlim2) (h1 : p.2 ∈ Icc c.ylim1 c.ylim2) :
    let a := cellAlong (posX c) c.nx p.1
    let b := cellAlong (posY c) c.ny p.2
    |cellBicubic F.phi F.psix F.psiy F.psixy (posX c) (posY c) c.dx c.dy b a p.1 p.2 - f p.1 p.2| ≤
        valueBound M40 M04 M14 c.dx c.dy ∧
      |cellBicubicX F.phi F.psix F.psiy F.psixy (posX c) (posY c) c.dx c.dy b a p.1 p.2 - fx p.1 p.2| ≤
        slopeBoundX M40 M14 M41 c.dx c.dy ∧
      |cellBicubicY F.phi F.psix F.psiy F.psixy (posX c) (posY c) c.dx c.dy b a p.1 p.2 - fy p.1 p.2| ≤
        slopeBoundY M04 M14 M41 c.dx c.dy := by
  intro a b
  have sx (k : ℕ) : posX c (k + 1) = posX c k + c.dx := by rw [hc.dx_eq]; exact hc.stepX k
  have sy (k : ℕ) : posY c (k + 1) = posY c k + c.dy := by rw [hc.dy_eq]; exact hc.stepY k
  obtain ⟨a1, a2⟩ := cellAlong_mem (p := p.1) (by have := hc.nx3; omega) hc.incX sx (by rw [hc.firstX]; exact h0.1) (by rw [hc.lastX]; exact h0.2)
  obtain ⟨b1, b2⟩ := cellAlong_mem (p := p.2) (by have := hc.ny3; omega) hc.incY sy (by rw [hc.firstY]; exact h1.1) (by rw [hc.lastY]; exact h1.2)
  have mx {i j : ℕ} (hij : i ≤ j) (hj : j < c.nx) : posX c i ≤ posX c j := by
    rcases hij.eq_or_lt with rfl | h
    · exact le_rfl
    · exact (hc.incX _ _ h hj).le
  have my {i j : ℕ} (hij : i ≤ j) (hj : j < c.ny) : posY c i ≤ posY c j := by
    rcases hij.eq_or_lt with rfl | h
    · exact le_rfl
    · exact (hc.incY _ _ h hj).le
  have E := C77_reference f fx fy fxy M40 M04 M14 M41 (posX c a) (posY c b) c.dx c.dy hc.dx_pos hc.dy_pos
    (hf.mono (by rw [← hc.firstX]; exact mx (by omega) (by omega)) (by rw [← sx, ← hc.lastX]; exact mx (by omega) (by omega))
      (by rw [← hc.firstY]; exact my (by omega) (by omega)) (by rw [← sy, ← hc.lastY]; exact my (by omega) (by omega)))
    p.1 p.2 a2 b2
  have ed : sampled f fx fy fxy (posX c a) (posY c b) c.dx c.dy = cellData F.phi F.psix F.psiy F.psixy b a := by
    have ha : a < c.nx := by omega
    have ha' : a + 1 < c.nx := a1
    have hb : b < c.ny := by omega
    have hb' : b + 1 < c.ny := b1
    simp only [sampled, cellData, ← sx, ← sy, hF.phi _ hb _ ha, hF.phi _ hb _ ha', hF.phi _ hb' _ ha, hF.phi _ hb' _ ha',
      hF.psix _ hb _ ha, hF.psix _ hb _ ha', hF.psix _ hb' _ ha, hF.psix _ hb' _ ha',
      hF.psiy _ hb _ ha, hF.psiy _ hb _ ha', hF.psiy _ hb' _ ha, hF.psiy _ hb' _ ha',
      hF.psixy _ hb _ ha, hF.psixy _ hb _ ha', hF.psixy _ hb' _ ha, hF.psixy _ hb' _ ha']
  dsimp only at E
  rw [ed, hp_eq _ _ _ _ (posX c) (posY c), hermx_eq _ _ _ _ (posX c) (posY c), hermy_eq _ _ _ _ (posX c) (posY c)] at E
  exact E

/-- The node `(i, j)` departs inside the domain, or stays on a side where the velocity across vanishes. -/
structure Stays (c : Setting ℝ) (v : Vel ℝ) (t i j : ℕ) (p : ℝ × ℝ) : Prop where
  x : (c.xlim1 < p.1 ∧ p.1 < c.xlim2) ∨ (p.1 = posX c j ∧ v.velx (posX c j) (posY c i) (t * c.dt) = 0)
  y : (c.ylim1 < p.2 ∧ p.2 < c.ylim2) ∨ (p.2 = posY c i ∧ v.vely (posX c j) (posY c i) (t * c.dt) = 0)

omit hF hf in
theorem pos_mem {i j : ℕ} (hi : i < c.ny) (hj : j < c.nx) : posX c j ∈ Icc c.xlim1 c.xlim2 ∧ posY c i ∈ Icc c.ylim1 c.ylim2 := by
  rw [← hc.firstX, ← hc.lastX, ← hc.firstY, ← hc.lastY]
  refine ⟨⟨?_, ?_⟩, ?_, ?_⟩
  · rcases Nat.eq_zero_or_pos j with rfl | h
    · exact le_rfl
    · exact (hc.incX _ _ h hj).le
  · rcases (by omega : j = c.nx - 1 ∨ j < c.nx - 1) with rfl | h
    · exact le_rfl
    · exact (hc.incX _ _ h (by omega)).le
  · rcases Nat.eq_zero_or_pos i with rfl | h
    · exact le_rfl
    · exact (hc.incY _ _ h hi).le
  · rcases (by omega : i = c.ny - 1 ∨ i < c.ny - 1) with rfl | h
    · exact le_rfl
    · exact (hc.incY _ _ h (by omega)).le

/-- The new value is near the value of the function at the departure point. -/
theorem nodeAt_value (v : Vel ℝ) (s : Schemes) (t : ℕ) {i j : ℕ} (hi : i < c.ny) (hj : j < c.nx) {p : ℝ × ℝ}
    (hp : Stays c v t i j p) :
    |(nodeAt v s t c.dt c.dx c.dy (posX c) (posY c) c.nx c.ny F p i j).1 - f p.1 p.2| ≤ valueBound M40 M04 M14 c.dx c.dy := by
  obtain ⟨nx, ny⟩ := pos_mem hc hi hj
  have m0 : p.1 ∈ Icc c.xlim1 c.xlim2 := by
    rcases hp.x with h | h
    · exact ⟨h.1.le, h.2.le⟩
    · rw [h.1]; exact nx
  have m1 : p.2 ∈ Icc c.ylim1 c.ylim2 := by
    rcases hp.y with h | h
    · exact ⟨h.1.le, h.2.le⟩
    · rw [h.1]; exact ny
  obtain ⟨E, -⟩ := bicubic_error hc hF hf m0 m1
  have X (h : ¬ (posX c 0 < p.1 ∧ p.1 < posX c (c.nx - 1))) : p.1 = posX c j ∧ v.velx (posX c j) (posY c i) (t * c.dt) = 0 :=
    hp.x.resolve_left (by rwa [hc.firstX, hc.lastX] at h)
  have Y (h : ¬ (posY c 0 < p.2 ∧ p.2 < posY c (c.ny - 1))) : p.2 = posY c i ∧ v.vely (posX c j) (posY c i) (t * c.dt) = 0 :=
    hp.y.resolve_left (by rwa [hc.firstY, hc.lastY] at h)
  simp only [nodeAt, nodeSpec, updateNode, cellX, cellY]
  by_cases hx : posX c 0 < p.1 ∧ p.1 < posX c (c.nx - 1) <;> by_cases hy : posY c 0 < p.2 ∧ p.2 < posY c (c.ny - 1)
  · simpa only [classOf, if_pos hx, if_pos hy, show ¬ (1 : ℕ) = 4 by decide, if_false] using E
  · obtain ⟨y1, y2⟩ := Y hy
    simp only [classOf, if_pos hx, if_neg hy, show ¬ (2 : ℕ) = 4 by decide, if_false, y2, mul_zero, zero_mul, sub_zero]
    rw [← y1]
    exact E
  · obtain ⟨x1, x2⟩ := X hx
    simp only [classOf, if_neg hx, if_pos hy, show ¬ (3 : ℕ) = 4 by decide, if_false, x2, mul_zero, zero_mul, sub_zero]
    rw [← x1]
    exact E
  · obtain ⟨x1, x2⟩ := X hx
    obtain ⟨y1, y2⟩ := Y hy
    simp only [classOf, if_neg hx, if_neg hy, x2, y2, mul_zero, zero_mul, add_zero, sub_zero]
    rw [hF.phi i hi j hj, x1, y1, sub_self, abs_zero]
    exact (abs_nonneg _).trans E

end step

/-! ## A step -/

/-- The level set in memory is near the function carried along the paths, at the nodes of the first `nx` columns and `ny` rows that
depart inside the domain or stay on a side where the velocity across vanishes. -/
def CarriedTo (c : Setting ℝ) (v : Vel ℝ) (t nx ny : ℕ) (f : ℝ → ℝ → ℝ) (err : ℝ) (m : Mem (Val ℝ)) : Prop :=
  ∀ i < ny, ∀ j < nx, Stays c v t i j (departAt v.velx v.vely c.schemes.rk3 t c.dt (posX c j) (posY c i)) →
    ∀ X Y, Characteristic v.velx v.vely X Y (t * c.dt) ((t + 1) * c.dt) → X ((t + 1) * c.dt) = posX c j →
      Y ((t + 1) * c.dt) = posY c i → ∃ q, m (.d .mphi i j) = .val q ∧ |q - f (X (t * c.dt)) (Y (t * c.dt))| ≤ err

section programs
variable {c : Setting ℝ} (hc : Valid c) {f fx fy fxy : ℝ → ℝ → ℝ} {F : Fields ℝ} (hF : SampledOn c f fx fy fxy F)
  {M40 M04 M14 M41 : ℝ} (hf : Smooth2 f fx fy fxy c.xlim1 c.xlim2 c.ylim1 c.ylim2 M40 M04 M14 M41)
  {L : ℝ} (hL : ∀ x y x' y', |f x y - f x' y'| ≤ L * (|x - x'| + |y - y'|)) (v : Vel ℝ) {K : ℝ} (hK : 1 ≤ K)
  (hu : Bounded3 (field v.velx) K) (hv : Bounded3 (field v.vely) K) (h0 : 0 ≤ c.dt)
include hL hK hu hv h0

/-- From the departure point to the path. -/
theorem carried_path {t i j : ℕ} {q B : ℝ} {X Y : ℝ → ℝ}
    (A : |q - f (departAt v.velx v.vely c.schemes.rk3 t c.dt (posX c j) (posY c i)).1
      (departAt v.velx v.vely c.schemes.rk3 t c.dt (posX c j) (posY c i)).2| ≤ B)
    (hc' : Characteristic v.velx v.vely X Y (t * c.dt) ((t + 1) * c.dt)) (hX : X ((t + 1) * c.dt) = posX c j)
    (hY : Y ((t + 1) * c.dt) = posY c i) :
    |q - f (X (t * c.dt)) (Y (t * c.dt))| ≤ B + 2 * L * departBound c.schemes.rk3 K c.dt := by
  obtain ⟨d1, d2⟩ := C78_order hK hu hv c.schemes.rk3 t h0 hc'
  rw [hX, hY] at d1 d2
  have B := hL (departAt v.velx v.vely c.schemes.rk3 t c.dt (posX c j) (posY c i)).1
    (departAt v.velx v.vely c.schemes.rk3 t c.dt (posX c j) (posY c i)).2 (X (t * c.dt)) (Y (t * c.dt))
  have L0 : 0 ≤ L := by
    have := (abs_nonneg _).trans (hL 0 0 1 0)
    norm_num at this
    exact this
  have C := B.trans (mul_le_mul_of_nonneg_left (add_le_add d1 d2) L0)
  refine (abs_sub_le _ _ _).trans ((add_le_add A C).trans_eq (by ring))

include hc hF hf

theorem carried {t nx ny : ℕ} (hx : nx ≤ c.nx) (hy : ny ≤ c.ny) {dep : ℕ → ℕ → ℝ × ℝ}
    (hd : ∀ i < ny, ∀ j < nx, dep i j = departs c v t i j) {m : Mem (Val ℝ)} (hm : Grid2 m .mphi c.nx c.ny
      (advance v c.schemes t c.dt c.dx c.dy (posX c) (posY c) c.nx c.ny dep F).phi) :
    CarriedTo c v t nx ny f (valueBound M40 M04 M14 c.dx c.dy + 2 * L * departBound c.schemes.rk3 K c.dt) m := by
  intro i hi j hj hs X Y hc' hX hY
  refine ⟨_, hm i (by omega) j (by omega), carried_path hL v hK hu hv h0 ?_ hc' hX hY⟩
  simp only [advance, hd i hi j hj]
  exact nodeAt_value hc hF hf v c.schemes t (by omega) (by omega) hs

/-- **C79** for the OpenMP program: a step with one thread is defined, and under every schedule of its loops the new level set
is near the old one carried along the particle paths. -/
theorem C79_step {t : ℕ} (ht : t + 1 < uMod) {m : Mem (Val ℝ)} (h : Ready m c.nx c.ny (posX c) (posY c) F) :
    let err := valueBound M40 M04 M14 c.dx c.dy + 2 * L * departBound c.schemes.rk3 K c.dt
    (∃ m', stepOpenMP c v c.dx c.dy t m = .ok m' ∧ CarriedTo c v t c.nx c.ny f err m') ∧
      ∀ m', OmpStep ParFor c v c.dx c.dy t m m' → CarriedTo c v t c.nx c.ny f err m' := by
  intro err
  constructor
  · obtain ⟨m', e, r⟩ := C60_step hc v ht h
    exact ⟨m', e, carried hc hF hf hL v hK hu hv h0 le_rfl le_rfl (fun _ _ _ _ => rfl) r.phi⟩
  · intro m' hs
    exact carried hc hF hf hL v hK hu hv h0 le_rfl le_rfl (fun _ _ _ _ => rfl) ((C60_openmp_partial hc v ht h).2 hs).1

/-- **C79** for the serial program, whose last row and column have no departure points. -/
theorem C79_serial {t : ℕ} (ht : t + 1 < uMod) {m : Mem (Val ℝ)} (h : Ready m c.nx c.ny (posX c) (posY c) F) :
    ∃ m', stepSerial c v c.dx c.dy t m = .ok m' ∧ CarriedTo c v t (c.nx - 1) (c.ny - 1) f
      (valueBound M40 M04 M14 c.dx c.dy + 2 * L * departBound c.schemes.rk3 K c.dt) m' := by
  obtain ⟨m', e, r⟩ := C60_step_serial hc v ht h
  exact ⟨m', e, carried hc hF hf hL v hK hu hv h0 (Nat.sub_le _ _) (Nat.sub_le _ _) (fun i hi j hj => if_pos (by omega)) r.phi⟩

end programs

/-! ## The vortex -/

/-- Stages of the methods near a wall: velocities that vanish with the square of the distance `d` to it do not reach it. -/
theorem stages_away {h d u1 u2 u3 d2 d3 : ℝ} (h0 : 0 ≤ h) (h1 : h ≤ 1 / 40) (d0 : 0 < d) (d1 : d ≤ 1) (b1 : |u1| ≤ 10 * d ^ 2)
    (e2 : |d2| ≤ d + |h * u1|) (b2 : |u2| ≤ 10 * d2 ^ 2) (e3 : |d3| ≤ d + |h * (u1 + u2) / 4|) (b3 : |u3| ≤ 10 * d3 ^ 2) :
    |h * u1| < d ∧ |h * (u1 + u2 + 4 * u3) / 6| < d := by
  have hd : h * d ^ 2 ≤ d / 40 := by
    rw [show d / 40 = 1 / 40 * d by ring, sq]
    exact mul_le_mul h1 (by nlinarith) (by positivity) (by norm_num)
  have s {w k : ℝ} (hw : |w| ≤ k * d ^ 2) (k0 : 0 ≤ k) : |h * w| ≤ k * d / 40 := by
    rw [abs_mul, abs_of_nonneg h0]
    calc h * |w| ≤ h * (k * d ^ 2) := mul_le_mul_of_nonneg_left hw h0
      _ = k * (h * d ^ 2) := by ring
      _ ≤ k * (d / 40) := mul_le_mul_of_nonneg_left hd k0
      _ = k * d / 40 := by ring
  have sq4 {w e : ℝ} (hw : |w| ≤ 10 * e ^ 2) (he : |e| ≤ 5 / 4 * d) : |w| ≤ 16 * d ^ 2 := by
    have := pow_le_pow_left₀ (abs_nonneg e) he 2
    rw [sq_abs] at this
    nlinarith
  have a1 := s b1 (by norm_num)
  have c2 := sq4 b2 (by linarith)
  have a2 := s c2 (by norm_num)
  have t3 : |h * (u1 + u2) / 4| ≤ 1 / 4 * d := by
    rw [abs_div, abs_of_pos (by norm_num : (0 : ℝ) < 4), mul_add]
    have := abs_add_le (h * u1) (h * u2)
    linarith
  have c3 := sq4 b3 (by linarith)
  have a3 := s c3 (by norm_num)
  refine ⟨by linarith, ?_⟩
  rw [abs_div, abs_of_pos (by norm_num : (0 : ℝ) < 6), show h * (u1 + u2 + 4 * u3) = h * u1 + h * u2 + 4 * (h * u3) by ring]
  have q1 := abs_add_le (h * u1 + h * u2) (4 * (h * u3))
  have q2 := abs_add_le (h * u1) (h * u2)
  rw [abs_mul 4, abs_of_pos (by norm_num : (0 : ℝ) < 4)] at q1
  linarith

open Real in
theorem sin_sq_wall (x : ℝ) : sin (π * x) ^ 2 ≤ 10 * x ^ 2 ∧ sin (π * x) ^ 2 ≤ 10 * (1 - x) ^ 2 := by
  have k (z : ℝ) : sin (π * z) ^ 2 ≤ 10 * z ^ 2 := by
    have a : sin (π * z) ^ 2 ≤ (π * z) ^ 2 := sq_le_sq.2 (abs_sin_le_abs)
    have b : π ^ 2 ≤ 10 := by nlinarith [pi_lt_d2, pi_pos]
    nlinarith [sq_nonneg z]
  refine ⟨k x, ?_⟩
  have := k (1 - x)
  rwa [mul_sub, mul_one, sin_pi_sub] at this

open Real in
theorem vortex_wall (T x y t : ℝ) :
    (|(vortex T).velx x y t| ≤ 10 * x ^ 2 ∧ |(vortex T).velx x y t| ≤ 10 * (1 - x) ^ 2) ∧
      |(vortex T).vely x y t| ≤ 10 * y ^ 2 ∧ |(vortex T).vely x y t| ≤ 10 * (1 - y) ^ 2 := by
  have a (p q r : ℝ) : |sin (π * p) ^ 2 * sin (2 * π * q) * cos r| ≤ sin (π * p) ^ 2 := by
    rw [abs_mul, abs_mul, abs_of_nonneg (sq_nonneg _)]
    calc _ ≤ sin (π * p) ^ 2 * 1 * 1 := by
          gcongr
          · exact abs_sin_le_one _
          · exact abs_cos_le_one _
      _ = _ := by ring
  have b : |(vortex T).vely x y t| ≤ sin (π * y) ^ 2 := by
    rw [show (vortex T).vely x y t = -(sin (π * y) ^ 2 * sin (2 * π * x) * cos (π * t / T)) by simp only [vortex]; ring, abs_neg]
    exact a _ _ _
  exact ⟨⟨(a _ _ _).trans (sin_sq_wall x).1, (a _ _ _).trans (sin_sq_wall x).2⟩, b.trans (sin_sq_wall y).1, b.trans (sin_sq_wall y).2⟩

/-- A point on a side, or in the open interval. -/
theorem side_or {x : ℝ} (h : x ∈ Icc (0 : ℝ) 1) : (x = 0 ∨ x = 1) ∨ (0 < x ∧ x < 1) := by
  rcases h.1.eq_or_lt with e | a
  · exact .inl (.inl e.symm)
  · rcases h.2.eq_or_lt with e | b
    · exact .inl (.inr e)
    · exact .inr ⟨a, b⟩

/-- The departure points of the vortex in the unit square: inside the square, on the same side from a side. -/
theorem vortex_depart (T : ℝ) (rk3 : Bool) (t : ℕ) {dt x y : ℝ} (h0 : 0 ≤ dt) (h1 : dt ≤ 1 / 40) (hx : x ∈ Icc (0 : ℝ) 1)
    (hy : y ∈ Icc (0 : ℝ) 1) :
    let p := departAt (vortex T).velx (vortex T).vely rk3 t dt x y
    ((0 < p.1 ∧ p.1 < 1) ∨ (p.1 = x ∧ (x = 0 ∨ x = 1))) ∧ ((0 < p.2 ∧ p.2 < 1) ∨ (p.2 = y ∧ (y = 0 ∨ y = 1))) := by
  intro p
  have W := vortex_wall T
  have w0 := fun s t => (C49_walls T s t).1
  have w1 := fun s t => (C49_walls T s t).2.1
  have w2 := fun s t => (C49_walls T s t).2.2.1
  have w3 := fun s t => (C49_walls T s t).2.2.2.1
  have tri (a b : ℝ) (ha : 0 < a) : |a - b| ≤ a + |b| := by
    have := abs_sub a b
    rwa [abs_of_pos ha] at this
  have tri' (a b : ℝ) (ha : a < 1) : |1 - (a - b)| ≤ (1 - a) + |b| := by
    have := abs_add_le (1 - a) b
    rw [abs_of_pos (by linarith : 0 < 1 - a)] at this
    rwa [show 1 - (a - b) = 1 - a + b by ring]
  have fin {a b : ℝ} (l : |b| < a) (r : |b| < 1 - a) : 0 < a - b ∧ a - b < 1 := by
    obtain ⟨l1, l2⟩ := abs_lt.1 l
    obtain ⟨r1, r2⟩ := abs_lt.1 r
    constructor <;> linarith
  constructor
  · rcases side_or hx with hs | ⟨a, b⟩
    · refine .inr ⟨?_, hs⟩
      cases rk3 <;> rcases hs with rfl | rfl <;>
        simp only [p, departAt, departRK3, departEuler, if_true, Bool.false_eq_true, if_false, w0, w1, mul_zero, add_zero,
          zero_div, sub_zero]
    · left
      have L := stages_away h0 h1 a b.le (W x y ((t + 1) * dt)).1.1 (tri _ _ a) (W _ (y - dt * (vortex T).vely x y ((t + 1) * dt))
        (t * dt)).1.1 (tri _ _ a) (W _ (y - dt * ((vortex T).vely x y ((t + 1) * dt) + (vortex T).vely
          (x - dt * (vortex T).velx x y ((t + 1) * dt)) (y - dt * (vortex T).vely x y ((t + 1) * dt)) (t * dt)) / 4) ((t + 1 / 2) * dt)).1.1
      have R := stages_away h0 h1 (sub_pos.2 b) (by linarith) (W x y ((t + 1) * dt)).1.2 (tri' _ _ b)
        (W _ (y - dt * (vortex T).vely x y ((t + 1) * dt)) (t * dt)).1.2 (tri' _ _ b)
        (W _ (y - dt * ((vortex T).vely x y ((t + 1) * dt) + (vortex T).vely (x - dt * (vortex T).velx x y ((t + 1) * dt))
          (y - dt * (vortex T).vely x y ((t + 1) * dt)) (t * dt)) / 4) ((t + 1 / 2) * dt)).1.2
      cases rk3
      · exact fin L.1 R.1
      · exact fin L.2 R.2
  · rcases side_or hy with hs | ⟨a, b⟩
    · refine .inr ⟨?_, hs⟩
      cases rk3 <;> rcases hs with rfl | rfl <;>
        simp only [p, departAt, departRK3, departEuler, if_true, Bool.false_eq_true, if_false, w2, w3, mul_zero, add_zero,
          zero_div, sub_zero]
    · left
      have L := stages_away h0 h1 a b.le (W x y ((t + 1) * dt)).2.1 (tri _ _ a) (W (x - dt * (vortex T).velx x y ((t + 1) * dt)) _
        (t * dt)).2.1 (tri _ _ a) (W (x - dt * ((vortex T).velx x y ((t + 1) * dt) + (vortex T).velx
          (x - dt * (vortex T).velx x y ((t + 1) * dt)) (y - dt * (vortex T).vely x y ((t + 1) * dt)) (t * dt)) / 4) _ ((t + 1 / 2) * dt)).2.1
      have R := stages_away h0 h1 (sub_pos.2 b) (by linarith) (W x y ((t + 1) * dt)).2.2 (tri' _ _ b)
        (W (x - dt * (vortex T).velx x y ((t + 1) * dt)) _ (t * dt)).2.2 (tri' _ _ b)
        (W (x - dt * ((vortex T).velx x y ((t + 1) * dt) + (vortex T).velx (x - dt * (vortex T).velx x y ((t + 1) * dt))
          (y - dt * (vortex T).vely x y ((t + 1) * dt)) (t * dt)) / 4) _ ((t + 1 / 2) * dt)).2.2
      cases rk3
      · exact fin L.1 R.1
      · exact fin L.2 R.2

/-- The unit square. -/
structure UnitSquare (c : Setting ℝ) : Prop where
  x1 : c.xlim1 = 0
  x2 : c.xlim2 = 1
  y1 : c.ylim1 = 0
  y2 : c.ylim2 = 1

/-- In the unit square all nodes stay. -/
theorem vortex_stays {c : Setting ℝ} (hc : Valid c) (hs : UnitSquare c) (T : ℝ) (t : ℕ) (h0 : 0 ≤ c.dt) (h1 : c.dt ≤ 1 / 40)
    {i j : ℕ} (hi : i < c.ny) (hj : j < c.nx) : Stays c (vortex T) t i j
      (departAt (vortex T).velx (vortex T).vely c.schemes.rk3 t c.dt (posX c j) (posY c i)) := by
  obtain ⟨mx, my⟩ := pos_mem hc hi hj
  rw [hs.x1, hs.x2] at mx
  rw [hs.y1, hs.y2] at my
  obtain ⟨a, b⟩ := vortex_depart T c.schemes.rk3 t h0 h1 mx my
  constructor
  · rw [hs.x1, hs.x2]
    refine a.imp_right fun h => ⟨h.1, ?_⟩
    rcases h.2 with e | e <;> rw [e]
    · exact (C49_walls T _ _).1
    · exact (C49_walls T _ _).2.1
  · rw [hs.y1, hs.y2]
    refine b.imp_right fun h => ⟨h.1, ?_⟩
    rcases h.2 with e | e <;> rw [e]
    · exact (C49_walls T _ _).2.2.1
    · exact (C49_walls T _ _).2.2.2.1

/-- The level set in memory is near the function carried along the paths, at all nodes. -/
def CarriedAll (c : Setting ℝ) (v : Vel ℝ) (t : ℕ) (f : ℝ → ℝ → ℝ) (err : ℝ) (m : Mem (Val ℝ)) : Prop :=
  ∀ i < c.ny, ∀ j < c.nx, ∃ q, m (.d .mphi i j) = .val q ∧
    (∃ X Y, Characteristic v.velx v.vely X Y (t * c.dt) ((t + 1) * c.dt) ∧ X ((t + 1) * c.dt) = posX c j ∧
      Y ((t + 1) * c.dt) = posY c i) ∧
    ∀ X Y, Characteristic v.velx v.vely X Y (t * c.dt) ((t + 1) * c.dt) → X ((t + 1) * c.dt) = posX c j →
      Y ((t + 1) * c.dt) = posY c i → |q - f (X (t * c.dt)) (Y (t * c.dt))| ≤ err

open Real in
/-- The walls of the unit square are at rest in the vortex. -/
theorem vortex_rest (T : ℝ) {x y : ℝ} (h : (x = 0 ∨ x = 1) ∨ y = 0 ∨ y = 1) (t : ℝ) :
    (vortex T).velx x y t = 0 ∧ (vortex T).vely x y t = 0 := by
  rcases h with (rfl | rfl) | rfl | rfl <;> simp [vortex]

/-- They do not depart. -/
theorem vortex_depart_wall (T : ℝ) {x y : ℝ} (h : (x = 0 ∨ x = 1) ∨ y = 0 ∨ y = 1) (rk3 : Bool) (t : ℕ) (dt : ℝ) :
    departAt (vortex T).velx (vortex T).vely rk3 t dt x y = (x, y) := by
  have r := fun t => vortex_rest T h t
  cases rk3 <;>
    simp only [departAt, departRK3, departEuler, if_true, Bool.false_eq_true, if_false, fun t => (r t).1, fun t => (r t).2,
      mul_zero, add_zero, zero_div, sub_zero]

/-- A node of the last row or column with the departure point zero of the serial program keeps its value. -/
theorem vortex_last {c : Setting ℝ} (hc : Valid c) (hs : UnitSquare c) (T : ℝ) (t : ℕ) (F : Fields ℝ) {i j : ℕ}
    (h : (posX c j = 0 ∨ posX c j = 1) ∨ posY c i = 0 ∨ posY c i = 1) :
    (nodeAt (vortex T) c.schemes t c.dt c.dx c.dy (posX c) (posY c) c.nx c.ny F (0, 0) i j).1 = F.phi i j := by
  have hx : ¬ (posX c 0 < 0 ∧ 0 < posX c (c.nx - 1)) := by rw [hc.firstX, hs.x1]; exact fun h => lt_irrefl _ h.1
  have hy : ¬ (posY c 0 < 0 ∧ 0 < posY c (c.ny - 1)) := by rw [hc.firstY, hs.y1]; exact fun h => lt_irrefl _ h.1
  obtain ⟨x2, y2⟩ := vortex_rest T h (t * c.dt)
  simp only [nodeAt, nodeSpec, updateNode, classOf, if_neg hx, if_neg hy, x2, y2, mul_zero, zero_mul, add_zero, sub_zero]

/-- **C79** for the vortex in the unit square: there is one constant for all grids, time steps up to 1/40, steps and smooth
functions; the path to every node exists. -/
theorem C79_vortex {T : ℝ} (hT : 0 < T) : ∃ K, 1 ≤ K ∧ ∀ c : Setting ℝ, Valid c → UnitSquare c → 0 ≤ c.dt → c.dt ≤ 1 / 40 →
    ∀ f fx fy fxy F M40 M04 M14 M41 L, SampledOn c f fx fy fxy F → Smooth2 f fx fy fxy 0 1 0 1 M40 M04 M14 M41 →
    (∀ x y x' y', |f x y - f x' y'| ≤ L * (|x - x'| + |y - y'|)) → ∀ t, t + 1 < uMod → ∀ m,
    Ready m c.nx c.ny (posX c) (posY c) F →
    let err := valueBound M40 M04 M14 c.dx c.dy + 2 * L * departBound c.schemes.rk3 K c.dt
    (∃ m', stepSerial c (vortex T) c.dx c.dy t m = .ok m' ∧ CarriedAll c (vortex T) t f err m') ∧
    (∃ m', stepOpenMP c (vortex T) c.dx c.dy t m = .ok m' ∧ CarriedAll c (vortex T) t f err m') ∧
      ∀ m', OmpStep ParFor c (vortex T) c.dx c.dy t m m' → CarriedAll c (vortex T) t f err m' := by
  obtain ⟨K, k1, b1, b2, ex⟩ := C78_vortex hT
  refine ⟨K, k1, fun c hc hs d0 d1 f fx fy fxy F M40 M04 M14 M41 L hF hf hL t ht m hm => ?_⟩
  have hf' : Smooth2 f fx fy fxy c.xlim1 c.xlim2 c.ylim1 c.ylim2 M40 M04 M14 M41 := by rwa [hs.x1, hs.x2, hs.y1, hs.y2]
  have all {m'} {dep : ℕ → ℕ → ℝ × ℝ} (hm' : Grid2 m' .mphi c.nx c.ny
        (advance (vortex T) c.schemes t c.dt c.dx c.dy (posX c) (posY c) c.nx c.ny dep F).phi)
      (hd : ∀ i < c.ny, ∀ j < c.nx, dep i j = departs c (vortex T) t i j ∨
        (dep i j = (0, 0) ∧ ((posX c j = 0 ∨ posX c j = 1) ∨ posY c i = 0 ∨ posY c i = 1))) :
      CarriedAll c (vortex T) t f (valueBound M40 M04 M14 c.dx c.dy + 2 * L * departBound c.schemes.rk3 K c.dt) m' := by
    intro i hi j hj
    refine ⟨_, hm' i hi j hj, ex (t * c.dt) ((t + 1) * c.dt) (by nlinarith) (posX c j) (posY c i), fun X Y h h1 h2 =>
      carried_path hL (vortex T) k1 b1 b2 d0 ?_ h h1 h2⟩
    have st := vortex_stays hc hs T t d0 d1 hi hj
    have R := nodeAt_value hc hF hf' (vortex T) c.schemes t hi hj st
    rcases hd i hi j hj with e | ⟨e, w⟩
    · simp only [advance, e]
      exact R
    · simp only [advance, e, vortex_last hc hs T t F w, vortex_depart_wall T w, hF.phi i hi j hj, sub_self, abs_zero]
      exact (abs_nonneg _).trans R
  obtain ⟨m0, e0, r0⟩ := C60_step_serial hc (vortex T) ht hm
  obtain ⟨m1, e1, r1⟩ := C60_step hc (vortex T) ht hm
  refine ⟨⟨m0, e0, all r0.phi fun i hi j hj => ?_⟩, ⟨m1, e1, all r1.phi fun _ _ _ _ => .inl rfl⟩, fun m' h =>
    all ((C60_openmp_partial hc (vortex T) ht hm).2 h).1 fun _ _ _ _ => .inl rfl⟩
  by_cases hl : i + 1 < c.ny ∧ j + 1 < c.nx
  · exact .inl (if_pos hl)
  · refine .inr ⟨if_neg hl, ?_⟩
    rcases (by omega : i = c.ny - 1 ∨ j = c.nx - 1) with rfl | rfl
    · exact .inr (.inr (by rw [hc.lastY, hs.y2]))
    · exact .inl (.inr (by rw [hc.lastX, hs.x2]))

/-! ## The initial level set -/

/-- A bell. -/
noncomputable def bell (a x : ℝ) : ℝ := Real.exp (-(x - a) ^ 2)
/-- Its derivative. -/
noncomputable def bell' (a x : ℝ) : ℝ := -2 * (x - a) * bell a x

theorem bell_deriv (a x : ℝ) : HasDerivAt (bell a) (bell' a x) x := by
  have h : HasDerivAt (fun x : ℝ => -(x - a) ^ 2) (-(2 * (x - a))) x := by
    have k : HasDerivAt (fun x : ℝ => x - a) 1 x := (hasDerivAt_id x).sub_const a
    refine (k.fun_pow 2).fun_neg.congr_deriv ?_
    norm_num
  refine h.exp.congr_deriv ?_
  simp only [bell', bell]
  ring

theorem bell_le (a x : ℝ) : |bell a x| ≤ 1 := by
  rw [bell, abs_of_pos (Real.exp_pos _), Real.exp_le_one_iff]
  nlinarith [sq_nonneg (x - a)]

theorem bell'_le (a x : ℝ) : |bell' a x| ≤ 1 := by
  rw [bell', abs_mul, bell, abs_of_pos (Real.exp_pos _), Real.exp_neg, ← div_eq_mul_inv, div_le_one (Real.exp_pos _)]
  have h := Real.add_one_le_exp ((x - a) ^ 2)
  refine le_trans ?_ h
  rw [abs_mul, show |(-2 : ℝ)| = 2 by norm_num, ← sq_abs]
  nlinarith [sq_nonneg (|x - a| - 1)]

theorem bell_smooth (a : ℝ) : ContDiff ℝ 4 (bell a) := by
  unfold bell
  fun_prop

theorem bell_quartic (a : ℝ) : ∃ M, ∀ k C, |k| ≤ 1 → Quartic (fun x => k * bell a x - C) 0 1 M := by
  obtain ⟨M, hM⟩ := isCompact_Icc.exists_bound_of_continuousOn
    ((bell_smooth a).continuous_iteratedDeriv 4 le_rfl).continuousOn (s := Icc (0 : ℝ) 1)
  refine ⟨M, fun k C hk => ⟨?_, fun x hx => ?_⟩⟩
  · exact ((bell_smooth a).const_smul k).sub contDiff_const
  · have e : iteratedDeriv 4 (fun x => k * bell a x - C) x = k * iteratedDeriv 4 (bell a) x := by
      rw [show (fun x => k * bell a x - C) = (fun x => k * bell a x) - fun _ => C from rfl,
        iteratedDeriv_sub (f := fun x => k * bell a x) ((bell_smooth a).const_smul k).contDiffAt contDiffAt_const, iteratedDeriv_const_mul_field]
      simp [iteratedDeriv_const]
    rw [e, abs_mul]
    calc |k| * |iteratedDeriv 4 (bell a) x| ≤ 1 * |iteratedDeriv 4 (bell a) x| := mul_le_mul_of_nonneg_right hk (abs_nonneg _)
      _ ≤ M := by rw [one_mul]; exact hM x hx

theorem initPhi_eq (x y : ℝ) : initPhi x y = bell yo y * bell xo x - Real.exp (-rcircle ^ 2) := by
  rw [initPhi, bell, bell, ← Real.exp_add]
  ring_nf

theorem derivxinit_eq (x y : ℝ) : derivxinit x y = bell' xo x * bell yo y := by
  rw [derivxinit, bell', bell, bell, mul_assoc _ (Real.exp _), ← Real.exp_add]
  ring_nf

theorem derivyinit_eq (x y : ℝ) : derivyinit x y = bell' yo y * bell xo x := by
  rw [derivyinit, bell', bell, bell, mul_assoc _ (Real.exp _), ← Real.exp_add]
  ring_nf

theorem derivxyinit_eq (x y : ℝ) : derivxyinit x y = bell' xo x * bell' yo y := by
  rw [derivxyinit, bell', bell', bell, bell, neg_add, Real.exp_add]
  ring

/-- The initial level set is smooth in the unit square. -/
theorem init_smooth : ∃ M, Smooth2 initPhi derivxinit derivyinit derivxyinit 0 1 0 1 M M M M := by
  obtain ⟨M1, h1⟩ := bell_quartic xo
  obtain ⟨M2, h2⟩ := bell_quartic yo
  have q1 (k C) (hk : |k| ≤ 1) : Quartic (fun x => k * bell xo x - C) 0 1 (max M1 M2) :=
    ⟨(h1 k C hk).smooth, fun x hx => ((h1 k C hk).bound x hx).trans (le_max_left _ _)⟩
  have q2 (k C) (hk : |k| ≤ 1) : Quartic (fun x => k * bell yo x - C) 0 1 (max M1 M2) :=
    ⟨(h2 k C hk).smooth, fun x hx => ((h2 k C hk).bound x hx).trans (le_max_right _ _)⟩
  refine ⟨max M1 M2, ?_, ?_, ?_, ?_, ?_, ?_, ?_, ?_⟩
  · intro x y
    simp only [initPhi_eq, derivxinit_eq]
    rw [mul_comm (bell' _ _)]
    exact ((bell_deriv xo x).const_mul _).sub_const _
  · intro x y
    simp only [initPhi_eq, derivyinit_eq]
    exact ((bell_deriv yo y).mul_const _).sub_const _
  · intro x y
    simp only [derivxinit_eq, derivxyinit_eq]
    exact (bell_deriv yo y).const_mul _
  · intro x y
    simp only [derivyinit_eq, derivxyinit_eq]
    rw [mul_comm (bell' xo x)]
    exact (bell_deriv xo x).const_mul _
  · intro y _
    simp only [initPhi_eq]
    exact q1 _ _ (bell_le _ _)
  · intro x _
    simp only [initPhi_eq, mul_comm _ (bell xo x)]
    exact q2 _ _ (bell_le _ _)
  · intro x _
    simp only [derivxinit_eq]
    simpa only [sub_zero] using q2 (bell' xo x) 0 (bell'_le _ _)
  · intro y _
    simp only [derivyinit_eq]
    simpa only [sub_zero] using q1 (bell' yo y) 0 (bell'_le _ _)

theorem bell_lipschitz (a x x' : ℝ) : |bell a x - bell a x'| ≤ |x - x'| := by
  have := Convex.norm_image_sub_le_of_norm_hasDerivWithin_le (f := bell a) (f' := bell' a) (s := univ) (C := 1) (x := x') (y := x)
    (fun z _ => (bell_deriv a z).hasDerivWithinAt) (fun z _ => bell'_le a z) convex_univ trivial trivial
  simpa using this

theorem init_lipschitz (x y x' y' : ℝ) : |initPhi x y - initPhi x' y'| ≤ 1 * (|x - x'| + |y - y'|) := by
  rw [initPhi_eq, initPhi_eq, show bell yo y * bell xo x - Real.exp (-rcircle ^ 2) - (bell yo y' * bell xo x' - Real.exp (-rcircle ^ 2))
    = bell yo y * (bell xo x - bell xo x') + (bell yo y - bell yo y') * bell xo x' by ring, one_mul]
  refine (abs_add_le _ _).trans (add_le_add ?_ ?_)
  · rw [abs_mul]
    exact (mul_le_of_le_one_left (abs_nonneg _) (bell_le _ _)).trans (bell_lipschitz _ _ _)
  · rw [abs_mul]
    exact (mul_le_of_le_one_right (abs_nonneg _) (bell_le _ _)).trans (bell_lipschitz _ _ _)

/-- **C79** for the first step of the program: from the circle the program sets up, in the vortex, with Runge-Kutta. -/
theorem C79_first {T : ℝ} (hT : 0 < T) : ∃ C, ∀ c : Setting ℝ, Valid c → UnitSquare c → 0 ≤ c.dt → c.dt ≤ 1 / 40 →
    c.schemes.rk3 = true → ∃ m, setup c initialCircle = .ok m ∧
      (∃ m', stepSerial c (vortex T) c.dx c.dy 0 m = .ok m' ∧
        CarriedAll c (vortex T) 0 initPhi (C * (c.dx ^ 4 + c.dy ^ 4 + c.dt ^ 4)) m') ∧
      (∃ m', stepOpenMP c (vortex T) c.dx c.dy 0 m = .ok m' ∧
        CarriedAll c (vortex T) 0 initPhi (C * (c.dx ^ 4 + c.dy ^ 4 + c.dt ^ 4)) m') ∧
      ∀ m', OmpStep ParFor c (vortex T) c.dx c.dy 0 m m' →
        CarriedAll c (vortex T) 0 initPhi (C * (c.dx ^ 4 + c.dy ^ 4 + c.dt ^ 4)) m' := by
  obtain ⟨K, -, H⟩ := C79_vortex hT
  obtain ⟨M, hM⟩ := init_smooth
  refine ⟨|M| + 2 * K ^ 4, fun c hc hs d0 d1 rk => ?_⟩
  obtain ⟨m, e, r⟩ := setup_ready hc initialCircle
  have h := H c hc hs d0 d1 _ _ _ _ (initialFields initialCircle (posX c) (posY c)) M M M M 1
    ⟨fun _ _ _ _ => rfl, fun _ _ _ _ => rfl, fun _ _ _ _ => rfl, fun _ _ _ _ => rfl⟩ hM init_lipschitz 0 (by norm_num [uMod]) m r
  have B : valueBound M M M c.dx c.dy + 2 * 1 * departBound c.schemes.rk3 K c.dt ≤
      (|M| + 2 * K ^ 4) * (c.dx ^ 4 + c.dy ^ 4 + c.dt ^ 4) := by
    have dx1 : c.dx ≤ 1 := by
      rw [hc.dx_eq, hs.x1, hs.x2, sub_zero]
      have := hc.nx3
      exact div_le_one_of_le₀ (by rw [← Nat.cast_one, ← Nat.cast_sub (by omega)]; exact_mod_cast (by omega)) (by
        rw [sub_nonneg]; exact_mod_cast (by omega))
    have p1 : 0 ≤ c.dx ^ 4 := by positivity
    have p2 : 0 ≤ c.dy ^ 4 := by positivity
    have p3 : 0 ≤ c.dt ^ 4 := by positivity
    have p4 : 0 ≤ K ^ 4 := by positivity
    have a := le_abs_self M
    have a0 := abs_nonneg M
    have dx0 := hc.dx_pos.le
    have s1 : M * c.dx ^ 4 ≤ |M| * c.dx ^ 4 := mul_le_mul_of_nonneg_right a p1
    have s2 : (M + c.dx / 4 * M) * c.dy ^ 4 ≤ 2 * |M| * c.dy ^ 4 := by
      refine mul_le_mul_of_nonneg_right ?_ p2
      have : c.dx / 4 * M ≤ c.dx / 4 * |M| := mul_le_mul_of_nonneg_left a (by positivity)
      nlinarith
    rw [valueBound, departBound, if_pos rk]
    have := mul_nonneg a0 p1; have := mul_nonneg a0 p2; have := mul_nonneg a0 p3
    have := mul_nonneg p4 p1; have := mul_nonneg p4 p2
    rw [mul_pow]
    nlinarith
  have all {m'} (r : CarriedAll c (vortex T) 0 initPhi (valueBound M M M c.dx c.dy + 2 * 1 * departBound c.schemes.rk3 K c.dt) m') :
      CarriedAll c (vortex T) 0 initPhi ((|M| + 2 * K ^ 4) * (c.dx ^ 4 + c.dy ^ 4 + c.dt ^ 4)) m' := by
    intro i hi j hj
    obtain ⟨q, h1, h2, h3⟩ := r i hi j hj
    exact ⟨q, h1, h2, fun X Y a b d => (h3 X Y a b d).trans B⟩
  obtain ⟨⟨m0, e0, r0⟩, ⟨m', e', r'⟩, h2⟩ := h
  exact ⟨m, e, ⟨m0, e0, all r0⟩, ⟨m', e', all r'⟩, fun m' hm => all (h2 m' hm)⟩

/-! ## Instances -/

/-- The settings of the programs: 128 x 128 nodes, time step 1/256. -/
noncomputable def vortexSetting : Setting ℝ := ⟨0, 1, 128, 0, 1, 128, 1 / 256, 1, 1, 16, ⟨"SuperConsistent", "RK3"⟩⟩

theorem vortexSetting_valid : Valid vortexSetting := by
  constructor <;> norm_num [vortexSetting, uMod]

theorem vortexSetting_unit : UnitSquare vortexSetting := by
  constructor <;> simp [vortexSetting]

theorem sin2_lipschitz (x y x' y' : ℝ) :
    |sinD 0 x * sinD 0 y - sinD 0 x' * sinD 0 y'| ≤ 1 * (|x - x'| + |y - y'|) := by
  have l (a b : ℝ) : |sinD 0 a - sinD 0 b| ≤ |a - b| := by
    have := Convex.norm_image_sub_le_of_norm_hasDerivWithin_le (f := sinD 0) (f' := sinD 1) (s := univ) (C := 1) (x := b) (y := a)
      (fun z _ => (sinD_deriv z).hasDerivWithinAt) (fun z _ => sinD_le 1 z) convex_univ trivial trivial
    simpa using this
  rw [show sinD 0 x * sinD 0 y - sinD 0 x' * sinD 0 y' = (sinD 0 x - sinD 0 x') * sinD 0 y + sinD 0 x' * (sinD 0 y - sinD 0 y') by
    ring, one_mul]
  refine (abs_add_le _ _).trans (add_le_add ?_ ?_)
  · rw [abs_mul]
    exact (mul_le_of_le_one_right (abs_nonneg _) (sinD_le 0 y)).trans (l _ _)
  · rw [abs_mul]
    exact (mul_le_of_le_one_left (abs_nonneg _) (sinD_le 0 x')).trans (l _ _)

/-- `sin x sin y` on the grid of the programs. -/
noncomputable def sinInitial : Initial ℝ := ⟨fun x y => sinD 0 x * sinD 0 y, fun x y => sinD 1 x * sinD 0 y, fun x y => sinD 0 x * sinD 1 y,
  fun x y => sinD 1 x * sinD 1 y⟩

/-- The hypotheses of `C79_step`, `C79_serial` and `C79_vortex` for `sin x sin y` in the vortex at step 7, and what follows. -/
example : ∃ K m m' m'', 1 ≤ K ∧ stepOpenMP vortexSetting (vortex 1) vortexSetting.dx vortexSetting.dy 7 m = .ok m' ∧
    CarriedAll vortexSetting (vortex 1) 7 (fun x y => sinD 0 x * sinD 0 y)
      (valueBound 1 1 1 vortexSetting.dx vortexSetting.dy + 2 * 1 * departBound vortexSetting.schemes.rk3 K vortexSetting.dt) m' ∧
    stepSerial vortexSetting (vortex 1) vortexSetting.dx vortexSetting.dy 7 m = .ok m'' ∧
    CarriedTo vortexSetting (vortex 1) 7 127 127 (fun x y => sinD 0 x * sinD 0 y)
      (valueBound 1 1 1 vortexSetting.dx vortexSetting.dy + 2 * 1 * departBound vortexSetting.schemes.rk3 K vortexSetting.dt) m'' := by
  obtain ⟨m, -, r⟩ := setup_ready vortexSetting_valid sinInitial
  obtain ⟨K0, k0, H⟩ := C79_vortex (T := 1) one_pos
  obtain ⟨K1, k1, b1, b2, -⟩ := C78_vortex (T := 1) one_pos
  have S : SampledOn vortexSetting (fun x y => sinD 0 x * sinD 0 y) (fun x y => sinD 1 x * sinD 0 y) (fun x y => sinD 0 x * sinD 1 y)
      (fun x y => sinD 1 x * sinD 1 y) (initialFields sinInitial (posX vortexSetting) (posY vortexSetting)) :=
    ⟨fun _ _ _ _ => rfl, fun _ _ _ _ => rfl, fun _ _ _ _ => rfl, fun _ _ _ _ => rfl⟩
  have d0 : 0 ≤ vortexSetting.dt := by norm_num [vortexSetting]
  obtain ⟨-, ⟨m', e', r'⟩, -⟩ := H vortexSetting vortexSetting_valid vortexSetting_unit d0 (by norm_num [vortexSetting]) _ _ _ _ _
    1 1 1 1 1 S (smooth_sin2 _ _ _ _) sin2_lipschitz 7 (by norm_num [uMod]) m r
  obtain ⟨m'', e'', r''⟩ := C79_serial vortexSetting_valid S (smooth_sin2 _ _ _ _) sin2_lipschitz (vortex 1) k1 b1 b2 d0 (t := 7)
    (by norm_num [uMod]) r
  have mono {K K' : ℝ} (h0 : 0 ≤ K) (h : K ≤ K') : departBound vortexSetting.schemes.rk3 K vortexSetting.dt ≤
      departBound vortexSetting.schemes.rk3 K' vortexSetting.dt := by
    have := mul_le_mul_of_nonneg_right h d0
    have n := mul_nonneg h0 d0
    unfold departBound
    split
    · exact pow_le_pow_left₀ n this 4
    · exact div_le_div_of_nonneg_right (pow_le_pow_left₀ n this 2) (by norm_num)
  refine ⟨max K0 K1, m, m', m'', k0.trans (le_max_left _ _), e', fun i hi j hj => ?_, e'', fun i hi j hj s X Y hX eX eY => ?_⟩
  · obtain ⟨q, h1, h2, h3⟩ := r' i hi j hj
    refine ⟨q, h1, h2, fun X Y a b d => (h3 X Y a b d).trans ?_⟩
    have := mono (by linarith) (le_max_left K0 K1)
    linarith
  · obtain ⟨q, h1, h3⟩ := r'' i hi j hj s X Y hX eX eY
    refine ⟨q, h1, h3.trans ?_⟩
    have := mono (by linarith) (le_max_right K0 K1)
    linarith

/-- The node in the middle of the left side and an interior node meet `Stays`, with a velocity that is not zero at the latter. -/
example : Stays vortexSetting (vortex 1) 0 64 0 (departAt (vortex 1).velx (vortex 1).vely vortexSetting.schemes.rk3 0 vortexSetting.dt
      (posX vortexSetting 0) (posY vortexSetting 64)) ∧
    Stays vortexSetting (vortex 1) 0 40 30 (departAt (vortex 1).velx (vortex 1).vely vortexSetting.schemes.rk3 0 vortexSetting.dt
      (posX vortexSetting 30) (posY vortexSetting 40)) ∧ (vortex 1).velx (1 / 2) (1 / 4) 0 = 1 := by
  refine ⟨vortex_stays vortexSetting_valid vortexSetting_unit 1 0 (by norm_num [vortexSetting]) (by norm_num [vortexSetting])
    (by norm_num [vortexSetting]) (by norm_num [vortexSetting]),
    vortex_stays vortexSetting_valid vortexSetting_unit 1 0 (by norm_num [vortexSetting]) (by norm_num [vortexSetting])
    (by norm_num [vortexSetting]) (by norm_num [vortexSetting]), ?_⟩
  simp only [vortex]
  rw [show Real.pi * (1 / 2) = Real.pi / 2 by ring, show 2 * Real.pi * (1 / 4) = Real.pi / 2 by ring]
  simp

/-- `C79_first` with the settings of the programs. -/
example : ∃ C m m', setup vortexSetting initialCircle = .ok m ∧
    stepSerial vortexSetting (vortex 1) vortexSetting.dx vortexSetting.dy 0 m = .ok m' ∧
    CarriedAll vortexSetting (vortex 1) 0 initPhi (C * (2 * (1 / 127) ^ 4 + (1 / 256) ^ 4)) m' := by
  obtain ⟨C, h⟩ := C79_first (T := 1) one_pos
  obtain ⟨m, e, ⟨m', e', r⟩, -⟩ := h vortexSetting vortexSetting_valid vortexSetting_unit (by norm_num [vortexSetting])
    (by norm_num [vortexSetting]) (by decide)
  refine ⟨C, m, m', e, e', ?_⟩
  have hx : vortexSetting.dx = 1 / 127 := by rw [vortexSetting_valid.dx_eq]; norm_num [vortexSetting]
  have hy : vortexSetting.dy = 1 / 127 := by rw [vortexSetting_valid.dy_eq]; norm_num [vortexSetting]
  rw [hx, hy, show vortexSetting.dt = 1 / 256 from rfl] at r
  rwa [show (1 / 127 : ℝ) ^ 4 + (1 / 127) ^ 4 = 2 * (1 / 127) ^ 4 by ring] at r

end Gals.Props
