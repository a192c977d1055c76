import Verif.Props.AppStep
import Verif.Spec.AppPoly

/-!
# C99: a step of the application on polynomial level sets
-/

set_option linter.unusedSectionVars false

namespace Gals.Props

open Gals Spec

section
variable {K : Type} [Field K] [LinearOrder K] [IsStrictOrderedRing K] [FloorRing K] [HasPi K]

/-- The polynomial of a cell without mixed derivatives, on data with `m x y`: the product of the slopes is missing. -/
theorem patch_crossed (r : Req K) (hx : r.h 0 ≠ 0) (hy : r.h 1 ≠ 0) (f : Cell → K) (q : Cell → Vec3 K) (b : Cell) (x : Vec3 K)
    (P Q : Fin 4 → K) (m : K)
    (hf : ∀ i j : Fin 2, f (b.1 + i, b.2.1 + j, 0) = crossed P Q m ((storedPos r b).x + i * r.h 0) ((storedPos r b).y + j * r.h 1))
    (hqx : ∀ i j : Fin 2, (q (b.1 + i, b.2.1 + j, 0)).x = P 1 + 2 * P 2 * ((storedPos r b).x + i * r.h 0) +
      3 * P 3 * ((storedPos r b).x + i * r.h 0) ^ 2 + m * ((storedPos r b).y + j * r.h 1))
    (hqy : ∀ i j : Fin 2, (q (b.1 + i, b.2.1 + j, 0)).y = Q 1 + 2 * Q 2 * ((storedPos r b).y + j * r.h 1) +
      3 * Q 3 * ((storedPos r b).y + j * r.h 1) ^ 2 + m * ((storedPos r b).x + i * r.h 0)) :
    patchValue r f q b x = crossed P Q m x.x x.y -
      m * (slopeSum ((x.x - (storedPos r b).x) / r.h 0) * r.h 0) * (slopeSum ((x.y - (storedPos r b).y) / r.h 1) * r.h 1) := by
  unfold patchValue patch
  simp only [hf, hqx, hqy]
  obtain ⟨s, es⟩ : ∃ s, x.x = (storedPos r b).x + s * r.h 0 := ⟨(x.x - (storedPos r b).x) / r.h 0, by field_simp; ring⟩
  obtain ⟨w, ew⟩ : ∃ w, x.y = (storedPos r b).y + w * r.h 1 := ⟨(x.y - (storedPos r b).y) / r.h 1, by field_simp; ring⟩
  rw [es, ew, add_sub_cancel_left, add_sub_cancel_left, mul_div_cancel_right₀ _ hx, mul_div_cancel_right₀ _ hy]
  generalize (storedPos r b).x = X
  generalize (storedPos r b).y = Y
  generalize r.h 0 = hx
  generalize r.h 1 = hy
  simp only [Fin.sum_univ_two, hVal, hSlope, if_true, one_ne_zero, if_false, Fin.val_zero, Fin.val_one, Nat.cast_zero, Nat.cast_one,
    zero_mul, add_zero, one_mul, slopeSum, crossed]
  ring

/-- Third-order differences of a cubic along one axis. -/
theorem third_cubic (h X a0 a1 a2 a3 : K) (h0 : h ≠ 0) (f : ℤ → K)
    (hf : ∀ i : ℤ, -2 ≤ i → i ≤ 1 → f i = a0 + a1 * (X + i * h) + a2 * (X + i * h) ^ 2 + a3 * (X + i * h) ^ 3) :
    (2 * f 1 + 3 * f 0 - 6 * f (-1) + f (-2)) / (6 * h) = a1 + 2 * a2 * X + 3 * a3 * X ^ 2 := by
  rw [hf 1 (by norm_num) le_rfl, hf 0 (by norm_num) (by norm_num), hf (-1) (by norm_num) (by norm_num), hf (-2) le_rfl (by norm_num)]
  push_cast
  field_simp
  ring

/-- The departure point of a cell lies in the mesh to its upper right or to the left or below that. -/
theorem around_near (r : Req K) (hh : 0 < r.h 0) (hh1 : 0 < r.h 1) (c : Cell) (u v : K) (hu : |u| < r.h 0) (hv : |v| < r.h 1) :
    let b := around r ⟨(storedPos r c).x - u, (storedPos r c).y - v, 0⟩
    (c.1 - 1 ≤ b.1 ∧ b.1 ≤ c.1) ∧ c.2.1 - 1 ≤ b.2.1 ∧ b.2.1 ≤ c.2.1 := by
  intro b
  have key : ∀ {h p q u : K} {n : ℤ}, 0 < h → |u| < h → p = q + n * h → n - 1 ≤ ⌊(p - u - q) / h⌋ ∧ ⌊(p - u - q) / h⌋ ≤ n := by
    intro h p q u n h0 hu e
    obtain ⟨u1, u2⟩ := abs_lt.1 hu
    constructor
    · rw [Int.le_floor, le_div_iff₀ h0]
      push_cast
      linarith
    · rw [← Int.lt_add_one_iff, Int.floor_lt, div_lt_iff₀ h0]
      push_cast
      linarith
  exact ⟨key hh hu (by simp only [storedPos, Req.centre]; push_cast; ring),
    key hh1 hv (by simp only [storedPos, Req.centre]; push_cast; ring)⟩

/-- Stored positions of neighbours. -/
theorem storedPos_shift (r : Req K) (b : Cell) (i j k : ℤ) :
    (storedPos r (b.1 + i, b.2.1 + j, k)).x = (storedPos r b).x + i * r.h 0 ∧
    (storedPos r (b.1 + i, b.2.1 + j, k)).y = (storedPos r b).y + j * r.h 1 := by
  simp only [storedPos, Req.centre]
  push_cast
  constructor <;> ring

/-- C99, what a step of the application makes of a polynomial level set: away from the boundary the new value is the polynomial
at the departure point, minus a term from the mixed derivatives, which are never computed (`main.cc:152`).  The point is in the
cell at the local coordinates `s - (pad - 1)` of the polynomial used. -/
theorem C99_step_partial (r : Req K) (h : r.Valid 2) (hpos : r.Pos 2) (hpad : 2 ≤ r.pad) (a : App K) (phi0 : Cell → K)
    (P : Prepared .wrap r a phi0) (hn : a.velocityInputs.name = "CIRCULAR") (c0 c1 : K) (rest : List K)
    (hc : a.velocityInputs.center = c0 :: c1 :: rest) (hs : SmallStep r (rotation turnRate c0 c1) a.dt) (t : K)
    (p q : Fin 4 → K) (m : K)
    (hphi : ∀ c, r.Interior c → phi0 c = crossed p q m (storedPos r c).x (storedPos r c).y) :
    ∃ x', appAdvance .tests .wrap a t (a.vel, a.ls) = .ok x' ∧ ∀ c, Deep r c →
      let X := (storedPos r c).x - a.dt * (rotation turnRate c0 c1 (storedPos r c)).x
      let Y := (storedPos r c).y - a.dt * (rotation turnRate c0 c1 (storedPos r c)).y
      let s := Int.fract ((X - (storedPos r c).x) / r.h 0) - (r.pad - 1)
      let w := Int.fract ((Y - (storedPos r c).y) / r.h 1) - (r.pad - 1)
      x'.2.phi.get .wrap a.g c.1 c.2.1 c.2.2 = .ok
        (crossed p q m X Y - m * (slopeSum s * r.h 0) * (slopeSum w * r.h 1)) := by
  obtain ⟨x', e, k⟩ := C74_step_partial r h hpos hpad a phi0 P hn c0 c1 rest hc hs t
  have G := make_made h P.made
  have hx0 : 0 < r.h 0 := h.h_pos hpos 0 (by decide)
  have hy0 : 0 < r.h 1 := h.h_pos hpos 1 (by decide)
  refine ⟨x', e, fun c hdeep => ?_⟩
  obtain ⟨hci, d1, d2, d3, d4⟩ := hdeep
  intro X Y s w
  rw [(k c (interior_padded G hci)).1]
  simp only [advected, if_pos hci]
  congr 1
  obtain ⟨s1, s2⟩ := hs c hci
  obtain ⟨⟨a1, a2⟩, a3, a4⟩ := around_near r hx0 hy0 c _ _ s1 s2
  have hz := h.nz_pos
  have frac : ∀ {h p q x : K} {n : ℤ}, 0 < h → p = q + n * h →
      (x - (q + (((⌊(x - q) / h⌋ + (r.pad - 1) : ℤ)) : K) * h)) / h = Int.fract ((x - p) / h) - ((r.pad : K) - 1) := by
    intro h p q x n h0 e
    have e1 : (x - q) / h = (x - p) / h + n := by
      rw [e]
      field_simp
      ring
    have e2 : (x - p) / h = ⌊(x - p) / h⌋ + Int.fract ((x - p) / h) := (Int.floor_add_fract _).symm
    rw [e1, Int.floor_add_intCast]
    have e3 : x = p + (⌊(x - p) / h⌋ + Int.fract ((x - p) / h)) * h := by
      rw [← e2]
      field_simp
      ring
    generalize ⌊(x - p) / h⌋ = F at *
    generalize Int.fract ((x - p) / h) = T at *
    rw [e3, e]
    push_cast
    field_simp
    ring
  set A := around r ⟨(storedPos r c).x - a.dt * (rotation turnRate c0 c1 (storedPos r c)).x,
    (storedPos r c).y - a.dt * (rotation turnRate c0 c1 (storedPos r c)).y, 0⟩ with hA
  set b : Cell := (A.1 + (r.pad - 1), A.2.1 + (r.pad - 1), 0) with hb
  have int : ∀ i j : ℤ, -2 ≤ i → i ≤ 2 → -2 ≤ j → j ≤ 2 → r.Interior (b.1 + i, b.2.1 + j, 0) := by
    intro i j i1 i2 j1 j2
    refine ⟨⟨?_, ?_⟩, ⟨?_, ?_⟩, le_rfl, hz⟩ <;> simp only [hb] <;> omega
  have val : ∀ i j : ℤ, -2 ≤ i → i ≤ 2 → -2 ≤ j → j ≤ 2 → phi0 (b.1 + i, b.2.1 + j, 0) =
      crossed p q m ((storedPos r b).x + i * r.h 0) ((storedPos r b).y + j * r.h 1) := by
    intro i j i1 i2 j1 j2
    rw [hphi _ (int i j i1 i2 j1 j2), (storedPos_shift r b i j 0).1, (storedPos_shift r b i j 0).2]
  have two : ∀ i : Fin 2, (0 : ℤ) ≤ (i : ℕ) ∧ ((i : ℕ) : ℤ) ≤ 1 := by decide
  rw [patch_crossed r hx0.ne' hy0.ne' phi0 _ b _ p q m]
  · have ex : (storedPos r b).x = (storedPos r (0, 0, 0)).x + ((A.1 + (r.pad - 1) : ℤ) : K) * r.h 0 := by
      simp only [hb, storedPos, Req.centre]; push_cast; ring
    have ey : (storedPos r b).y = (storedPos r (0, 0, 0)).y + ((A.2.1 + (r.pad - 1) : ℤ) : K) * r.h 1 := by
      simp only [hb, storedPos, Req.centre]; push_cast; ring
    have fx := frac (x := X) (p := (storedPos r c).x) (q := (storedPos r (0, 0, 0)).x) (n := c.1) hx0
      (by simp only [storedPos, Req.centre]; push_cast; ring)
    have fy := frac (x := Y) (p := (storedPos r c).y) (q := (storedPos r (0, 0, 0)).y) (n := c.2.1) hy0
      (by simp only [storedPos, Req.centre]; push_cast; ring)
    rw [ex, ey]
    have E1 : (X - ((storedPos r (0, 0, 0)).x + ((A.1 + (r.pad - 1) : ℤ) : K) * r.h 0)) / r.h 0 = s := fx
    have E2 : (Y - ((storedPos r (0, 0, 0)).y + ((A.2.1 + (r.pad - 1) : ℤ) : K) * r.h 1)) / r.h 1 = w := fy
    rw [E1, E2]
  · intro i j
    have := val i j (by have := two i; omega) (by have := two i; omega) (by have := two j; omega) (by have := two j; omega)
    simpa using this
  · intro i j
    have ti := two i
    have tj := two j
    rw [startSlope, if_pos (int i j (by omega) (by omega) (by omega) (by omega))]
    simp only [fdThird, shift]
    have := third_cubic (r.h 0) ((storedPos r b).x + i * r.h 0)
      (p 0 + (q 0 + q 1 * ((storedPos r b).y + j * r.h 1) + q 2 * ((storedPos r b).y + j * r.h 1) ^ 2 +
        q 3 * ((storedPos r b).y + j * r.h 1) ^ 3)) (p 1 + m * ((storedPos r b).y + j * r.h 1)) (p 2) (p 3) hx0.ne'
      (fun n => phi0 (b.1 + i + n, b.2.1 + j, 0)) (fun n n1 n2 => by
        have := val (i + n) j (by omega) (by omega) (by omega) (by omega)
        simp only [add_assoc] at this ⊢
        rw [this, crossed]
        push_cast
        ring)
    simp only [add_zero] at this
    rw [this]
    ring
  · intro i j
    have ti := two i
    have tj := two j
    rw [startSlope, if_pos (int i j (by omega) (by omega) (by omega) (by omega))]
    simp only [fdThird, shift]
    have := third_cubic (r.h 1) ((storedPos r b).y + j * r.h 1)
      (q 0 + (p 0 + p 1 * ((storedPos r b).x + i * r.h 0) + p 2 * ((storedPos r b).x + i * r.h 0) ^ 2 +
        p 3 * ((storedPos r b).x + i * r.h 0) ^ 3)) (q 1 + m * ((storedPos r b).x + i * r.h 0)) (q 2) (q 3) hy0.ne'
      (fun n => phi0 (b.1 + i, b.2.1 + j + n, 0)) (fun n n1 n2 => by
        have := val i (j + n) (by omega) (by omega) (by omega) (by omega)
        simp only [add_assoc] at this ⊢
        rw [this, crossed]
        push_cast
        ring)
    simp only [add_zero] at this
    rw [this]
    ring

/-- C99 is false: with a term `m x y` in the level set, the new value is wrong at every cell away from the boundary, whatever the
flow and the time step. -/
theorem C99_false (r : Req K) (h : r.Valid 2) (hpos : r.Pos 2) (hpad : 2 ≤ r.pad) (a : App K) (phi0 : Cell → K)
    (P : Prepared .wrap r a phi0) (hn : a.velocityInputs.name = "CIRCULAR") (c0 c1 : K) (rest : List K)
    (hc : a.velocityInputs.center = c0 :: c1 :: rest) (hs : SmallStep r (rotation turnRate c0 c1) a.dt) (t : K)
    (p q : Fin 4 → K) (m : K) (hm : m ≠ 0)
    (hphi : ∀ c, r.Interior c → phi0 c = crossed p q m (storedPos r c).x (storedPos r c).y) :
    ∃ x', appAdvance .tests .wrap a t (a.vel, a.ls) = .ok x' ∧ ∀ c, Deep r c →
      x'.2.phi.get .wrap a.g c.1 c.2.1 c.2.2 ≠ .ok
        (crossed p q m ((storedPos r c).x - a.dt * (rotation turnRate c0 c1 (storedPos r c)).x)
          ((storedPos r c).y - a.dt * (rotation turnRate c0 c1 (storedPos r c)).y)) := by
  obtain ⟨x', e, k⟩ := C99_step_partial r h hpos hpad a phi0 P hn c0 c1 rest hc hs t p q m hphi
  have hx0 : 0 < r.h 0 := h.h_pos hpos 0 (by decide)
  have hy0 : 0 < r.h 1 := h.h_pos hpos 1 (by decide)
  refine ⟨x', e, fun c hdeep => ?_⟩
  rw [k c hdeep]
  intro E
  have E := Except.ok.inj E
  rw [sub_eq_self] at E
  have p2 : (2 : K) ≤ r.pad := by exact_mod_cast hpad
  have ne : ∀ z : K, slopeSum (Int.fract z - ((r.pad : K) - 1)) ≠ 0 := by
    intro z
    have := Int.fract_lt_one z
    have hneg : Int.fract z - ((r.pad : K) - 1) < 0 := by linarith
    generalize Int.fract z - ((r.pad : K) - 1) = v at hneg
    unfold slopeSum
    exact mul_ne_zero (mul_ne_zero hneg.ne (by linarith)) (by linarith)
  exact mul_ne_zero (mul_ne_zero hm (mul_ne_zero (ne _) hx0.ne')) (mul_ne_zero (ne _) hy0.ne') E

/-- At a node on the centre of rotation the fluid is at rest, so that the value should stay; it changes by a fixed multiple of
`h_x h_y` in every step, however small the time step is. -/
theorem C99_rest (r : Req K) (h : r.Valid 2) (hpos : r.Pos 2) (hpad : 2 ≤ r.pad) (a : App K) (phi0 : Cell → K)
    (P : Prepared .wrap r a phi0) (hn : a.velocityInputs.name = "CIRCULAR") (c : Cell) (hdeep : Deep r c) (rest : List K)
    (hc : a.velocityInputs.center = (storedPos r c).y :: (storedPos r c).x :: rest)
    (hs : SmallStep r (rotation turnRate (storedPos r c).y (storedPos r c).x) a.dt) (t : K) (p q : Fin 4 → K) (m : K)
    (hphi : ∀ c, r.Interior c → phi0 c = crossed p q m (storedPos r c).x (storedPos r c).y) :
    ∃ x', appAdvance .tests .wrap a t (a.vel, a.ls) = .ok x' ∧ x'.2.phi.get .wrap a.g c.1 c.2.1 c.2.2 = .ok
        (phi0 c - m * ((r.pad - 1) * r.pad * (2 * r.pad - 1)) ^ 2 * r.h 0 * r.h 1) := by
  obtain ⟨x', e, k⟩ := C99_step_partial r h hpos hpad a phi0 P hn _ _ rest hc hs t p q m hphi
  refine ⟨x', e, ?_⟩
  rw [k c hdeep, hphi c hdeep.1]
  simp only [rotation, sub_self, mul_zero, sub_zero, zero_div, Int.fract_zero, zero_sub, slopeSum]
  congr 1
  ring

end

/-! ## Instances -/

section instances

/-- An approximation of `π`. -/
local instance : HasPi ℚ := ⟨22 / 7⟩

/-- Eight by eight cells of width 1 with two ghost layers. -/
def wide : Req ℚ := ⟨⟨8, 8, 1⟩, 2, ⟨0, 0, 0⟩, ⟨8, 8, 1⟩⟩

theorem wide_valid : wide.Valid 2 :=
  ⟨by simp, by decide, by decide, by decide, by decide, by decide, by decide, by decide⟩

theorem wide_pos : wide.Pos 2 := by
  intro a ha
  match a with
  | 0 => norm_num [wide, Vec3.get]
  | 1 => norm_num [wide, Vec3.get]
  | 2 => exact absurd ha (by decide)

theorem wide_small : SmallStep wide (rotation turnRate (9 / 2) (9 / 2)) (1 / 10) := by
  rintro ⟨i, j, k⟩ ⟨⟨i1, i2⟩, ⟨j1, j2⟩, -⟩
  simp only [wide] at i1 i2 j1 j2
  interval_cases i <;> interval_cases j <;>
    norm_num [rotation, turnRate, HasPi.pi, storedPos, Req.centre, Req.h, wide, Vec3.get, abs_lt]

/-- Instance of `C99_rest`: level set `x y`, rotation about the node of cell `(3, 3)`; a step of any length takes 36 off the value
there.  The other nodes away from the boundary are wrong as well (`C99_false`). -/
example : ∃ (a : App ℚ) (x' : LsVelocity ℚ × Levelset ℚ), appAdvance .tests .wrap a (1 / 10) (a.vel, a.ls) = .ok x' ∧
    a.ls.phi.get .wrap a.g 3 3 0 = .ok (81 / 4) ∧ x'.2.phi.get .wrap a.g 3 3 0 = .ok (81 / 4 - 36) ∧
    x'.2.phi.get .wrap a.g 4 2 0 ≠ .ok (crossed 0 0 1 (11 / 2 - 1 / 10 * turnRate) (7 / 2 - 1 / 10 * turnRate)) := by
  obtain ⟨a, P, e1, -, e3, -⟩ := prepared_exists (s := .wrap) wide_valid
    (fun c => if wide.Interior c then crossed 0 0 1 (storedPos wide c).x (storedPos wide c).y else 0)
    ⟨"CIRCULAR", [], [9 / 2, 9 / 2], ""⟩ FileUtils.mk' 1 (1 / 10)
  have hn : a.velocityInputs.name = "CIRCULAR" := by rw [e1]
  have hc : a.velocityInputs.center = [9 / 2, 9 / 2] := by rw [e1]
  have hs : SmallStep wide (rotation turnRate (9 / 2) (9 / 2)) a.dt := by rw [e3]; exact wide_small
  have p0 : storedPos wide (3, 3, 0) = ⟨9 / 2, 9 / 2, 0⟩ := by
    norm_num [storedPos, Req.centre, Req.h, wide, Vec3.get]
  have p1 : storedPos wide (4, 2, 0) = ⟨11 / 2, 7 / 2, 0⟩ := by
    norm_num [storedPos, Req.centre, Req.h, wide, Vec3.get]
  have i0 : wide.Interior (3, 3, 0) := by unfold Req.Interior InteriorCell wide; simp
  have i1 : wide.Interior (4, 2, 0) := by unfold Req.Interior InteriorCell wide; simp
  have d0 : Deep wide (3, 3, 0) := ⟨i0, by decide, by decide, by decide, by decide⟩
  have d1 : Deep wide (4, 2, 0) := ⟨i1, by decide, by decide, by decide, by decide⟩
  obtain ⟨x', k1, k2⟩ := C99_rest wide wide_valid wide_pos (by decide) a _ P hn (3, 3, 0) d0 [] (by rw [p0]; exact hc)
    (by rw [p0]; exact hs) (1 / 10) 0 0 1 (fun c hc => if_pos hc)
  obtain ⟨x'', k3, k4⟩ := C99_false wide wide_valid wide_pos (by decide) a _ P hn (9 / 2) (9 / 2) [] hc hs (1 / 10) 0 0 1 one_ne_zero
    (fun c hc => if_pos hc)
  have hh : wide.h 0 = 1 ∧ wide.h 1 = 1 := by norm_num [wide, Req.h, Vec3.get]
  have hp : (wide.pad : ℚ) = 2 := rfl
  rw [k1] at k3
  cases k3
  refine ⟨a, x', k1, ?_, ?_, ?_⟩
  · rw [P.phi.val (3, 3, 0) (interior_padded (make_made wide_valid P.made) i0), if_pos i0, p0]
    norm_num [crossed]
  · rw [k2, if_pos i0, p0, hh.1, hh.2, hp]
    norm_num [crossed]
  · have := k4 (4, 2, 0) d1
    rw [p1, e3] at this
    convert this using 3 <;> simp only [rotation] <;> ring

/-- Instance of `C99_step_partial`: the step for the level set `x³ + y² + x y`. -/
example : ∃ (a : App ℚ) (x' : LsVelocity ℚ × Levelset ℚ), appAdvance .tests .wrap a (1 / 10) (a.vel, a.ls) = .ok x' ∧
    ∀ c, Deep wide c → ∃ X Y s w, x'.2.phi.get .wrap a.g c.1 c.2.1 c.2.2 = .ok
      (crossed ![0, 0, 0, 1] ![0, 0, 1, 0] 1 X Y - 1 * (slopeSum s * 1) * (slopeSum w * 1)) := by
  obtain ⟨a, P, e1, -, e3, -⟩ := prepared_exists (s := .wrap) wide_valid
    (fun c => if wide.Interior c then crossed ![0, 0, 0, 1] ![0, 0, 1, 0] 1 (storedPos wide c).x (storedPos wide c).y else 0)
    ⟨"CIRCULAR", [], [9 / 2, 9 / 2], ""⟩ FileUtils.mk' 1 (1 / 10)
  obtain ⟨x', k1, k2⟩ := C99_step_partial wide wide_valid wide_pos (by decide) a _ P (by rw [e1]) (9 / 2) (9 / 2) [] (by rw [e1])
    (by rw [e3]; exact wide_small) (1 / 10) ![0, 0, 0, 1] ![0, 0, 1, 0] 1 (fun c hc => if_pos hc)
  have hh : wide.h 0 = 1 ∧ wide.h 1 = 1 := by norm_num [wide, Req.h, Vec3.get]
  refine ⟨a, x', k1, fun c hc => ?_⟩
  have := k2 c hc
  rw [hh.1, hh.2] at this
  exact ⟨_, _, _, _, this⟩

end instances

end Gals.Props
