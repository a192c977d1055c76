import Verif.Lemmas.SplineNear
import Verif.Lemmas.Hermite

/-!
# Tensor products of Hermite sums
-/

namespace Gals

open Gals.Spec

theorem hsum_scale (o : Fin 2) (h t : ℚ) (b : ℤ) (f : Fin 2 → ℤ → ℚ) :
    hsum o h t b f = hsum o 1 t b fun a i => h ^ a.val * f a i := by
  unfold hsum
  simp only [Fin.val_zero, Fin.val_one, pow_zero, pow_one, one_mul]

theorem hsum_mul (o : Fin 2) (h t c : ℚ) (b : ℤ) (f : Fin 2 → ℤ → ℚ) :
    c * hsum o h t b f = hsum o h t b fun a i => c * f a i := by
  unfold hsum
  split <;> ring

theorem hsum_div (o : Fin 2) (h t c : ℚ) (b : ℤ) (f : Fin 2 → ℤ → ℚ) :
    hsum o h t b (fun a i => f a i / c) = hsum o h t b f / c := by
  rw [div_eq_inv_mul, hsum_mul]
  congr 1
  funext a i
  rw [div_eq_inv_mul]

/-- Derivatives multiplied by the widths of the cells. -/
def scaleJet (h : Fin 3 → ℚ) (D : Jet) : Jet := fun a b c x => h 0 ^ a.val * h 1 ^ b.val * h 2 ^ c.val * D a b c x

/-- Nested sums along the first axis, the first two, all three. -/
def nest1 (o : Fin 3 → Fin 2) (t : Fin 3 → ℚ) (b : Fin 3 → ℤ) (D : Jet) : ℚ :=
  hsum (o 0) 1 (t 0) (b 0) fun a i => D a 0 0 (i, 0, 0)
def nest2 (o : Fin 3 → Fin 2) (t : Fin 3 → ℚ) (b : Fin 3 → ℤ) (D : Jet) : ℚ :=
  hsum (o 0) 1 (t 0) (b 0) fun a i => hsum (o 1) 1 (t 1) (b 1) fun c j => D a c 0 (i, j, 0)
def nest3 (o : Fin 3 → Fin 2) (t : Fin 3 → ℚ) (b : Fin 3 → ℤ) (D : Jet) : ℚ :=
  hsum (o 0) 1 (t 0) (b 0) fun a i => hsum (o 1) 1 (t 1) (b 1) fun c j => hsum (o 2) 1 (t 2) (b 2) fun e k => D a c e (i, j, k)

theorem nest1_scale (o : Fin 3 → Fin 2) (h : Fin 3 → ℚ) (t : Fin 3 → ℚ) (b : Fin 3 → ℤ) (D : Jet) :
    (hsum (o 0) (h 0) (t 0) (b 0) fun a i => D a 0 0 (i, 0, 0)) = nest1 o t b (scaleJet h D) := by
  unfold nest1
  rw [hsum_scale]
  congr 1
  funext a i
  simp [scaleJet]

theorem nest2_scale (o : Fin 3 → Fin 2) (h : Fin 3 → ℚ) (t : Fin 3 → ℚ) (b : Fin 3 → ℤ) (D : Jet) :
    (hsum (o 0) (h 0) (t 0) (b 0) fun a i => hsum (o 1) (h 1) (t 1) (b 1) fun c j => D a c 0 (i, j, 0)) =
      nest2 o t b (scaleJet h D) := by
  unfold nest2
  rw [hsum_scale]
  congr 1
  funext a i
  rw [hsum_scale, hsum_mul]
  congr 1
  funext c j
  simp only [scaleJet, Fin.val_zero, pow_zero, mul_one]
  ring

theorem nest3_scale (o : Fin 3 → Fin 2) (h : Fin 3 → ℚ) (t : Fin 3 → ℚ) (b : Fin 3 → ℤ) (D : Jet) :
    (hsum (o 0) (h 0) (t 0) (b 0) fun a i => hsum (o 1) (h 1) (t 1) (b 1) fun c j => hsum (o 2) (h 2) (t 2) (b 2) fun e k =>
      D a c e (i, j, k)) = nest3 o t b (scaleJet h D) := by
  unfold nest3
  rw [hsum_scale]
  congr 1
  funext a i
  rw [hsum_scale, hsum_mul]
  congr 1
  funext c j
  rw [hsum_scale, hsum_mul, hsum_mul]
  congr 1
  funext e k
  simp only [scaleJet]
  ring

/-! ## The spline -/

theorem spline_eq (A : Axis) (o : Fin 2) (q : ℚ) (f : Fin 2 → ℤ → ℚ) :
    A.spline o q f = hsum o A.h (Int.fract (A.coord q)) ⌊A.coord q⌋ f / A.h ^ o.val := hermiteSum_eq ..

theorem jetSpline1 (A : Fin 3 → Axis) (o : Fin 3 → Fin 2) (D : Jet) (q : Fin 3 → ℚ) :
    jetSpline 1 A o D q = nest1 o (fun a => Int.fract ((A a).coord (q a))) (fun a => ⌊(A a).coord (q a)⌋)
      (scaleJet (fun a => (A a).h) D) / (A 0).h ^ (o 0).val := by
  rw [← nest1_scale, jetSpline, spline_eq]
  simp only [if_true]

theorem jetSpline2 (A : Fin 3 → Axis) (o : Fin 3 → Fin 2) (D : Jet) (q : Fin 3 → ℚ) :
    jetSpline 2 A o D q = nest2 o (fun a => Int.fract ((A a).coord (q a))) (fun a => ⌊(A a).coord (q a)⌋)
      (scaleJet (fun a => (A a).h) D) / ((A 0).h ^ (o 0).val * (A 1).h ^ (o 1).val) := by
  rw [← nest2_scale, jetSpline, spline_eq]
  simp only [spline_eq, hsum_div, if_true, OfNat.ofNat_ne_one, if_false]
  rw [div_div, mul_comm]

theorem jetSpline3 (A : Fin 3 → Axis) (o : Fin 3 → Fin 2) (D : Jet) (q : Fin 3 → ℚ) :
    jetSpline 3 A o D q = nest3 o (fun a => Int.fract ((A a).coord (q a))) (fun a => ⌊(A a).coord (q a)⌋)
      (scaleJet (fun a => (A a).h) D) / ((A 0).h ^ (o 0).val * (A 1).h ^ (o 1).val * (A 2).h ^ (o 2).val) := by
  rw [← nest3_scale, jetSpline, spline_eq]
  have e1 : ¬ (3 : ℕ) = 1 := by decide
  have e2 : ¬ (3 : ℕ) = 2 := by decide
  simp only [spline_eq, hsum_div, if_neg e1, if_neg e2]
  rw [div_div, div_div]
  congr 1
  ring

/-! ## Dependence on the point -/

section
variable {T η : Fin 3 → ℚ} {δ M : ℚ} {b : Fin 3 → ℤ} {D : Jet} {In : Fin 3 → ℤ → Prop}

/-- The computed cells and coordinates along the used axes are near the exact ones; the data of the cells that occur are at most `M`. -/
structure NestNear (d : ℕ) (T η : Fin 3 → ℚ) (δ M : ℚ) (b : Fin 3 → ℤ) (In : Fin 3 → ℤ → Prop) : Prop where
  near : ∀ a : Fin 3, a.val < d → NearPoint (T a) (η a) δ (b a)
  b0 : ∀ a : Fin 3, a.val < d → In a (b a)
  b1 : ∀ a : Fin 3, a.val < d → In a (b a + 1)
  f0 : ∀ a : Fin 3, a.val < d → In a ⌊T a⌋
  f1 : ∀ a : Fin 3, a.val < d → In a (⌊T a⌋ + 1)

/-- Bounds of all data of a cell and its neighbour. -/
theorem cellLe_of {In : ℤ → Prop} {f : Fin 2 → ℤ → ℚ} {b : ℤ} {P : ℚ} (h : ∀ a i, In i → |f a i| ≤ P) (h0 : In b) (h1 : In (b + 1)) :
    CellLe 1 f b P :=
  ⟨h 0 _ h0, h 0 _ h1, by rw [one_mul]; exact h 1 _ h0, by rw [one_mul]; exact h 1 _ h1⟩

/-- One more axis. -/
theorem hsum_nest (o : Fin 2) {T η δ P E : ℚ} {b : ℤ} {In : ℤ → Prop} {f g : Fin 2 → ℤ → ℚ} (H : NearPoint T η δ b)
    (b0 : In b) (b1 : In (b + 1)) (f0 : In ⌊T⌋) (f1 : In (⌊T⌋ + 1)) (hg : ∀ a i, In i → |g a i| ≤ P)
    (hfg : ∀ a i, In i → |f a i - g a i| ≤ E) :
    |hsum o 1 η b f - hsum o 1 (Int.fract T) ⌊T⌋ g| ≤ hC o * E + 3 * hL o * δ * P :=
  hsum_near o H (cellLe_of hg b0 b1) (cellLe_of hg f0 f1) (cellLe_of hfg b0 b1)

theorem hsum_size (o : Fin 2) {T P : ℚ} {In : ℤ → Prop} {g : Fin 2 → ℤ → ℚ} (f0 : In ⌊T⌋) (f1 : In (⌊T⌋ + 1))
    (hg : ∀ a i, In i → |g a i| ≤ P) : |hsum o 1 (Int.fract T) ⌊T⌋ g| ≤ hC o * P :=
  hsum_abs o (nearCell_fract T) (cellLe_of hg f0 f1)

theorem nest1_near (o : Fin 3 → Fin 2) (H : NestNear 1 T η δ M b In) (hM : ∀ a i, In 0 i → |D a 0 0 (i, 0, 0)| ≤ M) :
    |nest1 o η b D - nest1 o (fun a => Int.fract (T a)) (fun a => ⌊T a⌋) D| ≤ 3 * hL (o 0) * δ * M := by
  have := hsum_nest (o 0) (H.near 0 (by decide)) (H.b0 0 (by decide)) (H.b1 0 (by decide)) (H.f0 0 (by decide))
    (H.f1 0 (by decide)) (f := fun a i => D a 0 0 (i, 0, 0)) hM (E := 0) (by intro a i _; simp)
  rw [mul_zero, zero_add] at this
  exact this

theorem nest2_near (o : Fin 3 → Fin 2) (H : NestNear 2 T η δ M b In)
    (hM : ∀ a c i j, In 0 i → In 1 j → |D a c 0 (i, j, 0)| ≤ M) :
    |nest2 o η b D - nest2 o (fun a => Int.fract (T a)) (fun a => ⌊T a⌋) D| ≤
      hC (o 0) * (3 * hL (o 1) * δ * M) + 3 * hL (o 0) * δ * (hC (o 1) * M) := by
  refine hsum_nest (o 0) (H.near 0 (by decide)) (H.b0 0 (by decide)) (H.b1 0 (by decide)) (H.f0 0 (by decide))
    (H.f1 0 (by decide)) ?_ ?_
  · intro a i hi
    exact hsum_size (o 1) (H.f0 1 (by decide)) (H.f1 1 (by decide)) fun c j hj => hM a c i j hi hj
  · intro a i hi
    have := hsum_nest (o 1) (H.near 1 (by decide)) (H.b0 1 (by decide)) (H.b1 1 (by decide)) (H.f0 1 (by decide))
      (H.f1 1 (by decide)) (f := fun c j => D a c 0 (i, j, 0)) (fun c j hj => hM a c i j hi hj) (E := 0) (by intro a i _; simp)
    rw [mul_zero, zero_add] at this
    exact this

theorem nest3_near (o : Fin 3 → Fin 2) (H : NestNear 3 T η δ M b In)
    (hM : ∀ a c e i j k, In 0 i → In 1 j → In 2 k → |D a c e (i, j, k)| ≤ M) :
    |nest3 o η b D - nest3 o (fun a => Int.fract (T a)) (fun a => ⌊T a⌋) D| ≤
      hC (o 0) * (hC (o 1) * (3 * hL (o 2) * δ * M) + 3 * hL (o 1) * δ * (hC (o 2) * M)) +
        3 * hL (o 0) * δ * (hC (o 1) * (hC (o 2) * M)) := by
  refine hsum_nest (o 0) (H.near 0 (by decide)) (H.b0 0 (by decide)) (H.b1 0 (by decide)) (H.f0 0 (by decide))
    (H.f1 0 (by decide)) ?_ ?_
  · intro a i hi
    refine hsum_size (o 1) (H.f0 1 (by decide)) (H.f1 1 (by decide)) fun c j hj => ?_
    exact hsum_size (o 2) (H.f0 2 (by decide)) (H.f1 2 (by decide)) fun e k hk => hM a c e i j k hi hj hk
  · intro a i hi
    refine hsum_nest (o 1) (H.near 1 (by decide)) (H.b0 1 (by decide)) (H.b1 1 (by decide)) (H.f0 1 (by decide))
      (H.f1 1 (by decide)) ?_ ?_
    · intro c j hj
      exact hsum_size (o 2) (H.f0 2 (by decide)) (H.f1 2 (by decide)) fun e k hk => hM a c e i j k hi hj hk
    · intro c j hj
      have := hsum_nest (o 2) (H.near 2 (by decide)) (H.b0 2 (by decide)) (H.b1 2 (by decide)) (H.f0 2 (by decide))
        (H.f1 2 (by decide)) (f := fun e k => D a c e (i, j, k)) (fun e k hk => hM a c e i j k hi hj hk) (E := 0)
        (by intro a i _; simp)
      rw [mul_zero, zero_add] at this
      exact this

end

/-! ## The kernels in exact arithmetic -/

theorem T1_hsum (t h : ℚ) (b : ℤ) (f : Fin 2 → ℤ → ℚ) :
    T1 (basis t) h (f 0 b) (f 1 b) (f 0 (b + 1)) (f 1 (b + 1)) = hsum 0 h t b f := by
  simp only [basis, T1_four, B0, B1, B2, B3, cube, sqr, hsum, if_true, hVal_0, hVal_1, hSlope_0, hSlope_1]
  ring

theorem T1_hsum' (t h : ℚ) (b : ℤ) (f : Fin 2 → ℤ → ℚ) :
    T1 (basis' t) h (f 0 b) (f 1 b) (f 0 (b + 1)) (f 1 (b + 1)) = hsum 1 h t b f := by
  have e : ¬ (1 : Fin 2) = 0 := by decide
  simp only [basis', T1_four, B0', B1', B2', B3', sqr, hsum, if_neg e, hVal'_0, hVal'_1, hSlope'_0, hSlope'_1]
  ring

/-- Nodes of the exact kernels. -/
def jnode1 (D : Jet) (c : Cell) : Node1 ℚ := ⟨D 0 0 0 c, D 1 0 0 c, 0, 0⟩
def jnode2 (D : Jet) (c : Cell) : Node2 ℚ := ⟨D 0 0 0 c, ⟨D 1 0 0 c, D 0 1 0 c, 0⟩, D 1 1 0 c⟩
def jnode3 (D : Jet) (c : Cell) : Node3 ℚ := ⟨D 0 0 0 c, ⟨D 1 0 0 c, D 0 1 0 c, D 0 0 1 c⟩, D 1 1 0 c, D 0 1 1 c, D 1 0 1 c, D 1 1 1 c⟩

theorem kernel1_nest (D : Jet) (h : Fin 3 → ℚ) (J : ℚ) (t : Fin 3 → ℚ) (b : Fin 3 → ℤ) :
    kernel1 (h 0) J (t 0) (jnode1 D (b 0, 0, 0)) (jnode1 D (b 0 + 1, 0, 0)) false =
      ⟨nest1 noD t b (scaleJet h D), ⟨nest1 (oneD 0) t b (scaleJet h D) * J, 0, 0⟩⟩ := by
  rw [kernel1_eq, ← nest1_scale, ← nest1_scale]
  simp only [jnode1, noD, oneD, if_true]
  rw [← T1_hsum, ← T1_hsum']

theorem kernel2_nest (D : Jet) (h J t : Vec3 ℚ) (b : Fin 3 → ℤ) :
    kernel2 h J t (jnode2 D (b 0, b 1, 0)) (jnode2 D (b 0 + 1, b 1, 0)) (jnode2 D (b 0, b 1 + 1, 0)) (jnode2 D (b 0 + 1, b 1 + 1, 0)) false =
      ⟨nest2 noD t.get b (scaleJet h.get D), ⟨nest2 (oneD 0) t.get b (scaleJet h.get D) * J.x,
        nest2 (oneD 1) t.get b (scaleJet h.get D) * J.y, 0⟩⟩ := by
  rw [kernel2_eq, ← nest2_scale, ← nest2_scale, ← nest2_scale]
  have e01 : oneD 0 1 = 0 := rfl
  have e00 : oneD 0 0 = 1 := rfl
  have e10 : oneD 1 0 = 0 := rfl
  have e11 : oneD 1 1 = 1 := rfl
  simp only [jnode2, noD, e00, e01, e10, e11, Vec3.get]
  simp only [← T1_hsum, ← T1_hsum']

theorem kernel3_nest (D : Jet) (h J t : Vec3 ℚ) (b : Fin 3 → ℤ) :
    kernel3 h J t (jnode3 D (b 0, b 1, b 2)) (jnode3 D (b 0 + 1, b 1, b 2)) (jnode3 D (b 0, b 1 + 1, b 2)) (jnode3 D (b 0, b 1, b 2 + 1))
      (jnode3 D (b 0 + 1, b 1 + 1, b 2)) (jnode3 D (b 0, b 1 + 1, b 2 + 1)) (jnode3 D (b 0 + 1, b 1, b 2 + 1))
      (jnode3 D (b 0 + 1, b 1 + 1, b 2 + 1)) false =
      ⟨nest3 noD t.get b (scaleJet h.get D), ⟨nest3 (oneD 0) t.get b (scaleJet h.get D) * J.x,
        nest3 (oneD 1) t.get b (scaleJet h.get D) * J.y, nest3 (oneD 2) t.get b (scaleJet h.get D) * J.z⟩⟩ := by
  rw [kernel3_eq, ← nest3_scale, ← nest3_scale, ← nest3_scale, ← nest3_scale]
  have e01 : oneD 0 1 = 0 := rfl
  have e00 : oneD 0 0 = 1 := rfl
  have e02 : oneD 0 2 = 0 := rfl
  have e10 : oneD 1 0 = 0 := rfl
  have e11 : oneD 1 1 = 1 := rfl
  have e12 : oneD 1 2 = 0 := rfl
  have e20 : oneD 2 0 = 0 := rfl
  have e21 : oneD 2 1 = 0 := rfl
  have e22 : oneD 2 2 = 1 := rfl
  simp only [jnode3, noD, e00, e01, e02, e10, e11, e12, e20, e21, e22, Vec3.get]
  simp only [← T1_hsum, ← T1_hsum']

theorem jetSpline1_no (A : Fin 3 → Axis) (D : Jet) (q : Fin 3 → ℚ) :
    jetSpline 1 A noD D q = nest1 noD (fun a => Int.fract ((A a).coord (q a))) (fun a => ⌊(A a).coord (q a)⌋)
      (scaleJet (fun a => (A a).h) D) := by
  rw [jetSpline1]
  simp only [noD, Fin.val_zero, pow_zero, div_one]

theorem jetSpline1_x (A : Fin 3 → Axis) (D : Jet) (q : Fin 3 → ℚ) :
    jetSpline 1 A (oneD 0) D q = nest1 (oneD 0) (fun a => Int.fract ((A a).coord (q a))) (fun a => ⌊(A a).coord (q a)⌋)
      (scaleJet (fun a => (A a).h) D) / (A 0).h := by
  rw [jetSpline1]
  congr 1
  simp [oneD]

theorem jetSpline2_no (A : Fin 3 → Axis) (D : Jet) (q : Fin 3 → ℚ) :
    jetSpline 2 A noD D q = nest2 noD (fun a => Int.fract ((A a).coord (q a))) (fun a => ⌊(A a).coord (q a)⌋)
      (scaleJet (fun a => (A a).h) D) := by
  rw [jetSpline2]
  simp only [noD, Fin.val_zero, pow_zero, mul_one, div_one]

theorem jetSpline2_x (A : Fin 3 → Axis) (D : Jet) (q : Fin 3 → ℚ) :
    jetSpline 2 A (oneD 0) D q = nest2 (oneD 0) (fun a => Int.fract ((A a).coord (q a))) (fun a => ⌊(A a).coord (q a)⌋)
      (scaleJet (fun a => (A a).h) D) / (A 0).h := by
  rw [jetSpline2]
  congr 1
  simp [oneD]

theorem jetSpline2_y (A : Fin 3 → Axis) (D : Jet) (q : Fin 3 → ℚ) :
    jetSpline 2 A (oneD 1) D q = nest2 (oneD 1) (fun a => Int.fract ((A a).coord (q a))) (fun a => ⌊(A a).coord (q a)⌋)
      (scaleJet (fun a => (A a).h) D) / (A 1).h := by
  rw [jetSpline2]
  congr 1
  simp [oneD]

theorem jetSpline3_no (A : Fin 3 → Axis) (D : Jet) (q : Fin 3 → ℚ) :
    jetSpline 3 A noD D q = nest3 noD (fun a => Int.fract ((A a).coord (q a))) (fun a => ⌊(A a).coord (q a)⌋)
      (scaleJet (fun a => (A a).h) D) := by
  rw [jetSpline3]
  simp only [noD, Fin.val_zero, pow_zero, mul_one, div_one]

theorem jetSpline3_x (A : Fin 3 → Axis) (D : Jet) (q : Fin 3 → ℚ) :
    jetSpline 3 A (oneD 0) D q = nest3 (oneD 0) (fun a => Int.fract ((A a).coord (q a))) (fun a => ⌊(A a).coord (q a)⌋)
      (scaleJet (fun a => (A a).h) D) / (A 0).h := by
  rw [jetSpline3]
  congr 1
  simp [oneD]

theorem jetSpline3_y (A : Fin 3 → Axis) (D : Jet) (q : Fin 3 → ℚ) :
    jetSpline 3 A (oneD 1) D q = nest3 (oneD 1) (fun a => Int.fract ((A a).coord (q a))) (fun a => ⌊(A a).coord (q a)⌋)
      (scaleJet (fun a => (A a).h) D) / (A 1).h := by
  rw [jetSpline3]
  congr 1
  simp [oneD]

theorem jetSpline3_z (A : Fin 3 → Axis) (D : Jet) (q : Fin 3 → ℚ) :
    jetSpline 3 A (oneD 2) D q = nest3 (oneD 2) (fun a => Int.fract ((A a).coord (q a))) (fun a => ⌊(A a).coord (q a)⌋)
      (scaleJet (fun a => (A a).h) D) / (A 2).h := by
  rw [jetSpline3]
  congr 1
  simp [oneD]

end Gals
