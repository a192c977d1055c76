import Verif.Model.Array

/-!
# Lemmas about grids: index arithmetic and the generation loop
-/

namespace Gals

/-! ## Mixed-radix arithmetic -/

theorem radix_unique {m a r a' r' : ℤ} (h0 : 0 ≤ r) (h1 : r < m) (h0' : 0 ≤ r') (h1' : r' < m)
    (h : a * m + r = a' * m + r') : a = a' ∧ r = r' := by
  have hm : 0 < m := by omega
  have e1 : (a * m + r) / m = a := by
    rw [add_comm, Int.add_mul_ediv_right _ _ (by omega), Int.ediv_eq_zero_of_lt h0 h1]; omega
  have e2 : (a' * m + r') / m = a' := by
    rw [add_comm, Int.add_mul_ediv_right _ _ (by omega), Int.ediv_eq_zero_of_lt h0' h1']; omega
  have : a = a' := by rw [← e1, ← e2, h]
  subst this
  exact ⟨rfl, by omega⟩

theorem radix_bound {m n a r : ℤ} (ha : 0 ≤ a) (ha' : a < n) (h0 : 0 ≤ r) (h1 : r < m) :
    0 ≤ a * m + r ∧ a * m + r < n * m := by
  have hm : 0 < m := by omega
  constructor
  · have := mul_nonneg ha hm.le; omega
  · have : (a + 1) * m ≤ n * m := mul_le_mul_of_nonneg_right (by omega) hm.le
    have e : (a + 1) * m = a * m + m := by ring
    omega

theorem radix_exists {m n t : ℤ} (hm : 0 < m) (h0 : 0 ≤ t) (h1 : t < n * m) :
    ∃ a r, 0 ≤ a ∧ a < n ∧ 0 ≤ r ∧ r < m ∧ a * m + r = t := by
  refine ⟨t / m, t % m, Int.ediv_nonneg h0 hm.le, ?_, Int.emod_nonneg _ hm.ne', Int.emod_lt_of_pos _ hm, ?_⟩
  · exact Int.ediv_lt_of_lt_mul hm h1
  · rw [mul_comm]; exact Int.mul_ediv_add_emod t m

variable {K : Type} {d : ℕ}

/-! ## Shape of a grid -/

/-- What the constructor fixes, plus: at least one cell along each axis, one cell along inactive axes,
non-negative padding and a padded size representable as `int`. -/
structure Grid.Shape (g : Grid K d) : Prop where
  dim : d = 1 ∨ d = 2 ∨ d = 3
  m0 : g.mask0 = 1
  m1 : g.mask1 = if 2 ≤ d then 1 else 0
  m2 : g.mask2 = if 3 ≤ d then 1 else 0
  nx_pos : 0 < g.nx
  ny_pos : 0 < g.ny
  nz_pos : 0 < g.nz
  ny_one : d < 2 → g.ny = 1
  nz_one : d < 3 → g.nz = 1
  pad_nonneg : 0 ≤ g.pad
  fits : (g.nx + 2 * g.pad) * (g.ny + 2 * g.pad) * (g.nz + 2 * g.pad) ≤ intMax

/-- A padded cell of a grid: `[-pad, n + pad)` along active axes, `[0, n)` along the others. -/
def Grid.InPad (g : Grid K d) (c : Cell) : Prop :=
  (-g.pad ≤ c.1 ∧ c.1 < g.nx + g.pad) ∧
  (-(if 2 ≤ d then g.pad else 0) ≤ c.2.1 ∧ c.2.1 < g.ny + (if 2 ≤ d then g.pad else 0)) ∧
  (-(if 3 ≤ d then g.pad else 0) ≤ c.2.2 ∧ c.2.2 < g.nz + (if 3 ≤ d then g.pad else 0))

instance (g : Grid K d) (c : Cell) : Decidable (g.InPad c) := by unfold Grid.InPad; infer_instance

/-- An interior cell of a grid. -/
def Grid.Interior (g : Grid K d) (c : Cell) : Prop :=
  (0 ≤ c.1 ∧ c.1 < g.nx) ∧ (0 ≤ c.2.1 ∧ c.2.1 < g.ny) ∧ (0 ≤ c.2.2 ∧ c.2.2 < g.nz)

instance (g : Grid K d) (c : Cell) : Decidable (g.Interior c) := by unfold Grid.Interior; infer_instance

namespace Grid

/-- Mathematical value of the slot of a cell. -/
def lin (g : Grid K d) (c : Cell) : ℤ :=
  (c.2.2 + g.pad) * (g.nx + 2 * g.pad) * (g.ny + 2 * g.pad) * g.mask2 +
    (c.2.1 + g.pad) * (g.nx + 2 * g.pad) * g.mask1 + (c.1 + g.pad) * g.mask0

/-- Number of slots. -/
def slots (g : Grid K d) : ℤ :=
  (g.nz + 2 * g.pad * g.mask2) * (g.ny + 2 * g.pad * g.mask1) * (g.nx + 2 * g.pad * g.mask0)

theorem Interior.inPad {g : Grid K d} (hs : g.Shape) {c : Cell} (h : g.Interior c) : g.InPad c := by
  have := hs.pad_nonneg
  obtain ⟨⟨a, b⟩, ⟨e, f⟩, ⟨u, v⟩⟩ := h
  refine ⟨⟨by omega, by omega⟩, ⟨?_, ?_⟩, ⟨?_, ?_⟩⟩ <;> split <;> omega

/-- Enlarging a cell by one step stays in the padding. -/
theorem Interior.near {g : Grid K d} {p : ℤ} (hp : p ≤ g.pad) {c : Cell} (h : g.Interior c) (a b e : ℤ)
    (ha : -p ≤ a ∧ a ≤ p) (hb : -p ≤ b ∧ b ≤ p) (he : -p ≤ e ∧ e ≤ p)
    (hb0 : d < 2 → b = 0) (he0 : d < 3 → e = 0) : g.InPad (c.1 + a, c.2.1 + b, c.2.2 + e) := by
  obtain ⟨⟨i0, i1⟩, ⟨j0, j1⟩, ⟨k0, k1⟩⟩ := h
  refine ⟨⟨?_, ?_⟩, ⟨?_, ?_⟩, ⟨?_, ?_⟩⟩ <;> simp only
  · omega
  · omega
  · split
    · omega
    · have := hb0 (by omega); omega
  · split
    · omega
    · have := hb0 (by omega); omega
  · split
    · omega
    · have := he0 (by omega); omega
  · split
    · omega
    · have := he0 (by omega); omega

private theorem inInt_of {z N : ℤ} (h0 : 0 ≤ z) (h : z ≤ N) (hN : N ≤ intMax) : InInt z := by
  constructor
  · unfold intMin; omega
  · omega

/-- Under `Shape`, `index` returns the mathematical slot for every padded cell, with either reading of `int`. -/
theorem index_ok (s : IntSem) {g : Grid K d} (hs : g.Shape) {c : Cell} (hc : g.InPad c) :
    g.index s c.1 c.2.1 c.2.2 = .ok (g.lin c) := by
  obtain ⟨i, j, k⟩ := c
  obtain ⟨⟨i0, i1⟩, hj, hk⟩ := hc
  simp only at i0 i1 hj hk
  have hd := hs.dim
  have hp := hs.pad_nonneg
  have hx := hs.nx_pos
  have hy := hs.ny_pos
  have hz := hs.nz_pos
  have hf := hs.fits
  have hm0 := hs.m0
  have hm1 := hs.m1
  have hm2 := hs.m2
  -- bounds of the padded coordinates
  have hj' : 0 ≤ j + g.pad ∧ j + g.pad < g.ny + 2 * g.pad := by
    split at hj <;> omega
  have hk' : 0 ≤ k + g.pad ∧ k + g.pad < g.nz + 2 * g.pad := by
    split at hk <;> omega
  -- bounds of products
  generalize hX : g.nx + 2 * g.pad = X at *
  generalize hY : g.ny + 2 * g.pad = Y at *
  generalize hZ : g.nz + 2 * g.pad = Z at *
  have hX0 : 0 < X := by omega
  have hY0 : 0 < Y := by omega
  have hZ0 : 0 < Z := by omega
  have hXY : 0 < X * Y := mul_pos hX0 hY0
  have hXZ : 0 < Z * X := mul_pos hZ0 hX0
  have hV : Z * X * Y ≤ intMax := by
    have : Z * X * Y = X * Y * Z := by ring
    omega
  have hXY_le : X * Y ≤ intMax := by nlinarith
  have hX_le : X ≤ X * Y := by nlinarith
  have hY_le : Y ≤ X * Y := by nlinarith
  have hZX_le : Z * X ≤ Z * X * Y := by nlinarith
  have hZ_le : Z ≤ Z * X := by nlinarith
  have hP_le : 2 * g.pad ≤ X := by omega
  have b1 := radix_bound hj'.1 hj'.2 (show 0 ≤ i + g.pad by omega) (show i + g.pad < X by omega)
  have b2 := radix_bound hk'.1 hk'.2 (show 0 ≤ (j + g.pad) * X + (i + g.pad) by omega)
    (show (j + g.pad) * X + (i + g.pad) < X * Y by rw [mul_comm X Y]; omega)
  have k1 : 0 ≤ (k + g.pad) * X := mul_nonneg hk'.1 hX0.le
  have k2 : (k + g.pad) * X ≤ Z * X := mul_le_mul_of_nonneg_right hk'.2.le hX0.le
  have k3 : 0 ≤ (k + g.pad) * X * Y := mul_nonneg k1 hY0.le
  have k4 : (k + g.pad) * X * Y ≤ Z * X * Y := mul_le_mul_of_nonneg_right k2 hY0.le
  have j1 : 0 ≤ (j + g.pad) * X := mul_nonneg hj'.1 hX0.le
  have j2 : (j + g.pad) * X ≤ X * Y := by
    rw [mul_comm X Y]; exact mul_le_mul_of_nonneg_right hj'.2.le hX0.le
  have e2 : (k + g.pad) * (X * Y) = (k + g.pad) * X * Y := by ring
  have e3 : Z * (X * Y) = Z * X * Y := by ring
  have mm1 : g.mask1 = 0 ∨ g.mask1 = 1 := by rw [hm1]; split <;> simp
  have mm2 : g.mask2 = 0 ∨ g.mask2 = 1 := by rw [hm2]; split <;> simp
  have hi : InInt (i + g.pad) := inInt_of (N := X * Y) (by omega) (by omega) hXY_le
  have t2 : InInt ((k + g.pad) * X * Y * g.mask2) := by
    rcases mm2 with h | h <;> rw [h]
    · simp [InInt, intMin, intMax]
    · rw [mul_one]; exact inInt_of k3 k4 hV
  have t1 : InInt ((j + g.pad) * X * g.mask1) := by
    rcases mm1 with h | h <;> rw [h]
    · simp [InInt, intMin, intMax]
    · rw [mul_one]; exact inInt_of j1 j2 hXY_le
  have t21 : InInt ((k + g.pad) * X * Y * g.mask2 + (j + g.pad) * X * g.mask1) := by
    refine inInt_of (N := Z * X * Y) ?_ ?_ hV
    · rcases mm2 with h | h <;> rcases mm1 with h' | h' <;> rw [h, h'] <;> omega
    · rcases mm2 with h | h <;> rcases mm1 with h' | h' <;> rw [h, h'] <;>
        simp only [mul_zero, mul_one, add_zero, zero_add] <;> omega
  have t210 : InInt ((k + g.pad) * X * Y * g.mask2 + (j + g.pad) * X * g.mask1 + (i + g.pad) * 1) := by
    refine inInt_of (N := Z * X * Y) ?_ ?_ hV
    · rcases mm2 with h | h <;> rcases mm1 with h' | h' <;> rw [h, h'] <;> omega
    · rcases mm2 with h | h <;> rcases mm1 with h' | h' <;> rw [h, h'] <;>
        simp only [mul_zero, mul_one, add_zero, zero_add] <;> omega
  unfold index iadd imul lin
  simp only [hX, hY]
  rw [ck_ok s (inInt_of (N := Z * X * Y) hk'.1 (by omega) hV), M.ok_bind,
    ck_ok s (inInt_of (N := X * Y) (by omega) (by omega) hXY_le), M.ok_bind, hX,
    ck_ok s (inInt_of (N := X * Y) (by omega) (by omega) hXY_le), M.ok_bind,
    ck_ok s (inInt_of (N := Z * X * Y) k1 (by omega) hV), M.ok_bind, hY,
    ck_ok s (inInt_of (N := X * Y) (by omega) (by omega) hXY_le), M.ok_bind,
    ck_ok s (inInt_of k3 k4 hV), M.ok_bind, ck_ok s t2, M.ok_bind,
    ck_ok s (inInt_of (N := X * Y) hj'.1 (by omega) hXY_le), M.ok_bind,
    ck_ok s (inInt_of j1 j2 hXY_le), M.ok_bind, ck_ok s t1, M.ok_bind,
    ck_ok s hi, M.ok_bind, hm0, mul_one, ck_ok s hi, M.ok_bind, ck_ok s t21, M.ok_bind]
  rw [mul_one] at t210
  rw [ck_ok s t210]

/-- With wrap-around arithmetic the third coordinate does not matter on a 1D or 2D grid. -/
theorem index_wrap_z {g : Grid K d} (hs : g.Shape) (h : d < 3) (i j k k' : ℤ) :
    g.index .wrap i j k = g.index .wrap i j k' := by
  have hm2 : g.mask2 = 0 := by rw [hs.m2, if_neg (by omega)]
  simp only [index, iadd, imul, ck, M.ok_bind, hm2, mul_zero]

/-- With wrap-around arithmetic the second coordinate does not matter on a 1D grid. -/
theorem index_wrap_y {g : Grid K d} (hs : g.Shape) (h : d < 2) (i j j' k : ℤ) :
    g.index .wrap i j k = g.index .wrap i j' k := by
  have hm1 : g.mask1 = 0 := by rw [hs.m1, if_neg (by omega)]
  simp only [index, iadd, imul, ck, M.ok_bind, hm1, mul_zero]

/-- Slots of padded cells lie in the storage. -/
theorem lin_bound {g : Grid K d} (hs : g.Shape) {c : Cell} (hc : g.InPad c) :
    0 ≤ g.lin c ∧ g.lin c < g.slots := by
  obtain ⟨i, j, k⟩ := c
  obtain ⟨⟨i0, i1⟩, hj, hk⟩ := hc
  simp only at i0 i1 hj hk
  have hm0 := hs.m0
  have hm1 := hs.m1
  have hm2 := hs.m2
  rcases hs.dim with rfl | rfl | rfl
  · have hy := hs.ny_one (by omega)
    have hz := hs.nz_one (by omega)
    simp only [lin, slots, hm0, hm1, hm2, hy, hz] at *
    norm_num at *
    omega
  · have hz := hs.nz_one (by omega)
    norm_num at hm1 hm2 hj hk
    have := radix_bound (m := g.nx + 2 * g.pad) (n := g.ny + 2 * g.pad) (a := j + g.pad) (r := i + g.pad)
      (by omega) (by omega) (by omega) (by omega)
    simp only [lin, slots, hm0, hm1, hm2, hz]
    norm_num
    exact this
  · norm_num at hm1 hm2 hj hk
    have b1 := radix_bound (m := g.nx + 2 * g.pad) (n := g.ny + 2 * g.pad) (a := j + g.pad) (r := i + g.pad)
      (by omega) (by omega) (by omega) (by omega)
    have b2 := radix_bound (m := (g.ny + 2 * g.pad) * (g.nx + 2 * g.pad)) (n := g.nz + 2 * g.pad)
      (a := k + g.pad) (r := (j + g.pad) * (g.nx + 2 * g.pad) + (i + g.pad))
      (by omega) (by omega) b1.1 b1.2
    simp only [lin, slots, hm0, hm1, hm2, mul_one]
    have e1 : (k + g.pad) * (g.nx + 2 * g.pad) * (g.ny + 2 * g.pad)
        = (k + g.pad) * ((g.ny + 2 * g.pad) * (g.nx + 2 * g.pad)) := by ring
    have e2 : (g.nz + 2 * g.pad) * (g.ny + 2 * g.pad) * (g.nx + 2 * g.pad)
        = (g.nz + 2 * g.pad) * ((g.ny + 2 * g.pad) * (g.nx + 2 * g.pad)) := by ring
    rw [e1, e2]
    omega

/-- Different padded cells have different slots. -/
theorem lin_inj {g : Grid K d} (hs : g.Shape) {c c' : Cell} (hc : g.InPad c) (hc' : g.InPad c')
    (h : g.lin c = g.lin c') : c = c' := by
  obtain ⟨i, j, k⟩ := c
  obtain ⟨i', j', k'⟩ := c'
  obtain ⟨⟨i0, i1⟩, hj, hk⟩ := hc
  obtain ⟨⟨i0', i1'⟩, hj', hk'⟩ := hc'
  simp only at i0 i1 hj hk i0' i1' hj' hk'
  have hm0 := hs.m0
  have hm1 := hs.m1
  have hm2 := hs.m2
  rcases hs.dim with rfl | rfl | rfl
  · have hy := hs.ny_one (by omega)
    have hz := hs.nz_one (by omega)
    norm_num at hm1 hm2 hj hk hj' hk'
    simp only [lin, hm0, hm1, hm2] at h
    norm_num at h
    refine Prod.ext h (Prod.ext ?_ ?_)
    · simp only; omega
    · simp only; omega
  · have hz := hs.nz_one (by omega)
    norm_num at hm1 hm2 hj hk hj' hk'
    simp only [lin, hm0, hm1, hm2, mul_zero, mul_one, zero_add] at h
    have := radix_unique (by omega) (by omega) (by omega) (by omega) h
    refine Prod.ext ?_ (Prod.ext ?_ ?_) <;> simp only <;> omega
  · norm_num at hm1 hm2 hj hk hj' hk'
    have b := radix_bound (m := g.nx + 2 * g.pad) (n := g.ny + 2 * g.pad) (a := j + g.pad) (r := i + g.pad)
      (by omega) (by omega) (by omega) (by omega)
    have b' := radix_bound (m := g.nx + 2 * g.pad) (n := g.ny + 2 * g.pad) (a := j' + g.pad) (r := i' + g.pad)
      (by omega) (by omega) (by omega) (by omega)
    have h2 : (k + g.pad) * ((g.ny + 2 * g.pad) * (g.nx + 2 * g.pad)) +
          ((j + g.pad) * (g.nx + 2 * g.pad) + (i + g.pad))
        = (k' + g.pad) * ((g.ny + 2 * g.pad) * (g.nx + 2 * g.pad)) +
          ((j' + g.pad) * (g.nx + 2 * g.pad) + (i' + g.pad)) := by
      simp only [lin, hm0, hm1, hm2, mul_one] at h
      linarith [h]
    have u := radix_unique b.1 b.2 b'.1 b'.2 h2
    have v := radix_unique (by omega) (by omega) (by omega) (by omega) u.2
    refine Prod.ext ?_ (Prod.ext ?_ ?_) <;> simp only <;> omega

/-- Every slot belongs to a padded cell. -/
theorem lin_surj {g : Grid K d} (hs : g.Shape) {t : ℤ} (h0 : 0 ≤ t) (h1 : t < g.slots) :
    ∃ c, g.InPad c ∧ g.lin c = t := by
  have hm0 := hs.m0
  have hm1 := hs.m1
  have hm2 := hs.m2
  have hp := hs.pad_nonneg
  have hx := hs.nx_pos
  have hy' := hs.ny_pos
  have hz' := hs.nz_pos
  rcases hs.dim with rfl | rfl | rfl
  · have hy := hs.ny_one (by omega)
    have hz := hs.nz_one (by omega)
    norm_num at hm1 hm2
    simp only [slots, hm0, hm1, hm2, hy, hz] at h1
    norm_num at h1
    refine ⟨(t - g.pad, 0, 0), ?_, ?_⟩
    · simp only [InPad]; norm_num; omega
    · simp only [lin, hm0, hm1, hm2]; ring
  · have hz := hs.nz_one (by omega)
    norm_num at hm1 hm2
    simp only [slots, hm0, hm1, hm2, hz, mul_one, mul_zero, add_zero, one_mul] at h1
    obtain ⟨a, r, a0, a1, r0, r1, e⟩ := radix_exists (by omega) h0 h1
    refine ⟨(r - g.pad, a - g.pad, 0), ?_, ?_⟩
    · simp only [InPad]; norm_num; omega
    · simp only [lin, hm0, hm1, hm2]; rw [← e]; ring
  · norm_num at hm1 hm2
    simp only [slots, hm0, hm1, hm2, mul_one] at h1
    rw [mul_assoc] at h1
    obtain ⟨a, r, a0, a1, r0, r1, e⟩ := radix_exists (mul_pos (by omega) (by omega)) h0 h1
    obtain ⟨b, q, b0, b1, q0, q1, e'⟩ := radix_exists (by omega) r0 r1
    refine ⟨(q - g.pad, b - g.pad, a - g.pad), ?_, ?_⟩
    · simp only [InPad]; norm_num; omega
    · simp only [lin, hm0, hm1, hm2]; rw [← e, ← e']; ring

theorem storageSize_ok (s : IntSem) {g : Grid K d} (hs : g.Shape) : g.storageSize s = .ok g.slots ∧ 0 < g.slots ∧
    g.slots ≤ intMax := by
  have hp := hs.pad_nonneg
  have hx := hs.nx_pos
  have hy := hs.ny_pos
  have hz := hs.nz_pos
  have hf := hs.fits
  have hm0 := hs.m0
  have mm1 : g.mask1 = 0 ∨ g.mask1 = 1 := by rw [hs.m1]; split <;> simp
  have mm2 : g.mask2 = 0 ∨ g.mask2 = 1 := by rw [hs.m2]; split <;> simp
  have hyb : 0 < g.ny + 2 * g.pad * g.mask1 ∧ g.ny + 2 * g.pad * g.mask1 ≤ g.ny + 2 * g.pad := by
    rcases mm1 with h | h <;> rw [h] <;> omega
  have hzb : 0 < g.nz + 2 * g.pad * g.mask2 ∧ g.nz + 2 * g.pad * g.mask2 ≤ g.nz + 2 * g.pad := by
    rcases mm2 with h | h <;> rw [h] <;> omega
  have hmp1 : 0 ≤ 2 * g.pad * g.mask1 ∧ 2 * g.pad * g.mask1 ≤ 2 * g.pad := by
    rcases mm1 with h | h <;> rw [h] <;> omega
  have hmp2 : 0 ≤ 2 * g.pad * g.mask2 ∧ 2 * g.pad * g.mask2 ≤ 2 * g.pad := by
    rcases mm2 with h | h <;> rw [h] <;> omega
  unfold storageSize iadd imul slots
  rw [hm0]
  simp only [mul_one]
  generalize hX : g.nx + 2 * g.pad = X at *
  generalize hY : g.ny + 2 * g.pad = Y at *
  generalize hZ : g.nz + 2 * g.pad = Z at *
  have hX0 : 0 < X := by omega
  have hY0 : 0 < Y := by omega
  have hZ0 : 0 < Z := by omega
  have hXY : X * Y ≤ X * Y * Z := by nlinarith [mul_pos hX0 hY0]
  have hX_le : X ≤ X * Y := by nlinarith
  have hY_le : Y ≤ X * Y := by nlinarith
  have hZ_le : Z ≤ X * Y * Z := by nlinarith [mul_pos hX0 hY0]
  generalize hy1 : g.ny + 2 * g.pad * g.mask1 = y1 at *
  generalize hz1 : g.nz + 2 * g.pad * g.mask2 = z1 at *
  have zy : z1 * y1 ≤ Z * Y := mul_le_mul hzb.2 hyb.2 hyb.1.le (by omega)
  have zy0 : 0 < z1 * y1 := mul_pos hzb.1 hyb.1
  have zyx : z1 * y1 * X ≤ Z * Y * X := mul_le_mul_of_nonneg_right zy hX0.le
  have ZY : Z * Y ≤ Z * Y * X := by nlinarith [mul_pos hZ0 hY0]
  have e : Z * Y * X = X * Y * Z := by ring
  refine ⟨?_, mul_pos zy0 hX0, by omega⟩
  rw [ck_ok s (inInt_of (N := X * Y * Z) (by omega) (by omega) hf), M.ok_bind,
    ck_ok s (inInt_of (N := X * Y * Z) (by omega) (by omega) hf), M.ok_bind, hz1,
    ck_ok s (inInt_of (N := X * Y * Z) (by omega) (by omega) hf), M.ok_bind,
    ck_ok s (inInt_of (N := X * Y * Z) (by omega) (by omega) hf), M.ok_bind, hy1,
    ck_ok s (inInt_of (N := X * Y * Z) (by omega) (by omega) hf), M.ok_bind,
    ck_ok s (inInt_of (N := X * Y * Z) (by omega) (by omega) hf), M.ok_bind, hX,
    ck_ok s (inInt_of (N := X * Y * Z) (by omega) (by omega) hf), M.ok_bind,
    ck_ok s (inInt_of (N := X * Y * Z) (by omega) (by omega) hf), M.ok_bind,
    ck_ok s (inInt_of (N := X * Y * Z) (by nlinarith) (by omega) hf)]

/-- The cells visited by `generate` are the padded cells. -/
theorem mem_genCells {g : Grid K d} (hs : g.Shape) {c : Cell} : c ∈ g.genCells ↔ g.InPad c := by
  have hm0 := hs.m0
  have hm1 := hs.m1
  have hm2 := hs.m2
  unfold genCells InPad
  rw [mem_cells, hm0, hm1, hm2]
  rcases hs.dim with rfl | rfl | rfl <;> norm_num

end Grid

/-! ## Loops that write one slot per cell -/

/-- A loop that writes `v c` into the slot `ix c`, for distinct slots. -/
theorem write_loop {T : Type} {l : List Cell} {d0 : List T} {ix : Cell → M ℤ} {v : Cell → M T}
    (f : Cell → ℤ) (w : Cell → T)
    (hix : ∀ c ∈ l, ix c = .ok (f c)) (hv : ∀ c ∈ l, v c = .ok (w c))
    (hb : ∀ c ∈ l, 0 ≤ f c ∧ f c < d0.length)
    (hinj : ∀ c ∈ l, ∀ c' ∈ l, f c = f c' → c = c') (hnd : l.Nodup) :
    ∃ d1, loop l d0 (fun acc c => do
        let idx ← ix c
        let x ← v c
        wr acc idx x) = .ok d1 ∧ d1.length = d0.length ∧
      (∀ c ∈ l, rd d1 (f c) = .ok (w c)) ∧
      (∀ n : ℤ, (∀ c ∈ l, f c ≠ n) → rd d1 n = rd d0 n) := by
  obtain ⟨t, h1, h2⟩ := loop_inv (l := l) (s := d0) (body := fun acc c => do
        let idx ← ix c
        let x ← v c
        wr acc idx x)
    (fun pre t => t.length = d0.length ∧ (∀ c ∈ pre, rd t (f c) = .ok (w c)) ∧
      (∀ n : ℤ, (∀ c ∈ pre, f c ≠ n) → rd t n = rd d0 n))
    ⟨rfl, by simp, by simp⟩ (by
      rintro pre a post t hl ⟨hlen, hold, hfr⟩
      have ha : a ∈ l := by rw [hl]; simp
      have hpre : ∀ c ∈ pre, c ∈ l := fun c hc => by rw [hl]; simp [hc]
      have hne : ∀ c ∈ pre, f c ≠ f a := by
        intro c hc e
        have := hinj c (hpre c hc) a ha e
        subst this
        rw [hl] at hnd
        exact (List.disjoint_of_nodup_append hnd) hc (by simp)
      have hba := hb a ha
      have hw := wr_ok (v := t) (w a) hba.1 (by omega)
      refine ⟨_, by simp only [hix a ha, hv a ha, M.ok_bind]; exact hw, ?_, ?_, ?_⟩
      · rw [List.length_set, hlen]
      · intro c hc
        rcases List.mem_append.1 hc with hc | hc
        · rw [rd_wr_other hw (hne c hc).symm]; exact hold c hc
        · simp only [List.mem_singleton] at hc
          subst hc
          exact rd_wr_same hw
      · intro n hn
        rw [rd_wr_other hw (hn a (by simp))]
        exact hfr n fun c hc => hn c (by simp [hc]))
  exact ⟨t, h1, h2.1, h2.2.1, h2.2.2⟩

/-! ## Generation -/

namespace Grid

theorem mk3_ok [IntCast K] (s : IntSem) {nx ny nz : ℤ} (h1 : InInt (nx * ny)) (h2 : InInt (nx * ny * nz)) :
    ∃ g : Grid K d, mk3 s d nx ny nz = .ok g ∧ g.nx = nx ∧ g.ny = ny ∧ g.nz = nz ∧ g.pad = 1 ∧ g.mask0 = 1 ∧
      g.mask1 = (if d = 2 then 1 else if d = 3 then 1 else 0) ∧ g.mask2 = (if d = 3 then 1 else 0) ∧
      g.grid = [] ∧ g.boxMin = ⟨((intMin : ℤ) : K), ((intMin : ℤ) : K), ((intMin : ℤ) : K)⟩ ∧
      g.oneOverDx = ⟨((intMin : ℤ) : K), ((intMin : ℤ) : K), ((intMin : ℤ) : K)⟩ := by
  unfold mk3 imul
  rw [ck_ok s h1, M.ok_bind, ck_ok s h2, M.ok_bind]
  exact ⟨_, rfl, rfl, rfl, rfl, rfl, rfl, rfl, rfl, rfl, rfl, rfl⟩

theorem index_congr (s : IntSem) {g g' : Grid K d} (h1 : g.nx = g'.nx) (h2 : g.ny = g'.ny)
    (h4 : g.pad = g'.pad) (h5 : g.mask0 = g'.mask0) (h6 : g.mask1 = g'.mask1)
    (h7 : g.mask2 = g'.mask2) (i j k : ℤ) : g.index s i j k = g'.index s i j k := by
  unfold index; rw [h1, h2, h4, h5, h6, h7]

variable [Zero K] [One K] [Add K] [Sub K] [Mul K] [Div K] [NatCast K] [IntCast K]

/-- Everything `generate` guarantees, for every scalar type. -/
structure Generated (s : IntSem) (g0 : Grid K d) (xmin xmax ymin ymax zmin zmax : K) (g : Grid K d) : Prop where
  shape : g.Shape
  nx : g.nx = g0.nx
  ny : g.ny = g0.ny
  nz : g.nz = g0.nz
  pad : g.pad = g0.pad
  mask0 : g.mask0 = g0.mask0
  mask1 : g.mask1 = g0.mask1
  mask2 : g.mask2 = g0.mask2
  boxMin : g.boxMin = ⟨xmin, ymin, zmin⟩
  boxMax : g.boxMax = ⟨xmax, ymax, zmax⟩
  dx : g.dx = ⟨(xmax - xmin) / ((g0.nx : ℤ) : K), (ymax - ymin) / ((g0.ny : ℤ) : K),
    (zmax - zmin) / ((g0.nz : ℤ) : K)⟩
  oneOverDx : ∀ a : Fin 3, g.oneOverDx.get a = if a.val < d then 1 / g.dx.get a else g0.oneOverDx.get a
  total : g.totalCells = activeCells g0
  size : (g.size : ℤ) = g.slots
  node : ∀ c, g.InPad c → g.at' s c.1 c.2.1 c.2.2 = .ok (elem g0 g.boxMin g.dx c)

theorem generate_ok (s : IntSem) {g0 : Grid K d} (hs : g0.Shape) (xmin xmax ymin ymax zmin zmax : K) :
    ∃ g, g0.generate s xmin xmax ymin ymax zmin zmax = .ok g ∧
      Generated s g0 xmin xmax ymin ymax zmin zmax g := by
  obtain ⟨hsz, hpos, hmax⟩ := storageSize_ok s hs
  set bmin : Vec3 K := ⟨xmin, ymin, zmin⟩ with hbmin
  set dx : Vec3 K := ⟨(xmax - xmin) / ((g0.nx : ℤ) : K), (ymax - ymin) / ((g0.ny : ℤ) : K),
    (zmax - zmin) / ((g0.nz : ℤ) : K)⟩ with hdx
  have hlen : ((List.replicate g0.slots.toNat (Vec3.zero : Vec3 K)).length : ℤ) = g0.slots := by
    rw [List.length_replicate]; omega
  obtain ⟨d1, hl, hlen1, hcell, -⟩ := write_loop (l := g0.genCells)
    (d0 := List.replicate g0.slots.toNat (Vec3.zero : Vec3 K))
    (ix := fun c => g0.index s c.1 c.2.1 c.2.2) (v := fun c => .ok (elem g0 bmin dx c))
    g0.lin (elem g0 bmin dx)
    (fun c hc => index_ok s hs ((mem_genCells hs).1 hc)) (fun _ _ => rfl)
    (fun c hc => by rw [hlen]; exact lin_bound hs ((mem_genCells hs).1 hc))
    (fun c hc c' hc' h => lin_inj hs ((mem_genCells hs).1 hc) ((mem_genCells hs).1 hc') h)
    (nodup_cells _ _ _ _ _ _)
  refine ⟨{ g0 with
    boxMin := bmin, boxMax := ⟨xmax, ymax, zmax⟩, dx := dx,
    oneOverDx := newInv d dx g0.oneOverDx,
    grid := d1, totalCells := activeCells g0 }, ?_, ?_⟩
  · unfold generate resizeEmpty
    rw [hsz, M.ok_bind, if_pos hpos.le, M.ok_bind]
    simp only [M.ok_bind] at hl
    simp only [← hbmin, ← hdx, hl, M.ok_bind, M.pure_eq]
  · have hshape : ∀ (g : Grid K d), g.nx = g0.nx → g.ny = g0.ny → g.nz = g0.nz → g.pad = g0.pad →
        g.mask0 = g0.mask0 → g.mask1 = g0.mask1 → g.mask2 = g0.mask2 → g.Shape := by
      intro g e1 e2 e3 e4 e5 e6 e7
      exact ⟨hs.dim, e5 ▸ hs.m0, e6 ▸ hs.m1, e7 ▸ hs.m2, e1 ▸ hs.nx_pos, e2 ▸ hs.ny_pos, e3 ▸ hs.nz_pos,
        fun h => e2 ▸ hs.ny_one h, fun h => e3 ▸ hs.nz_one h, e4 ▸ hs.pad_nonneg,
        by rw [e1, e2, e3, e4]; exact hs.fits⟩
    refine ⟨hshape _ rfl rfl rfl rfl rfl rfl rfl, rfl, rfl, rfl, rfl, rfl, rfl, rfl, rfl, rfl, rfl, ?_, rfl, ?_, ?_⟩
    · intro a
      match a with
      | 0 => rfl
      | 1 => rfl
      | 2 => rfl
    · show (d1.length : ℤ) = g0.slots
      rw [hlen1, hlen]
    · intro c hc
      have hc0 : g0.InPad c := hc
      show (g0.index s c.1 c.2.1 c.2.2 >>= fun idx => rd d1 idx) = .ok (elem g0 bmin dx c)
      rw [index_ok s hs hc0, M.ok_bind]
      exact hcell c ((mem_genCells hs).2 hc0)

end Grid

end Gals
