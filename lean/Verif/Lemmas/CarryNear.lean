import Verif.Lemmas.SecondOrder

/-!
# Errors carried along a line, with a new error in each step
-/

namespace Gals

open Spec

/-- The energy of small data. -/
theorem en_small {h A B a a' b b' : ℝ} (hh : 0 < h) (ha : |a| ≤ A) (ha' : |a'| ≤ B) (hb : |b| ≤ A) (hb' : |b'| ≤ B) :
    en h a a' b b' ≤ (4 * (B + 2 * A / h) / h) ^ 2 * h := by
  have A0 : 0 ≤ A := (abs_nonneg _).trans ha
  have B0 : 0 ≤ B := (abs_nonneg _).trans ha'
  have hs : |(b - a) / h| ≤ 2 * A / h := by
    rw [abs_div, abs_of_pos hh]
    gcongr
    exact (abs_sub _ _).trans (by linarith)
  have h1 : |a' - (b - a) / h| ≤ B + 2 * A / h := (abs_sub _ _).trans (add_le_add ha' hs)
  have h2 : |b' - (b - a) / h| ≤ B + 2 * A / h := (abs_sub _ _).trans (add_le_add hb' hs)
  have e : en h a a' b b' = 4 / h * ((a' - (b - a) / h) ^ 2 + (a' - (b - a) / h) * (b' - (b - a) / h) + (b' - (b - a) / h) ^ 2) := rfl
  rw [e]
  generalize a' - (b - a) / h = α at h1
  generalize b' - (b - a) / h = β at h2
  have W0 : 0 ≤ B + 2 * A / h := by positivity
  generalize B + 2 * A / h = W at h1 h2 W0
  have q1 : α ^ 2 ≤ W ^ 2 := sq_le_sq' (abs_le.1 h1).1 (abs_le.1 h1).2
  have q2 : β ^ 2 ≤ W ^ 2 := sq_le_sq' (abs_le.1 h2).1 (abs_le.1 h2).2
  have : α ^ 2 + α * β + β ^ 2 ≤ 4 * W ^ 2 := by nlinarith [sq_nonneg (α - β)]
  calc 4 / h * (α ^ 2 + α * β + β ^ 2) ≤ 4 / h * (4 * W ^ 2) := by gcongr
    _ = _ := by field_simp

/-- The energy of a sum, as a norm. -/
theorem en_minkowski {h P Q a a' b b' c c' d d' : ℝ} (hh : 0 < h) (P0 : 0 ≤ P) (Q0 : 0 ≤ Q) (h1 : en h a a' b b' ≤ P ^ 2 * h)
    (h2 : en h c c' d d' ≤ Q ^ 2 * h) : en h (a + c) (a' + c') (b + d) (b' + d') ≤ (P + Q) ^ 2 * h := by
  obtain ⟨I, e1, e2⟩ : ∃ I : ℝ, en h (a + c) (a' + c') (b + d) (b' + d') = en h a a' b b' + en h c c' d d' + 2 * I ∧
      I ^ 2 ≤ en h a a' b b' * en h c c' d d' := by
    refine ⟨4 / h * ((a' - (b - a) / h) * (c' - (d - c) / h) + ((a' - (b - a) / h) * (d' - (d - c) / h) +
      (b' - (b - a) / h) * (c' - (d - c) / h)) / 2 + (b' - (b - a) / h) * (d' - (d - c) / h)), ?_, ?_⟩
    · unfold en
      field_simp
      ring
    · have : en h a a' b b' * en h c c' d d' - (4 / h * ((a' - (b - a) / h) * (c' - (d - c) / h) + ((a' - (b - a) / h) * (d' - (d - c) / h) +
        (b' - (b - a) / h) * (c' - (d - c) / h)) / 2 + (b' - (b - a) / h) * (d' - (d - c) / h))) ^ 2 =
          12 / h ^ 2 * ((a' - (b - a) / h) * (d' - (d - c) / h) - (b' - (b - a) / h) * (c' - (d - c) / h)) ^ 2 := by
        unfold en
        field_simp
        ring
      have nn : 0 ≤ 12 / h ^ 2 * ((a' - (b - a) / h) * (d' - (d - c) / h) - (b' - (b - a) / h) * (c' - (d - c) / h)) ^ 2 := by positivity
      linarith
  have n1 := en_nonneg hh a a' b b'
  have n2 := en_nonneg hh c c' d d'
  have I2 : I ^ 2 ≤ (P * Q * h) ^ 2 := by
    refine e2.trans ((mul_le_mul h1 h2 n2 (by positivity)).trans (le_of_eq ?_))
    ring
  have := (abs_le_of_sq_le_sq' I2 (by positivity)).2
  rw [e1]
  nlinarith

/-- Energies that grow by a small amount in each step, from a small one, and pay for `X`. -/
theorem energy_sum_from {K : ℕ} {R : ℝ} (E T X : ℕ → ℝ) (hX : ∀ j, 0 ≤ X j) (hR : 0 ≤ R) (hE0 : E 0 ≤ R) (h1 : ∀ j, j < K → T j + X j ≤ E j)
    (h2 : ∀ j, j < K → E (j + 1) ≤ (1 + 1 / ((j : ℝ) + 2)) * T j + (1 + ((j : ℝ) + 2)) * R) :
    ∀ j, j ≤ K → E j + ∑ l ∈ Finset.range j, X l ≤ (j + 1) * (j + 2) * R := by
  intro j
  induction j with
  | zero => intro _; simp; linarith
  | succ j ih =>
    intro hj
    have i1 := ih (by omega)
    have i2 := h1 j (by omega)
    have i3 := h2 j (by omega)
    rw [Finset.sum_range_succ]
    have s0 : 0 ≤ ∑ l ∈ Finset.range j, X l := Finset.sum_nonneg fun l _ => hX l
    have x0 := hX j
    have j0 : (0 : ℝ) < (j : ℝ) + 2 := by positivity
    have d : 1 / ((j : ℝ) + 2) * T j ≤ (j + 1) * R := by
      rw [one_div, inv_mul_le_iff₀ j0]
      linarith
    push_cast
    nlinarith

set_option maxHeartbeats 600000 in
/-- Errors carried by `K + 1` resamplings, each of which adds an error. -/
theorem carried_errors {h t ρ σ Z : ℝ} (hh : 0 < h) (t0 : 0 ≤ t) (t1 : t < 1) (Z0 : 0 ≤ Z) (df dg rf rg : ℕ → ℤ → ℝ) (i b : ℤ) (K : ℕ)
    (d0 : ∀ c : ℤ, i + (K + 1) * b ≤ c → c ≤ i + (K + 1) * b + (K + 1) → |df 0 c| ≤ ρ ∧ |dg 0 c| ≤ σ)
    (dE : ∀ c : ℤ, i + (K + 1) * b ≤ c → c + 1 ≤ i + (K + 1) * b + (K + 1) → ec h (df 0) (dg 0) c ≤ Z ^ 2 * h)
    (hf : ∀ j m : ℕ, j + m = K → ∀ c, i + m * b ≤ c → c ≤ i + m * b + m →
      df (j + 1) c = cv h (df j (c + b)) (dg j (c + b)) (df j (c + b + 1)) (dg j (c + b + 1)) t + rf j c)
    (hg : ∀ j m : ℕ, j + m = K → ∀ c, i + m * b ≤ c → c ≤ i + m * b + m →
      dg (j + 1) c = cs h (df j (c + b)) (dg j (c + b)) (df j (c + b + 1)) (dg j (c + b + 1)) t + rg j c)
    (small : ∀ j m : ℕ, j + m = K → ∀ c, i + m * b ≤ c → c ≤ i + m * b + m → |rf j c| ≤ ρ ∧ |rg j c| ≤ σ)
    (smallE : ∀ j m : ℕ, j + m = K → ∀ c, i + m * b ≤ c → c + 1 ≤ i + m * b + m → ec h (rf j) (rg j) c ≤ Z ^ 2 * h) :
    |df (K + 1) i| ≤ 2 / 27 * ((K + 1) ^ 2 * (Z * h ^ 2)) + (K + 1) * (ρ + h / 4 * σ) + ρ ∧
    |dg (K + 1) i| ≤ (K + 1) ^ 2 * (Z * h) / 2 + (K + 1) * (3 / h * ρ + σ) + σ := by
  have h3 : 0 < 192 / h ^ 3 := by positivity
  set Y : ℕ → ℝ := fun j => i + (K + 1 - j) * (b + t) with hY
  set tf : ℕ → ℤ → ℝ := fun j c => df (j + 1) c - rf j c with htf
  set tg : ℕ → ℤ → ℝ := fun j c => dg (j + 1) c - rg j c with htg
  have ctf : ∀ j m : ℕ, j + m = K → ∀ c, i + m * b ≤ c → c ≤ i + m * b + m →
      tf j c = cv h (df j (c + b)) (dg j (c + b)) (df j (c + b + 1)) (dg j (c + b + 1)) t := by
    intro j m hm c c0 c1
    simp only [htf]
    rw [hf j m hm c c0 c1, add_sub_cancel_right]
  have ctg : ∀ j m : ℕ, j + m = K → ∀ c, i + m * b ≤ c → c ≤ i + m * b + m →
      tg j c = cs h (df j (c + b)) (dg j (c + b)) (df j (c + b + 1)) (dg j (c + b + 1)) t := by
    intro j m hm c c0 c1
    simp only [htg]
    rw [hg j m hm c c0 c1, add_sub_cancel_right]
  -- energies
  set E : ℕ → ℝ := fun j => ∑ c ∈ Finset.range (K - j + 1), ec h (df j) (dg j) (i + (K - j : ℕ) * b + b + c) with hE
  set T : ℕ → ℝ := fun j => ∑ c ∈ Finset.range (K - j), ec h (tf j) (tg j) (i + (K - j : ℕ) * b + c) with hT
  set R : ℝ := (K + 1) * (Z ^ 2 * h) with hR
  have E0 : E 0 ≤ R := by
    simp only [hE]
    have : ∀ c ∈ Finset.range (K - 0 + 1), ec h (df 0) (dg 0) (i + (K - 0 : ℕ) * b + b + c) ≤ Z ^ 2 * h := by
      intro c hc
      have c1 := Finset.mem_range.1 hc
      have e : ((K - 0 : ℕ) : ℤ) = K := by simp
      rw [e]
      refine dE _ (by linarith [(by positivity : (0 : ℤ) ≤ c)]) ?_
      have : (c : ℤ) + 1 ≤ K + 1 := by omega
      linarith
    refine (Finset.sum_le_sum this).trans (le_of_eq ?_)
    rw [Finset.sum_const, Finset.card_range, nsmul_eq_mul, hR]
    simp
  have yb : ∀ j, j < K → ((i + (K - j : ℕ) * b : ℤ) : ℝ) ≤ Y (j + 1) ∧ Y (j + 1) < ((i + (K - j : ℕ) * b : ℤ) : ℝ) + (K - j : ℕ) := by
    intro j hj
    have e : (K : ℝ) = j + (K - j : ℕ) := by exact_mod_cast (by omega : K = j + (K - j))
    have m0 : (0 : ℝ) < (K - j : ℕ) := by exact_mod_cast (by omega : 0 < K - j)
    simp only [hY]
    generalize ((K - j : ℕ)) = m at e m0
    push_cast
    rw [e]
    constructor <;> nlinarith
  have ey : ∀ j, Y (j + 1) + (b + t) = Y j := by intro j; simp only [hY]; push_cast; ring
  have st1 : ∀ j, j < K → T j + 192 / h ^ 3 * (spv h (df j) (dg j) (Y j) - spv h (tf j) (tg j) (Y (j + 1))) ^ 2 ≤ E j := by
    intro j hj
    have := step_dev hh t0 t1 (df j) (dg j) (tf j) (tg j) (i + (K - j : ℕ) * b) b (K - j) (ctf j _ (by omega)) (ctg j _ (by omega)) (yb j hj).1 (yb j hj).2
    rw [ey] at this
    exact this
  have st1' : ∀ j, j < K → T j + 4 / h * (sps h (df j) (dg j) (Y j) - sps h (tf j) (tg j) (Y (j + 1))) ^ 2 ≤ E j := by
    intro j hj
    have := step_dev_slope hh t0 t1 (df j) (dg j) (tf j) (tg j) (i + (K - j : ℕ) * b) b (K - j) (ctf j _ (by omega)) (ctg j _ (by omega)) (yb j hj).1 (yb j hj).2
    rw [ey] at this
    exact this
  have st2 : ∀ j, j < K → E (j + 1) ≤ (1 + 1 / ((j : ℝ) + 2)) * T j + (1 + ((j : ℝ) + 2)) * R := by
    intro j hj
    have j0 : (0 : ℝ) < (j : ℝ) + 2 := by positivity
    have e1 : K - (j + 1) + 1 = K - j := by omega
    have e2 : i + ((K - (j + 1) : ℕ) : ℤ) * b + b = i + ((K - j : ℕ) : ℤ) * b := by
      have : ((K - j : ℕ) : ℤ) = (K - (j + 1) : ℕ) + 1 := by omega
      rw [this]
      ring
    simp only [hE, hT]
    rw [e1, e2]
    have term : ∀ c ∈ Finset.range (K - j), ec h (df (j + 1)) (dg (j + 1)) (i + (K - j : ℕ) * b + c) ≤
        (1 + 1 / ((j : ℝ) + 2)) * ec h (tf j) (tg j) (i + (K - j : ℕ) * b + c) + (1 + ((j : ℝ) + 2)) * (Z ^ 2 * h) := by
      intro c hc
      have c1 := Finset.mem_range.1 hc
      have s := smallE j (K - j) (by omega) (i + (K - j : ℕ) * b + c) (by linarith [(by positivity : (0 : ℤ) ≤ c)])
        (by have : (c : ℤ) + 1 ≤ (K - j : ℕ) := by omega
            linarith)
      generalize i + ((K - j : ℕ) : ℤ) * b + c = z at s
      have a := en_add_le hh j0 (tf j z) (tg j z) (tf j (z + 1)) (tg j (z + 1)) (rf j z) (rg j z) (rf j (z + 1)) (rg j (z + 1))
      have q1 : ∀ z, tf j z + rf j z = df (j + 1) z := fun z => sub_add_cancel _ _
      have q2 : ∀ z, tg j z + rg j z = dg (j + 1) z := fun z => sub_add_cancel _ _
      rw [q1, q1, q2, q2] at a
      unfold ec at s ⊢
      refine a.trans ?_
      gcongr
    refine (Finset.sum_le_sum term).trans ?_
    rw [Finset.sum_add_distrib, ← Finset.mul_sum, Finset.sum_const, Finset.card_range, nsmul_eq_mul]
    have : ((K - j : ℕ) : ℝ) * ((1 + ((j : ℝ) + 2)) * (Z ^ 2 * h)) ≤ (1 + ((j : ℝ) + 2)) * R := by
      rw [hR]
      have kj : ((K - j : ℕ) : ℝ) ≤ K + 1 := (by exact_mod_cast Nat.sub_le K j : ((K - j : ℕ) : ℝ) ≤ K).trans (by linarith)
      calc _ = (1 + ((j : ℝ) + 2)) * (((K - j : ℕ) : ℝ) * (Z ^ 2 * h)) := by ring
        _ ≤ _ := by gcongr
    linarith
  have R0 : 0 ≤ R := by positivity
  have En : 0 ≤ E K := Finset.sum_nonneg fun _ _ => ec_nonneg hh _ _ _
  have sum1 := energy_sum_from E T _ (fun j => by positivity) R0 E0 st1 st2 K le_rfl
  have sum2 := energy_sum_from E T _ (fun j => by positivity) R0 E0 st1' st2 K le_rfl
  rw [← Finset.mul_sum] at sum1 sum2
  set δ : ℕ → ℝ := fun j => spv h (df j) (dg j) (Y j) - spv h (tf j) (tg j) (Y (j + 1)) with hδ
  set ε : ℕ → ℝ := fun j => sps h (df j) (dg j) (Y j) - sps h (tf j) (tg j) (Y (j + 1)) with hε
  have k0 : (0 : ℝ) ≤ K := by positivity
  have cs1 : ∀ δ : ℕ → ℝ, (∑ l ∈ Finset.range K, δ l) ^ 2 ≤ K * ∑ l ∈ Finset.range K, δ l ^ 2 := by
    intro δ
    have := sq_sum_le_card_mul_sum_sq (s := Finset.range K) (f := δ)
    rwa [Finset.card_range] at this
  have kk : (K : ℝ) * ((K + 1) * (K + 2)) * (K + 1) ≤ ((K + 1) ^ 2) ^ 2 := by nlinarith
  have b1 : |∑ l ∈ Finset.range K, δ l| ≤ 2 / 27 * ((K + 1) ^ 2 * (Z * h ^ 2)) := by
    have s : 192 / h ^ 3 * ∑ l ∈ Finset.range K, δ l ^ 2 ≤ (K + 1) * (K + 2) * R := by linarith
    rw [div_mul_eq_mul_div, div_le_iff₀ (by positivity)] at s
    have q := cs1 δ
    generalize ∑ l ∈ Finset.range K, δ l = z at q
    have B0 : 0 ≤ 2 / 27 * (((K : ℝ) + 1) ^ 2 * (Z * h ^ 2)) := by positivity
    refine abs_le_of_sq_le_sq ?_ B0
    have m := mul_le_mul_of_nonneg_left s k0
    rw [hR] at m
    have m' := mul_le_mul_of_nonneg_right kk (by positivity : 0 ≤ Z ^ 2 * h ^ 4)
    have e : (2 / 27 * (((K : ℝ) + 1) ^ 2 * (Z * h ^ 2))) ^ 2 = 4 / 729 * (((K + 1) ^ 2) ^ 2 * (Z ^ 2 * h ^ 4)) := by ring
    have nn : 0 ≤ ((((K : ℝ) + 1) ^ 2) ^ 2 * (Z ^ 2 * h ^ 4)) := by positivity
    rw [e]
    have : 192 * z ^ 2 ≤ (((K : ℝ) + 1) ^ 2) ^ 2 * (Z ^ 2 * h ^ 4) := by
      calc 192 * z ^ 2 ≤ 192 * (K * ∑ l ∈ Finset.range K, δ l ^ 2) := by gcongr
        _ = K * (192 * ∑ l ∈ Finset.range K, δ l ^ 2) := by ring
        _ ≤ _ := m
        _ = (K : ℝ) * ((K + 1) * (K + 2)) * (K + 1) * (Z ^ 2 * h ^ 4) := by ring
        _ ≤ _ := m'
    linarith
  have b2 : |∑ l ∈ Finset.range K, ε l| ≤ (K + 1) ^ 2 * (Z * h) / 2 := by
    have s : 4 / h * ∑ l ∈ Finset.range K, ε l ^ 2 ≤ (K + 1) * (K + 2) * R := by linarith
    rw [div_mul_eq_mul_div, div_le_iff₀ (by positivity)] at s
    have q := cs1 ε
    generalize ∑ l ∈ Finset.range K, ε l = z at q
    have B0 : 0 ≤ ((K : ℝ) + 1) ^ 2 * (Z * h) / 2 := by positivity
    refine abs_le_of_sq_le_sq ?_ B0
    have m := mul_le_mul_of_nonneg_left s k0
    rw [hR] at m
    have m' := mul_le_mul_of_nonneg_right kk (by positivity : 0 ≤ Z ^ 2 * h ^ 2)
    have e : (((K : ℝ) + 1) ^ 2 * (Z * h) / 2) ^ 2 = 1 / 4 * (((K + 1) ^ 2) ^ 2 * (Z ^ 2 * h ^ 2)) := by ring
    rw [e]
    have : 4 * z ^ 2 ≤ (((K : ℝ) + 1) ^ 2) ^ 2 * (Z ^ 2 * h ^ 2) := by
      calc 4 * z ^ 2 ≤ 4 * (K * ∑ l ∈ Finset.range K, ε l ^ 2) := by gcongr
        _ = K * (4 * ∑ l ∈ Finset.range K, ε l ^ 2) := by ring
        _ ≤ _ := m
        _ = (K : ℝ) * ((K + 1) * (K + 2)) * (K + 1) * (Z ^ 2 * h ^ 2) := by ring
        _ ≤ _ := m'
    linarith
  -- the errors of the single steps
  have near : ∀ l, l < K → |spv h (rf l) (rg l) (Y (l + 1))| ≤ ρ + h / 4 * σ ∧ |sps h (rf l) (rg l) (Y (l + 1))| ≤ 3 / h * ρ + σ := by
    intro l hl
    obtain ⟨y0, y1⟩ := yb l hl
    have c0 := Int.le_floor.2 y0
    have c1 : ⌊Y (l + 1)⌋ < i + (K - l : ℕ) * b + (K - l : ℕ) := Int.floor_lt.2 (by push_cast at y1 ⊢; exact y1)
    obtain ⟨a1, a2⟩ := small l (K - l) (by omega) ⌊Y (l + 1)⌋ c0 c1.le
    obtain ⟨a3, a4⟩ := small l (K - l) (by omega) (⌊Y (l + 1)⌋ + 1) (by linarith) (by linarith)
    have r0 := Int.fract_nonneg (Y (l + 1))
    have r1 := (Int.fract_lt_one (Y (l + 1))).le
    exact ⟨T1_le r0 r1 hh a1 a3 a2 a4, cs_le r0 r1 hh a1 a3 a2 a4⟩
  have start : |spv h (df 0) (dg 0) (Y 0)| ≤ ρ + h / 4 * σ ∧ |sps h (df 0) (dg 0) (Y 0)| ≤ 3 / h * ρ + σ := by
    have k1 : (0 : ℝ) < K + 1 := by positivity
    have y0 : ((i + (K + 1) * b : ℤ) : ℝ) ≤ Y 0 := by simp only [hY]; push_cast; nlinarith
    have y1 : Y 0 < ((i + (K + 1) * b : ℤ) : ℝ) + (K + 1) := by simp only [hY]; push_cast; nlinarith
    have c0 := Int.le_floor.2 y0
    have c1 : ⌊Y 0⌋ < i + (K + 1) * b + (K + 1) := Int.floor_lt.2 (by push_cast at y1 ⊢; exact y1)
    obtain ⟨a1, a2⟩ := d0 ⌊Y 0⌋ c0 c1.le
    obtain ⟨a3, a4⟩ := d0 (⌊Y 0⌋ + 1) (by linarith) (by linarith)
    have r0 := Int.fract_nonneg (Y 0)
    have r1 := (Int.fract_lt_one (Y 0)).le
    exact ⟨T1_le r0 r1 hh a1 a3 a2 a4, cs_le r0 r1 hh a1 a3 a2 a4⟩
  have tele1 : ∀ j, spv h (df j) (dg j) (Y j) = spv h (df 0) (dg 0) (Y 0) + ∑ l ∈ Finset.range j, spv h (rf l) (rg l) (Y (l + 1)) -
      ∑ l ∈ Finset.range j, δ l := by
    intro j
    induction j with
    | zero => simp
    | succ j ih =>
      rw [Finset.sum_range_succ, Finset.sum_range_succ]
      have : spv h (tf j) (tg j) (Y (j + 1)) = _ := spv_sub h (df (j + 1)) (dg (j + 1)) (rf j) (rg j) (Y (j + 1))
      have e : δ j = spv h (df j) (dg j) (Y j) - spv h (tf j) (tg j) (Y (j + 1)) := rfl
      linarith
  have tele2 : ∀ j, sps h (df j) (dg j) (Y j) = sps h (df 0) (dg 0) (Y 0) + ∑ l ∈ Finset.range j, sps h (rf l) (rg l) (Y (l + 1)) -
      ∑ l ∈ Finset.range j, ε l := by
    intro j
    induction j with
    | zero => simp
    | succ j ih =>
      rw [Finset.sum_range_succ, Finset.sum_range_succ]
      have : sps h (tf j) (tg j) (Y (j + 1)) = _ := sps_sub h (df (j + 1)) (dg (j + 1)) (rf j) (rg j) (Y (j + 1))
      have e : ε j = sps h (df j) (dg j) (Y j) - sps h (tf j) (tg j) (Y (j + 1)) := rfl
      linarith
  have n1 : |∑ l ∈ Finset.range K, spv h (rf l) (rg l) (Y (l + 1))| ≤ K * (ρ + h / 4 * σ) := by
    refine (Finset.abs_sum_le_sum_abs _ _).trans ((Finset.sum_le_sum fun l hl => (near l (Finset.mem_range.1 hl)).1).trans (le_of_eq ?_))
    rw [Finset.sum_const, Finset.card_range, nsmul_eq_mul]
  have n2 : |∑ l ∈ Finset.range K, sps h (rf l) (rg l) (Y (l + 1))| ≤ K * (3 / h * ρ + σ) := by
    refine (Finset.abs_sum_le_sum_abs _ _).trans ((Finset.sum_le_sum fun l hl => (near l (Finset.mem_range.1 hl)).2).trans (le_of_eq ?_))
    rw [Finset.sum_const, Finset.card_range, nsmul_eq_mul]
  have eY : Y K = ((i + b : ℤ) : ℝ) + t := by simp only [hY]; push_cast; ring
  obtain ⟨l1, l2⟩ := small K 0 (by omega) i (by simp) (by simp)
  have fin1 : df (K + 1) i = spv h (df K) (dg K) (Y K) + rf K i := by
    rw [eY, spv_at _ _ _ t0 t1]
    exact hf K 0 (by omega) i (by simp) (by simp)
  have fin2 : dg (K + 1) i = sps h (df K) (dg K) (Y K) + rg K i := by
    rw [eY, sps_at _ _ _ t0 t1]
    exact hg K 0 (by omega) i (by simp) (by simp)
  constructor
  · rw [fin1, tele1]
    have := (abs_add_le _ _).trans (add_le_add ((abs_sub _ _).trans (add_le_add ((abs_add_le _ _).trans (add_le_add start.1 n1)) b1)) l1)
    linarith
  · rw [fin2, tele2]
    have := (abs_add_le _ _).trans (add_le_add ((abs_sub _ _).trans (add_le_add ((abs_add_le _ _).trans (add_le_add start.2 n2)) b2)) l2)
    linarith

/-- A smooth function carried by `K + 1` resamplings, from data known up to `A` and `B`, each of which adds errors of at most `A`
and `B`. -/
theorem carried_near {h t M x A B : ℝ} (hh : 0 < h) (t0 : 0 ≤ t) (t1 : t < 1) (A0 : 0 ≤ A) (B0 : 0 ≤ B) {u u' : ℝ → ℝ} (f g : ℕ → ℤ → ℝ)
    (i b : ℤ) (K : ℕ)
    (hu' : ∀ y, HasDerivAt u (u' y) y) (hu : Quartic u (x + (i + (K + 1) * b) * h) (x + (i + (K + 1) * b + (K + 1)) * h) M)
    (hf0 : ∀ c : ℤ, i + (K + 1) * b ≤ c → c ≤ i + (K + 1) * b + (K + 1) → |f 0 c - u (x + c * h)| ≤ A)
    (hg0 : ∀ c : ℤ, i + (K + 1) * b ≤ c → c ≤ i + (K + 1) * b + (K + 1) → |g 0 c - u' (x + c * h)| ≤ B)
    (hf : ∀ j m : ℕ, j + m = K → ∀ c, i + m * b ≤ c → c ≤ i + m * b + m →
      |f (j + 1) c - cv h (f j (c + b)) (g j (c + b)) (f j (c + b + 1)) (g j (c + b + 1)) t| ≤ A)
    (hg : ∀ j m : ℕ, j + m = K → ∀ c, i + m * b ≤ c → c ≤ i + m * b + m →
      |g (j + 1) c - cs h (f j (c + b)) (g j (c + b)) (f j (c + b + 1)) (g j (c + b + 1)) t| ≤ B) :
    |f (K + 1) i - u (x + (i + (K + 1) * (b + t)) * h)| ≤ (K + 1) ^ 2 * (M * h ^ 4 / 18 + 3 * A + B * h) ∧
    |g (K + 1) i - u' (x + (i + (K + 1) * (b + t)) * h)| * h ≤ (K + 1) ^ 2 * (M * h ^ 4 / 2 + 11 * A + 4 * (B * h)) := by
  have M0 : 0 ≤ M := (abs_nonneg _).trans (hu.bound _ (Set.left_mem_Icc.2 (by nlinarith [(by positivity : (0 : ℝ) < K + 1)])))
  set P : ℕ → ℤ → ℝ := fun j c => u (x + (c + j * (b + t)) * h) with hP
  set Q : ℕ → ℤ → ℝ := fun j c => u' (x + (c + j * (b + t)) * h) with hQ
  set pf : ℕ → ℤ → ℝ := fun j c => cv h (P j (c + b)) (Q j (c + b)) (P j (c + b + 1)) (Q j (c + b + 1)) t - P (j + 1) c with hpf
  set pg : ℕ → ℤ → ℝ := fun j c => cs h (P j (c + b)) (Q j (c + b)) (P j (c + b + 1)) (Q j (c + b + 1)) t - Q (j + 1) c with hpg
  set ef : ℕ → ℤ → ℝ := fun j c => f (j + 1) c - cv h (f j (c + b)) (g j (c + b)) (f j (c + b + 1)) (g j (c + b + 1)) t with hef
  set eg : ℕ → ℤ → ℝ := fun j c => g (j + 1) c - cs h (f j (c + b)) (g j (c + b)) (f j (c + b + 1)) (g j (c + b + 1)) t with heg
  have pos : ∀ (j : ℕ) (c : ℤ), x + (((c + 1 : ℤ) : ℝ) + j * (b + t)) * h = x + (c + j * (b + t)) * h + h := by
    intro j c; push_cast; ring
  have pos' : ∀ (j : ℕ) (c : ℤ), x + ((c : ℝ) + ((j + 1 : ℕ) : ℝ) * (b + t)) * h = x + (((c + b : ℤ) : ℝ) + j * (b + t)) * h + t * h := by
    intro j c; push_cast; ring
  have pos0 : ∀ c : ℤ, x + ((c : ℝ) + ((0 : ℕ) : ℝ) * (b + t)) * h = x + c * h := by intro c; push_cast; ring
  have inside : ∀ j m : ℕ, j + m = K → ∀ c : ℤ, i + m * b ≤ c → ∀ n : ℕ, c + n ≤ i + m * b + (m + 1) →
      Quartic u (x + (((c + b : ℤ) : ℝ) + j * (b + t)) * h) (x + (((c + b : ℤ) : ℝ) + j * (b + t)) * h + n * h) M := by
    intro j m hm c c0 n c1
    refine ⟨hu.smooth, fun y hy => hu.bound y ⟨le_trans ?_ hy.1, le_trans hy.2 ?_⟩⟩
    · have q : (i : ℝ) + m * b ≤ c := by exact_mod_cast c0
      have e : (K : ℝ) = j + m := by rw [← hm]; push_cast; rfl
      have : (0 : ℝ) ≤ j * t := by positivity
      push_cast
      rw [e]
      nlinarith
    · have q : (c : ℝ) + n ≤ i + m * b + (m + 1) := by exact_mod_cast c1
      have e : (K : ℝ) = j + m := by rw [← hm]; push_cast; rfl
      have : (0 : ℝ) ≤ j * (1 - t) := mul_nonneg (by positivity) (by linarith)
      push_cast
      rw [e]
      nlinarith
  have Z1 : 0 ≤ 4 * (B + 2 * A / h) / h := by positivity
  obtain ⟨k1, k2⟩ := carried_errors (h := h) (t := t) (ρ := M * h ^ 4 / 384 + A) (σ := M * h ^ 3 / 24 + B)
    (Z := M / 2 * h ^ 2 + 4 * (B + 2 * A / h) / h) hh t0 t1 (by positivity)
    (fun j c => f j c - P j c) (fun j c => g j c - Q j c) (fun j c => pf j c + ef j c) (fun j c => pg j c + eg j c) i b K
    (fun c c0 c1 => by
      have q1 : 0 ≤ M * h ^ 4 / 384 := by positivity
      have q2 : 0 ≤ M * h ^ 3 / 24 := by positivity
      simp only [hP, hQ, pos0]
      exact ⟨(hf0 c c0 c1).trans (by linarith), (hg0 c c0 c1).trans (by linarith)⟩)
    (fun c c0 c1 => by
      unfold ec
      simp only [hP, hQ, pos0]
      refine (en_small hh (hf0 c c0 (by linarith)) (hg0 c c0 (by linarith)) (hf0 (c + 1) (by linarith) c1) (hg0 (c + 1) (by linarith) c1)).trans ?_
      have : 0 ≤ M / 2 * h ^ 2 := by positivity
      gcongr
      linarith)
    (fun j m hm c c0 c1 => by
      simp only [hpf, hef]
      unfold cv
      rw [← T1_sub]
      ring)
    (fun j m hm c c0 c1 => by
      simp only [hpg, heg]
      unfold cs
      rw [← T1_sub]
      ring)
    (fun j m hm c c0 c1 => by
      have q := inside j m hm c c0 1 (by push_cast; omega)
      rw [Nat.cast_one, one_mul] at q
      have := error1 hh q hu' t0 t1.le
      have p1 : |pf j c| ≤ M * h ^ 4 / 384 ∧ |pg j c| ≤ M * h ^ 3 / 24 := by
        simp only [hpf, hpg, hP, hQ, pos, pos']
        exact this
      exact ⟨(abs_add_le _ _).trans (add_le_add p1.1 (hf j m hm c c0 c1)), (abs_add_le _ _).trans (add_le_add p1.2 (hg j m hm c c0 c1))⟩)
    (fun j m hm c c0 c1 => by
      have q := inside j m hm c c0 2 (by push_cast; omega)
      rw [Nat.cast_ofNat, two_mul, ← add_assoc] at q
      have := resid_energy hh t0 t1 hu' q
      unfold ec
      refine en_minkowski hh (by positivity) Z1 ?_ (en_small hh (hf j m hm c c0 (by linarith)) (hg j m hm c c0 (by linarith))
        (hf j m hm (c + 1) (by linarith) c1) (hg j m hm (c + 1) (by linarith) c1))
      simp only [hpf, hpg, hP, hQ, add_right_comm c 1 b, pos, pos']
      exact this)
  have ex : x + ((i : ℝ) + ((K + 1 : ℕ) : ℝ) * (b + t)) * h = x + (i + (K + 1) * (b + t)) * h := by push_cast; ring
  simp only [hP, hQ, ex] at k1 k2
  have k0 : (1 : ℝ) ≤ K + 1 := by linarith [(by positivity : (0 : ℝ) ≤ K)]
  have kq : ((K : ℝ) + 1) ≤ (K + 1) ^ 2 := by nlinarith
  have kq1 : (1 : ℝ) ≤ ((K : ℝ) + 1) ^ 2 := by linarith
  generalize hk : (K : ℝ) + 1 = k at *
  have BH : 0 ≤ B * h := by positivity
  have MH : 0 ≤ M * h ^ 4 := by positivity
  have eZ : (M / 2 * h ^ 2 + 4 * (B + 2 * A / h) / h) * h ^ 2 = M * h ^ 4 / 2 + 4 * (B * h) + 8 * A := by field_simp; ring
  constructor
  · rw [eZ] at k1
    have e2 : M * h ^ 4 / 384 + A + h / 4 * (M * h ^ 3 / 24 + B) = 5 / 384 * (M * h ^ 4) + A + B * h / 4 := by ring
    rw [e2] at k1
    have m1 : k * (5 / 384 * (M * h ^ 4) + A + B * h / 4) ≤ k ^ 2 * (5 / 384 * (M * h ^ 4) + A + B * h / 4) := by gcongr
    have m2 : M * h ^ 4 / 384 + A ≤ k ^ 2 * (M * h ^ 4 / 384 + A) := le_mul_of_one_le_left (by positivity) kq1
    refine k1.trans ?_
    have n1 := mul_nonneg (by positivity : 0 ≤ k ^ 2) MH
    have n2 := mul_nonneg (by positivity : 0 ≤ k ^ 2) A0
    have n3 := mul_nonneg (by positivity : 0 ≤ k ^ 2) BH
    linarith
  · have k3 := mul_le_mul_of_nonneg_right k2 hh.le
    have e3 : (k ^ 2 * ((M / 2 * h ^ 2 + 4 * (B + 2 * A / h) / h) * h) / 2 + k * (3 / h * (M * h ^ 4 / 384 + A) + (M * h ^ 3 / 24 + B)) +
        (M * h ^ 3 / 24 + B)) * h = k ^ 2 * (M * h ^ 4 / 2 + 4 * (B * h) + 8 * A) / 2 + k * (19 / 384 * (M * h ^ 4) + 3 * A + B * h) +
        (M * h ^ 4 / 24 + B * h) := by
      field_simp
      ring
    rw [e3] at k3
    have m1 : k * (19 / 384 * (M * h ^ 4) + 3 * A + B * h) ≤ k ^ 2 * (19 / 384 * (M * h ^ 4) + 3 * A + B * h) := by gcongr
    have m2 : M * h ^ 4 / 24 + B * h ≤ k ^ 2 * (M * h ^ 4 / 24 + B * h) := le_mul_of_one_le_left (by positivity) kq1
    refine k3.trans ?_
    have n1 := mul_nonneg (by positivity : 0 ≤ k ^ 2) MH
    have n2 := mul_nonneg (by positivity : 0 ≤ k ^ 2) A0
    have n3 := mul_nonneg (by positivity : 0 ≤ k ^ 2) BH
    linarith

end Gals
