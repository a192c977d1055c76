import Verif.Lemmas.EtaDouble
import Verif.Lemmas.InterpEval
import Verif.Lemmas.KernelDouble
import Verif.Lemmas.SplineNest
import Verif.Props.StepDouble

/-!
# Point, widths, scales and data of an interpolation in double arithmetic
-/

set_option linter.unusedSectionVars false

namespace Gals.Props

open Gals Gals.Spec

/-! ## Point, widths and scales -/

theorem res_n {l h K : ℚ} {n : ℤ} (hw : 0 < h - l) (hn : 0 < n) (h3 : n * (|l| + (h - l)) ≤ K * (h - l)) : (n : ℚ) ≤ K := by
  have hnq : (0 : ℚ) < n := by exact_mod_cast hn
  have : n * (h - l) ≤ n * (|l| + (h - l)) := mul_le_mul_of_nonneg_left (by linarith [abs_nonneg l]) hnq.le
  exact le_of_mul_le_mul_right (this.trans h3) hw

/-- The base node and the local coordinates of a point. -/
theorem point_double (s : IntSem) (d : ℕ) (r : Req F64) (h : r.Valid d) (hpad : r.pad = 1) (lo hi : Fin 3 → ℚ) (hbox : BoxIs r d lo hi)
    (K : ℚ) (hres : ∀ a : Fin 3, a.val < d → r.n.get a * (|lo a| + (hi a - lo a)) ≤ K * (hi a - lo a)) (hK : K ≤ 2 ^ 28)
    (g : Grid F64 d) (e : r.make s d = .ok g) (x : Vec3 F64) (q : Fin 3 → ℚ)
    (hx : ∀ a : Fin 3, a.val < d → HasValue (x.get a) (q a) ∧
      lo a - (1 / 2 - 1 / 2 ^ 16) * (axisOf r lo hi a).h ≤ q a ∧ q a ≤ hi a + (1 / 2 - 1 / 2 ^ 16) * (axisOf r lo hi a).h) :
    ∃ (b : Vec3 ℤ) (η : Fin 3 → ℚ), g.baseNodeId x = .ok b ∧ ∀ a : Fin 3, a.val < d →
      (-1 ≤ b.get a ∧ b.get a + 1 ≤ r.n.get a) ∧
      (-1 ≤ ⌊(axisOf r lo hi a).coord (q a)⌋ ∧ ⌊(axisOf r lo hi a).coord (q a)⌋ + 1 ≤ r.n.get a) ∧
      NearPoint ((axisOf r lo hi a).coord (q a)) (η a) (80 * K * ulp1) (b.get a) ∧
      ∀ c : Cell, comp c a = b.get a →
        HasValue ((x.get a - (Grid.elem g g.boxMin g.dx c).get a) * g.oneOverDx.get a) (η a) := by
  have G := make_made h e
  obtain ⟨b, e1, key⟩ := C85_base_node_partial s d r h lo hi hbox 1 (by rw [hpad]; norm_num)
    (fun a ha => by have := h.n_pos a; exact_mod_cast this) g e x q (fun a ha => by
      obtain ⟨k1, k2, k3⟩ := hx a ha
      obtain ⟨-, -, w1, -⟩ := hbox a ha
      have hnq : (0 : ℚ) < r.n.get a := by exact_mod_cast h.n_pos a
      have hH : 0 < (hi a - lo a) / r.n.get a := div_pos ((two_zpow_pos _).trans_le w1) hnq
      simp only [Axis.h, axisOf] at k2 k3
      refine ⟨k1, ?_, ?_⟩ <;> push_cast <;> linarith)
  have hax : ∀ a : Fin 3, ∃ η : ℚ, a.val < d →
      (-1 ≤ b.get a ∧ b.get a + 1 ≤ r.n.get a) ∧
      (-1 ≤ ⌊(axisOf r lo hi a).coord (q a)⌋ ∧ ⌊(axisOf r lo hi a).coord (q a)⌋ + 1 ≤ r.n.get a) ∧
      NearPoint ((axisOf r lo hi a).coord (q a)) η (80 * K * ulp1) (b.get a) ∧
      ∀ c : Cell, comp c a = b.get a →
        HasValue ((x.get a - (Grid.elem g g.boxMin g.dx c).get a) * g.oneOverDx.get a) η := by
    intro a
    by_cases ha : a.val < d
    · obtain ⟨hl, hh, w1, w2⟩ := hbox a ha
      obtain ⟨k1, k2, k3⟩ := hx a ha
      obtain ⟨k4, k5⟩ := key a ha
      have hr := hres a ha
      have n0 := h.n_pos a
      have hw : 0 < hi a - lo a := (two_zpow_pos _).trans_le w1
      have hnK := res_n hw n0 hr
      have hnq : (0 : ℚ) < r.n.get a := by exact_mod_cast n0
      have ed : g.oneOverDx.get a = 1 / ((r.hi.get a - r.lo.get a) / ((r.n.get a : ℤ) : F64)) := G.oneOverDx a ha
      have hT : (axisOf r lo hi a).coord (q a) = (q a - lo a) / ((hi a - lo a) / r.n.get a) - 1 / 2 := rfl
      have hHe : (axisOf r lo hi a).h = (hi a - lo a) / r.n.get a := rfl
      have hel := fun c => elem_get G c a ha
      rw [hHe] at k2 k3
      rw [hT, ed]
      simp only [hel, hpad]
      have hn28 : (r.n.get a : ℚ) ≤ 2 ^ 28 := hnK.trans hK
      generalize r.n.get a = n at *
      have hH : 0 < (hi a - lo a) / n := div_pos hw hnq
      have hHn : (n : ℚ) * ((hi a - lo a) / n) = hi a - lo a := by field_simp
      have eqn : (q a - lo a) / ((hi a - lo a) / n) * ((hi a - lo a) / n) = q a - lo a := div_mul_cancel₀ _ hH.ne'
      set H := (hi a - lo a) / n with hHd
      have u0 := ulp1_pos
      have hu : (n : ℚ) / 2 ^ 48 = 16 * n * ulp1 := by rw [ulp1]; ring
      have hnu : (n : ℚ) / 2 ^ 48 ≤ 80 * K * ulp1 := by
        rw [hu]
        exact mul_le_mul_of_nonneg_right (by linarith) u0.le
      have hn20 : (n : ℚ) / 2 ^ 48 ≤ 1 / 2 ^ 20 := by
        rw [div_le_iff₀ (by norm_num)]
        exact hn28.trans (by norm_num)
      have hsm : 80 * K * ulp1 ≤ 1 / 32 := by
        calc 80 * K * ulp1 ≤ 80 * 2 ^ 28 * ulp1 := mul_le_mul_of_nonneg_right (by linarith) u0.le
          _ ≤ 1 / 32 := by norm_num [ulp1]
      have t1 : (q a - lo a) / H - 1 / 2 - b.get a ≥ -(n / 2 ^ 48) := by
        have : (b.get a + 1 / 2 - n / 2 ^ 48) * H ≤ (q a - lo a) / H * H := by rw [eqn]; linarith
        have := le_of_mul_le_mul_right this hH
        linarith
      have t2 : (q a - lo a) / H - 1 / 2 - b.get a < 1 + n / 2 ^ 48 := by
        have : (q a - lo a) / H * H < (b.get a + 1 + 1 / 2 + n / 2 ^ 48) * H := by rw [eqn]; linarith
        have := lt_of_mul_lt_mul_right this hH.le
        linarith
      have t3 : -1 + 1 / 2 ^ 16 ≤ (q a - lo a) / H - 1 / 2 := by
        have : (-1 + 1 / 2 ^ 16 + 1 / 2) * H ≤ (q a - lo a) / H * H := by rw [eqn]; linarith
        have := le_of_mul_le_mul_right this hH
        linarith
      have t4 : (q a - lo a) / H - 1 / 2 ≤ n - 1 / 2 ^ 16 := by
        have : (q a - lo a) / H * H ≤ (n - 1 / 2 ^ 16 + 1 / 2) * H := by
          rw [eqn]
          have : (n - 1 / 2 ^ 16 + 1 / 2) * H = n * H + (1 / 2 - 1 / 2 ^ 16) * H := by ring
          linarith
        have := le_of_mul_le_mul_right this hH
        linarith
      have b1 : -1 ≤ b.get a := by
        have : ((-2 : ℤ) : ℚ) < b.get a := by push_cast; linarith
        have : -2 < b.get a := by exact_mod_cast this
        omega
      have b2 : b.get a + 1 ≤ n := by
        have : (b.get a : ℚ) < n := by linarith
        have : b.get a < n := by exact_mod_cast this
        omega
      obtain ⟨η, v, rη⟩ := eta_double hl hh k1 w1 w2 n0 hr hK b1 (by omega) (by
        rw [← hHd, abs_le]
        constructor <;> linarith)
      refine ⟨η, fun _ => ⟨⟨b1, b2⟩, ⟨?_, ?_⟩, ⟨hsm, by linarith, by linarith, rη⟩, ?_⟩⟩
      · rw [Int.le_floor]
        push_cast
        linarith
      · have : ⌊(q a - lo a) / H - 1 / 2⌋ < n := by
          rw [Int.floor_lt]
          linarith
        omega
      · intro c hc
        rw [hc]
        exact v
    · exact ⟨0, fun h => absurd h ha⟩
  choose η hη using hax
  exact ⟨b, η, e1, hη⟩

/-- The stored widths and their reciprocals. -/
theorem width_apx {s : IntSem} {d : ℕ} {r : Req F64} (h : r.Valid d) {lo hi : Fin 3 → ℚ} (hbox : BoxIs r d lo hi) {g : Grid F64 d}
    (G : g.Made s r) (a : Fin 3) (ha : a.val < d) : 0 < (axisOf r lo hi a).h ∧
      Apx (g.dx.get a) (axisOf r lo hi a).h 1 3 (axisOf r lo hi a).h ∧
      Apx (g.oneOverDx.get a) (1 / (axisOf r lo hi a).h) 1 4 (1 / (axisOf r lo hi a).h) := by
  obtain ⟨hl, hh, w1, w2⟩ := hbox a ha
  have n0 := h.n_pos a
  obtain ⟨-, n1⟩ := n_lt h a
  have hp := h.pad_nonneg
  have hdx : g.dx.get a = (r.hi.get a - r.lo.get a) / ((r.n.get a : ℤ) : F64) := G.dx a
  have ed : g.oneOverDx.get a = 1 / ((r.hi.get a - r.lo.get a) / ((r.n.get a : ℤ) : F64)) := G.oneOverDx a ha
  have hHe : (axisOf r lo hi a).h = (hi a - lo a) / r.n.get a := rfl
  obtain ⟨D, I, J, hD, hI, -, rD, rfl, hJ⟩ := width_double hl hh w1 w2 n0 (by omega)
  rw [hdx, ed, hHe]
  generalize r.n.get a = n at *
  have hw : 0 < hi a - lo a := (two_zpow_pos _).trans_le w1
  have hnq : (0 : ℚ) < n := by exact_mod_cast n0
  have hH : 0 < (hi a - lo a) / n := div_pos hw hnq
  have hHn : (hi a - lo a) / n * n = hi a - lo a := by field_simp
  refine ⟨hH, ⟨⟨D, hD, ?_⟩, by rw [one_mul, abs_of_pos hH]⟩, ⟨⟨_, hI, ?_⟩, by rw [one_mul, abs_of_pos (by positivity)]⟩⟩
  · set H := (hi a - lo a) / n
    have : |D - H| * n ≤ 3 * ulp1 * H * n := by
      calc |D - H| * n = |D * n - (hi a - lo a)| := by rw [← hHn, ← sub_mul, abs_mul, abs_of_pos hnq]
        _ ≤ 3 * ulp1 * (hi a - lo a) := rD
        _ = _ := by rw [← hHn]; ring
    exact le_of_mul_le_mul_right this hnq
  · have e1 : n / (hi a - lo a) * J - 1 / ((hi a - lo a) / n) = (J - 1) * (1 / ((hi a - lo a) / n)) := by field_simp
    rw [e1, abs_mul, abs_of_pos (show 0 < 1 / ((hi a - lo a) / n) by positivity)]
    exact mul_le_mul_of_nonneg_right hJ (by positivity)

theorem scaled_of {x : ℚ} {i j : ℤ} (hi : -1000 ≤ i) (hj : j ≤ 980) (h1 : (2 : ℚ) ^ i ≤ x) (h2 : x ≤ 2 ^ j) : Scaled x :=
  ⟨(two_zpow_le hi).trans h1, h2.trans (by rw [← zpow_natCast]; exact two_zpow_le hj)⟩

/-- Bounds by powers of two. -/
structure Pw (x : ℚ) (i j : ℤ) : Prop where
  lo : (2 : ℚ) ^ i ≤ x
  hi : x ≤ (2 : ℚ) ^ j

theorem Pw.pos {x : ℚ} {i j : ℤ} (h : Pw x i j) : 0 < x := (two_zpow_pos _).trans_le h.lo

theorem Pw.scaled {x : ℚ} {i j : ℤ} (h : Pw x i j) (hi : -1000 ≤ i := by norm_num) (hj : j ≤ 980 := by norm_num) : Scaled x :=
  scaled_of hi hj h.lo h.hi

theorem Pw.mul {x y : ℚ} {i j k l : ℤ} (h : Pw x i j) (h' : Pw y k l) : Pw (x * y) (i + k) (j + l) := by
  refine ⟨?_, ?_⟩
  · rw [two_zpow_add]
    exact mul_le_mul h.lo h'.lo (two_zpow_pos _).le h.pos.le
  · rw [two_zpow_add]
    exact mul_le_mul h.hi h'.hi h'.pos.le (two_zpow_pos _).le

theorem Pw.div {x y : ℚ} {i j k l : ℤ} (h : Pw x i j) (h' : Pw y k l) : Pw (x / y) (i - l) (j - k) := by
  have y0 := h'.pos
  refine ⟨?_, ?_⟩
  · rw [le_div_iff₀ y0]
    calc (2 : ℚ) ^ (i - l) * y ≤ 2 ^ (i - l) * 2 ^ l := mul_le_mul_of_nonneg_left h'.hi (two_zpow_pos _).le
      _ = 2 ^ i := by rw [← two_zpow_add]; congr 1; ring
      _ ≤ x := h.lo
  · rw [div_le_iff₀ y0]
    calc x ≤ 2 ^ j := h.hi
      _ = 2 ^ (j - k) * 2 ^ k := by rw [← two_zpow_add]; congr 1; ring
      _ ≤ _ := mul_le_mul_of_nonneg_left h'.lo (two_zpow_pos _).le

theorem moderate_pw {x : ℚ} (h : Moderate x) : Pw x (-300) 300 := ⟨h.1, by rw [show (300 : ℤ) = ((300 : ℕ) : ℤ) by rfl, zpow_natCast]; exact h.2⟩

theorem width_pw {r : Req F64} {d : ℕ} (h : r.Valid d) {lo hi : Fin 3 → ℚ} {a : Fin 3} (hm : Moderate (hi a - lo a))
    (hn : (r.n.get a : ℚ) ≤ 2 ^ 28) : Pw (axisOf r lo hi a).h (-328) 300 := by
  have n0 := h.n_pos a
  have hn1 : (1 : ℚ) ≤ r.n.get a := by exact_mod_cast n0
  have := (moderate_pw hm).div (y := r.n.get a) (k := 0) (l := 28) ⟨by rw [zpow_zero]; exact hn1, by exact_mod_cast hn⟩
  exact this

/-! ## Data of the nodes -/

theorem padded_of {r : Req F64} {d : ℕ} (h : r.Valid d) (hpad : r.pad = 1) {c : Cell}
    (h1 : ∀ a : Fin 3, a.val < d → -1 ≤ comp c a ∧ comp c a ≤ r.n.get a) (h2 : ∀ a : Fin 3, d ≤ a.val → comp c a = 0) : r.Padded d c := by
  have key : ∀ a : Fin 3, -padAlong d r.pad a ≤ comp c a ∧ comp c a < r.n.get a + padAlong d r.pad a := by
    intro a
    have n0 := h.n_pos a
    unfold padAlong
    by_cases ha : a.val < d
    · obtain ⟨b1, b2⟩ := h1 a ha
      rw [if_pos ha, hpad]
      omega
    · have := h2 a (by omega)
      rw [if_neg ha]
      omega
  exact ⟨key 0, key 1, key 2⟩

theorem jet_le {r : Req F64} {d : ℕ} {A : Fin 3 → Axis} {D : Jet} {M : ℚ} (H : JetLe r d A D M) {c : Cell} (hc : r.Padded d c)
    (α β γ : Fin 2) (h1 : d ≤ 1 → β = 0) (h2 : d ≤ 2 → γ = 0) (h0 : 0 < d) :
    |D α β γ c| * ((A 0).h ^ α.val * (A 1).h ^ β.val * (A 2).h ^ γ.val) ≤ M := by
  refine H c hc ![α, β, γ] ?_
  intro a ha
  match a with
  | 0 => exact absurd (show d ≤ 0 from ha) (by omega)
  | 1 => exact h1 ha
  | 2 => exact h2 ha

theorem apx_data {x : F64} {v M w : ℚ} (hv : HasValue x v) (hw : 0 < w) (h : |v| * w ≤ M) : Apx x v 1 0 (M / w) :=
  Apx.exact hv (by rw [one_mul, le_div_iff₀ hw]; exact h)

theorem scaleJet_abs {h : Fin 3 → ℚ} {D : Jet} {M : ℚ} {c : Cell} {α β γ : Fin 2}
    (hp : 0 ≤ h 0 ^ α.val * h 1 ^ β.val * h 2 ^ γ.val) (H : |D α β γ c| * (h 0 ^ α.val * h 1 ^ β.val * h 2 ^ γ.val) ≤ M) :
    |scaleJet h D α β γ c| ≤ M := by
  rw [scaleJet, abs_mul, abs_of_nonneg hp, mul_comm]
  exact H

/-- Combination of the error of the kernel and that of the point. -/
theorem combine {v x y k c C K M : ℚ} (h1 : |v - x| ≤ k * ulp1 * M) (h2 : |x - y| ≤ c * (80 * K * ulp1) * M) (hM : 0 < M) (hK : 1 ≤ K)
    (h0 : 0 ≤ k) (hC : k + 80 * c ≤ C) : |v - y| ≤ C * K * M / 2 ^ 52 := by
  have u0 := ulp1_pos
  have e : C * K * M / 2 ^ 52 = C * K * (ulp1 * M) := by rw [ulp1]; ring
  have uM : 0 < ulp1 * M := mul_pos u0 hM
  have k1 : k ≤ k * K := le_mul_of_one_le_right h0 hK
  have k2 : (k + 80 * c) * K ≤ C * K := mul_le_mul_of_nonneg_right hC (by linarith)
  have k3 : (k + 80 * c * K) * (ulp1 * M) ≤ C * K * (ulp1 * M) := mul_le_mul_of_nonneg_right (by linarith) uM.le
  rw [e]
  have := abs_sub_le v x y
  linarith

/-- The same with a separate bound of the second error. -/
theorem combine_val (c : ℚ) {w x y k B C K M : ℚ} (h1 : |w - x| ≤ k * ulp1 * M) (h2 : |x - y| ≤ B)
    (hB : B ≤ c * (80 * K * ulp1) * M) (hM : 0 < M) (hK : 1 ≤ K) (hk : 0 ≤ k) (hC : k + 80 * c ≤ C) :
    |w - y| ≤ C * K * M / 2 ^ 52 :=
  combine h1 (h2.trans hB) hM hK hk hC

/-- The same for a derivative. -/
theorem combine_grad (c : ℚ) {w x y k B C K M h : ℚ} (h0 : 0 < h) (h1 : |w - x * (1 / h)| ≤ k * ulp1 * (M / h)) (h2 : |x - y| ≤ B)
    (hB : B ≤ c * (80 * K * ulp1) * M) (hM : 0 < M) (hK : 1 ≤ K) (hk : 0 ≤ k) (hC : k + 80 * c ≤ C) :
    |w - y / h| * h ≤ C * K * M / 2 ^ 52 := by
  have e1 : |w - y / h| * h = |w * h - y| := by
    rw [← abs_of_pos h0, ← abs_mul, abs_of_pos h0]
    congr 1
    field_simp
  have e2 : |w * h - x| ≤ k * ulp1 * M := by
    have : |w * h - x| = |w - x * (1 / h)| * h := by
      rw [← abs_of_pos h0, ← abs_mul, abs_of_pos h0]
      congr 1
      field_simp
    rw [this]
    calc _ ≤ k * ulp1 * (M / h) * h := mul_le_mul_of_nonneg_right h1 h0.le
      _ = k * ulp1 * M := by field_simp
  rw [e1]
  exact combine e2 (h2.trans hB) hM hK hk hC

theorem forall₂_one {α β : Type} {R : α → β → Prop} {l : List α} {o : β} (z : α) (H : List.Forall₂ R l [o]) :
    l = [l.getD 0 z] ∧ R (l.getD 0 z) o := by
  cases H with
  | cons h1 h2 => cases h2; exact ⟨rfl, h1⟩

theorem forall₂_four {α β : Type} {R : α → β → Prop} {l : List α} {o p q t : β} (z : α) (H : List.Forall₂ R l [o, p, q, t]) :
    l = [l.getD 0 z, l.getD 1 z, l.getD 2 z, l.getD 3 z] ∧
      R (l.getD 0 z) o ∧ R (l.getD 1 z) p ∧ R (l.getD 2 z) q ∧ R (l.getD 3 z) t := by
  cases H with
  | cons h1 h2 => cases h2 with
    | cons h2 h3 => cases h3 with
      | cons h3 h4 => cases h4 with
        | cons h4 h5 => cases h5; exact ⟨rfl, h1, h2, h3, h4⟩

/-- The widths of the cells as a vector. -/
def widths (A : Fin 3 → Axis) : Vec3 ℚ := ⟨(A 0).h, (A 1).h, (A 2).h⟩

theorem widths_get (A : Fin 3 → Axis) : (widths A).get = fun a => (A a).h := by
  funext a; match a with | 0 => rfl | 1 => rfl | 2 => rfl

/-- Three numbers as a vector. -/
def vec (η : Fin 3 → ℚ) : Vec3 ℚ := ⟨η 0, η 1, η 2⟩

theorem vec_get (η : Fin 3 → ℚ) : (vec η).get = η := by
  funext a; match a with | 0 => rfl | 1 => rfl | 2 => rfl

end Gals.Props
