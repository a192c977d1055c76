import Verif.Lemmas.PointDouble

/-!
# Size and slope of the splines of level set data
-/

set_option linter.unusedSectionVars false

namespace Gals.Props

open Gals Gals.Spec

/-- Two points on the axis whose coordinates differ by at most `δ`. -/
theorem nearPoint_of {T T' δ : ℚ} (h0 : δ ≤ 1 / 32) (h : |T' - T| ≤ δ) : NearPoint T (Int.fract T') δ ⌊T'⌋ := by
  obtain ⟨h1, h2⟩ := abs_le.1 h
  have f0 := Int.floor_le T'
  have f1 := Int.lt_floor_add_one T'
  have e : Int.fract T' = T' - ⌊T'⌋ := rfl
  refine ⟨h0, by linarith, by linarith, ?_⟩
  rw [e, sub_sub_sub_cancel_right]
  exact h

/-- A bound of the change of the spline in units of the data and of the cell. -/
def cVal (d : ℕ) : ℚ := if d = 1 then 18 else if d = 2 then 90 else 675 / 2
/-- The same for its derivatives. -/
def cGrad (d : ℕ) : ℚ := if d = 1 then 72 else if d = 2 then 288 else 990

theorem mul_div_abs {x y h : ℚ} (h0 : 0 < h) : |x / h - y / h| * h = |x - y| := by
  rw [← sub_div, abs_div, abs_of_pos h0]
  field_simp

theorem div_abs {x h : ℚ} (h0 : 0 < h) : |x / h| * h = |x| := by
  rw [abs_div, abs_of_pos h0]
  field_simp

/-- Coordinate of a point whose cell and the next are stored. -/
def InCells (r : Req F64) (d : ℕ) (A : Fin 3 → Axis) (q : Fin 3 → ℚ) : Prop :=
  ∀ a : Fin 3, a.val < d → -1 ≤ ⌊(A a).coord (q a)⌋ ∧ ⌊(A a).coord (q a)⌋ + 1 ≤ r.n.get a

theorem scale1 {r : Req F64} (h : r.Valid 1) (hpad : r.pad = 1) {A : Fin 3 → Axis} (hA : ∀ a : Fin 3, a.val < 1 → 0 < (A a).h)
    {D : Jet} {M : ℚ} (hDM : JetLe r 1 A D M) :
    ∀ α i, (-1 ≤ i ∧ i ≤ r.n.get 0) → |scaleJet (fun a => (A a).h) D α 0 0 (i, 0, 0)| ≤ M := by
  intro α i r0
  have pd : r.Padded 1 (i, 0, 0) := by
    refine padded_of h hpad ?_ ?_
    · intro a ha
      match a with
      | 0 => exact r0
      | 1 => exact absurd ha (by decide)
      | 2 => exact absurd ha (by decide)
    · intro a ha
      match a with
      | 0 => exact absurd ha (by decide)
      | 1 => rfl
      | 2 => rfl
  refine scaleJet_abs ?_ (jet_le hDM pd α 0 0 (fun _ => rfl) (fun _ => rfl) (by decide))
  simp only [Fin.val_zero, pow_zero, mul_one]
  exact (pow_nonneg (hA 0 (by decide)).le _)

theorem move1 {r : Req F64} (h : r.Valid 1) (hpad : r.pad = 1) {A : Fin 3 → Axis} (hA : ∀ a : Fin 3, a.val < 1 → 0 < (A a).h)
    {D : Jet} {M : ℚ} (hDM : JetLe r 1 A D M) {q q' : Fin 3 → ℚ} (hq : InCells r 1 A q) (hq' : InCells r 1 A q') {δ : ℚ}
    (h0 : δ ≤ 1 / 32) (hδ : ∀ a : Fin 3, a.val < 1 → |(A a).coord (q' a) - (A a).coord (q a)| ≤ δ) :
    |jetSpline 1 A noD D q' - jetSpline 1 A noD D q| ≤ cVal 1 * δ * M ∧
    ∀ a : Fin 3, a.val < 1 → |jetSpline 1 A (oneD a) D q' - jetSpline 1 A (oneD a) D q| * (A a).h ≤ cGrad 1 * δ * M ∧
      |jetSpline 1 A (oneD a) D q| * (A a).h ≤ 75 / 2 * M := by
  have hS := scale1 h hpad hA hDM
  have near : NestNear 1 (fun a => (A a).coord (q a)) (fun a => Int.fract ((A a).coord (q' a))) δ M (fun a => ⌊(A a).coord (q' a)⌋)
      (fun a i => -1 ≤ i ∧ i ≤ r.n.get a) := by
    refine ⟨fun a ha => nearPoint_of h0 (hδ a ha), fun a ha => ?_, fun a ha => ?_, fun a ha => ?_, fun a ha => ?_⟩
    · have := hq' a ha; omega
    · have := hq' a ha; omega
    · have := hq a ha; omega
    · have := hq a ha; omega
  have M0 : 0 ≤ M := (abs_nonneg _).trans (hS 0 0 ⟨by norm_num, (h.n_pos 0).le⟩)
  refine ⟨?_, fun a ha => ?_⟩
  · rw [jetSpline1_no, jetSpline1_no]
    exact (nest1_near noD near hS).trans (le_of_eq (by norm_num [noD, hL, hC, cVal]))
  · match a with
    | 0 =>
      rw [jetSpline1_x, jetSpline1_x, mul_div_abs (hA 0 ha), div_abs (hA 0 ha)]
      refine ⟨(nest1_near (oneD 0) near hS).trans (le_of_eq (by rw [show oneD 0 0 = 1 from rfl]; norm_num [hL, hC, cGrad])), ?_⟩
      refine (hsum_size (oneD 0 0) (near.f0 0 (by decide)) (near.f1 0 (by decide)) (fun α i r0 => hS α i r0)).trans ?_
      rw [show oneD 0 0 = 1 from rfl]
      norm_num [hC]
      linarith
    | 1 => exact absurd ha (by decide)
    | 2 => exact absurd ha (by decide)

theorem scale2 {r : Req F64} (h : r.Valid 2) (hpad : r.pad = 1) {A : Fin 3 → Axis} (hA : ∀ a : Fin 3, a.val < 2 → 0 < (A a).h)
    {D : Jet} {M : ℚ} (hDM : JetLe r 2 A D M) :
    ∀ α β i j, (-1 ≤ i ∧ i ≤ r.n.get 0) → (-1 ≤ j ∧ j ≤ r.n.get 1) → |scaleJet (fun a => (A a).h) D α β 0 (i, j, 0)| ≤ M := by
  intro α β i j r0 r1
  have pd : r.Padded 2 (i, j, 0) := by
    refine padded_of h hpad ?_ ?_
    · intro a ha
      match a with
      | 0 => exact r0
      | 1 => exact r1
      | 2 => exact absurd ha (by decide)
    · intro a ha
      match a with
      | 0 => exact absurd ha (by decide)
      | 1 => exact absurd ha (by decide)
      | 2 => rfl
  refine scaleJet_abs ?_ (jet_le hDM pd α β 0 (fun h => absurd h (by decide)) (fun _ => rfl) (by decide))
  simp only [Fin.val_zero, pow_zero, mul_one]
  exact (mul_nonneg (pow_nonneg (hA 0 (by decide)).le _) (pow_nonneg (hA 1 (by decide)).le _))

theorem move2 {r : Req F64} (h : r.Valid 2) (hpad : r.pad = 1) {A : Fin 3 → Axis} (hA : ∀ a : Fin 3, a.val < 2 → 0 < (A a).h)
    {D : Jet} {M : ℚ} (hDM : JetLe r 2 A D M) {q q' : Fin 3 → ℚ} (hq : InCells r 2 A q) (hq' : InCells r 2 A q') {δ : ℚ}
    (h0 : δ ≤ 1 / 32) (hδ : ∀ a : Fin 3, a.val < 2 → |(A a).coord (q' a) - (A a).coord (q a)| ≤ δ) :
    |jetSpline 2 A noD D q' - jetSpline 2 A noD D q| ≤ cVal 2 * δ * M ∧
    ∀ a : Fin 3, a.val < 2 → |jetSpline 2 A (oneD a) D q' - jetSpline 2 A (oneD a) D q| * (A a).h ≤ cGrad 2 * δ * M ∧
      |jetSpline 2 A (oneD a) D q| * (A a).h ≤ 75 / 2 * M := by
  have hS := scale2 h hpad hA hDM
  have near : NestNear 2 (fun a => (A a).coord (q a)) (fun a => Int.fract ((A a).coord (q' a))) δ M (fun a => ⌊(A a).coord (q' a)⌋)
      (fun a i => -1 ≤ i ∧ i ≤ r.n.get a) := by
    refine ⟨fun a ha => nearPoint_of h0 (hδ a ha), fun a ha => ?_, fun a ha => ?_, fun a ha => ?_, fun a ha => ?_⟩
    · have := hq' a ha; omega
    · have := hq' a ha; omega
    · have := hq a ha; omega
    · have := hq a ha; omega
  have M0 : 0 ≤ M := (abs_nonneg _).trans (hS 0 0 0 0 ⟨by norm_num, (h.n_pos 0).le⟩ ⟨by norm_num, (h.n_pos 1).le⟩)
  refine ⟨?_, fun a ha => ?_⟩
  · rw [jetSpline2_no, jetSpline2_no]
    exact (nest2_near noD near hS).trans (le_of_eq (by norm_num [noD, hL, hC, cVal]; ring))
  · match a with
    | 0 =>
      rw [jetSpline2_x, jetSpline2_x, mul_div_abs (hA 0 ha), div_abs (hA 0 ha)]
      refine ⟨(nest2_near (oneD 0) near hS).trans (le_of_eq (by rw [show oneD 0 0 = 1 from rfl, show oneD 0 1 = 0 from rfl]; norm_num [hL, hC, cGrad]; ring)), ?_⟩
      refine (hsum_size (oneD 0 0) (near.f0 0 (by decide)) (near.f1 0 (by decide)) (fun α i r0 => hsum_size (oneD 0 1) (near.f0 1 (by decide)) (near.f1 1 (by decide)) (fun β j r1 => hS α β i j r0 r1))).trans ?_
      rw [show oneD 0 0 = 1 from rfl, show oneD 0 1 = 0 from rfl]
      norm_num [hC]
      linarith
    | 1 =>
      rw [jetSpline2_y, jetSpline2_y, mul_div_abs (hA 1 ha), div_abs (hA 1 ha)]
      refine ⟨(nest2_near (oneD 1) near hS).trans (le_of_eq (by rw [show oneD 1 0 = 0 from rfl, show oneD 1 1 = 1 from rfl]; norm_num [hL, hC, cGrad]; ring)), ?_⟩
      refine (hsum_size (oneD 1 0) (near.f0 0 (by decide)) (near.f1 0 (by decide)) (fun α i r0 => hsum_size (oneD 1 1) (near.f0 1 (by decide)) (near.f1 1 (by decide)) (fun β j r1 => hS α β i j r0 r1))).trans ?_
      rw [show oneD 1 0 = 0 from rfl, show oneD 1 1 = 1 from rfl]
      norm_num [hC]
      linarith
    | 2 => exact absurd ha (by decide)

theorem scale3 {r : Req F64} (h : r.Valid 3) (hpad : r.pad = 1) {A : Fin 3 → Axis} (hA : ∀ a : Fin 3, a.val < 3 → 0 < (A a).h)
    {D : Jet} {M : ℚ} (hDM : JetLe r 3 A D M) :
    ∀ α β γ i j k, (-1 ≤ i ∧ i ≤ r.n.get 0) → (-1 ≤ j ∧ j ≤ r.n.get 1) → (-1 ≤ k ∧ k ≤ r.n.get 2) → |scaleJet (fun a => (A a).h) D α β γ (i, j, k)| ≤ M := by
  intro α β γ i j k r0 r1 r2
  have pd : r.Padded 3 (i, j, k) := by
    refine padded_of h hpad ?_ ?_
    · intro a ha
      match a with
      | 0 => exact r0
      | 1 => exact r1
      | 2 => exact r2
    · intro a ha
      match a with
      | 0 => exact absurd ha (by decide)
      | 1 => exact absurd ha (by decide)
      | 2 => exact absurd ha (by decide)
  refine scaleJet_abs ?_ (jet_le hDM pd α β γ (fun h => absurd h (by decide)) (fun h => absurd h (by decide)) (by decide))
  exact (mul_nonneg (mul_nonneg (pow_nonneg (hA 0 (by decide)).le _) (pow_nonneg (hA 1 (by decide)).le _)) (pow_nonneg (hA 2 (by decide)).le _))

theorem move3 {r : Req F64} (h : r.Valid 3) (hpad : r.pad = 1) {A : Fin 3 → Axis} (hA : ∀ a : Fin 3, a.val < 3 → 0 < (A a).h)
    {D : Jet} {M : ℚ} (hDM : JetLe r 3 A D M) {q q' : Fin 3 → ℚ} (hq : InCells r 3 A q) (hq' : InCells r 3 A q') {δ : ℚ}
    (h0 : δ ≤ 1 / 32) (hδ : ∀ a : Fin 3, a.val < 3 → |(A a).coord (q' a) - (A a).coord (q a)| ≤ δ) :
    |jetSpline 3 A noD D q' - jetSpline 3 A noD D q| ≤ cVal 3 * δ * M ∧
    ∀ a : Fin 3, a.val < 3 → |jetSpline 3 A (oneD a) D q' - jetSpline 3 A (oneD a) D q| * (A a).h ≤ cGrad 3 * δ * M ∧
      |jetSpline 3 A (oneD a) D q| * (A a).h ≤ 75 / 2 * M := by
  have hS := scale3 h hpad hA hDM
  have near : NestNear 3 (fun a => (A a).coord (q a)) (fun a => Int.fract ((A a).coord (q' a))) δ M (fun a => ⌊(A a).coord (q' a)⌋)
      (fun a i => -1 ≤ i ∧ i ≤ r.n.get a) := by
    refine ⟨fun a ha => nearPoint_of h0 (hδ a ha), fun a ha => ?_, fun a ha => ?_, fun a ha => ?_, fun a ha => ?_⟩
    · have := hq' a ha; omega
    · have := hq' a ha; omega
    · have := hq a ha; omega
    · have := hq a ha; omega
  have M0 : 0 ≤ M := (abs_nonneg _).trans (hS 0 0 0 0 0 0 ⟨by norm_num, (h.n_pos 0).le⟩ ⟨by norm_num, (h.n_pos 1).le⟩ ⟨by norm_num, (h.n_pos 2).le⟩)
  refine ⟨?_, fun a ha => ?_⟩
  · rw [jetSpline3_no, jetSpline3_no]
    exact (nest3_near noD near hS).trans (le_of_eq (by norm_num [noD, hL, hC, cVal]; ring))
  · match a with
    | 0 =>
      rw [jetSpline3_x, jetSpline3_x, mul_div_abs (hA 0 ha), div_abs (hA 0 ha)]
      refine ⟨(nest3_near (oneD 0) near hS).trans (le_of_eq (by rw [show oneD 0 0 = 1 from rfl, show oneD 0 1 = 0 from rfl, show oneD 0 2 = 0 from rfl]; norm_num [hL, hC, cGrad]; ring)), ?_⟩
      refine (hsum_size (oneD 0 0) (near.f0 0 (by decide)) (near.f1 0 (by decide)) (fun α i r0 => hsum_size (oneD 0 1) (near.f0 1 (by decide)) (near.f1 1 (by decide)) (fun β j r1 => hsum_size (oneD 0 2) (near.f0 2 (by decide)) (near.f1 2 (by decide)) (fun γ k r2 => hS α β γ i j k r0 r1 r2)))).trans ?_
      rw [show oneD 0 0 = 1 from rfl, show oneD 0 1 = 0 from rfl, show oneD 0 2 = 0 from rfl]
      norm_num [hC]
      linarith
    | 1 =>
      rw [jetSpline3_y, jetSpline3_y, mul_div_abs (hA 1 ha), div_abs (hA 1 ha)]
      refine ⟨(nest3_near (oneD 1) near hS).trans (le_of_eq (by rw [show oneD 1 0 = 0 from rfl, show oneD 1 1 = 1 from rfl, show oneD 1 2 = 0 from rfl]; norm_num [hL, hC, cGrad]; ring)), ?_⟩
      refine (hsum_size (oneD 1 0) (near.f0 0 (by decide)) (near.f1 0 (by decide)) (fun α i r0 => hsum_size (oneD 1 1) (near.f0 1 (by decide)) (near.f1 1 (by decide)) (fun β j r1 => hsum_size (oneD 1 2) (near.f0 2 (by decide)) (near.f1 2 (by decide)) (fun γ k r2 => hS α β γ i j k r0 r1 r2)))).trans ?_
      rw [show oneD 1 0 = 0 from rfl, show oneD 1 1 = 1 from rfl, show oneD 1 2 = 0 from rfl]
      norm_num [hC]
      linarith
    | 2 =>
      rw [jetSpline3_z, jetSpline3_z, mul_div_abs (hA 2 ha), div_abs (hA 2 ha)]
      refine ⟨(nest3_near (oneD 2) near hS).trans (le_of_eq (by rw [show oneD 2 0 = 0 from rfl, show oneD 2 1 = 0 from rfl, show oneD 2 2 = 1 from rfl]; norm_num [hL, hC, cGrad]; ring)), ?_⟩
      refine (hsum_size (oneD 2 0) (near.f0 0 (by decide)) (near.f1 0 (by decide)) (fun α i r0 => hsum_size (oneD 2 1) (near.f0 1 (by decide)) (near.f1 1 (by decide)) (fun β j r1 => hsum_size (oneD 2 2) (near.f0 2 (by decide)) (near.f1 2 (by decide)) (fun γ k r2 => hS α β γ i j k r0 r1 r2)))).trans ?_
      rw [show oneD 2 0 = 0 from rfl, show oneD 2 1 = 0 from rfl, show oneD 2 2 = 1 from rfl]
      norm_num [hC]
      linarith

/-- Change of the spline and of its derivatives between near points, and size of the derivatives. -/
theorem move {d : ℕ} {r : Req F64} (h : r.Valid d) (hpad : r.pad = 1) {A : Fin 3 → Axis} (hA : ∀ a : Fin 3, a.val < d → 0 < (A a).h)
    {D : Jet} {M : ℚ} (hDM : JetLe r d A D M) {q q' : Fin 3 → ℚ} (hq : InCells r d A q) (hq' : InCells r d A q') {δ : ℚ}
    (h0 : δ ≤ 1 / 32) (hδ : ∀ a : Fin 3, a.val < d → |(A a).coord (q' a) - (A a).coord (q a)| ≤ δ) :
    |jetSpline d A noD D q' - jetSpline d A noD D q| ≤ cVal d * δ * M ∧
    ∀ a : Fin 3, a.val < d → |jetSpline d A (oneD a) D q' - jetSpline d A (oneD a) D q| * (A a).h ≤ cGrad d * δ * M ∧
      |jetSpline d A (oneD a) D q| * (A a).h ≤ 75 / 2 * M := by
  obtain rfl | rfl | rfl : d = 1 ∨ d = 2 ∨ d = 3 := h.dim
  · exact move1 h hpad hA hDM hq hq' h0 hδ
  · exact move2 h hpad hA hDM hq hq' h0 hδ
  · exact move3 h hpad hA hDM hq hq' h0 hδ

end Gals.Props
