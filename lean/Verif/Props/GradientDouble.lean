import Verif.Lemmas.GradientDouble
import Verif.Props.GradientAccuracy
import Verif.Props.SplineStep

/-!
# Property C94: rounding error of the finite-difference gradients
-/

set_option linter.unusedSectionVars false

namespace Gals.Props

open Gals Spec

section
variable {d : ℕ}

/-- The raw difference quotients in double arithmetic. -/
theorem rawDiff_double {s : IntSem} {r : Req F64} (h : r.Valid d) {lo hi : Fin 3 → ℚ} (hbox : BoxIs r d lo hi)
    {g : Grid F64 d} (G : g.Made s r) {f : Cell → F64} {D : Cell → ℚ} {M : ℚ} (hM : Moderate M)
    (data : ∀ c, r.Padded d c → HasValue (f c) (D c) ∧ |D c| ≤ M) {sch : GradScheme} (hp : reach sch ≤ r.pad) {c : Cell}
    (hc : r.Interior c) {a : Fin 3} (ha : a.val < d) {b : Fin 3} (hb : b.val < d) (hside : Moderate (hi b - lo b))
    (hn : (r.n.get b : ℚ) ≤ 2 ^ 28) :
    ∃ w : ℚ, HasValue (rawDiff sch f c a (r.h b)) w ∧
      |w - fdOf sch D c a (axisOf r lo hi b).h| * (axisOf r lo hi b).h ≤ schemeUlps sch * M / 2 ^ 52 := by
  obtain ⟨h0, w1, w2⟩ := width_apx h hbox G b hb
  have pw := width_pw h hside hn
  have pM := moderate_pw hM
  have sM := pM.scaled
  have sS := (pM.div pw).scaled
  have p1 : Pw (1 : ℚ) 0 0 := ⟨by norm_num, by norm_num⟩
  have sI := (p1.div pw).scaled
  have hdx : g.dx.get b = r.h b := G.dx b
  have ed : g.oneOverDx.get b = 1 / r.h b := G.oneOverDx b hb
  rw [hdx] at w1
  rw [ed] at w2
  have dt : ∀ m : ℤ, -r.pad ≤ m → m ≤ r.pad → HasValue (f (shift c a m)) (D (shift c a m)) ∧ |D (shift c a m)| ≤ M :=
    fun m m1 m2 => data _ (shift_padded G hc ha m1 m2)
  have key : Apx (rawDiff sch f c a (r.h b)) (fdOf sch D c a (axisOf r lo hi b).h) 2 (schemeUlps sch) (M / (axisOf r lo hi b).h) := by
    cases sch with
    | central =>
      have hp : 1 ≤ r.pad := hp
      exact (central_double sM h0 sS w2 fun m m1 m2 => dt m (by omega) (by omega)).mono sS.pos (by norm_num) le_rfl
    | third =>
      have hp : 2 ≤ r.pad := hp
      exact third_double sM pw.scaled sS sI w1 fun m m1 m2 => dt m (by omega) (by omega)
  obtain ⟨⟨w, hw, e⟩, -⟩ := key
  refine ⟨w, hw, ?_⟩
  have := mul_le_mul_of_nonneg_right e h0.le
  refine this.trans (le_of_eq ?_)
  rw [ulp1]
  field_simp

/-- C94 for scalar fields: in double arithmetic the gradient of finite data consists of finite numbers, and they are the difference
quotients of the data up to 9 (central scheme), respectively 48 (third-order scheme) units in the last place of the largest datum,
divided by the cell width. -/
theorem C94_scalar (s : IntSem) (d : ℕ) (r : Req F64) (h : r.Valid d) (sch : GradScheme) (hp : 1 ≤ r.pad) (h3 : sch = .third → 2 ≤ r.pad)
    (lo hi : Fin 3 → ℚ) (hbox : BoxIs r d lo hi) (hside : ∀ a : Fin 3, a.val < d → Moderate (hi a - lo a))
    (hres : ∀ a : Fin 3, a.val < d → r.n.get a ≤ 2 ^ 28) (g : Grid F64 d) (e : r.make s d = .ok g) (rg : Req F64) (hg : rg.Valid d)
    (hn : rg.n = r.n) (gg : Grid F64 d) (eg : rg.make s d = .ok gg) (alpha : Arr F64) (f : Cell → F64) (hf : FieldIs s r g alpha f)
    (D : Cell → ℚ) (M : ℚ) (hM : Moderate M) (data : ∀ c, r.Padded d c → HasValue (f c) (D c) ∧ |D c| ≤ M)
    (grad : Arr (Vec3 F64)) (q0 : Cell → Vec3 F64) (hq : FieldIs s rg gg grad q0) :
    ∃ grad', gradScalar sch s g gg alpha grad = .ok grad' ∧
      ∀ c, r.Interior c → ∃ v, grad'.get s gg c.1 c.2.1 c.2.2 = .ok v ∧
        ∀ a : Fin 3, a.val < d → ∃ w : ℚ, HasValue (v.get a) w ∧
          |w - fdOf sch D c a (axisOf r lo hi a).h| * (axisOf r lo hi a).h ≤ schemeUlps sch * M / 2 ^ 52 := by
  have G := make_made h e
  have Gg := make_made hg eg
  have hr : reach sch ≤ r.pad := by
    cases sch with
    | central => exact hp
    | third => exact h3 rfl
  obtain ⟨grad', q', k1, k2, -, k4⟩ := gradScalar_ok G Gg hn hr hf hq
  have hi' : ∀ c, r.Interior c → rg.Interior c := fun c hc => by unfold Req.Interior; rw [hn]; exact hc
  refine ⟨grad', k1, fun c hc => ⟨q' c, k2.val c (interior_padded Gg (hi' c hc)), fun a ha => ?_⟩⟩
  rw [k4 c hc a, if_pos ha]
  exact rawDiff_double h hbox G hM data hr hc ha ha (hside a ha) (by exact_mod_cast hres a ha)

/-- C94 for vector fields: every entry is what exact arithmetic yields (C25: the quotient of component `a` along axis `a`, divided by the
width of axis `b`) up to the same error. -/
theorem C94_vector (s : IntSem) (d : ℕ) (r : Req F64) (h : r.Valid d) (sch : GradScheme) (hp : 1 ≤ r.pad) (h3 : sch = .third → 2 ≤ r.pad)
    (lo hi : Fin 3 → ℚ) (hbox : BoxIs r d lo hi) (hside : ∀ a : Fin 3, a.val < d → Moderate (hi a - lo a))
    (hres : ∀ a : Fin 3, a.val < d → r.n.get a ≤ 2 ^ 28) (g : Grid F64 d) (e : r.make s d = .ok g) (rg : Req F64) (hg : rg.Valid d)
    (hn : rg.n = r.n) (gg : Grid F64 d) (eg : rg.make s d = .ok gg) (alpha : Arr (Vec3 F64)) (f : Cell → Vec3 F64)
    (hf : FieldIs s r g alpha f) (D : Cell → Fin 3 → ℚ) (M : ℚ) (hM : Moderate M)
    (data : ∀ c, r.Padded d c → ∀ a : Fin 3, a.val < d → HasValue ((f c).get a) (D c a) ∧ |D c a| ≤ M)
    (grad : Arr (Mat3 F64)) (q0 : Cell → Mat3 F64) (hq : FieldIs s rg gg grad q0) :
    ∃ grad', gradVector sch s g gg alpha grad = .ok grad' ∧
      ∀ c, r.Interior c → ∃ m, grad'.get s gg c.1 c.2.1 c.2.2 = .ok m ∧
        ∀ a b : Fin 3, a.val < d → b.val < d → ∃ w : ℚ, HasValue (m.entry a b) w ∧
          |w - fdOf sch (fun c => D c a) c a (axisOf r lo hi b).h| * (axisOf r lo hi b).h ≤ schemeUlps sch * M / 2 ^ 52 := by
  have G := make_made h e
  have Gg := make_made hg eg
  have hr : reach sch ≤ r.pad := by
    cases sch with
    | central => exact hp
    | third => exact h3 rfl
  obtain ⟨grad', q', k1, k2, -, k4⟩ := gradVector_ok G Gg hn hr hf hq
  have hi' : ∀ c, r.Interior c → rg.Interior c := fun c hc => by unfold Req.Interior; rw [hn]; exact hc
  refine ⟨grad', k1, fun c hc => ⟨q' c, k2.val c (interior_padded Gg (hi' c hc)), fun a b ha hb => ?_⟩⟩
  rw [k4 c hc a b, if_pos ⟨ha, hb⟩]
  exact rawDiff_double h hbox G hM (fun c hc => data c hc a ha) hr hc ha hb (hside b hb) (by exact_mod_cast hres b hb)

/-! ### Samples of a smooth function -/

theorem real_valid {r : Req F64} (h : r.Valid d) (lo hi : Fin 3 → ℚ) : (realReq r lo hi).Valid d := by
  obtain ⟨h1, h2, h3, h4, h5, h6, h7, h8⟩ := h
  exact ⟨h1, h2, h3, h4, h5, h6, h7, h8⟩

theorem real_h {r : Req F64} {lo hi : Fin 3 → ℚ} (a : Fin 3) : (realReq r lo hi).h a = ((axisOf r lo hi a).h : ℝ) := by
  unfold Req.h Axis.h axisOf realReq
  match a with
  | 0 => push_cast; rfl
  | 1 => push_cast; rfl
  | 2 => push_cast; rfl

theorem real_pos {r : Req F64} {lo hi : Fin 3 → ℚ} (hbox : BoxIs r d lo hi) : (realReq r lo hi).Pos d := by
  intro a ha
  have h1 : 0 < hi a - lo a := (two_zpow_pos _).trans_le (hbox a ha).2.2.1
  have h2 : (lo a : ℝ) < hi a := by exact_mod_cast (by linarith : lo a < hi a)
  unfold realReq
  match a with
  | 0 => exact h2
  | 1 => exact h2
  | 2 => exact h2

/-- Perturbed data. -/
theorem fd_gain {u v : Cell → ℝ} {ε h : ℝ} (h0 : 0 < h) {sch : GradScheme} {c : Cell} {a : Fin 3}
    (H : ∀ m : ℤ, -reach sch ≤ m → m ≤ 1 → |u (shift c a m) - v (shift c a m)| ≤ ε) :
    |fdOf sch u c a h - fdOf sch v c a h| ≤ schemeGain sch * ε / h := by
  cases sch with
  | central =>
    have h1 := abs_le.1 (H 1 (by decide) (by decide))
    have h2 := abs_le.1 (H (-1) (by decide) (by decide))
    have e : fdCentral u c a h - fdCentral v c a h =
      ((u (shift c a 1) - v (shift c a 1)) - (u (shift c a (-1)) - v (shift c a (-1)))) / 2 / h := by
      unfold fdCentral
      field_simp
      ring
    show |fdCentral u c a h - fdCentral v c a h| ≤ 1 * ε / h
    rw [e, abs_div, abs_of_pos h0]
    refine div_le_div_of_nonneg_right ?_ h0.le
    rw [abs_le]
    constructor <;> linarith [h1.1, h1.2, h2.1, h2.2]
  | third =>
    have h1 := abs_le.1 (H 1 (by decide) (by decide))
    have h2 := abs_le.1 (H (-1) (by decide) (by decide))
    have h3 := abs_le.1 (H (-2) (by decide) (by decide))
    have h4 := abs_le.1 (H 0 (by decide) (by decide))
    rw [shift_zero] at h4
    have e : fdThird u c a h - fdThird v c a h =
      (2 * (u (shift c a 1) - v (shift c a 1)) + 3 * (u c - v c) - 6 * (u (shift c a (-1)) - v (shift c a (-1))) +
        (u (shift c a (-2)) - v (shift c a (-2)))) / 6 / h := by
      unfold fdThird
      field_simp
      ring
    show |fdThird u c a h - fdThird v c a h| ≤ 2 * ε / h
    rw [e, abs_div, abs_of_pos h0]
    refine div_le_div_of_nonneg_right ?_ h0.le
    rw [abs_le]
    constructor <;> linarith [h1.1, h1.2, h2.1, h2.2, h3.1, h3.2, h4.1, h4.2]

theorem fd_cast (sch : GradScheme) (D : Cell → ℚ) (c : Cell) (a : Fin 3) (h : ℚ) :
    ((fdOf sch D c a h : ℚ) : ℝ) = fdOf sch (fun c => (D c : ℝ)) c a (h : ℝ) := by
  cases sch with
  | central =>
    show ((fdCentral D c a h : ℚ) : ℝ) = _
    unfold fdCentral
    push_cast
    rfl
  | third =>
    show ((fdThird D c a h : ℚ) : ℝ) = _
    unfold fdThird
    push_cast
    rfl

/-- C94 for samples of a smooth function: if the data are doubles within `ε` of the values of a function at the nodes of the exact grid, the
computed gradient is that of the function up to the sum of the error of the scheme (C93), the amplified error of the data and
the rounding error. -/
theorem C94_samples (s : IntSem) (d : ℕ) (r : Req F64) (h : r.Valid d) (sch : GradScheme) (hp : 1 ≤ r.pad) (h3 : sch = .third → 2 ≤ r.pad)
    (lo hi : Fin 3 → ℚ) (hbox : BoxIs r d lo hi) (hside : ∀ a : Fin 3, a.val < d → Moderate (hi a - lo a))
    (hres : ∀ a : Fin 3, a.val < d → r.n.get a ≤ 2 ^ 28) (g : Grid F64 d) (e : r.make s d = .ok g) (rg : Req F64) (hg : rg.Valid d)
    (hn : rg.n = r.n) (gg : Grid F64 d) (eg : rg.make s d = .ok gg) (alpha : Arr F64) (f : Cell → F64) (hf : FieldIs s r g alpha f)
    (D : Cell → ℚ) (M : ℚ) (hM : Moderate M) (data : ∀ c, r.Padded d c → HasValue (f c) (D c) ∧ |D c| ≤ M)
    (F : (Fin 3 → ℝ) → ℝ) (B ε : ℝ) (H : PartialsLe (schemeOrder sch) F d (realReq r lo hi) B)
    (near : ∀ c, r.Padded d c → |(D c : ℝ) - F (nodePos (realReq r lo hi) d c).get| ≤ ε)
    (grad : Arr (Vec3 F64)) (q0 : Cell → Vec3 F64) (hq : FieldIs s rg gg grad q0) :
    ∃ grad', gradScalar sch s g gg alpha grad = .ok grad' ∧
      ∀ c, r.Interior c → ∃ v, grad'.get s gg c.1 c.2.1 c.2.2 = .ok v ∧
        ∀ a : Fin 3, a.val < d → ∃ w : ℚ, HasValue (v.get a) w ∧
          let p := (nodePos (realReq r lo hi) d c).get
          let b := ((axisOf r lo hi a).h : ℝ)
          |(w : ℝ) - deriv (along F p a) (p a)| ≤ schemeError sch B b + schemeGain sch * ε / b + schemeUlps sch * M / 2 ^ 52 / b := by
  have G := make_made h e
  obtain ⟨grad', k1, k2⟩ := C94_scalar s d r h sch hp h3 lo hi hbox hside hres g e rg hg hn gg eg alpha f hf D M hM data grad q0 hq
  refine ⟨grad', k1, fun c hc => ?_⟩
  obtain ⟨v, j1, j2⟩ := k2 c hc
  refine ⟨v, j1, fun a ha => ?_⟩
  obtain ⟨w, w1, w2⟩ := j2 a ha
  refine ⟨w, w1, ?_⟩
  intro p b
  have hr : reach sch ≤ r.pad := by
    cases sch with
    | central => exact hp
    | third => exact h3 rfl
  have hR := real_valid h lo hi
  obtain ⟨gR, -, GR⟩ := make_ok s hR
  have b0 : 0 < b := by
    show 0 < ((axisOf r lo hi a).h : ℝ)
    rw [← real_h]
    exact hR.h_pos (real_pos hbox) a ha
  have e1 := rawDiff_accuracy hR (real_pos hbox) GR (f := fun c => F (nodePos (realReq r lo hi) d c).get) (F := F) (B := B)
    (fun c q hc hq => by rw [GR.atC hc] at hq; cases hq; rfl) (sch := sch) hr H (c := c) hc ha
  rw [rawDiff_eq, real_h] at e1
  have e2 := fd_gain b0 (sch := sch) (c := c) (a := a) (u := fun c => (D c : ℝ)) (v := fun c => F (nodePos (realReq r lo hi) d c).get) (ε := ε)
    (fun m m1 m2 => near _ (shift_padded G hc ha (by omega) (by omega)))
  have e3 : |(w : ℝ) - fdOf sch (fun c => (D c : ℝ)) c a b| ≤ schemeUlps sch * M / 2 ^ 52 / b := by
    rw [le_div_iff₀ b0, ← fd_cast]
    show |(w : ℝ) - ((fdOf sch D c a (axisOf r lo hi a).h : ℚ) : ℝ)| * ((axisOf r lo hi a).h : ℝ) ≤ _
    exact_mod_cast w2
  have t : (w : ℝ) - deriv (along F p a) (p a) = (w - fdOf sch (fun c => (D c : ℝ)) c a b) +
    (fdOf sch (fun c => (D c : ℝ)) c a b - fdOf sch (fun c => F (nodePos (realReq r lo hi) d c).get) c a b) +
    (fdOf sch (fun c => F (nodePos (realReq r lo hi) d c).get) c a b - deriv (along F p a) (p a)) := by ring
  rw [t]
  refine (abs_add_three _ _ _).trans ?_
  linarith

end

/-! ### Instances -/

/-- `brick` with two layers of ghost cells. -/
def brick2 : Req F64 := ⟨⟨6, 5, 3⟩, 2, ⟨0, 0, 0⟩, ⟨1, 1, 1⟩⟩

theorem brick2_valid : brick2.Valid 3 := ⟨by simp, by decide, by decide, by decide, by decide, by decide, by decide, by decide⟩

theorem layer_le (c : Cell) : |layerQ c| ≤ 1 := by
  obtain ⟨h1, h2⟩ := layer_range c
  rw [abs_of_nonneg h1]
  exact h2

/-- Instance of C94 (scalar): the third-order scheme next to the layer, where the quotient of the data is `-6`. -/
example : ∃ (g : Grid F64 3) (alpha : Arr F64) (grad grad' : Arr (Vec3 F64)) (v : Vec3 F64) (w : ℚ), brick2.make .strict 3 = .ok g ∧
    gradScalar .third .strict g g alpha grad = .ok grad' ∧ grad'.get .strict g 3 2 1 = .ok v ∧ HasValue v.x w ∧ |w + 6| ≤ 288 / 2 ^ 52 := by
  obtain ⟨g, e, G⟩ := make_ok .strict brick2_valid
  obtain ⟨alpha, hf⟩ := fieldIs_exists (s := .strict) G layer
  obtain ⟨grad, hq⟩ := fieldIs_exists (s := .strict) G fun _ => (⟨0, 0, 0⟩ : Vec3 F64)
  obtain ⟨grad', k1, k2⟩ := C94_scalar .strict 3 brick2 brick2_valid .third (by decide) (by decide) (fun _ => 0) (fun _ => 1) brick_box
    (fun _ _ => by norm_num [moderate_one]) (fun a _ => by match a with | 0 => decide | 1 => decide | 2 => decide) g e brick2 brick2_valid rfl
    g e alpha layer hf layerQ 1 moderate_one (fun c _ => ⟨layer_value c, layer_le c⟩) grad _ hq
  obtain ⟨v, j1, j2⟩ := k2 (3, 2, 1) (by unfold Req.Interior InteriorCell brick2; simp)
  obtain ⟨w, w1, w2⟩ := j2 0 (by decide)
  refine ⟨g, alpha, grad, grad', v, w, e, k1, j1, w1, ?_⟩
  have hw : (axisOf brick2 (fun _ => 0) (fun _ => 1) 0).h = 1 / 6 := by norm_num [axisOf, Axis.h, brick2, Vec3.get]
  rw [hw] at w2
  have hfd : fdOf .third layerQ (3, 2, 1) 0 (1 / 6) = -6 := by norm_num [fdOf, fdThird, layerQ, shift]
  rw [hfd, sub_neg_eq_add] at w2
  have : (schemeUlps .third) = 48 := rfl
  rw [this] at w2
  linarith

/-- Instance of C94 (vectors): the central scheme; the diagonal entry next to the layer is 3, and the entry `(0, 1)` is 5/2. -/
example : ∃ (g : Grid F64 3) (alpha : Arr (Vec3 F64)) (grad grad' : Arr (Mat3 F64)) (m : Mat3 F64) (w z : ℚ),
    brick.make .strict 3 = .ok g ∧ gradVector .central .strict g g alpha grad = .ok grad' ∧ grad'.get .strict g 1 2 1 = .ok m ∧
      HasValue (m.entry 0 0) w ∧ |w - 3| ≤ 54 / 2 ^ 52 ∧ HasValue (m.entry 0 1) z ∧ |z - 5 / 2| ≤ 45 / 2 ^ 52 := by
  obtain ⟨g, e, G⟩ := make_ok .strict brick_valid
  obtain ⟨alpha, hf⟩ := fieldIs_exists (s := .strict) G fun c => (⟨layer c, layer c, layer c⟩ : Vec3 F64)
  obtain ⟨grad, hq⟩ := fieldIs_exists (s := .strict) G fun _ => (Mat3.zero : Mat3 F64)
  obtain ⟨grad', k1, k2⟩ := C94_vector .strict 3 brick brick_valid .central (by decide) (by simp) (fun _ => 0) (fun _ => 1) brick_box
    (fun _ _ => by norm_num [moderate_one]) (fun a _ => by match a with | 0 => decide | 1 => decide | 2 => decide) g e brick brick_valid rfl
    g e alpha _ hf (fun c _ => layerQ c) 1 moderate_one
    (fun c _ a _ => ⟨by match a with | 0 => exact layer_value c | 1 => exact layer_value c | 2 => exact layer_value c, layer_le c⟩) grad _ hq
  obtain ⟨m, j1, j2⟩ := k2 (1, 2, 1) (by unfold Req.Interior InteriorCell brick; simp)
  obtain ⟨w, w1, w2⟩ := j2 0 0 (by decide) (by decide)
  obtain ⟨z, z1, z2⟩ := j2 0 1 (by decide) (by decide)
  obtain ⟨b0, b1, -⟩ := brick_widths
  have u : (schemeUlps .central) = 9 := rfl
  have f0 : fdOf .central (fun c => layerQ c) (1, 2, 1) 0 (1 / 6) = 3 := by norm_num [fdOf, fdCentral, layerQ, shift]
  have f1 : fdOf .central (fun c => layerQ c) (1, 2, 1) 0 (1 / 5) = 5 / 2 := by norm_num [fdOf, fdCentral, layerQ, shift]
  rw [b0, f0, u] at w2
  rw [b1, f1, u] at z2
  exact ⟨g, alpha, grad, grad', m, w, z, e, k1, j1, w1, by linarith, z1, by linarith⟩

/-- The position of a cell of `brick` along the first axis. -/
def brickX (c : Cell) : ℚ := (c.1 + 1 / 2) / 6

theorem brick_padded {c : Cell} (hc : brick.Padded 3 c) : |brickX c ^ 3| ≤ 3 / 2 := by
  obtain ⟨⟨h1, h2⟩, -⟩ := hc
  have h1 : (-1 : ℤ) ≤ c.1 := h1
  have h2 : c.1 < 7 := h2
  have k1 : (-1 : ℚ) ≤ c.1 := by exact_mod_cast h1
  have k2 : (c.1 : ℚ) ≤ 6 := by exact_mod_cast (by omega : c.1 ≤ 6)
  have : |brickX c| ≤ 13 / 12 := by
    unfold brickX
    rw [abs_le]
    constructor <;> linarith
  rw [abs_pow]
  exact (pow_le_pow_left₀ (abs_nonneg _) this 3).trans (by norm_num)

/-- Every moderate rational number is close to a double. -/
theorem exists_double {q : ℚ} (h : |q| ≤ 3 / 2) : ∃ (x : F64) (p : ℚ), HasValue x p ∧ |p - q| ≤ 1 / 2 ^ 50 := by
  have hb : |q| ≤ 2 ^ 1020 := h.trans ((by norm_num : (3 / 2 : ℚ) ≤ 2).trans (le_self_pow₀ (by norm_num) (by norm_num)))
  obtain ⟨p, h1, h2⟩ := hasValue_round (s := decide (q < 0)) hb
  refine ⟨_, p, h1, ?_⟩
  have e : F64.signed (decide (q < 0)) |q| = q := by
    rcases lt_or_ge q 0 with hn | hn
    · rw [decide_eq_true hn, abs_of_neg hn]; simp [F64.signed]
    · rw [decide_eq_false (not_lt.2 hn), abs_of_nonneg hn]; simp [F64.signed]
  rw [e] at h2
  have ht : tiny ≤ ulp1 * 1 / 4 := scaled_one.tiny
  have hu : unitRoundoff = ulp1 / 2 := by rw [← two_unit]; ring
  have u0 := ulp1_pos
  have m := mul_le_mul_of_nonneg_left h (show 0 ≤ ulp1 / 2 by linarith)
  rw [hu] at h2
  have : ulp1 = 1 / 2 ^ 52 := rfl
  calc |p - q| ≤ ulp1 / 2 * |q| + tiny := h2
    _ ≤ ulp1 / 2 * (3 / 2) + ulp1 * 1 / 4 := add_le_add m ht
    _ ≤ 1 / 2 ^ 50 := by rw [this]; norm_num

/-- Instance of C94 (samples): the function `x³` rounded at the nodes. -/
example : ∃ (g : Grid F64 3) (alpha : Arr F64) (grad grad' : Arr (Vec3 F64)) (v : Vec3 F64) (w : ℚ), brick.make .strict 3 = .ok g ∧
    gradScalar .central .strict g g alpha grad = .ok grad' ∧ grad'.get .strict g 2 2 1 = .ok v ∧ HasValue v.x w ∧
      |(w : ℝ) - 3 * (5 / 12) ^ 2| ≤ 1 / 36 + 1 / 2 ^ 44 := by
  obtain ⟨g, e, G⟩ := make_ok .strict brick_valid
  have hx : ∀ c, ∃ xp : F64 × ℚ, brick.Padded 3 c → HasValue xp.1 xp.2 ∧ |xp.2 - brickX c ^ 3| ≤ 1 / 2 ^ 50 := by
    intro c
    by_cases hc : brick.Padded 3 c
    · obtain ⟨x, p, h1, h2⟩ := exists_double (brick_padded hc)
      exact ⟨(x, p), fun _ => ⟨h1, h2⟩⟩
    · exact ⟨(0, 0), fun h => absurd h hc⟩
  choose xp hxp using hx
  obtain ⟨alpha, hf⟩ := fieldIs_exists (s := .strict) G fun c => (xp c).1
  obtain ⟨grad, hq⟩ := fieldIs_exists (s := .strict) G fun _ => (⟨0, 0, 0⟩ : Vec3 F64)
  have hpos : ∀ c, (nodePos (realReq brick (fun _ => 0) fun _ => 1) 3 c).get 0 = ((brickX c : ℚ) : ℝ) := by
    intro c
    unfold nodePos Req.centre Req.h comp realReq brick brickX Vec3.get
    norm_num
    ring
  obtain ⟨grad', k1, k2⟩ := C94_samples .strict 3 brick brick_valid .central (by decide) (by simp) (fun _ => 0) (fun _ => 1) brick_box
    (fun _ _ => by norm_num [moderate_one]) (fun a _ => by match a with | 0 => decide | 1 => decide | 2 => decide) g e brick brick_valid rfl
    g e alpha _ hf (fun c => (xp c).2) 2 ⟨(zpow_le_one_of_nonpos₀ (by norm_num) (by norm_num)).trans (by norm_num), le_self_pow₀ (by norm_num) (by norm_num)⟩
    (fun c hc => ⟨(hxp c hc).1, by
      have h1 := abs_le.1 (hxp c hc).2
      have h2 := abs_le.1 (brick_padded hc)
      rw [abs_le]
      constructor <;> linarith [h1.1, h1.2, h2.1, h2.2]⟩) (powerOf 3) 6 (1 / 2 ^ 50)
    (by
      have := power_partials (d := 3) 3 (by norm_num) (realReq brick (fun _ => 0) fun _ => 1)
      norm_num [Nat.factorial] at this
      exact this)
    (fun c hc => by
      rw [powerOf, hpos]
      have := (Rat.cast_le (K := ℝ)).2 (hxp c hc).2
      push_cast at this ⊢
      exact this) grad _ hq
  obtain ⟨v, j1, j2⟩ := k2 (2, 2, 1) (by unfold Req.Interior InteriorCell brick; simp)
  obtain ⟨w, w1, w2⟩ := j2 0 (by decide)
  refine ⟨g, alpha, grad, grad', v, w, e, k1, j1, w1, ?_⟩
  have hx0 : ((brickX (2, 2, 1) : ℚ) : ℝ) = 5 / 12 := by norm_num [brickX]
  dsimp only at w2
  rw [along_power, hpos, hx0, brick_widths.1] at w2
  simp only [deriv_pow_field, schemeError, schemeGain, schemeUlps] at w2
  norm_num at w2 ⊢
  refine w2.trans ?_
  norm_num

end Gals.Props
