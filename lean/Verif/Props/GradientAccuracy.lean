import Verif.Lemmas.Differences
import Verif.Props.Gradient
import Verif.Props.Analytic
import Mathlib.Analysis.SpecialFunctions.Trigonometric.Deriv

/-!
# Property C93: accuracy of the finite-difference gradients
-/

set_option linter.unusedSectionVars false

namespace Gals.Props

open Gals Spec

section
variable {d : ℕ}

theorem interior_get {r : Req ℝ} {c : Cell} (hc : r.Interior c) (a : Fin 3) : 0 ≤ comp c a ∧ comp c a < r.n.get a := by
  obtain ⟨i0, i1, i2⟩ := hc
  match a with
  | 0 => exact i0
  | 1 => exact i1
  | 2 => exact i2

/-- The points of a line through an interior node, at most `pad` cells away, are in the part of space covered by stored nodes. -/
theorem line_stored {r : Req ℝ} (h : r.Valid d) (hpos : r.Pos d) {c : Cell} (hc : r.Interior c) {a : Fin 3} (ha : a.val < d) {t : ℝ}
    (t1 : (nodePos r d c).get a - r.pad * r.h a ≤ t) (t2 : t ≤ (nodePos r d c).get a + r.pad * r.h a) :
    ∀ b : Fin 3, b.val < d → Function.update (nodePos r d c).get a t b ∈
      Set.Icc (r.centre b (-1)) (r.centre b (r.n.get b - 2 + 2 * r.pad)) := by
  intro b hb
  have hh : 0 < r.h b := h.h_pos hpos b hb
  obtain ⟨c0, c1⟩ := interior_get hc b
  have k0 : (0 : ℝ) ≤ comp c b := by exact_mod_cast c0
  have k1 : (comp c b : ℝ) + 1 ≤ r.n.get b := by exact_mod_cast c1
  have p0 : (0 : ℝ) ≤ r.pad := by exact_mod_cast h.pad_nonneg
  have e : (nodePos r d c).get b = r.centre b (comp c b + (r.pad - 1)) := by rw [nodePos_get, if_pos hb]
  have m1 : 0 ≤ (comp c b : ℝ) * r.h b := mul_nonneg k0 hh.le
  have m2 : 0 ≤ ((r.n.get b : ℝ) - 1 - comp c b) * r.h b := mul_nonneg (by linarith) hh.le
  have m3 : 0 ≤ (r.pad : ℝ) * r.h b := mul_nonneg p0 hh.le
  by_cases hab : b = a
  · subst hab
    rw [Function.update_self]
    rw [e] at t1 t2
    unfold Req.centre at t1 t2 ⊢
    push_cast at t1 t2 ⊢
    constructor <;> nlinarith
  · rw [Function.update_of_ne hab, e]
    unfold Req.centre
    push_cast
    constructor <;> nlinarith

theorem along_self (F : (Fin 3 → ℝ) → ℝ) (q : Fin 3 → ℝ) (a : Fin 3) (t : ℝ) : along F (Function.update q a t) a = along F q a := by
  funext u
  unfold along
  rw [Function.update_idem]

theorem line_bound {k : ℕ} {F : (Fin 3 → ℝ) → ℝ} {r : Req ℝ} {B : ℝ} (H : PartialsLe k F d r B) (h : r.Valid d) (hpos : r.Pos d)
    {c : Cell} (hc : r.Interior c) {a : Fin 3} (ha : a.val < d) {t : ℝ}
    (t1 : (nodePos r d c).get a - r.pad * r.h a ≤ t) (t2 : t ≤ (nodePos r d c).get a + r.pad * r.h a) :
    |iteratedDeriv k (along F (nodePos r d c).get a) t| ≤ B := by
  have := H.bound _ (line_stored h hpos hc ha t1 t2) a ha
  rwa [along_self, Function.update_self] at this

/-- The raw difference quotients of samples of a smooth function. -/
theorem raw_accuracy {s : IntSem} {r : Req ℝ} (h : r.Valid d) (hpos : r.Pos d) {g : Grid ℝ d} (G : g.Made s r) {f : Cell → ℝ}
    {F : (Fin 3 → ℝ) → ℝ} {B : ℝ} (data : ∀ c q, r.Padded d c → g.at' s c.1 c.2.1 c.2.2 = .ok q → f c = F q.get) {c : Cell}
    (hc : r.Interior c) {a : Fin 3} (ha : a.val < d) :
    (1 ≤ r.pad → PartialsLe 3 F d r B →
      |centralRaw f c a (r.h a) - deriv (along F (nodePos r d c).get a) ((nodePos r d c).get a)| ≤ B * r.h a ^ 2 / 6) ∧
    (2 ≤ r.pad → PartialsLe 4 F d r B →
      |thirdRaw f c a (r.h a) - deriv (along F (nodePos r d c).get a) ((nodePos r d c).get a)| ≤ B * r.h a ^ 3 / 12) := by
  have hh : 0 < r.h a := h.h_pos hpos a ha
  have ev : ∀ m : ℤ, -r.pad ≤ m → m ≤ r.pad →
      f (shift c a m) = along F (nodePos r d c).get a ((nodePos r d c).get a + m * r.h a) := by
    intro m m1 m2
    have hs := shift_padded G hc ha m1 m2
    rw [data _ _ hs (G.atC hs), nodePos_shift r c a ha m]
    rfl
  refine ⟨fun hp H => ?_, fun hp H => ?_⟩
  · have p1 : (1 : ℝ) ≤ r.pad := by exact_mod_cast hp
    have m1 := mul_le_mul_of_nonneg_right p1 hh.le
    have := central_remainder (H.smooth (nodePos r d c).get a ha) hh
      (fun t ht => line_bound H h hpos hc ha (t := t) (by linarith [ht.1]) (by linarith [ht.2]))
    unfold centralRaw
    rw [ev 1 (by omega) (by omega), ev (-1) (by omega) (by omega)]
    push_cast
    rw [one_mul, show (nodePos r d c).get a + -1 * r.h a = (nodePos r d c).get a - r.h a by ring]
    refine le_trans (le_of_eq ?_) this
    congr 2
    field_simp
  · have p1 : (2 : ℝ) ≤ r.pad := by exact_mod_cast hp
    have m1 := mul_le_mul_of_nonneg_right p1 hh.le
    have := third_remainder (H.smooth (nodePos r d c).get a ha) hh
      (fun t ht => line_bound H h hpos hc ha (t := t) (by linarith [ht.1]) (by linarith [ht.2]))
    have ez := ev 0 (by omega) (by omega)
    rw [shift_zero] at ez
    unfold thirdRaw
    rw [ev 1 (by omega) (by omega), ev (-1) (by omega) (by omega), ev (-2) (by omega) (by omega), ez]
    push_cast
    rw [one_mul, show (nodePos r d c).get a + -1 * r.h a = (nodePos r d c).get a - r.h a by ring, zero_mul, add_zero,
      show (nodePos r d c).get a + -2 * r.h a = (nodePos r d c).get a - 2 * r.h a by ring]
    refine le_trans (le_of_eq ?_) this
    congr 2
    field_simp

theorem rawDiff_accuracy {s : IntSem} {r : Req ℝ} (h : r.Valid d) (hpos : r.Pos d) {g : Grid ℝ d} (G : g.Made s r) {f : Cell → ℝ}
    {F : (Fin 3 → ℝ) → ℝ} {B : ℝ} (data : ∀ c q, r.Padded d c → g.at' s c.1 c.2.1 c.2.2 = .ok q → f c = F q.get)
    {sch : GradScheme} (hp : reach sch ≤ r.pad) (H : PartialsLe (schemeOrder sch) F d r B) {c : Cell} (hc : r.Interior c) {a : Fin 3}
    (ha : a.val < d) :
    |rawDiff sch f c a (r.h a) - deriv (along F (nodePos r d c).get a) ((nodePos r d c).get a)| ≤ schemeError sch B (r.h a) := by
  cases sch with
  | central => exact (raw_accuracy h hpos G data hc ha).1 hp H
  | third => exact (raw_accuracy h hpos G data hc ha).2 hp H

/-- C93 for scalar fields: if the stored values are those of a function at the nodes, the gradient at an interior node is that of the
function up to `B h² / 6` (central scheme, padding at least 1, `B` bounds the third derivatives along the axes), respectively
`B h³ / 12` (third-order scheme, padding at least 2, fourth derivatives). -/
theorem C93_scalar (s : IntSem) (d : ℕ) (r : Req ℝ) (h : r.Valid d) (hpos : r.Pos d) (sch : GradScheme) (hp : 1 ≤ r.pad)
    (h3 : sch = .third → 2 ≤ r.pad) (g : Grid ℝ d) (e : r.make s d = .ok g) (rg : Req ℝ) (hg : rg.Valid d) (hn : rg.n = r.n)
    (gg : Grid ℝ d) (eg : rg.make s d = .ok gg) (alpha : Arr ℝ) (f : Cell → ℝ) (hf : FieldIs s r g alpha f)
    (F : (Fin 3 → ℝ) → ℝ) (B : ℝ) (H : PartialsLe (schemeOrder sch) F d r B)
    (data : ∀ c q, r.Padded d c → g.at' s c.1 c.2.1 c.2.2 = .ok q → f c = F q.get)
    (grad : Arr (Vec3 ℝ)) (q0 : Cell → Vec3 ℝ) (hq : FieldIs s rg gg grad q0) :
    ∃ grad', gradScalar sch s g gg alpha grad = .ok grad' ∧
      ∀ c, r.Interior c → ∃ q v, g.at' s c.1 c.2.1 c.2.2 = .ok q ∧ grad'.get s gg c.1 c.2.1 c.2.2 = .ok v ∧
        ∀ a : Fin 3, a.val < d → |v.get a - deriv (along F q.get a) (q.get a)| ≤ schemeError sch B (r.h a) := by
  have G := make_made h e
  have Gg := make_made hg eg
  have hr : reach sch ≤ r.pad := by
    cases sch with
    | central => exact hp
    | third => exact h3 rfl
  obtain ⟨grad', q', k1, k2, -, k4⟩ := gradScalar_ok G Gg hn hr hf hq
  have hi : ∀ c, r.Interior c → rg.Interior c := fun c hc => by unfold Req.Interior; rw [hn]; exact hc
  refine ⟨grad', k1, fun c hc => ⟨nodePos r d c, q' c, G.atC (interior_padded G hc),
    k2.val c (interior_padded Gg (hi c hc)), fun a ha => ?_⟩⟩
  rw [k4 c hc a, if_pos ha]
  exact rawDiff_accuracy h hpos G data hr H hc ha

/-- C93 for vector fields: the entries of the diagonal, with the component `a` of the field a smooth function (entries off
the diagonal are not approximations of derivatives, `C25_false`). -/
theorem C93_diagonal (s : IntSem) (d : ℕ) (r : Req ℝ) (h : r.Valid d) (hpos : r.Pos d) (sch : GradScheme) (hp : 1 ≤ r.pad)
    (h3 : sch = .third → 2 ≤ r.pad) (g : Grid ℝ d) (e : r.make s d = .ok g) (rg : Req ℝ) (hg : rg.Valid d) (hn : rg.n = r.n)
    (gg : Grid ℝ d) (eg : rg.make s d = .ok gg) (alpha : Arr (Vec3 ℝ)) (f : Cell → Vec3 ℝ) (hf : FieldIs s r g alpha f)
    (F : Fin 3 → (Fin 3 → ℝ) → ℝ) (B : ℝ) (H : ∀ a, PartialsLe (schemeOrder sch) (F a) d r B)
    (data : ∀ c q, r.Padded d c → g.at' s c.1 c.2.1 c.2.2 = .ok q → ∀ a, (f c).get a = F a q.get)
    (grad : Arr (Mat3 ℝ)) (q0 : Cell → Mat3 ℝ) (hq : FieldIs s rg gg grad q0) :
    ∃ grad', gradVector sch s g gg alpha grad = .ok grad' ∧
      ∀ c, r.Interior c → ∃ q m, g.at' s c.1 c.2.1 c.2.2 = .ok q ∧ grad'.get s gg c.1 c.2.1 c.2.2 = .ok m ∧
        ∀ a : Fin 3, a.val < d → |m.entry a a - deriv (along (F a) q.get a) (q.get a)| ≤ schemeError sch B (r.h a) := by
  have G := make_made h e
  have Gg := make_made hg eg
  have hr : reach sch ≤ r.pad := by
    cases sch with
    | central => exact hp
    | third => exact h3 rfl
  obtain ⟨grad', q', k1, k2, -, k4⟩ := gradVector_ok G Gg hn hr hf hq
  have hi : ∀ c, r.Interior c → rg.Interior c := fun c hc => by unfold Req.Interior; rw [hn]; exact hc
  refine ⟨grad', k1, fun c hc => ⟨nodePos r d c, q' c, G.atC (interior_padded G hc),
    k2.val c (interior_padded Gg (hi c hc)), fun a ha => ?_⟩⟩
  rw [k4 c hc a a, if_pos ⟨ha, ha⟩]
  exact rawDiff_accuracy h hpos G (fun c q h1 h2 => data c q h1 h2 a) hr (H a) hc ha

/-! ### The bounds are attained -/

/-- A power of the first coordinate. -/
def powerOf (k : ℕ) (q : Fin 3 → ℝ) : ℝ := q 0 ^ k

theorem along_power (k : ℕ) (q : Fin 3 → ℝ) : along (powerOf k) q 0 = fun t => t ^ k := by
  funext t
  unfold along powerOf
  rw [Function.update_self]

theorem along_power_ne (k : ℕ) (q : Fin 3 → ℝ) {a : Fin 3} (ha : a ≠ 0) : along (powerOf k) q a = fun _ => q 0 ^ k := by
  funext t
  unfold along powerOf
  rw [Function.update_of_ne ha.symm]

theorem power_partials (k : ℕ) (hk : 0 < k) (r : Req ℝ) : PartialsLe k (powerOf k) d r (k.factorial : ℝ) := by
  refine ⟨fun q a _ => ?_, fun q _ a _ => ?_⟩
  · by_cases ha : a = 0
    · subst ha
      rw [along_power]
      fun_prop
    · rw [along_power_ne k q ha]
      fun_prop
  · by_cases ha : a = 0
    · subst ha
      rw [along_power]
      have := iteratedDeriv_pow (x := q 0) k k
      rw [this]
      simp [Nat.descFactorial_self]
    · rw [along_power_ne k q ha, iteratedDeriv_const, if_neg hk.ne', abs_zero]
      positivity

/-- The constants of C93 cannot be improved: on every grid and for both schemes there is a field for which the bound is attained at every
interior node. -/
theorem C93_sharp (s : IntSem) (d : ℕ) (r : Req ℝ) (h : r.Valid d) (hpos : r.Pos d) (sch : GradScheme) (hp : 1 ≤ r.pad)
    (h3 : sch = .third → 2 ≤ r.pad) (g : Grid ℝ d) (e : r.make s d = .ok g) :
    ∃ (F : (Fin 3 → ℝ) → ℝ) (B : ℝ) (alpha : Arr ℝ) (f : Cell → ℝ) (grad grad' : Arr (Vec3 ℝ)), 0 < B ∧
      PartialsLe (schemeOrder sch) F d r B ∧ FieldIs s r g alpha f ∧
      (∀ c q, r.Padded d c → g.at' s c.1 c.2.1 c.2.2 = .ok q → f c = F q.get) ∧
      gradScalar sch s g g alpha grad = .ok grad' ∧
      ∀ c, r.Interior c → ∃ q v, g.at' s c.1 c.2.1 c.2.2 = .ok q ∧ grad'.get s g c.1 c.2.1 c.2.2 = .ok v ∧
        |v.get 0 - deriv (along F q.get 0) (q.get 0)| = schemeError sch B (r.h 0) := by
  have G := make_made h e
  have hr : reach sch ≤ r.pad := by
    cases sch with
    | central => exact hp
    | third => exact h3 rfl
  have hd : (0 : Fin 3).val < d := by have := h.dim; simp; omega
  have hh : 0 < r.h 0 := h.h_pos hpos 0 hd
  obtain ⟨alpha, hf⟩ := fieldIs_exists (s := s) G fun c => powerOf (schemeOrder sch) (nodePos r d c).get
  obtain ⟨grad, hq⟩ := fieldIs_exists (s := s) G fun _ => (⟨0, 0, 0⟩ : Vec3 ℝ)
  obtain ⟨grad', q', k1, k2, -, k4⟩ := gradScalar_ok G G rfl hr hf hq
  refine ⟨powerOf (schemeOrder sch), ((schemeOrder sch).factorial : ℝ), alpha, _, grad, grad', by positivity,
    power_partials _ (by cases sch <;> decide) r, hf, fun c q hc hq => ?_, k1, fun c hc => ⟨nodePos r d c, q' c, G.atC (interior_padded G hc),
    k2.val c (interior_padded G hc), ?_⟩⟩
  · rw [G.atC hc] at hq
    cases hq
    rfl
  · rw [k4 c hc 0, if_pos hd, along_power]
    have ev : ∀ m : ℤ, powerOf (schemeOrder sch) (nodePos r d (shift c 0 m)).get = ((nodePos r d c).get 0 + m * r.h 0) ^ schemeOrder sch := by
      intro m
      rw [nodePos_shift r c 0 hd m, powerOf, Function.update_self]
    have e0 : powerOf (schemeOrder sch) (nodePos r d c).get = (nodePos r d c).get 0 ^ schemeOrder sch := rfl
    cases sch with
    | central =>
      simp only [rawDiff, centralRaw, ev]
      simp only [schemeOrder, schemeError, Nat.factorial, deriv_pow_field]
      have : ((nodePos r d c).get 0 + ((1 : ℤ) : ℝ) * r.h 0) ^ 3 - ((nodePos r d c).get 0 + ((-1 : ℤ) : ℝ) * r.h 0) ^ 3 =
        (3 * (nodePos r d c).get 0 ^ 2 + r.h 0 ^ 2) * (2 * r.h 0) := by push_cast; ring
      rw [this]
      have e2 : (3 * (nodePos r d c).get 0 ^ 2 + r.h 0 ^ 2) * (2 * r.h 0) * (1 / r.h 0) * (1 / 2) -
        ((3 : ℕ) : ℝ) * (nodePos r d c).get 0 ^ (3 - 1) = r.h 0 ^ 2 := by
        field_simp
        push_cast
        ring
      rw [e2, abs_of_pos (by positivity)]
      push_cast
      ring
    | third =>
      simp only [rawDiff, thirdRaw, ev, e0]
      simp only [schemeOrder, schemeError, Nat.factorial, deriv_pow_field]
      have : 2 * ((nodePos r d c).get 0 + ((1 : ℤ) : ℝ) * r.h 0) ^ 4 + 3 * (nodePos r d c).get 0 ^ 4 -
          6 * ((nodePos r d c).get 0 + ((-1 : ℤ) : ℝ) * r.h 0) ^ 4 + 1 * ((nodePos r d c).get 0 + ((-2 : ℤ) : ℝ) * r.h 0) ^ 4 =
        (4 * (nodePos r d c).get 0 ^ 3 + 2 * r.h 0 ^ 3) * (6 * r.h 0) := by push_cast; ring
      rw [this]
      have e2 : (4 * (nodePos r d c).get 0 ^ 3 + 2 * r.h 0 ^ 3) * (6 * r.h 0) * (1 / (6 * r.h 0)) -
        ((4 : ℕ) : ℝ) * (nodePos r d c).get 0 ^ (4 - 1) = 2 * r.h 0 ^ 3 := by
        field_simp
        push_cast
        ring
      rw [e2, abs_of_pos (by positivity)]
      push_cast
      ring

end

/-! ### Instances -/

/-- A wave along the first axis on a parabola along the second. -/
noncomputable def waveOf (q : Fin 3 → ℝ) : ℝ := Real.sin (q 0) + q 1 ^ 2

theorem wave_partials (r : Req ℝ) : PartialsLe 3 waveOf 2 r 1 := by
  have e0 : ∀ q, along waveOf q 0 = fun t => Real.sin t + q 1 ^ 2 := fun q => by
    funext t
    simp [along, waveOf]
  have e1 : ∀ q, along waveOf q 1 = fun t => Real.sin (q 0) + t ^ 2 := fun q => by
    funext t
    simp [along, waveOf]
  refine ⟨fun q a ha => ?_, fun q _ a ha => ?_⟩
  · match a with
    | 0 => rw [e0]; exact Real.contDiff_sin.add contDiff_const
    | 1 => rw [e1]; fun_prop
    | 2 => exact absurd ha (by decide)
  · match a with
    | 0 =>
      have d1 : deriv (fun t => Real.sin t + q 1 ^ 2) = Real.cos := by funext t; simp
      rw [e0, iteratedDeriv_succ, iteratedDeriv_succ, iteratedDeriv_one, d1, show deriv Real.cos = fun t => -Real.sin t from funext fun _ => Real.deriv_cos]
      simp only [deriv.fun_neg, Real.deriv_sin, abs_neg]
      exact Real.abs_cos_le_one _
    | 1 =>
      have d1 : deriv (fun t => Real.sin (q 0) + t ^ 2) = fun t => 2 * t := by funext t; simp
      have d2 : deriv (fun t : ℝ => 2 * t) = fun _ => 2 := by funext t; simp
      rw [e1, iteratedDeriv_succ, iteratedDeriv_succ, iteratedDeriv_one, d1, d2]
      simp
    | 2 => exact absurd ha (by decide)

/-- Instance of C93 (scalar): samples of `sin x + y²` on a grid of 4 by 3 cells of width 1/2 and 1. -/
example : ∃ (g : Grid ℝ 2) (alpha : Arr ℝ) (grad grad' : Arr (Vec3 ℝ)), (demoR 1).make .strict 2 = .ok g ∧
    gradScalar .central .strict g g alpha grad = .ok grad' ∧ ∃ v, grad'.get .strict g 2 1 0 = .ok v ∧
      |v.x - Real.cos (5 / 4)| ≤ 1 / 24 := by
  obtain ⟨g, e, G⟩ := make_ok .strict demoR_valid
  obtain ⟨alpha, hf⟩ := fieldIs_exists (s := .strict) G fun c => waveOf (nodePos (demoR 1) 2 c).get
  obtain ⟨grad, hq⟩ := fieldIs_exists (s := .strict) G fun _ => (⟨0, 0, 0⟩ : Vec3 ℝ)
  obtain ⟨grad', k1, k2⟩ := C93_scalar .strict 2 (demoR 1) demoR_valid (demoR_pos 1) .central (by decide) (by simp) g e (demoR 1) demoR_valid
    rfl g e alpha _ hf waveOf 1 (wave_partials _) (fun c q hc hq => by rw [G.atC hc] at hq; cases hq; rfl) grad _ hq
  obtain ⟨q, v, j1, j2, j3⟩ := k2 (2, 1, 0) demoR_interior
  refine ⟨g, alpha, grad, grad', e, k1, v, j2, ?_⟩
  have := j3 0 (by decide)
  have hj : g.at' .strict 2 1 0 = .ok (nodePos (demoR 1) 2 (2, 1, 0)) := G.atC (interior_padded G demoR_interior)
  rw [hj] at j1
  cases j1
  rw [demoR_node] at this
  have e0 : along waveOf (Vec3.get (⟨5 / 4, 3 / 2, 0⟩ : Vec3 ℝ)) 0 = fun t => Real.sin t + (3 / 2) ^ 2 := by
    funext t
    simp [along, waveOf, Vec3.get]
  rw [e0] at this
  have e1 : deriv (fun t => Real.sin t + (3 / 2) ^ 2) (Vec3.get (⟨5 / 4, 3 / 2, 0⟩ : Vec3 ℝ) 0) = Real.cos (5 / 4) := by
    simp [Vec3.get]
  rw [e1] at this
  refine this.trans (le_of_eq ?_)
  norm_num [schemeError, Req.h, demoR, Vec3.get]

theorem demoR2_valid : (demoR 2).Valid 2 := ⟨by simp, by decide, by decide, by decide, by decide, by decide, by decide, by decide⟩

/-- Instance of C93 (vectors): third-order scheme, padding 2, the field `(x⁴, x⁴)`. -/
example : ∃ (g : Grid ℝ 2) (alpha : Arr (Vec3 ℝ)) (grad grad' : Arr (Mat3 ℝ)), (demoR 2).make .strict 2 = .ok g ∧
    gradVector .third .strict g g alpha grad = .ok grad' ∧ ∃ m, grad'.get .strict g 2 1 0 = .ok m ∧
      |m.entry 0 0 - 4 * (7 / 4) ^ 3| ≤ 1 / 4 := by
  obtain ⟨g, e, G⟩ := make_ok .strict demoR2_valid
  obtain ⟨alpha, hf⟩ := fieldIs_exists (s := .strict) G fun c =>
    (⟨powerOf 4 (nodePos (demoR 2) 2 c).get, powerOf 4 (nodePos (demoR 2) 2 c).get, powerOf 4 (nodePos (demoR 2) 2 c).get⟩ : Vec3 ℝ)
  obtain ⟨grad, hq⟩ := fieldIs_exists (s := .strict) G fun _ => (Mat3.zero : Mat3 ℝ)
  obtain ⟨grad', k1, k2⟩ := C93_diagonal .strict 2 (demoR 2) demoR2_valid (demoR_pos 2) .third (by decide) (by decide) g e (demoR 2)
    demoR2_valid rfl g e alpha _ hf (fun _ => powerOf 4) 24 (fun _ => by
      have := power_partials (d := 2) 4 (by norm_num) (demoR 2)
      norm_num [Nat.factorial] at this
      exact this)
    (fun c q hc hq a => by rw [G.atC hc] at hq; cases hq; match a with | 0 => rfl | 1 => rfl | 2 => rfl) grad _ hq
  have hi : (demoR 2).Interior (2, 1, 0) := by unfold Req.Interior InteriorCell demoR; simp
  obtain ⟨q, m, j1, j2, j3⟩ := k2 (2, 1, 0) hi
  refine ⟨g, alpha, grad, grad', e, k1, m, j2, ?_⟩
  have := j3 0 (by decide)
  have hj : g.at' .strict 2 1 0 = .ok (nodePos (demoR 2) 2 (2, 1, 0)) := G.atC (interior_padded G hi)
  rw [hj] at j1
  cases j1
  have hx : (nodePos (demoR 2) 2 (2, 1, 0)).get 0 = 7 / 4 := by
    unfold nodePos Req.centre Req.h comp demoR Vec3.get
    norm_num
  rw [along_power, hx] at this
  simp only [deriv_pow_field] at this
  norm_num [schemeError, Req.h, demoR, Vec3.get] at this ⊢
  exact this

/-- Instance of the sharpness: the bound 1/24 of the first instance is attained. -/
example : ∃ (g : Grid ℝ 2) (B : ℝ), (demoR 1).make .strict 2 = .ok g ∧ 0 < B ∧
    ∃ (F : (Fin 3 → ℝ) → ℝ) (q v : Vec3 ℝ), PartialsLe 3 F 2 (demoR 1) B ∧ |v.get 0 - deriv (along F q.get 0) (q.get 0)| = B / 24 := by
  obtain ⟨g, e, G⟩ := make_ok .strict demoR_valid
  obtain ⟨F, B, _, _, _, _, b0, H, _, _, _, k⟩ := C93_sharp .strict 2 (demoR 1) demoR_valid (demoR_pos 1) .central (by decide) (by simp) g e
  obtain ⟨q, v, -, -, j⟩ := k (2, 1, 0) demoR_interior
  refine ⟨g, B, e, b0, F, q, v, H, j.trans ?_⟩
  simp only [schemeError, Req.h, demoR, Vec3.get]
  norm_num
  ring

end Gals.Props
