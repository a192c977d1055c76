import Verif.Lemmas.Gradient
import Verif.Lemmas.MvPoly
import Verif.Props.Hermite
import Mathlib.Tactic.FieldSimp

/-!
# Properties C22–C25 (finite-difference gradients)
-/

set_option linter.unusedSectionVars false

namespace Gals.Props

open Gals Spec MvPolynomial

section exact
variable {K : Type} {d : ℕ} [Field K] [LinearOrder K] [IsStrictOrderedRing K] [FloorRing K]

/-- Position of a neighbouring node. -/
theorem nodePos_shift (r : Req K) (c : Cell) (a : Fin 3) (ha : a.val < d) (m : ℤ) :
    (nodePos r d (shift c a m)).get = Function.update (nodePos r d c).get a ((nodePos r d c).get a + m * r.h a) := by
  funext b
  by_cases hb : b = a
  · subst hb
    rw [Function.update_self, nodePos_get, nodePos_get, if_pos ha, if_pos ha]
    have e : comp (shift c b m) b = comp c b + m := by
      match b with
      | 0 => rfl
      | 1 => rfl
      | 2 => rfl
    rw [e]
    unfold Req.centre
    push_cast
    ring
  · rw [Function.update_of_ne hb]
    refine nodePos_same r _ _ b ?_
    match a, b with
    | 0, 0 => exact absurd rfl hb
    | 0, 1 => rfl
    | 0, 2 => rfl
    | 1, 0 => rfl
    | 1, 1 => exact absurd rfl hb
    | 1, 2 => rfl
    | 2, 0 => rfl
    | 2, 1 => rfl
    | 2, 2 => exact absurd rfl hb

/-! ## C22 -/

/-- C22: on a field that samples a polynomial of degree at most 2 in each coordinate at the node positions, the
second-order central gradient returns for padding at least 1, its components along used axes at interior cells are the
partial derivatives of the polynomial, and components along unused axes and ghost cells keep what they held.  The result
array may live on a grid of its own (other box or padding, same cell counts). -/
theorem C22_exact_on_quadratics (s : IntSem) (d : ℕ) (r : Req K) (h : r.Valid d) (hpos : r.Pos d) (hpad : 1 ≤ r.pad)
    (g : Grid K d) (e : r.make s d = .ok g) (rg : Req K) (hg : rg.Valid d) (hn : rg.n = r.n) (gg : Grid K d)
    (eg : rg.make s d = .ok gg) (alpha : Arr K) (f : Cell → K) (hf : FieldIs s r g alpha f)
    (P : MvPolynomial (Fin 3) K) (hP : ∀ a, P.degreeOf a ≤ 2)
    (data : ∀ c q, r.Padded d c → g.at' s c.1 c.2.1 c.2.2 = .ok q → f c = eval q.get P)
    (grad : Arr (Vec3 K)) (q0 : Cell → Vec3 K) (hq : FieldIs s rg gg grad q0) :
    ∃ grad', gradScalar .central s g gg alpha grad = .ok grad' ∧
      (∀ c, r.Interior c → ∃ q v, g.at' s c.1 c.2.1 c.2.2 = .ok q ∧ grad'.get s gg c.1 c.2.1 c.2.2 = .ok v ∧
        ∀ a : Fin 3, v.get a = if a.val < d then eval q.get (pderiv a P) else (q0 c).get a) ∧
      ∀ c, rg.Padded d c → ¬ r.Interior c → grad'.get s gg c.1 c.2.1 c.2.2 = .ok (q0 c) := by
  have G := make_made h e
  have Gg := make_made hg eg
  obtain ⟨grad', q', h1, h2, h3, h4⟩ := gradScalar_ok (sch := .central) G Gg hn hpad hf hq
  have hi : ∀ c, r.Interior c → rg.Interior c := fun c hc => by unfold Req.Interior; rw [hn]; exact hc
  refine ⟨grad', h1, fun c hc => ⟨nodePos r d c, q' c, G.atC (interior_padded G hc),
    h2.val c (interior_padded Gg (hi c hc)), fun a => ?_⟩, fun c hc hni => by rw [h2.val c hc, h3 c hni]⟩
  rw [h4 c hc a]
  by_cases ha : a.val < d
  · rw [if_pos ha, if_pos ha]
    obtain ⟨p, p0, p1, p2⟩ := mv_line P a (nodePos r d c).get (by norm_num) (hP a)
    have hh : r.h a ≠ 0 := (h.h_pos hpos a ha).ne'
    have ev : ∀ m : ℤ, -r.pad ≤ m → m ≤ r.pad → f (shift c a m) = cubic p ((nodePos r d c).get a + m * r.h a) := by
      intro m m1 m2
      have hs := shift_padded G hc ha m1 m2
      rw [data _ _ hs (G.atC hs), nodePos_shift r c a ha m, p1]
    have e0 : eval (nodePos r d c).get (pderiv a P) = cubic' p ((nodePos r d c).get a) := by
      rw [← p2, Function.update_eq_self]
    have z3 := p0 3 (by decide)
    show centralRaw f c a (r.h a) = _
    unfold centralRaw
    rw [ev 1 (by omega) (by omega), ev (-1) (by omega) (by omega), e0]
    unfold cubic cubic'
    rw [z3]
    field_simp
    push_cast
    ring
  · rw [if_neg ha, if_neg ha]

/-! ## C23 -/

/-- C23: on a field that samples a polynomial of degree at most 3 in each coordinate at the node positions, the
third-order gradient returns for padding at least 2, its components along used axes at interior cells are the partial
derivatives of the polynomial, and components along unused axes and ghost cells keep what they held. -/
theorem C23_exact_on_cubics (s : IntSem) (d : ℕ) (r : Req K) (h : r.Valid d) (hpos : r.Pos d) (hpad : 2 ≤ r.pad)
    (g : Grid K d) (e : r.make s d = .ok g) (rg : Req K) (hg : rg.Valid d) (hn : rg.n = r.n) (gg : Grid K d)
    (eg : rg.make s d = .ok gg) (alpha : Arr K) (f : Cell → K) (hf : FieldIs s r g alpha f)
    (P : MvPolynomial (Fin 3) K) (hP : ∀ a, P.degreeOf a ≤ 3)
    (data : ∀ c q, r.Padded d c → g.at' s c.1 c.2.1 c.2.2 = .ok q → f c = eval q.get P)
    (grad : Arr (Vec3 K)) (q0 : Cell → Vec3 K) (hq : FieldIs s rg gg grad q0) :
    ∃ grad', gradScalar .third s g gg alpha grad = .ok grad' ∧
      (∀ c, r.Interior c → ∃ q v, g.at' s c.1 c.2.1 c.2.2 = .ok q ∧ grad'.get s gg c.1 c.2.1 c.2.2 = .ok v ∧
        ∀ a : Fin 3, v.get a = if a.val < d then eval q.get (pderiv a P) else (q0 c).get a) ∧
      ∀ c, rg.Padded d c → ¬ r.Interior c → grad'.get s gg c.1 c.2.1 c.2.2 = .ok (q0 c) := by
  have G := make_made h e
  have Gg := make_made hg eg
  obtain ⟨grad', q', h1, h2, h3, h4⟩ := gradScalar_ok (sch := .third) G Gg hn hpad hf hq
  have hi : ∀ c, r.Interior c → rg.Interior c := fun c hc => by unfold Req.Interior; rw [hn]; exact hc
  refine ⟨grad', h1, fun c hc => ⟨nodePos r d c, q' c, G.atC (interior_padded G hc),
    h2.val c (interior_padded Gg (hi c hc)), fun a => ?_⟩, fun c hc hni => by rw [h2.val c hc, h3 c hni]⟩
  rw [h4 c hc a]
  by_cases ha : a.val < d
  · rw [if_pos ha, if_pos ha]
    obtain ⟨p, p0, p1, p2⟩ := mv_line P a (nodePos r d c).get (le_refl 3) (hP a)
    have hh : r.h a ≠ 0 := (h.h_pos hpos a ha).ne'
    have ev : ∀ m : ℤ, -r.pad ≤ m → m ≤ r.pad → f (shift c a m) = cubic p ((nodePos r d c).get a + m * r.h a) := by
      intro m m1 m2
      have hs := shift_padded G hc ha m1 m2
      rw [data _ _ hs (G.atC hs), nodePos_shift r c a ha m, p1]
    have e0 : eval (nodePos r d c).get (pderiv a P) = cubic' p ((nodePos r d c).get a) := by
      rw [← p2, Function.update_eq_self]
    have ez := ev 0 (by omega) (by omega)
    rw [shift_zero] at ez
    show thirdRaw f c a (r.h a) = _
    unfold thirdRaw
    rw [ev 1 (by omega) (by omega), ev (-1) (by omega) (by omega), ev (-2) (by omega) (by omega), ez, e0]
    unfold cubic cubic'
    field_simp
    push_cast
    ring
  · rw [if_neg ha, if_neg ha]

end exact

/-! Instances of C22 and C23. -/

/-- Degree of `X₀^i X₁^j`, in each variable. -/
theorem degreeOf_two (i j n : ℕ) (hi : i ≤ n) (hj : j ≤ n) (a : Fin 3) :
    degreeOf a (X 0 ^ i * X 1 ^ j : MvPolynomial (Fin 3) ℚ) ≤ n := by
  refine (degreeOf_mul_le _ _ _).trans ?_
  have h0 := degreeOf_pow_le a (X 0 : MvPolynomial (Fin 3) ℚ) i
  have h1 := degreeOf_pow_le a (X 1 : MvPolynomial (Fin 3) ℚ) j
  refine (Nat.add_le_add h0 h1).trans ?_
  rw [degreeOf_X, degreeOf_X]
  match a with
  | 0 => simpa using hi
  | 1 => simpa using hj
  | 2 => simp

/-- Instance of C22: 2D, padding 1, `x² y²` (not of total degree 2), result on a grid with padding 2; at cell `(3, 1)`,
whose node is `(7/4, 3/2)`, the gradient is `(2 x y², 2 x² y)`. -/
example : ∃ g gg : Grid ℚ 2, (demo 1).make .strict 2 = .ok g ∧ (demo 2).make .strict 2 = .ok gg ∧
    ∃ alpha grad grad' v, gradScalar .central .strict g gg alpha grad = .ok grad' ∧
      alpha.get .strict g 3 1 0 = .ok ((7 / 4) ^ 2 * (3 / 2) ^ 2) ∧
      grad'.get .strict gg 3 1 0 = .ok v ∧ v.x = 2 * (7 / 4) * (3 / 2) ^ 2 ∧ v.y = 2 * (7 / 4) ^ 2 * (3 / 2) ∧ v.z = 5 ∧
      grad'.get .strict gg 4 1 0 = .ok ⟨5, 5, 5⟩ := by
  obtain ⟨g, e, -⟩ := C01_padded_addressing .strict 2 (demo 1) demo_valid
  obtain ⟨gg, eg, -⟩ := C01_padded_addressing .strict 2 (demo 2) demo2_valid
  have G := make_made demo_valid e
  have Gg := make_made demo2_valid eg
  set P : MvPolynomial (Fin 3) ℚ := X 0 ^ 2 * X 1 ^ 2 with hP
  obtain ⟨alpha, hf⟩ := fieldIs_exists G (fun c => eval (nodePos (demo 1) 2 c).get P)
  obtain ⟨grad, hq⟩ := fieldIs_exists Gg (fun _ => (⟨5, 5, 5⟩ : Vec3 ℚ))
  obtain ⟨grad', h1, h2, h3⟩ := C22_exact_on_quadratics .strict 2 (demo 1) demo_valid (demo_pos 1) (by decide) g e
    (demo 2) demo2_valid rfl gg eg alpha _ hf P (degreeOf_two 2 2 2 le_rfl le_rfl) (by
      intro c q hc hcq
      rw [G.atC hc] at hcq
      cases hcq
      rfl) grad _ hq
  have hc : (demo 1).Interior (3, 1, 0) := by unfold Req.Interior InteriorCell demo; simp
  obtain ⟨q, v, k1, k2, k3⟩ := h2 (3, 1, 0) hc
  have hq' : nodePos (demo 1) 2 (3, 1, 0) = ⟨7 / 4, 3 / 2, 0⟩ := by
    unfold nodePos Req.centre Req.h comp demo Vec3.get
    norm_num
  have k1' := k1
  rw [G.atC (interior_padded G hc), hq'] at k1'
  cases k1'
  refine ⟨g, gg, e, eg, alpha, grad, grad', v, h1, ?_, k2, ?_, ?_, ?_, ?_⟩
  · rw [hf.val (3, 1, 0) (interior_padded G hc), hq', hP]
    simp [Vec3.get]
  · have := k3 0
    rw [show v.x = v.get 0 from rfl, this, hP]
    simp [Vec3.get, Derivation.leibniz, pderiv_X]
    norm_num
  · have := k3 1
    rw [show v.y = v.get 1 from rfl, this, hP]
    simp [Vec3.get, Derivation.leibniz, pderiv_X]
    norm_num
  · have := k3 2
    rw [show v.z = v.get 2 from rfl, this]
    simp [Vec3.get]
  · exact h3 (4, 1, 0) (by unfold Req.Padded PaddedCell padAlong demo; simp)
      (by unfold Req.Interior InteriorCell demo; simp)

/-- Instance of C23: 2D, padding 2 (so the node of cell `(3, 1)` is `(9/4, 5/2)`), `x³ y³`. -/
example : ∃ g : Grid ℚ 2, (demo 2).make .wrap 2 = .ok g ∧
    ∃ alpha grad grad' v, gradScalar .third .wrap g g alpha grad = .ok grad' ∧
      alpha.get .wrap g 3 1 0 = .ok ((9 / 4) ^ 3 * (5 / 2) ^ 3) ∧
      grad'.get .wrap g 3 1 0 = .ok v ∧ v.x = 3 * (9 / 4) ^ 2 * (5 / 2) ^ 3 ∧ v.y = 3 * (9 / 4) ^ 3 * (5 / 2) ^ 2 := by
  obtain ⟨g, e, -⟩ := C01_padded_addressing .wrap 2 (demo 2) demo2_valid
  have G := make_made demo2_valid e
  set P : MvPolynomial (Fin 3) ℚ := X 0 ^ 3 * X 1 ^ 3 with hP
  obtain ⟨alpha, hf⟩ := fieldIs_exists G (fun c => eval (nodePos (demo 2) 2 c).get P)
  obtain ⟨grad, hq⟩ := fieldIs_exists G (fun _ => (⟨5, 5, 5⟩ : Vec3 ℚ))
  obtain ⟨grad', h1, h2, h3⟩ := C23_exact_on_cubics .wrap 2 (demo 2) demo2_valid (demo_pos 2) (by decide) g e
    (demo 2) demo2_valid rfl g e alpha _ hf P (degreeOf_two 3 3 3 le_rfl le_rfl) (by
      intro c q hc hcq
      rw [G.atC hc] at hcq
      cases hcq
      rfl) grad _ hq
  have hc : (demo 2).Interior (3, 1, 0) := by unfold Req.Interior InteriorCell demo; simp
  obtain ⟨q, v, k1, k2, k3⟩ := h2 (3, 1, 0) hc
  have hq' : nodePos (demo 2) 2 (3, 1, 0) = ⟨9 / 4, 5 / 2, 0⟩ := by
    unfold nodePos Req.centre Req.h comp demo Vec3.get
    norm_num
  have k1' := k1
  rw [G.atC (interior_padded G hc), hq'] at k1'
  cases k1'
  refine ⟨g, e, alpha, grad, grad', v, h1, ?_, k2, ?_, ?_⟩
  · rw [hf.val (3, 1, 0) (interior_padded G hc), hq', hP]
    simp [Vec3.get]
  · have := k3 0
    rw [show v.x = v.get 0 from rfl, this, hP]
    simp [Vec3.get, Derivation.leibniz, pderiv_X]
    norm_num
  · have := k3 1
    rw [show v.y = v.get 1 from rfl, this, hP]
    simp [Vec3.get, Derivation.leibniz, pderiv_X]
    norm_num

/-! ## C24 -/

section C24
variable {K : Type} {d : ℕ} [Zero K] [One K] [Add K] [Sub K] [Mul K] [Div K] [NatCast K] [IntCast K]

theorem irange_head {n : ℤ} (h : 0 < n) : ∃ l, irange 0 n = 0 :: l := by
  have e : irange 0 n = (List.range (n.toNat)).map fun m : ℕ => (0 : ℤ) + (m : ℤ) := by simp [irange]
  obtain ⟨m, hm⟩ : ∃ m, n.toNat = m + 1 := ⟨n.toNat - 1, by omega⟩
  rw [e, hm, List.range_succ_eq_map]
  simp

theorem cells_head {n m k : ℤ} (h : 0 < n) (h' : 0 < m) (h'' : 0 < k) : ∃ l, cells 0 n 0 m 0 k = (0, 0, 0) :: l := by
  obtain ⟨l, e⟩ := irange_head h
  obtain ⟨l', e'⟩ := irange_head h'
  obtain ⟨l'', e''⟩ := irange_head h''
  unfold cells
  rw [e, e', e'']
  simp

theorem loop_head_error {α σ : Type} {l : List α} {a : α} {l' : List α} (e : l = a :: l') {s : σ} {body : σ → α → M σ}
    {x : Fault} (h : body s a = .error x) : loop l s body = .error x := by
  rw [e, loop_cons, h]; rfl

/-- C24 is false.  With the padding of a new grid (1), the third-order scheme – the default scheme of `Gradient` –
accesses memory outside the array on *every* grid of every dimension, for scalar and for vector arrays. -/
theorem C24_false (s : IntSem) (d : ℕ) (r : Req K) (h : r.Valid d) (hpad : r.pad = 1) (g : Grid K d)
    (e : r.make s d = .ok g) :
    (∀ (alpha : Arr K) (f : Cell → K) (grad : Arr (Vec3 K)) (q : Cell → Vec3 K), FieldIs s r g alpha f →
      FieldIs s r g grad q → gradScalar GradScheme.dflt s g g alpha grad = .error .oob) ∧
    ∀ (alpha : Arr (Vec3 K)) (f : Cell → Vec3 K) (grad : Arr (Mat3 K)) (q : Cell → Mat3 K), FieldIs s r g alpha f →
      FieldIs s r g grad q → gradVector GradScheme.dflt s g g alpha grad = .error .oob := by
  have G := make_made h e
  have hc : r.Interior (0, 0, 0) := ⟨⟨le_rfl, h.nx_pos⟩, ⟨le_rfl, h.ny_pos⟩, ⟨le_rfl, h.nz_pos⟩⟩
  have hcp := interior_padded G hc
  have hhead : ∀ {T : Type} {a : Arr T}, a.numCells = r.n → ∃ l, a.interior = (0, 0, 0) :: l := by
    intro T a ha
    unfold Arr.interior
    unfold Arr.numCells at ha
    refine cells_head ?_ ?_ ?_
    · have := h.nx_pos; rw [← ha] at this; exact this
    · have := h.ny_pos; rw [← ha] at this; exact this
    · have := h.nz_pos; rw [← ha] at this; exact this
  constructor
  · intro alpha f grad q hf hq
    obtain ⟨l, hl⟩ := hhead hf.ext
    refine loop_head_error hl ?_
    dsimp only
    have step : ∀ (grad : Arr (Vec3 K)) (q : Cell → Vec3 K), FieldIs s r g grad q → ∀ a : Fin 3, a.val + 1 < d →
        ∃ (grad' : Arr (Vec3 K)) (q' : Cell → Vec3 K), (do
          let oneByDx : K := 1 / (6 * g.dx.get a)
          let p ← alpha.plus1 s g (0, 0, 0) a
          let z ← alpha.get s g 0 0 0
          let m ← alpha.minus1 s g (0, 0, 0) a
          let mm ← alpha.minus2 s g (0, 0, 0) a
          grad.modify s g (0, 0, 0) fun v => v.set a ((2 * p + 3 * z - 6 * m + 1 * mm) * oneByDx)) = .ok grad' ∧
          FieldIs s r g grad' q' := by
      intro grad q hq a ha
      obtain ⟨t, ht⟩ := (minus2_low (al := alpha) G hpad hf.len (a := a) (by omega)).2 ha
      dsimp only
      rw [plus1_ok G hf (by omega) hc (by omega), M.ok_bind, hf.val _ hcp, M.ok_bind,
        minus1_ok G hf (by omega) hc (by omega), M.ok_bind, ht, M.ok_bind]
      obtain ⟨gr, k1, k2⟩ := hq.modify G hcp (fun v => v.set a
        ((2 * f (shift (0, 0, 0) a 1) + 3 * f (0, 0, 0) - 6 * f (shift (0, 0, 0) a (-1)) + 1 * t) *
          (1 / (6 * g.dx.get a))))
      exact ⟨gr, _, k1, k2⟩
    have last : ∀ (grad : Arr (Vec3 K)) (a : Fin 3), a.val + 1 = d → (do
          let oneByDx : K := 1 / (6 * g.dx.get a)
          let p ← alpha.plus1 s g (0, 0, 0) a
          let z ← alpha.get s g 0 0 0
          let m ← alpha.minus1 s g (0, 0, 0) a
          let mm ← alpha.minus2 s g (0, 0, 0) a
          grad.modify s g (0, 0, 0) fun v => v.set a ((2 * p + 3 * z - 6 * m + 1 * mm) * oneByDx)) = .error .oob := by
      intro grad a ha
      have ht := (minus2_low (al := alpha) G hpad hf.len (a := a) (by omega)).1 ha
      dsimp only
      rw [plus1_ok G hf (by omega) hc (by omega), M.ok_bind, hf.val _ hcp, M.ok_bind,
        minus1_ok G hf (by omega) hc (by omega), M.ok_bind, ht, M.error_bind]
    rcases h.dim with rfl | rfl | rfl
    · exact loop_head_error (show axes 1 = [0] by decide) (last grad 0 rfl)
    · rw [show axes 2 = [0, 1] by decide, loop_cons]
      obtain ⟨g1, q1, e1, hq1⟩ := step grad q hq 0 (by decide)
      rw [e1, M.ok_bind]
      exact loop_head_error rfl (last g1 1 rfl)
    · rw [show axes 3 = [0, 1, 2] by decide, loop_cons]
      obtain ⟨g1, q1, e1, hq1⟩ := step grad q hq 0 (by decide)
      obtain ⟨g2, q2, e2, hq2⟩ := step g1 q1 hq1 1 (by decide)
      rw [e1, M.ok_bind, loop_cons, e2, M.ok_bind]
      exact loop_head_error rfl (last g2 2 rfl)
  · intro alpha f grad q hf hq
    obtain ⟨l, hl⟩ := hhead hf.ext
    refine loop_head_error hl ?_
    dsimp only
    have step : ∀ (grad : Arr (Mat3 K)) (q : Cell → Mat3 K), FieldIs s r g grad q → ∀ a : Fin 3, a.val + 1 < d →
        ∃ (grad' : Arr (Mat3 K)) (q' : Cell → Mat3 K), loop (axes d) grad (fun grad cmpt => do
          let oneByDx : K := 1 / (6 * g.dx.get cmpt)
          let p ← alpha.plus1 s g (0, 0, 0) a
          let z ← alpha.get s g 0 0 0
          let m ← alpha.minus1 s g (0, 0, 0) a
          let mm ← alpha.minus2 s g (0, 0, 0) a
          grad.modify s g (0, 0, 0) fun v => v.setEntry a cmpt
            ((2 * p.get a + 3 * z.get a - 6 * m.get a + 1 * mm.get a) * oneByDx)) = .ok grad' ∧
          FieldIs s r g grad' q' := by
      intro grad q hq a ha
      obtain ⟨t, ht⟩ := (minus2_low (al := alpha) G hpad hf.len (a := a) (by omega)).2 ha
      obtain ⟨gr, k1, k2⟩ := hq.loop_modify G hcp (axes d) (fun v b => v.setEntry a b
        ((2 * (f (shift (0, 0, 0) a 1)).get a + 3 * (f (0, 0, 0)).get a - 6 * (f (shift (0, 0, 0) a (-1))).get a +
          1 * t.get a) * (1 / (6 * g.dx.get b)))) (body := fun grad cmpt => do
          let oneByDx : K := 1 / (6 * g.dx.get cmpt)
          let p ← alpha.plus1 s g (0, 0, 0) a
          let z ← alpha.get s g 0 0 0
          let m ← alpha.minus1 s g (0, 0, 0) a
          let mm ← alpha.minus2 s g (0, 0, 0) a
          grad.modify s g (0, 0, 0) fun v => v.setEntry a cmpt
            ((2 * p.get a + 3 * z.get a - 6 * m.get a + 1 * mm.get a) * oneByDx)) (by
          intro acc b _
          dsimp only
          rw [plus1_ok G hf (by omega) hc (by omega), M.ok_bind, hf.val _ hcp, M.ok_bind,
            minus1_ok G hf (by omega) hc (by omega), M.ok_bind, ht, M.ok_bind])
      exact ⟨gr, _, k1, k2⟩
    have last : ∀ (grad : Arr (Mat3 K)) (a : Fin 3), a.val + 1 = d → loop (axes d) grad (fun grad cmpt => do
          let oneByDx : K := 1 / (6 * g.dx.get cmpt)
          let p ← alpha.plus1 s g (0, 0, 0) a
          let z ← alpha.get s g 0 0 0
          let m ← alpha.minus1 s g (0, 0, 0) a
          let mm ← alpha.minus2 s g (0, 0, 0) a
          grad.modify s g (0, 0, 0) fun v => v.setEntry a cmpt
            ((2 * p.get a + 3 * z.get a - 6 * m.get a + 1 * mm.get a) * oneByDx)) = .error .oob := by
      intro grad a ha
      have ht := (minus2_low (al := alpha) G hpad hf.len (a := a) (by omega)).1 ha
      have hax : ∃ l, axes d = 0 :: l := by
        rcases h.dim with rfl | rfl | rfl
        · exact ⟨[], by decide⟩
        · exact ⟨[1], by decide⟩
        · exact ⟨[1, 2], by decide⟩
      obtain ⟨l, hax⟩ := hax
      refine loop_head_error hax ?_
      dsimp only
      rw [plus1_ok G hf (by omega) hc (by omega), M.ok_bind, hf.val _ hcp, M.ok_bind,
        minus1_ok G hf (by omega) hc (by omega), M.ok_bind, ht, M.error_bind]
    rcases h.dim with rfl | rfl | rfl
    · exact loop_head_error (show axes 1 = [0] by decide) (last grad 0 rfl)
    · rw [show loop (axes 2) grad = loop [0, 1] grad from rfl, loop_cons]
      obtain ⟨g1, q1, e1, hq1⟩ := step grad q hq 0 (by decide)
      rw [e1, M.ok_bind]
      exact loop_head_error rfl (last g1 1 rfl)
    · rw [show loop (axes 3) grad = loop [0, 1, 2] grad from rfl, loop_cons]
      obtain ⟨g1, q1, e1, hq1⟩ := step grad q hq 0 (by decide)
      obtain ⟨g2, q2, e2, hq2⟩ := step g1 q1 hq1 1 (by decide)
      rw [e1, M.ok_bind, loop_cons, e2, M.ok_bind]
      exact loop_head_error rfl (last g2 2 rfl)

/-- The part of C24 that holds: with the default padding the second-order central scheme, and with padding at least 2 the
third-order scheme, compute every gradient (of fields of scalars and of vectors, numbers without laws, doubles included)
without leaving the array.  Missing: the third-order scheme with the default padding, see `C24_false`. -/
theorem C24_no_outside_access_partial (s : IntSem) (d : ℕ) (r : Req K) (h : r.Valid d) (g : Grid K d)
    (e : r.make s d = .ok g) (sch : GradScheme) (hp : 1 ≤ r.pad) (h3 : sch = .third → 2 ≤ r.pad) :
    (∀ (alpha : Arr K) (f : Cell → K) (grad : Arr (Vec3 K)) (q : Cell → Vec3 K), FieldIs s r g alpha f →
      FieldIs s r g grad q → ∃ grad', gradScalar sch s g g alpha grad = .ok grad') ∧
    ∀ (alpha : Arr (Vec3 K)) (f : Cell → Vec3 K) (grad : Arr (Mat3 K)) (q : Cell → Mat3 K), FieldIs s r g alpha f →
      FieldIs s r g grad q → ∃ grad', gradVector sch s g g alpha grad = .ok grad' := by
  have G := make_made h e
  have hr : reach sch ≤ r.pad := by
    cases sch with
    | central => exact hp
    | third => exact h3 rfl
  constructor
  · intro alpha f grad q hf hq
    obtain ⟨grad', q', h1, -⟩ := gradScalar_ok G G rfl hr hf hq
    exact ⟨grad', h1⟩
  · intro alpha f grad q hf hq
    obtain ⟨grad', q', h1, -⟩ := gradVector_ok G G rfl hr hf hq
    exact ⟨grad', h1⟩

end C24

/-- Instance of `C24_false`: new arrays over the grid `Grid<T, 2>(4, 3)` with its default padding. -/
example : ∃ g : Grid ℚ 2, (demo 1).make .wrap 2 = .ok g ∧
    gradScalar .third .wrap g g (Arr.mk' g 0) (Arr.mk' g Vec3.zero) = .error .oob ∧
    gradVector .third .wrap g g (Arr.mk' g Vec3.zero) (Arr.mk' g Mat3.zero) = .error .oob := by
  obtain ⟨g, e, -⟩ := C01_padded_addressing .wrap 2 (demo 1) demo_valid
  have G := make_made demo_valid e
  have H := C24_false .wrap 2 (demo 1) demo_valid rfl g e
  exact ⟨g, e, H.1 _ _ _ _ (fieldIs_mk G 0) (fieldIs_mk G _), H.2 _ _ _ _ (fieldIs_mk G _) (fieldIs_mk G _)⟩

/-- Instance of `C24_no_outside_access_partial`: the same with padding 2. -/
example : ∃ g : Grid ℚ 2, (demo 2).make .wrap 2 = .ok g ∧
    (∃ o, gradScalar .third .wrap g g (Arr.mk' g 0) (Arr.mk' g Vec3.zero) = .ok o) ∧
    ∃ o, gradVector .third .wrap g g (Arr.mk' g Vec3.zero) (Arr.mk' g Mat3.zero) = .ok o := by
  obtain ⟨g, e, -⟩ := C01_padded_addressing .wrap 2 (demo 2) demo2_valid
  have G := make_made demo2_valid e
  have H := C24_no_outside_access_partial .wrap 2 (demo 2) demo2_valid g e .third (by decide) (fun _ => by decide)
  exact ⟨g, e, H.1 _ _ _ _ (fieldIs_mk G 0) (fieldIs_mk G _), H.2 _ _ _ _ (fieldIs_mk G _) (fieldIs_mk G _)⟩

/-! ## C25 -/

section C25
variable {K : Type} {d : ℕ} [Field K]

/-- The difference quotient of a scheme. -/
def fdOf (sch : GradScheme) (f : Cell → K) (c : Cell) (a : Fin 3) (h : K) : K :=
  match sch with
  | .central => fdCentral f c a h
  | .third => fdThird f c a h

theorem rawDiff_eq (sch : GradScheme) (f : Cell → K) (c : Cell) (a : Fin 3) (h : K) :
    rawDiff sch f c a h = fdOf sch f c a h := by
  cases sch with
  | central =>
    show centralRaw f c a h = fdCentral f c a h
    unfold centralRaw fdCentral
    rw [one_div, one_div, div_eq_mul_inv, mul_inv]
    ring
  | third =>
    show thirdRaw f c a h = fdThird f c a h
    unfold thirdRaw fdThird
    rw [one_div, div_eq_mul_inv, one_mul]

/-- What both schemes compute for a vector field: entry `(a, b)` is the difference quotient of component `a` along axis
`a` (the row, not the column), divided by the spacing of axis `b`. -/
theorem C25_computed (s : IntSem) (d : ℕ) (r : Req K) (h : r.Valid d) (g : Grid K d) (e : r.make s d = .ok g)
    (sch : GradScheme) (hp : 1 ≤ r.pad) (h3 : sch = .third → 2 ≤ r.pad) (alpha : Arr (Vec3 K)) (f : Cell → Vec3 K)
    (grad : Arr (Mat3 K)) (q : Cell → Mat3 K) (hf : FieldIs s r g alpha f) (hq : FieldIs s r g grad q) :
    ∃ grad', gradVector sch s g g alpha grad = .ok grad' ∧
      (∀ c, r.Interior c → ∃ m, grad'.get s g c.1 c.2.1 c.2.2 = .ok m ∧ ∀ a b : Fin 3, m.entry a b =
        if a.val < d ∧ b.val < d then fdOf sch (fun c => (f c).get a) c a (r.h b) else (q c).entry a b) ∧
      ∀ c, r.Padded d c → ¬ r.Interior c → grad'.get s g c.1 c.2.1 c.2.2 = .ok (q c) := by
  have G := make_made h e
  have hr : reach sch ≤ r.pad := by
    cases sch with
    | central => exact hp
    | third => exact h3 rfl
  obtain ⟨grad', q', h1, h2, h3, h4⟩ := gradVector_ok G G rfl hr hf hq
  refine ⟨grad', h1, fun c hc => ⟨q' c, h2.val c (interior_padded G hc), fun a b => ?_⟩, fun c hc hn => by
    rw [h2.val c hc, h3 c hn]⟩
  rw [h4 c hc a b, rawDiff_eq]

/-- The part of C25 that holds: diagonal entries `(a, a)` at interior cells are the difference quotients of component `a`
along axis `a`; in one dimension this is the whole gradient.  Missing: entries off the diagonal, see `C25_false`. -/
theorem C25_diagonal_partial (s : IntSem) (d : ℕ) (r : Req K) (h : r.Valid d) (g : Grid K d) (e : r.make s d = .ok g)
    (sch : GradScheme) (hp : 1 ≤ r.pad) (h3 : sch = .third → 2 ≤ r.pad) (alpha : Arr (Vec3 K)) (f : Cell → Vec3 K)
    (grad : Arr (Mat3 K)) (q : Cell → Mat3 K) (hf : FieldIs s r g alpha f) (hq : FieldIs s r g grad q) :
    ∃ grad', gradVector sch s g g alpha grad = .ok grad' ∧
      ∀ c, r.Interior c → ∃ m, grad'.get s g c.1 c.2.1 c.2.2 = .ok m ∧ ∀ a : Fin 3, a.val < d →
        m.entry a a = fdOf sch (fun c => (f c).get a) c a (r.h a) := by
  obtain ⟨grad', h1, h2, -⟩ := C25_computed s d r h g e sch hp h3 alpha f grad q hf hq
  refine ⟨grad', h1, fun c hc => ?_⟩
  obtain ⟨m, k1, k2⟩ := h2 c hc
  exact ⟨m, k1, fun a ha => by rw [k2, if_pos ⟨ha, ha⟩]⟩

end C25

/-- C25 is false.  Component 0 of the field is the row number `j`, so that its difference quotient along axis 1 is
`1 / h₁ = 1` for both schemes; the entry `(0, 1)` that the code computes is 0. -/
theorem C25_false (sch : GradScheme) : ∃ g : Grid ℚ 2, (demo 2).make .wrap 2 = .ok g ∧
    ∃ (alpha : Arr (Vec3 ℚ)) (f : Cell → Vec3 ℚ) (grad grad' : Arr (Mat3 ℚ)) (m : Mat3 ℚ), FieldIs .wrap (demo 2) g alpha f ∧
      gradVector sch .wrap g g alpha grad = .ok grad' ∧ grad'.get .wrap g 2 1 0 = .ok m ∧
      fdOf sch (fun c => (f c).get 0) (2, 1, 0) 1 ((demo 2).h 1) = 1 ∧ m.entry 0 1 = 0 := by
  obtain ⟨g, e, -⟩ := C01_padded_addressing .wrap 2 (demo 2) demo2_valid
  have G := make_made demo2_valid e
  obtain ⟨alpha, hf⟩ := fieldIs_exists G (fun c => (⟨(c.2.1 : ℚ), 0, 0⟩ : Vec3 ℚ))
  have hh : (demo 2).h 1 = 1 := by unfold Req.h demo Vec3.get; norm_num
  obtain ⟨grad', h1, h2, -⟩ := C25_computed .wrap 2 (demo 2) demo2_valid g e sch (by decide) (fun _ => by decide) alpha _
    (Arr.mk' g Mat3.zero) _ hf (fieldIs_mk G _)
  obtain ⟨m, k1, k2⟩ := h2 (2, 1, 0) (by unfold Req.Interior InteriorCell demo; simp)
  refine ⟨g, e, alpha, _, _, grad', m, hf, h1, k1, ?_, ?_⟩
  · rw [hh]
    cases sch with
    | central => norm_num [fdOf, fdCentral, shift, Vec3.get]
    | third => norm_num [fdOf, fdThird, shift, Vec3.get]
  · rw [k2, if_pos (by decide), hh]
    cases sch with
    | central => simp [fdOf, fdCentral, shift, Vec3.get]
    | third => norm_num [fdOf, fdThird, shift, Vec3.get]

/-- Instance of `C25_computed` and `C25_diagonal_partial`: the field `(i, 0, 0)`, spacing `1/2` along axis 0 and 1 along
axis 1: the entries `(0, 0)` and `(0, 1)` are 2 and 1. -/
example : ∃ g : Grid ℚ 2, (demo 1).make .wrap 2 = .ok g ∧ ∃ (alpha : Arr (Vec3 ℚ)) (grad' : Arr (Mat3 ℚ)) (m : Mat3 ℚ),
      gradVector .central .wrap g g alpha (Arr.mk' g Mat3.zero) = .ok grad' ∧ grad'.get .wrap g 2 1 0 = .ok m ∧
      m.entry 0 0 = 2 ∧ m.entry 0 1 = 1 ∧ m.entry 1 0 = 0 := by
  obtain ⟨g, e, -⟩ := C01_padded_addressing .wrap 2 (demo 1) demo_valid
  have G := make_made demo_valid e
  obtain ⟨alpha, hf⟩ := fieldIs_exists G (fun c => (⟨(c.1 : ℚ), 0, 0⟩ : Vec3 ℚ))
  have hh1 : (demo 1).h 1 = 1 := by unfold Req.h demo Vec3.get; norm_num
  have hh0 : (demo 1).h 0 = 1 / 2 := by unfold Req.h demo Vec3.get; norm_num
  obtain ⟨grad', h1, h2, -⟩ := C25_computed .wrap 2 (demo 1) demo_valid g e .central (by decide) (fun h => by cases h)
    alpha _ (Arr.mk' g Mat3.zero) _ hf (fieldIs_mk G _)
  obtain ⟨m, k1, k2⟩ := h2 (2, 1, 0) (by unfold Req.Interior InteriorCell demo; simp)
  refine ⟨g, e, alpha, grad', m, h1, k1, ?_, ?_, ?_⟩
  · rw [k2, if_pos (by decide), hh0]
    norm_num [fdOf, fdCentral, shift, Vec3.get]
  · rw [k2, if_pos (by decide), hh1]
    norm_num [fdOf, fdCentral, shift, Vec3.get]
  · rw [k2, if_pos (by decide), hh0]
    simp [fdOf, fdCentral, Vec3.get]

end Gals.Props
