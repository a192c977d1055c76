import Verif.Lemmas.LimitDouble
import Verif.Props.SplineDouble
import Verif.Props.Limiter

/-!
# C110: gradient limiting in double arithmetic
-/

set_option linter.unusedSectionVars false

namespace Gals.Props

open Gals Gals.Spec

/-- The line from 0 to 3 in three cells. -/
def threeD : Req F64 := ⟨⟨3, 1, 1⟩, 1, ⟨0, 0, 0⟩, ⟨3, 1, 1⟩⟩

theorem threeD_valid : threeD.Valid 1 := ⟨by simp, by decide, by decide, by decide, by decide, by decide, by decide, by decide⟩

/-- Limited interpolation at 1, halfway between the centres of the cells 0 and 1, with values `p`, `q` and slopes `a`, `b`
stored there. -/
def limitedAt1 (g : Grid F64 1) (p q a b : F64) : M F64 := do
  let ls := Levelset.mk' g
  let u ← ls.phiPrev.set .wrap g 0 0 0 p
  let u ← u.set .wrap g 1 0 0 q
  let v ← ls.psiPrev.set .wrap g 0 0 0 ⟨a, 0, 0⟩
  let v ← v.set .wrap g 1 0 0 ⟨b, 0, 0⟩
  let out ← interpolate .wrap g { ls with phiPrev := u, psiPrev := v } ⟨1, 0, 0⟩ true
  return out.phi

/-- C110 without the margin is false: with values 2, 3 and slopes 1, 100 in cells of width 1 the first slope is that of the
chord, so in exact arithmetic the limited cubic stays in [2, 3] (`C19_no_overshoot_partial`).  In doubles the library returns
less than -9: rounding makes the slope look steeper than the chord, and the data are left alone. -/
theorem C110_false :
    AlongChord (1 * 1) (100 * 1) (3 - 2) 0 ∧
    (2 ≤ (kernel1 (1 : ℚ) 1 (1 / 2) ⟨2, ⟨1, 0, 0⟩⟩ ⟨3, ⟨100, 0, 0⟩⟩ true).phi ∧
      (kernel1 (1 : ℚ) 1 (1 / 2) ⟨2, ⟨1, 0, 0⟩⟩ ⟨3, ⟨100, 0, 0⟩⟩ true).phi ≤ 3) ∧
    ∃ (g : Grid F64 1) (y : F64), threeD.make .wrap 1 = .ok g ∧ g.dx.x = 1 ∧ limitedAt1 g 2 3 1 100 = .ok y ∧ y < -9 := by
  refine ⟨Or.inl (by norm_num), ?_, ?_⟩
  · have := C19_no_overshoot_partial (2 : ℚ) 3 1 1 (1 / 2) ⟨1, 0, 0⟩ ⟨100, 0, 0⟩ (by norm_num) (by norm_num) (Or.inl (by norm_num))
    rwa [min_eq_left (by norm_num), max_eq_right (by norm_num)] at this
  · have run : (do let g : Grid F64 1 ← threeD.make .wrap 1
                   let y ← limitedAt1 g 2 3 1 100
                   pure (decide (g.dx.x = 1), decide (y < -9))) = Except.ok (ε := Fault) (true, true) := by decide +kernel
    obtain ⟨g, e, -⟩ := make_ok .wrap threeD_valid
    rw [e] at run
    cases hy : limitedAt1 g 2 3 1 100 with
    | error f => simp [M.ok_bind, M.error_bind, hy] at run
    | ok y =>
      simp only [M.ok_bind, hy, M.pure_eq] at run
      injection run with run
      injection run with r1 r2
      exact ⟨g, y, e, of_decide_eq_true r1, hy, of_decide_eq_true r2⟩

/-- C110: limited interpolation on a line in doubles.  The data are the finite numbers `D 0` (values) and `D 1` (slopes), at most
`M` when multiplied by the width of a cell.  The interpolation returns, it uses two neighbouring nodes around the point (up to
rounding), and if the slopes at these nodes are along the chord with a margin of `2^7 M / 2^52`, the value is finite and
between the two node values up to `2^12 K M / 2^52`.  Missing for the full claim: slopes along the chord without the margin, for
which it is false (`C110_false`). -/
theorem C110_limited_partial (r : Req F64) (h : r.Valid 1) (hpad : r.pad = 1) (lo hi : Fin 3 → ℚ) (hbox : BoxIs r 1 lo hi)
    (hside : ∀ a : Fin 3, a.val < 1 → Moderate (hi a - lo a)) (K : ℚ)
    (hres : ∀ a : Fin 3, a.val < 1 → r.n.get a * (|lo a| + (hi a - lo a)) ≤ K * (hi a - lo a)) (hK : K ≤ 2 ^ 28)
    (g : Grid F64 1) (e : r.make .wrap 1 = .ok g) (x : Vec3 F64) (q : Fin 3 → ℚ)
    (hx : ∀ a : Fin 3, a.val < 1 → HasValue (x.get a) (q a) ∧
      lo a - (1 / 2 - 1 / 2 ^ 16) * (axisOf r lo hi a).h ≤ q a ∧ q a ≤ hi a + (1 / 2 - 1 / 2 ^ 16) * (axisOf r lo hi a).h)
    (ls : Levelset F64) (phi : Cell → F64) (psi : Cell → Vec3 F64) (mix : Cell → List F64) (P : PrevIs .wrap r g ls phi psi mix)
    (D : Jet) (hD : JetIs r 1 phi psi mix D) (M : ℚ) (hM : Moderate M) (hDM : JetLe r 1 (axisOf r lo hi) D M) :
    ∃ (out : Interp F64) (i : ℤ), interpolate .wrap g ls x true = .ok out ∧ -1 ≤ i ∧ i + 1 ≤ r.n.get 0 ∧
      i - 2 ^ 7 * K / 2 ^ 52 ≤ (axisOf r lo hi 0).coord (q 0) ∧ (axisOf r lo hi 0).coord (q 0) ≤ i + 1 + 2 ^ 7 * K / 2 ^ 52 ∧
      (AlongChord (D 1 0 0 (i, 0, 0) * (axisOf r lo hi 0).h) (D 1 0 0 (i + 1, 0, 0) * (axisOf r lo hi 0).h)
          (D 0 0 0 (i + 1, 0, 0) - D 0 0 0 (i, 0, 0)) (2 ^ 7 * M / 2 ^ 52) →
        ∃ v : ℚ, HasValue out.phi v ∧ min (D 0 0 0 (i, 0, 0)) (D 0 0 0 (i + 1, 0, 0)) - 2 ^ 12 * K * M / 2 ^ 52 ≤ v ∧
          v ≤ max (D 0 0 0 (i, 0, 0)) (D 0 0 0 (i + 1, 0, 0)) + 2 ^ 12 * K * M / 2 ^ 52) := by
  have G := make_made h e
  obtain ⟨b, η, eb, pt⟩ := point_double .wrap 1 r h hpad lo hi hbox K hres hK g e x q hx
  have hw : ∀ a : Fin 3, a.val < 1 → 0 < hi a - lo a := fun a ha => (two_zpow_pos _).trans_le (hside a ha).1
  have hnK : ∀ a : Fin 3, a.val < 1 → (r.n.get a : ℚ) ≤ K := fun a ha => res_n (hw a ha) (h.n_pos a) (hres a ha)
  have hK1 : 1 ≤ K := by
    have : (1 : ℚ) ≤ r.n.get 0 := by exact_mod_cast h.n_pos 0
    exact this.trans (hnK 0 (by decide))
  have pM := moderate_pw hM
  have M0 := pM.pos
  have pd : ∀ i, -1 ≤ i → i ≤ r.n.get 0 → r.Padded 1 (i, 0, 0) := by
    intro i h1 h2
    refine padded_of h hpad ?_ ?_
    · intro a ha
      match a with
      | 0 => exact ⟨h1, h2⟩
      | 1 => exact absurd ha (by decide)
      | 2 => exact absurd ha (by decide)
    · intro a ha
      match a with
      | 0 => exact absurd ha (by decide)
      | 1 => rfl
      | 2 => rfl
  obtain ⟨⟨b1, b2⟩, -, np, vη⟩ := pt 0 (by decide)
  have b1' : -1 ≤ b.x := b1
  have b2' : b.x + 1 ≤ r.n.get 0 := b2
  obtain ⟨x0, dX, -⟩ : _ ∧ Apx g.dx.x _ _ _ _ ∧ Apx g.oneOverDx.x _ _ _ _ := width_apx h hbox G 0 (by decide)
  have vX : HasValue ((x.x - (Grid.elem g g.boxMin g.dx (b.x, 0, 0)).x) * g.oneOverDx.x) (η 0) := vη (b.x, 0, 0) rfl
  have le := fun i h1 h2 α => jet_le hDM (pd i h1 h2) α 0 0 (fun _ => rfl) (fun _ => rfl) (by decide)
  have nd : ∀ i, -1 ≤ i → i ≤ r.n.get 0 →
      Node1Is ⟨phi (i, 0, 0), psi (i, 0, 0)⟩ (jnode1 D (i, 0, 0)) M (axisOf r lo hi 0).h := by
    intro i h1 h2
    have k0 := le i h1 h2 0
    have k1 := le i h1 h2 1
    simp only [Fin.val_zero, Fin.val_one, pow_zero, pow_one, mul_one] at k0 k1
    refine ⟨Apx.exact (hD.phi _ (pd i h1 h2)) (by rw [one_mul]; exact k0), apx_data (hD.psi _ (pd i h1 h2) 0 (by decide)) x0 k1⟩
  have ev := interp1_value G h P eb (fun a ha => by have := (pt a ha).1; rw [hpad]; omega) true
  have n0 := nd b.x b1' (by omega)
  have n1 := nd (b.x + 1) (by omega) b2'
  obtain ⟨sm, nlo, nhi, nn⟩ := np
  have eu : ulp1 = 1 / 2 ^ 52 := rfl
  have Ku : 0 ≤ K * ulp1 := mul_nonneg (by linarith) ulp1_pos.le
  have eK : 2 ^ 7 * K / 2 ^ 52 = 128 * (K * ulp1) := by rw [eu]; ring
  have e80 : 80 * K * ulp1 = 80 * (K * ulp1) := by ring
  rw [e80] at sm nlo nhi nn
  have eb0 : ((b.get 0 : ℤ) : ℚ) = (b.x : ℚ) := rfl
  rw [eb0] at nlo nhi nn
  obtain ⟨nn1, nn2⟩ := abs_le.1 nn
  refine ⟨_, b.x, ev, b1', b2', by rw [eK]; linarith, by rw [eK]; linarith, fun hc => ?_⟩
  have em : 2 ^ 7 * M / 2 ^ 52 = 128 * ulp1 * M := by rw [eu]; ring
  rw [em] at hc
  obtain ⟨v, hv, v1, v2⟩ := apx_limited_kernel (inv := g.oneOverDx.x) (δ := 160 * (K * ulp1)) dX x0 pM.scaled (pM.mul pM).scaled vX
    (by linarith) (by linarith) (by linarith) (by linarith) n0 n1 hc
  have key : (1100 * ulp1 + 12 * (160 * (K * ulp1))) * M ≤ 2 ^ 12 * K * M / 2 ^ 52 := by
    have e1 : 2 ^ 12 * K * M / 2 ^ 52 = (4096 * (K * ulp1)) * M := by rw [eu]; ring
    rw [e1]
    refine mul_le_mul_of_nonneg_right ?_ M0.le
    have := mul_le_mul_of_nonneg_right hK1 ulp1_pos.le
    linarith
  refine ⟨v, hv, ?_, ?_⟩
  · have : min (D 0 0 0 (b.x, 0, 0)) (D 0 0 0 (b.x + 1, 0, 0)) - _ ≤ v := v1
    linarith
  · have : v ≤ max (D 0 0 0 (b.x, 0, 0)) (D 0 0 0 (b.x + 1, 0, 0)) + _ := v2
    linarith

/-- Zero up to the cell 0, one from the cell 1. -/
def riseD (c : Cell) : F64 := if c.1 ≤ 0 then 0 else 1

/-- A large slope in the cell 1. -/
def steepD (c : Cell) : Vec3 F64 := ⟨if c.1 = 1 then (100 : ℕ) else 0, 0, 0⟩

def riseJ : Jet := fun a _ _ c => if a = 0 then (if c.1 ≤ 0 then 0 else 1) else if c.1 = 1 then 100 else 0

theorem threeD_box : BoxIs threeD 1 (fun _ => 0) (fun _ => 3) := by
  intro a ha
  obtain rfl : a = 0 := Fin.ext (by omega)
  refine ⟨hasValue_zero, hasValue_nat (n := 3) (by norm_num), ?_, ?_⟩
  · exact (zpow_le_one_of_nonpos₀ (by norm_num) (by norm_num)).trans (by norm_num)
  · exact le_trans (by norm_num : (3 - 0 : ℚ) ≤ 2 ^ 2) (pow_le_pow_right₀ (by norm_num) (by norm_num))

theorem threeD_h : (axisOf threeD (fun _ => 0) (fun _ => 3) 0).h = 1 := by norm_num [axisOf, Axis.h, threeD, Vec3.get]

/-- Instance: values 0, 1 and slopes 0, 100 at the nodes around the point 1.  The unlimited cubic is -12 there; the limited one,
in doubles, stays between 0 and 1 up to rounding. -/
theorem C110_limited_inst : ∃ (g : Grid F64 1) (ls : Levelset F64), threeD.make .wrap 1 = .ok g ∧
    PrevIs .wrap threeD g ls riseD steepD (fun _ => []) ∧
    ∃ (out : Interp F64) (v : ℚ), interpolate .wrap g ls ⟨1, 0, 0⟩ true = .ok out ∧ HasValue out.phi v ∧
      -(1 / 2 ^ 30) ≤ v ∧ v ≤ 1 + 1 / 2 ^ 30 := by
  obtain ⟨g, e, G⟩ := make_ok .wrap threeD_valid
  obtain ⟨a, h1⟩ := fieldIs_exists (s := .wrap) G riseD
  obtain ⟨b, h2⟩ := fieldIs_exists (s := .wrap) G steepD
  obtain ⟨m, h3⟩ := fieldIs_exists (s := .wrap) G fun _ => ([] : List F64)
  obtain ⟨ls, hl⟩ : ∃ ls, PrevIs .wrap threeD g ls riseD steepD (fun _ => []) := ⟨⟨a, b, m, a, b, m, a, b⟩, h1.val, h2.val, h3.val⟩
  have M100 : Moderate 100 := ⟨(zpow_le_one_of_nonpos₀ (by norm_num) (by norm_num)).trans (by norm_num),
    le_trans (by norm_num : (100 : ℚ) ≤ 2 ^ 7) (pow_le_pow_right₀ (by norm_num) (by norm_num))⟩
  obtain ⟨out, i, k1, k2, k3, k4, k5, k6⟩ := C110_limited_partial threeD threeD_valid rfl (fun _ => 0) (fun _ => 3) threeD_box
    (fun a ha => ⟨(zpow_le_one_of_nonpos₀ (by norm_num) (by norm_num)).trans (by norm_num),
      le_trans (by norm_num : (3 - 0 : ℚ) ≤ 2 ^ 2) (pow_le_pow_right₀ (by norm_num) (by norm_num))⟩) 3
    (fun a ha => by obtain rfl : a = 0 := Fin.ext (by omega)
                    norm_num [threeD, Vec3.get]) (by norm_num) g e ⟨1, 0, 0⟩ (fun _ => 1)
    (fun a ha => by
      obtain rfl : a = 0 := Fin.ext (by omega)
      rw [threeD_h]
      exact ⟨hasValue_one, by norm_num, by norm_num⟩)
    ls riseD steepD (fun _ => []) hl riseJ
    ⟨fun c _ => by
        simp only [riseD, riseJ, if_true]
        split
        · exact hasValue_zero
        · exact hasValue_one,
      fun c _ a ha => by
        obtain rfl : a = 0 := Fin.ext (by omega)
        simp only [steepD, riseJ, oneD, Vec3.get]
        split
        · exact hasValue_nat (by norm_num)
        · exact hasValue_zero,
      fun _ _ => .nil⟩
    100 M100 (by
      intro c _ o ho
      have o1 : o 1 = 0 := ho 1 (by decide)
      have o2 : o 2 = 0 := ho 2 (by decide)
      rw [o1, o2, threeD_h, one_pow, Fin.val_zero, pow_zero, pow_zero, mul_one, mul_one, mul_one]
      unfold riseJ
      split
      · split <;> norm_num
      · split <;> norm_num)
  have ec : (axisOf threeD (fun _ => 0) (fun _ => 3) 0).coord 1 = 1 / 2 := by
    rw [Axis.coord, threeD_h]; norm_num [axisOf]
  rw [ec] at k4 k5
  have i0 : i = 0 := by
    have a1 : (i : ℚ) < 1 := by norm_num at k4 ⊢; linarith
    have a2 : (-1 : ℚ) < i := by norm_num at k5 ⊢; linarith
    have a1 : i < 1 := by exact_mod_cast a1
    have a2 : -1 < i := by exact_mod_cast a2
    omega
  subst i0
  obtain ⟨v, hv, v1, v2⟩ := k6 (Or.inl (by rw [threeD_h]; norm_num [riseJ]))
  refine ⟨g, ls, e, hl, out, v, k1, hv, ?_, ?_⟩
  · norm_num [riseJ] at v1 ⊢; linarith
  · norm_num [riseJ] at v2 ⊢; linarith

end Gals.Props
