import Verif.Spec.AppDouble
import Verif.Lemmas.RotationDouble
import Verif.Props.AppStep
import Verif.Props.StepDouble
import Verif.Props.TimeDouble

/-!
# Property C88 (the application on a grid with enough ghost cells, in double arithmetic)
-/

set_option linter.unusedSectionVars false

namespace Gals.Props

open Gals Gals.Spec

/-- One component of the circular velocity, computed from a stored coordinate along an axis with cell width `(h - l) / n`,
moves by at most `2 ^ (-16)` of the cell width `H` of the other axis differently from the exact one. -/
theorem turn_step [HasPi F64] {p : ℚ} (hp : HasValue (HasPi.pi : F64) p) (hp1 : 3 ≤ p) (hp2 : p ≤ 4) {lo hi c : F64} {l h γ τ H : ℚ}
    (hl : HasValue lo l) (hh : HasValue hi h) (h1 : (2 : ℚ) ^ (-900 : ℤ) ≤ h - l) (h2 : h - l ≤ 2 ^ 900) {n : ℤ} (hn : 2 ≤ n)
    (h3 : n * (|l| + (h - l)) ≤ 2 ^ 28 * (h - l)) (hc : HasValue c γ) (hγ : |γ| ≤ 2 ^ 900) (hτ : 0 < τ) (hH : 0 < H)
    {pad : ℤ} (hpad : 0 ≤ pad) (hpn : pad ≤ n)
    (hsm : ∀ i : ℤ, 0 ≤ i → i < n → |τ * (p / (315 / 100) * (γ - (l + (i + (pad - 1) + 1 / 2) * ((h - l) / n))))| ≤ H)
    {i : ℤ} (hi0 : 0 ≤ i) (hi1 : i < n) {x : F64}
    (hx : x = lo + (hi - lo) / (n : F64) * (1 / 2) - (hi - lo) / (n : F64) * ((1 : ℤ) : F64)
        + ((i + pad : ℤ) : F64) * ((hi - lo) / (n : F64))) :
    (∃ v, HasValue (circularCoeff * (c - x)) v ∧
      |τ * v - τ * (p / (315 / 100) * (γ - (l + (i + (pad - 1) + 1 / 2) * ((h - l) / n))))| ≤ H / 2 ^ 16) ∧
    ∃ v, HasValue (circularCoeff * (x - c)) v ∧
      |τ * v - τ * (p / (315 / 100) * ((l + (i + (pad - 1) + 1 / 2) * ((h - l) / n)) - γ))| ≤ H / 2 ^ 16 := by
  have hw0 : 0 < h - l := (two_zpow_pos _).trans_le h1
  have hnq : (2 : ℚ) ≤ n := by exact_mod_cast hn
  have hn0 : (0 : ℚ) < n := by linarith
  have l0 := abs_nonneg l
  have hn28 : (n : ℚ) ≤ 2 ^ 28 := by
    have : (n : ℚ) * (h - l) ≤ 2 ^ 28 * (h - l) := (mul_le_mul_of_nonneg_left (by linarith) hn0.le).trans h3
    exact le_of_mul_le_mul_right this hw0
  have hnZ : n ≤ 2 ^ 28 := by exact_mod_cast hn28
  have hlb : |l| ≤ 2 ^ 28 * (h - l) := by
    have : (|l| + (h - l)) ≤ n * (|l| + (h - l)) := le_mul_of_one_le_left (by linarith) (by linarith)
    linarith
  have big1 : (2 : ℚ) ^ 928 = 2 ^ 28 * 2 ^ 900 := pow_add _ 28 900
  have hl928 : |l| ≤ 2 ^ 928 := by
    rw [big1]
    exact hlb.trans (mul_le_mul_of_nonneg_left h2 (by norm_num))
  have big2 : (2 : ℚ) ^ 928 ≤ 2 ^ 1000 := pow_le_pow_right₀ (by norm_num) (by norm_num)
  obtain ⟨-, E, hE, eE⟩ := node_double hl hh h1 h2 (hl928.trans big2) (n := n) (by omega) (by omega) (v := i + pad) (by omega) (by omega)
  rw [← hx] at hE
  have hcast : ((i + pad : ℤ) : ℚ) - 1 + 1 / 2 = i + (pad - 1) + 1 / 2 := by push_cast; ring
  rw [hcast] at eE
  set HA := (h - l) / n with hHA
  have hHA0 : 0 < HA := div_pos hw0 hn0
  have hHn : n * HA = h - l := by rw [hHA]; field_simp
  have e0 := ulp1_pos
  have e1 : ulp1 ≤ 1 / 2 ^ 40 := ulp1_le
  have e2 : ulp1 = 1 / 2 ^ 52 := rfl
  -- the step turns a cell width of this axis by at most two of the other
  have W1 : (20 / 21 : ℚ) ≤ p / (315 / 100) := by
    rw [le_div_iff₀ (by norm_num)]
    linarith
  have hcfl : τ * HA ≤ 21 / 10 * H := by
    obtain ⟨a1, a2⟩ := abs_le.1 (hsm 0 le_rfl (by omega))
    obtain ⟨a3, a4⟩ := abs_le.1 (hsm (n - 1) (by omega) (by omega))
    push_cast at a1 a2 a3 a4
    have b1 : τ * (p / (315 / 100)) * ((n - 1) * HA) ≤ 2 * H := by linarith
    have b2 : HA ≤ (n - 1) * HA := le_mul_of_one_le_left hHA0.le (by linarith)
    have b3 : τ * (20 / 21) * HA ≤ τ * (p / (315 / 100)) * ((n - 1) * HA) :=
      mul_le_mul (mul_le_mul_of_nonneg_left W1 hτ.le) b2 hHA0.le (by positivity)
    linarith
  -- rounding of the coordinate
  have hδ : 20 * ulp1 * (|l| + 3 * (h - l)) ≤ 60 / 2 ^ 24 * HA := by
    have a1 : n * (|l| + (h - l)) ≤ n * (2 ^ 28 * HA) := by linarith
    have a2 : |l| + (h - l) ≤ 2 ^ 28 * HA := le_of_mul_le_mul_left a1 hn0
    have a3 : 20 * ulp1 * (|l| + 3 * (h - l)) ≤ 20 * ulp1 * (3 * (2 ^ 28 * HA)) :=
      mul_le_mul_of_nonneg_left (by linarith) (by linarith)
    refine a3.trans (le_of_eq ?_)
    rw [e2]
    ring
  have htiny : tiny ≤ ulp1 * HA := by
    rw [tiny_eq]
    refine mul_le_mul (by rw [← two_unit]; linarith [unitRoundoff_pos]) ?_ (two_zpow_pos _).le e0.le
    rw [hHA, le_div_iff₀ hn0]
    refine le_trans ?_ h1
    calc (2 : ℚ) ^ (-1022 : ℤ) * n ≤ 2 ^ (-1022 : ℤ) * 2 ^ (28 : ℤ) :=
          mul_le_mul_of_nonneg_left (hn28.trans (by norm_num)) (two_zpow_pos _).le
      _ = 2 ^ (-994 : ℤ) := by rw [← two_zpow_add]; norm_num
      _ ≤ _ := two_zpow_le (by norm_num)
  have hHAw : HA ≤ h - l := div_le_self hw0.le (by linarith)
  set y := l + (i + (pad - 1) + 1 / 2) * HA with hy
  have hyb : |y| ≤ 2 ^ 930 := by
    have c1 : (0 : ℚ) ≤ i := by exact_mod_cast hi0
    have c2 : (i : ℚ) ≤ n := by exact_mod_cast hi1.le
    have c3 : (0 : ℚ) ≤ pad := by exact_mod_cast hpad
    have c4 : (pad : ℚ) ≤ n := by exact_mod_cast hpn
    have c5 : |((i : ℚ) + (pad - 1) + 1 / 2) * HA| ≤ 2 * (h - l) := by
      rw [abs_mul, abs_of_pos hHA0, ← hHn]
      have : |(i : ℚ) + (pad - 1) + 1 / 2| ≤ 2 * n := by
        rw [abs_le]
        constructor <;> linarith
      calc |(i : ℚ) + (pad - 1) + 1 / 2| * HA ≤ 2 * n * HA := mul_le_mul_of_nonneg_right this hHA0.le
        _ = _ := by ring
    have c6 : |y| ≤ |l| + 2 * (h - l) := (abs_add_le _ _).trans (add_le_add le_rfl c5)
    have c7 : (2 : ℚ) ^ 930 = 2 ^ 30 * 2 ^ 900 := pow_add _ 30 900
    rw [c7]
    rw [big1] at hl928
    clear big1 big2 c7 hγ
    have c8 : (0 : ℚ) < 2 ^ 900 := by positivity
    generalize (2 : ℚ) ^ 900 = B at *
    linarith only [c6, hl928, h2, c8]
  have hDb : |γ - y| ≤ 2 ^ 1000 := by
    refine (abs_sub _ _).trans ((add_le_add hγ hyb).trans ?_)
    have c1 : (2 : ℚ) ^ 900 ≤ 2 ^ 930 := pow_le_pow_right₀ (by norm_num) (by norm_num)
    have c2 : (2 : ℚ) ^ 931 = 2 ^ 930 * 2 := pow_succ _ 930
    have c3 : (2 : ℚ) ^ 931 ≤ 2 ^ 1000 := pow_le_pow_right₀ (by norm_num) (by norm_num)
    refine le_trans ?_ c3
    rw [c2, mul_two]
    exact add_le_add c1 le_rfl
  have hδb : 60 / 2 ^ 24 * HA ≤ 2 ^ 1000 := by
    have c1 : (2 : ℚ) ^ 900 ≤ 2 ^ 1000 := pow_le_pow_right₀ (by norm_num) (by norm_num)
    refine le_trans ?_ (h2.trans c1)
    norm_num
    linarith
  have eE' : |E - y| ≤ 60 / 2 ^ 24 * HA := eE.trans hδ
  have hτD : τ * |γ - y| ≤ 21 / 20 * H := by
    have a := hsm i hi0 hi1
    rw [← hy, abs_mul, abs_mul, abs_of_pos hτ, abs_of_pos (by linarith : 0 < p / (315 / 100))] at a
    have b : τ * (20 / 21 * |γ - y|) ≤ τ * (p / (315 / 100) * |γ - y|) :=
      mul_le_mul_of_nonneg_left (mul_le_mul_of_nonneg_right W1 (abs_nonneg _)) hτ.le
    linarith
  have fin : τ * (6 * ulp1 * |γ - y| + 2 * (60 / 2 ^ 24 * HA) + 4 * tiny) ≤ H / 2 ^ 16 := by
    have a1 : τ * tiny ≤ τ * (ulp1 * HA) := mul_le_mul_of_nonneg_left htiny hτ.le
    have a2 : ulp1 * (τ * HA) ≤ 1 / 2 ^ 40 * (21 / 10 * H) := mul_le_mul e1 hcfl (by positivity) (by norm_num)
    have a3 : ulp1 * (τ * |γ - y|) ≤ 1 / 2 ^ 40 * (21 / 20 * H) := mul_le_mul e1 hτD (by positivity) (by norm_num)
    clear hDb hδb hyb big1 big2 hl928 h2 h1 hγ
    have : τ * (6 * ulp1 * |γ - y| + 2 * (60 / 2 ^ 24 * HA) + 4 * tiny)
        = 6 * (ulp1 * (τ * |γ - y|)) + 120 / 2 ^ 24 * (τ * HA) + 4 * (τ * tiny) := by ring
    rw [this]
    norm_num at *
    linarith
  constructor
  · obtain ⟨v, hv, ev⟩ := turn_double hp hp1 hp2 hc hE (D := γ - y) (δ := 60 / 2 ^ 24 * HA) (by
      rw [sub_sub_sub_cancel_left, abs_sub_comm]; exact eE') hDb hδb
    refine ⟨v, hv, ?_⟩
    rw [← mul_sub, abs_mul, abs_of_pos hτ]
    exact (mul_le_mul_of_nonneg_left ev hτ.le).trans fin
  · obtain ⟨v, hv, ev⟩ := turn_double hp hp1 hp2 hE hc (D := y - γ) (δ := 60 / 2 ^ 24 * HA) (by
      rw [sub_sub_sub_cancel_right]; exact eE') (by rw [abs_sub_comm]; exact hDb) hδb
    refine ⟨v, hv, ?_⟩
    rw [← mul_sub, abs_mul, abs_of_pos hτ]
    rw [abs_sub_comm y γ] at ev
    exact (mul_le_mul_of_nonneg_left ev hτ.le).trans fin

/-- What is known of the fields between the steps. -/
structure Kept (r : Req F64) (a : App F64) (x : LsVelocity F64 × Levelset F64) : Prop where
  phi : ∃ f, FieldIs .wrap r a.g x.2.phi f
  psi : ∃ f, FieldIs .wrap r a.g x.2.psi f
  phiPrev : ∃ f, FieldIs .wrap r a.g x.2.phiPrev f
  psiPrev : ∃ f, FieldIs .wrap r a.g x.2.psiPrev f
  phiInterpPrev : ∃ f, FieldIs .wrap r a.g x.2.phiInterpPrev f
  psiInterpPrev : ∃ f, FieldIs .wrap r a.g x.2.psiInterpPrev f
  mixed : FieldIs .wrap r a.g x.2.phiMixedPrev (fun _ => [0])
  velocity : ∃ f, FieldIs .wrap r a.g x.1.velocity f
  grad : ∃ f, FieldIs .wrap r a.g x.1.grad f

theorem kept_prepared {r : Req F64} (h : r.Valid 2) {a : App F64} (P : PreparedDouble r a) : Kept r a (a.vel, a.ls) := by
  have G := make_made h P.made
  have hl := P.ls
  refine ⟨P.phi, ⟨fun _ => Vec3.zero, ?_⟩, ⟨fun _ => 0, ?_⟩, ⟨fun _ => Vec3.zero, ?_⟩, ⟨fun _ => 0, ?_⟩, ⟨fun _ => Vec3.zero, ?_⟩, ?_,
    ⟨fun _ => Vec3.zero, ?_⟩, ⟨fun _ => Mat3.zero, ?_⟩⟩
  all_goals dsimp only
  all_goals first | rw [hl] | rw [P.vel]
  all_goals exact fieldIs_mk G _

/-- The velocity that a step computes: the rotation, up to `2 ^ (-16)` of a cell per step. -/
def VelocityNear (r : Req F64) (a : App F64) (R : Req ℚ) (w γ0 γ1 τ : ℚ) (vel : LsVelocity F64) : Prop :=
  ∃ v, FieldIs .wrap r a.g vel.velocity v ∧ ∀ c, r.Interior c → ∃ vx vy, HasValue (v c).x vx ∧ HasValue (v c).y vy ∧
    |τ * vx - τ * (rotation w γ0 γ1 (storedPos R c)).x| ≤ R.h 0 / 2 ^ 16 ∧
    |τ * vy - τ * (rotation w γ0 γ1 (storedPos R c)).y| ≤ R.h 1 / 2 ^ 16

/-- A step. -/
theorem advance_double [HasPi F64] {p : ℚ} (hp : HasValue (HasPi.pi : F64) p) (hp1 : 3 ≤ p) (hp2 : p ≤ 4) {r : Req F64}
    (h : r.Valid 2) (hpad : 2 ≤ r.pad) (hpn : ∀ b : Fin 3, b.val < 2 → r.pad ≤ r.n.get b) {lo hi : Fin 3 → ℚ} (hbox : BoxIs r 2 lo hi)
    (hres : ∀ b : Fin 3, b.val < 2 → r.n.get b * (|lo b| + (hi b - lo b)) ≤ 2 ^ 28 * (hi b - lo b)) {a : App F64}
    (P : PreparedDouble r a) (hname : a.velocityInputs.name = "CIRCULAR") {c0 c1 : F64} {rest : List F64}
    (hc : a.velocityInputs.center = c0 :: c1 :: rest) {γ0 γ1 : ℚ} (v0 : HasValue c0 γ0) (v1 : HasValue c1 γ1)
    (b0 : |γ0| ≤ 2 ^ 900) (b1 : |γ1| ≤ 2 ^ 900) {τ : ℚ} (hdt : HasValue a.dt τ) (hτ : 0 < τ)
    (hs : SmallStepBy (1 - 1 / 2 ^ 15) (exactReq r lo hi) (rotation (p / (315 / 100)) γ0 γ1) τ) (t : F64)
    {x : LsVelocity F64 × Levelset F64} (S : Kept r a x) :
    ∃ x', appAdvance .tests .wrap a t x = .ok x' ∧ Kept r a x' ∧
      VelocityNear r a (exactReq r lo hi) (p / (315 / 100)) γ0 γ1 τ x'.1 := by
  have G := make_made h P.made
  obtain ⟨vel, ls⟩ := x
  obtain ⟨⟨f1, p1⟩, ⟨f2, p2⟩, ⟨f3, p3⟩, ⟨f4, p4⟩, ⟨f5, p5⟩, ⟨f6, p6⟩, p7, ⟨f8, p8⟩, ⟨m, p9⟩⟩ := S
  obtain ⟨pos, q1, q2⟩ := P.positions
  obtain ⟨vel', k1, k2, k3, -, k5, k6⟩ := circular_run_ext .wrap (.inl rfl) (by omega) G hname hc q1.ext
    (fun c hc => q1.val c (interior_padded G hc)) t p8 p9
  obtain ⟨grad', q', g1, g2, g3, g4⟩ := gradScalar_ok (sch := .third) G G rfl hpad p1 p2
  obtain ⟨m', w1⟩ := exists_fieldIs G k5 k6
  have hpos : ∀ c, r.Interior c → pos c = Grid.elem a.g a.g.boxMin a.g.dx c := fun c hci => by
    have e1 := q2 c (interior_padded G hci)
    rw [G.node c (G.inPad.2 (interior_padded G hci))] at e1
    exact (Except.ok.inj e1).symm
  have hx0 := h.n_pos 0
  have hy0 := h.n_pos 1
  obtain ⟨l0, u0, s0, s0'⟩ := hbox 0 (by decide)
  obtain ⟨l1, u1, s1, s1'⟩ := hbox 1 (by decide)
  have hH0 : 0 < (hi 0 - lo 0) / r.n.get 0 := div_pos ((two_zpow_pos _).trans_le s0) (by exact_mod_cast hx0)
  have hH1 : 0 < (hi 1 - lo 1) / r.n.get 1 := div_pos ((two_zpow_pos _).trans_le s1) (by exact_mod_cast hy0)
  have hc0 : ∀ i : ℤ, (exactReq r lo hi).centre 0 i = lo 0 + (i + 1 / 2) * ((hi 0 - lo 0) / r.n.get 0) := fun i => rfl
  have hc1 : ∀ i : ℤ, (exactReq r lo hi).centre 1 i = lo 1 + (i + 1 / 2) * ((hi 1 - lo 1) / r.n.get 1) := fun i => rfl
  have hh0 : (exactReq r lo hi).h 0 = (hi 0 - lo 0) / r.n.get 0 := rfl
  have hh1 : (exactReq r lo hi).h 1 = (hi 1 - lo 1) / r.n.get 1 := rfl
  have hep : (exactReq r lo hi).pad = r.pad := rfl
  have hz : 0 < r.n.get 2 := h.n_pos 2
  have hpn0 := hpn 0 (by decide)
  have hpn1 := hpn 1 (by decide)
  have near : ∀ c, r.Interior c → ∃ vx vy,
      (HasValue (circularCoeff * (c0 - (pos c).y)) vx ∧
        |τ * vx - τ * (rotation (p / (315 / 100)) γ0 γ1 (storedPos (exactReq r lo hi) c)).x| ≤ (exactReq r lo hi).h 0 / 2 ^ 16) ∧
      (HasValue (circularCoeff * ((pos c).x - c1)) vy ∧
        |τ * vy - τ * (rotation (p / (315 / 100)) γ0 γ1 (storedPos (exactReq r lo hi) c)).y| ≤ (exactReq r lo hi).h 1 / 2 ^ 16) := by
    intro c hci
    have i0 := interior_comp hci 0
    have i1 := interior_comp hci 1
    have ex := elem_get G c 0 (by decide)
    have ey := elem_get G c 1 (by decide)
    rw [← hpos c hci] at ex ey
    obtain ⟨⟨vx, a1, a2⟩, -⟩ := turn_step hp hp1 hp2 l1 u1 s1 s1' (n := r.n.get 1) (by omega) (hres 1 (by decide)) v0 b0 hτ hH0
      (pad := r.pad) (by omega) hpn1 (fun i hi0 hi1 => by
        have := (hs (0, i, 0) ⟨⟨le_rfl, hx0⟩, ⟨hi0, hi1⟩, ⟨le_rfl, hz⟩⟩).1
        simp only [rotation, storedPos, hc1, hh0, hep] at this
        refine le_trans ?_ (this.trans (by linarith))
        apply le_of_eq
        push_cast
        rfl) i1.1 i1.2 ey
    obtain ⟨-, vy, a3, a4⟩ := turn_step hp hp1 hp2 l0 u0 s0 s0' (n := r.n.get 0) (by omega) (hres 0 (by decide)) v1 b1 hτ hH1
      (pad := r.pad) (by omega) hpn0 (fun i hi0 hi1 => by
        have := (hs (i, 0, 0) ⟨⟨hi0, hi1⟩, ⟨le_rfl, hy0⟩, ⟨le_rfl, hz⟩⟩).2
        simp only [rotation, storedPos, hc0, hh1, hep] at this
        refine le_trans ?_ (this.trans (by linarith))
        apply le_of_eq
        rw [← abs_neg]
        refine congrArg abs ?_
        push_cast
        ring) i0.1 i0.2 ex
    refine ⟨vx, vy, ⟨a1, ?_⟩, ⟨a3, ?_⟩⟩
    · simp only [rotation, storedPos, hc1, hh0, hep]
      refine le_trans (le_of_eq ?_) a2
      push_cast
      rfl
    · simp only [rotation, storedPos, hc0, hh1, hep]
      refine le_trans (le_of_eq ?_) a4
      push_cast
      rfl
  choose! vx vy hvx hvy using near
  have hcfl : ∀ c, r.Interior c → ∀ b : Fin 3, b.val < 2 →
      HasValue ((if r.Interior c then (⟨circularCoeff * (c0 - (pos c).y), circularCoeff * ((pos c).x - c1), 0⟩ : Vec3 F64)
        else f8 c).get b) (if b = 0 then vx c else vy c) ∧
      |(if b = 0 then vx c else vy c) * τ| ≤ (1 - 1 / 2 ^ 16) * ((hi b - lo b) / r.n.get b) := by
    intro c hci b hb
    rw [if_pos hci]
    obtain ⟨t0, t1⟩ := hs c hci
    obtain ⟨y0, y1⟩ := hvx c hci
    obtain ⟨y2, y3⟩ := hvy c hci
    have tri : ∀ v q H : ℚ, |τ * q| ≤ (1 - 1 / 2 ^ 15) * H → |τ * v - τ * q| ≤ H / 2 ^ 16 → |v * τ| ≤ (1 - 1 / 2 ^ 16) * H := by
      intro v q H w1 w2
      have := abs_sub_abs_le_abs_sub (τ * v) (τ * q)
      rw [mul_comm v]
      linarith
    rcases (show b = 0 ∨ b = 1 by omega) with rfl | rfl
    · exact ⟨y0, tri _ _ _ t0 y1⟩
    · exact ⟨y2, tri _ _ _ t1 y3⟩
  have PP : PrevIs .wrap r a.g { ls with psi := grad', phiPrev := ls.phiPrev.assign ls.phi, psiPrev := ls.psiPrev.assign grad' }
      f1 q' (fun _ => [0]) := ⟨p1.val, g2.val, p7.val⟩
  obtain ⟨ls', z1, z2, z3, z4, z5, z6, z7, z8⟩ := step_fields .wrap 2 (fun _ => rfl) r h (by omega) hpn lo hi hbox hres a.g P.made r h
    rfl a.g P.made a.dt τ hdt vel' _ m' k2 w1 (fun c b => if b = 0 then vx c else vy c) hcfl
    { ls with psi := grad', phiPrev := ls.phiPrev.assign ls.phi, psiPrev := ls.psiPrev.assign grad' } f1 q' (fun _ => [0])
    (fun _ => rfl) PP f1 f5 q' f6 p1 g2 p5 p6
  refine ⟨(vel', ls'), ?_, ⟨z2, z3, ?_, ?_, z7, z8, ?_, ⟨_, k2⟩, ⟨_, w1⟩⟩, ⟨_, k2, fun c hci => ?_⟩⟩
  · unfold appAdvance
    simp only [k1, M.ok_bind, g1, z1, M.pure_eq]
  · dsimp only
    rw [z4]
    exact ⟨_, p3.assign p1⟩
  · dsimp only
    rw [z5]
    exact ⟨_, p4.assign g2⟩
  · dsimp only
    rw [z6]
    exact p7
  · rw [if_pos hci]
    obtain ⟨y0, y1⟩ := hvx c hci
    obtain ⟨y2, y3⟩ := hvy c hci
    exact ⟨vx c, vy c, y0, y2, y1, y3⟩

/-- C88, the loop: on a grid with at least two ghost layers, in double arithmetic, if no stored position moves by more than
`1 - 2 ^ (-15)` cells in a step (and the other conditions of C86 and C87 hold), the time loop of the application has exactly one
run.  It ends without a fault after the number of steps counted in exact arithmetic, at the counted time up to the
accumulated rounding, and the velocity is then the rotation up to `2 ^ (-16)` of a cell per step. -/
theorem C88_run_partial [HasPi F64] (p : ℚ) (hp : HasValue (HasPi.pi : F64) p) (hp1 : 3 ≤ p) (hp2 : p ≤ 4) (r : Req F64)
    (h : r.Valid 2) (hpad : 2 ≤ r.pad) (hpn : ∀ b : Fin 3, b.val < 2 → r.pad ≤ r.n.get b) (lo hi : Fin 3 → ℚ) (hbox : BoxIs r 2 lo hi)
    (hres : ∀ b : Fin 3, b.val < 2 → r.n.get b * (|lo b| + (hi b - lo b)) ≤ 2 ^ 28 * (hi b - lo b)) (a : App F64)
    (P : PreparedDouble r a) (hname : a.velocityInputs.name = "CIRCULAR") (c0 c1 : F64) (rest : List F64)
    (hc : a.velocityInputs.center = c0 :: c1 :: rest) (γ0 γ1 : ℚ) (v0 : HasValue c0 γ0) (v1 : HasValue c1 γ1)
    (b0 : |γ0| ≤ 2 ^ 900) (b1 : |γ1| ≤ 2 ^ 900) (τ T : ℚ) (hdt : HasValue a.dt τ) (hT : HasValue a.tEnd T)
    (h1 : (2 : ℚ) ^ (-900 : ℤ) ≤ τ) (h2 : τ ≤ 2 ^ 900) (h3 : |T| ≤ 2 ^ 1000)
    (hs : SmallStepBy (1 - 1 / 2 ^ 15) (exactReq r lo hi) (rotation (p / (315 / 100)) γ0 γ1) τ)
    (n : ℕ) (hn : 1 ≤ n) (hn' : n ≤ 2 ^ 26)
    (hend : T - 1 / 10 ^ 10 + (n ^ 2 * τ / 2 ^ 52 + 1 / 10 ^ 10 / 2 ^ 50) ≤ n * τ)
    (hbefore : 1 < n → (n - 1) * τ + (n ^ 2 * τ / 2 ^ 52 + 1 / 10 ^ 10 / 2 ^ 50) ≤ T - 1 / 10 ^ 10) :
    IsStepCount 0 T τ n ∧ ∃ (t : F64) (q : ℚ) (vel : LsVelocity F64) (ls : Levelset F64),
      HasValue t q ∧ |q - n * τ| ≤ n ^ 2 * τ / 2 ^ 52 ∧
      (∀ out m, While (timeBody (appAdvance .tests .wrap a) a.dt a.tEnd) (0, (a.vel, a.ls)) out m ↔
        out = .ok (t, (vel, ls)) ∧ m = n) ∧
      VelocityNear r a (exactReq r lo hi) (p / (315 / 100)) γ0 γ1 τ vel := by
  obtain ⟨k1, t, q, ⟨vel, ls⟩, k2, k3, k4, k5, k6⟩ := steps_inv (appAdvance .tests .wrap a) (Kept r a)
    (fun x => VelocityNear r a (exactReq r lo hi) (p / (315 / 100)) γ0 γ1 τ x.1)
    (fun t x S => advance_double hp hp1 hp2 h hpad hpn hbox hres P hname hc v0 v1 b0 b1 hdt ((two_zpow_pos _).trans_le h1) hs t S)
    a.dt a.tEnd τ T hdt hT h1 h2 h3 n hn hn' hend hbefore (a.vel, a.ls) (kept_prepared h P)
  refine ⟨k1, t, q, vel, ls, k2, k3, fun out m => ⟨k6 out m, ?_⟩, k5⟩
  rintro ⟨rfl, rfl⟩
  exact k4

/-- C88, before the loop: for complete inputs and any padding that fits, the changed preparation succeeds in double arithmetic,
whatever the numbers (infinities and NaN included). -/
theorem C88_prepared [HasSqrt F64] (pad : ℤ) (f : InputFields F64) (nx ny nz : ℤ) (x0 x1 y0 y1 z0 z1 start tEnd dt rad : F64)
    (hg : f.grid = ⟨some x0, some x1, some y0, some y1, some z0, some z1, some nx, some ny, some nz⟩)
    (ht : f.time = ⟨some start, some tEnd, some dt, f.time.constantDt⟩) (hr : f.levelset.radius = some rad)
    (hv : Req.Valid (⟨⟨nx, ny, nz⟩, pad, ⟨x0, y0, z0⟩, ⟨x1, y1, z1⟩⟩ : Req F64) 2) :
    ∃ a : App F64, appPrepareWith pad .wrap f = .ok a ∧ PreparedDouble ⟨⟨nx, ny, nz⟩, pad, ⟨x0, y0, z0⟩, ⟨x1, y1, z1⟩⟩ a ∧
      a.tEnd = tEnd ∧ a.velocityInputs = f.velocity ∧ a.fileUtils.rootDir = f.general.outputDirectory ++ "/" ∧
      (f.time.constantDt ≠ "NO" → a.dt = dt) := by
  set r : Req F64 := ⟨⟨nx, ny, nz⟩, pad, ⟨x0, y0, z0⟩, ⟨x1, y1, z1⟩⟩ with hreq
  obtain ⟨g, e, G⟩ := make_ok (K := F64) (d := 2) .wrap hv
  have e' := e
  unfold Req.make at e
  simp only [hreq] at e
  obtain ⟨g0, e1, e2⟩ := bind_ok e
  obtain ⟨p, h1, h2⟩ := copyPositions_ok G
  have hpos : ∃ q, FieldIs .wrap r g p q ∧ ∀ c, r.Padded 2 c → g.at' .wrap c.1 c.2.1 c.2.2 = .ok (q c) :=
    ⟨_, h2, fun c hc => G.node c (G.inPad.2 hc)⟩
  have h0 : FieldIs .wrap r g (Levelset.mk' g).phi (fun _ => (0 : F64)) := fieldIs_mk G 0
  have t1 : f.time.start = some start := by rw [ht]
  have t2 : f.time.end' = some tEnd := by rw [ht]
  have t3 : f.time.dt = some dt := by rw [ht]
  by_cases hn : f.levelset.name = "CIRCLE"
  · obtain ⟨phi', m1, m2⟩ := analyticLevelset_ok (gp := g) G
      (inp := ⟨f.levelset.name, f.levelset.center, rad, f.levelset.gradientScheme⟩) hn h2.ext
      (fun c hc => h2.val c (interior_padded G hc)) h0
    have k1 : levelsetInputs f.levelset = .ok ⟨f.levelset.name, f.levelset.center, rad, f.levelset.gradientScheme⟩ := by
      unfold levelsetInputs levelsetName
      rw [if_pos hn, hr]
      rfl
    refine ⟨⟨FileUtils.mk'.setRootDirectory (f.general.outputDirectory ++ "/"), g, p, f.velocity, LsVelocity.mk' g,
      { Levelset.mk' g with phi := phi' }, tEnd,
      if f.time.constantDt = "NO" then g.dx.min * (1 / 2) else dt⟩, ?_, ⟨e', hpos, rfl, rfl, ⟨_, m2⟩⟩, rfl, rfl, rfl,
      fun hne => if_neg hne⟩
    unfold appPrepareWith
    simp only [hg, t1, t2, t3, initialised, M.ok_bind, e1, e2, h1, k1, m1, M.pure_eq]
  · have k1 : levelsetInputs f.levelset = .ok ⟨f.levelset.name, f.levelset.center, 0, f.levelset.gradientScheme⟩ := by
      unfold levelsetInputs levelsetName
      rw [if_neg hn]
    have m1 : analyticLevelset .wrap g g ⟨f.levelset.name, f.levelset.center, 0, f.levelset.gradientScheme⟩ p (Levelset.mk' g) =
        .ok (Levelset.mk' g) := by
      unfold analyticLevelset levelsetName; rw [if_neg hn]
    refine ⟨⟨FileUtils.mk'.setRootDirectory (f.general.outputDirectory ++ "/"), g, p, f.velocity, LsVelocity.mk' g,
      Levelset.mk' g, tEnd, if f.time.constantDt = "NO" then g.dx.min * (1 / 2) else dt⟩, ?_, ⟨e', hpos, rfl, rfl, ⟨_, h0⟩⟩,
      rfl, rfl, rfl, fun hne => if_neg hne⟩
    unfold appPrepareWith
    simp only [hg, t1, t2, t3, initialised, M.ok_bind, e1, e2, h1, k1, m1, M.pure_eq]

/-- C88, after the loop: if the velocity is as the loop leaves it, the output directory is made and the file `velocity` in it
then holds one line per interior cell, in order, with the stored position and a velocity that is the rotation up to
`2 ^ (-16)` of a cell per step.  Nothing else that existed is changed. -/
theorem C88_file [HasSqrt F64] (cwd : Path) (fs : Fs (Content F64)) (w : WellFormed fs) (r : Req F64) (h : r.Valid 2) (a : App F64)
    (P : PreparedDouble r a) (dir : String) (hroot : a.fileUtils.rootDir = dir ++ "/")
    (hway : NoFileOnWay fs (resolve cwd (dir ++ "/"))) (hnot : fs (resolve cwd (dir ++ "/" ++ "velocity")) ≠ some .dir)
    (R : Req ℚ) (ω γ0 γ1 τ : ℚ) (vel : LsVelocity F64) (hvel : VelocityNear r a R ω γ0 γ1 τ vel) :
    ∃ (fs' : Fs (Content F64)) (L : List Cell) (lines : List (Vec3 F64 × Vec3 F64)), appFinish .wrap cwd fs a vel = .ok fs' ∧
      fs' (resolve cwd (dir ++ "/" ++ "velocity")) = some (.file (.lines lines)) ∧
      L.Pairwise lexLt ∧ (∀ c, c ∈ L ↔ r.Interior c) ∧
      List.Forall₂ (fun c line => a.g.at' .wrap c.1 c.2.1 c.2.2 = .ok line.1 ∧ ∃ vx vy, HasValue line.2.x vx ∧ HasValue line.2.y vy ∧
        |τ * vx - τ * (rotation ω γ0 γ1 (storedPos R c)).x| ≤ R.h 0 / 2 ^ 16 ∧
        |τ * vy - τ * (rotation ω γ0 γ1 (storedPos R c)).y| ≤ R.h 1 / 2 ^ 16) L lines ∧
      ∀ q, fs q ≠ none → q ≠ resolve cwd (dir ++ "/" ++ "velocity") → fs' q = fs q := by
  obtain ⟨v, h1, h2⟩ := hvel
  obtain ⟨fs', L, lines, m1, m2, m3, m4, m5, m6⟩ := C37_finish_partial .wrap cwd fs w r h a P.made dir hroot hway hnot vel v h1
  refine ⟨fs', L, lines, m1, m2, m3, m4, ?_, m6⟩
  have hmem : ∀ c ∈ L, r.Interior c := fun c => (m4 c).1
  clear m1 m2 m3 m4 m6
  induction m5 with
  | nil => exact .nil
  | @cons c l L' lines' hd _ ih =>
    refine .cons ⟨hd.1, ?_⟩ (ih fun c hc => hmem c (List.mem_cons_of_mem _ hc))
    rw [hd.2]
    exact h2 c (hmem c List.mem_cons_self)

/-! ## An instance -/

/-- The double nearest to `π`. -/
def piDouble : F64 := .fin false (884279719003555 / 2 ^ 48) ⟨884279719003555, -48, by norm_num, by norm_num, by norm_num,
  (by norm_num : (884279719003555 / 2 ^ 48 : ℚ) < 2 ^ 2).trans_le (pow_le_pow_right₀ (by norm_num) (by norm_num))⟩

/-- An input: `plate`, a circle, eight steps of `1/8`, rotation about `(0, 1/2)` (with the coordinates swapped as the code
needs). -/
def plateInput : InputFields F64 :=
  ⟨⟨"out"⟩, ⟨some (-1), some 1, some 0, some 1, some 0, some 1, some 10, some 6, some 1⟩, ⟨some 0, some 1, some eighth, "YES"⟩,
    ⟨"CIRCULAR", [], [1 / 2, 0], "ANALYTICAL"⟩, ⟨"CIRCLE", ⟨0, 1 / 2, 0⟩, some eighth, ""⟩⟩

theorem plate_small : SmallStepBy (1 - 1 / 2 ^ 15) (exactReq plate (fun a => if a = 0 then -1 else 0) (fun _ => 1))
    (rotation ((884279719003555 / 2 ^ 48) / (315 / 100)) (1 / 2) 0) (1 / 8) := by
  rintro ⟨i, j, k⟩ ⟨⟨i0, i1⟩, ⟨j0, j1⟩, -⟩
  have i0' : (0 : ℚ) ≤ i := by exact_mod_cast i0
  have i1' : (i : ℚ) ≤ 9 := by
    have : i < 10 := i1
    exact_mod_cast (by omega : i ≤ 9)
  have j0' : (0 : ℚ) ≤ j := by exact_mod_cast j0
  have j1' : (j : ℚ) ≤ 5 := by
    have : j < 6 := j1
    exact_mod_cast (by omega : j ≤ 5)
  have c0 : (storedPos (exactReq plate (fun a => if a = 0 then -1 else 0) (fun _ => 1)) (i, j, k)).x = -1 + (i + 3 / 2) * (1 / 5) := by
    simp only [storedPos, exactReq, plate, Req.centre, Req.h, Vec3.get]
    norm_num
    ring
  have c1 : (storedPos (exactReq plate (fun a => if a = 0 then -1 else 0) (fun _ => 1)) (i, j, k)).y = (j + 3 / 2) * (1 / 6) := by
    simp only [storedPos, exactReq, plate, Req.centre, Req.h, Vec3.get]
    norm_num
    ring
  have d0 : (exactReq plate (fun a => if a = 0 then -1 else 0) (fun _ => 1)).h 0 = 1 / 5 := by
    simp only [exactReq, plate, Req.h, Vec3.get]
    norm_num
  have d1 : (exactReq plate (fun a => if a = 0 then -1 else 0) (fun _ => 1)).h 1 = 1 / 6 := by
    simp only [exactReq, plate, Req.h, Vec3.get]
    norm_num
  simp only [rotation, c0, c1, d0, d1, abs_le]
  norm_num
  refine ⟨⟨?_, ?_⟩, ⟨?_, ?_⟩⟩ <;> linarith

/-- A file system with nothing but its root. -/
def emptyFs : Fs (Content F64) := fun q => if q = [] then some .dir else none

theorem emptyFs_wf : WellFormed emptyFs := by
  constructor
  · rfl
  · intro p a h
    unfold emptyFs at h ⊢
    rcases p with - | ⟨b, p⟩
    · rfl
    · exfalso; apply h; simp

/-- Instance of C88: the run of the changed application on `plateInput` makes eight steps and writes its file. -/
example [HasSqrt F64] : let _ : HasPi F64 := ⟨piDouble⟩
    ∃ (a : App F64) (t : F64) (vel : LsVelocity F64) (ls : Levelset F64) (fs : Fs (Content F64)),
      appPrepareWith 2 .wrap plateInput = .ok a ∧
      (∀ out m, While (timeBody (appAdvance .tests .wrap a) a.dt a.tEnd) (0, (a.vel, a.ls)) out m ↔
        out = .ok (t, (vel, ls)) ∧ m = 8) ∧
      appFinish .wrap [] emptyFs a vel = .ok fs := by
  intro _
  obtain ⟨a, e, P, h1, h2, h3, h4⟩ := C88_prepared 2 plateInput 10 6 1 (-1) 1 0 1 0 1 0 1 eighth eighth rfl rfl rfl plate_valid
  have hd : a.dt = eighth := h4 (by decide)
  obtain ⟨-, t, q, vel, ls, -, -, k1, k2⟩ := C88_run_partial (884279719003555 / 2 ^ 48) ⟨false, _, _, rfl, rfl⟩ (by norm_num) (by norm_num)
    plate plate_valid (by decide) (fun b hb => by
      match b with
      | 0 => decide
      | 1 => decide
      | 2 => exact absurd hb (by decide)) _ _ plate_box plate_res a P (by rw [h2]; rfl) (1 / 2) 0 [] (by rw [h2]; rfl) (1 / 2) 0
    hasValue_half hasValue_zero (by
      rw [abs_of_pos (by norm_num)]
      exact le_trans (by norm_num) (one_le_pow₀ (by norm_num : (1 : ℚ) ≤ 2))) (by
      rw [abs_zero]
      positivity) (1 / 8) 1 (by rw [hd]; exact eighth_value) (by rw [h1]; exact hasValue_one) (by
      exact le_trans (two_zpow_le (b := -3) (by norm_num)) (by norm_num))
    (le_trans (by norm_num) (one_le_pow₀ (by norm_num : (1 : ℚ) ≤ 2))) (by
      rw [abs_one]
      exact one_le_pow₀ (by norm_num : (1 : ℚ) ≤ 2)) plate_small 8 (by norm_num) (by norm_num) (by norm_num) (by norm_num)
  have hp : resolve [] ("out" ++ "/") = [['o', 'u', 't']] := by decide
  have hp2 : resolve [] ("out" ++ "/" ++ "velocity") = [['o', 'u', 't'], "velocity".toList] := by decide
  obtain ⟨fs', -, -, f1, -⟩ := C88_file [] emptyFs emptyFs_wf plate plate_valid a P "out" h3 (by
    intro t ht
    rw [hp] at ht
    rcases List.prefix_cons_iff.1 ht with rfl | ⟨t, rfl, hs⟩
    · exact .inr rfl
    · rw [List.prefix_nil.1 hs]; left; rfl) (by rw [hp2]; unfold emptyFs; simp) _ _ _ _ _ vel k2
  exact ⟨a, t, vel, ls, fs', e, k1, f1⟩

end Gals.Props
