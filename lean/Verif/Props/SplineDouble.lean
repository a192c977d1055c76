import Verif.Lemmas.PointDouble

/-!
# C89: rounding errors of the Hermite interpolation of the library
-/

set_option linter.unusedSectionVars false
set_option linter.unusedSimpArgs false

namespace Gals.Props

open Gals Gals.Spec

theorem spline1 (r : Req F64) (h : r.Valid 1) (hpad : r.pad = 1) (lo hi : Fin 3 → ℚ) (hbox : BoxIs r 1 lo hi)
    (hside : ∀ a : Fin 3, a.val < 1 → Moderate (hi a - lo a)) (K : ℚ)
    (hres : ∀ a : Fin 3, a.val < 1 → r.n.get a * (|lo a| + (hi a - lo a)) ≤ K * (hi a - lo a)) (hK : K ≤ 2 ^ 28)
    (g : Grid F64 1) (e : r.make .wrap 1 = .ok g) (x : Vec3 F64) (q : Fin 3 → ℚ)
    (hx : ∀ a : Fin 3, a.val < 1 → HasValue (x.get a) (q a) ∧
      lo a - (1 / 2 - 1 / 2 ^ 16) * (axisOf r lo hi a).h ≤ q a ∧ q a ≤ hi a + (1 / 2 - 1 / 2 ^ 16) * (axisOf r lo hi a).h)
    (ls : Levelset F64) (phi : Cell → F64) (psi : Cell → Vec3 F64) (mix : Cell → List F64) (P : PrevIs .wrap r g ls phi psi mix)
    (D : Jet) (hD : JetIs r 1 phi psi mix D) (M : ℚ) (hM : Moderate M) (hDM : JetLe r 1 (axisOf r lo hi) D M) :
    ∃ (out : Interp F64) (v : ℚ), interpolate .wrap g ls x false = .ok out ∧ HasValue out.phi v ∧
      |v - jetSpline 1 (axisOf r lo hi) noD D q| ≤ 2 ^ 11 * K * M / 2 ^ 52 ∧
      (∀ a : Fin 3, 1 ≤ a.val → out.psi.get a = 0) ∧
      ∀ a : Fin 3, a.val < 1 → ∃ w : ℚ, HasValue (out.psi.get a) w ∧
        |w - jetSpline 1 (axisOf r lo hi) (oneD a) D q| * (axisOf r lo hi a).h ≤ 2 ^ 13 * K * M / 2 ^ 52 := by
  have G := make_made h e
  obtain ⟨b, η, eb, pt⟩ := point_double .wrap 1 r h hpad lo hi hbox K hres hK g e x q hx
  have hw : ∀ a : Fin 3, a.val < 1 → 0 < hi a - lo a := fun a ha => (two_zpow_pos _).trans_le (hside a ha).1
  have hnK : ∀ a : Fin 3, a.val < 1 → (r.n.get a : ℚ) ≤ K := fun a ha => res_n (hw a ha) (h.n_pos a) (hres a ha)
  have hn28 : ∀ a : Fin 3, a.val < 1 → (r.n.get a : ℚ) ≤ 2 ^ 28 := fun a ha => (hnK a ha).trans hK
  have hK1 : 1 ≤ K := by
    have : (1 : ℚ) ≤ r.n.get 0 := by exact_mod_cast h.n_pos 0
    exact this.trans (hnK 0 (by decide))
  have pM := moderate_pw hM
  have M0 := pM.pos
  have wd := fun a ha => width_apx h hbox G a ha
  have pw : ∀ a : Fin 3, a.val < 1 → Pw (axisOf r lo hi a).h (-328) 300 := fun a ha => width_pw h (hside a ha) (hn28 a ha)
  have near : NestNear 1 (fun a => (axisOf r lo hi a).coord (q a)) η (80 * K * ulp1) M b.get
      (fun a i => -1 ≤ i ∧ i ≤ r.n.get a) := by
    refine ⟨fun a ha => (pt a ha).2.2.1, fun a ha => ?_, fun a ha => ?_, fun a ha => ?_, fun a ha => ?_⟩
    · have := (pt a ha).1; omega
    · have := (pt a ha).1; omega
    · have := (pt a ha).2.1; omega
    · have := (pt a ha).2.1; omega
  have pd : ∀ i, -1 ≤ i → i ≤ r.n.get 0 → r.Padded 1 (i, 0, 0) := by
    intro i h1 h2
    refine padded_of h hpad ?_ ?_
    · intro a ha
      match a with
      | 0 => exact ⟨h1, h2⟩
      | 1 => exact absurd ha (by decide)
      | 2 => exact absurd ha (by decide)
    · intro a ha
      match a with
      | 0 => exact absurd ha (by decide)
      | 1 => rfl
      | 2 => rfl
  obtain ⟨⟨b1, b2⟩, -, np, vη⟩ := pt 0 (by decide)
  obtain ⟨x0, dX, iX⟩ : _ ∧ Apx g.dx.x _ _ _ _ ∧ Apx g.oneOverDx.x _ _ _ _ := wd 0 (by decide)
  have vX : HasValue ((x.x - (Grid.elem g g.boxMin g.dx (b.x, 0, 0)).x) * g.oneOverDx.x) (η 0) := vη (b.x, 0, 0) rfl
  have pX := pw 0 (by decide)
  have le := fun i h1 h2 α => jet_le hDM (pd i h1 h2) α 0 0 (fun _ => rfl) (fun _ => rfl) (by decide)
  have nd : ∀ i, -1 ≤ i → i ≤ r.n.get 0 →
      Node1Is ⟨phi (i, 0, 0), psi (i, 0, 0)⟩ (jnode1 D (i, 0, 0)) M (axisOf r lo hi 0).h := by
    intro i h1 h2
    have k0 := le i h1 h2 0
    have k1 := le i h1 h2 1
    simp only [Fin.val_zero, Fin.val_one, pow_zero, pow_one, mul_one] at k0 k1
    refine ⟨Apx.exact (hD.phi _ (pd i h1 h2)) (by rw [one_mul]; exact k0), apx_data (hD.psi _ (pd i h1 h2) 0 (by decide)) x0 k1⟩
  have ev := interp1_value G h P eb (fun a ha => by have := (pt a ha).1; rw [hpad]; omega) false
  have n0 := nd b.x b1 (by have : b.x + 1 ≤ r.n.get 0 := b2; omega)
  have n1 := nd (b.x + 1) (by have : -1 ≤ b.x := b1; omega) b2
  have val := apx_kernel1 (inv := g.oneOverDx.x) (J := 1 / (axisOf r lo hi 0).h) dX x0 pM.scaled vX np.cell n0 n1
  have grd := apx_kernel1_x dX iX x0 pM.scaled (pM.div pX).scaled vX np.cell n0 n1
  have kn := kernel1_nest D (fun a => (axisOf r lo hi a).h) (1 / (axisOf r lo hi 0).h) η b.get
  have eq : kernel1 (axisOf r lo hi 0).h (1 / (axisOf r lo hi 0).h) (η 0) (jnode1 D (b.x, 0, 0)) (jnode1 D (b.x + 1, 0, 0)) false = _ := kn
  rw [eq] at val grd
  have hS : ∀ α i, (-1 ≤ i ∧ i ≤ r.n.get 0) → |scaleJet (fun a => (axisOf r lo hi a).h) D α 0 0 (i, 0, 0)| ≤ M := by
    intro α i hi'
    refine scaleJet_abs ?_ (le i hi'.1 hi'.2 α)
    simp only [Fin.val_zero, pow_zero, mul_one]
    exact pow_nonneg x0.le _
  obtain ⟨⟨v, hv, rv⟩, -⟩ := val
  refine ⟨_, v, ev, hv, ?_, ?_, ?_⟩
  · rw [jetSpline1_no]
    exact combine_val 18 rv (nest1_near noD near hS) (le_of_eq (by norm_num [noD, hL])) M0 hK1 (by norm_num) (by norm_num)
  · intro a ha
    match a with
    | 0 => exact absurd ha (by decide)
    | 1 => rfl
    | 2 => rfl
  · intro a ha
    match a with
    | 1 => exact absurd ha (by decide)
    | 2 => exact absurd ha (by decide)
    | 0 =>
      obtain ⟨⟨w, hw', rw'⟩, -⟩ := grd
      refine ⟨w, hw', ?_⟩
      rw [jetSpline1_x]
      exact combine_grad 72 x0 rw' (nest1_near (oneD 0) near hS) (le_of_eq (by norm_num [oneD, hL])) M0 hK1 (by norm_num) (by norm_num)

theorem spline2 (r : Req F64) (h : r.Valid 2) (hpad : r.pad = 1) (lo hi : Fin 3 → ℚ) (hbox : BoxIs r 2 lo hi)
    (hside : ∀ a : Fin 3, a.val < 2 → Moderate (hi a - lo a)) (K : ℚ)
    (hres : ∀ a : Fin 3, a.val < 2 → r.n.get a * (|lo a| + (hi a - lo a)) ≤ K * (hi a - lo a)) (hK : K ≤ 2 ^ 28)
    (g : Grid F64 2) (e : r.make .wrap 2 = .ok g) (x : Vec3 F64) (q : Fin 3 → ℚ)
    (hx : ∀ a : Fin 3, a.val < 2 → HasValue (x.get a) (q a) ∧
      lo a - (1 / 2 - 1 / 2 ^ 16) * (axisOf r lo hi a).h ≤ q a ∧ q a ≤ hi a + (1 / 2 - 1 / 2 ^ 16) * (axisOf r lo hi a).h)
    (ls : Levelset F64) (phi : Cell → F64) (psi : Cell → Vec3 F64) (mix : Cell → List F64) (P : PrevIs .wrap r g ls phi psi mix)
    (D : Jet) (hD : JetIs r 2 phi psi mix D) (M : ℚ) (hM : Moderate M) (hDM : JetLe r 2 (axisOf r lo hi) D M) :
    ∃ (out : Interp F64) (v : ℚ), interpolate .wrap g ls x false = .ok out ∧ HasValue out.phi v ∧
      |v - jetSpline 2 (axisOf r lo hi) noD D q| ≤ 2 ^ 14 * K * M / 2 ^ 52 ∧
      (∀ a : Fin 3, 2 ≤ a.val → out.psi.get a = 0) ∧
      ∀ a : Fin 3, a.val < 2 → ∃ w : ℚ, HasValue (out.psi.get a) w ∧
        |w - jetSpline 2 (axisOf r lo hi) (oneD a) D q| * (axisOf r lo hi a).h ≤ 2 ^ 16 * K * M / 2 ^ 52 := by
  have G := make_made h e
  obtain ⟨b, η, eb, pt⟩ := point_double .wrap 2 r h hpad lo hi hbox K hres hK g e x q hx
  have hw : ∀ a : Fin 3, a.val < 2 → 0 < hi a - lo a := fun a ha => (two_zpow_pos _).trans_le (hside a ha).1
  have hnK : ∀ a : Fin 3, a.val < 2 → (r.n.get a : ℚ) ≤ K := fun a ha => res_n (hw a ha) (h.n_pos a) (hres a ha)
  have hn28 : ∀ a : Fin 3, a.val < 2 → (r.n.get a : ℚ) ≤ 2 ^ 28 := fun a ha => (hnK a ha).trans hK
  have hK1 : 1 ≤ K := by
    have : (1 : ℚ) ≤ r.n.get 0 := by exact_mod_cast h.n_pos 0
    exact this.trans (hnK 0 (by decide))
  have pM := moderate_pw hM
  have M0 := pM.pos
  have wd := fun a ha => width_apx h hbox G a ha
  have pw : ∀ a : Fin 3, a.val < 2 → Pw (axisOf r lo hi a).h (-328) 300 := fun a ha => width_pw h (hside a ha) (hn28 a ha)
  have near : NestNear 2 (fun a => (axisOf r lo hi a).coord (q a)) η (80 * K * ulp1) M b.get
      (fun a i => -1 ≤ i ∧ i ≤ r.n.get a) := by
    refine ⟨fun a ha => (pt a ha).2.2.1, fun a ha => ?_, fun a ha => ?_, fun a ha => ?_, fun a ha => ?_⟩
    · have := (pt a ha).1; omega
    · have := (pt a ha).1; omega
    · have := (pt a ha).2.1; omega
    · have := (pt a ha).2.1; omega
  have pd : ∀ i j : ℤ, (-1 ≤ i ∧ i ≤ r.n.get 0) → (-1 ≤ j ∧ j ≤ r.n.get 1) → r.Padded 2 (i, j, 0) := by
    intro i j r0 r1
    refine padded_of h hpad ?_ ?_
    · intro a ha
      match a with
      | 0 => exact r0
      | 1 => exact r1
      | 2 => exact absurd ha (by decide)
    · intro a ha
      match a with
      | 0 => exact absurd ha (by decide)
      | 1 => exact absurd ha (by decide)
      | 2 => rfl
  obtain ⟨⟨b0, c0⟩, -, np0, vη0⟩ := pt 0 (by decide)
  obtain ⟨p0, dX, iX⟩ : 0 < (widths (axisOf r lo hi)).x ∧ Apx g.dx.x _ _ _ (widths (axisOf r lo hi)).x ∧ Apx g.oneOverDx.x _ _ _ _ := wd 0 (by decide)
  have vX : HasValue ((x.sub (Grid.elem g g.boxMin g.dx (b.x, b.y, 0))).mul g.oneOverDx).x (vec η).x := vη0 (b.x, b.y, 0) rfl
  have wX : Pw (widths (axisOf r lo hi)).x (-328) 300 := pw 0 (by decide)
  have nX : NearCell (vec η).x := np0.cell
  obtain ⟨⟨b1, c1⟩, -, np1, vη1⟩ := pt 1 (by decide)
  obtain ⟨p1, dY, iY⟩ : 0 < (widths (axisOf r lo hi)).y ∧ Apx g.dx.y _ _ _ (widths (axisOf r lo hi)).y ∧ Apx g.oneOverDx.y _ _ _ _ := wd 1 (by decide)
  have vY : HasValue ((x.sub (Grid.elem g g.boxMin g.dx (b.x, b.y, 0))).mul g.oneOverDx).y (vec η).y := vη1 (b.x, b.y, 0) rfl
  have wY : Pw (widths (axisOf r lo hi)).y (-328) 300 := pw 1 (by decide)
  have nY : NearCell (vec η).y := np1.cell
  have le := fun i j r0 r1 α β => jet_le hDM (pd i j r0 r1) α β 0 (fun h => absurd h (by decide)) (fun _ => rfl) (by decide)
  let xy : Cell → F64 := fun c => (mix c).getD 0 (phi c)
  have hm : ∀ c, r.Padded 2 c → mix c = [xy c] := fun c hc => (forall₂_one (phi c) (hD.mix c hc)).1
  have nd : ∀ i j : ℤ, (-1 ≤ i ∧ i ≤ r.n.get 0) → (-1 ≤ j ∧ j ≤ r.n.get 1) → Node2Is ⟨phi (i, j, 0), psi (i, j, 0), xy (i, j, 0)⟩ (jnode2 D (i, j, 0)) M (widths (axisOf r lo hi)).x (widths (axisOf r lo hi)).y := by
    intro i j r0 r1
    have k_phi : |D 0 0 0 (i, j, 0)| ≤ M := by
      have := le i j r0 r1 0 0
      simp only [Fin.val_zero, Fin.val_one, pow_zero, pow_one, mul_one, one_mul] at this
      exact this
    have k_x : |D 1 0 0 (i, j, 0)| * ((widths (axisOf r lo hi)).x) ≤ M := by
      have := le i j r0 r1 1 0
      simp only [Fin.val_zero, Fin.val_one, pow_zero, pow_one, mul_one, one_mul] at this
      exact this
    have k_y : |D 0 1 0 (i, j, 0)| * ((widths (axisOf r lo hi)).y) ≤ M := by
      have := le i j r0 r1 0 1
      simp only [Fin.val_zero, Fin.val_one, pow_zero, pow_one, mul_one, one_mul] at this
      exact this
    have k_xy : |D 1 1 0 (i, j, 0)| * ((widths (axisOf r lo hi)).x * (widths (axisOf r lo hi)).y) ≤ M := by
      have := le i j r0 r1 1 1
      simp only [Fin.val_zero, Fin.val_one, pow_zero, pow_one, mul_one, one_mul] at this
      exact this
    have m := hD.mix (i, j, 0) (pd i j r0 r1)
    have m1 := (forall₂_one (phi (i, j, 0)) m).2
    exact ⟨Apx.exact (hD.phi _ (pd i j r0 r1)) (by rw [one_mul]; exact k_phi),
      apx_data (hD.psi _ (pd i j r0 r1) 0 (by decide)) p0 k_x,
      apx_data (hD.psi _ (pd i j r0 r1) 1 (by decide)) p1 k_y,
      apx_data m1 (mul_pos p0 p1) k_xy⟩
  have ev := interp2_value G h hm P eb (fun a ha => by have := (pt a ha).1; rw [hpad]; omega) false
  have s0 : -1 ≤ b.x ∧ b.x ≤ r.n.get 0 := by
    have t1 : -1 ≤ b.x := b0
    have t2 : b.x + 1 ≤ r.n.get 0 := c0
    omega
  have t0 : -1 ≤ b.x + 1 ∧ b.x + 1 ≤ r.n.get 0 := by
    have t1 : -1 ≤ b.x := b0
    have t2 : b.x + 1 ≤ r.n.get 0 := c0
    omega
  have s1 : -1 ≤ b.y ∧ b.y ≤ r.n.get 1 := by
    have t1 : -1 ≤ b.y := b1
    have t2 : b.y + 1 ≤ r.n.get 1 := c1
    omega
  have t1 : -1 ≤ b.y + 1 ∧ b.y + 1 ≤ r.n.get 1 := by
    have t1 : -1 ≤ b.y := b1
    have t2 : b.y + 1 ≤ r.n.get 1 := c1
    omega
  have n00 := nd _ _ s0 s1
  have n10 := nd _ _ t0 s1
  have n01 := nd _ _ s0 t1
  have n11 := nd _ _ t0 t1
  let J : Vec3 ℚ := ⟨1 / (widths (axisOf r lo hi)).x, 1 / (widths (axisOf r lo hi)).y, 1 / (widths (axisOf r lo hi)).z⟩
  have kn := kernel2_nest D (widths (axisOf r lo hi)) J (vec η) b.get
  rw [widths_get, vec_get] at kn
  have val := apx_kernel2 (inv := g.oneOverDx) (J := J) dX dY wX.scaled wY.scaled pM.scaled (pM.div wX).scaled (pM.div wY).scaled vX vY nX nY n00 n10 n01 n11
  have g0 := apx_kernel2_x dX dY iX wX.scaled wY.scaled pM.scaled (pM.div wX).scaled (pM.div wY).scaled vX vY nX nY n00 n10 n01 n11 (J := J) rfl
  have g1 := apx_kernel2_y dX dY iY wX.scaled wY.scaled pM.scaled (pM.div wX).scaled (pM.div wY).scaled vX vY nX nY n00 n10 n01 n11 (J := J) rfl
  have eq : kernel2 (widths (axisOf r lo hi)) J (vec η) (jnode2 D (b.x, b.y, 0)) (jnode2 D (b.x + 1, b.y, 0)) (jnode2 D (b.x, b.y + 1, 0)) (jnode2 D (b.x + 1, b.y + 1, 0)) false = _ := kn
  rw [eq] at val g0 g1
  have hS : ∀ α β i j, (-1 ≤ i ∧ i ≤ r.n.get 0) → (-1 ≤ j ∧ j ≤ r.n.get 1) → |scaleJet (fun a => (axisOf r lo hi a).h) D α β 0 (i, j, 0)| ≤ M := by
    intro α β i j r0 r1
    refine scaleJet_abs ?_ (le i j r0 r1 α β)
    simp only [Fin.val_zero, pow_zero, mul_one]
    exact mul_nonneg (pow_nonneg p0.le _) (pow_nonneg p1.le _)
  obtain ⟨⟨v, hv, rv⟩, -⟩ := val
  refine ⟨_, v, ev, hv, ?_, ?_, ?_⟩
  · rw [jetSpline2_no]
    exact combine_val (90) rv (nest2_near noD near hS) (le_of_eq (by norm_num [noD, hL, hC]; ring)) M0 hK1 (by norm_num) (by norm_num)
  · intro a ha
    match a with
    | 0 => exact absurd ha (by decide)
    | 1 => exact absurd ha (by decide)
    | 2 => rfl
  · intro a ha
    match a with
    | 0 =>
      obtain ⟨⟨w, hw', rw'⟩, -⟩ := g0
      refine ⟨w, hw', ?_⟩
      rw [jetSpline2_x]
      exact combine_grad (288) p0 rw' (nest2_near (oneD 0) near hS) (le_of_eq (by rw [show oneD 0 0 = 1 from rfl, show oneD 0 1 = 0 from rfl]; norm_num [hL, hC]; ring)) M0 hK1 (by norm_num) (by norm_num)
    | 1 =>
      obtain ⟨⟨w, hw', rw'⟩, -⟩ := g1
      refine ⟨w, hw', ?_⟩
      rw [jetSpline2_y]
      exact combine_grad (288) p1 rw' (nest2_near (oneD 1) near hS) (le_of_eq (by rw [show oneD 1 0 = 0 from rfl, show oneD 1 1 = 1 from rfl]; norm_num [hL, hC]; ring)) M0 hK1 (by norm_num) (by norm_num)
    | 2 => exact absurd ha (by decide)

theorem spline3 (s : IntSem) (r : Req F64) (h : r.Valid 3) (hpad : r.pad = 1) (lo hi : Fin 3 → ℚ) (hbox : BoxIs r 3 lo hi)
    (hside : ∀ a : Fin 3, a.val < 3 → Moderate (hi a - lo a)) (K : ℚ)
    (hres : ∀ a : Fin 3, a.val < 3 → r.n.get a * (|lo a| + (hi a - lo a)) ≤ K * (hi a - lo a)) (hK : K ≤ 2 ^ 28)
    (g : Grid F64 3) (e : r.make s 3 = .ok g) (x : Vec3 F64) (q : Fin 3 → ℚ)
    (hx : ∀ a : Fin 3, a.val < 3 → HasValue (x.get a) (q a) ∧
      lo a - (1 / 2 - 1 / 2 ^ 16) * (axisOf r lo hi a).h ≤ q a ∧ q a ≤ hi a + (1 / 2 - 1 / 2 ^ 16) * (axisOf r lo hi a).h)
    (ls : Levelset F64) (phi : Cell → F64) (psi : Cell → Vec3 F64) (mix : Cell → List F64) (P : PrevIs s r g ls phi psi mix)
    (D : Jet) (hD : JetIs r 3 phi psi mix D) (M : ℚ) (hM : Moderate M) (hDM : JetLe r 3 (axisOf r lo hi) D M) :
    ∃ (out : Interp F64) (v : ℚ), interpolate s g ls x false = .ok out ∧ HasValue out.phi v ∧
      |v - jetSpline 3 (axisOf r lo hi) noD D q| ≤ 2 ^ 17 * K * M / 2 ^ 52 ∧
      (∀ a : Fin 3, 3 ≤ a.val → out.psi.get a = 0) ∧
      ∀ a : Fin 3, a.val < 3 → ∃ w : ℚ, HasValue (out.psi.get a) w ∧
        |w - jetSpline 3 (axisOf r lo hi) (oneD a) D q| * (axisOf r lo hi a).h ≤ 2 ^ 19 * K * M / 2 ^ 52 := by
  have G := make_made h e
  obtain ⟨b, η, eb, pt⟩ := point_double s 3 r h hpad lo hi hbox K hres hK g e x q hx
  have hw : ∀ a : Fin 3, a.val < 3 → 0 < hi a - lo a := fun a ha => (two_zpow_pos _).trans_le (hside a ha).1
  have hnK : ∀ a : Fin 3, a.val < 3 → (r.n.get a : ℚ) ≤ K := fun a ha => res_n (hw a ha) (h.n_pos a) (hres a ha)
  have hn28 : ∀ a : Fin 3, a.val < 3 → (r.n.get a : ℚ) ≤ 2 ^ 28 := fun a ha => (hnK a ha).trans hK
  have hK1 : 1 ≤ K := by
    have : (1 : ℚ) ≤ r.n.get 0 := by exact_mod_cast h.n_pos 0
    exact this.trans (hnK 0 (by decide))
  have pM := moderate_pw hM
  have M0 := pM.pos
  have wd := fun a ha => width_apx h hbox G a ha
  have pw : ∀ a : Fin 3, a.val < 3 → Pw (axisOf r lo hi a).h (-328) 300 := fun a ha => width_pw h (hside a ha) (hn28 a ha)
  have near : NestNear 3 (fun a => (axisOf r lo hi a).coord (q a)) η (80 * K * ulp1) M b.get
      (fun a i => -1 ≤ i ∧ i ≤ r.n.get a) := by
    refine ⟨fun a ha => (pt a ha).2.2.1, fun a ha => ?_, fun a ha => ?_, fun a ha => ?_, fun a ha => ?_⟩
    · have := (pt a ha).1; omega
    · have := (pt a ha).1; omega
    · have := (pt a ha).2.1; omega
    · have := (pt a ha).2.1; omega
  have pd : ∀ i j k : ℤ, (-1 ≤ i ∧ i ≤ r.n.get 0) → (-1 ≤ j ∧ j ≤ r.n.get 1) → (-1 ≤ k ∧ k ≤ r.n.get 2) → r.Padded 3 (i, j, k) := by
    intro i j k r0 r1 r2
    refine padded_of h hpad ?_ ?_
    · intro a ha
      match a with
      | 0 => exact r0
      | 1 => exact r1
      | 2 => exact r2
    · intro a ha
      match a with
      | 0 => exact absurd ha (by decide)
      | 1 => exact absurd ha (by decide)
      | 2 => exact absurd ha (by decide)
  obtain ⟨⟨b0, c0⟩, -, np0, vη0⟩ := pt 0 (by decide)
  obtain ⟨p0, dX, iX⟩ : 0 < (widths (axisOf r lo hi)).x ∧ Apx g.dx.x _ _ _ (widths (axisOf r lo hi)).x ∧ Apx g.oneOverDx.x _ _ _ _ := wd 0 (by decide)
  have vX : HasValue ((x.sub (Grid.elem g g.boxMin g.dx (b.x, b.y, b.z))).mul g.oneOverDx).x (vec η).x := vη0 (b.x, b.y, b.z) rfl
  have wX : Pw (widths (axisOf r lo hi)).x (-328) 300 := pw 0 (by decide)
  have nX : NearCell (vec η).x := np0.cell
  obtain ⟨⟨b1, c1⟩, -, np1, vη1⟩ := pt 1 (by decide)
  obtain ⟨p1, dY, iY⟩ : 0 < (widths (axisOf r lo hi)).y ∧ Apx g.dx.y _ _ _ (widths (axisOf r lo hi)).y ∧ Apx g.oneOverDx.y _ _ _ _ := wd 1 (by decide)
  have vY : HasValue ((x.sub (Grid.elem g g.boxMin g.dx (b.x, b.y, b.z))).mul g.oneOverDx).y (vec η).y := vη1 (b.x, b.y, b.z) rfl
  have wY : Pw (widths (axisOf r lo hi)).y (-328) 300 := pw 1 (by decide)
  have nY : NearCell (vec η).y := np1.cell
  obtain ⟨⟨b2, c2⟩, -, np2, vη2⟩ := pt 2 (by decide)
  obtain ⟨p2, dZ, iZ⟩ : 0 < (widths (axisOf r lo hi)).z ∧ Apx g.dx.z _ _ _ (widths (axisOf r lo hi)).z ∧ Apx g.oneOverDx.z _ _ _ _ := wd 2 (by decide)
  have vZ : HasValue ((x.sub (Grid.elem g g.boxMin g.dx (b.x, b.y, b.z))).mul g.oneOverDx).z (vec η).z := vη2 (b.x, b.y, b.z) rfl
  have wZ : Pw (widths (axisOf r lo hi)).z (-328) 300 := pw 2 (by decide)
  have nZ : NearCell (vec η).z := np2.cell
  have le := fun i j k r0 r1 r2 α β γ => jet_le hDM (pd i j k r0 r1 r2) α β γ (fun h => absurd h (by decide)) (fun h => absurd h (by decide)) (by decide)
  let xy : Cell → F64 := fun c => (mix c).getD 0 (phi c)
  let yz : Cell → F64 := fun c => (mix c).getD 1 (phi c)
  let zx : Cell → F64 := fun c => (mix c).getD 2 (phi c)
  let xyz : Cell → F64 := fun c => (mix c).getD 3 (phi c)
  have hm : ∀ c, r.Padded 3 c → mix c = [xy c, yz c, zx c, xyz c] := fun c hc => (forall₂_four (phi c) (hD.mix c hc)).1
  have nd : ∀ i j k : ℤ, (-1 ≤ i ∧ i ≤ r.n.get 0) → (-1 ≤ j ∧ j ≤ r.n.get 1) → (-1 ≤ k ∧ k ≤ r.n.get 2) → Node3Is ⟨phi (i, j, k), psi (i, j, k), xy (i, j, k), yz (i, j, k), zx (i, j, k), xyz (i, j, k)⟩ (jnode3 D (i, j, k)) M (widths (axisOf r lo hi)).x (widths (axisOf r lo hi)).y (widths (axisOf r lo hi)).z := by
    intro i j k r0 r1 r2
    have k_phi : |D 0 0 0 (i, j, k)| ≤ M := by
      have := le i j k r0 r1 r2 0 0 0
      simp only [Fin.val_zero, Fin.val_one, pow_zero, pow_one, mul_one, one_mul] at this
      exact this
    have k_x : |D 1 0 0 (i, j, k)| * ((widths (axisOf r lo hi)).x) ≤ M := by
      have := le i j k r0 r1 r2 1 0 0
      simp only [Fin.val_zero, Fin.val_one, pow_zero, pow_one, mul_one, one_mul] at this
      exact this
    have k_y : |D 0 1 0 (i, j, k)| * ((widths (axisOf r lo hi)).y) ≤ M := by
      have := le i j k r0 r1 r2 0 1 0
      simp only [Fin.val_zero, Fin.val_one, pow_zero, pow_one, mul_one, one_mul] at this
      exact this
    have k_z : |D 0 0 1 (i, j, k)| * ((widths (axisOf r lo hi)).z) ≤ M := by
      have := le i j k r0 r1 r2 0 0 1
      simp only [Fin.val_zero, Fin.val_one, pow_zero, pow_one, mul_one, one_mul] at this
      exact this
    have k_xy : |D 1 1 0 (i, j, k)| * ((widths (axisOf r lo hi)).x * (widths (axisOf r lo hi)).y) ≤ M := by
      have := le i j k r0 r1 r2 1 1 0
      simp only [Fin.val_zero, Fin.val_one, pow_zero, pow_one, mul_one, one_mul] at this
      exact this
    have k_yz : |D 0 1 1 (i, j, k)| * ((widths (axisOf r lo hi)).y * (widths (axisOf r lo hi)).z) ≤ M := by
      have := le i j k r0 r1 r2 0 1 1
      simp only [Fin.val_zero, Fin.val_one, pow_zero, pow_one, mul_one, one_mul] at this
      exact this
    have k_zx : |D 1 0 1 (i, j, k)| * ((widths (axisOf r lo hi)).z * (widths (axisOf r lo hi)).x) ≤ M := by
      have := le i j k r0 r1 r2 1 0 1
      simp only [Fin.val_zero, Fin.val_one, pow_zero, pow_one, mul_one, one_mul] at this
      rw [mul_comm (widths (axisOf r lo hi)).z]
      exact this
    have k_xyz : |D 1 1 1 (i, j, k)| * ((widths (axisOf r lo hi)).x * (widths (axisOf r lo hi)).y * (widths (axisOf r lo hi)).z) ≤ M := by
      have := le i j k r0 r1 r2 1 1 1
      simp only [Fin.val_zero, Fin.val_one, pow_zero, pow_one, mul_one, one_mul] at this
      exact this
    have m := hD.mix (i, j, k) (pd i j k r0 r1 r2)
    obtain ⟨-, m1, m2, m3, m4⟩ := forall₂_four (phi (i, j, k)) m
    exact ⟨Apx.exact (hD.phi _ (pd i j k r0 r1 r2)) (by rw [one_mul]; exact k_phi),
      apx_data (hD.psi _ (pd i j k r0 r1 r2) 0 (by decide)) p0 k_x,
      apx_data (hD.psi _ (pd i j k r0 r1 r2) 1 (by decide)) p1 k_y,
      apx_data (hD.psi _ (pd i j k r0 r1 r2) 2 (by decide)) p2 k_z,
      apx_data m1 (mul_pos p0 p1) k_xy,
      apx_data m2 (mul_pos p1 p2) k_yz,
      apx_data m3 (mul_pos p2 p0) k_zx,
      apx_data m4 (mul_pos (mul_pos p0 p1) p2) k_xyz⟩
  have ev := interp3_value G h hm P eb (fun a ha => by have := (pt a ha).1; rw [hpad]; omega) false
  have s0 : -1 ≤ b.x ∧ b.x ≤ r.n.get 0 := by
    have t1 : -1 ≤ b.x := b0
    have t2 : b.x + 1 ≤ r.n.get 0 := c0
    omega
  have t0 : -1 ≤ b.x + 1 ∧ b.x + 1 ≤ r.n.get 0 := by
    have t1 : -1 ≤ b.x := b0
    have t2 : b.x + 1 ≤ r.n.get 0 := c0
    omega
  have s1 : -1 ≤ b.y ∧ b.y ≤ r.n.get 1 := by
    have t1 : -1 ≤ b.y := b1
    have t2 : b.y + 1 ≤ r.n.get 1 := c1
    omega
  have t1 : -1 ≤ b.y + 1 ∧ b.y + 1 ≤ r.n.get 1 := by
    have t1 : -1 ≤ b.y := b1
    have t2 : b.y + 1 ≤ r.n.get 1 := c1
    omega
  have s2 : -1 ≤ b.z ∧ b.z ≤ r.n.get 2 := by
    have t1 : -1 ≤ b.z := b2
    have t2 : b.z + 1 ≤ r.n.get 2 := c2
    omega
  have t2 : -1 ≤ b.z + 1 ∧ b.z + 1 ≤ r.n.get 2 := by
    have t1 : -1 ≤ b.z := b2
    have t2 : b.z + 1 ≤ r.n.get 2 := c2
    omega
  have n000 := nd _ _ _ s0 s1 s2
  have n100 := nd _ _ _ t0 s1 s2
  have n010 := nd _ _ _ s0 t1 s2
  have n001 := nd _ _ _ s0 s1 t2
  have n110 := nd _ _ _ t0 t1 s2
  have n011 := nd _ _ _ s0 t1 t2
  have n101 := nd _ _ _ t0 s1 t2
  have n111 := nd _ _ _ t0 t1 t2
  let J : Vec3 ℚ := ⟨1 / (widths (axisOf r lo hi)).x, 1 / (widths (axisOf r lo hi)).y, 1 / (widths (axisOf r lo hi)).z⟩
  have kn := kernel3_nest D (widths (axisOf r lo hi)) J (vec η) b.get
  rw [widths_get, vec_get] at kn
  have val := apx_kernel3 (inv := g.oneOverDx) (J := J) dX dY dZ wX.scaled wY.scaled wZ.scaled (wX.mul wY).scaled pM.scaled (pM.div wX).scaled (pM.div wY).scaled (pM.div wZ).scaled (pM.div (wX.mul wY)).scaled vX vY vZ nX nY nZ n000 n100 n010 n001 n110 n011 n101 n111
  have g0 := apx_kernel3_x dX dY dZ iX wX.scaled wY.scaled wZ.scaled (wX.mul wY).scaled pM.scaled (pM.div wX).scaled (pM.div wY).scaled (pM.div wZ).scaled (pM.div (wX.mul wY)).scaled vX vY vZ nX nY nZ n000 n100 n010 n001 n110 n011 n101 n111 (J := J) rfl
  have g1 := apx_kernel3_y dX dY dZ iY wX.scaled wY.scaled wZ.scaled (wX.mul wY).scaled pM.scaled (pM.div wX).scaled (pM.div wY).scaled (pM.div wZ).scaled (pM.div (wX.mul wY)).scaled vX vY vZ nX nY nZ n000 n100 n010 n001 n110 n011 n101 n111 (J := J) rfl
  have g2 := apx_kernel3_z dX dY dZ iZ wX.scaled wY.scaled wZ.scaled (wX.mul wY).scaled pM.scaled (pM.div wX).scaled (pM.div wY).scaled (pM.div wZ).scaled (pM.div (wX.mul wY)).scaled vX vY vZ nX nY nZ n000 n100 n010 n001 n110 n011 n101 n111 (J := J) rfl
  have eq : kernel3 (widths (axisOf r lo hi)) J (vec η) (jnode3 D (b.x, b.y, b.z)) (jnode3 D (b.x + 1, b.y, b.z)) (jnode3 D (b.x, b.y + 1, b.z)) (jnode3 D (b.x, b.y, b.z + 1)) (jnode3 D (b.x + 1, b.y + 1, b.z)) (jnode3 D (b.x, b.y + 1, b.z + 1)) (jnode3 D (b.x + 1, b.y, b.z + 1)) (jnode3 D (b.x + 1, b.y + 1, b.z + 1)) false = _ := kn
  rw [eq] at val g0 g1 g2
  have hS : ∀ α β γ i j k, (-1 ≤ i ∧ i ≤ r.n.get 0) → (-1 ≤ j ∧ j ≤ r.n.get 1) → (-1 ≤ k ∧ k ≤ r.n.get 2) → |scaleJet (fun a => (axisOf r lo hi a).h) D α β γ (i, j, k)| ≤ M := by
    intro α β γ i j k r0 r1 r2
    refine scaleJet_abs ?_ (le i j k r0 r1 r2 α β γ)
    exact mul_nonneg (mul_nonneg (pow_nonneg p0.le _) (pow_nonneg p1.le _)) (pow_nonneg p2.le _)
  obtain ⟨⟨v, hv, rv⟩, -⟩ := val
  refine ⟨_, v, ev, hv, ?_, ?_, ?_⟩
  · rw [jetSpline3_no]
    exact combine_val (675 / 2) rv (nest3_near noD near hS) (le_of_eq (by norm_num [noD, hL, hC]; ring)) M0 hK1 (by norm_num) (by norm_num)
  · intro a ha
    match a with
    | 0 => exact absurd ha (by decide)
    | 1 => exact absurd ha (by decide)
    | 2 => exact absurd ha (by decide)
  · intro a ha
    match a with
    | 0 =>
      obtain ⟨⟨w, hw', rw'⟩, -⟩ := g0
      refine ⟨w, hw', ?_⟩
      rw [jetSpline3_x]
      exact combine_grad (990) p0 rw' (nest3_near (oneD 0) near hS) (le_of_eq (by rw [show oneD 0 0 = 1 from rfl, show oneD 0 1 = 0 from rfl, show oneD 0 2 = 0 from rfl]; norm_num [hL, hC]; ring)) M0 hK1 (by norm_num) (by norm_num)
    | 1 =>
      obtain ⟨⟨w, hw', rw'⟩, -⟩ := g1
      refine ⟨w, hw', ?_⟩
      rw [jetSpline3_y]
      exact combine_grad (990) p1 rw' (nest3_near (oneD 1) near hS) (le_of_eq (by rw [show oneD 1 0 = 0 from rfl, show oneD 1 1 = 1 from rfl, show oneD 1 2 = 0 from rfl]; norm_num [hL, hC]; ring)) M0 hK1 (by norm_num) (by norm_num)
    | 2 =>
      obtain ⟨⟨w, hw', rw'⟩, -⟩ := g2
      refine ⟨w, hw', ?_⟩
      rw [jetSpline3_z]
      exact combine_grad (990) p2 rw' (nest3_near (oneD 2) near hS) (le_of_eq (by rw [show oneD 2 0 = 0 from rfl, show oneD 2 1 = 0 from rfl, show oneD 2 2 = 1 from rfl]; norm_num [hL, hC]; ring)) M0 hK1 (by norm_num) (by norm_num)

/-- C89. The interpolation of the library in double arithmetic is the Hermite spline through the stored data up to an error of
`2 ^ (8 + 3 d) K` units in the last place of the largest data, and its gradient up to `2 ^ (10 + 3 d) K` of them (zero along unused axes).  `M` bounds the
data, the derivatives times the widths of the cells; `K` is the number of cells along an axis, times the distance of the box
from the origin in sides of the box. -/
theorem C89_interpolation (s : IntSem) (d : ℕ) (hs : d < 3 → s = .wrap) (r : Req F64) (h : r.Valid d) (hpad : r.pad = 1)
    (lo hi : Fin 3 → ℚ) (hbox : BoxIs r d lo hi)
    (hside : ∀ a : Fin 3, a.val < d → Moderate (hi a - lo a)) (K : ℚ)
    (hres : ∀ a : Fin 3, a.val < d → r.n.get a * (|lo a| + (hi a - lo a)) ≤ K * (hi a - lo a)) (hK : K ≤ 2 ^ 28)
    (g : Grid F64 d) (e : r.make s d = .ok g) (x : Vec3 F64) (q : Fin 3 → ℚ)
    (hx : ∀ a : Fin 3, a.val < d → HasValue (x.get a) (q a) ∧
      lo a - (1 / 2 - 1 / 2 ^ 16) * (axisOf r lo hi a).h ≤ q a ∧ q a ≤ hi a + (1 / 2 - 1 / 2 ^ 16) * (axisOf r lo hi a).h)
    (ls : Levelset F64) (phi : Cell → F64) (psi : Cell → Vec3 F64) (mix : Cell → List F64) (P : PrevIs s r g ls phi psi mix)
    (D : Jet) (hD : JetIs r d phi psi mix D) (M : ℚ) (hM : Moderate M) (hDM : JetLe r d (axisOf r lo hi) D M) :
    ∃ (out : Interp F64) (v : ℚ), interpolate s g ls x false = .ok out ∧ HasValue out.phi v ∧
      |v - jetSpline d (axisOf r lo hi) noD D q| ≤ 2 ^ (8 + 3 * d) * K * M / 2 ^ 52 ∧
      (∀ a : Fin 3, d ≤ a.val → out.psi.get a = 0) ∧
      ∀ a : Fin 3, a.val < d → ∃ w : ℚ, HasValue (out.psi.get a) w ∧
        |w - jetSpline d (axisOf r lo hi) (oneD a) D q| * (axisOf r lo hi a).h ≤ 2 ^ (10 + 3 * d) * K * M / 2 ^ 52 := by
  obtain rfl | rfl | rfl : d = 1 ∨ d = 2 ∨ d = 3 := h.dim
  · rw [hs (by decide)] at e P ⊢
    exact spline1 r h hpad lo hi hbox hside K hres hK g e x q hx ls phi psi mix P D hD M hM hDM
  · rw [hs (by decide)] at e P ⊢
    exact spline2 r h hpad lo hi hbox hside K hres hK g e x q hx ls phi psi mix P D hD M hM hDM
  · exact spline3 s r h hpad lo hi hbox hside K hres hK g e x q hx ls phi psi mix P D hD M hM hDM

/-! ## An instance of the hypotheses -/

/-- 6 × 5 × 3 cells on the unit cube. -/
def brick : Req F64 := ⟨⟨6, 5, 3⟩, 1, ⟨0, 0, 0⟩, ⟨1, 1, 1⟩⟩

theorem brick_valid : brick.Valid 3 := ⟨by simp, by decide, by decide, by decide, by decide, by decide, by decide, by decide⟩

theorem brick_box : BoxIs brick 3 (fun _ => 0) (fun _ => 1) := by
  intro a _
  refine ⟨?_, ?_, ?_, ?_⟩
  · match a with
    | 0 => exact hasValue_zero
    | 1 => exact hasValue_zero
    | 2 => exact hasValue_zero
  · match a with
    | 0 => exact hasValue_one
    | 1 => exact hasValue_one
    | 2 => exact hasValue_one
  · rw [sub_zero]; exact zpow_le_one_of_nonpos₀ (by norm_num) (by norm_num)
  · rw [sub_zero]; exact one_le_pow₀ (by norm_num)

/-- One in a layer of cells, zero elsewhere. -/
def layer (c : Cell) : F64 := if c.1 = 2 then 1 else 0

def layerQ (c : Cell) : ℚ := if c.1 = 2 then 1 else 0

theorem layer_value (c : Cell) : HasValue (layer c) (layerQ c) := by
  unfold layer layerQ
  split
  · exact hasValue_one
  · exact hasValue_zero

theorem moderate_one : Moderate 1 := ⟨zpow_le_one_of_nonpos₀ (by norm_num) (by norm_num), one_le_pow₀ (by norm_num)⟩

theorem brick_width (a : Fin 3) : 0 ≤ (axisOf brick (fun _ => 0) (fun _ => 1) a).h ∧ (axisOf brick (fun _ => 0) (fun _ => 1) a).h ≤ 1 := by
  match a with
  | 0 => norm_num [axisOf, Axis.h, brick, Vec3.get]
  | 1 => norm_num [axisOf, Axis.h, brick, Vec3.get]
  | 2 => norm_num [axisOf, Axis.h, brick, Vec3.get]

/-- Instance of C89 at the point `(1/8, 1/8, 1/8)` with value and derivatives equal to one in a layer of cells. -/
example : ∃ (g : Grid F64 3) (ls : Levelset F64), brick.make .wrap 3 = .ok g ∧
    ∃ (out : Interp F64) (v : ℚ), interpolate .wrap g ls ⟨eighth, eighth, eighth⟩ false = .ok out ∧ HasValue out.phi v ∧
      |v - jetSpline 3 (axisOf brick (fun _ => 0) fun _ => 1) noD (fun _ _ _ => layerQ) fun _ => 1 / 8| ≤ 2 ^ (8 + 3 * 3) * 6 * 1 / 2 ^ 52 := by
  obtain ⟨g, e, G⟩ := make_ok .wrap brick_valid
  obtain ⟨a, h1⟩ := fieldIs_exists (s := .wrap) G layer
  obtain ⟨b, h2⟩ := fieldIs_exists (s := .wrap) G fun c => (⟨layer c, layer c, layer c⟩ : Vec3 F64)
  obtain ⟨m, h3⟩ := fieldIs_exists (s := .wrap) G fun c => [layer c, layer c, layer c, layer c]
  refine ⟨g, ⟨a, b, m, a, b, m, a, b⟩, e, ?_⟩
  obtain ⟨out, v, k1, k2, k3, -⟩ := C89_interpolation .wrap 3 (fun _ => rfl) brick brick_valid rfl _ _ brick_box
    (fun _ _ => by norm_num [moderate_one]) 6
    (fun a _ => by match a with | 0 => norm_num [brick, Vec3.get] | 1 => norm_num [brick, Vec3.get] | 2 => norm_num [brick, Vec3.get])
    (by norm_num) g e ⟨eighth, eighth, eighth⟩ (fun _ => 1 / 8)
    (fun a _ => by
      have := brick_width a
      refine ⟨by match a with | 0 => exact eighth_value | 1 => exact eighth_value | 2 => exact eighth_value, ?_, ?_⟩ <;> norm_num <;> linarith)
    ⟨a, b, m, a, b, m, a, b⟩ layer (fun c => ⟨layer c, layer c, layer c⟩) (fun c => [layer c, layer c, layer c, layer c])
    ⟨h1.val, h2.val, h3.val⟩ (fun _ _ _ => layerQ)
    ⟨fun c _ => layer_value c,
      fun c _ a _ => by match a with | 0 => exact layer_value c | 1 => exact layer_value c | 2 => exact layer_value c,
      fun c _ => .cons (layer_value c) (.cons (layer_value c) (.cons (layer_value c) (.cons (layer_value c) .nil)))⟩
    1 moderate_one (by
      intro c _ o _
      have hl : |layerQ c| ≤ 1 := by unfold layerQ; split <;> norm_num
      have hw := fun a => pow_le_one₀ (n := (o a).val) (brick_width a).1 (brick_width a).2
      have hn := fun a => pow_nonneg (brick_width a).1 (o a).val
      exact mul_le_one₀ hl (mul_nonneg (mul_nonneg (hn 0) (hn 1)) (hn 2))
        (mul_le_one₀ (mul_le_one₀ (hw 0) (hn 1) (hw 1)) (hn 2) (hw 2)))
  exact ⟨out, v, k1, k2, k3⟩

end Gals.Props
