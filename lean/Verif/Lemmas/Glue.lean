import Verif.Lemmas.Smooth
import Mathlib.Analysis.Calculus.FDeriv.Basic

/-!
# Gluing the cells: continuity and differentiability across faces
-/

set_option linter.unusedSectionVars false

namespace Gals

open Spec Filter Topology Asymptotics

variable {d : ℕ}

/-! ## One direction -/

theorem floor_near {Y : Type} [TopologicalSpace Y] {u : Y → ℝ} {y0 : Y} (hu : ContinuousAt u y0) :
    ∀ᶠ y in 𝓝 y0, (u y < ⌊u y0⌋ → ⌊u y⌋ = ⌊u y0⌋ - 1) ∧ (¬ u y < ⌊u y0⌋ → ⌊u y⌋ = ⌊u y0⌋) := by
  have h1 : (⌊u y0⌋ : ℝ) - 1 < u y0 := by have := Int.floor_le (u y0); linarith
  have h2 := Int.lt_floor_add_one (u y0)
  filter_upwards [hu.eventually (lt_mem_nhds h1), hu.eventually (gt_mem_nhds h2)] with y y1 y2
  refine ⟨fun hl => ?_, fun hl => ?_⟩
  · rw [Int.floor_eq_iff]; push_cast; constructor <;> linarith
  · rw [Int.floor_eq_iff]; constructor <;> linarith

/-- The two kinds of weights: `basis` and `basis'`. -/
def wts (k : Bool) (η : ℝ) : List ℝ := if k then basis' η else basis η

theorem wts_match (k : Bool) (h v0 e0 v1 e1 v2 e2 : ℝ) :
    T1 (wts k 1) h v0 e0 v1 e1 = T1 (wts k 0) h v1 e1 v2 e2 := by
  cases k
  · simp only [wts, Bool.false_eq_true, if_false, T1_basis_one, T1_basis_zero]
  · simp only [wts, if_true, T1_basis'_one, T1_basis'_zero]

theorem cont_piece {Y : Type} [TopologicalSpace Y] {y0 : Y} (k : Bool) (h : ℝ) {η v0 e0 v1 e1 : Y → ℝ}
    (hη : ContinuousAt η y0) (h0 : ContinuousAt v0 y0) (h1 : ContinuousAt e0 y0) (h2 : ContinuousAt v1 y0)
    (h3 : ContinuousAt e1 y0) : ContinuousAt (fun y => T1 (wts k (η y)) h (v0 y) (e0 y) (v1 y) (e1 y)) y0 := by
  cases k
  · simp only [wts, Bool.false_eq_true, if_false, basis, T1_four, B0, B1, B2, B3, cube, sqr]
    fun_prop
  · simp only [wts, if_true, basis', T1_four, B0', B1', B2', B3', sqr]
    fun_prop

theorem cont_floor {Y : Type} [TopologicalSpace Y] {y0 : Y} (k : Bool) (h : ℝ) {u : Y → ℝ} (hu : ContinuousAt u y0)
    {V W : ℤ → Y → ℝ} (hV : ∀ n, ContinuousAt (V n) y0) (hW : ∀ n, ContinuousAt (W n) y0) :
    ContinuousAt (fun y => T1 (wts k (u y - ⌊u y⌋)) h (V ⌊u y⌋ y) (W ⌊u y⌋ y) (V (⌊u y⌋ + 1) y) (W (⌊u y⌋ + 1) y))
      y0 := by
  set m := ⌊u y0⌋ with hm
  set gp : Y → ℝ := fun y => T1 (wts k (u y - m)) h (V m y) (W m y) (V (m + 1) y) (W (m + 1) y) with hgp
  set gm : Y → ℝ := fun y => T1 (wts k (u y - (m - 1 : ℤ))) h (V (m - 1) y) (W (m - 1) y) (V m y) (W m y) with hgm
  have cp : ContinuousAt gp y0 := cont_piece k h (hu.sub continuousAt_const) (hV _) (hW _) (hV _) (hW _)
  have cm : ContinuousAt gm y0 := cont_piece k h (hu.sub continuousAt_const) (hV _) (hW _) (hV _) (hW _)
  have hev : ∀ᶠ y in 𝓝 y0, (if u y < m then gm y else gp y) =
      T1 (wts k (u y - ⌊u y⌋)) h (V ⌊u y⌋ y) (W ⌊u y⌋ y) (V (⌊u y⌋ + 1) y) (W (⌊u y⌋ + 1) y) := by
    filter_upwards [floor_near hu] with y hy
    split
    · rename_i hl
      rw [hy.1 hl, sub_add_cancel]
    · rename_i hl
      rw [hy.2 hl]
  refine Filter.Tendsto.congr' hev ?_
  rcases (Int.floor_le (u y0)).lt_or_eq with hlt | heq
  · refine Filter.Tendsto.congr' ?_ cp
    filter_upwards [hu.eventually (lt_mem_nhds hlt)] with y hy
    rw [if_neg (not_lt.2 hy.le)]
  · have e1 : gm y0 = gp y0 := by
      simp only [hgm, hgp]
      rw [← heq, ← hm]
      push_cast
      rw [sub_sub_cancel, sub_self, wts_match]
    have : Tendsto gm (𝓝 y0) (𝓝 (gp y0)) := e1 ▸ cm
    exact Filter.Tendsto.if' this cp

section
variable {E : Type} [NormedAddCommGroup E] [NormedSpace ℝ E]

theorem hasFDerivAt_glue {f gm gp : E → ℝ} {D : E →L[ℝ] ℝ} {e0 : E} {p : E → Prop} [DecidablePred p]
    (hm : HasFDerivAt gm D e0) (hp : HasFDerivAt gp D e0) (h0 : gm e0 = gp e0)
    (hf : f =ᶠ[𝓝 e0] fun e => if p e then gm e else gp e) : HasFDerivAt f D e0 := by
  refine HasFDerivAt.congr_of_eventuallyEq ?_ hf
  have h0' : (if p e0 then gm e0 else gp e0) = gp e0 := by split <;> simp [h0]
  rw [hasFDerivAt_iff_isLittleO] at hm hp ⊢
  rw [isLittleO_iff] at hm hp ⊢
  intro c hc
  filter_upwards [hm hc, hp hc] with e h1 h2
  rw [h0']
  split
  · rw [h0] at h1; exact h1
  · exact h2

/-- Derivative of one piece. -/
theorem fderiv_piece (h : ℝ) {η v0 w0 v1 w1 : E → ℝ} {L A B C D : E →L[ℝ] ℝ} {e0 : E}
    (hη : HasFDerivAt η L e0) (h0 : HasFDerivAt v0 A e0) (h1 : HasFDerivAt w0 B e0) (h2 : HasFDerivAt v1 C e0)
    (h3 : HasFDerivAt w1 D e0) :
    ∃ Z : E →L[ℝ] ℝ, HasFDerivAt (fun e => T1 (basis (η e)) h (v0 e) (w0 e) (v1 e) (w1 e)) Z e0 ∧
      ∀ t, Z t = T1 (basis' (η e0)) h (v0 e0) (w0 e0) (v1 e0) (w1 e0) * L t
        + T1 (basis (η e0)) h (A t) (B t) (C t) (D t) := by
  set v : Fin 4 → E → ℝ := fun i => match i with
    | 0 => v0 | 1 => fun e => v0 e + w0 e * h * (1 / 3) | 2 => fun e => v1 e - w1 e * h * (1 / 3) | 3 => v1 with hv
  set V : Fin 4 → E →L[ℝ] ℝ := fun i => match i with
    | 0 => A | 1 => A + (1 / 3 : ℝ) • (h • B) | 2 => C - (1 / 3 : ℝ) • (h • D) | 3 => C with hV
  have hall : ∀ i, HasFDerivAt (v i) (V i) e0 := by
    intro i
    match i with
    | 0 => exact h0
    | 1 => exact h0.add ((h1.mul_const h).mul_const (1 / 3))
    | 2 => exact h2.sub ((h3.mul_const h).mul_const (1 / 3))
    | 3 => exact h2
  have key := hasFDerivAt_dot hη hall
  have hfun : (fun e => T1 (basis (η e)) h (v0 e) (w0 e) (v1 e) (w1 e)) = fun e => ∑ i : Fin 4, Bf (η e) i * v i e := by
    funext e
    rw [Fin.sum_univ_four]
    rfl
  rw [← hfun] at key
  refine ⟨_, key, ?_⟩
  intro t
  simp only [add_apply, smul_apply, smul_eq_mul, Fin.sum_univ_four, hv, hV, Bf, Bf', basis, basis', T1_four,
    sub_apply]
  ring

theorem fderiv_floor (h : ℝ) {u : E → ℝ} {L : E →L[ℝ] ℝ} {e0 : E} (hu : HasFDerivAt u L e0)
    {V W : ℤ → E → ℝ} {V' W' : ℤ → E →L[ℝ] ℝ} (hV : ∀ n, HasFDerivAt (V n) (V' n) e0)
    (hW : ∀ n, HasFDerivAt (W n) (W' n) e0) :
    ∃ Z : E →L[ℝ] ℝ, HasFDerivAt
      (fun e => T1 (basis (u e - ⌊u e⌋)) h (V ⌊u e⌋ e) (W ⌊u e⌋ e) (V (⌊u e⌋ + 1) e) (W (⌊u e⌋ + 1) e)) Z e0 ∧
      ∀ t, Z t = T1 (basis' (u e0 - ⌊u e0⌋)) h (V ⌊u e0⌋ e0) (W ⌊u e0⌋ e0) (V (⌊u e0⌋ + 1) e0) (W (⌊u e0⌋ + 1) e0) * L t
        + T1 (basis (u e0 - ⌊u e0⌋)) h (V' ⌊u e0⌋ t) (W' ⌊u e0⌋ t) (V' (⌊u e0⌋ + 1) t) (W' (⌊u e0⌋ + 1) t) := by
  set m := ⌊u e0⌋ with hm
  have hup : HasFDerivAt (fun e => u e - (m : ℝ)) L e0 := hu.sub_const _
  have hum : HasFDerivAt (fun e => u e - ((m - 1 : ℤ) : ℝ)) L e0 := hu.sub_const _
  obtain ⟨Zp, dp, zp⟩ := fderiv_piece h hup (hV m) (hW m) (hV (m + 1)) (hW (m + 1))
  obtain ⟨Zm, dm, zm⟩ := fderiv_piece h hum (hV (m - 1)) (hW (m - 1)) (hV m) (hW m)
  refine ⟨Zp, ?_, zp⟩
  have hev : (fun e => T1 (basis (u e - ⌊u e⌋)) h (V ⌊u e⌋ e) (W ⌊u e⌋ e) (V (⌊u e⌋ + 1) e) (W (⌊u e⌋ + 1) e)) =ᶠ[𝓝 e0]
      fun e => if u e < m then T1 (basis (u e - ((m - 1 : ℤ) : ℝ))) h (V (m - 1) e) (W (m - 1) e) (V m e) (W m e)
        else T1 (basis (u e - (m : ℝ))) h (V m e) (W m e) (V (m + 1) e) (W (m + 1) e) := by
    filter_upwards [floor_near hu.continuousAt] with e hy
    split
    · rename_i hl
      rw [hy.1 hl, sub_add_cancel]
    · rename_i hl
      rw [hy.2 hl]
  rcases (Int.floor_le (u e0)).lt_or_eq with hlt | heq
  · refine HasFDerivAt.congr_of_eventuallyEq dp (hev.trans ?_)
    filter_upwards [hu.continuousAt.eventually (lt_mem_nhds hlt)] with y hy
    rw [if_neg (not_lt.2 hy.le)]
  · have hone : u e0 - ((m - 1 : ℤ) : ℝ) = 1 := by rw [← heq, ← hm]; push_cast; ring
    have hzero : u e0 - (m : ℝ) = 0 := by rw [← heq, ← hm]; ring
    have hZ : Zm = Zp := by
      ext t
      rw [zm, zp, hone, hzero]
      simp only [T1_basis_one, T1_basis_zero, T1_basis'_one, T1_basis'_zero]
    refine hasFDerivAt_glue (hZ ▸ dm) dp ?_ hev
    rw [hone, hzero, T1_basis_one, T1_basis_zero]

end

/-! ## Floor form of the interpolant (padding 1) -/

/-- Normalised coordinate: cell `i` is `[i, i + 1)`. -/
noncomputable def uf (r : Req ℝ) (a : Fin 3) (x : ℝ) : ℝ := (x - r.centre a 0) / r.h a

theorem base_floor {r : Req ℝ} (h : r.Valid d) (hpos : r.Pos d) {x : Vec3 ℝ} {b : Cell} (H : BaseCell r d x b)
    (a : Fin 3) (ha : a.val < d) : comp b a = ⌊uf r a (x.get a)⌋ := by
  have hh := h.h_pos hpos a ha
  have h1 := H.lo a ha
  have h2 := H.hi a ha
  symm
  rw [Int.floor_eq_iff]
  unfold uf
  rw [le_div_iff₀ hh, div_lt_iff₀ hh]
  unfold Req.centre at *
  push_cast at *
  constructor <;> nlinarith

theorem eta_floor {r : Req ℝ} (h : r.Valid d) (hpos : r.Pos d) (hp : r.pad = 1) {x : Vec3 ℝ} {b : Cell}
    (H : BaseCell r d x b) (a : Fin 3) (ha : a.val < d) :
    (x.get a - (nodePos r d b).get a) * (1 / r.h a) = uf r a (x.get a) - ⌊uf r a (x.get a)⌋ := by
  have hh := (h.h_pos hpos a ha).ne'
  rw [← base_floor h hpos H a ha, nodePos_get, if_pos ha, hp, sub_self, add_zero]
  unfold uf Req.centre
  push_cast
  field_simp
  ring

/-- Interpolation along one axis: `p` values, `q` derivatives at the nodes `0, 1, ...`. -/
noncomputable def F1 (k : Bool) (u h : ℝ) (p q : ℤ → ℝ) : ℝ := T1 (wts k (u - ⌊u⌋)) h (p ⌊u⌋) (q ⌊u⌋) (p (⌊u⌋ + 1)) (q (⌊u⌋ + 1))

/-- Two axes. -/
noncomputable def F2 (kx ky : Bool) (ux uy hx hy : ℝ) (p px py pxy : ℤ → ℤ → ℝ) : ℝ :=
  F1 kx ux hx (fun i => F1 ky uy hy (p i) (py i)) (fun i => F1 ky uy hy (px i) (pxy i))

/-- Three axes. -/
noncomputable def F3 (kx ky kz : Bool) (ux uy uz hx hy hz : ℝ) (p px py pz pxy pyz pzx pxyz : ℤ → ℤ → ℤ → ℝ) : ℝ :=
  F1 kx ux hx (fun i => F2 ky kz uy uz hy hz (p i) (py i) (pz i) (pyz i))
    (fun i => F2 ky kz uy uz hy hz (px i) (pxy i) (pzx i) (pxyz i))

theorem interp_floor1 {r : Req ℝ} {g : Grid ℝ 1} (G : g.Made .wrap r) (h : r.Valid 1) (hpos : r.Pos 1) (hp : r.pad = 1)
    {ls : Levelset ℝ} {phi : Cell → ℝ} {psi : Cell → Vec3 ℝ} {mix : Cell → List ℝ} (P : PrevIs .wrap r g ls phi psi mix)
    {x : Vec3 ℝ} (hx : InStorage r 1 x) :
    interpolate .wrap g ls x false =
      let S (k : Bool) : ℝ := F1 k (uf r 0 x.x) (r.h 0) (fun i => phi (i, 0, 0)) (fun i => (psi (i, 0, 0)).x)
      .ok ⟨S false, ⟨S true * (1 / r.h 0), 0, 0⟩⟩ := by
  obtain ⟨b, H, e⟩ := interp1_eval G h hpos P hx false
  have hb : b = (⌊uf r 0 x.x⌋, 0, 0) :=
    Prod.ext (base_floor h hpos H 0 (by decide)) (Prod.ext (H.unused 1 (by decide)) (H.unused 2 (by decide)))
  have he : (x.x - (nodePos r 1 b).x) * (1 / r.h 0) = uf r 0 x.x - ⌊uf r 0 x.x⌋ := eta_floor h hpos hp H 0 (by decide)
  rw [e, kernel1_eq, he, hb]
  rfl

theorem interp_floor2 {r : Req ℝ} {g : Grid ℝ 2} (G : g.Made .wrap r) (h : r.Valid 2) (hpos : r.Pos 2) (hp : r.pad = 1)
    {ls : Levelset ℝ} {phi : Cell → ℝ} {psi : Cell → Vec3 ℝ} {xy : Cell → ℝ}
    (P : PrevIs .wrap r g ls phi psi (fun c => [xy c])) {x : Vec3 ℝ} (hx : InStorage r 2 x) :
    interpolate .wrap g ls x false =
      let S (kx ky : Bool) : ℝ := F2 kx ky (uf r 0 x.x) (uf r 1 x.y) (r.h 0) (r.h 1) (fun i j => phi (i, j, 0))
        (fun i j => (psi (i, j, 0)).x) (fun i j => (psi (i, j, 0)).y) (fun i j => xy (i, j, 0))
      .ok ⟨S false false, ⟨S true false * (1 / r.h 0), S false true * (1 / r.h 1), 0⟩⟩ := by
  obtain ⟨b, H, e⟩ := interp2_eval G h hpos P hx false
  have hb : b = (⌊uf r 0 x.x⌋, ⌊uf r 1 x.y⌋, 0) := Prod.ext (base_floor h hpos H 0 (by decide))
    (Prod.ext (base_floor h hpos H 1 (by decide)) (H.unused 2 (by decide)))
  have he : (x.x - (nodePos r 2 b).x) * (1 / r.h 0) = uf r 0 x.x - ⌊uf r 0 x.x⌋ := eta_floor h hpos hp H 0 (by decide)
  have hy : (x.y - (nodePos r 2 b).y) * (1 / r.h 1) = uf r 1 x.y - ⌊uf r 1 x.y⌋ := eta_floor h hpos hp H 1 (by decide)
  have hdx : g.dx.x = r.h 0 := G.dx 0
  have hdy : g.dx.y = r.h 1 := G.dx 1
  have hix : g.oneOverDx.x = 1 / r.h 0 := G.oneOverDx 0 (by decide)
  have hiy : g.oneOverDx.y = 1 / r.h 1 := G.oneOverDx 1 (by decide)
  rw [e, kernel2_eq]
  simp only [Vec3.sub, Vec3.mul, hix, hiy, hdx, hdy, he, hy]
  rw [hb]
  rfl

theorem interp_floor3 {s : IntSem} {r : Req ℝ} {g : Grid ℝ 3} (G : g.Made s r) (h : r.Valid 3) (hpos : r.Pos 3)
    (hp : r.pad = 1) {ls : Levelset ℝ} {phi : Cell → ℝ} {psi : Cell → Vec3 ℝ} {xy yz zx xyz : Cell → ℝ}
    (P : PrevIs s r g ls phi psi (fun c => [xy c, yz c, zx c, xyz c])) {x : Vec3 ℝ} (hx : InStorage r 3 x) :
    interpolate s g ls x false =
      let S (kx ky kz : Bool) : ℝ := F3 kx ky kz (uf r 0 x.x) (uf r 1 x.y) (uf r 2 x.z) (r.h 0) (r.h 1) (r.h 2)
        (fun i j k => phi (i, j, k)) (fun i j k => (psi (i, j, k)).x) (fun i j k => (psi (i, j, k)).y)
        (fun i j k => (psi (i, j, k)).z) (fun i j k => xy (i, j, k)) (fun i j k => yz (i, j, k))
        (fun i j k => zx (i, j, k)) (fun i j k => xyz (i, j, k))
      .ok ⟨S false false false, ⟨S true false false * (1 / r.h 0), S false true false * (1 / r.h 1),
        S false false true * (1 / r.h 2)⟩⟩ := by
  obtain ⟨b, H, e⟩ := interp3_eval G h hpos P hx false
  have hb : b = (⌊uf r 0 x.x⌋, ⌊uf r 1 x.y⌋, ⌊uf r 2 x.z⌋) := Prod.ext (base_floor h hpos H 0 (by decide))
    (Prod.ext (base_floor h hpos H 1 (by decide)) (base_floor h hpos H 2 (by decide)))
  have he : (x.x - (nodePos r 3 b).x) * (1 / r.h 0) = uf r 0 x.x - ⌊uf r 0 x.x⌋ := eta_floor h hpos hp H 0 (by decide)
  have hy : (x.y - (nodePos r 3 b).y) * (1 / r.h 1) = uf r 1 x.y - ⌊uf r 1 x.y⌋ := eta_floor h hpos hp H 1 (by decide)
  have hz : (x.z - (nodePos r 3 b).z) * (1 / r.h 2) = uf r 2 x.z - ⌊uf r 2 x.z⌋ := eta_floor h hpos hp H 2 (by decide)
  have hdx : g.dx.x = r.h 0 := G.dx 0
  have hdy : g.dx.y = r.h 1 := G.dx 1
  have hdz : g.dx.z = r.h 2 := G.dx 2
  have hix : g.oneOverDx.x = 1 / r.h 0 := G.oneOverDx 0 (by decide)
  have hiy : g.oneOverDx.y = 1 / r.h 1 := G.oneOverDx 1 (by decide)
  have hiz : g.oneOverDx.z = 1 / r.h 2 := G.oneOverDx 2 (by decide)
  rw [e, kernel3_eq]
  simp only [Vec3.sub, Vec3.mul, hix, hiy, hiz, hdx, hdy, hdz, he, hy, hz]
  rw [hb]
  rfl

/-! ## Continuity -/

section
variable {Y : Type} [TopologicalSpace Y] {y0 : Y}

theorem cont_F1 (k : Bool) (h : ℝ) {u : Y → ℝ} (hu : ContinuousAt u y0) {p q : ℤ → Y → ℝ}
    (hp : ∀ n, ContinuousAt (p n) y0) (hq : ∀ n, ContinuousAt (q n) y0) :
    ContinuousAt (fun y => F1 k (u y) h (fun n => p n y) (fun n => q n y)) y0 := cont_floor k h hu hp hq

theorem cont_F2 (kx ky : Bool) (hx hy : ℝ) {ux uy : Y → ℝ} (hux : ContinuousAt ux y0) (huy : ContinuousAt uy y0)
    (p px py pxy : ℤ → ℤ → ℝ) : ContinuousAt (fun y => F2 kx ky (ux y) (uy y) hx hy p px py pxy) y0 :=
  cont_F1 kx hx hux (p := fun i y => F1 ky (uy y) hy (p i) (py i)) (q := fun i y => F1 ky (uy y) hy (px i) (pxy i))
    (fun i => cont_F1 ky hy huy (p := fun j _ => p i j) (q := fun j _ => py i j) (fun _ => continuousAt_const)
      (fun _ => continuousAt_const))
    (fun i => cont_F1 ky hy huy (p := fun j _ => px i j) (q := fun j _ => pxy i j) (fun _ => continuousAt_const)
      (fun _ => continuousAt_const))

theorem cont_F3 (kx ky kz : Bool) (hx hy hz : ℝ) {ux uy uz : Y → ℝ} (hux : ContinuousAt ux y0)
    (huy : ContinuousAt uy y0) (huz : ContinuousAt uz y0) (p px py pz pxy pyz pzx pxyz : ℤ → ℤ → ℤ → ℝ) :
    ContinuousAt (fun y => F3 kx ky kz (ux y) (uy y) (uz y) hx hy hz p px py pz pxy pyz pzx pxyz) y0 :=
  cont_F1 kx hx hux (p := fun i y => F2 ky kz (uy y) (uz y) hy hz (p i) (py i) (pz i) (pyz i))
    (q := fun i y => F2 ky kz (uy y) (uz y) hy hz (px i) (pxy i) (pzx i) (pxyz i))
    (fun _ => cont_F2 ky kz hy hz huy huz _ _ _ _) (fun _ => cont_F2 ky kz hy hz huy huz _ _ _ _)

theorem cont_uf (r : Req ℝ) (a : Fin 3) {X : Y → ℝ} (hX : ContinuousAt X y0) : ContinuousAt (fun y => uf r a (X y)) y0 := by
  unfold uf
  exact (hX.sub continuousAt_const).div_const _

theorem interp_continuousAt {s : IntSem} (hs : d < 3 → s = .wrap) {r : Req ℝ} {g : Grid ℝ d} (G : g.Made s r)
    (h : r.Valid d) (hpos : r.Pos d) (hp : r.pad = 1) {ls : Levelset ℝ} {phi : Cell → ℝ} {psi : Cell → Vec3 ℝ}
    {mix : Cell → List ℝ} (hm : ∀ c, (mix c).length = numMixed d) (P : PrevIs s r g ls phi psi mix)
    {X : Y → Vec3 ℝ} (hst : ∀ᶠ y in 𝓝 y0, InStorage r d (X y))
    (hX : ∀ a : Fin 3, a.val < d → ContinuousAt (fun y => (X y).get a) y0)
    {O : Y → Interp ℝ} (hO : ∀ᶠ y in 𝓝 y0, interpolate s g ls (X y) false = .ok (O y)) :
    ContinuousAt (fun y => (O y).phi) y0 ∧ ∀ a, ContinuousAt (fun y => (O y).psi.get a) y0 := by
  have fin : ∀ (f : Y → Interp ℝ), (∀ᶠ y in 𝓝 y0, interpolate s g ls (X y) false = .ok (f y)) →
      ContinuousAt (fun y => (f y).phi) y0 → (∀ a, ContinuousAt (fun y => (f y).psi.get a) y0) →
      ContinuousAt (fun y => (O y).phi) y0 ∧ ∀ a, ContinuousAt (fun y => (O y).psi.get a) y0 := by
    intro f hf h1 h2
    have hev : f =ᶠ[𝓝 y0] O := by
      filter_upwards [hf, hO] with y a b
      rw [a] at b
      exact Except.ok.inj b
    exact ⟨h1.congr (hev.fun_comp Interp.phi), fun a => (h2 a).congr (hev.fun_comp fun o => o.psi.get a)⟩
  rcases h.dim with rfl | rfl | rfl
  · obtain rfl := hs (by decide)
    have cx : ContinuousAt (fun y => uf r 0 (X y).x) y0 := cont_uf r 0 (hX 0 (by decide))
    have c1 : ∀ k, ContinuousAt (fun y => F1 k (uf r 0 (X y).x) (r.h 0) (fun i => phi (i, 0, 0))
        (fun i => (psi (i, 0, 0)).x)) y0 := fun k => cont_F1 k _ cx (p := fun i _ => phi (i, 0, 0))
      (q := fun i _ => (psi (i, 0, 0)).x) (fun _ => continuousAt_const) (fun _ => continuousAt_const)
    refine fin _ (hst.mono fun y hy => interp_floor1 G h hpos hp P hy) ?_ fun a => ?_
    · dsimp only
      exact c1 false
    · dsimp only [Vec3.get]
      match a with
      | 0 => exact (c1 true).mul continuousAt_const
      | 1 => exact continuousAt_const
      | 2 => exact continuousAt_const
  · obtain rfl := hs (by decide)
    rw [mix1_eq hm] at P
    have cx : ContinuousAt (fun y => uf r 0 (X y).x) y0 := cont_uf r 0 (hX 0 (by decide))
    have cy : ContinuousAt (fun y => uf r 1 (X y).y) y0 := cont_uf r 1 (hX 1 (by decide))
    refine fin _ (hst.mono fun y hy => interp_floor2 G h hpos hp P hy) ?_ fun a => ?_
    · dsimp only
      exact cont_F2 _ _ _ _ cx cy _ _ _ _
    · dsimp only [Vec3.get]
      match a with
      | 0 => exact (cont_F2 _ _ _ _ cx cy _ _ _ _).mul continuousAt_const
      | 1 => exact (cont_F2 _ _ _ _ cx cy _ _ _ _).mul continuousAt_const
      | 2 => exact continuousAt_const
  · rw [mix4_eq hm] at P
    have cx : ContinuousAt (fun y => uf r 0 (X y).x) y0 := cont_uf r 0 (hX 0 (by decide))
    have cy : ContinuousAt (fun y => uf r 1 (X y).y) y0 := cont_uf r 1 (hX 1 (by decide))
    have cz : ContinuousAt (fun y => uf r 2 (X y).z) y0 := cont_uf r 2 (hX 2 (by decide))
    refine fin _ (hst.mono fun y hy => interp_floor3 G h hpos hp P hy) ?_ fun a => ?_
    · dsimp only
      exact cont_F3 _ _ _ _ _ _ cx cy cz _ _ _ _ _ _ _ _
    · dsimp only [Vec3.get]
      match a with
      | 0 => exact (cont_F3 _ _ _ _ _ _ cx cy cz _ _ _ _ _ _ _ _).mul continuousAt_const
      | 1 => exact (cont_F3 _ _ _ _ _ _ cx cy cz _ _ _ _ _ _ _ _).mul continuousAt_const
      | 2 => exact (cont_F3 _ _ _ _ _ _ cx cy cz _ _ _ _ _ _ _ _).mul continuousAt_const

end

/-! ## Differentiability at every point -/

section
variable {E : Type} [NormedAddCommGroup E] [NormedSpace ℝ E] {e0 : E}

theorem fderiv_F1 (h : ℝ) {u : E → ℝ} {L : E →L[ℝ] ℝ} (hu : HasFDerivAt u L e0)
    {p q : ℤ → E → ℝ} {p' q' : ℤ → E →L[ℝ] ℝ} (hp : ∀ n, HasFDerivAt (p n) (p' n) e0)
    (hq : ∀ n, HasFDerivAt (q n) (q' n) e0) :
    ∃ Z : E →L[ℝ] ℝ, HasFDerivAt (fun e => F1 false (u e) h (fun n => p n e) (fun n => q n e)) Z e0 ∧
      ∀ t, Z t = F1 true (u e0) h (fun n => p n e0) (fun n => q n e0) * L t
        + F1 false (u e0) h (fun n => p' n t) (fun n => q' n t) := fderiv_floor h hu hp hq

theorem F1_zero (k : Bool) (u h : ℝ) : F1 k u h (fun _ => 0) (fun _ => 0) = 0 := by
  unfold F1 T1; split <;> simp

theorem F1_mul (k : Bool) (u h c : ℝ) (p q : ℤ → ℝ) :
    F1 k u h (fun n => p n * c) (fun n => q n * c) = F1 k u h p q * c := T1_smul _ _ _ _ _ _ _

theorem F1_add (k : Bool) (u h : ℝ) (p q p' q' : ℤ → ℝ) :
    F1 k u h (fun n => p n + p' n) (fun n => q n + q' n) = F1 k u h p q + F1 k u h p' q' := by
  have := T1_lin (wts k (u - ⌊u⌋)) h 1 1 (p ⌊u⌋) (q ⌊u⌋) (p (⌊u⌋ + 1)) (q (⌊u⌋ + 1)) (p' ⌊u⌋) (q' ⌊u⌋) (p' (⌊u⌋ + 1))
    (q' (⌊u⌋ + 1))
  simpa only [one_mul, F1] using this

theorem fderiv_F1c (h : ℝ) {u : E → ℝ} {L : E →L[ℝ] ℝ} (hu : HasFDerivAt u L e0) (p q : ℤ → ℝ) :
    HasFDerivAt (fun e => F1 false (u e) h p q) (F1 true (u e0) h p q • L) e0 := by
  obtain ⟨Z, hZ, z⟩ := fderiv_F1 h hu (p := fun n _ => p n) (q := fun n _ => q n) (p' := fun _ => 0) (q' := fun _ => 0)
    (fun n => hasFDerivAt_const _ _) (fun n => hasFDerivAt_const _ _)
  refine hZ.congr_fderiv ?_
  ext t
  rw [z]
  simp only [zero_apply, F1_zero, add_zero, smul_apply, smul_eq_mul]

theorem fderiv_F2 (hx hy : ℝ) {ux uy : E → ℝ} {Lx Ly : E →L[ℝ] ℝ} (hux : HasFDerivAt ux Lx e0)
    (huy : HasFDerivAt uy Ly e0) (p px py pxy : ℤ → ℤ → ℝ) :
    HasFDerivAt (fun e => F2 false false (ux e) (uy e) hx hy p px py pxy)
      (F2 true false (ux e0) (uy e0) hx hy p px py pxy • Lx + F2 false true (ux e0) (uy e0) hx hy p px py pxy • Ly)
      e0 := by
  obtain ⟨Z, hZ, z⟩ := fderiv_F1 hx hux (p := fun i e => F1 false (uy e) hy (p i) (py i))
    (q := fun i e => F1 false (uy e) hy (px i) (pxy i))
    (fun i => fderiv_F1c hy huy (p i) (py i)) (fun i => fderiv_F1c hy huy (px i) (pxy i))
  refine hZ.congr_fderiv ?_
  ext t
  rw [z]
  simp only [add_apply, smul_apply, smul_eq_mul, F1_mul, F2]

theorem fderiv_F3 (hx hy hz : ℝ) {ux uy uz : E → ℝ} {Lx Ly Lz : E →L[ℝ] ℝ} (hux : HasFDerivAt ux Lx e0)
    (huy : HasFDerivAt uy Ly e0) (huz : HasFDerivAt uz Lz e0) (p px py pz pxy pyz pzx pxyz : ℤ → ℤ → ℤ → ℝ) :
    HasFDerivAt (fun e => F3 false false false (ux e) (uy e) (uz e) hx hy hz p px py pz pxy pyz pzx pxyz)
      (F3 true false false (ux e0) (uy e0) (uz e0) hx hy hz p px py pz pxy pyz pzx pxyz • Lx +
        F3 false true false (ux e0) (uy e0) (uz e0) hx hy hz p px py pz pxy pyz pzx pxyz • Ly +
        F3 false false true (ux e0) (uy e0) (uz e0) hx hy hz p px py pz pxy pyz pzx pxyz • Lz) e0 := by
  obtain ⟨Z, hZ, z⟩ := fderiv_F1 hx hux
    (p := fun i e => F2 false false (uy e) (uz e) hy hz (p i) (py i) (pz i) (pyz i))
    (q := fun i e => F2 false false (uy e) (uz e) hy hz (px i) (pxy i) (pzx i) (pxyz i))
    (fun i => fderiv_F2 hy hz huy huz _ _ _ _) (fun i => fderiv_F2 hy hz huy huz _ _ _ _)
  refine hZ.congr_fderiv ?_
  ext t
  rw [z]
  simp only [add_apply, smul_apply, smul_eq_mul, F1_mul, F1_add, F3]
  ring

theorem fderiv_uf (r : Req ℝ) (a : Fin 3) {X : E → ℝ} {L : E →L[ℝ] ℝ} (hX : HasFDerivAt X L e0) :
    HasFDerivAt (fun e => uf r a (X e)) ((1 / r.h a) • L) e0 := by
  unfold uf
  have := (hX.sub_const (r.centre a 0)).mul_const (1 / r.h a)
  refine this.congr_of_eventuallyEq (Eventually.of_forall fun e => ?_)
  exact div_eq_mul_one_div _ _

/-- The interpolant (padding 1, no limiting) is differentiable everywhere, also on faces of cells. -/
theorem interp_hasFDerivAt_all {s : IntSem} (hs : d < 3 → s = .wrap) {r : Req ℝ} {g : Grid ℝ d} (G : g.Made s r)
    (h : r.Valid d) (hpos : r.Pos d) (hp : r.pad = 1) {ls : Levelset ℝ} {phi : Cell → ℝ} {psi : Cell → Vec3 ℝ}
    {mix : Cell → List ℝ} (hm : ∀ c, (mix c).length = numMixed d) (P : PrevIs s r g ls phi psi mix)
    {X : E → Vec3 ℝ} (hst : ∀ᶠ e in 𝓝 e0, InStorage r d (X e))
    {L : Fin 3 → E →L[ℝ] ℝ} (hX : ∀ a : Fin 3, a.val < d → HasFDerivAt (fun e => (X e).get a) (L a) e0)
    {O : E → Interp ℝ} (hO : ∀ᶠ e in 𝓝 e0, interpolate s g ls (X e) false = .ok (O e)) :
    HasFDerivAt (fun e => (O e).phi) (∑ a : Fin 3, (O e0).psi.get a • L a) e0 := by
  rw [Fin.sum_univ_three]
  have fin : ∀ (f : E → Interp ℝ), (∀ᶠ y in 𝓝 e0, interpolate s g ls (X y) false = .ok (f y)) →
      HasFDerivAt (fun y => (f y).phi) ((f e0).psi.get 0 • L 0 + (f e0).psi.get 1 • L 1 + (f e0).psi.get 2 • L 2) e0 →
      HasFDerivAt (fun e => (O e).phi) ((O e0).psi.get 0 • L 0 + (O e0).psi.get 1 • L 1 + (O e0).psi.get 2 • L 2) e0 := by
    intro f hf h1
    have hev : f =ᶠ[𝓝 e0] O := by
      filter_upwards [hf, hO] with y a b
      rw [a] at b
      exact Except.ok.inj b
    rw [hev.eq_of_nhds] at h1
    exact h1.congr_of_eventuallyEq (hev.symm.fun_comp Interp.phi)
  rcases h.dim with rfl | rfl | rfl
  · obtain rfl := hs (by decide)
    have cx : HasFDerivAt (fun e => uf r 0 (X e).x) ((1 / r.h 0) • L 0) e0 := fderiv_uf r 0 (hX 0 (by decide))
    refine fin _ (hst.mono fun y hy => interp_floor1 G h hpos hp P hy) ?_
    dsimp only [Vec3.get]
    refine (fderiv_F1c (r.h 0) cx _ _).congr_fderiv ?_
    simp only [zero_smul, add_zero, smul_smul]
  · obtain rfl := hs (by decide)
    rw [mix1_eq hm] at P
    have cx : HasFDerivAt (fun e => uf r 0 (X e).x) ((1 / r.h 0) • L 0) e0 := fderiv_uf r 0 (hX 0 (by decide))
    have cy : HasFDerivAt (fun e => uf r 1 (X e).y) ((1 / r.h 1) • L 1) e0 := fderiv_uf r 1 (hX 1 (by decide))
    refine fin _ (hst.mono fun y hy => interp_floor2 G h hpos hp P hy) ?_
    dsimp only [Vec3.get]
    refine (fderiv_F2 (r.h 0) (r.h 1) cx cy _ _ _ _).congr_fderiv ?_
    simp only [zero_smul, add_zero, smul_smul]
  · rw [mix4_eq hm] at P
    have cx : HasFDerivAt (fun e => uf r 0 (X e).x) ((1 / r.h 0) • L 0) e0 := fderiv_uf r 0 (hX 0 (by decide))
    have cy : HasFDerivAt (fun e => uf r 1 (X e).y) ((1 / r.h 1) • L 1) e0 := fderiv_uf r 1 (hX 1 (by decide))
    have cz : HasFDerivAt (fun e => uf r 2 (X e).z) ((1 / r.h 2) • L 2) e0 := fderiv_uf r 2 (hX 2 (by decide))
    refine fin _ (hst.mono fun y hy => interp_floor3 G h hpos hp P hy) ?_
    dsimp only [Vec3.get]
    refine (fderiv_F3 (r.h 0) (r.h 1) (r.h 2) cx cy cz _ _ _ _ _ _ _ _).congr_fderiv ?_
    simp only [smul_smul]

end

end Gals
