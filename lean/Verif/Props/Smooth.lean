import Verif.Lemmas.Glue
import Verif.Props.Hermite

/-!
# Properties C17, C18, C56 (smoothness of the interpolant, Bernstein basis)

Over the real numbers.
-/

namespace Gals.Props

open Gals Spec Filter Topology

/-! ## Example grids over the reals -/

/-- 3 cells on `[0,3]`, padding `p`. -/
noncomputable def lineR (p : ℤ) : Req ℝ := ⟨⟨3, 1, 1⟩, p, ⟨0, 0, 0⟩, ⟨3, 0, 0⟩⟩

theorem lineR_valid : (lineR 1).Valid 1 :=
  ⟨by simp, by decide, by decide, by decide, by decide, by decide, by decide, by decide⟩

theorem lineR2_valid : (lineR 2).Valid 1 :=
  ⟨by simp, by decide, by decide, by decide, by decide, by decide, by decide, by decide⟩

theorem lineR_pos (p : ℤ) : (lineR p).Pos 1 := by
  intro a ha
  match a with
  | 0 => show (0 : ℝ) < 3; norm_num
  | 1 => exact absurd ha (by decide)
  | 2 => exact absurd ha (by decide)

/-- 4 × 3 cells on `[0,2] × [0,3]`, padding `p`. -/
noncomputable def demoR (p : ℤ) : Req ℝ := ⟨⟨4, 3, 1⟩, p, ⟨0, 0, 0⟩, ⟨2, 3, 0⟩⟩

theorem demoR_valid : (demoR 1).Valid 2 :=
  ⟨by simp, by decide, by decide, by decide, by decide, by decide, by decide, by decide⟩

theorem demoR_pos (p : ℤ) : (demoR p).Pos 2 := by
  intro a ha
  match a with
  | 0 => show (0 : ℝ) < 2; norm_num
  | 1 => show (0 : ℝ) < 3; norm_num
  | 2 => exact absurd ha (by decide)

/-- 2 × 3 × 2 cells on `[0,1] × [0,3] × [0,4]`, padding `p`. -/
noncomputable def boxR (p : ℤ) : Req ℝ := ⟨⟨2, 3, 2⟩, p, ⟨0, 0, 0⟩, ⟨1, 3, 4⟩⟩

theorem boxR_valid : (boxR 1).Valid 3 :=
  ⟨by simp, by decide, by decide, by decide, by decide, by decide, by decide, by decide⟩

theorem boxR_pos (p : ℤ) : (boxR p).Pos 3 := by
  intro a ha
  match a with
  | 0 => show (0 : ℝ) < 1; norm_num
  | 1 => show (0 : ℝ) < 3; norm_num
  | 2 => show (0 : ℝ) < 4; norm_num

/-! ## C17: the returned gradient is the derivative of the returned value -/

section C17
variable {d : ℕ} {E : Type} [NormedAddCommGroup E] [NormedSpace ℝ E]

/-- A point strictly inside a cell along every used axis. -/
def InsideCell (r : Req ℝ) (d : ℕ) (x : Vec3 ℝ) : Prop :=
  ∀ a : Fin 3, a.val < d → ∃ i, r.centre a i < x.get a ∧ x.get a < r.centre a (i + 1)

/-- C17. Every dimension, padding, node data, point strictly inside a cell, limited or not: if the query point moves
as any differentiable function of a parameter `e`, interpolation returns near `e0`, and the returned value is
differentiable at `e0` with derivative `Σ psi_a · d x_a`, `psi` the returned gradient. -/
theorem C17_gradient_is_derivative (s : IntSem) (d : ℕ) (hs : d < 3 → s = .wrap) (r : Req ℝ) (h : r.Valid d)
    (hpos : r.Pos d) (g : Grid ℝ d) (e : r.make s d = .ok g) (ls : Levelset ℝ) (phi : Cell → ℝ) (psi : Cell → Vec3 ℝ)
    (mix : Cell → List ℝ) (hm : ∀ c, (mix c).length = numMixed d) (P : PrevIs s r g ls phi psi mix) (lim : Bool)
    (X : E → Vec3 ℝ) (e0 : E) (hst : InStorage r d (X e0)) (hin : InsideCell r d (X e0))
    (L : Fin 3 → E →L[ℝ] ℝ) (hX : ∀ a : Fin 3, a.val < d → HasFDerivAt (fun e => (X e).get a) (L a) e0) :
    ∃ out : E → Interp ℝ, (∀ᶠ e in 𝓝 e0, interpolate s g ls (X e) lim = .ok (out e)) ∧
      HasFDerivAt (fun e => (out e).phi) (∑ a : Fin 3, (out e0).psi.get a • L a) e0 := by
  have G := make_made h e
  obtain ⟨b, H, -⟩ := G.baseCell h hpos hst
  have hb : ∀ᶠ e in 𝓝 e0, BaseCell r d (X e) b := by
    refine eventually_base H (fun a ha => ?_) fun a ha => (hX a ha).continuousAt
    obtain ⟨i, h1, h2⟩ := hin a ha
    have h3 := (centre_lt_iff h hpos a ha).1 ((H.lo a ha).trans_lt h2)
    have h4 := (centre_lt_iff h hpos a ha).1 (h1.trans (H.hi a ha))
    have : comp b a = i := by omega
    rw [this]; exact h1
  have hall : ∀ᶠ e in 𝓝 e0, ∃ o, interpolate s g ls (X e) lim = .ok o :=
    hb.mono fun e he => interp_ok hs G h hpos hm P (he.inStorage h hpos) lim
  classical
  let out : E → Interp ℝ := fun e =>
    if hh : ∃ o, interpolate s g ls (X e) lim = .ok o then hh.choose else ⟨0, ⟨0, 0, 0⟩⟩
  have hout : ∀ e, (∃ o, interpolate s g ls (X e) lim = .ok o) → interpolate s g ls (X e) lim = .ok (out e) := by
    intro e he
    have : out e = he.choose := dif_pos he
    rw [this]
    exact he.choose_spec
  refine ⟨out, hall.mono hout, ?_⟩
  exact interp_hasFDerivAt hs G h hpos hm P lim hst hin hX
    (hall.mono fun e he => ⟨out e, hout e he, rfl⟩) (hout e0 hall.self_of_nhds)

/-- Replace one component. -/
def Vec3.upd (x : Vec3 ℝ) (a : Fin 3) (t : ℝ) : Vec3 ℝ :=
  match a with
  | 0 => ⟨t, x.y, x.z⟩
  | 1 => ⟨x.x, t, x.z⟩
  | 2 => ⟨x.x, x.y, t⟩

/-- C17, partial derivatives: component `a` of the returned gradient is the derivative of the returned value when
component `a` of the point changes. -/
theorem C17_partial_derivatives (s : IntSem) (d : ℕ) (hs : d < 3 → s = .wrap) (r : Req ℝ) (h : r.Valid d)
    (hpos : r.Pos d) (g : Grid ℝ d) (e : r.make s d = .ok g) (ls : Levelset ℝ) (phi : Cell → ℝ) (psi : Cell → Vec3 ℝ)
    (mix : Cell → List ℝ) (hm : ∀ c, (mix c).length = numMixed d) (P : PrevIs s r g ls phi psi mix) (lim : Bool)
    (x : Vec3 ℝ) (hst : InStorage r d x) (hin : InsideCell r d x) (a : Fin 3) (ha : a.val < d) :
    ∃ out : ℝ → Interp ℝ, (∀ᶠ t in 𝓝 (x.get a), interpolate s g ls (Vec3.upd x a t) lim = .ok (out t)) ∧
      interpolate s g ls x lim = .ok (out (x.get a)) ∧
      HasDerivAt (fun t => (out t).phi) ((out (x.get a)).psi.get a) (x.get a) := by
  have hself : Vec3.upd x a (x.get a) = x := by
    match a with
    | 0 => rfl
    | 1 => rfl
    | 2 => rfl
  have hget : ∀ b t, (Vec3.upd x a t).get b = if b = a then t else x.get b := by
    intro b t
    match a, b with
    | 0, 0 => rfl
    | 0, 1 => rfl
    | 0, 2 => rfl
    | 1, 0 => rfl
    | 1, 1 => rfl
    | 1, 2 => rfl
    | 2, 0 => rfl
    | 2, 1 => rfl
    | 2, 2 => rfl
  obtain ⟨out, h1, h2⟩ := C17_gradient_is_derivative s d hs r h hpos g e ls phi psi mix hm P lim (Vec3.upd x a)
    (x.get a) (by rw [hself]; exact hst) (by rw [hself]; exact hin)
    (fun b => if b = a then ContinuousLinearMap.id ℝ ℝ else 0) (by
      intro b _
      simp only [hget]
      by_cases hb : b = a
      · simp only [if_pos hb]; exact hasFDerivAt_id _
      · simp only [if_neg hb]; exact hasFDerivAt_const _ _)
  have h3 := h1.self_of_nhds
  rw [hself] at h3
  refine ⟨out, h1, h3, ?_⟩
  have h4 := h2.hasDerivAt
  refine h4.congr_deriv ?_
  rw [Fin.sum_univ_three]
  match a with
  | 0 => simp
  | 1 => simp
  | 2 => simp

end C17

/-- Instance of C17: limited 2D interpolation at (0.8, 1.9), between four nodes, data `10 i + j`, gradient (7, 9). -/
example : ∃ g : Grid ℝ 2, (demoR 1).make .wrap 2 = .ok g ∧ ∃ ls, ∃ out : ℝ → Interp ℝ,
    (∀ᶠ t in 𝓝 (19 / 10), interpolate .wrap g ls ⟨4 / 5, t, 0⟩ true = .ok (out t)) ∧
    HasDerivAt (fun t => (out t).phi) (out (19 / 10)).psi.y (19 / 10) := by
  obtain ⟨g, e, -⟩ := C01_padded_addressing .wrap 2 (demoR 1) demoR_valid
  obtain ⟨ls, P⟩ := prevIs_exists (make_made demoR_valid e) (fun c => ((10 * c.1 + c.2.1 : ℤ) : ℝ)) (fun _ => ⟨7, 9, 5⟩)
    (fun _ => [11])
  obtain ⟨out, h1, -, h3⟩ := C17_partial_derivatives .wrap 2 (fun _ => rfl) (demoR 1) demoR_valid (demoR_pos 1) g e ls
    _ _ _ (fun _ => rfl) P true ⟨4 / 5, 19 / 10, 0⟩ (by
      intro a ha
      match a with
      | 0 => norm_num [demoR, Vec3.get, Req.centre, Req.h]
      | 1 => norm_num [demoR, Vec3.get, Req.centre, Req.h]
      | 2 => exact absurd ha (by decide)) (by
      intro a ha
      match a with
      | 0 => exact ⟨1, by norm_num [demoR, Vec3.get, Req.centre, Req.h]⟩
      | 1 => exact ⟨1, by norm_num [demoR, Vec3.get, Req.centre, Req.h]⟩
      | 2 => exact absurd ha (by decide)) 1 (by decide)
  exact ⟨g, e, ls, out, h1, h3⟩

/-! ## C18: the interpolant is continuously differentiable across cells -/

section C18

/-- C18 at the level of the arithmetic: the two cells on either side of a shared node (1D), edge (2D) or face (3D)
return the same value and the same gradient at every point of it (parameter 1 on one side, 0 on the other), for all
node data and steps. -/
theorem C18_faces_agree :
    (∀ (dx inv : ℝ) (n0 n1 n2 : Node1 ℝ), kernel1 dx inv 1 n0 n1 false = kernel1 dx inv 0 n1 n2 false) ∧
    (∀ (dx inv : Vec3 ℝ) (t : ℝ) (n00 n10 n20 n01 n11 n21 : Node2 ℝ),
      kernel2 dx inv ⟨1, t, 0⟩ n00 n10 n01 n11 false = kernel2 dx inv ⟨0, t, 0⟩ n10 n20 n11 n21 false) ∧
    (∀ (dx inv : Vec3 ℝ) (t : ℝ) (n00 n10 n01 n11 n02 n12 : Node2 ℝ),
      kernel2 dx inv ⟨t, 1, 0⟩ n00 n10 n01 n11 false = kernel2 dx inv ⟨t, 0, 0⟩ n01 n11 n02 n12 false) ∧
    (∀ (dx inv : Vec3 ℝ) (t u : ℝ) (n000 n100 n200 n010 n110 n210 n001 n101 n201 n011 n111 n211 : Node3 ℝ),
      kernel3 dx inv ⟨1, t, u⟩ n000 n100 n010 n001 n110 n011 n101 n111 false =
        kernel3 dx inv ⟨0, t, u⟩ n100 n200 n110 n101 n210 n111 n201 n211 false) ∧
    (∀ (dx inv : Vec3 ℝ) (t u : ℝ) (n000 n100 n010 n110 n020 n120 n001 n101 n011 n111 n021 n121 : Node3 ℝ),
      kernel3 dx inv ⟨t, 1, u⟩ n000 n100 n010 n001 n110 n011 n101 n111 false =
        kernel3 dx inv ⟨t, 0, u⟩ n010 n110 n020 n011 n120 n021 n111 n121 false) ∧
    (∀ (dx inv : Vec3 ℝ) (t u : ℝ) (n000 n100 n010 n110 n001 n101 n011 n111 n002 n102 n012 n112 : Node3 ℝ),
      kernel3 dx inv ⟨t, u, 1⟩ n000 n100 n010 n001 n110 n011 n101 n111 false =
        kernel3 dx inv ⟨t, u, 0⟩ n001 n101 n011 n002 n111 n012 n102 n112 false) := by
  refine ⟨?_, ?_, ?_, ?_, ?_, ?_⟩ <;> intros
  · simp only [kernel1_eq, T1_basis_zero, T1_basis_one, T1_basis'_zero, T1_basis'_one]
  · simp only [kernel2_eq, T1_basis_zero, T1_basis_one, T1_basis'_zero, T1_basis'_one]
  · simp only [kernel2_eq, T1_basis_zero, T1_basis_one, T1_basis'_zero, T1_basis'_one]
  · simp only [kernel3_eq, T1_basis_zero, T1_basis_one, T1_basis'_zero, T1_basis'_one]
  · simp only [kernel3_eq, T1_basis_zero, T1_basis_one, T1_basis'_zero, T1_basis'_one]
  · simp only [kernel3_eq, T1_basis_zero, T1_basis_one, T1_basis'_zero, T1_basis'_one]

/-- Instance of `C18_faces_agree`: the edge shared by two 2D cells whose data differ at all six nodes. -/
example : kernel2 (⟨1 / 2, 1, 1⟩ : Vec3 ℝ) ⟨2, 1, 1⟩ ⟨1, 1 / 3, 0⟩ ⟨1, ⟨2, 3, 0⟩, 4⟩ ⟨5, ⟨6, 7, 0⟩, 8⟩ ⟨9, ⟨1, 2, 0⟩, 3⟩
      ⟨4, ⟨5, 6, 0⟩, 7⟩ false =
    kernel2 (⟨1 / 2, 1, 1⟩ : Vec3 ℝ) ⟨2, 1, 1⟩ ⟨0, 1 / 3, 0⟩ ⟨5, ⟨6, 7, 0⟩, 8⟩ ⟨8, ⟨1, 0, 0⟩, 2⟩ ⟨4, ⟨5, 6, 0⟩, 7⟩
      ⟨3, ⟨2, 1, 0⟩, 9⟩ false :=
  C18_faces_agree.2.1 _ _ _ _ _ _ _ _ _

variable {Y : Type} [TopologicalSpace Y] {E : Type} [NormedAddCommGroup E] [NormedSpace ℝ E]

/-- A point strictly between the first and the last stored node along every used axis. -/
def StrictlyInStorage (r : Req ℝ) (d : ℕ) (x : Vec3 ℝ) : Prop :=
  ∀ a : Fin 3, a.val < d → r.centre a (-r.pad) < x.get a ∧ x.get a < r.centre a (r.n.get a + r.pad - 1)

theorem StrictlyInStorage.eventually {r : Req ℝ} {d : ℕ} {X : Y → Vec3 ℝ} {y0 : Y} (hst : StrictlyInStorage r d (X y0))
    (hX : ∀ a : Fin 3, a.val < d → ContinuousAt (fun y => (X y).get a) y0) : ∀ᶠ y in 𝓝 y0, InStorage r d (X y) := by
  have h1 : ∀ a : Fin 3, ∀ᶠ y in 𝓝 y0, a.val < d →
      r.centre a (-r.pad) ≤ (X y).get a ∧ (X y).get a < r.centre a (r.n.get a + r.pad - 1) := by
    intro a
    by_cases ha : a.val < d
    · have e1 := (hX a ha).eventually (lt_mem_nhds (hst a ha).1)
      have e2 := (hX a ha).eventually (gt_mem_nhds (hst a ha).2)
      filter_upwards [e1, e2] with y y1 y2 _
      exact ⟨le_of_lt y1, y2⟩
    · exact Eventually.of_forall fun y hy => absurd hy ha
  filter_upwards [h1 0, h1 1, h1 2] with y y0 y1 y2 a
  match a with
  | 0 => exact y0
  | 1 => exact y1
  | 2 => exact y2

/-- Interpolation returns near a point strictly inside storage. -/
theorem out_exists {s : IntSem} {d : ℕ} (hs : d < 3 → s = .wrap) {r : Req ℝ} (h : r.Valid d)
    (hpos : r.Pos d) {g : Grid ℝ d} (e : r.make s d = .ok g) {ls : Levelset ℝ} {phi : Cell → ℝ} {psi : Cell → Vec3 ℝ}
    {mix : Cell → List ℝ} (hm : ∀ c, (mix c).length = numMixed d) (P : PrevIs s r g ls phi psi mix)
    {X : Y → Vec3 ℝ} {y0 : Y} (hev : ∀ᶠ y in 𝓝 y0, InStorage r d (X y)) :
    ∃ out : Y → Interp ℝ, ∀ᶠ y in 𝓝 y0, interpolate s g ls (X y) false = .ok (out y) := by
  have hall : ∀ᶠ y in 𝓝 y0, ∃ o, interpolate s g ls (X y) false = .ok o :=
    hev.mono fun y hy => interp_ok hs (make_made h e) h hpos hm P hy false
  classical
  refine ⟨fun y => if hh : ∃ o, interpolate s g ls (X y) false = .ok o then hh.choose else ⟨0, ⟨0, 0, 0⟩⟩, ?_⟩
  refine hall.mono fun y hy => ?_
  dsimp only
  rw [dif_pos hy]
  exact hy.choose_spec

/-- C18 for the program with padding 1 (the default), every dimension and all node data: around **every** point
strictly inside storage, nodes, edges and faces included, interpolation returns, value and gradient are continuous,
and the value is differentiable with the returned gradient.  So the interpolant is continuously differentiable across
cells.  Missing for the full claim: paddings other than 1, for which it is false (`C18_padding2_false`). -/
theorem C18_continuously_differentiable_partial (s : IntSem) (d : ℕ) (hs : d < 3 → s = .wrap) (r : Req ℝ)
    (h : r.Valid d) (hpos : r.Pos d) (hp : r.pad = 1) (g : Grid ℝ d) (e : r.make s d = .ok g) (ls : Levelset ℝ)
    (phi : Cell → ℝ) (psi : Cell → Vec3 ℝ) (mix : Cell → List ℝ) (hm : ∀ c, (mix c).length = numMixed d)
    (P : PrevIs s r g ls phi psi mix) (X : E → Vec3 ℝ) (e0 : E) (hst : StrictlyInStorage r d (X e0))
    (L : Fin 3 → E →L[ℝ] ℝ) (hX : ∀ a : Fin 3, a.val < d → HasFDerivAt (fun e => (X e).get a) (L a) e0) :
    ∃ out : E → Interp ℝ, (∀ᶠ e in 𝓝 e0, interpolate s g ls (X e) false = .ok (out e)) ∧
      ContinuousAt (fun e => (out e).phi) e0 ∧ (∀ a, ContinuousAt (fun e => (out e).psi.get a) e0) ∧
      HasFDerivAt (fun e => (out e).phi) (∑ a : Fin 3, (out e0).psi.get a • L a) e0 := by
  have hev := hst.eventually fun a ha => (hX a ha).continuousAt
  obtain ⟨out, hout⟩ := out_exists hs h hpos e hm P hev
  have G := make_made h e
  obtain ⟨c1, c2⟩ := interp_continuousAt hs G h hpos hp hm P hev (fun a ha => (hX a ha).continuousAt) hout
  exact ⟨out, hout, c1, c2, interp_hasFDerivAt_all hs G h hpos hp hm P hev hX hout⟩

/-- Instance of C18: moving in 3D through the node shared by eight cells, along (1, 2, -1), ISO arithmetic. -/
example : ∃ g : Grid ℝ 3, (boxR 1).make .strict 3 = .ok g ∧ ∃ ls, ∃ out : ℝ → Interp ℝ,
    (∀ᶠ t in 𝓝 0, interpolate .strict g ls ⟨1 / 4 + t, 3 / 2 + 2 * t, 3 - t⟩ false = .ok (out t)) ∧
    ∀ a, ContinuousAt (fun t => (out t).psi.get a) 0 := by
  obtain ⟨g, e, -⟩ := C01_padded_addressing .strict 3 (boxR 1) boxR_valid
  obtain ⟨ls, P⟩ := prevIs_exists (make_made boxR_valid e) (fun c => ((c.1 * c.1 + 3 * c.2.1 - c.2.2 : ℤ) : ℝ))
    (fun c => ⟨7, c.1, 5⟩) (fun c => [11, c.2.2, 3, 1])
  have hid : HasFDerivAt (fun t : ℝ => t) (ContinuousLinearMap.id ℝ ℝ) 0 := hasFDerivAt_id 0
  obtain ⟨out, h1, -, h3, -⟩ := C18_continuously_differentiable_partial .strict 3 (fun h => absurd h (by decide))
    (boxR 1) boxR_valid (boxR_pos 1) rfl g e ls _ _ _ (fun _ => rfl) P
    (fun t : ℝ => ⟨1 / 4 + t, 3 / 2 + 2 * t, 3 - t⟩) 0 (by
      intro a ha
      match a with
      | 0 => norm_num [boxR, Vec3.get, Req.centre, Req.h]
      | 1 => norm_num [boxR, Vec3.get, Req.centre, Req.h]
      | 2 => norm_num [boxR, Vec3.get, Req.centre, Req.h])
    (fun a => match a with
      | 0 => ContinuousLinearMap.id ℝ ℝ
      | 1 => (2 : ℝ) • ContinuousLinearMap.id ℝ ℝ
      | 2 => - ContinuousLinearMap.id ℝ ℝ) (by
      intro a ha
      match a with
      | 0 => exact hid.const_add _
      | 1 => exact (hid.const_mul 2).const_add _
      | 2 => exact hid.const_sub _)
  exact ⟨g, e, ls, out, h1, h3⟩

/-- C18 is false for padding 2: data (1 at node 1, 0 elsewhere, zero gradients) for which the interpolated value is at
least 1/2 on `[9/4, 5/2)` and 0 at `5/2`. -/
theorem C18_padding2_false : ∃ g : Grid ℝ 1, (lineR 2).make .wrap 1 = .ok g ∧ ∃ ls,
    (∀ t : ℝ, 9 / 4 ≤ t → t < 5 / 2 → ∃ o, interpolate .wrap g ls ⟨t, 0, 0⟩ false = .ok o ∧ 1 / 2 ≤ o.phi) ∧
    ∃ o, interpolate .wrap g ls ⟨5 / 2, 0, 0⟩ false = .ok o ∧ o.phi = 0 := by
  obtain ⟨g, e, -⟩ := C01_padded_addressing .wrap 1 (lineR 2) lineR2_valid
  have G := make_made lineR2_valid e
  obtain ⟨ls, P⟩ := prevIs_exists G (fun c => if c.1 = 1 then 1 else 0) (fun _ => ⟨0, 0, 0⟩) (fun _ => [])
  have hcen : ∀ i : ℤ, (lineR 2).centre 0 i = i + 1 / 2 := fun i => by
    simp [lineR, Req.centre, Req.h, Vec3.get]
  have hh : (lineR 2).h 0 = 1 := by simp [lineR, Req.h, Vec3.get]
  have hst : ∀ t : ℝ, 9 / 4 ≤ t → t ≤ 5 / 2 → InStorage (lineR 2) 1 ⟨t, 0, 0⟩ := by
    intro t h1 h2 a ha
    match a with
    | 0 =>
      rw [hcen, hcen]
      show _ ≤ t ∧ t < _
      simp only [lineR, Vec3.get]
      push_cast
      constructor <;> linarith
    | 1 => exact absurd ha (by decide)
    | 2 => exact absurd ha (by decide)
  refine ⟨g, e, ls, fun t h1 h2 => ?_, ?_⟩
  · obtain ⟨b, H, eb⟩ := interp1_eval G lineR2_valid (lineR_pos 2) P (hst t h1 h2.le) false
    have hlo := H.lo 0 (by decide)
    have hhi := H.hi 0 (by decide)
    rw [hcen] at hlo hhi
    change (b.1 : ℝ) + 1 / 2 ≤ t at hlo
    change t < ((b.1 + 1 : ℤ) : ℝ) + 1 / 2 at hhi
    have l1 : (b.1 : ℝ) < 2 := by linarith
    have l2 : (0 : ℝ) < b.1 := by push_cast at hhi; linarith
    have hb : b.1 = 1 := by
      have a1 : b.1 < 2 := by exact_mod_cast l1
      have a2 : 0 < b.1 := by exact_mod_cast l2
      omega
    refine ⟨_, eb, ?_⟩
    have hx : (nodePos (lineR 2) 1 b).x = 5 / 2 := by
      have := nodePos_get (d := 1) (lineR 2) b 0
      rw [if_pos (by decide), hcen] at this
      refine this.trans ?_
      have hcb : comp b 0 = 1 := hb
      rw [hcb]
      norm_num [lineR]
    rw [kernel1_eq, hx, hh]
    simp only [hb, T1, basis, if_true]
    norm_num
    simp only [B0, B1, cube, sqr]
    nlinarith [mul_nonneg (sub_nonneg.2 h2.le) (sub_nonneg.2 h1), sq_nonneg (t - 5 / 2), sq_nonneg (t - 9 / 4)]
  · obtain ⟨b, H, eb⟩ := interp1_eval G lineR2_valid (lineR_pos 2) P (hst _ (by norm_num) le_rfl) false
    have hlo := H.lo 0 (by decide)
    have hhi := H.hi 0 (by decide)
    rw [hcen] at hlo hhi
    change (b.1 : ℝ) + 1 / 2 ≤ 5 / 2 at hlo
    change (5 / 2 : ℝ) < ((b.1 + 1 : ℤ) : ℝ) + 1 / 2 at hhi
    have l1 : (b.1 : ℝ) < 3 := by linarith
    have l2 : (1 : ℝ) < b.1 := by push_cast at hhi; linarith
    have hb : b.1 = 2 := by
      have a1 : b.1 < 3 := by exact_mod_cast l1
      have a2 : 1 < b.1 := by exact_mod_cast l2
      omega
    refine ⟨_, eb, ?_⟩
    rw [kernel1_eq]
    simp [hb, T1, basis]

end C18

/-! ## C56: Bernstein basis laws -/

section C56

/-- C56, the basis: non-negative on `[0,1]`, sums to one everywhere, the coded derivatives are the derivatives and sum
to zero. -/
theorem C56_basis (η : ℝ) :
    (0 ≤ η → η ≤ 1 → 0 ≤ B0 η ∧ 0 ≤ B1 η ∧ 0 ≤ B2 η ∧ 0 ≤ B3 η) ∧
    B0 η + B1 η + B2 η + B3 η = 1 ∧
    (HasDerivAt B0 (B0' η) η ∧ HasDerivAt B1 (B1' η) η ∧ HasDerivAt B2 (B2' η) η ∧ HasDerivAt B3 (B3' η) η) ∧
    B0' η + B1' η + B2' η + B3' η = 0 := by
  refine ⟨fun h0 h1 => ?_, ?_, ⟨hasDerivAt_Bf η 0, hasDerivAt_Bf η 1, hasDerivAt_Bf η 2, hasDerivAt_Bf η 3⟩, ?_⟩
  · have := Bf_nonneg h0 h1
    exact ⟨this _ (by simp [basis]), this _ (by simp [basis]), this _ (by simp [basis]), this _ (by simp [basis])⟩
  · have := basis_sum η
    simp only [basis, List.sum_cons, List.sum_nil] at this
    linarith
  · simp only [B0', B1', B2', B3', sqr]; ring

variable {K : Type} [Field K] [LinearOrder K] [IsStrictOrderedRing K] [FloorRing K]

omit [FloorRing K] in
/-- C56, bounds: limited or not, for parameters in `[0,1]` the value returned by the 1D, 2D and 3D arithmetic is
between any bounds of the 4, 16 or 64 control points. -/
theorem C56_convex_hull (lim : Bool) (m M : K) :
    (∀ (dx inv eta : K) (n0 n1 : Node1 K), 0 ≤ eta → eta ≤ 1 →
      (let p := getControlPoints n0.phi n0.psi.x n1.phi n1.psi.x dx lim
        ∀ c ∈ [p.c30, p.c21, p.c12, p.c03], m ≤ c ∧ c ≤ M) →
      m ≤ (kernel1 dx inv eta n0 n1 lim).phi ∧ (kernel1 dx inv eta n0 n1 lim).phi ≤ M) ∧
    (∀ (dx inv eta : Vec3 K) (n00 n10 n01 n11 : Node2 K), 0 ≤ eta.x → eta.x ≤ 1 → 0 ≤ eta.y → eta.y ≤ 1 →
      (∀ c ∈ controls2 dx n00 n10 n01 n11 lim, m ≤ c ∧ c ≤ M) →
      m ≤ (kernel2 dx inv eta n00 n10 n01 n11 lim).phi ∧ (kernel2 dx inv eta n00 n10 n01 n11 lim).phi ≤ M) ∧
    (∀ (dx inv eta : Vec3 K) (n0 n1 n2 n3 n4 n5 n6 n7 : Node3 K), 0 ≤ eta.x → eta.x ≤ 1 → 0 ≤ eta.y → eta.y ≤ 1 →
      0 ≤ eta.z → eta.z ≤ 1 → (∀ c ∈ controls3 dx n0 n1 n2 n3 n4 n5 n6 n7 lim, m ≤ c ∧ c ≤ M) →
      m ≤ (kernel3 dx inv eta n0 n1 n2 n3 n4 n5 n6 n7 lim).phi ∧
        (kernel3 dx inv eta n0 n1 n2 n3 n4 n5 n6 n7 lim).phi ≤ M) :=
  ⟨fun _ _ _ _ _ h0 h1 hc => kernel1_bounds h0 h1 hc, fun _ _ _ _ _ _ _ h0 h1 h2 h3 hc => kernel2_bounds h0 h1 h2 h3 hc,
    fun _ _ _ _ _ _ _ _ _ _ _ h0 h1 h2 h3 h4 h5 hc => kernel3_bounds h0 h1 h2 h3 h4 h5 hc⟩

/-- C56 for the 1D program with padding 1: the interpolated value is between any bounds of the four Bézier points
`phi_b, phi_b + psi_b h / 3, phi_{b+1} - psi_{b+1} h / 3, phi_{b+1}` of the cell of the point. -/
theorem C56_interpolated_1d (r : Req K) (h : r.Valid 1) (hpos : r.Pos 1) (hp : r.pad = 1) (g : Grid K 1)
    (e : r.make .wrap 1 = .ok g) (ls : Levelset K) (phi : Cell → K) (psi : Cell → Vec3 K) (mix : Cell → List K)
    (P : PrevIs .wrap r g ls phi psi mix) (x : Vec3 K) (hx : InStorage r 1 x) :
    ∃ (b : ℤ) (o : Interp K), interpolate .wrap g ls x false = .ok o ∧
      r.centre 0 b ≤ x.x ∧ x.x < r.centre 0 (b + 1) ∧
      ∀ m M : K, (∀ c ∈ [phi (b, 0, 0), phi (b, 0, 0) + (psi (b, 0, 0)).x * r.h 0 / 3,
          phi (b + 1, 0, 0) - (psi (b + 1, 0, 0)).x * r.h 0 / 3, phi (b + 1, 0, 0)], m ≤ c ∧ c ≤ M) →
        m ≤ o.phi ∧ o.phi ≤ M := by
  obtain ⟨b, H, eb⟩ := interp1_eval (make_made h e) h hpos P hx false
  have hlo := H.lo 0 (by decide)
  have hhi := H.hi 0 (by decide)
  have hb : b = (b.1, 0, 0) := Prod.ext rfl (Prod.ext (H.unused 1 (by decide)) (H.unused 2 (by decide)))
  refine ⟨b.1, _, eb, hlo, hhi, fun m M hc => ?_⟩
  have hh := h.h_pos hpos 0 (by decide)
  have hnp : (nodePos r 1 b).x = r.centre 0 b.1 := by
    have := nodePos_get (d := 1) r b 0
    rw [if_pos (by decide), hp, sub_self, add_zero] at this
    exact this
  change r.centre 0 b.1 ≤ x.x at hlo
  change x.x < r.centre 0 (b.1 + 1) at hhi
  have hs : r.centre 0 (b.1 + 1) = r.centre 0 b.1 + r.h 0 := by unfold Req.centre; push_cast; ring
  rw [hs] at hhi
  refine kernel1_bounds ?_ ?_ ?_
  · rw [hnp]
    exact mul_nonneg (sub_nonneg.2 hlo) (one_div_nonneg.2 hh.le)
  · rw [hnp, mul_one_div, div_le_one hh]
    linarith
  · rw [hb]
    simp only [getControlPoints, oneThird, Bool.false_eq_true, if_false]
    intro c hc'
    refine hc c ?_
    simpa [div_eq_mul_inv] using hc'

end C56

/-- Instance of C56: at 1.7 between nodes with values 4 and 6 and slopes 3 and -3, the value is in `[4, 7]`. -/
example : ∃ g : Grid ℚ 1, (line 1).make .wrap 1 = .ok g ∧ ∃ ls o, ls.phiPrev.get .wrap g 1 0 0 = .ok 4 ∧
    interpolate .wrap g ls ⟨17 / 10, 0, 0⟩ false = .ok o ∧ 4 ≤ o.phi ∧ o.phi ≤ 7 := by
  obtain ⟨g, e, -⟩ := C01_padded_addressing .wrap 1 (line 1) line_valid
  have G := make_made line_valid e
  obtain ⟨ls, P⟩ := prevIs_exists G (fun c => if c.1 = 1 then 4 else 6) (fun c => ⟨if c.1 = 1 then 3 else -3, 0, 0⟩)
    (fun _ => [])
  have hphi := P.phi (1, 0, 0) (by unfold Req.Padded PaddedCell padAlong line; simp)
  obtain ⟨b, o, ho, h1, h2, h3⟩ := C56_interpolated_1d (line 1) line_valid (line_pos 1) rfl g e ls _ _ _ P
    ⟨17 / 10, 0, 0⟩ (by
      intro a ha
      match a with
      | 0 => norm_num [line, Vec3.get, Req.centre, Req.h]
      | 1 => exact absurd ha (by decide)
      | 2 => exact absurd ha (by decide))
  have hcen : ∀ i : ℤ, (line 1).centre 0 i = i + 1 / 2 := fun i => by
    simp [line, Req.centre, Req.h, Vec3.get]
  rw [hcen] at h1 h2
  simp only at h1 h2
  have hb : b = 1 := by
    have a1 : (b : ℚ) < 2 := by linarith
    have a2 : (0 : ℚ) < b := by push_cast at h2; linarith
    have a3 : b < 2 := by exact_mod_cast a1
    have a4 : 0 < b := by exact_mod_cast a2
    omega
  subst hb
  refine ⟨g, e, ls, o, by simpa using hphi, ho, h3 4 7 ?_⟩
  intro c hc
  norm_num [line, Req.h, Vec3.get] at hc
  rcases hc with rfl | rfl | rfl | rfl <;> norm_num

/-- Instance of the 2D bounds: data that are not constant, limiting on. -/
example : ∃ m M : ℚ, m ≤ (kernel2 (⟨1, 1, 1⟩ : Vec3 ℚ) ⟨1, 1, 1⟩ ⟨1 / 3, 2 / 3, 0⟩ ⟨1, ⟨2, 3, 0⟩, 4⟩ ⟨5, ⟨6, 7, 0⟩, 8⟩
    ⟨9, ⟨1, 2, 0⟩, 3⟩ ⟨4, ⟨5, 6, 0⟩, 7⟩ true).phi ∧ (kernel2 (⟨1, 1, 1⟩ : Vec3 ℚ) ⟨1, 1, 1⟩ ⟨1 / 3, 2 / 3, 0⟩
    ⟨1, ⟨2, 3, 0⟩, 4⟩ ⟨5, ⟨6, 7, 0⟩, 8⟩ ⟨9, ⟨1, 2, 0⟩, 3⟩ ⟨4, ⟨5, 6, 0⟩, 7⟩ true).phi ≤ M ∧ M = 13 ∧ m = -4 := by
  have := (C56_convex_hull true (-4 : ℚ) 13).2.1 ⟨1, 1, 1⟩ ⟨1, 1, 1⟩ ⟨1 / 3, 2 / 3, 0⟩ ⟨1, ⟨2, 3, 0⟩, 4⟩
    ⟨5, ⟨6, 7, 0⟩, 8⟩ ⟨9, ⟨1, 2, 0⟩, 3⟩ ⟨4, ⟨5, 6, 0⟩, 7⟩ (by norm_num) (by norm_num) (by norm_num) (by norm_num)
    (by norm_num [controls2, getControlPoints, oneThird, twoThirds])
  exact ⟨_, _, this.1, this.2, rfl, rfl⟩

end Gals.Props
