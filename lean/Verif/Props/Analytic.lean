import Verif.Lemmas.Analytic
import Verif.Props.Smooth
import Verif.Props.Temporal
import Mathlib.Analysis.InnerProductSpace.PiL2
import Mathlib.Analysis.SpecialFunctions.Trigonometric.Arctan

/-!
# Properties C32, C33, C34 and the velocity part of C13 (analytic fields)
-/

set_option linter.unusedSectionVars false

namespace Gals.Props

open Gals Spec

noncomputable instance : HasSqrt ℝ := ⟨Real.sqrt⟩

/-- `atan(1) * 4` (`include/gals/utilities/utilities.h:55`). -/
noncomputable instance : HasPi ℝ := ⟨Real.arctan 1 * 4⟩

/-! ## C32: the circle -/

/-- Euclidean distance of two points, from Mathlib. -/
noncomputable def dist3 (p q : Vec3 ℝ) : ℝ :=
  dist (!₂[p.x, p.y, p.z] : EuclideanSpace ℝ (Fin 3)) !₂[q.x, q.y, q.z]

theorem mag_eq_dist3 (p q : Vec3 ℝ) : (p.sub q).mag = dist3 p q := by
  unfold dist3 Vec3.mag Vec3.sub
  rw [EuclideanSpace.dist_eq, Fin.sum_univ_three]
  simp only [HasSqrt.sqrt]
  congr 1
  simp [Real.dist_eq, sq]

theorem dist3_lipschitz (p p' q : Vec3 ℝ) : |dist3 p q - dist3 p' q| ≤ dist3 p p' :=
  abs_dist_sub_le _ _ _

section C32
variable {d : ℕ}

/-- C32, every dimension, padding, centre, radius, position field and level set.  The positions may be on another grid
(`gp`) with the same cell counts.  The run returns; it changes `phi` only; at each interior cell `phi` is the distance of
the position to the centre less the radius: negative exactly inside, zero exactly on the circle; `phi` is 1-Lipschitz in
the position; ghost cells keep their values. -/
theorem C32_circle (s : IntSem) (r : Req ℝ) (h : r.Valid d) (g gp : Grid ℝ d) (e : r.make s d = .ok g)
    (inp : LevelsetInputs ℝ) (hn : inp.name = "CIRCLE") (positions : Arr (Vec3 ℝ)) (pos : Cell → Vec3 ℝ)
    (he : positions.numCells = r.n)
    (hpos : ∀ c, r.Interior c → positions.get s gp c.1 c.2.1 c.2.2 = .ok (pos c)) (ls : Levelset ℝ) (p0 : Cell → ℝ)
    (hp : FieldIs s r g ls.phi p0) :
    ∃ (phi' : Arr ℝ) (v : Cell → ℝ), analyticLevelset s gp g inp positions ls = .ok { ls with phi := phi' } ∧
      (∀ c, r.Interior c → phi'.get s g c.1 c.2.1 c.2.2 = .ok (v c) ∧ v c = dist3 (pos c) inp.center - inp.radius ∧
        (v c < 0 ↔ dist3 (pos c) inp.center < inp.radius) ∧ (v c = 0 ↔ dist3 (pos c) inp.center = inp.radius)) ∧
      (∀ c c', r.Interior c → r.Interior c' → |v c - v c'| ≤ dist3 (pos c) (pos c')) ∧
      ∀ c, r.Padded d c → ¬ r.Interior c → phi'.get s g c.1 c.2.1 c.2.2 = .ok (p0 c) := by
  have G := make_made h e
  obtain ⟨phi', h1, h2⟩ := analyticLevelset_ok (gp := gp) G hn he hpos hp
  refine ⟨phi', fun c => dist3 (pos c) inp.center - inp.radius, h1, fun c hc => ⟨?_, rfl, sub_neg, sub_eq_zero⟩, ?_, ?_⟩
  · rw [h2.val c (interior_padded G hc), if_pos hc, mag_eq_dist3]
  · intro c c' _ _
    rw [sub_sub_sub_cancel_right]
    exact dist3_lipschitz _ _ _
  · intro c hc hni
    rw [h2.val c hc, if_neg hni]

/-- C32, names: any other name leaves the level set as it was, whatever the other inputs. -/
theorem C32_unknown_name {K : Type} [Zero K] [One K] [Add K] [Sub K] [Mul K] [Div K] [Neg K] [NatCast K] [IntCast K]
    [LT K] [DecidableLT K] [LE K] [DecidableLE K] [HasSqrt K] (s : IntSem) (g gp : Grid K d)
    (inp : LevelsetInputs K) (hn : inp.name ≠ "CIRCLE") (positions : Arr (Vec3 K)) (ls : Levelset K) :
    analyticLevelset s gp g inp positions ls = .ok ls := by
  unfold analyticLevelset levelsetName
  rw [if_neg hn]

end C32

/-- Position field of a grid, as the application fills it. -/
theorem positions_exists {d : ℕ} {s : IntSem} {r : Req ℝ} {g : Grid ℝ d} (G : g.Made s r) :
    ∃ a : Arr (Vec3 ℝ), FieldIs s r g a (nodePos r d) := fieldIs_exists G _

theorem demoR_node : nodePos (demoR 1) 2 (2, 1, 0) = ⟨5 / 4, 3 / 2, 0⟩ := by
  unfold nodePos Req.centre Req.h comp demoR Vec3.get
  norm_num

theorem demoR_interior : (demoR 1).Interior (2, 1, 0) := by unfold Req.Interior InteriorCell demoR; simp

/-- Instance of C32: circle about `(1/4, 3/2)` with radius 3, cell `(2, 1)` at distance 1: value -2. -/
example : ∃ g : Grid ℝ 2, (demoR 1).make .strict 2 = .ok g ∧ ∃ (positions : Arr (Vec3 ℝ)) (ls ls' : Levelset ℝ),
    analyticLevelset .strict g g ⟨"CIRCLE", ⟨1 / 4, 3 / 2, 0⟩, 3, ""⟩ positions ls = .ok ls' ∧
    ls'.phi.get .strict g 2 1 0 = .ok (-2) ∧ ls'.phi.get .strict g (-1) 1 0 = .ok 7 := by
  obtain ⟨g, e, -⟩ := C01_padded_addressing .strict 2 (demoR 1) demoR_valid
  have G := make_made demoR_valid e
  obtain ⟨a, ha⟩ := positions_exists G
  obtain ⟨ls, h0, -⟩ := levelset_exists (s := .strict) G (fun _ => 7) (fun _ => 0) (fun _ => 0) (fun _ => ⟨0, 0, 0⟩)
    (fun _ => ⟨0, 0, 0⟩) (fun _ => ⟨0, 0, 0⟩) (fun _ => [0])
  obtain ⟨phi', v, k1, k2, -, k4⟩ := C32_circle .strict (demoR 1) demoR_valid g g e
    ⟨"CIRCLE", ⟨1 / 4, 3 / 2, 0⟩, 3, ""⟩ rfl a _ ha.ext (fun c hc => ha.val c (interior_padded G hc)) ls _ h0
  obtain ⟨m1, m2, -⟩ := k2 (2, 1, 0) demoR_interior
  refine ⟨g, e, a, ls, _, k1, ?_, k4 (-1, 1, 0) (by unfold Req.Padded PaddedCell padAlong demoR; simp)
    (by unfold Req.Interior InteriorCell demoR; simp)⟩
  have hv : v (2, 1, 0) = -2 := by
    rw [m2, demoR_node, ← mag_eq_dist3]
    norm_num [Vec3.mag, Vec3.sub, HasSqrt.sqrt]
  rw [← hv]
  exact m1

/-- Instance of C32, names. -/
example (g : Grid ℚ 2) (ls : Levelset ℚ) (a : Arr (Vec3 ℚ)) (sq : HasSqrt ℚ) :
    analyticLevelset .strict g g ⟨"SQUARE", ⟨1 / 4, 3 / 2, 0⟩, 3, ""⟩ a ls = .ok ls :=
  C32_unknown_name .strict g g _ (by decide) a ls

/-! ## C13, velocity part; the run of the circular velocity -/

section run
variable {K : Type} {d : ℕ} [Zero K] [One K] [Add K] [Sub K] [Mul K] [Div K] [Neg K] [NatCast K] [IntCast K]
  [LT K] [DecidableLT K] [LE K] [DecidableLE K] [HasPi K]

/-- The run of the circular velocity in the test build, 2D and 3D, padding at least 1, with the extents of the gradient. -/
theorem circular_run_ext (s : IntSem) (hd : d = 2 ∨ d = 3) {r : Req K} (hpad : 1 ≤ r.pad) {g gp : Grid K d}
    (G : g.Made s r) {inp : VelocityInputs K} (hn : inp.name = "CIRCULAR") {c0 c1 : K} {rest : List K}
    (hc : inp.center = c0 :: c1 :: rest) {positions : Arr (Vec3 K)} {pos : Cell → Vec3 K} (he : positions.numCells = r.n)
    (hpos : ∀ c, r.Interior c → positions.get s gp c.1 c.2.1 c.2.2 = .ok (pos c)) (time : K) {vel : LsVelocity K}
    {v0 : Cell → Vec3 K} {m0 : Cell → Mat3 K} (hv : FieldIs s r g vel.velocity v0) (hg : FieldIs s r g vel.grad m0) :
    ∃ vel', analyticVelocity .tests s gp g inp positions time vel = .ok vel' ∧
      FieldIs s r g vel'.velocity (fun c => if r.Interior c then
        ⟨circularCoeff * (c0 - (pos c).y), circularCoeff * ((pos c).x - c1), 0⟩ else v0 c) ∧
      (∀ c, r.Interior c → vel'.grad.get s g c.1 c.2.1 c.2.2 = .ok (m0 c)) ∧
      (inp.gradientScheme ≠ "ANALYTICAL" → vel'.grad = vel.grad) ∧ vel'.grad.data.length = g.size ∧
      vel'.grad.numCells = r.n := by
  obtain ⟨v', q, h1, h2⟩ := velocityLoop_ok (gp := gp) G (center := inp.center)
    (f := fun p => ⟨circularCoeff * (c0 - p.y), circularCoeff * (p.x - c1), 0⟩)
    (fun p q => by rw [hc, circularNode_eq hd]) (fun p => by rw [hc, circularNode_eq hd]; rfl) he hpos hv
  have hlen : 2 ≤ vel.grad.data.length := by
    have h0 : r.Interior (0, 0, 0) := by
      have := G.shape.nx_pos; have := G.shape.ny_pos; have := G.shape.nz_pos
      have := G.nx; have := G.ny; have := G.nz
      refine ⟨⟨?_, ?_⟩, ⟨?_, ?_⟩, ⟨?_, ?_⟩⟩ <;> simp only <;> omega
    have b1 := lin_interior G hd hpad h0
    have b2 := Grid.lin_bound G.shape (G.inPad.2 (interior_padded G h0))
    have := G.size
    have := hg.len
    omega
  have hne : positions.interior ≠ [] := by
    have h0 : r.Interior (0, 0, 0) := by
      have := G.shape.nx_pos; have := G.shape.ny_pos; have := G.shape.nz_pos
      have := G.nx; have := G.ny; have := G.nz
      refine ⟨⟨?_, ?_⟩, ⟨?_, ?_⟩, ⟨?_, ?_⟩⟩ <;> simp only <;> omega
    exact List.ne_nil_of_mem ((mem_interior he _).2 h0)
  obtain ⟨a, b, tl, hdata⟩ := two_elems hlen
  obtain ⟨nx, ny, nz, pd, hgrad⟩ : ∃ nx ny nz pd, vel.grad = ⟨nx, ny, nz, pd, a :: b :: tl⟩ :=
    ⟨_, _, _, _, by rw [← hdata]⟩
  have hkeep : ∀ c, r.Interior c → Arr.get s g (⟨nx, ny, nz, pd, gradFirst a :: gradSecond b :: tl⟩ : Arr (Mat3 K))
      c.1 c.2.1 c.2.2 = .ok (m0 c) := by
    intro c hci
    have hpc := interior_padded G hci
    have := hg.val c hpc
    unfold Arr.get at this ⊢
    rw [Grid.index_ok s G.shape (G.inPad.2 hpc), M.ok_bind] at this ⊢
    have h2 := lin_interior G hd hpad hci
    obtain ⟨n, hn⟩ : ∃ n : ℕ, g.lin c = ((n + 2 : ℕ) : ℤ) := ⟨(g.lin c - 2).toNat, by omega⟩
    rw [hn, hgrad] at this
    rw [hn]
    rw [rd_eq_ok_iff] at this ⊢
    refine ⟨by omega, ?_⟩
    have := this.2
    rw [Int.toNat_natCast] at this ⊢
    simpa using this
  unfold analyticVelocity velocityName
  rw [if_pos hn]
  simp only [unbracedAbort, M.ok_bind]
  rw [h1, M.ok_bind]
  by_cases hsch : inp.gradientScheme = "ANALYTICAL"
  · rw [if_pos hsch, hgrad, gradLoop_eq hd _ hne, M.ok_bind]
    refine ⟨_, rfl, h2, hkeep, fun h => absurd hsch h, ?_⟩
    have h3 := hg.len
    have h4 := hg.ext
    rw [hgrad] at h3 h4
    exact ⟨by simpa using h3, h4⟩
  · rw [if_neg hsch]
    exact ⟨_, rfl, h2, fun c hci => hg.val c (interior_padded G hci), fun _ => rfl, hg.len, hg.ext⟩

/-- The run of the circular velocity in the test build, 2D and 3D, padding at least 1. -/
theorem circular_run (s : IntSem) (hd : d = 2 ∨ d = 3) {r : Req K} (hpad : 1 ≤ r.pad) {g gp : Grid K d}
    (G : g.Made s r) {inp : VelocityInputs K} (hn : inp.name = "CIRCULAR") {c0 c1 : K} {rest : List K}
    (hc : inp.center = c0 :: c1 :: rest) {positions : Arr (Vec3 K)} {pos : Cell → Vec3 K} (he : positions.numCells = r.n)
    (hpos : ∀ c, r.Interior c → positions.get s gp c.1 c.2.1 c.2.2 = .ok (pos c)) (time : K) {vel : LsVelocity K}
    {v0 : Cell → Vec3 K} {m0 : Cell → Mat3 K} (hv : FieldIs s r g vel.velocity v0) (hg : FieldIs s r g vel.grad m0) :
    ∃ vel', analyticVelocity .tests s gp g inp positions time vel = .ok vel' ∧
      FieldIs s r g vel'.velocity (fun c => if r.Interior c then
        ⟨circularCoeff * (c0 - (pos c).y), circularCoeff * ((pos c).x - c1), 0⟩ else v0 c) ∧
      (∀ c, r.Interior c → vel'.grad.get s g c.1 c.2.1 c.2.2 = .ok (m0 c)) ∧
      (inp.gradientScheme ≠ "ANALYTICAL" → vel'.grad = vel.grad) ∧ vel'.grad.data.length = g.size := by
  obtain ⟨vel', h1, h2, h3, h4, h5, -⟩ := circular_run_ext s hd hpad G hn hc he hpos time hv hg
  exact ⟨vel', h1, h2, h3, h4, h5⟩

/-- C13 for the analytic velocity in the test build, 2D and 3D, padding at least 1, numbers without laws: the supported
velocity is computed and the function returns, whatever the gradient scheme.  Missing for the full claim: the non-test
build, where it is false (`C13_velocity_false`). -/
theorem C13_velocity_partial (s : IntSem) (hd : d = 2 ∨ d = 3) (r : Req K) (h : r.Valid d) (hpad : 1 ≤ r.pad)
    (g gp : Grid K d) (e : r.make s d = .ok g) (inp : VelocityInputs K) (hn : inp.name = "CIRCULAR") (c0 c1 c2 : K)
    (hc : inp.center = [c0, c1, c2]) (positions : Arr (Vec3 K)) (pos : Cell → Vec3 K) (he : positions.numCells = r.n)
    (hpos : ∀ c, r.Interior c → positions.get s gp c.1 c.2.1 c.2.2 = .ok (pos c)) (time : K) (vel : LsVelocity K)
    (v0 : Cell → Vec3 K) (m0 : Cell → Mat3 K) (hv : FieldIs s r g vel.velocity v0) (hg : FieldIs s r g vel.grad m0) :
    ∃ vel', analyticVelocity .tests s gp g inp positions time vel = .ok vel' := by
  obtain ⟨vel', h1, -⟩ := circular_run s hd hpad (make_made h e) hn hc he hpos time hv hg
  exact ⟨vel', h1⟩

/-- C13 is false in the non-test build: computing the supported velocity ends the process, for **every** dimension, grid
and input. -/
theorem C13_velocity_false (s : IntSem) (g gp : Grid K d) (inp : VelocityInputs K) (hn : inp.name = "CIRCULAR")
    (positions : Arr (Vec3 K)) (time : K) (vel : LsVelocity K) :
    analyticVelocity .release s gp g inp positions time vel = .error .exited := by
  unfold analyticVelocity velocityName
  rw [if_pos hn]
  rfl

end run

/-- The velocity field of a new `LevelsetVelocity`. -/
theorem newVelocity {d : ℕ} {s : IntSem} {r : Req ℝ} {g : Grid ℝ d} (G : g.Made s r) :
    FieldIs s r g (LsVelocity.mk' g).velocity (fun _ => Vec3.zero) ∧ FieldIs s r g (LsVelocity.mk' g).grad (fun _ => Mat3.zero) :=
  ⟨fieldIs_mk G _, fieldIs_mk G _⟩

/-- Instance of C13, velocity: the 4 × 3 grid, centre `(1, 2, 0)`. -/
example : ∃ g : Grid ℝ 2, (demoR 1).make .strict 2 = .ok g ∧ ∃ (positions : Arr (Vec3 ℝ)) (vel' : LsVelocity ℝ),
    analyticVelocity .tests .strict g g ⟨"CIRCULAR", [], [1, 2, 0], "ANALYTICAL"⟩ positions 0 (LsVelocity.mk' g) = .ok vel' ∧
    analyticVelocity .release .strict g g ⟨"CIRCULAR", [], [1, 2, 0], "ANALYTICAL"⟩ positions 0 (LsVelocity.mk' g) =
      .error .exited := by
  obtain ⟨g, e, -⟩ := C01_padded_addressing .strict 2 (demoR 1) demoR_valid
  have G := make_made demoR_valid e
  obtain ⟨a, ha⟩ := positions_exists G
  obtain ⟨vel', h⟩ := C13_velocity_partial .strict (.inl rfl) (demoR 1) demoR_valid (by decide) g g e
    ⟨"CIRCULAR", [], [1, 2, 0], "ANALYTICAL"⟩ rfl 1 2 0 rfl a _ ha.ext (fun c hc => ha.val c (interior_padded G hc)) 0
    (LsVelocity.mk' g) _ _ (newVelocity G).1 (newVelocity G).2
  exact ⟨g, e, a, vel', h, C13_velocity_false .strict g g _ rfl a 0 _⟩

/-! ## C33: the circular velocity -/

theorem circularCoeff_eq : (circularCoeff : ℝ) = Real.pi / 3.15 := by
  unfold circularCoeff
  simp only [HasPi.pi]
  rw [Real.arctan_one]
  norm_num

theorem circularCoeff_pos : (0 : ℝ) < circularCoeff := by
  rw [circularCoeff_eq]
  have := Real.pi_pos
  positivity

section C33
variable {d : ℕ}

/-- The circular velocity was computed: a run that returns, on a grid in 2D or 3D with padding at least 1, in the test build
(the non-test build ends the process, C13), for centre `(c0, c1, ...)`; positions on a grid with the same cell counts. -/
structure CircularRun (s : IntSem) (r : Req ℝ) (g gp : Grid ℝ d) (inp : VelocityInputs ℝ) (c0 c1 : ℝ)
    (positions : Arr (Vec3 ℝ)) (pos : Cell → Vec3 ℝ) (vel : LsVelocity ℝ) : Prop where
  dim : d = 2 ∨ d = 3
  valid : r.Valid d
  pad : 1 ≤ r.pad
  made : r.make s d = .ok g
  name : inp.name = "CIRCULAR"
  center : ∃ rest, inp.center = c0 :: c1 :: rest
  ext : positions.numCells = r.n
  posVal : ∀ c, r.Interior c → positions.get s gp c.1 c.2.1 c.2.2 = .ok (pos c)
  velField : ∃ v0, FieldIs s r g vel.velocity v0
  gradField : ∃ m0, FieldIs s r g vel.grad m0

theorem CircularRun.run {s : IntSem} {r : Req ℝ} {g gp : Grid ℝ d} {inp : VelocityInputs ℝ} {c0 c1 : ℝ}
    {positions : Arr (Vec3 ℝ)} {pos : Cell → Vec3 ℝ} {vel : LsVelocity ℝ} (R : CircularRun s r g gp inp c0 c1 positions pos vel)
    (time : ℝ) : ∃ vel', analyticVelocity .tests s gp g inp positions time vel = .ok vel' ∧
      ∀ c, r.Interior c → vel'.velocity.get s g c.1 c.2.1 c.2.2 =
        .ok ⟨circularCoeff * (c0 - (pos c).y), circularCoeff * ((pos c).x - c1), 0⟩ := by
  obtain ⟨rest, hc⟩ := R.center
  obtain ⟨v0, hv⟩ := R.velField
  obtain ⟨m0, hm⟩ := R.gradField
  have G := make_made R.valid R.made
  obtain ⟨vel', h1, h2, -⟩ := circular_run s R.dim R.pad G R.name hc R.ext R.posVal time hv hm
  refine ⟨vel', h1, fun c hci => ?_⟩
  rw [h2.val c (interior_padded G hci), if_pos hci]

/-- What the circular velocity is, for every centre `(c0, c1)`: the rigid rotation about the **swapped** point `(c1, c0)`
with angular speed `π / 3.15`.  At each interior cell with position `p` the velocity `v` vanishes iff `p` is at the swapped
point, is perpendicular to the vector from there to `p`, and its length is `π / 3.15` times the distance. -/
theorem C33_swapped_centre (s : IntSem) (r : Req ℝ) (g gp : Grid ℝ d) (inp : VelocityInputs ℝ) (c0 c1 : ℝ)
    (positions : Arr (Vec3 ℝ)) (pos : Cell → Vec3 ℝ) (vel : LsVelocity ℝ) (R : CircularRun s r g gp inp c0 c1 positions pos vel)
    (time : ℝ) : ∃ vel', analyticVelocity .tests s gp g inp positions time vel = .ok vel' ∧
      ∀ c, r.Interior c → ∃ v, vel'.velocity.get s g c.1 c.2.1 c.2.2 = .ok v ∧
        (v = ⟨0, 0, 0⟩ ↔ (pos c).x = c1 ∧ (pos c).y = c0) ∧
        v.x * ((pos c).x - c1) + v.y * ((pos c).y - c0) = 0 ∧
        dist3 v ⟨0, 0, 0⟩ = Real.pi / 3.15 * dist3 ⟨(pos c).x, (pos c).y, 0⟩ ⟨c1, c0, 0⟩ := by
  obtain ⟨vel', h1, h2⟩ := R.run time
  refine ⟨vel', h1, fun c hc => ⟨_, h2 c hc, ?_, ?_, ?_⟩⟩
  · rw [Vec3.ext_iff]
    simp only [mul_eq_zero, circularCoeff_pos.ne', false_or, and_true, sub_eq_zero]
    exact ⟨fun h => ⟨h.2, h.1.symm⟩, fun h => ⟨h.2.symm, h.1⟩⟩
  · simp only
    ring
  · rw [← mag_eq_dist3, ← mag_eq_dist3, ← circularCoeff_eq]
    unfold Vec3.mag Vec3.sub
    simp only [HasSqrt.sqrt]
    rw [← Real.sqrt_sq circularCoeff_pos.le, ← Real.sqrt_mul (sq_nonneg _), Real.sqrt_sq circularCoeff_pos.le]
    congr 1
    ring

/-- C33 for centres with equal first two coordinates: the velocity vanishes exactly at the centre (in the plane), is
perpendicular to `x - centre`, and its speed is `π / 3.15` times the distance.  Missing: the other centres, for all of which
it is false (`C33_false`). -/
theorem C33_rotation_partial (s : IntSem) (r : Req ℝ) (g gp : Grid ℝ d) (inp : VelocityInputs ℝ) (c0 : ℝ)
    (positions : Arr (Vec3 ℝ)) (pos : Cell → Vec3 ℝ) (vel : LsVelocity ℝ) (R : CircularRun s r g gp inp c0 c0 positions pos vel)
    (time : ℝ) : ∃ vel', analyticVelocity .tests s gp g inp positions time vel = .ok vel' ∧
      ∀ c, r.Interior c → ∃ v, vel'.velocity.get s g c.1 c.2.1 c.2.2 = .ok v ∧
        (v = ⟨0, 0, 0⟩ ↔ (pos c).x = c0 ∧ (pos c).y = c0) ∧
        v.x * ((pos c).x - c0) + v.y * ((pos c).y - c0) = 0 ∧
        dist3 v ⟨0, 0, 0⟩ = Real.pi / 3.15 * dist3 ⟨(pos c).x, (pos c).y, 0⟩ ⟨c0, c0, 0⟩ :=
  C33_swapped_centre s r g gp inp c0 c0 positions pos vel R time

/-- C33 is false for **every** centre with different first two coordinates: a cell positioned at the centre has a velocity
other than zero. -/
theorem C33_false (s : IntSem) (r : Req ℝ) (g gp : Grid ℝ d) (inp : VelocityInputs ℝ) (c0 c1 : ℝ) (hne : c0 ≠ c1)
    (positions : Arr (Vec3 ℝ)) (pos : Cell → Vec3 ℝ) (vel : LsVelocity ℝ) (R : CircularRun s r g gp inp c0 c1 positions pos vel)
    (time : ℝ) (c : Cell) (hc : r.Interior c) (hx : (pos c).x = c0) :
    ∃ vel', analyticVelocity .tests s gp g inp positions time vel = .ok vel' ∧
      ∃ v, vel'.velocity.get s g c.1 c.2.1 c.2.2 = .ok v ∧ v ≠ ⟨0, 0, 0⟩ := by
  obtain ⟨vel', h1, h2⟩ := C33_swapped_centre s r g gp inp c0 c1 positions pos vel R time
  obtain ⟨v, h3, h4, -⟩ := h2 c hc
  refine ⟨vel', h1, v, h3, fun h => hne ?_⟩
  rw [← hx]
  exact (h4.1 h).1

/-- The matrix of the rotation, as a linear map of three-vectors. -/
noncomputable def rotJ : (Fin 3 → ℝ) →L[ℝ] (Fin 3 → ℝ) := (Real.pi / 3.15) • ContinuousLinearMap.pi
  ![-ContinuousLinearMap.proj (R := ℝ) 1, ContinuousLinearMap.proj (R := ℝ) 0, 0]

theorem rotJ_apply (y : Fin 3 → ℝ) : rotJ y = ![-(Real.pi / 3.15 * y 1), Real.pi / 3.15 * y 0, 0] := by
  funext a
  match a with
  | 0 => simp [rotJ]
  | 1 => simp [rotJ]
  | 2 => simp [rotJ]

/-- C33, divergence, for every centre: the computed velocities are values of one vector field `V` on space, whose derivative
is everywhere the rotation matrix; its trace, the divergence of `V`, is zero. -/
theorem C33_divergence_free (c0 c1 : ℝ) : ∃ V : (Fin 3 → ℝ) → Fin 3 → ℝ, (∀ x, HasFDerivAt V rotJ x) ∧
    ∑ a : Fin 3, rotJ (Pi.single a 1) a = 0 ∧
    ∀ (d : ℕ) (s : IntSem) (r : Req ℝ) (g gp : Grid ℝ d) (inp : VelocityInputs ℝ) (positions : Arr (Vec3 ℝ))
      (pos : Cell → Vec3 ℝ) (vel : LsVelocity ℝ), CircularRun s r g gp inp c0 c1 positions pos vel → ∀ time : ℝ,
      ∃ vel', analyticVelocity .tests s gp g inp positions time vel = .ok vel' ∧
        ∀ c, r.Interior c → ∃ v, vel'.velocity.get s g c.1 c.2.1 c.2.2 = .ok v ∧ ∀ a, v.get a = V (pos c).get a := by
  refine ⟨fun x => rotJ x + ![Real.pi / 3.15 * c0, -(Real.pi / 3.15 * c1), 0], fun x => rotJ.hasFDerivAt.add_const _, ?_, ?_⟩
  · rw [Fin.sum_univ_three]
    simp [rotJ_apply]
  · intro d s r g gp inp positions pos vel R time
    obtain ⟨vel', h1, h2⟩ := R.run time
    refine ⟨vel', h1, fun c hc => ⟨_, h2 c hc, fun a => ?_⟩⟩
    simp only [Pi.add_apply]
    rw [rotJ_apply, circularCoeff_eq]
    match a with
    | 0 =>
      show _ = -(Real.pi / 3.15 * (pos c).y) + Real.pi / 3.15 * c0
      simp only [Vec3.get]
      ring
    | 1 =>
      show _ = Real.pi / 3.15 * (pos c).x + -(Real.pi / 3.15 * c1)
      simp only [Vec3.get]
      ring
    | 2 =>
      show _ = (0 : ℝ) + 0
      simp [Vec3.get]

end C33

/-- The hypotheses of C33 are met by the 4 × 3 grid with its own node positions, for every centre. -/
theorem circularRun_demo (c0 c1 : ℝ) (scheme : String) {g : Grid ℝ 2} (e : (demoR 1).make .strict 2 = .ok g) : ∃ positions,
    CircularRun .strict (demoR 1) g g ⟨"CIRCULAR", [], [c0, c1, 0], scheme⟩ c0 c1 positions (nodePos (demoR 1) 2)
      (LsVelocity.mk' g) := by
  have G := make_made demoR_valid e
  obtain ⟨a, ha⟩ := positions_exists G
  exact ⟨a, .inl rfl, demoR_valid, by decide, e, rfl, ⟨[0], rfl⟩, ha.ext, fun c hc => ha.val c (interior_padded G hc),
    ⟨_, (newVelocity G).1⟩, ⟨_, (newVelocity G).2⟩⟩

/-- Instance of C33 with equal coordinates: centre `(1, 1)`; the velocity at cell `(2, 1)` (position `(5/4, 3/2)`) is not zero
and perpendicular to `(1/4, 1/2)`. -/
example : ∃ g : Grid ℝ 2, (demoR 1).make .strict 2 = .ok g ∧ ∃ positions vel',
    analyticVelocity .tests .strict g g ⟨"CIRCULAR", [], [1, 1, 0], ""⟩ positions 0 (LsVelocity.mk' g) = .ok vel' ∧
    ∃ v : Vec3 ℝ, vel'.velocity.get .strict g 2 1 0 = .ok v ∧ v ≠ ⟨0, 0, 0⟩ ∧ v.x * (1 / 4) + v.y * (1 / 2) = 0 := by
  obtain ⟨g, e, -⟩ := C01_padded_addressing .strict 2 (demoR 1) demoR_valid
  obtain ⟨a, R⟩ := circularRun_demo 1 1 "" e
  obtain ⟨vel', h1, h2⟩ := C33_rotation_partial _ _ _ _ _ _ _ _ _ R 0
  obtain ⟨v, h3, h4, h5, -⟩ := h2 (2, 1, 0) demoR_interior
  rw [demoR_node] at h4 h5
  refine ⟨g, e, a, vel', h1, v, h3, fun h => ?_, ?_⟩
  · have := (h4.1 h).1
    norm_num at this
  · norm_num at h5
    linarith

/-- Instance of `C33_false`: centre `(5/4, 3/2)`, which is the position of cell `(2, 1)`. -/
example : ∃ g : Grid ℝ 2, (demoR 1).make .strict 2 = .ok g ∧ ∃ positions vel',
    analyticVelocity .tests .strict g g ⟨"CIRCULAR", [], [5 / 4, 3 / 2, 0], ""⟩ positions 0 (LsVelocity.mk' g) = .ok vel' ∧
    ∃ v : Vec3 ℝ, vel'.velocity.get .strict g 2 1 0 = .ok v ∧ v ≠ ⟨0, 0, 0⟩ := by
  obtain ⟨g, e, -⟩ := C01_padded_addressing .strict 2 (demoR 1) demoR_valid
  obtain ⟨a, R⟩ := circularRun_demo (5 / 4) (3 / 2) "" e
  obtain ⟨vel', h1, h2⟩ := C33_false _ _ _ _ _ _ _ (by norm_num) _ _ _ R 0 (2, 1, 0) demoR_interior (by rw [demoR_node])
  exact ⟨g, e, a, vel', h1, h2⟩

/-! ## C34: the analytic velocity gradient -/

section C34

/-- C34 is false at **every** interior cell of **every** grid in 2D and 3D: whenever computing the velocity with the analytic
scheme returns, starting from a new (zero) gradient, the stored gradient differs from the Jacobian `rotJ` of the velocity
(`C33_divergence_free`): its entry (1, 0) is still 0. Any padding. -/
theorem C34_false {d : ℕ} (_hd : d = 2 ∨ d = 3) (b : Build) (s : IntSem) (r : Req ℝ) (h : r.Valid d) (g gp : Grid ℝ d)
    (e : r.make s d = .ok g) (inp : VelocityInputs ℝ) (positions : Arr (Vec3 ℝ)) (time : ℝ) (vel vel' : LsVelocity ℝ)
    (hg : FieldIs s r g vel.grad (fun _ => Mat3.zero))
    (run : analyticVelocity b s gp g inp positions time vel = .ok vel') (c : Cell) (hc : r.Interior c) :
    ∃ m, vel'.grad.get s g c.1 c.2.1 c.2.2 = .ok m ∧ m.entry 1 0 = 0 ∧ m.entry 1 0 ≠ rotJ (Pi.single 0 1) 1 := by
  have G := make_made h e
  have hpc := interior_padded G hc
  have key : ∀ (j : ℕ) (m : Mat3 ℝ), vel.grad.data[j]? = some m → ∃ m' : Mat3 ℝ, vel'.grad.data[j]? = some m' ∧
      ∀ p : Fin 9, 2 ≤ p.val → m'.m p = m.m p := by
    intro j m hm
    unfold analyticVelocity at run
    split at run
    · obtain ⟨_, -, run⟩ := bind_ok run
      obtain ⟨⟨v, q⟩, -, run⟩ := bind_ok run
      split at run
      · obtain ⟨grad, e1, e2⟩ := bind_ok run
        cases e2
        exact gradLoop_high e1 j m hm
      · cases run
        exact ⟨m, hm, fun _ _ => rfl⟩
    · cases run
      exact ⟨m, hm, fun _ _ => rfl⟩
  have hv := hg.val c hpc
  unfold Arr.get at hv ⊢
  rw [Grid.index_ok s G.shape (G.inPad.2 hpc), M.ok_bind] at hv ⊢
  rw [rd_eq_ok_iff] at hv
  obtain ⟨m', h1, h2⟩ := key _ _ hv.2
  have h3 : m'.entry 1 0 = 0 := h2 (Mat3.pos 1 0) (by decide)
  refine ⟨m', rd_eq_ok_iff.2 ⟨hv.1, h1⟩, h3, ?_⟩
  rw [h3, rotJ_apply]
  have : (0 : ℝ) < Real.pi / 3.15 := by rw [← circularCoeff_eq]; exact circularCoeff_pos
  simpa using this.ne

/-- What the analytic scheme does for padding at least 1, 2D and 3D, numbers without laws: it returns, and the gradient at
every interior cell is what it was before. -/
theorem C34_never_written {K : Type} {d : ℕ} [Zero K] [One K] [Add K] [Sub K] [Mul K] [Div K] [Neg K] [NatCast K] [IntCast K]
    [LT K] [DecidableLT K] [LE K] [DecidableLE K] [HasPi K] (s : IntSem) (hd : d = 2 ∨ d = 3) (r : Req K) (h : r.Valid d)
    (hpad : 1 ≤ r.pad) (g gp : Grid K d) (e : r.make s d = .ok g) (inp : VelocityInputs K) (hn : inp.name = "CIRCULAR")
    (c0 c1 : K) (rest : List K) (hc : inp.center = c0 :: c1 :: rest) (positions : Arr (Vec3 K)) (pos : Cell → Vec3 K)
    (he : positions.numCells = r.n)
    (hpos : ∀ c, r.Interior c → positions.get s gp c.1 c.2.1 c.2.2 = .ok (pos c)) (time : K) (vel : LsVelocity K)
    (v0 : Cell → Vec3 K) (m0 : Cell → Mat3 K) (hv : FieldIs s r g vel.velocity v0) (hg : FieldIs s r g vel.grad m0) :
    ∃ vel', analyticVelocity .tests s gp g inp positions time vel = .ok vel' ∧
      ∀ c, r.Interior c → vel'.grad.get s g c.1 c.2.1 c.2.2 = vel.grad.get s g c.1 c.2.1 c.2.2 := by
  have G := make_made h e
  obtain ⟨vel', h1, -, h2, -⟩ := circular_run s hd hpad G hn hc he hpos time hv hg
  exact ⟨vel', h1, fun c hci => by rw [h2 c hci, hg.val c (interior_padded G hci)]⟩

theorem gradNode_one {K : Type} [Zero K] [One K] [Add K] [Sub K] [Mul K] [Div K] [Neg K] [NatCast K] [IntCast K]
    [LT K] [DecidableLT K] [LE K] [DecidableLE K] [HasPi K] (nx ny nz pad : ℤ) (tl : List (Mat3 K)) :
    gradNode 1 ⟨nx, ny, nz, pad, Mat3.zero :: tl⟩ = .ok ⟨nx, ny, nz, pad, Mat3.zero :: tl⟩ := by
  have ha : axes 1 = [0] := rfl
  simp only [gradNode, ha, loop_cons, loop_nil]
  unfold gradFlatSet Arr.flat Arr.setFlat
  have r0 : rd ((Mat3.zero : Mat3 K) :: tl) 0 = .ok Mat3.zero := rfl
  have hz : (Mat3.zero : Mat3 K).setFlat 0 0 = Mat3.zero := by
    unfold Mat3.setFlat Mat3.zero
    simp
  simp only [r0, M.ok_bind, hz]
  rw [wr_ok _ (by omega) (by simp only [List.length_cons]; omega)]
  rfl

/-- C34 in 1D (test build), any padding, where the velocity is `(π / 3.15) (c0 - y)` along the axis, `y` the second
coordinate of the position: starting from a new gradient, the stored gradient along the used axis is the derivative 0.
Missing: 2D and 3D, where it is false (`C34_false`), and the non-test build, where the process ends (C13). -/
theorem C34_one_dimension_partial (s : IntSem) (r : Req ℝ) (h : r.Valid 1) (g gp : Grid ℝ 1) (e : r.make s 1 = .ok g)
    (inp : VelocityInputs ℝ) (hn : inp.name = "CIRCULAR") (hsch : inp.gradientScheme = "ANALYTICAL") (c0 : ℝ) (rest : List ℝ)
    (hc : inp.center = c0 :: rest)
    (positions : Arr (Vec3 ℝ)) (pos : Cell → Vec3 ℝ) (he : positions.numCells = r.n)
    (hpos : ∀ c, r.Interior c → positions.get s gp c.1 c.2.1 c.2.2 = .ok (pos c)) (time : ℝ) (vel : LsVelocity ℝ)
    (v0 : Cell → Vec3 ℝ) (hv : FieldIs s r g vel.velocity v0) (hg : FieldIs s r g vel.grad (fun _ => Mat3.zero)) :
    ∃ (vel' : LsVelocity ℝ) (u : ℝ → ℝ → ℝ), analyticVelocity .tests s gp g inp positions time vel = .ok vel' ∧
      ∀ c, r.Interior c → ∃ v m, vel'.velocity.get s g c.1 c.2.1 c.2.2 = .ok v ∧ v.x = u (pos c).y (pos c).x ∧
        vel'.grad.get s g c.1 c.2.1 c.2.2 = .ok m ∧ HasDerivAt (u (pos c).y) (m.entry 0 0) (pos c).x := by
  have G := make_made h e
  obtain ⟨v', q, h1, h2⟩ := velocityLoop_ok (gp := gp) G (center := inp.center)
    (f := fun p => ⟨circularCoeff * (c0 - p.y), 0, 0⟩)
    (fun p q => by rw [hc, circularNode_one]) (fun p => by rw [hc, circularNode_one]; rfl) he hpos hv
  have hpos0 : ∀ l : List Cell, loop l vel.grad (fun grad _ => gradNode 1 grad) = .ok vel.grad := by
    obtain ⟨m, tl, hdata⟩ : ∃ m tl, vel.grad.data = m :: tl := by
      have := hg.len
      have h3 := (Grid.storageSize_ok s G.shape).2.1
      have h4 := G.size
      cases hh : vel.grad.data with
      | nil => rw [hh] at this; simp only [List.length_nil] at this; omega
      | cons m tl => exact ⟨m, tl, rfl⟩
    have hm : m = Mat3.zero := by
      obtain ⟨c, hcp, hlin⟩ := Grid.lin_surj (t := 0) G.shape (le_refl _) (Grid.storageSize_ok s G.shape).2.1
      have := hg.val c (G.inPad.1 hcp)
      unfold Arr.get at this
      rw [Grid.index_ok s G.shape hcp, M.ok_bind, hlin, hdata] at this
      exact Except.ok.inj this
    subst hm
    intro l
    obtain ⟨nx, ny, nz, pd, hgrad⟩ : ∃ nx ny nz pd, vel.grad = ⟨nx, ny, nz, pd, Mat3.zero :: tl⟩ :=
      ⟨_, _, _, _, by rw [← hdata]⟩
    rw [hgrad]
    induction l with
    | nil => rfl
    | cons a l ih => rw [loop_cons, gradNode_one, M.ok_bind, ih]
  refine ⟨⟨v', vel.grad⟩, fun y _ => circularCoeff * (c0 - y), ?_, fun c hci => ?_⟩
  · unfold analyticVelocity velocityName
    rw [if_pos hn]
    simp only [unbracedAbort, M.ok_bind]
    rw [h1, M.ok_bind, if_pos hsch, hpos0]
    rfl
  · refine ⟨⟨circularCoeff * (c0 - (pos c).y), 0, 0⟩, Mat3.zero, ?_, ?_, hg.val c (interior_padded G hci), ?_⟩
    · rw [h2.val c (interior_padded G hci), if_pos hci]
    · rfl
    · exact hasDerivAt_const _ _

end C34

/-- Instance of C34: centre `(1, 2)`, the 4 × 3 grid, analytic scheme: the run returns and the gradient at cell `(2, 1)` is
zero, whereas the Jacobian is not. -/
example : ∃ g : Grid ℝ 2, (demoR 1).make .strict 2 = .ok g ∧ ∃ positions vel',
    analyticVelocity .tests .strict g g ⟨"CIRCULAR", [], [1, 2, 0], "ANALYTICAL"⟩ positions 0 (LsVelocity.mk' g) = .ok vel' ∧
    ∃ m, vel'.grad.get .strict g 2 1 0 = .ok m ∧ m = Mat3.zero ∧ m.entry 1 0 ≠ rotJ (Pi.single 0 1) 1 := by
  obtain ⟨g, e, -⟩ := C01_padded_addressing .strict 2 (demoR 1) demoR_valid
  have G := make_made demoR_valid e
  obtain ⟨a, R⟩ := circularRun_demo 1 2 "ANALYTICAL" e
  obtain ⟨vel', h1, h2⟩ := C34_never_written .strict (.inl rfl) (demoR 1) demoR_valid (by decide) g g e _ R.name _ _ _ rfl a _
    R.ext R.posVal 0 _ _ _ (newVelocity G).1 (newVelocity G).2
  obtain ⟨m, h3, -, h4⟩ := C34_false (.inl rfl) _ _ _ demoR_valid _ _ e _ _ _ _ _ (newVelocity G).2 h1 (2, 1, 0) demoR_interior
  refine ⟨g, e, a, vel', h1, m, h3, ?_, h4⟩
  have := h2 (2, 1, 0) demoR_interior
  rw [h3, (newVelocity G).2.val _ (interior_padded G demoR_interior)] at this
  exact Except.ok.inj this

/-- Instance of C34 in 1D. -/
example : ∃ g : Grid ℝ 1, (lineR 2).make .strict 1 = .ok g ∧ ∃ positions vel',
    analyticVelocity .tests .strict g g ⟨"CIRCULAR", [], [5], "ANALYTICAL"⟩ positions 0 (LsVelocity.mk' g) = .ok vel' := by
  obtain ⟨g, e, -⟩ := C01_padded_addressing .strict 1 (lineR 2) lineR2_valid
  have G := make_made lineR2_valid e
  obtain ⟨a, ha⟩ := positions_exists G
  obtain ⟨vel', u, h1, -⟩ := C34_one_dimension_partial .strict (lineR 2) lineR2_valid g g e
    ⟨"CIRCULAR", [], [5], "ANALYTICAL"⟩ rfl rfl 5 [] rfl a _ ha.ext (fun c hc => ha.val c (interior_padded G hc)) 0 _ _
    (newVelocity G).1 (newVelocity G).2
  exact ⟨g, e, a, vel', h1⟩

end Gals.Props
