import Verif.Model.App
import Verif.Lemmas.Analytic
import Verif.Props.Gradient
import Verif.Props.Analytic

/-!
# The advection application
-/

set_option linter.unusedSectionVars false

namespace Gals

open Spec

section whileLoop
variable {σ : Type} {body : σ → M (Bool × σ)}

/-- The loop has one outcome and one number of steps. -/
theorem While.det {s : σ} {r r' : M σ} {n n' : ℕ} (h : While body s r n) (h' : While body s r' n') : r = r' ∧ n = n' := by
  induction h generalizing r' n' with
  | fault e =>
    cases h' with
    | fault e' => rw [e] at e'; cases e'; exact ⟨rfl, rfl⟩
    | stop e' => rw [e] at e'; cases e'
    | again e' _ => rw [e] at e'; cases e'
  | stop e =>
    cases h' with
    | fault e' => rw [e] at e'; cases e'
    | stop e' => rw [e] at e'; cases e'; exact ⟨rfl, rfl⟩
    | again e' _ => rw [e] at e'; cases e'
  | again e _ ih =>
    cases h' with
    | fault e' => rw [e] at e'; cases e'
    | stop e' => rw [e] at e'; cases e'
    | again e' k => rw [e] at e'; cases e'; obtain ⟨h1, h2⟩ := ih k; exact ⟨h1, by rw [h2]⟩

end whileLoop

section time
variable {K : Type} [Field K] [LinearOrder K] [IsStrictOrderedRing K] {σ : Type}

/-- When the loop stops. -/
theorem stop_iff (t tEnd : K) : (isEqual t tEnd || decide (tEnd < t)) = true ↔ tEnd - vsmall ≤ t := by
  have hv : (0 : K) < vsmall := by unfold vsmall; positivity
  unfold isEqual fabs
  rw [Bool.or_eq_true, decide_eq_true_eq, decide_eq_true_eq]
  constructor
  · rintro (h | h)
    · split at h <;> linarith
    · linarith
  · intro h
    by_cases h1 : tEnd < t
    · exact .inr h1
    · left
      split <;> linarith

theorem timeBody_ok {advance : K → σ → M σ} {dt tEnd t : K} {x x' : σ} (h : advance (t + dt) x = .ok x') :
    timeBody advance dt tEnd (t, x) = .ok (decide (t + dt < tEnd - vsmall), (t + dt, x')) := by
  unfold timeBody
  simp only [h, M.ok_bind, M.pure_eq]
  congr 2
  have := stop_iff (t + dt) tEnd
  cases hb : (isEqual (t + dt) tEnd || decide (tEnd < t + dt)) with
  | true => rw [Bool.not_true, decide_eq_false (not_lt.2 (this.1 hb))]
  | false =>
    rw [Bool.not_false, decide_eq_true]
    refine not_le.1 fun hc => ?_
    rw [this.2 hc] at hb
    cases hb

theorem timeBody_inv {advance : K → σ → M σ} {dt tEnd t : K} {x : σ} {b : Bool} {st : K × σ}
    (h : timeBody advance dt tEnd (t, x) = .ok (b, st)) :
    st.1 = t + dt ∧ (b = true ↔ t + dt < tEnd - vsmall) := by
  have h0 := h
  unfold timeBody at h
  obtain ⟨x', h1, -⟩ := bind_ok h
  rw [timeBody_ok h1] at h0
  cases h0
  exact ⟨rfl, decide_eq_true_iff⟩

/-- The steps of a run that ends without a fault. -/
theorem while_steps {advance : K → σ → M σ} {dt tEnd : K} {st : K × σ} {r : M (K × σ)} {n : ℕ}
    (h : While (timeBody advance dt tEnd) st r n) :
    ∀ st', r = .ok st' → st'.1 = st.1 + n * dt ∧ tEnd - vsmall ≤ st.1 + n * dt ∧ 1 ≤ n ∧
      ∀ k : ℕ, 1 ≤ k → k < n → st.1 + k * dt < tEnd - vsmall := by
  induction h with
  | fault e => intro st' e'; cases e'
  | @stop s s' e =>
    intro st' e'
    cases e'
    obtain ⟨h1, h2⟩ := timeBody_inv (t := s.1) (x := s.2) e
    refine ⟨by rw [h1]; push_cast; ring, ?_, le_rfl, fun k h1 h2 => by omega⟩
    by_contra hc
    have := h2.2 (by push_cast at hc; rw [one_mul] at hc; exact not_le.1 hc)
    cases this
  | @again s s' r n e k ih =>
    intro st' e'
    obtain ⟨h1, h2⟩ := timeBody_inv (t := s.1) (x := s.2) e
    obtain ⟨i1, i2, i3, i4⟩ := ih st' e'
    rw [h1] at i1 i2 i4
    refine ⟨by rw [i1]; push_cast; ring, by push_cast; linarith, by omega, fun k hk1 hk2 => ?_⟩
    rcases Nat.eq_or_lt_of_le hk1 with rfl | hk
    · push_cast
      rw [one_mul]
      exact h2.1 rfl
    · obtain ⟨m, rfl⟩ : ∃ m, k = m + 1 := ⟨k - 1, by omega⟩
      have := i4 m (by omega) (by omega)
      push_cast
      linarith

/-- The loop reaches the first time that is late enough. -/
theorem while_reach {advance : K → σ → M σ} {dt tEnd : K} (hadv : ∀ t x, ∃ x', advance t x = .ok x') (n : ℕ) :
    ∀ (t : K) (x : σ), (∀ k : ℕ, 1 ≤ k → k ≤ n → t + k * dt < tEnd - vsmall) → tEnd - vsmall ≤ t + (n + 1 : ℕ) * dt →
      ∃ x', While (timeBody advance dt tEnd) (t, x) (.ok (t + (n + 1 : ℕ) * dt, x')) (n + 1) := by
  induction n with
  | zero =>
    intro t x _ h
    obtain ⟨x', e⟩ := hadv (t + dt) x
    refine ⟨x', ?_⟩
    simp only [zero_add, Nat.cast_one, one_mul] at h ⊢
    refine .stop ?_
    rw [timeBody_ok e, decide_eq_false (not_lt.2 h)]
  | succ n ih =>
    intro t x h1 h2
    obtain ⟨x', e⟩ := hadv (t + dt) x
    obtain ⟨x'', k⟩ := ih (t + dt) x' (fun k hk1 hk2 => by
      have := h1 (k + 1) (by omega) (by omega)
      push_cast at this
      linarith) (by push_cast at h2 ⊢; linarith)
    refine ⟨x'', ?_⟩
    have he : t + dt + (n + 1 : ℕ) * dt = t + (n + 1 + 1 : ℕ) * dt := by push_cast; ring
    rw [he] at k
    refine .again ?_ k
    have h0 := h1 1 le_rfl (by omega)
    rw [Nat.cast_one, one_mul] at h0
    rw [timeBody_ok e, decide_eq_true h0]

end time

section prepare
variable {K : Type} [Zero K] [One K] [Add K] [Sub K] [Mul K] [Div K] [Neg K] [NatCast K] [IntCast K]
  [LT K] [DecidableLT K] [LE K] [DecidableLE K]

/-- The grid section as a request, with the default padding. -/
def gridReq (nx ny nz : ℤ) (x0 x1 y0 y1 z0 z1 : K) : Req K := ⟨⟨nx, ny, nz⟩, 1, ⟨x0, y0, z0⟩, ⟨x1, y1, z1⟩⟩

theorem setPadding_default {s : IntSem} {nx ny nz : ℤ} {g : Grid K 2} (e : Grid.mk3 s 2 nx ny nz = .ok g) :
    g.setPadding 1 = g := by
  unfold Grid.mk3 at e
  obtain ⟨t, -, e⟩ := bind_ok e
  obtain ⟨t', -, e⟩ := bind_ok e
  cases e
  rfl

theorem initialised_eq {α : Type} {o : Option α} {a : α} (h : initialised o = .ok a) : o = some a := by
  cases o with
  | none => cases h
  | some b => cases h; rfl

/-- What is known when the preparation succeeds. -/
theorem appPrepare_inv [HasSqrt K] {s : IntSem} {f : InputFields K} {a : App K} (h : appPrepare s f = .ok a) :
    ∃ (nx ny nz : ℤ) (x0 x1 y0 y1 z0 z1 start tEnd dt : K),
      f.grid = ⟨some x0, some x1, some y0, some y1, some z0, some z1, some nx, some ny, some nz⟩ ∧
      f.time = ⟨some start, some tEnd, some dt, f.time.constantDt⟩ ∧
      (gridReq nx ny nz x0 x1 y0 y1 z0 z1).make s 2 = .ok a.g ∧ a.tEnd = tEnd ∧
      a.dt = (if f.time.constantDt = "NO" then a.g.dx.min * (1 / 2) else dt) := by
  unfold appPrepare at h
  simp only at h
  obtain ⟨nx, h1, h⟩ := bind_ok h
  obtain ⟨ny, h2, h⟩ := bind_ok h
  obtain ⟨nz, h3, h⟩ := bind_ok h
  obtain ⟨g0, h4, h⟩ := bind_ok h
  obtain ⟨x0, h5, h⟩ := bind_ok h
  obtain ⟨x1, h6, h⟩ := bind_ok h
  obtain ⟨y0, h7, h⟩ := bind_ok h
  obtain ⟨y1, h8, h⟩ := bind_ok h
  obtain ⟨z0, h9, h⟩ := bind_ok h
  obtain ⟨z1, h10, h⟩ := bind_ok h
  obtain ⟨g, h11, h⟩ := bind_ok h
  obtain ⟨p, h12, h⟩ := bind_ok h
  obtain ⟨i, h13, h⟩ := bind_ok h
  obtain ⟨ls, h14, h⟩ := bind_ok h
  obtain ⟨st, h15, h⟩ := bind_ok h
  obtain ⟨te, h16, h⟩ := bind_ok h
  obtain ⟨dt, h17, h⟩ := bind_ok h
  cases h
  have w : ∀ t : TimeInputs K, t = ⟨t.start, t.end', t.dt, t.constantDt⟩ := fun t => rfl
  have w' : ∀ t : GridInputs K, t = ⟨t.xMin, t.xMax, t.yMin, t.yMax, t.zMin, t.zMax, t.nx, t.ny, t.nz⟩ := fun t => rfl
  refine ⟨nx, ny, nz, x0, x1, y0, y1, z0, z1, st, te, dt, ?_, ?_, ?_, rfl, rfl⟩
  · rw [w' f.grid, initialised_eq h1, initialised_eq h2, initialised_eq h3, initialised_eq h5, initialised_eq h6,
      initialised_eq h7, initialised_eq h8, initialised_eq h9, initialised_eq h10]
  · rw [w f.time, initialised_eq h15, initialised_eq h16, initialised_eq h17]
  · unfold Req.make gridReq
    simp only
    rw [h4, M.ok_bind, setPadding_default h4, h11]

/-- The positions are copied. -/
theorem copyPositions_ok {s : IntSem} {r : Req K} {g : Grid K 2} (G : g.Made s r) :
    ∃ p, copyPositions s g = .ok p ∧ FieldIs s r g p (fun c => Grid.elem g g.boxMin g.dx c) := by
  classical
  have hs := G.shape
  have m0 := hs.m0; have m1 : g.mask1 = 1 := hs.m1; have m2 : g.mask2 = 0 := hs.m2
  have hx := hs.nx_pos; have hy := hs.ny_pos; have hz := hs.nz_pos
  have hp := hs.pad_nonneg
  have hfit := hs.fits
  have hz1 := hs.nz_one (by omega)
  have b : g.nx + 2 * g.pad ≤ intMax ∧ g.ny + 2 * g.pad ≤ intMax := by
    have a1 : 1 ≤ g.nx + 2 * g.pad := by omega
    have a2 : 1 ≤ g.ny + 2 * g.pad := by omega
    have a3 : 1 ≤ g.nz + 2 * g.pad := by omega
    have : (g.nx + 2 * g.pad) * (g.ny + 2 * g.pad) ≤ (g.nx + 2 * g.pad) * (g.ny + 2 * g.pad) * (g.nz + 2 * g.pad) :=
      le_mul_of_one_le_right (by positivity) a3
    constructor
    · have := le_mul_of_one_le_right (show (0 : ℤ) ≤ g.nx + 2 * g.pad by omega) a2
      omega
    · have := le_mul_of_one_le_left (show (0 : ℤ) ≤ g.ny + 2 * g.pad by omega) a1
      omega
  unfold intMax at b
  have hl : ∀ c, c ∈ cells (-g.pad * g.mask0) (g.nx + g.pad * g.mask0) (-g.pad * g.mask1) (g.ny + g.pad * g.mask1)
      (-g.pad * g.mask2) (g.nz + g.pad * g.mask2) ↔ r.Padded 2 c := by
    intro c
    rw [mem_cells, ← G.inPad, Grid.inPad_iff hs]
    unfold PaddedCell padAlong
    rw [m0, m1, m2]
    norm_num
  obtain ⟨p, e, h⟩ := (fieldIs_mk G (Vec3.zero : Vec3 K)).loop_set G hl (fun c hc => hc)
    (body := fun acc c => do
      let p ← g.at' s c.1 c.2.1 c.2.2
      acc.set s g c.1 c.2.1 c.2.2 p) (fun c => Grid.elem g g.boxMin g.dx c) (by
      intro acc c hc
      rw [G.node c (G.inPad.2 ((hl c).1 hc)), M.ok_bind])
  refine ⟨p, ?_, h.congr (fun c hc => by simp only [if_pos hc])⟩
  unfold copyPositions
  have k1 : ∀ m : ℤ, m = 0 ∨ m = 1 → imul s (-g.pad) m = .ok (-g.pad * m) ∧ imul s g.pad m = .ok (g.pad * m) := by
    intro m hm
    constructor
    · refine ck_ok s ?_
      unfold InInt intMin intMax
      rcases hm with rfl | rfl <;> constructor <;> omega
    · refine ck_ok s ?_
      unfold InInt intMin intMax
      rcases hm with rfl | rfl <;> constructor <;> omega
  have k2 : ∀ n : ℤ, 0 < n → n + 2 * g.pad ≤ 2147483647 → ∀ m : ℤ, m = 0 ∨ m = 1 →
      iadd s n (g.pad * m) = .ok (n + g.pad * m) := by
    intro n hn hn2 m hm
    refine ck_ok s ?_
    unfold InInt intMin intMax
    rcases hm with rfl | rfl <;> constructor <;> omega
  have e0 : g.mask0 = 0 ∨ g.mask0 = 1 := .inr m0
  have e1 : g.mask1 = 0 ∨ g.mask1 = 1 := .inr m1
  have e2 : g.mask2 = 0 ∨ g.mask2 = 1 := .inl m2
  have e3 : iadd s g.nz (g.pad * g.mask2) = .ok (g.nz + g.pad * g.mask2) := by
    refine ck_ok s ?_
    rw [m2]
    unfold InInt intMin intMax
    constructor <;> omega
  rw [(k1 _ e0).1, (k1 _ e1).1, (k1 _ e2).1, (k1 _ e0).2, (k1 _ e1).2, (k1 _ e2).2]
  simp only [M.ok_bind]
  rw [k2 _ hx b.1 _ e0, k2 _ hy b.2 _ e1, e3]
  simp only [M.ok_bind]
  exact e

/-- What is known of the application before the loop. -/
structure App.Ready (s : IntSem) (r : Req K) (a : App K) : Prop where
  made : r.make s 2 = .ok a.g
  positions : FieldIs s r a.g a.positions (fun c => Grid.elem a.g a.g.boxMin a.g.dx c)
  phi : ∃ f, FieldIs s r a.g a.ls.phi f
  psi : FieldIs s r a.g a.ls.psi (fun _ => Vec3.zero)
  velocity : FieldIs s r a.g a.vel.velocity (fun _ => Vec3.zero)
  grad : FieldIs s r a.g a.vel.grad (fun _ => Mat3.zero)

/-- The preparation succeeds on complete inputs. -/
theorem appPrepare_ok [HasSqrt K] (s : IntSem) (f : InputFields K) {nx ny nz : ℤ} {x0 x1 y0 y1 z0 z1 start tEnd dt rad : K}
    (hg : f.grid = ⟨some x0, some x1, some y0, some y1, some z0, some z1, some nx, some ny, some nz⟩)
    (ht : f.time = ⟨some start, some tEnd, some dt, f.time.constantDt⟩) (hr : f.levelset.radius = some rad)
    (hv : (gridReq nx ny nz x0 x1 y0 y1 z0 z1).Valid 2) :
    ∃ a, appPrepare s f = .ok a ∧ a.Ready s (gridReq nx ny nz x0 x1 y0 y1 z0 z1) ∧ a.tEnd = tEnd ∧
      a.dt = (if f.time.constantDt = "NO" then a.g.dx.min * (1 / 2) else dt) ∧
      a.fileUtils.rootDir = f.general.outputDirectory ++ "/" ∧ a.velocityInputs = f.velocity := by
  obtain ⟨g, e, G⟩ := make_ok (K := K) (d := 2) s hv
  have e' := e
  unfold Req.make gridReq at e
  simp only at e
  obtain ⟨g0, e1, e2⟩ := bind_ok e
  rw [setPadding_default e1] at e2
  obtain ⟨p, h1, h2⟩ := copyPositions_ok G
  have h0 : FieldIs s (gridReq nx ny nz x0 x1 y0 y1 z0 z1) g (Levelset.mk' g).phi (fun _ => (0 : K)) := fieldIs_mk G 0
  obtain ⟨i, ls, k1, k2, k3, k4⟩ : ∃ i ls, levelsetInputs f.levelset = .ok i ∧
      analyticLevelset s g g i p (Levelset.mk' g) = .ok ls ∧
      (∃ q, FieldIs s (gridReq nx ny nz x0 x1 y0 y1 z0 z1) g ls.phi q) ∧ ls.psi = Arr.mk' g Vec3.zero := by
    by_cases hn : f.levelset.name = "CIRCLE"
    · obtain ⟨phi', m1, m2⟩ := analyticLevelset_ok (gp := g) G
        (inp := ⟨f.levelset.name, f.levelset.center, rad, f.levelset.gradientScheme⟩) hn h2.ext
        (fun c hc => h2.val c (interior_padded G hc)) h0
      refine ⟨_, _, ?_, m1, ⟨_, m2⟩, rfl⟩
      unfold levelsetInputs levelsetName
      rw [if_pos hn, hr]
      rfl
    · refine ⟨⟨f.levelset.name, f.levelset.center, 0, f.levelset.gradientScheme⟩, _, ?_,
        by unfold analyticLevelset levelsetName; rw [if_neg hn], ⟨_, h0⟩, rfl⟩
      unfold levelsetInputs levelsetName
      rw [if_neg hn]
  have t1 : f.time.start = some start := by rw [ht]
  have t2 : f.time.end' = some tEnd := by rw [ht]
  have t3 : f.time.dt = some dt := by rw [ht]
  refine ⟨⟨FileUtils.mk'.setRootDirectory (f.general.outputDirectory ++ "/"), g, p, f.velocity, LsVelocity.mk' g, ls, tEnd,
    if f.time.constantDt = "NO" then g.dx.min * (1 / 2) else dt⟩, ?_, ⟨e', h2, k3, ?_, fieldIs_mk G _, fieldIs_mk G _⟩,
    rfl, rfl, rfl, rfl⟩
  · unfold appPrepare
    simp only [hg, t1, t2, t3, initialised, M.ok_bind, e1, e2, h1, k1, k2, M.pure_eq]
  · show FieldIs s _ g ls.psi _
    rw [k4]
    exact fieldIs_mk G _

/-- A step reads outside its storage. -/
theorem appAdvance_oob [HasPi K] [HasFloor K] (s : IntSem) {r : Req K} (hv : r.Valid 2) (hp : r.pad = 1) {a : App K}
    (h : a.Ready s r) {c0 c1 : K} {rest : List K} (hc : a.velocityInputs.center = c0 :: c1 :: rest) (t : K) :
    appAdvance .tests s a t (a.vel, a.ls) = .error .oob := by
  have G := make_made hv h.made
  obtain ⟨vel', e⟩ : ∃ vel', analyticVelocity .tests s a.g a.g a.velocityInputs a.positions t a.vel = .ok vel' := by
    by_cases hn : a.velocityInputs.name = "CIRCULAR"
    · obtain ⟨vel', e, -⟩ := Props.circular_run s (.inl rfl) (by omega) G hn hc h.positions.ext
        (fun c hc => h.positions.val c (interior_padded G hc)) t h.velocity h.grad
      exact ⟨vel', e⟩
    · exact ⟨a.vel, by unfold analyticVelocity velocityName; rw [if_neg hn]⟩
  obtain ⟨f, hf⟩ := h.phi
  have := (Props.C24_false s 2 r hv hp a.g h.made).1 _ f _ _ hf h.psi
  unfold appAdvance
  simp only [e, M.ok_bind]
  have e2 : gradScalar .third s a.g a.g a.ls.phi a.ls.psi = .error .oob := this
  rw [e2, M.error_bind]

end prepare

end Gals
