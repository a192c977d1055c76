import Verif.Spec.App
import Verif.Lemmas.App
import Verif.Props.Files
import Verif.Props.Parser
import Verif.Props.Array

/-!
# The application: time loop, automatic step, whole runs (C35, C36, C37)
-/

set_option linter.unusedSectionVars false

namespace Gals.Props

open Gals Gals.Spec

/-! ## C35 -/

section C35
variable {K : Type} [Field K] [LinearOrder K] [IsStrictOrderedRing K] [FloorRing K] {σ : Type}

theorem vsmall_eq : (vsmall : K) = 1 / 10 ^ 10 := by unfold vsmall; norm_num

/-- The number of steps, given when the loop may stop. -/
theorem stepCount_of {t tEnd dt : K} (hdt : 0 < dt) {n : ℕ} (h1 : tEnd - vsmall ≤ t + n * dt) (h2 : 1 ≤ n)
    (h3 : ∀ k : ℕ, 1 ≤ k → k < n → t + k * dt < tEnd - vsmall) : IsStepCount t tEnd dt n := by
  unfold IsStepCount
  rw [← vsmall_eq]
  have hn : ⌈(tEnd - vsmall - t) / dt⌉ ≤ n := by
    rw [Int.ceil_le, div_le_iff₀ hdt]
    push_cast
    linarith
  refine le_antisymm ?_ (max_le (by exact_mod_cast h2) hn)
  rcases Nat.eq_or_lt_of_le h2 with rfl | h
  · exact le_max_left _ _
  · refine le_max_of_le_right ?_
    have := h3 (n - 1) (by omega) (by omega)
    have h5 : ((n : ℤ) - 1) < ⌈(tEnd - vsmall - t) / dt⌉ := by
      rw [Int.lt_ceil, lt_div_iff₀ hdt]
      have hc : ((n - 1 : ℕ) : K) = (n : K) - 1 := by rw [Nat.cast_sub h2]; simp
      rw [hc] at this
      push_cast
      linarith
    omega

/-- C35, what a run that ends did, for every step function `advance`: as many steps as `IsStepCount` says, and the
simulation time is the number of steps times `dt`.  It is at least `tEnd` up to the tolerance, and less than one step beyond
unless the first step was already enough.  Missing for the full claim: a start time other than 0, which is ignored
(`C35_false`). -/
theorem C35_steps_partial (advance : K → σ → M σ) (dt tEnd : K) (hdt : 0 < dt) (x : σ) (st : K × σ) (n : ℕ)
    (run : While (timeBody advance dt tEnd) (0, x) (.ok st) n) :
    IsStepCount 0 tEnd dt n ∧ st.1 = n * dt ∧ tEnd - 1 / 10 ^ 10 ≤ st.1 ∧ (1 < n → st.1 < tEnd - 1 / 10 ^ 10 + dt) ∧
      (1 / 10 ^ 10 < tEnd → st.1 < tEnd - 1 / 10 ^ 10 + dt) := by
  obtain ⟨h1, h2, h3, h4⟩ := while_steps run st rfl
  rw [zero_add] at h1 h2
  have late : 1 < n → (n : K) * dt < tEnd - vsmall + dt := by
    intro h
    have := h4 (n - 1) (by omega) (by omega)
    have hc : ((n - 1 : ℕ) : K) = (n : K) - 1 := by rw [Nat.cast_sub h3]; simp
    rw [hc, zero_add] at this
    linarith
  rw [← vsmall_eq, h1]
  refine ⟨stepCount_of hdt (by rwa [zero_add]) h3 h4, rfl, h2, late, fun h => ?_⟩
  rcases Nat.eq_or_lt_of_le h3 with rfl | h5
  · push_cast; linarith
  · exact late h5

/-- C35, such a run exists whenever the steps have no fault, and it is the only one. -/
theorem C35_terminates (advance : K → σ → M σ) (hadv : ∀ t x, ∃ x', advance t x = .ok x') (dt tEnd : K) (hdt : 0 < dt) (x : σ) :
    ∃ (x' : σ) (n : ℕ), While (timeBody advance dt tEnd) (0, x) (.ok (n * dt, x')) n ∧
      ∀ r m, While (timeBody advance dt tEnd) (0, x) r m → r = .ok (n * dt, x') ∧ m = n := by
  classical
  have hex : ∃ n : ℕ, tEnd - vsmall ≤ 0 + (n + 1 : ℕ) * dt := by
    obtain ⟨n, hn⟩ := exists_nat_ge ((tEnd - vsmall) / dt)
    refine ⟨n, ?_⟩
    rw [div_le_iff₀ hdt] at hn
    push_cast
    linarith
  obtain ⟨x', h⟩ := while_reach hadv (Nat.find hex) 0 x (fun k hk1 hk2 => by
    have := Nat.find_min hex (m := k - 1) (by omega)
    rw [show k - 1 + 1 = k by omega] at this
    exact not_le.1 this) (Nat.find_spec hex)
  rw [zero_add] at h
  refine ⟨x', _, h, fun r m hr => ?_⟩
  obtain ⟨a, b⟩ := hr.det h
  exact ⟨a, b⟩

/-- C35, preconditions: with a step that is not positive, and an end time beyond the tolerance, the loop never ends. -/
theorem C35_diverges (advance : K → σ → M σ) (hadv : ∀ t x, ∃ x', advance t x = .ok x') (dt tEnd : K) (hdt : dt ≤ 0)
    (hend : 1 / 10 ^ 10 < tEnd) (x : σ) : ¬ ∃ r n, While (timeBody advance dt tEnd) (0, x) r n := by
  rintro ⟨r, n, h⟩
  rw [← vsmall_eq] at hend
  have key : ∀ (st : K × σ) (r : M (K × σ)) (n : ℕ), While (timeBody advance dt tEnd) st r n → ¬ st.1 ≤ 0 := by
    intro st r n h
    induction h with
    | @fault s f e =>
      obtain ⟨x', e'⟩ := hadv (s.1 + dt) s.2
      rw [show s = (s.1, s.2) from rfl, timeBody_ok e'] at e
      cases e
    | @stop s s' e =>
      intro h0
      have h2 := (timeBody_inv (t := s.1) (x := s.2) e).2
      exact absurd (h2.2 (by linarith)) (by simp)
    | @again s s' r n e k ih =>
      intro h0
      have h1 := (timeBody_inv (t := s.1) (x := s.2) e).1
      exact ih (by rw [h1]; linarith)
  exact key _ _ _ h le_rfl

/-- C35 is false: for every input whose start time is at least one step, and whose end time is more than one step away from
0, the number of steps is not the one counted from the start time, whatever the steps do. -/
theorem C35_false [HasSqrt K] (s : IntSem) (f : InputFields K) (a : App K) (prep : appPrepare s f = .ok a) (start : K)
    (_hs : f.time.start = some start) (hdt : 0 < a.dt) (h1 : a.dt ≤ start) (h2 : a.dt < a.tEnd - 1 / 10 ^ 10)
    (advance : K → σ → M σ) (x : σ) (st : K × σ) (n : ℕ) (run : While (timeBody advance a.dt a.tEnd) (0, x) (.ok st) n) :
    f.time.end' = some a.tEnd ∧ ¬ IsStepCount start a.tEnd a.dt n := by
  obtain ⟨nx, ny, nz, x0, x1, y0, y1, z0, z1, st', te, dt, -, ht, -, h3, -⟩ := appPrepare_inv prep
  refine ⟨by rw [ht, h3], fun hc => ?_⟩
  have h0 := (C35_steps_partial advance a.dt a.tEnd hdt x st n run).1
  unfold IsStepCount at hc h0
  rw [sub_zero] at h0
  have k1 : (1 : ℤ) < ⌈(a.tEnd - 1 / 10 ^ 10) / a.dt⌉ := by
    rw [Int.lt_ceil, lt_div_iff₀ hdt]
    push_cast
    linarith
  have k2 : ⌈(a.tEnd - 1 / 10 ^ 10 - start) / a.dt⌉ ≤ ⌈(a.tEnd - 1 / 10 ^ 10) / a.dt⌉ - 1 := by
    rw [Int.ceil_le, sub_div]
    push_cast
    have := Int.le_ceil ((a.tEnd - 1 / 10 ^ 10) / a.dt)
    have h5 : 1 ≤ start / a.dt := by rw [le_div_iff₀ hdt]; linarith
    linarith
  rw [max_eq_right k1.le] at h0
  rcases le_total 1 ⌈(a.tEnd - 1 / 10 ^ 10 - start) / a.dt⌉ with h | h
  · rw [max_eq_right h] at hc; omega
  · rw [max_eq_left h] at hc; omega

end C35

/-- C35, why: the start time has no effect at all. -/
theorem C35_start_ignored {K : Type} [Zero K] [One K] [Add K] [Sub K] [Mul K] [Div K] [Neg K] [NatCast K] [IntCast K]
    [LT K] [DecidableLT K] [LE K] [DecidableLE K] [HasSqrt K] (s : IntSem) (f : InputFields K) (t t' : K) :
    appPrepare s { f with time := { f.time with start := some t } } =
      appPrepare s { f with time := { f.time with start := some t' } } := rfl

/-! ## C36 -/

section C36
variable {K : Type} [Field K] [LinearOrder K] [IsStrictOrderedRing K] [HasSqrt K]

/-- C36, exactly when it holds: the automatic step is half the smaller of the two active cell widths iff the inactive width
is equal to it, or the active widths differ and the inactive one is not smaller. -/
theorem C36_auto_dt_iff (s : IntSem) (f : InputFields K) (a : App K) (prep : appPrepare s f = .ok a)
    (hno : f.time.constantDt = "NO") (r : Req K)
    (hr : f.grid = ⟨some r.lo.x, some r.hi.x, some r.lo.y, some r.hi.y, some r.lo.z, some r.hi.z, some r.n.x, some r.n.y,
      some r.n.z⟩) (hpad : r.pad = 1) (hv : r.Valid 2) :
    a.dt = min (r.h 0) (r.h 1) / 2 ↔ r.h 2 = min (r.h 0) (r.h 1) ∨ (r.h 0 ≠ r.h 1 ∧ min (r.h 0) (r.h 1) ≤ r.h 2) := by
  obtain ⟨nx, ny, nz, x0, x1, y0, y1, z0, z1, st', te, dt, hg, -, hm, -, hdt⟩ := appPrepare_inv prep
  rw [hr] at hg
  have er : gridReq nx ny nz x0 x1 y0 y1 z0 z1 = r := by
    obtain ⟨⟨n0, n1, n2⟩, pd, ⟨l0, l1, l2⟩, ⟨m0, m1, m2⟩⟩ := r
    simp only [GridInputs.mk.injEq, Option.some.injEq] at hg
    obtain ⟨rfl, rfl, rfl, rfl, rfl, rfl, rfl, rfl, rfl⟩ := hg
    simp only at hpad
    rw [hpad]
    rfl
  rw [er] at hm
  have G := make_made hv hm
  have e0 := G.dx 0; have e1 := G.dx 1; have e2 := G.dx 2
  rw [hdt, if_pos hno, ← e0, ← e1, ← e2]
  obtain ⟨x, y, z⟩ := a.g.dx
  simp only [Vec3.get, Vec3.min]
  have hh : ∀ u v : K, u * (1 / 2) = v / 2 ↔ u = v := fun u v => by
    constructor
    · intro h; linarith
    · rintro rfl; ring
  rw [hh]
  rcases lt_trichotomy x y with h | h | h
  · rw [min_eq_left h.le]
    by_cases hz : x < z
    · rw [if_pos ⟨h, hz⟩]
      exact ⟨fun _ => .inr ⟨h.ne, hz.le⟩, fun _ => rfl⟩
    · rw [if_neg (fun k => hz k.2)]
      have hy : ¬ (y < x ∧ y < z) := fun k => absurd k.1 (not_lt.2 h.le)
      rw [if_neg hy]
      exact ⟨fun e => .inl e, fun k => k.elim id fun k => le_antisymm (not_lt.1 hz) k.2⟩
  · subst h
    rw [min_self, if_neg (fun k => lt_irrefl _ k.1), if_neg (fun k => lt_irrefl _ k.1)]
    exact ⟨fun e => .inl e, fun k => k.elim id fun k => absurd rfl k.1⟩
  · rw [min_eq_right h.le, if_neg (fun k => absurd k.1 (not_lt.2 h.le))]
    by_cases hz : y < z
    · rw [if_pos ⟨h, hz⟩]
      exact ⟨fun _ => .inr ⟨h.ne', hz.le⟩, fun _ => rfl⟩
    · rw [if_neg (fun k => hz k.2)]
      exact ⟨fun e => .inl e, fun k => k.elim id fun k => le_antisymm (not_lt.1 hz) k.2⟩

/-- C36 when the active widths differ and the inactive width is not smaller.  Missing for the full claim: the other cases,
where it is false (`C36_auto_dt_iff`, `C36_false`). -/
theorem C36_auto_dt_partial (s : IntSem) (f : InputFields K) (a : App K) (prep : appPrepare s f = .ok a)
    (hno : f.time.constantDt = "NO") (r : Req K)
    (hr : f.grid = ⟨some r.lo.x, some r.hi.x, some r.lo.y, some r.hi.y, some r.lo.z, some r.hi.z, some r.n.x, some r.n.y,
      some r.n.z⟩) (hpad : r.pad = 1) (hv : r.Valid 2) (h1 : r.h 0 ≠ r.h 1) (h2 : min (r.h 0) (r.h 1) ≤ r.h 2) :
    a.dt = min (r.h 0) (r.h 1) / 2 :=
  (C36_auto_dt_iff s f a prep hno r hr hpad hv).2 (.inr ⟨h1, h2⟩)

/-- C36 is false on every square mesh of another depth, as in `tests/inputs`. -/
theorem C36_false (s : IntSem) (f : InputFields K) (a : App K) (prep : appPrepare s f = .ok a)
    (hno : f.time.constantDt = "NO") (r : Req K)
    (hr : f.grid = ⟨some r.lo.x, some r.hi.x, some r.lo.y, some r.hi.y, some r.lo.z, some r.hi.z, some r.n.x, some r.n.y,
      some r.n.z⟩) (hpad : r.pad = 1) (hv : r.Valid 2) (h1 : r.h 0 = r.h 1) (h2 : r.h 2 ≠ r.h 0) :
    a.dt ≠ min (r.h 0) (r.h 1) / 2 := by
  intro h
  rcases (C36_auto_dt_iff s f a prep hno r hr hpad hv).1 h with k | k
  · rw [← h1, min_self] at k; exact h2 k
  · exact k.1 h1

end C36

/-- C36, the other branch: a fixed step is taken from the input as it is. -/
theorem C36_fixed_dt {K : Type} [Zero K] [One K] [Add K] [Sub K] [Mul K] [Div K] [Neg K] [NatCast K] [IntCast K]
    [LT K] [DecidableLT K] [LE K] [DecidableLE K] [HasSqrt K] (s : IntSem) (f : InputFields K) (a : App K)
    (prep : appPrepare s f = .ok a) (hno : f.time.constantDt ≠ "NO") : f.time.dt = some a.dt := by
  obtain ⟨nx, ny, nz, x0, x1, y0, y1, z0, z1, st', te, dt, -, ht, -, -, hdt⟩ := appPrepare_inv prep
  rw [hdt, if_neg hno, ht]

/-! ## C37 -/

section C37
variable {K : Type} [Zero K] [One K] [Add K] [Sub K] [Mul K] [Div K] [Neg K] [NatCast K] [IntCast K]
  [LT K] [DecidableLT K] [LE K] [DecidableLE K] [HasSqrt K]

theorem setup_ok (s : IntSem) (cv : Conv K) (cwd : Path) (fs : Fs (Content K)) (file : String) (rest : List String)
    {es : List (String × Yaml)} {want : InputFields K} {r : Req K}
    (hfile : fs (resolve cwd file) = some (.file (.document (.map es)))) (h : CompleteInput cv es want r) :
    ∃ a, appSetup .tests s cv cwd fs (file :: rest) = .ok a ∧ a.Ready s r ∧ want.time.end' = some a.tEnd ∧
      (want.time.constantDt ≠ "NO" → want.time.dt = some a.dt) ∧
      a.fileUtils.rootDir = want.general.outputDirectory ++ "/" ∧ a.velocityInputs = want.velocity := by
  obtain ⟨f', e, e1, e2, e3, e4, e5⟩ := C38_any_subset_partial cv es InputFields.mk' want (.inr h.general) (.inr h.grid)
    (.inr h.time) (.inr h.velocity) (.inr h.levelset)
  have f1 := (e1.resolve_left fun k => not_absent_of_has h.general k.1).2
  have f3 := (e3.resolve_left fun k => not_absent_of_has h.time.choose_spec.choose_spec.choose_spec.2.2.2.1 k.1).2
  have f4 := (e4.resolve_left fun k => not_absent_of_has h.velocity.1 k.1).2
  have f5 := (e5.resolve_left fun k => not_absent_of_has h.levelset.choose_spec.choose_spec.2.1 k.1).2
  have f2 : f'.grid = want.grid := by
    rcases e2 with ⟨ha, -⟩ | ⟨-, e2⟩
    · obtain ⟨x0, x1, y0, y1, z0, z1, nx, ny, nz, more, -, a1, -⟩ := h.grid
      exact absurd ha (not_absent_of_has a1)
    · exact e2
  obtain ⟨start, tEnd, dt, t1, t2, t3, -⟩ := h.time
  obtain ⟨rad, more, t4, -⟩ := h.levelset
  have er : gridReq r.n.x r.n.y r.n.z r.lo.x r.hi.x r.lo.y r.hi.y r.lo.z r.hi.z = r := by
    obtain ⟨⟨n0, n1, n2⟩, pd, ⟨l0, l1, l2⟩, ⟨m0, m1, m2⟩⟩ := r
    have hp := h.pad
    simp only at hp
    rw [hp]
    rfl
  have w : ∀ t : TimeInputs K, t = ⟨t.start, t.end', t.dt, t.constantDt⟩ := fun t => rfl
  obtain ⟨a, p1, p2, p3, p4, p5, p6⟩ := appPrepare_ok s f' (start := start) (tEnd := tEnd) (dt := dt) (rad := rad)
    (f2.trans h.req) (by rw [f3]; conv_lhs => rw [w want.time]
                         rw [t1, t2, t3]) (by rw [f5, t4]) (by rw [er]; exact h.valid)
  rw [er] at p2
  refine ⟨a, ?_, p2, by rw [p3, t2], fun hno => ?_, by rw [p5, f1], by rw [p6, f4]⟩
  · unfold appSetup
    have he : FileUtils.fileExists cwd fs file = true := by
      unfold FileUtils.fileExists Fs.exists'; rw [hfile]; rfl
    simp only [he, if_true, hfile, e, M.ok_bind, p1]
  · rw [p4, f3, if_neg hno, t3]

/-- C37 is false: on **every** complete input, the test build reads outside an array in the first step (the default
padding of one cell is too small for the third-order gradient), and the non-test build ends in the parser.  These are the
only outcomes. -/
theorem C37_false [HasPi K] [HasFloor K] (s : IntSem) (cv : Conv K) (cwd : Path) (fs : Fs (Content K)) (file : String)
    (rest : List String) (es : List (String × Yaml)) (want : InputFields K) (r : Req K)
    (hfile : fs (resolve cwd file) = some (.file (.document (.map es)))) (h : CompleteInput cv es want r) :
    (∀ out, AppRuns .tests s cv cwd fs (file :: rest) out ↔ out = .error .oob) ∧
    ∀ out, AppRuns .release s cv cwd fs (file :: rest) out ↔ out = .error .exited := by
  constructor
  · intro out
    obtain ⟨a, e1, e2, -, -, -, e3⟩ := setup_ok s cv cwd fs file rest hfile h
    obtain ⟨c0, c1, tl, hc⟩ := two_elems h.center
    rw [← e3] at hc
    have hstep : While (timeBody (appAdvance .tests s a) a.dt a.tEnd) (0, (a.vel, a.ls)) (.error .oob) 1 := by
      refine .fault ?_
      simp only [timeBody, appAdvance_oob s h.valid h.pad e2 hc, M.error_bind]
    unfold AppRuns
    constructor
    · rintro (⟨f, k, -⟩ | ⟨a', k1, r', n, k2, rfl⟩)
      · rw [e1] at k; cases k
      · rw [e1] at k1
        cases k1
        rw [(k2.det hstep).1]
        rfl
    · rintro rfl
      exact .inr ⟨a, e1, _, _, hstep, rfl⟩
  · intro out
    have e := C38_release_false cv es InputFields.mk' want (.inr h.general) (.inr h.grid) (.inr h.time) (.inr h.velocity)
      h.levelset
    have e1 : appSetup .release s cv cwd fs (file :: rest) = .error .exited := by
      unfold appSetup
      have he : FileUtils.fileExists cwd fs file = true := by
        unfold FileUtils.fileExists Fs.exists'; rw [hfile]; rfl
      simp only [he, if_true, hfile, e, M.error_bind]
    unfold AppRuns
    rw [e1]
    constructor
    · rintro (⟨f, k, rfl⟩ | ⟨a', k1, -⟩)
      · cases k; rfl
      · cases k1
    · rintro rfl
      exact .inl ⟨_, rfl, rfl⟩

/-- C37, up to the time loop, test build: on every complete input the application builds the grid of the request, the
positions of all its padded cells, and the fields, without a fault, and takes the end time and the fixed step from the
input.  Missing for the full claim: the time loop, where it is false (`C37_false`). -/
theorem C37_setup_partial (s : IntSem) (cv : Conv K) (cwd : Path) (fs : Fs (Content K)) (file : String)
    (rest : List String) (es : List (String × Yaml)) (want : InputFields K) (r : Req K)
    (hfile : fs (resolve cwd file) = some (.file (.document (.map es)))) (h : CompleteInput cv es want r) :
    ∃ a, appSetup .tests s cv cwd fs (file :: rest) = .ok a ∧ r.make s 2 = .ok a.g ∧
      (∀ c, r.Padded 2 c → ∃ p, a.g.at' s c.1 c.2.1 c.2.2 = .ok p ∧ a.positions.get s a.g c.1 c.2.1 c.2.2 = .ok p) ∧
      (∃ f, FieldIs s r a.g a.ls.phi f) ∧ FieldIs s r a.g a.vel.velocity (fun _ => Vec3.zero) ∧
      want.time.end' = some a.tEnd ∧ (want.time.constantDt ≠ "NO" → want.time.dt = some a.dt) := by
  obtain ⟨a, e1, e2, e3, e4, -⟩ := setup_ok s cv cwd fs file rest hfile h
  have G := make_made h.valid e2.made
  exact ⟨a, e1, e2.made, fun c hc => ⟨_, G.node c (G.inPad.2 hc), e2.positions.val c hc⟩, e2.phi, e2.velocity, e3, e4⟩

/-- Without an argument, or with one that names nothing, the application ends at once, with success (status 0). -/
theorem C37_no_input [HasPi K] [HasFloor K] (b : Build) (s : IntSem) (cv : Conv K) (cwd : Path) (fs : Fs (Content K))
    (args : List String) (h : ∀ file ∈ args.head?, fs (resolve cwd file) = none) (out : M (Fs (Content K))) :
    AppRuns b s cv cwd fs args out ↔ out = .error .exited := by
  have e : appSetup b s cv cwd fs args = .error .exited := by
    unfold appSetup
    match args, h with
    | [], _ => rfl
    | file :: rest, h =>
      have h1 := h file rfl
      have he : FileUtils.fileExists cwd fs file = false := by
        unfold FileUtils.fileExists Fs.exists'; rw [h1]; rfl
      simp [he]
  unfold AppRuns
  rw [e]
  constructor
  · rintro (⟨f, k, rfl⟩ | ⟨a', k1, -⟩)
    · cases k; rfl
    · cases k1
  · rintro rfl
    exact .inl ⟨_, rfl, rfl⟩

theorem names_append (a b acc : List Char) : names (a ++ '/' :: b) acc = names a acc ++ names b [] := by
  induction a generalizing acc with
  | nil =>
    simp only [List.nil_append, names, if_true]
    by_cases h : acc = []
    · simp [h]
    · simp [h]
  | cons c a ih =>
    simp only [List.cons_append, names]
    by_cases h : c = '/'
    · rw [if_pos h, if_pos h]
      by_cases h2 : acc = []
      · rw [if_pos h2, if_pos h2, ih]
      · rw [if_neg h2, if_neg h2, ih]; rfl
    · rw [if_neg h, if_neg h, ih]

/-- A file named inside a directory. -/
theorem resolve_inside (cwd : Path) (dir : String) :
    resolve cwd (dir ++ "/" ++ "velocity") = resolve cwd (dir ++ "/") ++ ["velocity".toList] := by
  have hv : names "velocity".toList [] = ["velocity".toList] := by decide
  have hn : names [] [] = [] := rfl
  have h1 : "/".toList = ['/'] := rfl
  have abs : ∀ (p : String) (l : List Char), p.toList = '/' :: l → resolve cwd p = names l [] := by
    intro p l h
    unfold resolve
    rw [h]
    rfl
  have rel : ∀ (p : String) (c : Char) (l : List Char), c ≠ '/' → p.toList = c :: l → resolve cwd p = cwd ++ names (c :: l) [] := by
    intro p c l hc h
    unfold resolve
    rw [h]
    split
    · rename_i heq
      cases heq
      exact absurd rfl hc
    · rfl
  cases hd : dir.toList with
  | nil =>
    rw [abs _ "velocity".toList (by rw [String.toList_append, String.toList_append, hd, h1]; rfl),
      abs _ [] (by rw [String.toList_append, hd, h1]; rfl), hv, hn]
    rfl
  | cons c cs =>
    by_cases hc : c = '/'
    · subst hc
      rw [abs _ (cs ++ '/' :: "velocity".toList) (by rw [String.toList_append, String.toList_append, hd, h1]; simp),
        abs _ (cs ++ ['/']) (by rw [String.toList_append, hd, h1]; rfl),
        names_append cs "velocity".toList, names_append cs [], hv, hn, List.append_nil]
    · rw [rel _ c (cs ++ '/' :: "velocity".toList) hc (by rw [String.toList_append, String.toList_append, hd, h1]; simp),
        rel _ c (cs ++ ['/']) hc (by rw [String.toList_append, hd, h1]; rfl)]
      have e1 : c :: (cs ++ '/' :: "velocity".toList) = (c :: cs) ++ '/' :: "velocity".toList := rfl
      have e2 : c :: (cs ++ ['/']) = (c :: cs) ++ ['/'] := rfl
      rw [e1, e2, names_append, names_append, hv, hn, List.append_nil, List.append_assoc]

/-- C37, after the loop: whatever velocity the loop ended with, the output directory and its missing parents are made, and the
file `velocity` in it then holds one line per interior cell, in order, with the cell's position and its velocity.  Nothing else
that existed is changed.  Missing for the full claim: the time loop, where it is false (`C37_false`). -/
theorem C37_finish_partial (s : IntSem) (cwd : Path) (fs : Fs (Content K)) (w : WellFormed fs) (r : Req K) (hv : r.Valid 2)
    (a : App K) (hm : r.make s 2 = .ok a.g) (dir : String) (hroot : a.fileUtils.rootDir = dir ++ "/")
    (hway : NoFileOnWay fs (resolve cwd (dir ++ "/")))
    (hnot : fs (resolve cwd (dir ++ "/" ++ "velocity")) ≠ some .dir) (vel : LsVelocity K) (v : Cell → Vec3 K)
    (hvel : FieldIs s r a.g vel.velocity v) :
    ∃ (fs' : Fs (Content K)) (L : List Cell) (lines : List (Vec3 K × Vec3 K)), appFinish s cwd fs a vel = .ok fs' ∧
      fs' (resolve cwd (dir ++ "/" ++ "velocity")) = some (.file (.lines lines)) ∧
      L.Pairwise lexLt ∧ (∀ c, c ∈ L ↔ r.Interior c) ∧
      List.Forall₂ (fun c line => a.g.at' s c.1 c.2.1 c.2.2 = .ok line.1 ∧ line.2 = v c) L lines ∧
      ∀ q, fs q ≠ none → q ≠ resolve cwd (dir ++ "/" ++ "velocity") → fs' q = fs q := by
  have G := make_made hv hm
  have hext := hvel.ext
  have ex : vel.velocity.nx = r.n.x := by rw [← hext]; rfl
  have ey : vel.velocity.ny = r.n.y := by rw [← hext]; rfl
  have ez : vel.velocity.nz = r.n.z := by rw [← hext]; rfl
  obtain ⟨L, lines, p1, p2, p3, p4⟩ := C09_output s 2 r hv a.g hm vel.velocity hvel.len ex ey ez
  rcases hrun : FileUtils.createDirectory cwd fs (dir ++ "/") with ⟨ok, fs1⟩
  obtain ⟨h1, h2, -, h4⟩ := C39_create_directory_partial cwd fs w _ _ _ hrun
  obtain ⟨-, h5⟩ := h4 hway
  have hdrop : (resolve cwd (dir ++ "/" ++ "velocity")).dropLast = resolve cwd (dir ++ "/") := by
    rw [resolve_inside, List.dropLast_concat]
  have hnot1 : fs1 (resolve cwd (dir ++ "/" ++ "velocity")) ≠ some .dir := by
    rcases h2 (resolve cwd (dir ++ "/" ++ "velocity")) with e | ⟨-, e⟩
    · rw [e]; exact hnot
    · exfalso
      have := e.length_le
      rw [resolve_inside, List.length_append] at this
      simp only [List.length_cons, List.length_nil] at this
      omega
  obtain ⟨fs', k1, k2, k3⟩ := C39_write cwd fs1 (dir ++ "/" ++ "velocity") (.lines lines : Content K) (by rw [hdrop]; exact h5)
    hnot1
  refine ⟨fs', L, lines, ?_, k2, p2, p3, ?_, fun q hq1 hq2 => (k3 q hq2).trans (h1 q hq1)⟩
  · unfold appFinish FileUtils.getRootDirectory
    rw [hroot, hrun]
    simp only [FileUtils.write, p1, M.ok_bind, M.pure_eq] at k1 ⊢
    exact k1
  · have hmem : ∀ c ∈ L, r.Padded 2 c := fun c hc => interior_padded G ((p3 c).1 hc)
    clear p1 p2 p3 k1 k2 h1 h2 h4 h5 hnot1
    induction p4 with
    | nil => exact .nil
    | cons hd _ ih =>
      refine .cons ⟨hd.1, ?_⟩ (ih fun c hc => hmem c (List.mem_cons_of_mem _ hc))
      have e1 := hd.2
      rw [hvel.val _ (hmem _ List.mem_cons_self)] at e1
      injection e1 with e1
      exact e1.symm

end C37

/-! ## Instances -/

/-- Instance of C35: `dt = 1/2`, end time 2: four steps, which count themselves; and the run is unique. -/
example : ∃ n : ℕ, While (timeBody (fun (_ : ℚ) (x : ℕ) => .ok (x + 1)) (1 / 2) 2) (0, 0) (.ok (2, 4)) n ∧ n = 4 ∧
    IsStepCount (0 : ℚ) 2 (1 / 2) 4 := by
  have run : While (timeBody (fun (_ : ℚ) (x : ℕ) => .ok (x + 1)) (1 / 2) 2) (0, 0) (.ok (2, 4)) 4 := by
    refine .again (s' := (1 / 2, 1)) ?_ (.again (s' := (1, 2)) ?_ (.again (s' := (3 / 2, 3)) ?_ (.stop ?_)))
    all_goals rw [timeBody_ok rfl]; norm_num [vsmall]
  exact ⟨4, run, rfl, (C35_steps_partial _ _ _ (by norm_num) _ _ _ run).1⟩

/-- Instance of `C35_terminates` and `C35_diverges`. -/
example : (∃ x' n, While (timeBody (fun (_ : ℚ) (x : ℕ) => .ok (x + 1)) (1 / 3) 2) (0, 0) (.ok ((n : ℕ) * (1 / 3), x')) n) ∧
    ¬ ∃ r n, While (timeBody (fun (_ : ℚ) (x : ℕ) => .ok (x + 1)) (-1) 2) (0, 0) r n := by
  obtain ⟨x', n, h, -⟩ := C35_terminates (fun (_ : ℚ) (x : ℕ) => .ok (x + 1)) (fun _ x => ⟨x + 1, rfl⟩) (1 / 3) 2
    (by norm_num) 0
  exact ⟨⟨x', n, h⟩, C35_diverges _ (fun _ x => ⟨x + 1, rfl⟩) _ _ (by norm_num) (by norm_num) 0⟩

/-- The sample input with another grid and other times. -/
def appFields (ny : ℤ) (start tEnd : ℚ) (const : String) : InputFields ℚ :=
  { demoWant with
    grid := ⟨some 0, some 1, some 0, some 1, some 0, some 1, some 10, some ny, some 1⟩
    time := ⟨some start, some tEnd, some (1 / 2), const⟩ }

theorem appFields_valid (ny : ℤ) (h : 1 ≤ ny) (h2 : ny ≤ 10) : (gridReq 10 ny 1 (0 : ℚ) 1 0 1 0 1).Valid 2 := by
  refine ⟨.inr (.inl rfl), show (0 : ℤ) < 10 by decide, ?_, show (0 : ℤ) < 1 by decide, fun h => absurd h (by decide),
    fun _ => rfl, show (0 : ℤ) ≤ 1 by decide, ?_⟩
  · show 0 < ny; omega
  · show (10 + 2 * 1) * (ny + 2 * 1) * (1 + 2 * 1) ≤ 2147483647
    omega

/-- Instance of `C35_false`: start time 1, end time 2, step 1/2: two steps expected, four made. -/
example (sq : HasSqrt ℚ) : ∃ (a : App ℚ) (n : ℕ), appPrepare .strict (appFields 10 1 2 "YES") = .ok a ∧
    While (timeBody (fun (_ : ℚ) (x : ℕ) => .ok (x + 1)) a.dt a.tEnd) (0, 0) (.ok (2, 4)) n ∧
    IsStepCount (1 : ℚ) a.tEnd a.dt 2 ∧ ¬ IsStepCount (1 : ℚ) a.tEnd a.dt n := by
  obtain ⟨a, e, -, e1, e2, -⟩ := appPrepare_ok .strict (appFields 10 1 2 "YES") rfl rfl rfl
    (appFields_valid 10 (by omega) (by omega))
  rw [if_neg (by decide)] at e2
  have run : While (timeBody (fun (_ : ℚ) (x : ℕ) => .ok (x + 1)) a.dt a.tEnd) (0, 0) (.ok (2, 4)) 4 := by
    rw [e1, e2]
    refine .again (s' := (1 / 2, 1)) ?_ (.again (s' := (1, 2)) ?_ (.again (s' := (3 / 2, 3)) ?_ (.stop ?_)))
    all_goals rw [timeBody_ok rfl]; norm_num [vsmall]
  refine ⟨a, 4, e, run, ?_, (C35_false .strict _ a e 1 rfl (by rw [e2]; norm_num) (by rw [e2]; norm_num)
    (by rw [e1, e2]; norm_num) _ _ _ _ run).2⟩
  rw [e1, e2]
  refine stepCount_of (by norm_num) (by norm_num [vsmall]) (by norm_num) ?_
  intro k h1 h2
  obtain rfl : k = 1 := by omega
  norm_num [vsmall]

/-- Instance of C36: 10 by 5 cells, step 1/20. -/
example (sq : HasSqrt ℚ) : ∃ a : App ℚ, appPrepare .strict (appFields 5 0 1 "NO") = .ok a ∧ a.dt = 1 / 20 := by
  obtain ⟨a, e, -⟩ := appPrepare_ok .strict (appFields 5 0 1 "NO") rfl rfl rfl (appFields_valid 5 (by omega) (by omega))
  refine ⟨a, e, ?_⟩
  rw [C36_auto_dt_partial .strict _ a e rfl (gridReq 10 5 1 0 1 0 1 0 1) rfl rfl (appFields_valid 5 (by omega) (by omega))]
  all_goals norm_num [Req.h, gridReq, Vec3.get]

/-- Instance of C36 being false: 10 by 10 cells, step 1/2 instead of 1/20. -/
example (sq : HasSqrt ℚ) : ∃ a : App ℚ, appPrepare .strict (appFields 10 0 1 "NO") = .ok a ∧ a.dt ≠ 1 / 20 := by
  obtain ⟨a, e, -⟩ := appPrepare_ok .strict (appFields 10 0 1 "NO") rfl rfl rfl (appFields_valid 10 (by omega) (by omega))
  refine ⟨a, e, ?_⟩
  have := C36_false .strict _ a e rfl (gridReq 10 10 1 0 1 0 1 0 1) rfl rfl (appFields_valid 10 (by omega) (by omega))
    (by norm_num [Req.h, gridReq, Vec3.get]) (by norm_num [Req.h, gridReq, Vec3.get])
  refine fun h => this (h.trans ?_)
  norm_num [Req.h, gridReq, Vec3.get]

/-- The sample document is a complete input. -/
theorem demo_complete : CompleteInput demoConv demoDoc demoWant (gridReq 10 10 1 0 1 0 1 0 1) :=
  ⟨demo_has.1, demo_has.2.1, demo_has.2.2.1, demo_has.2.2.2.1, demo_has.2.2.2.2, rfl, rfl,
    appFields_valid 10 (by omega) (by omega), by decide⟩

/-- A file system with the sample document at `/in`. -/
def appFs : Fs (Content ℚ) := fun q =>
  if q = [] then some .dir else if q = [['i', 'n']] then some (.file (.document (.map demoDoc))) else none

theorem appFs_wf : WellFormed appFs := by
  constructor
  · rfl
  · intro p a h
    unfold appFs at h ⊢
    rcases p with - | ⟨b, p⟩
    · rfl
    · exfalso; apply h; simp

theorem appFs_in : appFs (resolve [] "in") = some (.file (.document (.map demoDoc))) := by
  rw [show resolve [] "in" = [['i', 'n']] by decide]; rfl

/-- Instance of C37 being false. -/
example (sq : HasSqrt ℚ) (pi : HasPi ℚ) (out : M (Fs (Content ℚ))) :
    (AppRuns .tests .wrap demoConv [] appFs ["in"] out ↔ out = .error .oob) ∧
    (AppRuns .release .wrap demoConv [] appFs ["in"] out ↔ out = .error .exited) ∧
    (AppRuns .tests .wrap demoConv [] appFs ["nothing"] out ↔ out = .error .exited) := by
  have h := C37_false .wrap demoConv [] appFs "in" [] demoDoc demoWant _ appFs_in demo_complete
  refine ⟨h.1 out, h.2 out, C37_no_input .tests .wrap demoConv [] appFs ["nothing"] ?_ out⟩
  intro file hf
  cases hf
  decide

/-- Instance of C37 before and after the loop. -/
example (sq : HasSqrt ℚ) : ∃ (a : App ℚ) (fs' : Fs (Content ℚ)) (lines : List (Vec3 ℚ × Vec3 ℚ)),
    appSetup .tests .strict demoConv [] appFs ["in"] = .ok a ∧ appFinish .strict [] appFs a a.vel = .ok fs' ∧
    fs' (resolve [] "out/velocity") = some (.file (.lines lines)) ∧
    fs' [['i', 'n']] = some (.file (.document (.map demoDoc))) := by
  obtain ⟨a, e, hr, -, -, hroot, -⟩ := setup_ok .strict demoConv [] appFs "in" [] appFs_in demo_complete
  obtain ⟨a', e', hm, -, -, hvel, -⟩ := C37_setup_partial .strict demoConv [] appFs "in" [] demoDoc demoWant _ appFs_in
    demo_complete
  rw [e] at e'
  cases e'
  have hp : resolve [] ("out" ++ "/") = [['o', 'u', 't']] := by decide
  have hp2 : resolve [] ("out" ++ "/" ++ "velocity") = [['o', 'u', 't'], "velocity".toList] := by decide
  obtain ⟨fs', L, lines, k1, k2, -, -, -, k3⟩ := C37_finish_partial .strict [] appFs appFs_wf _ demo_complete.valid a hm "out"
    hroot (by
      intro q hq
      rw [hp] at hq
      rcases List.prefix_cons_iff.1 hq with rfl | ⟨t, rfl, ht⟩
      · exact .inr rfl
      · rw [List.prefix_nil.1 ht]; left; rfl) (by rw [hp2]; unfold appFs; simp) a.vel _ hvel
  refine ⟨a, fs', lines, e, k1, k2, (k3 [['i', 'n']] (by unfold appFs; simp) (by rw [hp2]; decide)).trans rfl⟩

/-- Instance of `C36_fixed_dt`. -/
example (sq : HasSqrt ℚ) : ∃ a : App ℚ, appPrepare .strict (appFields 10 0 1 "YES") = .ok a ∧
    (appFields 10 0 1 "YES").time.dt = some a.dt := by
  obtain ⟨a, e, -⟩ := appPrepare_ok .strict (appFields 10 0 1 "YES") rfl rfl rfl (appFields_valid 10 (by omega) (by omega))
  exact ⟨a, e, C36_fixed_dt .strict _ a e (by decide)⟩

end Gals.Props
