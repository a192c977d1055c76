import Verif.Lemmas.AppStep

/-!
# Properties C73, C74 (the steps of the application on a grid with enough ghost cells)
-/

set_option linter.unusedSectionVars false

namespace Gals.Props

open Gals Spec

section
variable {K : Type} [Field K] [LinearOrder K] [IsStrictOrderedRing K] [FloorRing K]

/-- The loop, with an invariant that counts steps. -/
theorem while_reach_inv {σ : Type} {advance : K → σ → M σ} {dt tEnd : K} {I : ℕ → σ → Prop}
    (hadv : ∀ m t x, I m x → ∃ x', advance t x = .ok x' ∧ I (m + 1) x') (n : ℕ) :
    ∀ (m : ℕ) (t : K) (x : σ), I m x → (∀ k : ℕ, 1 ≤ k → k ≤ n → t + k * dt < tEnd - vsmall) →
      tEnd - vsmall ≤ t + (n + 1 : ℕ) * dt →
      ∃ x', While (timeBody advance dt tEnd) (t, x) (.ok (t + (n + 1 : ℕ) * dt, x')) (n + 1) ∧ I (m + (n + 1)) x' := by
  induction n with
  | zero =>
    intro m t x hi _ h
    obtain ⟨x', e, hi'⟩ := hadv m (t + dt) x hi
    refine ⟨x', ?_, hi'⟩
    simp only [zero_add, Nat.cast_one, one_mul] at h ⊢
    refine .stop ?_
    rw [timeBody_ok e, decide_eq_false (not_lt.2 h)]
  | succ n ih =>
    intro m t x hi h1 h2
    obtain ⟨x', e, hi'⟩ := hadv m (t + dt) x hi
    obtain ⟨x'', k, hi''⟩ := ih (m + 1) (t + dt) x' hi' (fun k hk1 hk2 => by
      have := h1 (k + 1) (by omega) (by omega)
      push_cast at this
      linarith) (by push_cast at h2 ⊢; linarith)
    refine ⟨x'', ?_, by rw [show m + (n + 1 + 1) = m + 1 + (n + 1) by omega]; exact hi''⟩
    have he : t + dt + (n + 1 : ℕ) * dt = t + (n + 1 + 1 : ℕ) * dt := by push_cast; ring
    rw [he] at k
    refine .again ?_ k
    have h0 := h1 1 le_rfl (by omega)
    rw [Nat.cast_one, one_mul] at h0
    rw [timeBody_ok e, decide_eq_true h0]

/-! ## C73: with two ghost layers the loop completes -/

variable [HasPi K]

/-- The angular velocity of the application's flow, `π / 3.15`. -/
def turnRate : K := HasPi.pi / (315 / 100)

/-- The changed preparation is the one of the application if the padding is 1. -/
theorem C73_padding_one [HasSqrt K] (s : IntSem) (f : InputFields K) : appPrepareWith 1 s f = appPrepare s f := by
  have step : ∀ {α β : Type} {x : M α} {p q : α → M β}, (∀ a, x = .ok a → p a = q a) → (x >>= p) = (x >>= q) := by
    intro α β x p q hpq
    cases x with
    | error e => rfl
    | ok a => exact hpq a rfl
  unfold appPrepareWith appPrepare
  refine step fun nx _ => step fun ny _ => step fun nz _ => step fun g hg => ?_
  rw [setPadding_default hg]

/-- C73, before the loop: for complete inputs and any padding that fits, the changed preparation succeeds.  The level set is
the distance to the circle minus its radius at interior cells if a circle was asked for, and 0 there otherwise; at ghost cells it is 0. -/
theorem C73_prepared [HasSqrt K] (pad : ℤ) (s : IntSem) (f : InputFields K) (nx ny nz : ℤ)
    (x0 x1 y0 y1 z0 z1 start tEnd dt rad : K)
    (hg : f.grid = ⟨some x0, some x1, some y0, some y1, some z0, some z1, some nx, some ny, some nz⟩)
    (ht : f.time = ⟨some start, some tEnd, some dt, f.time.constantDt⟩) (hr : f.levelset.radius = some rad)
    (hv : Req.Valid (⟨⟨nx, ny, nz⟩, pad, ⟨x0, y0, z0⟩, ⟨x1, y1, z1⟩⟩ : Req K) 2) :
    ∃ (a : App K) (phi0 : Cell → K), appPrepareWith pad s f = .ok a ∧
      Prepared s ⟨⟨nx, ny, nz⟩, pad, ⟨x0, y0, z0⟩, ⟨x1, y1, z1⟩⟩ a phi0 ∧
      (∀ c, ¬ Req.Interior (⟨⟨nx, ny, nz⟩, pad, ⟨x0, y0, z0⟩, ⟨x1, y1, z1⟩⟩ : Req K) c → phi0 c = 0) ∧
      (∀ c, Req.Interior (⟨⟨nx, ny, nz⟩, pad, ⟨x0, y0, z0⟩, ⟨x1, y1, z1⟩⟩ : Req K) c → phi0 c =
        if f.levelset.name = "CIRCLE" then
          HasSqrt.sqrt (((storedPos ⟨⟨nx, ny, nz⟩, pad, ⟨x0, y0, z0⟩, ⟨x1, y1, z1⟩⟩ c).x - f.levelset.center.x) ^ 2 +
            ((storedPos ⟨⟨nx, ny, nz⟩, pad, ⟨x0, y0, z0⟩, ⟨x1, y1, z1⟩⟩ c).y - f.levelset.center.y) ^ 2 +
            f.levelset.center.z ^ 2) - rad
        else 0) ∧
      a.tEnd = tEnd ∧ a.velocityInputs = f.velocity ∧ a.fileUtils.rootDir = f.general.outputDirectory ++ "/" ∧
      (f.time.constantDt ≠ "NO" → a.dt = dt) := by
  set r : Req K := ⟨⟨nx, ny, nz⟩, pad, ⟨x0, y0, z0⟩, ⟨x1, y1, z1⟩⟩ with hreq
  obtain ⟨g, e, G⟩ := make_ok (K := K) (d := 2) s hv
  have e' := e
  unfold Req.make at e
  simp only [hreq] at e
  obtain ⟨g0, e1, e2⟩ := bind_ok e
  obtain ⟨p, h1, h2⟩ := copyPositions_ok G
  replace h2 : FieldIs s r g p (storedPos r) := by
    refine h2.congr fun c hc => ?_
    have k1 := G.node c (G.inPad.2 hc)
    rw [G.atC hc] at k1
    rw [← Except.ok.inj k1, nodePos_stored]
  have h0 : FieldIs s r g (Levelset.mk' g).phi (fun _ => (0 : K)) := fieldIs_mk G 0
  have t1 : f.time.start = some start := by rw [ht]
  have t2 : f.time.end' = some tEnd := by rw [ht]
  have t3 : f.time.dt = some dt := by rw [ht]
  by_cases hn : f.levelset.name = "CIRCLE"
  · obtain ⟨phi', m1, m2⟩ := analyticLevelset_ok (gp := g) G
      (inp := ⟨f.levelset.name, f.levelset.center, rad, f.levelset.gradientScheme⟩) hn h2.ext
      (fun c hc => h2.val c (interior_padded G hc)) h0
    have k1 : levelsetInputs f.levelset = .ok ⟨f.levelset.name, f.levelset.center, rad, f.levelset.gradientScheme⟩ := by
      unfold levelsetInputs levelsetName
      rw [if_pos hn, hr]
      rfl
    refine ⟨⟨FileUtils.mk'.setRootDirectory (f.general.outputDirectory ++ "/"), g, p, f.velocity, LsVelocity.mk' g,
      { Levelset.mk' g with phi := phi' }, tEnd,
      if f.time.constantDt = "NO" then g.dx.min * (1 / 2) else dt⟩, _, ?_, ⟨e', h2, rfl, rfl, m2⟩, fun c hc => if_neg hc,
      fun c hc => ?_, rfl, rfl, rfl, fun hne => if_neg hne⟩
    · unfold appPrepareWith
      simp only [hg, t1, t2, t3, initialised, M.ok_bind, e1, e2, h1, k1, m1, M.pure_eq]
    · rw [if_pos hc, if_pos hn]
      congr 1
      unfold Vec3.mag Vec3.sub
      congr 1
      simp only [storedPos]
      ring
  · have k1 : levelsetInputs f.levelset = .ok ⟨f.levelset.name, f.levelset.center, 0, f.levelset.gradientScheme⟩ := by
      unfold levelsetInputs levelsetName
      rw [if_neg hn]
    have m1 : analyticLevelset s g g ⟨f.levelset.name, f.levelset.center, 0, f.levelset.gradientScheme⟩ p (Levelset.mk' g) =
        .ok (Levelset.mk' g) := by
      unfold analyticLevelset levelsetName; rw [if_neg hn]
    refine ⟨⟨FileUtils.mk'.setRootDirectory (f.general.outputDirectory ++ "/"), g, p, f.velocity, LsVelocity.mk' g,
      Levelset.mk' g, tEnd, if f.time.constantDt = "NO" then g.dx.min * (1 / 2) else dt⟩, _, ?_, ⟨e', h2, rfl, rfl, h0⟩, fun c hc => rfl,
      fun c hc => (if_neg hn).symm, rfl, rfl, rfl, fun hne => if_neg hne⟩
    unfold appPrepareWith
    simp only [hg, t1, t2, t3, initialised, M.ok_bind, e1, e2, h1, k1, m1, M.pure_eq]

/-- C73, the loop: on a grid with at least two ghost layers, if no node moves by a cell in a step, the time loop of the
application has exactly one run.  It ends without a fault after the counted number of steps; the level set and its gradient
are then those of as many applications of `advected` to the initial ones, and the velocity is the rotation. -/
theorem C73_run (r : Req K) (h : r.Valid 2) (hpos : r.Pos 2) (hpad : 2 ≤ r.pad) (a : App K) (phi0 : Cell → K)
    (P : Prepared .wrap r a phi0) (hn : a.velocityInputs.name = "CIRCULAR") (c0 c1 : K) (rest : List K)
    (hc : a.velocityInputs.center = c0 :: c1 :: rest) (hdt : 0 < a.dt)
    (hs : SmallStep r (rotation turnRate c0 c1) a.dt) :
    ∃ (n : ℕ) (vel : LsVelocity K) (ls : Levelset K), IsStepCount 0 a.tEnd a.dt n ∧
      (∀ out m, While (timeBody (appAdvance .tests .wrap a) a.dt a.tEnd) (0, (a.vel, a.ls)) out m ↔
        out = .ok (n * a.dt, (vel, ls)) ∧ m = n) ∧
      (∃ v, FieldIs .wrap r a.g vel.velocity v ∧ ∀ c, r.Interior c → v c = rotation turnRate c0 c1 (storedPos r c)) ∧
      let F := (advected r (rotation turnRate c0 c1) a.dt (r.pad - 1))^[n] ⟨phi0, fun _ => Vec3.zero⟩
      FieldIs .wrap r a.g ls.phi F.phi ∧ FieldIs .wrap r a.g ls.psi F.psi := by
  classical
  have hex : ∃ n : ℕ, a.tEnd - vsmall ≤ 0 + (n + 1 : ℕ) * a.dt := by
    obtain ⟨n, hn⟩ := exists_nat_ge ((a.tEnd - vsmall) / a.dt)
    refine ⟨n, ?_⟩
    rw [div_le_iff₀ hdt] at hn
    push_cast
    linarith
  have G := make_made h P.made
  obtain ⟨x', run, hx'⟩ := while_reach_inv (advance := appAdvance .tests .wrap a) (dt := a.dt) (tEnd := a.tEnd)
    (I := fun m x => StepState r a x ((advected r (rotation turnRate c0 c1) a.dt (r.pad - 1))^[m] ⟨phi0, fun _ => Vec3.zero⟩) ∧
      (0 < m → ∀ c, r.Interior c → x.1.velocity.get .wrap a.g c.1 c.2.1 c.2.2 = .ok (rotation turnRate c0 c1 (storedPos r c))))
    (by
      intro m t x hx
      obtain ⟨x', e, s', hv, -⟩ := appAdvance_ok h hpos hpad P.made P.positions hn hc hs t hx.1
      refine ⟨x', e, ?_, fun _ => hv⟩
      rw [Function.iterate_succ_apply']
      exact s') (Nat.find hex) 0 0 (a.vel, a.ls) ⟨stepState_prepared h P, fun h => absurd h (by omega)⟩ (fun k hk1 hk2 => by
    have := Nat.find_min hex (m := k - 1) (by omega)
    rw [show k - 1 + 1 = k by omega] at this
    exact not_le.1 this) (Nat.find_spec hex)
  rw [zero_add] at run
  rw [zero_add] at hx'
  obtain ⟨S, hv⟩ := hx'
  obtain ⟨v, f⟩ := S.velocity
  refine ⟨_, x'.1, x'.2, (C35_steps_partial _ _ _ hdt _ _ _ run).1, fun out m => ⟨fun hr => hr.det run, ?_⟩,
    ⟨v, f, fun c hci => ?_⟩, S.phi, S.psi⟩
  · rintro ⟨rfl, rfl⟩
    exact run
  · exact Except.ok.inj ((f.val c (interior_padded G hci)).symm.trans (hv (by omega) c hci))

/-- C73, ghost cells: no step writes them, so the run ends with the values they had before it (0, by `C73_prepared`), whatever
the level set near the boundary has become. -/
theorem C73_ghosts (r : Req K) (h : r.Valid 2) (hpos : r.Pos 2) (hpad : 2 ≤ r.pad) (a : App K) (phi0 : Cell → K)
    (P : Prepared .wrap r a phi0) (hn : a.velocityInputs.name = "CIRCULAR") (c0 c1 : K) (rest : List K)
    (hc : a.velocityInputs.center = c0 :: c1 :: rest) (hdt : 0 < a.dt)
    (hs : SmallStep r (rotation turnRate c0 c1) a.dt) (t : K) (vel : LsVelocity K) (ls : Levelset K) (n : ℕ)
    (run : While (timeBody (appAdvance .tests .wrap a) a.dt a.tEnd) (0, (a.vel, a.ls)) (.ok (t, (vel, ls))) n) :
    ∀ c, r.Padded 2 c → ¬ r.Interior c → ls.phi.get .wrap a.g c.1 c.2.1 c.2.2 = .ok (phi0 c) ∧
      ls.psi.get .wrap a.g c.1 c.2.1 c.2.2 = .ok Vec3.zero := by
  obtain ⟨n', vel', ls', -, h2, -, h4, h5⟩ := C73_run r h hpos hpad a phi0 P hn c0 c1 rest hc hdt hs
  obtain ⟨k1, k2⟩ := (h2 _ _).1 run
  cases k1
  subst k2
  intro c hc1 hc2
  have key : ∀ m : ℕ, ((advected r (rotation turnRate c0 c1) a.dt (r.pad - 1))^[m] ⟨phi0, fun _ => Vec3.zero⟩).phi c = phi0 c ∧
      ((advected r (rotation turnRate c0 c1) a.dt (r.pad - 1))^[m] ⟨phi0, fun _ => Vec3.zero⟩).psi c = Vec3.zero := by
    intro m
    induction m with
    | zero => exact ⟨rfl, rfl⟩
    | succ m ih =>
      rw [Function.iterate_succ_apply']
      exact ⟨(if_neg hc2).trans ih.1, (if_neg hc2).trans ih.2⟩
  exact ⟨(h4.val c hc1).trans (congrArg _ (key n).1), (h5.val c hc1).trans (congrArg _ (key n).2)⟩

/-- C73, after the loop: the file then written has one line per interior cell, in order, with the stored position of the cell
and the velocity of the rotation there. -/
theorem C73_file (cwd : Path) (fs : Fs (Content K)) (w : WellFormed fs) (r : Req K) (h : r.Valid 2) (hpos : r.Pos 2)
    (hpad : 2 ≤ r.pad) (a : App K) (phi0 : Cell → K) (P : Prepared .wrap r a phi0)
    (hn : a.velocityInputs.name = "CIRCULAR") (c0 c1 : K) (rest : List K)
    (hc : a.velocityInputs.center = c0 :: c1 :: rest) (hdt : 0 < a.dt)
    (hs : SmallStep r (rotation turnRate c0 c1) a.dt) (dir : String) (hroot : a.fileUtils.rootDir = dir ++ "/")
    (hway : NoFileOnWay fs (resolve cwd (dir ++ "/"))) (hnot : fs (resolve cwd (dir ++ "/" ++ "velocity")) ≠ some .dir)
    (t : K) (vel : LsVelocity K) (ls : Levelset K) (n : ℕ)
    (run : While (timeBody (appAdvance .tests .wrap a) a.dt a.tEnd) (0, (a.vel, a.ls)) (.ok (t, (vel, ls))) n) :
    ∃ (fs' : Fs (Content K)) (L : List Cell), appFinish .wrap cwd fs a vel = .ok fs' ∧
      fs' (resolve cwd (dir ++ "/" ++ "velocity")) =
        some (.file (.lines (L.map fun c => (storedPos r c, rotation turnRate c0 c1 (storedPos r c))))) ∧
      L.Pairwise lexLt ∧ (∀ c, c ∈ L ↔ r.Interior c) ∧
      ∀ q, fs q ≠ none → q ≠ resolve cwd (dir ++ "/" ++ "velocity") → fs' q = fs q := by
  have G := make_made h P.made
  obtain ⟨n', vel', ls', -, h2, ⟨v, h3, h4⟩, -⟩ := C73_run r h hpos hpad a phi0 P hn c0 c1 rest hc hdt hs
  obtain ⟨k1, k2⟩ := (h2 _ _).1 run
  cases k1
  let _ : HasSqrt K := ⟨id⟩
  obtain ⟨fs', L, lines, m1, m2, m3, m4, m5, m6⟩ := C37_finish_partial .wrap cwd fs w r h a P.made dir hroot hway hnot vel v h3
  refine ⟨fs', L, m1, ?_, m3, m4, m6⟩
  rw [m2]
  have hmem : ∀ c ∈ L, r.Interior c := fun c => (m4 c).1
  have : lines = L.map fun c => (storedPos r c, rotation turnRate c0 c1 (storedPos r c)) := by
    clear m1 m2 m3 m4
    induction m5 with
    | nil => rfl
    | @cons c l cs ls hd _ ih =>
      have hci := hmem c List.mem_cons_self
      rw [List.map_cons, ih fun c hc => hmem c (List.mem_cons_of_mem _ hc)]
      have e1 := hd.1
      rw [G.atC (interior_padded G hci)] at e1
      have e2 : l = (storedPos r c, rotation turnRate c0 c1 (storedPos r c)) := by
        refine Prod.ext (Except.ok.inj e1).symm ?_
        rw [hd.2, h4 c hci]
      rw [e2]
  rw [this]

/-! ## C74: a step interpolates on the cell that contains the departure point -/

/-- The claim of C74 for a grid request, for all initial level sets and flows of the application. -/
def StepInterpolates (r : Req K) : Prop :=
  ∀ (a : App K) (phi0 : Cell → K) (c0 c1 : K) (rest : List K), Prepared .wrap r a phi0 →
    a.velocityInputs.name = "CIRCULAR" → a.velocityInputs.center = c0 :: c1 :: rest → 0 < a.dt →
    SmallStep r (rotation turnRate c0 c1) a.dt → ∀ (t : K) (x' : LsVelocity K × Levelset K),
    appAdvance .tests .wrap a t (a.vel, a.ls) = .ok x' → ∀ c, r.Interior c →
      x'.2.phi.get .wrap a.g c.1 c.2.1 c.2.2 = .ok
        ((advected r (rotation turnRate c0 c1) a.dt 0 ⟨phi0, fun _ => Vec3.zero⟩).phi c)

/-- C74, what a step computes: it evaluates the polynomial of the cell that is `pad - 1` cells to the right of and above the
one that contains the departure point, outside of that cell.  The slopes are third-order differences of the level set, mixed
derivatives are taken as 0, and the new gradient is that of the polynomial, not changed by the flow.  Missing for the full
claim: the cell, see `C74_false`. -/
theorem C74_step_partial (r : Req K) (h : r.Valid 2) (hpos : r.Pos 2) (hpad : 2 ≤ r.pad) (a : App K) (phi0 : Cell → K)
    (P : Prepared .wrap r a phi0) (hn : a.velocityInputs.name = "CIRCULAR") (c0 c1 : K) (rest : List K)
    (hc : a.velocityInputs.center = c0 :: c1 :: rest) (hs : SmallStep r (rotation turnRate c0 c1) a.dt) (t : K) :
    ∃ x', appAdvance .tests .wrap a t (a.vel, a.ls) = .ok x' ∧
      ∀ c, r.Padded 2 c →
        x'.2.phi.get .wrap a.g c.1 c.2.1 c.2.2 = .ok
          ((advected r (rotation turnRate c0 c1) a.dt (r.pad - 1) ⟨phi0, fun _ => Vec3.zero⟩).phi c) ∧
        x'.2.psi.get .wrap a.g c.1 c.2.1 c.2.2 = .ok
          ((advected r (rotation turnRate c0 c1) a.dt (r.pad - 1) ⟨phi0, fun _ => Vec3.zero⟩).psi c) ∧
        x'.2.phiPrev.get .wrap a.g c.1 c.2.1 c.2.2 = .ok (phi0 c) ∧
        x'.2.psiPrev.get .wrap a.g c.1 c.2.1 c.2.2 = .ok (startSlope r ⟨phi0, fun _ => Vec3.zero⟩ c) := by
  obtain ⟨x', e, s', -, h1, h2⟩ := appAdvance_ok h hpos hpad P.made P.positions hn hc hs t (stepState_prepared h P)
  exact ⟨x', e, fun c hcp => ⟨s'.phi.val c hcp, s'.psi.val c hcp, h1.val c hcp, h2.val c hcp⟩⟩

omit [HasPi K] [IsStrictOrderedRing K] in
theorem patchValue_ghost {r : Req K} {F : AppFields K} (hphi : ∀ c, ¬ r.Interior c → F.phi c = 0)
    (hpsi : ∀ c, ¬ r.Interior c → F.psi c = Vec3.zero) {b : Cell} (hb : r.n.x ≤ b.1 ∨ r.n.y ≤ b.2.1) (x : Vec3 K) :
    patchValue r F.phi (startSlope r F) b x = 0 := by
  have key : ∀ i j : Fin 2, ¬ r.Interior (b.1 + i, b.2.1 + j, 0) := by
    rintro i j ⟨⟨-, h1⟩, ⟨-, h2⟩, -⟩
    simp only at h1 h2
    rcases hb with hb | hb <;> omega
  unfold patchValue patch
  refine Finset.sum_eq_zero fun i _ => Finset.sum_eq_zero fun j _ => ?_
  rw [hphi _ (key i j)]
  unfold startSlope
  rw [if_neg (key i j), hpsi _ (key i j)]
  simp [Vec3.zero]

/-- C74, erased cells: with more than two ghost layers, if the ghost values are 0 as the application leaves them, the first
step makes the level set 0 in the last `pad - 2` columns and rows of the interior, whatever it was. -/
theorem C74_erased (r : Req K) (h : r.Valid 2) (hpos : r.Pos 2) (hpad : 2 ≤ r.pad) (a : App K) (phi0 : Cell → K)
    (P : Prepared .wrap r a phi0) (hghost : ∀ c, ¬ r.Interior c → phi0 c = 0)
    (hn : a.velocityInputs.name = "CIRCULAR") (c0 c1 : K) (rest : List K)
    (hc : a.velocityInputs.center = c0 :: c1 :: rest) (hs : SmallStep r (rotation turnRate c0 c1) a.dt) (t : K) :
    ∃ x', appAdvance .tests .wrap a t (a.vel, a.ls) = .ok x' ∧
      ∀ c, r.Interior c → (r.n.x - (r.pad - 2) ≤ c.1 ∨ r.n.y - (r.pad - 2) ≤ c.2.1) →
        x'.2.phi.get .wrap a.g c.1 c.2.1 c.2.2 = .ok 0 := by
  obtain ⟨x', e, k⟩ := C74_step_partial r h hpos hpad a phi0 P hn c0 c1 rest hc hs t
  have G := make_made h P.made
  refine ⟨x', e, fun c hci hcc => ?_⟩
  rw [(k c (interior_padded G hci)).1]
  simp only [advected, if_pos hci]
  congr 1
  obtain ⟨s1, s2⟩ := hs c hci
  have hx0 : 0 < r.h 0 := h.h_pos hpos 0 (by decide)
  have hy0 : 0 < r.h 1 := h.h_pos hpos 1 (by decide)
  refine patchValue_ghost (F := ⟨phi0, fun _ => Vec3.zero⟩) hghost (fun _ _ => rfl) ?_ _
  refine hcc.imp (fun hcc => ?_) (fun hcc => ?_)
  · have : c.1 - 1 ≤ (around r ⟨(storedPos r c).x - a.dt * (rotation turnRate c0 c1 (storedPos r c)).x,
        (storedPos r c).y - a.dt * (rotation turnRate c0 c1 (storedPos r c)).y, 0⟩).1 := by
      unfold around
      rw [Int.le_floor, le_div_iff₀ hx0]
      have e1 : (storedPos r c).x = (storedPos r (0, 0, 0)).x + c.1 * r.h 0 := by
        simp only [storedPos, Req.centre]; push_cast; ring
      have := (abs_lt.1 s1).2
      push_cast
      rw [e1]
      linarith
    omega
  · have : c.2.1 - 1 ≤ (around r ⟨(storedPos r c).x - a.dt * (rotation turnRate c0 c1 (storedPos r c)).x,
        (storedPos r c).y - a.dt * (rotation turnRate c0 c1 (storedPos r c)).y, 0⟩).2.1 := by
      unfold around
      rw [Int.le_floor, le_div_iff₀ hy0]
      have e1 : (storedPos r c).y = (storedPos r (0, 0, 0)).y + c.2.1 * r.h 1 := by
        simp only [storedPos, Req.centre]; push_cast; ring
      have := (abs_lt.1 s2).2
      push_cast
      rw [e1]
      linarith
    dsimp only
    omega

/-- Some application before its loop. -/
theorem prepared_exists {s : IntSem} {r : Req K} (h : r.Valid 2) (phi0 : Cell → K) (inp : VelocityInputs K) (fu : FileUtils)
    (tEnd dt : K) :
    ∃ a : App K, Prepared s r a phi0 ∧ a.velocityInputs = inp ∧ a.tEnd = tEnd ∧ a.dt = dt ∧ a.fileUtils = fu := by
  obtain ⟨g, e, G⟩ := make_ok (K := K) (d := 2) s h
  obtain ⟨p, hp⟩ := fieldIs_exists G (storedPos r)
  obtain ⟨f, hf⟩ := fieldIs_exists G phi0
  exact ⟨⟨fu, g, p, inp, LsVelocity.mk' g, { Levelset.mk' g with phi := f }, tEnd, dt⟩, ⟨e, hp, rfl, rfl, hf⟩, rfl, rfl,
    rfl, rfl⟩

/-- C74 is false for every supported grid with at least two ghost layers: if the last interior node is the centre of the
rotation, it is its own departure point, and interpolation would keep its value; the step reads four ghost cells instead. -/
theorem C74_false (r : Req K) (h : r.Valid 2) (hpos : r.Pos 2) (hpad : 2 ≤ r.pad) : ¬ StepInterpolates r := by
  intro claim
  have hx0 : 0 < r.h 0 := h.h_pos hpos 0 (by decide)
  have hy0 : 0 < r.h 1 := h.h_pos hpos 1 (by decide)
  have n0 := h.nx_pos
  have n1 := h.ny_pos
  have n2 := h.nz_pos
  set c : Cell := (r.n.x - 1, r.n.y - 1, 0) with hcdef
  have hci : r.Interior c := by
    refine ⟨⟨?_, ?_⟩, ⟨?_, ?_⟩, ⟨?_, ?_⟩⟩ <;> simp only [hcdef] <;> omega
  set p := storedPos r c with hp
  set phi0 : Cell → K := fun c => if r.Interior c then 1 else 0 with hphi0
  set B : K := |turnRate| * (r.n.x * r.h 0 + r.n.y * r.h 1) with hB
  have hnx : (0 : K) < r.n.x := by exact_mod_cast n0
  have hny : (0 : K) < r.n.y := by exact_mod_cast n1
  have hB0 : 0 ≤ B := by positivity
  set dt : K := min (r.h 0) (r.h 1) / (B + 1) with hdt
  have hdt0 : 0 < dt := div_pos (lt_min hx0 hy0) (by linarith)
  have hdtB : dt * B < min (r.h 0) (r.h 1) := by
    rw [hdt, div_mul_eq_mul_div, div_lt_iff₀ (by linarith)]
    have := lt_min hx0 hy0
    nlinarith
  have hs : SmallStep r (rotation turnRate p.y p.x) dt := by
    rintro ⟨i, j, k⟩ ⟨⟨i1, i2⟩, ⟨j1, j2⟩, -⟩
    simp only at i1 i2 j1 j2
    have i1' : (0 : K) ≤ i := by exact_mod_cast i1
    have j1' : (0 : K) ≤ j := by exact_mod_cast j1
    have i2' : (i : K) + 1 ≤ r.n.x := by exact_mod_cast i2
    have j2' : (j : K) + 1 ≤ r.n.y := by exact_mod_cast j2
    have e1 : p.y - (storedPos r (i, j, k)).y = (r.n.y - 1 - j) * r.h 1 := by
      simp only [hp, hcdef, storedPos, Req.centre]; push_cast; ring
    have e2 : (storedPos r (i, j, k)).x - p.x = -((r.n.x - 1 - i) * r.h 0) := by
      simp only [hp, hcdef, storedPos, Req.centre]; push_cast; ring
    have b1 : |turnRate * (p.y - (storedPos r (i, j, k)).y)| ≤ B := by
      rw [e1, abs_mul, hB]
      refine mul_le_mul_of_nonneg_left ?_ (abs_nonneg _)
      rw [abs_of_nonneg (mul_nonneg (by linarith) hy0.le)]
      nlinarith [mul_pos hnx hx0, mul_nonneg j1' hy0.le]
    have b2 : |turnRate * ((storedPos r (i, j, k)).x - p.x)| ≤ B := by
      rw [e2, abs_mul, abs_neg, hB]
      refine mul_le_mul_of_nonneg_left ?_ (abs_nonneg _)
      rw [abs_of_nonneg (mul_nonneg (by linarith) hx0.le)]
      nlinarith [mul_pos hny hy0, mul_nonneg i1' hx0.le]
    simp only [rotation]
    rw [abs_mul dt, abs_mul dt, abs_of_pos hdt0]
    exact ⟨(mul_le_mul_of_nonneg_left b1 hdt0.le).trans_lt (hdtB.trans_le (min_le_left _ _)),
      (mul_le_mul_of_nonneg_left b2 hdt0.le).trans_lt (hdtB.trans_le (min_le_right _ _))⟩
  obtain ⟨a, P, e1, -, e3, -⟩ := prepared_exists (s := .wrap) h phi0 ⟨"CIRCULAR", [], [p.y, p.x], ""⟩ FileUtils.mk' 1 dt
  have hn : a.velocityInputs.name = "CIRCULAR" := by rw [e1]
  have hc : a.velocityInputs.center = [p.y, p.x] := by rw [e1]
  rw [← e3] at hs hdt0
  obtain ⟨x', k1, k2⟩ := C74_step_partial r h hpos hpad a phi0 P hn p.y p.x [] hc hs 0
  have G := make_made h P.made
  have v1 := claim a phi0 p.y p.x [] P hn hc hdt0 hs 0 x' k1 c hci
  rw [(k2 c (interior_padded G hci)).1] at v1
  have v2 := Except.ok.inj v1
  simp only [advected, if_pos hci, ← hp, rotation, sub_self, mul_zero, sub_zero] at v2
  have ha : around r ⟨p.x, p.y, 0⟩ = c := by
    unfold around
    have f1 : (p.x - (storedPos r (0, 0, 0)).x) / r.h 0 = ((r.n.x - 1 : ℤ) : K) := by
      rw [div_eq_iff hx0.ne']
      simp only [hp, hcdef, storedPos, Req.centre]; push_cast; ring
    have f2 : (p.y - (storedPos r (0, 0, 0)).y) / r.h 1 = ((r.n.y - 1 : ℤ) : K) := by
      rw [div_eq_iff hy0.ne']
      simp only [hp, hcdef, storedPos, Req.centre]; push_cast; ring
    simp only [f1, f2, Int.floor_intCast]
    rfl
  rw [ha] at v2
  have hF : (⟨phi0, fun _ => Vec3.zero⟩ : AppFields K).phi = phi0 := rfl
  rw [patchValue_ghost (F := ⟨phi0, fun _ => Vec3.zero⟩) (fun c hc => if_neg hc) (fun _ _ => rfl)
    (.inl (by simp only [hcdef]; omega))] at v2
  have hb : ((c.1 + 0, c.2.1 + 0, 0) : Cell) = c := by simp [hcdef]
  rw [hb] at v2
  unfold patchValue patch at v2
  have hcc : ((c.1, c.2.1, 0) : Cell) = c := rfl
  simp only [Fin.sum_univ_two, hVal, hSlope, ← hp, sub_self, zero_div, if_true, one_ne_zero, if_false, Fin.val_zero,
    Nat.cast_zero, add_zero, hcc] at v2
  have h1 : phi0 c = 1 := if_pos hci
  rw [h1] at v2
  norm_num at v2

end

/-! ## Instances -/

section instances

/-- An approximation of `π`. -/
local instance : HasPi ℚ := ⟨22 / 7⟩

/-- The sample grid with two ghost layers, rotation about `(1, 2)`, step 1/10. -/
theorem demo_small : SmallStep (demo 2) (rotation turnRate 2 1) (1 / 10) := by
  rintro ⟨i, j, k⟩ ⟨⟨i1, i2⟩, ⟨j1, j2⟩, -⟩
  simp only [demo] at i1 i2 j1 j2
  interval_cases i <;> interval_cases j <;>
    norm_num [rotation, turnRate, HasPi.pi, storedPos, Req.centre, Req.h, demo, Vec3.get, abs_lt]

/-- Some application on it with level set `f` that is 0 at ghost cells. -/
def demoPhi (c : Cell) : ℚ := if (demo 2).Interior c then 1 / (3 + (c.1 : ℚ) ^ 2) - c.2.1 else 0

theorem demo_app : ∃ a : App ℚ, Prepared .wrap (demo 2) a demoPhi ∧ a.velocityInputs = ⟨"CIRCULAR", [], [2, 1], ""⟩ ∧ a.tEnd = 1 ∧
    a.dt = 1 / 10 ∧ a.fileUtils = FileUtils.mk'.setRootDirectory ("out" ++ "/") :=
  prepared_exists demo2_valid demoPhi _ _ _ _

/-- Instance of C73: ten steps, after which the ghost cell `(-1, 1)` still has 0 and the file is there. -/
example : ∃ (a : App ℚ) (vel : LsVelocity ℚ) (ls : Levelset ℚ) (fs' : Fs (Content ℚ)) (L : List Cell),
    While (timeBody (appAdvance .tests .wrap a) a.dt a.tEnd) (0, (a.vel, a.ls)) (.ok (10 * (1 / 10), (vel, ls))) 10 ∧
    ls.phi.get .wrap a.g (-1) 1 0 = .ok 0 ∧
    ls.phi.get .wrap a.g 2 1 0 =
      .ok (((advected (demo 2) (rotation turnRate 2 1) (1 / 10) 1)^[10] ⟨demoPhi, fun _ => Vec3.zero⟩).phi (2, 1, 0)) ∧
    appFinish .wrap [] appFs a vel = .ok fs' ∧ fs' (resolve [] "out/velocity") = some (.file (.lines
      (L.map fun c => (storedPos (demo 2) c, rotation turnRate 2 1 (storedPos (demo 2) c))))) := by
  obtain ⟨a, P, e1, e2, e3, e4⟩ := demo_app
  have hn : a.velocityInputs.name = "CIRCULAR" := by rw [e1]
  have hc : a.velocityInputs.center = [2, 1] := by rw [e1]
  have hdt : 0 < a.dt := by rw [e3]; norm_num
  have hs : SmallStep (demo 2) (rotation turnRate 2 1) a.dt := by rw [e3]; exact demo_small
  obtain ⟨n, vel, ls, h1, h2, -, h4, -⟩ := C73_run (demo 2) demo2_valid (demo_pos 2) (by decide) a demoPhi P hn 2 1 [] hc hdt hs
  have hten : n = 10 := by
    unfold IsStepCount at h1
    rw [e2, e3] at h1
    have : ⌈((1 : ℚ) - 1 / 10 ^ 10 - 0) / (1 / 10)⌉ = 10 := by rw [Int.ceil_eq_iff]; norm_num
    rw [this] at h1
    norm_num at h1
    exact_mod_cast h1
  subst hten
  have run := (h2 _ _).2 ⟨rfl, rfl⟩
  have hg := C73_ghosts (demo 2) demo2_valid (demo_pos 2) (by decide) a demoPhi P hn 2 1 [] hc hdt hs _ vel ls 10 run
  have hp : resolve [] ("out" ++ "/") = [['o', 'u', 't']] := by decide
  have hp2 : resolve [] ("out" ++ "/" ++ "velocity") = [['o', 'u', 't'], "velocity".toList] := by decide
  obtain ⟨fs', L, f1, f2, -⟩ := C73_file [] appFs appFs_wf (demo 2) demo2_valid (demo_pos 2) (by decide) a demoPhi P hn 2 1 [] hc
    hdt hs "out" (by rw [e4]; rfl) (by
      intro q hq
      rw [hp] at hq
      rcases List.prefix_cons_iff.1 hq with rfl | ⟨t, rfl, ht⟩
      · exact .inr rfl
      · rw [List.prefix_nil.1 ht]; left; rfl) (by rw [hp2]; unfold appFs; simp) _ vel ls 10 run
  refine ⟨a, vel, ls, fs', L, by rw [e3] at run ⊢; exact_mod_cast run, ?_, ?_, f1, f2⟩
  · exact (hg (-1, 1, 0) (by unfold Req.Padded PaddedCell padAlong demo; simp)
      (by unfold Req.Interior InteriorCell demo; simp)).1
  · rw [e3] at h4
    exact h4.val (2, 1, 0) (by unfold Req.Padded PaddedCell padAlong demo; simp)

/-- Instance of `C73_prepared`: the sample input with two ghost layers. -/
example (sq : HasSqrt ℚ) : ∃ (a : App ℚ) (phi0 : Cell → ℚ), appPrepareWith 2 .wrap (appFields 10 0 1 "YES") = .ok a ∧
    Prepared .wrap ⟨⟨10, 10, 1⟩, 2, ⟨0, 0, 0⟩, ⟨1, 1, 1⟩⟩ a phi0 ∧ a.dt = 1 / 2 ∧ phi0 (-1, 0, 0) = 0 := by
  obtain ⟨a, phi0, h1, h2, h3, -, -, -, -, h8⟩ := C73_prepared 2 .wrap (appFields 10 0 1 "YES") _ _ _ _ _ _ _ _ _ _ _ _ _ rfl
    rfl rfl ⟨.inr (.inl rfl), by decide, by decide, by decide, by decide, by decide, by decide, by decide⟩
  exact ⟨a, phi0, h1, h2, h8 (by decide), h3 _ (by unfold Req.Interior InteriorCell; simp)⟩

/-- Instance of C74: a step on the sample grid, with the value at the node `(2, 1)`. -/
example : ∃ (a : App ℚ) (x' : LsVelocity ℚ × Levelset ℚ), appAdvance .tests .wrap a 0 (a.vel, a.ls) = .ok x' ∧
    x'.2.phi.get .wrap a.g 2 1 0 =
      .ok ((advected (demo 2) (rotation turnRate 2 1) (1 / 10) 1 ⟨demoPhi, fun _ => Vec3.zero⟩).phi (2, 1, 0)) ∧
    ¬ StepInterpolates (demo 2) := by
  obtain ⟨a, P, e1, e2, e3, e4⟩ := demo_app
  obtain ⟨x', h1, h2⟩ := C74_step_partial (demo 2) demo2_valid (demo_pos 2) (by decide) a demoPhi P (by rw [e1]) 2 1 []
    (by rw [e1]) (by rw [e3]; exact demo_small) 0
  rw [e3] at h2
  exact ⟨a, x', h1, (h2 (2, 1, 0) (by unfold Req.Padded PaddedCell padAlong demo; simp)).1,
    C74_false (demo 2) demo2_valid (demo_pos 2) (by decide)⟩

theorem demo3_valid : (demo 3).Valid 2 :=
  ⟨by simp, by decide, by decide, by decide, by decide, by decide, by decide, by decide⟩

/-- Instance of `C74_erased`: three ghost layers; the last column becomes 0. -/
example : ∃ (a : App ℚ) (x' : LsVelocity ℚ × Levelset ℚ), a.ls.phi.get .wrap a.g 3 1 0 = .ok 7 ∧
    appAdvance .tests .wrap a 0 (a.vel, a.ls) = .ok x' ∧ x'.2.phi.get .wrap a.g 3 1 0 = .ok 0 := by
  obtain ⟨a, P, e1, e2, e3, e4⟩ := prepared_exists (s := .wrap) demo3_valid (fun c => if (demo 3).Interior c then (7 : ℚ) else 0)
    ⟨"CIRCULAR", [], [3, 2], ""⟩ FileUtils.mk' 1 (1 / 10)
  have hs : SmallStep (demo 3) (rotation turnRate 3 2) (1 / 10) := by
    rintro ⟨i, j, k⟩ ⟨⟨i1, i2⟩, ⟨j1, j2⟩, -⟩
    simp only [demo] at i1 i2 j1 j2
    interval_cases i <;> interval_cases j <;>
      norm_num [rotation, turnRate, HasPi.pi, storedPos, Req.centre, Req.h, demo, Vec3.get, abs_lt]
  have hci : (demo 3).Interior (3, 1, 0) := by unfold Req.Interior InteriorCell demo; simp
  obtain ⟨x', h1, h2⟩ := C74_erased (demo 3) demo3_valid (demo_pos 3) (by decide) a _ P (fun c hc => if_neg hc) (by rw [e1]) 3 2
    [] (by rw [e1]) (by rw [e3]; exact hs) 0
  refine ⟨a, x', ?_, h1, h2 (3, 1, 0) hci (.inl (by decide))⟩
  have := P.phi.val (3, 1, 0) (by unfold Req.Padded PaddedCell padAlong demo; simp)
  rw [if_pos hci] at this
  exact this

end instances

end Gals.Props
