import Verif.Lemmas.RefFlipMpi
import Verif.Lemmas.FlipDouble
import Verif.Props.RefCudaMain
import Verif.Props.RefDouble
import Verif.Props.RefHybrid

/-!
# C112, C113: reference programs on related level sets
-/

set_option linter.unusedSectionVars false

namespace Gals.Props

open Gals Gals.Spec Gals.Ref

/-! ## Relations that the arithmetic respects -/

theorem opp_div {a a' : F64} (c : F64) (h : Opp a a') : Opp (a / c) (a' / c) := by
  change Opp (F64.div a c) (F64.div a' c)
  rcases opp_cases h with ⟨rfl, rfl⟩ | ⟨s, rfl, rfl⟩ | ⟨s, t, x, hx, rfl, rfl, k⟩
  · cases c <;> exact opp_nan
  · cases c with
    | nan => exact opp_nan
    | inf u => exact opp_nan
    | fin u b hb => exact opp_inf (by cases s <;> cases u <;> rfl)
  · cases c with
    | nan => exact opp_nan
    | inf u => exact opp_fin (Or.inl rfl)
    | fin u b hb =>
      simp only [F64.div]
      split
      · split
        · exact opp_nan
        · rcases k with k | k
          · contradiction
          · subst k
            exact opp_inf (by cases s <;> cases u <;> rfl)
      · rcases k with rfl | rfl
        · rw [zero_div]
          exact opp_round_zero
        · exact opp_round (by cases s <;> cases u <;> rfl) rfl

theorem respects_opp : Respects F64 Opp :=
  ⟨scaling_opp.zero, scaling_opp.add, scaling_opp.sub, scaling_opp.mulL, scaling_opp.mulR, opp_div⟩

theorem respects_mul {K : Type} [Field K] (k : K) : Respects K fun a b => b = k * a :=
  ⟨by rw [mul_zero], fun h1 h2 => by rw [h1, h2, mul_add], fun h1 h2 => by rw [h1, h2, mul_sub], fun c h => by rw [h]; ring,
    fun c h => by rw [h]; ring, fun c h => by rw [h, mul_div_assoc]⟩

section any
variable {K : Type} [Zero K] [One K] [Add K] [_root_.Sub K] [Mul K] [Div K] [Neg K] [NatCast K]

theorem respects_any : Respects K fun _ _ => True :=
  ⟨trivial, fun _ _ => trivial, fun _ _ => trivial, fun _ _ => trivial, fun _ _ => trivial, fun _ _ => trivial⟩

theorem respects_swap {W : K → K → Prop} (A : Respects K W) : Respects K fun a b => W b a :=
  ⟨A.zero, A.add, A.sub, A.mulL, A.mulR, A.divR⟩

theorem memRel_swap {W : K → K → Prop} {m m' : Mem (Val K)} (h : MemRel (LocRel W) m m') : MemRel (LocRel fun a b => W b a) m' m := by
  have : ∀ l (a b : Val K l), LocRel W l a b → LocRel (fun a b => W b a) l b a := by
    intro l a b
    cases l with
    | n => exact fun h => h.symm
    | d v i j =>
      change (match geometric v with | true => a = b | false => W a b) → match geometric v with | true => b = a | false => W a b
      cases geometric v with
      | true => exact fun h => h.symm
      | false => exact fun h => h
  intro l
  have hl := h l
  generalize m l = a at hl
  generalize m' l = b at hl
  cases hl with
  | oob => exact .oob
  | uninit => exact .uninit
  | val h => exact .val (this _ _ _ h)

variable [LT K] [LE K] [DecidableLT K] [DecidableLE K] [HasFloor K]

theorem alike_of {W : K → K → Prop} (A : Respects K W) (c : Setting K) (v : Vel K) {f f' g g' : Initial K} (hf : InitialRel W f f')
    (hg : InitialRel W g g') : Alike W c v f f' g g' where
  serial := mainWith_rel A.zero c v (fun t _ _ h => stepSerial_rel A c v _ _ t h) hf
  old := mainOld_rel A c v hf
  openmp argc := by
    unfold mainOpenMP
    split
    · exact .error _
    · exact mainWith_rel A.zero c v (fun t _ _ h => stepOpenMP_rel A c v _ _ t h) hf
  threads t _ _ _ h e := ompStep_rel A c v _ _ t h e
  kernels tile t _ _ _ h e := cudaStep_rel A tile c v t h e
  kernelFaults tile t _ _ h := ⟨cudaFault_rel A tile c v t h, cudaFault_rel (respects_swap A) tile c v t (memRel_swap h)⟩
  cuda tile splice even := mainCuda_rel A tile splice c even v hf hg
  mpi w := by
    have := mpiMain_rel A c v w hf
    generalize mpiMain c v f w = x at this
    generalize mpiMain c v f' w = y at this
    cases this with
    | error e => exact .error e
    | ok h =>
      refine .ok ⟨fun p ch q e => ?_, fun a ch b e => ?_⟩
      · obtain ⟨⟨p', ch', q'⟩, e', -, hc, -⟩ := net_steps h e
        obtain rfl : ch = ch' := hc
        exact ⟨p', q', e'⟩
      · obtain ⟨⟨p', ch', q'⟩, e', h1, hc, h3⟩ := net_steps h e
        obtain rfl : ch = ch' := hc
        cases h1 with
        | done h1 =>
          cases h3 with
          | done h3 => exact ⟨_, _, e', h1, h3⟩
  hybrid argc w n _ e := hybridRun_rel A c v hf argc w n e

end any

/-! ## Inside and outside -/

/-- **C112**: every reference program treats inside and outside alike in doubles.  Initial level sets that are opposite bit for bit
except for the sign of zero, infinities and NaN included, give runs with the same fault, or with fields and files that are opposite in the same sense, and
with the same grids, departure points, cells, messages and files of the velocity; whatever the velocity (and so whatever `sin` and `cos` return), and in
every interleaving of the threads. -/
theorem C112_programs (c : Setting F64) (v : Vel F64) {f f' g g' : Initial F64} (hf : InitialRel Opp f f') (hg : InitialRel Opp g g') :
    Alike Opp c v f f' g g' :=
  alike_of respects_opp c v hf hg

/-- The opposite initial level set. -/
def negInitial (f : Initial F64) : Initial F64 :=
  ⟨fun x y => -f.phi x y, fun x y => -f.psix x y, fun x y => -f.psiy x y, fun x y => -f.psixy x y⟩

/-- Every initial level set has an opposite one. -/
theorem C112_negate (f : Initial F64) : InitialRel Opp f (negInitial f) :=
  ⟨fun _ _ => opp_neg _, fun _ _ => opp_neg _, fun _ _ => opp_neg _, fun _ _ => opp_neg _⟩

/-- **C112**, units: in exact arithmetic the level set multiplied by any number gives fields and files multiplied by that number. -/
theorem C112_units {K : Type} [Field K] [LinearOrder K] [IsStrictOrderedRing K] [HasFloor K] (k : K) (c : Setting K) (v : Vel K)
    {f f' g g' : Initial K} (hf : InitialRel (fun a b => b = k * a) f f') (hg : InitialRel (fun a b => b = k * a) g g') :
    Alike (fun a b => b = k * a) c v f f' g g' :=
  alike_of (respects_mul k) c v hf hg

/-! ## The level set never decides what is executed -/

section any
variable {K : Type} [Zero K] [One K] [Add K] [_root_.Sub K] [Mul K] [Div K] [Neg K] [NatCast K] [LT K] [LE K] [DecidableLT K] [DecidableLE K]
  [HasFloor K]

/-- **C113**: in every reference program, whatever the arithmetic, the level set decides neither whether a fault occurs, nor which, nor what is
executed: any two initial level sets give the same fault, or fields initialised at the same places, files with numbers at the same places, and equal
grids, departure points, cells, messages and files of the velocity. -/
theorem C113_programs (c : Setting K) (v : Vel K) (f f' g g' : Initial K) : Alike (fun _ _ => True) c v f f' g g' :=
  alike_of respects_any c v ⟨fun _ _ => trivial, fun _ _ => trivial, fun _ _ => trivial, fun _ _ => trivial⟩
    ⟨fun _ _ => trivial, fun _ _ => trivial, fun _ _ => trivial, fun _ _ => trivial⟩

/-- **C113** for the OpenMP program in particular: it ends without undefined behaviour with one initial level set exactly when it does with another,
and then the departure points are equal. -/
theorem C113_openmp (argc : ℕ) (c : Setting K) (v : Vel K) (f f' : Initial K) : ((∃ r, mainOpenMP argc c v f = .ok r) ↔ ∃ r, mainOpenMP argc c v f' = .ok r) ∧
    ∀ m o m' o', mainOpenMP argc c v f = .ok (m, o) → mainOpenMP argc c v f' = .ok (m', o') →
      o.velx = o'.velx ∧ o.vely = o'.vely ∧ o.details = o'.details ∧ o.phi.length = o'.phi.length ∧
      ∀ i j, m (.d .xadv i j) = m' (.d .xadv i j) ∧ m (.d .yadv i j) = m' (.d .yadv i j) := by
  have h := (C113_programs c v f f' f f').openmp argc
  have eq : ∀ {α : Type} {a b : Slot α}, SlotRel Eq a b → a = b := by
    intro α a b h
    cases h with
    | oob => rfl
    | uninit => rfl
    | val h => rw [h]
  generalize mainOpenMP argc c v f = x at h
  generalize mainOpenMP argc c v f' = y at h
  cases h with
  | error e => exact ⟨⟨fun ⟨_, h⟩ => by simp at h, fun ⟨_, h⟩ => by simp at h⟩, fun _ _ _ _ h => by simp at h⟩
  | ok h =>
    refine ⟨⟨fun _ => ⟨_, rfl⟩, fun _ => ⟨_, rfl⟩⟩, fun m o m' o' e e' => ?_⟩
    injection e with e
    injection e' with e'
    subst e e'
    exact ⟨h.2.velx, h.2.vely, h.2.details, h.2.phi.length_eq, fun i j => ⟨eq (h.1 (.d .xadv i j)), eq (h.1 (.d .yadv i j))⟩⟩

end any

/-! ## Runs that exist -/

section runs
variable {K : Type} [Zero K] [One K] [Add K] [_root_.Sub K] [Mul K] [Div K] [Neg K] [NatCast K]

theorem parFor_of_exec {ps : List (P K Unit)} {m m' : Mem (Val K)} (h : exec (.seqAll ps) m = .ok m') : ParFor ps m m' := by
  refine ⟨[ps], [.pure ()], by simp, ?_, by simp [Ended]⟩
  unfold exec at h
  cases e : (Prog.seqAll ps).run m with
  | error f => rw [e] at h; cases h
  | ok r =>
    rw [e] at h
    obtain ⟨u, n⟩ := r
    obtain rfl : n = m' := Except.ok.inj h
    exact run_interleaves e [] []

theorem parFor_of_serial {ps : List (P K Unit)} {m m' : Mem (Val K)} (h : SerialFor ps m m') : ParFor ps m m' := by
  obtain ⟨qs, hp, e⟩ := h
  obtain ⟨css, rs, h1, h2, h3⟩ := parFor_of_exec e
  exact ⟨css, rs, h1.trans hp, h2, h3⟩

theorem spacing_same {a : DVar} {m m' : Mem (Val K)} {s : K} (h : (spacing a).run m = .ok (s, m')) : m' = m := by
  simp only [spacing, getD, Prog.get] at h
  change (Prog.read (V := Val K) _ fun v => Prog.read (V := Val K) _ fun w => Prog.pure (v - w)).run m = _ at h
  simp only [Prog.run] at h
  cases e : m (.d a 0 2) with
  | oob => rw [e] at h; cases h
  | uninit => rw [e] at h; cases h
  | val x =>
    rw [e] at h
    simp only at h
    cases e' : m (.d a 0 1) with
    | oob => rw [e'] at h; cases h
    | uninit => rw [e'] at h; cases h
    | val y =>
      rw [e'] at h
      exact (congrArg Prod.snd (Except.ok.inj h)).symm

variable [LT K] [LE K] [DecidableLT K] [DecidableLE K]

/-- The sequential run is one of the executions by several threads. -/
theorem ompStep_of_step {c : Setting K} {v : Vel K} {dx dy : K} {t : ℕ} {m n : Mem (Val K)} (h : stepOpenMP c v dx dy t m = .ok n) :
    OmpStep ParFor c v dx dy t m n := by
  unfold stepOpenMP stepTail at h
  cases e1 : exec (.seqAll (advMpi v c.schemes.rk3 t c.dt c.ny 0 c.nx)) (stepArrays c m) with
  | error f => rw [e1] at h; cases h
  | ok m1 =>
    rw [e1, M.ok_bind] at h
    cases e2 : exec (.seqAll (find c.xlim1 c.xlim2 c.ylim1 c.ylim2 c.nx c.ny 0 c.nx)) (stepCells c m1) with
    | error f => rw [e2] at h; cases h
    | ok m2 =>
      rw [e2, M.ok_bind] at h
      cases e3 : exec (update v c.schemes t c.dt c.nx c.ny) m2 with
      | error f => rw [e3] at h; cases h
      | ok m3 =>
        rw [e3, M.ok_bind] at h
        cases e4 : exec (.seqAll (mixed c.nx c.ny dx dy 0 c.nx)) (declMixed m3) with
        | error f => rw [e4] at h; cases h
        | ok m4 =>
          rw [e4, M.ok_bind] at h
          have e3' : ((spacing .x).bind fun dx => (spacing .y).bind fun dy =>
              Prog.seqAll (updateLoop v c.schemes t c.dt dx dy c.ny 0 c.nx)).run m2 = .ok ((), m3) := by
            unfold exec at e3
            change ((update v c.schemes t c.dt c.nx c.ny).run m2) = _
            cases e : (update v c.schemes t c.dt c.nx c.ny).run m2 with
            | error f => rw [e] at e3; cases e3
            | ok r =>
              rw [e] at e3
              obtain rfl : r.2 = m3 := Except.ok.inj e3
              rfl
          rw [Prog.run_bind] at e3'
          cases ex : (spacing (K := K) .x).run m2 with
          | error f => rw [ex] at e3'; cases e3'
          | ok r =>
            obtain ⟨sx, r⟩ := r
            obtain rfl := spacing_same ex
            rw [ex, M.ok_bind, Prog.run_bind] at e3'
            cases ey : (spacing (K := K) .y).run r with
            | error f => rw [ey] at e3'; cases e3'
            | ok r' =>
              obtain ⟨sy, r'⟩ := r'
              obtain rfl := spacing_same ey
              rw [ey, M.ok_bind] at e3'
              exact ⟨m1, _, m3, m4, sx, sy, parFor_of_exec e1, parFor_of_exec e2, ex, ey,
                parFor_of_exec (by unfold exec; rw [e3']; rfl), parFor_of_exec e4, (Except.ok.inj h).symm⟩

/-- The sequential run is one of the executions of the kernels. -/
theorem cudaStep_of_step {tile : ℕ} {c : Setting K} {v : Vel K} {t : ℕ} {m n : Mem (Val K)} (h : stepCuda tile c v t m = .ok n) :
    CudaStep tile c v t m n := by
  have aux : ∀ (bs : List (ℕ → ℕ → P K Unit)) (m n : Mem (Val K)), bs.foldlM (fun m b => execKernel tile c.nx c.ny b m) m = .ok n →
      ParKernels tile c.nx c.ny bs m n := by
    intro bs
    induction bs with
    | nil => exact fun m n h => (Except.ok.inj h).symm
    | cons b bs ih =>
      intro m n h
      rw [List.foldlM_cons] at h
      cases e : execKernel tile c.nx c.ny b m with
      | error f => rw [e] at h; cases h
      | ok m1 =>
        rw [e, M.ok_bind] at h
        refine ⟨m1, ?_, ih m1 n h⟩
        unfold execKernel at e
        cases el : launch tile c.nx c.ny with
        | error f => rw [el] at e; cases e
        | ok ts =>
          rw [el, M.ok_bind] at e
          exact ⟨ts, el, parFor_of_exec e⟩
  unfold stepCuda at h
  cases e : (stepKernels c v t).foldlM (fun m b => execKernel tile c.nx c.ny b m) (stepArraysCuda (gridSize c.nx c.ny) m) with
  | error f => rw [e] at h; cases h
  | ok m1 =>
    rw [e, M.ok_bind] at h
    exact ⟨m1, aux _ _ _ e, (Except.ok.inj h).symm⟩

/-- A system that works reaches its end. -/
theorem works_reaches {μ α β : Type} {a : α} {b : β} {n : ℕ} {s : Proc μ α × List μ × Proc μ β} (h : Works a b n s) :
    Relation.ReflTransGen Net s (.done a, [], .done b) := by
  by_contra hc
  have next : ∀ s', Relation.ReflTransGen Net s s' → ∃ s'', Net s' s'' := by
    intro s' hs
    rcases h.progress s' hs with e | ⟨s'', e⟩
    · unfold Finished at e
      exact absurd (e ▸ hs) hc
    · cases e with
      | handover k x q => exact ⟨_, .handover k x q⟩
      | deliver k x ch q => exact ⟨_, .deliver k x ch q⟩
  let step : {s' // Relation.ReflTransGen Net s s'} → {s' // Relation.ReflTransGen Net s s'} := fun x =>
    ⟨(next x.1 x.2).choose, x.2.tail (next x.1 x.2).choose_spec⟩
  let run : ℕ → {s' // Relation.ReflTransGen Net s s'} := fun k => step^[k] ⟨s, .refl⟩
  have := h.terminates (fun k => (run k).1) (n + 1) rfl fun i _ => by
    simp only [run, Function.iterate_succ_apply']
    exact (next _ (step^[i] ⟨s, .refl⟩).2).choose_spec
  omega

end runs

/-! ## Instances -/

/-- Four by four nodes, one step. -/
def squareD : Setting F64 :=
  ⟨0, 1, 4, 0, 1, 4, F64.round false (1 / 8), F64.round false (1 / 8), 1, 1, ⟨"SuperConsistent", "RK3"⟩⟩

/-- A flow out of the square. -/
def outflowD : Vel F64 :=
  ⟨fun x _ _ => x - F64.round false (1 / 2), fun _ y _ => y - F64.round false (1 / 2), fun _ _ _ => 1, fun _ _ _ => 0, fun _ _ _ => 0,
    fun _ _ _ => 1⟩

/-- Whether a run ends without a fault. -/
def ends {α : Type} : M α → Bool
  | .ok _ => true
  | .error _ => false

theorem ends_iff {α : Type} (r : M α) : ends r = true ↔ ∃ a, r = .ok a := by
  cases r with
  | ok a => exact ⟨fun _ => ⟨a, rfl⟩, fun _ => rfl⟩
  | error f => exact ⟨fun h => by simp [ends] at h, fun ⟨a, h⟩ => by cases h⟩

/-- Runs of programs in doubles that exist. -/
theorem squareD_ends : (∃ m, mainOld squareD outflowD flat = .ok m) ∧ (∃ r, mainCuda 2 (fun a _ => a) squareD outflowD flat flat = .ok r) ∧
    (∃ r, (setup squareD flat >>= fun m => stepOpenMP squareD outflowD squareD.dx squareD.dy 0 m) = .ok r) ∧
    (∃ r, (setupCuda 2 (fun a _ => a) squareD flat flat >>= fun s => stepCuda 2 squareD outflowD 0 s.dev) = .ok r) ∧
    stepCount squareD = .ok 1 ∧ ∃ s, mpiMain squareD outflowD flat 2 = .ok s := by
  refine ⟨(ends_iff _).1 ?_, (ends_iff _).1 ?_, (ends_iff _).1 ?_, (ends_iff _).1 ?_, ?_, (ends_iff _).1 ?_⟩ <;> decide +kernel

/-- Instance of `C112_programs`: the serial and the OpenMP program as they are, with any velocity and any initial level set, end for it and for its
opposite, with opposite results. -/
theorem C112_inst (v : Vel F64) (f : Initial F64) :
    (∃ r r', mainSerial asShipped v f = .ok r ∧ mainSerial asShipped v (negInitial f) = .ok r' ∧ RanRel Opp r r') ∧
    ∃ r r', mainOpenMP 2 asShipped v f = .ok r ∧ mainOpenMP 2 asShipped v (negInitial f) = .ok r' ∧ RanRel Opp r r' := by
  have hone : ∃ b hb, (1 : F64) = .fin false b hb ∧ (2 : ℚ) ^ (-900 : ℤ) ≤ b ∧ b ≤ 2 ^ 1000 :=
    ⟨1, _, one_fin, zpow_le_one_of_nonpos₀ (by norm_num) (by norm_num), one_le_pow₀ (by norm_num)⟩
  have h : FromZero asShipped := ⟨by decide, by decide, by decide, by decide, rfl, rfl, hone, hone⟩
  have hn : stepCount asShipped = .ok 256 := by decide +kernel
  have key := C112_programs asShipped v (C112_negate f) (C112_negate f)
  constructor
  · obtain ⟨m, o, e⟩ := C83_serial_partial h v f hn (.inr (by decide))
    have := key.serial
    rw [e] at this
    generalize hy : mainSerial asShipped v (negInitial f) = y at this
    cases this with
    | ok h => exact ⟨_, _, e, rfl, h⟩
  · obtain ⟨m, o, e⟩ := (C83_openmp_partial h v f).1 2 256 le_rfl hn (.inr (by decide))
    have := key.openmp 2
    rw [e] at this
    generalize hy : mainOpenMP 2 asShipped v (negInitial f) = y at this
    cases this with
    | ok h => exact ⟨_, _, e, rfl, h⟩

/-- Instance of `C112_programs` for the other programs: runs in doubles of the first serial program, of the CUDA program, of steps by several threads,
and of both ranks to their ends, each with its opposite. -/
theorem C112_inst_others : (∃ m m', mainOld squareD outflowD flat = .ok m ∧ mainOld squareD outflowD (negInitial flat) = .ok m' ∧
      MemRel (LocRel Opp) m m') ∧
    (∃ r r', mainCuda 2 (fun a _ => a) squareD outflowD flat flat = .ok r ∧
      mainCuda 2 (fun a _ => a) squareD outflowD (negInitial flat) (negInitial flat) = .ok r' ∧ OutRel Opp r.2 r'.2) ∧
    (∃ m n, setup squareD flat = .ok m ∧ OmpStep ParFor squareD outflowD squareD.dx squareD.dy 0 m n ∧
      ∀ m', MemRel (LocRel Opp) m m' → ∃ n', OmpStep ParFor squareD outflowD squareD.dx squareD.dy 0 m' n' ∧ MemRel (LocRel Opp) n n') ∧
    (∃ s n, setupCuda 2 (fun a _ => a) squareD flat flat = .ok s ∧ CudaStep 2 squareD outflowD 0 s.dev n ∧
      ∀ m', MemRel (LocRel Opp) s.dev m' → ∃ n', CudaStep 2 squareD outflowD 0 m' n' ∧ MemRel (LocRel Opp) n n') ∧
    ∃ s s' a b a' b', mpiMain squareD outflowD flat 2 = .ok s ∧ mpiMain squareD outflowD (negInitial flat) 2 = .ok s' ∧
      Relation.ReflTransGen Net s (.done a, [], .done b) ∧ Relation.ReflTransGen Net s' (.done a', [], .done b') ∧
      Same (RanRel Opp) a a' ∧ Same (MemRel (LocRel Opp)) b b' := by
  have key := C112_programs squareD outflowD (C112_negate flat) (C112_negate flat)
  obtain ⟨⟨m, e1⟩, ⟨r, e2⟩, ⟨n, e3⟩, ⟨n', e4⟩, hn, ⟨s, e5⟩⟩ := squareD_ends
  refine ⟨?_, ?_, ?_, ?_, ?_⟩
  · have := key.old
    rw [e1] at this
    generalize hy : mainOld squareD outflowD (negInitial flat) = y at this
    cases this with
    | ok h => exact ⟨_, _, e1, rfl, h⟩
  · have := key.cuda 2 (fun a _ => a) (by decide)
    rw [e2] at this
    generalize hy : mainCuda 2 (fun a _ => a) squareD outflowD (negInitial flat) (negInitial flat) = y at this
    cases this with
    | ok h => exact ⟨_, _, e2, rfl, h.2⟩
  · cases hm : setup squareD flat with
    | error f => rw [hm] at e3; cases e3
    | ok m =>
      rw [hm, M.ok_bind] at e3
      exact ⟨m, n, rfl, ompStep_of_step e3, fun m' h => key.threads 0 _ _ _ h (ompStep_of_step e3)⟩
  · cases hm : setupCuda 2 (fun a _ => a) squareD flat flat with
    | error f => rw [hm] at e4; cases e4
    | ok s =>
      rw [hm, M.ok_bind] at e4
      exact ⟨s, n', rfl, cudaStep_of_step e4, fun m' h => key.kernels 2 0 _ _ _ h (cudaStep_of_step e4)⟩
  · have hr : ∃ a b, Relation.ReflTransGen Net s (.done a, [], .done b) := by
      unfold mpiMain at e5
      rw [hn, M.ok_bind] at e5
      cases hm : setup squareD flat with
      | error f => rw [hm] at e5; cases e5
      | ok m =>
        simp only [hm, M.ok_bind] at e5
        cases ho : fileprint outflowD squareD.nx squareD.ny 0 m .none with
        | error f => rw [ho] at e5; cases e5
        | ok o =>
          rw [ho, M.ok_bind] at e5
          obtain rfl := Except.ok.inj e5
          exact ⟨_, _, works_reaches (C53_exchange squareD outflowD 2 _ (by decide) m _)⟩
    obtain ⟨a, b, hr⟩ := hr
    have := key.mpi 2
    rw [e5] at this
    generalize hy : mpiMain squareD outflowD (negInitial flat) 2 = y at this
    cases this with
    | ok h =>
      obtain ⟨a', b', k1, k2, k3⟩ := h.2 _ _ _ hr
      exact ⟨_, _, a, b, a', b', e5, rfl, hr, k1, k2, k3⟩

/-- `x + 2 y` with its derivatives, and its multiple by minus three. -/
def tiltQ (k : ℚ) : Initial ℚ := ⟨fun x y => k * (x + 2 * y), fun _ _ => k, fun _ _ => k * 2, fun _ _ => 0⟩

/-- Instance of `C112_units`: six steps of the MPI program with threads, in exact arithmetic, with a level set and with its multiple. -/
theorem C112_units_inst : ∃ m m', HybridRun ParFor mpiC runV (tiltQ 1) 2 2 6 m ∧ HybridRun ParFor mpiC runV (tiltQ (-3)) 2 2 6 m' ∧
    MemRel (LocRel fun a b => b = -3 * a) m m' := by
  obtain ⟨m, ha, a, b, e1, e2, e3, hs⟩ := (C72_run mpiC_halved runV (tiltQ 1) (n := 6) (by decide) 2).2.2 rfl
  have hm : HybridRun ParFor mpiC runV (tiltQ 1) 2 2 6 m := by
    refine ⟨ha, a, b, e1, e2, e3, fun t ht => ?_⟩
    obtain ⟨ws, r, k1, k2, m1, s1, m2, s2, m3, m4, sx, sy, j1, j2, j3, j4, j5, j6, j7, j8, j9⟩ := hs t ht
    exact ⟨ws, r, k1, k2, m1, s1, m2, s2, m3, m4, sx, sy, j1, j2, j3, j4, j5, j6, j7, parFor_of_serial j8, j9⟩
  have hf : InitialRel (fun a b => b = -3 * a) (tiltQ 1) (tiltQ (-3)) :=
    ⟨fun x y => by simp only [tiltQ]; ring, fun x y => by simp only [tiltQ]; ring, fun x y => by simp only [tiltQ]; ring,
      fun x y => by simp only [tiltQ]; ring⟩
  obtain ⟨m', h1, h2⟩ := (C112_units (-3) mpiC runV hf hf).hybrid 2 2 6 m hm
  exact ⟨m, m', hm, h1, h2⟩

/-- Instance of `C113_openmp`: the program as it is, with any velocity, started from any level set and from one that is not a number everywhere. -/
theorem C113_inst (v : Vel F64) (f : Initial F64) : ∃ m o m' o', mainOpenMP 2 asShipped v f = .ok (m, o) ∧
    mainOpenMP 2 asShipped v ⟨fun _ _ => .nan, fun _ _ => .nan, fun _ _ => .nan, fun _ _ => .nan⟩ = .ok (m', o') ∧
    o.velx = o'.velx ∧ o.phi.length = o'.phi.length := by
  obtain ⟨-, r, -, e, -, -⟩ := C112_inst v f
  obtain ⟨r', e'⟩ := (C113_openmp 2 asShipped v f ⟨fun _ _ => .nan, fun _ _ => .nan, fun _ _ => .nan, fun _ _ => .nan⟩).1.1 ⟨r, e⟩
  have := (C113_openmp 2 asShipped v f ⟨fun _ _ => .nan, fun _ _ => .nan, fun _ _ => .nan, fun _ _ => .nan⟩).2 r.1 r.2 r'.1 r'.2 e e'
  exact ⟨r.1, r.2, r'.1, r'.2, e, e', this.1, this.2.2.2.1⟩

end Gals.Props
