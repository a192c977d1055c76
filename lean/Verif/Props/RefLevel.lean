import Verif.Spec.RefLevel
import Verif.Props.RefExact
import Verif.Props.RefOldRun

/-!
# C124: the reference programs treat all levels alike
-/

namespace Gals.Props

open Gals Gals.Ref

variable {K : Type} [Field K] [LinearOrder K] [IsStrictOrderedRing K]

omit [LinearOrder K] [IsStrictOrderedRing K] in
theorem levels_init {k a : K} {f f' : Initial K} (h : Spec.InitialLevels k a f f') : f' = combineInit k (constInit a) f := by
  obtain ⟨h1, h2, h3, h4⟩ := h
  obtain ⟨p, x, y, xy⟩ := f'
  simp only [combineInit, constInit, Initial.mk.injEq]
  refine ⟨?_, ?_, ?_, ?_⟩ <;> funext u v
  · rw [add_comm]; exact h1 u v
  · rw [zero_add]; exact h2 u v
  · rw [zero_add]; exact h3 u v
  · rw [zero_add]; exact h4 u v

omit [LinearOrder K] [IsStrictOrderedRing K] in
theorem combine_level (k a : K) (F : Spec.Fields K) : Spec.combine k (constFields a) F = F.level k a := by
  simp only [Spec.combine, constFields, Spec.Fields.level, zero_add, Spec.Fields.mk.injEq, and_true]
  funext i j
  rw [add_comm]

theorem fieldsAt_level {c : Setting K} (hc : Valid c) (v : Vel K) {k a : K} {f f' : Initial K} (h : Spec.InitialLevels k a f f')
    (dep : ℕ → ℕ → ℕ → K × K) (t : ℕ) : fieldsAt c v f' dep t = (fieldsAt c v f dep t).level k a := by
  rw [levels_init h, fieldsAt_combine, fieldsAt_const hc, combine_level]

section runs
variable [FloorRing K] {c : Setting K} {n : ℕ}

/-- **C124**, OpenMP program run by one thread, exact arithmetic: the second initial level set is `k` times the first plus `a`, for any `k` and `a`.
Both runs end; the fields of the second are `k` times those of the first plus `a`, and so are the fields in all frames written. -/
theorem C124_openmp (hc : Valid c) (v : Vel K) (f f' : Initial K) (k a : K) (h : Spec.InitialLevels k a f f') (hdt : c.dt ≠ 0)
    (hn : Spec.Truncated (c.tfinal / c.dt) n) (hnu : n < uMod) (hp : 1 ≤ printStep c n ∨ n = 0) {argc : ℕ} (ha : 2 ≤ argc) :
    ∃ (m m' : Mem (Val K)) (o o' : Out K) (F : ℕ → Spec.Fields K), mainOpenMP argc c v f = .ok (m, o) ∧ mainOpenMP argc c v f' = .ok (m', o') ∧
      Ready m c.nx c.ny (posX c) (posY c) (F n) ∧ Written c v F n (printStep c n) o ∧
      Ready m' c.nx c.ny (posX c) (posY c) ((F n).level k a) ∧ Written c v (fun t => (F t).level k a) n (printStep c n) o' := by
  obtain ⟨m, o, e, r, w⟩ := C54_openmp hc v f hdt hn hnu hp ha
  obtain ⟨m', o', e', r', w'⟩ := C54_openmp hc v f' hdt hn hnu hp ha
  rw [funext (fieldsAt_level hc v h (departs c v))] at r' w'
  exact ⟨m, m', o, o', _, e, e', r, w, r', w'⟩

/-- **C124**, serial program. -/
theorem C124_serial (hc : Valid c) (v : Vel K) (f f' : Initial K) (k a : K) (h : Spec.InitialLevels k a f f') (hdt : c.dt ≠ 0)
    (hn : Spec.Truncated (c.tfinal / c.dt) n) (hnu : n < uMod) (hp : 1 ≤ printStep c n ∨ n = 0) :
    ∃ (m m' : Mem (Val K)) (o o' : Out K) (F : ℕ → Spec.Fields K), mainSerial c v f = .ok (m, o) ∧ mainSerial c v f' = .ok (m', o') ∧
      Ready m c.nx c.ny (posX c) (posY c) (F n) ∧ Written c v F n (printStep c n) o ∧
      Ready m' c.nx c.ny (posX c) (posY c) ((F n).level k a) ∧ Written c v (fun t => (F t).level k a) n (printStep c n) o' := by
  obtain ⟨m, o, e, r, w⟩ := C54_serial hc v f hdt hn hnu hp
  obtain ⟨m', o', e', r', w'⟩ := C54_serial hc v f' hdt hn hnu hp
  rw [funext (fieldsAt_level hc v h (departsSerial c v))] at r' w'
  exact ⟨m, m', o, o', _, e, e', r, w, r', w'⟩

/-- **C124**, CUDA program without a node that departs outside along both axes: the fields on the device, whatever the host starts from. -/
theorem C124_cuda {tile : ℕ} (hc : CudaValid tile c) {splice : K → K → K} (hs : ∀ a b c, splice a (splice b c) = splice a c)
    (v : Vel K) (i f f' : Initial K) (k a : K) (h : Spec.InitialLevels k a f f') (hdt : c.dt ≠ 0) (hn : Spec.Truncated (c.tfinal / c.dt) n)
    (hnu : n < uMod) (hp : 1 ≤ printStep c n ∨ n = 0) (h4 : ∀ t < n, ∀ i < c.ny, ∀ j < c.nx, departClass c v t i j ≠ 4) :
    ∃ (s s' : Machine K) (o o' : Out K) (F : Spec.Fields K), mainCuda tile splice c v i f = .ok (s, o) ∧
      mainCuda tile splice c v i f' = .ok (s', o') ∧ CudaReady s.dev c F ∧ CudaReady s'.dev c (F.level k a) := by
  obtain ⟨s, o, e, r, -⟩ := C64_frames_partial hc hs v i f hdt hn hnu hp h4
  obtain ⟨s', o', e', r', -⟩ := C64_frames_partial hc hs v i f' hdt hn hnu hp h4
  rw [levels_init h, cudaFieldsAt_combine, cudaFieldsAt_const hc, combine_level] at r'
  exact ⟨s, s', o, o', _, e, e', r, r'⟩

/-- **C124**, first serial program, with departure points at most one cell away from the nodes and off the boundary. -/
theorem C124_old (hc : Valid c) (v : Vel K) (f f' : Initial K) (k a : K) (h : Spec.InitialLevels k a f f') (hdt : c.dt ≠ 0)
    (hn : Spec.Truncated (c.tfinal / c.dt) n) (hnu : n ≤ 2147483647) (hp : 1 ≤ printStep c n ∨ n = 0)
    (hk : ∀ t < n, Courant c v t ∧ OffWalls c v t) : ∃ (m m' : Mem (Val K)) (F : Spec.Fields K), mainOld c v f = .ok m ∧ mainOld c v f' = .ok m' ∧
      OldReady m c F ∧ OldReady m' c (F.level k a) := by
  obtain ⟨m, -, -, e, -, r, -⟩ := C67_run_partial hc v f hdt hn hnu hp hk
  obtain ⟨m', -, -, e', -, r', -⟩ := C67_run_partial hc v f' hdt hn hnu hp hk
  rw [fieldsAt_level hc v h] at r'
  exact ⟨m, m', _, e, e', r, r'⟩

end runs

/-! ## Instances -/

/-- The function `x y`, and `7 - 3 x y`. -/
def tilt : Initial ℚ := ⟨fun x y => x * y, fun _ y => y, fun x _ => x, fun _ _ => 1⟩

@[inherit_doc tilt] def tilt' : Initial ℚ := ⟨fun x y => 7 - 3 * (x * y), fun _ y => -3 * y, fun x _ => -3 * x, fun _ _ => -3⟩

theorem tilt_levels : Spec.InitialLevels (-3) 7 tilt tilt' :=
  ⟨fun x y => by simp only [tilt, tilt']; ring, fun _ _ => rfl, fun _ _ => rfl, fun _ _ => by norm_num [tilt, tilt']⟩

/-- Instance of `C124_openmp`: six steps. -/
theorem C124_openmp_inst : ∃ (m m' : Mem (Val ℚ)) (o o' : Out ℚ) (F : ℕ → Spec.Fields ℚ), mainOpenMP 2 runC runV tilt = .ok (m, o) ∧
    mainOpenMP 2 runC runV tilt' = .ok (m', o') ∧ Ready m runC.nx runC.ny (posX runC) (posY runC) (F 6) ∧ Written runC runV F 6 2 o ∧
    Ready m' runC.nx runC.ny (posX runC) (posY runC) ((F 6).level (-3) 7) ∧ Written runC runV (fun t => (F t).level (-3) 7) 6 2 o' :=
  C124_openmp ⟨by decide, by decide, by decide, by decide, by norm_num [runC], by norm_num [runC]⟩ runV tilt tilt' (-3) 7 tilt_levels
    (by norm_num [runC]) ⟨by norm_num [runC], by norm_num [runC]⟩ (by decide) (.inl (by decide)) le_rfl

/-- Instance of `C124_serial`. -/
theorem C124_serial_inst : ∃ (m m' : Mem (Val ℚ)) (o o' : Out ℚ) (F : ℕ → Spec.Fields ℚ), mainSerial runC runV tilt = .ok (m, o) ∧
    mainSerial runC runV tilt' = .ok (m', o') ∧ Ready m runC.nx runC.ny (posX runC) (posY runC) (F 6) ∧ Written runC runV F 6 2 o ∧
    Ready m' runC.nx runC.ny (posX runC) (posY runC) ((F 6).level (-3) 7) ∧ Written runC runV (fun t => (F t).level (-3) 7) 6 2 o' :=
  C124_serial ⟨by decide, by decide, by decide, by decide, by norm_num [runC], by norm_num [runC]⟩ runV tilt tilt' (-3) 7 tilt_levels
    (by norm_num [runC]) ⟨by norm_num [runC], by norm_num [runC]⟩ (by decide) (.inl (by decide))

/-- Instance of `C124_cuda`, with the splice that takes the second number. -/
theorem C124_cuda_inst : ∃ (s s' : Machine ℚ) (o o' : Out ℚ) (F : Spec.Fields ℚ),
    mainCuda 2 (fun _ b => b) cudaC cudaV cudaI tilt = .ok (s, o) ∧ mainCuda 2 (fun _ b => b) cudaC cudaV cudaI tilt' = .ok (s', o') ∧
    CudaReady s.dev cudaC F ∧ CudaReady s'.dev cudaC (F.level (-3) 7) :=
  C124_cuda cudaC_valid (fun _ _ _ => rfl) cudaV cudaI tilt tilt' (-3) 7 tilt_levels cudaC_count.2.1 cudaC_count.1 (by decide)
    (.inl cudaC_count.2.2) cudaC_inside

/-- Instance of `C124_old`: two steps of a quarter and an eighth of a cell. -/
theorem C124_old_inst : ∃ (m m' : Mem (Val ℚ)) (F : Spec.Fields ℚ), mainOld oldC oldV tilt = .ok m ∧ mainOld oldC oldV tilt' = .ok m' ∧
    OldReady m oldC F ∧ OldReady m' oldC (F.level (-3) 7) := by
  refine C124_old oldC_valid oldV tilt tilt' (-3) 7 tilt_levels (n := 2) (by norm_num [oldC]) ⟨by norm_num [oldC], by norm_num [oldC]⟩ (by norm_num)
    (.inl (by decide)) fun t _ => ⟨fun a ha b hb => ?_, fun a ha b hb => ?_⟩
  · rw [oldC_departs, oldC_valid.dx_eq, oldC_valid.dy_eq]
    constructor <;> constructor <;> norm_num [oldC] <;> linarith
  · have ha : a < 3 := ha
    have hb : b < 3 := hb
    rw [oldC_departs]
    interval_cases a <;> interval_cases b <;> norm_num [posX, posY, oldC]

end Gals.Props
