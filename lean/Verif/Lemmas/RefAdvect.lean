import Verif.Lemmas.RefRun
import Verif.Spec.Ref
import Mathlib.Tactic.Ring
import Mathlib.Tactic.FieldSimp

/-!
# Departure points in the reference code
-/

set_option linter.unusedSectionVars false

namespace Gals.Ref

variable {K : Type} [Field K] [CharZero K]

/-- The departure point of a node at step `t`. -/
def depart (v : Vel K) (rk3 : Bool) (t : ℕ) (dt : K) (x y : K) : K × K :=
  if rk3 then Spec.departRK3 v.velx v.vely dt (tm t dt) (tm t dt + dt / 2) (tm (uadd t 1) dt) x y
  else Spec.departEuler v.velx v.vely dt (tm (uadd t 1) dt) x y

theorem depart_eq (v : Vel K) (rk3 : Bool) {t : ℕ} (ht : t + 1 < uMod) (dt x y : K) :
    depart v rk3 t dt x y = Spec.departAt v.velx v.vely rk3 t dt x y := by
  simp only [depart, Spec.departAt, tm, uadd_eq ht, Nat.cast_add, Nat.cast_one,
    show (t : K) * dt + dt / 2 = ((t : K) + 1 / 2) * dt by ring]

/-- Memory after a body of an advection loop: the two departure coordinates are stored, nothing else changes. -/
structure Stored (m m' : Mem (Val K)) (i j : ℕ) (d : K × K) : Prop where
  x : m' (.d .xadv i j) = .val d.1
  y : m' (.d .yadv i j) = .val d.2
  frame : ∀ l, l ≠ .d .xadv i j → l ≠ .d .yadv i j → m' l = m l

theorem stored_upd {m m0 : Mem (Val K)} {i j : ℕ} {d : K × K} {a b : K} (ha : a = d.1) (hb : b = d.2)
    (h : ∀ l, l ≠ .d .xadv i j → l ≠ .d .yadv i j → m0 l = m l) :
    Stored m ((m0.upd (.d .xadv i j) a).upd (.d .yadv i j) b) i j d where
  x := by rw [Mem.upd_other _ (by simp), Mem.upd_same, ha]
  y := by rw [Mem.upd_same, hb]
  frame l h1 h2 := by rw [Mem.upd_other _ h2, Mem.upd_other _ h1, h l h1 h2]

theorem advBodyMpi_wp (v : Vel K) (rk3 : Bool) (t : ℕ) (dt : K) {i j : ℕ} {m : Mem (Val K)} {x y : K}
    (hx : m (.d .x 0 j) = .val x) (hy : m (.d .y 0 i) = .val y) (ha : m (.d .xadv i j) ≠ .oob)
    (hb : m (.d .yadv i j) ≠ .oob) :
    (advBodyMpi v rk3 t dt i j).wp m fun _ m' => Stored m m' i j (depart v rk3 t dt x y) := by
  cases rk3
  · simp [advBodyMpi, Prog.wp_bind, Prog.wp_pure, wp_getD, wp_setD, hx, hy, ha, hb, Mem.upd_other]
    refine stored_upd ?_ ?_ fun l _ _ => rfl <;> simp only [depart, Spec.departEuler, Bool.false_eq_true, if_false] <;> ring
  · simp [advBodyMpi, Prog.wp_bind, wp_getD, wp_setD, hx, hy, ha, hb, Mem.upd_other, Mem.upd_same]
    refine stored_upd ?_ ?_ fun l h1 h2 => by simp only [Mem.upd_other _ h1, Mem.upd_other _ h2]
    all_goals
      simp only [depart, Spec.departRK3, if_true]
      ring_nf

theorem advBody_wp (v : Vel K) (rk3 : Bool) (t : ℕ) (dt : K) {i j : ℕ} {m : Mem (Val K)} {x y : K}
    (hx : m (.d .x 0 j) = .val x) (hy : m (.d .y 0 i) = .val y) (ha : m (.d .xadv i j) ≠ .oob)
    (hb : m (.d .yadv i j) ≠ .oob) :
    (advBody v rk3 t dt i j).wp m fun _ m' => Stored m m' i j (depart v rk3 t dt x y) := by
  cases rk3
  · simp [advBody, Prog.wp_bind, Prog.wp_pure, wp_getD, wp_setD, hx, hy, ha, hb, Mem.upd_other]
    refine stored_upd ?_ ?_ fun l _ _ => rfl <;> simp only [depart, Spec.departEuler, Bool.false_eq_true, if_false] <;> ring
  · simp [advBody, Prog.wp_bind, wp_getD, wp_setD, hx, hy, ha, hb, Mem.upd_other, Mem.upd_same]
    refine stored_upd ?_ ?_ fun l h1 h2 => by simp only [Mem.upd_other _ h1, Mem.upd_other _ h2]
    all_goals
      simp only [depart, Spec.departRK3, if_true]
      ring_nf

theorem advCuda_wp (v : Vel K) (t : ℕ) (dt : K) {nx ix iy : ℕ} {m : Mem (Val K)} {x y : K}
    (hx : m (.d .x 0 ix) = .val x) (hy : m (.d .y 0 iy) = .val y) (ha : m (.d .xadv 0 (indexW nx ix iy)) ≠ .oob)
    (hb : m (.d .yadv 0 (indexW nx ix iy)) ≠ .oob) :
    (advCuda v t dt nx ix iy).wp m fun _ m' => Stored m m' 0 (indexW nx ix iy) (depart v true t dt x y) := by
  simp [advCuda, Prog.wp_bind, wp_getD, wp_setD, hx, hy, ha, hb, Mem.upd_other, Mem.upd_same]
  refine stored_upd ?_ ?_ fun l h1 h2 => by simp only [Mem.upd_other _ h1, Mem.upd_other _ h2]
  all_goals
    simp only [depart, Spec.departRK3, if_true]
    ring_nf

/-! ## Footprints -/

/-- The node whose iteration writes the location in the CPU advection loops. -/
def advOwner : Loc → Option (ℕ × ℕ)
  | .d .xadv i j => some (i, j)
  | .d .yadv i j => some (i, j)
  | _ => none

theorem advBodyMpi_owned (v : Vel K) (rk3 : Bool) (t : ℕ) (dt : K) (i j : ℕ) :
    Owned advOwner (i, j) (advBodyMpi v rk3 t dt i j) := by
  unfold Owned advBodyMpi
  cases rk3 <;> simp [getD, setD, Prog.get, Prog.set, Prog.bind, Prog.Fits, advOwner]

theorem advBody_owned (v : Vel K) (rk3 : Bool) (t : ℕ) (dt : K) (i j : ℕ) :
    Owned advOwner (i, j) (advBody v rk3 t dt i j) := by
  unfold Owned advBody
  cases rk3 <;> simp [getD, setD, Prog.get, Prog.set, Prog.bind, Prog.Fits, advOwner]

theorem advCuda_owned (v : Vel K) (t : ℕ) (dt : K) (nx ix iy : ℕ) :
    Owned advOwner (0, indexW nx ix iy) (advCuda v t dt nx ix iy) := by
  unfold Owned advCuda
  simp [getD, setD, Prog.get, Prog.set, Prog.bind, Prog.Fits, advOwner]

end Gals.Ref
