import Verif.Model.RefTime
import Verif.Spec.Ref
import Verif.Lemmas.RefAdvect

/-!
# C55: the two-stage gradient update of the reference code
-/

set_option linter.unusedSectionVars false
set_option linter.unusedSimpArgs false

namespace Gals.Props

open Gals Gals.Ref

variable {K : Type} [Field K] [CharZero K]

/-- What C55 asks for: the Heun step with the velocity gradient at the departure point at the old time and at the node at
the new time. -/
def heunSpec (v : Vel K) (xnode ynode xadv yadv qx qy : K) (t : ℕ) (dt : K) : K × K :=
  let t0 := (t : K) * dt
  let t1 := ((t : K) + 1) * dt
  Spec.heunGradient dt (v.gradUx xadv yadv t0) (v.gradUy xadv yadv t0) (v.gradVx xadv yadv t0) (v.gradVy xadv yadv t0)
    (v.gradUx xnode ynode t1) (v.gradUy xnode ynode t1) (v.gradVx xnode ynode t1) (v.gradVy xnode ynode t1) qx qy

/-- The `x` slopes of the two stages. -/
def heunSlopes (v : Vel K) (xnode ynode xadv yadv qx qy : K) (t : ℕ) (dt : K) : K × K :=
  let t0 := (t : K) * dt
  let t1 := ((t : K) + 1) * dt
  let sx := v.gradUx xadv yadv t0 * qx + v.gradVx xadv yadv t0 * qy
  let sy := v.gradUy xadv yadv t0 * qx + v.gradVy xadv yadv t0 * qy
  (sx, v.gradUx xnode ynode t1 * (qx - dt * sx) + v.gradVx xnode ynode t1 * (qy - dt * sy))

/-- C55, partial: the first component is that of the Heun step; the second is off by
`dt² / 4 * u_y(node) * (s0 - s1)`, where `s0`, `s1` are the `x` slopes of the two stages, because line 27 uses the corrected
`temppsix` instead of the predicted one.  Missing: that the second component uses the predicted one, which is false
(`C55_false`). -/
theorem C55_partial (v : Vel K) (xnode ynode xadv yadv qx qy : K) {t : ℕ} (ht : t + 1 < uMod) (dt : K) :
    let r := heunsInternal v xnode ynode xadv yadv qx qy t dt
    let e := heunSpec v xnode ynode xadv yadv qx qy t dt
    let s := heunSlopes v xnode ynode xadv yadv qx qy t dt
    r.1 = e.1 ∧ r.2 = e.2 - dt ^ 2 / 4 * v.gradUy xnode ynode ((t + 1) * dt) * (s.1 - s.2) := by
  have et : tm (uadd t 1) dt = ((t : K) + 1) * dt := by
    rw [tm, uadd_eq (by omega)]; push_cast; ring
  have e0 : tm t dt = (t : K) * dt := rfl
  simp only [heunsInternal, heunSpec, heunSlopes, Spec.heunGradient, et, e0]
  constructor <;> ring

/-- C55 holds exactly when `dt`, `u_y` at the node or the difference of the slopes is zero; so the order of assignments is
harmless for a velocity whose first component does not depend on `y`. -/
theorem C55_iff (v : Vel K) (xnode ynode xadv yadv qx qy : K) {t : ℕ} (ht : t + 1 < uMod) (dt : K) :
    heunsInternal v xnode ynode xadv yadv qx qy t dt = heunSpec v xnode ynode xadv yadv qx qy t dt ↔
      dt = 0 ∨ v.gradUy xnode ynode ((t + 1) * dt) = 0 ∨
        (heunSlopes v xnode ynode xadv yadv qx qy t dt).1 = (heunSlopes v xnode ynode xadv yadv qx qy t dt).2 := by
  obtain ⟨h1, h2⟩ := C55_partial v xnode ynode xadv yadv qx qy ht dt
  rw [Prod.ext_iff]
  constructor
  · rintro ⟨-, h⟩
    rw [h2, sub_eq_self, mul_eq_zero, mul_eq_zero, div_eq_zero_iff, sub_eq_zero] at h
    simpa [or_assoc] using h
  · intro h
    refine ⟨h1, ?_⟩
    rw [h2, sub_eq_self, mul_eq_zero, mul_eq_zero, div_eq_zero_iff, sub_eq_zero]
    simpa [or_assoc] using h

/-- The linear shear flow `(y, x)` with its gradient. -/
def demoShear : Vel ℚ := ⟨fun _ y _ => y, fun x _ _ => x, fun _ _ _ => 0, fun _ _ _ => 1, fun _ _ _ => 1, fun _ _ _ => 0⟩

/-- C55 is false: for the flow `(y, x)`, gradient (1, 1) and `dt = 1/2` the code gives the second component 19/32 instead of
5/8. -/
theorem C55_false : (heunsInternal demoShear 0 0 0 0 1 1 0 (1 / 2)).2 = 19 / 32 ∧
    (heunSpec demoShear 0 0 0 0 1 1 0 (1 / 2)).2 = (5 / 8 : ℚ) := by
  constructor
  · simp [heunsInternal, demoShear]; norm_num
  · simp [heunSpec, Spec.heunGradient, demoShear]; norm_num

/-- The hypothesis of `C55_partial` and `C55_iff` is satisfiable; here the two slopes are equal to 1 and 1/2. -/
example : ¬ heunsInternal demoShear 0 0 0 0 1 1 0 (1 / 2) = heunSpec demoShear 0 0 0 0 1 1 0 (1 / 2) := by
  rw [C55_iff demoShear 0 0 0 0 1 1 (t := 0) (by decide)]
  simp [heunSlopes, demoShear]
  norm_num

/-- A flow to which the order of assignments does not matter: `u` independent of `y`. -/
example (x y p q a b dt : ℚ) {t : ℕ} (ht : t + 1 < uMod) :
    let v : Vel ℚ := ⟨fun x _ _ => x, fun x y _ => x - y, fun _ _ _ => 1, fun _ _ _ => 0, fun _ _ _ => 1, fun _ _ _ => -1⟩
    heunsInternal v x y p q a b t dt = heunSpec v x y p q a b t dt :=
  (C55_iff _ x y p q a b ht dt).2 (.inr (.inl rfl))

end Gals.Props
