import Verif.Model.Hermite
import Verif.Spec.Poly
import Mathlib.Algebra.Field.Basic
import Mathlib.Tactic.FieldSimp
import Mathlib.Tactic.LinearCombination
import Mathlib.Tactic.Ring

/-!
# Algebra of the Hermite kernels
-/

namespace Gals

open Spec

variable {K : Type} [Field K] [LinearOrder K]

/-- One-dimensional Hermite functional with weights `b`: values `v`, derivatives `e` at the two ends. -/
def T1 (b : List K) (h v0 e0 v1 e1 : K) : K :=
  match b with
  | [b0, b1, b2, b3] => b0 * v0 + b1 * (v0 + e0 * h * (1 / 3)) + b2 * (v1 - e1 * h * (1 / 3)) + b3 * v1
  | _ => 0

omit [LinearOrder K] in
theorem T1_four (b0 b1 b2 b3 h v0 e0 v1 e1 : K) : T1 [b0, b1, b2, b3] h v0 e0 v1 e1 =
    b0 * v0 + b1 * (v0 + e0 * h * (1 / 3)) + b2 * (v1 - e1 * h * (1 / 3)) + b3 * v1 := rfl

omit [LinearOrder K] in
/-- Exactness of the functional on cubics. -/
theorem T1_basis [CharZero K] (a : Fin 4 → K) (x0 h η : K) :
    T1 (basis η) h (cubic a x0) (cubic' a x0) (cubic a (x0 + h)) (cubic' a (x0 + h)) = cubic a (x0 + η * h) := by
  simp only [basis, T1_four, B0, B1, B2, B3, cube, sqr, cubic, cubic']
  field_simp
  ring

omit [LinearOrder K] in
theorem T1_basis' [CharZero K] (a : Fin 4 → K) (x0 h η : K) (hh : h ≠ 0) :
    T1 (basis' η) h (cubic a x0) (cubic' a x0) (cubic a (x0 + h)) (cubic' a (x0 + h)) * (1 / h)
      = cubic' a (x0 + η * h) := by
  simp only [basis', T1_four, B0', B1', B2', B3', sqr, cubic, cubic']
  field_simp
  ring

/-- 1D kernel without limiting. -/
theorem kernel1_eq (dx inv eta : K) (n0 n1 : Node1 K) :
    kernel1 dx inv eta n0 n1 false = ⟨T1 (basis eta) dx n0.phi n0.psi.x n1.phi n1.psi.x,
      ⟨T1 (basis' eta) dx n0.phi n0.psi.x n1.phi n1.psi.x * inv, 0, 0⟩⟩ := by
  simp only [kernel1, getControlPoints, basis, basis', T1_four, oneThird]
  simp only [Bool.false_eq_true, if_false]
  congr 1
  · ring
  · congr 1; ring

/-- Tensor form of the 16-term sum. -/
theorem accum2 (bx0 bx1 bx2 bx3 by0 by1 by2 by3 : K) (dx : Vec3 K) (n00 n10 n01 n11 : Node2 K) :
    accum (weights2 [bx0, bx1, bx2, bx3] [by0, by1, by2, by3]) (controls2 dx n00 n10 n01 n11 false) =
      T1 [bx0, bx1, bx2, bx3] dx.x
        (T1 [by0, by1, by2, by3] dx.y n00.phi n00.psi.y n01.phi n01.psi.y)
        (T1 [by0, by1, by2, by3] dx.y n00.psi.x n00.xy n01.psi.x n01.xy)
        (T1 [by0, by1, by2, by3] dx.y n10.phi n10.psi.y n11.phi n11.psi.y)
        (T1 [by0, by1, by2, by3] dx.y n10.psi.x n10.xy n11.psi.x n11.xy) := by
  simp only [accum, weights2, controls2, getControlPoints, T1_four, oneThird, Bool.false_eq_true, if_false,
    List.flatMap_cons, List.flatMap_nil, List.map_cons, List.map_nil, List.cons_append, List.nil_append,
    List.zip_cons_cons, List.zip_nil_right, List.foldl_cons, List.foldl_nil]
  ring

/-- Tensor form of the 64-term sum. -/
theorem accum3 (bx0 bx1 bx2 bx3 by0 by1 by2 by3 bz0 bz1 bz2 bz3 : K) (dx : Vec3 K)
    (n000 n100 n010 n001 n110 n011 n101 n111 : Node3 K) :
    accum (weights3 [bx0, bx1, bx2, bx3] [by0, by1, by2, by3] [bz0, bz1, bz2, bz3])
        (controls3 dx n000 n100 n010 n001 n110 n011 n101 n111 false) =
      T1 [bx0, bx1, bx2, bx3] dx.x
        (T1 [by0, by1, by2, by3] dx.y
          (T1 [bz0, bz1, bz2, bz3] dx.z n000.phi n000.psi.z n001.phi n001.psi.z)
          (T1 [bz0, bz1, bz2, bz3] dx.z n000.psi.y n000.yz n001.psi.y n001.yz)
          (T1 [bz0, bz1, bz2, bz3] dx.z n010.phi n010.psi.z n011.phi n011.psi.z)
          (T1 [bz0, bz1, bz2, bz3] dx.z n010.psi.y n010.yz n011.psi.y n011.yz))
        (T1 [by0, by1, by2, by3] dx.y
          (T1 [bz0, bz1, bz2, bz3] dx.z n000.psi.x n000.zx n001.psi.x n001.zx)
          (T1 [bz0, bz1, bz2, bz3] dx.z n000.xy n000.xyz n001.xy n001.xyz)
          (T1 [bz0, bz1, bz2, bz3] dx.z n010.psi.x n010.zx n011.psi.x n011.zx)
          (T1 [bz0, bz1, bz2, bz3] dx.z n010.xy n010.xyz n011.xy n011.xyz))
        (T1 [by0, by1, by2, by3] dx.y
          (T1 [bz0, bz1, bz2, bz3] dx.z n100.phi n100.psi.z n101.phi n101.psi.z)
          (T1 [bz0, bz1, bz2, bz3] dx.z n100.psi.y n100.yz n101.psi.y n101.yz)
          (T1 [bz0, bz1, bz2, bz3] dx.z n110.phi n110.psi.z n111.phi n111.psi.z)
          (T1 [bz0, bz1, bz2, bz3] dx.z n110.psi.y n110.yz n111.psi.y n111.yz))
        (T1 [by0, by1, by2, by3] dx.y
          (T1 [bz0, bz1, bz2, bz3] dx.z n100.psi.x n100.zx n101.psi.x n101.zx)
          (T1 [bz0, bz1, bz2, bz3] dx.z n100.xy n100.xyz n101.xy n101.xyz)
          (T1 [bz0, bz1, bz2, bz3] dx.z n110.psi.x n110.zx n111.psi.x n111.zx)
          (T1 [bz0, bz1, bz2, bz3] dx.z n110.xy n110.xyz n111.xy n111.xyz)) := by
  simp only [accum, weights3, controls3, getControlPoints, T1_four, oneThird, Bool.false_eq_true, if_false,
    List.flatMap_cons, List.flatMap_nil, List.map_cons, List.map_nil, List.cons_append, List.nil_append,
    List.append_nil,
    List.zip_cons_cons, List.zip_nil_right, List.foldl_cons, List.foldl_nil]
  ring

theorem kernel2_eq (dx inv eta : Vec3 K) (n00 n10 n01 n11 : Node2 K) :
    kernel2 dx inv eta n00 n10 n01 n11 false =
      let S (bx by' : List K) : K := T1 bx dx.x
        (T1 by' dx.y n00.phi n00.psi.y n01.phi n01.psi.y) (T1 by' dx.y n00.psi.x n00.xy n01.psi.x n01.xy)
        (T1 by' dx.y n10.phi n10.psi.y n11.phi n11.psi.y) (T1 by' dx.y n10.psi.x n10.xy n11.psi.x n11.xy)
      ⟨S (basis eta.x) (basis eta.y),
        ⟨S (basis' eta.x) (basis eta.y) * inv.x, S (basis eta.x) (basis' eta.y) * inv.y, 0⟩⟩ := by
  simp only [kernel2, basis, basis', accum2]

theorem kernel3_eq (dx inv eta : Vec3 K) (n000 n100 n010 n001 n110 n011 n101 n111 : Node3 K) :
    kernel3 dx inv eta n000 n100 n010 n001 n110 n011 n101 n111 false =
      let S (bx by' bz : List K) : K := T1 bx dx.x
        (T1 by' dx.y
          (T1 bz dx.z n000.phi n000.psi.z n001.phi n001.psi.z) (T1 bz dx.z n000.psi.y n000.yz n001.psi.y n001.yz)
          (T1 bz dx.z n010.phi n010.psi.z n011.phi n011.psi.z) (T1 bz dx.z n010.psi.y n010.yz n011.psi.y n011.yz))
        (T1 by' dx.y
          (T1 bz dx.z n000.psi.x n000.zx n001.psi.x n001.zx) (T1 bz dx.z n000.xy n000.xyz n001.xy n001.xyz)
          (T1 bz dx.z n010.psi.x n010.zx n011.psi.x n011.zx) (T1 bz dx.z n010.xy n010.xyz n011.xy n011.xyz))
        (T1 by' dx.y
          (T1 bz dx.z n100.phi n100.psi.z n101.phi n101.psi.z) (T1 bz dx.z n100.psi.y n100.yz n101.psi.y n101.yz)
          (T1 bz dx.z n110.phi n110.psi.z n111.phi n111.psi.z) (T1 bz dx.z n110.psi.y n110.yz n111.psi.y n111.yz))
        (T1 by' dx.y
          (T1 bz dx.z n100.psi.x n100.zx n101.psi.x n101.zx) (T1 bz dx.z n100.xy n100.xyz n101.xy n101.xyz)
          (T1 bz dx.z n110.psi.x n110.zx n111.psi.x n111.zx) (T1 bz dx.z n110.xy n110.xyz n111.xy n111.xyz))
      ⟨S (basis eta.x) (basis eta.y) (basis eta.z),
        ⟨S (basis' eta.x) (basis eta.y) (basis eta.z) * inv.x, S (basis eta.x) (basis' eta.y) (basis eta.z) * inv.y,
          S (basis eta.x) (basis eta.y) (basis' eta.z) * inv.z⟩⟩ := by
  simp only [kernel3, basis, basis', accum3]

omit [LinearOrder K] in
theorem T1_cubic (b : List K) (h : K) (v0 e0 v1 e1 : Fin 4 → K) (x : K) :
    T1 b h (cubic v0 x) (cubic e0 x) (cubic v1 x) (cubic e1 x)
      = cubic (fun i => T1 b h (v0 i) (e0 i) (v1 i) (e1 i)) x := by
  unfold T1
  split
  · simp only [cubic]; ring
  · simp [cubic]

omit [LinearOrder K] in
theorem T1_cubic' (b : List K) (h : K) (v0 e0 v1 e1 : Fin 4 → K) (x : K) :
    T1 b h (cubic' v0 x) (cubic' e0 x) (cubic' v1 x) (cubic' e1 x)
      = cubic' (fun i => T1 b h (v0 i) (e0 i) (v1 i) (e1 i)) x := by
  unfold T1
  split
  · simp only [cubic']; ring
  · simp [cubic']

omit [LinearOrder K] in
theorem cubic_smul (v : Fin 4 → K) (h x : K) : cubic (fun i => v i * h) x = cubic v x * h := by
  simp only [cubic]; ring

omit [LinearOrder K] in
theorem cubic'_smul (v : Fin 4 → K) (h x : K) : cubic' (fun i => v i * h) x = cubic' v x * h := by
  simp only [cubic']; ring

omit [LinearOrder K] in
theorem T1_smul (b : List K) (h v0 e0 v1 e1 k : K) :
    T1 b h (v0 * k) (e0 * k) (v1 * k) (e1 * k) = T1 b h v0 e0 v1 e1 * k := by
  unfold T1
  split
  · ring
  · simp

omit [LinearOrder K] in
theorem T1_basis'' [CharZero K] (a : Fin 4 → K) (x0 h η : K) (hh : h ≠ 0) :
    T1 (basis' η) h (cubic a x0) (cubic' a x0) (cubic a (x0 + h)) (cubic' a (x0 + h)) = cubic' a (x0 + η * h) * h := by
  rw [← T1_basis' a x0 h η hh]
  field_simp

end Gals
