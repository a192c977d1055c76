import Verif.Cpp
import Mathlib.Data.Fintype.Basic

/-!
# Scalars, `Vec3`, `Mat3`, `VecN`, tolerant comparison

The scalar type `K` carries only the operations the code uses; no laws.  Numerical theorems later
instantiate `K` with an ordered field, structural theorems keep it arbitrary (hence cover IEEE doubles).
-/

namespace Gals

/-- `floor` followed by conversion to an integer (`floor` of `<math.h>`; the conversion of the result to
`int` is done by `toInt` below) (`src/cpu/grid.cc:137`). -/
class HasFloor (K : Type) where
  floorI : K → ℤ

/-- `sqrt` of `<math.h>` (`src/cpu/vec3.cc:73`). -/
class HasSqrt (K : Type) where
  sqrt : K → K

variable {K : Type} [Zero K] [One K] [Add K] [Sub K] [Mul K] [Div K] [Neg K] [NatCast K] [IntCast K]
  [LT K] [DecidableLT K] [LE K] [DecidableLE K]

/-- Assignment of an integral floating value to an `int` (`src/cpu/grid.cc:137`): undefined when the value is
not representable. -/
def toInt (z : ℤ) : M ℤ := if InInt z then .ok z else .error .conv

/-! ## utilities.h -/

/-- `fabs` (`include/gals/utilities/utilities.h:70`). -/
def fabs (a : K) : K := if a < 0 then -a else a

/-- `VSMALL` (`include/gals/utilities/utilities.h:57`). -/
def vsmall : K := 1 / 10000000000

/-- `is_equal(double, double)` (`include/gals/utilities/utilities.h:70`). -/
def isEqual (a b : K) : Bool := decide (fabs (a - b) ≤ vsmall)

/-- `is_equal(int, int)` (`include/gals/utilities/utilities.h:73`). -/
def isEqualInt (a b : ℤ) : Bool := decide (a = b)

/-- `one_third` (`include/gals/utilities/utilities.h:58`). -/
def oneThird : K := 1 / 3

/-- `two_thirds` (`include/gals/utilities/utilities.h:59`). -/
def twoThirds : K := 2 / 3

/-- `sqr` (`include/gals/utilities/utilities.h:76-80`). -/
def sqr (a : K) : K := a * a

/-- `cube` (`include/gals/utilities/utilities.h:83-87`). -/
def cube (a : K) : K := a * a * a

/-! ## Vec3 -/

/-- `Vec3<T>`: three components (`include/gals/utilities/vec3.h`, constructor `src/cpu/vec3.cc:36-42`). -/
@[ext] structure Vec3 (T : Type) where
  x : T
  y : T
  z : T
  deriving DecidableEq, Repr

namespace Vec3
variable {T : Type}

/-- `operator[]` with an index known to be in range (`src/cpu/vec3.cc:84-94`). -/
def get (v : Vec3 T) : Fin 3 → T
  | 0 => v.x
  | 1 => v.y
  | 2 => v.z

/-- `operator[]` with an arbitrary `int` index (`src/cpu/vec3.cc:84-94`): no bounds check in the source, so
out of range is undefined. -/
def at' (v : Vec3 T) (i : ℤ) : M T :=
  if i = 0 then .ok v.x else if i = 1 then .ok v.y else if i = 2 then .ok v.z else .error .oob

/-- Assignment through the non-const `operator[]` (`src/cpu/vec3.cc:90-94`). -/
def set (v : Vec3 T) (a : Fin 3) (t : T) : Vec3 T :=
  match a with
  | 0 => { v with x := t }
  | 1 => { v with y := t }
  | 2 => { v with z := t }

/-- Default constructor (`src/cpu/vec3.cc:54-57`). -/
def zero [Zero T] : Vec3 T := ⟨0, 0, 0⟩

/-- `mag` (`src/cpu/vec3.cc:70-74`), for `T = double`. -/
def mag [HasSqrt K] (v : Vec3 K) : K := HasSqrt.sqrt (v.x * v.x + v.y * v.y + v.z * v.z)

/-- `min` (`src/cpu/vec3.cc:76-82`). -/
def min [LT T] [DecidableLT T] (v : Vec3 T) : T :=
  if v.x < v.y ∧ v.x < v.z then v.x
  else if v.y < v.x ∧ v.y < v.z then v.y
  else v.z

/-- `operator==` on `Vec3<double>` (`src/cpu/vec3.cc:102-106`). -/
def beq (v w : Vec3 K) : Bool := isEqual v.x w.x && isEqual v.y w.y && isEqual v.z w.z

/-- `operator==` on `Vec3<int>` (`src/cpu/vec3.cc:102-106`). -/
def beqInt (v w : Vec3 ℤ) : Bool := isEqualInt v.x w.x && isEqualInt v.y w.y && isEqualInt v.z w.z

/-- `operator-` (`src/cpu/vec3.cc:108-112`). -/
def sub (v w : Vec3 K) : Vec3 K := ⟨v.x - w.x, v.y - w.y, v.z - w.z⟩

/-- Component-wise `operator*(Vec3)` (`src/cpu/vec3.cc:114-118`). -/
def mul (v w : Vec3 K) : Vec3 K := ⟨v.x * w.x, v.y * w.y, v.z * w.z⟩

/-- `operator*(T)` (`src/cpu/vec3.cc:120-124`). -/
def smul (v : Vec3 K) (t : K) : Vec3 K := ⟨v.x * t, v.y * t, v.z * t⟩

/-- Component-wise `operator/` (`src/cpu/vec3.cc:126-130`). -/
def div (v w : Vec3 K) : Vec3 K := ⟨v.x / w.x, v.y / w.y, v.z / w.z⟩

end Vec3

/-- Whether the build defines `BUILD_TESTS` (`CMakeLists.txt:9,37-39`). -/
inductive Build
  | tests | release
  deriving DecidableEq, Repr

/-- `if (cond) GALS_ABORT(msg);` and `if (cond) GALS_FUNCTION_NOT_IMPLEMENTED(msg);` as written at
`src/cpu/vec3.cc:47` and `src/cpu/analytical-fields/velocity.cc:61-63`.

Without `BUILD_TESTS` the macros (`include/gals/utilities/utilities.h:40-42,48-50`) expand to two statements,
a print and `exit(0);`.  The `if` has no braces, so that it guards the print only and `exit(0)` runs
unconditionally.  With `BUILD_TESTS` they expand to the print only.  Printing is not modelled. -/
def unbracedAbort (b : Build) (_cond : Bool) : M Unit :=
  match b with
  | .tests => .ok ()
  | .release => .error .exited

/-- `GALS_FUNCTION_NOT_IMPLEMENTED(msg)` as the whole body of a function
(`src/cpu/interpolation/linear-1d.cc:94`, `include/gals/cpu/interpolation/hermite.h:217,286,355`). -/
def notImplemented (b : Build) : M Unit :=
  match b with
  | .tests => .ok ()
  | .release => .error .exited

/-- `Vec3(std::vector)` (`src/cpu/vec3.cc:44-52`). -/
def Vec3.ofVector {T : Type} (b : Build) (a : List T) : M (Vec3 T) := do
  unbracedAbort b (a.length != 3)
  let x ← rd a 0
  let y ← rd a 1
  let z ← rd a 2
  return ⟨x, y, z⟩

/-! ## Mat3 -/

/-- `Mat3<T>`: nine entries in row-major order (`src/cpu/mat3.cc:36-48`). -/
@[ext] structure Mat3 (T : Type) where
  m : Fin 9 → T

namespace Mat3
variable {T : Type}

/-- Comparison of the nine entries of `src/cpu/mat3.cc:36-48`, used by proofs about `Mat3` only. -/
instance [DecidableEq T] : DecidableEq (Mat3 T) := fun a b =>
  decidable_of_iff (a.m = b.m) ⟨fun h => by cases a; cases b; congr, fun h => by rw [h]⟩

/-- Constructor (`src/cpu/mat3.cc:36-48`). -/
def mk9 (a00 a01 a02 a10 a11 a12 a20 a21 a22 : T) : Mat3 T :=
  ⟨fun | 0 => a00 | 1 => a01 | 2 => a02 | 3 => a10 | 4 => a11 | 5 => a12 | 6 => a20 | 7 => a21 | 8 => a22⟩

/-- Default constructor (`src/cpu/mat3.cc:50-55`). -/
def zero [Zero T] : Mat3 T := ⟨fun _ => 0⟩

/-- Position of entry `(r, c)` in `m_data`: `i_row * 3 + i_col` (`src/cpu/mat3.cc:94`). -/
def pos (r c : Fin 3) : Fin 9 := ⟨r.val * 3 + c.val, by omega⟩

/-- `operator()(i_row, i_col)` (`src/cpu/mat3.cc:91-95`). -/
def entry (a : Mat3 T) (r c : Fin 3) : T := a.m (pos r c)

/-- Assignment through `operator()(i_row, i_col)` (`src/cpu/mat3.cc:97-101`). -/
def setEntry (a : Mat3 T) (r c : Fin 3) (t : T) : Mat3 T := ⟨fun n => if n = pos r c then t else a.m n⟩

/-- Assignment through `operator[]` (`src/cpu/mat3.cc:85-89`). -/
def setFlat (a : Mat3 T) (n : Fin 9) (t : T) : Mat3 T := ⟨fun p => if p = n then t else a.m p⟩

/-- `dot` (`src/cpu/mat3.cc:68-77`): `res[i] += m_data[j * 3 + i] * vec[j]`, starting from zero, for
`j = 0, 1, 2` in this order. -/
def dot (a : Mat3 K) (v : Vec3 K) : Vec3 K :=
  let row (i : Fin 3) : K := (0 : K) + a.m (pos 0 i) * v.x + a.m (pos 1 i) * v.y + a.m (pos 2 i) * v.z
  ⟨row 0, row 1, row 2⟩

/-- `operator-` (`src/cpu/mat3.cc:109-116`). -/
def sub (a b : Mat3 K) : Mat3 K := ⟨fun n => a.m n - b.m n⟩

/-- `operator*(T)` (`src/cpu/mat3.cc:118-125`). -/
def smul (a : Mat3 K) (t : K) : Mat3 K := ⟨fun n => a.m n * t⟩

/-- `operator==` on `Mat3<double>` (`src/cpu/mat3.cc:127-133`). -/
def beq (a b : Mat3 K) : Bool :=
  isEqual (a.m 0) (b.m 0) && isEqual (a.m 1) (b.m 1) && isEqual (a.m 2) (b.m 2) &&
  isEqual (a.m 3) (b.m 3) && isEqual (a.m 4) (b.m 4) && isEqual (a.m 5) (b.m 5) &&
  isEqual (a.m 6) (b.m 6) && isEqual (a.m 7) (b.m 7) && isEqual (a.m 8) (b.m 8)

/-- `identity_mat` (`include/gals/utilities/grid.h:79,254`). -/
def identity : Mat3 K := mk9 1 0 0 0 1 0 0 0 1

end Mat3

/-- `axis_vectors(axis, c)` (`include/gals/utilities/grid.h:78,251`): the identity matrix. -/
def axisVec (axis c : Fin 3) : ℤ := if axis = c then 1 else 0

/-! ## VecN -/

/-- `VecN<T, SIZE>` (`src/cpu/vec_n.cc:34-40`): a vector of `SIZE` elements. -/
abbrev VecN (T : Type) := List T

/-- Default constructor (`src/cpu/vec_n.cc:34-40`). -/
def VecN.init (size : ℕ) : VecN K := List.replicate size 0

/-- The loop `for (int axis = 0; axis < DIM; ++axis)` (`src/cpu/grid.cc:136`). -/
def axes (d : ℕ) : List (Fin 3) := (List.finRange 3).filter fun a => a.val < d

end Gals
