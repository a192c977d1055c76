import Verif.Cpp
import Mathlib.Data.Int.Notation

/-!
# Command line of the OpenMP programs

`src/reference/GALS_Advection_OpenMP.cpp:68-71` and `src/reference/GALS_Advection_MPI_OpenMP.cpp:48-52,62-66`.  `long` has 64
bits, `int` 32 bits; the conversion of a `long` that is no `int` wraps around (implementation-defined, as in GCC).  Characters
are those of the "C" locale.
-/

namespace Gals.Ref

/-- `isspace` in the "C" locale, for `strtol` (`src/reference/GALS_Advection_OpenMP.cpp:70`). -/
def isSpaceC (c : Char) : Bool := c = ' ' || c = '\t' || c = '\n' || c = '\r' || c = Char.ofNat 11 || c = Char.ofNat 12

/-- Decimal digits as `strtol` reads them, from the value `acc` on (`src/reference/GALS_Advection_OpenMP.cpp:70`). -/
def strtolDigits (acc : ℕ) : List Char → ℕ
  | [] => acc
  | c :: cs => if 48 ≤ c.toNat ∧ c.toNat ≤ 57 then strtolDigits (10 * acc + (c.toNat - 48)) cs else acc

/-- A `long` from a value, cut off at `LONG_MIN` and `LONG_MAX` (`src/reference/GALS_Advection_OpenMP.cpp:70`). -/
def cutLong (z : ℤ) : ℤ := if z < -2 ^ 63 then -2 ^ 63 else if 2 ^ 63 - 1 < z then 2 ^ 63 - 1 else z

/-- `strtol(s, &sal, 10)` (`src/reference/GALS_Advection_OpenMP.cpp:70`): white space, a sign, digits; what follows is left. -/
def strtol (s : List Char) : ℤ :=
  match s.dropWhile isSpaceC with
  | '-' :: cs => cutLong (-(strtolDigits 0 cs : ℕ))
  | '+' :: cs => cutLong (strtolDigits 0 cs : ℕ)
  | cs => cutLong (strtolDigits 0 cs : ℕ)

/-- Conversion of a `long` to `int` (`src/reference/GALS_Advection_OpenMP.cpp:70`). -/
def longToInt (z : ℤ) : ℤ := Int.bmod z (2 ^ 32)

/-- `N` in the OpenMP program (`src/reference/GALS_Advection_OpenMP.cpp:68-70`); without a first argument `strtol` gets a null
pointer. -/
def threadsOpenMP (argv : List (List Char)) : M ℤ :=
  match argv[1]? with
  | none => .error .oob
  | some s => .ok (longToInt (strtol s))

/-- `N` in the hybrid program (`src/reference/GALS_Advection_MPI_OpenMP.cpp:48-52,63-65`); nothing if it ends with the usage
message. -/
def threadsHybrid (argv : List (List Char)) : M (Option ℤ) :=
  if argv.length ≠ 2 then .ok none
  else
    match argv[1]? with
    | none => .error .oob
    | some s => .ok (some (longToInt (strtol s)))

/-- `omp_set_num_threads(N)` (`src/reference/GALS_Advection_OpenMP.cpp:71`): threads asked for; nothing when the argument is not
positive, which OpenMP leaves to the implementation. -/
def ompSetThreads (n : ℤ) : Option ℕ := if 1 ≤ n then some n.toNat else none

end Gals.Ref
