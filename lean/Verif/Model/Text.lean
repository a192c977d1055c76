import Verif.Model.RefText

/-!
# Text of the output files of the library

The files that `FileUtils::write` makes of arrays (`src/cpu/file-utils.cc:83-90`, `include/gals/utilities/array.h:155-165`), as
sequences of characters.  The stream has its default format: six significant digits, in the notation `%g` of C.  They are read by
`tools/octave/Visualize.m`.

Simplifications.  The conversion of a `double` to text is that of the GNU C library: the exact value rounded to six digits, ties to
even.  The conversion back gives the nearest number of type `double`, ties to even; Octave may be off by some units in the last
place.  A NaN is written without sign.  Text with another number of columns than the format of the reader counts as an error.
-/

namespace Gals

open Ref (digitText natText lastDigits signText isDigitText digitsValue)

/-! ## Writing -/

/-- The digits, as a number between `10 ^ 5` and `10 ^ 6`, and the decimal exponent of a positive number rounded to six digits
(`out << array(i, j, k)`, `include/gals/utilities/array.h:162`). -/
def sixDigits (m : ℚ) : ℕ × ℤ :=
  let e := Int.log 10 m
  let n := (roundEven (m / 10 ^ (e - 5))).toNat
  if n = 10 ^ 6 then (10 ^ 5, e + 1) else (n, e)

/-- Decimals without zeros at the end, and the point if any is left (`include/gals/utilities/array.h:162`). -/
def pointText (part : List Char) : List Char :=
  let p := (part.reverse.dropWhile (· = '0')).reverse
  if p = [] then [] else '.' :: p

/-- An exponent (`include/gals/utilities/array.h:162`): its sign and at least two digits. -/
def exponentText (e : ℤ) : List Char :=
  'e' :: (if e < 0 then '-' else '+') :: (if e.natAbs < 10 then '0' :: natText e.natAbs else natText e.natAbs)

/-- `out << a` with the format of a new stream (`include/gals/utilities/array.h:162`, `include/gals/utilities/vec3.h:170`). -/
def shortText : F64 → List Char
  | .nan => ['n', 'a', 'n']
  | .inf s => signText s ++ ['i', 'n', 'f']
  | .fin s m _ =>
    if m = 0 then signText s ++ ['0']
    else
      let n := (sixDigits m).1
      let e := (sixDigits m).2
      if -4 ≤ e ∧ e < 6 then
        let k := (5 - e).toNat
        signText s ++ natText (n / 10 ^ k) ++ pointText (lastDigits k (n % 10 ^ k))
      else signText s ++ natText (n / 10 ^ 5) ++ pointText (lastDigits 5 (n % 10 ^ 5)) ++ exponentText e

/-- Numbers separated by tabs, end of line (`include/gals/utilities/array.h:162`, `include/gals/utilities/vec3.h:170`). -/
def lineText : List F64 → List Char
  | [] => ['\n']
  | x :: xs => shortText x ++ (xs.flatMap fun y => '\t' :: shortText y) ++ ['\n']

/-- A file with an array of scalars (`include/gals/utilities/array.h:155-165`): position and value in each line. -/
def scalarText (ls : List (Vec3 F64 × F64)) : List Char := ls.flatMap fun l => lineText [l.1.x, l.1.y, l.1.z, l.2]

/-- A file with an array of vectors (`include/gals/utilities/array.h:155-165`). -/
def vectorText (ls : List (Vec3 F64 × Vec3 F64)) : List Char :=
  ls.flatMap fun l => lineText [l.1.x, l.1.y, l.1.z, l.2.x, l.2.y, l.2.z]

/-! ## Reading -/

/-- The decimals and what follows them, after the digits before the point (`%f` at `tools/octave/Visualize.m:29`). -/
def splitPoint : List Char → List Char × List Char
  | '.' :: cs => (cs.takeWhile isDigitText, cs.dropWhile isDigitText)
  | cs => ([], cs)

/-- The power of ten in an exponent (`%f` at `tools/octave/Visualize.m:29`). -/
def readExponent : List Char → Option ℤ
  | [] => some 0
  | 'e' :: '-' :: ds => if ds ≠ [] ∧ ds.all isDigitText then some (-(digitsValue 0 ds : ℕ)) else none
  | 'e' :: '+' :: ds => if ds ≠ [] ∧ ds.all isDigitText then some (digitsValue 0 ds : ℕ) else none
  | _ => none

/-- A number without sign (`%f` at `tools/octave/Visualize.m:29`). -/
def readShortMag (neg : Bool) (cs : List Char) : Option F64 :=
  if cs = ['n', 'a', 'n'] then some .nan
  else if cs = ['i', 'n', 'f'] then some (.inf neg)
  else
    let whole := cs.takeWhile isDigitText
    let sp := splitPoint (cs.dropWhile isDigitText)
    if whole = [] then none
    else (readExponent sp.2).map fun e =>
      F64.round neg (digitsValue (digitsValue 0 whole) sp.1 / 10 ^ sp.1.length * 10 ^ e)

/-- A number (`%f` at `tools/octave/Visualize.m:29`). -/
def readShort : List Char → Option F64
  | '-' :: cs => readShortMag true cs
  | cs => readShortMag false cs

/-- The words of a text, after the characters `cur` of a word, latest first (`tools/octave/Visualize.m:29`). -/
def wordsFrom : List Char → List Char → List (List Char)
  | cur, [] => if cur = [] then [] else [cur.reverse]
  | cur, c :: cs =>
    if c = '\t' ∨ c = '\n' then (if cur = [] then wordsFrom [] cs else cur.reverse :: wordsFrom [] cs)
    else wordsFrom (c :: cur) cs

/-- The columns of `textscan(fid, '%f\t%f\t%f\t%f')` as lines (`tools/octave/Visualize.m:29`). -/
def scalarLines : List F64 → Option (List (Vec3 F64 × F64))
  | [] => some []
  | x :: y :: z :: a :: vs => (scalarLines vs).map fun ls => (⟨x, y, z⟩, a) :: ls
  | _ => none

/-- The columns of `textscan(fid, '%f\t%f\t%f\t%f\t%f\t%f')` as lines (`tools/octave/Visualize.m:48`). -/
def vectorLines : List F64 → Option (List (Vec3 F64 × Vec3 F64))
  | [] => some []
  | x :: y :: z :: u :: v :: w :: vs => (vectorLines vs).map fun ls => (⟨x, y, z⟩, ⟨u, v, w⟩) :: ls
  | _ => none

/-- The numbers in a text (`tools/octave/Visualize.m:29`). -/
def readNumbers (cs : List Char) : Option (List F64) := (wordsFrom [] cs).mapM readShort

/-- `ShowScalar` on the text of a file (`tools/octave/Visualize.m:26-43`). -/
def showScalarText (dim nx ny : ℕ) (cs : List Char) : M (Option (Surface F64)) :=
  match (readNumbers cs).bind scalarLines with
  | some ls => showScalar dim nx ny ls
  | none => .error .exn

/-- `ShowVector` on the text of a file (`tools/octave/Visualize.m:45-64`). -/
def showVectorText (dim : ℕ) (cs : List Char) : M (Option (List ((F64 × F64) × (F64 × F64)))) :=
  match (readNumbers cs).bind vectorLines with
  | some ls => .ok (showVector dim ls)
  | none => .error .exn

end Gals
