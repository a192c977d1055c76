import Verif.Model.Readers
import Verif.Model.Double
import Mathlib.Data.Nat.Digits.Defs

/-!
# Text of the output files of the reference programs

The files as sequences of characters, written with `std::fixed << std::setprecision(10)`
(`src/reference/Allocation.h:56-98`, `src/reference/SerialCode/GALS_Advection.cpp:92`) and read by
`src/reference/Readfiles.m`.

Simplifications.  The conversion of a `double` to text is that of the GNU C library: the exact value rounded to ten decimals, ties
to even.  The conversion back gives the number of type `double` nearest to the decimal fraction, ties to even.  A NaN is
written without sign.  Of the forms of numbers that MATLAB accepts only those the programs write are modelled (no exponents, no
blanks); text of any other form counts as an error.
-/

namespace Gals.Ref

/-! ## Writing -/

/-- A decimal digit (`src/reference/Allocation.h:73`). -/
def digitText (d : ℕ) : Char := Char.ofNat (48 + d)

/-- An `unsigned int` (`src/reference/SerialCode/GALS_Advection.cpp:92`). -/
def natText (n : ℕ) : List Char := if n = 0 then ['0'] else (Nat.digits 10 n).reverse.map digitText

/-- The last `k` digits of a number (`src/reference/Allocation.h:73`). -/
def lastDigits : ℕ → ℕ → List Char
  | 0, _ => []
  | k + 1, n => lastDigits k (n / 10) ++ [digitText (n % 10)]

/-- The sign (`src/reference/Allocation.h:73`). -/
def signText (neg : Bool) : List Char := if neg then ['-'] else []

/-- `<< std::fixed << std::setprecision(10) << a` (`src/reference/Allocation.h:73`). -/
def fixed10 : F64 → List Char
  | .nan => ['n', 'a', 'n']
  | .inf s => signText s ++ ['i', 'n', 'f']
  | .fin s m _ =>
    let n := (roundEven (m * 10 ^ 10)).toNat
    signText s ++ natText (n / 10 ^ 10) ++ '.' :: lastDigits 10 (n % 10 ^ 10)

/-- One item written to a file (`src/reference/Allocation.h:73-92`). -/
def Tok.text : Tok F64 → List Char
  | .num k => fixed10 k
  | .comma => [',']
  | .nl => ['\n']

/-- A file of nodal values (`src/reference/Allocation.h:70-96`). -/
def fileText (ts : List (Tok F64)) : List Char := ts.flatMap Tok.text

/-- `details.txt` (`src/reference/SerialCode/GALS_Advection.cpp:92`). -/
def Details.text (d : Details F64) : List Char :=
  natText d.nx ++ ',' :: natText d.ny ++ ',' :: fixed10 d.dx ++ ',' :: fixed10 d.dy ++ ',' :: fixed10 d.xlim1 ++
    ',' :: fixed10 d.xlim2 ++ ',' :: fixed10 d.ylim1 ++ ',' :: fixed10 d.ylim2 ++ ',' :: natText d.n ++
    ',' :: fixed10 d.dt ++ ',' :: natText d.printstep

/-- The files as text (`src/reference/Allocation.h:63-68`). -/
structure OutText where
  phi : List Char
  psix : List Char
  psiy : List Char
  psixy : List Char
  velx : List Char
  vely : List Char
  details : List Char

/-- The text of all files (`src/reference/Allocation.h:63-68`); records of `details.txt` follow each other without separator. -/
def Out.text (o : Out F64) : OutText :=
  ⟨fileText o.phi, fileText o.psix, fileText o.psiy, fileText o.psixy, fileText o.velx, fileText o.vely,
    o.details.flatMap Details.text⟩

/-! ## Reading -/

/-- A decimal digit (`%f` at `src/reference/Readfiles.m:54`). -/
def isDigitText (c : Char) : Bool := decide (48 ≤ c.toNat ∧ c.toNat ≤ 57)

/-- Value of digits, from the value `acc` on (`%d` at `src/reference/Readfiles.m:12`). -/
def digitsValue (acc : ℕ) (cs : List Char) : ℕ := cs.foldl (fun a c => 10 * a + (c.toNat - 48)) acc

/-- A number without sign (`%f` at `src/reference/Readfiles.m:54`). -/
def readMag (neg : Bool) (cs : List Char) : Option F64 :=
  if cs = ['n', 'a', 'n'] then some .nan
  else if cs = ['i', 'n', 'f'] then some (.inf neg)
  else
    let whole := cs.takeWhile isDigitText
    if whole = [] then none
    else
      match cs.dropWhile isDigitText with
      | [] => some (F64.round neg (digitsValue 0 whole))
      | '.' :: part =>
        if part.all isDigitText then some (F64.round neg (digitsValue (digitsValue 0 whole) part / 10 ^ part.length))
        else none
      | _ => none

/-- A number (`%f` at `src/reference/Readfiles.m:54`). -/
def readNumber : List Char → Option F64
  | '-' :: cs => readMag true cs
  | cs => readMag false cs

/-- An integer without sign (`%d` at `src/reference/Readfiles.m:12`). -/
def readNat (cs : List Char) : Option ℕ := if cs ≠ [] ∧ cs.all isDigitText then some (digitsValue 0 cs) else none

/-- The end of a field with the characters `cur`, latest first, before the items `ts` (`src/reference/Readfiles.m:54`). -/
def endField (cur : List Char) (ts : List (Tok F64)) : Option (List (Tok F64)) :=
  if cur = [] then some ts else (readNumber cur.reverse).map fun k => .num k :: ts

/-- The items in a file, after the characters `cur` of a field, latest first (`src/reference/Readfiles.m:54-65`). -/
def scanFrom : List Char → List Char → Option (List (Tok F64))
  | cur, [] => endField cur []
  | cur, c :: cs =>
    if c = ',' then (scanFrom [] cs).bind fun ts => endField cur (.comma :: ts)
    else if c = '\n' then (scanFrom [] cs).bind fun ts => endField cur (.nl :: ts)
    else scanFrom (c :: cur) cs

/-- The items in a file (`src/reference/Readfiles.m:54-65`). -/
def scan (cs : List Char) : Option (List (Tok F64)) := scanFrom [] cs

/-- The fields of a line separated by commas, after the characters `cur`, latest first (`src/reference/Readfiles.m:12`). -/
def fieldsFrom : List Char → List Char → List (List Char)
  | cur, [] => [cur.reverse]
  | cur, c :: cs => if c = ',' then cur.reverse :: fieldsFrom [] cs else fieldsFrom (c :: cur) cs

/-- `textscan(details, '%d,%d,%f,%f,%f,%f,%f,%f,%d,%f,%d')` (`src/reference/Readfiles.m:12`).  If more follows, the format is
applied again, which fails at the comma: nothing more is read. -/
def readDetails (cs : List Char) : Option (Details F64) :=
  match fieldsFrom [] cs with
  | a :: b :: c :: d :: e :: f :: g :: h :: i :: j :: k :: _ => do
    let nx ← readNat a
    let ny ← readNat b
    let dx ← readNumber c
    let dy ← readNumber d
    let xlim1 ← readNumber e
    let xlim2 ← readNumber f
    let ylim1 ← readNumber g
    let ylim2 ← readNumber h
    let n ← readNat i
    let dt ← readNumber j
    let printstep ← readNat k
    return ⟨nx, ny, dx, dy, xlim1, xlim2, ylim1, ylim2, n, dt, printstep⟩
  | _ => none

/-- What is read from the text of the files (`src/reference/Readfiles.m:11-67`). -/
def OutText.scan (t : OutText) : Option (Out F64) := do
  let phi ← Ref.scan t.phi
  let psix ← Ref.scan t.psix
  let psiy ← Ref.scan t.psiy
  let psixy ← Ref.scan t.psixy
  let velx ← Ref.scan t.velx
  let vely ← Ref.scan t.vely
  let d ← readDetails t.details
  return ⟨phi, psix, psiy, psixy, velx, vely, [d]⟩

/-- `Readfiles.m` on the text of the files (`src/reference/Readfiles.m:1-91`). -/
def readfilesText (t : OutText) : M (Movie F64) :=
  match t.scan with
  | some o => readfiles o
  | none => .error .exn

end Gals.Ref
