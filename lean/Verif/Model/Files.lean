import Verif.Model.Array

/-!
# File utilities (`src/cpu/file-utils.cc`)

The file system is a map from resolved paths to entries.  The library `filesystem/path.h` (submodule `ext/filesystem`, not
part of the repository) and the C library are modelled by the behaviour `file-utils.cc` relies on, named `Fs.*` below.
Not modelled: permissions, links, the names `.` and `..`, full disks, other processes.
-/

namespace Gals

/-- A resolved path: the names from the root of the file system (`src/cpu/file-utils.cc:53`). -/
abbrev Path := List (List Char)

/-- An entry of the file system; `C` is the type of file contents (`src/cpu/file-utils.cc:55,69`). -/
inductive Entry (C : Type)
  | dir
  | file (content : C)
  deriving DecidableEq

/-- A file system (`src/cpu/file-utils.cc:51-90`). -/
abbrev Fs (C : Type) := Path → Option (Entry C)

/-- The names in a path string: maximal runs of characters other than `/` (`fs::path` constructor, called at
`src/cpu/file-utils.cc:53,60,67,78`; `std::ofstream` at line 86 resolves names the same way). `acc` is the name read so far,
reversed. -/
def names : List Char → List Char → List (List Char)
  | [], acc => if acc = [] then [] else [acc.reverse]
  | c :: cs, acc => if c = '/' then (if acc = [] then names cs [] else acc.reverse :: names cs []) else names cs (c :: acc)

/-- Resolution of a path string: from the root if it begins with `/`, otherwise from the working directory `cwd`
(`src/cpu/file-utils.cc:53,60,67,78,86`). -/
def resolve (cwd : Path) (p : String) : Path :=
  match p.toList with
  | '/' :: cs => names cs []
  | cs => cwd ++ names cs []

namespace Fs
variable {C : Type}

/-- Change one entry (effect of `src/cpu/file-utils.cc:62,70,80,86`). -/
def update (fs : Fs C) (p : Path) (e : Option (Entry C)) : Fs C := fun q => if q = p then e else fs q

/-- `path.exists()` (used at `src/cpu/file-utils.cc:55,69`). -/
def exists' (fs : Fs C) (p : Path) : Bool := (fs p).isSome

/-- Whether some entry is strictly below the path (decides whether `remove` at `src/cpu/file-utils.cc:62` fails). -/
def HasChild (fs : Fs C) (p : Path) : Prop := ∃ q, (fs (p ++ q)).isSome ∧ q ≠ []

open Classical in
/-- `path.remove_file()` (used at `src/cpu/file-utils.cc:62`), which calls C `remove`: removes a file or an empty directory.
The root cannot be removed. -/
noncomputable def removeFile (fs : Fs C) (p : Path) : Bool × Fs C :=
  match fs p with
  | some (.file _) => (true, fs.update p none)
  | some .dir => if fs.HasChild p ∨ p = [] then (false, fs) else (true, fs.update p none)
  | none => (false, fs)

/-- `fs::create_directories` (used at `src/cpu/file-utils.cc:70`): walks down the path `done ++ rest` from the existing
directory `done`, making each directory that is missing; stops when an entry on the way is a file. -/
def createFrom (fs : Fs C) (done : Path) : Path → Bool × Fs C
  | [] => (true, fs)
  | a :: rest =>
    match fs (done ++ [a]) with
    | some .dir => createFrom fs (done ++ [a]) rest
    | some (.file _) => (false, fs)
    | none => createFrom (fs.update (done ++ [a]) (some .dir)) (done ++ [a]) rest

open Classical in
/-- `fs::remove_directories` (used at `src/cpu/file-utils.cc:80`): removes the directory with everything below.
Simplification: fails, changing nothing, when the path is not a directory or is the root. -/
noncomputable def removeTree (fs : Fs C) (p : Path) : Bool × Fs C :=
  match fs p with
  | some .dir => if p = [] then (false, fs) else (true, fun q => if p <+: q then none else fs q)
  | _ => (false, fs)

/-- Opening a `std::ofstream` and writing the content (`src/cpu/file-utils.cc:86-89`): the file is created or truncated if
its directory exists and the path is not a directory; otherwise the stream fails, nothing is written and nothing is
reported. -/
def openWrite (fs : Fs C) (p : Path) (c : C) : Fs C :=
  match fs p, fs p.dropLast with
  | some .dir, _ => fs
  | some (.file _), _ => fs.update p (some (.file c))
  | none, some .dir => fs.update p (some (.file c))
  | none, _ => fs

end Fs

/-- A `FileUtils` object (`include/gals/utilities/file-utils.h:113`). -/
structure FileUtils where
  rootDir : String

namespace FileUtils
variable {C : Type}

/-- Constructor (`src/cpu/file-utils.cc:43`). -/
def mk' : FileUtils := ⟨""⟩

/-- `setRootDirectory` (`src/cpu/file-utils.cc:47`). -/
def setRootDirectory (_u : FileUtils) (dir : String) : FileUtils := ⟨dir⟩

/-- `getRootDirectory` (`src/cpu/file-utils.cc:49`). -/
def getRootDirectory (u : FileUtils) : String := u.rootDir

/-- `fileExists` (`src/cpu/file-utils.cc:51-56`). -/
def fileExists (cwd : Path) (fs : Fs C) (p : String) : Bool := fs.exists' (resolve cwd p)

/-- `removeFile` (`src/cpu/file-utils.cc:58-63`). -/
noncomputable def removeFile (cwd : Path) (fs : Fs C) (p : String) : Bool × Fs C := fs.removeFile (resolve cwd p)

/-- `createDirectory` (`src/cpu/file-utils.cc:65-74`). -/
def createDirectory (cwd : Path) (fs : Fs C) (p : String) : Bool × Fs C :=
  if fs.exists' (resolve cwd p) then (true, fs) else fs.createFrom [] (resolve cwd p)

/-- `removeDirectory` (`src/cpu/file-utils.cc:76-81`). -/
noncomputable def removeDirectory (cwd : Path) (fs : Fs C) (p : String) : Bool × Fs C := fs.removeTree (resolve cwd p)

/-- `write` (`src/cpu/file-utils.cc:83-90`); `render` is `ofs << field`, which can misbehave (see `Arr.print`). -/
def write {T : Type} (cwd : Path) (fs : Fs C) (p : String) (render : T → M C) (field : T) : M (Fs C) := do
  let c ← render field
  return fs.openWrite (resolve cwd p) c

end FileUtils

end Gals
