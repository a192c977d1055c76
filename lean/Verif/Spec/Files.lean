import Verif.Model.Files

/-!
# Specification vocabulary for file systems
-/

namespace Gals.Spec

open Gals

/-- A file system as operating systems keep it: the root is a directory, and whatever exists lies in a directory. -/
structure WellFormed {C : Type} (fs : Fs C) : Prop where
  root : fs [] = some .dir
  parent : ∀ (p : Path) (a : List Char), fs (p ++ [a]) ≠ none → fs p = some .dir

/-- No file lies on the way to `p` (or at `p`): every existing prefix is a directory. -/
def NoFileOnWay {C : Type} (fs : Fs C) (p : Path) : Prop := ∀ q, q <+: p → fs q = none ∨ fs q = some .dir

/-- The operations of `FileUtils` that change the file system, as a client calls them. -/
inductive FileOp (C : Type)
  | createDirectory (p : String)
  | removeFile (p : String)
  | removeDirectory (p : String)
  | write (p : String) (c : C)

/-- Perform one operation. -/
noncomputable def FileOp.run {C : Type} (cwd : Path) (fs : Fs C) : FileOp C → M (Fs C)
  | .createDirectory p => .ok (FileUtils.createDirectory cwd fs p).2
  | .removeFile p => .ok (FileUtils.removeFile cwd fs p).2
  | .removeDirectory p => .ok (FileUtils.removeDirectory cwd fs p).2
  | .write p c => FileUtils.write cwd fs p (fun c => .ok c) c

/-- The operation is aimed at the path `q` itself, or (removing a directory) at a directory above it. -/
def FileOp.Aims {C : Type} (cwd : Path) (q : Path) : FileOp C → Prop
  | .createDirectory _ => False
  | .removeFile p => resolve cwd p = q
  | .removeDirectory p => resolve cwd p <+: q
  | .write p _ => resolve cwd p = q

end Gals.Spec
