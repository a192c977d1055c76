import Verif.Cpp
import Mathlib.Logic.Function.Basic
import Mathlib.Logic.Relation

/-!
# Shared memory and threads

The reference code (`src/reference`) is modelled as programs that read and write single locations of a shared memory, so
that the same text has a sequential meaning (`Prog.run`) and, run by several threads, an interleaving meaning
(`PoolStep`).  A step of a thread is one read or one write.  This is not a transcription of a part of the repository: it is
the meaning given to C++ array accesses, OpenMP loops and CUDA kernels (trusted, see DESIGN.md).
-/

namespace Gals

/-- One memory location: outside every allocation, allocated but never written, or holding a value (element of an array at `src/reference/AdvectionPointCalcs.h:31`, allocated at `src/reference/CUDA/GALS_Advection.cu:141-148`). -/
inductive Slot (α : Type)
  | oob
  | uninit
  | val (a : α)
  deriving DecidableEq

/-- Memory: the content of every location (`src/reference/VariableDefinitions.h:9-12`). -/
abbrev Mem {L : Type} (V : L → Type) := (l : L) → Slot (V l)

/-- Programs over locations `L` with values `V l` (loop bodies such as `src/reference/AdvectionPointCalcs.h:27-49`). -/
inductive Prog {L : Type} (V : L → Type) (α : Type) : Type
  | pure (a : α)
  | fault (f : Fault)
  | read (l : L) (k : V l → Prog V α)
  | write (l : L) (v : V l) (k : Prog V α)

variable {L : Type} {V : L → Type} {α β : Type}

/-- Sequential composition (`;` as in `src/reference/AdvectionPointCalcs.h:27-28`). -/
def Prog.bind : Prog V α → (α → Prog V β) → Prog V β
  | .pure a, f => f a
  | .fault e, _ => .fault e
  | .read l k, f => .read l fun v => (k v).bind f
  | .write l v k, f => .write l v (k.bind f)

/-- Sequencing as in `src/reference/AdvectionPointCalcs.h:27-28`. -/
instance : Monad (Prog V) where
  pure := .pure
  bind := .bind

/-- Read a location (`a[i][j]` as in `src/reference/AdvectionPointCalcs.h:31`). -/
def Prog.get (l : L) : Prog V (V l) := .read l .pure

/-- Write a location (`a[i][j] = v` as in `src/reference/AdvectionPointCalcs.h:31`). -/
def Prog.set (l : L) (v : V l) : Prog V Unit := .write l v (.pure ())

/-- Store a value (effect of `a[i][j] = v` as in `src/reference/AdvectionPointCalcs.h:31`). -/
def Mem.upd [DecidableEq L] (m : Mem V) (l : L) (v : V l) : Mem V := Function.update m l (.val v)

/-- Sequential meaning: reading outside every allocation or a location never written, and writing outside every
allocation, are undefined behaviour (`src/reference/AdvectionPointCalcs.h:24-51` on one thread). -/
def Prog.run [DecidableEq L] : Prog V α → Mem V → M (α × Mem V)
  | .pure a, m => .ok (a, m)
  | .fault e, _ => .error e
  | .read l k, m =>
    match m l with
    | .oob => .error .oob
    | .uninit => .error .uninit
    | .val v => (k v).run m
  | .write l v k, m =>
    match m l with
    | .oob => .error .oob
    | _ => k.run (Mem.upd m l v)

/-- The bodies of a loop one after the other (`src/reference/AdvectionPointCalcs.h:24-25` on one thread). -/
def Prog.seqAll : List (Prog V Unit) → Prog V Unit
  | [] => .pure ()
  | p :: ps => p.bind fun _ => seqAll ps

/-- One access of one thread (accesses as in `src/reference/AdvectionPointCalcs.h:31`). -/
inductive Step1 [DecidableEq L] : Prog V α × Mem V → Prog V α × Mem V → Prop
  | read {l : L} {k : V l → Prog V α} {m : Mem V} {v : V l} (h : m l = .val v) : Step1 (.read l k, m) (k v, m)
  | write {l : L} {v : V l} {k : Prog V α} {m : Mem V} (h : m l ≠ .oob) : Step1 (.write l v k, m) (k, Mem.upd m l v)

/-- One access of any one of the threads (`# pragma omp parallel` at `src/reference/AdvectionPointCalcs.h:21`, kernel launch at `src/reference/CUDA/GALS_Advection.cu:152`). -/
inductive PoolStep [DecidableEq L] : List (Prog V Unit) × Mem V → List (Prog V Unit) × Mem V → Prop
  | mk (pre : List (Prog V Unit)) (post : List (Prog V Unit)) {p p' : Prog V Unit} {m m' : Mem V}
      (h : Step1 (p, m) (p', m')) : PoolStep (pre ++ p :: post, m) (pre ++ p' :: post, m')

/-- `s'` is reached from `s` by some interleaving (`# pragma omp parallel` at `src/reference/AdvectionPointCalcs.h:21`). -/
abbrev Interleaves [DecidableEq L] : List (Prog V Unit) × Mem V → List (Prog V Unit) × Mem V → Prop :=
  Relation.ReflTransGen PoolStep

/-- Every thread has ended (end of the parallel region, `src/reference/AdvectionPointCalcs.h:52`). -/
def Ended (ps : List (Prog V Unit)) : Prop := ∀ p ∈ ps, p = .pure ()

/-- Some thread's next action is undefined behaviour (a thread inside `src/reference/AdvectionPointCalcs.h:21-52`). -/
def Faulty (s : List (Prog V Unit) × Mem V) : Prop :=
  ∃ p ∈ s.1, (∃ e, p = .fault e) ∨ (∃ l k, p = .read l k ∧ ∀ v, s.2 l ≠ .val v) ∨ (∃ l v k, p = .write l v k ∧ s.2 l = .oob)

/-- `l` is read in some execution of the program (accesses as in `src/reference/AdvectionPointCalcs.h:31`). -/
def Prog.Reads : Prog V α → L → Prop
  | .pure _, _ => False
  | .fault _, _ => False
  | .read l' k, l => l = l' ∨ ∃ v, (k v).Reads l
  | .write _ _ k, l => k.Reads l

/-- `l` is written in some execution of the program (accesses as in `src/reference/AdvectionPointCalcs.h:31`). -/
def Prog.Writes : Prog V α → L → Prop
  | .pure _, _ => False
  | .fault _, _ => False
  | .read _ k, l => ∃ v, (k v).Writes l
  | .write l' _ k, l => l = l' ∨ k.Writes l

/-- No location written by one program is read or written by the other: no data race (iterations of `src/reference/AdvectionPointCalcs.h:24-25`). -/
def Indep {β : Type} (p : Prog V α) (q : Prog V β) : Prop :=
  ∀ l, (p.Writes l → ¬ q.Reads l ∧ ¬ q.Writes l) ∧ (q.Writes l → ¬ p.Reads l ∧ ¬ p.Writes l)

end Gals
