import Verif.Model.RefMpi

/-!
# The MPI program on any number of ranks

`src/reference/GALS_Advection_MPI.cpp` distinguishes rank 0 from all others (`if(ctx.rank() == 0)` at line 141) and never
asks for the number of ranks.  Rank 0 receives from rank 1 only (`source_rank`, line 142); every other rank, whatever its
number, does the work of the second half and sends to rank 0 (`dest_rank`, line 224).  All ranks work in the same directory.

Here the operations of the ranks on one of the six output files and their messages are interleaved.  Not modelled:
`details.txt`, a failure of `MPI_Init`, and what the library does about messages nobody receives when a rank calls
`MPI_Finalize` (`src/reference/defineMPI.h:18-22`).  The skeleton of `src/reference/GALS_Advection_MPI_OpenMP.cpp` is the
same (lines 92-96, 145-289).
-/

namespace Gals.Ref

/-- A process that also works on a file: its result, a call of the library, or an operation on the file
(`src/reference/GALS_Advection_MPI.cpp:81-88,149,207,238`). -/
inductive FProc (μ φ α : Type)
  | done (a : α)
  | send (x : μ) (k : FProc μ φ α)
  | recv (k : μ → FProc μ φ α)
  | file (op : FileOp φ) (k : FProc μ φ α)

/-- A process that does not touch the file (`src/reference/GALS_Advection_MPI.cpp:222-263`). -/
def Proc.lift {μ φ α : Type} : Proc μ α → FProc μ φ α
  | .done a => .done a
  | .send x k => .send x k.lift
  | .recv k => .recv fun x => (k x).lift

/-- What every rank does with the file before the time loop (`src/reference/GALS_Advection_MPI.cpp:81-88`). -/
def prologue {μ φ α : Type} (f : φ) (k : FProc μ φ α) : FProc μ φ α := .file .remove (.file (.append f) k)

/-- An event of one of the ranks other than 0, with the messages it has on the way to rank 0; `b` says whether the library
may buffer a message (`src/reference/GALS_Advection_MPI.cpp:81-88,238`). -/
inductive Sender {μ φ β : Type} (b : Bool) :
    List φ × List μ × FProc μ φ β → List φ × List μ × FProc μ φ β → Prop
  | file (fs : List φ) (ch : List μ) (op : FileOp φ) (q : FProc μ φ β) : Sender b (fs, ch, .file op q) (op.apply fs, ch, q)
  | buffer (hb : b = true) (fs : List φ) (ch : List μ) (x : μ) (q : FProc μ φ β) :
      Sender b (fs, ch, .send x q) (fs, ch ++ [x], q)

/-- One event of the whole run: frames in the file, rank 0, and the ranks from 1 on, each with its messages on the way.
Rank 0 takes messages of rank 1 only (`src/reference/GALS_Advection_MPI.cpp:142,149-150,172-174`). -/
inductive Ranks {μ φ α β : Type} (b : Bool) :
    List φ × FProc μ φ α × List (List μ × FProc μ φ β) → List φ × FProc μ φ α × List (List μ × FProc μ φ β) → Prop
  | file (fs : List φ) (op : FileOp φ) (p : FProc μ φ α) (os : List (List μ × FProc μ φ β)) :
      Ranks b (fs, .file op p, os) (op.apply fs, p, os)
  | other (p : FProc μ φ α) (pre post : List (List μ × FProc μ φ β)) {fs fs' : List φ} {s s' : List μ × FProc μ φ β}
      (h : Sender b (fs, s) (fs', s')) : Ranks b (fs, p, pre ++ s :: post) (fs', p, pre ++ s' :: post)
  | handover (fs : List φ) (k : μ → FProc μ φ α) (x : μ) (q : FProc μ φ β) (os : List (List μ × FProc μ φ β)) :
      Ranks b (fs, .recv k, ([], .send x q) :: os) (fs, k x, ([], q) :: os)
  | deliver (fs : List φ) (k : μ → FProc μ φ α) (x : μ) (ch : List μ) (q : FProc μ φ β)
      (os : List (List μ × FProc μ φ β)) : Ranks b (fs, .recv k, (x :: ch, q) :: os) (fs, k x, (ch, q) :: os)

section ranks
variable {K : Type} [Zero K] [One K] [Add K] [Sub K] [Mul K] [Div K] [Neg K] [NatCast K] [LT K] [DecidableLT K] [LE K]
  [DecidableLE K] [HasFloor K]

/-- What `fileprint` appends to the file chosen by `sel` (`src/reference/Allocation.h:56-98`). -/
def frameOf (sel : Out K → List (Tok K)) (c : Setting K) (v : Vel K) (time : K) (m : Mem (Val K)) : M (List (Tok K)) :=
  (fileprint v c.nx c.ny time m .none).map sel

/-- The steps of rank 0 from `t` on, `r` to go, with the operations on the file chosen by `sel`
(`src/reference/GALS_Advection_MPI.cpp:141-218`). -/
def rank0F (sel : Out K → List (Tok K)) (c : Setting K) (v : Vel K) (w p : ℕ) :
    ℕ → ℕ → M (Mem (Val K) × Out K) → FProc (Msg K) (M (List (Tok K))) (M (Mem (Val K) × Out K))
  | 0, _, s => .done s
  | r + 1, t, s =>
    .recv fun x1 => .recv fun x2 => .recv fun x3 => .recv fun x4 => .recv fun x5 =>
      let s' := s >>= fun s => do
        let m ← rank0First c v t s.1
        let m ← rank0Second c w x1 x2 m
        let m ← rank0Third c v w t x3 x4 x5 m
        rank0Print c v p t m s.2
      if uadd t 1 % p = 0 then
        .file (.append (s' >>= fun s => frameOf sel c v (tm (uadd t 1) c.dt) s.1)) (rank0F sel c v w p r (uadd t 1) s')
      else rank0F sel c v w p r (uadd t 1) s'

/-- A run on `k + 1` ranks when the setup is done (`src/reference/GALS_Advection_MPI.cpp:81-263`): all ranks have the same
arrays `m`; `fs` is in the file from earlier runs. -/
def ranksStart (sel : Out K → List (Tok K)) (c : Setting K) (v : Vel K) (w p n k : ℕ) (m : Mem (Val K)) (o : Out K)
    (fs : List (M (List (Tok K)))) :
    List (M (List (Tok K))) × FProc (Msg K) (M (List (Tok K))) (M (Mem (Val K) × Out K)) ×
      List (List (Msg K) × FProc (Msg K) (M (List (Tok K))) (M (Mem (Val K)))) :=
  (fs, prologue (frameOf sel c v 0 m) (rank0F sel c v w p n 0 (.ok (m, o))),
    List.replicate k ([], prologue (frameOf sel c v 0 m) (rank1 c v w n 0 (.ok m)).lift))

end ranks

end Gals.Ref
