import Verif.Model.RefMpi

/-!
# MPI and OpenMP version of the reference code

`src/reference/GALS_Advection_MPI_OpenMP.cpp` is the MPI program with an argument check in front, and with the loops that fill
and unpack the exchange buffers shared out over OpenMP threads by rows.  Only these parts are modelled here; between them
the text is that of `src/reference/GALS_Advection_MPI.cpp`, and the pragmas in the headers are those of the OpenMP program.

The threads of a rank share its arrays and its five buffers.  As in `Verif.Model.RefMpi` a buffer is an array of words of four
bytes; a `double` is written or read as two accesses.
-/

namespace Gals.Ref

/-- The exchange buffers (`src/reference/GALS_Advection_MPI_OpenMP.cpp:137-141`). -/
inductive Buf
  | a1 | b1 | a3 | b3 | c3
  deriving DecidableEq

/-- Memory shared by the threads of a rank: array elements and words of buffers
(`src/reference/GALS_Advection_MPI_OpenMP.cpp:126-141`). -/
inductive HLoc
  | mem (l : Loc)
  | word (b : Buf) (k : ℕ)
  deriving DecidableEq

/-- Values of a location; a word holds a half of a `double` (`src/reference/GALS_Advection_MPI_OpenMP.cpp:137`). -/
@[reducible] def HVal (K : Type) : HLoc → Type
  | .mem l => Val K l
  | .word _ _ => K

/-- Memory of a rank from its arrays and the words of its buffers (`src/reference/GALS_Advection_MPI_OpenMP.cpp:126-141`). -/
def join {K : Type} (m : Mem (Val K)) (ws : Buf → ℕ → Slot K) : Mem (HVal K)
  | .mem l => m l
  | .word b k => ws b k

/-- Arrays of a memory (`src/reference/GALS_Advection_MPI_OpenMP.cpp:126-131`). -/
def arraysOf {K : Type} (s : Mem (HVal K)) : Mem (Val K) := fun l => s (.mem l)

/-- Words of the buffers of a memory (`src/reference/GALS_Advection_MPI_OpenMP.cpp:140-141`). -/
def wordsOf {K : Type} (s : Mem (HVal K)) : Buf → ℕ → Slot K := fun b k => s (.word b k)

/-- A terminated execution of `#pragma omp for` over the rows `ps` (`src/reference/GALS_Advection_MPI_OpenMP.cpp:157-160`): any
distribution over any number of threads, each running its share in any order, and any interleaving of single accesses. -/
def HybridFor {K : Type} (ps : List (Prog (HVal K) Unit)) (m m' : Mem (HVal K)) : Prop :=
  ∃ (css : List (List (Prog (HVal K) Unit))) (qs : List (Prog (HVal K) Unit)),
    css.flatten.Perm ps ∧ Interleaves (css.map Prog.seqAll, m) (qs, m') ∧ Ended qs

section loops
variable {K : Type} [Zero K] [One K] [Add K] [Sub K] [Mul K] [Div K] [Neg K] [NatCast K] [LT K] [DecidableLT K] [LE K]
  [DecidableLE K] [HasFloor K]

/-- `b[r][i] = v` for a buffer with `rows` rows and `cols` columns
(`src/reference/GALS_Advection_MPI_OpenMP.cpp:248`, `src/reference/Allocation.h:102-108`). -/
def putB (rows cols : ℕ) (b : Buf) (r i : ℕ) (v : K) : Prog (HVal K) Unit :=
  if r < rows then
    (Prog.set (V := HVal K) (.word b (2 * (umul cols r + i))) v).bind fun _ =>
      Prog.set (V := HVal K) (.word b (2 * (umul cols r + i) + 1)) v
  else .fault .oob

/-- Value of `b[r][i]` (`src/reference/GALS_Advection_MPI_OpenMP.cpp:162`). -/
def getB (rows cols : ℕ) (b : Buf) (r i : ℕ) : Prog (HVal K) K :=
  if r < rows then
    (Prog.get (V := HVal K) (.word b (2 * (umul cols r + i)))).bind fun v =>
      (Prog.get (V := HVal K) (.word b (2 * (umul cols r + i) + 1))).bind fun _ => .pure v
  else .fault .oob

/-- The loops over the columns of the second half in row `i` (`src/reference/GALS_Advection_MPI_OpenMP.cpp:161,187,247,273`). -/
def overCols (c : Setting K) (f : ℕ → Prog (HVal K) Unit) : Prog (HVal K) Unit :=
  .seqAll ((List.range' (half c) (c.nx - half c)).map f)

/-- One assignment of the filling loops for departure points (`src/reference/GALS_Advection_MPI_OpenMP.cpp:248,249`). -/
def packOneD (c : Setting K) (a : DVar) (b : Buf) (i j : ℕ) : Prog (HVal K) Unit :=
  (Prog.get (V := HVal K) (.mem (.d a i j))).bind fun v => putB (half c) c.ny b (usub j (half c)) i v

/-- The same for cells and classes, with the conversion to `double`
(`src/reference/GALS_Advection_MPI_OpenMP.cpp:274-276`). -/
def packOneN (c : Setting K) (a : NVar) (b : Buf) (i j : ℕ) : Prog (HVal K) Unit :=
  (Prog.get (V := HVal K) (.mem (.n a i j))).bind fun v => putB (half c) c.ny b (usub j (half c)) i (v : K)

/-- One assignment of the unpacking loops for departure points (`src/reference/GALS_Advection_MPI_OpenMP.cpp:162,163`). -/
def unpackOneD (c : Setting K) (a : DVar) (b : Buf) (i j : ℕ) : Prog (HVal K) Unit :=
  (getB (half c) c.ny b (usub j (half c)) i).bind fun v => Prog.set (V := HVal K) (.mem (.d a i j)) v

/-- The same for cells and classes, with the conversion to `unsigned int`
(`src/reference/GALS_Advection_MPI_OpenMP.cpp:188-190`). -/
def unpackOneN (c : Setting K) (a : NVar) (b : Buf) (i j : ℕ) : Prog (HVal K) Unit :=
  (getB (half c) c.ny b (usub j (half c)) i).bind fun v =>
    match toUnsigned v with
    | .ok n => Prog.set (V := HVal K) (.mem (.n a i j)) n
    | .error e => .fault e

/-- Rows of the loop that fills `A1`, `B1` (`src/reference/GALS_Advection_MPI_OpenMP.cpp:243-252`). -/
def packPoints (c : Setting K) : List (Prog (HVal K) Unit) :=
  (List.range c.ny).map fun i => overCols c fun j => .seqAll [packOneD c .xadv .a1 i j, packOneD c .yadv .b1 i j]

/-- Rows of the loop that fills `A3`, `B3`, `C3` (`src/reference/GALS_Advection_MPI_OpenMP.cpp:269-279`). -/
def packCells (c : Setting K) : List (Prog (HVal K) Unit) :=
  (List.range c.ny).map fun i => overCols c fun j =>
    .seqAll [packOneN c .cellx .a3 i j, packOneN c .celly .b3 i j, packOneN c .tracker .c3 i j]

/-- Rows of the loop that unpacks `A1`, `B1` (`src/reference/GALS_Advection_MPI_OpenMP.cpp:157-166`). -/
def unpackPoints (c : Setting K) : List (Prog (HVal K) Unit) :=
  (List.range c.ny).map fun i => overCols c fun j => .seqAll [unpackOneD c .xadv .a1 i j, unpackOneD c .yadv .b1 i j]

/-- Rows of the loop that unpacks `A3`, `B3`, `C3` (`src/reference/GALS_Advection_MPI_OpenMP.cpp:183-193`). -/
def unpackCells (c : Setting K) : List (Prog (HVal K) Unit) :=
  (List.range c.ny).map fun i => overCols c fun j =>
    .seqAll [unpackOneN c .cellx .a3 i j, unpackOneN c .celly .b3 i j, unpackOneN c .tracker .c3 i j]

/-- The buffers as allocated (`src/reference/GALS_Advection_MPI_OpenMP.cpp:140-141`). -/
def freshWords (c : Setting K) : Buf → ℕ → Slot K := fun _ => (Block.alloc (half c) c.ny).word

/-- A terminated execution of step `t` of rank 1 by several threads, with the words of the buffers it sends
(`src/reference/GALS_Advection_MPI_OpenMP.cpp:235-288`).  The sends between the loops only read `A1` and `B1`, which are not
written again in the step. -/
def HybridRank1 (c : Setting K) (v : Vel K) (t : ℕ) (m m' : Mem (Val K)) (ws : Buf → ℕ → Slot K) : Prop :=
  ∃ m1 s1 m2 s2,
    ParFor (advMpi v c.schemes.rk3 t c.dt c.ny (half c) c.nx) (stepArrays c m) m1 ∧
    HybridFor (packPoints c) (join m1 (freshWords c)) s1 ∧
    ParFor (find c.xlim1 c.xlim2 c.ylim1 c.ylim2 c.nx c.ny (half c) c.nx) (stepCells c (arraysOf s1)) m2 ∧
    HybridFor (packCells c) (join m2 (wordsOf s1)) s2 ∧ m' = arraysOf s2 ∧ ws = wordsOf s2

/-- A terminated execution of step `t` of rank 0 by several threads with the received buffers `ws`
(`src/reference/GALS_Advection_MPI_OpenMP.cpp:145-215`); `loop` is the meaning of the parallel loop in
`update_mixed_derivatives` (`ParFor` for the program as it is). -/
def HybridRank0 (loop : List (P K Unit) → Mem (Val K) → Mem (Val K) → Prop) (c : Setting K) (v : Vel K) (t : ℕ)
    (ws : Buf → ℕ → Slot K) (m m' : Mem (Val K)) : Prop :=
  ∃ m1 s1 m2 s2 m3 m4 sx sy,
    ParFor (advMpi v c.schemes.rk3 t c.dt c.ny 0 (half c)) (stepArrays c m) m1 ∧
    HybridFor (unpackPoints c) (join m1 ws) s1 ∧
    ParFor (find c.xlim1 c.xlim2 c.ylim1 c.ylim2 c.nx c.ny 0 (half c)) (stepCells c (arraysOf s1)) m2 ∧
    HybridFor (unpackCells c) (join m2 (wordsOf s1)) s2 ∧
    (spacing .x).run (arraysOf s2) = .ok (sx, arraysOf s2) ∧ (spacing .y).run (arraysOf s2) = .ok (sy, arraysOf s2) ∧
    ParFor (updateLoop v c.schemes t c.dt sx sy c.ny 0 c.nx) (arraysOf s2) m3 ∧
    loop (mixed c.nx c.ny c.dx c.dy 0 c.nx) (declMixed m3) m4 ∧ m' = stepFinish m4

/-- Memory of rank 0 after `n` steps (`src/reference/GALS_Advection_MPI_OpenMP.cpp:48-52,80-90,124-289`) in an execution of both ranks,
called with `argc - 1` arguments, by several threads each, with `w` words per element: in every step the buffers of rank 1 are sent and received.  The two ranks
meet only in the messages, whose order is that of the MPI program; output is left out. -/
def HybridRun (loop : List (P K Unit) → Mem (Val K) → Mem (Val K) → Prop) (c : Setting K) (v : Vel K) (f : Initial K)
    (argc w n : ℕ) (m : Mem (Val K)) : Prop :=
  argc = 2 ∧ ∃ a b : ℕ → Mem (Val K), setup c f = .ok (a 0) ∧ setup c f = .ok (b 0) ∧ a n = m ∧
    ∀ t < n, ∃ (ws : Buf → ℕ → Slot K) (r : Buf → Block K), HybridRank1 c v t (b t) (b (t + 1)) ws ∧
      (∀ k, incoming c w (outgoing c w (.ok (ws k)) fun x => ⟨half c, c.ny, x⟩) = .ok (r k)) ∧
      HybridRank0 loop c v t (fun k => (r k).word) (a t) (a (t + 1))

end loops

end Gals.Ref
