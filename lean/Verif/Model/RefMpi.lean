import Verif.Model.RefMain

/-!
# MPI version of the reference code

`src/reference/GALS_Advection_MPI.cpp` on two ranks, and `alloc_2d_int` of `src/reference/Allocation.h`.

Bytes are counted in words of four: a `float` is one word, a `double` two.  A message is the list of words copied from the
send buffer.  Local computation between two calls of the library is one step, because ranks share no memory.  Undefined
behaviour of a rank is carried on in its state and in its later messages instead of stopping the system, so that a final
state free of it means that no rank met it.

Simplifications.  The settings are parameters.  `malloc` always succeeds.  Two initialised words of an element are taken to be
the two halves of one `double`: transfers start at the first word of a buffer and keep positions, and every store writes
both halves.  Initial output of the two ranks is modelled separately (`initialFile`).
-/

namespace Gals.Ref

/-! ## Buffers -/

section buffers
variable {K : Type}

/-- Result of `alloc_2d_int`: `rows` pointers into an array of words
(`src/reference/Allocation.h:102-108`). -/
structure Block (K : Type) where
  rows : ℕ
  cols : ℕ
  word : ℕ → Slot K

/-- `alloc_2d_int` (`src/reference/Allocation.h:102-108`). -/
def Block.alloc (rows cols : ℕ) : Block K := ⟨rows, cols, fun k => if k < 2 * umul rows cols then .uninit else .oob⟩

/-- First word of element `[r][i]` (`src/reference/Allocation.h:105-106`). -/
def Block.at (b : Block K) (r i : ℕ) : ℕ := 2 * (umul b.cols r + i)

/-- `b[r][i] = v` (`src/reference/GALS_Advection_MPI.cpp:232-233`). -/
def Block.store (b : Block K) (r i : ℕ) (v : K) : M (Block K) :=
  if r < b.rows then
    match b.word (b.at r i), b.word (b.at r i + 1) with
    | .oob, _ => .error .oob
    | _, .oob => .error .oob
    | _, _ => .ok { b with word := fun k => if k = b.at r i ∨ k = b.at r i + 1 then .val v else b.word k }
  else .error .oob

/-- Value of `b[r][i]` (`src/reference/GALS_Advection_MPI.cpp:156-157`). -/
def Block.load (b : Block K) (r i : ℕ) : M K :=
  if r < b.rows then
    match b.word (b.at r i), b.word (b.at r i + 1) with
    | .oob, _ => .error .oob
    | _, .oob => .error .oob
    | .val v, .val _ => .ok v
    | _, _ => .error .uninit
  else .error .oob

/-- Whether a word is allocated (`src/reference/Allocation.h:103`). -/
def wordInside : Slot K → Bool
  | .oob => false
  | _ => true

/-- Argument `count` of the calls (`src/reference/GALS_Advection_MPI.cpp:149`); above `INT_MAX` it is negative and the
library aborts. -/
def mpiCount (ny nnx : ℕ) : M ℕ := if umul ny nnx < 2 ^ 31 then .ok (umul ny nnx) else .error .exited

/-- `MPI_Send(&(b[0][0]), count, type, ...)` (`src/reference/GALS_Advection_MPI.cpp:238`) with `w` words per element of the
type: the words sent. -/
def Block.message (b : Block K) (w count : ℕ) : M (List (Slot K)) :=
  if 0 < b.rows then
    (List.range (w * count)).mapM fun k =>
      match b.word k with
      | .oob => .error .oob
      | s => .ok s
  else .error .oob

/-- `MPI_Recv(&(b[0][0]), count, type, ...)` (`src/reference/GALS_Advection_MPI.cpp:149`): the words are stored from the
beginning of the buffer on. -/
def Block.receive (b : Block K) (w count : ℕ) (msg : List (Slot K)) : M (Block K) :=
  if 0 < b.rows then
    -- a longer message is an error of the library
    if w * count < msg.length then .error .exited
    else if (List.range msg.length).all fun k => wordInside (b.word k) then
      .ok { b with word := fun k => msg[k]?.getD (b.word k) }
    else .error .oob
  else .error .oob

end buffers

/-! ## Processes -/

/-- A process: its result, or a call of the library (`src/reference/GALS_Advection_MPI.cpp:149,238`). -/
inductive Proc (μ α : Type)
  | done (a : α)
  | send (x : μ) (k : Proc μ α)
  | recv (k : μ → Proc μ α)

/-- One event of the library for a receiver, the messages on the way to it, and a sender
(`src/reference/GALS_Advection_MPI.cpp:149,238`).  A blocking send may return at once because the message is buffered
(`buffer`), or only when the receiver takes the message (`handover`). -/
inductive Net {μ α β : Type} : Proc μ α × List μ × Proc μ β → Proc μ α × List μ × Proc μ β → Prop
  | buffer (p : Proc μ α) (ch : List μ) (x : μ) (q : Proc μ β) : Net (p, ch, .send x q) (p, ch ++ [x], q)
  | handover (k : μ → Proc μ α) (x : μ) (q : Proc μ β) : Net (.recv k, [], .send x q) (k x, [], q)
  | deliver (k : μ → Proc μ α) (x : μ) (ch : List μ) (q : Proc μ β) : Net (.recv k, x :: ch, q) (k x, ch, q)

/-- An event that needs no buffer (`src/reference/GALS_Advection_MPI.cpp:149,238`). -/
inductive NetSync {μ α β : Type} : Proc μ α × List μ × Proc μ β → Proc μ α × List μ × Proc μ β → Prop
  | handover (k : μ → Proc μ α) (x : μ) (q : Proc μ β) : NetSync (.recv k, [], .send x q) (k x, [], q)
  | deliver (k : μ → Proc μ α) (x : μ) (ch : List μ) (q : Proc μ β) : NetSync (.recv k, x :: ch, q) (k x, ch, q)

/-! ## Ranks -/

section ranks
variable {K : Type} [Zero K] [One K] [Add K] [Sub K] [Mul K] [Div K] [Neg K] [NatCast K] [LT K] [DecidableLT K] [LE K]
  [DecidableLE K] [HasFloor K]

/-- Columns of the first half (`src/reference/GALS_Advection_MPI.cpp:129`). -/
def half (c : Setting K) : ℕ := c.nx / 2

/-- The loops that fill the send buffers (`src/reference/GALS_Advection_MPI.cpp:230-235,250-256`), one buffer at a time. -/
def fill (c : Setting K) (g : ℕ → ℕ → M K) (b : Block K) : M (Block K) :=
  (nodes c.ny (half c) c.nx).foldlM (fun b k => do b.store (usub k.2 (half c)) k.1 (← g k.1 k.2)) b

/-- Value of an element of an `unsigned int` array (`src/reference/GALS_Advection_MPI.cpp:252`). -/
def lookN (m : Mem (Val K)) (a : NVar) (i j : ℕ) : M ℕ :=
  match m (.n a i j) with
  | .oob => .error .oob
  | .uninit => .error .uninit
  | .val v => .ok v

/-- First part of a step of rank 1 (`src/reference/GALS_Advection_MPI.cpp:116-124,131-135,227-235`). -/
def rank1First (c : Setting K) (v : Vel K) (t : ℕ) (m : Mem (Val K)) : M (Mem (Val K) × Block K × Block K) := do
  let m ← exec (.seqAll (advMpi v c.schemes.rk3 t c.dt c.ny (half c) c.nx)) (stepArrays c m)
  let a ← fill c (look m .xadv) (.alloc (half c) c.ny)
  let b ← fill c (look m .yadv) (.alloc (half c) c.ny)
  return (m, a, b)

/-- Second part of a step of rank 1 (`src/reference/GALS_Advection_MPI.cpp:243-256`). -/
def rank1Second (c : Setting K) (m : Mem (Val K)) : M (Mem (Val K) × Block K × Block K × Block K) := do
  let m ← exec (.seqAll (find c.xlim1 c.xlim2 c.ylim1 c.ylim2 c.nx c.ny (half c) c.nx)) (stepCells c m)
  let a ← fill c (fun i j => do return ((← lookN m .cellx i j : ℕ) : K)) (.alloc (half c) c.ny)
  let b ← fill c (fun i j => do return ((← lookN m .celly i j : ℕ) : K)) (.alloc (half c) c.ny)
  let d ← fill c (fun i j => do return ((← lookN m .tracker i j : ℕ) : K)) (.alloc (half c) c.ny)
  return (m, a, b, d)

/-- A message; undefined behaviour of the sender is carried on (`src/reference/GALS_Advection_MPI.cpp:238`). -/
abbrev Msg (K : Type) := M (List (Slot K))

/-- `MPI_Send` of a buffer of the state (`src/reference/GALS_Advection_MPI.cpp:238`). -/
def outgoing {α : Type} (c : Setting K) (w : ℕ) (s : M α) (g : α → Block K) : M (List (Slot K)) := do
  let a ← s
  (g a).message w (← mpiCount c.ny (half c))

/-- The steps of rank 1 from `t` on, `r` to go (`src/reference/GALS_Advection_MPI.cpp:222-263`). -/
def rank1 (c : Setting K) (v : Vel K) (w : ℕ) : ℕ → ℕ → M (Mem (Val K)) → Proc (Msg K) (M (Mem (Val K)))
  | 0, _, s => .done s
  | r + 1, t, s =>
    let s1 := s >>= rank1First c v t
    let s2 := s1 >>= fun a => rank1Second c a.1
    .send (outgoing c w s1 fun a => a.2.1) <| .send (outgoing c w s1 fun a => a.2.2) <|
      .send (outgoing c w s2 fun a => a.2.1) <| .send (outgoing c w s2 fun a => a.2.2.1) <|
      .send (outgoing c w s2 fun a => a.2.2.2) <| rank1 c v w r (uadd t 1) (s2.map fun a => a.1)

/-- `MPI_Recv` into a new buffer (`src/reference/GALS_Advection_MPI.cpp:149`). -/
def incoming (c : Setting K) (w : ℕ) (x : Msg K) : M (Block K) := do
  (Block.alloc (half c) c.ny).receive w (← mpiCount c.ny (half c)) (← x)

/-- The loops that unpack the received buffers (`src/reference/GALS_Advection_MPI.cpp:154-159`), one buffer at a time. -/
def unpackD (c : Setting K) (a : DVar) (b : Block K) (m : Mem (Val K)) : M (Mem (Val K)) :=
  (nodes c.ny (half c) c.nx).foldlM (fun m k => do exec (setD a k.1 k.2 (← b.load (usub k.2 (half c)) k.1)) m) m

/-- The same for `unsigned int`, with the conversion (`src/reference/GALS_Advection_MPI.cpp:178-184`). -/
def unpackN (c : Setting K) (a : NVar) (b : Block K) (m : Mem (Val K)) : M (Mem (Val K)) :=
  (nodes c.ny (half c) c.nx).foldlM
    (fun m k => do exec (setN a k.1 k.2 (← toUnsigned (← b.load (usub k.2 (half c)) k.1))) m) m

/-- First part of a step of rank 0 (`src/reference/GALS_Advection_MPI.cpp:116-124,131-135,146`). -/
def rank0First (c : Setting K) (v : Vel K) (t : ℕ) (m : Mem (Val K)) : M (Mem (Val K)) :=
  exec (.seqAll (advMpi v c.schemes.rk3 t c.dt c.ny 0 (half c))) (stepArrays c m)

/-- Second part (`src/reference/GALS_Advection_MPI.cpp:149-169`). -/
def rank0Second (c : Setting K) (w : ℕ) (x y : Msg K) (m : Mem (Val K)) : M (Mem (Val K)) := do
  let a ← incoming c w x
  let b ← incoming c w y
  let m ← unpackD c .xadv a m
  let m ← unpackD c .yadv b m
  exec (.seqAll (find c.xlim1 c.xlim2 c.ylim1 c.ylim2 c.nx c.ny 0 (half c))) (stepCells c m)

/-- Third part (`src/reference/GALS_Advection_MPI.cpp:172-218`). -/
def rank0Third (c : Setting K) (v : Vel K) (w t : ℕ) (x y z : Msg K) (m : Mem (Val K)) : M (Mem (Val K)) := do
  let a ← incoming c w x
  let b ← incoming c w y
  let d ← incoming c w z
  let m ← unpackN c .cellx a m
  let m ← unpackN c .celly b m
  let m ← unpackN c .tracker d m
  let m ← exec (update v c.schemes t c.dt c.nx c.ny) m
  let m ← exec (.seqAll (mixed c.nx c.ny c.dx c.dy 0 c.nx)) (declMixed m)
  return stepFinish m

/-- Output of rank 0 after a step (`src/reference/GALS_Advection_MPI.cpp:206-207`). -/
def rank0Print (c : Setting K) (v : Vel K) (p t : ℕ) (m : Mem (Val K)) (o : Out K) : M (Mem (Val K) × Out K) := do
  if p = 0 then .error .exn
  else do
    let o ← if uadd t 1 % p = 0 then fileprint v c.nx c.ny (tm (uadd t 1) c.dt) m o else .ok o
    return (m, o)

/-- The steps of rank 0 from `t` on, `r` to go (`src/reference/GALS_Advection_MPI.cpp:141-218`). -/
def rank0 (c : Setting K) (v : Vel K) (w p : ℕ) :
    ℕ → ℕ → M (Mem (Val K) × Out K) → Proc (Msg K) (M (Mem (Val K) × Out K))
  | 0, _, s => .done s
  | r + 1, t, s =>
    .recv fun x1 => .recv fun x2 => .recv fun x3 => .recv fun x4 => .recv fun x5 =>
      rank0 c v w p r (uadd t 1) (s >>= fun s => do
        let m ← rank0First c v t s.1
        let m ← rank0Second c w x1 x2 m
        let m ← rank0Third c v w t x3 x4 x5 m
        rank0Print c v p t m s.2)

/-- Words per element of the type in the calls: `MPI_FLOAT` (`src/reference/GALS_Advection_MPI.cpp:149-150,172-174,238-239,
259-261`). -/
def mpiWords : ℕ := 1

/-- The two ranks at the beginning of the time loop (`src/reference/GALS_Advection_MPI.cpp:56-114`). -/
def mpiStart (c : Setting K) (v : Vel K) (w p n : ℕ) (m : Mem (Val K)) (o : Out K) :
    Proc (Msg K) (M (Mem (Val K) × Out K)) × List (Msg K) × Proc (Msg K) (M (Mem (Val K))) :=
  (rank0 c v w p n 0 (.ok (m, o)), [], rank1 c v w n 0 (.ok m))

/-- The two ranks when the setup is done (`src/reference/GALS_Advection_MPI.cpp:63-114`), with `w` words per element.  Both
compute the same arrays; the output is that of rank 0. -/
def mpiMain (c : Setting K) (v : Vel K) (f : Initial K) (w : ℕ) :
    M (Proc (Msg K) (M (Mem (Val K) × Out K)) × List (Msg K) × Proc (Msg K) (M (Mem (Val K)))) := do
  let n ← stepCount c
  let p := printStep c n
  let m ← setup c f
  let o ← fileprint v c.nx c.ny 0 m .none
  let o := { o with details := o.details ++
    [⟨c.nx, c.ny, c.dx, c.dy, c.xlim1, c.xlim2, c.ylim1, c.ylim2, n, c.dt, p⟩] }
  return mpiStart c v w p n m o

end ranks

/-! ## Initial output -/

/-- Operations on an output file before the time loop (`src/reference/GALS_Advection_MPI.cpp:81-88`). -/
inductive FileOp (φ : Type)
  | remove
  | append (f : φ)

/-- Frames of the file after an operation (`src/reference/GALS_Advection_MPI.cpp:81-88`, `src/reference/Allocation.h:63-68`:
opened for appending). -/
def FileOp.apply {φ : Type} (fs : List φ) : FileOp φ → List φ
  | .remove => []
  | .append f => fs ++ [f]

/-- What every rank does with an output file before the time loop (`src/reference/GALS_Advection_MPI.cpp:81-88`); a frame is
written at once. -/
def initialFile {φ : Type} (f : φ) : List (FileOp φ) := [.remove, .append f]

/-- `zs` is an interleaving of `xs` and `ys`, operations of two ranks on one file system
(`src/reference/GALS_Advection_MPI.cpp:81-88`). -/
inductive Shuffle {α : Type} : List α → List α → List α → Prop
  | nil : Shuffle [] [] []
  | left {x : α} {xs ys zs : List α} (h : Shuffle xs ys zs) : Shuffle (x :: xs) ys (x :: zs)
  | right {y : α} {xs ys zs : List α} (h : Shuffle xs ys zs) : Shuffle xs (y :: ys) (y :: zs)

end Gals.Ref
