import Verif.Model.RefCudaMain
import Verif.Model.RefHybrid
import Verif.Model.RefOld
import Verif.Spec.Flip

/-!
# Reference programs whose level sets differ

Memories that agree in everything but the level set, whose numbers are related: opposite, multiples, or not at all.
-/

namespace Gals.Spec

open Gals.Ref (DVar NVar Loc Val Tok Out Initial Vel Machine)

variable {K : Type}

/-- Grid and departure points; the other arrays of numbers hold the level set, its derivatives and temporary variables. -/
def geometric : DVar → Bool
  | .x | .y | .xadv | .yadv => true
  | _ => false

/-- Equal grids, departure points, cells and classes; related level sets. -/
def LocRel (W : K → K → Prop) : (l : Loc) → Val K l → Val K l → Prop
  | .d a _ _, v, w =>
    match geometric a with
    | true => v = w
    | false => W v w
  | .n _ _ _, v, w => v = w

/-- Locations of the same kind with related values. -/
inductive SlotRel {α β : Type} (R : α → β → Prop) : Slot α → Slot β → Prop
  | oob : SlotRel R .oob .oob
  | uninit : SlotRel R .uninit .uninit
  | val {a : α} {b : β} : R a b → SlotRel R (.val a) (.val b)

/-- Memories with related values. -/
def MemRel {L : Type} {V : L → Type} (Q : (l : L) → V l → V l → Prop) (m m' : Mem V) : Prop := ∀ l, SlotRel (Q l) (m l) (m' l)

/-- Related output: numbers at the same places. -/
inductive TokRel (W : K → K → Prop) : Tok K → Tok K → Prop
  | num {a b : K} : W a b → TokRel W (.num a) (.num b)
  | comma : TokRel W .comma .comma
  | nl : TokRel W .nl .nl

/-- Related files; those of the velocity and of the settings are equal. -/
structure OutRel (W : K → K → Prop) (o o' : Out K) : Prop where
  phi : List.Forall₂ (TokRel W) o.phi o'.phi
  psix : List.Forall₂ (TokRel W) o.psix o'.psix
  psiy : List.Forall₂ (TokRel W) o.psiy o'.psiy
  psixy : List.Forall₂ (TokRel W) o.psixy o'.psixy
  velx : o.velx = o'.velx
  vely : o.vely = o'.vely
  details : o.details = o'.details

/-- Related initial level sets. -/
structure InitialRel (W : K → K → Prop) (f f' : Initial K) : Prop where
  phi : ∀ x y, W (f.phi x y) (f'.phi x y)
  psix : ∀ x y, W (f.psix x y) (f'.psix x y)
  psiy : ∀ x y, W (f.psiy x y) (f'.psiy x y)
  psixy : ∀ x y, W (f.psixy x y) (f'.psixy x y)

section programs
open Gals.Ref

/-- Related results of a run: memory and files. -/
def RanRel (W : K → K → Prop) (x y : Mem (Val K) × Out K) : Prop := MemRel (LocRel W) x.1 y.1 ∧ OutRel W x.2 y.2

variable [Zero K] [One K] [Add K] [_root_.Sub K] [Mul K] [Div K] [Neg K] [NatCast K] [LT K] [LE K] [DecidableLT K] [DecidableLE K] [HasFloor K]

/-- What a number of steps does to one memory, in one of the executions, it does to a related one in some execution. -/
def Follows (W : K → K → Prop) (step : Mem (Val K) → Mem (Val K) → Prop) : Prop :=
  ∀ m m' n, MemRel (LocRel W) m m' → step m n → ∃ n', step m' n' ∧ MemRel (LocRel W) n n'

/-- The reference programs give related results for related level sets. -/
structure Alike (W : K → K → Prop) (c : Setting K) (v : Vel K) (f f' g g' : Initial K) : Prop where
  /-- Serial program. -/
  serial : Same (RanRel W) (mainSerial c v f) (mainSerial c v f')
  /-- First serial program. -/
  old : Same (MemRel (LocRel W)) (mainOld c v f) (mainOld c v f')
  /-- OpenMP program with one thread. -/
  openmp : ∀ argc, Same (RanRel W) (mainOpenMP argc c v f) (mainOpenMP argc c v f')
  /-- A step of the OpenMP program, in every interleaving of its threads. -/
  threads : ∀ t, Follows W (OmpStep ParFor c v c.dx c.dy t)
  /-- A step of the CUDA program, in every interleaving of its threads. -/
  kernels : ∀ tile t, Follows W (CudaStep tile c v t)
  /-- Faults of the kernels. -/
  kernelFaults : ∀ tile t m m', MemRel (LocRel W) m m' → (CudaFault tile c v t m ↔ CudaFault tile c v t m')
  /-- CUDA program; copies of half a number are left out. -/
  cuda : ∀ tile splice, 2 ∣ gridSize c.nx c.ny →
    Same (fun x y => (MemRel (LocRel W) x.1.dev y.1.dev ∧ MemRel (LocRel W) x.1.host y.1.host) ∧ OutRel W x.2 y.2)
      (mainCuda tile splice c v f g) (mainCuda tile splice c v f' g')
  /-- MPI program: the messages are the same, and what both ranks end with is related. -/
  mpi : ∀ w, Same (fun s s' => (∀ p ch q, Relation.ReflTransGen Net s (p, ch, q) → ∃ p' q', Relation.ReflTransGen Net s' (p', ch, q')) ∧
      ∀ a ch b, Relation.ReflTransGen Net s (.done a, ch, .done b) → ∃ a' b', Relation.ReflTransGen Net s' (.done a', ch, .done b') ∧
        Same (RanRel W) a a' ∧ Same (MemRel (LocRel W)) b b') (mpiMain c v f w) (mpiMain c v f' w)
  /-- MPI program with threads, in every interleaving. -/
  hybrid : ∀ argc w n m, HybridRun ParFor c v f argc w n m → ∃ m', HybridRun ParFor c v f' argc w n m' ∧ MemRel (LocRel W) m m'

end programs

end Gals.Spec
