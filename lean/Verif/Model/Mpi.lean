import Verif.Model.Boundaries
import Mathlib.Data.Int.Basic

/-!
# Message passing

The MPI calls used by the time loop: `MPI_Sendrecv` (`src/utils/mpiUtils/MpiComm.cpp`, `sendrecv`,
called from `src/shared/SolverBase.cpp:772-925`) and `MPI_Barrier` (`synchronize`), plus the Cartesian
topology (`src/utils/mpiUtils/MpiCommCart.h`).

What is assumed of the MPI library (MPI 3.1, sections 3.5, 3.10 and 5.3):
* messages with equal source, destination and tag do not overtake each other;
* `MPI_Sendrecv` starts its send and its receive together and returns when both are complete, in either
  order; the send part may or may not wait for the receiver (`buffered`, arbitrary);
* a receive takes the first pending message of its source and tag; sender and receiver must agree on the
  element counts (a mismatch is stuck in the model);
* `MPI_Barrier` returns only when every rank has called it.

Nothing is assumed about the relative speed of the ranks.  A rank's own loops (`kernels`) touch only its
own memory and are one step here; their interleavings are dealt with by `Runs`.
-/

namespace Verif

/-- Extents of a border buffer: `DataArray(name, ni, nj, nk, nv)`
(`src/shared/SolverBase.cpp:61-98`; 2D buffers have `nk = 1`). -/
structure Shape where
  ni : Int
  nj : Int
  nk : Int
  nv : Nat
  deriving DecidableEq

/-- The elements of a buffer. -/
def Shape.mem (s : Shape) (c : Cell) (v : Nat) : Prop :=
  0 ≤ c.i ∧ c.i < s.ni ∧ 0 ≤ c.j ∧ c.j < s.nj ∧ 0 ≤ c.k ∧ c.k < s.nk ∧ v < s.nv

instance (s : Shape) (c : Cell) (v : Nat) : Decidable (s.mem c v) := by
  unfold Shape.mem; infer_instance

/-- Arguments of one `communicator->sendrecv(...)` call (`src/shared/SolverBase.cpp:790-799`).  The
element type (`data_type`) is the same everywhere and left out. -/
structure SendRecv where
  /-- destination rank -/
  dst : Nat
  /-- array sent -/
  sbuf : Nat
  /-- its extents; the count passed is their product (`.size()`) -/
  sshape : Shape
  stag : Int
  /-- source rank -/
  src : Nat
  /-- array received into -/
  rbuf : Nat
  rshape : Shape
  rtag : Int

/-- One statement of a rank's program. -/
inductive MpiOp (V : Type)
  /-- local loops -/
  | kernels (Ls : List (Launch Addr V))
  /-- `communicator->sendrecv(...)` -/
  | sendrecv (a : SendRecv)
  /-- `communicator->synchronize()` -/
  | barrier

/-- A message in transit: the elements of the send buffer. -/
structure Msg (V : Type) where
  shape : Shape
  data : Cell → Nat → V

/-- Contents of array `b` as a message. -/
def packMsg {V : Type} (b : Nat) (s : Shape) (m : Addr → V) : Msg V := ⟨s, fun c v => m (c.at b v)⟩

/-- Store a message into array `b` (same extents, hence element by element in any common memory
layout). -/
def unpackMsg {V : Type} (b : Nat) (x : Msg V) (m : Addr → V) : Addr → V := fun a =>
  if a.arr = b ∧ x.shape.mem a.cell a.v then x.data a.cell a.v else m a

/-- State of one rank. -/
structure RankState (V : Type) where
  /-- number of completed statements -/
  pc : Nat
  mem : Addr → V
  /-- inside a `sendrecv`: (send part complete, receive part complete) -/
  posted : Option (Bool × Bool)

/-- State of the whole job: the ranks and the messages in transit, per (source, destination, tag), oldest
first. -/
structure Net (V : Type) where
  rank : Nat → RankState V
  chan : Nat → Nat → Int → List (Msg V)

/-- Number of barriers among the first `n` statements. -/
def barriers {V : Type} (p : List (MpiOp V)) (n : Nat) : Nat :=
  ((p.take n).filter fun o => match o with | .barrier => true | _ => false).length

namespace Net

variable {V : Type} [Add V]

/-- Replace the state of rank `r`. -/
def setRank (s : Net V) (r : Nat) (x : RankState V) : Net V :=
  { s with rank := Function.update s.rank r x }

/-- Replace one channel. -/
def setChan (s : Net V) (a b : Nat) (t : Int) (l : List (Msg V)) : Net V :=
  { s with chan := fun a' b' t' => if a' = a ∧ b' = b ∧ t' = t then l else s.chan a' b' t' }

/-- One step of the job of `N` ranks running `prog`. `buffered r k` says whether the library lets the
send part of statement `k` of rank `r` complete before it has been received. -/
inductive Step (N : Nat) (prog : Nat → List (MpiOp V)) (buffered : Nat → Nat → Prop) :
    Net V → Net V → Prop
  /-- run local loops -/
  | kernels {s : Net V} {r : Nat} {Ls} {m'} (hr : r < N)
      (hop : (prog r)[(s.rank r).pc]? = some (.kernels Ls)) (hrun : Runs Ls (s.rank r).mem m') :
      Step N prog buffered s (s.setRank r ⟨(s.rank r).pc + 1, m', none⟩)
  /-- enter `MPI_Sendrecv`: the message leaves, the receive is posted -/
  | enter {s : Net V} {r : Nat} {a : SendRecv} (hr : r < N)
      (hop : (prog r)[(s.rank r).pc]? = some (.sendrecv a)) (hp : (s.rank r).posted = none) :
      Step N prog buffered s
        ((s.setRank r { s.rank r with posted := some (false, false) }).setChan r a.dst a.stag
          (s.chan r a.dst a.stag ++ [packMsg a.sbuf a.sshape (s.rank r).mem]))
  /-- the receive part takes the oldest matching message -/
  | recv {s : Net V} {r : Nat} {a : SendRecv} {sent : Bool} {x : Msg V} {rest} (hr : r < N)
      (hop : (prog r)[(s.rank r).pc]? = some (.sendrecv a))
      (hp : (s.rank r).posted = some (sent, false))
      (hc : s.chan a.src r a.rtag = x :: rest) (hshape : x.shape = a.rshape) :
      Step N prog buffered s
        ((s.setRank r { s.rank r with
            mem := unpackMsg a.rbuf x (s.rank r).mem, posted := some (sent, true) }).setChan
          a.src r a.rtag rest)
  /-- the send part completes: buffered by the library, or the message has been taken -/
  | sendDone {s : Net V} {r : Nat} {a : SendRecv} {recvd : Bool} (hr : r < N)
      (hop : (prog r)[(s.rank r).pc]? = some (.sendrecv a))
      (hp : (s.rank r).posted = some (false, recvd))
      (hb : buffered r (s.rank r).pc ∨ s.chan r a.dst a.stag = []) :
      Step N prog buffered s (s.setRank r { s.rank r with posted := some (true, recvd) })
  /-- `MPI_Sendrecv` returns -/
  | complete {s : Net V} {r : Nat} (hr : r < N) (hp : (s.rank r).posted = some (true, true)) :
      Step N prog buffered s (s.setRank r ⟨(s.rank r).pc + 1, (s.rank r).mem, none⟩)
  /-- leave a barrier that every rank has reached -/
  | barrier {s : Net V} {r : Nat} (hr : r < N)
      (hop : (prog r)[(s.rank r).pc]? = some .barrier)
      (hall : ∀ q, q < N → barriers (prog r) (s.rank r).pc < barriers (prog q) (s.rank q).pc ∨
        (barriers (prog r) (s.rank r).pc = barriers (prog q) (s.rank q).pc ∧
          (prog q)[(s.rank q).pc]? = some .barrier)) :
      Step N prog buffered s (s.setRank r ⟨(s.rank r).pc + 1, (s.rank r).mem, none⟩)

/-- Start of the job: every rank at its first statement, no message in transit. -/
def start (M : Nat → Addr → V) : Net V := ⟨fun r => ⟨0, M r, none⟩, fun _ _ _ => []⟩

/-- Every rank has completed its program. -/
def Done (N : Nat) (prog : Nat → List (MpiOp V)) (s : Net V) : Prop :=
  ∀ r, r < N → (s.rank r).pc = (prog r).length ∧ (s.rank r).posted = none

end Net

/-! ## Reductions -/

/-- How `MPI_Allreduce` combined the contributions for one rank. -/
inductive CombineTree
  | rank (r : Nat)
  | join (a b : CombineTree)

/-- Ranks whose contributions were combined. -/
def CombineTree.ranks : CombineTree → List Nat
  | .rank r => [r]
  | .join a b => a.ranks ++ b.ranks

/-- Combination with the operation `op`. -/
def CombineTree.value {V : Type} (op : V → V → V) (x : Nat → V) : CombineTree → V
  | .rank r => x r
  | .join a b => op (a.value op x) (b.value op x)

/-- `MpiComm::allReduce` (`src/utils/mpiUtils/MpiComm.cpp:193-209`) over `N` ranks: `y r` is the result on
rank `r`.  Every rank's result combines each contribution exactly once, in an order and
association that may differ from rank to rank. -/
def AllReduce {V : Type} (op : V → V → V) (N : Nat) (x y : Nat → V) : Prop :=
  ∀ r, r < N → ∃ T : CombineTree, T.ranks.Perm (List.range N) ∧ T.value op x = y r

/-! ## Cartesian topology

`MPI_Cart_create` with all directions periodic (`src/shared/HydroParams.cpp:248-258`) numbers
the ranks row-major (MPI 3.1, 7.5.1: "row-major numbering is always used"). -/

/-- `MPI_Cart_rank` in a periodic `mx × my × mz` topology (2D: `mz = 1`): coordinates are reduced modulo
the extents (`src/utils/mpiUtils/MpiCommCart.h:80-87`). -/
def cartRank (mx my mz : Int) (c : Cell) : Nat :=
  (((c.i % mx) * my + c.j % my) * mz + c.k % mz).toNat

/-- `MPI_Cart_coords` (`src/utils/mpiUtils/MpiCommCart.h:90-95`). -/
def cartCoords (my mz : Int) (r : Nat) : Cell := ⟨(r : Int) / (my * mz), (r : Int) / mz % my, (r : Int) % mz⟩

/-- `MpiCommCart::getNeighborRank<nl>` (`src/utils/mpiUtils/MpiCommCart.h:118-176`). -/
def neighborRank (mx my mz : Int) (r : Nat) (nl : Face) : Nat :=
  let c := cartCoords my mz r
  cartRank mx my mz (match nl with
    | .xmin => { c with i := c.i - 1 }
    | .xmax => { c with i := c.i + 1 }
    | .ymin => { c with j := c.j - 1 }
    | .ymax => { c with j := c.j + 1 }
    | .zmin => { c with k := c.k - 1 }
    | .zmax => { c with k := c.k + 1 })

end Verif
