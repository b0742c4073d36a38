import Mathlib.Logic.Relation
import Mathlib.Logic.Function.Basic
import Mathlib.Data.Fin.Basic

/-!
# Kernels and parallel loops

Model of `Kokkos::parallel_for(n, functor)` as used throughout `/repo/src`
(e.g. `src/shared/SolverBase.cpp:355-404`, `src/muscl/HydroRunFunctors2D.h`
`operator()` methods and their static `apply`).

A work item (one call of a functor's `operator()(index)`) is a program in a free monad whose only
effects are single loads, single stores and atomic additions.  A loop over `n` work items may
execute in any interleaving of these single accesses.

Simplifications: sequentially consistent memory (the code's loops are shown to be race free, so no
weaker behaviour is visible); a `parallel_for` is finished before the next one starts (the code
uses one execution space instance, whose kernels run in order, and `Kokkos::fence` before MPI).
-/

namespace Verif

/-- A work item: a program over addresses `A`, stored values `V`, returning `X`.
Models the body of one functor call (`operator()(const int & index)`), e.g.
`src/shared/BoundariesFunctors.h:40-205`. -/
inductive K (A V : Type) (X : Type) : Type
  | ret (x : X) : K A V X
  /-- load `view(a)` -/
  | read (a : A) (k : V → K A V X) : K A V X
  /-- store `view(a) = v` -/
  | write (a : A) (v : V) (k : K A V X) : K A V X
  /-- `Kokkos::atomic_add(&view(a), v)`, e.g. `src/muscl/MHDRunFunctors2D.h`
  (`ComputeFluxesAndUpdateFunctor2D_MHD`) -/
  | add (a : A) (v : V) (k : K A V X) : K A V X

namespace K

variable {A V X Y : Type}

/-- Sequencing of statements (C++ `;`). -/
def bind : K A V X → (X → K A V Y) → K A V Y
  | ret x, f => f x
  | read a k, f => read a (fun v => (k v).bind f)
  | write a v k, f => write a v (k.bind f)
  | add a v k, f => add a v (k.bind f)

instance : Monad (K A V) where
  pure := K.ret
  bind := K.bind

/-- Single load. -/
def load (a : A) : K A V V := read a ret
/-- Single store. -/
def store (a : A) (v : V) : K A V Unit := write a v (ret ())
/-- Single atomic addition. -/
def atomicAdd (a : A) (v : V) : K A V Unit := add a v (ret ())

/-- Run a work item alone, to completion. -/
def exec [DecidableEq A] [Add V] : K A V X → (A → V) → (A → V)
  | ret _, m => m
  | read a k, m => (k (m a)).exec m
  | write a v k, m => k.exec (Function.update m a v)
  | add a v k, m => k.exec (Function.update m a (m a + v))

/-- Result value of a work item run alone. -/
def value [DecidableEq A] [Add V] : K A V X → (A → V) → X
  | ret x, _ => x
  | read a k, m => (k (m a)).value m
  | write a v k, m => k.value (Function.update m a v)
  | add a v k, m => k.value (Function.update m a (m a + v))

/-- Kind of a memory access. -/
inductive Kind | read | write | add
  deriving DecidableEq

/-- The memory access a work item is about to perform. -/
def next : K A V X → Option (Kind × A)
  | ret _ => none
  | read a _ => some (.read, a)
  | write a _ _ => some (.write, a)
  | add a _ _ => some (.add, a)

end K

/-- State of a parallel loop: shared memory and the remaining program of every work item. -/
abbrev Cfg (ι A V : Type) := (A → V) × (ι → K A V Unit)

/-- One atomic step: some work item performs its next access. -/
inductive Step {ι A V : Type} [DecidableEq ι] [DecidableEq A] [Add V] :
    Cfg ι A V → Cfg ι A V → Prop
  | read {m : A → V} {T : ι → K A V Unit} (t : ι) {a : A} {k : V → K A V Unit}
      (h : T t = .read a k) :
      Step (m, T) (m, Function.update T t (k (m a)))
  | write {m : A → V} {T : ι → K A V Unit} (t : ι) {a : A} {v : V} {k : K A V Unit}
      (h : T t = .write a v k) :
      Step (m, T) (Function.update m a v, Function.update T t k)
  | add {m : A → V} {T : ι → K A V Unit} (t : ι) {a : A} {v : V} {k : K A V Unit}
      (h : T t = .add a v k) :
      Step (m, T) (Function.update m a (m a + v), Function.update T t k)

/-- Configurations reachable by any interleaving. -/
abbrev Reach {ι A V : Type} [DecidableEq ι] [DecidableEq A] [Add V] :
    Cfg ι A V → Cfg ι A V → Prop :=
  Relation.ReflTransGen Step

/-- All work items are finished. -/
def Finished {ι A V : Type} (T : ι → K A V Unit) : Prop := ∀ t, T t = .ret ()

/-- Two accesses conflict: same location, different work items, at least one is a modification
and they are not both atomic. -/
def Conflict {A : Type} (x y : K.Kind × A) : Prop :=
  x.2 = y.2 ∧ ¬ (x.1 = .read ∧ y.1 = .read) ∧ ¬ (x.1 = .add ∧ y.1 = .add)

/-- `Kokkos::parallel_for(n, body)`. -/
structure Launch (A V : Type) where
  n : Nat
  body : Nat → K A V Unit

namespace Launch

variable {A V : Type} [DecidableEq A] [Add V]

/-- Start configuration: the `n` work items with indices `0 .. n-1`. -/
def start (L : Launch A V) (m : A → V) : Cfg (Fin L.n) A V := (m, fun t => L.body t)

/-- The loop, started in `m`, can end in `m'`. -/
def Run (L : Launch A V) (m m' : A → V) : Prop :=
  ∃ T', Reach (L.start m) (m', T') ∧ Finished T'

/-- No interleaving ever accesses a location outside the allocated ones (`dom`). -/
def InBounds (L : Launch A V) (dom : A → Prop) (m : A → V) : Prop :=
  ∀ m' T' t x, Reach (L.start m) (m', T') → (T' t).next = some x → dom x.2

/-- No interleaving reaches a data race. -/
def RaceFree (L : Launch A V) (m : A → V) : Prop :=
  ∀ m' T' s t x y, Reach (L.start m) (m', T') → s ≠ t →
    (T' s).next = some x → (T' t).next = some y → ¬ Conflict x y

/-- The loop cannot run forever. -/
def Terminates (L : Launch A V) (m : A → V) : Prop :=
  Acc (fun c' c : Cfg (Fin L.n) A V => Step c c') (L.start m)

/-- The loop is well defined: no out-of-bounds access, no race, it terminates, it can end, and
every way it can end is in the same memory `m'`. -/
structure Yields (L : Launch A V) (dom : A → Prop) (m m' : A → V) : Prop where
  inBounds : L.InBounds dom m
  raceFree : L.RaceFree m
  terminates : L.Terminates m
  run : L.Run m m'
  unique : ∀ m'', L.Run m m'' → m'' = m'

end Launch

/-- A host program launching loops one after the other. -/
inductive Runs {A V : Type} [DecidableEq A] [Add V] :
    List (Launch A V) → (A → V) → (A → V) → Prop
  | nil (m) : Runs [] m m
  | cons {L Ls m m' m''} : L.Run m m' → Runs Ls m' m'' → Runs (L :: Ls) m m''

/-- The sequence of loops is well defined and ends in `m'` under every schedule. -/
inductive YieldsAll {A V : Type} [DecidableEq A] [Add V] (dom : A → Prop) :
    List (Launch A V) → (A → V) → (A → V) → Prop
  | nil (m) : YieldsAll dom [] m m
  | cons {L Ls m m' m''} :
      L.Yields dom m m' → YieldsAll dom Ls m' m'' → YieldsAll dom (L :: Ls) m m''

end Verif
