import Verif.Model.HydroMuscl
import Verif.Model.Mpi

/-!
# Time step of the hydro solver

`compute_dt_local` and the reduction functors.  The functors only read the state, so a work item is a
function of the memory and of the accumulator it is given.
-/

namespace Verif

open ROps

variable {α : Type} [ROps α]

/-- How `Kokkos::parallel_reduce` combined the work items: a thread runs its items one after the
other on an accumulator that starts as the identity of the reducer; accumulators are joined
pairwise.  (Kokkos is not part of /repo; this is its documented behaviour for any
execution space.) -/
inductive Reduction
  | thread (items : List Nat)
  | join (a b : Reduction)

/-- Work items in the order they occur. -/
def Reduction.items : Reduction → List Nat
  | .thread l => l
  | .join a b => a.items ++ b.items

/-- Value of the accumulator with `Kokkos::Max`: identity `bot` (the lowest finite number), join
`if (dest < src) dest = src`. -/
def Reduction.value (bot : α) (item : Nat → α → α) : Reduction → α
  | .thread l => l.foldl (fun acc t => item t acc) bot
  | .join a b =>
    let dest := a.value bot item
    let src := b.value bot item
    if ltb dest src then src else dest

/-- `r` is a possible result of `parallel_reduce` with `Kokkos::Max` over `n` work items: every item
is run exactly once, in some distribution and order. The initial value of the result variable
is overwritten. -/
def MaxReduces (bot : α) (n : Nat) (item : Nat → α → α) (r : α) : Prop :=
  ∃ T : Reduction, T.items.Perm (List.range n) ∧ T.value bot item = r

/-- Contribution of an interior cell in `ComputeDtFunctor2D::operator()`
(`src/muscl/HydroRunFunctors2D.h:59-75`) and `ComputeDtFunctor3D::operator()`
(`src/muscl/HydroRunFunctors3D.h:61-80`). -/
def cflRate (d3 : Bool) (S : Settings α) (u : HState α) : α :=
  let r := computePrimitives d3 S u
  let q := r.1
  let c := r.2
  let vx := c + fabs q.u
  let vy := c + fabs q.v
  let vz := c + fabs q.w
  if d3 then vx / S.dx + vy / S.dy + vz / S.dz else vx / S.dx + vy / S.dy

/-- Contribution of an interior cell in `ComputeDtGravityFunctor2D::operator()`
(`src/muscl/HydroRunFunctors2D.h:126-169`) and `ComputeDtGravityFunctor3D::operator()`
(`src/muscl/HydroRunFunctors3D.h:133-183`).  (`k` is a `double` even if `real_t` is `float`; here
there is one type of numbers.) -/
def cflRateGravity (d3 : Bool) (S : Settings α) (u g : HState α) : α :=
  let dx := fmin S.dx S.dy
  let dx := if d3 then fmin dx S.dz else dx
  let r := computePrimitives d3 S u
  let q := r.1
  let c := r.2
  let velocity := lit 0
  let velocity := velocity + (c + fabs q.u)
  let velocity := velocity + (c + fabs q.v)
  let velocity := if d3 then velocity + (c + fabs q.w) else velocity
  let k := if d3 then fabs g.u + fabs g.v + fabs g.w else fabs g.u + fabs g.v
  let k := k * (S.cfl * dx / (velocity * velocity))
  let k := fmax k (lit (1 / 10000))
  let velocity := velocity * (k / (sqrt (lit 1 + lit 2 * k) - lit 1))
  velocity / dx

/-- `operator()` of the four functors for work item `t`, as a function of memory and accumulator. -/
def dtItem (d3 : Bool) (S : Settings α) (P : Grid) (grav : Bool) (U : Nat) (m : Addr → α) (t : Nat)
    (invDt : α) : α :=
  let c := P.cellOf t
  if P.inner d3 c then
    let u := (loadState d3 U c).value m
    let g := (loadGravity d3 c).value m
    fmax invDt (if grav then cflRateGravity d3 S u g else cflRate d3 S u)
  else invDt

/-- `SolverHydroMuscl<dim>::compute_dt_local` (`src/muscl/SolverHydroMuscl.h:649-691`): possible
results. -/
def ComputeDtLocal (bot : α) (d3 : Bool) (S : Settings α) (P : Grid) (grav : Bool)
    (iteration : Nat) (m : Addr → α) (dt : α) : Prop :=
  let U := if iteration % 2 = 0 then aU else aU2
  ∃ invDt, MaxReduces bot (P.isize.toNat * P.jsize.toNat * (if d3 then P.ksize.toNat else 1))
    (dtItem d3 S P grav U m) invDt ∧ dt = S.cfl / invDt

/-- `MPI_MIN` on two numbers. -/
def mpiMin (a b : α) : α := if ltb b a then b else a

/-- `params.data_type` (`src/shared/HydroParams.cpp:227-228`): `FLOAT` in builds with
`real_t = float`, `DOUBLE` otherwise. -/
inductive MpiReal | float | double
  deriving DecidableEq

/-- Size in bytes. -/
def MpiReal.size : MpiReal → Nat
  | .float => 4 | .double => 8

/-- Value of a `double` variable without initialiser after its first `written` bytes have been set so as to
represent `x`: undefined unless all eight bytes have been written. -/
def readDouble (written : Nat) (x : α) : Option α := if written = 8 then some x else none

/-- `SolverBase::compute_dt` with MPI (`src/shared/SolverBase.cpp:151-177`): possible time steps `dt r` of the
ranks (`none`: undefined), if rank `r` has memory `M r`; all ranks have the same time `t`.
`dt_global` is a `double` without initialiser; the reduction stores one element of type `ty`. -/
def ComputeDtMpi (ty : MpiReal) (bot : α) (N : Nat) (d3 : Bool) (S : Settings α) (P : Grid) (grav : Bool)
    (iteration : Nat) (t tEnd : α) (M : Nat → Addr → α) (dt : Nat → Option α) : Prop :=
  ∃ dtLocal dtGlobal : Nat → α,
    (∀ r, r < N → ComputeDtLocal bot d3 S P grav iteration (M r) (dtLocal r)) ∧
    AllReduce mpiMin N dtLocal dtGlobal ∧
    ∀ r, r < N → dt r = (readDouble ty.size (dtGlobal r)).map fun m_dt =>
      if gtb (t + m_dt) tEnd then tEnd - t else m_dt

/-- `SolverBase::compute_dt` without MPI (`src/shared/SolverBase.cpp:169-177`). -/
def ComputeDtSerial (bot : α) (d3 : Bool) (S : Settings α) (P : Grid) (grav : Bool)
    (iteration : Nat) (t tEnd : α) (m : Addr → α) (dt : α) : Prop :=
  ∃ dtLocal, ComputeDtLocal bot d3 S P grav iteration m dtLocal ∧
    dt = if gtb (t + dtLocal) tEnd then tEnd - t else dtLocal

end Verif
