import Verif.Model.HydroMpi
import Verif.Model.MhdProgram

/-!
# The MHD program on several MPI processes

`main` (`src/main.cpp:139-166`) with a `SolverMHDMuscl` built with `USE_MPI`; ranks, arrays and jobs as in `Model/HydroMpi`.
`MPI_Allreduce` is called within a step, after the exchange and the conversion to primitive variables.  No rank gets its
result before all have called it, so nothing that follows it can begin before all of the exchange has been done.  What follows
it in the step, `mhdAdvance`, sends and receives nothing: it is done here by each rank for itself, before the next exchange
begins.  A fast rank may in truth be in the next exchange when a slow one is still in these loops; C137 shows that this
makes no difference.
-/

namespace Verif

variable {α : Type} [ROps α]

/-- `SolverMHDMuscl<dim>::make_boundaries` with MPI (`src/muscl/SolverMHDMuscl.cpp:22-64`). -/
def mhdBoundariesMpi (d3 : Bool) (T : Ranks) (P : Grid) (U : Nat) (r : Nat) : List (MpiOp α) :=
  if d3 then makeBoundariesMpi3D T.lay true P U T.mx T.my T.mz r
  else makeBoundariesMpi2D T.lay true P U T.mx T.my r

/-- First part of `SolverMHDMuscl<dim>::godunov_unsplit_impl` (`src/muscl/SolverMHDMuscl.cpp:378-391`, `:470-483`) on rank
`r`, before `compute_dt()`. -/
def mhdPrepareMpi (d3 : Bool) (T : Ranks) (S : MSettings α) (P : Grid) (Uin Uout : Nat) (r : Nat) : List (MpiOp α) :=
  mhdBoundariesMpi d3 T P Uin r ++ [.kernels [deepCopy d3 P Uout Uin, convertToPrimitivesMhd d3 S P Uin aQ]]

/-- End of the constructor of `SolverMHDMuscl` (`src/muscl/SolverMHDMuscl.h:389-399`) on rank `r`, before the time step is
computed. -/
def mhdSetupMpi {β : Type} [TOps β] (d3 : Bool) (T : Ranks) (S : MSettings β) (P : Grid) (D : Domain β)
    (Q : MhdProblem β) (r : Nat) : List (MpiOp β) :=
  [.kernels (mhdInitLoops d3 S P (D.ofRank T r) aU Q)] ++ (mhdBoundariesMpi d3 T P aU r ++
    [.kernels [deepCopy d3 P aU2 aU, convertToPrimitivesMhd d3 S P aU aQ]])

namespace MhdConf

/-- `SolverBase::compute_dt` (`src/shared/SolverBase.cpp:145-178`) with MPI: possible results, rank by rank, at times `t`; the
primitive variables are in arrays `Q` of `M`. -/
def MpiDt (C : MhdConf α) (N : Nat) (t : Nat → α) (M : Nat → Addr → α) (dt : Nat → α) : Prop :=
  ∃ dtLocal dtGlobal : Nat → α,
    (∀ r, r < N → MhdComputeDtLocal C.bot C.d3 C.S C.P (M r) (dtLocal r)) ∧
    AllReduce mpiMin N dtLocal dtGlobal ∧
    ∀ r, r < N → dt r = C.ctl.computeDt (t r) (dtGlobal r)

/-- The job of the first part of a step; the buffers swap roles at every iteration
(`src/muscl/SolverMHDMuscl.h:791-805`). -/
def mpiPrepare (C : MhdConf α) (T : Ranks) (s : Nat → HydroState α) (r : Nat) : List (MpiOp α) :=
  if (s r).iteration % 2 = 0 then mhdPrepareMpi C.d3 T C.S C.P aU aU2 r
  else mhdPrepareMpi C.d3 T C.S C.P aU2 aU r

/-- The loops of the second part of a step on one rank. -/
def advance (C : MhdConf α) (J : MJunk α) (dt : α) (iteration : Nat) : List (Launch Addr α) :=
  if iteration % 2 = 0 then mhdAdvance C.d3 C.S C.P J C.xmin C.impl dt aU aU2
  else mhdAdvance C.d3 C.S C.P J C.xmin C.impl dt aU2 aU

/-- `next_iteration` (`src/shared/SolverBase.cpp:205-220`) and `SolverMHDMuscl<dim>::next_iteration_impl`
(`src/muscl/SolverMHDMuscl.h:747-782`) on all ranks: possible results. -/
def MpiNext (C : MhdConf α) (T : Ranks) (s s' : Nat → HydroState α) : Prop :=
  ∃ (M1 : Nat → Addr → α) (dt : Nat → α) (J : Nat → MJunk α) (M' : Nat → Addr → α),
    JobRuns T.num (C.mpiPrepare T s) (fun r => (s r).m) M1 ∧
    C.MpiDt T.num (fun r => (s r).t) M1 dt ∧
    (∀ r, r < T.num → Runs (C.advance (J r) (dt r) (s r).iteration) (M1 r) (M' r)) ∧
    ∀ r, r < T.num → s' r =
      { C.saveDue (s r) with m := M' r, dt := dt r, iteration := (s r).iteration + 1, t := (s r).t + dt r }

/-- `while (!solver->finished()) solver->next_iteration();` (`src/main.cpp:154-159`) on all ranks.  `none`: undefined behaviour
(`m_iteration % m_nlog`, `src/muscl/SolverMHDMuscl.h:756`), or the job hangs: in the messages of a step, or because some
ranks have left the loop and others wait for them. -/
inductive MpiLoop (C : MhdConf α) (T : Ranks) : (Nat → HydroState α) → Option (Nat → HydroState α) → Prop
  | done {s} : (∀ r, r < T.num → C.ctl.finished (s r).ctl = true) → MpiLoop C T s (some s)
  | ub {s} {r : Nat} : r < T.num → C.ctl.finished (s r).ctl = false → C.ctl.nlog = 0 → MpiLoop C T s none
  | mixed {s} {r r' : Nat} : r < T.num → r' < T.num → C.ctl.finished (s r).ctl = true →
      C.ctl.finished (s r').ctl = false → MpiLoop C T s none
  | hang {s} : (∀ r, r < T.num → C.ctl.finished (s r).ctl = false) →
      JobHangs T.num (C.mpiPrepare T s) (fun r => (s r).m) → MpiLoop C T s none
  | step {s s' x} : (∀ r, r < T.num → C.ctl.finished (s r).ctl = false) → C.ctl.nlog ≠ 0 → C.MpiNext T s s' →
      MpiLoop C T s' x → MpiLoop C T s x

/-- A run of problem `Q` on domain `D` on all ranks, from arrays of zeros.  `none`: as in `MpiLoop`, or the set-up hangs. -/
inductive MpiMain {β : Type} [TOps β] (C : MhdConf β) (T : Ranks) (D : Domain β) (Q : MhdProblem β) :
    Option (Nat → HydroState β) → Prop
  | hang : JobHangs T.num (mhdSetupMpi C.d3 T C.S C.P D Q) (fun _ _ => ROps.lit 0) → MpiMain C T D Q none
  | run {M1 dt x} : JobRuns T.num (mhdSetupMpi C.d3 T C.S C.P D Q) (fun _ _ => ROps.lit 0) M1 →
      C.MpiDt T.num (fun _ => C.ctl.tCurrent) M1 dt →
      C.MpiLoop T (fun r => C.saveIf ⟨M1 r, C.ctl.tCurrent, dt r, 0, 0, []⟩) x →
      MpiMain C T D Q (x.map fun s r => C.saveIf (s r))

end MhdConf

end Verif
