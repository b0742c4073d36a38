import Verif.Model.HydroProgram
import Verif.Model.Halo

/-!
# The hydro program on several MPI processes

`main` (`src/main.cpp:139-166`) with a `SolverHydroMuscl` built with `USE_MPI`: `mx × my × mz` ranks (in 2D `mz = 1`), each with
its own arrays of `P`, its part of the domain.  Within a phase – the set-up or one time step – the ranks run as a `Net`: any
interleaving, sends buffered or not.  `MPI_Allreduce` separates the phases: no rank gets its result before all have called
it, so nothing of the next phase can begin before everything of this one, all receives included, has been done.  Builds
with `real_t = double` (for `float` see C12).
-/

namespace Verif

variable {α : Type} [ROps α]

/-- Arrangement of the ranks (`src/shared/HydroParams.cpp:230-233`, `:247-257`; in 2D only `mx * my` ranks take part) and
layout of the arrays. -/
structure Ranks where
  mx : Int
  my : Int
  mz : Int
  lay : Layout

/-- Number of ranks. -/
def Ranks.num (T : Ranks) : Nat := (T.mx * T.my * T.mz).toNat

/-- `SolverHydroMuscl<dim>::make_boundaries` with MPI (`src/muscl/SolverHydroMuscl.cpp:22-64`). -/
def hydroBoundariesMpi (d3 : Bool) (T : Ranks) (P : Grid) (U : Nat) (r : Nat) : List (MpiOp α) :=
  if d3 then makeBoundariesMpi3D T.lay false P U T.mx T.my T.mz r
  else makeBoundariesMpi2D T.lay false P U T.mx T.my r

/-- `SolverHydroMuscl<dim>::godunov_unsplit` (`src/muscl/SolverHydroMuscl.h:747-760`) with `godunov_unsplit_impl`
(`src/muscl/SolverHydroMuscl.cpp:257-323`, `:330-403`) on rank `r`. -/
def godunovMpi (d3 : Bool) (T : Ranks) (S : Settings α) (P : Grid) (J : Junk α) (impl : Int) (grav : Bool) (dt : α)
    (iteration : Nat) (r : Nat) : List (MpiOp α) :=
  if iteration % 2 = 0 then
    hydroBoundariesMpi d3 T P aU r ++ [.kernels (afterFill d3 S P J impl grav dt aU aU2)]
  else
    hydroBoundariesMpi d3 T P aU2 r ++ [.kernels (afterFill d3 S P J impl grav dt aU2 aU)]

/-- The part of the domain of rank `r` (`src/shared/HydroParams.cpp:265-275`). -/
def Domain.ofRank {β : Type} (D : Domain β) (T : Ranks) (r : Nat) : Domain β :=
  { D with i_mpi := (cartCoords T.my T.mz r).i, j_mpi := (cartCoords T.my T.mz r).j,
           k_mpi := (cartCoords T.my T.mz r).k }

/-- End of the constructor of `SolverHydroMuscl` (`src/muscl/SolverHydroMuscl.h:290-297`) on rank `r`, before the time step
is computed. -/
def hydroSetupMpi {β : Type} [TOps β] (d3 : Bool) (T : Ranks) (S : Settings β) (P : Grid) (D : Domain β)
    (Q : HydroProblem β) (r : Nat) : List (MpiOp β) :=
  [.kernels [hydroInitLoop d3 S P (D.ofRank T r) aU Q]] ++ hydroBoundariesMpi d3 T P aU r ++
    [.kernels [deepCopy d3 P aU2 aU]]

/-- The job can end with memories `M'`. -/
def JobRuns (N : Nat) (prog : Nat → List (MpiOp α)) (M M' : Nat → Addr → α) : Prop :=
  ∃ buffered s, Relation.ReflTransGen (Net.Step N prog buffered) (Net.start M) s ∧ Net.Done N prog s ∧
    M' = fun r => (s.rank r).mem

/-- The job can hang. -/
def JobHangs (N : Nat) (prog : Nat → List (MpiOp α)) (M : Nat → Addr → α) : Prop :=
  ∃ buffered s, Relation.ReflTransGen (Net.Step N prog buffered) (Net.start M) s ∧ ¬ Net.Done N prog s ∧
    ∀ s', ¬ Net.Step N prog buffered s s'

namespace HydroConf

/-- `SolverBase::compute_dt` (`src/shared/SolverBase.cpp:145-178`) with MPI: possible results. -/
def MpiSetDt (C : HydroConf α) (N : Nat) (s s' : Nat → HydroState α) : Prop :=
  ∃ dtLocal dtGlobal : Nat → α,
    (∀ r, r < N → ComputeDtLocal C.bot C.d3 C.S C.P C.grav (s r).iteration (s r).m (dtLocal r)) ∧
    AllReduce mpiMin N dtLocal dtGlobal ∧
    ∀ r, r < N → s' r = { s r with dt := C.ctl.computeDt (s r).t (dtGlobal r) }

/-- `next_iteration` up to the time step (`src/shared/SolverBase.cpp:205-220`, `src/muscl/SolverHydroMuscl.h:697-724`) on
all ranks. -/
def MpiBefore (C : HydroConf α) (N : Nat) (s s2 : Nat → HydroState α) : Prop :=
  C.MpiSetDt N (fun r => if C.ctl.enableOutput && C.ctl.shouldSave (s r).ctl then (s r).save else s r) s2

/-- The job of one step. -/
def mpiStep (C : HydroConf α) (T : Ranks) (J : Nat → Junk α) (s : Nat → HydroState α) (r : Nat) : List (MpiOp α) :=
  godunovMpi C.d3 T C.S C.P (J r) C.impl C.grav (s r).dt (s r).iteration r

/-- `next_iteration` (`src/shared/SolverBase.cpp:205-220`, `src/muscl/SolverHydroMuscl.h:697-739`) on all ranks: possible
results. -/
def MpiNext (C : HydroConf α) (T : Ranks) (s s' : Nat → HydroState α) : Prop :=
  ∃ s2, C.MpiBefore T.num s s2 ∧ ∃ (J : Nat → Junk α) (M' : Nat → Addr → α),
    JobRuns T.num (C.mpiStep T J s2) (fun r => (s2 r).m) M' ∧
    ∀ r, r < T.num → s' r = { s2 r with m := M' r, iteration := (s2 r).iteration + 1, t := (s2 r).t + (s2 r).dt }

/-- `while (!solver->finished()) solver->next_iteration();` (`src/main.cpp:154-159`) on all ranks.  `none`: undefined behaviour
(`m_iteration % m_nlog`), or the job hangs: in the messages of a step, or because some ranks have left the loop and
others wait for them in `MPI_Allreduce`. -/
inductive MpiLoop (C : HydroConf α) (T : Ranks) : (Nat → HydroState α) → Option (Nat → HydroState α) → Prop
  | done {s} : (∀ r, r < T.num → C.ctl.finished (s r).ctl = true) → MpiLoop C T s (some s)
  | ub {s} {r : Nat} : r < T.num → C.ctl.finished (s r).ctl = false → C.ctl.nlog = 0 → MpiLoop C T s none
  | mixed {s} {r r' : Nat} : r < T.num → r' < T.num → C.ctl.finished (s r).ctl = true →
      C.ctl.finished (s r').ctl = false → MpiLoop C T s none
  | hang {s s2} {J : Nat → Junk α} : (∀ r, r < T.num → C.ctl.finished (s r).ctl = false) → C.MpiBefore T.num s s2 →
      JobHangs T.num (C.mpiStep T J s2) (fun r => (s2 r).m) → MpiLoop C T s none
  | step {s s' x} : (∀ r, r < T.num → C.ctl.finished (s r).ctl = false) → C.ctl.nlog ≠ 0 → C.MpiNext T s s' →
      MpiLoop C T s' x → MpiLoop C T s x

/-- A run of problem `Q` on domain `D` on all ranks, from arrays of zeros.  `none`: as in `MpiLoop`, or the set-up hangs. -/
inductive MpiMain {β : Type} [TOps β] (C : HydroConf β) (T : Ranks) (D : Domain β) (Q : HydroProblem β) :
    Option (Nat → HydroState β) → Prop
  | hang : JobHangs T.num (hydroSetupMpi C.d3 T C.S C.P D Q) (fun _ _ => ROps.lit 0) → MpiMain C T D Q none
  | run {M1 s1 x} : JobRuns T.num (hydroSetupMpi C.d3 T C.S C.P D Q) (fun _ _ => ROps.lit 0) M1 →
      C.MpiSetDt T.num (fun r => ⟨M1 r, C.ctl.tCurrent, C.ctl.tEnd, 0, 0, []⟩) s1 →
      C.MpiLoop T (fun r => C.saveIf (s1 r)) x → MpiMain C T D Q (x.map fun s r => C.saveIf (s r))

end HydroConf

end Verif
