import Verif.Model.Ops

/-!
# Time loop and double buffering

`SolverBase` (`src/shared/SolverBase.cpp`), the main program (`src/main.cpp`) and the drivers
`next_iteration_impl` of the MUSCL solvers (`src/muscl/SolverHydroMuscl.h:695-760`,
`src/muscl/SolverMHDMuscl.h:745-805`).

The content of a conservative array is an abstract type `D`; the numerical scheme enters only through
* `fill` – `make_boundaries`,
* `dtLocal` – the CFL time step (`compute_dt_local`, already reduced over ranks with MPI, see C12),
* `update` – everything `godunov_unsplit_impl` does after the boundary fill:
  `deep_copy(data_out, data_in)`, primitives, fluxes, update of `data_out`.
Timers, printing and the restart file are left out; `int` counters are unbounded.
-/

namespace Verif

/-- Parameters of a run and the numerical scheme. -/
structure Sim (D α : Type) where
  /-- `run.tEnd` (`src/shared/SolverBase.cpp:119`) -/
  tEnd : α
  /-- `run.tCurrent` (`src/shared/SolverBase.cpp:118`) -/
  tCurrent : α
  /-- `run.nstepmax` (`src/shared/HydroParams.cpp:32`) -/
  nStepmax : Int
  /-- `run.noutput` (`src/shared/HydroParams.cpp:34`) -/
  nOutput : Int
  /-- `run.nlog` (`src/shared/SolverBase.cpp:122`) -/
  nlog : Int
  /-- the MHD solvers compute the time step from the ghost-filled array inside the step
  (`src/muscl/SolverMHDMuscl.cpp:391-396`), the hydro solver before it
  (`src/muscl/SolverHydroMuscl.h:730-737`) -/
  dtInside : Bool
  fill : D → D
  dtLocal : D → α
  update : D → α → D

/-- One written snapshot: `save_data(U, Uhost, m_times_saved, m_t)`. -/
structure Snapshot (D α : Type) where
  number : Int
  time : α
  data : D

/-- State of a `SolverBase` object (`src/shared/SolverBase.h:71-76,142`), its two arrays `U`, `U2`, and the
files written so far. -/
structure SimState (D α : Type) where
  t : α
  dt : α
  iteration : Int
  timesSaved : Int
  U : D
  U2 : D
  out : List (Snapshot D α)

namespace Sim

variable {D α : Type} [ROps α]

/-- `params.enableOutput` (`src/shared/HydroParams.cpp:34-37`). -/
def enableOutput (S : Sim D α) : Bool := if S.nOutput = 0 then false else true

/-- End of `SolverBase::compute_dt` (`src/shared/SolverBase.cpp:172-176`). -/
def computeDt (S : Sim D α) (t dtNew : α) : α :=
  if ROps.ltb S.tEnd (t + dtNew) then S.tEnd - t else dtNew

/-- `SolverBase::finished` (`src/shared/SolverBase.cpp:195-201`). -/
def finished (S : Sim D α) (s : SimState D α) : Bool :=
  ROps.leb (S.tEnd - ROps.lit (1 / 10 ^ 14)) s.t || decide (s.iteration ≥ S.nStepmax)

/-- `save_solution` and `save_solution_impl` (`src/shared/SolverBase.cpp:234-244`,
`src/muscl/SolverHydroMuscl.h:809-820`). -/
def saveSolution (s : SimState D α) : SimState D α :=
  let data := if s.iteration.tmod 2 = 0 then s.U else s.U2
  { s with out := s.out ++ [⟨s.timesSaved, s.t, data⟩], timesSaved := s.timesSaved + 1 }

/-- `SolverBase::should_save_solution` (`src/shared/SolverBase.cpp:264-290`). -/
def shouldSave (S : Sim D α) (s : SimState D α) : Bool :=
  let interval := S.tEnd / ROps.lit (S.nOutput : ℚ)
  if S.nOutput < 0 then true
  else if ROps.ltb interval (s.t - ROps.lit ((s.timesSaved - 1 : Int) : ℚ) * interval) then true
  else if ROps.ltb (ROps.fabs (s.t - S.tEnd)) (ROps.lit (1 / 10 ^ 12)) then true
  else false

/-- `godunov_unsplit(dt)` (`src/muscl/SolverHydroMuscl.h:747-760`) and
`SolverMHDMuscl::godunov_unsplit()` (`src/muscl/SolverMHDMuscl.h:793-805`), with the time step computation
of `next_iteration_impl` (hydro) or of `godunov_unsplit_impl` (MHD). -/
def godunov (S : Sim D α) (s : SimState D α) : SimState D α :=
  let step (dataIn : D) : D × D × α :=
    let filled := S.fill dataIn
    let dt := S.computeDt s.t (S.dtLocal (if S.dtInside then filled else dataIn))
    (filled, S.update filled dt, dt)
  if s.iteration.tmod 2 = 0 then
    let r := step s.U
    { s with U := r.1, U2 := r.2.1, dt := r.2.2 }
  else
    let r := step s.U2
    { s with U2 := r.1, U := r.2.1, dt := r.2.2 }

/-- `next_iteration` (`src/shared/SolverBase.cpp:205-220`) with the `next_iteration_impl` of the MUSCL
solvers (`src/muscl/SolverHydroMuscl.h:697-739`, `src/muscl/SolverMHDMuscl.h:747-784`).  `none`: undefined
behaviour (`m_iteration % m_nlog` with `m_nlog == 0`). -/
def nextIteration (S : Sim D α) (s : SimState D α) : Option (SimState D α) :=
  if S.nlog = 0 then none
  else
    let s1 := if S.enableOutput && S.shouldSave s then saveSolution s else s
    let s2 := S.godunov s1
    some { s2 with iteration := s2.iteration + 1, t := s2.t + s2.dt }

/-- `while (!solver->finished()) solver->next_iteration();` (`src/main.cpp:154-159`): big-step relation.
`none` = undefined behaviour. -/
inductive Loop (S : Sim D α) : SimState D α → Option (SimState D α) → Prop
  | done {s} : S.finished s = true → Loop S s (some s)
  | ub {s} : S.finished s = false → S.nextIteration s = none → Loop S s none
  | step {s s' r} : S.finished s = false → S.nextIteration s = some s' → Loop S s' r → Loop S s r

/-- States at the top of the loop. -/
inductive Visits (S : Sim D α) : SimState D α → SimState D α → Prop
  | refl {s} : Visits S s s
  | tail {s s' s''} : Visits S s s' → S.finished s' = false → S.nextIteration s' = some s'' →
      Visits S s s''

/-- Constructor of the MUSCL solvers (`src/shared/SolverBase.cpp:22-60,115-144`,
`src/muscl/SolverHydroMuscl.h:290-300`): initial condition `u0`, boundary fill, copy, first time step. -/
def construct (S : Sim D α) (u0 : D) : SimState D α where
  t := S.tCurrent
  dt := S.computeDt S.tCurrent (S.dtLocal (S.fill u0))
  iteration := 0
  timesSaved := 0
  U := S.fill u0
  U2 := S.fill u0
  out := []

/-- Start of the loop in `main` (`src/main.cpp:139-146`). -/
def start (S : Sim D α) (u0 : D) : SimState D α :=
  let s := S.construct u0
  if S.nOutput ≠ 0 then saveSolution s else s

/-- After the loop (`src/main.cpp:164-166`). -/
def finish (S : Sim D α) (s : SimState D α) : SimState D α :=
  if S.nOutput ≠ 0 then saveSolution s else s

/-- The whole program. -/
def Main (S : Sim D α) (u0 : D) (r : Option (SimState D α)) : Prop :=
  ∃ r', S.Loop (S.start u0) r' ∧ r = r'.map S.finish

end Sim

end Verif
