import Verif.Model.InitHydro
import Verif.Model.ComputeDt
import Verif.Model.TimeLoop

/-!
# The hydro program as a whole

`main` (`src/main.cpp:139-166`) with a `SolverHydroMuscl` (`src/muscl/SolverHydroMuscl.h`), one process: the time loop of
`Model/TimeLoop` driving the loops of `Model/HydroMuscl` on the arrays of `Model/InitHydro`, with the time step of
`Model/ComputeDt`.  Every loop runs under any schedule, the reduction in any order, and variables the code leaves
uninitialised hold anything.
-/

namespace Verif

/-- Parameters of a run. -/
structure HydroConf (α : Type) where
  d3 : Bool
  S : Settings α
  P : Grid
  /-- `hydro.implementationVersion` -/
  impl : Int
  /-- `m_gravity_enabled` -/
  grav : Bool
  /-- what `Kokkos::Max` starts from -/
  bot : α
  /-- end time, start time, `nstepmax`, `noutput`, `nlog`; the scheme fields are not used -/
  ctl : Sim Unit α

/-- State of the solver object: arrays, clock, counters, files written.  A file is its number, its time and the
array handed to `save_data`. -/
structure HydroState (α : Type) where
  m : Addr → α
  t : α
  dt : α
  iteration : Nat
  timesSaved : Int
  files : List (Snapshot (Cell → Nat → α) α)

namespace HydroState

variable {α : Type}

/-- The counters, as the functions of the time loop see them. -/
def ctl (s : HydroState α) : SimState Unit α :=
  ⟨s.t, s.dt, s.iteration, s.timesSaved, (), (), []⟩

/-- The file `save_solution_impl` writes (`src/muscl/SolverHydroMuscl.h:809-820`). -/
def file (s : HydroState α) : Snapshot (Cell → Nat → α) α :=
  ⟨s.timesSaved, s.t, fun c v => s.m (c.at (if s.iteration % 2 = 0 then aU else aU2) v)⟩

/-- `save_solution` (`src/shared/SolverBase.cpp:234-244`). -/
def save (s : HydroState α) : HydroState α :=
  { s with files := s.files ++ [s.file], timesSaved := s.timesSaved + 1 }

end HydroState

namespace HydroConf

variable {α : Type} [ROps α]

/-- `SolverBase::compute_dt` (`src/shared/SolverBase.cpp:145-178`) without MPI: possible results. -/
def SetDt (C : HydroConf α) (s s' : HydroState α) : Prop :=
  ∃ d, ComputeDtLocal C.bot C.d3 C.S C.P C.grav s.iteration s.m d ∧
    s' = { s with dt := C.ctl.computeDt s.t d }

/-- `next_iteration` (`src/shared/SolverBase.cpp:205-220`) and `SolverHydroMuscl<dim>::next_iteration_impl`
(`src/muscl/SolverHydroMuscl.h:697-739`): possible results; the division by `m_nlog` is in `Loop`. -/
def Next (C : HydroConf α) (s s' : HydroState α) : Prop :=
  let s1 := if C.ctl.enableOutput && C.ctl.shouldSave s.ctl then s.save else s
  ∃ s2, C.SetDt s1 s2 ∧ ∃ (J : Junk α) (m' : Addr → α),
    Runs (godunov_unsplit C.d3 C.S C.P J C.impl C.grav s2.dt s2.iteration) s2.m m' ∧
    s' = { s2 with m := m', iteration := s2.iteration + 1, t := s2.t + s2.dt }

/-- `while (!solver->finished()) solver->next_iteration();` (`src/main.cpp:154-159`).  `none`: undefined
behaviour (`m_iteration % m_nlog`, `src/muscl/SolverHydroMuscl.h:705`). -/
inductive Loop (C : HydroConf α) : HydroState α → Option (HydroState α) → Prop
  | done {s} : C.ctl.finished s.ctl = true → Loop C s (some s)
  | ub {s} : C.ctl.finished s.ctl = false → C.ctl.nlog = 0 → Loop C s none
  | step {s s' r} : C.ctl.finished s.ctl = false → C.ctl.nlog ≠ 0 → C.Next s s' → Loop C s' r →
      Loop C s r

/-- States at the top of the loop. -/
inductive Reaches (C : HydroConf α) : HydroState α → HydroState α → Prop
  | refl {s} : Reaches C s s
  | tail {s s' s''} : Reaches C s s' → C.ctl.finished s'.ctl = false → C.Next s' s'' → Reaches C s s''

/-- `if (params.nOutput != 0) solver->save_solution();` (`src/main.cpp:145-146`, `:165-166`). -/
def saveIf (C : HydroConf α) (s : HydroState α) : HydroState α :=
  if C.ctl.nOutput ≠ 0 then s.save else s

/-- The constructor (`src/muscl/SolverHydroMuscl.h:290-300`) – the loops `setup` from memory `m0`, then the first
time step – and the first output (`src/main.cpp:145-146`). -/
def Start (C : HydroConf α) (setup : List (Launch Addr α)) (m0 : Addr → α) (t0 : α) (n0 : Int)
    (s : HydroState α) : Prop :=
  ∃ m1 s1, Runs setup m0 m1 ∧ C.SetDt ⟨m1, t0, C.ctl.tEnd, 0, n0, []⟩ s1 ∧ s = C.saveIf s1

/-- A run of problem `Q` on domain `D` from arrays of zeros. -/
def Main {β : Type} [TOps β] (C : HydroConf β) (D : Domain β) (Q : HydroProblem β)
    (r : Option (HydroState β)) : Prop :=
  ∃ s r', C.Start (hydroSetup C.d3 C.S C.P D Q) (fun _ => ROps.lit 0) C.ctl.tCurrent 0 s ∧
    C.Loop s r' ∧ r = r'.map C.saveIf

/-- A run restarted from a file with number `n` and time `t`, whose data have been read into `U` of memory `m`, all other
arrays – the gravity field among them – being as allocated (`src/muscl/SolverHydroMuscl.cpp:108-117,187-196`,
`src/muscl/SolverHydroMuscl.h:572-593`): boundaries and copy as in the constructor. -/
def Restarted (C : HydroConf α) (m : Addr → α) (n : Int) (t : α) (r : Option (HydroState α)) : Prop :=
  ∃ s r', C.Start (hydroBoundaries C.d3 C.P aU ++ [deepCopy C.d3 C.P aU2 aU]) m t n s ∧
    C.Loop s r' ∧ r = r'.map C.saveIf

end HydroConf

end Verif
