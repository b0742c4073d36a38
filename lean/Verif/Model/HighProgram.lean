import Verif.Model.HydroProgram
import Verif.Model.OtherDt
import Verif.Model.InitHigh

/-!
# The SDM and MOOD programs as a whole

`main` (`src/main.cpp:139-166`) with a `SolverHydroSDM` (`src/sdm/SolverHydroSDM.h`) or a `SolverHydroMood`
(`src/mood/SolverHydroMood.h`), one process (the SDM solver on several: `Model/SdmMpi`).
As `Model/HydroProgram`; what the two solvers have in common is `Driver`.

Not modelled: the problems with boundary conditions of their own (wedge and jet, see `Model/Wedge`), and in the SDM solver the
viscous terms; limiter and positivity preservation are in `Model/SdmFixed` (all off by default).
-/

namespace Verif

/-- What the time loop uses of a solver. -/
structure Driver (α : Type) where
  /-- end time, start time, `nstepmax`, `noutput`, `nlog`; the scheme fields are not used -/
  ctl : Sim Unit α
  /-- what the number of steps is divided by to decide about a log line -/
  every : Int
  /-- the array with the solution after that number of steps -/
  cur : Nat → Nat
  /-- `compute_dt_local`: possible results -/
  Dt : Nat → (Addr → α) → α → Prop
  /-- `time_integration`: possible results -/
  Step : Nat → α → (Addr → α) → (Addr → α) → Prop

namespace Driver

variable {α : Type} [ROps α]

/-- The file `save_solution_impl` writes (`src/sdm/SolverHydroSDM.h:2042-2051`, `src/mood/SolverHydroMood.h:1657-1668`). -/
def file (V : Driver α) (s : HydroState α) : Snapshot (Cell → Nat → α) α :=
  ⟨s.timesSaved, s.t, fun c v => s.m (c.at (V.cur s.iteration) v)⟩

/-- `save_solution` (`src/shared/SolverBase.cpp:234-244`). -/
def save (V : Driver α) (s : HydroState α) : HydroState α :=
  { s with files := s.files ++ [V.file s], timesSaved := s.timesSaved + 1 }

/-- What is saved at the start of a pass (`src/sdm/SolverHydroSDM.h:911-922`, `src/mood/SolverHydroMood.h:806-818`). -/
def saveDue (V : Driver α) (s : HydroState α) : HydroState α :=
  if V.ctl.enableOutput && V.ctl.shouldSave s.ctl then V.save s else s

/-- `next_iteration` (`src/shared/SolverBase.cpp:205-220`) and `next_iteration_impl` (`src/sdm/SolverHydroSDM.h:893-932`,
`src/mood/SolverHydroMood.h:795-828`) with `compute_dt` (`src/shared/SolverBase.cpp:145-178`): possible results; the
division for the log line is in `Loop`. -/
def Next (V : Driver α) (s s' : HydroState α) : Prop :=
  ∃ d m', V.Dt s.iteration s.m d ∧ V.Step s.iteration (V.ctl.computeDt s.t d) s.m m' ∧
    s' = { V.saveDue s with
      m := m', dt := V.ctl.computeDt s.t d, iteration := s.iteration + 1, t := s.t + V.ctl.computeDt s.t d }

/-- `while (!solver->finished()) solver->next_iteration();` (`src/main.cpp:154-159`).  `none`: undefined
behaviour (`m_iteration % params.nlog`, `src/sdm/SolverHydroSDM.h:904`). -/
inductive Loop (V : Driver α) : HydroState α → Option (HydroState α) → Prop
  | done {s} : V.ctl.finished s.ctl = true → Loop V s (some s)
  | ub {s} : V.ctl.finished s.ctl = false → V.every = 0 → Loop V s none
  | step {s s' r} : V.ctl.finished s.ctl = false → V.every ≠ 0 → V.Next s s' → Loop V s' r → Loop V s r

/-- States at the top of the loop. -/
inductive Reaches (V : Driver α) : HydroState α → HydroState α → Prop
  | refl {s} : Reaches V s s
  | tail {s s' s''} : Reaches V s s' → V.ctl.finished s'.ctl = false → V.Next s' s'' → Reaches V s s''

/-- `if (params.nOutput != 0) solver->save_solution();` (`src/main.cpp:145-146`, `:165-166`). -/
def saveIf (V : Driver α) (s : HydroState α) : HydroState α :=
  if V.ctl.nOutput ≠ 0 then V.save s else s

/-- The constructor from arrays of zeros – initial condition `init`, first time step, then the loops `post` – and the first output
(`src/sdm/SolverHydroSDM.h:661-801`, `src/mood/SolverHydroMood.h:382-452`, `src/main.cpp:145-146`). -/
def Start (V : Driver α) (init post : List (Launch Addr α)) (s : HydroState α) : Prop :=
  ∃ m1 d m2, Runs init (fun _ => ROps.lit 0) m1 ∧ V.Dt 0 m1 d ∧ Runs post m1 m2 ∧
    s = V.saveIf ⟨m2, V.ctl.tCurrent, V.ctl.computeDt V.ctl.tCurrent d, 0, 0, []⟩

/-- The whole program. -/
def Main (V : Driver α) (init post : List (Launch Addr α)) (r : Option (HydroState α)) : Prop :=
  ∃ s r', V.Start init post s ∧ V.Loop s r' ∧ r = r'.map V.saveIf

/-- States at the top of the loop of the program. -/
def Visits (V : Driver α) (init post : List (Launch Addr α)) (s : HydroState α) : Prop :=
  ∃ s0, V.Start init post s0 ∧ V.Reaches s0 s

end Driver

/-! ### SDM -/

/-- Parameters of a run of the SDM solver. -/
structure SdmConf (α : Type) where
  M : Sdm.Scheme α
  S : Settings α
  P : Grid
  /-- `sdm/ssprk2`, `sdm/ssprk3`, `sdm/ssprk54`, `sdm/rescale_dt_enabled` (`src/sdm/SolverHydroSDM.h:506-512`) -/
  ssprk2 : Bool
  ssprk3 : Bool
  ssprk54 : Bool
  rescale : Bool
  /-- what `Kokkos::Max` starts from -/
  bot : α
  /-- end time, start time, `nstepmax`, `noutput`, `nlog`; the scheme fields are not used -/
  ctl : Sim Unit α

namespace SdmConf

variable {α : Type} [Start.FOps α]

/-- The integrator that runs. -/
def ti (C : SdmConf α) : Mood.TimeInt := Sdm.selectTimeInt C.ssprk2 C.ssprk3 C.ssprk54

/-- The solver: `compute_dt_local` and `time_integration` (`src/sdm/SolverHydroSDM.h:864-889`, `:939-987`); the solution is always in
`U`. -/
def driver (C : SdmConf α) : Driver α where
  ctl := C.ctl
  every := C.ctl.nlog
  cur _ := Sdm.sU
  Dt _ m d := Sdm.ComputeDtLocal TOps.pow C.bot C.M C.rescale C.ssprk3 C.ssprk54 C.S C.P m d
  Step _ dt m m' := ∃ junk, Runs (Sdm.timeStep C.M C.S C.P junk C.ti dt) m m'

/-- The initial condition (`src/sdm/SolverHydroSDM.h:661-723`). -/
def init (C : SdmConf α) (D : Domain α) (Q : Start.SdmProblem α) : List (Launch Addr α) :=
  [Start.sdmInit C.M C.S C.P D Sdm.sU Q]

/-- `make_boundaries(U)` (`src/sdm/SolverHydroSDM.h:798-799`). -/
def post (C : SdmConf α) : List (Launch Addr α) := Sdm.makeBoundaries C.M C.P Sdm.sU

/-- A run of problem `Q` on domain `D`. -/
def Main (C : SdmConf α) (D : Domain α) (Q : Start.SdmProblem α) (r : Option (HydroState α)) : Prop :=
  C.driver.Main (C.init D Q) C.post r

end SdmConf

/-! ### MOOD -/

/-- Parameters of a run of the MOOD solver. -/
structure MoodConf (α : Type) where
  lay : Layout
  M : Mood.Scheme α
  S : Settings α
  P : Grid
  /-- `mood/ssprk2`, `mood/ssprk3`, `mood/ssprk54` (`src/mood/SolverHydroMood.h:328-331`) -/
  ssprk2 : Bool
  ssprk3 : Bool
  ssprk54 : Bool
  /-- what `Kokkos::Max` starts from -/
  bot : α
  /-- end time, start time, `nstepmax`, `noutput`; the other fields are not used -/
  ctl : Sim Unit α

namespace MoodConf

variable {α : Type} [TOps α]

/-- The integrator that runs. -/
def ti (C : MoodConf α) : Mood.TimeInt := Mood.selectTimeInt C.ssprk2 C.ssprk3 C.ssprk54

/-- The solver: `compute_dt_local` and `time_integration` (`src/mood/SolverHydroMood.h:760-791`, `:835-898`); a log line every ten
steps (`:800`), the solution by turns in `U` and `U2` (`:840-847`, `:1661-1664`). -/
def driver (C : MoodConf α) : Driver α where
  ctl := C.ctl
  every := 10
  cur it := if it % 2 = 0 then aU else aU2
  Dt it m d := Mood.ComputeDtLocal TOps.pow C.bot C.lay C.M.d3 (Mood.STENCIL_DEGREE C.M.id) C.ssprk3 C.S C.P it m d
  Step it dt m m' := ∃ J, Runs (Mood.time_integration C.lay C.M C.S C.P J dt C.ti it) m m'

/-- The initial condition (`src/mood/SolverHydroMood.h:382-422`). -/
def init (C : MoodConf α) (D : Domain α) (Q : Start.MoodProblem α) : List (Launch Addr α) :=
  [Start.moodInit C.lay C.M.d3 C.S C.P D aU Q]

/-- `make_boundaries(U)`, `deep_copy(U2, U)` (`src/mood/SolverHydroMood.h:446-450`). -/
def post (C : MoodConf α) : List (Launch Addr α) := hydroBoundaries C.M.d3 C.P aU ++ [deepCopy C.M.d3 C.P aU2 aU]

/-- A run of problem `Q` on domain `D`. -/
def Main (C : MoodConf α) (D : Domain α) (Q : Start.MoodProblem α) (r : Option (HydroState α)) : Prop :=
  C.driver.Main (C.init D Q) C.post r

end MoodConf

end Verif
