import Verif.Model.TimeLoop

/-!
# Restarted runs

`IO_ReadWrite::load_data_impl` (`src/utils/io/IO_ReadWrite.cpp:200-240,244-288`), `init` and `init_restart` of the MUSCL
solvers (`src/muscl/SolverHydroMuscl.cpp:108-117,187-196`, `src/muscl/SolverHydroMuscl.h:572-632`,
`src/muscl/SolverMHDMuscl.h:613-658`) and the start of `main` (`src/main.cpp:139-146`).  What a file holds and how it is
read is `Model/Hdf5`; here a file is its number, its time and the array content read from it.  `restart_enabled` is
taken as set.  The printed message is left out.
-/

namespace Verif

/-- `hdf5_enabled and isHdf5` inside `#ifdef USE_HDF5` (`src/utils/io/IO_ReadWrite.cpp:207-223`, 3D: `:251-267`):
is the file `run.restart_filename` read at all? -/
def restartReads (useHdf5 hdf5Enabled : Bool) (filename : List Char) : Bool :=
  let suffix := ['.', 'h', '5']
  let isHdf5 := if filename.length ≥ 3 then
      decide ((filename.drop (filename.length - suffix.length)).take suffix.length = suffix)
    else false
  useHdf5 && (hdf5Enabled && isHdf5)

/-- What `load_data` brings back: array content, `reader.iStep`, `reader.totalTime`
(`src/utils/io/IO_ReadWrite.cpp:236-237`). -/
structure RestartFile (D α : Type) where
  data : D
  number : Int
  time : α

namespace Sim

variable {D α : Type} [ROps α]

/-- Constructor of the MUSCL solvers with `run.restart_enabled` (`src/muscl/SolverHydroMuscl.h:290-299`; `init_restart` of
`:572-593`).  `file` is `none` if nothing was read (`restartReads`): the array keeps the zeros it was allocated with
(`zero`), time and number keep their initial values (`src/shared/SolverBase.cpp:35,118`).  `reset`:
`run.restart_reset_totaltime`. -/
def reconstruct (S : Sim D α) (zero : D) (file : Option (RestartFile D α)) (reset : Bool) :
    SimState D α :=
  let u := match file with | some f => f.data | none => zero
  let timesSaved := match file with | some f => f.number | none => 0
  let t := match file with | some f => f.time | none => S.tCurrent
  let t := if reset then ROps.lit 0 else t
  { t := t, dt := S.computeDt t (S.dtLocal (S.fill u)), iteration := 0, timesSaved := timesSaved,
    U := S.fill u, U2 := S.fill u, out := [] }

/-- Start of the loop in `main` (`src/main.cpp:139-146`) for a restarted run. -/
def restart (S : Sim D α) (zero : D) (file : Option (RestartFile D α)) (reset : Bool) :
    SimState D α :=
  let s := S.reconstruct zero file reset
  if S.nOutput ≠ 0 then saveSolution s else s

/-- The whole program, restarted. -/
def Restarted (S : Sim D α) (zero : D) (file : Option (RestartFile D α)) (reset : Bool)
    (r : Option (SimState D α)) : Prop :=
  ∃ r', S.Loop (S.restart zero file reset) r' ∧ r = r'.map S.finish

end Sim

end Verif
