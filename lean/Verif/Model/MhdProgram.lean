import Verif.Model.HydroProgram
import Verif.Model.InitMhd
import Verif.Model.OtherDt

/-!
# The MHD program as a whole

`main` (`src/main.cpp:139-166`) with a `SolverMHDMuscl` (`src/muscl/SolverMHDMuscl.h`), one process.  As
`Model/HydroProgram`; the difference is that a step computes its time step itself, after the ghost fill and the
conversion to primitive variables.
-/

namespace Verif

/-- Parameters of a run. -/
structure MhdConf (α : Type) where
  d3 : Bool
  S : MSettings α
  P : Grid
  /-- `mesh.xmin`, read by the trace with rotation -/
  xmin : α
  /-- `hydro.implementationVersion` -/
  impl : Int
  /-- what `Kokkos::Max` starts from -/
  bot : α
  /-- end time, start time, `nstepmax`, `noutput`, `nlog`; the scheme fields are not used -/
  ctl : Sim Unit α

namespace MhdConf

variable {α : Type} [ROps α]

/-- `SolverBase::compute_dt` (`src/shared/SolverBase.cpp:148-178`) without MPI: possible results; the primitive
variables it reads are in array `Q` of `m`. -/
def Dt (C : MhdConf α) (t : α) (m : Addr → α) (dt : α) : Prop :=
  ∃ d, MhdComputeDtLocal C.bot C.d3 C.S C.P m d ∧ dt = C.ctl.computeDt t d

/-- `SolverMHDMuscl<dim>::godunov_unsplit` (`src/muscl/SolverMHDMuscl.h:791-805`) with `godunov_unsplit_impl`
(`src/muscl/SolverMHDMuscl.cpp:375-396`, `:467-488` and on): ghost cells, copy and primitive variables, then the time step,
then the scheme. -/
def Step (C : MhdConf α) (t : α) (iteration : Nat) (m : Addr → α) (dt : α) (m' : Addr → α) : Prop :=
  let Uin := if iteration % 2 = 0 then aU else aU2
  let Uout := if iteration % 2 = 0 then aU2 else aU
  ∃ m1, Runs (mhdPrepare C.d3 C.S C.P Uin Uout) m m1 ∧ C.Dt t m1 dt ∧
    ∃ J : MJunk α, Runs (mhdAdvance C.d3 C.S C.P J C.xmin C.impl dt Uin Uout) m1 m'

/-- What is saved at the start of a pass. -/
def saveDue (C : MhdConf α) (s : HydroState α) : HydroState α :=
  if C.ctl.enableOutput && C.ctl.shouldSave s.ctl then s.save else s

/-- `next_iteration` (`src/shared/SolverBase.cpp:205-220`) and `SolverMHDMuscl<dim>::next_iteration_impl`
(`src/muscl/SolverMHDMuscl.h:747-782`): possible results; the division by `m_nlog` is in `Loop`.
`save_solution_impl` is that of the hydro solver (`src/muscl/SolverMHDMuscl.h:894-907`). -/
def Next (C : MhdConf α) (s s' : HydroState α) : Prop :=
  ∃ dt m', C.Step (C.saveDue s).t (C.saveDue s).iteration (C.saveDue s).m dt m' ∧
    s' = { C.saveDue s with m := m', dt := dt, iteration := s.iteration + 1, t := s.t + dt }

/-- `while (!solver->finished()) solver->next_iteration();` (`src/main.cpp:154-159`).  `none`: undefined
behaviour (`m_iteration % m_nlog`, `src/muscl/SolverMHDMuscl.h:756`). -/
inductive Loop (C : MhdConf α) : HydroState α → Option (HydroState α) → Prop
  | done {s} : C.ctl.finished s.ctl = true → Loop C s (some s)
  | ub {s} : C.ctl.finished s.ctl = false → C.ctl.nlog = 0 → Loop C s none
  | step {s s' r} : C.ctl.finished s.ctl = false → C.ctl.nlog ≠ 0 → C.Next s s' → Loop C s' r →
      Loop C s r

/-- States at the top of the loop. -/
inductive Reaches (C : MhdConf α) : HydroState α → HydroState α → Prop
  | refl {s} : Reaches C s s
  | tail {s s' s''} : Reaches C s s' → C.ctl.finished s'.ctl = false → C.Next s' s'' → Reaches C s s''

/-- `if (params.nOutput != 0) solver->save_solution();` (`src/main.cpp:145-146`, `:165-166`). -/
def saveIf (C : MhdConf α) (s : HydroState α) : HydroState α :=
  if C.ctl.nOutput ≠ 0 then s.save else s

/-- The constructor (`src/muscl/SolverMHDMuscl.h:389-403`) – the loops `setup` from memory `m0`, then the first
time step – and the first output (`src/main.cpp:145-146`). -/
def Start (C : MhdConf α) (setup : List (Launch Addr α)) (m0 : Addr → α) (t0 : α) (n0 : Int)
    (s : HydroState α) : Prop :=
  ∃ m1 dt, Runs setup m0 m1 ∧ C.Dt t0 m1 dt ∧ s = C.saveIf ⟨m1, t0, dt, 0, n0, []⟩

/-- A run of problem `Q` on domain `D` from arrays of zeros. -/
def Main {β : Type} [TOps β] (C : MhdConf β) (D : Domain β) (Q : MhdProblem β)
    (r : Option (HydroState β)) : Prop :=
  ∃ s r', C.Start (mhdSetup C.d3 C.S C.P D Q) (fun _ => ROps.lit 0) C.ctl.tCurrent 0 s ∧
    C.Loop s r' ∧ r = r'.map C.saveIf

/-- A run restarted from a file with number `n` and time `t`, whose data have been read into `U` of memory `m`
(`src/muscl/SolverMHDMuscl.h:615-643`, without `restart_reset_totaltime`): boundaries, copy and primitive variables as in
the constructor. -/
def Restarted (C : MhdConf α) (m : Addr → α) (n : Int) (t : α) (r : Option (HydroState α)) : Prop :=
  ∃ s r', C.Start (mhdPrepare C.d3 C.S C.P aU aU2) m t n s ∧ C.Loop s r' ∧ r = r'.map C.saveIf

end MhdConf

end Verif
