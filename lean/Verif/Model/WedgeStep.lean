import Verif.Model.JetMpi

/-!
# The step of the wedge problem without MPI

Every call of `make_boundaries` within a step builds its `WedgeParams` from `m_t` (`src/sdm/SolverHydroSDM.h:1654`), which changes only
after the step (`src/shared/SolverBase.cpp:218`).
-/

namespace Verif.SdmConf

variable {α : Type} [Start.FOps α]

/-- `time_integration` for the problem "wedge" in a build without MPI, at time `m_t = t`, by the method `ti`; `w` is the constructor of
`WedgeParams` (`src/sdm/SolverHydroSDM.h:939-987`, `:1633`, `:1650-1660`).  2D. -/
def wedgeStep (C : SdmConf α) (D : Domain α) (w : α → Special.WedgeParams α) (ti : Mood.TimeInt) (t : α)
    (junk : ℕ → Dir → Cell → Sdm.Pt → HState α) (dt : α) : List (Launch Addr α) :=
  Sdm.stepWith (fun A => Special.sdmWedgeBoundaries C.M (w t) C.S C.P D A)
    (fun i A L => Sdm.divergence C.M C.S C.P (junk i) A ++ L) C.M C.P ti dt

/-- `while (!solver->finished()) solver->next_iteration();` for the problem "wedge": memory, time and number of steps before and after
(`src/main.cpp:154-159`, `src/shared/SolverBase.cpp:145-220`, `src/sdm/SolverHydroSDM.h:893-932`).  Output is left out; `nlog` is not 0. -/
inductive WedgeLoop (C : SdmConf α) (D : Domain α) (w : α → Special.WedgeParams α) :
    (Addr → α) → α → ℕ → (Addr → α) → α → ℕ → Prop
  | done {m t it} : C.ctl.finished (⟨m, t, ROps.lit 0, it, 0, []⟩ : HydroState α).ctl = true → WedgeLoop C D w m t it m t it
  | step {m t it d junk m' m2 t2 it2} : C.ctl.finished (⟨m, t, ROps.lit 0, it, 0, []⟩ : HydroState α).ctl = false →
      C.driver.Dt it m d → Runs (C.wedgeStep D w C.ti t junk (C.ctl.computeDt t d)) m m' →
      WedgeLoop C D w m' (t + C.ctl.computeDt t d) (it + 1) m2 t2 it2 → WedgeLoop C D w m t it m2 t2 it2

/-- The run of the problem "wedge" in a build without MPI: the initial condition for time 0 (`src/sdm/SolverHydroSDM.h:1978-1985`), the
ghost cells at the start time, the loop; result: memory, time and number of steps. -/
def WedgeSerial (C : SdmConf α) (D : Domain α) (w : α → Special.WedgeParams α) (m : Addr → α) (t : α) (n : ℕ) : Prop :=
  ∃ m1 m2, Runs [Special.sdmWedgeInit C.M (w (ROps.lit 0)) C.S C.P D Sdm.sU] (fun _ => ROps.lit 0) m1 ∧
    Runs (Special.sdmWedgeBoundaries C.M (w C.ctl.tCurrent) C.S C.P D Sdm.sU) m1 m2 ∧ C.WedgeLoop D w m2 C.ctl.tCurrent 0 m t n

end Verif.SdmConf
