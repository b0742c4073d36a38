import Verif.Model.SdmMpi
import Verif.Model.Wedge

/-!
# The jet problem with and without MPI

`SolverHydroSDM::make_boundaries` (`src/sdm/SolverHydroSDM.h:1622-1636`) calls `make_boundaries_sdm_serial` in a build without MPI,
which treats the problem "jet" by itself (`:1661-1676`), and `make_boundaries_sdm_mpi` in a build with MPI, which never looks at the
name of the problem (`:1702-1852`).
-/

namespace Verif.SdmConf

variable {α : Type} [Start.FOps α]

/-- `init_jet` (`src/sdm/SolverHydroSDM.h:701-704`, `:1995-2002`). -/
def initJet (C : SdmConf α) (J : Special.JetParams α) : List (Launch Addr α) := [Special.jetInit C.M J C.P Sdm.sU]

/-- A run of the jet problem in a build with MPI (`src/sdm/SolverHydroSDM.h:1629`). -/
def JetMpi (C : SdmConf α) (T : Ranks) (J : Special.JetParams α) (x : Option (Nat → HydroState α)) : Prop :=
  C.driver.MpiMain T.num (C.jobs T) (fun _ => C.initJet J) (C.postMpi T) x

/-- The step of the jet problem in a build without MPI: `time_integration` with the boundaries of the problem
(`src/sdm/SolverHydroSDM.h:939-987`, `:1633`, `:1661-1676`). -/
def jetStep (C : SdmConf α) (D : Domain α) (J : Special.JetParams α) (junk : ℕ → Dir → Cell → Sdm.Pt → HState α) (dt : α) :
    List (Launch Addr α) :=
  Sdm.stepWith (fun A => Special.jetBoundaries C.M J C.S C.P D A)
    (fun i A L => Sdm.divergence C.M C.S C.P (junk i) A ++ L) C.M C.P C.ti dt

/-- The solver for the jet problem in a build without MPI. -/
def jetDriver (C : SdmConf α) (D : Domain α) (J : Special.JetParams α) : Driver α :=
  { C.driver with Step := fun _ dt m m' => ∃ junk, Runs (C.jetStep D J junk dt) m m' }

/-- A run of the jet problem in a build without MPI. -/
def JetSerial (C : SdmConf α) (D : Domain α) (J : Special.JetParams α) (r : Option (HydroState α)) : Prop :=
  (C.jetDriver D J).Main (C.initJet J) (Special.jetBoundaries C.M J C.S C.P D Sdm.sU) r

end Verif.SdmConf
