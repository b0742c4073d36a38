import Verif.Model.SdmMpi
import Verif.Model.SdmPositivity

/-!
# The step of the spectral difference solver with limiter and positivity preservation

`compute_fluxes_divergence` as a whole but for the viscous terms, which are in `Verif.Model.SdmViscous`.
-/

namespace Verif.Sdm

open Verif ROps

variable {α : Type} [ROps α]

/-- The options `sdm/limiter_enabled`, `sdm/M_TVB`, `sdm/positivity_enabled` (`src/sdm/SolverHydroSDM.h:613`, `644`,
`1058`), and the constants `M_PI` and the largest number. -/
structure Fixes (α : Type) where
  /-- The threshold, if the limiter is enabled. -/
  limiter : Option α
  positivity : Bool
  pi : α
  big : α

/-- Entries allocated for these options (`src/sdm/SolverHydroSDM.h:618-659`). -/
def fixDom (F : Fixes α) (d3 : Bool) (N : ℕ) (P : Grid) (ti : Mood.TimeInt) (a : Addr) : Prop :=
  sdmDom d3 N P ti a ∨ (P.box d3 a.cell ∧ a.v < P.nbvar ∧
    (((F.limiter.isSome || F.positivity) = true ∧ a.arr = sAvg) ∨ (F.limiter.isSome = true ∧ meanArray d3 a.arr)))

/-- `apply_limiting` (`src/sdm/SolverHydroSDM.h:1028-1068`). -/
def applyLimiting (M : Scheme α) (S : Settings α) (P : Grid) (F : Fixes α) (A : ℕ) : List (Launch Addr α) :=
  match F.limiter with
  | some mdx2 => [averageGrad M P F.pi A .x, averageGrad M P F.pi A .y] ++
      (if M.d3 then [averageGrad M P F.pi A .z] else []) ++ [limiter M S P mdx2 A]
  | none => []

/-- `apply_pre_step_computation`, `apply_limiting` and `apply_positivity_preserving`
(`src/sdm/SolverHydroSDM.h:995-1068`, `1242-1246`). -/
def prepare (M : Scheme α) (S : Settings α) (P : Grid) (F : Fixes α) (A : ℕ) : List (Launch Addr α) :=
  (if F.limiter.isSome || F.positivity then [averageU M S P F.pi A] else []) ++ applyLimiting M S P F A ++
    if F.positivity then [positivity M S P F.big A] else []

/-- `compute_fluxes_divergence` without viscous terms (`src/sdm/SolverHydroSDM.h:1228-1263`). -/
def fixedDivergence (M : Scheme α) (S : Settings α) (P : Grid) (junk : Dir → Cell → Pt → HState α) (F : Fixes α) (A : ℕ) :
    List (Launch Addr α) :=
  eraseSol M P sDiv :: (prepare M S P F A ++
    (divergenceAlong M S P junk A .x ++ divergenceAlong M S P junk A .y ++ divergenceAlong M S P junk A .z))

/-- `time_integration` (`src/sdm/SolverHydroSDM.h:939-987`). -/
def fixedStep (M : Scheme α) (S : Settings α) (P : Grid) (junk : ℕ → Dir → Cell → Pt → HState α) (F : Fixes α)
    (ti : Mood.TimeInt) (dt : α) : List (Launch Addr α) :=
  stepWith (fun A => makeBoundaries M P A) (fun i A L => fixedDivergence M S P (junk i) F A ++ L) M P ti dt

/-- `time_integration` on rank `r`. -/
def fixedStepMpi (M : Scheme α) (T : Ranks) (S : Settings α) (P : Grid) (junk : ℕ → Dir → Cell → Pt → HState α) (F : Fixes α)
    (ti : Mood.TimeInt) (dt : α) (r : ℕ) : List (MpiOp α) :=
  stepWith (fun A => makeBoundariesMpi M T P A r) (fun i A L => [.kernels (fixedDivergence M S P (junk i) F A ++ L)]) M P ti dt

end Verif.Sdm

/-! ### The program with these options -/

namespace Verif.SdmConf

variable {α : Type} [Start.FOps α]

/-- The solver with these options: they change `time_integration` only (`src/sdm/SolverHydroSDM.h:864-889`, `:939-987`). -/
def fixedDriver (C : SdmConf α) (F : Sdm.Fixes α) : Driver α :=
  { C.driver with Step := fun _ dt m m' => ∃ junk, Runs (Sdm.fixedStep C.M C.S C.P junk F C.ti dt) m m' }

/-- A run of problem `Q` on domain `D` with these options; initial condition and first ghost fill are as without. -/
def FixedMain (C : SdmConf α) (F : Sdm.Fixes α) (D : Domain α) (Q : Start.SdmProblem α) (r : Option (HydroState α)) : Prop :=
  (C.fixedDriver F).Main (C.init D Q) C.post r

/-- The programs of the ranks for one step. -/
def fixedJobs (C : SdmConf α) (F : Sdm.Fixes α) (T : Ranks) : Driver.Jobs α := fun _ dt prog =>
  ∃ junk : ℕ → ℕ → Dir → Cell → Sdm.Pt → HState α,
    prog = fun r => Sdm.fixedStepMpi C.M T C.S C.P (junk r) F C.ti (dt r) r

/-- A run on all ranks. -/
def FixedMpiMain (C : SdmConf α) (F : Sdm.Fixes α) (T : Ranks) (D : Domain α) (Q : Start.SdmProblem α)
    (x : Option (Nat → HydroState α)) : Prop :=
  (C.fixedDriver F).MpiMain T.num (C.fixedJobs F T) (fun r => C.init (D.ofRank T r) Q) (C.postMpi T) x

end Verif.SdmConf
