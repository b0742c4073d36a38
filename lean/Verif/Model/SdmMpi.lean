import Verif.Model.HighProgram
import Verif.Model.HydroMpi

/-!
# The SDM program on several MPI processes

`main` (`src/main.cpp:139-166`) with a `SolverHydroSDM` built with `USE_MPI`.  As `Model/HydroMpi`: every rank has its own
arrays of `P`, within a phase the ranks run as a `Net`, and `MPI_Allreduce` separates the phases.  Phases here: the initial
condition; the exchange at the end of the constructor; each time step.  What does not depend on the solver is stated
for a `Driver`.

Not modelled, as in `Model/HighProgram`: limiter, positivity preserving procedure, viscous terms (all off by default).  The
boundary conditions of the wedge and jet problems are not used with MPI (`src/sdm/SolverHydroSDM.h:1622-1636`).
-/

namespace Verif

/-! ### The time loop -/

namespace Driver

variable {α : Type} [ROps α]

/-- Programs of the ranks for one step, given the number of steps made and the time step on each rank: possible ones (they
may contain values of uninitialised variables). -/
abbrev Jobs (α : Type) [ROps α] := (Nat → Nat) → (Nat → α) → (Nat → List (MpiOp α)) → Prop

/-- `SolverBase::compute_dt` (`src/shared/SolverBase.cpp:145-178`) with MPI: possible results. -/
def MpiSetDt (V : Driver α) (N : Nat) (s s' : Nat → HydroState α) : Prop :=
  ∃ dtLocal dtGlobal : Nat → α,
    (∀ r, r < N → V.Dt (s r).iteration (s r).m (dtLocal r)) ∧
    AllReduce mpiMin N dtLocal dtGlobal ∧
    ∀ r, r < N → s' r = { s r with dt := V.ctl.computeDt (s r).t (dtGlobal r) }

/-- `next_iteration_impl` up to the time step (`src/sdm/SolverHydroSDM.h:893-925`) on all ranks. -/
def MpiBefore (V : Driver α) (N : Nat) (s s2 : Nat → HydroState α) : Prop :=
  V.MpiSetDt N (fun r => V.saveDue (s r)) s2

/-- `next_iteration` (`src/shared/SolverBase.cpp:205-220`, `src/sdm/SolverHydroSDM.h:893-932`) on all ranks: possible results. -/
def MpiNext (V : Driver α) (N : Nat) (J : Jobs α) (s s' : Nat → HydroState α) : Prop :=
  ∃ s2, V.MpiBefore N s s2 ∧ ∃ (prog : Nat → List (MpiOp α)) (M' : Nat → Addr → α),
    J (fun r => (s2 r).iteration) (fun r => (s2 r).dt) prog ∧
    JobRuns N prog (fun r => (s2 r).m) M' ∧
    ∀ r, r < N → s' r = { s2 r with m := M' r, iteration := (s2 r).iteration + 1, t := (s2 r).t + (s2 r).dt }

/-- `while (!solver->finished()) solver->next_iteration();` (`src/main.cpp:154-159`) on all ranks.  `none`: undefined behaviour
(the division for the log line), or the job hangs: in the messages of a step, or because some ranks have left the loop
and others wait for them in `MPI_Allreduce`. -/
inductive MpiLoop (V : Driver α) (N : Nat) (J : Jobs α) :
    (Nat → HydroState α) → Option (Nat → HydroState α) → Prop
  | done {s} : (∀ r, r < N → V.ctl.finished (s r).ctl = true) → MpiLoop V N J s (some s)
  | ub {s} {r : Nat} : r < N → V.ctl.finished (s r).ctl = false → V.every = 0 → MpiLoop V N J s none
  | mixed {s} {r r' : Nat} : r < N → r' < N → V.ctl.finished (s r).ctl = true →
      V.ctl.finished (s r').ctl = false → MpiLoop V N J s none
  | hang {s s2} {prog : Nat → List (MpiOp α)} : (∀ r, r < N → V.ctl.finished (s r).ctl = false) → V.MpiBefore N s s2 →
      J (fun r => (s2 r).iteration) (fun r => (s2 r).dt) prog →
      JobHangs N prog (fun r => (s2 r).m) → MpiLoop V N J s none
  | step {s s' x} : (∀ r, r < N → V.ctl.finished (s r).ctl = false) → V.every ≠ 0 → V.MpiNext N J s s' →
      MpiLoop V N J s' x → MpiLoop V N J s x

/-- After the initial condition and the first time step (`src/sdm/SolverHydroSDM.h:661-796`), from arrays of zeros. -/
def MpiStart (V : Driver α) (N : Nat) (init : Nat → List (Launch Addr α)) (s : Nat → HydroState α) : Prop :=
  ∃ M1 : Nat → Addr → α, (∀ r, r < N → Runs (init r) (fun _ => ROps.lit 0) (M1 r)) ∧
    V.MpiSetDt N (fun r => ⟨M1 r, V.ctl.tCurrent, V.ctl.tEnd, 0, 0, []⟩) s

/-- The whole program on all ranks: initial condition `init`, first time step, then the statements `post`, first output, loop, last
output (`src/sdm/SolverHydroSDM.h:661-801`, `src/main.cpp:145-166`).  `none`: as in `MpiLoop`, or the set-up hangs. -/
inductive MpiMain (V : Driver α) (N : Nat) (J : Jobs α) (init : Nat → List (Launch Addr α)) (post : Nat → List (MpiOp α)) :
    Option (Nat → HydroState α) → Prop
  | hang {s} : V.MpiStart N init s → JobHangs N post (fun r => (s r).m) → MpiMain V N J init post none
  | run {s M x} : V.MpiStart N init s → JobRuns N post (fun r => (s r).m) M →
      V.MpiLoop N J (fun r => V.saveIf { s r with m := M r }) x →
      MpiMain V N J init post (x.map fun s r => V.saveIf (s r))

end Driver

/-! ### The exchange -/

namespace Sdm

open ROps

variable {α : Type} [ROps α]

/-- The border buffers hold all values of a cell, `nb_dof` many (`src/sdm/SolverHydroSDM.h:728-767`), and the copy functors loop
over the last extent of the array (`src/shared/mpiBorderUtils.h:63-157`, `:209-330`): the exchange is that of a grid with
`nb_dof` variables. -/
def dofGrid (M : Scheme α) (P : Grid) : Grid := { P with nbvar := nbDof M.d3 M.N P.nbvar }

/-- `if (neighborsBC[face] == BC_COPY || ... == BC_PERIODIC) copy_boundaries_back else make_boundary_sdm`
(`src/sdm/SolverHydroSDM.h:1723-1739` and the same for every face). -/
def haloBack (M : Scheme α) (T : Ranks) (P : Grid) (U : ℕ) (r : ℕ) (face : Face) : Launch Addr α :=
  let bc := neighborsBC P T.mx T.my T.mz (cartCoords T.my T.mz r) face
  if bc = BC_COPY ∨ bc = BC_PERIODIC then copyFromBuf M.d3 T.lay (dofGrid M P) U face
  else makeBoundary M P U face

/-- One direction of `make_boundaries_sdm_mpi` for rank `r` (`src/sdm/SolverHydroSDM.h:1717-1741`; the transfers are those of the
base class, `src/shared/SolverBase.cpp:772-925`). -/
def haloDirection (M : Scheme α) (T : Ranks) (P : Grid) (U : ℕ) (lo hi : Face) (r : ℕ) : List (MpiOp α) :=
  let Q := dofGrid M P
  [ .kernels [copyToBuf M.d3 T.lay Q U lo, copyToBuf M.d3 T.lay Q U hi],
    .sendrecv
      { dst := neighborRank T.mx T.my T.mz r lo, sbuf := bufSend lo, sshape := Q.bufShape M.d3 lo, stag := haloTag lo,
        src := neighborRank T.mx T.my T.mz r hi, rbuf := bufRecv hi, rshape := Q.bufShape M.d3 hi, rtag := haloTag hi },
    .sendrecv
      { dst := neighborRank T.mx T.my T.mz r hi, sbuf := bufSend hi, sshape := Q.bufShape M.d3 hi, stag := haloTag hi,
        src := neighborRank T.mx T.my T.mz r lo, rbuf := bufRecv lo, rshape := Q.bufShape M.d3 lo, rtag := haloTag lo },
    .kernels [haloBack M T P U r lo, haloBack M T P U r hi],
    .barrier ]

/-- `make_boundaries_sdm_mpi` (`src/sdm/SolverHydroSDM.h:1622-1636`, `:1702-1852`). -/
def makeBoundariesMpi (M : Scheme α) (T : Ranks) (P : Grid) (U : ℕ) (r : ℕ) : List (MpiOp α) :=
  haloDirection M T P U .xmin .xmax r ++ haloDirection M T P U .ymin .ymax r ++
    if M.d3 then haloDirection M T P U .zmin .zmax r else []

/-! ### The step -/

/-- `time_integration_impl` as in `timeStep` (`src/sdm/SolverHydroSDM.h:955-987`, `1272-1287`, `1311-1344`, `1366-1418`,
`1436-1532`), for any way `fill A` to write `make_boundaries(A)` and any way `go i A L` to write the `i`-th call of
`compute_fluxes_divergence` (with `A`) and the loops `L` after it. -/
def stepWith {β : Type} (fill : ℕ → List β) (go : ℕ → ℕ → List (Launch Addr α) → List β) (M : Scheme α) (P : Grid)
    (ti : Mood.TimeInt) (dt : α) : List β :=
  fill sU ++
  match ti with
  | .forward_euler => go 0 sU [updateRK M P dt sU sU sU (lit 1) (lit 0) (lit (-1))]
  | .ssprk2 =>
    go 0 sU [updateRK M P dt (sRK 1) sU sU (lit 1) (lit 0) (lit (-1))] ++
    fill (sRK 1) ++
    go 1 (sRK 1) [updateRK M P dt sU sU (sRK 1) (lit (1/2)) (lit (1/2)) (lit (-1/2))]
  | .ssprk3 =>
    go 0 sU [updateRK M P dt (sRK 1) sU sU (lit 1) (lit 0) (lit (-1))] ++
    fill (sRK 1) ++
    go 1 (sRK 1) [updateRK M P dt (sRK 2) sU (sRK 1) (lit (3/4)) (lit (1/4)) (lit (-1/4))] ++
    fill (sRK 2) ++
    go 2 (sRK 2) [updateRK M P dt sU sU (sRK 2) (lit 1 / lit 3) (lit 2 / lit 3) (lit (-2) / lit 3)]
  | .ssprk54 =>
    go 0 sU [updateRK M P dt (sRK 1) sU sU (lit 1) (lit 0) (lit (-0.391752226571890))] ++
    fill (sRK 1) ++
    go 1 (sRK 1) [updateRK M P dt (sRK 2) sU (sRK 1) (lit 0.444370493651235) (lit 0.555629506348765)
        (lit (-0.368410593050371))] ++
    fill (sRK 2) ++
    go 2 (sRK 2) [updateRK M P dt (sRK 3) sU (sRK 2) (lit 0.620101851488403) (lit 0.379898148511597)
        (lit (-0.251891774271694))] ++
    fill (sRK 3) ++
    go 3 (sRK 3) [updateRK M P dt (sRK 4) sU (sRK 3) (lit 0.178079954393132) (lit 0.821920045606868)
        (lit (-0.544974750228521)),
       updateRK M P dt sU (sRK 2) (sRK 3) (lit 0.517231671970585) (lit 0.096059710526147)
        (lit (-0.063692468666290))] ++
    fill (sRK 4) ++
    go 4 (sRK 4) [updateRK M P dt sU sU (sRK 4) (lit 1) (lit 0.386708617503269) (lit (-0.226007483236906))]

/-- `time_integration` on rank `r` (`src/sdm/SolverHydroSDM.h:939-987`). -/
def timeStepMpi (M : Scheme α) (T : Ranks) (S : Settings α) (P : Grid) (junk : ℕ → Dir → Cell → Pt → HState α)
    (ti : Mood.TimeInt) (dt : α) (r : ℕ) : List (MpiOp α) :=
  stepWith (fun A => makeBoundariesMpi M T P A r) (fun i A L => [.kernels (divergence M S P (junk i) A ++ L)]) M P ti dt

/-- The statements of the step are those of the serial program. -/
theorem timeStep_eq_stepWith (M : Scheme α) (S : Settings α) (P : Grid) (junk : ℕ → Dir → Cell → Pt → HState α)
    (ti : Mood.TimeInt) (dt : α) : timeStep M S P junk ti dt =
      stepWith (fun A => makeBoundaries M P A) (fun i A L => divergence M S P (junk i) A ++ L) M P ti dt := by
  cases ti <;> simp only [timeStep, stepWith, List.append_assoc, List.cons_append, List.nil_append]

end Sdm

namespace SdmConf

variable {α : Type} [Start.FOps α]

/-- The programs of the ranks for one step. -/
def jobs (C : SdmConf α) (T : Ranks) : Driver.Jobs α := fun _ dt prog =>
  ∃ junk : ℕ → ℕ → Dir → Cell → Sdm.Pt → HState α,
    prog = fun r => Sdm.timeStepMpi C.M T C.S C.P (junk r) C.ti (dt r) r

/-- `make_boundaries(U)` at the end of the constructor (`src/sdm/SolverHydroSDM.h:798-799`). -/
def postMpi (C : SdmConf α) (T : Ranks) (r : ℕ) : List (MpiOp α) := Sdm.makeBoundariesMpi C.M T C.P Sdm.sU r

/-- A run of problem `Q` on domain `D` on all ranks. -/
def MpiMain (C : SdmConf α) (T : Ranks) (D : Domain α) (Q : Start.SdmProblem α) (x : Option (Nat → HydroState α)) : Prop :=
  C.driver.MpiMain T.num (C.jobs T) (fun r => C.init (D.ofRank T r) Q) (C.postMpi T) x

end SdmConf

end Verif
