import Verif.Model.HydroParams

/-!
# Solver factory and start of the program

`src/shared/SolverFactory.h`, `src/shared/SolverFactory.cpp`, and the part of `main` that precedes the time
loop (`src/main.cpp:132-143`).
-/

namespace Verif

/-- `m_solverCreateMap`, a `std::map<std::string, SolverCreateFn>` (`src/shared/SolverFactory.h:51-52`). -/
abbrev SolverMap (F : Type) := String → Option F

/-- `registerSolver`: `m_solverCreateMap[key] = cfn` (`src/shared/SolverFactory.h:71-75`). -/
def registerSolver {F : Type} (m : SolverMap F) (key : String) (cfn : F) : SolverMap F :=
  Function.update m key (some cfn)

/-- Several calls of `registerSolver`, first call first. -/
def registerSolvers {F : Type} (m : SolverMap F) (calls : List (String × F)) : SolverMap F :=
  calls.foldl (fun m c => registerSolver m c.1 c.2) m

/-- Outcome of `create`. -/
inductive Created (S : Type)
  /-- the solver is returned -/
  | solver (s : S)
  /-- `std::abort()` -/
  | abort

/-- `SolverFactory::create` (`src/shared/SolverFactory.h:82-117`).  `args` are `params` and `configMap`,
`init_io` the virtual method called on the new solver. -/
def create {A S : Type} (init_io : S → S) (m : SolverMap (A → S)) (solver_name : String) (args : A) :
    Created S :=
  match m solver_name with
  | some cfn => .solver (init_io (cfn args))
  | none => .abort

/-- The classes whose `create` the constructor registers. -/
inductive SolverClass
  /-- `muscl::SolverHydroMuscl<dim>` -/
  | hydroMuscl (dim : Nat)
  /-- `muscl::SolverMHDMuscl<dim>` -/
  | mhdMuscl (dim : Nat)
  /-- `sdm::SolverHydroSDM<dim, degree>` -/
  | sdm (dim degree : Nat)
  /-- `mood::SolverHydroMood<dim, degree>` -/
  | mood (dim degree : Nat)
  deriving DecidableEq

open SolverClass in
/-- The calls in the constructor `SolverFactory::SolverFactory` (`src/shared/SolverFactory.cpp:20-53`). -/
def builtinSolvers (b : Build) : List (String × SolverClass) :=
  [ ("Hydro_Muscl_2D", hydroMuscl 2),
    ("Hydro_Muscl_3D", hydroMuscl 3),
    ("MHD_Muscl_2D", mhdMuscl 2),
    ("MHD_Muscl_3D", mhdMuscl 3) ] ++
  (if b.useSdm then
    [ ("Hydro_SDM_2D_degree1", sdm 2 1),
      ("Hydro_SDM_2D_degree2", sdm 2 2),
      ("Hydro_SDM_2D_degree3", sdm 2 3),
      ("Hydro_SDM_2D_degree4", sdm 2 4),
      ("Hydro_SDM_2D_degree5", sdm 2 5),
      ("Hydro_SDM_2D_degree6", sdm 2 6),
      ("Hydro_SDM_3D_degree2", sdm 3 2),
      ("Hydro_SDM_3D_degree3", sdm 3 3),
      ("Hydro_SDM_3D_degree4", sdm 3 4) ] else []) ++
  (if b.useMood then
    [ ("Hydro_Mood_2D_degree1", mood 2 1),
      ("Hydro_Mood_2D_degree2", mood 2 2),
      ("Hydro_Mood_2D_degree3", mood 2 3),
      ("Hydro_Mood_2D_degree4", mood 2 4),
      ("Hydro_Mood_3D_degree1", mood 3 1) ] else [])

/-- The map after the constructor. -/
def builtinMap (b : Build) : SolverMap SolverClass := registerSolvers (fun _ => none) (builtinSolvers b)

variable {α : Type} [ROps α]

/-- `main` up to the time loop (`src/main.cpp:132-143`): set the parameters up, then create the solver the
parameter file names.  The result is the class of the solver and the parameters it was given. -/
def startRun (b : Build) (truncate : α → Int) (c : ConfigReader α) :
    Except Stop (Created (SolverClass × HydroParams α)) := do
  let p ← HydroParams.setup b truncate c
  .ok (create id (fun n => (builtinMap b n).map fun k p => (k, p))
    (c.getString "run" "solver_name" "Unknown") p)

end Verif
