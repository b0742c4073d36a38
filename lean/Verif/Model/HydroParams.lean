import Verif.Model.Config
import Verif.Model.Index
import Verif.Model.Halo
import Verif.Model.Riemann
import Verif.Model.MoodStencil

/-!
# Run parameters

`HydroParams::setup`, `init`, `setup_mpi` (`src/shared/HydroParams.cpp`).  Output to the terminal is not
modelled.  `int` arithmetic is checked (`Stop.undefined` on overflow).
-/

namespace Verif

open ROps Verif.Config

/-- Compile time switches (`CMakeLists.txt:214-220`: `-DUSE_MOOD`, `-DUSE_SDM`). -/
structure Build where
  useSdm : Bool
  useMood : Bool

/-- How `setup` can end without a result. -/
inductive Stop
  /-- undefined behaviour of C++ (integer overflow) -/
  | undefined
  /-- `exit(EXIT_FAILURE)` -/
  | exit

/-- The three methods of `ConfigMap` used by `setup` (`src/utils/config/ConfigMap.h`). -/
structure ConfigReader (α : Type) where
  getInteger : String → String → Int → Int
  getFloat : String → String → α → α
  getString : String → String → String → String

/-- Reader of the key-value map filled by the INI parser.  `ConfigMap::getFloat`
(`src/utils/config/ConfigMap.cpp:37-46`) has parameter and result of type `float` whatever `real_t` is; the
conversions `strtof` (text to `float`) and `toFloat` (`double` to `float`, of the default value) are parameters. -/
def ConfigReader.ofValues {α : Type} (strtof : Str → Option α) (toFloat : α → α) (v : Values) :
    ConfigReader α where
  getInteger s n d := Config.getInteger v s.toList n.toList d
  getFloat s n d := (strtof (Config.getString v s.toList n.toList [])).getD (toFloat d)
  getString s n d := String.ofList (Config.getString v s.toList n.toList d.toList)

/-- `HydroParams` with its `settings` (`src/shared/HydroParams.h:28-167`); members that `setup` does not touch
(`ioVTK`, `ioHDF5`, `cIso`, `Omega0`) left out. -/
structure HydroParams (α : Type) where
  nStepmax : Int
  tEnd : α
  nOutput : Int
  enableOutput : Bool
  mhdEnabled : Bool
  nlog : Int
  nx : Int
  ny : Int
  nz : Int
  ghostWidth : Int
  nbvar : Nat
  /-- `dimType == THREE_D` -/
  dim3 : Bool
  imin : Int
  imax : Int
  jmin : Int
  jmax : Int
  kmin : Int
  kmax : Int
  isize : Int
  jsize : Int
  ksize : Int
  xmin : α
  xmax : α
  ymin : α
  ymax : α
  zmin : α
  zmax : α
  dx : α
  dy : α
  dz : α
  boundary_type_xmin : Int
  boundary_type_xmax : Int
  boundary_type_ymin : Int
  boundary_type_ymax : Int
  boundary_type_zmin : Int
  boundary_type_zmax : Int
  gamma0 : α
  gamma6 : α
  cfl : α
  slope_type : α
  iorder : Int
  smallr : α
  smallc : α
  smallp : α
  smallpp : α
  cp : α
  mu : α
  kappa : α
  niter_riemann : Int
  riemannSolverType : RiemannSolver
  implementationVersion : Int

variable {α : Type} [ROps α]

/-- The grid the kernels see. -/
def HydroParams.grid (p : HydroParams α) : Grid where
  nx := p.nx
  ny := p.ny
  nz := p.nz
  ghostWidth := p.ghostWidth
  nbvar := p.nbvar
  boundary_type_xmin := p.boundary_type_xmin
  boundary_type_xmax := p.boundary_type_xmax
  boundary_type_ymin := p.boundary_type_ymin
  boundary_type_ymax := p.boundary_type_ymax
  boundary_type_zmin := p.boundary_type_zmin
  boundary_type_zmax := p.boundary_type_zmax

/-- The settings the kernels see. -/
def HydroParams.settings (p : HydroParams α) : Settings α where
  gamma0 := p.gamma0
  gamma6 := p.gamma6
  smallr := p.smallr
  smallc := p.smallc
  smallp := p.smallp
  smallpp := p.smallpp
  slope_type := p.slope_type
  cfl := p.cfl
  dx := p.dx
  dy := p.dy
  dz := p.dz
  riemann := p.riemannSolverType

/-- Conversion of the `long` returned by `getInteger` to `int`: modulo 2^32 (implementation defined before
C++20; what every supported compiler does). -/
def toInt (x : Int) : Int := Int.bmod x (2 ^ 32)

/-- An `int` expression; undefined on overflow. -/
def checked (x : Int) : Except Stop Int :=
  match int32 x with
  | some y => .ok y
  | none => .error .undefined

/-- An `int` operand of a `real_t` expression. -/
def ofInt (n : Int) : α := lit (n : ℚ)

/-- `name.find(pattern) != std::string::npos`. -/
def contains (name pattern : String) : Bool :=
  name.toList.tails.any pattern.toList.isPrefixOf

/-- What the solver name decides: dimension, number of variables, ghost cells, MHD flag. -/
structure Kind where
  dim3 : Bool
  nbvar : Nat
  ghostWidth : Int
  mhdEnabled : Bool
  deriving DecidableEq

/-- Values of the constructor (`src/shared/HydroParams.h:169-215`). -/
def Kind.default : Kind := ⟨false, 4, 2, false⟩

/-- The chain of name comparisons (`src/shared/HydroParams.cpp:40-130`).  `get_stencil_ghostwidth` of
`STENCIL_TOTAL_NUMBER` is 0 (`src/mood/Stencil.h:285-286`). -/
def solverKind (b : Build) (name : String) : Kind :=
  let mood (d3 : Bool) (nbvar : Nat) : Kind :=
    if b.useMood then
      { Kind.default with
        dim3 := d3
        nbvar := nbvar
        ghostWidth := match Mood.stencilIdFromName Mood.solver_name name with
          | some id => (Mood.get_stencil_ghostwidth id : Int)
          | none => 0 }
    else Kind.default
  if name = "Hydro_Muscl_2D" then ⟨false, 4, 2, false⟩
  else if name = "Hydro_Muscl_3D" then ⟨true, 5, 2, false⟩
  else if name = "MHD_Muscl_2D" then ⟨false, 8, 3, true⟩
  else if name = "MHD_Muscl_3D" then ⟨true, 8, 3, true⟩
  else if contains name "Hydro_Sdm_2D" || contains name "Hydro_SDM_2D" then
    if b.useSdm then ⟨false, 4, 1, false⟩ else Kind.default
  else if contains name "Hydro_Sdm_3D" || contains name "Hydro_SDM_3D" then
    if b.useSdm then ⟨true, 5, 1, false⟩ else Kind.default
  else if contains name "Hydro_Mood_2D" then mood false 4
  else if contains name "Hydro_Mood_3D" then mood true 5
  else Kind.default

/-- The Riemann solver names (`src/shared/HydroParams.cpp:175-201`). -/
def riemannFromName (s : String) : RiemannSolver :=
  if s = "approx" then .approx
  else if s = "llf" then .llf
  else if s = "hll" then .hll
  else if s = "hllc" then .hllc
  else if s = "hlld" then .hlld
  else .approx

/-- `HydroParams::init` (`src/shared/HydroParams.cpp:420-453`). -/
def HydroParams.init (p : HydroParams α) : Except Stop (HydroParams α) := do
  let imin := 0
  let jmin := 0
  let kmin := 0
  let imax ← checked ((← checked (p.nx - 1)) + (← checked (2 * p.ghostWidth)))
  let jmax ← checked ((← checked (p.ny - 1)) + (← checked (2 * p.ghostWidth)))
  let kmax ← checked ((← checked (p.nz - 1)) + (← checked (2 * p.ghostWidth)))
  let isize ← checked ((← checked (imax - imin)) + 1)
  let jsize ← checked ((← checked (jmax - jmin)) + 1)
  let ksize ← checked ((← checked (kmax - kmin)) + 1)
  let smallp := p.smallc * p.smallc / p.gamma0
  if p.implementationVersion ≠ 0 ∧ p.implementationVersion ≠ 1 ∧ p.implementationVersion ≠ 2 then
    .error .exit
  else
    .ok { p with
      imin := imin, jmin := jmin, kmin := kmin
      imax := imax, jmax := jmax, kmax := kmax
      isize := isize, jsize := jsize, ksize := ksize
      dx := (p.xmax - p.xmin) / ofInt p.nx
      dy := (p.ymax - p.ymin) / ofInt p.ny
      dz := (p.zmax - p.zmin) / ofInt p.nz
      smallp := smallp
      smallpp := p.smallr * smallp
      gamma6 := (p.gamma0 + lit 1) / (lit 2 * p.gamma0) }

/-- Reading of the parameters, the part of `HydroParams::setup` before the call of `init`
(`src/shared/HydroParams.cpp:27-209`).  `truncate` is the conversion from `real_t` to `int`.
Members set by `init` get the values of the constructor. -/
def HydroParams.read (b : Build) (truncate : α → Int) (c : ConfigReader α) : HydroParams α :=
  let int (s n : String) (d : Int) : Int := toInt (c.getInteger s n d)
  let k := solverKind b (c.getString "run" "solver_name" "unknown")
  let nOutput := int "run" "noutput" 100
  let version := truncate (c.getFloat "OTHER" "implementationVersion" (lit 0))
  { nStepmax := int "run" "nstepmax" 1000
    tEnd := c.getFloat "run" "tend" (lit 0)
    nOutput := nOutput
    enableOutput := if nOutput = 0 then false else true
    nlog := int "run" "nlog" 10
    dim3 := k.dim3
    nbvar := k.nbvar
    ghostWidth := k.ghostWidth
    mhdEnabled := k.mhdEnabled
    nx := int "mesh" "nx" 1
    ny := int "mesh" "ny" 1
    nz := int "mesh" "nz" 1
    xmin := c.getFloat "mesh" "xmin" (lit 0)
    ymin := c.getFloat "mesh" "ymin" (lit 0)
    zmin := c.getFloat "mesh" "zmin" (lit 0)
    xmax := c.getFloat "mesh" "xmax" (lit 1)
    ymax := c.getFloat "mesh" "ymax" (lit 1)
    zmax := c.getFloat "mesh" "zmax" (lit 1)
    boundary_type_xmin := int "mesh" "boundary_type_xmin" BC_DIRICHLET
    boundary_type_xmax := int "mesh" "boundary_type_xmax" BC_DIRICHLET
    boundary_type_ymin := int "mesh" "boundary_type_ymin" BC_DIRICHLET
    boundary_type_ymax := int "mesh" "boundary_type_ymax" BC_DIRICHLET
    boundary_type_zmin := int "mesh" "boundary_type_zmin" BC_DIRICHLET
    boundary_type_zmax := int "mesh" "boundary_type_zmax" BC_DIRICHLET
    gamma0 := c.getFloat "hydro" "gamma0" (lit (14 / 10))
    cfl := c.getFloat "hydro" "cfl" (lit (1 / 2))
    iorder := int "hydro" "iorder" 2
    slope_type := c.getFloat "hydro" "slope_type" (lit 1)
    smallc := c.getFloat "hydro" "smallc" (lit (1 / 10 ^ 10))
    smallr := c.getFloat "hydro" "smallr" (lit (1 / 10 ^ 10))
    cp := c.getFloat "hydro" "cp" (lit 0)
    mu := c.getFloat "hydro" "mu" (lit 0)
    kappa := c.getFloat "hydro" "kappa" (lit 0)
    niter_riemann := int "hydro" "niter_riemann" 10
    riemannSolverType := riemannFromName (c.getString "hydro" "riemann" "approx")
    implementationVersion :=
      if version ≠ 0 ∧ version ≠ 1 ∧ version ≠ 2 then 0 else version
    imin := 0, imax := 0, jmin := 0, jmax := 0, kmin := 0, kmax := 0
    isize := 0, jsize := 0, ksize := 0
    dx := lit 0, dy := lit 0, dz := lit 0
    gamma6 := lit 1, smallp := lit (1 / 10 ^ 6), smallpp := lit (1 / 10 ^ 6) }

/-- `HydroParams::setup` without MPI (`src/shared/HydroParams.cpp:27-217`). -/
def HydroParams.setup (b : Build) (truncate : α → Int) (c : ConfigReader α) :
    Except Stop (HydroParams α) :=
  (HydroParams.read b truncate c).init

/-- Members added by `setup_mpi` (`src/shared/HydroParams.h:134-167`). -/
structure MpiParams where
  mx : Int
  my : Int
  mz : Int
  myRank : Nat
  myMpiPos : Cell
  neighborsRank : Face → Nat
  neighborsBC : Face → Int

/-- `HydroParams::setup_mpi` (`src/shared/HydroParams.cpp:222-414`) on the process with rank `r` in the
Cartesian communicator.  In 2D the communicator is `mx × my` (`:252`), `myMpiPos[2]` stays 0, the z
neighbours are unused.  A wrong number of processes is only reported on the terminal
(`:241-247`). -/
def HydroParams.setup_mpi (c : ConfigReader α) (r : Nat) (p : HydroParams α) :
    Except Stop (HydroParams α × MpiParams) := do
  let mx := toInt (c.getInteger "mpi" "mx" 1)
  let my := toInt (c.getInteger "mpi" "my" 1)
  let mz := toInt (c.getInteger "mpi" "mz" 1)
  let _ ← checked ((← checked (mx * my)) * mz)
  let cz := if p.dim3 then mz else 1
  let pos := cartCoords my cz r
  let bc := neighborsBC p.grid mx my mz pos
  let nx ← checked (p.nx * mx)
  let ny ← checked (p.ny * my)
  let nz ← checked (p.nz * mz)
  .ok ({ p with
      dx := (p.xmax - p.xmin) / ofInt nx
      dy := (p.ymax - p.ymin) / ofInt ny
      dz := (p.zmax - p.zmin) / ofInt nz },
    { mx := mx, my := my, mz := mz
      myRank := r
      myMpiPos := pos
      neighborsRank := fun f => match f with
        | .zmin | .zmax => if p.dim3 then neighborRank mx my cz r f else 0
        | _ => neighborRank mx my cz r f
      neighborsBC := fun f => match f with
        | .zmin | .zmax => if p.dim3 then bc f else BC_UNDEFINED
        | _ => bc f })

/-- `HydroParams::setup` with MPI (`src/shared/HydroParams.cpp:27-217`). -/
def HydroParams.setupMpi (b : Build) (truncate : α → Int) (c : ConfigReader α) (r : Nat) :
    Except Stop (HydroParams α × MpiParams) := do
  let p ← HydroParams.setup b truncate c
  p.setup_mpi c r

/-- Coordinate of the centre of cell `(i,j,k)`, as all initialisation functors compute it:
`xmin + dx / 2 + (i + nx * i_mpi - ghostWidth) * dx`
(e.g. `src/muscl/HydroInitFunctors2D.h:81-82`, `src/muscl/HydroInitFunctors3D.h:121-123`); `pos` is `myMpiPos`, zero without MPI. -/
def HydroParams.centre (p : HydroParams α) (pos i : Cell) : α × α × α :=
  (p.xmin + p.dx / lit 2 + ofInt (i.i + p.nx * pos.i - p.ghostWidth) * p.dx,
   p.ymin + p.dy / lit 2 + ofInt (i.j + p.ny * pos.j - p.ghostWidth) * p.dy,
   p.zmin + p.dz / lit 2 + ofInt (i.k + p.nz * pos.k - p.ghostWidth) * p.dz)

end Verif
