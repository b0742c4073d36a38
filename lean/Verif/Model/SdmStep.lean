import Verif.Model.SdmGeometry
import Verif.Model.Euler
import Verif.Model.Boundaries
import Verif.Model.MoodStep

/-!
# One time step of the spectral difference solver

`src/sdm/SDM_Run_Functors.h`, `SDM_Interpolate_Functors.h`, `SDM_Flux_Functors.h`,
`SDM_Boundaries_Functors.h`, `SolverHydroSDM.h`.

Every cell holds `N` solution points per direction.  The last index of an array is the number
`DofMap`/`DofMapFlux` of a point and a variable.  2D and 3D are modelled together with the flag `d3`.

Simplifications
* Nested `for` loops over points and variables are one loop over the list of index tuples in the same
  order.
* A state is loaded with all its variables before the next state is loaded, and one state is stored
  before the next one; the functors interleave some of these accesses.  They concern different locations.
* Where the functors loop up to `params.nbvar` to load or store a state, the model takes the variables of
  the dimension; the theorems assume that these are `params.nbvar` many, which property C79 shows.
* Values of variables the code leaves unassigned (an unsupported Riemann solver) are arbitrary, `junk`.
* Limiting, positivity preservation and viscous terms (all off by default) are not part of this file, nor
  are the wedge and jet problems, which have boundary conditions of their own (`Model/Wedge`), nor MPI (`Model/SdmMpi`).
-/

namespace Verif.Sdm

open Verif ROps

variable {α : Type} [ROps α]

/-! ### Loops inside a work item -/

/-- `for (...) body(i)` over the index tuples in `L`. -/
def forEach {A V ι : Type} (L : List ι) (body : ι → K A V Unit) : K A V Unit :=
  match L with
  | [] => pure ()
  | i :: L => do body i; forEach L body

/-- Load `n` values into a local array (e.g. `src/sdm/SDM_Interpolate_Functors.h:104-108`).  Entries from
`n` on do not exist. -/
def loadVals (n : ℕ) (addr : ℕ → Addr) : K Addr α (ℕ → α) :=
  match n with
  | 0 => pure fun _ => lit 0
  | n + 1 => do
    let f ← loadVals n addr
    let x ← K.load (addr n)
    pure fun k => if k = n then x else f k

/-- Store `n` values (e.g. `src/sdm/SDM_Interpolate_Functors.h:121-126`). -/
def storeVals (n : ℕ) (addr : ℕ → Addr) (f : ℕ → α) : K Addr α Unit :=
  forVars n fun k => K.store (addr k) (f k)

/-- Add `n` values to what is stored (e.g. `src/sdm/SDM_Interpolate_Functors.h:447-456`). -/
def addVals (n : ℕ) (addr : ℕ → Addr) (f : ℕ → α) : K Addr α Unit :=
  forVars n fun k => do
    let x ← K.load (addr k)
    K.store (addr k) (x + f k)

/-- Load a state whose variable `iv` is at `addr iv` (e.g. `src/sdm/SDM_Flux_Functors.h:106-110`). -/
def loadAt (d3 : Bool) (addr : ℕ → Addr) : K Addr α (HState α) := do
  let d ← K.load (addr ID)
  let p ← K.load (addr IP)
  let u ← K.load (addr IU)
  let v ← K.load (addr IV)
  if d3 then do
    let w ← K.load (addr IW)
    pure ⟨d, p, u, v, w⟩
  else pure ⟨d, p, u, v, lit 0⟩

/-- Store a state (e.g. `src/sdm/SDM_Flux_Functors.h:119-124`). -/
def storeAt (d3 : Bool) (addr : ℕ → Addr) (q : HState α) : K Addr α Unit :=
  forVars (hydroVars d3) fun iv => K.store (addr iv) (Mood.comp q iv)

/-! ### Points -/

/-- Coordinate of a point in direction `d`. -/
def Pt.get (d : Dir) (p : Pt) : ℕ :=
  match d with
  | .x => p.x
  | .y => p.y
  | .z => p.z

/-- Point number `a` on the line through `p` in direction `d`. -/
def Pt.set (d : Dir) (p : Pt) (a : ℕ) : Pt :=
  match d with
  | .x => { p with x := a }
  | .y => { p with y := a }
  | .z => { p with z := a }

/-- The solution points of a cell in the order of the loops `idz`, `idy`, `idx` (e.g.
`src/sdm/SDM_Run_Functors.h:534-536`, `589-593`). -/
def cellPts (d3 : Bool) (N : ℕ) : List Pt :=
  (List.range (if d3 then N else 1)).flatMap fun z =>
    (List.range N).flatMap fun y => (List.range N).map fun x => ⟨x, y, z⟩

/-- The lines of points in direction `d`, each given by its first point, in the order of the loops: in 2D
over `idy` (direction `x`), `idx` (`y`); in 3D over `idz`, `idy` (`x`), `idz`, `idx` (`y`), `idy`, `idx`
(`z`) (`src/sdm/SDM_Interpolate_Functors.h:95`, `136`, `204-206`, `248-250`, `292-294`). -/
def lines (d3 : Bool) (N : ℕ) (d : Dir) : List Pt :=
  let n := if d3 then N else 1
  match d with
  | .x => (List.range n).flatMap fun z => (List.range N).map fun y => ⟨0, y, z⟩
  | .y => (List.range n).flatMap fun z => (List.range N).map fun x => ⟨x, 0, z⟩
  | .z => (List.range N).flatMap fun y => (List.range N).map fun x => ⟨x, y, 0⟩

/-- The flux points for direction `x` in the order of the loops of the erase functor
(`src/sdm/SDM_Run_Functors.h:74-76`, `129-133`). -/
def erasePts (d3 : Bool) (N : ℕ) : List Pt :=
  (List.range (if d3 then N else 1)).flatMap fun z =>
    (List.range N).flatMap fun y => (List.range (N + 1)).map fun x => ⟨x, y, z⟩

/-- Coordinate of a cell in direction `d`. -/
def coord (d : Dir) (c : Cell) : Int :=
  match d with
  | .x => c.i
  | .y => c.j
  | .z => c.k

/-- `isize`, `jsize`, `ksize`. -/
def size (P : Grid) (d : Dir) : Int :=
  match d with
  | .x => P.isize
  | .y => P.jsize
  | .z => P.ksize

/-! ### Arrays -/

/-- `U` (`src/sdm/SolverHydroSDM.h:533`, `607`). -/
def sU : ℕ := 0
/-- `Uaux`, which receives the divergence of the fluxes (`src/sdm/SolverHydroSDM.h:535`, `609`). -/
def sDiv : ℕ := 1
/-- `Fluxes` (`src/sdm/SolverHydroSDM.h:537`, `611`). -/
def sF : ℕ := 2
/-- `U_RK1`, `U_RK2`, `U_RK3`, `U_RK4` for `i = 1, 2, 3, 4`. -/
def sRK (i : ℕ) : ℕ := 2 + i

/-- Which integrator runs (`src/sdm/SolverHydroSDM.h:964-984`). -/
def selectTimeInt (ssprk2 ssprk3 ssprk54 : Bool) : Mood.TimeInt :=
  if ssprk2 then .ssprk2 else if ssprk3 then .ssprk3 else if ssprk54 then .ssprk54
  else .forward_euler

/-- Number of arrays `U_RK1`, ... that are allocated (`src/sdm/SolverHydroSDM.h:539-577`, `613-651`). -/
def rkArrays : Mood.TimeInt → ℕ
  | .forward_euler => 0
  | .ssprk2 => 1
  | .ssprk3 => 2
  | .ssprk54 => 4

/-- Arrays of values at solution points that are allocated. -/
def solArray (ti : Mood.TimeInt) (A : ℕ) : Prop :=
  A = sU ∨ A = sDiv ∨ ∃ i, 1 ≤ i ∧ i ≤ rkArrays ti ∧ A = sRK i

/-- All allocated entries. -/
def sdmDom (d3 : Bool) (N : ℕ) (P : Grid) (ti : Mood.TimeInt) (a : Addr) : Prop :=
  P.box d3 a.cell ∧
    ((solArray ti a.arr ∧ a.v < nbDof d3 N P.nbvar) ∨ (a.arr = sF ∧ a.v < nbDofFlux d3 N P.nbvar))

/-- What the solver object holds: dimension, order, solution and flux points
(`src/sdm/SolverHydroSDM.h:843-860`, `src/sdm/SDM_Geometry.h`), thread layout. -/
structure Scheme (α : Type) where
  lay : Layout
  d3 : Bool
  N : ℕ
  sp : ℕ → α
  fp : ℕ → α

/-- Location of variable `iv` at solution point `p` of cell `c`. -/
def Scheme.sol (M : Scheme α) (A : ℕ) (c : Cell) (p : Pt) (iv : ℕ) : Addr :=
  c.at A (DofMap M.d3 M.N p iv)

/-- Location of variable `iv` at flux point `p` for direction `d` of cell `c`. -/
def Scheme.flx (M : Scheme α) (d : Dir) (c : Cell) (p : Pt) (iv : ℕ) : Addr :=
  c.at sF (DofMapFlux M.d3 M.N d p iv)

/-- A `parallel_for` over all cells, ghosts included. -/
def Scheme.cells (M : Scheme α) (P : Grid) (body : Cell → K Addr α Unit) : Launch Addr α :=
  Mood.rangeCells M.lay M.d3 P body

/-! ### Functors -/

/-- `SDM_Erase_Functor` for an array of values at solution points (`src/sdm/SDM_Run_Functors.h:59-105`
with `isFlux` false, `87-103`; `113-168`, `146-166`). -/
def eraseSol (M : Scheme α) (P : Grid) (A : ℕ) : Launch Addr α :=
  M.cells P fun c => forEach (cellPts M.d3 M.N ×ˢ List.range (hydroVars M.d3)) fun x =>
    K.store (M.sol A c x.1 x.2) (lit 0)

/-- `SDM_Erase_Functor` for `Fluxes` (`src/sdm/SDM_Run_Functors.h:71-86`, `126-145`): the points are
numbered as those for direction `x`. -/
def eraseFluxes (M : Scheme α) (P : Grid) : Launch Addr α :=
  M.cells P fun c => forEach (erasePts M.d3 M.N ×ˢ List.range (hydroVars M.d3)) fun x =>
    K.store (M.flx .x c x.1 x.2) (lit 0)

/-- The density is kept above `smallr` (`src/sdm/SDM_Interpolate_Functors.h:113-118`). -/
def floorDensity (S : Settings α) (iv : ℕ) (x : α) : α := if iv = ID then fmax x S.smallr else x

/-- `Interpolate_At_FluxPoints_Functor<dim,N,dir>` (`src/sdm/SDM_Interpolate_Functors.h:76-174`,
`184-332`). -/
def interpolate (M : Scheme α) (S : Settings α) (P : Grid) (d : Dir) (A : ℕ) : Launch Addr α :=
  M.cells P fun c => forEach (lines M.d3 M.N d ×ˢ List.range P.nbvar) fun x => do
    let sol ← loadVals M.N fun k => M.sol A c (x.1.set d k) x.2
    storeVals (M.N + 1) (fun k => M.flx d c (x.1.set d k) x.2) fun k =>
      floorDensity S x.2 (sol2fluxVector M.N M.sp M.fp sol k)

/-- `euler.compute_pressure` of the dimension. -/
def pressure (d3 : Bool) (q : HState α) (gamma0 : α) : α :=
  if d3 then Euler3.compute_pressure q gamma0 else Euler2.compute_pressure q gamma0

/-- `euler.convert_to_primitive` of the dimension. -/
def primitive (d3 : Bool) (q : HState α) (gamma0 : α) : HState α :=
  if d3 then Euler3.convert_to_primitive q gamma0 else Euler2.convert_to_primitive q gamma0

/-- `euler.flux_x`, `flux_y`, `flux_z` of the dimension, with the pressure of the state
(e.g. `src/sdm/SDM_Flux_Functors.h:112-116`). -/
def eulerFluxOf (d3 : Bool) (S : Settings α) (d : Dir) (q : HState α) : HState α :=
  if d3 then Euler3.flux d q (pressure d3 q S.gamma0) else Euler2.flux d q (pressure d3 q S.gamma0)

/-- Riemann problem at a face, with the normal velocity moved to `IU` and back
(e.g. `src/sdm/SDM_Flux_Functors.h:156-161`, `241-260`). -/
def riemannFlux (d3 : Bool) (S : Settings α) (junk : HState α) (d : Dir) (qL qR : HState α) :
    HState α :=
  ((riemann_hydro d3 S ((primitive d3 qL S.gamma0).swap d)
    ((primitive d3 qR S.gamma0).swap d)).getD junk).swap d

/-- `ComputeFluxAtFluxPoints_Functor<dim,N,dir>` (`src/sdm/SDM_Flux_Functors.h:73-267`, `278-584`). -/
def computeFlux (M : Scheme α) (S : Settings α) (P : Grid) (junk : Cell → Pt → HState α) (d : Dir) :
    Launch Addr α :=
  M.cells P fun c => do
    forEach (lines M.d3 M.N d ×ˢ List.range' 1 (M.N - 1)) fun x => do
      let q ← loadAt M.d3 (M.flx d c (x.1.set d x.2))
      storeAt M.d3 (M.flx d c (x.1.set d x.2)) (eulerFluxOf M.d3 S d q)
    if 0 < coord d c ∧ coord d c < size P d then
      forEach (lines M.d3 M.N d) fun p => do
        let qL ← loadAt M.d3 (M.flx d (c.down d) (p.set d M.N))
        let qR ← loadAt M.d3 (M.flx d c (p.set d 0))
        storeAt M.d3 (M.flx d (c.down d) (p.set d M.N)) (riemannFlux M.d3 S (junk c p) d qL qR)
        storeAt M.d3 (M.flx d c (p.set d 0)) (riemannFlux M.d3 S (junk c p) d qL qR)
    else pure ()

/-- `rescale = 1.0/dx`, `1.0/dy`, `1.0/dz` (`src/sdm/SDM_Interpolate_Functors.h:408-411`, `525-530`). -/
def rescale (S : Settings α) (d : Dir) : α :=
  match d with
  | .x => lit 1 / S.dx
  | .y => lit 1 / S.dy
  | .z => lit 1 / S.dz

/-- `Interpolate_At_SolutionPoints_Functor<dim,N,dir>` with the default `INTERPOLATE_DERIVATIVE`
(`src/sdm/SDM_Interpolate_Functors.h:400-506`, `516-680`). -/
def accumulate (M : Scheme α) (S : Settings α) (P : Grid) (d : Dir) : Launch Addr α :=
  M.cells P fun c => forEach (lines M.d3 M.N d ×ˢ List.range P.nbvar) fun x => do
    let flux ← loadVals (M.N + 1) fun k => M.flx d c (x.1.set d k) x.2
    addVals M.N (fun k => M.sol sDiv c (x.1.set d k) x.2)
      (flux2solDerivativeVector M.N M.sp M.fp flux (rescale S d))

/-- `compute_invicid_fluxes_divergence_per_dir<dir>` (`src/sdm/SolverHydroSDM.h:1075-1096`). -/
def divergenceAlong (M : Scheme α) (S : Settings α) (P : Grid) (junk : Dir → Cell → Pt → HState α)
    (A : ℕ) (d : Dir) : List (Launch Addr α) :=
  eraseFluxes M P ::
    if M.d3 = false ∧ d = .z then []
    else [interpolate M S P d A, computeFlux M S P (junk d) d, accumulate M S P d]

/-- `compute_fluxes_divergence` without limiter, positivity preservation and viscous terms
(`src/sdm/SolverHydroSDM.h:1228-1263`). -/
def divergence (M : Scheme α) (S : Settings α) (P : Grid) (junk : Dir → Cell → Pt → HState α) (A : ℕ) :
    List (Launch Addr α) :=
  eraseSol M P sDiv ::
    (divergenceAlong M S P junk A .x ++ divergenceAlong M S P junk A .y ++
      divergenceAlong M S P junk A .z)

/-- One entry of `SDM_Update_RK_Functor`: `c0*U_0 + c1*U_1 + c2dt*U_2`. -/
def combine (c0 c1 c2 dt x0 x1 x2 : α) : α := c0 * x0 + c1 * x1 + c2 * dt * x2

/-- `SDM_Update_RK_Functor` with `U_2 = Udata_fdiv` (`src/sdm/SDM_Run_Functors.h:515-564`,
`569-628`). -/
def updateRK (M : Scheme α) (P : Grid) (dt : α) (out A0 A1 : ℕ) (c0 c1 c2 : α) : Launch Addr α :=
  M.cells P fun c =>
    if P.inner M.d3 c then
      forEach (cellPts M.d3 M.N) fun p => do
        let q0 ← loadAt M.d3 (M.sol A0 c p)
        let q1 ← loadAt M.d3 (M.sol A1 c p)
        let q2 ← loadAt M.d3 (M.sol sDiv c p)
        storeAt M.d3 (M.sol out c p)
          (Mood.ofComps M.d3 fun iv =>
            combine c0 c1 c2 dt (Mood.comp q0 iv) (Mood.comp q1 iv) (Mood.comp q2 iv))
    else pure ()

/-! ### Ghost cells -/

/-- Direction of a face. -/
def dirOf : Face → Dir
  | .xmin | .xmax => .x
  | .ymin | .ymax => .y
  | .zmin | .zmax => .z

/-- Is it a lower face? -/
def isLow : Face → Bool
  | .xmin | .ymin | .zmin => true
  | .xmax | .ymax | .zmax => false

/-- `boundary_type` of a face (e.g. `src/sdm/SDM_Boundaries_Functors.h:83`, `138`). -/
def boundaryType (P : Grid) : Face → Int
  | .xmin => P.boundary_type_xmin
  | .xmax => P.boundary_type_xmax
  | .ymin => P.boundary_type_ymin
  | .ymax => P.boundary_type_ymax
  | .zmin => P.boundary_type_zmin
  | .zmax => P.boundary_type_zmax

/-- `nx`, `ny`, `nz`. -/
def interior (P : Grid) (d : Dir) : Int :=
  match d with
  | .x => P.nx
  | .y => P.ny
  | .z => P.nz

/-- The cell with another coordinate in direction `d`. -/
def setCoord (d : Dir) (c : Cell) (x : Int) : Cell :=
  match d with
  | .x => { c with i := x }
  | .y => { c with j := x }
  | .z => { c with k := x }

/-- `iVar == IU`, `IV`, `IW` (`src/sdm/SDM_Boundaries_Functors.h:103`, `159`, `212`, `264`, ...). -/
def isNormal (d : Dir) (iv : ℕ) : Bool :=
  match d with
  | .x => isNormalX false iv
  | .y => isNormalY false iv
  | .z => isNormalZ false iv

/-- `i0`, `j0`, `k0` and the sign; the positions are those of the other solvers
(`src/sdm/SDM_Boundaries_Functors.h:100-125`, `156-180`, ...). -/
def ghostSource (P : Grid) (face : Face) (x : Int) (nrm : Bool) : Int × ℚ :=
  if isLow face then
    lowSource P.ghostWidth (interior P (dirOf face)) (boundaryType P face) x nrm
  else highSource P.ghostWidth (interior P (dirOf face)) (boundaryType P face) x nrm

/-- What the boundary functor does for one ghost cell: copy every value; with `BC_DIRICHLET` take the
mirrored point and multiply by the sign (`src/sdm/SDM_Boundaries_Functors.h:91-128` and the same in every
branch). -/
def fillGhost (M : Scheme α) (P : Grid) (U : ℕ) (face : Face) (c : Cell) : K Addr α Unit :=
  forEach (cellPts M.d3 M.N ×ˢ List.range P.nbvar) fun x => do
    let d := dirOf face
    let s := ghostSource P face (coord d c) (isNormal d x.2)
    if boundaryType P face = BC_DIRICHLET then do
      let y ← K.load (M.sol U (setCoord d c s.1) (x.1.set d (M.N - 1 - x.1.get d)) x.2)
      K.store (M.sol U c x.1 x.2) (y * lit s.2)
    else do
      let y ← K.load (M.sol U (setCoord d c s.1) x.1 x.2)
      K.store (M.sol U c x.1 x.2) y

/-- Decoding of the index and guard of the 2D boundary functor (`src/sdm/SDM_Boundaries_Functors.h:79-89`,
`134-145`, `188-199`, `240-251`). -/
def faceBody2 (P : Grid) (face : Face) (act : Cell → K Addr α Unit) (index : Int) : K Addr α Unit :=
  let g := P.ghostWidth
  match face with
  | .xmin =>
    let j := index.tdiv g
    let i := index - j * g
    if j ≥ P.jmin ∧ j ≤ P.jmax ∧ i ≥ 0 ∧ i < g then act ⟨i, j, 0⟩ else pure ()
  | .xmax =>
    let j := index.tdiv g
    let i := index - j * g + (P.nx + g)
    if j ≥ P.jmin ∧ j ≤ P.jmax ∧ i ≥ P.nx + g ∧ i ≤ P.nx + 2 * g - 1 then act ⟨i, j, 0⟩ else pure ()
  | .ymin =>
    let i := index.tdiv g
    let j := index - i * g
    if i ≥ P.imin ∧ i ≤ P.imax ∧ j ≥ 0 ∧ j < g then act ⟨i, j, 0⟩ else pure ()
  | .ymax =>
    let i := index.tdiv g
    let j := index - i * g + (P.ny + g)
    if i ≥ P.imin ∧ i ≤ P.imax ∧ j ≥ P.ny + g ∧ j ≤ P.ny + 2 * g - 1 then act ⟨i, j, 0⟩ else pure ()
  | _ => pure ()

/-- Decoding of the index and guard of the 3D boundary functor
(`src/sdm/SDM_Boundaries_Functors.h:331-345`, `389-404`, `450-464`, `507-522`, `568-582`, `625-640`). -/
def faceBody3 (P : Grid) (face : Face) (act : Cell → K Addr α Unit) (index : Int) : K Addr α Unit :=
  let g := P.ghostWidth
  let isize := P.isize
  let jsize := P.jsize
  match face with
  | .xmin =>
    let k := index.tdiv (g * jsize)
    let j := (index - k * g * jsize).tdiv g
    let i := index - j * g - k * g * jsize
    if k ≥ P.kmin ∧ k ≤ P.kmax ∧ j ≥ P.jmin ∧ j ≤ P.jmax ∧ i ≥ 0 ∧ i < g then act ⟨i, j, k⟩
    else pure ()
  | .xmax =>
    let k := index.tdiv (g * jsize)
    let j := (index - k * g * jsize).tdiv g
    let i := index - j * g - k * g * jsize + (P.nx + g)
    if k ≥ P.kmin ∧ k ≤ P.kmax ∧ j ≥ P.jmin ∧ j ≤ P.jmax ∧ i ≥ P.nx + g ∧ i ≤ P.nx + 2 * g - 1 then
      act ⟨i, j, k⟩
    else pure ()
  | .ymin =>
    let k := index.tdiv (isize * g)
    let j := (index - k * isize * g).tdiv isize
    let i := index - j * isize - k * isize * g
    if k ≥ P.kmin ∧ k ≤ P.kmax ∧ j ≥ 0 ∧ j < g ∧ i ≥ P.imin ∧ i ≤ P.imax then act ⟨i, j, k⟩
    else pure ()
  | .ymax =>
    let k := index.tdiv (isize * g)
    let j0 := (index - k * isize * g).tdiv isize
    let i := index - j0 * isize - k * isize * g
    let j := j0 + (P.ny + g)
    if k ≥ P.kmin ∧ k ≤ P.kmax ∧ j ≥ P.ny + g ∧ j ≤ P.ny + 2 * g - 1 ∧ i ≥ P.imin ∧ i ≤ P.imax then
      act ⟨i, j, k⟩
    else pure ()
  | .zmin =>
    let k := index.tdiv (isize * jsize)
    let j := (index - k * isize * jsize).tdiv isize
    let i := index - j * isize - k * isize * jsize
    if k ≥ 0 ∧ k < g ∧ j ≥ P.jmin ∧ j ≤ P.jmax ∧ i ≥ P.imin ∧ i ≤ P.imax then act ⟨i, j, k⟩
    else pure ()
  | .zmax =>
    let k0 := index.tdiv (isize * jsize)
    let j := (index - k0 * isize * jsize).tdiv isize
    let i := index - j * isize - k0 * isize * jsize
    let k := k0 + (P.nz + g)
    if k ≥ P.nz + g ∧ k ≤ P.nz + 2 * g - 1 ∧ j ≥ P.jmin ∧ j ≤ P.jmax ∧ i ≥ P.imin ∧ i ≤ P.imax then
      act ⟨i, j, k⟩
    else pure ()

/-- A `parallel_for` over the ghost cells of a face with the number of work items of `make_boundary_sdm`
(`src/sdm/SolverHydroSDM.h:1551-1568`). -/
def faceLaunch (d3 : Bool) (P : Grid) (face : Face) (act : Cell → K Addr α Unit) : Launch Addr α where
  n := (if d3 then P.ghostWidth * max (max P.isize P.jsize) P.ksize *
          max (max P.isize P.jsize) P.ksize
        else P.ghostWidth * max P.isize P.jsize).toNat
  body t := if d3 then faceBody3 P face act t else faceBody2 P face act t

/-- `make_boundary_sdm<faceId>`. -/
def makeBoundary (M : Scheme α) (P : Grid) (U : ℕ) (face : Face) : Launch Addr α :=
  faceLaunch M.d3 P face (fillGhost M P U face)

/-- `make_boundaries`, serial, general case (`src/sdm/SolverHydroSDM.h:1622-1636`, `1681-1697`). -/
def makeBoundaries (M : Scheme α) (P : Grid) (U : ℕ) : List (Launch Addr α) :=
  [makeBoundary M P U .xmin, makeBoundary M P U .xmax, makeBoundary M P U .ymin,
    makeBoundary M P U .ymax] ++
    if M.d3 then [makeBoundary M P U .zmin, makeBoundary M P U .zmax] else []

/-! ### Time integration -/

/-- `time_integration_impl` with `time_int_forward_euler`, `time_int_ssprk2`, `time_int_ssprk3`,
`time_int_ssprk54` (`src/sdm/SolverHydroSDM.h:955-987`, `1272-1287`, `1311-1344`, `1366-1418`,
`1436-1532`); `Udata = U`, `Udata_fdiv = Uaux`. -/
def timeStep (M : Scheme α) (S : Settings α) (P : Grid) (junk : ℕ → Dir → Cell → Pt → HState α)
    (ti : Mood.TimeInt) (dt : α) : List (Launch Addr α) :=
  makeBoundaries M P sU ++
  match ti with
  | .forward_euler =>
    divergence M S P (junk 0) sU ++ [updateRK M P dt sU sU sU (lit 1) (lit 0) (lit (-1))]
  | .ssprk2 =>
    divergence M S P (junk 0) sU ++ [updateRK M P dt (sRK 1) sU sU (lit 1) (lit 0) (lit (-1))] ++
    makeBoundaries M P (sRK 1) ++
    divergence M S P (junk 1) (sRK 1) ++
      [updateRK M P dt sU sU (sRK 1) (lit (1/2)) (lit (1/2)) (lit (-1/2))]
  | .ssprk3 =>
    divergence M S P (junk 0) sU ++ [updateRK M P dt (sRK 1) sU sU (lit 1) (lit 0) (lit (-1))] ++
    makeBoundaries M P (sRK 1) ++
    divergence M S P (junk 1) (sRK 1) ++
      [updateRK M P dt (sRK 2) sU (sRK 1) (lit (3/4)) (lit (1/4)) (lit (-1/4))] ++
    makeBoundaries M P (sRK 2) ++
    divergence M S P (junk 2) (sRK 2) ++
      [updateRK M P dt sU sU (sRK 2) (lit 1 / lit 3) (lit 2 / lit 3) (lit (-2) / lit 3)]
  | .ssprk54 =>
    divergence M S P (junk 0) sU ++
      [updateRK M P dt (sRK 1) sU sU (lit 1) (lit 0) (lit (-0.391752226571890))] ++
    makeBoundaries M P (sRK 1) ++
    divergence M S P (junk 1) (sRK 1) ++
      [updateRK M P dt (sRK 2) sU (sRK 1) (lit 0.444370493651235) (lit 0.555629506348765)
        (lit (-0.368410593050371))] ++
    makeBoundaries M P (sRK 2) ++
    divergence M S P (junk 2) (sRK 2) ++
      [updateRK M P dt (sRK 3) sU (sRK 2) (lit 0.620101851488403) (lit 0.379898148511597)
        (lit (-0.251891774271694))] ++
    makeBoundaries M P (sRK 3) ++
    divergence M S P (junk 3) (sRK 3) ++
      [updateRK M P dt (sRK 4) sU (sRK 3) (lit 0.178079954393132) (lit 0.821920045606868)
        (lit (-0.544974750228521)),
       updateRK M P dt sU (sRK 2) (sRK 3) (lit 0.517231671970585) (lit 0.096059710526147)
        (lit (-0.063692468666290))] ++
    makeBoundaries M P (sRK 4) ++
    divergence M S P (junk 4) (sRK 4) ++
      [updateRK M P dt sU sU (sRK 4) (lit 1) (lit 0.386708617503269) (lit (-0.226007483236906))]

end Verif.Sdm
