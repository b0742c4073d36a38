import Verif.Model.Params

/-!
# Ghost cell fill

`MakeBoundariesFunctor2D/3D[_MHD]` (`src/shared/BoundariesFunctors.h`) and
`SolverBase::make_boundary`, `make_boundaries_serial` (`src/shared/SolverBase.cpp:338-537`).

The hydro and MHD functors are textually identical except for the set of variables that changes sign at a
reflecting wall; they are modelled by one definition with a flag `mhd`.  Integer products are exact (no
overflow).
-/

namespace Verif

/-- `FaceIdType` (`src/shared/enums.h`). -/
inductive Face | xmin | xmax | ymin | ymax | zmin | zmax
  deriving DecidableEq

variable {α : Type} [ROps α]

/-- Source position (one coordinate) and sign for a ghost position `c` on a lower face; `n` interior
cells, ghost width `g`, `isNormal` = variable changes sign at a wall
(`src/shared/BoundariesFunctors.h:72-88`, and the same code in every `*MIN` branch). -/
def lowSource (g n bt c : Int) (isNormal : Bool) : Int × ℚ :=
  if bt = BC_DIRICHLET then (2 * g - 1 - c, if isNormal then -1 else 1)
  else if bt = BC_NEUMANN then (g, 1)
  else (n + c, 1)

/-- Same for an upper face (`src/shared/BoundariesFunctors.h:113-130` and every `*MAX` branch). -/
def highSource (g n bt c : Int) (isNormal : Bool) : Int × ℚ :=
  if bt = BC_DIRICHLET then (2 * n + 2 * g - 1 - c, if isNormal then -1 else 1)
  else if bt = BC_NEUMANN then (n + g - 1, 1)
  else (c - n, 1)

/-- `iVar == IU` (hydro) or `iVar == IU || iVar == IA` (MHD): `src/shared/BoundariesFunctors.h:77`,
`:592-595`. -/
def isNormalX (mhd : Bool) (v : Nat) : Bool := v == IU || (mhd && v == IA)
/-- `IV` / `IB` (`src/shared/BoundariesFunctors.h:155`, `:670-673`). -/
def isNormalY (mhd : Bool) (v : Nat) : Bool := v == IV || (mhd && v == IB)
/-- `IW` / `IC` (`src/shared/BoundariesFunctors.h:442`, `:965-968`). -/
def isNormalZ (mhd : Bool) (v : Nat) : Bool := v == IW || (mhd && v == IC)

/-- `MakeBoundariesFunctor2D<faceId>::operator()` (`src/shared/BoundariesFunctors.h:36-212`) and
`MakeBoundariesFunctor2D_MHD<faceId>::operator()` (`:553-741`). -/
def makeBoundary2DBody (mhd : Bool) (P : Grid) (U : Nat) (face : Face) (index : Int) :
    K Addr α Unit :=
  let g := P.ghostWidth
  match face with
  | .xmin =>
    let j := index.tdiv g
    let i := index - j * g
    if j ≥ P.jmin ∧ j ≤ P.jmax ∧ i ≥ 0 ∧ i < g then
      forVars P.nbvar fun iVar => do
        let s := lowSource g P.nx P.boundary_type_xmin i (isNormalX mhd iVar)
        let x ← K.load ⟨U, s.1, j, 0, iVar⟩
        K.store ⟨U, i, j, 0, iVar⟩ (x * ROps.lit s.2)
    else pure ()
  | .xmax =>
    let j := index.tdiv g
    let i := index - j * g + (P.nx + g)
    if j ≥ P.jmin ∧ j ≤ P.jmax ∧ i ≥ P.nx + g ∧ i ≤ P.nx + 2 * g - 1 then
      forVars P.nbvar fun iVar => do
        let s := highSource g P.nx P.boundary_type_xmax i (isNormalX mhd iVar)
        let x ← K.load ⟨U, s.1, j, 0, iVar⟩
        K.store ⟨U, i, j, 0, iVar⟩ (x * ROps.lit s.2)
    else pure ()
  | .ymin =>
    let i := index.tdiv g
    let j := index - i * g
    if i ≥ P.imin ∧ i ≤ P.imax ∧ j ≥ 0 ∧ j < g then
      forVars P.nbvar fun iVar => do
        let s := lowSource g P.ny P.boundary_type_ymin j (isNormalY mhd iVar)
        let x ← K.load ⟨U, i, s.1, 0, iVar⟩
        K.store ⟨U, i, j, 0, iVar⟩ (x * ROps.lit s.2)
    else pure ()
  | .ymax =>
    let i := index.tdiv g
    let j := index - i * g + (P.ny + g)
    if i ≥ P.imin ∧ i ≤ P.imax ∧ j ≥ P.ny + g ∧ j ≤ P.ny + 2 * g - 1 then
      forVars P.nbvar fun iVar => do
        let s := highSource g P.ny P.boundary_type_ymax j (isNormalY mhd iVar)
        let x ← K.load ⟨U, i, s.1, 0, iVar⟩
        K.store ⟨U, i, j, 0, iVar⟩ (x * ROps.lit s.2)
    else pure ()
  | _ => pure ()

/-- `SolverBase::make_boundary(DataArray2d, ...)` (`src/shared/SolverBase.cpp:338-405`):
`nbIter = ghostWidth * max(isize, jsize)` work items. -/
def makeBoundary2D (mhd : Bool) (P : Grid) (U : Nat) (face : Face) : Launch Addr α where
  n := (P.ghostWidth * max P.isize P.jsize).toNat
  body t := makeBoundary2DBody mhd P U face t

/-- `SolverBase::make_boundaries_serial(DataArray2d, ...)` (`src/shared/SolverBase.cpp:513-522`). -/
def makeBoundariesSerial2D (mhd : Bool) (P : Grid) (U : Nat) : List (Launch Addr α) :=
  [makeBoundary2D mhd P U .xmin, makeBoundary2D mhd P U .xmax,
   makeBoundary2D mhd P U .ymin, makeBoundary2D mhd P U .ymax]

/-- `MakeBoundariesFunctor3D<faceId>::operator()` (`src/shared/BoundariesFunctors.h:243-520`) and
`MakeBoundariesFunctor3D_MHD<faceId>::operator()` (`:765-1048`). -/
def makeBoundary3DBody (mhd : Bool) (P : Grid) (U : Nat) (face : Face) (index : Int) :
    K Addr α Unit :=
  let g := P.ghostWidth
  let isize := P.isize
  let jsize := P.jsize
  match face with
  | .xmin =>
    let k := index.tdiv (g * jsize)
    let j := (index - k * g * jsize).tdiv g
    let i := index - j * g - k * g * jsize
    if k ≥ P.kmin ∧ k ≤ P.kmax ∧ j ≥ P.jmin ∧ j ≤ P.jmax ∧ i ≥ 0 ∧ i < g then
      forVars P.nbvar fun iVar => do
        let s := lowSource g P.nx P.boundary_type_xmin i (isNormalX mhd iVar)
        let x ← K.load ⟨U, s.1, j, k, iVar⟩
        K.store ⟨U, i, j, k, iVar⟩ (x * ROps.lit s.2)
    else pure ()
  | .xmax =>
    let k := index.tdiv (g * jsize)
    let j := (index - k * g * jsize).tdiv g
    let i := index - j * g - k * g * jsize + (P.nx + g)
    if k ≥ P.kmin ∧ k ≤ P.kmax ∧ j ≥ P.jmin ∧ j ≤ P.jmax ∧ i ≥ P.nx + g ∧
        i ≤ P.nx + 2 * g - 1 then
      forVars P.nbvar fun iVar => do
        let s := highSource g P.nx P.boundary_type_xmax i (isNormalX mhd iVar)
        let x ← K.load ⟨U, s.1, j, k, iVar⟩
        K.store ⟨U, i, j, k, iVar⟩ (x * ROps.lit s.2)
    else pure ()
  | .ymin =>
    let k := index.tdiv (isize * g)
    let j := (index - k * isize * g).tdiv isize
    let i := index - j * isize - k * isize * g
    if k ≥ P.kmin ∧ k ≤ P.kmax ∧ j ≥ 0 ∧ j < g ∧ i ≥ P.imin ∧ i ≤ P.imax then
      forVars P.nbvar fun iVar => do
        let s := lowSource g P.ny P.boundary_type_ymin j (isNormalY mhd iVar)
        let x ← K.load ⟨U, i, s.1, k, iVar⟩
        K.store ⟨U, i, j, k, iVar⟩ (x * ROps.lit s.2)
    else pure ()
  | .ymax =>
    let k := index.tdiv (isize * g)
    let j0 := (index - k * isize * g).tdiv isize
    let i := index - j0 * isize - k * isize * g
    let j := j0 + (P.ny + g)
    if k ≥ P.kmin ∧ k ≤ P.kmax ∧ j ≥ P.ny + g ∧ j ≤ P.ny + 2 * g - 1 ∧ i ≥ P.imin ∧
        i ≤ P.imax then
      forVars P.nbvar fun iVar => do
        let s := highSource g P.ny P.boundary_type_ymax j (isNormalY mhd iVar)
        let x ← K.load ⟨U, i, s.1, k, iVar⟩
        K.store ⟨U, i, j, k, iVar⟩ (x * ROps.lit s.2)
    else pure ()
  | .zmin =>
    let k := index.tdiv (isize * jsize)
    let j := (index - k * isize * jsize).tdiv isize
    let i := index - j * isize - k * isize * jsize
    if k ≥ 0 ∧ k < g ∧ j ≥ P.jmin ∧ j ≤ P.jmax ∧ i ≥ P.imin ∧ i ≤ P.imax then
      forVars P.nbvar fun iVar => do
        let s := lowSource g P.nz P.boundary_type_zmin k (isNormalZ mhd iVar)
        let x ← K.load ⟨U, i, j, s.1, iVar⟩
        K.store ⟨U, i, j, k, iVar⟩ (x * ROps.lit s.2)
    else pure ()
  | .zmax =>
    let k0 := index.tdiv (isize * jsize)
    let j := (index - k0 * isize * jsize).tdiv isize
    let i := index - j * isize - k0 * isize * jsize
    let k := k0 + (P.nz + g)
    if k ≥ P.nz + g ∧ k ≤ P.nz + 2 * g - 1 ∧ j ≥ P.jmin ∧ j ≤ P.jmax ∧ i ≥ P.imin ∧
        i ≤ P.imax then
      forVars P.nbvar fun iVar => do
        let s := highSource g P.nz P.boundary_type_zmax k (isNormalZ mhd iVar)
        let x ← K.load ⟨U, i, j, s.1, iVar⟩
        K.store ⟨U, i, j, k, iVar⟩ (x * ROps.lit s.2)
    else pure ()

/-- `SolverBase::make_boundary(DataArray3d, ...)` (`src/shared/SolverBase.cpp:409-509`):
`nbIter = ghostWidth * max_size * max_size`. -/
def makeBoundary3D (mhd : Bool) (P : Grid) (U : Nat) (face : Face) : Launch Addr α where
  n := (P.ghostWidth * max (max P.isize P.jsize) P.ksize *
        max (max P.isize P.jsize) P.ksize).toNat
  body t := makeBoundary3DBody mhd P U face t

/-- `SolverBase::make_boundaries_serial(DataArray3d, ...)` (`src/shared/SolverBase.cpp:526-537`). -/
def makeBoundariesSerial3D (mhd : Bool) (P : Grid) (U : Nat) : List (Launch Addr α) :=
  [makeBoundary3D mhd P U .xmin, makeBoundary3D mhd P U .xmax,
   makeBoundary3D mhd P U .ymin, makeBoundary3D mhd P U .ymax,
   makeBoundary3D mhd P U .zmin, makeBoundary3D mhd P U .zmax]

end Verif
