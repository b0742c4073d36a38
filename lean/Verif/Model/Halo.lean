import Verif.Model.Mpi
import Verif.Model.Index

/-!
# Halo exchange

`SolverBase::make_boundaries_mpi`, `copy_boundaries`, `transfert_boundaries_2d/3d`,
`copy_boundaries_back` (`src/shared/SolverBase.cpp:540-1033`), the copy functors of
`src/shared/mpiBorderUtils.h` and the neighbour tables of `HydroParams::setup_mpi`
(`src/shared/HydroParams.cpp:221-415`).

In a 2D run the topology is `mx × my` (`mz = 1` below) and arrays have `k = 0` only.  The program of a
rank is the list of its statements; `Kokkos::fence` is implicit.  Border buffers are arrays with their own
numbers, distinct from each other.
-/

namespace Verif

variable {α : Type} [ROps α]

/-- Position of a face in the enumerations `BoundaryLocation`, `NeighborLocation`, `FaceIdType`
(`src/shared/enums.h:122-133`, `:176-184`, `src/utils/mpiUtils/mpiEnums.h:46-54`). -/
def Face.idx : Face → Nat
  | .xmin => 0 | .xmax => 1 | .ymin => 2 | .ymax => 3 | .zmin => 4 | .zmax => 5

/-- `borderBufSend_<face>` (`src/shared/SolverBase.cpp:73-76`, `:85-90`). -/
def bufSend (f : Face) : Nat := 20 + f.idx
/-- `borderBufRecv_<face>` (`src/shared/SolverBase.cpp:78-81`, `:92-97`). -/
def bufRecv (f : Face) : Nat := 30 + f.idx

/-- Extents of the border buffers (`src/shared/SolverBase.cpp:71-98`). -/
def Grid.bufShape (d3 : Bool) (P : Grid) (f : Face) : Shape :=
  let g := P.ghostWidth
  let ksize := if d3 then P.ksize else 1
  match f with
  | .xmin | .xmax => ⟨g, P.jsize, ksize, P.nbvar⟩
  | .ymin | .ymax => ⟨P.isize, g, ksize, P.nbvar⟩
  | .zmin | .zmax => ⟨P.isize, P.jsize, g, P.nbvar⟩

/-- `CopyDataArray_To_BorderBuf<face,TWO_D>::operator()` (`src/shared/mpiBorderUtils.h:209-255`). -/
def copyToBuf2DBody (lay : Layout) (P : Grid) (U : Nat) (face : Face) (index : Int) :
    K Addr α Unit :=
  let g := P.ghostWidth
  let offset : Int := match face with
    | .xmax => P.isize - 2 * g
    | .ymax => P.jsize - 2 * g
    | _ => g
  match face with
  | .xmin | .xmax =>
    let c := index2coord2 lay index g P.jsize
    forVars P.nbvar fun v => do
      let x ← K.load ⟨U, offset + c.1, c.2, 0, v⟩
      K.store ⟨bufSend face, c.1, c.2, 0, v⟩ x
  | .ymin | .ymax =>
    let c := index2coord2 lay index P.isize g
    forVars P.nbvar fun v => do
      let x ← K.load ⟨U, c.1, offset + c.2, 0, v⟩
      K.store ⟨bufSend face, c.1, c.2, 0, v⟩ x
  | _ => pure ()

/-- `CopyDataArray_To_BorderBuf<face,THREE_D>::operator()` (`src/shared/mpiBorderUtils.h:258-330`). -/
def copyToBuf3DBody (lay : Layout) (P : Grid) (U : Nat) (face : Face) (index : Int) :
    K Addr α Unit :=
  let g := P.ghostWidth
  let c : Int × Int × Int := match face with
    | .xmin | .xmax => index2coord3 lay index g P.jsize P.ksize
    | .ymin | .ymax => index2coord3 lay index P.isize g P.ksize
    | _ => index2coord3 lay index P.isize P.jsize g
  let offset : Int := match face with
    | .xmax => P.isize - 2 * g
    | .ymax => P.jsize - 2 * g
    | .zmax => P.ksize - 2 * g
    | _ => g
  match face with
  | .xmin | .xmax =>
    forVars P.nbvar fun v => do
      let x ← K.load ⟨U, offset + c.1, c.2.1, c.2.2, v⟩
      K.store ⟨bufSend face, c.1, c.2.1, c.2.2, v⟩ x
  | .ymin | .ymax =>
    forVars P.nbvar fun v => do
      let x ← K.load ⟨U, c.1, offset + c.2.1, c.2.2, v⟩
      K.store ⟨bufSend face, c.1, c.2.1, c.2.2, v⟩ x
  | .zmin | .zmax =>
    forVars P.nbvar fun v => do
      let x ← K.load ⟨U, c.1, c.2.1, offset + c.2.2, v⟩
      K.store ⟨bufSend face, c.1, c.2.1, c.2.2, v⟩ x

/-- `CopyBorderBuf_To_DataArray<face,TWO_D>::operator()` (`src/shared/mpiBorderUtils.h:63-102`). -/
def copyFromBuf2DBody (lay : Layout) (P : Grid) (U : Nat) (face : Face) (index : Int) :
    K Addr α Unit :=
  let g := P.ghostWidth
  let offset : Int := match face with
    | .xmax => P.isize - g
    | .ymax => P.jsize - g
    | _ => 0
  match face with
  | .xmin | .xmax =>
    let c := index2coord2 lay index g P.jsize
    forVars P.nbvar fun v => do
      let x ← K.load ⟨bufRecv face, c.1, c.2, 0, v⟩
      K.store ⟨U, offset + c.1, c.2, 0, v⟩ x
  | .ymin | .ymax =>
    let c := index2coord2 lay index P.isize g
    forVars P.nbvar fun v => do
      let x ← K.load ⟨bufRecv face, c.1, c.2, 0, v⟩
      K.store ⟨U, c.1, offset + c.2, 0, v⟩ x
  | _ => pure ()

/-- `CopyBorderBuf_To_DataArray<face,THREE_D>::operator()` (`src/shared/mpiBorderUtils.h:105-157`). -/
def copyFromBuf3DBody (lay : Layout) (P : Grid) (U : Nat) (face : Face) (index : Int) :
    K Addr α Unit :=
  let g := P.ghostWidth
  let offset : Int := match face with
    | .xmax => P.isize - g
    | .ymax => P.jsize - g
    | .zmax => P.ksize - g
    | _ => 0
  match face with
  | .xmin | .xmax =>
    let c := index2coord3 lay index g P.jsize P.ksize
    forVars P.nbvar fun v => do
      let x ← K.load ⟨bufRecv face, c.1, c.2.1, c.2.2, v⟩
      K.store ⟨U, offset + c.1, c.2.1, c.2.2, v⟩ x
  | .ymin | .ymax =>
    let c := index2coord3 lay index P.isize g P.ksize
    forVars P.nbvar fun v => do
      let x ← K.load ⟨bufRecv face, c.1, c.2.1, c.2.2, v⟩
      K.store ⟨U, c.1, offset + c.2.1, c.2.2, v⟩ x
  | .zmin | .zmax =>
    let c := index2coord3 lay index P.isize P.jsize g
    forVars P.nbvar fun v => do
      let x ← K.load ⟨bufRecv face, c.1, c.2.1, c.2.2, v⟩
      K.store ⟨U, c.1, c.2.1, offset + c.2.2, v⟩ x

/-- `nbIter` of the copy loops (`src/shared/SolverBase.cpp:709`, `:718`, `:742`, `:751`, `:760` and the
same expressions in `copy_boundaries_back`, `:941-1026`). -/
def Grid.borderIter (d3 : Bool) (P : Grid) (face : Face) : Int :=
  let gw := P.ghostWidth
  if d3 then
    match face with
    | .xmin | .xmax => gw * P.jsize * P.ksize
    | .ymin | .ymax => P.isize * gw * P.ksize
    | .zmin | .zmax => P.isize * P.jsize * gw
  else
    match face with
    | .xmin | .xmax => gw * P.jsize
    | .ymin | .ymax => P.isize * gw
    | _ => 0

/-- `CopyDataArray_To_BorderBuf<face,dim>::apply` (`src/shared/mpiBorderUtils.h:199-205`). -/
def copyToBuf (d3 : Bool) (lay : Layout) (P : Grid) (U : Nat) (face : Face) : Launch Addr α where
  n := (P.borderIter d3 face).toNat
  body t := if d3 then copyToBuf3DBody lay P U face t else copyToBuf2DBody lay P U face t

/-- `CopyBorderBuf_To_DataArray<face,dim>::apply` (`src/shared/mpiBorderUtils.h:52-58`). -/
def copyFromBuf (d3 : Bool) (lay : Layout) (P : Grid) (U : Nat) (face : Face) : Launch Addr α where
  n := (P.borderIter d3 face).toNat
  body t := if d3 then copyFromBuf3DBody lay P U face t else copyFromBuf2DBody lay P U face t

/-- `params.neighborsBC[face]` (`src/shared/HydroParams.cpp:292-352`) for the rank at position `p`. -/
def neighborsBC (P : Grid) (mx my mz : Int) (p : Cell) : Face → Int
  | .xmin => if p.i = 0 then P.boundary_type_xmin else BC_COPY
  | .xmax => if p.i = mx - 1 then P.boundary_type_xmax else BC_COPY
  | .ymin => if p.j = 0 then P.boundary_type_ymin else BC_COPY
  | .ymax => if p.j = my - 1 then P.boundary_type_ymax else BC_COPY
  | .zmin => if p.k = 0 then P.boundary_type_zmin else BC_COPY
  | .zmax => if p.k = mz - 1 then P.boundary_type_zmax else BC_COPY

/-- Message tags of `transfert_boundaries_2d/3d` (`src/shared/SolverBase.cpp:790-925`). -/
def haloTag : Face → Int
  | .xmin | .xmax => 111
  | .ymin | .ymax => 211
  | .zmin | .zmax => 311

/-- The `if (neighborsBC[face] == BC_COPY || ... == BC_PERIODIC) copy_boundaries_back else make_boundary`
statements (`src/shared/SolverBase.cpp:559-575` and the same for every face). -/
def haloBack (d3 : Bool) (lay : Layout) (mhd : Bool) (P : Grid) (U : Nat) (mx my mz : Int) (r : Nat)
    (face : Face) : Launch Addr α :=
  let bc := neighborsBC P mx my mz (cartCoords my mz r) face
  if bc = BC_COPY ∨ bc = BC_PERIODIC then copyFromBuf d3 lay P U face
  else if d3 then makeBoundary3D mhd P U face else makeBoundary2D mhd P U face

/-- One direction of `make_boundaries_mpi` for rank `r`; `lo`, `hi` are the two faces
(`src/shared/SolverBase.cpp:553-577`; `transfert_boundaries_*`: `:772-925`). -/
def haloDirection (d3 : Bool) (lay : Layout) (mhd : Bool) (P : Grid) (U : Nat) (mx my mz : Int)
    (lo hi : Face) (r : Nat) : List (MpiOp α) :=
  [ .kernels [copyToBuf d3 lay P U lo, copyToBuf d3 lay P U hi],
    .sendrecv
      { dst := neighborRank mx my mz r lo, sbuf := bufSend lo, sshape := P.bufShape d3 lo,
        stag := haloTag lo,
        src := neighborRank mx my mz r hi, rbuf := bufRecv hi, rshape := P.bufShape d3 hi,
        rtag := haloTag hi },
    .sendrecv
      { dst := neighborRank mx my mz r hi, sbuf := bufSend hi, sshape := P.bufShape d3 hi,
        stag := haloTag hi,
        src := neighborRank mx my mz r lo, rbuf := bufRecv lo, rshape := P.bufShape d3 lo,
        rtag := haloTag lo },
    .kernels [haloBack d3 lay mhd P U mx my mz r lo, haloBack d3 lay mhd P U mx my mz r hi],
    .barrier ]

/-- `SolverBase::make_boundaries_mpi(DataArray2d, ...)` (`src/shared/SolverBase.cpp:540-605`). -/
def makeBoundariesMpi2D (lay : Layout) (mhd : Bool) (P : Grid) (U : Nat) (mx my : Int) (r : Nat) :
    List (MpiOp α) :=
  haloDirection false lay mhd P U mx my 1 .xmin .xmax r ++
  haloDirection false lay mhd P U mx my 1 .ymin .ymax r

/-- `SolverBase::make_boundaries_mpi(DataArray3d, ...)` (`src/shared/SolverBase.cpp:607-693`). -/
def makeBoundariesMpi3D (lay : Layout) (mhd : Bool) (P : Grid) (U : Nat) (mx my mz : Int) (r : Nat) :
    List (MpiOp α) :=
  haloDirection true lay mhd P U mx my mz .xmin .xmax r ++
  haloDirection true lay mhd P U mx my mz .ymin .ymax r ++
  haloDirection true lay mhd P U mx my mz .zmin .zmax r

end Verif
