import Verif.Model.Hdf5

/-!
# The index of the HDF5 files

`writeXdmfForHdf5Wrapper` (`src/utils/io/IO_HDF5.cpp:15-378`) and its call at the end of `main`
(`src/main.cpp:169-176`).  XML syntax, the data type and the geometry (origin 0, spacing 1) are left out; the products of
sizes are taken not to overflow.
-/

namespace Verif.Hdf5

/-- One `<Grid>` of the collection. -/
structure XdmfGrid where
  name : String
  /-- `<Time Value=…>` -/
  time : Int
  /-- `NumberOfElements`, also `Dimensions` of all attributes -/
  dims : List Int
  /-- attributes: name, and the `file:/dataset` it is read from -/
  attributes : List (String × String × String)

/-- `nxg, nyg, nzg` in the order they are printed (`src/utils/io/IO_HDF5.cpp:43-111`, `:178-183`). -/
def Run.indexDims (R : Run) : List Int :=
  let gw := R.P.ghostWidth
  let grown := R.ghosts ≠ .none
  let order (x y z : Int) : List Int := if R.d3 then [z, y, x] else [y, x]
  if R.reassemble then
    match R.ghosts with
    | .none => order (R.mx * R.P.nx) (R.my * R.P.ny) (R.mz * R.P.nz)
    | .outer => order (R.mx * R.P.nx + 2 * gw) (R.my * R.P.ny + 2 * gw) (R.mz * R.P.nz + 2 * gw)
    | .all => order (R.mx * (R.P.nx + 2 * gw)) (R.my * (R.P.ny + 2 * gw)) (R.mz * (R.P.nz + 2 * gw))
  else if R.d3 then
    if grown then order (R.P.nx + 2 * gw) (R.P.ny + 2 * gw) ((R.P.nz + 2 * gw) * R.mx * R.my * R.mz)
    else order R.P.nx R.P.ny (R.P.nz * R.mx * R.my * R.mz)
  else
    if grown then order (R.P.nx + 2 * gw) ((R.P.ny + 2 * gw) * R.mx * R.my) 0
    else order R.P.nx (R.P.ny * R.mx * R.my) 0

/-- `hdf5Filename` (`src/utils/io/IO_HDF5.cpp:164-172`): without the directory. -/
def indexRef (pre : String) (step : Nat) : String := pre ++ "_" ++ Vtk.padded 7 step ++ ".h5"

/-- The attributes of one step (`src/utils/io/IO_HDF5.cpp:225-364`). -/
def Run.indexVars (R : Run) : List Nat :=
  [ID, IE, IU, IV] ++ (if R.d3 && !R.mhd then [IW] else []) ++ (if R.mhd then [IW, IA, IB, IC] else [])

/-- One step (`src/utils/io/IO_HDF5.cpp:161-367`). -/
def Run.indexGrid (R : Run) (pre : String) (iStep : Int) : XdmfGrid where
  name := pre ++ "_" ++ Vtk.padded 7 iStep.toNat
  time := iStep
  dims := R.indexDims
  attributes := R.indexVars.map fun v => (fieldName v, indexRef pre iStep.toNat, fieldName v)

/-- The steps listed (`src/utils/io/IO_HDF5.cpp:146-161`). -/
def indexSteps (totalNumberOfSteps : Int) (singleStep : Bool) : List Int :=
  if singleStep then Vtk.upTo totalNumberOfSteps (totalNumberOfSteps + 1) else Vtk.upTo 0 totalNumberOfSteps

/-- The index. -/
def Run.index (R : Run) (pre : String) (totalNumberOfSteps : Int) (singleStep : Bool) : List XdmfGrid :=
  (indexSteps totalNumberOfSteps singleStep).map (R.indexGrid pre)

/-- The index `main` writes at the end of a run that has saved `timesSaved` times in all
(`src/main.cpp:173-174`). -/
def Run.finalIndex (R : Run) (pre : String) (timesSaved : Int) : List XdmfGrid := R.index pre (timesSaved - 1) false

/-- Name of the index, in the working directory (`src/utils/io/IO_HDF5.cpp:123-135`). -/
def indexName (pre : String) (totalNumberOfSteps : Nat) (singleStep : Bool) : String :=
  if singleStep then pre ++ "_" ++ Vtk.padded 7 totalNumberOfSteps ++ ".xmf" else pre ++ ".xmf"

end Verif.Hdf5
