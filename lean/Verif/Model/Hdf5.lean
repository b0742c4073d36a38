import Verif.Model.Params
import Verif.Model.Index
import Verif.Model.Mpi
import Verif.Model.Vtk

/-!
# HDF5 files (`src/utils/io/IO_HDF5.h`)

`Save_HDF5` (`:74-528`), `Save_HDF5_mpi` (`:535-1512`), `Load_HDF5` (`:1536-2153`) and `Load_HDF5_mpi` (`:2175-2795`).

The library is modelled by the two calls that move data.  A dataset is a function of a multi-index inside its
extents; a dataspace is extents with a selected box (all hyperslabs in the code are boxes); `H5Dwrite` and
`H5Dread` pair the selected elements of memory and file in row-major order.  A call the library rejects, or whose file extents
are not those of the dataset, is `none`: the code only prints a message then, so nothing is known of the result.
Compression and chunking do not change the content.  Attributes are those the reader uses; `(double)totalTime` and back is
the identity.

The serial classes are the parallel ones for a single process: the same extents (`n*1`, `n*1+2*ghostWidth`), the same memory
box, and a file box that covers everything.  All ranks' writes of a collective `H5Dwrite` take place in some order.
-/

namespace Verif.Hdf5

variable {α : Type}

/-! ## The library -/

/-- Multi-indices below `count`, row-major. -/
def indices : List Nat → List (List Nat)
  | [] => [[]]
  | c :: cs => (List.range c).flatMap fun a => (indices cs).map fun as => a :: as

/-- Position of a multi-index in a row-major array. -/
def lin : List Nat → List Nat → Nat
  | _ :: ds, a :: as => a * ds.prod + lin ds as
  | _, _ => 0

/-- A dataspace with the box `H5Sselect_hyperslab` selects. -/
structure Space where
  dims : List Nat
  start : List Nat
  count : List Nat

def shift (s a : List Nat) : List Nat := List.zipWith (fun x y => x + y) s a

def Space.selected (S : Space) : List (List Nat) := (indices S.count).map (shift S.start)

/-- The selection has the rank of the space and lies inside its extents. -/
def Space.inside (S : Space) : Bool :=
  decide (S.start.length = S.dims.length) && decide (S.count.length = S.dims.length) &&
    (List.zipWith (fun e d => decide (e ≤ d)) (shift S.start S.count) S.dims).all id

structure Dataset (α : Type) where
  dims : List Nat
  data : List Nat → α

/-- Stores in the given order. -/
def scatter {β : Type} [DecidableEq β] (f : β → α) (l : List (β × α)) : β → α :=
  l.foldl (fun f p => Function.update f p.1 p.2) f

def h5Write (mem file : Space) (buf : Nat → α) (ds : Dataset α) : Option (Dataset α) :=
  if mem.inside ∧ file.inside ∧ file.dims = ds.dims ∧ mem.selected.length = file.selected.length then
    some { ds with data := scatter ds.data ((file.selected.zip mem.selected).map fun p =>
      (p.1, buf (lin mem.dims p.2))) }
  else none

def h5Read (mem file : Space) (ds : Dataset α) (buf : Nat → α) : Option (Nat → α) :=
  if mem.inside ∧ file.inside ∧ file.dims = ds.dims ∧ mem.selected.length = file.selected.length then
    some (scatter buf ((file.selected.zip mem.selected).map fun p => (lin mem.dims p.2, ds.data p.1)))
  else none

/-! ## Configuration -/

/-- `output/ghostIncluded` and `output/allghostIncluded`: nothing, the outer ghost cells, all of them (the latter wins
where both are set, `:881-960`, `:2353-2440`).  The serial classes know only the first flag (`:227`, `:1892`). -/
inductive Ghosts | none | outer | all
  deriving DecidableEq

/-- What the classes take from `HydroParams` and `ConfigMap`. -/
structure Run where
  d3 : Bool
  mhd : Bool
  layout : Layout
  ghosts : Ghosts
  /-- `output/reassembleInFile`, default true -/
  reassemble : Bool
  P : Grid
  mx : Nat
  my : Nat
  mz : Nat

/-- `z,y,x` or `y,x`: first index of a dataspace varies slowest. -/
def Run.rev (R : Run) (x y z : Nat) : List Nat := if R.d3 then [z, y, x] else [y, x]

/-- The cell at a position of an array in memory. -/
def Run.cellAt (R : Run) : List Nat → Cell
  | [z, y, x] => if R.d3 then ⟨x, y, z⟩ else ⟨0, 0, 0⟩
  | [y, x] => if R.d3 then ⟨0, 0, 0⟩ else ⟨x, y, 0⟩
  | _ => ⟨0, 0, 0⟩

/-- `isize, jsize, ksize` as extents (`dims_memory`, `:270-293`, `:797-960`). -/
def Run.sizes (R : Run) : List Nat := R.rev R.P.isize.toNat R.P.jsize.toNat R.P.ksize.toNat

/-- `isize, jsize[, ksize]` in the order the products are written. -/
def Run.factors (R : Run) : List Int :=
  if R.d3 then [R.P.isize, R.P.jsize, R.P.ksize] else [R.P.isize, R.P.jsize]

/-- The fields written (`:397-428`, `:1192-1300`) and read (`:2055-2079`, `:2680-2712`), in this order. -/
def Run.fields (R : Run) : List Nat :=
  [ID, IE, IU, IV] ++ (if R.d3 && !R.mhd then [IW] else []) ++ (if R.mhd then [IW, IA, IB, IC] else [])

/-- `m_variables_names` (`src/shared/SolverBase.cpp:48-55`). -/
def fieldName : Nat → String
  | 0 => "rho"
  | 1 => "energy"
  | 2 => "rho_vx"
  | 3 => "rho_vy"
  | 4 => "rho_vz"
  | 5 => "bx"
  | 6 => "by"
  | 7 => "bz"
  | _ => ""

/-! ## Writing -/

/-- Content of an unpadded `LayoutLeft` view at distance `a` from `Uhost.data()`. -/
def Run.leftMemory (R : Run) (U : Cell → Nat → α) (a : Nat) : α :=
  let I := R.P.isize.toNat
  let J := R.P.jsize.toNat
  let K := if R.d3 then R.P.ksize.toNat else 1
  U ⟨(a % I : Nat), (a / I % J : Nat), (a / (I * J) % K : Nat)⟩ (a / (I * J * K))

/-- `copy_buffer` and the allocation of its target (`:104-157`, `:382-395`, `:566-624`, `:1157-1172`): what `data` points to.
`junk` is the content of fresh memory.  The products are `int`s. -/
def Run.copyOut (R : Run) (U : Cell → Nat → α) (v : Nat) (junk : Nat → α) : Option (Nat → α) :=
  match R.layout with
  | .right => do
    let _ ← Vtk.mulInts R.factors
    return scatter junk ((indices R.sizes).map fun idx =>
      let c := R.cellAt idx
      ((c.i + R.P.isize * c.j + (if R.d3 then R.P.isize * R.P.jsize * c.k else 0)).toNat, U c v))
  | .left => do
    let o ← Vtk.mulInts (R.factors ++ [(v : Int)])
    return fun n => R.leftMemory U (o.toNat + n)

/-- Extent of a sub-domain along one axis as it is stored: `dims_chunk` (`:797-960`). -/
def Ghosts.chunk (g : Ghosts) (n gw : Int) : Nat :=
  match g with
  | .none => n.toNat
  | .outer => (n + 2 * gw).toNat
  | .all => (n + 2 * gw).toNat

/-- Box in memory (`:307-346`, `:966-1018`, `:1988-2020`, `:2446-2500`): everything, or without the ghost cells. -/
def Run.memory (R : Run) : Space where
  dims := R.sizes
  start := match R.ghosts with
    | .none => R.rev R.P.ghostWidth.toNat R.P.ghostWidth.toNat R.P.ghostWidth.toNat
    | _ => R.rev 0 0 0
  count := R.rev (R.ghosts.chunk R.P.nx R.P.ghostWidth) (R.ghosts.chunk R.P.ny R.P.ghostWidth)
    (R.ghosts.chunk R.P.nz R.P.ghostWidth)

/-- Extent of the file along an axis with `m` sub-domains of `n` cells when pieces are put together (`dims_file`, `:253-301`,
`:877-960`, `:1940-1985`, `:2353-2440`). -/
def Ghosts.whole (g : Ghosts) (m : Nat) (n gw : Int) : Nat :=
  match g with
  | .none => m * n.toNat
  | .outer => m * n.toNat + 2 * gw.toNat
  | .all => m * (n + 2 * gw).toNat

/-- First element of piece number `p` along an axis (`start`, `:1051-1147`, `:2508-2602`). -/
def Ghosts.first (g : Ghosts) (p : Nat) (n gw : Int) : Nat :=
  match g with
  | .none => p * n.toNat
  | .outer => p * n.toNat
  | .all => p * (n + 2 * gw).toNat

/-- Box of rank `r` in a file of assembled pieces. -/
def Run.assembled (R : Run) (r : Nat) : Space :=
  let g := R.ghosts
  let gw := R.P.ghostWidth
  let c := cartCoords R.my (if R.d3 then R.mz else 1) r
  { dims := R.rev (g.whole R.mx R.P.nx gw) (g.whole R.my R.P.ny gw) (g.whole R.mz R.P.nz gw)
    start := R.rev (g.first c.i.toNat R.P.nx gw) (g.first c.j.toNat R.P.ny gw) (g.first c.k.toNat R.P.nz gw)
    count := R.memory.count }

/-- Box of rank `r` in a file of stacked pieces (`:797-872`, `:1031-1050`). -/
def Run.stacked (R : Run) (r : Nat) : Space :=
  let g := R.ghosts
  let gw := R.P.ghostWidth
  let x := g.chunk R.P.nx gw
  let y := g.chunk R.P.ny gw
  let z := g.chunk R.P.nz gw
  { dims := R.rev x (if R.d3 then y else y * (R.mx * R.my)) (z * (R.mx * R.my * R.mz))
    start := R.rev 0 (if R.d3 then 0 else r * y) (r * z)
    count := R.memory.count }

/-- Where rank `r` writes. -/
def Run.target (R : Run) (r : Nat) : Space := if R.reassemble then R.assembled r else R.stacked r

/-- What a reader finds in a file: datasets and the attributes `time step` and `total time` (`:436-458`). -/
structure File (α : Type) where
  sets : List (String × Dataset α)
  step : Int
  time : α

/-- `write_field` on all ranks (`:163-195`, `:630-662`): the ranks store into the new dataset, whose elements
are `fill`, in the given order.  `U r` is the array of rank `r`. -/
def Run.writeField (R : Run) (order : List Nat) (U : Nat → Cell → Nat → α) (junk : Nat → α) (fill : α) (v : Nat) :
    Option (Dataset α) :=
  order.foldlM (fun ds r => do
    let buf ← R.copyOut (U r) v junk
    h5Write R.memory (R.target r) buf ds) ⟨(R.target 0).dims, fun _ => fill⟩

/-- `save` (`:209-514`, `:676-1512`).  `order`: the order of the ranks' stores. -/
def Run.save (R : Run) (order : List Nat) (U : Nat → Cell → Nat → α) (junk : Nat → α) (fill : α) (step : Int)
    (time : α) : Option (File α) := do
  let sets ← R.fields.mapM fun v => do
    let ds ← R.writeField order U junk fill v
    return (fieldName v, ds)
  return ⟨sets, step, time⟩

/-- `baseName + ".h5"` (`:241-248`, `:752-759`): `debug_name` is not part of it. -/
def fileName (dir pre : String) (_debug : String) (step : Nat) : String :=
  dir ++ "/" ++ pre ++ "_" ++ Vtk.padded 7 step ++ ".h5"

/-! ## Reading -/

/-- Allocated cells. -/
def Run.has (R : Run) (c : Cell) : Bool :=
  decide (0 ≤ c.i ∧ c.i < R.P.isize ∧ 0 ≤ c.j ∧ c.j < R.P.jsize ∧
    (if R.d3 then 0 ≤ c.k ∧ c.k < R.P.ksize else c.k = 0))

/-- `copy_buffer` of the reader without upscaling (`:1657-1679`, `:1765-1793`). -/
def Run.copyIn (R : Run) (data : Nat → α) (v : Nat) (U : Cell → Nat → α) : Option (Cell → Nat → α) :=
  let index (c : Cell) : Int := c.i + R.P.isize * c.j + (if R.d3 then R.P.isize * R.P.jsize * c.k else 0)
  match R.layout with
  | .right => some fun c w => if w = v ∧ R.has c then data (index c).toNat else U c w
  | .left => do
    let o ← Vtk.mulInts (R.factors ++ [(v : Int)])
    let len ← Vtk.mulInts R.factors
    return fun c w =>
      -- address of the entry in the unpadded `LayoutLeft` view; `memcpy` sets `[o, o + len)`
      let a := index c + len * w
      if R.has c ∧ o ≤ a ∧ a < o + len then data (a - o).toNat else U c w

/-- The array the reader delivers, and the two numbers. -/
structure Loaded (α : Type) where
  U : Cell → Nat → α
  step : Int
  time : α

/-- `read_field` (`:1820-1857`, `:2225-2253`) of rank `r`: the buffer is shared by all fields. -/
def Run.readField (R : Run) (r : Nat) (F : File α) (st : (Nat → α) × (Cell → Nat → α)) (v : Nat) :
    Option ((Nat → α) × (Cell → Nat → α)) := do
  let ds ← F.sets.lookup (fieldName v)
  let buf ← h5Read R.memory (R.assembled r) ds st.1
  let U ← R.copyIn buf v st.2
  return (buf, U)

/-- `load` without upscaling (`:1866-2140`, `:2262-2790`): the file is always taken as assembled, with the ghost cells of the
present configuration.  `init` is the content of `Uhost` when created. -/
def Run.load (R : Run) (r : Nat) (F : File α) (junk : Nat → α) (init : Cell → Nat → α) : Option (Loaded α) := do
  let _ ← Vtk.mulInts R.factors
  let st ← R.fields.foldlM (R.readField r F) (junk, init)
  return ⟨st.2, F.step, F.time⟩

end Verif.Hdf5
