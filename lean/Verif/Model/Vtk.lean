import Verif.Model.Params
import Verif.Model.Index
import Verif.Model.Mpi

/-!
# VTK image files (`src/utils/io/IO_VTK.cpp`)

`save_VTK_2D` (`:24-205`), `save_VTK_3D` (`:211-407`), `save_VTK_2D_mpi` (`:413-618`),
`save_VTK_3D_mpi` (`:630-852`) and `write_pvti_header` (`:860-1005`).  The four writers are one definition
with flags `d3` and `mpi`, each difference an explicit `if`.

The header of a file is a record of the attributes written into the XML text; numbers printed as text
(extents, offsets, the ASCII data) are the numbers themselves, i.e. the rounding of `operator<<` to six digits is not
modelled.  The raw data behind the underscore are bytes.  `Uhost(i,j,k,iVar)` is a function of cell and variable (after
`deep_copy`).  Integers are unbounded except in the products of extents, whose `int` overflow is `none`.
`variables_names` has a name for every variable.
-/

namespace Verif.Vtk

variable {α : Type}

/-- `write((char *)&x, sizeof(x))` for `uint64_t` and `real_t`: the bytes of a number in memory. -/
structure Codec (α : Type) where
  /-- `sizeof(real_t)` -/
  size : Nat
  word : Nat → List UInt8
  real : α → List UInt8

/-- Six numbers of an `Extent` attribute. -/
structure Extent where
  x0 : Int
  x1 : Int
  y0 : Int
  y1 : Int
  z0 : Int
  z1 : Int
  deriving DecidableEq

/-- Where the numbers of a `DataArray` are: in the element (`format="ascii"`) or in the appended
data (`format="appended" offset="…"`). -/
inductive Payload (α : Type)
  | ascii (numbers : List α)
  | appended (offset : Nat)

/-- A `.vti` file. -/
structure ImageFile (α : Type) where
  whole : Extent
  piece : Extent
  arrays : List (String × Payload α)
  /-- bytes behind the underscore -/
  raw : List UInt8

/-- `for (int x = a; x <= b; x++)`. -/
def upTo (a b : Int) : List Int := (List.range (b - a + 1).toNat).map (fun n : Nat => a + (n : Int))

/-- Product of `int`s evaluated from the left; `none` on overflow. -/
def mulInts : List Int → Option Int
  | [] => some 1
  | x :: xs => xs.foldlM (fun acc y => int32 (acc * y)) x

/-- `nx, ny` or `nx, ny, nz`. -/
def extents (d3 : Bool) (P : Grid) : List Int := if d3 then [P.nx, P.ny, P.nz] else [P.nx, P.ny]

/-- `iVar * nx * ny [* nz] * sizeof(real_t) + iVar * sizeof(uint64_t)`: the product of the `int`s is an
`int`, the rest is `size_t` (`:172-173`, `:371-372`, `:588-589`, `:813-814`). -/
def offsetOf (C : Codec α) (d3 : Bool) (P : Grid) (iVar : Nat) : Option Nat := do
  let n ← mulInts ((iVar : Int) :: extents d3 P)
  return ((n * C.size + iVar * 8) % 2 ^ 64).toNat

/-- `nbOfWords = nx * ny [* nz] * sizeof(real_t)` (`:186`, `:387`, `:602`, `:828`). -/
def nbOfWords (C : Codec α) (d3 : Bool) (P : Grid) : Option Nat := do
  let n ← mulInts (extents d3 P)
  return ((n * C.size) % 2 ^ 64).toNat

/-- The loops over the inner cells, last index outermost (`:190-195`, `:391-397`, `:606-611`, `:832-841`). -/
def innerCells (d3 : Bool) (P : Grid) : List Cell :=
  (if d3 then upTo (P.kmin + P.ghostWidth) (P.kmax - P.ghostWidth) else [0]).flatMap fun k =>
    (upTo (P.jmin + P.ghostWidth) (P.jmax - P.ghostWidth)).flatMap fun j =>
      (upTo (P.imin + P.ghostWidth) (P.imax - P.ghostWidth)).map fun i => ⟨i, j, k⟩

/-- The appended data (`:184-197`, `:385-399`, `:600-613`, `:826-843`). -/
def rawData (C : Codec α) (d3 : Bool) (P : Grid) (nbvar : Nat) (words : Nat) (U : Cell → Nat → α) :
    List UInt8 :=
  (List.range nbvar).flatMap fun v =>
    C.word words ++ (innerCells d3 P).flatMap fun c => C.real (U c v)

/-- Coordinates of `index` in the loops over all cells (`:138-139`, `:336-338`, `:552-553`, `:776-778`). -/
def cellOf (d3 : Bool) (P : Grid) (index : Int) : Cell :=
  if d3 then
    let k := index.tdiv (P.isize * P.jsize)
    let j := (index - k * (P.isize * P.jsize)).tdiv P.isize
    let i := index - j * P.isize - k * (P.isize * P.jsize)
    ⟨i, j, k⟩
  else
    let j := index.tdiv P.isize
    let i := index - j * P.isize
    ⟨i, j, 0⟩

/-- The test in the ASCII loops (`:141-142`, `:340-341`, `:555-556`, `:780-781`). -/
def notGhost (d3 : Bool) (P : Grid) (c : Cell) : Bool :=
  (if d3 then decide (c.k ≥ P.kmin + P.ghostWidth ∧ c.k ≤ P.kmax - P.ghostWidth) else true) &&
    decide (c.j ≥ P.jmin + P.ghostWidth ∧ c.j ≤ P.jmax - P.ghostWidth ∧ c.i ≥ P.imin + P.ghostWidth ∧
      c.i ≤ P.imax - P.ghostWidth)

/-- The numbers printed for one variable (`:132-146`, `:330-345`, `:546-560`, `:770-785`). -/
def asciiData (d3 : Bool) (P : Grid) (nbCells : Nat) (U : Cell → Nat → α) (v : Nat) : List α :=
  (List.range nbCells).filterMap fun index : Nat =>
    let c := cellOf d3 P index
    if notGhost d3 P c then some (U c v) else none

/-- `nbCells`, computed in every mode: a product of `int`s (`:50-52`, `:243-247`, `:660-664`) except in 2D with MPI, where
the factors are `uint64_t` (`:439-441`). -/
def nbCells (d3 mpi : Bool) (P : Grid) : Option Nat :=
  if d3 then do
    let _ ← int32 (P.isize * P.jsize)
    let n ← mulInts [P.isize, P.jsize, P.ksize]
    return n.toNat
  else if mpi then some (P.isize * P.jsize).toNat
  else do
    let n ← int32 (P.isize * P.jsize)
    return n.toNat

/-- `WholeExtent` and `Extent` (`:108-112`, `:306-310`, `:521-526`, `:745-750`): with MPI the place of the
sub-domain in the whole domain (`:443-448`, `:666-672`). -/
def extentOf (d3 mpi : Bool) (P : Grid) (pos : Cell) : Extent :=
  if mpi then
    ⟨pos.i * P.nx, pos.i * P.nx + P.nx, pos.j * P.ny, pos.j * P.ny + P.ny,
      if d3 then pos.k * P.nz else 0, if d3 then pos.k * P.nz + P.nz else 0⟩
  else ⟨0, P.nx, 0, P.ny, 0, if d3 then P.nz else 0⟩

/-- The file `save_VTK_*` writes; `pos` is `params.myMpiPos`.  `none`: undefined behaviour. -/
def imageFile (C : Codec α) (d3 mpi ascii : Bool) (P : Grid) (pos : Cell) (nbvar : Nat)
    (names : Nat → String) (U : Cell → Nat → α) : Option (ImageFile α) := do
  let cells ← nbCells d3 mpi P
  let e := extentOf d3 mpi P pos
  if ascii then
    return ⟨e, e, (List.range nbvar).map fun v => (names v, .ascii (asciiData d3 P cells U v)), []⟩
  else
    let arrays ← (List.range nbvar).mapM fun v => do
      let o ← offsetOf C d3 P v
      return (names v, Payload.appended o)
    let words ← nbOfWords C d3 P
    return ⟨e, e, arrays, rawData C d3 P nbvar words U⟩

/-! ## File names and the parallel header -/

/-- `ostringstream` with `width(w)`, `fill('0')` and a number: at least `w` digits. -/
def padded (w n : Nat) : String :=
  let s := toString n
  String.ofList (List.replicate (w - s.length) '0' ++ s.toList)

/-- File name of the serial writers (`:78-83`, `:276-281`); `dir` ends where `outputDir` does. -/
def fileName (dir pre debug : String) (step : Nat) : String :=
  if debug = "" then dir ++ "/" ++ pre ++ "_" ++ padded 7 step ++ ".vti"
  else dir ++ "/" ++ pre ++ "_" ++ debug ++ "_" ++ padded 7 step ++ ".vti"

/-- File name of the MPI writers (`:480-487`, `:704-711`). -/
def fileNameMpi (dir pre debug : String) (step rank : Nat) : String :=
  if debug = "" then
    dir ++ "/" ++ pre ++ "_time" ++ padded 7 step ++ "_mpi" ++ padded 5 rank ++ ".vti"
  else
    dir ++ "/" ++ pre ++ "_" ++ debug ++ "_time" ++ padded 7 step ++ "_mpi" ++ padded 5 rank ++ ".vti"

/-- `headerFilename` (`:490-491`, `:714-715`). -/
def headerName (dir pre : String) (step : Nat) : String :=
  dir ++ "/" ++ pre ++ "_time" ++ padded 7 step ++ ".pvti"

/-- A `.pvti` file: the whole extent, and extent and source of each piece. -/
structure ParallelFile where
  whole : Extent
  pieces : List (Extent × String)

/-- `write_pvti_header` (`:860-1005`); `getCoords` is `cartCoords` (with `mz = 1` in 2D). -/
def pvtiHeader (d3 : Bool) (P : Grid) (mx my mz : Int) (nProcs : Nat) (pre : String) (step : Nat) :
    ParallelFile where
  whole := ⟨0, mx * P.nx, 0, my * P.ny, 0, (if d3 then mz else 0) * (if d3 then P.nz else 0)⟩
  pieces := (List.range nProcs).map fun r =>
    let c := cartCoords my (if d3 then mz else 1) r
    let along (p n : Int) : Int × Int := if p = 0 then (0, n) else (p * n, p * n + n)
    let x := along c.i P.nx
    let y := along c.j P.ny
    let z := if d3 then along c.k P.nz else (0, 1)
    (⟨x.1, x.2, y.1, y.2, z.1, z.2⟩,
      pre ++ "_time" ++ padded 7 step ++ "_mpi" ++ padded 5 r ++ ".vti")

end Verif.Vtk
