import Verif.Model.Vtk

/-!
# Reading a VTK image file

What the VTK file format says about `ImageData` with cell data: an extent `x0 x1 y0 y1 z0 z1` counts grid points, so
it has the cells `x0 ≤ x < x1` and so on; a direction of zero thickness has one layer.  The numbers of a
cell array are listed with x running fastest.  An array in the appended data starts, `offset` bytes behind the underscore,
with its length in bytes as an unsigned 64 bit number, followed by that many bytes.
-/

namespace Verif.Vtk

variable {α : Type}

/-- The inverse of writing numbers as bytes. -/
structure Decoder (α : Type) where
  size : Nat
  word : List UInt8 → Nat
  real : List UInt8 → α

/-- The decoder of a machine whose numbers are written by `C`. -/
structure Decodes (D : Decoder α) (C : Codec α) : Prop where
  size : D.size = C.size
  size_pos : 0 < C.size
  size_le : C.size ≤ 8
  word_length : ∀ n, (C.word n).length = 8
  real_length : ∀ x, (C.real x).length = C.size
  word : ∀ n, n < 2 ^ 64 → D.word (C.word n) = n
  real : ∀ x, D.real (C.real x) = x

/-- Number of cells in a direction. -/
def layers (a b : Int) : Int := if a = b then 1 else b - a

/-- Whether an extent has the cell `(x, y, z)`. -/
def Extent.has (e : Extent) (x y z : Int) : Prop :=
  (e.x0 ≤ x ∧ x < e.x0 + layers e.x0 e.x1) ∧ (e.y0 ≤ y ∧ y < e.y0 + layers e.y0 e.y1) ∧
    (e.z0 ≤ z ∧ z < e.z0 + layers e.z0 e.z1)

instance (e : Extent) (x y z : Int) : Decidable (e.has x y z) := by unfold Extent.has; infer_instance

/-- Number of the cell in the list of numbers. -/
def Extent.position (e : Extent) (x y z : Int) : Nat :=
  ((x - e.x0) + layers e.x0 e.x1 * ((y - e.y0) + layers e.y0 e.y1 * (z - e.z0))).toNat

/-- Number of cells of an extent. -/
def Extent.count (e : Extent) : Nat :=
  (layers e.x0 e.x1 * layers e.y0 e.y1 * layers e.z0 e.z1).toNat

/-- Entry `n` of an array in the appended data. -/
def readRaw (D : Decoder α) (count : Nat) (raw : List UInt8) (offset n : Nat) : Option α :=
  let block := raw.drop offset
  let bytes := D.word (block.take 8)
  if bytes = count * D.size ∧ 8 + bytes ≤ block.length then
    some (D.real (((block.drop 8).drop (n * D.size)).take D.size))
  else none

/-- The number a reader shows for the variable `name` in the cell `(x, y, z)`: `none` if the file has no such array
or cell or the array does not have as many numbers as there are cells. -/
def ImageFile.value (D : Decoder α) (f : ImageFile α) (name : String) (x y z : Int) : Option α :=
  if f.piece.has x y z then
    match f.arrays.lookup name with
    | none => none
    | some (.ascii l) => if l.length = f.piece.count then l[f.piece.position x y z]? else none
    | some (.appended o) => readRaw D f.piece.count f.raw o (f.piece.position x y z)
  else none

/-- Number of layers of cells along z. -/
def depth (d3 : Bool) (P : Grid) : Int := if d3 then P.nz else 1

/-- A grid with at least one cell. -/
structure Sound (d3 : Bool) (P : Grid) : Prop where
  nx : 1 ≤ P.nx
  ny : 1 ≤ P.ny
  nz : d3 = true → 1 ≤ P.nz
  ghost : 0 ≤ P.ghostWidth

end Verif.Vtk
