import Verif.Model.Hdf5
import Verif.Model.Ops

/-!
# Restart from a file of half the resolution (`run/restart_upscale`, `src/utils/io/IO_HDF5.h`)

The box read is that of a run with half the cells (`:1893-1917`, `:2300-2325`), so the dataspaces are those of `Run.half`; the buffer
has the size of the present run (`:2067-2070`, `:2660-2663`).
-/

namespace Verif.Hdf5

variable {α : Type}

/-- `nx_r, ny_r, nz_r`; `nx_rg` etc. are `isize` etc. of this run (`:1897-1907`, `:2305-2315`). -/
def Run.half (R : Run) : Run :=
  { R with P := { R.P with nx := R.P.nx.tdiv 2, ny := R.P.ny.tdiv 2, nz := R.P.nz.tdiv 2 } }

/-- `data[iLow + iL*jLow + iL*jL*kLow]` with `iL = nx/2 + 2*ghostWidth` (`:1612`, `:1703-1704`). -/
def Run.halfIndex (R : Run) (i j k : Int) : Int :=
  let iL := R.P.nx.tdiv 2 + 2 * R.P.ghostWidth
  let jL := R.P.ny.tdiv 2 + 2 * R.P.ghostWidth
  i + iL * j + (if R.d3 then iL * jL * k else 0)

/-- Elements of the buffer a cell is computed from (`:1616-1653`, `:1708-1766`): one, or two of which the mean is taken.  In 2D there
is no case for `IC`. -/
def Run.halfReads (R : Run) (v : Nat) (c : Cell) : Int × Option Int :=
  let low (x : Int) : Int := (x + R.P.ghostWidth).tdiv 2
  let i := low c.i
  let j := low c.j
  let k := low c.k
  (R.halfIndex i j k,
    if v = IA then
      if c.i + R.P.ghostWidth - 2 * i = 0 then none else some (R.halfIndex (i + 1) j k)
    else if v = IB then
      if c.j + R.P.ghostWidth - 2 * j = 0 then none else some (R.halfIndex i (j + 1) k)
    else if v = IC ∧ R.d3 then
      if c.k + R.P.ghostWidth - 2 * k = 0 then none else some (R.halfIndex i j (k + 1))
    else none)

/-- Every element read is in the buffer. -/
def Run.halfInside (R : Run) (v : Nat) (len : Int) : Bool :=
  (indices R.sizes).all fun idx =>
    let p := R.halfReads v (R.cellAt idx)
    decide (0 ≤ p.1 ∧ p.1 < len) && (match p.2 with
      | none => true
      | some q => decide (0 ≤ q ∧ q < len))

section
variable [ROps α]

def Run.halfValue (R : Run) (data : Nat → α) (v : Nat) (c : Cell) : α :=
  match R.halfReads v c with
  | (p, none) => data p.toNat
  | (p, some q) => (data p.toNat + data q.toNat) / ROps.lit 2

/-- `copy_buffer` of the reader with `halfResolution` (`:1605-1655`, `:1696-1770`).  `none`: access outside the buffer. -/
def Run.copyHalf (R : Run) (data : Nat → α) (v : Nat) (U : Cell → Nat → α) : Option (Cell → Nat → α) := do
  let len ← Vtk.mulInts R.factors
  if R.halfInside v len then
    return fun c w => if w = v ∧ R.has c then R.halfValue data v c else U c w
  else none

/-- `read_field` (`:1820-1857`, `:2225-2253`). -/
def Run.readHalf (R : Run) (r : Nat) (F : File α) (st : (Nat → α) × (Cell → Nat → α)) (v : Nat) :
    Option ((Nat → α) × (Cell → Nat → α)) := do
  let ds ← F.sets.lookup (fieldName v)
  let buf ← h5Read R.half.memory (R.half.assembled r) ds st.1
  let U ← R.copyHalf buf v st.2
  return (buf, U)

/-- `load` with upscaling.  `junk`: content of the new buffer, `init`: of `Uhost`. -/
def Run.loadHalf (R : Run) (r : Nat) (F : File α) (junk : Nat → α) (init : Cell → Nat → α) : Option (Loaded α) := do
  let _ ← Vtk.mulInts R.factors
  let st ← R.fields.foldlM (R.readHalf r F) (junk, init)
  return ⟨st.2, F.step, F.time⟩

end

end Verif.Hdf5
