import Verif.Model.Hdf5

/-!
# Reading HDF5 files as other programs do
-/

namespace Verif.Hdf5

variable {α : Type}

/-- Element `(x, y, z)` of a field, or `(x, y)`: datasets are indexed with x last.  Nothing outside the extents. -/
def File.value (F : File α) (d3 : Bool) (name : String) (x y z : Nat) : Option α :=
  match F.sets.lookup name with
  | none => none
  | some ds =>
    let k := if d3 then [z, y, x] else [y, x]
    if k.length = ds.dims.length ∧ ∀ p ∈ k.zip ds.dims, p.1 < p.2 then some (ds.data k) else none

/-- Extents of a field, x first. -/
def File.extent (F : File α) (name : String) : Option (List Nat) :=
  (F.sets.lookup name).map fun ds => ds.dims.reverse

end Verif.Hdf5
