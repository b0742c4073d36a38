import Mathlib.Data.Int.Basic
import Mathlib.Algebra.Order.Ring.Int

/-!
# Linear index ↔ cell coordinates (`src/shared/kokkos_shared.h:44-120`)

`/` of C++ is `Int.tdiv` (truncated division).  Mathematical integers here; the 32-bit version with
overflow is in the second half of the file.
-/

namespace Verif

/-- Memory layout selected at compile time: `left` for CUDA builds
(`#ifdef KOKKOS_ENABLE_CUDA`), `right` otherwise (`src/shared/kokkos_shared.h:64-70`). -/
inductive Layout | left | right
  deriving DecidableEq

/-- 2D `index2coord` (`src/shared/kokkos_shared.h:57-71`). -/
def index2coord2 (lay : Layout) (index Nx Ny : Int) : Int × Int :=
  match lay with
  | .left =>
    let j := index.tdiv Nx
    let i := index - j * Nx
    (i, j)
  | .right =>
    let i := index.tdiv Ny
    let j := index - i * Ny
    (i, j)

/-- 2D `coord2index` (`src/shared/kokkos_shared.h:73-85`). -/
def coord2index2 (lay : Layout) (i j Nx Ny : Int) : Int :=
  match lay with
  | .left => i + Nx * j
  | .right => j + Ny * i

/-- 3D `index2coord` (`src/shared/kokkos_shared.h:89-106`). -/
def index2coord3 (lay : Layout) (index Nx Ny Nz : Int) : Int × Int × Int :=
  match lay with
  | .left =>
    let NxNy := Nx * Ny
    let k := index.tdiv NxNy
    let j := (index - k * NxNy).tdiv Nx
    let i := index - j * Nx - k * NxNy
    (i, j, k)
  | .right =>
    let NyNz := Ny * Nz
    let i := index.tdiv NyNz
    let j := (index - i * NyNz).tdiv Nz
    let k := index - j * Nz - i * NyNz
    (i, j, k)

/-- 3D `coord2index` (`src/shared/kokkos_shared.h:108-120`). -/
def coord2index3 (lay : Layout) (i j k Nx Ny Nz : Int) : Int :=
  match lay with
  | .left => i + Nx * j + Nx * Ny * k
  | .right => k + Nz * j + Nz * Ny * i

/-! ## The same functions on 32-bit `int`

`none` is undefined behaviour: signed overflow of an `int` expression or division by zero.  The
`index` argument is `int64_t`; the coordinates and extents are `int`.  Storing a
64-bit quotient that does not fit in an `int` is also reported as `none`. -/

/-- Value range of C `int` (32 bits). -/
def isInt32 (x : Int) : Bool := decide (-2147483648 ≤ x ∧ x ≤ 2147483647)

/-- An `int` result: undefined if it does not fit. -/
def int32 (x : Int) : Option Int := if isInt32 x then some x else none

/-- C division: undefined for divisor zero. -/
def divC (a b : Int) : Option Int := if b = 0 then none else some (a.tdiv b)

/-- 2D `index2coord` with machine integers (`src/shared/kokkos_shared.h:57-71`). -/
def index2coord2C (lay : Layout) (index Nx Ny : Int) : Option (Int × Int) := do
  match lay with
  | .left =>
    let j ← int32 (← divC index Nx)
    let jN ← int32 (j * Nx)
    let i ← int32 (index - jN)
    return (i, j)
  | .right =>
    let i ← int32 (← divC index Ny)
    let iN ← int32 (i * Ny)
    let j ← int32 (index - iN)
    return (i, j)

/-- 2D `coord2index` with machine integers (`src/shared/kokkos_shared.h:73-85`): the right-hand
side is an `int` expression, only then converted to `int64_t`. -/
def coord2index2C (lay : Layout) (i j Nx Ny : Int) : Option Int := do
  match lay with
  | .left => int32 (i + (← int32 (Nx * j)))
  | .right => int32 (j + (← int32 (Ny * i)))

/-- 3D `index2coord` with machine integers (`src/shared/kokkos_shared.h:89-106`). -/
def index2coord3C (lay : Layout) (index Nx Ny Nz : Int) : Option (Int × Int × Int) := do
  match lay with
  | .left =>
    let NxNy ← int32 (Nx * Ny)
    let k ← int32 (← divC index NxNy)
    let kN ← int32 (k * NxNy)
    let j ← int32 (← divC (index - kN) Nx)
    let jN ← int32 (j * Nx)
    let i ← int32 (index - jN - kN)
    return (i, j, k)
  | .right =>
    let NyNz ← int32 (Ny * Nz)
    let i ← int32 (← divC index NyNz)
    let iN ← int32 (i * NyNz)
    let j ← int32 (← divC (index - iN) Nz)
    let jN ← int32 (j * Nz)
    let k ← int32 (index - jN - iN)
    return (i, j, k)

/-- 3D `coord2index` with machine integers (`src/shared/kokkos_shared.h:108-120`). -/
def coord2index3C (lay : Layout) (i j k Nx Ny Nz : Int) : Option Int := do
  match lay with
  | .left =>
    let a ← int32 (i + (← int32 (Nx * j)))
    let b ← int32 ((← int32 (Nx * Ny)) * k)
    int32 (a + b)
  | .right =>
    let a ← int32 (k + (← int32 (Nz * j)))
    let b ← int32 ((← int32 (Nz * Ny)) * i)
    int32 (a + b)

end Verif
