import Verif.Model.Ops
import Verif.Model.Kernel

/-!
# Parameters and array addresses
-/

namespace Verif

/-! `VarIndex` (`src/shared/enums.h:17-34`): positions of the variables in a state. -/
def ID : Nat := 0
def IP : Nat := 1
def IE : Nat := 1
def IU : Nat := 2
def IV : Nat := 3
def IW : Nat := 4
def IA : Nat := 5
def IB : Nat := 6
def IC : Nat := 7

/-! `BoundaryConditionType` (`src/shared/enums.h:145-154`). -/
def BC_UNDEFINED : Int := 0
def BC_DIRICHLET : Int := 1
def BC_NEUMANN : Int := 2
def BC_PERIODIC : Int := 3
def BC_COPY : Int := 4

/-- Grid part of `HydroParams` (`src/shared/HydroParams.h:100-190`). `imin=jmin=kmin=0` as set in
`HydroParams::init` (`src/shared/HydroParams.cpp:420-453`). -/
structure Grid where
  nx : Int
  ny : Int
  nz : Int
  ghostWidth : Int
  nbvar : Nat
  boundary_type_xmin : Int
  boundary_type_xmax : Int
  boundary_type_ymin : Int
  boundary_type_ymax : Int
  boundary_type_zmin : Int
  boundary_type_zmax : Int

namespace Grid
/-- `HydroParams::init`, `src/shared/HydroParams.cpp:420-440`. -/
def imin (_ : Grid) : Int := 0
def jmin (_ : Grid) : Int := 0
def kmin (_ : Grid) : Int := 0
def imax (P : Grid) : Int := P.nx - 1 + 2 * P.ghostWidth
def jmax (P : Grid) : Int := P.ny - 1 + 2 * P.ghostWidth
def kmax (P : Grid) : Int := P.nz - 1 + 2 * P.ghostWidth
def isize (P : Grid) : Int := P.imax - P.imin + 1
def jsize (P : Grid) : Int := P.jmax - P.jmin + 1
def ksize (P : Grid) : Int := P.kmax - P.kmin + 1
end Grid

/-- Address of one stored number: array, cell, variable.  Models an access
`view(i,j,iVar)` / `view(i,j,k,iVar)` of a `DataArray2d`/`DataArray3d`
(`src/shared/kokkos_shared.h:20-45`); two-dimensional arrays use `k = 0`. -/
structure Addr where
  arr : Nat
  i : Int
  j : Int
  k : Int
  v : Nat
  deriving DecidableEq

/-- A cell `(i,j)` or `(i,j,k)` of an array (`k = 0` in 2D). -/
@[ext] structure Cell where
  i : Int
  j : Int
  k : Int
  deriving DecidableEq

/-- `view(i,j,iVar)` / `view(i,j,k,iVar)` for array number `U`. -/
def Cell.at (c : Cell) (U v : Nat) : Addr := ⟨U, c.i, c.j, c.k, v⟩
/-- The cell an entry belongs to. -/
def Addr.cell (a : Addr) : Cell := ⟨a.i, a.j, a.k⟩

/-- Allocated entries of a 2D array `DataArray2d(isize,jsize,nbvar)`. -/
def Grid.alloc2 (P : Grid) (U : Nat) (a : Addr) : Prop :=
  a.arr = U ∧ 0 ≤ a.i ∧ a.i < P.isize ∧ 0 ≤ a.j ∧ a.j < P.jsize ∧ a.k = 0 ∧ a.v < P.nbvar

/-- Allocated entries of a 3D array `DataArray3d(isize,jsize,ksize,nbvar)`. -/
def Grid.alloc3 (P : Grid) (U : Nat) (a : Addr) : Prop :=
  a.arr = U ∧ 0 ≤ a.i ∧ a.i < P.isize ∧ 0 ≤ a.j ∧ a.j < P.jsize ∧ 0 ≤ a.k ∧ a.k < P.ksize ∧
    a.v < P.nbvar

/-- `for (int iVar = 0; iVar < n; iVar++) body(iVar)`. -/
def forVars {A V : Type} (n : Nat) (body : Nat → K A V Unit) : K A V Unit :=
  match n with
  | 0 => pure ()
  | n + 1 => do forVars n body; body n

end Verif
