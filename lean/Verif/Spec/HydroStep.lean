import Verif.Model.HydroMuscl
import Verif.Spec.Boundary
import Mathlib.Algebra.BigOperators.Intervals
import Mathlib.Data.Real.Basic

/-! Specification vocabulary for one step of a scheme: boundary conditions, totals over the
interior. -/

namespace Verif

/-- Buffers holding the state before and after step number `iteration`. -/
def bufIn (iteration : Nat) : Nat := if iteration % 2 = 0 then aU else aU2
def bufOut (iteration : Nat) : Nat := if iteration % 2 = 0 then aU2 else aU

/-- Slope type and Riemann solver are among those the code computes something for. -/
structure ValidHydro {α : Type} [ROps α] (d3 : Bool) (S : Settings α) : Prop where
  slope : ROps.eqb S.slope_type (ROps.lit 0) = true ∨ ROps.eqb S.slope_type (ROps.lit 1) = true ∨
    ROps.eqb S.slope_type (ROps.lit 2) = true
  hlld : S.riemann ≠ .hlld
  hll : d3 = true → S.riemann ≠ .hll

namespace Spec

open Finset

/-- Boundary conditions of the sides of the box. -/
structure Sides where
  xlo : BC
  xhi : BC
  ylo : BC
  yhi : BC
  zlo : BC
  zhi : BC

/-- The same condition everywhere. -/
def Sides.all (b : BC) : Sides := ⟨b, b, b, b, b, b⟩

/-- The parameters describe a box with at least `w` ghost layers, `nbvar` variables per cell, at
least as many cells as ghost layers in each direction, and boundary conditions `B`. -/
structure BoxSetup (d3 : Bool) (nbvar : Nat) (w : Int) (P : Grid) (B : Sides) : Prop where
  gw : w ≤ P.ghostWidth
  nv : P.nbvar = nbvar
  nx : P.ghostWidth ≤ P.nx
  ny : P.ghostWidth ≤ P.ny
  nz : d3 = true → P.ghostWidth ≤ P.nz
  xmin : P.boundary_type_xmin = B.xlo.code
  xmax : P.boundary_type_xmax = B.xhi.code
  ymin : P.boundary_type_ymin = B.ylo.code
  ymax : P.boundary_type_ymax = B.yhi.code
  zmin : d3 = true → P.boundary_type_zmin = B.zlo.code
  zmax : d3 = true → P.boundary_type_zmax = B.zhi.code

/-- Interior cell number `(i,j,k)`, counted from the lower corner of the domain (in 2D `k` is
meaningless); also cells just outside, e.g. `i = nx`. -/
def cell (d3 : Bool) (P : Grid) (i j k : Nat) : Cell :=
  ⟨P.ghostWidth + i, P.ghostWidth + j, if d3 then P.ghostWidth + k else 0⟩

/-- Number of interior cells along `z`. -/
def depth (d3 : Bool) (P : Grid) : Nat := if d3 then P.nz.toNat else 1

/-- Sum of a quantity over all interior cells. -/
def interiorSum (d3 : Bool) (P : Grid) (f : Cell → ℝ) : ℝ :=
  ∑ i ∈ range P.nx.toNat, ∑ j ∈ range P.ny.toNat, ∑ k ∈ range (depth d3 P), f (cell d3 P i j k)

/-- Total of variable `v` of array `U` over the interior. -/
def total (d3 : Bool) (P : Grid) (m : Addr → ℝ) (U v : Nat) : ℝ :=
  interiorSum d3 P fun c => m ⟨U, c.i, c.j, c.k, v⟩

/-- Net inflow through the sides of the domain, if `Fx c`, `Fy c`, `Fz c` is what flows through the
lower face of cell `c` in the respective direction. -/
def netInflow (d3 : Bool) (P : Grid) (Fx Fy Fz : Cell → ℝ) : ℝ :=
  (∑ j ∈ range P.ny.toNat, ∑ k ∈ range (depth d3 P),
    (Fx (cell d3 P 0 j k) - Fx (cell d3 P P.nx.toNat j k))) +
  (∑ i ∈ range P.nx.toNat, ∑ k ∈ range (depth d3 P),
    (Fy (cell d3 P i 0 k) - Fy (cell d3 P i P.ny.toNat k))) +
  (if d3 then ∑ i ∈ range P.nx.toNat, ∑ j ∈ range P.ny.toNat,
    (Fz (cell d3 P i j 0) - Fz (cell d3 P i j P.nz.toNat)) else 0)

end Spec

end Verif
