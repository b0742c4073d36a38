import Verif.Spec.SdmStep
import Verif.Spec.HydroProgram
import Verif.Spec.InitHydro

/-! Vocabulary for the statements about mirror images and exchanged axes. -/

namespace Verif.Spec

open Sdm

/-- Position of a cell seen in a mirror at the middle of the domain, perpendicular to axis `d`. -/
def mirrored (P : Grid) (d : Dir) (c : Cell) : Cell :=
  match d with
  | .x => { c with i := P.nx + 2 * P.ghostWidth - 1 - c.i }
  | .y => { c with j := P.ny + 2 * P.ghostWidth - 1 - c.j }
  | .z => { c with k := P.nz + 2 * P.ghostWidth - 1 - c.k }

/-- Boundary conditions seen in the mirror. -/
def Sides.flip (d : Dir) (B : Sides) : Sides :=
  match d with
  | .x => { B with xlo := B.xhi, xhi := B.xlo }
  | .y => { B with ylo := B.yhi, yhi := B.ylo }
  | .z => { B with zlo := B.zhi, zhi := B.zlo }

/-- Parameters of the run seen in the mirror: the boundary conditions of the two sides exchanged. -/
def flipGrid (d : Dir) (P : Grid) : Grid :=
  match d with
  | .x => { P with boundary_type_xmin := P.boundary_type_xmax, boundary_type_xmax := P.boundary_type_xmin }
  | .y => { P with boundary_type_ymin := P.boundary_type_ymax, boundary_type_ymax := P.boundary_type_ymin }
  | .z => { P with boundary_type_zmin := P.boundary_type_zmax, boundary_type_zmax := P.boundary_type_zmin }

/-- `g` shows the gas `f` in the mirror: opposite cells hold the same, with the momentum along `d` reversed. -/
def MirrorImage (d3 : Bool) (P : Grid) (d : Dir) (f g : Cell → ℕ → ℝ) : Prop :=
  ∀ i j k v, i < P.nx.toNat → j < P.ny.toNat → k < depth d3 P → v < hydroVars d3 →
    g (mirrored P d (cell d3 P i j k)) v =
      if v = 2 + axis d then -f (cell d3 P i j k) v else f (cell d3 P i j k) v

/-- Gravity seen in the mirror, ghost cells included (variables 0, 1, 2 are the components). -/
def MirrorGravity (d3 : Bool) (P : Grid) (d : Dir) (f g : Cell → ℕ → ℝ) : Prop :=
  ∀ c v, P.box d3 c → v < (if d3 then 3 else 2) →
    g (mirrored P d c) v = if v = axis d then -f c v else f c v

/-! ### Exchange of two axes; `t` is the axis that stays -/

/-- The axis that axis `e` becomes. -/
def exchanged (t e : Dir) : Dir :=
  match t, e with
  | .z, .x => .y
  | .z, .y => .x
  | .y, .x => .z
  | .y, .z => .x
  | .x, .y => .z
  | .x, .z => .y
  | _, e => e

/-- The exchange is possible: in 2D only that of `x` and `y`. -/
def CanExchange (d3 : Bool) (t : Dir) : Prop := d3 = true ∨ t = .z

/-- Cell with the coordinates exchanged. -/
def exchangeCell (t : Dir) (c : Cell) : Cell :=
  match t with
  | .z => ⟨c.j, c.i, c.k⟩
  | .y => ⟨c.k, c.j, c.i⟩
  | .x => ⟨c.i, c.k, c.j⟩

/-- Variable number with the components of a vector exchanged (`0`, `1`: density, energy; from `2`: momentum). -/
def exchangeVar (t : Dir) (v : ℕ) : ℕ :=
  match t with
  | .z => if v = 2 then 3 else if v = 3 then 2 else v
  | .y => if v = 2 then 4 else if v = 4 then 2 else v
  | .x => if v = 3 then 4 else if v = 4 then 3 else v

/-- Boundary conditions with the axes exchanged. -/
def Sides.exchange (t : Dir) (B : Sides) : Sides :=
  match t with
  | .z => ⟨B.ylo, B.yhi, B.xlo, B.xhi, B.zlo, B.zhi⟩
  | .y => ⟨B.zlo, B.zhi, B.ylo, B.yhi, B.xlo, B.xhi⟩
  | .x => ⟨B.xlo, B.xhi, B.zlo, B.zhi, B.ylo, B.yhi⟩

/-- Numbers of cells and boundary conditions with the axes exchanged. -/
def exchangeGrid (t : Dir) (P : Grid) : Grid :=
  match t with
  | .z => ⟨P.ny, P.nx, P.nz, P.ghostWidth, P.nbvar, P.boundary_type_ymin, P.boundary_type_ymax,
      P.boundary_type_xmin, P.boundary_type_xmax, P.boundary_type_zmin, P.boundary_type_zmax⟩
  | .y => ⟨P.nz, P.ny, P.nx, P.ghostWidth, P.nbvar, P.boundary_type_zmin, P.boundary_type_zmax,
      P.boundary_type_ymin, P.boundary_type_ymax, P.boundary_type_xmin, P.boundary_type_xmax⟩
  | .x => ⟨P.nx, P.nz, P.ny, P.ghostWidth, P.nbvar, P.boundary_type_xmin, P.boundary_type_xmax,
      P.boundary_type_zmin, P.boundary_type_zmax, P.boundary_type_ymin, P.boundary_type_ymax⟩

/-- Cell sizes exchanged. -/
def exchangeSettings (t : Dir) (S : Settings ℝ) : Settings ℝ :=
  match t with
  | .z => { S with dx := S.dy, dy := S.dx }
  | .y => { S with dx := S.dz, dz := S.dx }
  | .x => { S with dy := S.dz, dz := S.dy }

/-- `g` shows the gas `f` with the axes exchanged. -/
def ExchangedImage (d3 : Bool) (P : Grid) (t : Dir) (f g : Cell → ℕ → ℝ) : Prop :=
  ∀ i j k v, i < P.nx.toNat → j < P.ny.toNat → k < depth d3 P → v < hydroVars d3 →
    g (exchangeCell t (cell d3 P i j k)) (exchangeVar t v) = f (cell d3 P i j k) v

/-- Gravity with the axes exchanged, ghost cells included. -/
def ExchangedGravity (d3 : Bool) (P : Grid) (t : Dir) (f g : Cell → ℕ → ℝ) : Prop :=
  ∀ c v, P.box d3 c → v < (if d3 then 3 else 2) →
    g (exchangeCell t c) (exchangeVar t (2 + v) - 2) = f c v

/-! ### Gases given as functions of the position -/

/-- The gas is its own image in the mirror at the middle of the domain, perpendicular to axis `d`. -/
def MirrorGas (S : Settings ℝ) (P : Grid) (D : Domain ℝ) (d : Dir) (G : ℝ → ℝ → ℝ → PointGas) : Prop :=
  ∀ x y z, match d with
  | .x => G (2 * D.xmin + P.nx * S.dx - x) y z = { G x y z with u := -(G x y z).u }
  | .y => G x (2 * D.ymin + P.ny * S.dy - y) z = { G x y z with v := -(G x y z).v }
  | .z => G x y (2 * D.zmin + P.nz * S.dz - z) = { G x y z with w := -(G x y z).w }

/-- The gas is the same with the axes exchanged. -/
def ExchangedGas (t : Dir) (G : ℝ → ℝ → ℝ → PointGas) : Prop :=
  ∀ x y z, match t with
  | .z => G y x z = { G x y z with u := (G x y z).v, v := (G x y z).u }
  | .y => G z y x = { G x y z with u := (G x y z).w, w := (G x y z).u }
  | .x => G x z y = { G x y z with v := (G x y z).w, w := (G x y z).v }

/-- The domain begins at the same coordinate along the two axes that are exchanged. -/
def SameOrigin (t : Dir) (D : Domain ℝ) : Prop :=
  match t with
  | .z => D.ymin = D.xmin
  | .y => D.zmin = D.xmin
  | .x => D.zmin = D.ymin

/-- The process is the only one. -/
def Alone (D : Domain ℝ) : Prop := D.i_mpi = 0 ∧ D.j_mpi = 0 ∧ D.k_mpi = 0

end Verif.Spec
