import Mathlib.Algebra.Polynomial.Eval.Defs
import Mathlib.MeasureTheory.Integral.IntervalIntegral.Basic
import Verif.Model.SdmStep
import Verif.Spec.Special
import Verif.Spec.Riemann2d

/-! # Specification: initial conditions of the high order solvers -/

namespace Verif.Spec

open Verif Sdm

/-- At every solution point of every cell, ghost cells included, the array `U` holds the gas `G` at the place of
the point: `sp` is its position in the cell, in units of the size of the cell, and the cells are numbered through
all processes. -/
def SdmSamples (M : Scheme ℝ) (S : Settings ℝ) (P : Grid) (D : Domain ℝ) (U : ℕ) (m : Addr → ℝ)
    (G : ℝ → ℝ → ℝ → PointGas) : Prop :=
  ∀ b p v, P.box M.d3 b → IsSolPt M.d3 M.N p → v < P.nbvar →
    m (M.sol U b p v) = Mood.comp ((G (D.xmin + (b.i + P.nx * D.i_mpi - P.ghostWidth + M.sp p.x) * S.dx)
      (D.ymin + (b.j + P.ny * D.j_mpi - P.ghostWidth + M.sp p.y) * S.dy)
      (D.zmin + (b.k + P.nz * D.k_mpi - P.ghostWidth + M.sp p.z) * S.dz)).conserved S.gamma0) v

/-- In every cell, ghost cells included, the array `U` holds the gas `G` at the centre of the cell; the cells are
numbered through all processes. -/
def MoodSamples (d3 : Bool) (S : Settings ℝ) (P : Grid) (D : Domain ℝ) (U : ℕ) (m : Addr → ℝ)
    (G : ℝ → ℝ → ℝ → PointGas) : Prop :=
  ∀ b v, P.box d3 b → v < P.nbvar →
    m (b.at U v) = Mood.comp ((G (D.xmin + (b.i + P.nx * D.i_mpi - P.ghostWidth + 1 / 2) * S.dx)
      (D.ymin + (b.j + P.ny * D.j_mpi - P.ghostWidth + 1 / 2) * S.dy)
      (D.zmin + (b.k + P.nz * D.k_mpi - P.ghostWidth + 1 / 2) * S.dz)).conserved S.gamma0) v

/-- The first process, or the only one. -/
def FirstProcess (D : Domain ℝ) : Prop := D.i_mpi = 0 ∧ D.j_mpi = 0 ∧ D.k_mpi = 0

/-! ### What the problems describe -/

/-- Sod's shock tube. -/
noncomputable def sodGas (x _y _z : ℝ) : PointGas := if x < 1 / 2 then ⟨1, 1, 0, 0, 0⟩ else ⟨1 / 8, 1 / 10, 0, 0, 0⟩

/-- The gas behind the shock of Shu and Osher. -/
noncomputable def shuOsherLeft : PointGas := ⟨27 / 7, 31 / 3, 4 * √35 / 9, 0, 0⟩

/-- The shock of Shu and Osher, about to enter a gas with density waves. -/
noncomputable def shuOsherGas (x _y _z : ℝ) : PointGas :=
  if x < -4 then shuOsherLeft else ⟨1 + Real.sin (5 * x) / 5, 1, 0, 0, 0⟩

/-- The implosion of the finite volume solver: two gases at rest, in fixed places. -/
noncomputable def fixedImplosion (d3 : Bool) (x y z : ℝ) : PointGas :=
  open Classical in
  if (if d3 then 0.5 < x + y + z ∧ x + y + z < 2.5 else 0.5 < x + y) then ⟨1, 1, 0, 0, 0⟩ else ⟨0.125, 0.14, 0, 0, 0⟩

/-- Nodes and weights of an integration rule on `[-1,1]`, for mean values, with the property that characterises
the rule of Gauss and Legendre: `n` points, exact for all polynomials of degree below `2 n`. -/
def IsGauss (n : ℕ) (node weight : Fin n → ℝ) : Prop :=
  ∀ f : Polynomial ℝ, f.natDegree < 2 * n →
    ∑ i, weight i * f.eval (node i) = (1 / 2) * ∫ x in (-1 : ℝ)..1, f.eval x

/-- Mean value of `f` over a cell with centre `(x, y)` and sides `dx`, `dy` by the rule. -/
noncomputable def ruleMean {n : ℕ} (node weight : Fin n → ℝ) (dx dy : ℝ) (f : ℝ → ℝ → ℝ) (x y : ℝ) : ℝ :=
  ∑ j, ∑ i, weight i * weight j * f (x + dx / 2 * node i) (y + dy / 2 * node j)

/-- Equal up to a multiple of the period. -/
def SameModulo (L a b : ℝ) : Prop := ∃ k : ℤ, a = b + k * L

end Verif.Spec
