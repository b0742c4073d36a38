import Verif.Model.SdmGeometry
import Mathlib.LinearAlgebra.Lagrange
import Mathlib.MeasureTheory.Integral.IntervalIntegral.Basic

/-! Vocabulary for the statements about the spectral difference method. -/

namespace Verif.Sdm

/-- `p` is a solution point of a cell with `N` points per direction. -/
def IsSolPt (d3 : Bool) (N : ℕ) (p : Pt) : Prop :=
  p.x < N ∧ p.y < N ∧ (if d3 then p.z < N else p.z = 0)

/-- Number of points in direction `e` of the flux points for direction `d`. -/
def fluxExtent (N : ℕ) (d e : Dir) : ℕ := if d = e then N + 1 else N

/-- `p` is a flux point for direction `d`. -/
def IsFluxPt (d3 : Bool) (N : ℕ) (d : Dir) (p : Pt) : Prop :=
  p.x < fluxExtent N d .x ∧ p.y < fluxExtent N d .y ∧
    (if d3 then p.z < fluxExtent N d .z else p.z = 0)

/-- The numbers of points for which the method is set up. -/
def Orders (N : ℕ) : Prop := 1 ≤ N ∧ N ≤ 6

/-- Mean over the unit interval of the polynomial of degree below `N` with values `u` at the solution
points. -/
noncomputable def lineMean (N : ℕ) (u : ℕ → ℝ) : ℝ :=
  ∫ x in (0 : ℝ)..1, (Lagrange.interpolate (Finset.range N) (solPts N) u).eval x

end Verif.Sdm
