import Verif.Model.Factory

/-!
# What the parameters and the factory should do

Independent description: points and cells of a domain, names of the solvers, what each solver needs.
-/

namespace Verif.Spec

/-- `x` lies in the box with centre `c` and edges `h`, lower faces included (2D: third coordinate
ignored). -/
def InBox (d3 : Bool) (c h x : ℝ × ℝ × ℝ) : Prop :=
  (c.1 - h.1 / 2 ≤ x.1 ∧ x.1 < c.1 + h.1 / 2) ∧
  (c.2.1 - h.2.1 / 2 ≤ x.2.1 ∧ x.2.1 < c.2.1 + h.2.1 / 2) ∧
  (d3 = true → c.2.2 - h.2.2 / 2 ≤ x.2.2 ∧ x.2.2 < c.2.2 + h.2.2 / 2)

/-- `x` lies in the domain described by the parameter file. -/
def InDomain (d3 : Bool) (p : HydroParams ℝ) (x : ℝ × ℝ × ℝ) : Prop :=
  (p.xmin ≤ x.1 ∧ x.1 < p.xmax) ∧ (p.ymin ≤ x.2.1 ∧ x.2.1 < p.ymax) ∧
  (d3 = true → p.zmin ≤ x.2.2 ∧ x.2.2 < p.zmax)

/-- Array position of a cell that is not a ghost (2D arrays have `k = 0`). -/
def Interior (p : HydroParams ℝ) (c : Cell) : Prop :=
  (p.ghostWidth ≤ c.i ∧ c.i < p.ghostWidth + p.nx) ∧
  (p.ghostWidth ≤ c.j ∧ c.j < p.ghostWidth + p.ny) ∧
  (if p.dim3 then p.ghostWidth ≤ c.k ∧ c.k < p.ghostWidth + p.nz else c.k = 0)

/-- Names users write for the solvers. -/
def className : SolverClass → String
  | .hydroMuscl dim => "Hydro_Muscl_" ++ toString dim ++ "D"
  | .mhdMuscl dim => "MHD_Muscl_" ++ toString dim ++ "D"
  | .sdm dim degree => "Hydro_SDM_" ++ toString dim ++ "D_degree" ++ toString degree
  | .mood dim degree => "Hydro_Mood_" ++ toString dim ++ "D_degree" ++ toString degree

/-- Solvers a build provides. -/
def Provides (b : Build) : SolverClass → Prop
  | .hydroMuscl dim => dim = 2 ∨ dim = 3
  | .mhdMuscl dim => dim = 2 ∨ dim = 3
  | .sdm dim degree => b.useSdm = true ∧
      ((dim = 2 ∧ 1 ≤ degree ∧ degree ≤ 6) ∨ (dim = 3 ∧ 2 ≤ degree ∧ degree ≤ 4))
  | .mood dim degree => b.useMood = true ∧
      ((dim = 2 ∧ 1 ≤ degree ∧ degree ≤ 4) ∨ (dim = 3 ∧ degree = 1))

/-- Dimension of the arrays of a solver. -/
def dimension : SolverClass → Nat
  | .hydroMuscl dim | .mhdMuscl dim | .sdm dim _ | .mood dim _ => dim

/-- Number of variables per cell: density, energy, one momentum per dimension; MHD always keeps
three momenta and three field components. -/
def numVars : SolverClass → Nat
  | .mhdMuscl _ => 2 + 3 + 3
  | k => 2 + dimension k

/-- Solvers with a magnetic field. -/
def hasField : SolverClass → Bool
  | .mhdMuscl _ => true
  | _ => false

/-- Ghost layers needed.  MUSCL hydro: slopes of the first ghost cell; MHD: one more for the
electric field of the corner; SDM: neighbour element; MOOD: stencil of the first ghost cell. -/
def Layers : SolverClass → Int → Prop
  | .hydroMuscl _, w => 2 ≤ w
  | .mhdMuscl _, w => 3 ≤ w
  | .sdm _ _, w => 1 ≤ w
  | .mood dim degree, w => ∃ id, Mood.stencilMapp dim degree = some id ∧
      ∀ o ∈ Mood.stencilOffsets id, |o.x| + 1 ≤ w ∧ |o.y| + 1 ≤ w ∧ |o.z| + 1 ≤ w

end Verif.Spec
