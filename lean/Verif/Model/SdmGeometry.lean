import Verif.Model.Ops
import Verif.Model.HydroMuscl
import Mathlib.Analysis.SpecialFunctions.Trigonometric.Basic

/-!
# Points, matrices and numbering of the spectral difference method

`src/sdm/SDM_Geometry.h`, `src/sdm/sdm_shared.h`, `src/sdm/SDMBaseFunctor.h`.

`N` is the number of solution points per direction and cell.  The points of a cell are given in the unit
interval.  `cos` and `M_PI` are parameters of the solution points; the theorems use the exact cosine and `π`.
-/

namespace Verif.Sdm

open Verif ROps

/-! ### Numbering of the degrees of freedom -/

/-- Position of a solution or flux point in its cell; `z = 0` in 2D. -/
@[ext] structure Pt where
  x : ℕ
  y : ℕ
  z : ℕ
  deriving DecidableEq

/-- `DofMap<dim,N>(i,j,k,iv)` (`src/sdm/sdm_shared.h:16-23`). -/
def DofMap (d3 : Bool) (N : ℕ) (p : Pt) (iv : ℕ) : ℕ :=
  if d3 then p.x + N * p.y + N * N * p.z + N * N * N * iv else p.x + N * p.y + N * N * iv

/-- `DofMapFlux<dim,N,dir>(i,j,k,iv)` (`src/sdm/sdm_shared.h:32-60`). -/
def DofMapFlux (d3 : Bool) (N : ℕ) (dir : Dir) (p : Pt) (iv : ℕ) : ℕ :=
  match dir with
  | .x => if d3 then p.x + (N + 1) * p.y + (N + 1) * N * p.z + (N + 1) * N * N * iv
          else p.x + (N + 1) * p.y + (N + 1) * N * iv
  | .y => if d3 then p.x + N * p.y + N * (N + 1) * p.z + N * (N + 1) * N * iv
          else p.x + N * p.y + N * (N + 1) * iv
  | .z => if d3 then p.x + N * p.y + N * N * p.z + N * N * (N + 1) * iv else 0

/-- `nb_dof` (`src/sdm/SolverHydroSDM.h:435-436`), third (2D) or fourth extent of `U`, `Uaux`, `U_RK1` to
`U_RK4`. -/
def nbDof (d3 : Bool) (N nbvar : ℕ) : ℕ := nbvar * (if d3 then N * N * N else N * N)

/-- `nb_dof_flux` (`src/sdm/SolverHydroSDM.h:441`), last extent of `Fluxes`. -/
def nbDofFlux (d3 : Bool) (N nbvar : ℕ) : ℕ :=
  if d3 then (N + 1) * N * N * nbvar else (N + 1) * N * nbvar

variable {α : Type} [ROps α]

/-! ### Points -/

/-- `solution_pts_1d(i)` (`src/sdm/SDM_Geometry.h:418-419`). -/
def solutionPt (cos : α → α) (pi : α) (N i : ℕ) : α :=
  lit (1 / 2) * (lit 1 - cos (pi * lit (2 * i + 1) / lit 2 / lit N))

/-- `flux_pts_1d(i)` (`src/sdm/SDM_Geometry.h:438-488`); for other `N` the view keeps the zeros it is
allocated with. -/
def fluxPt (N i : ℕ) : α :=
  let half : α := lit (1 / 2)
  let one : α := lit 1
  match N, i with
  | 1, 0 => lit 0
  | 1, 1 => one
  | 2, 0 => lit 0
  | 2, 1 => half
  | 2, 2 => one
  | 3, 0 => lit 0
  | 3, 1 => (one - one / sqrt (lit 3)) / lit 2
  | 3, 2 => (one + one / sqrt (lit 3)) / lit 2
  | 3, 3 => one
  | 4, 0 => lit 0
  | 4, 1 => half * (one - sqrt (lit 3 / lit 5))
  | 4, 2 => half
  | 4, 3 => half * (one + sqrt (lit 3 / lit 5))
  | 4, 4 => one
  | 5, 0 => lit 0
  | 5, 1 => half * (one - sqrt (lit 3 / lit 7 + lit 2 / lit 7 * sqrt (lit 6 / lit 5)))
  | 5, 2 => half * (one - sqrt (lit 3 / lit 7 - lit 2 / lit 7 * sqrt (lit 6 / lit 5)))
  | 5, 3 => half * (one + sqrt (lit 3 / lit 7 - lit 2 / lit 7 * sqrt (lit 6 / lit 5)))
  | 5, 4 => half * (one + sqrt (lit 3 / lit 7 + lit 2 / lit 7 * sqrt (lit 6 / lit 5)))
  | 5, 5 => one
  | 6, 0 => lit 0
  | 6, 1 => half * (one - one / lit 3 * sqrt (lit 5 + lit 2 * sqrt (lit 10 / lit 7)))
  | 6, 2 => half * (one - one / lit 3 * sqrt (lit 5 - lit 2 * sqrt (lit 10 / lit 7)))
  | 6, 3 => half
  | 6, 4 => half * (one + one / lit 3 * sqrt (lit 5 - lit 2 * sqrt (lit 10 / lit 7)))
  | 6, 5 => half * (one + one / lit 3 * sqrt (lit 5 + lit 2 * sqrt (lit 10 / lit 7)))
  | 6, 6 => one
  | _, _ => lit 0

/-- The solution points with exact arithmetic. -/
noncomputable def solPts (N : ℕ) : ℕ → ℝ := solutionPt Real.cos Real.pi N

/-- The flux points with exact arithmetic. -/
noncomputable def fluxPts (N : ℕ) : ℕ → ℝ := fluxPt N

/-! ### Interpolation matrices -/

/-- `for (k = 0; k < n; ++k) if (...) s += ...` -/
def sumIf (n : ℕ) (c : ℕ → Bool) (f : ℕ → α) : α :=
  (List.range n).foldl (fun s k => if c k then s + f k else s) (lit 0)

/-- `for (k = 0; k < n; ++k) if (...) l *= ...`, started with `l = l0`. -/
def prodIf (n : ℕ) (c : ℕ → Bool) (f : ℕ → α) (l0 : α) : α :=
  (List.range n).foldl (fun l k => if c k then l * f k else l) l0

/-- The loop computing one entry of `sol2flux`, `flux2sol`: the `i`-th Lagrange polynomial of the `n`
points `pts` at `xj` (`src/sdm/SDM_Geometry.h:543-553`, `594-604`). -/
def lagrangeEntry (n : ℕ) (pts : ℕ → α) (i : ℕ) (xj : α) : α :=
  prodIf n (fun k => k != i) (fun k => (xj - pts k) / (pts i - pts k)) (lit 1)

/-- `sol2flux(i,j)` (`src/sdm/SDM_Geometry.h:528-560`). -/
def sol2flux (N : ℕ) (sp fp : ℕ → α) (i j : ℕ) : α := lagrangeEntry N sp i (fp j)

/-- `flux2sol(i,j)` (`src/sdm/SDM_Geometry.h:579-611`). -/
def flux2sol (N : ℕ) (sp fp : ℕ → α) (i j : ℕ) : α := lagrangeEntry (N + 1) fp i (sp j)

/-- `flux2sol_derivative(i,j)` (`src/sdm/SDM_Geometry.h:638-669`). -/
def flux2sol_derivative (N : ℕ) (sp fp : ℕ → α) (i j : ℕ) : α :=
  sumIf (N + 1) (fun k => k != i) (fun k => lit 1 / (sp j - fp k)) * flux2sol N sp fp i j

/-- `sol2sol_derivative(i,j)` (`src/sdm/SDM_Geometry.h:693-747`). -/
def sol2sol_derivative (N : ℕ) (sp : ℕ → α) (i j : ℕ) : α :=
  sumIf N (fun l => l != i) fun l =>
    prodIf N (fun k => k != i && k != l) (fun k => (sp j - sp k) / (sp i - sp k))
      (lit 1 / (sp i - sp l))

/-! ### Interpolation along one line of points -/

/-- `sol2flux_vector` (`src/sdm/SDMBaseFunctor.h:246-264`; `sol2flux` `219-234` is one entry). -/
def sol2fluxVector (N : ℕ) (sp fp : ℕ → α) (values : ℕ → α) (j : ℕ) : α :=
  sumIf N (fun _ => true) fun k => values k * sol2flux N sp fp k j

/-- `flux2sol_vector` (`src/sdm/SDMBaseFunctor.h:299-317`). -/
def flux2solVector (N : ℕ) (sp fp : ℕ → α) (values : ℕ → α) (j : ℕ) : α :=
  sumIf (N + 1) (fun _ => true) fun k => values k * flux2sol N sp fp k j

/-- `flux2sol_derivative_vector` (`src/sdm/SDMBaseFunctor.h:366-387`). -/
def flux2solDerivativeVector (N : ℕ) (sp fp : ℕ → α) (values : ℕ → α) (rescale : α) (j : ℕ) : α :=
  sumIf (N + 1) (fun _ => true) (fun k => values k * flux2sol_derivative N sp fp k j) * rescale

end Verif.Sdm
