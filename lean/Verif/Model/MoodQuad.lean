import Verif.Model.HydroMuscl
import Verif.Model.MoodStencil

/-! Model of the face quadrature of the MOOD solver: points (`src/mood/SolverHydroMood.h`,
`init_quadrature_2d`, `init_quadrature_3d`; constants in `src/mood/QuadratureRules.h`) and weights
(`src/mood/MoodFluxesFunctors.h`).

The unused constant arrays `QUADRATURE_LOCATION_*` of `QuadratureRules.h:81-` are not modelled. -/

namespace Verif.Mood

open Verif ROps

/-- `QUADRATURE_NUM_POINTS[stencilId]` (`src/mood/QuadratureRules.h:36-49`) -/
def QUADRATURE_NUM_POINTS : StencilId → ℕ
  | .d2deg1 => 1
  | .d2deg2 => 2
  | .d2deg3 => 2
  | .d2deg3v2 => 2
  | .d2deg4 => 3
  | .d2deg5 => 3
  | .d3deg1 => 1
  | .d3deg2 => 2
  | .d3deg3 => 2
  | .d3deg4 => 3
  | .d3deg5 => 3
  | .d3deg5v2 => 3

section
variable {α : Type} [ROps α]

/-- `SQRT_3` (`src/mood/QuadratureRules.h:19`) -/
def SQRT_3 : α := lit (1732050807568877293527446341505872367 / 10 ^ 36)

/-- `SQRT_3_5` (`src/mood/QuadratureRules.h:20`) -/
def SQRT_3_5 : α := lit (7745966692414834042779148148838430643 / 10 ^ 37)

/-- tangential coordinate of the 2D rules with `n` points, as written out in `init_quadrature_2d`
(`src/mood/SolverHydroMood.h:528-606`); entries not written are 0 (initial value of a view) -/
def tang2 (n iq : ℕ) : α :=
  if n = 1 then lit 0
  else if n = 2 then
    if iq = 0 then -lit (1 / 2) / SQRT_3 else if iq = 1 then lit (1 / 2) / SQRT_3 else lit 0
  else
    if iq = 0 then -lit (1 / 2) * SQRT_3_5
    else if iq = 1 then lit 0
    else if iq = 2 then lit (1 / 2) * SQRT_3_5 else lit 0

/-- coordinate along the normal: `-0.5` on the lower, `0.5` on the upper face
(`src/mood/SolverHydroMood.h:528-606`, `628-745`) -/
def normalCoord (faceMax : Bool) : α := if faceMax then lit (1 / 2) else -lit (1 / 2)

/-- `QUAD_LOC_2D(n-1, dir, face, iq, ·)` (`src/mood/SolverHydroMood.h:510-611`) -/
def quadLoc2 (n : ℕ) (d : Dir) (faceMax : Bool) (iq : ℕ) : α × α :=
  match d with
  | .x => (normalCoord faceMax, tang2 n iq)
  | _ => (tang2 n iq, normalCoord faceMax)

/-- tangential coordinate of the 3D rules for the index `a` of one direction: the factors `ai`,
`aj` (`src/mood/SolverHydroMood.h:664-671`, with 2 points) and `i`, `j` (`710-712`, with 3 points) -/
def tang3 (n a : ℕ) : α :=
  if n = 1 then lit 0
  else if n = 2 then lit (1 / 2) / SQRT_3 * ofInt (2 * (a : ℤ) - 1)
  else lit (1 / 2) * SQRT_3_5 * ofInt ((a : ℤ) - 1)

/-- `QUAD_LOC_3D(n-1, dir, face, iq, ·)` (`src/mood/SolverHydroMood.h:615-751`); the loops write
entry `index = i + n*j`, so `i = iq % n` and `j = iq / n` for `iq < n*n` -/
def quadLoc3 (n : ℕ) (d : Dir) (faceMax : Bool) (iq : ℕ) : α × α × α :=
  match d with
  | .x => (normalCoord faceMax, tang3 n (iq % n), tang3 n (iq / n))
  | .y => (tang3 n (iq % n), normalCoord faceMax, tang3 n (iq / n))
  | .z => (tang3 n (iq % n), tang3 n (iq / n), normalCoord faceMax)

/-- `QUADRATURE_WEIGHTS_N2`, `QUADRATURE_WEIGHTS_N3` (`src/mood/MoodFluxesFunctors.h:92-96`,
`374-378`); with 1 point the flux is copied -/
def quadWeight (n iq : ℕ) : α :=
  if n = 1 then lit 1
  else if n = 2 then lit (1 / 2)
  else if iq = 1 then lit 8 / lit 18 else lit 5 / lit 18

/-- the accumulation of the fluxes of one component over the points of a 2D face
(`src/mood/MoodFluxesFunctors.h:118-120`, `190-221`) -/
def quadSum2 (n : ℕ) (f : ℕ → α) : α :=
  if n = 1 then f 0
  else (List.range n).foldl (fun flux iq => flux + f iq * quadWeight n iq) (lit 0)

/-- the accumulation over the points of a 3D face (`src/mood/MoodFluxesFunctors.h:401-403`,
`465-502`) -/
def quadSum3 (n : ℕ) (f : ℕ → α) : α :=
  if n = 1 then f 0
  else (List.range (n * n)).foldl
    (fun flux iq => flux + f iq * quadWeight n (iq / n) * quadWeight n (iq - iq / n * n)) (lit 0)

end

end Verif.Mood
