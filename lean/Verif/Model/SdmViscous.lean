import Verif.Model.SdmStep

/-!
# Viscous terms of the spectral difference solver

`src/sdm/SDM_Interpolate_viscous_Functors.h`, `SDM_Viscous_Flux_Functors.h`, and the calls in
`SolverHydroSDM.h`.  They run when `mu` of the parameter file is positive (`SolverHydroSDM.h:459`).

Simplifications as in `Verif/Model/SdmStep.lean`.  The thermal terms (`kappa`), which only enlarge the gradient
arrays, are left out.
-/

namespace Verif.Sdm

open Verif ROps

variable {α : Type} [ROps α]

/-! ### Arrays -/

/-- `Ugradx_v`, `Ugrady_v`, `Ugradz_v` (`src/sdm/SolverHydroSDM.h:581-592`). -/
def sVGrad : Dir → ℕ
  | .x => 21
  | .y => 22
  | .z => 23

/-- `FUgrad` of the solver (`src/sdm/SolverHydroSDM.h:601-606`). -/
def sFG : ℕ := 24

/-- The member `FUgrad` of `ComputeViscousFluxAtFluxPoints_Functor`.  The constructor
(`src/sdm/SDM_Viscous_Flux_Functors.h:80-89`) does not initialise it with its argument of the same name, so the
member (`:395-397`) is a default constructed view: nothing is allocated for it. -/
def sUnbound : ℕ := 25

/-- Number of velocity components. -/
def velDims (d3 : Bool) : ℕ := if d3 then 3 else 2

/-- All entries allocated when the viscous terms are on (`src/sdm/SolverHydroSDM.h:565-607`): `dim` values per
solution point in the gradients, `dim + dim * dim` values per flux point in `FUgrad`. -/
def viscDom (d3 : Bool) (N : ℕ) (P : Grid) (ti : Mood.TimeInt) (a : Addr) : Prop :=
  sdmDom d3 N P ti a ∨ (P.box d3 a.cell ∧
    ((∃ d, (d3 = true ∨ d ≠ .z) ∧ a.arr = sVGrad d ∧ a.v < nbDof d3 N (velDims d3)) ∨
      (a.arr = sFG ∧ a.v < nbDofFlux d3 N (velDims d3 + velDims d3 * velDims d3))))

/-- Location of variable `iv` at flux point `p` for direction `d` of cell `c` in array `F`. -/
def Scheme.flxIn (M : Scheme α) (F : ℕ) (d : Dir) (c : Cell) (p : Pt) (iv : ℕ) : Addr :=
  c.at F (DofMapFlux M.d3 M.N d p iv)

/-- `n` quotients of stored values (e.g. `src/sdm/SDM_Interpolate_viscous_Functors.h:123-129`). -/
def loadQuot (n : ℕ) (num den : ℕ → Addr) : K Addr α (ℕ → α) :=
  match n with
  | 0 => pure fun _ => lit 0
  | n + 1 => do
    let f ← loadQuot n num den
    let x ← K.load (num n)
    let y ← K.load (den n)
    pure fun k => if k = n then x / y else f k

/-! ### Functors -/

/-- `Interpolate_velocities_Sol2Flux_Functor<dim,N,dir>` from array `A` to array `F`
(`src/sdm/SDM_Interpolate_viscous_Functors.h:39-339`): velocity component `i` is momentum `IU + i` over density,
stored as variable `IGU + i = i` (`src/shared/enums.h:54-88`). -/
def velocities (M : Scheme α) (P : Grid) (d : Dir) (A F : ℕ) : Launch Addr α :=
  M.cells P fun c => forEach (lines M.d3 M.N d ×ˢ List.range (velDims M.d3)) fun x => do
    let sol ← loadQuot M.N (fun k => M.sol A c (x.1.set d k) (IU + x.2)) fun k =>
      M.sol A c (x.1.set d k) ID
    storeVals (M.N + 1) (fun k => M.flxIn F d c (x.1.set d k) x.2) fun k =>
      sol2fluxVector M.N M.sp M.fp sol k

/-- `var_index[iv]` of `Average_component_at_cell_borders_Functor`: the constructor initialises the member with
`var_index()`, all zeros, whatever list is passed
(`src/sdm/SDM_Interpolate_viscous_Functors.h:379-388`). -/
def averagedVar (_list : ℕ → ℕ) (_iv : ℕ) : ℕ := 0

/-- One averaging at the lower border of cell `c` (`src/sdm/SDM_Interpolate_viscous_Functors.h:449-456`). -/
def averageOne (M : Scheme α) (d : Dir) (F : ℕ) (c : Cell) (p : Pt) (iv : ℕ) : K Addr α Unit := do
  let dataL ← K.load (M.flxIn F d (c.down d) (p.set d M.N) iv)
  let dataR ← K.load (M.flxIn F d c (p.set d 0) iv)
  K.store (M.flxIn F d (c.down d) (p.set d M.N) iv) (lit (1 / 2) * (dataL + dataR))
  K.store (M.flxIn F d c (p.set d 0) iv) (lit (1 / 2) * (dataL + dataR))

/-- `Average_component_at_cell_borders_Functor<dim,N,dir>` called with `nv` variables in `list`
(`src/sdm/SDM_Interpolate_viscous_Functors.h:360-632`). -/
def averageBorders (M : Scheme α) (P : Grid) (d : Dir) (F nv : ℕ) (list : ℕ → ℕ) : Launch Addr α :=
  M.cells P fun c =>
    if 0 < coord d c ∧ coord d c < size P d then
      forEach (lines M.d3 M.N d) fun p => forEach (List.range nv) fun iv =>
        averageOne M d F c p (averagedVar list iv)
    else pure ()

/-- `Interp_grad_velocity_at_SolutionPoints_Functor<dim,N,dir>` from `Fluxes` to array `G`
(`src/sdm/SDM_Interpolate_viscous_Functors.h:648-930`).  In 2D along `x` the result is stored (`:743`), in 2D
along `y` (`:778`) and in 3D (`:846`, `:882`, `:918`) it is added to what the array holds. -/
def velocitySlopes (M : Scheme α) (S : Settings α) (P : Grid) (d : Dir) (G : ℕ) : Launch Addr α :=
  M.cells P fun c => forEach (lines M.d3 M.N d ×ˢ List.range (velDims M.d3)) fun x => do
    let flux ← loadVals (M.N + 1) fun k => M.flx d c (x.1.set d k) x.2
    if M.d3 = false ∧ d = .x then
      storeVals M.N (fun k => M.sol G c (x.1.set d k) x.2)
        (flux2solDerivativeVector M.N M.sp M.fp flux (rescale S d))
    else
      addVals M.N (fun k => M.sol G c (x.1.set d k) x.2)
        (flux2solDerivativeVector M.N M.sp M.fp flux (rescale S d))

/-- Number of the derivative in direction `e` of velocity component `i` in `FUgrad`
(`src/shared/enums.h:54-88`). -/
def gradVar (d3 : Bool) (i : ℕ) (e : Dir) : ℕ :=
  velDims d3 + velDims d3 * i + (match e with | .x => 0 | .y => 1 | .z => 2)

/-- `Interpolate_velocity_gradients_Sol2Flux_Functor<dim,N,dir,dir_grad>`
(`src/sdm/SDM_Interpolate_viscous_Functors.h:953-1308`): every derivative is divided by component `ID = 0` of the
same array (`:1059-1060`, ...). -/
def slopesToFlux (M : Scheme α) (P : Grid) (d e : Dir) : Launch Addr α :=
  M.cells P fun c => forEach (lines M.d3 M.N d ×ˢ List.range (velDims M.d3)) fun x => do
    let sol ← loadQuot M.N (fun k => M.sol (sVGrad e) c (x.1.set d k) x.2) fun k =>
      M.sol (sVGrad e) c (x.1.set d k) ID
    storeVals (M.N + 1) (fun k => M.flxIn sFG d c (x.1.set d k) (gradVar M.d3 x.2 e)) fun k =>
      sol2fluxVector M.N M.sp M.fp sol k

/-- `ComputeViscousFluxAtFluxPoints_Functor<dim,N,dir>` (`src/sdm/SDM_Viscous_Flux_Functors.h:97-395`), which
reads the view `sUnbound`. -/
def viscousFlux (M : Scheme α) (P : Grid) (mu : α) (d : Dir) : Launch Addr α :=
  M.cells P fun c => forEach (lines M.d3 M.N d ×ˢ List.range (M.N + 1)) fun x => do
    let g ← loadVals (velDims M.d3 + velDims M.d3 * velDims M.d3) fun iv =>
      M.flxIn sUnbound d c (x.1.set d x.2) iv
    let zero : Vec3 α := ⟨lit 0, lit 0, lit 0⟩
    storeAt M.d3 (M.flx d c (x.1.set d x.2))
      (if M.d3 then Euler3.flux_visc d ⟨g 3, g 4, g 5, g 6, g 7, g 8, g 9, g 10, g 11⟩ ⟨g 0, g 1, g 2⟩ zero mu
      else Euler2.flux_visc d ⟨g 2, g 3, lit 0, g 4, g 5, lit 0, lit 0, lit 0, lit 0⟩ ⟨g 0, g 1, lit 0⟩
        zero mu)

/-- Subtract `n` values from what is stored (`src/sdm/SDM_Interpolate_Functors.h:449-450`). -/
def subVals (n : ℕ) (addr : ℕ → Addr) (f : ℕ → α) : K Addr α Unit :=
  forVars n fun k => do
    let x ← K.load (addr k)
    K.store (addr k) (x - f k)

/-- `Interpolate_At_SolutionPoints_Functor<dim,N,dir,INTERPOLATE_DERIVATIVE_NEGATIVE>`
(`src/sdm/SDM_Interpolate_Functors.h:400-506`, `516-680`) as it is called for the viscous terms, with `FUgrad` in
place of `Fluxes` (`src/sdm/SolverHydroSDM.h:1176-1181`). -/
def subtractSlopes (M : Scheme α) (S : Settings α) (P : Grid) (d : Dir) : Launch Addr α :=
  M.cells P fun c => forEach (lines M.d3 M.N d ×ˢ List.range P.nbvar) fun x => do
    let flux ← loadVals (M.N + 1) fun k => M.flxIn sFG d c (x.1.set d k) x.2
    subVals M.N (fun k => M.sol sDiv c (x.1.set d k) x.2)
      (flux2solDerivativeVector M.N M.sp M.fp flux (rescale S d))

/-! ### Sequence -/

/-- `compute_velocity_gradients<dir>` (`src/sdm/SolverHydroSDM.h:1190-1214`). -/
def velocityGradients (M : Scheme α) (S : Settings α) (P : Grid) (A : ℕ) (d : Dir) :
    List (Launch Addr α) :=
  if M.d3 = false ∧ d = .z then []
  else [velocities M P d A sF, averageBorders M P d sF (velDims M.d3) id, velocitySlopes M S P d (sVGrad d)]

/-- The list of the derivatives in the order of the code (`src/sdm/SolverHydroSDM.h:1138-1164`). -/
def gradList (d3 : Bool) (iv : ℕ) : ℕ :=
  gradVar d3 (iv % velDims d3) (if iv / velDims d3 = 0 then .x else if iv / velDims d3 = 1 then .y else .z)

/-- `compute_viscous_fluxes_divergence_per_dir<dir>` (`src/sdm/SolverHydroSDM.h:1102-1182`). -/
def viscousAlong (M : Scheme α) (S : Settings α) (P : Grid) (mu : α) (A : ℕ) (d : Dir) :
    List (Launch Addr α) :=
  if M.d3 = false ∧ d = .z then []
  else [velocities M P d A sFG, averageBorders M P d sFG (velDims M.d3) id, slopesToFlux M P d .x,
      slopesToFlux M P d .y] ++ (if M.d3 then [slopesToFlux M P d .z] else []) ++
    [averageBorders M P d sFG (velDims M.d3 * velDims M.d3) (gradList M.d3), viscousFlux M P mu d,
      subtractSlopes M S P d]

/-- The viscous part of `compute_fluxes_divergence` (`src/sdm/SolverHydroSDM.h:1252-1261`). -/
def viscousTerms (M : Scheme α) (S : Settings α) (P : Grid) (mu : α) (A : ℕ) : List (Launch Addr α) :=
  if gtb mu (lit 0) then
    velocityGradients M S P A .x ++ velocityGradients M S P A .y ++ velocityGradients M S P A .z ++
      viscousAlong M S P mu A .x ++ viscousAlong M S P mu A .y ++ viscousAlong M S P mu A .z
  else []

end Verif.Sdm
