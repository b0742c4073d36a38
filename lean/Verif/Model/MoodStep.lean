import Verif.Model.HydroMuscl
import Verif.Model.Index
import Verif.Model.MoodStencil
import Verif.Model.MoodQuad

/-!
# One time step of the MOOD solver

`src/mood/MoodBaseFunctor.h`, `MoodPolynomialReconstructionFunctors.h`, `MoodFluxesFunctors.h`,
`MoodUpdateFunctors.h`, `SolverHydroMood.h`.

The 2D and 3D code is modelled together with the flag `d3`, see `Verif.Model.HydroMuscl`.

Simplifications
* The functors load the polynomial coefficients variable by variable; the model loads all variables
  of one coefficient, then the next coefficient.  The loops do not write what they load.
* The pseudo-inverse is a function `ℕ → ℕ → α` of row and column.
* Values of variables the code leaves unassigned are arbitrary values given by `MoodJunk`.
* In `ComputeMoodFlagsUpdateFunctor` the variables `e_new`, `u_new`, `v_new`, `w_new`, which are
  computed and not used, are left out; so are the discarded reads of flags of neighbouring cells in
  `RecomputeFluxesFunctor`.
* The wedge problem has boundary conditions of its own, which are not modelled here.
-/

namespace Verif.Mood

open Verif ROps

/-- Coordinates of work item `index` (`index2coord`, `src/shared/kokkos_shared.h:57-106`). -/
def cellAt (lay : Layout) (d3 : Bool) (P : Grid) (index : Nat) : Cell :=
  if d3 then
    let (i, j, k) := index2coord3 lay index P.isize P.jsize P.ksize
    ⟨i, j, k⟩
  else
    let (i, j) := index2coord2 lay index P.isize P.jsize
    ⟨i, j, 0⟩

/-- `Kokkos::parallel_for(nbCells, functor)` with `nbCells = isize*jsize(*ksize)`
(`src/mood/SolverHydroMood.h:243`, `255-256`, e.g. `925`). -/
def rangeCells {α : Type} (lay : Layout) (d3 : Bool) (P : Grid) (body : Cell → K Addr α Unit) :
    Launch Addr α where
  n := (P.isize * P.jsize * (if d3 then P.ksize else 1)).toNat
  body t := body (cellAt lay d3 P t)

/-- Component `v` of a state, numbered as in `src/shared/enums.h` (`ID`, `IP`, `IU`, `IV`, `IW`). -/
def comp {α : Type} (q : HState α) (v : Nat) : α :=
  if v = ID then q.d else if v = IP then q.p else if v = IU then q.u else if v = IV then q.v else q.w

variable {α : Type} [ROps α]

/-- A state given by its components. -/
def ofComps (d3 : Bool) (f : Nat → α) : HState α :=
  ⟨f ID, f IP, f IU, f IV, if d3 then f IW else lit 0⟩

/-- A binary operation on every component. -/
def zipState (d3 : Bool) (f : α → α → α) (a b : HState α) : HState α :=
  ⟨f a.d b.d, f a.p b.p, f a.u b.u, f a.v b.v, if d3 then f a.w b.w else lit 0⟩

/-- What `SolverHydroMood<dim,degree>` sets up once: the stencil, the monomial map and the
pseudo-inverse (`src/mood/SolverHydroMood.h:244-246`, `317`). -/
structure Scheme (α : Type) where
  id : StencilId
  mm : ℕ → ℕ → ℕ
  pi : ℕ → ℕ → α

/-- Dimension of the solver. -/
def Scheme.d3 (M : Scheme α) : Bool := M.id.is3d

/-- `ncoefs = binomial<dim+degree,dim>()` (`src/mood/SolverHydroMood.h:76-77`,
`src/mood/Binomial.h:17-34`); the recursion is defined for these arguments, see property C40. -/
def Scheme.ncoefs (M : Scheme α) : ℕ :=
  let dim := if M.d3 then 3 else 2
  (binomialT (dim + STENCIL_DEGREE M.id) dim).getD 0

/-- Contents of uninitialised variables in work item `c`. -/
structure MoodJunk (α : Type) where
  flux : Cell → Dir → ℕ → HState α
  rhs : Cell → ℕ → α

/-! ### Arrays

`U`, `U2`, `Fluxes_x`, `Fluxes_y`, `Fluxes_z` have the numbers `aU`, `aU2`, `aF 0 d`. -/

/-- `MoodFlags` (`src/mood/SolverHydroMood.h:277`, `300`), one variable per cell. -/
def aFlags : Nat := 6
/-- `U_RK1`, `U_RK2` (`src/mood/SolverHydroMood.h:333-380`). -/
def aRK1 : Nat := 7
def aRK2 : Nat := 8
/-- `PolyCoefs[ip]` (`src/mood/SolverHydroMood.h:280-284`, `303-307`). -/
def aPoly (ip : Nat) : Nat := 10 + ip

/-- The time integrators. -/
inductive TimeInt | forward_euler | ssprk2 | ssprk3 | ssprk54
  deriving DecidableEq

/-- Which integrator runs, from the configuration switches `[mood] ssprk2`, `ssprk3`, `ssprk54`
(`src/mood/SolverHydroMood.h:328-331`, `875-894`); the switch `forward_euler` is not looked at. -/
def selectTimeInt (ssprk2 ssprk3 ssprk54 : Bool) : TimeInt :=
  if ssprk2 then .ssprk2 else if ssprk3 then .ssprk3 else if ssprk54 then .ssprk54
  else .forward_euler

/-- State arrays that are allocated (`src/mood/SolverHydroMood.h:268-380`). -/
def moodArray (d3 : Bool) (nc : ℕ) (ti : TimeInt) (A : Nat) : Prop :=
  A = aU ∨ A = aU2 ∨ A = aF 0 .x ∨ A = aF 0 .y ∨ (d3 = true ∧ A = aF 0 .z) ∨
  (∃ ip, ip < nc ∧ A = aPoly ip) ∨
  ((ti = .ssprk2 ∨ ti = .ssprk3 ∨ ti = .ssprk54) ∧ A = aRK1) ∨
  ((ti = .ssprk3 ∨ ti = .ssprk54) ∧ A = aRK2)

/-- All allocated entries. -/
def moodDom (d3 : Bool) (P : Grid) (nc : ℕ) (ti : TimeInt) (a : Addr) : Prop :=
  P.box d3 a.cell ∧
    ((moodArray d3 nc ti a.arr ∧ a.v < P.nbvar) ∨ (a.arr = aFlags ∧ a.v < 1))

/-! ### Reconstruction -/

/-- The cell at a stencil offset. -/
def shiftCell (c : Cell) (o : Offset) : Cell := ⟨c.i + o.x, c.j + o.y, c.k + o.z⟩

/-- The guard of the reconstruction: in 2D `ghostWidth-1 <= i < isize-ghostWidth+1`, in 3D
`ghostWidth <= i < isize-ghostWidth+1` (`src/mood/MoodPolynomialReconstructionFunctors.h:100-101`,
`165-166`). -/
def reconRegion (d3 : Bool) (P : Grid) (c : Cell) : Prop :=
  if d3 then
    c.k ≥ P.ghostWidth ∧ c.k < P.ksize - P.ghostWidth + 1 ∧
    c.j ≥ P.ghostWidth ∧ c.j < P.jsize - P.ghostWidth + 1 ∧
    c.i ≥ P.ghostWidth ∧ c.i < P.isize - P.ghostWidth + 1
  else
    c.j ≥ P.ghostWidth - 1 ∧ c.j < P.jsize - P.ghostWidth + 1 ∧
    c.i ≥ P.ghostWidth - 1 ∧ c.i < P.isize - P.ghostWidth + 1

instance (d3 : Bool) (P : Grid) (c : Cell) : Decidable (reconRegion d3 P c) := by
  unfold reconRegion; infer_instance

/-- Load a list of states. -/
def loadStates (d3 : Bool) (A : Nat) : List Cell → K Addr α (List (HState α))
  | [] => pure []
  | c :: cs => do
    let q ← loadState d3 A c
    let qs ← loadStates d3 A cs
    pure (q :: qs)

/-- Coefficient `icoef` of all variables of one cell from its state `uc` and the states `un` of the
other cells of the stencil (`src/mood/MoodPolynomialReconstructionFunctors.h:103-137`, `168-203`).
`rhs` has `stencil_size - 1` entries; entries that are not written (there is a stencil with too few
offsets) are arbitrary. -/
def reconState (M : Scheme α) (junk : ℕ → α) (uc : HState α) (un : List (HState α)) (icoef : ℕ) :
    HState α :=
  ofComps M.d3 fun v =>
    let written := un.map fun q => comp q v - comp uc v
    let rhs := written ++ (List.range (STENCIL_SIZE M.id - 1 - written.length)).map junk
    reconCoefs (M.ncoefs - 1) M.pi (comp uc v) rhs icoef

/-- `ComputeReconstructionPolynomialFunctor`
(`src/mood/MoodPolynomialReconstructionFunctors.h:80-141`, `144-207`). -/
def reconstruct (lay : Layout) (M : Scheme α) (P : Grid) (J : MoodJunk α) (U : Nat) :
    Launch Addr α :=
  rangeCells lay M.d3 P fun c =>
    if reconRegion M.d3 P c then do
      let uc ← loadState M.d3 U c
      let un ← loadStates M.d3 U ((nonCentre (stencilOffsets M.id)).map (shiftCell c))
      forVars M.ncoefs fun icoef =>
        storeState M.d3 (aPoly icoef) c (reconState M (J.rhs c) uc un icoef)
    else pure ()

/-! ### Fluxes -/

/-- `isValid` (`src/mood/MoodBaseFunctor.h:162-184` for 2D, `195-217` for 3D). -/
def isValid (d3 : Bool) (S : Settings α) (u : HState α) : Bool :=
  let bound : α := if d3 then lit 0 else lit (1 / 10 ^ 6)
  let q := (computePrimitives d3 S u).1
  !(ltb u.d bound) && !(ltb q.p bound)

/-- Reconstructed state at point `iq` of the upper or lower face of a cell in direction `d`
(`src/mood/MoodFluxesFunctors.h:140-160` and the other directions). -/
def sideState (M : Scheme α) (S : Settings α) (d : Dir) (faceMax : Bool) (iq : ℕ)
    (coefs : ℕ → HState α) : HState α :=
  let n := QUADRATURE_NUM_POINTS M.id
  ofComps M.d3 fun v =>
    if M.d3 then
      let p : α × α × α := quadLoc3 n d faceMax iq
      eval3 M.mm M.ncoefs (p.1 * S.dx) (p.2.1 * S.dy) (p.2.2 * S.dz) fun i => comp (coefs i) v
    else
      let p : α × α := quadLoc2 n d faceMax iq
      eval2 M.mm M.ncoefs (p.1 * S.dx) (p.2 * S.dy) fun i => comp (coefs i) v

/-- Both states at point `iq` of a face after the check of validity: in 2D both are replaced by cell
values if one of them is not valid (`src/mood/MoodFluxesFunctors.h:162-188`, `277-303`), in 3D only the one
that is not valid (`445-463`, `561-579`, `683-701`). -/
def faceStates (M : Scheme α) (S : Settings α) (d : Dir) (iq : ℕ) (cn cc : ℕ → HState α) :
    HState α × HState α :=
  let UL := sideState M S d true iq cn
  let UR := sideState M S d false iq cc
  if M.d3 then
    (if isValid M.d3 S UL then UL else cn 0, if isValid M.d3 S UR then UR else cc 0)
  else if !isValid M.d3 S UL || !isValid M.d3 S UR then (cn 0, cc 0)
  else (UL, UR)

/-- `flux_tmp` at one point: Riemann problem with the normal velocity moved to `IU`
(e.g. `src/mood/MoodFluxesFunctors.h:309-317`). -/
def pointFlux (d3 : Bool) (S : Settings α) (junk : HState α) (d : Dir) (UL UR : HState α) :
    HState α :=
  (riemann_hydro d3 S ((computePrimitives d3 S UL).1.swap d)
    ((computePrimitives d3 S UR).1.swap d)).getD junk

/-- Flux through the lower face of a cell in direction `d`, before scaling by time step over cell
size (`src/mood/MoodFluxesFunctors.h:117-222`, `234-342`, `399-503`, `515-624`, `637-746`).
`cc`, `cn`: coefficients of the cell and its lower neighbour. -/
def meanFlux (M : Scheme α) (S : Settings α) (junk : ℕ → HState α) (d : Dir)
    (cn cc : ℕ → HState α) : HState α :=
  let n := QUADRATURE_NUM_POINTS M.id
  let f := fun iq =>
    pointFlux M.d3 S (junk iq) d (faceStates M S d iq cn cc).1 (faceStates M S d iq cn cc).2
  let flux := ofComps M.d3 fun v =>
    if M.d3 then quadSum3 n fun iq => comp (f iq) v else quadSum2 n fun iq => comp (f iq) v
  flux.swap d

/-- The factor by which the flux in direction `d` is multiplied: `dtdx`, `dtdy`, and in direction
`z` again `dtdy` (`src/mood/MoodFluxesFunctors.h:226`, `346`, `507`, `628`, `750`). -/
def fluxFactor (S : Settings α) (dt : α) (d : Dir) : α :=
  match d with
  | .x => dtOver S dt .x
  | .y => dtOver S dt .y
  | .z => dtOver S dt .y

/-- The guards of the flux computation: interior cells and one more layer in direction `d`
(`src/mood/MoodFluxesFunctors.h:115`, `232`, `397`, `513`, `635-636`). -/
def faceRegion (d3 : Bool) (P : Grid) (d : Dir) (c : Cell) : Prop :=
  (d3 = true → c.k ≥ P.ghostWidth ∧
    c.k < P.ksize - P.ghostWidth + (match d with | .z => 1 | _ => 0)) ∧
  c.j ≥ P.ghostWidth ∧ c.j < P.jsize - P.ghostWidth + (match d with | .y => 1 | _ => 0) ∧
  c.i ≥ P.ghostWidth ∧ c.i < P.isize - P.ghostWidth + (match d with | .x => 1 | _ => 0)

instance (d3 : Bool) (P : Grid) (d : Dir) (c : Cell) : Decidable (faceRegion d3 P d c) := by
  unfold faceRegion; infer_instance

/-- Load the coefficients `0, ..., n-1` of one cell. -/
def loadCoefs (d3 : Bool) (c : Cell) : ℕ → K Addr α (ℕ → HState α)
  | 0 => pure fun _ => HState.zero
  | n + 1 => do
    let f ← loadCoefs d3 c n
    let q ← loadState d3 (aPoly n) c
    pure (Function.update f n q)

/-- The flux in one direction. -/
def computeFluxAlong (M : Scheme α) (S : Settings α) (P : Grid) (J : MoodJunk α) (dt : α)
    (c : Cell) (d : Dir) : K Addr α Unit :=
  if faceRegion M.d3 P d c then do
    let cc ← loadCoefs M.d3 c M.ncoefs
    let cn ← loadCoefs M.d3 (c.down d) M.ncoefs
    storeState M.d3 (aF 0 d) c
      ((meanFlux M S (J.flux c d) d cn cc).scale M.d3 (fluxFactor S dt d))
  else pure ()

/-- `ComputeFluxesFunctor` (`src/mood/MoodFluxesFunctors.h:74-350`, `352-754`). -/
def computeFluxes (lay : Layout) (M : Scheme α) (S : Settings α) (P : Grid) (J : MoodJunk α)
    (dt : α) : Launch Addr α :=
  rangeCells lay M.d3 P fun c => do
    computeFluxAlong M S P J dt c .x
    computeFluxAlong M S P J dt c .y
    if M.d3 then computeFluxAlong M S P J dt c .z else pure ()

/-! ### Flags -/

/-- Fluxes through the lower and upper face in every direction. -/
def loadFluxes (d3 : Bool) (c : Cell) : K Addr α (Dir → HState α × HState α) := do
  let x0 ← loadState d3 (aF 0 .x) c
  let x1 ← loadState d3 (aF 0 .x) (c.up .x)
  let y0 ← loadState d3 (aF 0 .y) c
  let y1 ← loadState d3 (aF 0 .y) (c.up .y)
  if d3 then do
    let z0 ← loadState d3 (aF 0 .z) c
    let z1 ← loadState d3 (aF 0 .z) (c.up .z)
    pure (Dir.pick (x0, x1) (y0, y1) (z0, z1))
  else pure (Dir.pick (x0, x1) (y0, y1) (HState.zero, HState.zero))

/-- `u` plus lower minus upper flux, one direction after the other
(e.g. `src/mood/MoodUpdateFunctors.h:62-85`, `115-155`). -/
def accFluxes (d3 : Bool) (u : HState α) (f : Dir → HState α × HState α) : HState α :=
  let t := zipState d3 (· - ·) (zipState d3 (· + ·) u (f .x).1) (f .x).2
  let t := zipState d3 (· - ·) (zipState d3 (· + ·) t (f .y).1) (f .y).2
  if d3 then zipState d3 (· - ·) (zipState d3 (· + ·) t (f .z).1) (f .z).2 else t

/-- The test of `ComputeMoodFlagsUpdateFunctor`: the density after the update, but the pressure
before the update (`src/mood/MoodUpdateFunctors.h:576-602`, `639-675`). -/
def flagOf (d3 : Bool) (S : Settings α) (u : HState α) (f : Dir → HState α × HState α) : α :=
  let rho_new := (accFluxes d3 u f).d
  let QNew := (computePrimitives d3 S u).1
  if ltb rho_new (lit 0) || ltb QNew.p (lit 0) then lit 1 else lit 0

/-- `ComputeMoodFlagsUpdateFunctor` (`src/mood/MoodUpdateFunctors.h:551-608`, `610-681`). -/
def computeMoodFlags (lay : Layout) (d3 : Bool) (S : Settings α) (P : Grid) (U : Nat) :
    Launch Addr α :=
  rangeCells lay d3 P fun c => do
    K.store (c.at aFlags 0) (lit 0)
    if P.inner d3 c then do
      let u ← loadState d3 U c
      let f ← loadFluxes d3 c
      K.store (c.at aFlags 0) (flagOf d3 S u f)
    else pure ()

/-- The low order flux: in 2D always `riemann_hll`, in 3D the configured solver
(`src/mood/MoodFluxesFunctors.h:866-895`, `905-942`, `999-1028`, `1039-1076`, `1087-1124`); here the
`z` flux is multiplied by `dtdz`. -/
def lowFlux (d3 : Bool) (S : Settings α) (dt : α) (d : Dir) (UL UR : HState α) : HState α :=
  let qL := (computePrimitives d3 S UL).1.swap d
  let qR := (computePrimitives d3 S UR).1.swap d
  let flux := if d3 then (riemann_hydro d3 S qL qR).getD HState.zero else riemann_hll d3 S qL qR
  (flux.swap d).scale d3 (dtOver S dt d)

/-- One direction of the recomputation. -/
def recomputeAlong (d3 : Bool) (S : Settings α) (dt : α) (U : Nat) (c : Cell) (d : Dir) :
    K Addr α Unit := do
  let UL ← loadState d3 U (c.down d)
  let UR ← loadState d3 U c
  storeState d3 (aF 0 d) c (lowFlux d3 S dt d UL UR)

/-- `RecomputeFluxesFunctor` (`src/mood/MoodFluxesFunctors.h:820-946`, `948-1128`).  `flagx`,
`flagy`, `flagz` keep the value 0: the flags of the lower neighbours are read in lines 854-857 and
985-990 but the values are thrown away. -/
def recomputeFluxes (lay : Layout) (d3 : Bool) (S : Settings α) (P : Grid) (dt : α) (U : Nat) :
    Launch Addr α :=
  rangeCells lay d3 P fun c => do
    let flag ← K.load (c.at aFlags 0)
    let flagx : α := lit 0
    let flagy : α := lit 0
    let flagz : α := lit 0
    if ltb (lit 0) flag || ltb (lit 0) flagx then recomputeAlong d3 S dt U c .x else pure ()
    if ltb (lit 0) flag || ltb (lit 0) flagy then recomputeAlong d3 S dt U c .y else pure ()
    if d3 then
      if ltb (lit 0) flag || ltb (lit 0) flagz then recomputeAlong d3 S dt U c .z else pure ()
    else pure ()

/-! ### Update -/

/-- `UpdateFunctor` (`src/mood/MoodUpdateFunctors.h:45-94`, `96-165`). -/
def updateState (lay : Layout) (d3 : Bool) (P : Grid) (UOld UNew : Nat) : Launch Addr α :=
  rangeCells lay d3 P fun c =>
    if P.inner d3 c then do
      let u ← loadState d3 UOld c
      let f ← loadFluxes d3 c
      storeState d3 UNew c (accFluxes d3 u f)
    else pure ()

/-- `UpdateFunctor_ssprk2` (`src/mood/MoodUpdateFunctors.h:210-260`, `262-331`). -/
def updateSsprk2 (lay : Layout) (d3 : Bool) (P : Grid) (UOld URK UNew : Nat) : Launch Addr α :=
  rangeCells lay d3 P fun c =>
    if P.inner d3 c then do
      let u ← loadState d3 UOld c
      let r ← loadState d3 URK c
      let f ← loadFluxes d3 c
      let t := accFluxes d3 (zipState d3 (· + ·) u r) f
      storeState d3 UNew c (ofComps d3 fun v => lit (1 / 2) * comp t v)
    else pure ()

/-- `tmp2` of `UpdateFunctor_weight`: lower minus upper fluxes
(`src/mood/MoodUpdateFunctors.h:405-423`). -/
def sumFluxes (d3 : Bool) (f : Dir → HState α × HState α) : HState α :=
  let t := zipState d3 (· - ·) (f .x).1 (f .x).2
  let t := zipState d3 (· - ·) (zipState d3 (· + ·) t (f .y).1) (f .y).2
  if d3 then zipState d3 (· - ·) (zipState d3 (· + ·) t (f .z).1) (f .z).2 else t

/-- `UpdateFunctor_weight` (`src/mood/MoodUpdateFunctors.h:381-432`, `434-505`). -/
def updateWeight (lay : Layout) (d3 : Bool) (P : Grid) (UOld URK UNew : Nat)
    (weight_uold weight_urk weight_flux : α) : Launch Addr α :=
  rangeCells lay d3 P fun c =>
    if P.inner d3 c then do
      let u ← loadState d3 UOld c
      let r ← loadState d3 URK c
      let f ← loadFluxes d3 c
      let t := sumFluxes d3 f
      storeState d3 UNew c (ofComps d3 fun v =>
        (weight_uold * comp u v + weight_urk * comp r v) + weight_flux * comp t v)
    else pure ()

/-! ### Time integration -/

section
variable (lay : Layout) (M : Scheme α) (S : Settings α) (P : Grid) (J : ℕ → MoodJunk α) (dt : α)

/-- The four loops that compute the fluxes of one stage from the states in `U`
(e.g. `src/mood/SolverHydroMood.h:920-999`); `J`: uninitialised variables of that stage. -/
def stageFluxes (J : MoodJunk α) (U : Nat) : List (Launch Addr α) :=
  [reconstruct lay M P J U, computeFluxes lay M S P J dt, computeMoodFlags lay M.d3 S P U,
    recomputeFluxes lay M.d3 S P dt U]

/-- `time_int_forward_euler` (`src/mood/SolverHydroMood.h:905-1008`). -/
def time_int_forward_euler (data_in data_out : Nat) : List (Launch Addr α) :=
  stageFluxes lay M S P dt (J 0) data_in ++ [updateState lay M.d3 P data_in data_out]

/-- `time_int_ssprk2` (`src/mood/SolverHydroMood.h:1031-1164`). -/
def time_int_ssprk2 (data_in data_out : Nat) : List (Launch Addr α) :=
  [deepCopy M.d3 P aRK1 data_in]
  ++ stageFluxes lay M S P dt (J 0) data_in ++ [updateState lay M.d3 P data_in aRK1]
  ++ hydroBoundaries M.d3 P aRK1
  ++ stageFluxes lay M S P dt (J 1) aRK1 ++ [updateSsprk2 lay M.d3 P data_in aRK1 data_out]

/-- `time_int_ssprk3` (`src/mood/SolverHydroMood.h:1189-1380`). -/
def time_int_ssprk3 (data_in data_out : Nat) : List (Launch Addr α) :=
  [deepCopy M.d3 P aRK1 data_in]
  ++ stageFluxes lay M S P dt (J 0) data_in ++ [updateState lay M.d3 P data_in aRK1]
  ++ hydroBoundaries M.d3 P aRK1
  ++ stageFluxes lay M S P dt (J 1) aRK1
  ++ [updateWeight lay M.d3 P data_in aRK1 aRK2 (lit (3/4)) (lit (1/4)) (lit (1/4))]
  ++ hydroBoundaries M.d3 P aRK2
  ++ stageFluxes lay M S P dt (J 2) aRK2
  ++ [updateWeight lay M.d3 P data_in aRK2 data_out (lit 1 / lit 3) (lit 2 / lit 3) (lit 2 / lit 3)]

/-- `time_int_ssprk54` (`src/mood/SolverHydroMood.h:1404-1421`): prints "currently unimplemented". -/
def time_int_ssprk54 (data_in _data_out : Nat) : List (Launch Addr α) :=
  [deepCopy M.d3 P aRK1 data_in]

/-- `time_integration_impl` (`src/mood/SolverHydroMood.h:856-898`); `make_boundaries`
(`1429-1530`) launches the same boundary functors as the MUSCL solver. -/
def time_integration_impl (ti : TimeInt) (data_in data_out : Nat) : List (Launch Addr α) :=
  hydroBoundaries M.d3 P data_in ++ [deepCopy M.d3 P data_out data_in] ++
  match ti with
  | .ssprk2 => time_int_ssprk2 lay M S P J dt data_in data_out
  | .ssprk3 => time_int_ssprk3 lay M S P J dt data_in data_out
  | .ssprk54 => time_int_ssprk54 M P data_in data_out
  | .forward_euler => time_int_forward_euler lay M S P J dt data_in data_out

/-- `time_integration` (`src/mood/SolverHydroMood.h:835-849`). -/
def time_integration (ti : TimeInt) (iteration : Nat) : List (Launch Addr α) :=
  if iteration % 2 = 0 then time_integration_impl lay M S P J dt ti aU aU2
  else time_integration_impl lay M S P J dt ti aU2 aU

end

end Verif.Mood
