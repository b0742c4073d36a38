import Verif.Model.Boundaries
import Verif.Model.Riemann

/-!
# MUSCL-Hancock scheme for the Euler equations

`src/muscl/HydroBaseFunctor2D.h`, `HydroBaseFunctor3D.h`, `HydroRunFunctors2D.h`,
`HydroRunFunctors3D.h`, `SolverHydroMuscl.cpp`, `SolverHydroMuscl.h`.

The 2D and 3D codes are textually parallel; they are modelled together with a flag `d3`, every
difference between them being an explicit `if d3`.  A 2D cell has `k = 0`, a 2D state has no `w`
(its field `w` is never stored and is `0` when loaded).

Simplifications
* A functor loads the components of several states interleaved (first all densities, then all
  pressures, ...); the model loads one state after the other.  All these loads are from arrays the
  loop does not write.
* Values of variables the code leaves unassigned are arbitrary values given by a parameter `Junk`.
* The functors `ComputeFluxesAndUpdateFunctor2D` and `ComputeTraceFunctor2D`
  (`src/muscl/HydroRunFunctors2D.h:249-481`) are never used by a solver and not modelled.
-/

namespace Verif

open ROps

/-- `Direction` (`src/shared/enums.h:165-173`). -/
inductive Dir | x | y | z
  deriving DecidableEq

/-- One value per direction (`dq[0]`, `dq[1]`, `dq[2]`). -/
def Dir.pick {β : Type} (x y z : β) : Dir → β
  | .x => x
  | .y => y
  | .z => z

/-- `(i+1,j,k)`, `(i,j+1,k)`, `(i,j,k+1)`. -/
def Cell.up (d : Dir) (c : Cell) : Cell :=
  match d with
  | .x => { c with i := c.i + 1 }
  | .y => { c with j := c.j + 1 }
  | .z => { c with k := c.k + 1 }

/-- `(i-1,j,k)`, `(i,j-1,k)`, `(i,j,k-1)`. -/
def Cell.down (d : Dir) (c : Cell) : Cell :=
  match d with
  | .x => { c with i := c.i - 1 }
  | .y => { c with j := c.j - 1 }
  | .z => { c with k := c.k - 1 }

/-- Number of variables: `HYDRO_2D_NBVAR`, `HYDRO_3D_NBVAR` (`src/shared/HydroState.h:9-10`,
`src/shared/HydroParams.cpp:42-55`). -/
def hydroVars (d3 : Bool) : Nat := if d3 then 5 else 4

/-- Work item `t` of an `MDRangePolicy` loop: each index tuple exactly once
(the enumeration order is irrelevant since any interleaving of the work items is considered). -/
def Grid.cellOf (P : Grid) (t : Nat) : Cell where
  i := (t % P.isize.toNat : Nat)
  j := (t / P.isize.toNat % P.jsize.toNat : Nat)
  k := (t / P.isize.toNat / P.jsize.toNat : Nat)

/-- `Kokkos::parallel_for(MDRangePolicy<Rank<2>>({0,0},{isize,jsize}), functor)` and the 3D
analogue, e.g. `src/muscl/HydroRunFunctors2D.h:203-206`, `src/muscl/HydroRunFunctors3D.h:217-220`. -/
def mdrange {α : Type} (d3 : Bool) (P : Grid) (body : Cell → K Addr α Unit) : Launch Addr α where
  n := P.isize.toNat * P.jsize.toNat * (if d3 then P.ksize.toNat else 1)
  body t := body (P.cellOf t)

variable {α : Type} [ROps α]

/-! ### Cell-local formulas -/

/-- `computePrimitives` (`src/muscl/HydroBaseFunctor2D.h:79-105`,
`src/muscl/HydroBaseFunctor3D.h:81-113`): primitive state and sound speed. -/
def computePrimitives (d3 : Bool) (S : Settings α) (u : HState α) : HState α × α :=
  let d := fmax u.d S.smallr
  let ux := u.u / d
  let uy := u.v / d
  let uz := if d3 then u.w / d else lit 0
  let eken := if d3 then lit (1/2) * (ux * ux + uy * uy + uz * uz)
    else lit (1/2) * (ux * ux + uy * uy)
  let e := u.p / d - eken
  let p := fmax ((S.gamma0 - lit 1) * d * e) (d * S.smallp)
  let c := sqrt (S.gamma0 * p / d)
  ({ d := d, p := p, u := ux, v := uy, w := uz }, c)

/-- `eos` (`src/muscl/HydroBaseFunctor2D.h:59-69`, `src/muscl/HydroBaseFunctor3D.h:60-70`):
pressure and sound speed. -/
def eos (S : Settings α) (rho eint : α) : α × α :=
  let p := fmax ((S.gamma0 - lit 1) * rho * eint) (rho * S.smallp)
  (p, sqrt (S.gamma0 * p / rho))

/-- One direction of `slope_unsplit_hydro_2d_scalar` (`src/muscl/HydroBaseFunctor2D.h:421-457`) and
`slope_unsplit_hydro_3d_scalar` (`src/muscl/HydroBaseFunctor3D.h:413-463`). -/
def slopeScalar (S : Settings α) (q qPlus qMinus : α) : α :=
  let dlft := S.slope_type * (q - qMinus)
  let drgt := S.slope_type * (qPlus - q)
  let dcen := lit (1/2) * (qPlus - qMinus)
  let dsgn := if geb dcen (lit 0) then lit 1 else -(lit 1)
  let slop := fmin (fabs dlft) (fabs drgt)
  let dlim := if leb (dlft * drgt) (lit 0) then lit 0 else slop
  dsgn * fmin dlim (fabs dcen)

/-- The zero state. -/
def HState.zero : HState α := ⟨lit 0, lit 0, lit 0, lit 0, lit 0⟩

/-- `slope_unsplit_hydro_2d` (`src/muscl/HydroBaseFunctor2D.h:475-518`) and
`slope_unsplit_hydro_3d` (`src/muscl/HydroBaseFunctor3D.h:484-576`): slopes in all directions.
`none`: no assignment takes place. -/
def slopes (d3 : Bool) (S : Settings α) (q : HState α) (qPlus qMinus : Dir → HState α) :
    Option (Dir → HState α) :=
  if eqb S.slope_type (lit 0) then some fun _ => HState.zero
  else if eqb S.slope_type (lit 1) || eqb S.slope_type (lit 2) then some fun d =>
    { d := slopeScalar S q.d (qPlus d).d (qMinus d).d
      p := slopeScalar S q.p (qPlus d).p (qMinus d).p
      u := slopeScalar S q.u (qPlus d).u (qMinus d).u
      v := slopeScalar S q.v (qPlus d).v (qMinus d).v
      w := if d3 then slopeScalar S q.w (qPlus d).w (qMinus d).w else lit 0 }
  else none

/-- `sr0, sp0, su0, sv0, sw0` of `trace_unsplit_2d_along_dir`
(`src/muscl/HydroBaseFunctor2D.h:248-251`) and `trace_unsplit_3d_along_dir`
(`src/muscl/HydroBaseFunctor3D.h:317-321`). -/
def traceSource (d3 : Bool) (S : Settings α) (q : HState α) (dq : Dir → HState α) : HState α :=
  let u := q.u
  let v := q.v
  let w := q.w
  if d3 then
    { d := -u * (dq .x).d - v * (dq .y).d - w * (dq .z).d
        - ((dq .x).u + (dq .y).v + (dq .z).w) * q.d
      p := -u * (dq .x).p - v * (dq .y).p - w * (dq .z).p
        - ((dq .x).u + (dq .y).v + (dq .z).w) * S.gamma0 * q.p
      u := -u * (dq .x).u - v * (dq .y).u - w * (dq .z).u - (dq .x).p / q.d
      v := -u * (dq .x).v - v * (dq .y).v - w * (dq .z).v - (dq .y).p / q.d
      w := -u * (dq .x).w - v * (dq .y).w - w * (dq .z).w - (dq .z).p / q.d }
  else
    { d := -u * (dq .x).d - v * (dq .y).d - ((dq .x).u + (dq .y).v) * q.d
      p := -u * (dq .x).p - v * (dq .y).p - ((dq .x).u + (dq .y).v) * S.gamma0 * q.p
      u := -u * (dq .x).u - v * (dq .y).u - (dq .x).p / q.d
      v := -u * (dq .x).v - v * (dq .y).v - (dq .y).p / q.d
      w := lit 0 }

/-- `trace_unsplit_2d_along_dir` (`src/muscl/HydroBaseFunctor2D.h:216-293`) and
`trace_unsplit_3d_along_dir` (`src/muscl/HydroBaseFunctor3D.h:276-388`).  The face is given by
direction and side (`upper` = `FACE_*MAX`); `dtd` is `dtdx`, `dtdy`, `dtdz`. -/
def traceAlongDir (d3 : Bool) (S : Settings α) (q : HState α) (dq : Dir → HState α)
    (dtd : Dir → α) (d : Dir) (upper : Bool) : HState α :=
  let s := traceSource d3 S q dq
  let f := fun (x dx s : α) =>
    if upper then x + lit (1/2) * dx + s * dtd d * lit (1/2)
    else x - lit (1/2) * dx + s * dtd d * lit (1/2)
  { d := fmax S.smallr (f q.d (dq d).d s.d)
    p := f q.p (dq d).p s.p
    u := f q.u (dq d).u s.u
    v := f q.v (dq d).v s.v
    w := if d3 then f q.w (dq d).w s.w else lit 0 }

/-- `swapValues(&q[IU], &q[IV])`, `swapValues(&q[IU], &q[IW])`
(`src/muscl/HydroBaseFunctor2D.h:34-44`, `src/muscl/HydroBaseFunctor3D.h:34-44`). -/
def HState.swap (d : Dir) (q : HState α) : HState α :=
  match d with
  | .x => q
  | .y => { q with u := q.v, v := q.u }
  | .z => { q with u := q.w, w := q.u }

/-- Gravity predictor `q[IU] += 0.5 * dt * gravity(..., IX)` etc., e.g.
`src/muscl/HydroRunFunctors3D.h:485-497`. -/
def addGravity (d3 : Bool) (dt : α) (g q : HState α) : HState α :=
  { q with
    u := q.u + lit (1/2) * dt * g.u
    v := q.v + lit (1/2) * dt * g.v
    w := if d3 then q.w + lit (1/2) * dt * g.w else q.w }

/-- `flux[...] * dtdx` for every variable. -/
def HState.scale (d3 : Bool) (q : HState α) (s : α) : HState α :=
  { d := q.d * s, p := q.p * s, u := q.u * s, v := q.v * s, w := if d3 then q.w * s else lit 0 }

/-- Riemann problem at a face with rotation to and from the `x` axis, scaled by `dt/dx`:
`src/muscl/HydroRunFunctors2D.h:664-672`, `:734-746`; `src/muscl/HydroRunFunctors3D.h:500-509`,
`:593-604`, `:688-699`.  `junk`: value of the unassigned `flux`. -/
def faceFlux (d3 : Bool) (S : Settings α) (junk : HState α) (dtd : α) (d : Dir)
    (qleft qright : HState α) : HState α :=
  (((riemann_hydro d3 S (qleft.swap d) (qright.swap d)).getD junk).swap d).scale d3 dtd

/-! ### Memory layout -/

/-! Arrays of `SolverHydroMuscl` (`src/muscl/SolverHydroMuscl.h:80-98`, allocated in the
constructor `:209-285`). -/
def aU : Nat := 0
def aU2 : Nat := 1
def aQ : Nat := 2
def aG : Nat := 9

/-- `Fluxes_x, Fluxes_y, Fluxes_z`; with `implementationVersion == 1` all three are one array
(`src/muscl/SolverHydroMuscl.h:236`, `:276-277`). -/
def aF (impl : Int) (d : Dir) : Nat :=
  match d with
  | .x => 3
  | .y => if impl = 1 then 3 else 4
  | .z => if impl = 1 then 3 else 5

/-- `Slopes_x, Slopes_y, Slopes_z`. -/
def aS : Dir → Nat
  | .x => 6
  | .y => 7
  | .z => 8

/-- Cells of the arrays (`isize × jsize` or `isize × jsize × ksize`). -/
def Grid.box (d3 : Bool) (P : Grid) (c : Cell) : Prop :=
  0 ≤ c.i ∧ c.i < P.isize ∧ 0 ≤ c.j ∧ c.j < P.jsize ∧
    (if d3 then 0 ≤ c.k ∧ c.k < P.ksize else c.k = 0)

/-- Arrays of states that are allocated (`src/muscl/SolverHydroMuscl.h:209-285`). -/
def hydroArray (d3 : Bool) (impl : Int) (A : Nat) : Prop :=
  A = aU ∨ A = aU2 ∨ A = aQ ∨
  (impl = 0 ∧ (A = aF impl .x ∨ A = aF impl .y ∨ (d3 = true ∧ A = aF impl .z))) ∨
  (impl = 1 ∧ (A = aF impl .x ∨ A = aS .x ∨ A = aS .y ∨ (d3 = true ∧ A = aS .z)))

/-- All allocated entries: state arrays with `nbvar` variables and, with gravity, the vector field
of 2 or 3 components. -/
def hydroDom (d3 : Bool) (P : Grid) (impl : Int) (grav : Bool) (a : Addr) : Prop :=
  P.box d3 a.cell ∧
    ((hydroArray d3 impl a.arr ∧ a.v < P.nbvar) ∨
     (grav = true ∧ a.arr = aG ∧ a.v < (if d3 then 3 else 2)))

/-- Load all variables of one cell. -/
def loadState (d3 : Bool) (A : Nat) (c : Cell) : K Addr α (HState α) := do
  let d ← K.load (c.at A ID)
  let p ← K.load (c.at A IP)
  let u ← K.load (c.at A IU)
  let v ← K.load (c.at A IV)
  if d3 then do
    let w ← K.load (c.at A IW)
    pure ⟨d, p, u, v, w⟩
  else pure ⟨d, p, u, v, lit 0⟩

/-- Store all variables of one cell. -/
def storeState (d3 : Bool) (A : Nat) (c : Cell) (q : HState α) : K Addr α Unit := do
  K.store (c.at A ID) q.d
  K.store (c.at A IP) q.p
  K.store (c.at A IU) q.u
  K.store (c.at A IV) q.v
  if d3 then K.store (c.at A IW) q.w else pure ()

/-- Load the gravity vector of one cell (components `IX, IY, IZ`, `src/shared/enums.h:157-162`). -/
def loadGravity (d3 : Bool) (c : Cell) : K Addr α (HState α) := do
  let x ← K.load (c.at aG 0)
  let y ← K.load (c.at aG 1)
  if d3 then do
    let z ← K.load (c.at aG 2)
    pure ⟨lit 0, lit 0, x, y, z⟩
  else pure ⟨lit 0, lit 0, x, y, lit 0⟩

/-- Contents of uninitialised variables in work item `c`: slopes (a tag tells which of the slope
variables) and fluxes. -/
structure Junk (α : Type) where
  slope : Cell → Nat → Dir → HState α
  flux : Cell → Dir → HState α

/-- Interior cells: the guard `ghostWidth <= i < isize - ghostWidth`, ... -/
def Grid.inner (d3 : Bool) (P : Grid) (c : Cell) : Prop :=
  (d3 = true → c.k ≥ P.ghostWidth ∧ c.k < P.ksize - P.ghostWidth) ∧
  c.j ≥ P.ghostWidth ∧ c.j < P.jsize - P.ghostWidth ∧
  c.i ≥ P.ghostWidth ∧ c.i < P.isize - P.ghostWidth

/-- Cells whose lower faces get a flux: the guard `ghostWidth <= i <= isize - ghostWidth`, ... -/
def Grid.faces (d3 : Bool) (P : Grid) (c : Cell) : Prop :=
  (d3 = true → c.k ≥ P.ghostWidth ∧ c.k ≤ P.ksize - P.ghostWidth) ∧
  c.j ≥ P.ghostWidth ∧ c.j ≤ P.jsize - P.ghostWidth ∧
  c.i ≥ P.ghostWidth ∧ c.i ≤ P.isize - P.ghostWidth

/-- Cells that get slopes: the guard `ghostWidth-1 <= i <= isize - ghostWidth`, ... -/
def Grid.sloped (d3 : Bool) (P : Grid) (c : Cell) : Prop :=
  (d3 = true → c.k ≥ P.ghostWidth - 1 ∧ c.k ≤ P.ksize - P.ghostWidth) ∧
  c.j ≥ P.ghostWidth - 1 ∧ c.j ≤ P.jsize - P.ghostWidth ∧
  c.i ≥ P.ghostWidth - 1 ∧ c.i ≤ P.isize - P.ghostWidth

instance (d3 : Bool) (P : Grid) (c : Cell) : Decidable (P.inner d3 c) := by
  unfold Grid.inner; infer_instance
instance (d3 : Bool) (P : Grid) (c : Cell) : Decidable (P.faces d3 c) := by
  unfold Grid.faces; infer_instance
instance (d3 : Bool) (P : Grid) (c : Cell) : Decidable (P.sloped d3 c) := by
  unfold Grid.sloped; infer_instance
instance (d3 : Bool) (P : Grid) (c : Cell) : Decidable (P.box d3 c) := by
  unfold Grid.box; infer_instance

/-! ### Functors -/

/-- `Kokkos::deep_copy(dst, src)` (`src/muscl/SolverHydroMuscl.cpp:269`, `:342`); the arrays have
`nbvar` variables. -/
def deepCopy (d3 : Bool) (P : Grid) (dst src : Nat) : Launch Addr α :=
  mdrange d3 P fun c => forVars P.nbvar fun v => do
    let x ← K.load (c.at src v)
    K.store (c.at dst v) x

/-- `ConvertToPrimitivesFunctor2D` (`src/muscl/HydroRunFunctors2D.h:182-244`),
`ConvertToPrimitivesFunctor3D` (`src/muscl/HydroRunFunctors3D.h:196-261`). The guard
`0 <= i < isize` always holds. -/
def convertToPrimitives (d3 : Bool) (S : Settings α) (P : Grid) (U Q : Nat) : Launch Addr α :=
  mdrange d3 P fun c => do
    let u ← loadState d3 U c
    storeState d3 Q c (computePrimitives d3 S u).1

/-- Slopes at a cell computed from the six (four) neighbours, e.g.
`src/muscl/HydroRunFunctors3D.h:370-420`. -/
def loadSlopes (d3 : Bool) (S : Settings α) (junk : Dir → HState α) (Q : Nat) (c : Cell) :
    K Addr α (Dir → HState α) := do
  let q ← loadState d3 Q c
  let x1 ← loadState d3 Q (c.up .x)
  let x0 ← loadState d3 Q (c.down .x)
  let y1 ← loadState d3 Q (c.up .y)
  let y0 ← loadState d3 Q (c.down .y)
  if d3 then do
    let z1 ← loadState d3 Q (c.up .z)
    let z0 ← loadState d3 Q (c.down .z)
    pure ((slopes d3 S q (Dir.pick x1 y1 z1)
      (Dir.pick x0 y0 z0)).getD junk)
  else
    pure ((slopes d3 S q (Dir.pick x1 y1 HState.zero)
      (Dir.pick x0 y0 HState.zero)).getD junk)

/-- Tag of the neighbour slope variables in direction `d`. -/
def Dir.tag : Dir → Nat
  | .x => 1
  | .y => 2
  | .z => 3

/-- `dt/dx`, `dt/dy`, `dt/dz` (constructors of the flux functors, e.g.
`src/muscl/HydroRunFunctors3D.h:298-300`). -/
def dtOver (S : Settings α) (dt : α) : Dir → α
  | .x => dt / S.dx
  | .y => dt / S.dy
  | .z => dt / S.dz

/-- The part of `ComputeAndStoreFluxesFunctor2D/3D::operator()` dealing with the lower face in
direction `d`: `src/muscl/HydroRunFunctors2D.h:606-672` (x), `:678-746` (y);
`src/muscl/HydroRunFunctors3D.h:422-509` (x), `:515-604` (y), `:610-699` (z). -/
def allInOneFlux (d3 : Bool) (S : Settings α) (J : Junk α) (grav : Bool) (dt : α) (Q : Nat)
    (c : Cell) (qLoc : HState α) (dq : Dir → HState α) (d : Dir) : K Addr α (HState α) := do
  let qLocNeighbor ← loadState d3 Q (c.down d)
  let dqNeighbor ← loadSlopes d3 S (J.slope c d.tag) Q (c.down d)
  let qright := traceAlongDir d3 S qLoc dq (dtOver S dt) d false
  let qleft := traceAlongDir d3 S qLocNeighbor dqNeighbor (dtOver S dt) d true
  if grav then do
    let gl ← loadGravity d3 (c.down d)
    let gr ← loadGravity d3 c
    pure (faceFlux d3 S (J.flux c d) (dtOver S dt d) d (addGravity d3 dt gl qleft)
      (addGravity d3 dt gr qright))
  else
    pure (faceFlux d3 S (J.flux c d) (dtOver S dt d) d qleft qright)

/-- `ComputeAndStoreFluxesFunctor2D` (`src/muscl/HydroRunFunctors2D.h:487-760`) and
`ComputeAndStoreFluxesFunctor3D` (`src/muscl/HydroRunFunctors3D.h:267-713`). -/
def computeAndStoreFluxes (d3 : Bool) (S : Settings α) (P : Grid) (J : Junk α) (grav : Bool)
    (dt : α) (Q : Nat) (F : Dir → Nat) : Launch Addr α :=
  mdrange d3 P fun c =>
    if P.faces d3 c then do
      let qLoc ← loadState d3 Q c
      let dq ← loadSlopes d3 S (J.slope c 0) Q c
      let fx ← allInOneFlux d3 S J grav dt Q c qLoc dq .x
      storeState d3 (F .x) c fx
      let fy ← allInOneFlux d3 S J grav dt Q c qLoc dq .y
      storeState d3 (F .y) c fy
      if d3 then do
        let fz ← allInOneFlux d3 S J grav dt Q c qLoc dq .z
        storeState d3 (F .z) c fz
      else pure ()
    else pure ()

/-- `U(c, v) += F(c', v)` for every variable. -/
def addVars (d3 : Bool) (U : Nat) (c : Cell) (F : Nat) (c' : Cell) : K Addr α Unit :=
  forVars (hydroVars d3) fun v => do
    let x ← K.load (c.at U v)
    let f ← K.load (c'.at F v)
    K.store (c.at U v) (x + f)

/-- `U(c, v) -= F(c', v)` for every variable. -/
def subVars (d3 : Bool) (U : Nat) (c : Cell) (F : Nat) (c' : Cell) : K Addr α Unit :=
  forVars (hydroVars d3) fun v => do
    let x ← K.load (c.at U v)
    let f ← K.load (c'.at F v)
    K.store (c.at U v) (x - f)

/-- Update along one direction: `U(c) += F(c); U(c) -= F(c+1)`
(`src/muscl/HydroRunFunctors2D.h:809-827`; `src/muscl/HydroRunFunctors3D.h:771-805`). -/
def updateAlong (d3 : Bool) (U : Nat) (c : Cell) (F : Nat) (d : Dir) : K Addr α Unit := do
  addVars d3 U c F c
  subVars d3 U c F (c.up d)

/-- `UpdateFunctor2D` (`src/muscl/HydroRunFunctors2D.h:765-837`), `UpdateFunctor3D`
(`src/muscl/HydroRunFunctors3D.h:718-816`). -/
def update (d3 : Bool) (P : Grid) (U : Nat) (F : Dir → Nat) : Launch Addr α :=
  mdrange d3 P fun c =>
    if P.inner d3 c then do
      updateAlong d3 U c (F .x) .x
      updateAlong d3 U c (F .y) .y
      if d3 then updateAlong d3 U c (F .z) .z else pure ()
    else pure ()

/-- `UpdateDirFunctor2D<dir>` (`src/muscl/HydroRunFunctors2D.h:843-916`),
`UpdateDirFunctor3D<dir>` (`src/muscl/HydroRunFunctors3D.h:822-916`). -/
def updateDir (d3 : Bool) (P : Grid) (U F : Nat) (d : Dir) : Launch Addr α :=
  mdrange d3 P fun c => if P.inner d3 c then updateAlong d3 U c F d else pure ()

/-- `ComputeSlopesFunctor2D` (`src/muscl/HydroRunFunctors2D.h:922-1026`), whose slope variables
start as zero (`:975-976`), and `ComputeSlopesFunctor3D` (`src/muscl/HydroRunFunctors3D.h:922-1069`),
whose slope variables start uninitialised (`:985-987`). -/
def computeSlopes (d3 : Bool) (S : Settings α) (P : Grid) (J : Junk α) (Q : Nat) :
    Launch Addr α :=
  mdrange d3 P fun c =>
    if P.sloped d3 c then do
      let dq ← loadSlopes d3 S (if d3 then J.slope c 0 else fun _ => HState.zero) Q c
      storeState d3 (aS .x) c (dq .x)
      storeState d3 (aS .y) c (dq .y)
      if d3 then storeState d3 (aS .z) c (dq .z) else pure ()
    else pure ()

/-- Load the stored slopes of one cell, e.g. `src/muscl/HydroRunFunctors3D.h:1168-1191`. -/
def loadStoredSlopes (d3 : Bool) (c : Cell) : K Addr α (Dir → HState α) := do
  let x ← loadState d3 (aS .x) c
  let y ← loadState d3 (aS .y) c
  if d3 then do
    let z ← loadState d3 (aS .z) c
    pure (Dir.pick x y z)
  else pure (Dir.pick x y HState.zero)

/-- `ComputeTraceAndFluxes_Functor2D<dir>` (`src/muscl/HydroRunFunctors2D.h:1031-1256`),
`ComputeTraceAndFluxes_Functor3D<dir>` (`src/muscl/HydroRunFunctors3D.h:1074-1421`).  In the
`ZDIR` branch the gravity predictor is not applied to `qright` (`:1343-1398`). -/
def computeTraceAndFluxes (d3 : Bool) (S : Settings α) (P : Grid) (J : Junk α) (grav : Bool)
    (dt : α) (Q F : Nat) (d : Dir) : Launch Addr α :=
  mdrange d3 P fun c =>
    if P.faces d3 c then do
      let qLoc ← loadState d3 Q c
      let dq ← loadStoredSlopes d3 c
      let qright := traceAlongDir d3 S qLoc dq (dtOver S dt) d false
      let qright ← (if grav && d != .z then do
          let g ← loadGravity d3 c
          pure (addGravity d3 dt g qright)
        else pure qright : K Addr α (HState α))
      let qLocNeighbor ← loadState d3 Q (c.down d)
      let dqNeighbor ← loadStoredSlopes d3 (c.down d)
      let qleft := traceAlongDir d3 S qLocNeighbor dqNeighbor (dtOver S dt) d true
      let qleft ← (if grav then do
          let g ← loadGravity d3 (c.down d)
          pure (addGravity d3 dt g qleft)
        else pure qleft : K Addr α (HState α))
      storeState d3 F c (faceFlux d3 S (J.flux c d) (dtOver S dt d) d qleft qright)
    else pure ()

/-- The new cell state of `GravitySourceTermFunctor2D` (`src/muscl/HydroRunFunctors2D.h:1310-1329`)
and `GravitySourceTermFunctor3D` (`src/muscl/HydroRunFunctors3D.h:1476-1499`); the 2D version
floors the new density (`:1311`), the 3D version does not (`:1477`). -/
def gravitySource (d3 : Bool) (S : Settings α) (dt rhoOld : α) (g out : HState α) : HState α :=
  let rhoNew := if d3 then out.d else fmax S.smallr out.d
  let ekin := fun (u v w : α) =>
    if d3 then lit (1/2) * (u * u + v * v + w * w) / rhoNew
    else lit (1/2) * (u * u + v * v) / rhoNew
  let ekin_old := ekin out.u out.v out.w
  let rhou := out.u + lit (1/2) * dt * g.u * (rhoOld + rhoNew)
  let rhov := out.v + lit (1/2) * dt * g.v * (rhoOld + rhoNew)
  let rhow := if d3 then out.w + lit (1/2) * dt * g.w * (rhoOld + rhoNew) else out.w
  let ekin_new := ekin rhou rhov rhow
  { d := out.d, p := out.p + (ekin_new - ekin_old), u := rhou, v := rhov, w := rhow }

/-- `GravitySourceTermFunctor2D` (`src/muscl/HydroRunFunctors2D.h:1262-1338`),
`GravitySourceTermFunctor3D` (`src/muscl/HydroRunFunctors3D.h:1426-1508`). Density is not
written. -/
def gravitySourceTerm (d3 : Bool) (S : Settings α) (P : Grid) (dt : α) (Uin Uout : Nat) :
    Launch Addr α :=
  mdrange d3 P fun c =>
    if P.inner d3 c then do
      let rhoOld ← K.load (c.at Uin ID)
      let out ← loadState d3 Uout c
      let g ← loadGravity d3 c
      let new := gravitySource d3 S dt rhoOld g out
      K.store (c.at Uout IU) new.u
      K.store (c.at Uout IV) new.v
      if d3 then K.store (c.at Uout IW) new.w else pure ()
      K.store (c.at Uout IE) new.p
    else pure ()

/-- Ghost fill of `SolverHydroMuscl<dim>::make_boundaries` without MPI
(`src/muscl/SolverHydroMuscl.cpp:22-64`). -/
def hydroBoundaries (d3 : Bool) (P : Grid) (U : Nat) : List (Launch Addr α) :=
  if d3 then makeBoundariesSerial3D false P U else makeBoundariesSerial2D false P U

/-- The loops of `SolverHydroMuscl<2>::godunov_unsplit_impl` (`src/muscl/SolverHydroMuscl.cpp:266-321`) and
`SolverHydroMuscl<3>::godunov_unsplit_impl` (`:339-401`) after the ghost cells have been filled. -/
def afterFill (d3 : Bool) (S : Settings α) (P : Grid) (J : Junk α) (impl : Int)
    (grav : Bool) (dt : α) (Uin Uout : Nat) : List (Launch Addr α) :=
  [deepCopy d3 P Uout Uin, convertToPrimitives d3 S P Uin aQ] ++
  (if impl = 0 then
    [computeAndStoreFluxes d3 S P J grav dt aQ (aF impl), update d3 P Uout (aF impl)] ++
    (if grav then [gravitySourceTerm d3 S P dt Uin Uout] else [])
  else if impl = 1 then
    [computeSlopes d3 S P J aQ,
     computeTraceAndFluxes d3 S P J grav dt aQ (aF impl .x) .x, updateDir d3 P Uout (aF impl .x) .x,
     computeTraceAndFluxes d3 S P J grav dt aQ (aF impl .y) .y, updateDir d3 P Uout (aF impl .y) .y]
    ++ (if d3 then
      [computeTraceAndFluxes d3 S P J grav dt aQ (aF impl .z) .z,
       updateDir d3 P Uout (aF impl .z) .z] else []) ++
    (if grav then [gravitySourceTerm d3 S P dt Uin Uout] else [])
  else [])

/-- `SolverHydroMuscl<2>::godunov_unsplit_impl` (`src/muscl/SolverHydroMuscl.cpp:257-323`) and
`SolverHydroMuscl<3>::godunov_unsplit_impl` (`:330-403`): the loops launched by one step, without MPI. -/
def godunov_unsplit_impl (d3 : Bool) (S : Settings α) (P : Grid) (J : Junk α) (impl : Int)
    (grav : Bool) (dt : α) (Uin Uout : Nat) : List (Launch Addr α) :=
  hydroBoundaries d3 P Uin ++ afterFill d3 S P J impl grav dt Uin Uout

/-- `SolverHydroMuscl<dim>::godunov_unsplit` (`src/muscl/SolverHydroMuscl.h:747-760`): the buffers
swap roles at every iteration. -/
def godunov_unsplit (d3 : Bool) (S : Settings α) (P : Grid) (J : Junk α) (impl : Int)
    (grav : Bool) (dt : α) (iteration : Nat) : List (Launch Addr α) :=
  if iteration % 2 = 0 then godunov_unsplit_impl d3 S P J impl grav dt aU aU2
  else godunov_unsplit_impl d3 S P J impl grav dt aU2 aU

end Verif
