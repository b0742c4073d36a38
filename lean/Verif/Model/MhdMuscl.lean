import Verif.Model.HydroMuscl
import Verif.Model.RiemannMhd

/-!
# MUSCL-Hancock scheme with constrained transport for ideal MHD

`src/muscl/MHDBaseFunctor2D.h`, `MHDBaseFunctor3D.h`, `MHDRunFunctors2D.h`, `MHDRunFunctors3D.h`,
`SolverMHDMuscl.cpp`, `SolverMHDMuscl.h`, implementation versions 0, 1 and 2.

2D and 3D are modelled together with a flag `d3` where the code is parallel (every difference is an
explicit `if d3`); the two predictor (`trace`) functions are separate definitions.  A 2D cell has
`k = 0`.

Simplifications
* Loads of one work item may be reordered among themselves.  All of them are from arrays the loop
  does not write.
* Values of variables the code leaves unassigned are arbitrary values given by a parameter `MJunk`.
* `Kokkos::atomic_sub(p, x)` is the atomic addition of `-x`.
* Unused functors (`ComputeTraceAndFluxes_Functor2D_MHD`) are not modelled.
-/

namespace Verif

open ROps

variable {α : Type} [ROps α]

/-! ### Cell-local formulas -/

/-- `constoprim_mhd` (`src/muscl/MHDBaseFunctor2D.h:194-242`,
`src/muscl/MHDBaseFunctor3D.h:192-242`): primitive state and sound speed.  `na`, `nb`, `nc`:
`magFieldNeighbors[IX..IZ]`, the normal field at the opposite faces. -/
def constoprim_mhd (S : MSettings α) (u : MState α) (na nb nc : α) : MState α × α :=
  let d := fmax u.d S.smallr
  let ux := u.u / d
  let uy := u.v / d
  let uz := u.w / d
  let a := lit (1/2) * (u.a + na)
  let b := lit (1/2) * (u.b + nb)
  let c := lit (1/2) * (u.c + nc)
  let eken := lit (1/2) * (ux * ux + uy * uy + uz * uz)
  let emag := lit (1/2) * (a * a + b * b + c * c)
  if gtb S.cIso (lit 0) then
    (⟨d, d * S.cIso * S.cIso, ux, uy, uz, a, b, c⟩, S.cIso)
  else
    let eint := (u.p - emag) / d - eken
    let p := fmax ((S.gamma0 - lit 1) * d * eint) (d * S.smallp)
    (⟨d, p, ux, uy, uz, a, b, c⟩, sqrt (S.gamma0 * p / d))

/-- The zero state. -/
def MState.zero : MState α := ⟨lit 0, lit 0, lit 0, lit 0, lit 0, lit 0, lit 0, lit 0⟩

/-- Limited slopes of all eight variables in one direction. -/
def mslope (S : MSettings α) (q qPlus qMinus : MState α) : MState α where
  d := slopeScalar S.toSettings q.d qPlus.d qMinus.d
  p := slopeScalar S.toSettings q.p qPlus.p qMinus.p
  u := slopeScalar S.toSettings q.u qPlus.u qMinus.u
  v := slopeScalar S.toSettings q.v qPlus.v qMinus.v
  w := slopeScalar S.toSettings q.w qPlus.w qMinus.w
  a := slopeScalar S.toSettings q.a qPlus.a qMinus.a
  b := slopeScalar S.toSettings q.b qPlus.b qMinus.b
  c := slopeScalar S.toSettings q.c qPlus.c qMinus.c

/-- `slope_unsplit_hydro_2d` (`src/muscl/MHDBaseFunctor2D.h:346-393`; the scalar limiter `:260-299`
is that of the hydro code).  `none`: no assignment takes place. -/
def slope_unsplit_hydro_2d (S : MSettings α) (q : MState α) (qPlus qMinus : Dir → MState α) :
    Option (Dir → MState α) :=
  if eqb S.slope_type (lit 1) || eqb S.slope_type (lit 2) then
    some fun d => mslope S q (qPlus d) (qMinus d)
  else none

/-- `slope_unsplit_hydro_3d` (`src/muscl/MHDBaseFunctor3D.h:362-495`, limiter `:262-312`).  The
`z` slope of `IC` is computed with the lower neighbour in `y` (`:454`). -/
def slope_unsplit_hydro_3d (S : MSettings α) (q : MState α) (qPlus qMinus : Dir → MState α) :
    Dir → MState α := fun d =>
  if eqb S.slope_type (lit 1) || eqb S.slope_type (lit 2) then
    if d = .z then
      { mslope S q (qPlus .z) (qMinus .z) with
        c := slopeScalar S.toSettings q.c (qPlus .z).c (qMinus .y).c }
    else mslope S q (qPlus d) (qMinus d)
  else MState.zero

/-- One face slope of `slope_unsplit_mhd_3d` (`src/muscl/MHDBaseFunctor3D.h:561-668`), where the
limiter parameter is `fmin(slope_type, 2.0)` (`:601`). -/
def faceSlope3 (S : MSettings α) (b bPlus bMinus : α) : α :=
  slopeScalar { S.toSettings with slope_type := fmin S.slope_type (lit 2) } b bPlus bMinus

/-- One face slope of `slope_unsplit_mhd_2d` (`src/muscl/MHDBaseFunctor2D.h:460-519`). -/
def faceSlope2 (S : MSettings α) (b bPlus bMinus : α) : α := slopeScalar S.toSettings b bPlus bMinus

/-- Cell edges seen along the edge direction: right/left in the first, top/bottom in the second
transverse direction (`EdgeIndex`, `src/shared/enums.h`). -/
inductive Corner | RT | RB | LT | LB
  deriving DecidableEq

/-- Input of the reconstruction: cell state and face fields advanced by half a time step, and half
slopes.  `face d up`: normal field on the lower/upper face in direction `d` (`AL`, `AR`, `BL`, …);
`dface d t up`: its half slope in the transverse direction `t` (`dALy`, `dARy`, …). -/
structure Predicted (α : Type) where
  q : MState α
  dq : Dir → MState α
  face : Dir → Bool → α
  dface : Dir → Dir → Bool → α

/-- Set one component of the magnetic field. -/
def MState.setB (d : Dir) (x : α) (q : MState α) : MState α :=
  match d with
  | .x => { q with a := x }
  | .y => { q with b := x }
  | .z => { q with c := x }

/-- Apply an operation to all components. -/
def MState.map2 (f : α → α → α) (q r : MState α) : MState α :=
  ⟨f q.d r.d, f q.p r.p, f q.u r.u, f q.v r.v, f q.w r.w, f q.a r.a, f q.b r.b, f q.c r.c⟩

/-- `rho = fmax(smallR, rho); p = fmax(smallp * rho, p)` in 2D
(e.g. `src/muscl/MHDBaseFunctor2D.h:1027-1028`), `p = fmax(smallp, p)` in 3D
(e.g. `src/muscl/MHDBaseFunctor3D.h:909-910`). -/
def mfloor (d3 : Bool) (S : MSettings α) (q : MState α) : MState α :=
  let d := fmax S.smallr q.d
  { q with
    d := d
    p := if d3 then fmax S.smallp q.p else fmax (S.smallp * d) q.p }

/-- `qp[d]` (`up = false`) and `qm[d]` (`up = true`): `src/muscl/MHDBaseFunctor2D.h:1018-1064`,
`src/muscl/MHDBaseFunctor3D.h:898-968`. -/
def faceState (d3 : Bool) (S : MSettings α) (T : Predicted α) (d : Dir) (up : Bool) : MState α :=
  mfloor d3 S ((T.q.map2 (fun x y => if up then x + y else x - y) (T.dq d)).setB d (T.face d up))

/-- The two transverse directions of an edge. -/
def EmfDir.first : EmfDir → Dir
  | .x => .y
  | .y => .x
  | .z => .x
/-- See `EmfDir.first`. -/
def EmfDir.second : EmfDir → Dir
  | .x => .z
  | .y => .z
  | .z => .y

/-- The combination of two slopes used at a corner, e.g. `r + (+drx - dry)` at `RB`. -/
def Corner.comb (x : α) (y : α) : Corner → α
  | .RT => x + y
  | .RB => x - y
  | .LT => -x + y
  | .LB => -x - y

/-- Right (upper in the first direction). -/
def Corner.right : Corner → Bool
  | .RT => true
  | .RB => true
  | .LT => false
  | .LB => false
/-- Top (upper in the second direction). -/
def Corner.top : Corner → Bool
  | .RT => true
  | .RB => false
  | .LT => true
  | .LB => false

/-- `x + y` or `x - y`. -/
def plusIf (b : Bool) (x y : α) : α := if b then x + y else x - y

/-- Edge averaged states: `src/muscl/MHDBaseFunctor2D.h:1066-1106` (`z` edges);
`src/muscl/MHDBaseFunctor3D.h:970-1016` (`x`), `:1018-1064` (`y`), `:1066-1112` (`z`). -/
def edgeState (d3 : Bool) (S : MSettings α) (T : Predicted α) (e : EmfDir) (k : Corner) :
    MState α :=
  let f := e.first
  let s := e.second
  mfloor d3 S (((T.q.map2 (fun x y => x + y) ((T.dq f).map2 (fun x y => k.comb x y) (T.dq s))).setB f
    (plusIf k.top (T.face f k.right) (T.dface f s k.right))).setB s
    (plusIf k.right (T.face s k.top) (T.dface s f k.top)))

/-- `BField` (`src/shared/HydroState.h`). -/
structure BVec (α : Type) where
  x : α
  y : α
  z : α

/-- The predictor of `trace_unsplit_mhd_2d` (`src/muscl/MHDBaseFunctor2D.h:774-1016`).
`qNb di dj` is `qNb[di+1][dj+1]`, `bf di dj` is `bfNb[di+1][dj+1]`. -/
def predict2 (S : MSettings α) (junk : Dir → MState α) (qNb : Int → Int → MState α)
    (bf : Int → Int → BVec α) (dtdx dtdy : α) : Predicted α :=
  let q := qNb 0 0
  let Ez := fun (di dj : Int) =>
    let u := lit (1/4) * ((qNb (di-1) (dj-1)).u + (qNb (di-1) dj).u + (qNb di (dj-1)).u + (qNb di dj).u)
    let v := lit (1/4) * ((qNb (di-1) (dj-1)).v + (qNb (di-1) dj).v + (qNb di (dj-1)).v + (qNb di dj).v)
    let A := lit (1/2) * ((bf di (dj-1)).x + (bf di dj).x)
    let B := lit (1/2) * ((bf (di-1) dj).y + (bf di dj).y)
    u * B - v * A
  let ELL := Ez 0 0
  let ELR := Ez 0 1
  let ERL := Ez 1 0
  let ERR := Ez 1 1
  let r := q.d
  let p := q.p
  let u := q.u
  let v := q.v
  let w := q.w
  let A := q.a
  let B := q.b
  let C := q.c
  let AL := (bf 0 0).x
  let AR := (bf 1 0).x
  let BL := (bf 0 0).y
  let BR := (bf 0 1).y
  let dq := (slope_unsplit_hydro_2d S q (Dir.pick (qNb 1 0) (qNb 0 1) MState.zero)
    (Dir.pick (qNb (-1) 0) (qNb 0 (-1)) MState.zero)).getD junk
  let h := fun d => (dq d).map2 (fun x _ => x * lit (1/2)) (dq d)
  let drx := (h .x).d
  let dpx := (h .x).p
  let dux := (h .x).u
  let dvx := (h .x).v
  let dwx := (h .x).w
  let dCx := (h .x).c
  let dBx := (h .x).b
  let dry := (h .y).d
  let dpy := (h .y).p
  let duy := (h .y).u
  let dvy := (h .y).v
  let dwy := (h .y).w
  let dCy := (h .y).c
  let dAy := (h .y).a
  let dALy := lit (1/2) * faceSlope2 S (bf 0 0).x (bf 0 1).x (bf 0 (-1)).x
  let dBLx := lit (1/2) * faceSlope2 S (bf 0 0).y (bf 1 0).y (bf (-1) 0).y
  let dARy := lit (1/2) * faceSlope2 S (bf 1 0).x (bf 1 1).x (bf 1 (-1)).x
  let dBRx := lit (1/2) * faceSlope2 S (bf 0 1).y (bf 1 1).y (bf (-1) 1).y
  let dAx := lit (1/2) * (AR - AL)
  let dBy := lit (1/2) * (BR - BL)
  let gamma := S.gamma0
  let sr0 := (-u * drx - dux * r) * dtdx + (-v * dry - dvy * r) * dtdy
  let su0 := (-u * dux - dpx / r - B * dBx / r - C * dCx / r) * dtdx + (-v * duy + B * dAy / r) * dtdy
  let sv0 := (-u * dvx + A * dBx / r) * dtdx + (-v * dvy - dpy / r - A * dAy / r - C * dCy / r) * dtdy
  let sw0 := (-u * dwx + A * dCx / r) * dtdx + (-v * dwy + B * dCy / r) * dtdy
  let sp0 := (-u * dpx - dux * gamma * p) * dtdx + (-v * dpy - dvy * gamma * p) * dtdy
  let sA0 := (u * dBy + B * duy - v * dAy - A * dvy) * dtdy
  let sB0 := (-u * dBx - B * dux + v * dAx + A * dvx) * dtdx
  let sC0 := (w * dAx + A * dwx - u * dCx - C * dux) * dtdx +
    (-v * dCy - C * dvy + w * dBy + B * dwy) * dtdy
  let sAL0 := (ELR - ELL) * lit (1/2) * dtdy
  let sAR0 := (ERR - ERL) * lit (1/2) * dtdy
  let sBL0 := -(ERL - ELL) * lit (1/2) * dtdx
  let sBR0 := -(ERR - ELR) * lit (1/2) * dtdx
  { q := ⟨r + sr0, p + sp0, u + su0, v + sv0, w + sw0, A + sA0, B + sB0, C + sC0⟩
    dq := h
    face := fun d up =>
      match d, up with
      | .x, false => AL + sAL0
      | .x, true => AR + sAR0
      | .y, false => BL + sBL0
      | .y, true => BR + sBR0
      | .z, _ => lit 0
    dface := fun d t up =>
      match d, t, up with
      | .x, .y, false => dALy
      | .x, .y, true => dARy
      | .y, .x, false => dBLx
      | .y, .x, true => dBRx
      | _, _, _ => lit 0 }

/-- The predictor of `trace_unsplit_mhd_3d_simpler` (`src/muscl/MHDBaseFunctor3D.h:688-896`).
`bf d up`: `bfNb`; `dbf d t up`: slope along `t` of the field on the lower/upper `d` face; `Ex`,
`Ey`, `Ez`: electric field at the four edges of the cell in each direction. -/
def predict3 (S : MSettings α) (q : MState α) (dq : Dir → MState α) (bf : Dir → Bool → α)
    (dbf : Dir → Dir → Bool → α) (Ex Ey Ez : Bool → Bool → α) (dtdx dtdy dtdz xPos : α) :
    Predicted α :=
  let ELL := Ex false false
  let ELR := Ex false true
  let ERL := Ex true false
  let ERR := Ex true true
  let FLL := Ey false false
  let FLR := Ey false true
  let FRL := Ey true false
  let FRR := Ey true true
  let GLL := Ez false false
  let GLR := Ez false true
  let GRL := Ez true false
  let GRR := Ez true true
  let r := q.d
  let p := q.p
  let u := q.u
  let v := q.v
  let w := q.w
  let A := q.a
  let B := q.b
  let C := q.c
  let AL := bf .x false
  let AR := bf .x true
  let BL := bf .y false
  let BR := bf .y true
  let CL := bf .z false
  let CR := bf .z true
  let h := fun d => (dq d).map2 (fun x _ => x * lit (1/2)) (dq d)
  let drx := (h .x).d
  let dpx := (h .x).p
  let dux := (h .x).u
  let dvx := (h .x).v
  let dwx := (h .x).w
  let dCx := (h .x).c
  let dBx := (h .x).b
  let dry := (h .y).d
  let dpy := (h .y).p
  let duy := (h .y).u
  let dvy := (h .y).v
  let dwy := (h .y).w
  let dCy := (h .y).c
  let dAy := (h .y).a
  let drz := (h .z).d
  let dpz := (h .z).p
  let duz := (h .z).u
  let dvz := (h .z).v
  let dwz := (h .z).w
  let dAz := (h .z).a
  let dBz := (h .z).b
  let dAx := lit (1/2) * (AR - AL)
  let dBy := lit (1/2) * (BR - BL)
  let dCz := lit (1/2) * (CR - CL)
  let gamma := S.gamma0
  let sr0 := (-u * drx - dux * r) * dtdx + (-v * dry - dvy * r) * dtdy + (-w * drz - dwz * r) * dtdz
  let su0 := (-u * dux - (dpx + B * dBx + C * dCx) / r) * dtdx + (-v * duy + B * dAy / r) * dtdy +
    (-w * duz + C * dAz / r) * dtdz
  let sv0 := (-u * dvx + A * dBx / r) * dtdx + (-v * dvy - (dpy + A * dAy + C * dCy) / r) * dtdy +
    (-w * dvz + C * dBz / r) * dtdz
  let sw0 := (-u * dwx + A * dCx / r) * dtdx + (-v * dwy + B * dCy / r) * dtdy +
    (-w * dwz - (dpz + A * dAz + B * dBz) / r) * dtdz
  let sp0 := (-u * dpx - dux * gamma * p) * dtdx + (-v * dpy - dvy * gamma * p) * dtdy +
    (-w * dpz - dwz * gamma * p) * dtdz
  let sA0 := (u * dBy + B * duy - v * dAy - A * dvy) * dtdy +
    (u * dCz + C * duz - w * dAz - A * dwz) * dtdz
  let sB0 := (v * dAx + A * dvx - u * dBx - B * dux) * dtdx +
    (v * dCz + C * dvz - w * dBz - B * dwz) * dtdz
  let sC0 := (w * dAx + A * dwx - u * dCx - C * dux) * dtdx +
    (w * dBy + B * dwy - v * dCy - C * dvy) * dtdy
  let shear := -(lit (3/2)) * S.Omega0 * xPos
  let rot := gtb S.Omega0 (lit 0)
  let sr0 := if rot then sr0 - shear * dry * dtdy else sr0
  let su0 := if rot then su0 - shear * duy * dtdy else su0
  let sv0 := if rot then sv0 - shear * dvy * dtdy else sv0
  let sw0 := if rot then sw0 - shear * dwy * dtdy else sw0
  let sp0 := if rot then sp0 - shear * dpy * dtdy else sp0
  let sA0 := if rot then sA0 - shear * dAy * dtdy else sA0
  let sB0 := if rot then
      sB0 + (shear * dAx - lit (3/2) * S.Omega0 * A * S.dx) * dtdx + shear * dBz * dtdz
    else sB0
  let sC0 := if rot then sC0 - shear * dCy * dtdy else sC0
  let sAL0 := (GLR - GLL) * dtdy * lit (1/2) - (FLR - FLL) * dtdz * lit (1/2)
  let sAR0 := (GRR - GRL) * dtdy * lit (1/2) - (FRR - FRL) * dtdz * lit (1/2)
  let sBL0 := -(GRL - GLL) * dtdx * lit (1/2) + (ELR - ELL) * dtdz * lit (1/2)
  let sBR0 := -(GRR - GLR) * dtdx * lit (1/2) + (ERR - ERL) * dtdz * lit (1/2)
  let sCL0 := (FRL - FLL) * dtdx * lit (1/2) - (ERL - ELL) * dtdy * lit (1/2)
  let sCR0 := (FRR - FLR) * dtdx * lit (1/2) - (ERR - ELR) * dtdy * lit (1/2)
  { q := ⟨r + sr0, p + sp0, u + su0, v + sv0, w + sw0, A + sA0, B + sB0, C + sC0⟩
    dq := h
    face := fun d up =>
      match d, up with
      | .x, false => AL + sAL0
      | .x, true => AR + sAR0
      | .y, false => BL + sBL0
      | .y, true => BR + sBR0
      | .z, false => CL + sCL0
      | .z, true => CR + sCR0
    dface := fun d t up => lit (1/2) * dbf d t up }

/-- `swapValues` of the velocity and field components before (and after) a Riemann problem:
`src/muscl/MHDRunFunctors2D.h:444-448`, `src/muscl/MHDRunFunctors3D.h:1863-1868`, `:1882-1887`. -/
def MState.swap (d : Dir) (q : MState α) : MState α :=
  match d with
  | .x => q
  | .y => { q with u := q.v, v := q.u, a := q.b, b := q.a }
  | .z => { q with u := q.w, w := q.u, a := q.c, c := q.a }

/-! ### Memory layout -/

/-! Arrays of `SolverMHDMuscl` (`src/muscl/SolverMHDMuscl.h:80-130`, allocated in the constructor
`:256-385`); `U`, `U2`, `Q` are `aU`, `aU2`, `aQ`. -/

/-- `Qm_x, Qm_y, Qm_z`. -/
def mQm : Dir → Nat := Dir.pick 40 41 42
/-- `Qp_x, Qp_y, Qp_z`. -/
def mQp : Dir → Nat := Dir.pick 43 44 45
/-- Edge states.  In 3D `QEdge_RT, …` hold the `x` edges, `QEdge_RT2, …` the `y` edges and
`QEdge_RT3, …` the `z` edges; in 2D `QEdge_RT, …` hold the `z` edges. -/
def mEdge (e : EmfDir) (k : Corner) : Nat :=
  match e, k with
  | .x, .RT => 46
  | .x, .RB => 47
  | .x, .LT => 48
  | .x, .LB => 49
  | .y, .RT => 50
  | .y, .RB => 51
  | .y, .LT => 52
  | .y, .LB => 53
  | .z, .RT => 54
  | .z, .RB => 55
  | .z, .LT => 56
  | .z, .LB => 57
/-- `Fluxes_x, Fluxes_y, Fluxes_z`. -/
def mF : Dir → Nat := Dir.pick 58 59 60
/-- `Emf` (3D, three components) and `Emf1` (2D, one component). -/
def mEmf : Nat := 61
/-- `ElecField`, three components in 3D, one in 2D. -/
def mE : Nat := 62
/-- `DeltaA, DeltaB, DeltaC`: slopes of the face field normal to `d`. -/
def mDelta : Dir → Nat := Dir.pick 63 64 65
/-- `Q2`: primitive variables after half a time step. -/
def mQ2 : Nat := 71
/-- `sFaceMag`: change of the face field in half a time step, one component per direction. -/
def mFaceMag : Nat := 72
/-- `Slopes_x, Slopes_y, Slopes_z`. -/
def mSlopes : Dir → Nat := Dir.pick 73 74 75

/-- `I_EMFZ, I_EMFY, I_EMFX` (`src/shared/enums.h`). -/
def EmfDir.comp : EmfDir → Nat
  | .z => 0
  | .y => 1
  | .x => 2

/-- Component number of a direction (`IX, IY, IZ`). -/
def Dir.comp : Dir → Nat
  | .x => 0
  | .y => 1
  | .z => 2

/-- Position of the field component in a state (`IA, IB, IC`). -/
def Dir.bvar : Dir → Nat
  | .x => IA
  | .y => IB
  | .z => IC

/-- Directions of the grid. -/
def dirs (d3 : Bool) : List Dir := if d3 then [.x, .y, .z] else [.x, .y]
/-- Directions of the edges on which an electric field is computed. -/
def emfDirs (d3 : Bool) : List EmfDir := if d3 then [.z, .y, .x] else [.z]
/-- All corners in the order `RT, RB, LT, LB`. -/
def corners : List Corner := [.RT, .RB, .LT, .LB]

/-- Number of variables (`src/shared/HydroParams.cpp:56-66`). -/
def mhdVars : Nat := 8

/-- Arrays with `nbvar` variables that are allocated. -/
def mhdArray (d3 : Bool) (impl : Int) (A : Nat) : Prop :=
  A = aU ∨ A = aU2 ∨ A = aQ ∨
  ((impl = 0 ∨ impl = 1) ∧
    ((∃ d ∈ dirs d3, A = mQm d ∨ A = mQp d) ∨ (∃ e ∈ emfDirs d3, ∃ k, A = mEdge e k))) ∨
  (impl = 0 ∧ ∃ d ∈ dirs d3, A = mF d) ∨
  (impl = 2 ∧ (A = mQ2 ∨ ∃ d ∈ dirs d3, A = mSlopes d))

/-- Arrays with three components (one for `Emf1` and the `ElecField` of 2D, two for the `sFaceMag` of
2D). -/
def mhdVec (d3 : Bool) (impl : Int) (A v : Nat) : Prop :=
  (impl = 0 ∧ A = mEmf ∧ v < if d3 then 3 else 1) ∨
  (d3 = true ∧ (impl = 0 ∨ impl = 1) ∧ v < 3 ∧ (A = mE ∨ ∃ d, A = mDelta d)) ∨
  (impl = 2 ∧ A = mE ∧ v < if d3 then 3 else 1) ∨
  (impl = 2 ∧ A = mFaceMag ∧ v < if d3 then 3 else 2)

/-- All allocated entries. -/
def mhdDom (d3 : Bool) (P : Grid) (impl : Int) (a : Addr) : Prop :=
  P.box d3 a.cell ∧ ((mhdArray d3 impl a.arr ∧ a.v < P.nbvar) ∨ mhdVec d3 impl a.arr a.v)

/-- `get_state` (`src/muscl/MHDBaseFunctor2D.h:50-63`, `src/muscl/MHDBaseFunctor3D.h:50-62`). -/
def get_state (A : Nat) (c : Cell) : K Addr α (MState α) := do
  let d ← K.load (c.at A ID)
  let p ← K.load (c.at A IP)
  let u ← K.load (c.at A IU)
  let v ← K.load (c.at A IV)
  let w ← K.load (c.at A IW)
  let a ← K.load (c.at A IA)
  let b ← K.load (c.at A IB)
  let cc ← K.load (c.at A IC)
  pure ⟨d, p, u, v, w, a, b, cc⟩

/-- `set_state` (`src/muscl/MHDBaseFunctor2D.h:68-82`, `src/muscl/MHDBaseFunctor3D.h:68-81`). -/
def set_state (A : Nat) (c : Cell) (q : MState α) : K Addr α Unit := do
  K.store (c.at A ID) q.d
  K.store (c.at A IP) q.p
  K.store (c.at A IU) q.u
  K.store (c.at A IV) q.v
  K.store (c.at A IW) q.w
  K.store (c.at A IA) q.a
  K.store (c.at A IB) q.b
  K.store (c.at A IC) q.c

/-- `get_magField` (`src/muscl/MHDBaseFunctor2D.h:87-96`). -/
def get_magField (A : Nat) (c : Cell) : K Addr α (BVec α) := do
  let a ← K.load (c.at A IA)
  let b ← K.load (c.at A IB)
  let cc ← K.load (c.at A IC)
  pure ⟨a, b, cc⟩

/-- A loop filling an array indexed by `l`; entries not in `l` do not exist in the code. -/
def collect {ι X : Type} [DecidableEq ι] (dflt : X) (f : ι → K Addr α X) : List ι → K Addr α (ι → X)
  | [] => pure fun _ => dflt
  | i :: l => do
    let x ← f i
    let g ← collect dflt f l
    pure fun j => if j = i then x else g j

/-- A loop without result. -/
def each {ι : Type} (f : ι → K Addr α Unit) : List ι → K Addr α Unit
  | [] => pure ()
  | i :: l => do
    f i
    each f l

/-- The cell next to `c` in direction `d` (`up`), or `c` itself. -/
def Cell.upIf (d : Dir) (up : Bool) (c : Cell) : Cell := if up then c.up d else c

/-- The cell at an offset. -/
def Cell.shift (c : Cell) (di dj dk : Int) : Cell := ⟨c.i + di, c.j + dj, c.k + dk⟩

/-- Contents of uninitialised variables in work item `c`. -/
structure MJunk (α : Type) where
  slope : Cell → Dir → MState α
  flux : Cell → Dir → MState α

/-- The guard `0 <= i < isize - 1`, ... of the conversion to primitive variables. -/
def Grid.convertible (d3 : Bool) (P : Grid) (c : Cell) : Prop :=
  (d3 = true → 0 ≤ c.k ∧ c.k < P.ksize - 1) ∧
  0 ≤ c.j ∧ c.j < P.jsize - 1 ∧ 0 ≤ c.i ∧ c.i < P.isize - 1

/-- The guard `ghostWidth - 2 <= i < isize - ghostWidth + 1`, ... of the trace. -/
def Grid.traced (d3 : Bool) (P : Grid) (c : Cell) : Prop :=
  (d3 = true → c.k ≥ P.ghostWidth - 2 ∧ c.k < P.ksize - P.ghostWidth + 1) ∧
  c.j ≥ P.ghostWidth - 2 ∧ c.j < P.jsize - P.ghostWidth + 1 ∧
  c.i ≥ P.ghostWidth - 2 ∧ c.i < P.isize - P.ghostWidth + 1

/-- The guard `0 < i < isize - 1`, ... of the 3D electric field and field slopes. -/
def Grid.nonborder (P : Grid) (c : Cell) : Prop :=
  0 < c.k ∧ c.k < P.ksize - 1 ∧ 0 < c.j ∧ c.j < P.jsize - 1 ∧ 0 < c.i ∧ c.i < P.isize - 1

instance (d3 : Bool) (P : Grid) (c : Cell) : Decidable (P.convertible d3 c) := by
  unfold Grid.convertible; infer_instance
instance (d3 : Bool) (P : Grid) (c : Cell) : Decidable (P.traced d3 c) := by
  unfold Grid.traced; infer_instance
instance (P : Grid) (c : Cell) : Decidable (P.nonborder c) := by
  unfold Grid.nonborder; infer_instance

/-! ### Functors -/

/-- `ConvertToPrimitivesFunctor2D_MHD` (`src/muscl/MHDRunFunctors2D.h:85-158`),
`ConvertToPrimitivesFunctor3D_MHD` (`src/muscl/MHDRunFunctors3D.h:88-160`). In 2D the third
neighbour value is `0.0` (`src/muscl/MHDRunFunctors2D.h:135`). -/
def convertToPrimitivesMhdBody (d3 : Bool) (S : MSettings α) (P : Grid) (U Q : Nat) (c : Cell) :
    K Addr α Unit :=
  if P.convertible d3 c then do
    let u ← get_state U c
    let na ← K.load ((c.up .x).at U IA)
    let nb ← K.load ((c.up .y).at U IB)
    let nc ← (if d3 then K.load ((c.up .z).at U IC) else pure (lit 0) : K Addr α α)
    set_state Q c (constoprim_mhd S u na nb nc).1
  else pure ()

/-- Launch of `convertToPrimitivesMhdBody` over all cells. -/
def convertToPrimitivesMhd (d3 : Bool) (S : MSettings α) (P : Grid) (U Q : Nat) : Launch Addr α :=
  mdrange d3 P (convertToPrimitivesMhdBody d3 S P U Q)

/-- One component of the electric field as in `ComputeElecFieldFunctor3D`
(`src/muscl/MHDRunFunctors3D.h:313-352`): the velocity components `vf`, `vs` along `f`, `s` averaged
over the four cells around an edge (in the order given by `e1`, `e2`), the field components `bf`,
`bs` along `f`, `s` averaged over two faces. -/
def elecAlong (U Q : Nat) (c : Cell) (e1 e2 f s : Dir) (vf vs bf bs : Nat) : K Addr α α := do
  let f00 ← K.load (((c.down e1).down e2).at Q vf)
  let f01 ← K.load ((c.down e1).at Q vf)
  let f10 ← K.load ((c.down e2).at Q vf)
  let f11 ← K.load (c.at Q vf)
  let s00 ← K.load (((c.down e1).down e2).at Q vs)
  let s01 ← K.load ((c.down e1).at Q vs)
  let s10 ← K.load ((c.down e2).at Q vs)
  let s11 ← K.load (c.at Q vs)
  let b0 ← K.load ((c.down s).at U bf)
  let b1 ← K.load (c.at U bf)
  let d0 ← K.load ((c.down f).at U bs)
  let d1 ← K.load (c.at U bs)
  let vf := lit (1/4) * (f00 + f01 + f10 + f11)
  let vs := lit (1/4) * (s00 + s01 + s10 + s11)
  let B := lit (1/2) * (b0 + b1)
  let D := lit (1/2) * (d0 + d1)
  pure (vf * D - vs * B)

/-- `ComputeElecFieldFunctor3D` (`src/muscl/MHDRunFunctors3D.h:278-362`): `v*C - w*B`,
`w*A - u*C`, `u*B - v*A`. -/
def computeElecFieldBody (P : Grid) (U Q : Nat) (c : Cell) :
    K Addr α Unit :=
  if P.nonborder c then do
    let ex ← elecAlong U Q c .y .z .y .z IV IW IB IC
    K.store (c.at mE 0) ex
    let ey ← elecAlong U Q c .x .z .z .x IW IU IC IA
    K.store (c.at mE 1) ey
    let ez ← elecAlong U Q c .x .y .x .y IU IV IA IB
    K.store (c.at mE 2) ez
  else pure ()

/-- Launch of `computeElecFieldBody` over all cells. -/
def computeElecField (P : Grid) (U Q : Nat) : Launch Addr α :=
  mdrange true P (computeElecFieldBody P U Q)

/-- The slope along `t` of the field component `v` at the face of cell `c`. -/
def loadFaceSlope (S : MSettings α) (U : Nat) (c : Cell) (t : Dir) (v : Nat) : K Addr α α := do
  let b ← K.load (c.at U v)
  let b1 ← K.load ((c.up t).at U v)
  let b0 ← K.load ((c.down t).at U v)
  pure (faceSlope3 S b b1 b0)

/-- `ComputeMagSlopesFunctor3D` (`src/muscl/MHDRunFunctors3D.h:441-537`). -/
def computeMagSlopesBody (S : MSettings α) (P : Grid) (U : Nat) (c : Cell) :
    K Addr α Unit :=
  if P.nonborder c then do
    let ay ← loadFaceSlope S U c .y IA
    let az ← loadFaceSlope S U c .z IA
    let bx ← loadFaceSlope S U c .x IB
    let bz ← loadFaceSlope S U c .z IB
    let cx ← loadFaceSlope S U c .x IC
    let cy ← loadFaceSlope S U c .y IC
    K.store (c.at (mDelta .x) 0) (lit 0)
    K.store (c.at (mDelta .x) 1) ay
    K.store (c.at (mDelta .x) 2) az
    K.store (c.at (mDelta .y) 0) bx
    K.store (c.at (mDelta .y) 1) (lit 0)
    K.store (c.at (mDelta .y) 2) bz
    K.store (c.at (mDelta .z) 0) cx
    K.store (c.at (mDelta .z) 1) cy
    K.store (c.at (mDelta .z) 2) (lit 0)
  else pure ()

/-- Launch of `computeMagSlopesBody` over all cells. -/
def computeMagSlopes (S : MSettings α) (P : Grid) (U : Nat) : Launch Addr α :=
  mdrange true P (computeMagSlopesBody S P U)

/-- Store all face and edge states of one cell (end of the trace functors,
`src/muscl/MHDRunFunctors2D.h:891-901`, `src/muscl/MHDRunFunctors3D.h:818-840`). -/
def storeTrace (d3 : Bool) (S : MSettings α) (c : Cell) (T : Predicted α) : K Addr α Unit := do
  each (fun d => do
    set_state (mQm d) c (faceState d3 S T d true)
    set_state (mQp d) c (faceState d3 S T d false)) (dirs d3)
  each (fun e => each (fun k => set_state (mEdge e k) c (edgeState d3 S T e k)) corners) (emfDirs d3)

/-- Index pairs of a square neighbourhood, in the order of the double loop. -/
def square (lo : List Int) : List (Int × Int) := lo.flatMap fun di => lo.map fun dj => (di, dj)

/-- `ComputeTraceFunctor2D_MHD` (`src/muscl/MHDRunFunctors2D.h:782-910`). -/
def computeTrace2Body (S : MSettings α) (P : Grid) (J : MJunk α) (dt : α) (U Q : Nat) (c : Cell) :
    K Addr α Unit :=
  if P.traced false c then do
    let qNb ← collect MState.zero (fun x => get_state Q (c.shift x.1 x.2 0)) (square [-1, 0, 1])
    let bf ← collect ⟨lit 0, lit 0, lit 0⟩ (fun x => get_magField U (c.shift x.1 x.2 0))
      (square [-1, 0, 1, 2])
    storeTrace false S c (predict2 S (J.slope c) (fun i j => qNb (i, j)) (fun i j => bf (i, j))
      (dtOver S.toSettings dt .x) (dtOver S.toSettings dt .y))
  else pure ()

/-- Launch of `computeTrace2Body` over all cells. -/
def computeTrace2 (S : MSettings α) (P : Grid) (J : MJunk α) (dt : α) (U Q : Nat) : Launch Addr α :=
  mdrange false P (computeTrace2Body S P J dt U Q)

/-- Load the four edge values of the electric field component `v`
(`src/muscl/MHDRunFunctors3D.h:733-747`). -/
def loadElec (c : Cell) (v : Nat) (f s : Dir) : K Addr α (Bool → Bool → α) := do
  let ll ← K.load (c.at mE v)
  let lr ← K.load ((c.up s).at mE v)
  let rl ← K.load ((c.up f).at mE v)
  let rr ← K.load (((c.up f).up s).at mE v)
  pure fun x y => if x then (if y then rr else rl) else (if y then lr else ll)

/-- `ComputeTraceFunctor3D_MHD` (`src/muscl/MHDRunFunctors3D.h:543-857`); `xmin`: `params.xmin`. -/
def computeTrace3Body (S : MSettings α) (P : Grid) (xmin dt : α) (U Q : Nat) (c : Cell) :
    K Addr α Unit :=
  if P.traced true c then do
    let xPos := xmin + S.dx / lit 2 + lit ((c.i - P.ghostWidth : Int) : ℚ) * S.dx
    let q ← get_state Q c
    let x1 ← get_state Q (c.up .x)
    let x0 ← get_state Q (c.down .x)
    let y1 ← get_state Q (c.up .y)
    let y0 ← get_state Q (c.down .y)
    let z1 ← get_state Q (c.up .z)
    let z0 ← get_state Q (c.down .z)
    let al ← K.load (c.at U IA)
    let ar ← K.load ((c.up .x).at U IA)
    let bl ← K.load (c.at U IB)
    let br ← K.load ((c.up .y).at U IB)
    let cl ← K.load (c.at U IC)
    let cr ← K.load ((c.up .z).at U IC)
    let aly ← K.load (c.at (mDelta .x) 1)
    let alz ← K.load (c.at (mDelta .x) 2)
    let blx ← K.load (c.at (mDelta .y) 0)
    let blz ← K.load (c.at (mDelta .y) 2)
    let clx ← K.load (c.at (mDelta .z) 0)
    let cly ← K.load (c.at (mDelta .z) 1)
    let ary ← K.load ((c.up .x).at (mDelta .x) 1)
    let arz ← K.load ((c.up .x).at (mDelta .x) 2)
    let brx ← K.load ((c.up .y).at (mDelta .y) 0)
    let brz ← K.load ((c.up .y).at (mDelta .y) 2)
    let crx ← K.load ((c.up .z).at (mDelta .z) 0)
    let cry ← K.load ((c.up .z).at (mDelta .z) 1)
    let Ex ← loadElec c 0 .y .z
    let Ey ← loadElec c 1 .x .z
    let Ez ← loadElec c 2 .x .y
    let dq := slope_unsplit_hydro_3d S q (Dir.pick x1 y1 z1) (Dir.pick x0 y0 z0)
    let bf := fun (d : Dir) (up : Bool) =>
      match d, up with
      | .x, false => al
      | .x, true => ar
      | .y, false => bl
      | .y, true => br
      | .z, false => cl
      | .z, true => cr
    let dbf := fun (d t : Dir) (up : Bool) =>
      match d, t, up with
      | .x, .y, false => aly
      | .x, .z, false => alz
      | .y, .x, false => blx
      | .y, .z, false => blz
      | .z, .x, false => clx
      | .z, .y, false => cly
      | .x, .y, true => ary
      | .x, .z, true => arz
      | .y, .x, true => brx
      | .y, .z, true => brz
      | .z, .x, true => crx
      | .z, .y, true => cry
      | _, _, _ => lit 0
    storeTrace true S c (predict3 S q dq bf dbf Ex Ey Ez (dtOver S.toSettings dt .x)
      (dtOver S.toSettings dt .y) (dtOver S.toSettings dt .z) xPos)
  else pure ()

/-- Launch of `computeTrace3Body` over all cells. -/
def computeTrace3 (S : MSettings α) (P : Grid) (xmin dt : α) (U Q : Nat) : Launch Addr α :=
  mdrange true P (computeTrace3Body S P xmin dt U Q)

/-- Riemann problem at the lower face in direction `d` in rotated variables, e.g.
`src/muscl/MHDRunFunctors2D.h:425-455`.  `junk`: value of the unassigned `flux`. -/
def loadFlux (S : MSettings α) (J : MJunk α) (c : Cell) (d : Dir) : K Addr α (MState α) := do
  let qleft ← get_state (mQm d) (c.down d)
  let qright ← get_state (mQp d) c
  pure ((riemann_mhd S (qleft.swap d) (qright.swap d)).getD (J.flux c d))

/-- `ComputeFluxesAndStoreFunctor2D_MHD` (`src/muscl/MHDRunFunctors2D.h:375-468`),
`ComputeFluxesAndStoreFunctor3D_MHD` (`src/muscl/MHDRunFunctors3D.h:1783-1907`): the fluxes are
stored in rotated variables. -/
def computeFluxesAndStoreBody (d3 : Bool) (S : MSettings α) (P : Grid) (J : MJunk α) (c : Cell) :
    K Addr α Unit :=
  if P.faces d3 c then
    each (fun d => do
      let flux ← loadFlux S J c d
      set_state (mF d) c flux) (dirs d3)
  else pure ()

/-- Launch of `computeFluxesAndStoreBody` over all cells. -/
def computeFluxesAndStore (d3 : Bool) (S : MSettings α) (P : Grid) (J : MJunk α) : Launch Addr α :=
  mdrange d3 P (computeFluxesAndStoreBody d3 S P J)

/-- Electric field at the lower edge of cell `c` in direction `e`:
`src/muscl/MHDRunFunctors2D.h:660-676`, `src/muscl/MHDRunFunctors3D.h:2181-2228`. -/
def loadEmf (S : MSettings α) (c : Cell) (e : EmfDir) : K Addr α α :=
  match e with
  | .z => do
    let rt ← get_state (mEdge .z .RT) ((c.down .x).down .y)
    let rb ← get_state (mEdge .z .RB) (c.down .x)
    let lt ← get_state (mEdge .z .LT) (c.down .y)
    let lb ← get_state (mEdge .z .LB) c
    pure (compute_emf S .z rt rb lt lb)
  | .y => do
    let rt ← get_state (mEdge .y .RT) ((c.down .x).down .z)
    let rb ← get_state (mEdge .y .LT) (c.down .z)
    let lt ← get_state (mEdge .y .RB) (c.down .x)
    let lb ← get_state (mEdge .y .LB) c
    pure (compute_emf S .y rt rb lt lb)
  | .x => do
    let rt ← get_state (mEdge .x .RT) ((c.down .y).down .z)
    let rb ← get_state (mEdge .x .RB) (c.down .y)
    let lt ← get_state (mEdge .x .LT) (c.down .z)
    let lb ← get_state (mEdge .x .LB) c
    pure (compute_emf S .x rt rb lt lb)

/-- `ComputeEmfAndStoreFunctor2D` (`src/muscl/MHDRunFunctors2D.h:612-684`),
`ComputeEmfAndStoreFunctor3D` (`src/muscl/MHDRunFunctors3D.h:2100-2237`). -/
def computeEmfAndStoreBody (d3 : Bool) (S : MSettings α) (P : Grid) (c : Cell) :
    K Addr α Unit :=
  if P.faces d3 c then
    each (fun e => do
      let emf ← loadEmf S c e
      K.store (c.at mEmf e.comp) emf) (emfDirs d3)
  else pure ()

/-- Launch of `computeEmfAndStoreBody` over all cells. -/
def computeEmfAndStore (d3 : Bool) (S : MSettings α) (P : Grid) : Launch Addr α :=
  mdrange d3 P (computeEmfAndStoreBody d3 S P)

/-- `udata[v] += flux[v]*s` (or `-=`) for the variables that are updated by fluxes, with the flux
rotated back: all but the field in 3D, all but `IA`, `IB` in 2D. -/
def addFlux (d3 : Bool) (op : α → α → α) (s : α) (d : Dir) (u flux : MState α) : MState α :=
  let f := flux.swap d
  { u with
    d := op u.d (f.d * s)
    p := op u.p (f.p * s)
    u := op u.u (f.u * s)
    v := op u.v (f.v * s)
    w := op u.w (f.w * s)
    c := if d3 then u.c else op u.c (f.c * s) }

/-- Sequential update of a value by a list of directions. -/
def updateDirs (d3 : Bool) (S : MSettings α) (dt : α) (c : Cell) :
    List Dir → MState α → K Addr α (MState α)
  | [], u => pure u
  | d :: l, u => do
    let f0 ← get_state (mF d) c
    let u := addFlux d3 (fun x y => x + y) (dtOver S.toSettings dt d) d u f0
    let f1 ← get_state (mF d) (c.up d)
    let u := addFlux d3 (fun x y => x - y) (dtOver S.toSettings dt d) d u f1
    updateDirs d3 S dt c l u

/-- `UpdateFunctor2D_MHD` (`src/muscl/MHDRunFunctors2D.h:1539-1641`), `UpdateFunctor3D_MHD`
(`src/muscl/MHDRunFunctors3D.h:2430-2544`). -/
def updateMhdBody (d3 : Bool) (S : MSettings α) (P : Grid) (dt : α) (U : Nat) (c : Cell) :
    K Addr α Unit :=
  if P.inner d3 c then do
    let u ← get_state U c
    let u' ← updateDirs d3 S dt c (dirs d3) u
    set_state U c u'
  else pure ()

/-- Launch of `updateMhdBody` over all cells. -/
def updateMhd (d3 : Bool) (S : MSettings α) (P : Grid) (dt : α) (U : Nat) : Launch Addr α :=
  mdrange d3 P (updateMhdBody d3 S P dt U)

/-- `U(c, v) += (Emf(c', e) - Emf(c, e)) * s` (`op = +`) or `-=`. -/
def emfDiff (op : α → α → α) (U : Nat) (c : Cell) (v : Nat) (e : EmfDir) (d : Dir) (s : α) :
    K Addr α Unit := do
  let x ← K.load (c.at U v)
  let e1 ← K.load ((c.up d).at mEmf e.comp)
  let e0 ← K.load (c.at mEmf e.comp)
  K.store (c.at U v) (op x ((e1 - e0) * s))

/-- `UpdateEmfFunctor2D` (`src/muscl/MHDRunFunctors2D.h:1646-1702`), `UpdateEmfFunctor3D`
(`src/muscl/MHDRunFunctors3D.h:2549-2628`). -/
def updateEmfBody (d3 : Bool) (S : MSettings α) (P : Grid) (dt : α) (U : Nat) (c : Cell) :
    K Addr α Unit :=
  if P.inner d3 c then do
    let dtd := dtOver S.toSettings dt
    emfDiff (fun x y => x + y) U c IA .z .y (dtd .y)
    emfDiff (fun x y => x - y) U c IB .z .x (dtd .x)
    if d3 then do
      emfDiff (fun x y => x - y) U c IA .y .z (dtd .z)
      emfDiff (fun x y => x + y) U c IB .x .z (dtd .z)
      emfDiff (fun x y => x + y) U c IC .y .x (dtd .x)
      emfDiff (fun x y => x - y) U c IC .x .y (dtd .y)
    else pure ()
  else pure ()

/-- Launch of `updateEmfBody` over all cells. -/
def updateEmf (d3 : Bool) (S : MSettings α) (P : Grid) (dt : α) (U : Nat) : Launch Addr α :=
  mdrange d3 P (updateEmfBody d3 S P dt U)

/-- Below the upper end of the interior in every direction except `d`, and above its lower end in
direction `d`: the guard of the update of the lower neighbour (e.g.
`src/muscl/MHDRunFunctors3D.h:1993`, `:2035`). -/
def Grid.lowerOk (d3 : Bool) (P : Grid) (d : Dir) (c : Cell) : Prop :=
  (if d = .x then c.i > P.ghostWidth else c.i < P.isize - P.ghostWidth) ∧
  (if d = .y then c.j > P.ghostWidth else c.j < P.jsize - P.ghostWidth) ∧
  (d3 = true → if d = .z then c.k > P.ghostWidth else c.k < P.ksize - P.ghostWidth)

/-- Below the upper end of the interior in every direction. -/
def Grid.ownOk (d3 : Bool) (P : Grid) (c : Cell) : Prop :=
  c.i < P.isize - P.ghostWidth ∧ c.j < P.jsize - P.ghostWidth ∧
  (d3 = true → c.k < P.ksize - P.ghostWidth)

instance (d3 : Bool) (P : Grid) (d : Dir) (c : Cell) : Decidable (P.lowerOk d3 d c) := by
  unfold Grid.lowerOk; infer_instance
instance (d3 : Bool) (P : Grid) (c : Cell) : Decidable (P.ownOk d3 c) := by
  unfold Grid.ownOk; infer_instance

/-- `Kokkos::atomic_add(&Udata(..., v), sgn * flux[v] * s)` for the variables updated by fluxes. -/
def atomicFlux (d3 : Bool) (sgn : α → α) (s : α) (U : Nat) (c : Cell) (f : MState α) :
    K Addr α Unit := do
  K.atomicAdd (c.at U ID) (sgn (f.d * s))
  K.atomicAdd (c.at U IP) (sgn (f.p * s))
  K.atomicAdd (c.at U IU) (sgn (f.u * s))
  K.atomicAdd (c.at U IV) (sgn (f.v * s))
  K.atomicAdd (c.at U IW) (sgn (f.w * s))
  if d3 then pure () else K.atomicAdd (c.at U IC) (sgn (f.c * s))

/-- `ComputeFluxesAndUpdateFunctor2D_MHD` (`src/muscl/MHDRunFunctors2D.h:475-605`),
`ComputeFluxesAndUpdateFunctor3D_MHD` (`src/muscl/MHDRunFunctors3D.h:1914-2094`). -/
def computeFluxesAndUpdateBody (d3 : Bool) (S : MSettings α) (P : Grid) (J : MJunk α) (dt : α)
    (U : Nat) (c : Cell) :
    K Addr α Unit :=
  if P.faces d3 c then
    each (fun d => do
      let flux ← loadFlux S J c d
      let f := flux.swap d
      (if P.ownOk d3 c then
        atomicFlux d3 (fun x => x) (dtOver S.toSettings dt d) U c f
      else pure ())
      (if P.lowerOk d3 d c then
        atomicFlux d3 (fun x => -x) (dtOver S.toSettings dt d) U (c.down d) f
      else pure ())) (dirs d3)
  else pure ()

/-- Launch of `computeFluxesAndUpdateBody` over all cells. -/
def computeFluxesAndUpdate (d3 : Bool) (S : MSettings α) (P : Grid) (J : MJunk α) (dt : α)
    (U : Nat) : Launch Addr α :=
  mdrange d3 P (computeFluxesAndUpdateBody d3 S P J dt U)

/-- An atomic addition under a condition. -/
def atomicIf (b : Prop) [Decidable b] (a : Addr) (x : α) : K Addr α Unit :=
  if b then K.atomicAdd a x else pure ()

/-- `ComputeEmfAndUpdateFunctor2D` (`src/muscl/MHDRunFunctors2D.h:691-775`), whose updates are not
guarded (`:757-765`), and `ComputeEmfAndUpdateFunctor3D` (`src/muscl/MHDRunFunctors3D.h:2243-2424`).
-/
def computeEmfAndUpdateBody (d3 : Bool) (S : MSettings α) (P : Grid) (dt : α) (U : Nat) (c : Cell) :
    K Addr α Unit :=
  if P.faces d3 c then do
    let dtd := dtOver S.toSettings dt
    let own := d3 = true → P.ownOk d3 c
    let low := fun d => d3 = true → P.lowerOk d3 d c
    let ez ← loadEmf S c .z
    atomicIf own (c.at U IA) (-(ez * dtd .y))
    atomicIf own (c.at U IB) (ez * dtd .x)
    atomicIf (low .y) ((c.down .y).at U IA) (ez * dtd .y)
    atomicIf (low .x) ((c.down .x).at U IB) (-(ez * dtd .x))
    if d3 then do
      let ey ← loadEmf S c .y
      atomicIf own (c.at U IA) (ey * dtd .z)
      atomicIf own (c.at U IC) (-(ey * dtd .x))
      atomicIf (low .z) ((c.down .z).at U IA) (-(ey * dtd .z))
      atomicIf (low .x) ((c.down .x).at U IC) (ey * dtd .x)
      let ex ← loadEmf S c .x
      atomicIf own (c.at U IB) (-(ex * dtd .z))
      atomicIf own (c.at U IC) (ex * dtd .y)
      atomicIf (low .z) ((c.down .z).at U IB) (ex * dtd .z)
      atomicIf (low .y) ((c.down .y).at U IC) (-(ex * dtd .y))
    else pure ()
  else pure ()

/-- Launch of `computeEmfAndUpdateBody` over all cells. -/
def computeEmfAndUpdate (d3 : Bool) (S : MSettings α) (P : Grid) (dt : α) (U : Nat) : Launch Addr α :=
  mdrange d3 P (computeEmfAndUpdateBody d3 S P dt U)

/-! ### Implementation version 2

Arrays of this version: `Q2`, `sFaceMag`, `Slopes_x, Slopes_y, Slopes_z` and `ElecField`
(`src/muscl/SolverMHDMuscl.h:295-305`, `:363-374`). -/

/-- `1 <= i < isize - 1`, ...: the guard of the slopes and of the face sources. -/
def Grid.offBorder (d3 : Bool) (P : Grid) (c : Cell) : Prop :=
  (d3 = true → 0 < c.k ∧ c.k < P.ksize - 1) ∧
  0 < c.j ∧ c.j < P.jsize - 1 ∧ 0 < c.i ∧ c.i < P.isize - 1

instance (d3 : Bool) (P : Grid) (c : Cell) : Decidable (P.offBorder d3 c) := by
  unfold Grid.offBorder; infer_instance

/-- The limited slopes along one direction: the overload of `slope_unsplit_hydro_2d` with one
direction (`src/muscl/MHDBaseFunctor2D.h:405-433`), of `slope_unsplit_hydro_3d`
(`src/muscl/MHDBaseFunctor3D.h:510-537`).  Nothing is assigned for other slope types; `junk`: the
uninitialised `dq`. -/
def slopeAlong (S : MSettings α) (junk q qp qm : MState α) : MState α :=
  if eqb S.slope_type (lit 1) || eqb S.slope_type (lit 2) then mslope S q qp qm else junk

/-- `ComputeSlopesFunctor2D_MHD` (`src/muscl/MHDRunFunctors2D.h:164-248`),
`ComputeSlopesFunctor3D_MHD` (`src/muscl/MHDRunFunctors3D.h:168-273`).  The variable `dq` is the same
for all directions. -/
def computeSlopesMhdBody (d3 : Bool) (S : MSettings α) (P : Grid) (J : MJunk α) (U Q : Nat) (c : Cell) :
    K Addr α Unit :=
  if P.offBorder d3 c then do
    let qc ← get_state Q c
    each (fun d => do
      let qm ← get_state Q (c.down d)
      let qp ← get_state Q (c.up d)
      set_state (mSlopes d) c (slopeAlong S (J.slope c .x) qc qp qm)
      let u1 ← K.load ((c.up d).at U d.bvar)
      let u0 ← K.load (c.at U d.bvar)
      K.store (c.at (mSlopes d) d.bvar) (u1 - u0)) (dirs d3)
  else pure ()

/-- Launch of `computeSlopesMhdBody` over all cells. -/
def computeSlopesMhd (d3 : Bool) (S : MSettings α) (P : Grid) (J : MJunk α) (U Q : Nat) :
    Launch Addr α :=
  mdrange d3 P (computeSlopesMhdBody d3 S P J U Q)

/-- `ComputeElecFieldFunctor2D` (`src/muscl/MHDRunFunctors2D.h:253-313`). -/
def computeElecField2Body (P : Grid) (U Q : Nat) (c : Cell) : K Addr α Unit :=
  if 0 < c.j ∧ c.j < P.jsize ∧ 0 < c.i ∧ c.i < P.isize then do
    let ez ← elecAlong U Q c .x .y .x .y IU IV IA IB
    K.store (c.at mE 0) ez
  else pure ()

/-- Launch of `computeElecField2Body` over all cells. -/
def computeElecField2 (P : Grid) (U Q : Nat) : Launch Addr α :=
  mdrange false P (computeElecField2Body P U Q)

/-- Difference of the electric field component `v` in direction `d`. -/
def elecDiff (c : Cell) (v : Nat) (d : Dir) : K Addr α α := do
  let e1 ← K.load ((c.up d).at mE v)
  let e0 ← K.load (c.at mE v)
  pure (e1 - e0)

/-- `ComputeSourceFaceMagFunctor2D` (`src/muscl/MHDRunFunctors2D.h:319-370`),
`ComputeSourceFaceMagFunctor3D` (`src/muscl/MHDRunFunctors3D.h:367-435`). -/
def computeSourceFaceMagBody (d3 : Bool) (S : MSettings α) (P : Grid) (dt : α) (c : Cell) :
    K Addr α Unit :=
  let t := dtOver S.toSettings dt
  if P.offBorder d3 c then
    if d3 then do
      let zy ← elecDiff c 2 .y
      let yz ← elecDiff c 1 .z
      K.store (c.at mFaceMag 0) (zy * lit (1/2) * t .y - yz * lit (1/2) * t .z)
      let zx ← elecDiff c 2 .x
      let xz ← elecDiff c 0 .z
      K.store (c.at mFaceMag 1) (-zx * lit (1/2) * t .x + xz * lit (1/2) * t .z)
      let yx ← elecDiff c 1 .x
      let xy ← elecDiff c 0 .y
      K.store (c.at mFaceMag 2) (yx * lit (1/2) * t .x - xy * lit (1/2) * t .y)
    else do
      let zy ← elecDiff c 0 .y
      K.store (c.at mFaceMag 0) (zy * lit (1/2) * t .y)
      let zx ← elecDiff c 0 .x
      K.store (c.at mFaceMag 1) (-zx * lit (1/2) * t .x)
  else pure ()

/-- Launch of `computeSourceFaceMagBody` over all cells. -/
def computeSourceFaceMag (d3 : Bool) (S : MSettings α) (P : Grid) (dt : α) : Launch Addr α :=
  mdrange d3 P (computeSourceFaceMagBody d3 S P dt)

/-- Half time step of the primitive variables in 2D (`src/muscl/MHDRunFunctors2D.h:979-1039`).
`dAx`, `dBy`: differences of the face field (`compute_normal_mag_field_slopes`,
`src/muscl/MHDBaseFunctor2D.h:110-122`). -/
def updatedPrim2 (S : MSettings α) (q dqx dqy : MState α) (dAx dBy dtdx dtdy : α) : MState α :=
  let r := q.d
  let p := q.p
  let u := q.u
  let v := q.v
  let w := q.w
  let A := q.a
  let B := q.b
  let C := q.c
  let drx := dqx.d
  let dpx := dqx.p
  let dux := dqx.u
  let dvx := dqx.v
  let dwx := dqx.w
  let dBx := dqx.b
  let dCx := dqx.c
  let dry := dqy.d
  let dpy := dqy.p
  let duy := dqy.u
  let dvy := dqy.v
  let dwy := dqy.w
  let dAy := dqy.a
  let dCy := dqy.c
  let gamma := S.gamma0
  let sr0 := (-u * drx - dux * r) * dtdx + (-v * dry - dvy * r) * dtdy
  let su0 := (-u * dux - dpx / r - B * dBx / r - C * dCx / r) * dtdx + (-v * duy + B * dAy / r) * dtdy
  let sv0 := (-u * dvx + A * dBx / r) * dtdx + (-v * dvy - dpy / r - A * dAy / r - C * dCy / r) * dtdy
  let sw0 := (-u * dwx + A * dCx / r) * dtdx + (-v * dwy + B * dCy / r) * dtdy
  let sp0 := (-u * dpx - dux * gamma * p) * dtdx + (-v * dpy - dvy * gamma * p) * dtdy
  let sA0 := (u * dBy + B * duy - v * dAy - A * dvy) * dtdy
  let sB0 := (-u * dBx - B * dux + v * dAx + A * dvx) * dtdx
  let sC0 := (w * dAx + A * dwx - u * dCx - C * dux) * dtdx +
    (-v * dCy - C * dvy + w * dBy + B * dwy) * dtdy
  ⟨r + lit (1/2) * sr0, p + lit (1/2) * sp0, u + lit (1/2) * su0, v + lit (1/2) * sv0,
    w + lit (1/2) * sw0, A + lit (1/2) * sA0, B + lit (1/2) * sB0, C + lit (1/2) * sC0⟩

/-- Half time step of the primitive variables in 3D (`src/muscl/MHDRunFunctors3D.h:925-1013`);
`dAx`, `dBy`, `dCz` from `src/muscl/MHDBaseFunctor3D.h:109-121`. -/
def updatedPrim3 (S : MSettings α) (q dqx dqy dqz : MState α) (dAx dBy dCz dtdx dtdy dtdz : α) :
    MState α :=
  let r := q.d
  let p := q.p
  let u := q.u
  let v := q.v
  let w := q.w
  let A := q.a
  let B := q.b
  let C := q.c
  let drx := dqx.d
  let dpx := dqx.p
  let dux := dqx.u
  let dvx := dqx.v
  let dwx := dqx.w
  let dCx := dqx.c
  let dBx := dqx.b
  let dry := dqy.d
  let dpy := dqy.p
  let duy := dqy.u
  let dvy := dqy.v
  let dwy := dqy.w
  let dCy := dqy.c
  let dAy := dqy.a
  let drz := dqz.d
  let dpz := dqz.p
  let duz := dqz.u
  let dvz := dqz.v
  let dwz := dqz.w
  let dAz := dqz.a
  let dBz := dqz.b
  let gamma := S.gamma0
  let sr0 := (-u * drx - dux * r) * dtdx + (-v * dry - dvy * r) * dtdy + (-w * drz - dwz * r) * dtdz
  let su0 := (-u * dux - (dpx + B * dBx + C * dCx) / r) * dtdx + (-v * duy + B * dAy / r) * dtdy +
    (-w * duz + C * dAz / r) * dtdz
  let sv0 := (-u * dvx + A * dBx / r) * dtdx + (-v * dvy - (dpy + A * dAy + C * dCy) / r) * dtdy +
    (-w * dvz + C * dBz / r) * dtdz
  let sw0 := (-u * dwx + A * dCx / r) * dtdx + (-v * dwy + B * dCy / r) * dtdy +
    (-w * dwz - (dpz + A * dAz + B * dBz) / r) * dtdz
  let sp0 := (-u * dpx - dux * gamma * p) * dtdx + (-v * dpy - dvy * gamma * p) * dtdy +
    (-w * dpz - dwz * gamma * p) * dtdz
  let sA0 := (u * dBy + B * duy - v * dAy - A * dvy) * dtdy +
    (u * dCz + C * duz - w * dAz - A * dwz) * dtdz
  let sB0 := (v * dAx + A * dvx - u * dBx - B * dux) * dtdx +
    (v * dCz + C * dvz - w * dBz - B * dwz) * dtdz
  let sC0 := (w * dAx + A * dwx - u * dCx - C * dux) * dtdx +
    (w * dBy + B * dwy - v * dCy - C * dvy) * dtdy
  ⟨r + lit (1/2) * sr0, p + lit (1/2) * sp0, u + lit (1/2) * su0, v + lit (1/2) * sv0,
    w + lit (1/2) * sw0, A + lit (1/2) * sA0, B + lit (1/2) * sB0, C + lit (1/2) * sC0⟩

/-- `data(c + e_d, B_d) - data(c, B_d)`. -/
def loadNormalDiff (U : Nat) (c : Cell) (d : Dir) : K Addr α α := do
  let u1 ← K.load ((c.up d).at U d.bvar)
  let u0 ← K.load (c.at U d.bvar)
  pure (u1 - u0)

/-- `ComputeUpdatedPrimVarFunctor2D_MHD` (`src/muscl/MHDRunFunctors2D.h:920-1050`),
`ComputeUpdatedPrimVarFunctor3D_MHD` (`src/muscl/MHDRunFunctors3D.h:865-1022`). -/
def computeUpdatedPrimVarBody (d3 : Bool) (S : MSettings α) (P : Grid) (dt : α) (U Q : Nat) (c : Cell) :
    K Addr α Unit :=
  let t := dtOver S.toSettings dt
  if P.traced d3 c then do
    let q ← get_state Q c
    let dqx ← get_state (mSlopes .x) c
    let dqy ← get_state (mSlopes .y) c
    let dAx ← loadNormalDiff U c .x
    let dBy ← loadNormalDiff U c .y
    if d3 then do
      let dqz ← get_state (mSlopes .z) c
      let dCz ← loadNormalDiff U c .z
      set_state mQ2 c (updatedPrim3 S q dqx dqy dqz dAx dBy dCz (t .x) (t .y) (t .z))
    else set_state mQ2 c (updatedPrim2 S q dqx dqy dAx dBy (t .x) (t .y))
  else pure ()

/-- Launch of `computeUpdatedPrimVarBody` over all cells. -/
def computeUpdatedPrimVar (d3 : Bool) (S : MSettings α) (P : Grid) (dt : α) (U Q : Nat) :
    Launch Addr α :=
  mdrange d3 P (computeUpdatedPrimVarBody d3 S P dt U Q)

/-- State at the upper (`up`) or lower face in direction `d` from the state and slopes of a cell and
the normal field at the face.  The floors are those of the 2D code in 3D as well
(`src/muscl/MHDRunFunctors2D.h:1154-1173`, `:1197-1216`; `src/muscl/MHDRunFunctors3D.h:1143-1175`,
`:1202-1226`). -/
def faceState2 (S : MSettings α) (d : Dir) (up : Bool) (q dq : MState α) (bn : α) : MState α :=
  mfloor false S ((q.map2 (fun x y => plusIf up x (lit (1/2) * y)) dq).setB d bn)

/-- Left and right states and the Riemann problem at the lower face in direction `d`, in rotated
variables; both states have the normal field of the face. -/
def loadFlux2 (S : MSettings α) (J : MJunk α) (Uin : Nat) (c : Cell) (d : Dir) : K Addr α (MState α) := do
  let dq ← get_state (mSlopes d) c
  let q2 ← get_state mQ2 c
  let b ← K.load (c.at Uin d.bvar)
  let s ← K.load (c.at mFaceMag d.comp)
  let dqN ← get_state (mSlopes d) (c.down d)
  let q2N ← get_state mQ2 (c.down d)
  let qR := faceState2 S d false q2 dq (b + s)
  let qL := faceState2 S d true q2N dqN (b + s)
  pure ((riemann_mhd S (qL.swap d) (qR.swap d)).getD (J.flux c d))

/-- `ComputeFluxAndUpdateAlongDirFunctor2D_MHD<dir>` (`src/muscl/MHDRunFunctors2D.h:1062-1283`),
`ComputeFluxAndUpdateAlongDirFunctor3D_MHD<dir>` (`src/muscl/MHDRunFunctors3D.h:1033-1324`). -/
def computeFluxAlongDirBody (d3 : Bool) (S : MSettings α) (P : Grid) (J : MJunk α) (dt : α)
    (Uin Uout : Nat) (d : Dir) (c : Cell) : K Addr α Unit :=
  if P.faces d3 c then do
    let flux ← loadFlux2 S J Uin c d
    let f := flux.swap d
    (if P.ownOk d3 c then
      atomicFlux d3 (fun x => x) (dtOver S.toSettings dt d) Uout c f
    else pure ())
    (if P.lowerOk d3 d c then
      atomicFlux d3 (fun x => -x) (dtOver S.toSettings dt d) Uout (c.down d) f
    else pure ())
  else pure ()

/-- Launch of `computeFluxAlongDirBody` over all cells. -/
def computeFluxAlongDir (d3 : Bool) (S : MSettings α) (P : Grid) (J : MJunk α) (dt : α)
    (Uin Uout : Nat) (d : Dir) : Launch Addr α :=
  mdrange d3 P (computeFluxAlongDirBody d3 S P J dt Uin Uout d)

/-- `compute_limited_slope<dir>` of the face field component `v` (`src/muscl/MHDBaseFunctor2D.h:130-155`,
`src/muscl/MHDBaseFunctor3D.h:129-155`).  In 3D the lower value is taken at `k + delta_k`
(`src/muscl/MHDBaseFunctor3D.h:142`): along `z` it is the upper value. -/
def loadLimitedSlope (S : MSettings α) (U : Nat) (c : Cell) (t : Dir) (v : Nat) : K Addr α α := do
  let b ← K.load (c.at U v)
  let b1 ← K.load ((c.up t).at U v)
  let b0 ← K.load ((if t = .z then c.up .z else c.down t).at U v)
  pure (slopeScalar S.toSettings b b1 b0)

/-- `sign * x` with an integer sign. -/
def signed (up : Bool) (x : α) : α := (if up then lit 1 else lit (-1)) * x

/-- `reconstruct_state_at_edge` (`src/muscl/MHDRunFunctors2D.h:1345-1436`,
`src/muscl/MHDRunFunctors3D.h:1397-1517`) after all loads.  `f`, `s`: the transverse directions
(`dir0`, `dir1`); `B0`, `dB0`: advanced field normal to `f` and its slope along `s`; `B1`, `dB1`:
same with `f` and `s` exchanged.  The component `IB` is treated twice
(`src/muscl/MHDRunFunctors3D.h:1487-1503`). -/
def edgeState2 (S : MSettings α) (f s : Dir) (k : Corner) (q dq0 dq1 : MState α) (B0 dB0 B1 dB1 : α) :
    MState α :=
  let inc := fun x y z => x + lit (1/2) * (signed k.right y + signed k.top z)
  let b := if f = .y then B0 + lit (1/2) * signed k.top dB0 else inc q.b dq0.b dq1.b
  mfloor false S
    { d := inc q.d dq0.d dq1.d
      p := inc q.p dq0.p dq1.p
      u := inc q.u dq0.u dq1.u
      v := inc q.v dq0.v dq1.v
      w := inc q.w dq0.w dq1.w
      a := if f = .x then B0 + lit (1/2) * signed k.top dB0 else inc q.a dq0.a dq1.a
      b := if s = .y then B1 + lit (1/2) * signed k.right dB1 else inc b dq0.b dq1.b
      c := if s = .z then B1 + lit (1/2) * signed k.right dB1 else inc q.c dq0.c dq1.c }

/-- The state of cell `c` at its corner `k` around the edge `e`. -/
def loadEdge2 (S : MSettings α) (Uin : Nat) (e : EmfDir) (k : Corner) (c : Cell) : K Addr α (MState α) := do
  let f := e.first
  let s := e.second
  let c0 := c.upIf f k.right
  let c1 := c.upIf s k.top
  let q ← get_state mQ2 c
  let b0 ← K.load (c0.at Uin f.bvar)
  let s0 ← K.load (c0.at mFaceMag f.comp)
  let d0 ← loadLimitedSlope S Uin c0 s f.bvar
  let b1 ← K.load (c1.at Uin s.bvar)
  let s1 ← K.load (c1.at mFaceMag s.comp)
  let d1 ← loadLimitedSlope S Uin c1 f s.bvar
  let dq0 ← get_state (mSlopes f) c
  let dq1 ← get_state (mSlopes s) c
  pure (edgeState2 S f s k q dq0 dq1 (b0 + s0) d0 (b1 + s1) d1)

/-- Electric field at the lower edge of cell `c` in direction `e`: the states of the four cells
around the edge (`src/muscl/MHDRunFunctors2D.h:1476-1518`, `src/muscl/MHDRunFunctors3D.h:1570-1760`);
for `y` edges `RB` and `LT` are exchanged (`src/muscl/MHDRunFunctors3D.h:1684-1694`). -/
def loadEmf2 (S : MSettings α) (Uin : Nat) (c : Cell) (e : EmfDir) : K Addr α α := do
  let f := e.first
  let s := e.second
  let lb ← loadEdge2 S Uin e .LB c
  let rt ← loadEdge2 S Uin e .RT ((c.down f).down s)
  let rb ← loadEdge2 S Uin e .RB (c.down f)
  let lt ← loadEdge2 S Uin e .LT (c.down s)
  pure (if e = .y then compute_emf S e rt lt rb lb else compute_emf S e rt rb lt lb)

/-- `ReconstructEdgeComputeEmfAndUpdateFunctor2D` (`src/muscl/MHDRunFunctors2D.h:1291-1535`), whose
updates are not guarded (`:1521-1525`), and `ReconstructEdgeComputeEmfAndUpdateFunctor3D<dir>`
(`src/muscl/MHDRunFunctors3D.h:1332-1776`). -/
def reconstructEmfBody (d3 : Bool) (S : MSettings α) (P : Grid) (dt : α) (Uin Uout : Nat) (e : EmfDir)
    (c : Cell) : K Addr α Unit :=
  let t := dtOver S.toSettings dt
  let own := d3 = true → P.ownOk d3 c
  let low := fun d => d3 = true → P.lowerOk d3 d c
  if P.faces d3 c then do
    let x ← loadEmf2 S Uin c e
    match e with
    | .z => do
      atomicIf own (c.at Uout IA) (-(x * t .y))
      atomicIf own (c.at Uout IB) (x * t .x)
      atomicIf (low .y) ((c.down .y).at Uout IA) (x * t .y)
      atomicIf (low .x) ((c.down .x).at Uout IB) (-(x * t .x))
    | .y => do
      atomicIf own (c.at Uout IA) (x * t .z)
      atomicIf own (c.at Uout IC) (-(x * t .x))
      atomicIf (low .z) ((c.down .z).at Uout IA) (-(x * t .z))
      atomicIf (low .x) ((c.down .x).at Uout IC) (x * t .x)
    | .x => do
      atomicIf own (c.at Uout IB) (-(x * t .z))
      atomicIf own (c.at Uout IC) (x * t .y)
      atomicIf (low .z) ((c.down .z).at Uout IB) (x * t .z)
      atomicIf (low .y) ((c.down .y).at Uout IC) (-(x * t .y))
  else pure ()

/-- Launch of `reconstructEmfBody` over all cells. -/
def reconstructEmf (d3 : Bool) (S : MSettings α) (P : Grid) (dt : α) (Uin Uout : Nat) (e : EmfDir) :
    Launch Addr α :=
  mdrange d3 P (reconstructEmfBody d3 S P dt Uin Uout e)

/-- The loops of implementation version 2 (`src/muscl/SolverMHDMuscl.cpp:430-452`, `:535-568`). -/
def mhdAdvance2 (d3 : Bool) (S : MSettings α) (P : Grid) (J : MJunk α) (dt : α) (Uin Uout : Nat) :
    List (Launch Addr α) :=
  [computeSlopesMhd d3 S P J Uin aQ, computeUpdatedPrimVar d3 S P dt Uin aQ,
   if d3 then computeElecField P Uin aQ else computeElecField2 P Uin aQ,
   computeSourceFaceMag d3 S P dt] ++
  (dirs d3).map (computeFluxAlongDir d3 S P J dt Uin Uout) ++
  (if d3 then [EmfDir.x, .y, .z] else [.z]).map (reconstructEmf d3 S P dt Uin Uout)

/-- Ghost fill of `SolverMHDMuscl<dim>::make_boundaries` without MPI
(`src/muscl/SolverMHDMuscl.cpp:22-64`). -/
def mhdBoundaries (d3 : Bool) (P : Grid) (U : Nat) : List (Launch Addr α) :=
  if d3 then makeBoundariesSerial3D true P U else makeBoundariesSerial2D true P U

/-- First part of `godunov_unsplit_impl`, before `compute_dt()`
(`src/muscl/SolverMHDMuscl.cpp:378-391`, `:470-483`). -/
def mhdPrepare (d3 : Bool) (S : MSettings α) (P : Grid) (Uin Uout : Nat) : List (Launch Addr α) :=
  mhdBoundaries d3 P Uin ++
    [deepCopy d3 P Uout Uin, convertToPrimitivesMhd d3 S P Uin aQ]

/-- Predictor loops of implementation versions 0 and 1. -/
def mhdTrace (d3 : Bool) (S : MSettings α) (P : Grid) (J : MJunk α) (xmin dt : α) (Uin : Nat) :
    List (Launch Addr α) :=
  if d3 then [computeElecField P Uin aQ, computeMagSlopes S P Uin, computeTrace3 S P xmin dt Uin aQ]
  else [computeTrace2 S P J dt Uin aQ]

/-- Second part of `SolverMHDMuscl<2>::godunov_unsplit_impl`
(`src/muscl/SolverMHDMuscl.cpp:398-452`) and of `SolverMHDMuscl<3>::godunov_unsplit_impl`
(`:490-568`): the loops launched after `compute_dt()` has set `m_dt`. -/
def mhdAdvance (d3 : Bool) (S : MSettings α) (P : Grid) (J : MJunk α) (xmin : α) (impl : Int) (dt : α)
    (Uin Uout : Nat) : List (Launch Addr α) :=
  if impl = 0 then
    mhdTrace d3 S P J xmin dt Uin ++
    [computeFluxesAndStore d3 S P J, computeEmfAndStore d3 S P, updateMhd d3 S P dt Uout,
     updateEmf d3 S P dt Uout]
  else if impl = 1 then
    mhdTrace d3 S P J xmin dt Uin ++
    [computeFluxesAndUpdate d3 S P J dt Uout, computeEmfAndUpdate d3 S P dt Uout]
  else if impl = 2 then mhdAdvance2 d3 S P J dt Uin Uout
  else []

/-- `SolverMHDMuscl<dim>::godunov_unsplit_impl` with the time step `dt` obtained from
`compute_dt()`, which only reads arrays. -/
def mhd_unsplit_impl (d3 : Bool) (S : MSettings α) (P : Grid) (J : MJunk α) (xmin : α) (impl : Int)
    (dt : α) (Uin Uout : Nat) : List (Launch Addr α) :=
  mhdPrepare d3 S P Uin Uout ++ mhdAdvance d3 S P J xmin impl dt Uin Uout

/-- `SolverMHDMuscl<dim>::godunov_unsplit` (`src/muscl/SolverMHDMuscl.h:791-805`): the buffers swap
roles at every iteration. -/
def mhd_unsplit (d3 : Bool) (S : MSettings α) (P : Grid) (J : MJunk α) (xmin : α) (impl : Int)
    (dt : α) (iteration : Nat) : List (Launch Addr α) :=
  if iteration % 2 = 0 then mhd_unsplit_impl d3 S P J xmin impl dt aU aU2
  else mhd_unsplit_impl d3 S P J xmin impl dt aU2 aU

end Verif
