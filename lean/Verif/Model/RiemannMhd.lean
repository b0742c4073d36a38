import Verif.Model.Riemann

/-!
# MHD wave speeds, fluxes and Riemann solvers

`src/shared/mhd_utils.h`, `src/shared/RiemannSolvers_MHD.h`.

The C++ solvers take `qleft`, `qright` by reference and overwrite some of their components; all
callers pass local copies that are not used afterwards, so the model returns the flux only.
-/

namespace Verif

open ROps

/-- `MHDState` (`src/shared/HydroState.h:13-17`): eight components at the positions
`ID IP IU IV IW IA IB IC` (`IBX IBY IBZ` are other names of `IA IB IC`,
`src/shared/enums.h:17-34`); `p` is the energy in conservative states. -/
@[ext] structure MState (α : Type) where
  d : α
  p : α
  u : α
  v : α
  w : α
  a : α
  b : α
  c : α
  deriving DecidableEq

/-- Settings used by the MHD code only (`src/shared/HydroParams.h:41-42`).  Neither is ever read
from the parameter file: both keep the value `0` given by the constructor (`:58-59`). -/
structure MSettings (α : Type) extends Settings α where
  cIso : α
  Omega0 : α

variable {α : Type} [ROps α]

/-! ### `mhd_utils.h` -/

/-- `x > y ? x : y` -/
def pickMax (x y : α) : α := if gtb x y then x else y
/-- `x < y ? x : y` -/
def pickMin (x y : α) : α := if ltb x y then x else y

/-- `FMAX4` (`src/shared/mhd_utils.h:36-46`). -/
def FMAX4 (a0 a1 a2 a3 : α) : α := pickMax a3 (pickMax a2 (pickMax a1 a0))
/-- `FMIN4` (`src/shared/mhd_utils.h:51-61`). -/
def FMIN4 (a0 a1 a2 a3 : α) : α := pickMin a3 (pickMin a2 (pickMin a1 a0))
/-- `FMAX5` (`src/shared/mhd_utils.h:66-77`). -/
def FMAX5 (a0 a1 a2 a3 a4 : α) : α := pickMax a4 (FMAX4 a0 a1 a2 a3)

/-- The formula common to `find_speed_fast` (`src/shared/mhd_utils.h:94-117`) and
`find_speed_info` (`:336-364`, `:394-398`); `bn` is the normal component of the magnetic field. -/
def fastSpeed (S : MSettings α) (q : MState α) (bn : α) : α :=
  let b2 := q.a * q.a + q.b * q.b + q.c * q.c
  let c2 := S.gamma0 * q.p / q.d
  let d2 := lit (1/2) * (b2 / q.d + c2)
  sqrt (d2 + sqrt (d2 * d2 - c2 * bn * bn / q.d))

/-- `find_speed_fast<IX>` (`src/shared/mhd_utils.h:89-117`). -/
def find_speed_fast_x (S : MSettings α) (q : MState α) : α := fastSpeed S q q.a
/-- `find_speed_fast<IY>` (`src/shared/mhd_utils.h:89-117`). -/
def find_speed_fast_y (S : MSettings α) (q : MState α) : α := fastSpeed S q q.b
/-- `find_speed_fast<IZ>` (`src/shared/mhd_utils.h:89-117`). -/
def find_speed_fast_z (S : MSettings α) (q : MState α) : α := fastSpeed S q q.c

/-- `find_speed_alfven` (`src/shared/mhd_utils.h:128-155`, both overloads). -/
def find_speed_alfven (d a : α) : α := sqrt (a * a / d)

/-- `find_speed_info` for the `x` direction (`src/shared/mhd_utils.h:377-403`). -/
def find_speed_info (S : MSettings α) (q : MState α) : α := fastSpeed S q q.a + fabs q.u

/-- `find_speed_info<NDIM>` (`src/shared/mhd_utils.h:319-366`): speeds along `x`, `y`, `z`; the
last is computed in 3D only. -/
def find_speed_info_dirs (S : MSettings α) (q : MState α) : α × α × α :=
  (fastSpeed S q q.a + fabs q.u, fastSpeed S q q.b + fabs q.v, fastSpeed S q q.c + fabs q.w)

/-- One direction of `fast_mhd_speed` (`src/shared/mhd_utils.h:243-302`, not used by any solver):
`bn` normal, `bt1`, `bt2` transverse field; `som_vit` is the value of the `x` direction. -/
def fast_mhd_speed_dir (S : MSettings α) (q : MState α) (bn : α) : α :=
  let mag_perp := (q.b * q.b + q.c * q.c) / q.d
  let alfvx := q.a * q.a / q.d
  let vit_son := S.gamma0 * q.p / q.d
  let som_vit := mag_perp + alfvx + vit_son
  let som_vit2 := som_vit * som_vit
  let alfv := bn * bn / q.d
  let delta := fmax (lit 0) (som_vit2 - lit 4 * vit_son * alfv)
  sqrt (lit (1/2) * (som_vit + sqrt delta))

/-- Pressure as recomputed in the isothermal case (`src/shared/mhd_utils.h:181-192`,
`src/shared/RiemannSolvers_MHD.h:150-156`, `:678-692`). -/
def isoPressure (S : MSettings α) (d p : α) : α :=
  if gtb S.cIso (lit 0) then d * S.cIso * S.cIso else p

/-- `find_mhd_flux` (`src/shared/mhd_utils.h:173-231`): conservative variables and flux. -/
def find_mhd_flux (S : MSettings α) (q : MState α) : MState α × MState α :=
  let p := isoPressure S q.d q.p
  let entho := lit 1 / (S.gamma0 - lit 1)
  let d := q.d
  let u := q.u
  let v := q.v
  let w := q.w
  let a := q.a
  let b := q.b
  let c := q.c
  let ecin := lit (1/2) * (u * u + v * v + w * w) * d
  let emag := lit (1/2) * (a * a + b * b + c * c)
  let etot := p * entho + ecin + emag
  let ptot := p + emag
  ({ d := d, p := etot, u := d * u, v := d * v, w := d * w, a := a, b := b, c := c },
   { d := d * u
     p := (etot + ptot) * u - a * (a * u + b * v + c * w)
     u := d * u * u - a * a + ptot
     v := d * u * v - a * b
     w := d * u * w - a * c
     a := lit 0
     b := b * u - a * v
     c := c * u - a * w })

/-! ### `RiemannSolvers_MHD.h` -/

/-- Component by component. -/
def MState.map4 (f : α → α → α → α → α) (q r s t : MState α) : MState α where
  d := f q.d r.d s.d t.d
  p := f q.p r.p s.p t.p
  u := f q.u r.u s.u t.u
  v := f q.v r.v s.v t.v
  w := f q.w r.w s.w t.w
  a := f q.a r.a s.a t.a
  b := f q.b r.b s.b t.b
  c := f q.c r.c s.c t.c

/-- MHD `riemann_hll` (`src/shared/RiemannSolvers_MHD.h:27-67`). -/
def riemann_mhd_hll (S : MSettings α) (qleft qright : MState α) : MState α :=
  let bx_mean := lit (1/2) * (qleft.a + qright.a)
  let qleft := { qleft with a := bx_mean }
  let qright := { qright with a := bx_mean }
  let l := find_mhd_flux S qleft
  let r := find_mhd_flux S qright
  let cfleft := find_speed_fast_x S qleft
  let cfright := find_speed_fast_x S qright
  let vleft := qleft.u
  let vright := qright.u
  let sl := fmin (fmin vleft vright - fmax cfleft cfright) (lit 0)
  let sr := fmax (fmax vleft vright + fmax cfleft cfright) (lit 0)
  MState.map4 (fun fleft fright uleft uright =>
    (sr * fleft - sl * fright + sr * sl * (uright - uleft)) / (sr - sl)) l.2 r.2 l.1 r.1

/-- MHD `riemann_llf` (`src/shared/RiemannSolvers_MHD.h:81-111`). -/
def riemann_mhd_llf (S : MSettings α) (qleft qright : MState α) : MState α :=
  let bx_mean := lit (1/2) * (qleft.a + qright.a)
  let qleft := { qleft with a := bx_mean }
  let qright := { qright with a := bx_mean }
  let l := find_mhd_flux S qleft
  let r := find_mhd_flux S qright
  let cleft := find_speed_info S qleft
  let cright := find_speed_info S qright
  let vel_info := fmax cleft cright
  MState.map4 (fun fleft fright uleft uright =>
    (fleft + fright) / lit 2 - vel_info * (uright - uleft) / lit 2) l.2 r.2 l.1 r.1

/-- Values of one side (left or right) of the fan of `riemann_hlld`. -/
structure HlldSide (α : Type) where
  /-- outer state -/
  r : α
  u : α
  v : α
  w : α
  b : α
  c : α
  etot : α
  ptot : α
  vdotb : α

/-- `src/shared/RiemannSolvers_MHD.h:158-171` (left), `:173-186` (right); `p` is the pressure after
the isothermal branch `:149-156`. -/
def hlldOuter (S : MSettings α) (a p : α) (q : MState α) : HlldSide α :=
  let entho := lit 1 / (S.gamma0 - lit 1)
  let ecin := lit (1/2) * (q.u * q.u + q.v * q.v + q.w * q.w) * q.d
  let emag := lit (1/2) * (a * a + q.b * q.b + q.c * q.c)
  { r := q.d, u := q.u, v := q.v, w := q.w, b := q.b, c := q.c
    etot := p * entho + ecin + emag
    ptot := p + emag
    vdotb := q.u * a + q.v * q.b + q.w * q.c }

/-- Star region behind one outer wave of `riemann_hlld`. -/
structure HlldStar (α : Type) where
  r : α
  v : α
  w : α
  b : α
  c : α
  vdotb : α
  etot : α
  sqrr : α
  calfven : α

/-- `estar` (`src/shared/RiemannSolvers_MHD.h:208`, `:238`); `s` is the speed `sl` or `sr` of the
outer wave. -/
def hlldEstar (a s ustar : α) (o : HlldSide α) : α := o.r * (s - o.u) * (s - ustar) - a * a

/-- `src/shared/RiemannSolvers_MHD.h:204-232` (left), `:235-262` (right). -/
def hlldStar (a s ustar ptotstar : α) (o : HlldSide α) : HlldStar α :=
  let rstar := o.r * (s - o.u) / (s - ustar)
  let estar := hlldEstar a s ustar o
  let e := o.r * (s - o.u) * (s - o.u) - a * a
  let t :=
    if gtb (a * a) (lit 0) && leb (fabs (estar / (a * a) - lit 1)) (lit (1/100000000)) then
      (o.v, o.b, o.w, o.c)
    else
      (o.v - a * o.b * (ustar - o.u) / estar, o.b * e / estar,
       o.w - a * o.c * (ustar - o.u) / estar, o.c * e / estar)
  let vstar := t.1
  let bstar := t.2.1
  let wstar := t.2.2.1
  let cstar := t.2.2.2
  let vdotbstar := ustar * a + vstar * bstar + wstar * cstar
  let etotstar := ((s - o.u) * o.etot - o.ptot * o.u + ptotstar * ustar
    + a * (o.vdotb - vdotbstar)) / (s - ustar)
  let sqrr := sqrt rstar
  { r := rstar, v := vstar, w := wstar, b := bstar, c := cstar, vdotb := vdotbstar
    etot := etotstar, sqrr := sqrr, calfven := fabs a / sqrr }

/-- Outer wave speeds and star values of `riemann_hlld`
(`src/shared/RiemannSolvers_MHD.h:188-202`). -/
structure HlldWaves (α : Type) where
  sl : α
  sr : α
  ustar : α
  ptotstar : α

/-- `src/shared/RiemannSolvers_MHD.h:188-202`. -/
def hlldWaves (cfastl cfastr : α) (l r : HlldSide α) : HlldWaves α :=
  let sl := fmin l.u r.u - fmax cfastl cfastr
  let sr := fmax l.u r.u + fmax cfastl cfastr
  let rcl := l.r * (l.u - sl)
  let rcr := r.r * (sr - r.u)
  { sl := sl, sr := sr
    ustar := (rcr * r.u + rcl * l.u + (l.ptot - r.ptot)) / (rcr + rcl)
    ptotstar := (rcr * l.ptot + rcl * r.ptot + rcl * rcr * (l.u - r.u)) / (rcr + rcl) }

/-- Velocities and field between the two Alfven waves
(`src/shared/RiemannSolvers_MHD.h:265-276`). -/
structure HlldMid (α : Type) where
  v : α
  w : α
  b : α
  c : α
  vdotb : α

/-- `src/shared/RiemannSolvers_MHD.h:265-276`. -/
def hlldMid (a sgnm ustar : α) (l r : HlldStar α) : HlldMid α :=
  let v := (l.sqrr * l.v + r.sqrr * r.v + sgnm * (r.b - l.b)) / (l.sqrr + r.sqrr)
  let w := (l.sqrr * l.w + r.sqrr * r.w + sgnm * (r.c - l.c)) / (l.sqrr + r.sqrr)
  let b := (l.sqrr * r.b + r.sqrr * l.b + sgnm * l.sqrr * r.sqrr * (r.v - l.v)) / (l.sqrr + r.sqrr)
  let c := (l.sqrr * r.c + r.sqrr * l.c + sgnm * l.sqrr * r.sqrr * (r.w - l.w)) / (l.sqrr + r.sqrr)
  { v := v, w := w, b := b, c := c, vdotb := ustar * a + v * b + w * c }

/-- The flux of a sampled state (`src/shared/RiemannSolvers_MHD.h:355-365`). -/
def hlldFlux (a ro uo vo wo bo co ptoto etoto vdotbo : α) : MState α where
  d := ro * uo
  p := (etoto + ptoto) * uo - a * vdotbo
  u := ro * uo * uo - a * a + ptoto
  v := ro * uo * vo - a * bo
  w := ro * uo * wo - a * co
  a := lit 0
  b := bo * uo - a * vo
  c := co * uo - a * wo

/-- Sampling of the fan at `x/t = 0` (`src/shared/RiemannSolvers_MHD.h:277-353`). -/
def hlldSample (a sgnm : α) (W : HlldWaves α) (l r : HlldSide α) : MState α :=
  let L := hlldStar a W.sl W.ustar W.ptotstar l
  let R := hlldStar a W.sr W.ustar W.ptotstar r
  let M := hlldMid a sgnm W.ustar L R
  let sal := W.ustar - L.calfven
  let sar := W.ustar + R.calfven
  let etotstarstarl := L.etot - sgnm * L.sqrr * (L.vdotb - M.vdotb)
  let etotstarstarr := R.etot + sgnm * R.sqrr * (R.vdotb - M.vdotb)
  if gtb W.sl (lit 0) then hlldFlux a l.r l.u l.v l.w l.b l.c l.ptot l.etot l.vdotb
  else if gtb sal (lit 0) then
    hlldFlux a L.r W.ustar L.v L.w L.b L.c W.ptotstar L.etot L.vdotb
  else if gtb W.ustar (lit 0) then
    hlldFlux a L.r W.ustar M.v M.w M.b M.c W.ptotstar etotstarstarl M.vdotb
  else if gtb sar (lit 0) then
    hlldFlux a R.r W.ustar M.v M.w M.b M.c W.ptotstar etotstarstarr M.vdotb
  else if gtb W.sr (lit 0) then
    hlldFlux a R.r W.ustar R.v R.w R.b R.c W.ptotstar R.etot R.vdotb
  else hlldFlux a r.r r.u r.v r.w r.b r.c r.ptot r.etot r.vdotb

/-- `riemann_hlld` (`src/shared/RiemannSolvers_MHD.h:133-367`). -/
def riemann_mhd_hlld (S : MSettings α) (qleft qright : MState α) : MState α :=
  let a := lit (1/2) * (qleft.a + qright.a)
  let sgnm := if geb a (lit 0) then lit 1 else -(lit 1)
  let ql := { qleft with a := a, p := isoPressure S qleft.d qleft.p }
  let qr := { qright with a := a, p := isoPressure S qright.d qright.p }
  let l := hlldOuter S a ql.p ql
  let r := hlldOuter S a qr.p qr
  let W := hlldWaves (find_speed_fast_x S ql) (find_speed_fast_x S qr) l r
  hlldSample a sgnm W l r

/-- `riemann_mhd` (`src/shared/RiemannSolvers_MHD.h:372-392`).  `none`: no branch is taken, `flux`
stays unassigned. -/
def riemann_mhd (S : MSettings α) (qleft qright : MState α) : Option (MState α) :=
  match S.riemann with
  | .hlld => some (riemann_mhd_hlld S qleft qright)
  | .hll => some (riemann_mhd_hll S qleft qright)
  | .llf => some (riemann_mhd_llf S qleft qright)
  | _ => none

/-- `(int)(1 + COPYSIGN(ONE_F, s)) / 2` as a truth value (`src/shared/RiemannSolvers_MHD.h:569-572`):
`COPYSIGN(ONE_F, s)` is `1` or `-1`. -/
def signPos (s : α) : Bool := gtb (copysign (lit 1) s) (lit 0)

/-- A product of the integers `SB_pos`, `SB_neg`, ... (each `0` or `1`) converted to `real_t`. -/
def ind (b : Bool) : α := if b then lit 1 else lit 0

/-- Star values of one of the four states of `mag_riemann2d_hlld`
(`src/shared/RiemannSolvers_MHD.h:493-527`). `sx` is `SL` or `SR`, `sy` is `SB` or `ST`. -/
structure EmfStar (α : Type) where
  rx : α
  B : α
  ry : α
  A : α
  r : α
  Ex : α
  Ey : α
  E : α

/-- `src/shared/RiemannSolvers_MHD.h:493-500` (LL), `:502-509` (LR), `:511-518` (RL),
`:520-527` (RR). -/
def emfStar (q : MState α) (sx ustar sy vstar : α) : EmfStar α :=
  let B := q.b * (sx - q.u) / (sx - ustar)
  let A := q.a * (sy - q.v) / (sy - vstar)
  { rx := q.d * (sx - q.u) / (sx - ustar)
    B := B
    ry := q.d * (sy - q.v) / (sy - vstar)
    A := A
    r := q.d * (sx - q.u) / (sx - ustar) * (sy - q.v) / (sy - vstar)
    Ex := ustar * B - q.v * q.a
    Ey := q.u * q.b - vstar * A
    E := ustar * B - vstar * A }

/-- Wave speeds of `mag_riemann2d_hlld` (`src/shared/RiemannSolvers_MHD.h:447-491`). -/
structure EmfWaves (α : Type) where
  SL : α
  SR : α
  SB : α
  ST : α
  ustar : α
  vstar : α

/-- `src/shared/RiemannSolvers_MHD.h:447-491`. -/
def emfWaves (S : MSettings α) (qLL qRL qLR qRR : MState α) : EmfWaves α :=
  let cx := FMAX4 (find_speed_fast_x S qLL) (find_speed_fast_x S qLR) (find_speed_fast_x S qRL)
    (find_speed_fast_x S qRR)
  let cy := FMAX4 (find_speed_fast_y S qLL) (find_speed_fast_y S qLR) (find_speed_fast_y S qRL)
    (find_speed_fast_y S qRR)
  let SL := FMIN4 qLL.u qLR.u qRL.u qRR.u - cx
  let SR := FMAX4 qLL.u qLR.u qRL.u qRR.u + cx
  let SB := FMIN4 qLL.v qLR.v qRL.v qRR.v - cy
  let ST := FMAX4 qLL.v qLR.v qRL.v qRR.v + cy
  let ptot := fun (q : MState α) => q.p + lit (1/2) * (q.a * q.a + q.b * q.b + q.c * q.c)
  let PtotLL := ptot qLL
  let PtotLR := ptot qLR
  let PtotRL := ptot qRL
  let PtotRR := ptot qRR
  let rcLLx := qLL.d * (qLL.u - SL)
  let rcRLx := qRL.d * (SR - qRL.u)
  let rcLRx := qLR.d * (qLR.u - SL)
  let rcRRx := qRR.d * (SR - qRR.u)
  let rcLLy := qLL.d * (qLL.v - SB)
  let rcLRy := qLR.d * (ST - qLR.v)
  let rcRLy := qRL.d * (qRL.v - SB)
  let rcRRy := qRR.d * (ST - qRR.v)
  { SL := SL, SR := SR, SB := SB, ST := ST
    ustar := (rcLLx * qLL.u + rcLRx * qLR.u + rcRLx * qRL.u + rcRRx * qRR.u
      + (PtotLL - PtotRL + PtotLR - PtotRR)) / (rcLLx + rcLRx + rcRLx + rcRRx)
    vstar := (rcLLy * qLL.v + rcLRy * qLR.v + rcRLy * qRL.v + rcRRy * qRR.v
      + (PtotLL - PtotLR + PtotRL - PtotRR)) / (rcLLy + rcLRy + rcRLy + rcRRy) }

/-- `mag_riemann2d_hlld` (`src/shared/RiemannSolvers_MHD.h:398-630`); `ELL`, ... are the entries of
`eLLRR`. -/
def mag_riemann2d_hlld (S : MSettings α) (qLL qRL qLR qRR : MState α) (ELL ERL ELR ERR : α) : α :=
  let W := emfWaves S qLL qRL qLR qRR
  let LL := emfStar qLL W.SL W.ustar W.SB W.vstar
  let LR := emfStar qLR W.SL W.ustar W.ST W.vstar
  let RL := emfStar qRL W.SR W.ustar W.SB W.vstar
  let RR := emfStar qRR W.SR W.ustar W.ST W.vstar
  let calfvenL := FMAX5 (fabs qLR.a / sqrt LR.rx) (fabs LR.A / sqrt LR.r)
    (fabs qLL.a / sqrt LL.rx) (fabs LL.A / sqrt LL.r) S.smallc
  let calfvenR := FMAX5 (fabs qRR.a / sqrt RR.rx) (fabs RR.A / sqrt RR.r)
    (fabs qRL.a / sqrt RL.rx) (fabs RL.A / sqrt RL.r) S.smallc
  let calfvenB := FMAX5 (fabs qLL.b / sqrt LL.ry) (fabs LL.B / sqrt LL.r)
    (fabs qRL.b / sqrt RL.ry) (fabs RL.B / sqrt RL.r) S.smallc
  let calfvenT := FMAX5 (fabs qLR.b / sqrt LR.ry) (fabs LR.B / sqrt LR.r)
    (fabs qRR.b / sqrt RR.ry) (fabs RR.B / sqrt RR.r) S.smallc
  let SAL := fmin (W.ustar - calfvenL) (lit 0)
  let SAR := fmax (W.ustar + calfvenR) (lit 0)
  let SAB := fmin (W.vstar - calfvenB) (lit 0)
  let SAT := fmax (W.vstar + calfvenT) (lit 0)
  let AstarT := (SAR * RR.A - SAL * LR.A) / (SAR - SAL)
  let AstarB := (SAR * RL.A - SAL * LL.A) / (SAR - SAL)
  let BstarR := (SAT * RR.B - SAB * RL.B) / (SAT - SAB)
  let BstarL := (SAT * LR.B - SAB * LL.B) / (SAT - SAB)
  let SB_pos := signPos W.SB
  let ST_pos := signPos W.ST
  let SL_pos := signPos W.SL
  let SR_pos := signPos W.SR
  let E := lit 0
  let tmpE := (SAL * SAB * RR.E - SAL * SAT * RL.E - SAR * SAB * LR.E + SAR * SAT * LL.E) /
      (SAR - SAL) / (SAT - SAB) - SAT * SAB / (SAT - SAB) * (AstarT - AstarB)
    + SAR * SAL / (SAR - SAL) * (BstarR - BstarL)
  let E := E + ind (!SB_pos && ST_pos && !SL_pos && SR_pos) * tmpE
  let tmpE := (SAR * LL.Ex - SAL * RL.Ex + SAR * SAL * (qRL.b - qLL.b)) / (SAR - SAL)
  let tmpE := ind SL_pos * ELL + ind (!SL_pos && !SR_pos) * ERL + ind (!SL_pos && SR_pos) * tmpE
  let E := E + ind SB_pos * tmpE
  let tmpE := (SAR * LR.Ex - SAL * RR.Ex + SAR * SAL * (qRR.b - qLR.b)) / (SAR - SAL)
  let tmpE := ind SL_pos * ELR + ind (!SL_pos && !SR_pos) * ERR + ind (!SL_pos && SR_pos) * tmpE
  let E := E + ind (!SB_pos && !ST_pos) * tmpE
  let tmpE := (SAT * LL.Ey - SAB * LR.Ey - SAT * SAB * (qLR.a - qLL.a)) / (SAT - SAB)
  let E := E + ind (!SB_pos && ST_pos && SL_pos) * tmpE
  let tmpE := (SAT * RL.Ey - SAB * RR.Ey - SAT * SAB * (qRR.a - qRL.a)) / (SAT - SAB)
  E + ind (!SB_pos && ST_pos && !SL_pos && !SR_pos) * tmpE

/-- `EmfDir` (`src/shared/enums.h:204-209`): the direction of the edge. -/
inductive EmfDir | x | y | z
  deriving DecidableEq

/-- Cyclic renaming of the directions so that the edge is along the third one:
`src/shared/RiemannSolvers_MHD.h:698-739` (z), `:740-781` (y), `:782-823` (x). -/
def MState.turn (e : EmfDir) (q : MState α) : MState α :=
  match e with
  | .z => q
  | .y => { q with u := q.w, v := q.u, w := q.v, a := q.c, b := q.a, c := q.b }
  | .x => { q with u := q.v, v := q.w, w := q.u, a := q.b, b := q.c, c := q.a }

/-- `compute_emf<emfDir>` (`src/shared/RiemannSolvers_MHD.h:651-874`); the four arguments are
`qEdge[IRT]`, `qEdge[IRB]`, `qEdge[ILT]`, `qEdge[ILB]`. -/
def compute_emf (S : MSettings α) (e : EmfDir) (qRT qRB qLT qLB : MState α) : α :=
  let rt := qRT.turn e
  let rb := qRB.turn e
  let lt := qLT.turn e
  let lb := qLB.turn e
  let qLL := { rt with
    p := isoPressure S rt.d rt.p
    a := lit (1/2) * (rt.a + lt.a)
    b := lit (1/2) * (rt.b + rb.b) }
  let qRL := { lt with
    p := isoPressure S lt.d lt.p
    a := lit (1/2) * (rt.a + lt.a)
    b := lit (1/2) * (lt.b + lb.b) }
  let qLR := { rb with
    p := isoPressure S rb.d rb.p
    a := lit (1/2) * (rb.a + lb.a)
    b := lit (1/2) * (rt.b + rb.b) }
  let qRR := { lb with
    p := isoPressure S lb.d lb.p
    a := lit (1/2) * (rb.a + lb.a)
    b := lit (1/2) * (lt.b + lb.b) }
  let ELL := qLL.u * qLL.b - qLL.v * qLL.a
  let ERL := qRL.u * qRL.b - qRL.v * qRL.a
  let ELR := qLR.u * qLR.b - qLR.v * qLR.a
  let ERR := qRR.u * qRR.b - qRR.v * qRR.a
  mag_riemann2d_hlld S qLL qRL qLR qRR ELL ERL ELR ERR

end Verif
