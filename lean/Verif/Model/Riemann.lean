import Verif.Model.Params

/-!
# Hydro Riemann solvers (`src/shared/RiemannSolvers.h`)

The C++ functions are templates over `HydroState2d` / `HydroState3d`; the test
`std::is_same<HydroState, HydroState3d>::value` is the flag `d3` here.  Both states are modelled by `HState`;
a 2D state has no `w`, its field `w` is never read when `d3 = false` and is `0` in results.
The output `qgdnv` is not used by any caller and only modelled where the flux depends on it.
-/

namespace Verif

open ROps

/-- `HydroState2d`, `HydroState3d` (`src/shared/HydroState.h:15-16`), as conservative
(`d` density, `p` energy, `u v w` momenta), primitive (`p` pressure, `u v w` velocities), slope or
flux vector.  Fields are at positions `ID IP IU IV IW`. -/
@[ext] structure HState (α : Type) where
  d : α
  p : α
  u : α
  v : α
  w : α
  deriving DecidableEq

/-- `RiemannSolverType` (`src/shared/enums.h:135-143`). -/
inductive RiemannSolver | approx | llf | hll | hllc | hlld
  deriving DecidableEq

/-- Real-valued settings (`HydroParams::settings`, `src/shared/HydroParams.h`; values set in
`src/shared/HydroParams.cpp:155-217` and `init` `:420-453`). -/
structure Settings (α : Type) where
  gamma0 : α
  gamma6 : α
  smallr : α
  smallc : α
  smallp : α
  smallpp : α
  slope_type : α
  cfl : α
  dx : α
  dy : α
  dz : α
  riemann : RiemannSolver

variable {α : Type} [ROps α]

/-- `cmpflx` (`src/shared/RiemannSolvers.h:19-48`). -/
def cmpflx (d3 : Bool) (S : Settings α) (q : HState α) : HState α :=
  let fd := q.d * q.u
  let entho := lit 1 / (S.gamma0 - lit 1)
  let ekin := lit (1/2) * q.d * (q.u * q.u + q.v * q.v)
  let ekin := if d3 then ekin + lit (1/2) * q.d * (q.w * q.w) else ekin
  let etot := q.p * entho + ekin
  { d := fd
    u := fd * q.u + q.p
    v := fd * q.v
    w := if d3 then fd * q.w else lit 0
    p := q.u * (etot + q.p) }

/-- One Newton step of `riemann_approx` (`src/shared/RiemannSolvers.h:96-105`): new `(pold, conv)`. -/
def approxNewton (S : Settings α) (cl cr pl pr ul ur pold : α) : α × α :=
  let wwl := sqrt (cl * (lit 1 + S.gamma6 * (pold - pl) / pl))
  let wwr := sqrt (cr * (lit 1 + S.gamma6 * (pold - pr) / pr))
  let ql := lit 2 * wwl * wwl * wwl / (wwl * wwl + cl)
  let qr := lit 2 * wwr * wwr * wwr / (wwr * wwr + cr)
  let usl := ul - (pold - pl) / wwl
  let usr := ur + (pold - pr) / wwr
  let delp := fmax (qr * ql / (qr + ql) * (usl - usr)) (-pold)
  let pold' := pold + delp
  (pold', fabs (delp / (pold' + S.smallpp)))

/-- The Newton loop (`src/shared/RiemannSolvers.h:94-106`): at most `fuel` more iterations, while
`conv > 1e-6`. -/
def approxLoop (S : Settings α) (cl cr pl pr ul ur : α) : Nat → α → α → α
  | 0, pold, _ => pold
  | fuel + 1, pold, conv =>
    if gtb conv (lit (1/1000000)) then
      let r := approxNewton S cl cr pl pr ul ur pold
      approxLoop S cl cr pl pr ul ur fuel r.1 r.2
    else pold

/-- First part of `riemann_approx`: star region (`src/shared/RiemannSolvers.h:74-116`); returns
`(pstar, ustar, wl, wr)`. -/
def approxStar (S : Settings α) (rl ul pl rr ur pr : α) : α × α × α × α :=
  let cl := S.gamma0 * pl * rl
  let cr := S.gamma0 * pr * rr
  let wl := sqrt cl
  let wr := sqrt cr
  let pstar := fmax (((wr * pl + wl * pr) + wl * wr * (ul - ur)) / (wl + wr)) (lit 0)
  let pstar := approxLoop S cl cr pl pr ul ur 10 pstar (lit 1)
  let wl := sqrt (cl * (lit 1 + S.gamma6 * (pstar - pl) / pl))
  let wr := sqrt (cr * (lit 1 + S.gamma6 * (pstar - pr) / pr))
  let ustar := lit (1/2) * (ul + (pl - pstar) / wl + ur - (pr - pstar) / wr)
  (pstar, ustar, wl, wr)

/-- Second part of `riemann_approx`: sample the solution at `x/t = 0`
(`src/shared/RiemannSolvers.h:137-181`); `(ro, uo, po, wo)` is the unperturbed state on the side of the contact.
Returns density, normal velocity, pressure. -/
def approxSample (S : Settings α) (sgnm pstar ustar ro uo po wo : α) : α × α × α :=
  let co := fmax S.smallc (sqrt (fabs (S.gamma0 * po / ro)))
  let rstar := fmax (ro / (lit 1 + ro * (po - pstar) / (wo * wo))) S.smallr
  let cstar := fmax S.smallc (sqrt (fabs (S.gamma0 * pstar / rstar)))
  let spout := co - sgnm * uo
  let spin := cstar - sgnm * ustar
  let ushock := wo / ro - sgnm * uo
  let s := if geb pstar po then (ushock, ushock) else (spin, spout)
  let spin := s.1
  let spout := s.2
  let scr := fmax (spout - spin) (S.smallc + fabs (spout + spin))
  let frac := lit (1/2) * (lit 1 + (spout + spin) / scr)
  let frac := if !(eqb frac frac) then lit 0
    else if geb frac (lit 1) then lit 1 else if leb frac (lit 0) then lit 0 else frac
  let q := (frac * rstar + (lit 1 - frac) * ro, frac * ustar + (lit 1 - frac) * uo,
    frac * pstar + (lit 1 - frac) * po)
  let q := if ltb spout (lit 0) then (ro, uo, po) else q
  if gtb spin (lit 0) then (rstar, ustar, pstar) else q

/-- `riemann_approx` (`src/shared/RiemannSolvers.h:59-199`). -/
def riemann_approx (d3 : Bool) (S : Settings α) (ql qr : HState α) : HState α :=
  let rl := fmax ql.d S.smallr
  let ul := ql.u
  let pl := fmax ql.p (rl * S.smallp)
  let rr := fmax qr.d S.smallr
  let ur := qr.u
  let pr := fmax qr.p (rr * S.smallp)
  let st := approxStar S rl ul pl rr ur pr
  let pstar := st.1
  let ustar := st.2.1
  let wl := st.2.2.1
  let wr := st.2.2.2
  let sgnm := copysign (lit 1) ustar
  let g := if gtb sgnm (lit 0) then approxSample S sgnm pstar ustar rl ul pl wl
    else approxSample S sgnm pstar ustar rr ur pr wr
  let tv := if gtb sgnm (lit 0) then ql.v else qr.v
  let tw := if d3 then (if gtb sgnm (lit 0) then ql.w else qr.w) else lit 0
  cmpflx d3 S { d := g.1, u := g.2.1, p := g.2.2, v := tv, w := tw }

/-- Conservative variables `uleft` / `uright` from primitive ones inside `riemann_llf`
(`src/shared/RiemannSolvers.h:257-287`) and `riemann_hll` (`:382-404`). -/
def llfCons (d3 : Bool) (S : Settings α) (q : HState α) : HState α :=
  let entho := lit 1 / (S.gamma0 - lit 1)
  let e := q.p * entho + lit (1/2) * q.d * q.u * q.u
  let e := e + lit (1/2) * q.d * q.v * q.v
  let e := if d3 then e + lit (1/2) * q.d * q.w * q.w else e
  { d := q.d, p := e, u := q.d * q.u, v := q.d * q.v, w := if d3 then q.d * q.w else lit 0 }

/-- `fleft` / `fright` inside `riemann_llf` (`src/shared/RiemannSolvers.h:292-313`). -/
def llfFlux (d3 : Bool) (q u : HState α) : HState α :=
  let fd := u.d * q.u
  { d := fd, p := q.u * (u.p + q.p), u := q.p + u.u * q.u, v := fd * q.v,
    w := if d3 then fd * q.w else lit 0 }

/-- `riemann_llf` (`src/shared/RiemannSolvers.h:217-327`). -/
def riemann_llf (d3 : Bool) (S : Settings α) (ql qr : HState α) : HState α :=
  let rl := fmax ql.d S.smallr
  let ul := ql.u
  let pl := fmax ql.p (rl * S.smallp)
  let rr := fmax qr.d S.smallr
  let ur := qr.u
  let pr := fmax qr.p (rr * S.smallp)
  let cl := sqrt (S.gamma0 * pl / rl)
  let cr := sqrt (S.gamma0 * pr / rr)
  let cmax := fmax (fabs ul + cl) (fabs ur + cr)
  let uleft := llfCons d3 S ql
  let uright := llfCons d3 S qr
  let fleft := llfFlux d3 ql uleft
  let fright := llfFlux d3 qr uright
  let f := fun (a b c d : α) => lit (1/2) * (a + b - cmax * (d - c))
  { d := f fleft.d fright.d uleft.d uright.d
    p := f fleft.p fright.p uleft.p uright.p
    u := f fleft.u fright.u uleft.u uright.u
    v := f fleft.v fright.v uleft.v uright.v
    w := if d3 then f fleft.w fright.w uleft.w uright.w else lit 0 }

/-- `fleft` / `fright` inside `riemann_hll` (`src/shared/RiemannSolvers.h:407-422`). -/
def hllFlux (d3 : Bool) (q u : HState α) : HState α :=
  let fd := u.u
  { d := fd, p := q.u * (u.p + q.p), u := q.p + u.u * q.u, v := fd * q.v,
    w := if d3 then fd * q.w else lit 0 }

/-- `riemann_hll` (`src/shared/RiemannSolvers.h:343-435`). -/
def riemann_hll (d3 : Bool) (S : Settings α) (ql qr : HState α) : HState α :=
  let rl := fmax ql.d S.smallr
  let ul := ql.u
  let pl := fmax ql.p (rl * S.smallp)
  let rr := fmax qr.d S.smallr
  let ur := qr.u
  let pr := fmax qr.p (rr * S.smallp)
  let cl := sqrt (S.gamma0 * pl / rl)
  let cr := sqrt (S.gamma0 * pr / rr)
  let SL := fmin (fmin ul ur - fmax cl cr) (lit 0)
  let SR := fmax (fmax ul ur + fmax cl cr) (lit 0)
  let uleft := llfCons d3 S ql
  let uright := llfCons d3 S qr
  let fleft := hllFlux d3 ql uleft
  let fright := hllFlux d3 qr uright
  let f := fun (a b c d : α) => (SR * a - SL * b + SR * SL * (d - c)) / (SR - SL)
  { d := f fleft.d fright.d uleft.d uright.d
    p := f fleft.p fright.p uleft.p uright.p
    u := f fleft.u fright.u uleft.u uright.u
    v := f fleft.v fright.v uleft.v uright.v
    w := if d3 then f fleft.w fright.w uleft.w uright.w else lit 0 }

/-- Wave speeds and star state of `riemann_hllc` (`src/shared/RiemannSolvers.h:488-502`). -/
structure HllcStar (α : Type) where
  SL : α
  SR : α
  ustar : α
  ptotstar : α

/-- `src/shared/RiemannSolvers.h:488-502`. -/
def hllcStar (S : Settings α) (rl ul pl rr ur pr : α) : HllcStar α :=
  let cfastl := sqrt (fmax (S.gamma0 * pl / rl) (S.smallc * S.smallc))
  let cfastr := sqrt (fmax (S.gamma0 * pr / rr) (S.smallc * S.smallc))
  let SL := fmin ul ur - fmax cfastl cfastr
  let SR := fmax ul ur + fmax cfastl cfastr
  let rcl := rl * (ul - SL)
  let rcr := rr * (SR - ur)
  { SL := SL, SR := SR
    ustar := (rcr * ur + rcl * ul + (pl - pr)) / (rcr + rcl)
    ptotstar := (rcr * pl + rcl * pr + rcl * rcr * (ul - ur)) / (rcr + rcl) }

/-- `etotl`, `etotr` of `riemann_hllc` (`src/shared/RiemannSolvers.h:467-472`, `:480-485`), with
the floored density `r` and pressure `p`. -/
def hllcEtot (d3 : Bool) (S : Settings α) (r p : α) (q : HState α) : α :=
  let entho := lit 1 / (S.gamma0 - lit 1)
  let ecin := lit (1/2) * r * q.u * q.u
  let ecin := ecin + lit (1/2) * r * q.v * q.v
  let ecin := if d3 then ecin + lit (1/2) * r * q.w * q.w else ecin
  p * entho + ecin

/-- `riemann_hllc` (`src/shared/RiemannSolvers.h:445-568`). -/
def riemann_hllc (d3 : Bool) (S : Settings α) (ql qr : HState α) : HState α :=
  let rl := fmax ql.d S.smallr
  let pl := fmax ql.p (rl * S.smallp)
  let ul := ql.u
  let etotl := hllcEtot d3 S rl pl ql
  let rr := fmax qr.d S.smallr
  let pr := fmax qr.p (rr * S.smallp)
  let ur := qr.u
  let etotr := hllcEtot d3 S rr pr qr
  let st := hllcStar S rl ul pl rr ur pr
  let rstarl := rl * (st.SL - ul) / (st.SL - st.ustar)
  let etotstarl := ((st.SL - ul) * etotl - pl * ul + st.ptotstar * st.ustar) / (st.SL - st.ustar)
  let rstarr := rr * (st.SR - ur) / (st.SR - st.ustar)
  let etotstarr := ((st.SR - ur) * etotr - pr * ur + st.ptotstar * st.ustar) / (st.SR - st.ustar)
  let o :=
    if gtb st.SL (lit 0) then (rl, ul, pl, etotl)
    else if gtb st.ustar (lit 0) then (rstarl, st.ustar, st.ptotstar, etotstarl)
    else if gtb st.SR (lit 0) then (rstarr, st.ustar, st.ptotstar, etotstarr)
    else (rr, ur, pr, etotr)
  let ro := o.1
  let uo := o.2.1
  let ptoto := o.2.2.1
  let etoto := o.2.2.2
  let fd := ro * uo
  { d := fd
    u := ro * uo * uo + ptoto
    p := (etoto + ptoto) * uo
    v := if gtb fd (lit 0) then fd * ql.v else fd * qr.v
    w := if d3 then (if gtb fd (lit 0) then fd * ql.w else fd * qr.w) else lit 0 }

/-- `riemann_hydro(HydroState2d, ...)` (`src/shared/RiemannSolvers.h:573-603`) and
`riemann_hydro(HydroState3d, ...)` (`:608-633`).  `none`: no branch is taken, `flux` stays
unassigned. -/
def riemann_hydro (d3 : Bool) (S : Settings α) (ql qr : HState α) : Option (HState α) :=
  if d3 then
    match S.riemann with
    | .approx => some (riemann_approx true S ql qr)
    | .hllc => some (riemann_hllc true S ql qr)
    | .llf => some (riemann_llf true S ql qr)
    | _ => none
  else
    match S.riemann with
    | .approx => some (riemann_approx false S ql qr)
    | .hll => some (riemann_hll false S ql qr)
    | .hllc => some (riemann_hllc false S ql qr)
    | .llf => some (riemann_llf false S ql qr)
    | _ => none

end Verif
