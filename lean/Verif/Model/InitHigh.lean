import Verif.Model.Wedge
import Verif.Model.InitHydro

/-!
# Initial conditions of the high order solvers

`src/sdm/init/*.h` (spectral differences, "SDM"), `src/mood/MoodInitFunctors.h` (high order finite volumes,
"MOOD") and the choice of the problem in the constructors of the two solvers.  Wedge and jet are in
`Verif.Model.Wedge`.

Simplifications: values read back from `Udata` in the cell just stored are replaced by the value stored; the
variables are stored in a loop over `nbvar` (4 in 2D, 5 in 3D) instead of one by one; the random numbers are a
parameter; restart (`src/mood/SolverHydroMood.h`, `src/sdm/SolverHydroSDM.h`) is not modelled.
-/

namespace Verif.Start

open Verif Sdm Special ROps TOps

/-- `fmod` of `<cmath>`, in addition to the functions of `TOps`.  No laws. -/
class FOps (α : Type) extends TOps α where
  fmod : α → α → α

/-- Exact real functions: the quotient is rounded towards zero. -/
noncomputable instance : FOps ℝ where
  toTOps := inferInstance
  fmod x y := x - y * (if 0 ≤ x / y then (⌊x / y⌋ : ℝ) else (⌈x / y⌉ : ℝ))

variable {α : Type} [TOps α]

/-- A gas at rest (`src/sdm/init/InitBlastFunctor.h:117-120`, `:124-127`, `:212-216`, `:221-225`,
`src/sdm/init/InitSodFunctor.h:110-113`, `:117-120`, `:201-205`, `:209-213`, `src/mood/MoodInitFunctors.h:77-80`,
`:84-87`, `:125-129`, `:133-137`, `:208-211`, `:215-218`, `:270-274`, `:278-282`). -/
def atRest (S : Settings α) (rho p : α) : HState α := ⟨rho, p / (S.gamma0 - lit 1), lit 0, lit 0, lit 0⟩

/-! ### Values, as functions of the position -/

/-- `InitSodFunctor` (`src/sdm/init/InitSodFunctor.h:82-121`, `:170-214`). -/
def sodState (S : Settings α) (x : α) : HState α :=
  if ltb x (lit (1/2)) then atRest S (lit 1) (lit 1) else atRest S (lit (1/8)) (lit (1/10))

/-- `InitShuOsherFunctor` (`src/sdm/init/InitShuOsherFunctor.h:82-126`, `:175-225`). -/
def shuOsherState (S : Settings α) (x : α) : HState α :=
  let rho1 : α := lit 27 / lit 7
  let p1 : α := lit 31 / lit 3
  let v1 : α := lit 4 * sqrt (lit 35) / lit 9
  let p2 : α := lit 1
  let v2 : α := lit 0
  let rho2 : α := lit 1 + sin (lit 5 * x) / lit 5
  if ltb x (lit (-4)) then
    ⟨rho1, p1 / (S.gamma0 - lit 1) + lit (1/2) * rho1 * v1 * v1, rho1 * v1, lit 0, lit 0⟩
  else ⟨rho2, p2 / (S.gamma0 - lit 1) + lit (1/2) * rho2 * v2 * v2, rho2 * v2, lit 0, lit 0⟩

/-- `InitBlastFunctor` of both solvers (`src/sdm/init/InitBlastFunctor.h:82-128`, `:171-226`,
`src/mood/MoodInitFunctors.h:188-219`, `:247-283`). -/
def blastState (d3 : Bool) (S : Settings α) (p : BlastParams α) (x y z : α) : HState α :=
  let radius2 := p.blast_radius * p.blast_radius
  let d2 := (x - p.blast_center_x) * (x - p.blast_center_x) +
    (y - p.blast_center_y) * (y - p.blast_center_y)
  let d2 := if d3 then d2 + (z - p.blast_center_z) * (z - p.blast_center_z) else d2
  if ltb d2 radius2 then atRest S p.blast_density_in p.blast_pressure_in
  else atRest S p.blast_density_out p.blast_pressure_out

/-- `InitImplodeFunctor` of the SDM solver (`src/sdm/init/InitImplodeFunctor.h:88-138`, `:187-246`): the velocity
is stored in place of the momentum. -/
def implodeSdm (d3 : Bool) (S : Settings α) (D : Domain α) (p : ImplodeParams α) (x y z : α) : HState α :=
  let tmp :=
    if d3 then
      if p.shape = 1 then gtb (x + y + z) (lit (1/2)) && ltb (x + y + z) (lit (5/2))
      else gtb (x + y + z) ((D.xmin + D.xmax) / lit 2 + D.ymin + D.zmin)
    else
      if p.shape = 1 then gtb (x + y * y) (lit (1/2)) && ltb (x + y * y) (lit (3/2))
      else gtb (x + y) ((D.xmin + D.xmax) / lit 2 + D.ymin)
  let all (rho pr u v w : α) : HState α :=
    if d3 then ⟨rho, pr / (S.gamma0 - lit 1) + lit (1/2) * rho * (u * u + v * v + w * w), u, v, w⟩
    else ⟨rho, pr / (S.gamma0 - lit 1) + lit (1/2) * rho * (u * u + v * v), u, v, lit 0⟩
  if tmp then all p.rho_out p.p_out p.u_out p.v_out p.w_out
  else all p.rho_in p.p_in p.u_in p.v_in p.w_in

/-- `InitImplodeFunctor` of the MOOD solver (`src/mood/MoodInitFunctors.h:70-88`, `:118-138`): it takes no
parameters. -/
def implodeMood (d3 : Bool) (S : Settings α) (x y z : α) : HState α :=
  let tmp := if d3 then x + y + z else x + y
  if (if d3 then gtb tmp (lit (1/2)) && ltb tmp (lit (5/2)) else gtb tmp (lit (1/2))) then
    atRest S (lit 1) (lit 1)
  else atRest S (lit (1/8)) (lit (14/100))

/-- `InitFourQuadrantFunctor` (`src/sdm/init/InitFourQuadrantFunctor.h:117-154`,
`src/mood/MoodInitFunctors.h:352-389`, `:421-462`). -/
def quadrantState (q : Quadrants α) (xt yt x y : α) : HState α :=
  let all (U : HState α) : HState α := ⟨U.d, U.p, U.u, U.v, lit 0⟩
  if ltb x xt then
    if ltb y yt then all q.U2 else all q.U1
  else
    if ltb y yt then all q.U3 else all q.U0

/-- `ramp` (`src/sdm/init/InitKelvinHelmholtzFunctor.h:165-166`, `:318-319`, `src/mood/MoodInitFunctors.h:585-586`,
`:705-706`). -/
def ramp (p : KHParams α) (h : α) : α :=
  lit 1 / (lit 1 + exp (lit 2 * (h - lit (1/4)) / p.delta)) +
    lit 1 / (lit 1 + exp (lit 2 * (lit (3/4) - h) / p.delta))

/-- `InitKelvinHelmholtzFunctor` of the SDM solver (`src/sdm/init/InitKelvinHelmholtzFunctor.h:119-177`,
`:261-332`); `r` are the random numbers drawn at the point.  `none`: nothing is stored. -/
def khSdm (d3 : Bool) (S : Settings α) (D : Domain α) (p : KHParams α) (r : ℕ → α) (x y z : α) :
    Option (HState α) :=
  let yn := (y - D.ymin) / (D.ymax - D.ymin)
  let zn := (z - D.zmin) / (D.zmax - D.zmin)
  let all (d u v w : α) : HState α :=
    ⟨d, p.pressure / (S.gamma0 - lit 1) + lit (1/2) * d * (if d3 then u * u + v * v + w * w else u * u + v * v),
      d * u, d * v, if d3 then d * w else lit 0⟩
  if p.p_rand then
    let h := if d3 then zn else yn
    let out := ltb h (lit (1/4)) || gtb h (lit (3/4))
    let d := if out then p.d_out else p.d_in
    let u := if out then p.vflow_out else p.vflow_in
    some (all d (u + p.amplitude * (r 0 - lit (1/2))) (lit 0 + p.amplitude * (r 1 - lit (1/2)))
      (lit 0 + p.amplitude * (r 2 - lit (1/2))))
  else if p.p_sine_rob then
    let a := ramp p (if d3 then z else y)
    let n : α := lit (p.mode : ℚ)
    let d := p.d_in + a * (p.d_out - p.d_in)
    let u := p.vflow_in + a * (p.vflow_out - p.vflow_in)
    if d3 then
      some (all d u (p.vflow_in / lit 2 + a * (p.vflow_out / lit 2 - p.vflow_in / lit 2))
        (p.w0 * sin (n * pi * x) * sin (n * pi * y)))
    else some (all d u (p.w0 * sin (n * pi * x)) (lit 0))
  else none

/-- `InitKelvinHelmholtzFunctor` of the MOOD solver (`src/mood/MoodInitFunctors.h:541-595`, `:645-717`). -/
def khMood (d3 : Bool) (S : Settings α) (D : Domain α) (p : KHParams α) (r : ℕ → α) (x y z : α) :
    Option (HState α) :=
  let yn := (y - D.ymin) / (D.ymax - D.ymin)
  let zn := (z - D.zmin) / (D.zmax - D.zmin)
  let all (d iu iv iw : α) : HState α :=
    if d3 then
      ⟨d, p.pressure / (S.gamma0 - lit 1) + lit (1/2) * (iu * iu + iv * iv + iw * iw) / d, iu, iv, iw⟩
    else ⟨d, p.pressure / (S.gamma0 - lit 1) + lit (1/2) * (iu * iu + iv * iv) / d, iu, iv, lit 0⟩
  if p.p_rand then
    let h := if d3 then zn else yn
    let sharp (d u : α) := all d (d * (u + p.amplitude * (r 0 - lit (1/2))))
      (d * (lit 0 + p.amplitude * (r 1 - lit (1/2)))) (d * (lit 0 + p.amplitude * (r 2 - lit (1/2))))
    some (if ltb h (lit (1/4)) || gtb h (lit (3/4)) then sharp p.d_out p.vflow_out
      else sharp p.d_in p.vflow_in)
  else if p.p_sine_rob then
    let a := ramp p (if d3 then z else y)
    let n : α := lit (p.mode : ℚ)
    let d := p.d_in + a * (p.d_out - p.d_in)
    let iu := d * (p.vflow_in + a * (p.vflow_out - p.vflow_in))
    if d3 then
      some (all d iu (d * (p.vflow_in / lit 2 + a * (p.vflow_out / lit 2 - p.vflow_in / lit 2)))
        (d * p.w0 * sin (n * pi * x) * sin (n * pi * y)))
    else some (all d iu (d * p.w0 * sin (n * pi * x)) (lit 0))
  else none

/-- `InitGreshoVortexFunctor` of the SDM solver (`src/sdm/init/InitGreshoVortexFunctor.h:84-144`, `:189-256`); the
profile is the text of the MUSCL solver. -/
def greshoSdm (d3 : Bool) (S : Settings α) (p : GreshoParams α) (x y : α) : HState α :=
  let p0 := p.rho0 / (S.gamma0 * p.Ma * p.Ma)
  let r := sqrt (x * x + y * y)
  let theta := atan2 y x
  let cosT := cos theta
  let sinT := sin theta
  let prof := greshoProfile p0 r
  let iu := p.rho0 * (-sinT * prof.1)
  let iv := p.rho0 * (cosT * prof.1)
  let iw : α := lit 0
  if d3 then ⟨p.rho0, prof.2 / (S.gamma0 - lit 1) + lit (1/2) * (iu * iu + iv * iv + iw * iw) / p.rho0, iu, iv, iw⟩
  else ⟨p.rho0, prof.2 / (S.gamma0 - lit 1) + lit (1/2) * (iu * iu + iv * iv) / p.rho0, iu, iv, lit 0⟩

/-- Temperature of the isentropic vortex (`compute_T`, `src/mood/MoodInitFunctors.h:907-919`; the same text in
`src/sdm/init/InitIsentropicVortexFunctor.h:131-138`, `:241-249`). -/
def vortexT (S : Settings α) (p : IsentropicVortexParams α) (x y : α) : α :=
  let xp := x - p.vortex_x
  let yp := y - p.vortex_y
  let r := sqrt (xp * xp + yp * yp)
  p.T_a - (S.gamma0 - lit 1) * p.beta * p.beta / (lit 8 * S.gamma0 * pi * pi) * exp (lit 1 - r * r)

/-- Its density (`compute_rho`, `src/mood/MoodInitFunctors.h:921-929`;
`src/sdm/init/InitIsentropicVortexFunctor.h:139`, `:250`). -/
def vortexRho (S : Settings α) (p : IsentropicVortexParams α) (x y : α) : α :=
  p.rho_a * pow (vortexT S p x y / p.T_a) (lit 1 / (S.gamma0 - lit 1))

/-- Its velocity along x (`compute_u`, `src/mood/MoodInitFunctors.h:931-944`;
`src/sdm/init/InitIsentropicVortexFunctor.h:135`, `:142`, `:245`, `:253`). -/
def vortexU (p : IsentropicVortexParams α) (x y : α) : α :=
  let xp := x - p.vortex_x
  let yp := y - p.vortex_y
  let r := sqrt (xp * xp + yp * yp)
  p.u_a + -yp * p.beta / (lit 2 * pi) * exp (lit (1/2) * (lit 1 - r * r))

/-- Its velocity along y (`compute_v`, `src/mood/MoodInitFunctors.h:946-959`;
`src/sdm/init/InitIsentropicVortexFunctor.h:136`, `:143`, `:246`, `:254`). -/
def vortexV (p : IsentropicVortexParams α) (x y : α) : α :=
  let xp := x - p.vortex_x
  let yp := y - p.vortex_y
  let r := sqrt (xp * xp + yp * yp)
  p.v_a + xp * p.beta / (lit 2 * pi) * exp (lit (1/2) * (lit 1 - r * r))

/-- `InitIsentropicVortexFunctor` of the SDM solver for a given centre
(`src/sdm/init/InitIsentropicVortexFunctor.h:130-147`, `:240-258`). -/
def vortexSdm (S : Settings α) (p : IsentropicVortexParams α) (x y : α) : HState α :=
  let T := vortexT S p x y
  let rho := vortexRho S p x y
  let u := vortexU p x y
  let v := vortexV p x y
  ⟨rho, rho * T / (S.gamma0 - lit 1) + lit (1/2) * rho * u * u + lit (1/2) * rho * v * v, rho * u, rho * v, lit 0⟩

/-- The centre of the vortex (`src/sdm/init/InitIsentropicVortexFunctor.h:95-111`, `:200-217`): with `use_tEnd`
where it is at the time `tEnd`. -/
def vortexMoved {α : Type} [FOps α] (D : Domain α) (p : IsentropicVortexParams α) (use_tEnd : Bool) (tEnd : α) :
    IsentropicVortexParams α :=
  if use_tEnd then
    { p with
      vortex_x := FOps.fmod (p.vortex_x + tEnd * p.u_a) (D.xmax - D.xmin)
      vortex_y := FOps.fmod (p.vortex_y + tEnd * p.v_a) (D.ymax - D.ymin) }
  else p

/-! ### Quadrature of the MOOD solver -/

/-- Positions of the quadrature points in a cell with centre `x` and size `dx`
(`src/mood/MoodInitFunctors.h:998-1004`, `:1032-1040`, `:1068-1078`). -/
def quadPos (n : Int) (x dx : α) : List α :=
  let h := lit (1/2) * dx
  if n = 1 then [x]
  else if n = 2 then [x - h * lit 1 / sqrt (lit 3), x + h * lit 1 / sqrt (lit 3)]
  else if n = 3 then [x - h * sqrt (lit 3) / sqrt (lit 5), x, x + h * sqrt (lit 3) / sqrt (lit 5)]
  else if n = 4 then
    let a := sqrt (lit 3 / lit 7 - lit 2 / lit 7 * sqrt (lit 6 / lit 5))
    let b := sqrt (lit 3 / lit 7 + lit 2 / lit 7 * sqrt (lit 6 / lit 5))
    [x - h * a, x + h * a, x - h * b, x + h * b]
  else []

/-- Weights (`src/mood/MoodInitFunctors.h:1006`, `:1042`, `:1080-1084`). -/
def quadWeights (n : Int) : List α :=
  if n = 1 then [lit 1]
  else if n = 2 then [lit (1/2), lit (1/2)]
  else if n = 3 then [lit (5/2) / lit 9, lit 4 / lit 9, lit (5/2) / lit 9]
  else if n = 4 then
    let a := lit (1/2) * (lit (1/2) + sqrt (lit 30) / lit 36)
    let b := lit (1/2) * (lit (1/2) - sqrt (lit 30) / lit 36)
    [a, a, b, b]
  else []

/-- One quadrature point: `rho`, `e`, `rho*u`, `rho*v` (`src/mood/MoodInitFunctors.h:979-988`, `:1012-1021`,
`:1048-1057`, `:1090-1099`). -/
def vortexPoint (S : Settings α) (p : IsentropicVortexParams α) (w_a x y : α) : HState α :=
  let T := vortexT S p x y
  let rho := vortexRho S p x y
  let u := vortexU p x y
  let v := vortexV p x y
  ⟨rho, rho * T / (S.gamma0 - lit 1) + lit (1/2) * rho * (u * u + v * v + w_a * w_a), rho * u, rho * v, lit 0⟩

/-- `q[...] += value * weights[ii] * weights[jj]`. -/
def addTimes (q s : HState α) (wi wj : α) : HState α :=
  ⟨q.d + s.d * wi * wj, q.p + s.p * wi * wj, q.u + s.u * wi * wj, q.v + s.v * wi * wj, q.w⟩

/-- `compute_HydroState_with_quadrature` (`src/mood/MoodInitFunctors.h:961-1103`); `none`: `q` is not assigned.  The
loop runs over `jj` outside and `ii` inside. -/
def vortexQuad (S : Settings α) (p : IsentropicVortexParams α) (w_a : α) (n : Int) (x y : α) :
    Option (HState α) :=
  if n = 1 then some (vortexPoint S p w_a x y)
  else if n = 2 ∨ n = 3 ∨ n = 4 then
    let xs := (quadPos n x S.dx).zip (quadWeights n)
    let ys := (quadPos n y S.dy).zip (quadWeights n)
    some ((ys.flatMap fun b => xs.map fun a => (a, b)).foldl
      (fun q ab => addTimes q (vortexPoint S p w_a ab.1.1 ab.2.1) ab.1.2 ab.2.2) ⟨lit 0, lit 0, lit 0, lit 0, lit 0⟩)
  else none

/-- `InitIsentropicVortexFunctor` of the MOOD solver (`src/mood/MoodInitFunctors.h:1126-1138`, `:1166-1179`).  `q` is
an array of four numbers; `junk i` is what is at position `i` of it before it is assigned.  In 3D the energy is
`q[IW]`, the fifth number of four. -/
def vortexMood (d3 : Bool) (S : Settings α) (p : IsentropicVortexParams α) (w_a : α) (n : Int) (junk : ℕ → α)
    (x y : α) : HState α :=
  let q := (vortexQuad S p w_a n x y).getD ⟨junk 0, junk 1, junk 2, junk 3, junk 4⟩
  if d3 then ⟨q.d, junk 4, q.u, q.v, q.d * w_a⟩ else ⟨q.d, q.p, q.u, q.v, lit 0⟩

/-! ### The loops -/

/-- The values stored in one cell, at all its points (e.g. `src/sdm/init/InitBlastFunctor.h:98-131`); `ad` is the location
of a variable at a point, `none` means that nothing is stored. -/
def fillState (pts : List Pt) (nv : ℕ) (ad : Cell → Pt → ℕ → Addr) (val : Pt → Option (HState α)) (c : Cell) :
    K Addr α Unit :=
  forEach (pts ×ˢ List.range nv) fun x =>
    match val x.1 with
    | none => K.ret ()
    | some s => K.store (ad c x.1 x.2) (Mood.comp s x.2)

/-- Problems of the SDM solver with their parameters. -/
inductive SdmProblem (α : Type) where
  | sod
  | shuOsher
  | implode (p : ImplodeParams α)
  | blast (p : BlastParams α)
  | fourQuadrant (configNumber : Int) (xt yt : α)
  | kelvinHelmholtz (p : KHParams α) (rnd : Cell → Pt → ℕ → α)
  | gresho (p : GreshoParams α)
  | vortex (p : IsentropicVortexParams α) (use_tEnd : Bool) (tEnd : α)

/-- State stored at a solution point of a cell; positions e.g. `src/sdm/init/InitBlastFunctor.h:104-110`, `:196-203`.
The four quadrants start from the centre of the cell instead of its corner
(`src/sdm/init/InitFourQuadrantFunctor.h:109-115`), and store nothing in 3D (`:201-220`). -/
def sdmState {α : Type} [FOps α] (M : Scheme α) (S : Settings α) (P : Grid) (D : Domain α) (c : Cell) (p : Pt) :
    SdmProblem α → Option (HState α)
  | .sod => some (sodState S (xSdm M S P D c.i p.x))
  | .shuOsher => some (shuOsherState S (xSdm M S P D c.i p.x))
  | .implode q => some (implodeSdm M.d3 S D q (xSdm M S P D c.i p.x) (ySdm M S P D c.j p.y) (zSdm M S P D c.k p.z))
  | .blast q => some (blastState M.d3 S q (xSdm M S P D c.i p.x) (ySdm M S P D c.j p.y) (zSdm M S P D c.k p.z))
  | .fourQuadrant n xt yt =>
    if M.d3 then none
    else some (quadrantState (quadrantStates S n) xt yt
      (D.xmin + S.dx / lit 2 + lit ((c.i + P.nx * D.i_mpi - P.ghostWidth : Int) : ℚ) * S.dx + M.sp p.x * S.dx)
      (D.ymin + S.dy / lit 2 + lit ((c.j + P.ny * D.j_mpi - P.ghostWidth : Int) : ℚ) * S.dy + M.sp p.y * S.dy))
  | .kelvinHelmholtz q rnd =>
    khSdm M.d3 S D q (rnd c p) (xSdm M S P D c.i p.x) (ySdm M S P D c.j p.y) (zSdm M S P D c.k p.z)
  | .gresho q => some (greshoSdm M.d3 S q (xSdm M S P D c.i p.x) (ySdm M S P D c.j p.y))
  | .vortex q use_tEnd tEnd =>
    some (vortexSdm S (vortexMoved D q use_tEnd tEnd) (xSdm M S P D c.i p.x) (ySdm M S P D c.j p.y))

/-- `apply` of the functors (e.g. `src/sdm/init/InitBlastFunctor.h:42-51`). -/
def sdmInit {α : Type} [FOps α] (M : Scheme α) (S : Settings α) (P : Grid) (D : Domain α) (U : ℕ)
    (Q : SdmProblem α) : Launch Addr α :=
  M.cells P fun c => fillState (cellPts M.d3 M.N) P.nbvar (M.sol U) (fun p => sdmState M S P D c p Q) c

/-- Problems of the MOOD solver with their parameters. -/
inductive MoodProblem (α : Type) where
  | implode
  | blast (p : BlastParams α)
  | fourQuadrant (configNumber : Int) (xt yt : α)
  | kelvinHelmholtz (p : KHParams α) (rnd : Cell → ℕ → α)
  | vortex (p : IsentropicVortexParams α) (w_a : α) (nQuadPts : Int) (junk : Cell → ℕ → α)

/-- `z = zmin + dz/2 + (k-ghostWidth)*dz` (`src/mood/MoodInitFunctors.h:120`, `:262`, `:643`). -/
def zMood (S : Settings α) (P : Grid) (D : Domain α) (k : Int) : α :=
  D.zmin + S.dz / lit 2 + lit ((k - P.ghostWidth : Int) : ℚ) * S.dz

/-- State stored in a cell. -/
def moodState (d3 : Bool) (S : Settings α) (P : Grid) (D : Domain α) (c : Cell) :
    MoodProblem α → Option (HState α)
  | .implode => some (implodeMood d3 S (xMood S P D c.i) (yMood S P D c.j) (zMood S P D c.k))
  | .blast q => some (blastState d3 S q (xMood S P D c.i) (yMood S P D c.j) (zMood S P D c.k))
  | .fourQuadrant n xt yt => some (quadrantState (quadrantStates S n) xt yt (xMood S P D c.i) (yMood S P D c.j))
  | .kelvinHelmholtz q rnd => khMood d3 S D q (rnd c) (xMood S P D c.i) (yMood S P D c.j) (zMood S P D c.k)
  | .vortex q w_a n junk => some (vortexMood d3 S q w_a n (junk c) (xMood S P D c.i) (yMood S P D c.j))

/-- `Kokkos::parallel_for(nbCells, functor)` (`src/mood/SolverHydroMood.h:1538-1651`). -/
def moodInit (lay : Layout) (d3 : Bool) (S : Settings α) (P : Grid) (D : Domain α) (U : ℕ)
    (Q : MoodProblem α) : Launch Addr α :=
  Mood.rangeCells lay d3 P fun c =>
    fillState [onePt] P.nbvar (fun c _ iv => c.at U iv) (fun _ => moodState d3 S P D c Q) c

/-! ### Choice of the problem -/

/-- The branch taken by the constructor of the SDM solver (`src/sdm/SolverHydroSDM.h:665-723`). -/
inductive SdmBranch
  | sod | implode | blast | fourQuadrant | kelvinHelmholtz | gresho | wedge | jet | vortex | shuOsher
  deriving DecidableEq

@[inherit_doc SdmBranch] def sdmBranch (name : String) : SdmBranch :=
  if name = "sod" then .sod
  else if name = "implode" then .implode
  else if name = "blast" then .blast
  else if name = "four_quadrant" then .fourQuadrant
  else if name = "kelvin-helmholtz" ∨ name = "kelvin_helmholtz" then .kelvinHelmholtz
  else if name = "gresho-vortex" ∨ name = "gresho_vortex" then .gresho
  else if name = "wedge" then .wedge
  else if name = "jet" then .jet
  else if name = "isentropic_vortex" then .vortex
  else if name = "shu_osher" then .shuOsher
  else .implode

/-- The branch taken by the constructor of the MOOD solver (`src/mood/SolverHydroMood.h:385-422`). -/
inductive MoodBranch
  | implode | blast | fourQuadrant | kelvinHelmholtz | wedge | vortex
  deriving DecidableEq

@[inherit_doc MoodBranch] def moodBranch (name : String) : MoodBranch :=
  if name = "implode" then .implode
  else if name = "blast" then .blast
  else if name = "four_quadrant" then .fourQuadrant
  else if name = "kelvin-helmholtz" ∨ name = "kelvin_helmholtz" then .kelvinHelmholtz
  else if name = "wedge" then .wedge
  else if name = "isentropic_vortex" then .vortex
  else .fourQuadrant

end Verif.Start
