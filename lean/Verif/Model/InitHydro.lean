import Verif.Model.InitMhd
import Verif.Model.HydroMuscl

/-!
# Initial conditions of the hydro solver

`src/muscl/HydroInitFunctors2D.h`, `src/muscl/HydroInitFunctors3D.h`, `SolverHydroMuscl::init`
(`src/muscl/SolverHydroMuscl.cpp`) and the end of the constructor of `SolverHydroMuscl`.  Conventions as in
`Verif.Model.InitMhd`; 2D and 3D are modelled together where the code is parallel.
-/

namespace Verif

open ROps TOps

variable {α : Type} [TOps α]

/-- `x = xmin + dx / 2 + (i + nx * i_mpi - ghostWidth) * dx`, in all functors
(e.g. `src/muscl/HydroInitFunctors2D.h:81`). -/
def xAt (S : Settings α) (P : Grid) (D : Domain α) (i : Int) : α :=
  D.xmin + S.dx / lit 2 + lit ((i + P.nx * D.i_mpi - P.ghostWidth : Int) : ℚ) * S.dx
/-- The same in direction `y` (e.g. `src/muscl/HydroInitFunctors2D.h:82`). -/
def yAt (S : Settings α) (P : Grid) (D : Domain α) (j : Int) : α :=
  D.ymin + S.dy / lit 2 + lit ((j + P.ny * D.j_mpi - P.ghostWidth : Int) : ℚ) * S.dy
/-- The same in direction `z` (e.g. `src/muscl/HydroInitFunctors3D.h:123`). -/
def zAt (S : Settings α) (P : Grid) (D : Domain α) (k : Int) : α :=
  D.zmin + S.dz / lit 2 + lit ((k + P.nz * D.k_mpi - P.ghostWidth : Int) : ℚ) * S.dz

/-! ### Parameters -/

/-- `GreshoParams` (`src/shared/problems/GreshoParams.h:15-36`); the advection velocity `u, v, w` is read
but not used by any functor modelled here. -/
structure GreshoParams (α : Type) where
  rho0 : α
  Ma : α

/-- `IsentropicVortexParams` (`src/shared/problems/IsentropicVortexParams.h:12-69`), the members the
functor uses. -/
structure IsentropicVortexParams (α : Type) where
  rho_a : α
  T_a : α
  u_a : α
  v_a : α
  vortex_x : α
  vortex_y : α
  beta : α

/-- `RayleighTaylorInstabilityParams`
(`src/shared/problems/RayleighTaylorInstabilityParams.h:12-38`), the members the functors use. -/
structure RayleighTaylorParams (α : Type) where
  amplitude : α
  d0 : α
  d1 : α
  gx : α
  gy : α
  gz : α

/-- `RisingBubbleParams` (`src/shared/problems/RisingBubbleParams.h:13-38`). -/
structure RisingBubbleParams (α : Type) where
  R : α
  x0 : α
  y0 : α
  z0 : α
  din : α
  dout : α
  gx : α
  gy : α
  gz : α

/-- `DiskParams` (`src/shared/problems/DiskParams.h:12-82`). -/
structure DiskParams (α : Type) where
  radius : α
  radius_inner : α
  xc : α
  yc : α
  zc : α
  ref_density : α
  contrast_density : α
  contrast_width : α
  ref_sound_speed : α

/-- `radial_speed_of_sound` (`src/shared/problems/DiskParams.h:61-80`). -/
def DiskParams.radial_speed_of_sound (p : DiskParams α) (r : α) : α :=
  if ltb r p.radius_inner then p.ref_sound_speed / sqrt (p.radius_inner / p.radius)
  else p.ref_sound_speed / sqrt (r / p.radius)

/-- `PointSourceGravity` (`src/shared/problems/PointSourceGravity.h:16-38`). -/
structure PointSourceGravity (α : Type) where
  xs : α
  ys : α
  zs : α
  GM : α
  eps : α

/-- `eval` (`src/shared/problems/PointSourceGravity.h:79-91`). -/
def PointSourceGravity.eval (g : PointSourceGravity α) (x y z : α) : α × α × α :=
  let r := sqrt ((x - g.xs) * (x - g.xs) + (y - g.ys) * (y - g.ys) + (z - g.zs) * (z - g.zs) +
    g.eps * g.eps)
  let GM2 := g.GM / (r * r * r)
  (GM2 * (g.xs - x), GM2 * (g.ys - y), GM2 * (g.zs - z))

/-! ### Values stored -/

/-- `InitImplodeFunctor2D` (`src/muscl/HydroInitFunctors2D.h:55-119`) and `InitImplodeFunctor3D`
(`src/muscl/HydroInitFunctors3D.h:89-164`). -/
def implodeHydro (d3 : Bool) (S : Settings α) (P : Grid) (D : Domain α) (p : ImplodeParams α)
    (c : Cell) : List (Nat × α) :=
  let x := xAt S P D c.i
  let y := yAt S P D c.j
  let z := zAt S P D c.k
  let tmp :=
    if d3 then
      if p.shape = 1 then gtb (x + y + z) (lit (1/2)) && ltb (x + y + z) (lit (5/2))
      else gtb (x + y + z) ((D.xmin + D.xmax) / lit 2 + D.ymin + D.zmin)
    else
      if p.shape = 1 then gtb (x + y * y) (lit (1/2)) && ltb (x + y * y) (lit (3/2))
      else gtb (x + y) ((D.xmin + D.xmax) / lit 2 + D.ymin)
  let all (rho pr u v w : α) : List (Nat × α) :=
    if d3 then
      [(ID, rho), (IP, pr / (S.gamma0 - lit 1) + lit (1/2) * rho * (u * u + v * v + w * w)),
       (IU, u), (IV, v), (IW, w)]
    else
      [(ID, rho), (IP, pr / (S.gamma0 - lit 1) + lit (1/2) * rho * (u * u + v * v)),
       (IU, u), (IV, v)]
  if tmp then all p.rho_out p.p_out p.u_out p.v_out p.w_out
  else all p.rho_in p.p_in p.u_in p.v_in p.w_in

/-- `InitBlastFunctor2D` (`src/muscl/HydroInitFunctors2D.h:149-206`) and `InitBlastFunctor3D`
(`src/muscl/HydroInitFunctors3D.h:194-261`). -/
def blastHydro (d3 : Bool) (S : Settings α) (P : Grid) (D : Domain α) (p : BlastParams α)
    (c : Cell) : List (Nat × α) :=
  let radius2 := p.blast_radius * p.blast_radius
  let x := xAt S P D c.i
  let y := yAt S P D c.j
  let z := zAt S P D c.k
  let d2 := (x - p.blast_center_x) * (x - p.blast_center_x) +
    (y - p.blast_center_y) * (y - p.blast_center_y)
  let d2 := if d3 then d2 + (z - p.blast_center_z) * (z - p.blast_center_z) else d2
  let all (rho pr : α) : List (Nat × α) :=
    [(ID, rho), (IP, pr / (S.gamma0 - lit 1)), (IU, lit 0), (IV, lit 0)] ++
      (if d3 then [(IW, lit 0)] else [])
  if ltb d2 radius2 then all p.blast_density_in p.blast_pressure_in
  else all p.blast_density_out p.blast_pressure_out

/-- `InitKelvinHelmholtzFunctor2D` (`src/muscl/HydroInitFunctors2D.h:237-338`).  Nothing is written unless
one of the two perturbations is selected. -/
def khHydro2 (S : Settings α) (P : Grid) (D : Domain α) (p : KHParams α) (rnd : Cell → Nat → α)
    (c : Cell) : List (Nat × α) :=
  let x := xAt S P D c.i
  let y := yAt S P D c.j
  let yn := (y - D.ymin) / (D.ymax - D.ymin)
  let all (d u v : α) : List (Nat × α) :=
    [(ID, d), (IU, d * u), (IV, d * v),
     (IP, p.pressure / (S.gamma0 - lit 1) + lit (1/2) * d * (u * u + v * v))]
  if p.p_rand then
    let out := ltb yn (lit (1/4)) || gtb yn (lit (3/4))
    let d := if out then p.d_out else p.d_in
    let u := if out then p.vflow_out else p.vflow_in
    all d (u + p.amplitude * (rnd c 0 - lit (1/2))) (lit 0 + p.amplitude * (rnd c 1 - lit (1/2)))
  else if p.p_sine_rob then
    let ramp := lit 1 / (lit 1 + exp (lit 2 * (y - lit (1/4)) / p.delta)) +
      lit 1 / (lit 1 + exp (lit 2 * (lit (3/4) - y) / p.delta))
    all (p.d_in + ramp * (p.d_out - p.d_in)) (p.vflow_in + ramp * (p.vflow_out - p.vflow_in))
      (p.w0 * sin (lit (p.mode : ℚ) * pi * x))
  else []

/-- `InitKelvinHelmholtzFunctor3D` (`src/muscl/HydroInitFunctors3D.h:292-415`). -/
def khHydro3 (S : Settings α) (P : Grid) (D : Domain α) (p : KHParams α) (rnd : Cell → Nat → α)
    (c : Cell) : List (Nat × α) :=
  let x := xAt S P D c.i
  let y := yAt S P D c.j
  let z := zAt S P D c.k
  let zn := (z - D.zmin) / (D.zmax - D.zmin)
  let all (d u v w : α) : List (Nat × α) :=
    [(ID, d), (IU, d * u), (IV, d * v), (IW, d * w),
     (IP, p.pressure / (S.gamma0 - lit 1) + lit (1/2) * d * (u * u + v * v + w * w))]
  if p.p_rand then
    let out := ltb zn (lit (1/4)) || gtb zn (lit (3/4))
    let d := if out then p.d_out else p.d_in
    let u := if out then p.vflow_out else p.vflow_in
    all d (u + p.amplitude * (rnd c 0 - lit (1/2))) (lit 0 + p.amplitude * (rnd c 1 - lit (1/2)))
      (lit 0 + p.amplitude * (rnd c 2 - lit (1/2)))
  else if p.p_sine_rob then
    let ramp := lit 1 / (lit 1 + exp (lit 2 * (z - lit (1/4)) / p.delta)) +
      lit 1 / (lit 1 + exp (lit 2 * (lit (3/4) - z) / p.delta))
    all (p.d_in + ramp * (p.d_out - p.d_in)) (p.vflow_in + ramp * (p.vflow_out - p.vflow_in))
      (p.vflow_in / lit 2 + ramp * (p.vflow_out / lit 2 - p.vflow_in / lit 2))
      (p.w0 * sin (lit (p.mode : ℚ) * pi * x) * sin (lit (p.mode : ℚ) * pi * y))
  else []

/-- Angular velocity times radius and pressure of the Gresho vortex at radius `r`
(`src/muscl/HydroInitFunctors2D.h:414-433`, `src/muscl/HydroInitFunctors3D.h:500-519`). -/
def greshoProfile (p0 r : α) : α × α :=
  if ltb r (lit (1/5)) then (lit 5 * r, p0 + lit 25 / lit 2 * r * r)
  else if ltb r (lit (2/5)) then
    (lit 2 - lit 5 * r, p0 + lit 25 / lit 2 * r * r +
      lit 4 * (lit 1 - lit 5 * r - log (lit (1/5)) + log r))
  else (lit 0, p0 - lit 2 + lit 4 * log (lit 2))

/-- `InitGreshoVortexFunctor2D` (`src/muscl/HydroInitFunctors2D.h:372-443`) and
`InitGreshoVortexFunctor3D` (`src/muscl/HydroInitFunctors3D.h:449-532`). -/
def greshoHydro (d3 : Bool) (S : Settings α) (P : Grid) (D : Domain α) (p : GreshoParams α)
    (c : Cell) : List (Nat × α) :=
  let p0 := p.rho0 / (S.gamma0 * p.Ma * p.Ma)
  let x := xAt S P D c.i
  let y := yAt S P D c.j
  let r := sqrt (x * x + y * y)
  let theta := atan2 y x
  let cosT := cos theta
  let sinT := sin theta
  let prof := greshoProfile p0 r
  let uphi := prof.1
  let pr := prof.2
  let iu := p.rho0 * (-sinT * uphi)
  let iv := p.rho0 * (cosT * uphi)
  let iw := p.rho0 * (cosT * uphi)
  if d3 then
    [(ID, p.rho0), (IU, iu), (IV, iv), (IW, iw),
     (IP, pr / (S.gamma0 - lit 1) + lit (1/2) * (iu * iu + iv * iv + iw * iw) / p.rho0)]
  else
    [(ID, p.rho0), (IU, iu), (IV, iv),
     (IP, pr / (S.gamma0 - lit 1) + lit (1/2) * (iu * iu + iv * iv) / p.rho0)]

/-- Four states, quarter by quarter. -/
structure Quadrants (α : Type) where
  U0 : HState α
  U1 : HState α
  U2 : HState α
  U3 : HState α

/-- A `case` of a `switch`: its number, the values it assigns to all sixteen variables, and whether it ends
with `break`. -/
structure RiemannCase where
  label : Int
  values : Quadrants ℚ
  brk : Bool

/-- The cases of `getRiemannConfig2d` in their order
(`src/shared/problems/initRiemannConfig2d.h:49-486`).  A state is `⟨ID, IP, IU, IV, 0⟩`. -/
def riemannCases : List RiemannCase := [
  ⟨0, ⟨⟨1.0, 1.0, 0.0, 0.0, 0⟩, ⟨0.5197, 0.4, -0.7259, 0.0, 0⟩,
    ⟨0.1072, 0.0439, -0.7259, -1.4045, 0⟩, ⟨0.2579, 0.15, 0.0, -1.4045, 0⟩⟩, true⟩,
  ⟨1, ⟨⟨1.0, 1.0, 0.0, 0.0, 0⟩, ⟨0.5197, 0.4, -0.7259, 0.0, 0⟩,
    ⟨1.0, 1.0, -0.7259, -0.7259, 0⟩, ⟨0.5197, 0.4, 0.0, -0.7259, 0⟩⟩, true⟩,
  ⟨2, ⟨⟨1.5, 1.5, 0.0, 0.0, 0⟩, ⟨0.5323, 0.3, 1.206, 0.0, 0⟩,
    ⟨0.138, 0.029, 1.206, 1.206, 0⟩, ⟨0.5323, 0.3, 0.0, 1.206, 0⟩⟩, true⟩,
  ⟨3, ⟨⟨1.1, 1.1, 0.0, 0.0, 0⟩, ⟨0.5065, 0.35, 0.8939, 0.0, 0⟩,
    ⟨1.1, 1.1, 0.8939, 0.8939, 0⟩, ⟨0.5065, 0.35, 0.0, 0.8939, 0⟩⟩, true⟩,
  ⟨4, ⟨⟨1.0, 1.0, -0.75, -0.5, 0⟩, ⟨2.0, 1.0, -0.75, 0.5, 0⟩,
    ⟨1.0, 1.0, 0.75, 0.5, 0⟩, ⟨3.0, 1.0, 0.75, -0.5, 0⟩⟩, true⟩,
  ⟨5, ⟨⟨1.0, 1.0, 0.75, -0.5, 0⟩, ⟨2.0, 0.5, 0.75, 0.5, 0⟩,
    ⟨1.0, 1.0, -0.75, 0.5, 0⟩, ⟨3.0, 1.0, -0.75, -0.5, 0⟩⟩, true⟩,
  ⟨6, ⟨⟨1.0, 1.0, 0.1, 0.1, 0⟩, ⟨0.5197, 0.4, -0.6259, 0.1, 0⟩,
    ⟨0.8, 0.4, 0.1, 0.1, 0⟩, ⟨0.5197, 0.4, 0.1, -0.6259, 0⟩⟩, true⟩,
  ⟨7, ⟨⟨0.5197, 0.4, 0.1, 0.1, 0⟩, ⟨1.0, 1.0, -0.6259, 0.1, 0⟩,
    ⟨0.8, 1.0, 0.1, 0.1, 0⟩, ⟨1.0, 1.0, 0.1, -0.6259, 0⟩⟩, true⟩,
  ⟨8, ⟨⟨1.0, 1.0, 0.0, 0.3, 0⟩, ⟨2.0, 1.0, 0.0, -0.3, 0⟩,
    ⟨1.039, 0.4, 0.0, -0.8133, 0⟩, ⟨0.5197, 0.4, 0.0, -0.4259, 0⟩⟩, true⟩,
  ⟨9, ⟨⟨1.0, 1.0, 0.0, 0.4297, 0⟩, ⟨0.5, 1.0, 0.0, 0.6076, 0⟩,
    ⟨0.2281, 0.3333, 0.0, -0.6076, 0⟩, ⟨0.4562, 0.3333, 0.0, -0.4259, 0⟩⟩, true⟩,
  ⟨10, ⟨⟨1.0, 1.0, 0.1, 0.0, 0⟩, ⟨0.5313, 0.4, 0.8276, 0.0, 0⟩,
    ⟨0.8, 0.4, 0.1, 0.0, 0⟩, ⟨0.5313, 0.4, 0.1, 0.7276, 0⟩⟩, true⟩,
  ⟨11, ⟨⟨0.5313, 0.4, 0.0, 0.0, 0⟩, ⟨1.0, 1.0, 0.7276, 0.0, 0⟩,
    ⟨0.8, 1.0, 0.0, 0.0, 0⟩, ⟨1.0, 1.0, 0.0, 0.7276, 0⟩⟩, true⟩,
  ⟨12, ⟨⟨1.0, 1.0, 0.0, -0.3, 0⟩, ⟨2.0, 1.0, 0.0, 0.3, 0⟩,
    ⟨1.0625, 0.4, 0.0, 0.8145, 0⟩, ⟨0.5313, 0.4, 0.0, 0.4276, 0⟩⟩, true⟩,
  ⟨13, ⟨⟨2.0, 8.0, 0.0, -0.5606, 0⟩, ⟨1.0, 8.0, 0.0, -1.2172, 0⟩,
    ⟨0.4736, 2.6667, 0.0, 1.2172, 0⟩, ⟨0.9474, 2.6667, 0.0, 1.1606, 0⟩⟩, true⟩,
  ⟨14, ⟨⟨1.0, 1.0, 0.1, -0.3, 0⟩, ⟨0.5197, 0.4, -0.6259, -0.3, 0⟩,
    ⟨0.8, 0.4, 0.1, -0.3, 0⟩, ⟨0.5313, 0.4, 0.1, 0.4276, 0⟩⟩, true⟩,
  ⟨15, ⟨⟨0.5313, 0.4, 0.1, 0.1, 0⟩, ⟨1.0222, 1.0, -0.6179, 0.1, 0⟩,
    ⟨0.8, 1.0, 0.1, 0.1, 0⟩, ⟨1.0, 1.0, 0.1, 0.8276, 0⟩⟩, true⟩,
  ⟨16, ⟨⟨1.0, 1.0, 0.0, -0.4, 0⟩, ⟨2.0, 1.0, 0.0, -0.3, 0⟩,
    ⟨1.0625, 0.4, 0.0, 0.2145, 0⟩, ⟨0.5197, 0.4, 0.0, -1.1259, 0⟩⟩, true⟩,
  ⟨17, ⟨⟨1.0, 1.0, 0.0, 1.0, 0⟩, ⟨2.0, 1.0, 0.0, -0.3, 0⟩,
    ⟨1.0625, 0.4, 0.0, 0.2145, 0⟩, ⟨0.5197, 0.4, 0.0, 0.2741, 0⟩⟩, true⟩,
  ⟨18, ⟨⟨1.0, 1.0, 0.0, 0.3, 0⟩, ⟨2.0, 1.0, 0.0, -0.3, 0⟩,
    ⟨1.0625, 0.4, 0.0, 0.2145, 0⟩, ⟨0.5197, 0.4, 0.0, -0.4259, 0⟩⟩, false⟩]

/-- The `default` case (`src/shared/problems/initRiemannConfig2d.h:488-508`). -/
def riemannDefault : Quadrants ℚ :=
  ⟨⟨1.0, 1.0, 0.0, 0.0, 0⟩, ⟨0.5197, 0.4, -0.7259, 0.0, 0⟩,
   ⟨0.1072, 0.0439, -0.7259, -1.4045, 0⟩, ⟨0.2579, 0.15, 0.0, -1.4045, 0⟩⟩

/-- Execution of the statements of a `switch` from a label on: assignments up to the next `break`; the
last case is `default`.  Every case assigns all variables, so only the last one executed counts. -/
def runCases : List RiemannCase → Quadrants ℚ
  | [] => riemannDefault
  | c :: l => if c.brk then c.values else runCases l

/-- `getRiemannConfig2d` (`src/shared/problems/initRiemannConfig2d.h:40-510`). -/
def getRiemannConfig2d (numConfig : Int) : Quadrants ℚ :=
  runCases (riemannCases.dropWhile fun c => c.label ≠ numConfig)

/-- Literals of a state. -/
def litState (q : HState ℚ) : HState α := ⟨lit q.d, lit q.p, lit q.u, lit q.v, lit q.w⟩

/-- `primToCons_2D` (`src/shared/problems/initRiemannConfig2d.h:23-38`). -/
def primToCons_2D (gamma0 : α) (U : HState α) : HState α where
  d := U.d
  p := U.p / (gamma0 - lit 1) + U.d * (U.u * U.u + U.v * U.v) * lit (1/2)
  u := U.u * U.d
  v := U.v * U.d
  w := U.w

/-- The four quadrants of `init_four_quadrant` (`src/muscl/SolverHydroMuscl.cpp:79-85`). -/
def quadrantStates (S : Settings α) (configNumber : Int) : Quadrants α :=
  let q := getRiemannConfig2d configNumber
  ⟨primToCons_2D S.gamma0 (litState q.U0), primToCons_2D S.gamma0 (litState q.U1),
    primToCons_2D S.gamma0 (litState q.U2), primToCons_2D S.gamma0 (litState q.U3)⟩

/-- `InitFourQuadrantFunctor2D` (`src/muscl/HydroInitFunctors2D.h:494-559`). -/
def fourQuadrant (S : Settings α) (P : Grid) (D : Domain α) (q : Quadrants α) (xt yt : α)
    (c : Cell) : List (Nat × α) :=
  let x := xAt S P D c.i
  let y := yAt S P D c.j
  let all (U : HState α) : List (Nat × α) := [(ID, U.d), (IP, U.p), (IU, U.u), (IV, U.v)]
  if ltb x xt then
    if ltb y yt then all q.U2 else all q.U1
  else
    if ltb y yt then all q.U3 else all q.U0

/-- `InitIsentropicVortexFunctor2D` (`src/muscl/HydroInitFunctors2D.h:592-652`). -/
def isentropicVortex (S : Settings α) (P : Grid) (D : Domain α) (p : IsentropicVortexParams α)
    (c : Cell) : List (Nat × α) :=
  let x := xAt S P D c.i
  let y := yAt S P D c.j
  let xp := x - p.vortex_x
  let yp := y - p.vortex_y
  let r := sqrt (xp * xp + yp * yp)
  let du := -yp * p.beta / (lit 2 * pi) * exp (lit (1/2) * (lit 1 - r * r))
  let dv := xp * p.beta / (lit 2 * pi) * exp (lit (1/2) * (lit 1 - r * r))
  let T := p.T_a - (S.gamma0 - lit 1) * p.beta * p.beta / (lit 8 * S.gamma0 * pi * pi) *
    exp (lit 1 - r * r)
  let rho := p.rho_a * pow (T / p.T_a) (lit 1 / (S.gamma0 - lit 1))
  [(ID, rho), (IU, rho * (p.u_a + du)), (IV, rho * (p.v_a + dv)),
   (IP, rho * T / (S.gamma0 - lit 1) + lit (1/2) * rho * (p.u_a + du) * (p.u_a + du) +
      lit (1/2) * rho * (p.v_a + dv) * (p.v_a + dv))]

/-- State stored by `RayleighTaylorInstabilityFunctor2D` (`src/muscl/HydroInitFunctors2D.h:695-775`) and
`RayleighTaylorInstabilityFunctor3D` (`src/muscl/HydroInitFunctors3D.h:575-664`). -/
def rayleighTaylor (d3 : Bool) (S : Settings α) (P : Grid) (D : Domain α)
    (p : RayleighTaylorParams α) (c : Cell) : List (Nat × α) :=
  let x := xAt S P D c.i
  let y := yAt S P D c.j
  let z := zAt S P D c.k
  let Lx := D.xmax - D.xmin
  let Ly := D.ymax - D.ymin
  let P0 : α := lit 1
  let pert := p.amplitude * (lit 1 + cos (lit 2 * pi * x / Lx)) *
    (lit 1 + cos (lit 2 * pi * y / Ly)) / lit 4
  if d3 then
    let d := if gtb z ((D.zmin + D.zmax) / lit 2) then p.d1 else p.d0
    [(ID, d), (IU, lit 0), (IV, lit 0), (IW, pert),
     (IP, (P0 + d * (p.gx * x + p.gy * y + p.gz * z)) / (S.gamma0 - lit 1))]
  else
    let d := if gtb y ((D.ymin + D.ymax) / lit 2) then p.d1 else p.d0
    [(ID, d), (IU, lit 0), (IV, pert),
     (IP, (P0 + d * (p.gx * x + p.gy * y)) / (S.gamma0 - lit 1))]

/-- State stored by `RisingBubbleFunctor2D` (`src/muscl/HydroInitFunctors2D.h:819-890`) and
`RisingBubbleFunctor3D` (`src/muscl/HydroInitFunctors3D.h:709-789`). -/
def risingBubble (d3 : Bool) (S : Settings α) (P : Grid) (D : Domain α) (p : RisingBubbleParams α)
    (c : Cell) : List (Nat × α) :=
  let x := xAt S P D c.i
  let y := yAt S P D c.j
  let z := zAt S P D c.k
  let P0 : α := lit 1
  let r2 := (x - p.x0) * (x - p.x0) + (y - p.y0) * (y - p.y0)
  let r := sqrt (if d3 then r2 + (z - p.z0) * (z - p.z0) else r2)
  let d := if ltb r p.R then p.din else p.dout
  if d3 then
    [(ID, d), (IU, lit 0), (IV, lit 0), (IW, lit 0),
     (IP, (P0 + d * (p.gx * x + p.gy * y + p.gz * z)) / (S.gamma0 - lit 1))]
  else
    [(ID, d), (IU, lit 0), (IV, lit 0),
     (IP, (P0 + d * (p.gx * x + p.gy * y)) / (S.gamma0 - lit 1))]

/-- Components of the gravity field stored by both functors (`src/muscl/HydroInitFunctors2D.h:777-779`,
`:892-894`, `src/muscl/HydroInitFunctors3D.h:666-669`, `:791-794`). -/
def gravityList (d3 : Bool) (gx gy gz : α) : List (Nat × α) :=
  [(0, gx), (1, gy)] ++ if d3 then [(2, gz)] else []

/-- Position relative to the centre of the disk (`src/muscl/HydroInitFunctors2D.h:974-976`,
`src/muscl/HydroInitFunctors3D.h:879-881`). -/
def diskPos (d3 : Bool) (S : Settings α) (P : Grid) (D : Domain α) (p : DiskParams α) (c : Cell) :
    α × α × α :=
  (xAt S P D c.i - p.xc, yAt S P D c.j - p.yc, if d3 then zAt S P D c.k - p.zc else lit 0)

/-- State stored by `InitDiskFunctor2D` (`src/muscl/HydroInitFunctors2D.h:988-1049`) and
`InitDiskFunctor3D` (`src/muscl/HydroInitFunctors3D.h:895-957`). -/
def diskHydro (d3 : Bool) (S : Settings α) (P : Grid) (D : Domain α) (p : DiskParams α)
    (g : PointSourceGravity α) (c : Cell) : List (Nat × α) :=
  let pos := diskPos d3 S P D p c
  let x := pos.1
  let y := pos.2.1
  let z := pos.2.2
  let GM := g.GM
  let eps := g.eps
  let r2 := x * x + y * y
  let r := sqrt r2
  let r_soft := sqrt (r2 + eps * eps)
  let r_sph := sqrt (r2 + eps * eps + z * z)
  let x_soft := x * (r_soft / r)
  let y_soft := y * (r_soft / r)
  let csound := p.radial_speed_of_sound r
  let omega2 :=
    if geb r p.radius_inner then
      GM / (r_soft * r_soft * r_sph) - lit (7/2) * (csound / r_soft) * (csound / r_soft)
    else GM / (r_soft * r_soft * r_soft) - lit (5/2) * (csound / r_soft) * (csound / r_soft)
  let omega := sqrt (fmax omega2 (lit 0))
  let rho := p.ref_density * pow (r_soft / p.radius) (lit (-5/2)) *
    exp (GM / (csound * csound) * (lit 1 / r_sph - lit 1 / r_soft))
  let rho :=
    if gtb r p.radius || gtb (fabs z) (lit (1/2) * p.radius) then
      if gtb r (p.radius + p.contrast_width) ||
          gtb (fabs z) (lit (1/2) * p.radius + p.contrast_width) then rho / p.contrast_density
      else
        let cutdown := fmax ((r - p.radius) / p.contrast_width)
          ((fabs z - lit (1/2) * p.radius) / p.contrast_width)
        rho * pow p.contrast_density (-cutdown)
    else rho
  let rho := fmax rho (lit (1/1000000))
  let pressure := csound * csound * rho
  [(ID, rho), (IU, -y_soft * omega * rho), (IV, x_soft * omega * rho)] ++
    (if d3 then [(IW, lit 0)] else []) ++
    [(IP, pressure / (S.gamma0 - lit 1) + lit (1/2) * rho * omega2 * (r2 + eps * eps))]

/-! ### Choice of the problem -/

/-- A problem with its parameters. -/
inductive HydroProblem (α : Type) where
  | implode (p : ImplodeParams α)
  | blast (p : BlastParams α)
  | kelvinHelmholtz (p : KHParams α) (rnd : Cell → Nat → α)
  | gresho (p : GreshoParams α)
  | fourQuadrant (configNumber : Int) (xt yt : α)
  | isentropicVortex (p : IsentropicVortexParams α)
  | rayleighTaylor (p : RayleighTaylorParams α)
  | risingBubble (p : RisingBubbleParams α)
  | disk (p : DiskParams α) (g : PointSourceGravity α)

/-- State stored in a cell. -/
def hydroValues (d3 : Bool) (S : Settings α) (P : Grid) (D : Domain α) :
    HydroProblem α → Cell → List (Nat × α)
  | .implode p => implodeHydro d3 S P D p
  | .blast p => blastHydro d3 S P D p
  | .kelvinHelmholtz p rnd => if d3 then khHydro3 S P D p rnd else khHydro2 S P D p rnd
  | .gresho p => greshoHydro d3 S P D p
  | .fourQuadrant n xt yt => Verif.fourQuadrant S P D (quadrantStates S n) xt yt
  | .isentropicVortex p => Verif.isentropicVortex S P D p
  | .rayleighTaylor p => Verif.rayleighTaylor d3 S P D p
  | .risingBubble p => Verif.risingBubble d3 S P D p
  | .disk p g => diskHydro d3 S P D p g

/-- Gravity field stored in a cell, by the problems that have one. -/
def hydroGravity (d3 : Bool) (S : Settings α) (P : Grid) (D : Domain α) :
    HydroProblem α → Cell → List (Nat × α)
  | .rayleighTaylor p, _ => gravityList d3 p.gx p.gy p.gz
  | .risingBubble p, _ => gravityList d3 p.gx p.gy p.gz
  | .disk p g, c =>
    let pos := diskPos d3 S P D p c
    let e := g.eval pos.1 pos.2.1 pos.2.2
    gravityList d3 e.1 e.2.1 e.2.2
  | _, _ => []

/-- The loop launched by the functor of a problem.  (The disk functors store the gravity field before the
state; the order within one work item is of no consequence.) -/
def hydroInitLoop (d3 : Bool) (S : Settings α) (P : Grid) (D : Domain α) (U : Nat)
    (Q : HydroProblem α) : Launch Addr α :=
  mdrange d3 P fun c =>
    (stores U c (hydroValues d3 S P D Q c)).bind fun _ => stores aG c (hydroGravity d3 S P D Q c)

/-- All sets of problem parameters, each read from the parameter file by its constructor. -/
structure HydroProblems (α : Type) where
  implode : ImplodeParams α
  blast : BlastParams α
  kh : KHParams α
  rnd : Cell → Nat → α
  gresho : GreshoParams α
  configNumber : Int
  xt : α
  yt : α
  vortex : IsentropicVortexParams α
  rti : RayleighTaylorParams α
  bubble : RisingBubbleParams α
  disk : DiskParams α
  grav : PointSourceGravity α

/-- Choice of the problem by `SolverHydroMuscl<2>::init` (`src/muscl/SolverHydroMuscl.cpp:106-181`) and
`SolverHydroMuscl<3>::init` (`:185-250`), without restart. -/
def hydroProblem (d3 : Bool) (A : HydroProblems α) (name : String) : HydroProblem α :=
  if name = "implode" then .implode A.implode
  else if name = "blast" then .blast A.blast
  else if name = "kelvin_helmholtz" then .kelvinHelmholtz A.kh A.rnd
  else if name = "gresho_vortex" then .gresho A.gresho
  else if d3 = false ∧ name = "four_quadrant" then .fourQuadrant A.configNumber A.xt A.yt
  else if d3 = false ∧ name = "isentropic_vortex" then .isentropicVortex A.vortex
  else if name = "rayleigh_taylor" then .rayleighTaylor A.rti
  else if name = "rising_bubble" then .risingBubble A.bubble
  else if name = "disk" then .disk A.disk A.grav
  else .implode A.implode

/-- End of the constructor of `SolverHydroMuscl` (`src/muscl/SolverHydroMuscl.h:290-297`), without MPI,
before the time step is computed. -/
def hydroSetup (d3 : Bool) (S : Settings α) (P : Grid) (D : Domain α) (Q : HydroProblem α) :
    List (Launch Addr α) :=
  hydroInitLoop d3 S P D aU Q :: (hydroBoundaries d3 P aU ++ [deepCopy d3 P aU2 aU])

end Verif
