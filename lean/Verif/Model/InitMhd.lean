import Verif.Model.Trig
import Verif.Model.MhdMuscl

/-!
# Initial conditions of the MHD solvers

`src/muscl/MHDInitFunctors2D.h`, `src/muscl/MHDInitFunctors3D.h`, `SolverMHDMuscl::init` and the end of
the constructor of `SolverMHDMuscl`.

Conventions.  A statement `Udata(i,j,v) = x` is a pair `(v, x)` in the list given to `stores`.  Where the
code reads back a value that the same work item has just stored in its own cell, the model uses the
stored value (same value, no other work item writes that cell).  `double` and `real_t` are the same type.
`drand()` number `n` of the work item of cell `c` is `rnd c n`: any numbers.  Machine integers are not
bounded (`nx * i_mpi`, `nx * nx` do not overflow).
-/

namespace Verif

open ROps TOps

/-- Extent of the whole domain and position of the process in the process grid
(`HydroParams::xmin` … `zmax`, `src/shared/HydroParams.h:104-109`, `myMpiPos`, `:155`; the position is
`0` in a build without MPI). -/
structure Domain (α : Type) where
  xmin : α
  xmax : α
  ymin : α
  ymax : α
  zmin : α
  zmax : α
  i_mpi : Int
  j_mpi : Int
  k_mpi : Int

variable {α : Type} [TOps α]

/-- `TWOPI_F` (`src/shared/real_type.h:75`). -/
def twopi : α := lit 2 * pi

/-- `SQR(x)` -/
def sqr (x : α) : α := x * x

/-- `x = xmin + dx / 2 + (i + nx * i_mpi - ghostWidth) * dx`, in all functors
(e.g. `src/muscl/MHDInitFunctors2D.h:82`). -/
def xPos (S : MSettings α) (P : Grid) (D : Domain α) (i : Int) : α :=
  D.xmin + S.dx / lit 2 + lit ((i + P.nx * D.i_mpi - P.ghostWidth : Int) : ℚ) * S.dx
/-- The same in direction `y` (e.g. `src/muscl/MHDInitFunctors2D.h:83`). -/
def yPos (S : MSettings α) (P : Grid) (D : Domain α) (j : Int) : α :=
  D.ymin + S.dy / lit 2 + lit ((j + P.ny * D.j_mpi - P.ghostWidth : Int) : ℚ) * S.dy
/-- The same in direction `z` (e.g. `src/muscl/MHDInitFunctors3D.h:87`). -/
def zPos (S : MSettings α) (P : Grid) (D : Domain α) (k : Int) : α :=
  D.zmin + S.dz / lit 2 + lit ((k + P.nz * D.k_mpi - P.ghostWidth : Int) : ℚ) * S.dz

/-- Statements `Udata(i, j, v) = x`, in order. -/
def stores (U : Nat) (c : Cell) : List (Nat × α) → K Addr α Unit
  | [] => .ret ()
  | (v, x) :: l => (K.store (c.at U v) x).bind fun _ => stores U c l

/-! ### Parameters -/

/-- `ImplodeParams` (`src/shared/problems/ImplodeParams.h`). -/
structure ImplodeParams (α : Type) where
  rho_out : α
  p_out : α
  u_out : α
  v_out : α
  w_out : α
  Bx_out : α
  By_out : α
  Bz_out : α
  rho_in : α
  p_in : α
  u_in : α
  v_in : α
  w_in : α
  Bx_in : α
  By_in : α
  Bz_in : α
  shape : Int

/-- `BlastParams` (`src/shared/problems/BlastParams.h`). -/
structure BlastParams (α : Type) where
  blast_radius : α
  blast_center_x : α
  blast_center_y : α
  blast_center_z : α
  blast_density_in : α
  blast_density_out : α
  blast_pressure_in : α
  blast_pressure_out : α

/-- `KHParams` (`src/shared/problems/KHParams.h`). -/
structure KHParams (α : Type) where
  d_in : α
  d_out : α
  pressure : α
  p_sine : Bool
  p_sine_rob : Bool
  p_rand : Bool
  vflow_in : α
  vflow_out : α
  amplitude : α
  mode : Int
  w0 : α
  delta : α

/-- `RotorParams` (`src/shared/problems/RotorParams.h`). -/
structure RotorParams (α : Type) where
  r0 : α
  r1 : α
  u0 : α
  p0 : α
  b0 : α

/-- `FieldLoopParams` (`src/shared/problems/FieldLoopParams.h`); `amp` and `seed` are not used. -/
structure FieldLoopParams (α : Type) where
  radius : α
  density_in : α
  amplitude : α
  vflow : α

/-- `WaveParams` (`src/shared/problems/WaveParams.h:9-29`). -/
structure WaveParams (α : Type) where
  wave_amplitude : α
  wave_V0 : α
  rev : Nat → α
  d0 : α
  p0 : α
  sin_a2 : α
  cos_a2 : α
  sin_a3 : α
  cos_a3 : α
  dby : α
  dbz : α
  bx0 : α
  by0 : α
  bz0 : α
  k_par : α

/-- Right eigenvector of each type of wave (`src/shared/problems/WaveParams.h:55-107`). -/
def waveRev (type : Int) (n : Nat) : ℚ :=
  if type = 0 then
    [4.472136e-01, -8.944272e-01, 4.216370e-01, 1.490712e-01, 2.012461, 8.432740e-01,
      2.981424e-01].getD n 0
  else if type = 1 then
    [0, 0, -3.333333e-01, 9.428090e-01, 0, -3.333333e-01, 9.428090e-01].getD n 0
  else if type = 2 then
    [8.944272e-01, -4.472136e-01, -8.432740e-01, -2.981424e-01, 6.708204e-01, -4.216370e-01,
      -1.490712e-01].getD n 0
  else [1, 1, 0, 0, 0.5, 0, 0].getD n 0

/-- Constructor of `WaveParams` from the extents read there, `gamma0`, `amplitude` and `type`
(`src/shared/problems/WaveParams.h:31-147`); `none`: the program exits. -/
def WaveParams.make (Lx Ly Lz gamma0 amplitude : α) (type : Int) : Option (WaveParams α) :=
  if type = 0 ∨ type = 1 ∨ type = 2 ∨ type = 3 then
    let rev := fun n => (lit (waveRev type n) : α)
    let ang_3 : α := atan (Lx / Ly)
    let sin_a3 := sin ang_3
    let cos_a3 := cos ang_3
    let ang_2 : α := atan (lit (1/2) * (Lx * cos_a3 + Ly * sin_a3) / Lz)
    let sin_a2 := sin ang_2
    let cos_a2 := cos ang_2
    let x1 := Lx * cos_a2 * cos_a3
    let x2 := Ly * cos_a2 * sin_a3
    let x3 := Lz * sin_a2
    let lambda := x1
    let lambda := if eqb ang_3 (lit 0) then lambda else fmin lambda x2
    let lambda := if eqb ang_2 (lit 0) then lambda else fmin lambda x3
    some
      { wave_amplitude := amplitude
        wave_V0 := if type = 3 then lit 1 else lit 0
        rev := rev
        d0 := lit 1
        p0 := lit 1 / gamma0
        sin_a2 := sin_a2
        cos_a2 := cos_a2
        sin_a3 := sin_a3
        cos_a3 := cos_a3
        dby := amplitude * rev 5
        dbz := amplitude * rev 6
        bx0 := lit 1
        by0 := sqrt (lit 2)
        bz0 := lit (1/2)
        k_par := lit 4 * asin (lit 1) / lambda }
  else none

/-! ### Implosion -/

/-- Values stored by `InitImplodeFunctor2D_MHD` (`src/muscl/MHDInitFunctors2D.h:58-134`). -/
def implode2 (S : MSettings α) (P : Grid) (D : Domain α) (p : ImplodeParams α) (c : Cell) :
    List (Nat × α) :=
  let x := xPos S P D c.i
  let y := yPos S P D c.j
  let tmp := if p.shape = 1 then gtb (x + y) (lit (1/2)) && ltb (x + y) (lit (5/2))
    else gtb (x + y) ((D.xmin + D.xmax) / lit 2 + D.ymin)
  if tmp then
    [(ID, p.rho_out),
     (IP, p.p_out / (S.gamma0 - lit 1) +
        lit (1/2) * p.rho_out * (p.u_out * p.u_out + p.v_out * p.v_out) +
        lit (1/2) * (p.Bx_out * p.Bx_out + p.By_out * p.By_out)),
     (IU, p.u_out), (IV, p.v_out), (IW, lit 0), (IA, p.Bx_out), (IB, p.By_out), (IC, lit 0)]
  else
    [(ID, p.rho_in),
     (IP, p.p_in / (S.gamma0 - lit 1) +
        lit (1/2) * p.rho_in * (p.u_in * p.u_in + p.v_in * p.v_in) +
        lit (1/2) * (p.Bx_in * p.Bx_in + p.By_in * p.By_in)),
     (IU, p.u_in), (IV, p.v_in), (IW, lit 0), (IA, p.Bx_in), (IB, p.By_in), (IC, lit 0)]

/-- Values stored by `InitImplodeFunctor3D_MHD` (`src/muscl/MHDInitFunctors3D.h:56-145`). -/
def implode3 (S : MSettings α) (P : Grid) (D : Domain α) (p : ImplodeParams α) (c : Cell) :
    List (Nat × α) :=
  let x := xPos S P D c.i
  let y := yPos S P D c.j
  let z := zPos S P D c.k
  let tmp := if p.shape = 1 then gtb (x + y + z) (lit (1/2)) && ltb (x + y + z) (lit (5/2))
    else gtb (x + y + z) ((D.xmin + D.xmax) / lit 2 + D.ymin + D.zmin)
  if tmp then
    [(ID, p.rho_out),
     (IP, p.p_out / (S.gamma0 - lit 1) +
        lit (1/2) * p.rho_out * (p.u_out * p.u_out + p.v_out * p.v_out + p.w_out * p.w_out) +
        lit (1/2) * (p.Bx_out * p.Bx_out + p.By_out * p.By_out + p.Bz_out * p.Bz_out)),
     (IU, p.u_out), (IV, p.v_out), (IW, p.w_out), (IA, p.Bx_out), (IB, p.By_out),
     (IC, p.Bz_out)]
  else
    [(ID, p.rho_in),
     (IP, p.p_in / (S.gamma0 - lit 1) +
        lit (1/2) * p.rho_in * (p.u_in * p.u_in + p.v_in * p.v_in + p.w_in * p.w_in) +
        lit (1/2) * (p.Bx_in * p.Bx_in + p.By_in * p.By_in + p.Bz_in * p.Bz_in)),
     (IU, p.u_in), (IV, p.v_in), (IW, p.w_in), (IA, p.Bx_in), (IB, p.By_in), (IC, p.Bz_in)]

/-! ### Blast -/

/-- Values stored by `InitBlastFunctor2D_MHD` and `InitBlastFunctor3D_MHD`
(`src/muscl/MHDInitFunctors2D.h:166-231`, `src/muscl/MHDInitFunctors3D.h:177-254`). -/
def blastMhd (d3 : Bool) (S : MSettings α) (P : Grid) (D : Domain α) (p : BlastParams α) (c : Cell) :
    List (Nat × α) :=
  let radius2 := p.blast_radius * p.blast_radius
  let x := xPos S P D c.i
  let y := yPos S P D c.j
  let z := zPos S P D c.k
  let d2 := (x - p.blast_center_x) * (x - p.blast_center_x) +
    (y - p.blast_center_y) * (y - p.blast_center_y)
  let d2 := if d3 then d2 + (z - p.blast_center_z) * (z - p.blast_center_z) else d2
  if ltb d2 radius2 then
    [(ID, p.blast_density_in), (IU, lit 0), (IV, lit 0), (IW, lit 0), (IA, lit (1/2)),
     (IB, lit (1/2)), (IC, lit (1/2)),
     (IP, p.blast_pressure_in / (S.gamma0 - lit 1) +
        lit (1/2) * (sqr (lit (1/2)) + sqr (lit (1/2)) + sqr (lit (1/2))))]
  else
    [(ID, p.blast_density_out), (IU, lit 0), (IV, lit 0), (IW, lit 0), (IA, lit (1/2)),
     (IB, lit (1/2)), (IC, lit (1/2)),
     (IP, p.blast_pressure_out / (S.gamma0 - lit 1) +
        lit (1/2) * (sqr (lit (1/2)) + sqr (lit (1/2)) + sqr (lit (1/2))))]

/-! ### Orszag-Tang -/

/-- Values stored by `InitOrszagTangFunctor2D::init_all_var_but_energy`
(`src/muscl/MHDInitFunctors2D.h:291-346`). -/
def orszagTang2 (S : MSettings α) (P : Grid) (D : Domain α) (c : Cell) : List (Nat × α) :=
  let B0 := lit 1 / sqrt (lit 2 * twopi)
  let p0 := S.gamma0 / (lit 2 * twopi)
  let d0 := S.gamma0 * p0
  let v0 : α := lit 1
  let x := xPos S P D c.i
  let y := yPos S P D c.j
  [(ID, d0), (IU, -d0 * v0 * sin (y * twopi)), (IV, d0 * v0 * sin (x * twopi)), (IW, lit 0),
   (IA, -B0 * sin (y * twopi)), (IB, B0 * sin (lit 2 * x * twopi)), (IC, lit 0)]

/-- Values stored by `InitOrszagTangFunctor3D::init_all_var_but_energy`
(`src/muscl/MHDInitFunctors3D.h:313-376`). -/
def orszagTang3 (S : MSettings α) (P : Grid) (D : Domain α) (kt : α) (c : Cell) : List (Nat × α) :=
  let B0 := lit 1 / sqrt (lit 4 * pi)
  let p0 := S.gamma0 / (lit 4 * pi)
  let d0 := S.gamma0 * p0
  let v0 : α := lit 1
  let x := xPos S P D c.i
  let y := yPos S P D c.j
  let z := zPos S P D c.k
  [(ID, d0), (IU, -d0 * v0 * sin (y * twopi)), (IV, d0 * v0 * sin (x * twopi)), (IW, lit 0),
   (IA, -B0 * cos (lit 2 * twopi * kt * (z - D.zmin) / (D.zmax - D.zmin)) * sin (y * twopi)),
   (IB, B0 * cos (lit 2 * twopi * kt * (z - D.zmin) / (D.zmax - D.zmin)) *
     sin (lit 2 * x * twopi)), (IC, lit 0)]

/-- `init_energy` (`src/muscl/MHDInitFunctors2D.h:350-383`, `src/muscl/MHDInitFunctors3D.h:380-409`).
In 3D there is no condition on `k`. -/
def orszagTangEnergy (d3 : Bool) (S : MSettings α) (P : Grid) (U : Nat) (c : Cell) :
    K Addr α Unit :=
  let p0 := if d3 then S.gamma0 / (lit 4 * pi) else S.gamma0 / (lit 2 * (lit 4 * asin (lit 1)))
  if c.i < P.isize - 1 ∧ c.j < P.jsize - 1 then
    (K.load (c.at U IU)).bind fun u =>
    (K.load (c.at U ID)).bind fun d =>
    (K.load (c.at U IV)).bind fun v =>
    (K.load (c.at U IA)).bind fun a =>
    (K.load ((c.up .x).at U IA)).bind fun a' =>
    (K.load (c.at U IB)).bind fun b =>
    (K.load ((c.up .y).at U IB)).bind fun b' =>
    K.store (c.at U IP) (p0 / (S.gamma0 - lit 1) +
      lit (1/2) * (sqr u / d + sqr v / d + lit (1/4) * sqr (a + a') + lit (1/4) * sqr (b + b')))
  else .ret ()

/-! ### Kelvin-Helmholtz -/

/-- Values stored by `InitKelvinHelmholtzFunctor2D_MHD` (`src/muscl/MHDInitFunctors2D.h:418-565`).  The
momentum in direction `z` is never written; nothing is written if no perturbation is selected. -/
def kelvinHelmholtz2 (S : MSettings α) (P : Grid) (D : Domain α) (p : KHParams α)
    (rnd : Cell → Nat → α) (c : Cell) : List (Nat × α) :=
  let x := xPos S P D c.i
  let y := yPos S P D c.j
  let yn := (y - D.ymin) / (D.ymax - D.ymin)
  let bx : α := lit (1/2)
  let by_ : α := lit 0
  let bz : α := lit 0
  let all (d u v : α) : List (Nat × α) :=
    [(ID, d), (IU, d * u), (IV, d * v), (IA, bx), (IB, by_), (IC, bz),
     (IP, p.pressure / (S.gamma0 - lit 1) + lit (1/2) * d * (u * u + v * v) +
        lit (1/2) * (bx * bx + by_ * by_ + bz * bz))]
  if p.p_rand then
    let out := ltb yn (lit (1/4)) || gtb yn (lit (3/4))
    let d := if out then p.d_out else p.d_in
    let u := if out then p.vflow_out else p.vflow_in
    let v : α := lit 0
    all d (u + p.amplitude * (rnd c 0 - lit (1/2))) (v + p.amplitude * (rnd c 1 - lit (1/2)))
  else if p.p_sine_rob then
    let ramp := lit 1 / (lit 1 + exp (lit 2 * (y - lit (1/4)) / p.delta)) +
      lit 1 / (lit 1 + exp (lit 2 * (lit (3/4) - y) / p.delta))
    all (p.d_in + ramp * (p.d_out - p.d_in)) (p.vflow_in + ramp * (p.vflow_out - p.vflow_in))
      (p.w0 * sin (lit (p.mode : ℚ) * pi * x))
  else if p.p_sine then
    let inside := geb y (lit (1/4)) && leb y (lit (3/4))
    all (if inside then p.d_in else p.d_out) (if inside then p.vflow_in else p.vflow_out)
      (p.w0 * sin (lit (p.mode : ℚ) * pi * x))
  else []

/-- Values stored by `InitKelvinHelmholtzFunctor3D_MHD` (`src/muscl/MHDInitFunctors3D.h:443-604`).  With
random perturbation the magnetic field is not written. -/
def kelvinHelmholtz3 (S : MSettings α) (P : Grid) (D : Domain α) (p : KHParams α)
    (rnd : Cell → Nat → α) (c : Cell) : List (Nat × α) :=
  let x := xPos S P D c.i
  let y := yPos S P D c.j
  let z := zPos S P D c.k
  let zn := (z - D.zmin) / (D.zmax - D.zmin)
  let bx : α := lit (1/2)
  let by_ : α := lit 0
  let bz : α := lit 0
  let all (d u v w : α) : List (Nat × α) :=
    [(ID, d), (IU, d * u), (IV, d * v), (IW, d * w), (IA, bx), (IB, by_), (IC, bz),
     (IP, p.pressure / (S.gamma0 - lit 1) + lit (1/2) * d * (u * u + v * v + w * w) +
        lit (1/2) * (bx * bx + by_ * by_ + bz * bz))]
  if p.p_rand then
    let out := ltb zn (lit (1/4)) || gtb zn (lit (3/4))
    let d := if out then p.d_out else p.d_in
    let u := if out then p.vflow_out else p.vflow_in
    let u := u + p.amplitude * (rnd c 0 - lit (1/2))
    let v := lit 0 + p.amplitude * (rnd c 1 - lit (1/2))
    let w := lit 0 + p.amplitude * (rnd c 2 - lit (1/2))
    [(ID, d), (IU, d * u), (IV, d * v), (IW, d * w),
     (IP, p.pressure / (S.gamma0 - lit 1) + lit (1/2) * d * (u * u + v * v + w * w))]
  else if p.p_sine_rob then
    let ramp := lit 1 / (lit 1 + exp (lit 2 * (z - lit (1/4)) / p.delta)) +
      lit 1 / (lit 1 + exp (lit 2 * (lit (3/4) - z) / p.delta))
    all (p.d_in + ramp * (p.d_out - p.d_in)) (p.vflow_in + ramp * (p.vflow_out - p.vflow_in))
      (p.vflow_in / lit 2 + ramp * (p.vflow_out / lit 2 - p.vflow_in / lit 2))
      (p.w0 * sin (lit (p.mode : ℚ) * pi * x) * sin (lit (p.mode : ℚ) * pi * y))
  else if p.p_sine then
    let inside := geb z (lit (1/4)) && leb z (lit (3/4))
    all (if inside then p.d_in else p.d_out) (if inside then p.vflow_in else p.vflow_out) (lit 0)
      (p.w0 * sin (lit (p.mode : ℚ) * pi * x))
  else []

/-! ### Rotor -/

/-- Values stored by `InitRotorFunctor2D_MHD` (`src/muscl/MHDInitFunctors2D.h:610-683`). -/
def rotor2 (S : MSettings α) (P : Grid) (D : Domain α) (p : RotorParams α) (c : Cell) :
    List (Nat × α) :=
  let xCenter := (D.xmax + D.xmin) / lit 2
  let yCenter := (D.ymax + D.ymin) / lit 2
  let x := xPos S P D c.i
  let y := yPos S P D c.j
  let r := sqrt ((x - xCenter) * (x - xCenter) + (y - yCenter) * (y - yCenter))
  let f_r := (p.r1 - r) / (p.r1 - p.r0)
  let all (d u v : α) : List (Nat × α) :=
    [(ID, d), (IU, u), (IV, v), (IW, lit 0), (IA, p.b0), (IB, lit 0), (IC, lit 0),
     (IP, p.p0 / (S.gamma0 - lit 1) + lit (1/2) * (u * u + v * v + lit 0 * lit 0) / d +
        lit (1/2) * (p.b0 * p.b0))]
  if leb r p.r0 then
    let d : α := lit 10
    all d (-d * f_r * p.u0 * (y - yCenter) / p.r0) (d * f_r * p.u0 * (x - xCenter) / p.r0)
  else if leb r p.r1 then
    let d := lit 1 + lit 9 * f_r
    all d (-d * f_r * p.u0 * (y - yCenter) / r) (d * f_r * p.u0 * (x - xCenter) / r)
  else all (lit 1) (lit 0) (lit 0)

/-- Values stored by `InitRotorFunctor3D_MHD` (`src/muscl/MHDInitFunctors3D.h:649-727`). -/
def rotor3 (S : MSettings α) (P : Grid) (D : Domain α) (p : RotorParams α) (c : Cell) :
    List (Nat × α) :=
  let xCenter := (D.xmax + D.xmin) / lit 2
  let yCenter := (D.ymax + D.ymin) / lit 2
  let x := xPos S P D c.i
  let y := yPos S P D c.j
  let r := sqrt ((x - xCenter) * (x - xCenter) + (y - yCenter) * (y - yCenter))
  let f_r := (p.r1 - r) / (p.r1 - p.r0)
  let all (d u v : α) : List (Nat × α) :=
    [(ID, d), (IU, u), (IV, v), (IW, lit 0), (IA, p.b0), (IB, lit 0), (IC, lit 0),
     (IP, p.p0 / (S.gamma0 - lit 1) + (u * u + v * v + lit 0 * lit 0) / lit 2 / d +
        p.b0 * p.b0 / lit 2)]
  if leb r p.r0 then
    all (lit 10) (-p.u0 * (y - yCenter) / p.r0) (p.u0 * (x - xCenter) / p.r0)
  else if leb r p.r1 then
    all (lit 1 + lit 9 * f_r) (-f_r * p.u0 * (y - yCenter) / r) (f_r * p.u0 * (x - xCenter) / r)
  else all (lit 1) (lit 0) (lit 0)

/-! ### Field loop -/

/-- Vector potential of the field loop and of the wave: a local array of the functor (`Az`, one
component, in 2D: `src/muscl/MHDInitFunctors2D.h:739`, `:941`; `A`, three components, in 3D:
`src/muscl/MHDInitFunctors3D.h:783`, `:1019`, `:1052`). -/
def mPot : Nat := 66

/-- Number of the component `Az` in that array. -/
def potZ (d3 : Bool) : Nat := if d3 then 2 else 0

/-- `compute_vector_potential` (`src/muscl/MHDInitFunctors2D.h:788-827`,
`src/muscl/MHDInitFunctors3D.h:832-877`). -/
def fieldLoopPotential (d3 : Bool) (S : MSettings α) (P : Grid) (D : Domain α)
    (p : FieldLoopParams α) (c : Cell) : List (Nat × α) :=
  let x := xPos S P D c.i
  let y := yPos S P D c.j
  let r := sqrt (x * x + y * y)
  if d3 then
    [(0, lit 0), (1, lit 0), (2, lit 0)] ++
      (if ltb r p.radius then [(2, p.amplitude * (p.radius - r))] else [])
  else [(0, if ltb r p.radius then p.amplitude * (p.radius - r) else lit 0)]

/-- Faces of cell `c` get the discrete curl of the vector potential in 3D
(`src/muscl/MHDInitFunctors3D.h:959-969`, `:1197-1207`). -/
def curlPot (S : MSettings α) (U : Nat) (c : Cell) : K Addr α Unit :=
  (K.load (c.at mPot 0)).bind fun ax =>
  (K.load (c.at mPot 1)).bind fun ay =>
  (K.load (c.at mPot 2)).bind fun az =>
  (K.load ((c.up .y).at mPot 2)).bind fun azy =>
  (K.load ((c.up .z).at mPot 1)).bind fun ayz =>
  (K.load ((c.up .z).at mPot 0)).bind fun axz =>
  (K.load ((c.up .x).at mPot 2)).bind fun azx =>
  (K.load ((c.up .x).at mPot 1)).bind fun ayx =>
  (K.load ((c.up .y).at mPot 0)).bind fun axy =>
  stores U c [(IA, (azy - az) / S.dy - (ayz - ay) / S.dz),
    (IB, (axz - ax) / S.dz - (azx - az) / S.dx),
    (IC, (ayx - ay) / S.dx - (axy - ax) / S.dy)]

/-- The same in 2D (`src/muscl/MHDInitFunctors2D.h:892-899`). -/
def curlPot2 (S : MSettings α) (U : Nat) (c : Cell) : K Addr α Unit :=
  (K.load (c.at mPot 0)).bind fun az =>
  (K.load ((c.up .y).at mPot 0)).bind fun azy =>
  (K.load ((c.up .x).at mPot 0)).bind fun azx =>
  stores U c [(IA, (azy - az) / S.dy), (IB, -(azx - az) / S.dx), (IC, lit 0)]

/-- Density and momentum stored by `do_init_condition` (`src/muscl/MHDInitFunctors2D.h:866-891`,
`src/muscl/MHDInitFunctors3D.h:909-948`). -/
def fieldLoopFlow (d3 : Bool) (S : MSettings α) (P : Grid) (D : Domain α) (p : FieldLoopParams α)
    (c : Cell) : List (Nat × α) :=
  let cos_theta := lit 2 / sqrt (lit 5)
  let sin_theta := sqrt (lit 1 - cos_theta * cos_theta)
  let x := xPos S P D c.i
  let y := yPos S P D c.j
  let r := sqrt (x * x + y * y)
  let d := if ltb r p.radius then p.density_in else lit 1
  let w := if d3 then d * p.vflow
    else d * p.vflow * lit (P.nz : ℚ) /
      sqrt (lit 1 * lit ((P.nx * P.nx + P.ny * P.ny + P.nz * P.nz : Int) : ℚ))
  [(ID, d), (IU, d * p.vflow * cos_theta), (IV, d * p.vflow * sin_theta), (IW, w)]

/-- `do_init_condition` (`src/muscl/MHDInitFunctors2D.h:831-903`,
`src/muscl/MHDInitFunctors3D.h:881-973`). -/
def fieldLoopInit (d3 : Bool) (S : MSettings α) (P : Grid) (D : Domain α)
    (p : FieldLoopParams α) (U : Nat) (c : Cell) : K Addr α Unit :=
  if P.inner d3 c then
    (stores U c (fieldLoopFlow d3 S P D p c)).bind fun _ =>
      if d3 then curlPot S U c else curlPot2 S U c
  else .ret ()

/-- `do_init_energy` (`src/muscl/MHDInitFunctors2D.h:907-935`,
`src/muscl/MHDInitFunctors3D.h:977-1013`).  The sum of the kinetic energy has no `z` part in 2D. -/
def fieldLoopEnergy (d3 : Bool) (S : MSettings α) (P : Grid) (U : Nat) (c : Cell) :
    K Addr α Unit :=
  if P.inner d3 c then
    if gtb S.cIso (lit 0) then K.store (c.at U IP) (lit 0)
    else
      (K.load (c.at U IA)).bind fun a =>
      (K.load ((c.up .x).at U IA)).bind fun a' =>
      (K.load (c.at U IB)).bind fun b =>
      (K.load ((c.up .y).at U IB)).bind fun b' =>
      (K.load (c.at U IU)).bind fun u =>
      (K.load (c.at U IV)).bind fun v =>
      (K.load (c.at U ID)).bind fun d =>
      if d3 then
        (K.load (c.at U IC)).bind fun e =>
        (K.load ((c.up .z).at U IC)).bind fun e' =>
        (K.load (c.at U IW)).bind fun w =>
        K.store (c.at U IP) (lit 1 / (S.gamma0 - lit 1) +
          lit (1/2) * (lit (1/4) * sqr (a + a') + lit (1/4) * sqr (b + b') +
            lit (1/4) * sqr (e + e')) + lit (1/2) * (u * u + v * v + w * w) / d)
      else
        K.store (c.at U IP) (lit 1 / (S.gamma0 - lit 1) +
          lit (1/2) * (lit (1/4) * sqr (a + a') + lit (1/4) * sqr (b + b')) +
          lit (1/2) * (u * u + v * v) / d)
  else .ret ()

/-! ### Linear wave (3D) -/

/-- `Ay` and `Az` of the wave in its own frame, at a point
(`src/muscl/MHDInitFunctors3D.h:1143-1155`). -/
def wavePot (p : WaveParams α) (x1 x2 x3 : α) : α × α :=
  let tmpx := x1 * p.cos_a2 * p.cos_a3 + x2 * p.cos_a2 * p.sin_a3 + x3 * p.sin_a2
  let tmpy := -x1 * p.sin_a3 + x2 * p.cos_a3
  (p.bz0 * tmpx - p.dbz / p.k_par * cos (p.k_par * tmpx),
   -p.by0 * tmpx + p.dby / p.k_par * cos (p.k_par * tmpx) + p.bx0 * tmpy)

/-- `compute_vector_potential` (`src/muscl/MHDInitFunctors3D.h:1100-1177`). -/
def wavePotential (S : MSettings α) (P : Grid) (D : Domain α) (p : WaveParams α) (c : Cell) :
    List (Nat × α) :=
  let x := xPos S P D c.i
  let y := yPos S P D c.j
  let z := zPos S P D c.k
  let X := wavePot p x (y - S.dy / lit 2) (z - S.dz / lit 2)
  let Y := wavePot p (x - S.dx / lit 2) y (z - S.dz / lit 2)
  let Z := wavePot p (x - S.dx / lit 2) (y - S.dy / lit 2) z
  [(0, -X.1 * p.sin_a3 - X.2 * p.sin_a2 * p.cos_a3),
   (1, Y.1 * p.cos_a3 - Y.2 * p.sin_a2 * p.sin_a3),
   (2, Z.2 * p.cos_a2)]

/-- `compute_face_centered_B` (`src/muscl/MHDInitFunctors3D.h:1181-1210`). -/
def waveField (S : MSettings α) (P : Grid) (U : Nat) (c : Cell) : K Addr α Unit :=
  if c.i ≥ P.ghostWidth - 1 ∧ c.i < P.isize - P.ghostWidth + 1 ∧
      c.j ≥ P.ghostWidth - 1 ∧ c.j < P.jsize - P.ghostWidth + 1 ∧
      c.k ≥ P.ghostWidth - 1 ∧ c.k < P.ksize - P.ghostWidth + 1 then curlPot S U c
  else .ret ()

/-- `do_init_condition` (`src/muscl/MHDInitFunctors3D.h:1214-1298`). -/
def waveFlow (S : MSettings α) (P : Grid) (D : Domain α) (p : WaveParams α) (U : Nat)
    (c : Cell) : K Addr α Unit :=
  if P.inner true c then
    let x := xPos S P D c.i
    let y := yPos S P D c.j
    let z := zPos S P D c.k
    let X := p.cos_a2 * (x * p.cos_a3 + y * p.sin_a3) + z * p.sin_a2
    let sn := sin (p.k_par * X)
    let Mx := p.d0 * p.wave_V0 + p.wave_amplitude * sn * p.rev 1
    let My := p.wave_amplitude * sn * p.rev 2
    let Mz := p.wave_amplitude * sn * p.rev 3
    stores U c
      [(ID, p.d0 + p.wave_amplitude * sn * p.rev 0),
       (IU, Mx * p.cos_a2 * p.cos_a3 - My * p.sin_a3 - Mz * p.sin_a2 * p.cos_a3),
       (IV, Mx * p.cos_a2 * p.sin_a3 + My * p.cos_a3 - Mz * p.sin_a2 * p.sin_a3),
       (IW, Mx * p.sin_a2 + Mz * p.cos_a2),
       (IP, p.p0 / (S.gamma0 - lit 1) + lit (1/2) * p.d0 * p.wave_V0 * p.wave_V0 +
          lit (1/2) * (p.bx0 * p.bx0 + p.by0 * p.by0 + p.bz0 * p.bz0) +
          p.wave_amplitude * sn * p.rev 4)]
  else .ret ()

/-! ### Choice of the problem -/

/-- A problem with its parameters. -/
inductive MhdProblem (α : Type) where
  | blast (p : BlastParams α)
  | implode (p : ImplodeParams α)
  | orszagTang (kt : α)
  | kelvinHelmholtz (p : KHParams α) (rnd : Cell → Nat → α)
  | rotor (p : RotorParams α)
  | fieldLoop (p : FieldLoopParams α)
  | wave (p : WaveParams α)

/-- Loops launched by the `apply` method of each functor (and by the constructor of
`InitWaveFunctor3D_MHD`); `InitWaveFunctor2D_MHD` has an empty body
(`src/muscl/MHDInitFunctors2D.h:974-975`). -/
def mhdInitLoops (d3 : Bool) (S : MSettings α) (P : Grid) (D : Domain α) (U : Nat) :
    MhdProblem α → List (Launch Addr α)
  | .blast p => [mdrange d3 P fun c => stores U c (blastMhd d3 S P D p c)]
  | .implode p =>
    [mdrange d3 P fun c => stores U c (if d3 then implode3 S P D p c else implode2 S P D p c)]
  | .orszagTang kt =>
    [mdrange d3 P fun c => stores U c (if d3 then orszagTang3 S P D kt c else orszagTang2 S P D c),
     mdrange d3 P fun c => orszagTangEnergy d3 S P U c]
  | .kelvinHelmholtz p rnd =>
    [mdrange d3 P fun c => stores U c
      (if d3 then kelvinHelmholtz3 S P D p rnd c else kelvinHelmholtz2 S P D p rnd c)]
  | .rotor p =>
    [mdrange d3 P fun c => stores U c (if d3 then rotor3 S P D p c else rotor2 S P D p c)]
  | .fieldLoop p =>
    [mdrange d3 P fun c => stores mPot c (fieldLoopPotential d3 S P D p c),
     mdrange d3 P fun c => fieldLoopInit d3 S P D p U c,
     mdrange d3 P fun c => fieldLoopEnergy d3 S P U c]
  | .wave p =>
    if d3 then
      [mdrange d3 P fun c => stores mPot c (wavePotential S P D p c),
       mdrange d3 P fun c => waveField S P U c,
       mdrange d3 P fun c => waveFlow S P D p U c]
    else [mdrange d3 P fun _ => .ret ()]

/-- All sets of problem parameters, each read from the parameter file by its constructor. -/
structure MhdProblems (α : Type) where
  blast : BlastParams α
  implode : ImplodeParams α
  kt : α
  kh : KHParams α
  rnd : Cell → Nat → α
  rotor : RotorParams α
  loop : FieldLoopParams α
  wave : WaveParams α

/-- Choice of the problem by `SolverMHDMuscl::init`, without restart
(`src/muscl/SolverMHDMuscl.h:663-709`). -/
def mhdProblem (A : MhdProblems α) (name : String) : MhdProblem α :=
  if name = "blast" then .blast A.blast
  else if name = "implode" then .implode A.implode
  else if name = "orszag_tang" then .orszagTang A.kt
  else if name = "kelvin_helmholtz" then .kelvinHelmholtz A.kh A.rnd
  else if name = "rotor" then .rotor A.rotor
  else if name = "field_loop" ∨ name = "field loop" then .fieldLoop A.loop
  else if name = "wave" then .wave A.wave
  else .orszagTang A.kt

/-- End of the constructor of `SolverMHDMuscl` (`src/muscl/SolverMHDMuscl.h:389-399`), without MPI,
before the time step is computed. -/
def mhdSetup (d3 : Bool) (S : MSettings α) (P : Grid) (D : Domain α) (Q : MhdProblem α) :
    List (Launch Addr α) :=
  mhdInitLoops d3 S P D aU Q ++ (mhdBoundaries d3 P aU ++
    [deepCopy d3 P aU2 aU, convertToPrimitivesMhd d3 S P aU aQ])

/-- Locations of the arrays allocated during the set-up: those of the solver and the vector potential. -/
def mhdInitDom (d3 : Bool) (P : Grid) (impl : Int) (a : Addr) : Prop :=
  mhdDom d3 P impl a ∨
    (P.box d3 a.cell ∧ a.arr = mPot ∧ a.v < (if d3 then 3 else 1))

end Verif
