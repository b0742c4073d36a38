import Verif.Spec.MhdStep
import Verif.Spec.Mhd
import Verif.Spec.Hancock

/-!
Independent specification: one step of the unsplit MUSCL-Hancock scheme with constrained transport for the
equations of ideal MHD, written with vectors: magnetic field on the faces, limited slopes, prediction by
half a time step with the MHD equations in primitive variables, linear reconstruction to faces and edges,
Riemann problems, update by fluxes and by the electric field on the edges.
-/

namespace Verif.Spec

/-- Velocity (of a primitive state) or momentum (of a conservative state). -/
def vel (q : MState ℝ) (d : Dir) : ℝ :=
  match d with
  | .x => q.u
  | .y => q.v
  | .z => q.w

/-- Magnetic field. -/
def mag (q : MState ℝ) (d : Dir) : ℝ :=
  match d with
  | .x => q.a
  | .y => q.b
  | .z => q.c

/-- State with given density, pressure (or energy), velocity (or momentum) and field. -/
def mkState (rho p : ℝ) (v B : Dir → ℝ) : MState ℝ :=
  ⟨rho, p, v .x, v .y, v .z, B .x, B .y, B .z⟩

/-- Sum over the three directions. -/
def sum3 (f : Dir → ℝ) : ℝ := f .x + f .y + f .z

/-- The next axis in cyclic order `x, y, z`. -/
def next : Dir → Dir
  | .x => .y
  | .y => .z
  | .z => .x

/-- Exchange the first axis and axis `d`. -/
def exchange (d : Dir) (e : Dir) : Dir := if e = .x then d else if e = d then .x else e

/-- A state as seen with axis `d` as first axis. -/
def rotated (d : Dir) (q : MState ℝ) : MState ℝ :=
  mkState q.d q.p (fun e => vel q (exchange d e)) (fun e => mag q (exchange d e))

/-- Constants and Riemann solvers of the scheme. -/
structure MhdScheme where
  d3 : Bool
  γ : ℝ
  /-- slope limiter parameter: 1 minmod, 2 monotonized central -/
  θ : ℝ
  rhoMin : ℝ
  /-- smallest temperature -/
  tempMin : ℝ
  /-- smallest pressure of a reconstructed state of given density -/
  pMin : ℝ → ℝ
  /-- cell size along each axis -/
  h : Dir → ℝ
  /-- weight of the field along `z` in the cell state of a 2D problem (see C93: the right weight is 1) -/
  zWeight : ℝ
  /-- numerical flux of two primitive states, for a face orthogonal to the first axis -/
  riemann : MState ℝ → MState ℝ → MState ℝ
  /-- `v × B` on an edge along an axis, from the states around it in the order `--`, `-+`, `+-`, `++` of
  the cells (seen along the two axes that follow in cyclic order) -/
  edge : Dir → MState ℝ → MState ℝ → MState ℝ → MState ℝ → ℝ

namespace MhdScheme

variable (M : MhdScheme) (U Q : Cell → MState ℝ)

/-- Field in the middle of a cell. -/
noncomputable def cellField (c : Cell) (d : Dir) : ℝ :=
  if d ∈ axes M.d3 then (mag (U c) d + mag (U (step d 1 c)) d) / 2 else M.zWeight * mag (U c) d

/-- Primitive state of a cell. -/
noncomputable def prim (c : Cell) : MState ℝ :=
  let rho := max (U c).d M.rhoMin
  let v := fun d => vel (U c) d / rho
  let B := M.cellField U c
  mkState rho (max ((M.γ - 1) * ((U c).p - rho * sum3 (fun d => v d ^ 2) / 2 -
    sum3 (fun d => B d ^ 2) / 2)) (rho * M.tempMin)) v B

/-- Limited slope of three consecutive values. -/
noncomputable def limited (a b c : ℝ) : ℝ :=
  if (b - a) * (c - b) ≤ 0 then 0
  else (if a ≤ c then 1 else -1) * min (min (M.θ * |b - a|) (M.θ * |c - b|)) (|c - a| / 2)

/-- Limited slope (change per cell) of a grid function along an axis. -/
noncomputable def slope (f : Cell → ℝ) (d : Dir) (c : Cell) : ℝ :=
  if d ∈ axes M.d3 then M.limited (f (step d (-1) c)) (f c) (f (step d 1 c)) else 0

/-- Derivative of a primitive variable along an axis. -/
noncomputable def deriv (f : MState ℝ → ℝ) (d : Dir) (c : Cell) : ℝ :=
  M.slope (fun x => f (Q x)) d c / M.h d

/-- Derivative of the field component `e` along axis `d`; along its own axis from the two faces. -/
noncomputable def derivField (d e : Dir) (c : Cell) : ℝ :=
  if d = e then
    if d ∈ axes M.d3 then (mag (U (step d 1 c)) d - mag (U c) d) / M.h d else 0
  else M.deriv Q (mag · e) d c

/-- Time derivative given by the MHD equations in primitive variables:
`∂ρ = -v·∇ρ - ρ div v`, `∂p = -v·∇p - γ p div v`, `∂v = -(v·∇)v - ∇p/ρ + (curl B × B)/ρ`,
`∂B = curl (v × B)`. -/
noncomputable def rate (c : Cell) : MState ℝ :=
  let q := Q c
  let D := fun (d : Dir) (f : MState ℝ → ℝ) => M.deriv Q f d c
  let DB := fun d e => M.derivField U Q d e c
  let divV := sum3 fun d => D d (vel · d)
  mkState
    (-(sum3 fun d => vel q d * D d (·.d)) - q.d * divV)
    (-(sum3 fun d => vel q d * D d (·.p)) - M.γ * q.p * divV)
    (fun i => -(sum3 fun d => vel q d * D d (vel · i)) - D i (·.p) / q.d +
      (sum3 fun d => mag q d * (DB d i - DB i d)) / q.d)
    (fun i => sum3 fun d => vel q i * DB d d + mag q d * D d (vel · i) - vel q d * DB d i -
      mag q i * D d (vel · d))

/-- `v × B` on the lower edge along axis `e`: mean velocity of the four cells around, mean field of the two
faces on either side. -/
noncomputable def cross (U Q : Cell → MState ℝ) (e : Dir) (c : Cell) : ℝ :=
  let f := next e
  let s := next f
  let v := fun d => (vel (Q c) d + vel (Q (step f (-1) c)) d + vel (Q (step s (-1) c)) d +
    vel (Q (step f (-1) (step s (-1) c))) d) / 4
  v f * ((mag (U c) s + mag (U (step f (-1) c)) s) / 2) -
    v s * ((mag (U c) f + mag (U (step s (-1) c)) f) / 2)

/-- Component `d` of the curl of an edge field, on the lower face in direction `d`. -/
noncomputable def curl (G : Dir → Cell → ℝ) (d : Dir) (c : Cell) : ℝ :=
  let f := next d
  let s := next f
  (if f ∈ axes M.d3 then (G s (step f 1 c) - G s c) / M.h f else 0) -
    (if s ∈ axes M.d3 then (G f (step s 1 c) - G f c) / M.h s else 0)

/-- Field on the lower face after half a time step. -/
noncomputable def faceHalf (dt : ℝ) (d : Dir) (c : Cell) : ℝ :=
  mag (U c) d + dt / 2 * M.curl (cross U Q) d c

/-- Value of a primitive variable after half a time step, at the offset `σ` (in units of half a cell). -/
noncomputable def at' (dt : ℝ) (f : MState ℝ → ℝ) (σ : Dir → ℝ) (c : Cell) : ℝ :=
  f (Q c) + dt / 2 * f (M.rate U Q c) + sum3 fun t => σ t / 2 * M.slope (fun x => f (Q x)) t c

/-- Field component `e` after half a time step at the offset `σ`: on a face orthogonal to `e` from the
field of the face. -/
noncomputable def fieldAt (dt : ℝ) (e : Dir) (σ : Dir → ℝ) (c : Cell) : ℝ :=
  if σ e = 0 then M.at' U Q dt (mag · e) σ c
  else
    let face := if σ e < 0 then c else step e 1 c
    M.faceHalf U Q dt e face + sum3 fun t => if t = e then 0 else
      σ t / 2 * M.slope (fun x => mag (U x) e) t face

/-- State after half a time step at the offset `σ`, with floors. -/
noncomputable def state (dt : ℝ) (σ : Dir → ℝ) (c : Cell) : MState ℝ :=
  let rho := max M.rhoMin (M.at' U Q dt (·.d) σ c)
  mkState rho (max (M.pMin rho) (M.at' U Q dt (·.p) σ c))
    (fun d => M.at' U Q dt (vel · d) σ c) (fun e => M.fieldAt U Q dt e σ c)

/-- Offset `s` along axis `d`. -/
noncomputable def offset (d : Dir) (s : ℝ) : Dir → ℝ := fun t => if t = d then s else 0

/-- Flux through the lower face in direction `d`. -/
noncomputable def flux (dt : ℝ) (d : Dir) (c : Cell) : MState ℝ :=
  rotated d (M.riemann (rotated d (M.state U Q dt (offset d 1) (step d (-1) c)))
    (rotated d (M.state U Q dt (offset d (-1)) c)))

/-- `v × B` on the lower edge along `e`. -/
noncomputable def emf (dt : ℝ) (e : Dir) (c : Cell) : ℝ :=
  let f := next e
  let s := next f
  let st := fun x y => M.state U Q dt fun t => if t = f then x else if t = s then y else 0
  M.edge e (st 1 1 (step f (-1) (step s (-1) c))) (st 1 (-1) (step f (-1) c))
    (st (-1) 1 (step s (-1) c)) (st (-1) (-1) c)

/-- Change of a quantity by the fluxes. -/
noncomputable def balance (dt : ℝ) (F : Dir → Cell → ℝ) (c : Cell) : ℝ :=
  ((axes M.d3).map fun d => dt / M.h d * (F d c - F d (step d 1 c))).sum

/-- Change of a cell by fluxes `F` and by `v × B` on the edges `E`. -/
noncomputable def update (dt : ℝ) (F : Dir → Cell → MState ℝ) (E : Dir → Cell → ℝ) (c : Cell) : MState ℝ :=
  mkState
    ((U c).d + M.balance dt (fun d x => (F d x).d) c)
    ((U c).p + M.balance dt (fun d x => (F d x).p) c)
    (fun i => vel (U c) i + M.balance dt (fun d x => vel (F d x) i) c)
    (fun i => mag (U c) i + if i ∈ axes M.d3 then dt * M.curl E i c
      else M.balance dt (fun d x => mag (F d x) i) c)

/-- One step. -/
noncomputable def advance (dt : ℝ) (c : Cell) : MState ℝ :=
  M.update U dt (M.flux U (M.prim U) dt) (M.emf U (M.prim U) dt) c

/-! ### A variant in 3D with other states at the edges along `x` and `y` -/

/-- State at an edge along `e`.  Edges along `y`: no slope along `z` in the field along `x`, slopes of the
field along `y` counted twice.  Edges along `x`: the field along `y` of the face without its slope along
`z`, plus the slopes of the cell (along `y` the difference of the two faces). -/
noncomputable def edgeVariant (dt : ℝ) (e : Dir) (σ : Dir → ℝ) (c : Cell) : MState ℝ :=
  let q := M.state U Q dt σ c
  let face := fun d => M.faceHalf U Q dt d (if σ d < 0 then c else step d 1 c)
  let sl := fun t => σ t / 2 * M.slope (fun x => mag (Q x) .y) t c
  match e with
  | .z => q
  | .y => { q with a := face .x, b := q.b + sl .x + sl .z }
  | .x => { q with b := face .y + σ .y / 2 * (mag (U (step .y 1 c)) .y - mag (U c) .y) + sl .z }

/-- `v × B` on the lower edge along `e` from the states of the variant. -/
noncomputable def emfVariant (dt : ℝ) (e : Dir) (c : Cell) : ℝ :=
  let f := next e
  let s := next f
  let st := fun x y => M.edgeVariant U Q dt e fun t => if t = f then x else if t = s then y else 0
  M.edge e (st 1 1 (step f (-1) (step s (-1) c))) (st 1 (-1) (step f (-1) c))
    (st (-1) 1 (step s (-1) c)) (st (-1) (-1) c)

/-- One step of the variant. -/
noncomputable def advanceVariant (dt : ℝ) (c : Cell) : MState ℝ :=
  M.update U dt (M.flux U (M.prim U) dt) (M.emfVariant U (M.prim U) dt) c

end MhdScheme

/-- The states stored in array `A`: density, energy, momentum, magnetic field on the lower faces. -/
def stateAt (m : Addr → ℝ) (A : Nat) (c : Cell) : MState ℝ :=
  mkState (m (c.at A ID)) (m (c.at A IE)) (Dir.pick (m (c.at A IU)) (m (c.at A IV)) (m (c.at A IW)))
    (Dir.pick (m (c.at A IA)) (m (c.at A IB)) (m (c.at A IC)))

/-- The flux of ideal MHD along an axis. -/
noncomputable def mhdFluxAlong (γ : ℝ) (d : Dir) (q : MState ℝ) : MState ℝ :=
  let pt := q.p + sum3 (fun i => mag q i ^ 2) / 2
  let energy := q.p / (γ - 1) + q.d * sum3 (fun i => vel q i ^ 2) / 2 + sum3 (fun i => mag q i ^ 2) / 2
  mkState (q.d * vel q d)
    ((energy + pt) * vel q d - mag q d * sum3 (fun i => vel q i * mag q i))
    (fun i => q.d * vel q d * vel q i - mag q d * mag q i + if i = d then pt else 0)
    (fun i => vel q d * mag q i - vel q i * mag q d)

/-- `v × B`. -/
def crossAlong (e : Dir) (q : MState ℝ) : ℝ :=
  vel q (next e) * mag q (next (next e)) - vel q (next (next e)) * mag q (next e)

/-- Gas on which the floors have no effect, without field along `z` in 2D (which the code halves, see C93),
and, with the HLLD solver, away from the states for which it divides zero by zero (see C37): field exactly
along an axis with Alfven speed at least the sound speed. -/
structure RegularGas (d3 : Bool) (S : MSettings ℝ) (q : MState ℝ) : Prop where
  d : S.smallr ≤ q.d
  p : q.d * S.smallp ≤ q.p
  p3 : d3 = true → S.smallp ≤ q.p
  planar : d3 = false → q.c = 0
  hlld : S.riemann = .hlld → ∀ d ∈ axes d3, mag q d ^ 2 / q.d < soundSq S.gamma0 q ∨
    ∃ e, e ≠ d ∧ mag q e ≠ 0

/-- Cell `c'` is at most two cells away from `c` along each axis of the problem. -/
def Near2 (d3 : Bool) (c c' : Cell) : Prop :=
  |c'.i - c.i| ≤ 2 ∧ |c'.j - c.j| ≤ 2 ∧ if d3 then |c'.k - c.k| ≤ 2 else c'.k = c.k

end Verif.Spec
