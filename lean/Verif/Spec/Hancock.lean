import Verif.Spec.Euler
import Verif.Spec.HydroStep

/-!
Independent specification: one step of the unsplit MUSCL-Hancock scheme for the Euler equations on
a grid of cells of size `h .x`, `h .y`, `h .z`, as in the literature: limited slopes of the primitive
variables, prediction by half a time step, a Riemann problem at every face, conservative update.
-/

namespace Verif.Spec

/-- Conserved quantities per volume. -/
structure Cons where
  mass : ℝ
  energy : ℝ
  mom : Dir → ℝ

/-- Density, pressure and velocity; also used for their slopes and time derivatives. -/
structure Gas where
  rho : ℝ
  p : ℝ
  vel : Dir → ℝ

/-- The axes of the problem. -/
def axes (d3 : Bool) : List Dir := if d3 then [.x, .y, .z] else [.x, .y]

/-- Sum over the axes. -/
def sumAxes (d3 : Bool) (f : Dir → ℝ) : ℝ := ((axes d3).map f).sum

/-- Neighbour cell at distance `s` along axis `d`. -/
def step (d : Dir) (s : Int) (c : Cell) : Cell :=
  match d with
  | .x => ⟨c.i + s, c.j, c.k⟩
  | .y => ⟨c.i, c.j + s, c.k⟩
  | .z => ⟨c.i, c.j, c.k + s⟩

/-- Physical constants and floors of the scheme. -/
structure Scheme where
  d3 : Bool
  γ : ℝ
  /-- slope limiter parameter: 0 first order, 1 minmod, 2 monotonized central -/
  θ : ℝ
  /-- smallest density and temperature (`p/ρ`) -/
  rhoMin : ℝ
  tempMin : ℝ
  /-- cell size along each axis -/
  h : Dir → ℝ
  /-- numerical flux of two primitive states, for a face orthogonal to the first velocity -/
  riemann : HState ℝ → HState ℝ → HState ℝ

namespace Scheme

variable (M : Scheme)

/-- Primitive variables of a conservative state. -/
noncomputable def toGas (U : Cons) : Gas :=
  let rho := max U.mass M.rhoMin
  let vel := fun d => U.mom d / rho
  { rho := rho
    p := max ((M.γ - 1) * (U.energy - rho * sumAxes M.d3 (fun d => vel d ^ 2) / 2))
      (rho * M.tempMin)
    vel := vel }

/-- Limited slope of three consecutive values. -/
noncomputable def limited (a b c : ℝ) : ℝ :=
  if (b - a) * (c - b) ≤ 0 then 0
  else (if a ≤ c then 1 else -1) * min (min (M.θ * |b - a|) (M.θ * |c - b|)) (|c - a| / 2)

/-- Limited slope of a grid function along an axis (none along an axis the problem does not
have). -/
noncomputable def slope (q : Cell → Gas) (d : Dir) (c : Cell) : Gas :=
  if d ∈ axes M.d3 then
    let lim := fun f : Gas → ℝ => M.limited (f (q (step d (-1) c))) (f (q c)) (f (q (step d 1 c)))
    { rho := lim (·.rho), p := lim (·.p), vel := fun e => lim (·.vel e) }
  else ⟨0, 0, fun _ => 0⟩

/-- Time derivative given by the Euler equations in primitive variables, for a state `q` with
slopes `σ` per cell. -/
noncomputable def rate (q : Gas) (σ : Dir → Gas) : Gas :=
  let dx := fun (d : Dir) (f : Gas → ℝ) => f (σ d) / M.h d
  let div := sumAxes M.d3 fun d => dx d (·.vel d)
  { rho := -(sumAxes M.d3 fun d => q.vel d * dx d (·.rho)) - q.rho * div
    p := -(sumAxes M.d3 fun d => q.vel d * dx d (·.p)) - M.γ * q.p * div
    vel := fun e => -(sumAxes M.d3 fun d => q.vel d * dx d (·.vel e)) - dx e (·.p) / q.rho }

/-- Predicted state at time `dt/2` at a face of cell `c`: lower (`s = -1/2`) or upper (`s = 1/2`)
face along `d`; `g` is the acceleration by gravity. -/
noncomputable def faceState (dt : ℝ) (q : Cell → Gas) (g : Cell → Dir → ℝ) (d : Dir) (s : ℝ)
    (c : Cell) : Gas :=
  let σ := fun e => M.slope q e c
  let r := M.rate (q c) σ
  { rho := max M.rhoMin ((q c).rho + s * (σ d).rho + dt / 2 * r.rho)
    p := (q c).p + s * (σ d).p + dt / 2 * r.p
    vel := fun e => (q c).vel e + s * (σ d).vel e + dt / 2 * r.vel e + dt / 2 * g c e }

/-- The axes orthogonal to `d`. -/
def other1 : Dir → Dir
  | .x => .y
  | .y => .x
  | .z => .y
def other2 : Dir → Dir
  | .x => .z
  | .y => .z
  | .z => .x

/-- Flux of mass, energy and momentum through the lower face of cell `c` along `d`, per unit time
and area. -/
noncomputable def flux (dt : ℝ) (q : Cell → Gas) (g : Cell → Dir → ℝ) (d : Dir) (c : Cell) : Cons :=
  let look := fun a : Gas => (⟨a.rho, a.p, a.vel d, a.vel (other1 d), a.vel (other2 d)⟩ : HState ℝ)
  let f := M.riemann (look (M.faceState dt q g d (1/2) (step d (-1) c)))
    (look (M.faceState dt q g d (-1/2) c))
  { mass := f.d, energy := f.p
    mom := fun e => if e = d then f.u else if e = other1 d then f.v else f.w }

/-- Conservative update without source terms. -/
noncomputable def update (dt : ℝ) (U : Cell → Cons) (g : Cell → Dir → ℝ) (c : Cell) : Cons :=
  let F := M.flux dt (fun c => M.toGas (U c)) g
  let net := fun f : Cons → ℝ => sumAxes M.d3 fun d => dt / M.h d * (f (F d c) - f (F d (step d 1 c)))
  { mass := (U c).mass + net (·.mass)
    energy := (U c).energy + net (·.energy)
    mom := fun e => (U c).mom e + net (·.mom e) }

/-- Kinetic energy per volume. -/
noncomputable def kin (U : Cons) : ℝ := sumAxes M.d3 (fun d => U.mom d ^ 2) / (2 * U.mass)

/-- Update and gravity source term: momentum gains `dt·g` times the mean of old and new density,
energy gains the change of kinetic energy. -/
noncomputable def advance (dt : ℝ) (U : Cell → Cons) (g : Cell → Dir → ℝ) (c : Cell) : Cons :=
  let V := M.update dt U g c
  let mom := fun e => V.mom e + dt * g c e * (((U c).mass + V.mass) / 2)
  { mass := V.mass
    mom := mom
    energy := V.energy + (M.kin ⟨V.mass, V.energy, mom⟩ - M.kin V) }

end Scheme

/-- The grid function stored in array `A`. -/
def consAt (d3 : Bool) (m : Addr → ℝ) (A : Nat) (c : Cell) : Cons where
  mass := m (c.at A ID)
  energy := m (c.at A IE)
  mom := Dir.pick (m (c.at A IU)) (m (c.at A IV)) (if d3 then m (c.at A IW) else 0)

/-- The stored gravity field; no acceleration if gravity is off. -/
def accel (d3 grav : Bool) (m : Addr → ℝ) (c : Cell) : Dir → ℝ :=
  if grav then Dir.pick (m (c.at aG 0)) (m (c.at aG 1)) (if d3 then m (c.at aG 2) else 0)
  else fun _ => 0

/-- The scheme described by the settings of a run. -/
def schemeOf (d3 : Bool) (S : Settings ℝ) (Φ : HState ℝ → HState ℝ → HState ℝ) : Scheme :=
  ⟨d3, S.gamma0, S.slope_type, S.smallr, S.smallp, Dir.pick S.dx S.dy S.dz, Φ⟩

end Verif.Spec
