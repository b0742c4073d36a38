import Verif.Model.InitHydro
import Verif.Spec.HydroStep
import Verif.Spec.Init

/-! Specification vocabulary for the initial conditions of the hydro solver. -/

namespace Verif.Spec

/-- The problems with a gravity field of their own. -/
def HasGravity {α : Type} : HydroProblem α → Prop
  | .rayleighTaylor _ | .risingBubble _ | .disk .. => True
  | _ => False

/-- Density, pressure and velocity of a gas. -/
@[ext] structure PointGas where
  rho : ℝ
  p : ℝ
  u : ℝ
  v : ℝ
  w : ℝ

/-- Its density of mass, energy and momentum, for an ideal gas. -/
noncomputable def PointGas.conserved (gamma : ℝ) (g : PointGas) : HState ℝ :=
  ⟨g.rho, g.p / (gamma - 1) + g.rho * (g.u ^ 2 + g.v ^ 2 + g.w ^ 2) / 2, g.rho * g.u, g.rho * g.v,
    g.rho * g.w⟩

/-- Centre of interior cell number `i` of the process at position `n` along an axis, with `len` cells of
width `dx` per process, of a domain that begins at `xmin`. -/
noncomputable def centre (xmin dx : ℝ) (len n : Int) (i : Nat) : ℝ :=
  xmin + ((n * len + i : Int) + 1 / 2) * dx

/-- The state `q` has the variables of a simulation in 2 or 3 dimensions of the state `s`. -/
def SameState (d3 : Bool) (q s : HState ℝ) : Prop :=
  q.d = s.d ∧ q.p = s.p ∧ q.u = s.u ∧ q.v = s.v ∧ (d3 = true → q.w = s.w)

/-- State of a gas in the array `A` at interior cell `(i,j,k)`. -/
def initialAt (d3 : Bool) (P : Grid) (m : Addr → ℝ) (A : Nat) (i j k : Nat) : HState ℝ :=
  let c := cell d3 P i j k
  ⟨m ⟨A, c.i, c.j, c.k, 0⟩, m ⟨A, c.i, c.j, c.k, 1⟩, m ⟨A, c.i, c.j, c.k, 2⟩,
    m ⟨A, c.i, c.j, c.k, 3⟩, m ⟨A, c.i, c.j, c.k, 4⟩⟩

/-- After the set-up, both arrays of states hold in each interior cell of the process the gas `G` at
the centre of the cell. -/
def Samples (d3 : Bool) (S : Settings ℝ) (P : Grid) (D : Domain ℝ) (m : Addr → ℝ)
    (G : ℝ → ℝ → ℝ → PointGas) : Prop :=
  ∀ A, A = aU ∨ A = aU2 → ∀ i j k : Nat, i < P.nx.toNat → j < P.ny.toNat → k < depth d3 P →
    SameState d3 (initialAt d3 P m A i j k)
      ((G (centre D.xmin S.dx P.nx D.i_mpi i) (centre D.ymin S.dy P.ny D.j_mpi j)
        (centre D.zmin S.dz P.nz D.k_mpi k)).conserved S.gamma0)

/-! ### What the problems describe -/

/-- A blast: a ball (in 2D a disc) of one gas at rest within another gas at rest. -/
noncomputable def blastGas (d3 : Bool) (p : BlastParams ℝ) (x y z : ℝ) : PointGas :=
  if √((x - p.blast_center_x) ^ 2 + (y - p.blast_center_y) ^ 2 +
      (if d3 then (z - p.blast_center_z) ^ 2 else 0)) < p.blast_radius
  then ⟨p.blast_density_in, p.blast_pressure_in, 0, 0, 0⟩
  else ⟨p.blast_density_out, p.blast_pressure_out, 0, 0, 0⟩

/-- An implosion: two moving gases separated by a plane across the corner (or a curved layer). -/
noncomputable def implodeGas (d3 : Bool) (D : Domain ℝ) (p : ImplodeParams ℝ) (x y z : ℝ) : PointGas :=
  open Classical in
  if (if d3 then (if p.shape = 1 then 1 / 2 < x + y + z ∧ x + y + z < 5 / 2
        else (D.xmin + D.xmax) / 2 + D.ymin + D.zmin < x + y + z)
      else (if p.shape = 1 then 1 / 2 < x + y ^ 2 ∧ x + y ^ 2 < 3 / 2
        else (D.xmin + D.xmax) / 2 + D.ymin < x + y))
  then ⟨p.rho_out, p.p_out, p.u_out, p.v_out, if d3 then p.w_out else 0⟩
  else ⟨p.rho_in, p.p_in, p.u_in, p.v_in, if d3 then p.w_in else 0⟩

/-- Smooth transition between the inner layer (0) and the outer layers (1), at heights 1/4 and 3/4. -/
noncomputable def layers (delta h : ℝ) : ℝ :=
  1 / (1 + Real.exp (2 * (h - 1 / 4) / delta)) + 1 / (1 + Real.exp (2 * (3 / 4 - h) / delta))

/-- Shear layers with a sinusoidal perturbation, along `y` in 2D. -/
noncomputable def shearGas2 (p : KHParams ℝ) (x y _z : ℝ) : PointGas :=
  let a := layers p.delta y
  ⟨(1 - a) * p.d_in + a * p.d_out, p.pressure, (1 - a) * p.vflow_in + a * p.vflow_out,
    p.w0 * Real.sin (p.mode * Real.pi * x), 0⟩

/-- Shear layers with a sinusoidal perturbation, along `z` in 3D. -/
noncomputable def shearGas3 (p : KHParams ℝ) (x y z : ℝ) : PointGas :=
  let a := layers p.delta z
  ⟨(1 - a) * p.d_in + a * p.d_out, p.pressure, (1 - a) * p.vflow_in + a * p.vflow_out,
    ((1 - a) * p.vflow_in + a * p.vflow_out) / 2,
    p.w0 * Real.sin (p.mode * Real.pi * x) * Real.sin (p.mode * Real.pi * y)⟩

/-- Sharp layers of shear flow: `h` is the height as a fraction of that of the domain. -/
noncomputable def sharpGas (p : KHParams ℝ) (h u v w : ℝ) : PointGas :=
  open Classical in
  if 1 / 4 ≤ h ∧ h ≤ 3 / 4 then ⟨p.d_in, p.pressure, p.vflow_in + u, v, w⟩
  else ⟨p.d_out, p.pressure, p.vflow_out + u, v, w⟩

/-- Angular velocity of the Gresho vortex: rigid rotation, a decreasing circular velocity, rest. -/
noncomputable def greshoOmega (r : ℝ) : ℝ :=
  if r < 1 / 5 then 5 else if r < 2 / 5 then (2 - 5 * r) / r else 0

/-- Pressure of the Gresho vortex. -/
noncomputable def greshoPressure (p0 r : ℝ) : ℝ :=
  if r < 1 / 5 then p0 + 25 / 2 * r ^ 2
  else if r < 2 / 5 then p0 + 25 / 2 * r ^ 2 + 4 * (1 - 5 * r + Real.log (5 * r))
  else p0 - 2 + 4 * Real.log 2

/-- The Gresho vortex around the origin, with Mach number `Ma`. -/
noncomputable def greshoGas (gamma : ℝ) (p : GreshoParams ℝ) (x y _z : ℝ) : PointGas :=
  let r := √(x ^ 2 + y ^ 2)
  ⟨p.rho0, greshoPressure (p.rho0 / (gamma * p.Ma ^ 2)) r, -y * greshoOmega r, x * greshoOmega r, 0⟩

/-- The isentropic vortex: an ambient flow with a vortex of strength `beta`, whose temperature is lowered
and whose entropy is that of the ambient gas. -/
noncomputable def vortexGas (gamma : ℝ) (p : IsentropicVortexParams ℝ) (x y _z : ℝ) : PointGas :=
  let a := x - p.vortex_x
  let b := y - p.vortex_y
  let omega := p.beta / (2 * Real.pi) * Real.exp ((1 - (a ^ 2 + b ^ 2)) / 2)
  let T := p.T_a - (gamma - 1) / (2 * gamma) * omega ^ 2
  let rho := p.rho_a * (T / p.T_a) ^ (1 / (gamma - 1))
  ⟨rho, rho * T, p.u_a - b * omega, p.v_a + a * omega, 0⟩

/-- A gas at rest in a constant gravity field, with pressure 1 at the origin. -/
noncomputable def restGas (rho gx gy gz x y z : ℝ) : PointGas :=
  ⟨rho, 1 + rho * (gx * x + gy * y + gz * z), 0, 0, 0⟩

/-- A ball (in 2D a disc) of one density in a gas of another, at rest. -/
noncomputable def bubbleGas (d3 : Bool) (p : RisingBubbleParams ℝ) (x y z : ℝ) : PointGas :=
  restGas (if √((x - p.x0) ^ 2 + (y - p.y0) ^ 2 + (if d3 then (z - p.z0) ^ 2 else 0)) < p.R
    then p.din else p.dout) p.gx p.gy (if d3 then p.gz else 0) x y z

/-- One fluid above another one; `a` is the vertical velocity. -/
noncomputable def layeredGas (d3 : Bool) (D : Domain ℝ) (p : RayleighTaylorParams ℝ)
    (a : ℝ → ℝ → ℝ → ℝ) (x y z : ℝ) : PointGas :=
  let rho := if (if d3 then (D.zmin + D.zmax) / 2 < z else (D.ymin + D.ymax) / 2 < y)
    then p.d1 else p.d0
  { restGas rho p.gx p.gy (if d3 then p.gz else 0) x y z with
    v := if d3 then 0 else a x y z
    w := if d3 then a x y z else 0 }

/-- Perturbation of the Rayleigh-Taylor problem. -/
noncomputable def bump (D : Domain ℝ) (amplitude x y : ℝ) : ℝ :=
  amplitude * (1 + Real.cos (2 * Real.pi * x / (D.xmax - D.xmin))) *
    (1 + Real.cos (2 * Real.pi * y / (D.ymax - D.ymin))) / 4

end Verif.Spec
