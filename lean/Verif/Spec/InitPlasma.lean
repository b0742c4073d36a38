import Verif.Spec.InitHydro

/-! Specification vocabulary for the states the MHD solver starts from. -/

namespace Verif.Spec

/-- A magnetised gas: density, pressure, velocity and magnetic field. -/
structure Plasma extends PointGas where
  bx : ℝ
  by' : ℝ
  bz : ℝ

/-- After the set-up, the array of primitive variables holds in each interior cell whose upper neighbours
are interior cells, too, the plasma `G` at the centre of the cell. -/
def PlasmaSamples (d3 : Bool) (S : MSettings ℝ) (P : Grid) (D : Domain ℝ) (m : Addr → ℝ)
    (G : ℝ → ℝ → ℝ → Plasma) : Prop :=
  ∀ i j k : Nat, i + 1 < P.nx.toNat → j + 1 < P.ny.toNat → (d3 = true → k + 1 < P.nz.toNat) →
    (d3 = false → k = 0) →
    let g := G (centre D.xmin S.dx P.nx D.i_mpi i) (centre D.ymin S.dy P.ny D.j_mpi j)
      (centre D.zmin S.dz P.nz D.k_mpi k)
    let q := fun v => m ⟨aQ, (cell d3 P i j k).i, (cell d3 P i j k).j, (cell d3 P i j k).k, v⟩
    q 0 = g.rho ∧ q 1 = g.p ∧ q 2 = g.u ∧ q 3 = g.v ∧ q 4 = g.w ∧ q 5 = g.bx ∧ q 6 = g.by' ∧ q 7 = g.bz

/-- An ideal gas whose density and pressure are not raised by the floors of the solver. -/
def Unfloored (S : MSettings ℝ) (G : ℝ → ℝ → ℝ → Plasma) : Prop :=
  0 < S.smallr ∧ S.gamma0 ≠ 1 ∧ S.cIso ≤ 0 ∧
    ∀ x y z, S.smallr ≤ (G x y z).rho ∧ (G x y z).rho * S.smallp ≤ (G x y z).p

/-- The blast in a uniform oblique field. -/
noncomputable def blastPlasma (d3 : Bool) (p : BlastParams ℝ) (x y z : ℝ) : Plasma :=
  ⟨blastGas d3 p x y z, 1 / 2, 1 / 2, 1 / 2⟩

/-- The vortex of Orszag and Tang; in 3D the field is modulated `2 kt` times along the height. -/
noncomputable def otPlasma (d3 : Bool) (gamma kt : ℝ) (D : Domain ℝ) (x y z : ℝ) : Plasma :=
  let b := (if d3 then Real.cos (2 * Real.pi * (2 * kt) * (z - D.zmin) / (D.zmax - D.zmin)) else 1) /
    √(4 * Real.pi)
  ⟨⟨gamma ^ 2 / (4 * Real.pi), gamma / (4 * Real.pi), -Real.sin (2 * Real.pi * y),
    Real.sin (2 * Real.pi * x), 0⟩, -b * Real.sin (2 * Real.pi * y), b * Real.sin (4 * Real.pi * x), 0⟩

/-- Smooth shear layers with a field along the flow. -/
noncomputable def shearPlasma (d3 : Bool) (p : KHParams ℝ) (x y z : ℝ) : Plasma :=
  ⟨if d3 then shearGas3 p x y z else shearGas2 p x y z, 1 / 2, 0, 0⟩

/-- The rotor (Balsara and Spicer, Tóth): a dense disc in rigid rotation, a layer in which density and velocity
taper off, and gas at rest around it. -/
noncomputable def rotorPlasma (D : Domain ℝ) (p : RotorParams ℝ) (x y _z : ℝ) : Plasma :=
  let a := x - (D.xmin + D.xmax) / 2
  let b := y - (D.ymin + D.ymax) / 2
  let r := √(a ^ 2 + b ^ 2)
  let f := (p.r1 - r) / (p.r1 - p.r0)
  ⟨if r ≤ p.r0 then ⟨10, p.p0, -p.u0 * b / p.r0, p.u0 * a / p.r0, 0⟩
    else if r ≤ p.r1 then ⟨1 + 9 * f, p.p0, -f * p.u0 * b / r, f * p.u0 * a / r, 0⟩
    else ⟨1, p.p0, 0, 0, 0⟩, p.b0, 0, 0⟩

/-- Potential of a field loop around the origin. -/
noncomputable def loopPotential (p : FieldLoopParams ℝ) (x y : ℝ) : ℝ :=
  if √(x ^ 2 + y ^ 2) < p.radius then p.amplitude * (p.radius - √(x ^ 2 + y ^ 2)) else 0

/-- A field loop carried by an oblique flow of vertical velocity `w`, as cells of size `dx`, `dy` represent
it: the mean of the differences of the potential between the centre `x, y` of the cell and the centres of its
upper neighbours, that is, the field half a cell further along each direction. -/
noncomputable def loopPlasma (dx dy w : ℝ) (p : FieldLoopParams ℝ) (x y _z : ℝ) : Plasma :=
  let A := loopPotential p
  ⟨⟨if √(x ^ 2 + y ^ 2) < p.radius then p.density_in else 1, 1, p.vflow * 2 / √5, p.vflow / √5, w⟩,
    ((A x (y + dy) - A x y) / dy + (A (x + dx) (y + dy) - A (x + dx) y) / dy) / 2,
    -((A (x + dx) y - A x y) / dx + (A (x + dx) (y + dy) - A x (y + dy)) / dx) / 2, 0⟩

/-- The implosion: two gases separated by a plane, or a layer of one gas in the other, in a uniform field. -/
noncomputable def implodePlasma (d3 : Bool) (D : Domain ℝ) (p : ImplodeParams ℝ) (x y z : ℝ) : Plasma :=
  let s := x + y + (if d3 then z else 0)
  open Classical in
  ⟨if (if p.shape = 1 then 1 / 2 < s ∧ s < 5 / 2
      else (D.xmin + D.xmax) / 2 + D.ymin + (if d3 then D.zmin else 0) < s)
    then ⟨p.rho_out, p.p_out, p.u_out, p.v_out, if d3 then p.w_out else 0⟩
    else ⟨p.rho_in, p.p_in, p.u_in, p.v_in, if d3 then p.w_in else 0⟩,
    p.Bx_in, p.By_in, if d3 then p.Bz_in else 0⟩

end Verif.Spec
