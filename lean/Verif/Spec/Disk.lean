import Verif.Spec.InitHydro

/-! Specification vocabulary for the disk around a point mass. -/

namespace Verif.Spec

variable (p : DiskParams ℝ) (g : PointSourceGravity ℝ)

/-- Square of the speed of sound at distance `r` from the axis: as `1/r`, but uniform within the inner
radius. -/
noncomputable def diskCs2 (r : ℝ) : ℝ := p.ref_sound_speed ^ 2 * p.radius / max r p.radius_inner

/-- Square of the angular velocity, with softening length `g.eps`. -/
noncomputable def diskOmega2 (r z : ℝ) : ℝ :=
  if r < p.radius_inner then
    g.GM / √(r ^ 2 + g.eps ^ 2) ^ 3 - 5 / 2 * diskCs2 p r / (r ^ 2 + g.eps ^ 2)
  else g.GM / ((r ^ 2 + g.eps ^ 2) * √(r ^ 2 + g.eps ^ 2 + z ^ 2)) - 7 / 2 * diskCs2 p r / (r ^ 2 + g.eps ^ 2)

/-- Density of the disk, without softening. -/
noncomputable def diskRho (r z : ℝ) : ℝ :=
  p.ref_density * (r / p.radius) ^ (-5 / 2 : ℝ) * Real.exp (g.GM / diskCs2 p r * (1 / √(r ^ 2 + z ^ 2) - 1 / r))

/-- Pressure of the disk, without softening. -/
noncomputable def diskP (r z : ℝ) : ℝ := diskCs2 p r * diskRho p g r z

/-- PointGas of the disk at a point relative to its centre. -/
noncomputable def diskGas (x y z : ℝ) : PointGas :=
  let r := √(x ^ 2 + y ^ 2)
  let omega := √(diskOmega2 p g r z)
  ⟨diskRho p g r z, diskP p g r z, -y * omega, x * omega, 0⟩

/-- Attraction of a mass at `(a, b, c)` felt at `(x, y, z)`: along `(a - x, b - y, c - z)`, of size
`GM / distance ^ 2` except for the softening of the distance. -/
noncomputable def pull (GM eps a b c x y z : ℝ) : ℝ × ℝ × ℝ :=
  let s := GM / √((x - a) ^ 2 + (y - b) ^ 2 + (z - c) ^ 2 + eps ^ 2) ^ 3
  (s * (a - x), s * (b - y), s * (c - z))

end Verif.Spec
