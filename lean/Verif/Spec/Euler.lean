import Verif.Model.Riemann

/-! Independent specification: the Euler equations of an ideal gas over the reals. -/

namespace Verif.Spec

/-- Total energy per volume of a primitive state (`d` density, `p` pressure, `u v w` velocity).
In two dimensions (`d3 = false`) there is no `w`. -/
noncomputable def energy (d3 : Bool) (γ : ℝ) (q : HState ℝ) : ℝ :=
  q.p / (γ - 1) + q.d * (q.u ^ 2 + q.v ^ 2 + (if d3 then q.w ^ 2 else 0)) / 2

/-- Flux of mass, energy and momentum through a unit area orthogonal to the velocity component `u`. -/
noncomputable def eulerFlux (d3 : Bool) (γ : ℝ) (q : HState ℝ) : HState ℝ where
  d := q.d * q.u
  p := (energy d3 γ q + q.p) * q.u
  u := q.d * q.u ^ 2 + q.p
  v := q.d * q.u * q.v
  w := if d3 then q.d * q.u * q.w else 0

/-- Conserved quantities (mass, energy, momentum) of a primitive state. -/
noncomputable def conserved (d3 : Bool) (γ : ℝ) (q : HState ℝ) : HState ℝ where
  d := q.d
  p := energy d3 γ q
  u := q.d * q.u
  v := q.d * q.v
  w := if d3 then q.d * q.w else 0

/-- Sound speed. -/
noncomputable def soundSpeed (γ : ℝ) (q : HState ℝ) : ℝ := Real.sqrt (γ * q.p / q.d)

/-- Parameters a run may use: ratio of specific heats above one, positive floors. -/
structure GasParams (S : Settings ℝ) : Prop where
  gamma : 1 < S.gamma0
  smallr : 0 < S.smallr
  smallp : 0 < S.smallp
  smallc : 0 < S.smallc

/-- The derived constants have the values `HydroParams::init` gives them
(`src/shared/HydroParams.cpp:442-443`). -/
structure DerivedParams (S : Settings ℝ) : Prop where
  gamma6 : S.gamma6 = (S.gamma0 + 1) / (2 * S.gamma0)
  smallpp : S.smallpp = S.smallr * S.smallp

/-- A state above the density and pressure floors. -/
structure AboveFloors (S : Settings ℝ) (q : HState ℝ) : Prop where
  d : S.smallr ≤ q.d
  p : q.d * S.smallp ≤ q.p

/-- Mirror image of a state: the normal velocity changes sign. -/
def mirror (q : HState ℝ) : HState ℝ := { q with u := -q.u }

/-- Flux seen in the mirror: everything changes direction, except that the normal momentum flux
(a pressure) does not. -/
def mirrorFlux (f : HState ℝ) : HState ℝ := { d := -f.d, p := -f.p, u := f.u, v := -f.v, w := -f.w }

end Verif.Spec
