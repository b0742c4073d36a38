import Verif.Model.RiemannMhd
import Verif.Spec.Checked

/-! Independent specification: the equations of ideal magnetohydrodynamics over the reals.
A state has density `d`, pressure `p`, velocity `(u,v,w)` and magnetic field `(a,b,c)` (in units in
which the magnetic pressure is half the square of the field). -/

namespace Verif.Spec

/-- Square of the magnetic field. -/
def fieldSq (q : MState ℝ) : ℝ := q.a ^ 2 + q.b ^ 2 + q.c ^ 2

/-- Total energy per volume. -/
noncomputable def mhdEnergy (γ : ℝ) (q : MState ℝ) : ℝ :=
  q.p / (γ - 1) + q.d * (q.u ^ 2 + q.v ^ 2 + q.w ^ 2) / 2 + fieldSq q / 2

/-- Velocity times field. -/
def vDotB (q : MState ℝ) : ℝ := q.u * q.a + q.v * q.b + q.w * q.c

/-- Flux through a unit area orthogonal to the first axis. -/
noncomputable def mhdFlux (γ : ℝ) (q : MState ℝ) : MState ℝ where
  d := q.d * q.u
  p := (mhdEnergy γ q + q.p + fieldSq q / 2) * q.u - q.a * vDotB q
  u := q.d * q.u ^ 2 + q.p + fieldSq q / 2 - q.a ^ 2
  v := q.d * q.u * q.v - q.a * q.b
  w := q.d * q.u * q.w - q.a * q.c
  a := 0
  b := q.u * q.b - q.v * q.a
  c := q.u * q.c - q.w * q.a

/-- Conserved quantities. -/
noncomputable def mhdConserved (γ : ℝ) (q : MState ℝ) : MState ℝ where
  d := q.d
  p := mhdEnergy γ q
  u := q.d * q.u
  v := q.d * q.v
  w := q.d * q.w
  a := q.a
  b := q.b
  c := q.c

/-- Positive density and pressure. -/
structure Physical (q : MState ℝ) : Prop where
  d : 0 < q.d
  p : 0 < q.p

/-- Parameters a run may use. -/
structure MhdParams (S : MSettings ℝ) : Prop where
  gamma : 1 < S.gamma0
  smallr : 0 < S.smallr
  smallp : 0 < S.smallp
  smallc : 0 < S.smallc

open Classical in
/-- With an isothermal equation of state (`cIso > 0`) the pressure is tied to the density. -/
noncomputable def thermal (S : MSettings ℝ) (q : MState ℝ) : MState ℝ :=
  if 0 < S.cIso then { q with p := q.d * S.cIso ^ 2 } else q

/-- Square of the sound speed. -/
noncomputable def soundSq (γ : ℝ) (q : MState ℝ) : ℝ := γ * q.p / q.d

/-- `x` is the square of the speed of a magnetosonic wave along a direction in which the field has
component `bn`: the dispersion relation of ideal MHD. -/
def Magnetosonic (γ : ℝ) (q : MState ℝ) (bn x : ℝ) : Prop :=
  x ^ 2 - (soundSq γ q + fieldSq q / q.d) * x + soundSq γ q * (bn ^ 2 / q.d) = 0

/-- `c` is the speed of the fast magnetosonic wave along a direction in which the field has component
`bn`: it solves the dispersion relation and is at least the sound speed and the Alfven speed (so it is the
larger root); it never exceeds the fast speed across the field. -/
structure FastWave (γ : ℝ) (q : MState ℝ) (bn c : ℝ) : Prop where
  pos : 0 < c
  root : Magnetosonic γ q bn (c ^ 2)
  sound : soundSq γ q ≤ c ^ 2
  alfven : bn ^ 2 / q.d ≤ c ^ 2
  upper : c ^ 2 ≤ soundSq γ q + fieldSq q / q.d

/-- The electric field component `u b - v a` along the edge of direction `e` (`(v × B)` with the sign
used by the code). -/
def electric (e : EmfDir) (q : MState ℝ) : ℝ :=
  match e with
  | .z => q.u * q.b - q.v * q.a
  | .y => q.w * q.a - q.u * q.c
  | .x => q.v * q.c - q.w * q.b

/-- Mirror image: normal velocity and normal field change sign (the field is a pseudovector and the
equations do not change when the whole field changes sign). -/
def mmirror (q : MState ℝ) : MState ℝ := { q with u := -q.u, a := -q.a }

/-- Flux seen in the mirror. -/
def mmirrorFlux (f : MState ℝ) : MState ℝ :=
  { d := -f.d, p := -f.p, u := f.u, v := -f.v, w := -f.w, a := f.a, b := -f.b, c := -f.c }

open CReal

/-- Defined state. -/
def okM (q : MState ℝ) : MState CReal :=
  ⟨ok q.d, ok q.p, ok q.u, ok q.v, ok q.w, ok q.a, ok q.b, ok q.c⟩

/-- Defined settings. -/
def okMS (S : MSettings ℝ) : MSettings CReal :=
  { toSettings := okSettings S.toSettings, cIso := ok S.cIso, Omega0 := ok S.Omega0 }

end Verif.Spec
