import Mathlib.Analysis.SpecialFunctions.Trigonometric.Basic
import Verif.Spec.InitHydro
import Verif.Spec.Sdm
import Verif.Model.HydroParams
import Verif.Model.MoodStep

/-! # Specification: a moving shock on a wedge, a jet entering a box -/

namespace Verif.Spec

open Verif Sdm

/-! ### Gas dynamics -/

/-- Pressure of an ideal gas with the given densities of mass (`d`), energy (`p`) and momentum (`u v w`). -/
noncomputable def idealPressure (gamma : ℝ) (U : HState ℝ) : ℝ :=
  (gamma - 1) * (U.p - (U.u ^ 2 + U.v ^ 2 + U.w ^ 2) / (2 * U.d))

/-- What crosses a resting line with normal `(nx, ny)`, per length and time. -/
noncomputable def normalFlux (gamma nx ny : ℝ) (U : HState ℝ) : HState ℝ :=
  let un := (U.u * nx + U.v * ny) / U.d
  let p := idealPressure gamma U
  ⟨U.d * un, (U.p + p) * un, U.u * un + p * nx, U.v * un + p * ny, U.w * un⟩

/-- A jump from `L` to `R` that moves with speed `s` along `(nx, ny)` conserves mass, energy and momentum. -/
def RankineHugoniot (gamma nx ny s : ℝ) (L R : HState ℝ) : Prop :=
  s * (L.d - R.d) = (normalFlux gamma nx ny L).d - (normalFlux gamma nx ny R).d ∧
  s * (L.p - R.p) = (normalFlux gamma nx ny L).p - (normalFlux gamma nx ny R).p ∧
  s * (L.u - R.u) = (normalFlux gamma nx ny L).u - (normalFlux gamma nx ny R).u ∧
  s * (L.v - R.v) = (normalFlux gamma nx ny L).v - (normalFlux gamma nx ny R).v ∧
  s * (L.w - R.w) = (normalFlux gamma nx ny L).w - (normalFlux gamma nx ny R).w

/-! ### The wedge problem -/

/-- A straight shock front that meets the x-axis at `x0` at time 0, under the angle `angle`, and moves with
`speed` along its normal `(sin angle, -cos angle)`. -/
structure MovingShock where
  x0 : ℝ
  angle : ℝ
  speed : ℝ
  behind : PointGas
  ahead : PointGas

/-- The front has passed the point. -/
def MovingShock.passed (S : MovingShock) (t x y : ℝ) : Prop :=
  (x - S.x0) * Real.sin S.angle - y * Real.cos S.angle < S.speed * t

open Classical in
/-- The gas at a point. -/
noncomputable def MovingShock.gasAt (S : MovingShock) (t x y : ℝ) : PointGas :=
  if S.passed t x y then S.behind else S.ahead

/-- The shock described by section `[wedge]` of the parameter file, with the documented default values: by
default the gas behind moves with 8.25 along the normal of the front. -/
noncomputable def wedgeShock (c : ConfigReader ℝ) : MovingShock :=
  let f := c.getFloat "wedge"
  let a := f "front_angle" (Real.pi / 3)
  { x0 := f "front_x" 0.1
    angle := a
    speed := f "shock_speed" 10
    behind := ⟨f "rho1" 8, f "p1" 116.5, f "u1" (8.25 * Real.sin a), f "v1" (-8.25 * Real.cos a), f "w1" 0⟩
    ahead := ⟨f "rho2" 1.4, f "p2" 1, f "u2" 0, f "v2" 0, f "w2" 0⟩ }

/-- Adiabatic index of the solvers. -/
noncomputable def configGamma (c : ConfigReader ℝ) : ℝ := c.getFloat "hydro" "gamma0" 1.4

/-- The point mirrored along one direction of a cell with `N` points per direction. -/
def mirrorX (N : ℕ) (p : Pt) : Pt := ⟨N - 1 - p.x, p.y, p.z⟩
@[inherit_doc mirrorX] def mirrorY (N : ℕ) (p : Pt) : Pt := ⟨p.x, N - 1 - p.y, p.z⟩

/-- The cell is away from the ghost layers in x, in y. -/
def midX (P : Grid) (c : Cell) : Prop := P.ghostWidth ≤ c.i ∧ c.i < P.nx + P.ghostWidth
@[inherit_doc midX] def midY (P : Grid) (c : Cell) : Prop := P.ghostWidth ≤ c.j ∧ c.j < P.ny + P.ghostWidth
@[inherit_doc midX] def midZ (P : Grid) (c : Cell) : Prop := P.ghostWidth ≤ c.k ∧ c.k < P.nz + P.ghostWidth

open Classical in
/-- What a solver for the wedge problem has in its cells, `before` and `after` the treatment of the
boundaries at time `t`.  `x`, `y` are the coordinates of the points; `rest` is what is put at the upper boundary
in places which the front has not reached. -/
structure WedgeGhosts (W : MovingShock) (gamma t : ℝ) (P : Grid) (N : ℕ) (x y : Int → ℕ → ℝ)
    (rest before after : Cell → Pt → ℕ → ℝ) : Prop where
  /-- The gas in the box is not touched. -/
  inside : ∀ c p v, P.box false c → IsSolPt false N p → v < 4 → midX P c → midY P c → after c p v = before c p v
  /-- On the left the gas behind the shock flows in. -/
  left : ∀ c p v, P.box false c → IsSolPt false N p → v < 4 → c.i < P.ghostWidth → midY P c →
    after c p v = Mood.comp (W.behind.conserved gamma) v
  /-- On the right the state of the last column goes on. -/
  right : ∀ c p v, P.box false c → IsSolPt false N p → v < 4 → P.nx + P.ghostWidth ≤ c.i → midY P c →
    after c p v = after ⟨P.nx + P.ghostWidth - 1, c.j, c.k⟩ (mirrorX N p) v
  /-- Below, the gas behind the shock up to the tip of the wedge. -/
  floor : ∀ c p v, P.box false c → IsSolPt false N p → v < 4 → c.j < P.ghostWidth → x c.i p.x < W.x0 →
    after c p v = Mood.comp (W.behind.conserved gamma) v
  /-- From there on the mirror image of the flow above the wedge. -/
  wall : ∀ c p v, P.box false c → IsSolPt false N p → v < 4 → c.j < P.ghostWidth → W.x0 ≤ x c.i p.x →
    after c p v = (if v = IV then -1 else 1) * after ⟨c.i, 2 * P.ghostWidth - 1 - c.j, c.k⟩ (mirrorY N p) v
  /-- Above, the gas behind the shock as far as the front has come. -/
  top : ∀ c p v, P.box false c → IsSolPt false N p → v < 4 → P.ny + P.ghostWidth ≤ c.j →
    after c p v = if W.passed t (x c.i p.x) (y c.j p.y) then Mood.comp (W.behind.conserved gamma) v
      else rest c p v

/-! ### The jet problem -/

/-- The jet described by section `[jet]` of the parameter file: its gas and the gas around it, position and width
of the opening. -/
noncomputable def jetGas (c : ConfigReader ℝ) : PointGas :=
  let f := c.getFloat "jet"
  ⟨f "rho_jet" 5, f "p_jet" 0.4127, f "u_jet" 800, f "v_jet" 0, f "w_jet" 0⟩
@[inherit_doc jetGas] noncomputable def bulkGas (c : ConfigReader ℝ) : PointGas :=
  let f := c.getFloat "jet"
  ⟨f "rho_bulk" 0.5, f "p_bulk" 0.4127, f "u_bulk" 0, f "v_bulk" 0, f "w_bulk" 0⟩

/-- The opening in the left side of the box: an interval, in 3D a disc. -/
def InOpening (c : ConfigReader ℝ) (d3 : Bool) (y z : ℝ) : Prop :=
  let pos := c.getFloat "jet" "pos_jet" 0
  let width := c.getFloat "jet" "width_jet" 0.1
  if d3 then (y - pos) ^ 2 + (z - pos) ^ 2 < (width / 2) ^ 2 else |y - pos| < width / 2

open Classical in
/-- What the solver for the jet problem has in its cells, `before` and `after` the treatment of the boundaries. -/
structure JetGhosts (c : ConfigReader ℝ) (gamma : ℝ) (d3 : Bool) (P : Grid) (N : ℕ) (y z : Int → ℕ → ℝ)
    (before after : Cell → Pt → ℕ → ℝ) : Prop where
  /-- The gas in the box is not touched. -/
  inside : ∀ b p v, P.box d3 b → IsSolPt d3 N p → v < P.nbvar → midX P b → midY P b → (d3 = true → midZ P b) →
    after b p v = before b p v
  /-- On the left the jet enters through the opening; elsewhere there is the gas around it. -/
  left : ∀ b p v, P.box d3 b → IsSolPt d3 N p → v < P.nbvar → b.i < P.ghostWidth → midY P b →
    (d3 = true → midZ P b) →
    after b p v = Mood.comp
      ((if InOpening c d3 (y b.j p.y) (z b.k p.z) then jetGas c else bulkGas c).conserved gamma) v
  /-- On the right the last column goes on, mirrored in 2D, repeated in 3D. -/
  right : ∀ b p v, P.box d3 b → IsSolPt d3 N p → v < P.nbvar → P.nx + P.ghostWidth ≤ b.i → midY P b →
    (d3 = true → midZ P b) →
    after b p v = after ⟨P.nx + P.ghostWidth - 1, b.j, b.k⟩ (if d3 then p else mirrorX N p) v
  /-- At the other sides the outermost cell is repeated. -/
  bottom : ∀ b p v, P.box d3 b → IsSolPt d3 N p → v < P.nbvar → b.j < P.ghostWidth → (d3 = true → midZ P b) →
    after b p v = after ⟨b.i, P.ghostWidth, b.k⟩ p v
  top : ∀ b p v, P.box d3 b → IsSolPt d3 N p → v < P.nbvar → P.ny + P.ghostWidth ≤ b.j →
    (d3 = true → midZ P b) → after b p v = after ⟨b.i, P.ny + P.ghostWidth - 1, b.k⟩ p v
  front : d3 = true → ∀ b p v, P.box d3 b → IsSolPt d3 N p → v < P.nbvar → b.k < P.ghostWidth →
    after b p v = after ⟨b.i, b.j, P.ghostWidth⟩ p v
  back : d3 = true → ∀ b p v, P.box d3 b → IsSolPt d3 N p → v < P.nbvar → P.nz + P.ghostWidth ≤ b.k →
    after b p v = after ⟨b.i, b.j, P.nz + P.ghostWidth - 1⟩ p v

end Verif.Spec
