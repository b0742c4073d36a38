import Verif.Spec.InitHydro

/-! Specification vocabulary for two-dimensional Riemann problems (gas with `gamma = 7/5`). -/

namespace Verif.Spec

/-- PointGas on one side of an interface: density, pressure, normal and tangential velocity. -/
structure Side where
  rho : ℝ
  p : ℝ
  un : ℝ
  ut : ℝ

/-- The elementary waves. -/
inductive Wave where
  | contact | shock | rarefaction

/-- The interface between the gases `l` (before) and `r` (behind, along the normal) is, up to a tolerance, one
elementary wave:
* contact: same pressure and normal velocity;
* shock: compression, same tangential velocity, jump of the normal velocity and ratio of the densities given by
  the Rankine-Hugoniot conditions;
* rarefaction: same tangential velocity, same entropy, and the jump of the normal velocity is `2 / (gamma - 1)`
  times that of the speed of sound. -/
def Wave.joins (tol : ℝ) (l r : Side) : Wave → Prop
  | .contact => |l.p - r.p| ≤ tol ∧ |l.un - r.un| ≤ tol
  | .shock => |l.ut - r.ut| ≤ tol ∧
      |(l.un - r.un) - √((r.p - l.p) * (r.rho - l.rho) / (l.rho * r.rho))| ≤ tol ∧
      |r.rho * (6 * l.p + r.p) - l.rho * (6 * r.p + l.p)| ≤ tol * (l.rho * (6 * r.p + l.p))
  | .rarefaction => |l.ut - r.ut| ≤ tol ∧
      |(r.un - l.un) - 5 * (|√(7 / 5 * r.p / r.rho) - √(7 / 5 * l.p / l.rho)|)| ≤ tol ∧
      |l.p ^ 5 * r.rho ^ 7 - r.p ^ 5 * l.rho ^ 7| ≤ 5 * tol * (r.p ^ 5 * l.rho ^ 7)

/-- State seen along `x`. -/
def alongX (q : HState ℚ) : Side := ⟨q.d, q.p, q.u, q.v⟩
/-- State seen along `y`. -/
def alongY (q : HState ℚ) : Side := ⟨q.d, q.p, q.v, q.u⟩

/-- Each of the four interfaces between the quadrants is one elementary wave.  Quadrants 0 to 3 are counted
counterclockwise from the upper right one. -/
def FourWaves (tol : ℝ) (q : Quadrants ℚ) : Prop :=
  (∃ w, Wave.joins tol (alongX q.U1) (alongX q.U0) w) ∧ (∃ w, Wave.joins tol (alongX q.U2) (alongX q.U3) w) ∧
    (∃ w, Wave.joins tol (alongY q.U2) (alongY q.U1) w) ∧ (∃ w, Wave.joins tol (alongY q.U3) (alongY q.U0) w)

/-- PointGas with the given density, pressure and velocity. -/
def gasOf (q : HState ℚ) : PointGas := ⟨q.d, q.p, q.u, q.v, 0⟩

/-- Four gases around the point `(xt, yt)`, counterclockwise from the upper right one. -/
noncomputable def quadrantGas (q : Quadrants ℚ) (xt yt x y _z : ℝ) : PointGas :=
  if xt ≤ x then (if yt ≤ y then gasOf q.U0 else gasOf q.U3)
  else (if yt ≤ y then gasOf q.U1 else gasOf q.U2)

end Verif.Spec
