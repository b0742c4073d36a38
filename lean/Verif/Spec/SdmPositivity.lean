import Verif.Spec.SdmLimiter

/-! Specification: states at the flux points of a cell, their pressure. -/

namespace Verif.Sdm

open Verif

/-- `j` is one of the flux points of the line in direction `d` through solution point `p`. -/
def IsFluxLoc (d3 : Bool) (N : ℕ) (d : Dir) (p : Pt) (j : ℕ) : Prop :=
  (d3 = true ∨ d ≠ .z) ∧ IsSolPt d3 N p ∧ j ≤ N

/-- Value of variable `iv` there: that of the polynomial on the line. -/
noncomputable def fluxValue (N : ℕ) (u : Vals ℝ) (c : Cell) (d : Dir) (p : Pt) (j iv : ℕ) : ℝ :=
  lineValue N (fun k => u c (p.set d k) iv) (fluxPts N j)

/-- State there. -/
noncomputable def fluxGas (d3 : Bool) (N : ℕ) (u : Vals ℝ) (c : Cell) (d : Dir) (p : Pt) (j : ℕ) :
    HState ℝ :=
  let f := fluxValue N u c d p j
  ⟨f 0, f 1, f 2, f 3, if d3 then f 4 else 0⟩

/-- Pressure of a gas with density `q.d`, energy density `q.p` and momentum `(q.u, q.v, q.w)`. -/
noncomputable def gasPressure (γ : ℝ) (q : HState ℝ) : ℝ :=
  (γ - 1) * (q.p - (q.u ^ 2 + q.v ^ 2 + q.w ^ 2) / (2 * q.d))

/-- The state a fraction `t` of the way from `a` to `b`. -/
def between (a b : HState ℝ) (t : ℝ) : HState ℝ :=
  ⟨a.d + t * (b.d - a.d), a.p + t * (b.p - a.p), a.u + t * (b.u - a.u), a.v + t * (b.v - a.v),
    a.w + t * (b.w - a.w)⟩

end Verif.Sdm
