import Verif.Spec.SdmStep
import Verif.Model.SdmLimiter

/-! Specification: means used by the limiter of the spectral difference solver, and the limited slope. -/

namespace Verif.Sdm

open Verif

/-- Angle of solution point `k`: the point is at `(1 - cos θ) / 2`. -/
noncomputable def angle (N k : ℕ) : ℝ := (2 * k + 1) * Real.pi / (2 * N)

/-- Mean over the points of a line with weights `sin θ`. -/
noncomputable def angleMean (N : ℕ) (u : ℕ → ℝ) : ℝ :=
  (∑ k ∈ Finset.range N, Real.sin (angle N k) * u k) / ∑ k ∈ Finset.range N, Real.sin (angle N k)

/-- Mean over the points of a cell with those weights in every direction. -/
noncomputable def cellAngleMean (d3 : Bool) (N : ℕ) (f : Pt → ℝ) : ℝ :=
  angleMean N fun x => angleMean N fun y => if d3 then angleMean N fun z => f ⟨x, y, z⟩ else f ⟨x, y, 0⟩

/-- By how much the sum of the weights of a line exceeds one. -/
noncomputable def excess (N : ℕ) : ℝ := Real.pi / (2 * N) / Real.sin (Real.pi / (2 * N))

/-- Number of directions. -/
def dims (d3 : Bool) : ℕ := if d3 then 3 else 2

/-- Derivative in direction `d` at point `p` of the polynomial through the values on the line through `p`. -/
noncomputable def slopeAt (N : ℕ) (d : Dir) (f : Pt → ℝ) (p : Pt) : ℝ :=
  (Polynomial.derivative (Lagrange.interpolate (Finset.range N) (solPts N) fun k => f (p.set d k))).eval
    (solPts N (p.get d))

/-- `r` is the limited slope: `a` itself if smaller than `M` in magnitude; otherwise the one of smallest
magnitude if the three have the same sign, and zero if not. -/
def IsLimitedSlope (M a b c r : ℝ) : Prop :=
  (|a| < M ∧ r = a) ∨
  (M ≤ |a| ∧ 0 < a ∧ 0 < b ∧ 0 < c ∧ (r = a ∨ r = b ∨ r = c) ∧ r ≤ a ∧ r ≤ b ∧ r ≤ c) ∨
  (M ≤ |a| ∧ a < 0 ∧ b < 0 ∧ c < 0 ∧ (r = a ∨ r = b ∨ r = c) ∧ a ≤ r ∧ b ≤ r ∧ c ≤ r) ∨
  (M ≤ |a| ∧ ¬ (0 < a ∧ 0 < b ∧ 0 < c) ∧ ¬ (a < 0 ∧ b < 0 ∧ c < 0) ∧ r = 0)

/-- The values of a cell are linear in position with value `a` in the middle and slopes `s`. -/
def LinearIn (d3 : Bool) (N : ℕ) (f : Pt → ℝ) (a : ℝ) (s : Dir → ℝ) : Prop :=
  ∀ p, IsSolPt d3 N p → f p = a + (solPts N p.x - 1 / 2) * s .x + (solPts N p.y - 1 / 2) * s .y +
    if d3 then (solPts N p.z - 1 / 2) * s .z else 0

/-- Values per cell in array `A` as a state. -/
def stored (d3 : Bool) (m : Addr → ℝ) (A : ℕ) (c : Cell) : HState ℝ :=
  ⟨m (c.at A 0), m (c.at A 1), m (c.at A 2), m (c.at A 3), if d3 then m (c.at A 4) else 0⟩

/-- Difference of two states. -/
def minus (a b : HState ℝ) : HState ℝ := ⟨a.d - b.d, a.p - b.p, a.u - b.u, a.v - b.v, a.w - b.w⟩

/-- `s` is the slope of a cell in direction `d` with averages `q`, average derivative `g` and averages `lo`, `hi`
of the neighbours, limited in the characteristic variables of speed of sound `a`. -/
def IsCellSlope (d3 : Bool) (M γ a : ℝ) (d : Dir) (q g lo hi s : HState ℝ) : Prop :=
  ∃ t : HState ℝ, s = ofCharac d3 d t q a γ ∧ ∀ iv, iv < hydroVars d3 →
    IsLimitedSlope M (part (toCharac d3 d g q a γ) iv) (part (toCharac d3 d (minus q lo) q a γ) iv)
      (part (toCharac d3 d (minus hi q) q a γ) iv) (part t iv)

/-- A cell at rest with density `ρ + s (x - 1/2)` and energy density `E`. -/
noncomputable def ramp (N : ℕ) (ρ s E : ℝ) (p : Pt) (iv : ℕ) : ℝ :=
  if iv = 0 then ρ + s * (solPts N p.x - 1 / 2) else if iv = 1 then E else 0

end Verif.Sdm
