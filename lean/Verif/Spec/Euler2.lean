import Verif.Spec.InitHydro
import Mathlib.Analysis.Calculus.Deriv.Basic

/-! The Euler equations of a gas in two dimensions, in conservation form. -/

namespace Verif.Spec

/-- Flux of mass, energy and momentum along `x`. -/
noncomputable def PointGas.fluxX (gamma : ℝ) (g : PointGas) : HState ℝ :=
  ⟨g.rho * g.u, ((g.conserved gamma).p + g.p) * g.u, g.rho * g.u * g.u + g.p, g.rho * g.u * g.v, 0⟩

/-- Flux of mass, energy and momentum along `y`. -/
noncomputable def PointGas.fluxY (gamma : ℝ) (g : PointGas) : HState ℝ :=
  ⟨g.rho * g.v, ((g.conserved gamma).p + g.p) * g.v, g.rho * g.v * g.u, g.rho * g.v * g.v + g.p, 0⟩

/-- Derivative of the density of mass, energy and the two components of the momentum. -/
def HasDeriv4 (f : ℝ → HState ℝ) (f' : HState ℝ) (x : ℝ) : Prop :=
  HasDerivAt (fun x => (f x).d) f'.d x ∧ HasDerivAt (fun x => (f x).p) f'.p x ∧
    HasDerivAt (fun x => (f x).u) f'.u x ∧ HasDerivAt (fun x => (f x).v) f'.v x

/-- The flow `s` (time, then position) obeys the Euler equations at a point. -/
def Euler2At (gamma : ℝ) (s : ℝ → ℝ → ℝ → PointGas) (t x y : ℝ) : Prop :=
  ∃ a b c : HState ℝ, HasDeriv4 (fun τ => (s τ x y).conserved gamma) a t ∧
    HasDeriv4 (fun ξ => (s t ξ y).fluxX gamma) b x ∧
    HasDeriv4 (fun η => (s t x η).fluxY gamma) c y ∧
    a.d + b.d + c.d = 0 ∧ a.p + b.p + c.p = 0 ∧ a.u + b.u + c.u = 0 ∧ a.v + b.v + c.v = 0

end Verif.Spec
