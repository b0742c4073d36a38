import Verif.Spec.Euler
import Verif.Model.Euler
import Mathlib.Analysis.Calculus.Deriv.Basic

/-! Specification vocabulary: linearised Euler equations and viscous stress. -/

namespace Verif.Spec

/-- The state `q + t δ`. -/
def along (q δ : HState ℝ) (t : ℝ) : HState ℝ :=
  ⟨q.d + t * δ.d, q.p + t * δ.p, q.u + t * δ.u, q.v + t * δ.v, q.w + t * δ.w⟩

/-- `D` is the derivative of `F` at `q` in the direction `δ`. -/
structure DirDeriv (F : HState ℝ → HState ℝ) (q δ D : HState ℝ) : Prop where
  d : HasDerivAt (fun t => (F (along q δ t)).d) D.d 0
  p : HasDerivAt (fun t => (F (along q δ t)).p) D.p 0
  u : HasDerivAt (fun t => (F (along q δ t)).u) D.u 0
  v : HasDerivAt (fun t => (F (along q δ t)).v) D.v 0
  w : HasDerivAt (fun t => (F (along q δ t)).w) D.w 0

/-- Pressure of a conservative state (`d` density, `p` energy, `u v w` momenta). -/
noncomputable def gasPressure (d3 : Bool) (γ : ℝ) (q : HState ℝ) : ℝ :=
  (γ - 1) * (q.p - (q.u ^ 2 + q.v ^ 2 + (if d3 then q.w ^ 2 else 0)) / (2 * q.d))

/-- Flux of mass, energy and momentum through a unit area orthogonal to `dir`, for a primitive state. -/
noncomputable def fluxAlong (d3 : Bool) (γ : ℝ) (dir : Dir) (q : HState ℝ) : HState ℝ :=
  let un := dir.pick q.u q.v q.w
  { d := q.d * un
    p := (energy d3 γ q + q.p) * un
    u := q.d * un * q.u + (if dir = .x then q.p else 0)
    v := q.d * un * q.v + (if dir = .y then q.p else 0)
    w := if d3 then q.d * un * q.w + (if dir = .z then q.p else 0) else 0 }

/-- Entry of the velocity gradient: derivative of velocity component `i` along `j`. -/
def grad (g : GradTensor ℝ) (i j : Dir) : ℝ :=
  i.pick (j.pick g.ux g.uy g.uz) (j.pick g.vx g.vy g.vz) (j.pick g.wx g.wy g.wz)

/-- Divergence of the velocity. -/
def trace (g : GradTensor ℝ) : ℝ := grad g .x .x + grad g .y .y + grad g .z .z

/-- Viscous stress tensor in `n` dimensions: `mu (∂_j u_i + ∂_i u_j - (2/n) δ_ij ∇·u)`. -/
noncomputable def stress (n : ℕ) (mu : ℝ) (g : GradTensor ℝ) (i j : Dir) : ℝ :=
  mu * (grad g i j + grad g j i - if i = j then 2 / n * trace g else 0)

end Verif.Spec
