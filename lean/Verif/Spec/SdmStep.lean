import Verif.Model.SdmStep
import Verif.Spec.Sdm
import Verif.Spec.HydroStep
import Verif.Spec.Waves

/-! Vocabulary for the statements about a step of the spectral difference solver. -/

namespace Verif.Sdm

open Spec Polynomial

/-- What the solver sets up: at least one ghost layer, the variables of the dimension, at least as many cells as
ghost layers, known boundary conditions. -/
abbrev Setup {α : Type} [ROps α] (M : Scheme α) (P : Grid) (B : Sides) : Prop :=
  BoxSetup M.d3 (hydroVars M.d3) 1 P B

/-- Values at the solution points: by cell, point, variable. -/
abbrev Vals (α : Type) := Cell → Pt → ℕ → α

/-- The values an array holds. -/
def valsOf {α : Type} [ROps α] (M : Scheme α) (m : Addr → α) (A : ℕ) : Vals α :=
  fun c p iv => m (M.sol A c p iv)

/-- Number of an axis. -/
def axis : Dir → ℕ
  | .x => 0
  | .y => 1
  | .z => 2

/-- Condition at the lower side. -/
def lowBC (B : Sides) : Dir → BC
  | .x => B.xlo
  | .y => B.ylo
  | .z => B.zlo

/-- Condition at the upper side. -/
def highBC (B : Sides) : Dir → BC
  | .x => B.xhi
  | .y => B.yhi
  | .z => B.zhi

section
variable {α : Type} [ROps α]

/-- What happens to a value on its way to position `c` along one axis: behind a reflecting wall the normal
velocity changes sign. -/
def crossPt (n g : Int) (lo hi : BC) (nrm : Bool) (c : Int) (x : α) : α :=
  if behindWall n g lo hi c then x * ROps.lit (if nrm then -1 else 1) else x

/-- Which of the `N` points on the line of the source cell is taken: behind a reflecting wall the mirror
image, otherwise the same. -/
def crossIdx (N : ℕ) (n g : Int) (lo hi : BC) (c : Int) (a : ℕ) : ℕ :=
  if behindWall n g lo hi c then N - 1 - a else a

/-- The values continued beyond the two sides of one axis. -/
def extendAlong (N : ℕ) (P : Grid) (B : Sides) (d : Dir) (u : Vals α) : Vals α := fun c p iv =>
  crossPt (interior P d) P.ghostWidth (lowBC B d) (highBC B d) (normalTo (axis d) false iv) (coord d c)
    (u (setCoord d c (source (interior P d) P.ghostWidth (lowBC B d) (highBC B d) (coord d c)))
      (p.set d (crossIdx N (interior P d) P.ghostWidth (lowBC B d) (highBC B d) (coord d c) (p.get d))) iv)

/-- The values continued beyond all sides. -/
def extended (d3 : Bool) (N : ℕ) (P : Grid) (B : Sides) (u : Vals α) : Vals α :=
  let v := extendAlong N P B .y (extendAlong N P B .x u)
  if d3 then extendAlong N P B .z v else v

/-- Equal in the interior. -/
def SameInside (d3 : Bool) (N : ℕ) (P : Grid) (u v : Vals α) : Prop :=
  ∀ c p iv, P.box d3 c → P.inner d3 c → IsSolPt d3 N p → iv < hydroVars d3 → u c p iv = v c p iv

end

/-! ### The divergence of the fluxes -/

/-- Value at `x` of the polynomial through the values `u` at the solution points of a line. -/
noncomputable def lineValue (N : ℕ) (u : ℕ → ℝ) (x : ℝ) : ℝ :=
  (Lagrange.interpolate (Finset.range N) (solPts N) u).eval x

/-- Derivative at `x` of the polynomial through the values `f` at the flux points of a line. -/
noncomputable def lineSlope (N : ℕ) (f : ℕ → ℝ) (x : ℝ) : ℝ :=
  (derivative (Lagrange.interpolate (Finset.range (N + 1)) (fluxPts N) f)).eval x

/-- State at flux point `p` of cell `c`: the polynomial on the line in direction `d`, density kept at or above
`smallr`. -/
noncomputable def pointState (d3 : Bool) (N : ℕ) (smallr : ℝ) (d : Dir) (u : Vals ℝ) (c : Cell) (p : Pt) :
    HState ℝ :=
  let x := fun iv => lineValue N (fun k => u c (p.set d k) iv) (fluxPts N (p.get d))
  ⟨max (x 0) smallr, x 1, x 2, x 3, if d3 then x 4 else 0⟩

/-- Component of a state by number. -/
def part {β : Type} (q : HState β) (iv : ℕ) : β :=
  if iv = 0 then q.d else if iv = 1 then q.p else if iv = 2 then q.u else if iv = 3 then q.v else q.w

/-- Flux at flux point `p` of cell `c`: inside the cell a function `f` of the state there, at the faces a
function `g` of the states on either side, which is the same for the two cells sharing the face. -/
def pointFlux (N : ℕ) (f : HState ℝ → HState ℝ) (g : HState ℝ → HState ℝ → HState ℝ) (d : Dir)
    (q : Cell → Pt → HState ℝ) (c : Cell) (p : Pt) : HState ℝ :=
  if p.get d = 0 then g (q (c.down d) (p.set d N)) (q c (p.set d 0))
  else if p.get d = N then g (q c (p.set d N)) (q (c.up d) (p.set d 0))
  else f (q c p)

/-- Cell size. -/
def width (S : Settings ℝ) : Dir → ℝ
  | .x => S.dx
  | .y => S.dy
  | .z => S.dz

/-- Contribution of direction `d` to the divergence at solution point `p` of cell `c`: the derivative of the
polynomial through the fluxes on the line.  `f d` is the flux of a state, `g d` that between two states. -/
noncomputable def slopeOf (d3 : Bool) (N : ℕ) (S : Settings ℝ) (f : Dir → HState ℝ → HState ℝ)
    (g : Dir → HState ℝ → HState ℝ → HState ℝ) (u : Vals ℝ) (d : Dir) (c : Cell) (p : Pt) (iv : ℕ) : ℝ :=
  lineSlope N (fun k => part (pointFlux N (f d) (g d) d (pointState d3 N S.smallr d u) c (p.set d k)) iv)
    (solPts N (p.get d)) / width S d

/-- Divergence of the fluxes at solution point `p` of cell `c`; `u` includes the cells beyond the sides. -/
noncomputable def divergenceOf (d3 : Bool) (N : ℕ) (S : Settings ℝ) (f : Dir → HState ℝ → HState ℝ)
    (g : Dir → HState ℝ → HState ℝ → HState ℝ) (u : Vals ℝ) : Vals ℝ := fun c p iv =>
  slopeOf d3 N S f g u .x c p iv + slopeOf d3 N S f g u .y c p iv +
    if d3 then slopeOf d3 N S f g u .z c p iv else 0

/-- Primitive state with given conserved quantities. -/
noncomputable def primOf (d3 : Bool) (γ : ℝ) (q : HState ℝ) : HState ℝ :=
  ⟨q.d, (γ - 1) * (q.p - (q.u ^ 2 + q.v ^ 2 + (if d3 then q.w ^ 2 else 0)) / q.d / 2),
    q.u / q.d, q.v / q.d, if d3 then q.w / q.d else 0⟩

/-- Conserved quantities of a gas above the floors of the flux functions, which are independent of the run
parameters. -/
structure Physical (d3 : Bool) (γ : ℝ) (q : HState ℝ) : Prop where
  d : 1 / 100000000 ≤ q.d
  p : 1 / 10000000 * q.d ≤ (primOf d3 γ q).p
  w : d3 = false → q.w = 0

/-- Flux of a state. -/
noncomputable def gasFlux (d3 : Bool) (γ : ℝ) (d : Dir) (q : HState ℝ) : HState ℝ :=
  fluxAlong d3 γ d (primOf d3 γ q)

/-- Flux between two states by the Riemann solver of the run, applied with direction `d` as the first. -/
noncomputable def faceFlux (d3 : Bool) (S : Settings ℝ) (d : Dir) (ql qr : HState ℝ) : HState ℝ :=
  ((riemann_hydro d3 S ((primOf d3 S.gamma0 ql).swap d) ((primOf d3 S.gamma0 qr).swap d)).getD
    HState.zero).swap d

/-- The Riemann solver selected is one that exists in the dimension. -/
structure HasSolver {α : Type} (d3 : Bool) (S : Settings α) : Prop where
  hlld : S.riemann ≠ .hlld
  hll : d3 = true → S.riemann ≠ .hll

/-- Mean over a cell of the polynomial with the given values at the solution points: one integral per
direction. -/
noncomputable def cellMean (d3 : Bool) (N : ℕ) (f : Pt → ℝ) : ℝ :=
  lineMean N fun x => lineMean N fun y => if d3 then lineMean N fun z => f ⟨x, y, z⟩ else f ⟨x, y, 0⟩

/-- Sum over the interior of the means of variable `iv`. -/
noncomputable def content (d3 : Bool) (N : ℕ) (P : Grid) (u : Vals ℝ) (iv : ℕ) : ℝ :=
  interiorSum d3 P fun c => cellMean d3 N fun p => u c p iv

/-- Mean over the lower face of cell `c` in direction `d` of the flux of variable `iv`, by cell size. -/
noncomputable def faceMean (d3 : Bool) (N : ℕ) (S : Settings ℝ) (f : Dir → HState ℝ → HState ℝ)
    (g : Dir → HState ℝ → HState ℝ → HState ℝ) (u : Vals ℝ) (iv : ℕ) (d : Dir) (c : Cell) : ℝ :=
  cellMean d3 N (fun p =>
    part (pointFlux N (f d) (g d) d (pointState d3 N S.smallr d u) c (p.set d 0)) iv) / width S d

/-- One explicit step: the values minus `dt` times the divergence of the fluxes. -/
noncomputable def advance (M : Scheme ℝ) (S : Settings ℝ) (P : Grid) (B : Sides) (dt : ℝ) (u : Vals ℝ) :
    Vals ℝ := fun c p iv => u c p iv - dt * divergenceOf M.d3 M.N S (eulerFluxOf M.d3 S)
      (riemannFlux M.d3 S HState.zero) (extended M.d3 M.N P B u) c p iv

/-- What enters through the sides of the box per time, in units of cells. -/
noncomputable def inflow (M : Scheme ℝ) (S : Settings ℝ) (P : Grid) (B : Sides) (u : Vals ℝ) (iv : ℕ) : ℝ :=
  let F := faceMean M.d3 M.N S (eulerFluxOf M.d3 S) (riemannFlux M.d3 S HState.zero)
    (extended M.d3 M.N P B u) iv
  netInflow M.d3 P (F .x) (F .y) (F .z)

/-- The same state everywhere. -/
def everywhere (q : HState ℝ) : Vals ℝ := fun _ _ iv => part q iv

/-- No flow through reflecting sides. -/
def RestAtWalls (d3 : Bool) (B : Sides) (q : HState ℝ) : Prop :=
  ∀ d, d3 = true ∨ d ≠ .z →
    (lowBC B d = .reflecting ∨ highBC B d = .reflecting) → d.pick q.u q.v q.w = 0

/-- Conserved quantities of a gas above all floors. -/
structure Settled (d3 : Bool) (S : Settings ℝ) (q : HState ℝ) : Prop where
  phys : Physical d3 S.gamma0 q
  floors : AboveFloors S (primOf d3 S.gamma0 q)

/-- Variable `iv` cannot leave the box: along every axis the sides are periodic, or reflecting and `iv` is not
the momentum normal to them. -/
def Closed (d3 : Bool) (B : Sides) (iv : ℕ) : Prop :=
  ∀ d, d3 = true ∨ d ≠ .z →
    (lowBC B d = .periodic ∧ highBC B d = .periodic) ∨
    (lowBC B d = .reflecting ∧ highBC B d = .reflecting ∧ iv ≠ 2 + axis d)

/-- No side is reflecting, or the Riemann solver is not the approximate one. -/
def WallSolver (d3 : Bool) (S : Settings ℝ) (B : Sides) : Prop :=
  ∀ d, d3 = true ∨ d ≠ .z → (lowBC B d = .reflecting ∨ highBC B d = .reflecting) → S.riemann ≠ .approx

/-- Mirror image in direction `d`. -/
def mirrorAlong (d : Dir) (q : HState ℝ) : HState ℝ :=
  match d with
  | .x => { q with u := -q.u }
  | .y => { q with v := -q.v }
  | .z => { q with w := -q.w }

/-- The solver object with exact points. -/
structure ExactScheme (M : Scheme ℝ) : Prop where
  orders : Orders M.N
  sp : M.sp = solPts M.N
  fp : M.fp = fluxPts M.N

end Verif.Sdm
