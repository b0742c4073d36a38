import Verif.Spec.MhdScheme
import Verif.Spec.InitHydro
import Mathlib.Analysis.Calculus.Deriv.Basic

/-! Specification vocabulary: plane waves of the linearised equations of ideal MHD. -/

namespace Verif.Spec

/-- Primitive variables (pressure, velocity) of a conservative state (energy, momentum). -/
noncomputable def mhdPrimitive (γ : ℝ) (U : MState ℝ) : MState ℝ where
  d := U.d
  p := (γ - 1) * (U.p - (U.u ^ 2 + U.v ^ 2 + U.w ^ 2) / (2 * U.d) - fieldSq U / 2)
  u := U.u / U.d
  v := U.v / U.d
  w := U.w / U.d
  a := U.a
  b := U.b
  c := U.c

/-- The state `U + t δ`. -/
def mhdAlong (U δ : MState ℝ) (t : ℝ) : MState ℝ :=
  ⟨U.d + t * δ.d, U.p + t * δ.p, U.u + t * δ.u, U.v + t * δ.v, U.w + t * δ.w, U.a + t * δ.a, U.b + t * δ.b,
    U.c + t * δ.c⟩

/-- `D` is the derivative of the flux along the first axis, as a function of the conservative state, at `U` in the
direction `δ`. -/
structure FluxDeriv (γ : ℝ) (U δ D : MState ℝ) : Prop where
  d : HasDerivAt (fun t => (mhdFlux γ (mhdPrimitive γ (mhdAlong U δ t))).d) D.d 0
  p : HasDerivAt (fun t => (mhdFlux γ (mhdPrimitive γ (mhdAlong U δ t))).p) D.p 0
  u : HasDerivAt (fun t => (mhdFlux γ (mhdPrimitive γ (mhdAlong U δ t))).u) D.u 0
  v : HasDerivAt (fun t => (mhdFlux γ (mhdPrimitive γ (mhdAlong U δ t))).v) D.v 0
  w : HasDerivAt (fun t => (mhdFlux γ (mhdPrimitive γ (mhdAlong U δ t))).w) D.w 0
  a : HasDerivAt (fun t => (mhdFlux γ (mhdPrimitive γ (mhdAlong U δ t))).a) D.a 0
  b : HasDerivAt (fun t => (mhdFlux γ (mhdPrimitive γ (mhdAlong U δ t))).b) D.b 0
  c : HasDerivAt (fun t => (mhdFlux γ (mhdPrimitive γ (mhdAlong U δ t))).c) D.c 0

/-- Up to `ε`, the disturbance `δ` of the conservative state `U` travels with speed `s` along the first axis
unchanged: the linearised flux of `δ` is `s δ`. -/
def IsWave (γ ε s : ℝ) (U δ : MState ℝ) : Prop :=
  ∃ D, FluxDeriv γ U δ D ∧ |D.d - s * δ.d| ≤ ε ∧ |D.p - s * δ.p| ≤ ε ∧ |D.u - s * δ.u| ≤ ε ∧
    |D.v - s * δ.v| ≤ ε ∧ |D.w - s * δ.w| ≤ ε ∧ |D.a - s * δ.a| ≤ ε ∧ |D.b - s * δ.b| ≤ ε ∧ |D.c - s * δ.c| ≤ ε

/-- `e .x, e .y, e .z` is a right-handed orthonormal frame. -/
structure Frame (e : Dir → Dir → ℝ) : Prop where
  unit : ∀ a, sum3 (fun b => e a b * e a b) = 1
  ortho : ∀ a b, a ≠ b → sum3 (fun c => e a c * e b c) = 0
  hand : ∀ a, e .z a = e .x (next a) * e .y (next (next a)) - e .x (next (next a)) * e .y (next a)

/-- Centre of a cell of the box. -/
noncomputable def midpoint (S : MSettings ℝ) (P : Grid) (D : Domain ℝ) (i j k : Nat) : Dir → ℝ
  | .x => centre D.xmin S.dx P.nx D.i_mpi i
  | .y => centre D.ymin S.dy P.ny D.j_mpi j
  | .z => centre D.zmin S.dz P.nz D.k_mpi k

/-- Size of a cell. -/
def cellSize (S : MSettings ℝ) : Dir → ℝ
  | .x => S.dx
  | .y => S.dy
  | .z => S.dz

/-- The array `A` holds the plane wave of wave number `k` and amplitude `a` along the axis `e .x`: in the frame `e`,
each conservative state is `U + a sin (k X) δ`, where `X` is the coordinate of the centre of the cell along `e .x`.
The magnetic field is that at the centres of the faces, up to an error that is quadratic in the size `h` of the
cells. -/
def PlaneWave (S : MSettings ℝ) (P : Grid) (D : Domain ℝ) (m : Addr → ℝ) (A : Nat) (e : Dir → Dir → ℝ) (k a : ℝ)
    (U δ : MState ℝ) : Prop :=
  ∀ i j l : Nat, i < P.nx.toNat → j < P.ny.toNat → l < P.nz.toNat →
    let phase := fun x : Dir → ℝ => a * Real.sin (k * sum3 fun b => e .x b * x b)
    let x := midpoint S P D i j l
    let q := stateAt m A (cell true P i j l)
    q.d = U.d + phase x * δ.d ∧ q.p = U.p + phase x * δ.p ∧
    (∀ b, vel q b = sum3 fun n => e n b * (vel U n + phase x * vel δ n)) ∧
    ∀ b h, (∀ c, |cellSize S c| ≤ h) →
      |mag q b - sum3 fun n => e n b *
        (mag U n + phase (fun c => if c = b then x c - cellSize S c / 2 else x c) * mag δ n)| ≤
        |a| * (|δ.b| + |δ.c|) * (k * h) ^ 2 / 12

end Verif.Spec
