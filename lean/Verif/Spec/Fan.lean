import Verif.Spec.Mhd

/-! Independent specification: the approximate Riemann fan of ideal MHD with five waves (two fast waves,
two Alfven waves, one contact), as a list of constant states separated by discontinuities that satisfy the
jump conditions of the conservation laws. -/

namespace Verif.Spec

/-- A constant state of a fan: density, velocity, transverse field, energy and total pressure. -/
structure FanState where
  d : ℝ
  u : ℝ
  v : ℝ
  w : ℝ
  b : ℝ
  c : ℝ
  e : ℝ
  pt : ℝ

/-- The state of a gas. -/
noncomputable def FanState.ofGas (γ : ℝ) (q : MState ℝ) : FanState :=
  ⟨q.d, q.u, q.v, q.w, q.b, q.c, mhdEnergy γ q, q.p + fieldSq q / 2⟩

/-- Conserved quantities (`a`: normal field). -/
def FanState.cons (a : ℝ) (x : FanState) : MState ℝ :=
  ⟨x.d, x.e, x.d * x.u, x.d * x.v, x.d * x.w, a, x.b, x.c⟩

/-- Flux. -/
def FanState.flux (a : ℝ) (x : FanState) : MState ℝ :=
  ⟨x.d * x.u, (x.e + x.pt) * x.u - a * (x.u * a + x.v * x.b + x.w * x.c),
    x.d * x.u ^ 2 + x.pt - a ^ 2, x.d * x.u * x.v - a * x.b, x.d * x.u * x.w - a * x.c, 0,
    x.u * x.b - x.v * a, x.u * x.c - x.w * a⟩

/-- The eight quantities as a vector. -/
def comps (q : MState ℝ) : Fin 8 → ℝ := ![q.d, q.p, q.u, q.v, q.w, q.a, q.b, q.c]

/-- The jump conditions across a discontinuity moving with speed `s`. -/
def Jump (a s : ℝ) (x y : FanState) : Prop :=
  ∀ i, comps (y.flux a) i - comps (x.flux a) i = s * (comps (y.cons a) i - comps (x.cons a) i)

/-- States `q 0, …, q 5` separated by waves with speeds `s 0, …, s 4` between the gases `L` and `R`. -/
structure FiveWaves (γ a : ℝ) (L R : MState ℝ) (s : Fin 5 → ℝ) (q : Fin 6 → FanState) : Prop where
  left : q 0 = .ofGas γ L
  right : q 5 = .ofGas γ R
  jump : ∀ i : Fin 5, Jump a (s i) (q i.castSucc) (q i.succ)
  /-- the velocity between the fast waves is that of the contact, the total pressure is constant -/
  u : ∀ i ∈ [1, 2, 3, 4], (q i).u = s 2
  pt : ∀ i ∈ [1, 2, 3, 4], (q i).pt = (q 1).pt
  /-- across the contact only the density and the energy jump -/
  contact : (q 2).v = (q 3).v ∧ (q 2).w = (q 3).w ∧ (q 2).b = (q 3).b ∧ (q 2).c = (q 3).c
  /-- the waves next to it are Alfven waves -/
  alfven : (q 2).d = (q 1).d ∧ s 1 = s 2 - |a| / Real.sqrt (q 1).d ∧
    (q 3).d = (q 4).d ∧ s 3 = s 2 + |a| / Real.sqrt (q 4).d
  order : s 0 < s 2 ∧ s 2 < s 4
  dens : ∀ i, 0 < (q i).d

/-- `f` is the flux of the state at the origin: state `i` where all waves to the left of it move to the
left (or stand) and the next wave moves to the right. -/
def FluxAtOrigin (a : ℝ) (s : Fin 5 → ℝ) (q : Fin 6 → FanState) (f : MState ℝ) : Prop :=
  ∃ i : Fin 6, f = (q i).flux a ∧ (∀ j : Fin 5, j.castSucc < i → s j ≤ 0) ∧
    ∀ j : Fin 5, j.castSucc = i → 0 < s j

/-- The speed of the contact between outer waves `sl` and `sr`: momentum of the gas between them divided
by its mass. -/
noncomputable def contactSpeed (sl sr : ℝ) (L R : MState ℝ) : ℝ :=
  (R.d * (sr - R.u) * R.u + L.d * (L.u - sl) * L.u + (L.p + fieldSq L / 2 - (R.p + fieldSq R / 2))) /
    (R.d * (sr - R.u) + L.d * (L.u - sl))

/-- What is left of the momentum balance across the outer wave `s` once the pull of the normal field is
taken off; the transverse jumps are undetermined where it vanishes. -/
def outerMargin (s us : ℝ) (q : MState ℝ) : ℝ := q.d * (s - q.u) * (s - us) - q.a ^ 2

end Verif.Spec
