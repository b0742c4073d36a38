import Verif.Lemmas.HydroFlux
import Verif.Model.ComputeDt
import Verif.Props.C27_C29_Riemann

/-!
# C30, C31, C33, C57: formulas applied in a single cell

Limited slopes, primitive variables, gravity source term, predictor.
-/

namespace Verif

open Spec ROps

variable {S : Settings ℝ}

/-! ### C30 limiter -/

theorem slopeScalar_real (a q b : ℝ) (hs : S.slope_type = 1 ∨ S.slope_type = 2) :
    slopeScalar S q b a =
      (if 0 ≤ b - a then 1 else -1) *
        min (if (q - a) * (b - q) ≤ 0 then 0 else
          S.slope_type * min |q - a| |b - q|) (|b - a| / 2) := by
  have hp : 0 ≤ S.slope_type := by rcases hs with h | h <;> rw [h] <;> norm_num
  have hp2 : 0 < S.slope_type * S.slope_type := by rcases hs with h | h <;> rw [h] <;> norm_num
  have hprod : S.slope_type * (q - a) * (S.slope_type * (b - q)) =
      S.slope_type * S.slope_type * ((q - a) * (b - q)) := by ring
  have hcond : S.slope_type * (q - a) * (S.slope_type * (b - q)) ≤ 0 ↔ (q - a) * (b - q) ≤ 0 := by
    rw [hprod]; constructor
    · intro h; by_contra h'; push Not at h'; have := mul_pos hp2 h'; linarith
    · intro h; exact mul_nonpos_of_nonneg_of_nonpos hp2.le h
  have habs : |1 / 2 * (b - a)| = |b - a| / 2 := by
    rw [abs_mul, abs_of_pos (by norm_num : (0 : ℝ) < 1 / 2)]; ring
  have hsg : 0 ≤ 1 / 2 * (b - a) ↔ 0 ≤ b - a := by constructor <;> intro h <;> linarith
  unfold slopeScalar
  rops
  simp only [hcond, habs, hsg, abs_mul, abs_of_nonneg hp, mul_min_of_nonneg _ _ hp]

/-- **C30**: the limited slope vanishes at extrema and otherwise has the sign of both one-sided
differences. -/
theorem C30_sign (a q b : ℝ) (hs : S.slope_type = 1 ∨ S.slope_type = 2) :
    ((q - a) * (b - q) ≤ 0 → slopeScalar S q b a = 0) ∧
    (a < q → q < b → 0 < slopeScalar S q b a) ∧
    (b < q → q < a → slopeScalar S q b a < 0) := by
  have hp : 0 < S.slope_type := by rcases hs with h | h <;> rw [h] <;> norm_num
  refine ⟨fun h => ?_, fun h1 h2 => ?_, fun h1 h2 => ?_⟩
  · rw [slopeScalar_real a q b hs, if_pos h, min_eq_left (by positivity), mul_zero]
  · rw [slopeScalar_real a q b hs, if_pos (by linarith), one_mul, if_neg (by nlinarith), lt_min_iff]
    refine ⟨mul_pos hp (lt_min ?_ ?_), ?_⟩
    · exact abs_pos.2 (by linarith)
    · exact abs_pos.2 (by linarith)
    · have : 0 < |b - a| := abs_pos.2 (by linarith)
      linarith
  · rw [slopeScalar_real a q b hs, if_neg (by linarith), if_neg (by nlinarith)]
    have : 0 < min (S.slope_type * min |q - a| |b - q|) (|b - a| / 2) := by
      rw [lt_min_iff]
      refine ⟨mul_pos hp (lt_min ?_ ?_), ?_⟩
      · exact abs_pos.2 (by linarith)
      · exact abs_pos.2 (by linarith)
      · have : 0 < |b - a| := abs_pos.2 (by linarith)
        linarith
    linarith

/-- **C30**: bounds by the one-sided and centred differences. -/
theorem C30_bounds (a q b : ℝ) (hs : S.slope_type = 1 ∨ S.slope_type = 2) :
    |slopeScalar S q b a| ≤ S.slope_type * |q - a| ∧
    |slopeScalar S q b a| ≤ S.slope_type * |b - q| ∧
    |slopeScalar S q b a| ≤ |b - a| / 2 := by
  have hp : 0 < S.slope_type := by rcases hs with h | h <;> rw [h] <;> norm_num
  have key : |slopeScalar S q b a| = min (if (q - a) * (b - q) ≤ 0 then 0 else
          S.slope_type * min |q - a| |b - q|) (|b - a| / 2) := by
    rw [slopeScalar_real a q b hs, abs_mul]
    have h1 : |(if 0 ≤ b - a then (1 : ℝ) else -1)| = 1 := by split_ifs <;> simp
    rw [h1, one_mul, abs_of_nonneg]
    refine le_min ?_ (by positivity)
    split_ifs
    · exact le_rfl
    · positivity
  rw [key]
  have h0 : (if (q - a) * (b - q) ≤ 0 then 0 else S.slope_type * min |q - a| |b - q|) ≤
      S.slope_type * min |q - a| |b - q| := by
    split_ifs
    · positivity
    · exact le_rfl
  refine ⟨(min_le_left _ _).trans (h0.trans ?_), (min_le_left _ _).trans (h0.trans ?_),
    min_le_right _ _⟩
  · exact mul_le_mul_of_nonneg_left (min_le_left _ _) hp.le
  · exact mul_le_mul_of_nonneg_left (min_le_right _ _) hp.le

/-- **C30**: the reconstructed values at the faces stay between the values of the neighbouring
cells: `q ± slope/2` lies between `q` and the neighbour on that side. -/
theorem C30_no_new_extrema (a q b : ℝ) (hs : S.slope_type = 1 ∨ S.slope_type = 2) :
    min q b ≤ q + slopeScalar S q b a / 2 ∧ q + slopeScalar S q b a / 2 ≤ max q b ∧
    min a q ≤ q - slopeScalar S q b a / 2 ∧ q - slopeScalar S q b a / 2 ≤ max a q := by
  obtain ⟨z, p, n⟩ := C30_sign (S := S) a q b hs
  obtain ⟨b1, b2, -⟩ := C30_bounds (S := S) a q b hs
  have h2 : S.slope_type ≤ 2 := by rcases hs with h | h <;> rw [h] <;> norm_num
  have b1' : |slopeScalar S q b a| ≤ 2 * |q - a| :=
    b1.trans (mul_le_mul_of_nonneg_right h2 (abs_nonneg _))
  have b2' : |slopeScalar S q b a| ≤ 2 * |b - q| :=
    b2.trans (mul_le_mul_of_nonneg_right h2 (abs_nonneg _))
  by_cases h : (q - a) * (b - q) ≤ 0
  · rw [z h]; simp
  · push Not at h
    rcases pos_and_pos_or_neg_and_neg_of_mul_pos h with ⟨h3, h4⟩ | ⟨h3, h4⟩
    · have hp := p (by linarith) (by linarith)
      rw [abs_of_pos hp, abs_of_pos (by linarith)] at b1' b2'
      rw [min_eq_left (by linarith : q ≤ b), max_eq_right (by linarith : q ≤ b),
        min_eq_left (by linarith : a ≤ q), max_eq_right (by linarith : a ≤ q)]
      refine ⟨?_, ?_, ?_, ?_⟩ <;> linarith
    · have hp := n (by linarith) (by linarith)
      rw [abs_of_neg hp, abs_of_neg (by linarith)] at b1' b2'
      rw [min_eq_right (by linarith : b ≤ q), max_eq_left (by linarith : b ≤ q),
        min_eq_right (by linarith : q ≤ a), max_eq_left (by linarith : q ≤ a)]
      refine ⟨?_, ?_, ?_, ?_⟩ <;> linarith

/-- **C30**: where the data are linear the slope is exact (the scheme is second order). -/
theorem C30_linear (q s : ℝ) (hs : S.slope_type = 1 ∨ S.slope_type = 2) :
    slopeScalar S q (q + s) (q - s) = s := by
  rw [slopeScalar_real _ _ _ hs]
  have e1 : q + s - (q - s) = 2 * s := by ring
  have e2 : q - (q - s) = s := by ring
  have e3 : q + s - q = s := by ring
  rw [e1, e2, e3]
  have h1 : 1 ≤ S.slope_type := by rcases hs with h | h <;> rw [h] <;> norm_num
  by_cases h : s = 0
  · subst h; simp
  · have hc : ¬ (s * s ≤ 0) := by have := mul_self_pos.2 h; linarith
    rw [if_neg hc, min_self, abs_mul, abs_two, mul_div_cancel_left₀ _ two_ne_zero, min_eq_right]
    · by_cases hp : 0 ≤ s
      · rw [if_pos (by linarith), one_mul, abs_of_nonneg hp]
      · push Not at hp
        rw [if_neg (by linarith), abs_of_neg hp]; ring
    · have := abs_nonneg s; nlinarith

/-- Concrete slopes. -/
example : slopeScalar exampleSettings 1 4 0 = 1 := by
  rw [slopeScalar_real _ _ _ (Or.inl rfl)]; norm_num [exampleSettings]
example : slopeScalar exampleSettings 5 4 0 = 0 :=
  (C30_sign 0 5 4 (Or.inl rfl)).1 (by norm_num)

/-! ### C31 primitive variables -/

/-- **C31**: whatever the conservative state, density, pressure and sound speed are positive and
respect the floors. -/
theorem C31_physical (d3 : Bool) (hS : GasParams S) (u : HState ℝ) :
    let q := (computePrimitives d3 S u).1
    let c := (computePrimitives d3 S u).2
    S.smallr ≤ q.d ∧ 0 < q.d ∧ q.d * S.smallp ≤ q.p ∧ 0 < q.p ∧ 0 < c ∧
      c ^ 2 = S.gamma0 * q.p / q.d := by
  have hr := hS.smallr
  have hp := hS.smallp
  have hg := hS.gamma
  simp only [computePrimitives]
  rops
  have h1 : S.smallr ≤ max u.d S.smallr := le_max_right _ _
  have h2 : 0 < max u.d S.smallr := lt_of_lt_of_le hr h1
  set d := max u.d S.smallr
  have h3 : ∀ x : ℝ, 0 < max x (d * S.smallp) := fun x =>
    lt_of_lt_of_le (mul_pos h2 hp) (le_max_right _ _)
  refine ⟨h1, h2, le_max_right _ _, h3 _, ?_, ?_⟩
  · exact Real.sqrt_pos.2 (div_pos (mul_pos (by linarith) (h3 _)) h2)
  · rw [Real.sq_sqrt (div_nonneg (mul_nonneg (by linarith) (h3 _).le) h2.le)]

/-- **C31**: for gas above the floors, conversion of the conserved quantities recovers the primitive
state and the sound speed. -/
theorem C31_roundtrip (d3 : Bool) (hS : GasParams S) (q : HState ℝ) (hq : AboveFloors S q)
    (hw : d3 = false → q.w = 0) :
    computePrimitives d3 S (conserved d3 S.gamma0 q) = (q, soundSpeed S.gamma0 q) := by
  have hr := hS.smallr
  have hg := hS.gamma
  have h0 : q.d ≠ 0 := by have := hq.d; intro e; linarith
  have hg1 : S.gamma0 - 1 ≠ 0 := by intro e; linarith
  have e1 : q.d * q.u / q.d = q.u := by field_simp
  have e2 : q.d * q.v / q.d = q.v := by field_simp
  have e3 : q.d * q.w / q.d = q.w := by field_simp
  unfold soundSpeed
  simp only [computePrimitives, conserved, energy]
  rops
  rw [max_eq_left hq.d, e1, e2]
  have pres : ∀ x : ℝ, x = q.p → max x (q.d * S.smallp) = q.p := fun x e => by
    rw [e, max_eq_left hq.p]
  cases d3
  · have hw' := hw rfl
    simp only [Bool.false_eq_true, if_false]
    rw [pres _ (by field_simp; ring), ← hw']
  · simp only [if_true]
    rw [e3, pres _ (by field_simp; ring)]

/-- A gas meeting the hypotheses. -/
example : GasParams exampleSettings ∧ AboveFloors exampleSettings ⟨1, 1, 2, -1, 3⟩ :=
  ⟨exampleSettings_gas, by norm_num [exampleSettings], by norm_num [exampleSettings]⟩

/-! ### C33 gravity source -/

/-- Kinetic energy of a conservative state in 2D / 3D. -/
noncomputable def Spec.kinetic (d3 : Bool) (u : HState ℝ) : ℝ :=
  (u.u ^ 2 + u.v ^ 2 + if d3 then u.w ^ 2 else 0) / (2 * u.d)

/-- **C33**: effect of the gravity source term on a cell whose density is positive (2D: above the
floor): density unchanged, momentum changed by `dt·g·(ρ_old+ρ_new)/2`, internal energy
unchanged. -/
theorem C33_gravity (d3 : Bool) (dt rhoOld : ℝ) (g u : HState ℝ)
    (hd : d3 = false → S.smallr ≤ u.d) :
    let u' := gravitySource d3 S dt rhoOld g u
    u'.d = u.d ∧ u'.u = u.u + dt * g.u * ((rhoOld + u.d) / 2) ∧
    u'.v = u.v + dt * g.v * ((rhoOld + u.d) / 2) ∧
    (d3 = true → u'.w = u.w + dt * g.w * ((rhoOld + u.d) / 2)) ∧
    u'.p - kinetic d3 u' = u.p - kinetic d3 u := by
  unfold gravitySource kinetic
  cases d3
  · have := hd rfl
    simp only [Bool.false_eq_true, if_false]
    rops
    rw [max_eq_right this]
    refine ⟨trivial, by ring, by ring, fun h => h.elim, ?_⟩
    ring
  · simp only [if_true]
    rops
    exact ⟨trivial, by ring, by ring, fun _ => by ring, by ring⟩

/-- **C33** at the level of the loop: with gravity, the source term changes the updated state of an
interior cell as above and the total mass is that of the flux balance. -/
theorem C33_mass (d3 : Bool) (dt rhoOld : ℝ) (g u : HState ℝ) :
    (gravitySource d3 S dt rhoOld g u).d = u.d := by
  unfold gravitySource; rfl

example : kinetic true (gravitySource true exampleSettings (1 / 10) 1 ⟨0, 0, 0, 0, -1⟩
    ⟨1, 5 / 2, 0, 0, 1⟩) = 81 / 200 := by
  have := (C33_gravity (S := exampleSettings) true (1 / 10) 1 ⟨0, 0, 0, 0, -1⟩ ⟨1, 5 / 2, 0, 0, 1⟩
    (by simp)).2
  simp only [kinetic, if_true, this.1, this.2.1, this.2.2.1 rfl, C33_mass]
  norm_num

/-! ### C57 predictor -/

/-- Half-step prediction of the Euler equations in primitive variables from slopes (differences per
cell) `dq` and grid spacings `h`: `q - dt/2 (A ∂x q + B ∂y q + C ∂z q)`. -/
noncomputable def Spec.halfStep (γ dt : ℝ) (h : Dir → ℝ) (q : HState ℝ) (dq : Dir → HState ℝ) :
    HState ℝ :=
  let D := fun d (f : HState ℝ → ℝ) => f (dq d) / h d
  let div := D .x (·.u) + D .y (·.v) + D .z (·.w)
  let adv := fun f => q.u * D .x f + q.v * D .y f + q.w * D .z f
  { d := q.d - dt / 2 * (adv (·.d) + q.d * div)
    p := q.p - dt / 2 * (adv (·.p) + γ * q.p * div)
    u := q.u - dt / 2 * (adv (·.u) + D .x (·.p) / q.d)
    v := q.v - dt / 2 * (adv (·.v) + D .y (·.p) / q.d)
    w := q.w - dt / 2 * (adv (·.w) + D .z (·.p) / q.d) }

/-- **C57**: with equal grid spacings in all directions the traced states are the half-step
prediction plus or minus half a slope (3D; the density is floored). -/
theorem C57_predictor (dt h : ℝ) (hx : S.dx = h) (hy : S.dy = h) (hz : S.dz = h) (q : HState ℝ)
    (dq : Dir → HState ℝ) (d : Dir) (upper : Bool) :
    traceAlongDir true S q dq (dtOver S dt) d upper =
      (let p := halfStep S.gamma0 dt (fun _ => h) q dq
       let s : ℝ := if upper then 1 / 2 else -1 / 2
       ⟨max S.smallr (p.d + s * (dq d).d), p.p + s * (dq d).p, p.u + s * (dq d).u,
        p.v + s * (dq d).v, p.w + s * (dq d).w⟩) := by
  have hd : dtOver S dt d = dt / h := by cases d <;> simp [dtOver, hx, hy, hz]
  simp only [traceAlongDir, traceSource, halfStep, hd, if_true]
  rops
  cases upper <;> simp only [if_true, Bool.false_eq_true, if_false, HState.mk.injEq] <;>
    refine ⟨?_, ?_, ?_, ?_, ?_⟩ <;> first | ring | (congr 1; ring)

/-- **C57 fails for unequal spacings**: each trace uses the spacing of its own direction for the
derivatives in all directions (`s * dtdx` with all slopes).  A flow with slope only along `y`,
traced along `x` on a grid with `dy = 2 dx`, is predicted with twice the right change. -/
theorem C57_anisotropic : ∃ (S : Settings ℝ) (dt : ℝ) (q : HState ℝ) (dq : Dir → HState ℝ),
    GasParams S ∧ S.dx = 1 ∧ S.dy = 2 ∧ S.dz = 1 ∧
    (traceAlongDir true S q dq (dtOver S dt) .x true).p ≠
      (halfStep S.gamma0 dt (Dir.pick S.dx S.dy S.dz) q dq).p + 1 / 2 * (dq .x).p := by
  refine ⟨{ exampleSettings with dy := 2 }, 1, ⟨1, 1, 0, 0, 0⟩,
    Dir.pick ⟨0, 0, 0, 0, 0⟩ ⟨0, 0, 0, 1, 0⟩ ⟨0, 0, 0, 0, 0⟩, ?_, rfl, rfl, rfl, ?_⟩
  · constructor <;> norm_num [exampleSettings]
  · simp only [traceAlongDir, traceSource, halfStep, dtOver, exampleSettings, Dir.pick, if_true]
    rops
    norm_num

end Verif
