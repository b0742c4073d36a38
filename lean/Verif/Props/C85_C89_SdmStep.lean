import Verif.Lemmas.SdmWalls
import Verif.Props.C22_C26_HydroStep

/-!
# C85 - C89: time steps of the spectral difference solver

`Runs (timeStep M S P junk ti dt) m m'`: the loops launched by a step with integrator `ti` (ghost fill included)
can take memory `m` to memory `m'` under some schedule.  `M`: dimension, order `M.N`, points, loop order of the
backend; `junk`: contents of unassigned variables.

`Setup M P B`: at least one ghost layer, at least as many cells as ghost layers per direction, boundary
conditions `B`.  `ExactScheme M`: the points are those of the geometry class and `1 ≤ N ≤ 6`.
`HasSolver d3 S`: the Riemann solver selected exists in the dimension.
-/

namespace Verif.Sdm

open Verif Spec ROps

section any
variable {α : Type} [ROps α] {M : Scheme α} {S : Settings α} {P : Grid} {B : Sides}

/-! ### C85 -/

/-- **C85**: for every order, integrator, grid, boundary condition, state and time step, all loops of a step
access only allocated entries, are free of data races, terminate, and their combined result does not depend on
the schedule. -/
theorem C85_step (h : Setup M P B) (hN : 0 < M.N) (junk : ℕ → Dir → Cell → Pt → HState α)
    (ti : Mood.TimeInt) (dt : α) (m : Addr → α) :
    ∃ m', YieldsAll (sdmDom M.d3 M.N P ti) (timeStep M S P junk ti dt) m m' := by
  obtain ⟨m', y, -⟩ := step_yields (S := S) h hN ti dt junk m
  exact ⟨m', y⟩

/-- **C85**: the result of a step is unique. -/
theorem C85_unique (h : Setup M P B) (hN : 0 < M.N) {junk : ℕ → Dir → Cell → Pt → HState α}
    {ti : Mood.TimeInt} {dt : α} {m m1 m2 : Addr → α} (r1 : Runs (timeStep M S P junk ti dt) m m1)
    (r2 : Runs (timeStep M S P junk ti dt) m m2) : m1 = m2 := by
  obtain ⟨m', y⟩ := C85_step (S := S) h hN junk ti dt m
  rw [y.unique r1, y.unique r2]

/-- **C85**: the new state in the interior depends neither on what the ghost cells held nor on the other arrays
nor on the loop order of the backend. -/
theorem C85_interior_only (h : Setup M P B) (hN : 0 < M.N) {junk : ℕ → Dir → Cell → Pt → HState α}
    {ti : Mood.TimeInt} {dt : α} {lay : Layout} {m n m' n' : Addr → α}
    (e : SameInside M.d3 M.N P (valsOf M m sU) (valsOf M n sU))
    (r1 : Runs (timeStep M S P junk ti dt) m m')
    (r2 : Runs (timeStep { M with lay := lay } S P junk ti dt) n n') :
    SameInside M.d3 M.N P (valsOf M m' sU) (valsOf M n' sU) := by
  obtain ⟨a, y, ha⟩ := step_yields (S := S) h hN ti dt junk m
  obtain ⟨b, z, hb⟩ := step_yields (M := { M with lay := lay }) (S := S) h hN ti dt junk n
  obtain rfl := y.unique r1
  obtain rfl := z.unique r2
  refine SameInside.trans ha (SameInside.trans (stepVals_congr h e) ?_)
  exact SameInside.symm hb

/-! ### C87 -/

/-- **C87**: filling the ghost cells continues the values beyond the sides according to the boundary
conditions, in all cells including edges and corners, and changes no interior value and no other array. -/
theorem C87_ghosts (h : Setup M P B) {U : ℕ} {ti : Mood.TimeInt} (hU : solArray ti U) (m : Addr → α) :
    ∃ m', YieldsAll (sdmDom M.d3 M.N P ti) (makeBoundaries M P U) m m' ∧
      (∀ c p iv, P.box M.d3 c → IsSolPt M.d3 M.N p → iv < hydroVars M.d3 →
        valsOf M m' U c p iv = extended M.d3 M.N P B (valsOf M m U) c p iv) ∧
      SameInside M.d3 M.N P (valsOf M m' U) (valsOf M m U) ∧ (∀ a, a.arr ≠ U → m' a = m a) := by
  obtain ⟨m', y, e, f⟩ := boundaries_yields h hU m
  refine ⟨m', y, e, fun c p iv hb hc hp hv => ?_, f⟩
  rw [e c p iv hb hp hv, extended_inner hc]

end any

/-- **C87**: behind a reflecting wall the polynomial on a line orthogonal to the wall is the mirror image of
that in the cell it reflects, up to the sign of the normal velocity. -/
theorem C87_mirror (N : ℕ) (u : ℕ → ℝ) (s x : ℝ) :
    lineValue N (fun k => u (N - 1 - k) * s) x = lineValue N u (1 - x) * s := by
  rw [lineValue_scale, lineValue_mirror N u]

variable {M : Scheme ℝ} {S : Settings ℝ} {P : Grid} {B : Sides} {dt : ℝ}
  {junk : ℕ → Dir → Cell → Pt → HState ℝ}

/-! ### C85 over the real numbers: the divergence -/

/-- **C85**: what the loops of a stage leave in `Uaux` is the divergence of the fluxes: along every line of
points the derivative of the polynomial through the fluxes at the flux points, which inside the cell are the
fluxes of the interpolated state and at the faces those of the Riemann solver, one value for both cells. -/
theorem C85_divergence (hM : ExactScheme M) (h : Setup M P B) (hr : HasSolver M.d3 S) {ti : Mood.TimeInt}
    {A : ℕ} (hA : solArray ti A) (hAd : A ≠ sDiv) (junk : Dir → Cell → Pt → HState ℝ) {m m' : Addr → ℝ}
    (r : Runs (makeBoundaries M P A ++ divergence M S P junk A) m m') :
    SameInside M.d3 M.N P (valsOf M m' sDiv)
      (divergenceOf M.d3 M.N S (eulerFluxOf M.d3 S) (riemannFlux M.d3 S HState.zero)
        (extended M.d3 M.N P B (valsOf M m A))) := by
  obtain ⟨m1, y, e, -⟩ := stage_holds h (S := S) hM.orders.1 hA hAd junk (SameInside.refl (valsOf M m A))
  obtain rfl := y.unique r
  exact e.trans (rhs_eq hM h hr _)

theorem slope_gas (h : Setup M P B) (hγ : 1 < S.gamma0) {u : Vals ℝ} {d : Dir} (hd : M.d3 = true ∨ d ≠ .z)
    (hq : ∀ c p, P.box M.d3 c → IsFluxPt M.d3 M.N d p →
      Physical M.d3 S.gamma0 (pointState M.d3 M.N S.smallr d u c p))
    {c : Cell} {p : Pt} (hb : P.box M.d3 c) (hc : P.inner M.d3 c) (hp : IsSolPt M.d3 M.N p) (iv : ℕ) :
    slopeOf M.d3 M.N S (eulerFluxOf M.d3 S) (riemannFlux M.d3 S HState.zero) u d c p iv =
      slopeOf M.d3 M.N S (gasFlux M.d3 S.gamma0) (faceFlux M.d3 S) u d c p iv := by
  have hco := inner_coord hd hc
  have hsz := size_eq P d
  have hg := h.gw
  have key : ∀ k, k < M.N + 1 →
      pointFlux M.N (eulerFluxOf M.d3 S d) (riemannFlux M.d3 S HState.zero d) d
        (pointState M.d3 M.N S.smallr d u) c (p.set d k) =
      pointFlux M.N (gasFlux M.d3 S.gamma0 d) (faceFlux M.d3 S d) d
        (pointState M.d3 M.N S.smallr d u) c (p.set d k) := by
    intro k hk
    have hf := hp.flux hd hk
    have h0 : IsFluxPt M.d3 M.N d ((p.set d k).set d 0) := by
      rw [Pt.set_set]; exact hp.flux hd (by omega)
    have h1 : IsFluxPt M.d3 M.N d ((p.set d k).set d M.N) := by
      rw [Pt.set_set]; exact hp.flux hd (by omega)
    have hdn : P.box M.d3 (c.down d) := box_down hd hb (by omega)
    have hup : P.box M.d3 (c.up d) := box_up hd hb (by omega)
    unfold pointFlux
    split_ifs with e1 e2
    · exact riemannFlux_eq hγ (hq _ _ hdn h1) (hq _ _ hb h0)
    · exact riemannFlux_eq hγ (hq _ _ hb h1) (hq _ _ hup h0)
    · exact eulerFluxOf_eq hd hγ (hq _ _ hb hf)
  unfold slopeOf
  rw [lineSlope_congr fun k hk => congrArg (part · iv) (key k hk)]

/-- **C85**: these are the fluxes of the gas as long as the interpolated states are above the floors. -/
theorem C85_gas (hM : ExactScheme M) (h : Setup M P B) (hr : HasSolver M.d3 S) (hγ : 1 < S.gamma0)
    {ti : Mood.TimeInt} {A : ℕ} (hA : solArray ti A) (hAd : A ≠ sDiv) (junk : Dir → Cell → Pt → HState ℝ)
    {m m' : Addr → ℝ} (r : Runs (makeBoundaries M P A ++ divergence M S P junk A) m m')
    (hq : ∀ d c p, M.d3 = true ∨ d ≠ .z → P.box M.d3 c → IsFluxPt M.d3 M.N d p → Physical M.d3 S.gamma0
      (pointState M.d3 M.N S.smallr d (extended M.d3 M.N P B (valsOf M m A)) c p)) :
    SameInside M.d3 M.N P (valsOf M m' sDiv)
      (divergenceOf M.d3 M.N S (gasFlux M.d3 S.gamma0) (faceFlux M.d3 S)
        (extended M.d3 M.N P B (valsOf M m A))) := by
  refine (C85_divergence hM h hr hA hAd junk r).trans ?_
  intro c p iv hb hc hp hv
  have key := fun d hd => slope_gas h (S := S) hγ hd (hq d · · hd) hb hc hp iv
  unfold divergenceOf
  rw [key .x (.inr (by decide)), key .y (.inr (by decide))]
  split_ifs with h3
  · rw [key .z (.inl h3)]
  · rfl

/-! ### C89: integrators -/

/-- **C89**: the integrator switched on in the parameter file runs; of several the first in the order second
order, third order, fourth order; forward Euler if none. -/
theorem C89_selected (e2 e3 e54 : Bool) :
    (selectTimeInt e2 e3 e54 = .ssprk2 ↔ e2 = true) ∧
    (selectTimeInt e2 e3 e54 = .ssprk3 ↔ e2 = false ∧ e3 = true) ∧
    (selectTimeInt e2 e3 e54 = .ssprk54 ↔ e2 = false ∧ e3 = false ∧ e54 = true) ∧
    (selectTimeInt e2 e3 e54 = .forward_euler ↔ e2 = false ∧ e3 = false ∧ e54 = false) := by
  cases e2 <;> cases e3 <;> cases e54 <;> decide

/-- **C89, forward Euler**. -/
theorem C89_euler (hM : ExactScheme M) (h : Setup M P B) (hr : HasSolver M.d3 S) {m m' : Addr → ℝ}
    (r : Runs (timeStep M S P junk .forward_euler dt) m m') :
    SameInside M.d3 M.N P (valsOf M m' sU) (advance M S P B dt (valsOf M m sU)) := by
  obtain ⟨m1, y, e⟩ := step_yields (S := S) h hM.orders.1 .forward_euler dt junk m
  obtain rfl := y.unique r
  exact e.trans (step_euler hM h hr (SameInside.refl _))

/-- **C89, ssprk2**: the second order strong stability preserving scheme. -/
theorem C89_ssprk2 (hM : ExactScheme M) (h : Setup M P B) (hr : HasSolver M.d3 S) {m m' : Addr → ℝ}
    (r : Runs (timeStep M S P junk .ssprk2 dt) m m') :
    SameInside M.d3 M.N P (valsOf M m' sU) fun c p iv =>
      1 / 2 * valsOf M m sU c p iv +
        1 / 2 * advance M S P B dt (advance M S P B dt (valsOf M m sU)) c p iv := by
  obtain ⟨m1, y, e⟩ := step_yields (S := S) h hM.orders.1 .ssprk2 dt junk m
  obtain rfl := y.unique r
  have h1 := step_euler hM h hr (junk := junk 0) (dt := dt) (SameInside.refl (valsOf M m sU))
  have h2 := mix_advance hM h hr (c0 := (lit (1/2) : ℝ)) (c1 := lit (1/2)) (c2 := lit (-1/2)) (dt := dt)
    (junk := junk 1) (by rops; norm_num) (SameInside.refl (valsOf M m sU)) h1
  refine e.trans (h2.trans ?_)
  intro c p iv _ _ _ _
  rops

/-- **C89, ssprk3**: the third order strong stability preserving scheme. -/
theorem C89_ssprk3 (hM : ExactScheme M) (h : Setup M P B) (hr : HasSolver M.d3 S) {m m' : Addr → ℝ}
    (r : Runs (timeStep M S P junk .ssprk3 dt) m m') :
    SameInside M.d3 M.N P (valsOf M m' sU) (
      let u := valsOf M m sU
      let u1 := advance M S P B dt u
      let u2 : Vals ℝ := fun c p iv => 3 / 4 * u c p iv + 1 / 4 * advance M S P B dt u1 c p iv
      fun c p iv => 1 / 3 * u c p iv + 2 / 3 * advance M S P B dt u2 c p iv) := by
  obtain ⟨m1, y, e⟩ := step_yields (S := S) h hM.orders.1 .ssprk3 dt junk m
  obtain rfl := y.unique r
  have h1 := step_euler hM h hr (junk := junk 0) (dt := dt) (SameInside.refl (valsOf M m sU))
  have h2 := mix_advance hM h hr (c0 := (lit (3/4) : ℝ)) (c1 := lit (1/4)) (c2 := lit (-1/4)) (dt := dt)
    (junk := junk 1) (by rops; norm_num) (SameInside.refl (valsOf M m sU)) h1
  have h3 := mix_advance hM h hr (c0 := (lit 1 / lit 3 : ℝ)) (c1 := lit 2 / lit 3) (c2 := lit (-2) / lit 3)
    (dt := dt) (junk := junk 2) (by rops; norm_num) (SameInside.refl (valsOf M m sU)) h2
  refine e.trans (h3.trans ?_)
  intro c p iv _ _ _ _
  rops

/-- **C89, ssprk54**: the five stages of the fourth order scheme of Spiteri and Ruuth, with its coefficients
rounded to fifteen digits. -/
theorem C89_ssprk54 (hM : ExactScheme M) (h : Setup M P B) (hr : HasSolver M.d3 S) {m m' : Addr → ℝ}
    (r : Runs (timeStep M S P junk .ssprk54 dt) m m') :
    SameInside M.d3 M.N P (valsOf M m' sU) (
      let D : Vals ℝ → Vals ℝ := fun u => divergenceOf M.d3 M.N S (eulerFluxOf M.d3 S)
        (riemannFlux M.d3 S HState.zero) (extended M.d3 M.N P B u)
      let u := valsOf M m sU
      let u1 : Vals ℝ := fun c p iv => u c p iv - 0.391752226571890 * dt * D u c p iv
      let u2 : Vals ℝ := fun c p iv => 0.444370493651235 * u c p iv + 0.555629506348765 * u1 c p iv -
        0.368410593050371 * dt * D u1 c p iv
      let u3 : Vals ℝ := fun c p iv => 0.620101851488403 * u c p iv + 0.379898148511597 * u2 c p iv -
        0.251891774271694 * dt * D u2 c p iv
      let u4 : Vals ℝ := fun c p iv => 0.178079954393132 * u c p iv + 0.821920045606868 * u3 c p iv -
        0.544974750228521 * dt * D u3 c p iv
      fun c p iv => 0.517231671970585 * u2 c p iv + 0.096059710526147 * u3 c p iv -
        0.063692468666290 * dt * D u3 c p iv + 0.386708617503269 * u4 c p iv -
        0.226007483236906 * dt * D u4 c p iv) := by
  obtain ⟨m1, y, e⟩ := step_yields (S := S) h hM.orders.1 .ssprk54 dt junk m
  obtain rfl := y.unique r
  set D : Vals ℝ → Vals ℝ := fun u => divergenceOf M.d3 M.N S (eulerFluxOf M.d3 S)
    (riemannFlux M.d3 S HState.zero) (extended M.d3 M.N P B u) with hD
  set u := valsOf M m sU with hu
  have e0 : SameInside M.d3 M.N P u u := SameInside.refl u
  have st : ∀ (c0 c1 c2 : ℝ) (j : Dir → Cell → Pt → HState ℝ) {a a' b b' w w' : Vals ℝ},
      SameInside M.d3 M.N P a a' → SameInside M.d3 M.N P b b' → SameInside M.d3 M.N P w w' →
      SameInside M.d3 M.N P (mix c0 c1 c2 dt a b (rhs M S P B j w)) fun c p iv =>
        c0 * a' c p iv + c1 * b' c p iv + c2 * dt * D w' c p iv := by
    intro c0 c1 c2 j a a' b b' w w' ha hb hw
    exact mix_same ha hb ((rhs_same h hw).trans (rhs_eq hM h hr w'))
  have h1 := st (lit 1) (lit 0) (lit (-0.391752226571890)) (junk 0) e0 e0 e0
  have h2 := st (lit 0.444370493651235) (lit 0.555629506348765) (lit (-0.368410593050371)) (junk 1) e0 h1 h1
  have h3 := st (lit 0.620101851488403) (lit 0.379898148511597) (lit (-0.251891774271694)) (junk 2) e0 h2 h2
  have h4 := st (lit 0.178079954393132) (lit 0.821920045606868) (lit (-0.544974750228521)) (junk 3) e0 h3 h3
  have h5 := st (lit 0.517231671970585) (lit 0.096059710526147) (lit (-0.063692468666290)) (junk 3) h2 h3 h3
  have h6 := st (lit 1) (lit 0.386708617503269) (lit (-0.226007483236906)) (junk 4) h5 h4 h4
  refine e.trans (h6.trans ?_)
  intro c p iv _ _ _ _
  have q1 : (fun c p iv => (lit 1 : ℝ) * u c p iv + lit 0 * u c p iv +
      lit (-0.391752226571890) * dt * D u c p iv) =
      fun c p iv => u c p iv - 0.391752226571890 * dt * D u c p iv := by
    funext c p iv; rops; ring
  have q2 : ∀ v : Vals ℝ, (fun c p iv => (lit 0.444370493651235 : ℝ) * u c p iv +
      lit 0.555629506348765 * v c p iv + lit (-0.368410593050371) * dt * D v c p iv) =
      fun c p iv => 0.444370493651235 * u c p iv + 0.555629506348765 * v c p iv -
        0.368410593050371 * dt * D v c p iv := by
    intro v; funext c p iv; rops; ring
  have q3 : ∀ v : Vals ℝ, (fun c p iv => (lit 0.620101851488403 : ℝ) * u c p iv +
      lit 0.379898148511597 * v c p iv + lit (-0.251891774271694) * dt * D v c p iv) =
      fun c p iv => 0.620101851488403 * u c p iv + 0.379898148511597 * v c p iv -
        0.251891774271694 * dt * D v c p iv := by
    intro v; funext c p iv; rops; ring
  have q4 : ∀ v : Vals ℝ, (fun c p iv => (lit 0.178079954393132 : ℝ) * u c p iv +
      lit 0.821920045606868 * v c p iv + lit (-0.544974750228521) * dt * D v c p iv) =
      fun c p iv => 0.178079954393132 * u c p iv + 0.821920045606868 * v c p iv -
        0.544974750228521 * dt * D v c p iv := by
    intro v; funext c p iv; rops; ring
  simp only [q1, q2, q3, q4]
  rops
  ring

/-! ### C86: totals -/

/-- **C86**: one explicit step changes the total of a variable by `dt` times what enters through the sides. -/
theorem C86_balance (hM : ExactScheme M) (u : Vals ℝ) (iv : ℕ) :
    content M.d3 M.N P (advance M S P B dt u) iv =
      content M.d3 M.N P u iv + dt * inflow M S P B u iv := by
  have e : advance M S P B dt u = fun c p iv => 1 * u c p iv + (-dt) * divergenceOf M.d3 M.N S
      (eulerFluxOf M.d3 S) (riemannFlux M.d3 S HState.zero) (extended M.d3 M.N P B u) c p iv := by
    funext c p iv; unfold advance; ring
  rw [e, content_lin, content_divergence hM.orders]
  unfold inflow
  ring

/-- **C86**: nothing enters or leaves a closed box: periodic axes carry away no variable, reflecting walls none
but the momentum normal to them. -/
theorem C86_closed_inflow (hM : ExactScheme M) (h : Setup M P B) (hG : GasParams S) (hr : HasSolver M.d3 S)
    (hw : WallSolver M.d3 S B) {iv : ℕ} (hv : iv < hydroVars M.d3) (hcl : Closed M.d3 B iv) (u : Vals ℝ) :
    inflow M S P B u iv = 0 :=
  netInflow_closed hM h hG hr hw (lt_five hv) hcl u

/-- **C86**: in a closed box the step keeps the total of the variable exactly, with forward Euler, ssprk2 and
ssprk3. -/
theorem C86_conserved (hM : ExactScheme M) (h : Setup M P B) (hG : GasParams S) (hr : HasSolver M.d3 S)
    (hw : WallSolver M.d3 S B) {ti : Mood.TimeInt} (hti : ti ≠ .ssprk54) {m m' : Addr → ℝ}
    (r : Runs (timeStep M S P junk ti dt) m m') {iv : ℕ} (hv : iv < hydroVars M.d3)
    (hcl : Closed M.d3 B iv) :
    content M.d3 M.N P (valsOf M m' sU) iv = content M.d3 M.N P (valsOf M m sU) iv := by
  have adv : ∀ u, content M.d3 M.N P (advance M S P B dt u) iv = content M.d3 M.N P u iv := fun u => by
    rw [C86_balance hM, C86_closed_inflow hM h hG hr hw hv hcl, mul_zero, add_zero]
  cases ti
  · rw [content_congr h (C89_euler hM h hr r) hv, adv]
  · rw [content_congr h (C89_ssprk2 hM h hr r) hv, content_lin, adv, adv]
    ring
  · rw [content_congr h (C89_ssprk3 hM h hr r) hv]
    simp only
    rw [content_lin, adv, content_lin, adv, adv]
    ring
  · exact absurd rfl hti

/-- **C86 fails with ssprk54**: every total of a closed box is multiplied by `1.000000000000001` in each step. -/
theorem C86_ssprk54 (hM : ExactScheme M) (h : Setup M P B) (hG : GasParams S) (hr : HasSolver M.d3 S)
    (hw : WallSolver M.d3 S B) {m m' : Addr → ℝ}
    (r : Runs (timeStep M S P junk .ssprk54 dt) m m') {iv : ℕ} (hv : iv < hydroVars M.d3)
    (hcl : Closed M.d3 B iv) :
    content M.d3 M.N P (valsOf M m' sU) iv =
      1.000000000000001 * content M.d3 M.N P (valsOf M m sU) iv := by
  obtain ⟨m1, y, e⟩ := step_yields (S := S) h hM.orders.1 .ssprk54 dt junk m
  obtain rfl := y.unique r
  rw [content_congr h e hv]
  have key : ∀ (c0 c1 c2 : ℝ) (j : Dir → Cell → Pt → HState ℝ) (u v w : Vals ℝ),
      content M.d3 M.N P (mix c0 c1 c2 dt u v (rhs M S P B j w)) iv =
        c0 * content M.d3 M.N P u iv + c1 * content M.d3 M.N P v iv := by
    intro c0 c1 c2 j u v w
    rw [content_congr h (mix_same (SameInside.refl u) (SameInside.refl v) (rhs_eq hM h hr w)) hv]
    have := content_lin M.d3 M.N P (fun c p iv => c0 * u c p iv + c1 * v c p iv)
      (divergenceOf M.d3 M.N S (eulerFluxOf M.d3 S) (riemannFlux M.d3 S HState.zero)
        (extended M.d3 M.N P B w)) 1 (c2 * dt) iv
    simp only [one_mul] at this
    rw [this, content_lin, content_divergence hM.orders]
    have e0 := C86_closed_inflow hM h hG hr hw hv hcl w
    unfold inflow at e0
    rw [e0]
    ring
  simp only [stepVals, key]
  rops
  ring

/-! ### C88: uniform states -/

/-- **C88**: a uniform state above the floors, without flow through reflecting sides, is kept exactly at every
point by forward Euler, ssprk2 and ssprk3, for every time step. -/
theorem C88_uniform (hM : ExactScheme M) (h : Setup M P B) (hG : GasParams S) (hr : HasSolver M.d3 S)
    {q : HState ℝ} (hq : Settled M.d3 S q) (hw : RestAtWalls M.d3 B q) {ti : Mood.TimeInt}
    (hti : ti ≠ .ssprk54) {m m' : Addr → ℝ} (r : Runs (timeStep M S P junk ti dt) m m')
    (hu : SameInside M.d3 M.N P (valsOf M m sU) (everywhere q)) :
    SameInside M.d3 M.N P (valsOf M m' sU) (everywhere q) := by
  obtain ⟨m1, y, e⟩ := step_yields (S := S) h hM.orders.1 ti dt junk m
  obtain rfl := y.unique r
  refine e.trans ?_
  have one : ∀ {u : Vals ℝ}, SameInside M.d3 M.N P u (everywhere q) →
      SameInside M.d3 M.N P u fun _ _ iv => 1 * part q iv := fun hu =>
    hu.trans fun c p iv _ _ _ _ => (one_mul (part q iv)).symm
  have stage : ∀ {u v w : Vals ℝ} {c0 c1 c2 : ℝ} {j : Dir → Cell → Pt → HState ℝ}, c0 + c1 = 1 →
      SameInside M.d3 M.N P u (everywhere q) → SameInside M.d3 M.N P v (everywhere q) →
      SameInside M.d3 M.N P w (everywhere q) →
      SameInside M.d3 M.N P (mix c0 c1 c2 dt u v (rhs M S P B j w)) (everywhere q) := by
    intro u v w c0 c1 c2 j hc hu hv hww
    refine (mix_everywhere hM h hG hr hq hw (one hu) (one hv) hww).trans ?_
    intro c p iv _ _ _ _
    show (c0 * 1 + c1 * 1) * part q iv = part q iv
    rw [mul_one, mul_one, hc, one_mul]
  cases ti
  · exact stage (by rops; norm_num) hu hu hu
  · have h1 := stage (c0 := lit 1) (c1 := lit 0) (c2 := lit (-1)) (j := junk 0) (by rops; norm_num) hu hu hu
    exact stage (by rops; norm_num) hu h1 h1
  · have h1 := stage (c0 := lit 1) (c1 := lit 0) (c2 := lit (-1)) (j := junk 0) (by rops; norm_num) hu hu hu
    have h2 := stage (c0 := lit (3/4)) (c1 := lit (1/4)) (c2 := lit (-1/4)) (j := junk 1)
      (by rops; norm_num) hu h1 h1
    exact stage (by rops; norm_num) hu h2 h2
  · exact absurd rfl hti

/-- **C88 fails with ssprk54**: every variable of a uniform state is multiplied by `1.000000000000001` in each
step. -/
theorem C88_ssprk54 (hM : ExactScheme M) (h : Setup M P B) (hG : GasParams S) (hr : HasSolver M.d3 S)
    {q : HState ℝ} (hq : Settled M.d3 S q) (hw : RestAtWalls M.d3 B q) {m m' : Addr → ℝ}
    (r : Runs (timeStep M S P junk .ssprk54 dt) m m')
    (hu : SameInside M.d3 M.N P (valsOf M m sU) (everywhere q)) :
    SameInside M.d3 M.N P (valsOf M m' sU) fun _ _ iv => 1.000000000000001 * part q iv := by
  obtain ⟨m1, y, e⟩ := step_yields (S := S) h hM.orders.1 .ssprk54 dt junk m
  obtain rfl := y.unique r
  refine e.trans ?_
  have one : ∀ {u : Vals ℝ}, SameInside M.d3 M.N P u (everywhere q) →
      SameInside M.d3 M.N P u fun _ _ iv => 1 * part q iv := fun hu =>
    hu.trans fun c p iv _ _ _ _ => (one_mul (part q iv)).symm
  have stage : ∀ {u v w : Vals ℝ} {c0 c1 c2 : ℝ} {j : Dir → Cell → Pt → HState ℝ}, c0 + c1 = 1 →
      SameInside M.d3 M.N P u (everywhere q) → SameInside M.d3 M.N P v (everywhere q) →
      SameInside M.d3 M.N P w (everywhere q) →
      SameInside M.d3 M.N P (mix c0 c1 c2 dt u v (rhs M S P B j w)) (everywhere q) := by
    intro u v w c0 c1 c2 j hc hu hv hww
    refine (mix_everywhere hM h hG hr hq hw (one hu) (one hv) hww).trans ?_
    intro c p iv _ _ _ _
    show (c0 * 1 + c1 * 1) * part q iv = part q iv
    rw [mul_one, mul_one, hc, one_mul]
  have h1 := stage (c0 := lit 1) (c1 := lit 0) (c2 := lit (-0.391752226571890)) (j := junk 0)
    (by rops; norm_num) hu hu hu
  have h2 := stage (c0 := lit 0.444370493651235) (c1 := lit 0.555629506348765)
    (c2 := lit (-0.368410593050371)) (j := junk 1) (by rops; norm_num) hu h1 h1
  have h3 := stage (c0 := lit 0.620101851488403) (c1 := lit 0.379898148511597)
    (c2 := lit (-0.251891774271694)) (j := junk 2) (by rops; norm_num) hu h2 h2
  have h4 := stage (c0 := lit 0.178079954393132) (c1 := lit 0.821920045606868)
    (c2 := lit (-0.544974750228521)) (j := junk 3) (by rops; norm_num) hu h3 h3
  have h5 := mix_everywhere hM h hG hr hq hw (c0 := lit 0.517231671970585) (c1 := lit 0.096059710526147)
    (c2 := lit (-0.063692468666290)) (dt := dt) (junk := junk 3) (one h2) (one h3) h3
  have h6 := mix_everywhere hM h hG hr hq hw (c0 := lit 1) (c1 := lit 0.386708617503269)
    (c2 := lit (-0.226007483236906)) (dt := dt) (junk := junk 4) h5 (one h4) h4
  refine h6.trans ?_
  intro c p iv _ _ _ _
  rops
  ring

/-! ### Examples -/

/-- A solver of order 3. -/
noncomputable def exampleScheme (d3 : Bool) : Scheme ℝ := ⟨.left, d3, 3, solPts 3, fluxPts 3⟩

theorem exampleScheme_exact (d3 : Bool) : ExactScheme (exampleScheme d3) :=
  ⟨⟨by norm_num [exampleScheme], by norm_num [exampleScheme]⟩, rfl, rfl⟩

/-- A box of `3 × 2 × 2` cells with one ghost layer: periodic along `x`, reflecting walls along `y`, open along
`z`. -/
def channelSides : Sides := ⟨.periodic, .periodic, .reflecting, .reflecting, .absorbing, .absorbing⟩

def channel (d3 : Bool) : Grid := ⟨3, 2, 2, 1, hydroVars d3, 3, 3, 1, 1, 2, 2⟩

theorem channel_setup (d3 : Bool) : Setup (exampleScheme d3) (channel d3) channelSides := by
  constructor <;> intros <;> first | rfl | (simp [channel, exampleScheme])

/-- Settings with the solver HLLC. -/
noncomputable def hllcSettings : Settings ℝ := { exampleSettings with riemann := .hllc }

theorem hllcSettings_gas : GasParams hllcSettings := by
  constructor <;> norm_num [hllcSettings, exampleSettings]

theorem hllcSettings_solver (d3 : Bool) : HasSolver d3 hllcSettings := by
  constructor <;> simp [hllcSettings]

theorem hllcSettings_wall (d3 : Bool) (B : Sides) : WallSolver d3 hllcSettings B := by
  intro d _ _; simp [hllcSettings]

/-- A step exists and does what the theorems say: in the 2D channel mass, energy and the momentum along the walls
are kept. -/
example (m : Addr → ℝ) : ∃ m',
    Runs (timeStep (exampleScheme false) hllcSettings (channel false) (fun _ _ _ _ => HState.zero) .ssprk3
      (1 / 10)) m m' ∧
    ∀ iv, iv = 0 ∨ iv = 1 ∨ iv = 2 →
      content false 3 (channel false) (valsOf (exampleScheme false) m' sU) iv =
        content false 3 (channel false) (valsOf (exampleScheme false) m sU) iv := by
  obtain ⟨m', y⟩ := C85_step (S := hllcSettings) (channel_setup false)
    (exampleScheme_exact false).orders.1 (fun _ _ _ _ => HState.zero) .ssprk3 (1 / 10) m
  refine ⟨m', y.run, fun iv hiv => ?_⟩
  refine C86_conserved (exampleScheme_exact false) (channel_setup false) hllcSettings_gas
    (hllcSettings_solver _) (hllcSettings_wall _ _) (by decide) y.run (iv := iv)
    (by rcases hiv with rfl | rfl | rfl <;> decide) ?_
  intro d hd
  cases d
  · exact .inl ⟨rfl, rfl⟩
  · exact .inr ⟨rfl, rfl, by rcases hiv with rfl | rfl | rfl <;> decide⟩
  · exact absurd rfl (hd.resolve_left (by decide))

/-- A uniform flow along the walls of the 3D channel and out of its open sides. -/
example : Settled true hllcSettings ⟨1, 4, 2, 0, 1⟩ ∧ RestAtWalls true channelSides ⟨1, 4, 2, 0, 1⟩ := by
  refine ⟨⟨⟨by norm_num, ?_, by simp⟩, ⟨?_, ?_⟩⟩, ?_⟩
  · norm_num [primOf, hllcSettings, exampleSettings]
  · norm_num [primOf, hllcSettings, exampleSettings]
  · norm_num [primOf, hllcSettings, exampleSettings]
  · intro d _ h
    cases d
    · rcases h with h | h <;> cases h
    · rfl
    · rcases h with h | h <;> cases h

/-- Totals are not all zero: the content of the state `1` everywhere in 2D is the number of cells. -/
example : content false 3 (channel false) (fun _ _ _ => 1) 0 = 6 := by
  simp [content, cellMean_const, interiorSum, channel, depth]; norm_num

end Verif.Sdm
