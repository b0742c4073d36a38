import Verif.Lemmas.SdmFixedMpi
import Verif.Props.C143_SdmLimiterBorder

/-!
# C146, C147: what positivity preservation does to a step of the SDM solver

Trusted model: `Verif.Model.SdmFixed`.  C109 is about the loops of the procedure; here, steps with it are compared with steps without.
-/

namespace Verif.Sdm

open Verif Spec ROps

variable {M : Scheme ℝ} {S : Settings ℝ} {P : Grid} {B : Sides} {F : Fixes ℝ} {ti : Mood.TimeInt} {A : ℕ} {m m' n' : Addr → ℝ}
  {junk junk' : ℕ → Dir → Cell → Pt → HState ℝ} {dt : ℝ}

/-! ### C146 -/

/-- Far from vacuum: in every cell of the array, at all points where fluxes are evaluated density and pressure are above the bounds of
the procedure, and at one of them the density is no larger than the weighted mean of the cell. -/
def Healthy (M : Scheme ℝ) (S : Settings ℝ) (P : Grid) (u : Vals ℝ) : Prop := ∀ c, P.box M.d3 c →
  (∀ d p j, IsFluxLoc M.d3 M.N d p j → S.smallr ≤ (fluxGas M.d3 M.N u c d p j).d ∧
    1 / 1000000000000 ≤ gasPressure S.gamma0 (fluxGas M.d3 M.N u c d p j)) ∧
  ∃ d p j, IsFluxLoc M.d3 M.N d p j ∧ (fluxGas M.d3 M.N u c d p j).d ≤ cellAngleMean M.d3 M.N fun p => u c p 0

theorem Healthy.congr {u v : Vals ℝ} (h : Healthy M S P u)
    (e : ∀ c p iv, P.box M.d3 c → IsSolPt M.d3 M.N p → iv < hydroVars M.d3 → v c p iv = u c p iv) : Healthy M S P v := by
  have h0 : 0 < hydroVars M.d3 := by cases M.d3 <;> decide
  intro c hc
  obtain ⟨h1, d, p, j, hl, h2⟩ := h c hc
  refine ⟨fun d p j hl => ?_, d, p, j, hl, ?_⟩
  · rw [fluxGas_congr hl fun p iv hp hv => e c p iv hc hp hv]
    exact h1 d p j hl
  · rw [fluxGas_congr hl fun p iv hp hv => e c p iv hc hp hv, cellAngleMean_congr fun p hp => e c p 0 hc hp h0]
    exact h2

theorem prepare_healthy (hM : ExactScheme M) (h : Setup M P B) (hF : F.limiter = none) (hpi : F.pi = Real.pi) (hs : 0 < S.smallr)
    (hbig : S.smallr ≤ F.big) (hA : solArray ti A) (r : Runs (prepare M S P F A) m m') (hu : Healthy M S P (valsOf M m A)) {c : Cell}
    (hc : P.box M.d3 c) {p : Pt} (hp : IsSolPt M.d3 M.N p) {iv : ℕ} (hv : iv < hydroVars M.d3) :
    valsOf M m' A c p iv = valsOf M m A c p iv := by
  have h0 : 0 < hydroVars M.d3 := by cases M.d3 <;> decide
  rw [prepare_none hF, hpi] at r
  by_cases hpos : F.positivity = true
  · rw [if_pos hpos] at r
    have e := C109_average hM h hA r hc h0
    obtain ⟨m₁, r₁, e1, e2, -⟩ := preserving_split hM h hA r
    obtain ⟨g, d, q, j, hl, low⟩ := hu c hc
    rw [← e1] at g low ⊢
    refine C109_kept hM h hA r₁ hc hbig ⟨d, q, j, hl, ?_⟩ (fun d p j hl => (g d p j hl).1) (fun d p j hl => (g d p j hl).2) hp hv
    rw [e2]
    show _ < m' (c.at sAvg 0)
    rw [e, ← e1]
    simp only [if_true]
    have k := one_lt_excess_pow M.d3 hM.orders.1
    have pos := (hs.trans_le (g d q j hl).1).trans_le low
    exact lt_max_of_lt_left (by nlinarith)
  · rw [if_neg hpos] at r
    obtain rfl := (YieldsAll.nil (dom := fun _ => True) m).unique r
    rfl

/-- A stage the procedure does not touch. -/
theorem stage_healthy (hM : ExactScheme M) (h : Setup M P B) (hF : F.limiter = none) (hpi : F.pi = Real.pi) (hs : 0 < S.smallr)
    (hbig : S.smallr ≤ F.big) (hA : solArray ti A) (hAd : A ≠ sDiv) (j : Dir → Cell → Pt → HState ℝ) {u : Vals ℝ}
    (hu : Holds M P m A u) (hh : Healthy M S P (extended M.d3 M.N P B u)) :
    ∃ m', YieldsAll (fixDom F M.d3 M.N P ti) (makeBoundaries M P A ++ fixedDivergence M S P j F A) m m' ∧
      Holds M P m' sDiv (rhs M S P B j u) ∧ Holds M P m' A u ∧
      (∀ A' v, solArray ti A' → A' ≠ sDiv → A' ≠ A → Holds M P m A' v → Holds M P m' A' v) := by
  obtain ⟨m0, m1, m', y, yp, e0, e1, e2, f⟩ := fixedStage_yields (S := S) h hM.orders.1 F hA hAd j m
  have u0 : ∀ c p iv, P.box M.d3 c → IsSolPt M.d3 M.N p → iv < hydroVars M.d3 →
      valsOf M m0 A c p iv = extended M.d3 M.N P B u c p iv :=
    fun c p iv hc hp hv => (e0 c p iv hc hp hv).trans (extended_congr h hu hc hp hv)
  have u1 : ∀ c p iv, P.box M.d3 c → IsSolPt M.d3 M.N p → iv < hydroVars M.d3 →
      valsOf M m1 A c p iv = extended M.d3 M.N P B u c p iv :=
    fun c p iv hc hp hv => (prepare_healthy hM h hF hpi hs hbig hA yp.run (hh.congr u0) hc hp hv).trans (u0 c p iv hc hp hv)
  refine ⟨m', y, fun c p iv hc _ hp hv => (e1 c p iv hc hp hv).trans (divAll_congr u1 iv hc hp), fun c p iv hc hi hp hv => ?_,
    fun A' v hA' h1 h2 hv => ?_⟩
  · rw [e2, u1 c p iv hc hp hv]
    exact extended_inner hi
  · unfold Holds
    rw [f A' h2 h1 hA'.ne (solArray_notMean hA')]
    exact hv

theorem update_fixed (h : Setup M P B) {out A0 A1 : ℕ} (ho : solArray ti out) (h0 : solArray ti A0) (h1 : solArray ti A1)
    (dt c0 c1 c2 : ℝ) {m : Addr → ℝ} {u0 u1 w : Vals ℝ} (hu0 : Holds M P m A0 u0) (hu1 : Holds M P m A1 u1)
    (hw : Holds M P m sDiv w) : ∃ m', YieldsAll (fixDom F M.d3 M.N P ti) [updateRK M P dt out A0 A1 c0 c1 c2] m m' ∧
      Holds M P m' out (mix c0 c1 c2 dt u0 u1 w) ∧ (∀ A' v, A' ≠ out → Holds M P m A' v → Holds M P m' A' v) := by
  obtain ⟨m', y, e, f⟩ := update_holds h ho h0 h1 dt c0 c1 c2 hu0 hu1 hw
  exact ⟨m', y.mono fun _ => sdm_fix, e, f⟩

/-- The states at which a step evaluates fluxes are all far from vacuum: those of forward Euler, and of the first, second and third
stage of ssprk2 and ssprk3. -/
def HealthyStages (M : Scheme ℝ) (S : Settings ℝ) (P : Grid) (B : Sides) (ti : Mood.TimeInt) (dt : ℝ) (u : Vals ℝ) : Prop :=
  let ok := fun v => Healthy M S P (extended M.d3 M.N P B v)
  let u1 := advance M S P B dt u
  let u2 : Vals ℝ := fun c p iv => 3 / 4 * u c p iv + 1 / 4 * advance M S P B dt u1 c p iv
  match ti with
  | .forward_euler => ok u
  | .ssprk2 => ok u ∧ ok u1
  | .ssprk3 => ok u ∧ ok u1 ∧ ok u2
  | .ssprk54 => False

/-- **C146**: as long as all states at which a step evaluates fluxes are far from vacuum, the step with positivity preservation makes
exactly the step without, at every solution point, for forward Euler, ssprk2 and ssprk3. -/
theorem C146_same (hM : ExactScheme M) (h : Setup M P B) (hr : HasSolver M.d3 S) (hF : F.limiter = none) (hpi : F.pi = Real.pi)
    (hs : 0 < S.smallr) (hbig : S.smallr ≤ F.big) (hh : HealthyStages M S P B ti dt (valsOf M m sU))
    (r : Runs (fixedStep M S P junk F ti dt) m m') (r' : Runs (timeStep M S P junk' ti dt) m n') :
    SameInside M.d3 M.N P (valsOf M m' sU) (valsOf M n' sU) := by
  have hU := sU_sol ti
  have s0 : Holds M P m sU (valsOf M m sU) := SameInside.refl _
  have plain : ∀ (j : ℕ → Dir → Cell → Pt → HState ℝ), ∃ x, Runs (timeStep M S P j ti dt) m x ∧
      Holds M P x sU (stepVals M S P B j ti dt (valsOf M m sU)) := fun j => by
    obtain ⟨x, y, e⟩ := step_yields (S := S) h hM.orders.1 ti dt j m
    exact ⟨x, y.run, e⟩
  have far : ∀ {u v : Vals ℝ}, SameInside M.d3 M.N P u v → Healthy M S P (extended M.d3 M.N P B v) →
      Healthy M S P (extended M.d3 M.N P B u) := fun e k => k.congr fun c p iv hc hp hv => extended_congr h e hc hp hv
  suffices key : Holds M P m' sU (stepVals M S P B junk ti dt (valsOf M m sU)) by
    obtain ⟨x, rx, ex⟩ := plain junk
    refine key.trans (ex.symm.trans ?_)
    cases ti with
    | forward_euler => exact (C89_euler hM h hr rx).trans (C89_euler hM h hr r').symm
    | ssprk2 => exact (C89_ssprk2 hM h hr rx).trans (C89_ssprk2 hM h hr r').symm
    | ssprk3 => exact (C89_ssprk3 hM h hr rx).trans (C89_ssprk3 hM h hr r').symm
    | ssprk54 => exact hh.elim
  cases ti with
  | forward_euler =>
    obtain ⟨m0, y0, d0, u0, -⟩ := stage_healthy hM h hF hpi hs hbig hU (by decide) (junk 0) s0 hh
    obtain ⟨m1, y1, e1, -⟩ := update_fixed (F := F) h hU hU hU dt (lit 1) (lit 0) (lit (-1)) u0 u0 d0
    have y : YieldsAll (fixDom F M.d3 M.N P .forward_euler) (fixedStep M S P junk F .forward_euler dt) m m1 := by
      have := y0.append y1
      unfold fixedStep stepWith
      simpa only [List.append_assoc] using this
    obtain rfl := y.unique r
    exact e1
  | ssprk2 =>
    have h1 : solArray .ssprk2 (sRK 1) := sRK_sol (by decide) (by decide)
    obtain ⟨m0, y0, d0, u0, -⟩ := stage_healthy hM h hF hpi hs hbig hU (by decide) (junk 0) s0 hh.1
    obtain ⟨m1, y1, e1, k1⟩ := update_fixed (F := F) h h1 hU hU dt (lit 1) (lit 0) (lit (-1)) u0 u0 d0
    obtain ⟨m2, y2, d2, u2, k2⟩ := stage_healthy hM h hF hpi hs hbig h1 (by decide) (junk 1) e1
      (far (step_euler hM h hr (SameInside.refl _)) hh.2)
    obtain ⟨m3, y3, e3, -⟩ := update_fixed (F := F) h hU hU h1 dt (lit (1/2)) (lit (1/2)) (lit (-1/2))
      (k2 _ _ hU (by decide) (by decide) (k1 _ _ (by decide) u0)) u2 d2
    have y : YieldsAll (fixDom F M.d3 M.N P .ssprk2) (fixedStep M S P junk F .ssprk2 dt) m m3 := by
      have := ((y0.append y1).append y2).append y3
      unfold fixedStep stepWith
      simpa only [List.append_assoc] using this
    obtain rfl := y.unique r
    exact e3
  | ssprk3 =>
    have h1 : solArray .ssprk3 (sRK 1) := sRK_sol (by decide) (by decide)
    have h2 : solArray .ssprk3 (sRK 2) := sRK_sol (by decide) (by decide)
    obtain ⟨m0, y0, d0, u0, -⟩ := stage_healthy hM h hF hpi hs hbig hU (by decide) (junk 0) s0 hh.1
    obtain ⟨m1, y1, e1, k1⟩ := update_fixed (F := F) h h1 hU hU dt (lit 1) (lit 0) (lit (-1)) u0 u0 d0
    have i1 := step_euler hM h hr (junk := junk 0) (dt := dt) (SameInside.refl (valsOf M m sU))
    obtain ⟨m2, y2, d2, u2, k2⟩ := stage_healthy hM h hF hpi hs hbig h1 (by decide) (junk 1) e1 (far i1 hh.2.1)
    have v2 := k2 _ _ hU (by decide) (by decide) (k1 _ _ (by decide) u0)
    obtain ⟨m3, y3, e3, k3⟩ := update_fixed (F := F) h h2 hU h1 dt (lit (3/4)) (lit (1/4)) (lit (-1/4)) v2 u2 d2
    have i2 := mix_advance hM h hr (c0 := (lit (3/4) : ℝ)) (c1 := lit (1/4)) (c2 := lit (-1/4)) (dt := dt)
      (junk := junk 1) (by rops; norm_num) (SameInside.refl (valsOf M m sU)) i1
    obtain ⟨m4, y4, d4, u4, k4⟩ := stage_healthy hM h hF hpi hs hbig h2 (by decide) (junk 2) e3 (far i2 (by
      have := hh.2.2
      rops
      exact this))
    obtain ⟨m5, y5, e5, -⟩ := update_fixed (F := F) h hU hU h2 dt (lit 1 / lit 3) (lit 2 / lit 3) (lit (-2) / lit 3)
      (k4 _ _ hU (by decide) (by decide) (k3 _ _ (by decide) v2)) u4 d4
    have y : YieldsAll (fixDom F M.d3 M.N P .ssprk3) (fixedStep M S P junk F .ssprk3 dt) m m5 := by
      have := ((((y0.append y1).append y2).append y3).append y4).append y5
      unfold fixedStep stepWith
      simpa only [List.append_assoc] using this
    obtain rfl := y.unique r
    exact e5
  | ssprk54 => exact hh.elim

/-! ### C147 -/

/-- **C147** (violated): a periodic box gains mass in a step with positivity preservation.  If every cell holds the same ramp of the
density, of positive mean and not positive at one end, then after a step of forward Euler the total mass is larger than before,
whatever the time step and the Riemann solver. -/
theorem C147_mass_grows (hM : ExactScheme M) (hN : 2 ≤ M.N) (h : Setup M P B) (hB : AllPeriodic M.d3 B) (hG : GasParams S)
    (hr : HasSolver M.d3 S) (hF : F.limiter = none) (hpos : F.positivity = true) (hpi : F.pi = Real.pi) {ρ s E : ℝ} (hρ0 : 0 < ρ)
    (hρ : S.smallr ≤ ρ) (hs : 2 * ρ ≤ s) (hfar : excess M.N ^ dims M.d3 * ρ < 10000000000000 * S.smallr)
    (hu : SameInside M.d3 M.N P (valsOf M m sU) (fun _ => ramp M.N ρ s E))
    (r : Runs (fixedStep M S P junk F .forward_euler dt) m m') :
    content M.d3 M.N P (valsOf M m sU) 0 < content M.d3 M.N P (valsOf M m' sU) 0 := by
  have hU : solArray .forward_euler sU := sU_sol _
  have h0 : 0 < hydroVars M.d3 := by cases M.d3 <;> decide
  obtain ⟨m0, m1, m2, y, yp, e0, e1, e2, -⟩ := fixedStage_yields (S := S) h hM.orders.1 F hU (by decide) (junk 0) m
  have u0 : ∀ c p iv, P.box M.d3 c → IsSolPt M.d3 M.N p → iv < hydroVars M.d3 → valsOf M m0 sU c p iv = ramp M.N ρ s E p iv :=
    fun c p iv hc hp hv => (e0 c p iv hc hp hv).trans ((extended_congr h hu hc hp hv).trans (extended_periodic hB _ c p iv))
  -- the procedure adds mass
  have rp := yp.run
  rw [prepare_none hF, if_pos hpos, hpi] at rp
  have grows := C109_mass_grows hM hN h hU rp hρ0 hρ hs hfar u0
  have start : content M.d3 M.N P (valsOf M m sU) 0 = content M.d3 M.N P (valsOf M m0 sU) 0 :=
    content_congr h (fun c p iv hc hi hp hv => (hu c p iv hc hi hp hv).trans (u0 c p iv hc hp hv).symm) h0
  -- all cells are alike after it
  obtain ⟨hb, -⟩ : P.box M.d3 (cell M.d3 P 0 0 0) ∧ P.inner M.d3 (cell M.d3 P 0 0 0) := by
    have := h.gw
    have := h.nx
    have := h.ny
    refine cell_inner h (by omega) (by omega) ?_
    unfold depth
    split_ifs with h3
    · have := h.nz h3; omega
    · exact one_pos
  set f : Pt → ℕ → ℝ := valsOf M m1 sU (cell M.d3 P 0 0 0)
  have alike : ∀ c p iv, P.box M.d3 c → IsSolPt M.d3 M.N p → iv < hydroVars M.d3 → valsOf M m1 sU c p iv = f p iv :=
    fun c p iv hc hp hv => prepare_local hF h.ready h.ready hU yp.run yp.run hc hb
      (fun p iv hp hv => (u0 c p iv hc hp hv).trans (u0 _ p iv hb hp hv).symm) p iv hp hv
  have per : extended M.d3 M.N P B (fun _ => f) = fun _ => f := by
    funext c p iv
    exact extended_periodic hB f c p iv
  -- the rest of the step keeps it
  have d2 : Holds M P m2 sDiv (rhs M S P B (junk 0) fun _ => f) := fun c p iv hc _ hp hv => by
    refine (e1 c p iv hc hp hv).trans ((divAll_congr alike iv hc hp).trans ?_)
    unfold rhs
    rw [per]
  have v2 : Holds M P m2 sU fun _ => f := fun c p iv hc _ hp hv => by
    rw [e2]
    exact alike c p iv hc hp hv
  obtain ⟨m3, y3, e3, -⟩ := update_fixed (F := F) h hU hU hU dt (lit 1) (lit 0) (lit (-1)) v2 v2 d2
  have yy : YieldsAll (fixDom F M.d3 M.N P .forward_euler) (fixedStep M S P junk F .forward_euler dt) m m3 := by
    have := y.append y3
    unfold fixedStep stepWith
    simpa only [List.append_assoc] using this
  obtain rfl := yy.unique r
  have hw : WallSolver M.d3 S B := fun d hd k => by
    rw [(hB d hd).1, (hB d hd).2] at k
    rcases k with k | k <;> cases k
  rw [start, content_congr h (e3.trans (step_euler hM h hr (SameInside.refl _))) h0, C86_balance hM,
    C86_closed_inflow hM h hG hr hw h0 (fun d hd => .inl (hB d hd)), mul_zero, add_zero]
  refine grows.trans_eq (content_congr h (fun c p iv hc _ hp hv => alike c p iv hc hp hv) h0)

/-! ### The hypotheses can be met -/

theorem flux_corner (d3 : Bool) {N : ℕ} (hN : 0 < N) : IsFluxLoc d3 N .x ⟨0, 0, 0⟩ 0 :=
  ⟨.inr (by decide), ⟨hN, hN, by simp only []; split_ifs <;> omega⟩, Nat.zero_le _⟩

/-- A uniform gas is far from vacuum at every stage. -/
theorem healthy_uniform (hM : ExactScheme M) (h : Setup M P B) (hG : GasParams S) (hr : HasSolver M.d3 S) {q : HState ℝ}
    (hq : Settled M.d3 S q) (hw : RestAtWalls M.d3 B q) (hp : 1 / 1000000000000 ≤ gasPressure S.gamma0 q) (hti : ti ≠ .ssprk54)
    {u : Vals ℝ} (hu : SameInside M.d3 M.N P u (everywhere q)) : HealthyStages M S P B ti dt u := by
  have hN := hM.orders.1
  have h0 : 0 < hydroVars M.d3 := by cases M.d3 <;> decide
  have ok : ∀ {v : Vals ℝ}, SameInside M.d3 M.N P v (everywhere q) → Healthy M S P (extended M.d3 M.N P B v) := by
    intro v hv c hc
    have e : ∀ p iv, IsSolPt M.d3 M.N p → iv < hydroVars M.d3 → extended M.d3 M.N P B v c p iv = part q iv :=
      fun p iv hp hi => (extended_congr h hv hc hp hi).trans (extended_everywhere hw (lt_five hi) c p)
    refine ⟨fun d p j hl => ?_, .x, _, 0, flux_corner M.d3 hN, ?_⟩
    · rw [fluxGas_flat hN hq.phys.w hl e]
      exact ⟨hq.floors.d, hp⟩
    · rw [fluxGas_flat hN hq.phys.w (flux_corner M.d3 hN) e, cellAngleMean_congr fun p hp => e p 0 hp h0, cellAngleMean_const _ hN]
      exact le_rfl
  have adv : ∀ {v : Vals ℝ}, SameInside M.d3 M.N P v (everywhere q) →
      SameInside M.d3 M.N P (advance M S P B dt v) (everywhere q) := by
    intro v hv
    have one : SameInside M.d3 M.N P (everywhere q) fun _ _ iv => 1 * part q iv := fun c p iv _ _ _ _ => (one_mul _).symm
    refine (step_euler hM h hr (junk := fun _ _ _ => HState.zero) hv.symm).symm.trans
      ((mix_everywhere hM h hG hr hq hw one one (SameInside.refl _)).trans ?_)
    intro c p iv _ _ _ _
    show ((lit 1 : ℝ) * 1 + lit 0 * 1) * part q iv = part q iv
    rops
    norm_num
  have u2 : SameInside M.d3 M.N P (fun c p iv => 3 / 4 * u c p iv + 1 / 4 * advance M S P B dt (advance M S P B dt u) c p iv)
      (everywhere q) := fun c p iv hc hi hp hv => by
    show 3 / 4 * u c p iv + 1 / 4 * advance M S P B dt (advance M S P B dt u) c p iv = _
    rw [hu c p iv hc hi hp hv, adv (adv hu) c p iv hc hi hp hv]
    ring
  cases ti
  · exact ok hu
  · exact ⟨ok hu, ok (adv hu)⟩
  · exact ⟨ok hu, ok (adv hu), ok u2⟩
  · exact absurd rfl hti

/-- Positivity preservation without the limiter. -/
noncomputable def guardOn : Fixes ℝ := ⟨none, true, Real.pi, 10 ^ 100⟩

theorem torus_periodic (d3 : Bool) : AllPeriodic d3 (Sides.all .periodic) := fun d _ => by cases d <;> exact ⟨rfl, rfl⟩

/-- A density from 3/2 to 5/2 in every cell of a periodic box: forward Euler makes the same step with and without. -/
example (d3 : Bool) : ∃ m' n', Runs (fixedStep (exampleScheme d3) hllcSettings (torus d3) (fun _ _ _ _ => HState.zero) guardOn
      .forward_euler (1 / 100)) (rampWith (exampleScheme d3) 2 1 1) m' ∧
    Runs (timeStep (exampleScheme d3) hllcSettings (torus d3) (fun _ _ _ _ => HState.zero) .forward_euler (1 / 100))
      (rampWith (exampleScheme d3) 2 1 1) n' ∧
    SameInside d3 3 (torus d3) (valsOf (exampleScheme d3) m' sU) (valsOf (exampleScheme d3) n' sU) := by
  have hM := exampleScheme_exact d3
  have hs := torus_setup d3
  obtain ⟨m', y⟩ := C142_safe (S := hllcSettings) hs hM.orders.1 guardOn (fun _ _ _ _ => HState.zero) .forward_euler (1 / 100)
    (rampWith (exampleScheme d3) 2 1 1)
  obtain ⟨n', z, -⟩ := step_yields (S := hllcSettings) hs hM.orders.1 .forward_euler (1 / 100) (fun _ _ _ _ => HState.zero)
    (rampWith (exampleScheme d3) 2 1 1)
  refine ⟨m', n', y.run, z.run, C146_same hM hs (hllcSettings_solver d3) rfl rfl hllcSettings_gas.smallr ?_ ?_ y.run z.run⟩
  · norm_num [guardOn, hllcSettings, exampleSettings]
  · have ho : Orders 3 := hM.orders
    have e : ∀ c p iv, IsSolPt d3 3 p → iv < hydroVars d3 → (torus d3).box d3 c → extended d3 3 (torus d3) (Sides.all .periodic)
        (valsOf (exampleScheme d3) (rampWith (exampleScheme d3) 2 1 1) sU) c p iv = ramp 3 2 1 1 p iv := fun c p iv hp hv hc =>
      (extended_congr (M := exampleScheme d3) hs (v := fun _ => ramp 3 2 1 1)
        (fun c p iv _ _ hp _ => rampWith_vals (exampleScheme d3) 2 1 1 hp) hc hp hv).trans
        (extended_periodic (torus_periodic d3) _ c p iv)
    intro c hc
    have ec := fun p iv (hp : IsSolPt d3 3 p) (hv : iv < hydroVars d3) => e c p iv hp hv hc
    refine ⟨fun d p j hl => ⟨?_, ?_⟩, .x, _, 0, flux_corner d3 (show 0 < 3 by decide), ?_⟩
    · have := (ramp_flux_range ho (by decide) (by norm_num) ec hl).1
      refine le_trans ?_ this
      norm_num [hllcSettings, exampleSettings]
    · have := ramp_flux_rest (by decide) ec hl hllcSettings.gamma0
      refine le_trans ?_ this.ge
      norm_num [hllcSettings, exampleSettings]
    · have h0 : 0 < hydroVars d3 := by cases d3 <;> decide
      refine (ramp_flux_x (by decide) ec (flux_corner d3 (show 0 < 3 by decide))).trans_le ?_
      refine le_trans ?_ ((ramp_linear d3 3 2 1 1 0).angle_mean (by decide) ▸
        (cellAngleMean_congr fun p hp => ec p 0 hp h0)).ge
      rw [fluxPts_zero ho]
      norm_num

/-- A density from -1 to 3 in every cell of a periodic box: the mass grows in a step. -/
example (d3 : Bool) : ∃ m', Runs (fixedStep (exampleScheme d3) hllcSettings (torus d3) (fun _ _ _ _ => HState.zero) guardOn
      .forward_euler (1 / 100)) (rampWith (exampleScheme d3) 1 4 10) m' ∧
    content d3 3 (torus d3) (valsOf (exampleScheme d3) (rampWith (exampleScheme d3) 1 4 10) sU) 0 <
      content d3 3 (torus d3) (valsOf (exampleScheme d3) m' sU) 0 := by
  have hM := exampleScheme_exact d3
  have hs := torus_setup d3
  have hsr : hllcSettings.smallr = 1 / 10 ^ 8 := rfl
  obtain ⟨m', y⟩ := C142_safe (S := hllcSettings) hs hM.orders.1 guardOn (fun _ _ _ _ => HState.zero) .forward_euler (1 / 100)
    (rampWith (exampleScheme d3) 1 4 10)
  refine ⟨m', y.run, C147_mass_grows (M := exampleScheme d3) hM (by norm_num [exampleScheme]) hs (torus_periodic d3) hllcSettings_gas
    (hllcSettings_solver d3) rfl rfl rfl one_pos (by rw [hsr]; norm_num) (s := 4) (E := 10) (by norm_num) ?_
    (fun c p iv _ _ hp _ => rampWith_vals (exampleScheme d3) 1 4 10 hp) y.run⟩
  rw [hsr]
  show excess 3 ^ dims d3 * 1 < _
  norm_num
  linarith [(excess_three d3).2]

end Verif.Sdm
