import Verif.Lemmas.SdmFixed
import Verif.Props.C109_SdmPositivity
import Verif.Props.C141_JetMpi

/-!
# C142: steps of the spectral difference solver with limiter and positivity preservation

`fixedStep`: a whole step with these options.
-/

namespace Verif.Sdm

open Verif Spec ROps

section any
variable {α : Type} [ROps α] {M : Scheme α} {S : Settings α} {P : Grid} {B : Sides} {F : Fixes α}

/-- The loops are race-free, stay in their memory and end with one result, from every memory. -/
def Does (dom : Addr → Prop) (L : List (Launch Addr α)) : Prop := ∀ m, ∃ m', YieldsAll dom L m m'

theorem Does.append {dom : Addr → Prop} {L L' : List (Launch Addr α)} (h : Does dom L) (h' : Does dom L') : Does dom (L ++ L') :=
  fun m => let ⟨m1, y⟩ := h m; let ⟨m2, y'⟩ := h' m1; ⟨m2, y.append y'⟩

/-- **C142**: for every order, grid, state, time integration and choice of options a step accesses only entries that are allocated for
these options, is free of data races, ends, and its result does not depend on the schedule. -/
theorem C142_safe (h : Setup M P B) (hN : 0 < M.N) (F : Fixes α) (junk : ℕ → Dir → Cell → Pt → HState α) (ti : Mood.TimeInt)
    (dt : α) (m : Addr → α) : ∃ m', YieldsAll (fixDom F M.d3 M.N P ti) (fixedStep M S P junk F ti dt) m m' := by
  have fill : ∀ A, solArray ti A → Does (fixDom F M.d3 M.N P ti) (makeBoundaries M P A) := fun A hA m =>
    let ⟨m', y, _⟩ := boundaries_yields h hA m; ⟨m', y.mono fun _ => sdm_fix⟩
  have go : ∀ i A, solArray ti A → A ≠ sDiv → Does (fixDom F M.d3 M.N P ti) (fixedDivergence M S P (junk i) F A) :=
    fun i A hA hAd m => let ⟨_, _, m', y, _⟩ := fixed_yields (S := S) h.ready hN F hA hAd (junk i) m; ⟨m', y⟩
  have up : ∀ o A A' c0 c1 c2, solArray ti o → solArray ti A → solArray ti A' →
      Does (fixDom F M.d3 M.N P ti) [updateRK M P dt o A A' c0 c1 c2] := fun o A A' c0 c1 c2 ho hA hA' m =>
    let ⟨m', y, _⟩ := update_yields h ho hA hA' dt c0 c1 c2 m; ⟨m', y.mono fun _ => sdm_fix⟩
  have hU := sU_sol ti
  revert m
  show Does _ _
  unfold fixedStep stepWith
  cases ti with
  | forward_euler => exact (fill _ hU).append ((go 0 _ hU (by decide)).append (up _ _ _ _ _ _ hU hU hU))
  | ssprk2 =>
    have h1 : solArray .ssprk2 (sRK 1) := sRK_sol (by decide) (by decide)
    exact (fill _ hU).append ((((go 0 _ hU (by decide)).append (up _ _ _ _ _ _ h1 hU hU)).append (fill _ h1)).append
      ((go 1 _ h1 (by decide)).append (up _ _ _ _ _ _ hU hU h1)))
  | ssprk3 =>
    have h1 : solArray .ssprk3 (sRK 1) := sRK_sol (by decide) (by decide)
    have h2 : solArray .ssprk3 (sRK 2) := sRK_sol (by decide) (by decide)
    exact (fill _ hU).append ((((((go 0 _ hU (by decide)).append (up _ _ _ _ _ _ h1 hU hU)).append (fill _ h1)).append
      ((go 1 _ h1 (by decide)).append (up _ _ _ _ _ _ h2 hU h1))).append (fill _ h2)).append
      ((go 2 _ h2 (by decide)).append (up _ _ _ _ _ _ hU hU h2)))
  | ssprk54 =>
    have h1 : solArray .ssprk54 (sRK 1) := sRK_sol (by decide) (by decide)
    have h2 : solArray .ssprk54 (sRK 2) := sRK_sol (by decide) (by decide)
    have h3 : solArray .ssprk54 (sRK 3) := sRK_sol (by decide) (by decide)
    have h4 : solArray .ssprk54 (sRK 4) := sRK_sol (by decide) (by decide)
    exact (fill _ hU).append ((((((((((go 0 _ hU (by decide)).append (up _ _ _ _ _ _ h1 hU hU)).append (fill _ h1)).append
      ((go 1 _ h1 (by decide)).append (up _ _ _ _ _ _ h2 hU h1))).append (fill _ h2)).append
      ((go 2 _ h2 (by decide)).append (up _ _ _ _ _ _ h3 hU h2))).append (fill _ h3)).append
      ((go 3 _ h3 (by decide)).append ((up _ _ _ _ _ _ h4 hU h3).append (up _ _ _ _ _ _ hU h2 h3)))).append (fill _ h4)).append
      ((go 4 _ h4 (by decide)).append (up _ _ _ _ _ _ hU hU h4)))

/-- **C142**: with both options off the step is that of C85–C89. -/
theorem C142_off (M : Scheme α) (S : Settings α) (P : Grid) (junk : ℕ → Dir → Cell → Pt → HState α) (pi big : α) (ti : Mood.TimeInt)
    (dt : α) : fixedStep M S P junk ⟨none, false, pi, big⟩ ti dt = timeStep M S P junk ti dt := by
  rw [timeStep_eq_stepWith]
  rfl

end any

/-! ### Uniform gas -/

variable {M : Scheme ℝ} {S : Settings ℝ} {P : Grid} {B : Sides} {F : Fixes ℝ} {ti : Mood.TimeInt} {A : ℕ}
  {m m' : Addr → ℝ} {q : HState ℝ}

theorem fluxGas_flat (hN : 0 < M.N) (hw : M.d3 = false → q.w = 0) {u : Vals ℝ} {c : Cell} {d : Dir} {p : Pt} {j : ℕ}
    (hl : IsFluxLoc M.d3 M.N d p j)
    (hu : ∀ p iv, IsSolPt M.d3 M.N p → iv < hydroVars M.d3 → u c p iv = part q iv) : fluxGas M.d3 M.N u c d p j = q := by
  rw [fluxGas_congr (u' := everywhere q) hl hu]
  unfold fluxGas fluxValue everywhere
  simp only [lineValue_const hN]
  cases h3 : M.d3
  · ext <;> simp [part]
    exact (hw h3).symm
  · ext <;> simp [part]

theorem positivity_flat (hM : ExactScheme M) (h : Setup M P B) (hA : solArray ti A) {big : ℝ} (hbig : S.smallr ≤ big)
    (hs : S.smallr ≤ q.d) (hw : M.d3 = false → q.w = 0) (hp : 1 / 1000000000000 ≤ gasPressure S.gamma0 q)
    (r : Runs [positivity M S P big A] m m') {c : Cell} (hc : P.box M.d3 c) (hlow : q.d < m (c.at sAvg 0))
    (hu : ∀ p iv, IsSolPt M.d3 M.N p → iv < hydroVars M.d3 → valsOf M m A c p iv = part q iv) {p : Pt}
    (hpt : IsSolPt M.d3 M.N p) {iv : ℕ} (hv : iv < hydroVars M.d3) : valsOf M m' A c p iv = part q iv := by
  have hN := hM.orders.1
  have fl : ∀ d p j, IsFluxLoc M.d3 M.N d p j → fluxGas M.d3 M.N (valsOf M m A) c d p j = q :=
    fun d p j hl => fluxGas_flat hN hw hl hu
  have loc : IsFluxLoc M.d3 M.N .x ⟨0, 0, 0⟩ 0 :=
    ⟨.inr (by decide), ⟨hN, hN, by simp only []; split_ifs <;> omega⟩, Nat.zero_le _⟩
  rw [C109_kept hM h hA r hc hbig ⟨_, _, _, loc, by rw [fl _ _ _ loc]; exact hlow⟩
    (fun d p j hl => by rw [fl d p j hl]; exact hs) (fun d p j hl => by rw [fl d p j hl]; exact hp) hpt hv]
  exact hu p iv hpt hv

theorem flat_average (hM : ExactScheme M) (hq : 0 < q.d) {x : ℝ}
    (hx : x = let a := excess M.N ^ dims M.d3 * cellAngleMean M.d3 M.N fun _ => q.d
      if (0 : ℕ) = 0 then max a S.smallr else a) : q.d < x := by
  have := one_lt_excess_pow M.d3 hM.orders.1
  rw [hx, cellAngleMean_const _ hM.orders.1]
  simp only [if_true]
  exact lt_max_of_lt_left (by nlinarith)

/-- Preparing keeps cells in which all points have the same state. -/
theorem prepare_flat (hM : ExactScheme M) (h : Setup M P B) (hpi : F.pi = Real.pi) (hbig : S.smallr ≤ F.big)
    (hA : solArray ti A) (hq0 : 0 < q.d) (hs : S.smallr ≤ q.d) (hw : M.d3 = false → q.w = 0)
    (hp : 1 / 1000000000000 ≤ gasPressure S.gamma0 q) (r : Runs (prepare M S P F A) m m') {c : Cell} (hc : P.box M.d3 c)
    (hu : ∀ p iv, IsSolPt M.d3 M.N p → iv < hydroVars M.d3 → valsOf M m A c p iv = part q iv) {p : Pt}
    (hpt : IsSolPt M.d3 M.N p) {iv : ℕ} (hv : iv < hydroVars M.d3) : valsOf M m' A c p iv = part q iv := by
  have h0 : 0 < hydroVars M.d3 := by cases M.d3 <;> decide
  cases hl : F.limiter with
  | some T =>
    rw [prepare_some hl, hpi] at r
    obtain ⟨m1, y1, -⟩ := C91_safe (S := S) h hA Real.pi T m
    have u1 : ∀ p iv, IsSolPt M.d3 M.N p → iv < hydroVars M.d3 → valsOf M m1 A c p iv = part q iv :=
      fun p iv hp hv => C91_flat_cell hM h hA y1.run hc (a := fun iv => part q iv) hu hp hv
    by_cases hpos : F.positivity = true
    · rw [if_pos hpos] at r
      obtain ⟨m2, y2, -⟩ := positivity_yields (S := S) (ti := ti) h.ready hA F.big m1
      have y := y1.append (.cons (y2.mono fun a ha => avg_lim ha) (.nil _))
      obtain rfl := y.unique r
      have y2' : YieldsAll _ [positivity M S P F.big A] m1 m' := .cons y2 (.nil _)
      refine positivity_flat hM h hA hbig hs hw hp y2'.run hc ?_ u1 hpt hv
      have e := C91_average hM h hA y1.run hc h0
      rw [cellAngleMean_congr fun p hp => hu p 0 hp h0] at e
      exact flat_average hM hq0 e
    · rw [if_neg hpos, List.append_nil] at r
      obtain rfl := y1.unique r
      exact u1 p iv hpt hv
  | none =>
    rw [prepare_none hl, hpi] at r
    by_cases hpos : F.positivity = true
    · rw [if_pos hpos] at r
      have e := C109_average hM h hA r hc h0
      obtain ⟨m₁, r₁, e1, e2, -⟩ := preserving_split hM h hA r
      rw [cellAngleMean_congr fun p hp => hu p 0 hp h0] at e
      refine positivity_flat hM h hA hbig hs hw hp r₁ hc ?_ ?_ hpt hv
      · rw [← stored_part m₁ sAvg c h0, e2, stored_part m' sAvg c h0]
        exact flat_average hM hq0 e
      · intro p iv hp hv
        rw [e1]
        exact hu p iv hp hv
    · rw [if_neg hpos] at r
      obtain rfl := (YieldsAll.nil (dom := fun _ => True) m).unique r
      exact hu p iv hpt hv

/-- A stage from uniform gas. -/
theorem stage_flat (hM : ExactScheme M) (h : Setup M P B) (hG : GasParams S) (hr : HasSolver M.d3 S) (hpi : F.pi = Real.pi)
    (hbig : S.smallr ≤ F.big) (hA : solArray ti A) (hAd : A ≠ sDiv) (hq : Settled M.d3 S q) (hw : RestAtWalls M.d3 B q)
    (hp : 1 / 1000000000000 ≤ gasPressure S.gamma0 q) (junk : Dir → Cell → Pt → HState ℝ) (hu : Holds M P m A (everywhere q)) :
    ∃ m', YieldsAll (fixDom F M.d3 M.N P ti) (makeBoundaries M P A ++ fixedDivergence M S P junk F A) m m' ∧
      Holds M P m' sDiv (fun _ _ _ => 0) ∧ Holds M P m' A (everywhere q) ∧
      (∀ A' v, solArray ti A' → A' ≠ sDiv → A' ≠ A → Holds M P m A' v → Holds M P m' A' v) := by
  have hN := hM.orders.1
  obtain ⟨m0, m1, m', y, yp, e0, e1, e2, f⟩ := fixedStage_yields (S := S) h hN F hA hAd junk m
  have u0 : ∀ c p iv, P.box M.d3 c → IsSolPt M.d3 M.N p → iv < hydroVars M.d3 → valsOf M m0 A c p iv = part q iv :=
    fun c p iv hc hp hv => (e0 c p iv hc hp hv).trans ((extended_congr h hu hc hp hv).trans (extended_everywhere hw (lt_five hv) c p))
  have u1 : ∀ c p iv, P.box M.d3 c → IsSolPt M.d3 M.N p → iv < hydroVars M.d3 → valsOf M m1 A c p iv = everywhere q c p iv :=
    fun c p iv hc hpt hv => prepare_flat hM h hpi hbig hA hq.phys.pos hq.floors.d hq.phys.w hp yp.run hc
      (fun p iv hp hv => u0 c p iv hc hp hv) hpt hv
  refine ⟨m', y, fun c p iv hc hi hp hv => ?_, fun c p iv hc hi hp hv => ?_, fun A' v hA' h1 h2 hv => ?_⟩
  · refine (e1 c p iv hc hp hv).trans ((divAll_congr u1 iv hc hp).trans ((divAll_eq hM h hr _ hi hp hv).trans ?_))
    have s : ∀ d, M.d3 = true ∨ d ≠ .z →
        slopeOf M.d3 M.N S (eulerFluxOf M.d3 S) (riemannFlux M.d3 S HState.zero) (everywhere q) d c p iv = 0 := fun d hd =>
      slope_local hM hG hr hq hd (fun _ _ _ => rfl) (fun _ _ _ => rfl) (fun _ _ _ => rfl) p iv
    unfold divergenceOf
    rw [s .x (.inr (by decide)), s .y (.inr (by decide))]
    by_cases h3 : M.d3 = true
    · rw [if_pos h3, s .z (.inl h3)]; norm_num
    · rw [if_neg h3]; norm_num
  · rw [e2]
    exact u1 c p iv hc hp hv
  · unfold Holds
    rw [f A' h2 h1 hA'.ne (solArray_notMean hA')]
    exact hv

theorem update_flat (h : Setup M P B) {out A0 A1 : ℕ} (ho : solArray ti out)
    (h0 : solArray ti A0) (h1 : solArray ti A1) (dt : ℝ) {c0 c1 : ℝ} (c2 : ℝ) (hc : c0 + c1 = 1) {m : Addr → ℝ}
    (hu0 : Holds M P m A0 (everywhere q)) (hu1 : Holds M P m A1 (everywhere q)) (hw : Holds M P m sDiv fun _ _ _ => 0) :
    ∃ m', YieldsAll (fixDom F M.d3 M.N P ti) [updateRK M P dt out A0 A1 c0 c1 c2] m m' ∧ Holds M P m' out (everywhere q) ∧
      (∀ A' v, A' ≠ out → Holds M P m A' v → Holds M P m' A' v) := by
  obtain ⟨m', y, e, f⟩ := update_holds h ho h0 h1 dt c0 c1 c2 hu0 hu1 hw
  refine ⟨m', y.mono fun _ => sdm_fix, e.trans fun c p iv _ _ _ _ => ?_, f⟩
  show c0 * part q iv + c1 * part q iv + c2 * dt * 0 = part q iv
  rw [← add_mul, hc]
  ring

/-- **C142**: with limiter, positivity preservation or both, a uniform gas above the floors, of pressure at least `1e-12` and without flow
through reflecting sides, is kept exactly at every point by forward Euler, ssprk2 and ssprk3, for every time step and
threshold. -/
theorem C142_uniform (hM : ExactScheme M) (h : Setup M P B) (hG : GasParams S) (hr : HasSolver M.d3 S) (hpi : F.pi = Real.pi)
    (hbig : S.smallr ≤ F.big) (hq : Settled M.d3 S q) (hw : RestAtWalls M.d3 B q)
    (hp : 1 / 1000000000000 ≤ gasPressure S.gamma0 q) (hti : ti ≠ .ssprk54) {junk : ℕ → Dir → Cell → Pt → HState ℝ} {dt : ℝ}
    (r : Runs (fixedStep M S P junk F ti dt) m m') (hu : SameInside M.d3 M.N P (valsOf M m sU) (everywhere q)) :
    SameInside M.d3 M.N P (valsOf M m' sU) (everywhere q) := by
  have hU := sU_sol ti
  obtain ⟨m0, y0, d0, u0, -⟩ := stage_flat (F := F) hM h hG hr hpi hbig hU (by decide) hq hw hp (junk 0) hu
  cases ti with
  | forward_euler =>
    obtain ⟨m1, y1, e1, -⟩ := update_flat (F := F) h hU hU hU dt (lit (-1)) (by rops; norm_num : (lit 1 : ℝ) + lit 0 = 1) u0 u0 d0
    have y : YieldsAll (fixDom F M.d3 M.N P .forward_euler) (fixedStep M S P junk F .forward_euler dt) m m1 := by
      have := y0.append y1
      unfold fixedStep stepWith
      simpa only [List.append_assoc] using this
    obtain rfl := y.unique r
    exact e1
  | ssprk2 =>
    have h1 : solArray .ssprk2 (sRK 1) := sRK_sol (by decide) (by decide)
    obtain ⟨m1, y1, e1, k1⟩ := update_flat (F := F) h h1 hU hU dt (lit (-1)) (by rops; norm_num : (lit 1 : ℝ) + lit 0 = 1) u0 u0 d0
    obtain ⟨m2, y2, d2, u2, k2⟩ := stage_flat (F := F) hM h hG hr hpi hbig h1 (by decide) hq hw hp (junk 1) e1
    obtain ⟨m3, y3, e3, -⟩ := update_flat (F := F) h hU hU h1 dt (lit (-1/2))
      (by rops; norm_num : (lit (1/2) : ℝ) + lit (1/2) = 1) (k2 _ _ hU (by decide) (by decide) (k1 _ _ (by decide) u0)) u2 d2
    have y : YieldsAll (fixDom F M.d3 M.N P .ssprk2) (fixedStep M S P junk F .ssprk2 dt) m m3 := by
      have := ((y0.append y1).append y2).append y3
      unfold fixedStep stepWith
      simpa only [List.append_assoc] using this
    obtain rfl := y.unique r
    exact e3
  | ssprk3 =>
    have h1 : solArray .ssprk3 (sRK 1) := sRK_sol (by decide) (by decide)
    have h2 : solArray .ssprk3 (sRK 2) := sRK_sol (by decide) (by decide)
    obtain ⟨m1, y1, e1, k1⟩ := update_flat (F := F) h h1 hU hU dt (lit (-1)) (by rops; norm_num : (lit 1 : ℝ) + lit 0 = 1) u0 u0 d0
    obtain ⟨m2, y2, d2, u2, k2⟩ := stage_flat (F := F) hM h hG hr hpi hbig h1 (by decide) hq hw hp (junk 1) e1
    have v2 := k2 _ _ hU (by decide) (by decide) (k1 _ _ (by decide) u0)
    obtain ⟨m3, y3, e3, k3⟩ := update_flat (F := F) h h2 hU h1 dt (lit (-1/4))
      (by rops; norm_num : (lit (3/4) : ℝ) + lit (1/4) = 1) v2 u2 d2
    obtain ⟨m4, y4, d4, u4, k4⟩ := stage_flat (F := F) hM h hG hr hpi hbig h2 (by decide) hq hw hp (junk 2) e3
    obtain ⟨m5, y5, e5, -⟩ := update_flat (F := F) h hU hU h2 dt (lit (-2) / lit 3)
      (by rops; norm_num : (lit 1 / lit 3 : ℝ) + lit 2 / lit 3 = 1) (k4 _ _ hU (by decide) (by decide) (k3 _ _ (by decide) v2)) u4 d4
    have y : YieldsAll (fixDom F M.d3 M.N P .ssprk3) (fixedStep M S P junk F .ssprk3 dt) m m5 := by
      have := ((((y0.append y1).append y2).append y3).append y4).append y5
      unfold fixedStep stepWith
      simpa only [List.append_assoc] using this
    obtain rfl := y.unique r
    exact e5
  | ssprk54 => exact absurd rfl hti

/-! ### The hypotheses can be met -/

open Classical in
/-- Memory holding the state `q` at every point. -/
noncomputable def flatMem (M : Scheme ℝ) (q : HState ℝ) : Addr → ℝ := fun a =>
  if h : ∃ c p iv, IsSolPt M.d3 M.N p ∧ a = M.sol sU c p iv then part q h.choose_spec.choose_spec.choose else 0

theorem flatMem_vals (M : Scheme ℝ) (q : HState ℝ) {c : Cell} {p : Pt} {iv : ℕ} (hp : IsSolPt M.d3 M.N p) :
    valsOf M (flatMem M q) sU c p iv = part q iv := by
  have h : ∃ c' p' iv', IsSolPt M.d3 M.N p' ∧ M.sol sU c p iv = M.sol sU c' p' iv' := ⟨c, p, iv, hp, rfl⟩
  show flatMem M q (M.sol sU c p iv) = _
  rw [flatMem, dif_pos h]
  obtain ⟨h1, h2⟩ := h.choose_spec.choose_spec.choose_spec
  exact congrArg _ (sol_inj hp h1 h2).2.2.2.symm

/-- Flow along the walls of the 3D channel and out of its open sides, with limiter and positivity preservation. -/
example : ∃ m', Runs (fixedStep (exampleScheme true) hllcSettings (channel true) (fun _ _ _ _ => HState.zero)
      ⟨some (1 / 2), true, Real.pi, 10 ^ 100⟩ .ssprk3 (1 / 10)) (flatMem (exampleScheme true) ⟨1, 4, 2, 0, 1⟩) m' ∧
    SameInside true 3 (channel true) (valsOf (exampleScheme true) m' sU) (everywhere ⟨1, 4, 2, 0, 1⟩) := by
  obtain ⟨m', y⟩ := C142_safe (S := hllcSettings) (channel_setup true) (exampleScheme_exact true).orders.1
    ⟨some (1 / 2), true, Real.pi, 10 ^ 100⟩ (fun _ _ _ _ => HState.zero) .ssprk3 (1 / 10) (flatMem (exampleScheme true) ⟨1, 4, 2, 0, 1⟩)
  have hq : Settled true hllcSettings ⟨1, 4, 2, 0, 1⟩ := by
    refine ⟨⟨by norm_num, ?_, by simp⟩, ⟨?_, ?_⟩⟩ <;> norm_num [Sdm.primOf, hllcSettings, exampleSettings]
  have hw : RestAtWalls true channelSides ⟨1, 4, 2, 0, 1⟩ := by
    intro d _ h
    cases d
    · rcases h with h | h <;> cases h
    · rfl
    · rcases h with h | h <;> cases h
  refine ⟨m', y.run, C142_uniform (exampleScheme_exact true) (channel_setup true) hllcSettings_gas (hllcSettings_solver _) rfl
    ?_ hq hw ?_ (by decide) y.run fun c p iv _ _ hp _ => flatMem_vals _ _ hp⟩
  · norm_num [hllcSettings, exampleSettings]
  · norm_num [gasPressure, hllcSettings, exampleSettings]

end Verif.Sdm
