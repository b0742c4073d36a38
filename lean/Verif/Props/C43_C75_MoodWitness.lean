import Verif.Props.C74_C75_MoodLowerSides

/-!
# C43, C75: a run with a flagged cell

Two dimensions, degree one, with the central differences as pseudo-inverse (`witScheme_inverse`),
HLL solver, periodic box of three by two cells.  Gas with velocity 10 along `x` and pressure 1, with
densities 5, 8, 1 along `x`.  The flow is supersonic, so every flux is the one of the upwind state.

The first column is flagged.  Its lower faces get the first order flux, the upper faces do not; the
density after the step is negative.  The faces on the upper side of the domain keep the high order
flux, so the total mass changes although the domain is periodic.
-/

namespace Verif.Mood

open Verif Spec ROps Finset

/-- Central differences for cell size one. -/
noncomputable def centralPi (r k : ℕ) : ℝ :=
  if r = 0 then (if k = 0 then 1 / 2 else if k = 2 then -(1 / 2) else 0)
  else (if k = 1 then 1 / 2 else if k = 3 then -(1 / 2) else 0)

noncomputable def witScheme : Scheme ℝ := { genuineScheme .d2deg1 with pi := centralPi }

theorem witScheme_mm : witScheme.mm 0 0 = 0 ∧ witScheme.mm 0 1 = 0 ∧ witScheme.mm 1 0 = 1 ∧
    witScheme.mm 1 1 = 0 ∧ witScheme.mm 2 0 = 0 ∧ witScheme.mm 2 1 = 1 := by
  refine ⟨?_, ?_, ?_, ?_, ?_, ?_⟩ <;> decide +kernel

theorem witScheme_genuine : witScheme.Genuine := genuineScheme_genuine .d2deg1

theorem witScheme_nc : witScheme.ncoefs = 3 := by decide

noncomputable def hllSettings : Settings ℝ := { exampleSettings with riemann := .hll }

theorem hllSettings_gas : GasParams hllSettings :=
  ⟨exampleSettings_gas.gamma, exampleSettings_gas.smallr, exampleSettings_gas.smallp,
    exampleSettings_gas.smallc⟩

theorem witNonCentre : nonCentre (stencilOffsets .d2deg1) =
    [⟨1, 0, 0⟩, ⟨0, 1, 0⟩, ⟨-1, 0, 0⟩, ⟨0, -1, 0⟩] := by decide

theorem hll_dx : hllSettings.dx = 1 := by simp [hllSettings, exampleSettings]
theorem hll_dy : hllSettings.dy = 1 := by simp [hllSettings, exampleSettings]
theorem hll_gamma : hllSettings.gamma0 = 7 / 5 := by simp [hllSettings, exampleSettings]
theorem hll_smallr : hllSettings.smallr ≤ 1 / 4 := by
  simp only [hllSettings, exampleSettings]; norm_num
theorem hll_smallp : hllSettings.smallp ≤ 1 / 100 := by
  simp only [hllSettings, exampleSettings]; norm_num

/-- The pseudo-inverse of the witness is a left inverse of the geometry matrix. -/
theorem witScheme_inverse : IsLeftInverse false 1 1 1 witScheme.mm 2
    (nonCentre (stencilOffsets .d2deg1)) witScheme.pi := by
  obtain ⟨-, -, h3, h4, h5, h6⟩ := witScheme_mm
  rw [witNonCentre]
  intro r hr c hc
  have hr : r = 0 ∨ r = 1 := by omega
  have hc : c = 0 ∨ c = 1 := by omega
  have hp : witScheme.pi = centralPi := rfl
  rcases hr with rfl | rfl <;> rcases hc with rfl | rfl <;>
  · simp only [sum_range_succ, List.length_cons, List.length_nil, geometryEntry, hp, h3, h4, h5, h6,
      eval_hat2, eval_moment2, centralPi, List.getD_cons_zero, List.getD_cons_succ]
    simp [lit_real, ipow, ofInt]
    try norm_num

/-- Gas of density `ρ`, velocity 10, pressure 1. -/
noncomputable def jet (ρ : ℝ) : HState ℝ := ⟨ρ, 5 / 2 + 50 * ρ, 10 * ρ, 0, 0⟩

theorem jet_prim {ρ : ℝ} (h : 1 / 4 ≤ ρ) (h9 : ρ ≤ 9) :
    (computePrimitives false hllSettings (jet ρ)).1 = ⟨ρ, 1, 10, 0, 0⟩ := by
  have h1 := hll_smallr
  have h2 := hll_smallp
  have h0 : ρ ≠ 0 := by linarith
  simp only [jet, computePrimitives, Bool.false_eq_true, if_false]
  rops
  rw [max_eq_left (by linarith), hll_gamma]
  have e : (7 / 5 - 1) * ρ * ((5 / 2 + 50 * ρ) / ρ -
      1 / 2 * (10 * ρ / ρ * (10 * ρ / ρ) + 0 / ρ * (0 / ρ))) = 1 := by
    field_simp
    ring
  rw [e, max_eq_left (by nlinarith)]
  simp [h0]

theorem jet_valid {ρ : ℝ} (h : 1 / 4 ≤ ρ) (h9 : ρ ≤ 9) : isValid false hllSettings (jet ρ) = true := by
  unfold isValid
  rw [jet_prim h h9]
  simp only [jet, Bool.false_eq_true, if_false, lit_real, ltb]
  norm_num
  linarith

theorem jet_above {ρ : ℝ} (h : 1 / 4 ≤ ρ) (h9 : ρ ≤ 9) (u v : ℝ) :
    AboveFloors hllSettings ⟨ρ, 1, u, v, 0⟩ := by
  have h1 := hll_smallr
  have h2 := hll_smallp
  exact ⟨by show _ ≤ ρ; linarith, by show ρ * _ ≤ 1; nlinarith⟩

/-- The solver takes the upwind flux. -/
theorem jet_riemann {a b : ℝ} (ha : 1 / 4 ≤ a) (ha9 : a ≤ 9) (hb : 1 / 4 ≤ b) (hb9 : b ≤ 9) :
    riemann_hll false hllSettings ⟨a, 1, 10, 0, 0⟩ ⟨b, 1, 10, 0, 0⟩ =
      eulerFlux false (7 / 5) ⟨a, 1, 10, 0, 0⟩ := by
  have s : ∀ ρ : ℝ, 1 / 4 ≤ ρ → soundSpeed hllSettings.gamma0 ⟨ρ, 1, 10, 0, 0⟩ ≤ 10 := by
    intro ρ h
    unfold soundSpeed
    rw [hll_gamma, Real.sqrt_le_iff]
    refine ⟨by norm_num, ?_⟩
    show 7 / 5 * 1 / ρ ≤ _
    rw [div_le_iff₀ (by linarith)]
    linarith
  have k := (C55_hll false hllSettings_gas ⟨a, 1, 10, 0, 0⟩ ⟨b, 1, 10, 0, 0⟩ (jet_above ha ha9 _ _)
    (jet_above hb hb9 _ _) (by
      show _ ≤ min (10 : ℝ) 10
      rw [min_self]
      exact max_le (s a ha) (s b hb))).1
  rw [k, hll_gamma]

/-- Density along `x`. -/
noncomputable def prof (i : ℤ) : ℝ := if i % 3 = 2 then 5 else if i % 3 = 0 then 8 else 1

theorem prof_cases (i : ℤ) : (prof (i - 1) = 1 ∧ prof i = 5 ∧ prof (i + 1) = 8 ∧ i % 3 = 2) ∨
    (prof (i - 1) = 5 ∧ prof i = 8 ∧ prof (i + 1) = 1 ∧ i % 3 = 0) ∨
    (prof (i - 1) = 8 ∧ prof i = 1 ∧ prof (i + 1) = 5 ∧ i % 3 = 1) := by
  have : i % 3 = 2 ∨ i % 3 = 0 ∨ i % 3 = 1 := by omega
  unfold prof
  rcases this with h | h | h
  · left
    rw [if_neg (by omega), if_neg (by omega), if_pos h, if_neg (by omega), if_pos (by omega)]
    exact ⟨rfl, rfl, rfl, h⟩
  · right; left
    rw [if_pos (by omega), if_neg (by omega), if_pos h, if_neg (by omega), if_neg (by omega)]
    exact ⟨rfl, rfl, rfl, h⟩
  · right; right
    rw [if_neg (by omega), if_pos (by omega), if_neg (by omega), if_neg (by omega),
      if_pos (by omega)]
    exact ⟨rfl, rfl, rfl, h⟩

/-- Slope in cell `i`. -/
noncomputable def slope (i : ℤ) : ℝ := (prof (i + 1) - prof (i - 1)) / 2

theorem prof_bounds (i : ℤ) : 1 / 4 ≤ prof i ∧ prof i ≤ 9 ∧
    1 / 4 ≤ prof i + slope i / 2 ∧ prof i + slope i / 2 ≤ 9 ∧
    1 / 4 ≤ prof i - slope i / 2 ∧ prof i - slope i / 2 ≤ 9 := by
  unfold slope
  rcases prof_cases i with ⟨h1, h2, h3, -⟩ | ⟨h1, h2, h3, -⟩ | ⟨h1, h2, h3, -⟩ <;>
    rw [h1, h2, h3] <;> norm_num

section
variable {P : Grid} {J : MoodJunk ℝ} {old : ℕ → Cell → HState ℝ} {f : Cell → HState ℝ}

/-- Coefficients of a cell of the witness. -/
noncomputable def jetCoefs (i : ℤ) : ℕ → HState ℝ
  | 0 => jet (prof i)
  | 1 => ⟨slope i, 50 * slope i, 10 * slope i, 0, 0⟩
  | _ => HState.zero

theorem jet_polyAt (h : StageOk witScheme P) (hf : ∀ c, P.box false c → f c = jet (prof c.i))
    {c : Cell} (hb : P.box false c) (hr : reconRegion false P c) :
    polyAt witScheme P J f old c = jetCoefs c.i := by
  have st : ∀ o, o ∈ nonCentre (stencilOffsets .d2deg1) →
      f (shiftCell c o) = jet (prof (c.i + o.x)) := fun o ho =>
    hf _ (recon_box (M := witScheme) h hb hr (nonCentre_mem ho))
  rw [witNonCentre] at st
  have sx := st ⟨1, 0, 0⟩ (by simp)
  have sy := st ⟨0, 1, 0⟩ (by simp)
  have sx' := st ⟨-1, 0, 0⟩ (by simp)
  have sy' := st ⟨0, -1, 0⟩ (by simp)
  simp only [add_zero, ← sub_eq_add_neg] at sx sy sx' sy'
  have e1 : witScheme.id = .d2deg1 := rfl
  have e2 : witScheme.d3 = false := rfl
  have hp : witScheme.pi = centralPi := rfl
  funext i
  unfold polyAt
  rw [witScheme_nc]
  by_cases hi : i < 3
  · rw [if_pos hi, if_pos (show reconRegion witScheme.d3 P c from hr)]
    unfold newCoef reconState
    rw [e1, witNonCentre, witScheme_nc, e2, hp]
    simp only [List.map_cons, List.map_nil, sx, sy, sx', sy', hf c hb, List.length_cons,
      List.length_nil]
    have : i = 0 ∨ i = 1 ∨ i = 2 := by omega
    rcases this with rfl | rfl | rfl
    · simp [reconCoefs, jetCoefs, jet, ofComps, comp, lit_real, ID, IP, IU, IV]
    · simp only [reconCoefs, jetCoefs, ofComps, jet, comp, slope, STENCIL_SIZE, centralPi, ID, IP, IU,
        IV]
      simp [lit_real, List.range, List.range.loop]
      refine ⟨?_, ?_, ?_⟩ <;> ring
    · simp only [reconCoefs, jetCoefs, ofComps, jet, comp, STENCIL_SIZE, centralPi, ID, IP, IU,
        IV, HState.zero]
      simp [lit_real, List.range, List.range.loop]
  · rw [if_neg hi]
    match i, hi with
    | (n + 3), _ => rfl

theorem jet_side_x (i : ℤ) (b : Bool) (iq : ℕ) :
    sideState witScheme hllSettings .x b iq (jetCoefs i) =
      jet (prof i + (if b then slope i / 2 else -(slope i / 2))) := by
  obtain ⟨h1, h2, h3, h4, h5, h6⟩ := witScheme_mm
  have e2 : witScheme.d3 = false := rfl
  unfold sideState eval2
  rw [e2, witScheme_nc]
  simp only [Bool.false_eq_true, if_false, List.range, List.range.loop, List.foldl_cons,
    List.foldl_nil, h1, h2, h3, h4, h5, h6, jetCoefs, quadLoc2, normalCoord, hll_dx, hll_dy]
  cases b <;>
    simp [ofComps, comp, jet, ID, IP, IU, IV, HState.zero, lit_real, ipow] <;>
    (refine ⟨?_, ?_, ?_⟩ <;> ring)

theorem jet_side_y (i : ℤ) (b : Bool) (iq : ℕ) :
    sideState witScheme hllSettings .y b iq (jetCoefs i) = jet (prof i) := by
  obtain ⟨h1, h2, h3, h4, h5, h6⟩ := witScheme_mm
  have e2 : witScheme.d3 = false := rfl
  have e3 : QUADRATURE_NUM_POINTS witScheme.id = 1 := rfl
  unfold sideState eval2
  rw [e2, witScheme_nc, e3]
  simp only [Bool.false_eq_true, if_false, List.range, List.range.loop, List.foldl_cons,
    List.foldl_nil, h1, h2, h3, h4, h5, h6, jetCoefs, quadLoc2, normalCoord, hll_dx, hll_dy, tang2]
  simp [ofComps, comp, jet, ID, IP, IU, IV, HState.zero, lit_real, ipow]

/-- Mass flux through the lower face in direction `x` before the correction. -/
noncomputable def massX (i : ℤ) : ℝ := prof (i - 1) + slope (i - 1) / 2

theorem jet_flux_x (h : StageOk witScheme P) (hf : ∀ c, P.box false c → f c = jet (prof c.i))
    {c : Cell} (hb : P.box false c) (hr : reconRegion false P c) (hb' : P.box false (c.down .x))
    (hr' : reconRegion false P (c.down .x)) :
    (flux0 witScheme hllSettings P J (1 / 10) old f .x c).d = massX c.i := by
  unfold flux0 storedFlux
  rw [jet_polyAt h hf hb hr, jet_polyAt h hf hb' hr']
  obtain ⟨-, -, l1, l2, -, -⟩ := prof_bounds (c.i - 1)
  obtain ⟨-, -, -, -, l3, l4⟩ := prof_bounds c.i
  have ei : (c.down .x).i = c.i - 1 := rfl
  have e2 : witScheme.d3 = false := rfl
  rw [ei, meanFlux_const (q := eulerFlux false (7 / 5) ⟨prof (c.i - 1) + slope (c.i - 1) / 2, 1, 10,
    0, 0⟩)]
  · rw [e2]
    show _ * _ = _
    simp only [HState.norm, HState.swap, eulerFlux, fluxFactor, dtOver, Dir.pick, hll_dx, massX,
      Bool.false_eq_true, if_false]
    rops
    ring
  · intro iq
    have efs : faceStates witScheme hllSettings .x iq (jetCoefs (c.i - 1)) (jetCoefs c.i) =
        (jet (prof (c.i - 1) + slope (c.i - 1) / 2), jet (prof c.i - slope c.i / 2)) := by
      unfold faceStates
      simp only [jet_side_x, e2, Bool.false_eq_true, if_false, if_true, ← sub_eq_add_neg]
      rw [jet_valid l1 l2, jet_valid l3 l4]
      rfl
    rw [efs, e2]
    unfold pointFlux
    rw [jet_prim l1 l2, jet_prim l3 l4]
    show riemann_hll false hllSettings _ _ = _
    exact jet_riemann l1 l2 l3 l4

theorem jet_flux_y (h : StageOk witScheme P) (hf : ∀ c, P.box false c → f c = jet (prof c.i))
    {c : Cell} (hb : P.box false c) (hr : reconRegion false P c) (hb' : P.box false (c.down .y))
    (hr' : reconRegion false P (c.down .y)) :
    (flux0 witScheme hllSettings P J (1 / 10) old f .y c).d = 0 := by
  unfold flux0 storedFlux
  rw [jet_polyAt h hf hb hr, jet_polyAt h hf hb' hr']
  obtain ⟨l1, l2, -⟩ := prof_bounds c.i
  have ei : (c.down .y).i = c.i := rfl
  have e2 : witScheme.d3 = false := rfl
  rw [ei, meanFlux_const (q := eulerFlux false (7 / 5) ⟨prof c.i, 1, 0, 10, 0⟩)]
  · rw [e2]
    show _ * _ = _
    simp only [HState.norm, HState.swap, eulerFlux, Bool.false_eq_true, if_false]
    rops
    ring
  · intro iq
    have efs : faceStates witScheme hllSettings .y iq (jetCoefs c.i) (jetCoefs c.i) =
        (jet (prof c.i), jet (prof c.i)) := by
      unfold faceStates
      simp only [jet_side_y, e2, Bool.false_eq_true, if_false]
      rw [jet_valid l1 l2]
      rfl
    rw [efs, e2]
    unfold pointFlux
    rw [jet_prim l1 l2]
    show riemann_hll false hllSettings _ _ = _
    rw [C27_hll false hllSettings_gas, hll_gamma]
    rfl

theorem jet_low_x {c : Cell} (hf : f c = jet (prof c.i)) (hf' : f (c.down .x) = jet (prof (c.i - 1))) :
    (lowFlux false hllSettings (1 / 10) .x (f (c.down .x)) (f c)).d = prof (c.i - 1) := by
  obtain ⟨l1, l2, -⟩ := prof_bounds c.i
  obtain ⟨l3, l4, -⟩ := prof_bounds (c.i - 1)
  unfold lowFlux
  simp only [Bool.false_eq_true, if_false]
  rw [hf, hf', jet_prim l1 l2, jet_prim l3 l4]
  simp only [HState.swap]
  rw [jet_riemann l3 l4 l1 l2]
  show _ * _ = _
  simp only [eulerFlux, dtOver, Dir.pick, hll_dx]
  rops
  ring

theorem jet_low_y {c : Cell} (hf : f c = jet (prof c.i)) (hf' : f (c.down .y) = jet (prof c.i)) :
    (lowFlux false hllSettings (1 / 10) .y (f (c.down .y)) (f c)).d = 0 := by
  obtain ⟨l1, l2, -⟩ := prof_bounds c.i
  unfold lowFlux
  simp only [Bool.false_eq_true, if_false]
  rw [hf, hf', jet_prim l1 l2]
  simp only [HState.swap]
  rw [C27_hll false hllSettings_gas]
  show _ * _ = _
  simp only [eulerFlux]
  ring

end

/-! ### The run -/

/-- Memory with the witness in `U`. -/
noncomputable def jetMemory (a : Addr) : ℝ := if a.arr = aU then (jet (prof a.i)).get a.v else 0

/-- The box of the run. -/
def jetBox : Grid := exampleBox false .periodic

theorem jet_setup : MoodSetup witScheme jetBox (Sides.all .periodic) :=
  exampleBox_setup false .periodic

theorem jet_norm (ρ : ℝ) : (jet ρ).norm false = jet ρ := by simp [HState.norm, jet, lit_real]

theorem source_emod (n g c : ℤ) : source n g .periodic .periodic c % n = c % n := by
  unfold source
  split
  · simp
  · split
    · simp
    · rfl

theorem jet_fill {c : Cell} (_ : jetBox.box false c) :
    fillF false jetBox (Sides.all .periodic) (field false jetMemory aU) c = jet (prof c.i) := by
  refine state_ext (d3 := false) (ofComps_norm _ _) (jet_norm _) fun v hv => ?_
  unfold fillF
  rw [ofComps_get _ _ hv, periodic_cross, field_get _ _ _ _ hv]
  show (if aU = aU then _ else _) = _
  rw [if_pos rfl]
  have e : prof (srcCell false jetBox (Sides.all .periodic) c).i = prof c.i := by
    have h3 : (srcCell false jetBox (Sides.all .periodic) c).i % 3 = c.i % 3 :=
      source_emod 3 2 c.i
    unfold prof
    rw [h3]
  exact congrArg (fun x => (jet x).get v) e

section
variable {J : MoodJunk ℝ}

local notation "jf" => fillF false jetBox (Sides.all BC.periodic) (field false jetMemory aU)
local notation "jold" => polys false jetMemory

theorem jet_box_x {c : Cell} : jetBox.box false c ↔
    0 ≤ c.i ∧ c.i < 7 ∧ 0 ≤ c.j ∧ c.j < 6 ∧ c.k = 0 := by
  rw [box_iff]
  simp [jetBox, exampleBox]

theorem jet_inner {c : Cell} : jetBox.inner false c ↔ 2 ≤ c.j ∧ c.j < 4 ∧ 2 ≤ c.i ∧ c.i < 5 := by
  rw [inner_iff]
  simp [jetBox, exampleBox]

theorem jet_recon {c : Cell} : reconRegion false jetBox c ↔
    1 ≤ c.j ∧ c.j < 5 ∧ 1 ≤ c.i ∧ c.i < 6 := by
  unfold reconRegion
  rw [Grid.isize_eq, Grid.jsize_eq]
  simp [jetBox, exampleBox]

theorem jet_fluxes {c : Cell} (h1 : 2 ≤ c.i) (h2 : c.i ≤ 5) (h3 : 2 ≤ c.j) (h4 : c.j ≤ 4)
    (h5 : c.k = 0) :
    (flux0 witScheme hllSettings jetBox J (1 / 10) jold jf .x c).d = massX c.i ∧
    (flux0 witScheme hllSettings jetBox J (1 / 10) jold jf .y c).d = 0 := by
  have hb : jetBox.box false c := jet_box_x.2 (by omega)
  refine ⟨jet_flux_x jet_setup.stage (fun c hb => jet_fill hb) hb (jet_recon.2 (by omega)) ?_ ?_,
    jet_flux_y jet_setup.stage (fun c hb => jet_fill hb) hb (jet_recon.2 (by omega)) ?_ ?_⟩
  · rw [jet_box_x]; simp only [Cell.down]; omega
  · rw [jet_recon]; simp only [Cell.down]; omega
  · rw [jet_box_x]; simp only [Cell.down]; omega
  · rw [jet_recon]; simp only [Cell.down]; omega

theorem jet_flag {c : Cell} (h1 : 2 ≤ c.i) (h2 : c.i ≤ 5) (h3 : 2 ≤ c.j) (h4 : c.j ≤ 4)
    (h5 : c.k = 0) :
    0 < flagAt witScheme hllSettings jetBox J (1 / 10) jold jf c ↔ c.i = 2 ∧ c.j < 4 := by
  by_cases hin : jetBox.inner false c
  · have hb : jetBox.box false c := jet_box_x.2 (by omega)
    have hi := jet_inner.1 hin
    unfold flagAt
    rw [if_pos (show jetBox.inner witScheme.d3 c from hin), flagOf_real _ hllSettings_gas]
    have e := accPairs_get false (flux0 witScheme hllSettings jetBox J (1 / 10) jold jf) (jf c) c
      (v := 0) (by decide)
    rw [updCell_get _ _ _ _ (by decide)] at e
    simp only [Bool.false_eq_true, if_false, add_zero] at e
    have e' : ∀ q : HState ℝ, q.get 0 = q.d := fun _ => rfl
    simp only [e'] at e
    have fx := jet_fluxes (J := J) h1 h2 h3 h4 h5
    have fxu := jet_fluxes (J := J) (c := c.up .x) (by simp only [Cell.up]; omega)
      (by simp only [Cell.up]; omega) h3 h4 h5
    have fyu := jet_fluxes (J := J) (c := c.up .y) h1 h2 (by simp only [Cell.up]; omega)
      (by simp only [Cell.up]; omega) h5
    rw [fx.1, fx.2, fxu.1, fyu.2, jet_fill hb] at e
    have eu : (c.up .x).i = c.i + 1 := rfl
    have ed : (jet (prof c.i)).d = prof c.i := rfl
    rw [eu, ed, sub_self, add_zero] at e
    have e3 : (accFluxes witScheme.d3 (jf c) (fluxPairs witScheme.d3
        (flux0 witScheme hllSettings jetBox J (1 / 10) jold jf) c)).d =
        prof c.i + (massX c.i - massX (c.i + 1)) := by rw [jet_fill hb]; exact e
    rw [e3]
    have hc : c.i = 2 ∨ c.i = 3 ∨ c.i = 4 := by omega
    have v : massX 2 = 1 / 4 ∧ massX 3 = 27 / 4 ∧ massX 4 = 7 ∧ massX 5 = 1 / 4 := by
      refine ⟨?_, ?_, ?_, ?_⟩ <;> norm_num [massX, slope, prof]
    obtain ⟨v2, v3, v4, v5⟩ := v
    rcases hc with hc | hc | hc
    · rw [hc, show (2 : ℤ) + 1 = 3 by norm_num, v2, v3, if_pos (by norm_num [prof])]
      simp only [true_and]
      exact ⟨fun _ => by omega, fun _ => one_pos⟩
    · rw [hc, show (3 : ℤ) + 1 = 4 by norm_num, v3, v4, if_neg (by norm_num [prof])]
      simp
    · rw [hc, show (4 : ℤ) + 1 = 5 by norm_num, v4, v5, if_neg (by norm_num [prof])]
      simp
  · rw [flagAt_outer (M := witScheme) hin]
    rw [jet_inner] at hin
    simp only [lt_irrefl, false_iff]
    omega

theorem jet_final {c : Cell} (h1 : 2 ≤ c.i) (h2 : c.i ≤ 5) (h3 : 2 ≤ c.j) (h4 : c.j ≤ 4)
    (h5 : c.k = 0) :
    (finalFlux witScheme hllSettings jetBox J (1 / 10) jold jf .x c).d =
      (if c.i = 2 ∧ c.j < 4 then 1 else massX c.i) ∧
    (finalFlux witScheme hllSettings jetBox J (1 / 10) jold jf .y c).d = 0 := by
  have fl := jet_flag (J := J) h1 h2 h3 h4 h5
  have hb : jetBox.box false c := jet_box_x.2 (by omega)
  split
  · next hc =>
    have e2 : witScheme.d3 = false := rfl
    rw [finalFlux_flagged (fl.2 hc), finalFlux_flagged (fl.2 hc), e2]
    refine ⟨?_, ?_⟩
    · rw [jet_low_x (jet_fill hb) (jet_fill (by rw [jet_box_x]; simp only [Cell.down]; omega)), hc.1]
      norm_num [prof]
    · exact jet_low_y (jet_fill hb) (jet_fill (by rw [jet_box_x]; simp only [Cell.down]; omega))
  · next hc =>
    rw [finalFlux_unflagged (fun k => hc (fl.1 k)), finalFlux_unflagged (fun k => hc (fl.1 k))]
    exact jet_fluxes h1 h2 h3 h4 h5

end

variable {lay : Layout} {J : ℕ → MoodJunk ℝ} {m' : Addr → ℝ}

theorem jet_run (r : Runs (time_integration lay witScheme hllSettings jetBox J (1 / 10)
    .forward_euler 0) jetMemory m') {c : Cell} (h1 : 2 ≤ c.i) (h2 : c.i ≤ 5) (h3 : 2 ≤ c.j)
    (h4 : c.j < 4) (h5 : c.k = 0) :
    m' (c.at (aF 0 .x) ID) = (if c.i = 2 then 1 else massX c.i) := by
  obtain ⟨-, qf, -⟩ := euler_run jet_setup r
  have hb : jetBox.box false c := jet_box_x.2 (by omega)
  rw [← field_get false m' _ _ (by decide)]
  have k := qf .x c (Or.inr (by decide)) hb (by
    refine ⟨fun e => (by cases e), ?_⟩
    rw [Grid.isize_eq, Grid.jsize_eq]
    simp [jetBox, exampleBox]
    omega)
  have k2 := (jet_final (J := J 0) h1 h2 h3 h4.le h5).1
  have k3 : (c.i = 2 ∧ c.j < 4) ↔ c.i = 2 := by omega
  simp only [k3] at k2
  rw [← k2]
  exact congrArg HState.d k

/-- **C43 fails**: there is a run in which a cell is flagged, the flux through its upper face is not
the first order flux, and its density after the step is negative (with first order fluxes on all
faces it would be 1). -/
theorem C43_fails (r : Runs (time_integration lay witScheme hllSettings jetBox J (1 / 10)
    .forward_euler 0) jetMemory m') :
    let c := cell false jetBox 0 0 0
    0 < m' (c.at aFlags 0) ∧
    m' ((c.up .x).at (aF 0 .x) ID) ≠
      (lowFlux false hllSettings (1 / 10) .x (field false m' aU c) (field false m' aU (c.up .x))).d ∧
    jetMemory (c.at aU ID) = 5 ∧ m' (c.at aU2 ID) = -3 / 4 := by
  intro c
  obtain ⟨q, qf, qg⟩ := euler_run jet_setup r
  have c1 : c.i = 2 := rfl
  have c2 : c.j = 2 := rfl
  have c3 : c.k = 0 := rfl
  have hb : jetBox.box false c := jet_box_x.2 (by omega)
  have hin : jetBox.inner false c := jet_inner.2 (by omega)
  have hbu : jetBox.box false (c.up .x) := jet_box_x.2 (by simp only [Cell.up]; omega)
  have v3 : massX 3 = 27 / 4 := by norm_num [massX, slope, prof]
  have up : m' ((c.up .x).at (aF 0 .x) ID) = 27 / 4 := by
    rw [jet_run r (c := c.up .x) (by simp only [Cell.up]; omega) (by simp only [Cell.up]; omega)
      (by simp only [Cell.up]; omega) (by simp only [Cell.up]; omega) c3]
    have : (c.up .x).i = 3 := rfl
    rw [this, v3, if_neg (by norm_num)]
  refine ⟨?_, ?_, ?_, ?_⟩
  · have k := qg c hb
    rw [k]
    exact (jet_flag (by omega) (by omega) (by omega) (by omega) c3).2 ⟨c1, by omega⟩
  · rw [up]
    have e1 := q.input c hb
    have e2 := q.input (c.up .x) hbu
    have k := jet_low_x (c := c.up .x) (f := field false m' aU) (e2.trans (jet_fill hbu))
      (e1.trans (jet_fill hb))
    have k' : (lowFlux false hllSettings (1 / 10) .x (field false m' aU c)
        (field false m' aU (c.up .x))).d = prof 2 := k
    rw [k']
    norm_num [prof]
  · show (if aU = aU then _ else _) = _
    rw [if_pos rfl]
    show prof 2 = 5
    norm_num [prof]
  · rw [← field_get false m' _ _ (by decide)]
    have k := q.out c hb hin
    have k1 := congrArg (fun s => s.get 0) k
    have k2 := eulerAt_get (M := witScheme) (S := hllSettings) (P := jetBox)
      (B := Sides.all .periodic) (J := J 0) (dt := 1 / 10) (old := polys witScheme.d3 jetMemory)
      (f := field witScheme.d3 jetMemory (bufIn 0)) hin (v := 0) (by decide)
    have k3 := k1.trans k2
    have e2 : witScheme.d3 = false := rfl
    have e' : ∀ q : HState ℝ, q.get 0 = q.d := fun _ => rfl
    have ei : bufIn 0 = aU := rfl
    rw [e2, ei] at k3
    simp only [Bool.false_eq_true, if_false, add_zero, e'] at k3
    have fx := jet_final (J := J 0) (c := c) (by omega) (by omega) (by omega) (by omega) c3
    have fxu := jet_final (J := J 0) (c := c.up .x) (by simp only [Cell.up]; omega)
      (by simp only [Cell.up]; omega) (by simp only [Cell.up]; omega) (by simp only [Cell.up]; omega)
      c3
    have fyu := jet_final (J := J 0) (c := c.up .y) (by simp only [Cell.up]; omega)
      (by simp only [Cell.up]; omega) (by simp only [Cell.up]; omega) (by simp only [Cell.up]; omega)
      c3
    have eu : (c.up .x).i = 3 := rfl
    rw [fx.1, fx.2, fxu.1, fyu.2, if_pos (show c.i = 2 ∧ c.j < 4 by omega),
      if_neg (show ¬ ((c.up .x).i = 2 ∧ (c.up .x).j < 4) by omega), eu, v3] at k3
    have e5 : (field false jetMemory aU c).d = 5 := by
      show (if aU = aU then (jet (prof c.i)).get 0 else 0) = 5
      rw [if_pos rfl]
      show prof 2 = 5
      norm_num [prof]
    rw [e5] at k3
    have k4 : (field false m' aU2 c).get ID = 5 + (1 - 27 / 4) + (0 - 0) := k3
    rw [k4]
    norm_num

/-- **C75 fails in 2D when a cell next to a lower side is flagged**: in this run the total mass of a
periodic domain grows. -/
theorem C75_fails_flagged (r : Runs (time_integration lay witScheme hllSettings jetBox J (1 / 10)
    .forward_euler 0) jetMemory m') :
    total false jetBox m' aU2 ID = total false jetBox jetMemory aU ID + 3 / 2 := by
  have k := C75_balance jet_setup r (v := ID) (by decide)
  have k' : total false jetBox m' aU2 ID = total false jetBox jetMemory aU ID +
      netInflow false jetBox (fun c => m' (c.at (aF 0 .x) ID)) (fun c => m' (c.at (aF 0 .y) ID))
        (fun c => m' (c.at (aF 0 .z) ID)) := k
  rw [k']
  congr 1
  obtain ⟨-, qf, -⟩ := euler_run jet_setup r
  have fy : ∀ i j : ℕ, i < 3 → j ≤ 2 → m' ((cell false jetBox i j 0).at (aF 0 .y) ID) = 0 := by
    intro i j hi hj
    have b1 : (cell false jetBox i j 0).i = 2 + i := rfl
    have b2 : (cell false jetBox i j 0).j = 2 + j := rfl
    have b3 : (cell false jetBox i j 0).k = 0 := rfl
    have hb : jetBox.box false (cell false jetBox i j 0) := jet_box_x.2 (by omega)
    have k := qf .y _ (Or.inr (by decide)) hb (by
      refine ⟨fun e => (by cases e), ?_⟩
      rw [Grid.isize_eq, Grid.jsize_eq, b1, b2]
      simp [jetBox, exampleBox]
      omega)
    rw [← field_get false m' _ _ (by decide)]
    exact (congrArg HState.d k).trans
      (jet_final (J := J 0) (by omega) (by omega) (by omega) (by omega) b3).2
  have fx : ∀ i j : ℕ, i ≤ 3 → j < 2 → m' ((cell false jetBox i j 0).at (aF 0 .x) ID) =
      if i = 0 then 1 else massX (2 + i) := by
    intro i j hi hj
    have b1 : (cell false jetBox i j 0).i = 2 + i := rfl
    have b2 : (cell false jetBox i j 0).j = 2 + j := rfl
    rw [jet_run r (by omega) (by omega) (by omega) (by omega) rfl, b1]
    by_cases h : i = 0
    · rw [if_pos h, if_pos (by omega)]
    · rw [if_neg h, if_neg (by omega)]
  have n1 : jetBox.nx.toNat = 3 := rfl
  have n2 : jetBox.ny.toNat = 2 := rfl
  have n3 : depth false jetBox = 1 := rfl
  unfold netInflow
  rw [n1, n2, n3]
  have v5 : massX 5 = 1 / 4 := by norm_num [massX, slope, prof]
  simp only [sum_range_succ, sum_range_zero, zero_add, Bool.false_eq_true, if_false]
  rw [fx 0 0 (by norm_num) (by norm_num), fx 0 1 (by norm_num) (by norm_num),
    fx 3 0 (by norm_num) (by norm_num), fx 3 1 (by norm_num) (by norm_num),
    fy 0 0 (by norm_num) (by norm_num), fy 1 0 (by norm_num) (by norm_num),
    fy 2 0 (by norm_num) (by norm_num), fy 0 2 (by norm_num) (by norm_num),
    fy 1 2 (by norm_num) (by norm_num), fy 2 2 (by norm_num) (by norm_num)]
  norm_num
  rw [v5]
  norm_num

/-- Such a run exists. -/
theorem jet_run_exists (lay : Layout) (J : ℕ → MoodJunk ℝ) : ∃ m', Runs (time_integration lay
    witScheme hllSettings jetBox J (1 / 10) .forward_euler 0) jetMemory m' := by
  obtain ⟨m', y⟩ := C73_mood_step (S := hllSettings) jet_setup real_zero_lt lay J (1 / 10)
    .forward_euler 0 jetMemory
  exact ⟨m', y.run⟩

/-- The hypotheses of `C43_lower_faces` can be met with a flagged cell. -/
example (J : ℕ → MoodJunk ℝ) : ∃ m', Runs (time_integration .left
    witScheme hllSettings jetBox J (1 / 10) .forward_euler 0) jetMemory m' ∧
    0 < m' ((cell witScheme.d3 jetBox 0 0 0).at aFlags 0) := by
  obtain ⟨m', r⟩ := jet_run_exists .left J
  exact ⟨m', r, (C43_fails r).1⟩

end Verif.Mood
