import Verif.Lemmas.CheckedApprox

/-!
# C27–C29, C54–C56: the hydro Riemann solvers

`Spec.eulerFlux` is the flux of the Euler equations, `Spec.CReal` arithmetic in which a division by
zero or the square root of a negative number is recorded as undefined.  `d3` says whether the
states are 3D.
-/

namespace Verif

open Spec

variable {S : Settings ℝ}

/-- A concrete parameter set (used by the examples). -/
noncomputable def exampleSettings : Settings ℝ :=
  { gamma0 := 7 / 5, gamma6 := 6 / 7, smallr := 1 / 10 ^ 8, smallc := 1 / 10 ^ 8, smallp := 1 / 10 ^ 6,
    smallpp := 1 / 10 ^ 8 * (1 / 10 ^ 6), slope_type := 1, cfl := 1 / 2, dx := 1, dy := 1, dz := 1,
    riemann := .approx }

theorem exampleSettings_gas : GasParams exampleSettings := by
  constructor <;> norm_num [exampleSettings]

theorem exampleSettings_derived : DerivedParams exampleSettings := by
  constructor <;> norm_num [exampleSettings]

theorem exampleSettings_above {d p u v w : ℝ} (hd : 1 / 10 ^ 8 ≤ d) (hp : d * (1 / 10 ^ 6) ≤ p) :
    AboveFloors exampleSettings ⟨d, p, u, v, w⟩ := ⟨hd, hp⟩

/-! ### C27 consistency -/

/-- **C27, LLF**: identical states give the Euler flux (for every state). -/
theorem C27_llf (d3 : Bool) (hS : GasParams S) (q : HState ℝ) :
    riemann_llf d3 S q q = eulerFlux d3 S.gamma0 q := riemann_llf_consistent d3 hS.gamma q

/-- **C27, HLL** (for every state). -/
theorem C27_hll (d3 : Bool) (hS : GasParams S) (q : HState ℝ) :
    riemann_hll d3 S q q = eulerFlux d3 S.gamma0 q := riemann_hll_consistent d3 hS q

/-- **C27, HLLC**. -/
theorem C27_hllc (d3 : Bool) (hS : GasParams S) (q : HState ℝ) (hq : AboveFloors S q) :
    riemann_hllc d3 S q q = eulerFlux d3 S.gamma0 q := riemann_hllc_consistent d3 hS hq

/-- **C27, approximate (Newton) solver**. -/
theorem C27_approx (d3 : Bool) (hS : GasParams S) (q : HState ℝ) (hq : AboveFloors S q) :
    riemann_approx d3 S q q = eulerFlux d3 S.gamma0 q := riemann_approx_consistent d3 hS hq

/-- **C27**: whatever solver is selected, if it computes a flux then for identical states this is
the Euler flux. -/
theorem C27_dispatch (d3 : Bool) (hS : GasParams S) (q f : HState ℝ) (hq : AboveFloors S q)
    (hf : riemann_hydro d3 S q q = some f) : f = eulerFlux d3 S.gamma0 q := by
  have h1 := C27_llf d3 hS q
  have h2 := C27_hll d3 hS q
  have h3 := C27_hllc d3 hS q hq
  have h4 := C27_approx d3 hS q hq
  unfold riemann_hydro at hf
  cases d3 <;> simp only [if_true, if_false, Bool.false_eq_true] at hf <;> split at hf <;>
    simp_all

/-- The hypotheses hold for a supersonic state with transverse motion. -/
example : GasParams exampleSettings ∧ AboveFloors exampleSettings ⟨1, 1, 3, -1, 2⟩ ∧
    riemann_hydro true exampleSettings ⟨1, 1, 3, -1, 2⟩ ⟨1, 1, 3, -1, 2⟩ =
      some (eulerFlux true (7 / 5) ⟨1, 1, 3, -1, 2⟩) ∧
    (eulerFlux true (7 / 5) ⟨1, 1, 3, -1, 2⟩).u = 10 := by
  have ha : AboveFloors exampleSettings ⟨1, 1, 3, -1, 2⟩ :=
    exampleSettings_above (by norm_num) (by norm_num)
  refine ⟨exampleSettings_gas, ha, ?_, ?_⟩
  · show some (riemann_approx true exampleSettings _ _) = _
    rw [C27_approx true exampleSettings_gas _ ha]; rfl
  · norm_num [eulerFlux]

/-! ### C28 mirror symmetry -/

/-- **C28, LLF**: for all states. -/
theorem C28_llf (d3 : Bool) (hS : GasParams S) (ql qr : HState ℝ) :
    riemann_llf d3 S (mirror qr) (mirror ql) = mirrorFlux (riemann_llf d3 S ql qr) :=
  riemann_llf_mirror d3 hS.gamma ql qr

/-- **C28, HLL**: for all states. -/
theorem C28_hll (d3 : Bool) (hS : GasParams S) (ql qr : HState ℝ) :
    riemann_hll d3 S (mirror qr) (mirror ql) = mirrorFlux (riemann_hll d3 S ql qr) :=
  riemann_hll_mirror d3 hS ql qr

/-- **C28, HLLC**: for all states, although the solver branches on the sign of three wave speeds. -/
theorem C28_hllc (d3 : Bool) (hS : GasParams S) (ql qr : HState ℝ) :
    riemann_hllc d3 S (mirror qr) (mirror ql) = mirrorFlux (riemann_hllc d3 S ql qr) :=
  riemann_hllc_mirror d3 hS ql qr

/-- **C28, approximate solver**: for all states for which the contact wave found by the Newton
iteration is not exactly at rest. -/
theorem C28_approx (d3 : Bool) (hS : GasParams S) (ql qr : HState ℝ)
    (hne : (approxStar S (max ql.d S.smallr) ql.u (max ql.p (max ql.d S.smallr * S.smallp))
      (max qr.d S.smallr) qr.u (max qr.p (max qr.d S.smallr * S.smallp))).2.1 ≠ 0) :
    riemann_approx d3 S (mirror qr) (mirror ql) = mirrorFlux (riemann_approx d3 S ql qr) :=
  riemann_approx_mirror d3 hS.gamma ql qr hne

/-- The hypothesis of `C28_approx` holds e.g. for identical moving states. -/
example : (approxStar exampleSettings (max 1 exampleSettings.smallr) 3
      (max 1 (max 1 exampleSettings.smallr * exampleSettings.smallp))
      (max 1 exampleSettings.smallr) 3
      (max 1 (max 1 exampleSettings.smallr * exampleSettings.smallp))).2.1 ≠ 0 := by
  have e1 : max 1 exampleSettings.smallr = 1 := by norm_num [exampleSettings]
  have e2 : max 1 (1 * exampleSettings.smallp) = 1 := by norm_num [exampleSettings]
  rw [e1, e2, approxStar_same exampleSettings_gas one_pos one_pos]
  norm_num

/-- Mirroring is not trivial: it changes states and fluxes. -/
example : mirror ⟨1, 1, 3, -1, 2⟩ = ⟨1, 1, -3, -1, 2⟩ ∧
    mirrorFlux ⟨1, 2, 3, 4, 5⟩ = ⟨-1, -2, 3, -4, -5⟩ := ⟨rfl, rfl⟩

/-- Reflecting wall: between a state and its mirror image no mass, energy or transverse momentum
flows (HLLC and LLF and HLL). -/
theorem C28_wall (d3 : Bool) (hS : GasParams S) (q : HState ℝ) (f : HState ℝ)
    (hf : f = riemann_hllc d3 S q (mirror q) ∨ f = riemann_hll d3 S q (mirror q) ∨
      f = riemann_llf d3 S q (mirror q)) : f.d = 0 ∧ f.p = 0 ∧ f.v = 0 ∧ f.w = 0 := by
  have key : ∀ g : HState ℝ, g = mirrorFlux g → g.d = 0 ∧ g.p = 0 ∧ g.v = 0 ∧ g.w = 0 := by
    intro g hg
    have h1 := congrArg HState.d hg
    have h2 := congrArg HState.p hg
    have h3 := congrArg HState.v hg
    have h4 := congrArg HState.w hg
    simp only [mirrorFlux] at h1 h2 h3 h4
    refine ⟨?_, ?_, ?_, ?_⟩ <;> linarith
  rcases hf with rfl | rfl | rfl <;> apply key
  · rw [← C28_hllc d3 hS, mirror_mirror]
  · rw [← C28_hll d3 hS, mirror_mirror]
  · rw [← C28_llf d3 hS, mirror_mirror]

/-! ### C29 solver selection (hydro) -/

/-- **C29, 2D hydro**: a flux is computed exactly for the solvers approx, llf, hll, hllc. -/
theorem C29_hydro2d {α : Type} [ROps α] (S : Settings α) (ql qr : HState α) :
    (riemann_hydro false S ql qr).isSome ↔ S.riemann ≠ .hlld := by
  unfold riemann_hydro
  cases h : S.riemann <;> simp

/-- **C29, 3D hydro**: a flux is computed exactly for the solvers approx, llf, hllc. -/
theorem C29_hydro3d {α : Type} [ROps α] (S : Settings α) (ql qr : HState α) :
    (riemann_hydro true S ql qr).isSome ↔ S.riemann ≠ .hlld ∧ S.riemann ≠ .hll := by
  unfold riemann_hydro
  cases h : S.riemann <;> simp

/-- **C29 fails for HLL in 3D and HLLD in 2D and 3D**: the flux stays unassigned for every state. -/
theorem C29_unassigned {α : Type} [ROps α] (S : Settings α) (ql qr : HState α) :
    (S.riemann = .hll → riemann_hydro true S ql qr = none) ∧
    (S.riemann = .hlld → ∀ d3, riemann_hydro d3 S ql qr = none) := by
  unfold riemann_hydro
  exact ⟨fun h => by simp [h], fun h d3 => by simp [h]⟩

/-- In each case the flux computed is that of the solver selected. -/
theorem C29_selects {α : Type} [ROps α] (d3 : Bool) (S : Settings α) (ql qr f : HState α)
    (h : riemann_hydro d3 S ql qr = some f) :
    (S.riemann = .approx → f = riemann_approx d3 S ql qr) ∧
    (S.riemann = .llf → f = riemann_llf d3 S ql qr) ∧
    (S.riemann = .hll → f = riemann_hll d3 S ql qr) ∧
    (S.riemann = .hllc → f = riemann_hllc d3 S ql qr) := by
  unfold riemann_hydro at h
  cases d3 <;> simp only [if_true, if_false, Bool.false_eq_true] at h <;> split at h <;> simp_all

/-! ### C54 no undefined operation -/

/-- **C54, LLF**: run in checked arithmetic the solver returns a defined flux, for every pair of states
(negative density or pressure included). -/
theorem C54_llf (d3 : Bool) (hS : GasParams S) (ql qr : HState ℝ) :
    riemann_llf d3 (okSettings S) (okState ql) (okState qr) = okState (riemann_llf d3 S ql qr) :=
  ck_llf d3 hS ql qr

/-- **C54, HLL**. -/
theorem C54_hll (d3 : Bool) (hS : GasParams S) (ql qr : HState ℝ) :
    riemann_hll d3 (okSettings S) (okState ql) (okState qr) = okState (riemann_hll d3 S ql qr) :=
  ck_hll d3 hS ql qr

/-- **C54, HLLC**. -/
theorem C54_hllc (d3 : Bool) (hS : GasParams S) (ql qr : HState ℝ) :
    riemann_hllc d3 (okSettings S) (okState ql) (okState qr) = okState (riemann_hllc d3 S ql qr) :=
  ck_hllc d3 hS ql qr

/-- **C54, approximate solver**, with the derived constants as `HydroParams::init` sets them; the
pressure stays non-negative in all Newton iterations. -/
theorem C54_approx (d3 : Bool) (hS : GasParams S) (hD : DerivedParams S) (ql qr : HState ℝ) :
    riemann_approx d3 (okSettings S) (okState ql) (okState qr) =
      okState (riemann_approx d3 S ql qr) :=
  ck_approx d3 hS hD ql qr

/-- **C54, HLLC waves**: the contact lies strictly between the outer waves and both densities in
the star region are positive. -/
theorem C54_hllc_waves (hS : GasParams S) (ql qr : HState ℝ) :
    let rl := max ql.d S.smallr
    let rr := max qr.d S.smallr
    let st := hllcStar S rl ql.u (max ql.p (rl * S.smallp)) rr qr.u (max qr.p (rr * S.smallp))
    st.SL < st.ustar ∧ st.ustar < st.SR ∧
    0 < rl * (st.SL - ql.u) / (st.SL - st.ustar) ∧ 0 < rr * (st.SR - qr.u) / (st.SR - st.ustar) := by
  intro rl rr st
  obtain ⟨h1, h2⟩ := hllc_order hS ql qr
  obtain ⟨h3, h4⟩ := hrc_pos hS ql qr
  refine ⟨h1, h2, ?_, ?_⟩
  · have h3' : flr S ql * (hSL S ql qr - ql.u) < 0 := by unfold hrcl at h3; linarith
    exact div_pos_of_neg_of_neg h3' (by show hSL S ql qr - hus S ql qr < 0; linarith)
  · exact div_pos h4 (by show 0 < hSR S ql qr - hus S ql qr; linarith)

/-- The premises of C54 hold for a concrete parameter set; with a zero floor the computation is
really undefined (so the statement is not automatic): LLF at zero density. -/
example : GasParams exampleSettings ∧ DerivedParams exampleSettings :=
  ⟨exampleSettings_gas, exampleSettings_derived⟩

example : (riemann_llf false (okSettings { exampleSettings with smallr := 0 })
    (okState ⟨0, 1, 0, 0, 0⟩) (okState ⟨1, 1, 0, 0, 0⟩)).d = CReal.undef := by
  have h : ROps.fmax (okState ⟨0, 1, 0, 0, 0⟩).d
      (okSettings { exampleSettings with smallr := 0 }).smallr = CReal.ok 0 := by
    show CReal.ok (max 0 0) = _
    rw [max_self]
  have hdiv : ∀ x : CReal, x / CReal.ok 0 = CReal.undef := by
    intro x
    cases x with
    | none => rfl
    | some y => show (if (0 : ℝ) = 0 then none else _) = _; rw [if_pos rfl]; rfl
  have hs : ROps.sqrt CReal.undef = CReal.undef := rfl
  have hn1 : ∀ x : CReal, x + CReal.undef = CReal.undef := by intro x; cases x <;> rfl
  have hn2 : ∀ x : CReal, ROps.fmax CReal.undef x = CReal.undef := by intro x; cases x <;> rfl
  have hn3 : ∀ x : CReal, CReal.undef * x = CReal.undef := by intro x; cases x <;> rfl
  have hn4 : ∀ x : CReal, x - CReal.undef = CReal.undef := by intro x; cases x <;> rfl
  have hn5 : ∀ x : CReal, x * CReal.undef = CReal.undef := by intro x; cases x <;> rfl
  unfold riemann_llf
  simp only [h, hdiv, hs, hn1, hn2, hn3, hn4, hn5]

/-! ### C55 upwinding -/

/-- **C55, HLL**: if both states move to the right at least as fast as the larger sound speed, the
flux is the Euler flux of the left state. -/
theorem C55_hll (d3 : Bool) (hS : GasParams S) (ql qr : HState ℝ) (hl : AboveFloors S ql)
    (hr : AboveFloors S qr)
    (h : max (soundSpeed S.gamma0 ql) (soundSpeed S.gamma0 qr) ≤ min ql.u qr.u) :
    riemann_hll d3 S ql qr = eulerFlux d3 S.gamma0 ql ∧
    riemann_hll d3 S (mirror qr) (mirror ql) = eulerFlux d3 S.gamma0 (mirror ql) := by
  have := riemann_hll_upwind d3 hS hl hr h
  exact ⟨this, by rw [C28_hll d3 hS, this, eulerFlux_mirror]⟩

/-- **C55, HLLC**: the same, with the sound speeds floored by `smallc`. -/
theorem C55_hllc (d3 : Bool) (hS : GasParams S) (ql qr : HState ℝ) (hl : AboveFloors S ql)
    (hr : AboveFloors S qr)
    (h : max (max (soundSpeed S.gamma0 ql) S.smallc) (max (soundSpeed S.gamma0 qr) S.smallc)
      ≤ min ql.u qr.u) :
    riemann_hllc d3 S ql qr = eulerFlux d3 S.gamma0 ql ∧
    riemann_hllc d3 S (mirror qr) (mirror ql) = eulerFlux d3 S.gamma0 (mirror ql) := by
  have := riemann_hllc_upwind d3 hS hl hr h
  exact ⟨this, by rw [C28_hllc d3 hS, this, eulerFlux_mirror]⟩

/-- The premises hold for two different supersonic states. -/
example : AboveFloors exampleSettings ⟨1, 1, 3, 0, 0⟩ ∧ AboveFloors exampleSettings ⟨2, 1, 4, 0, 0⟩ ∧
    max (max (soundSpeed exampleSettings.gamma0 ⟨1, 1, 3, 0, 0⟩) exampleSettings.smallc)
      (max (soundSpeed exampleSettings.gamma0 ⟨2, 1, 4, 0, 0⟩) exampleSettings.smallc) ≤ min 3 4 := by
  refine ⟨exampleSettings_above (by norm_num) (by norm_num),
    exampleSettings_above (by norm_num) (by norm_num), ?_⟩
  have h1 : soundSpeed exampleSettings.gamma0 ⟨1, 1, 3, 0, 0⟩ ≤ 3 := by
    unfold soundSpeed exampleSettings
    rw [Real.sqrt_le_left (by norm_num)]; norm_num
  have h2 : soundSpeed exampleSettings.gamma0 ⟨2, 1, 4, 0, 0⟩ ≤ 3 := by
    unfold soundSpeed exampleSettings
    rw [Real.sqrt_le_left (by norm_num)]; norm_num
  have h3 : exampleSettings.smallc ≤ 3 := by norm_num [exampleSettings]
  rw [min_eq_left (by norm_num)]
  exact max_le (max_le h1 h3) (max_le h2 h3)

/-! ### C56 contacts -/

/-- **C56**: an isolated contact discontinuity (equal velocity and pressure, any densities and
transverse velocities) moving with speed `u` gets the exact flux of the upwind side from HLLC, and only
the pressure if it is at rest. -/
theorem C56_hllc_contact (d3 : Bool) (hS : GasParams S) (ql qr : HState ℝ) (hl : AboveFloors S ql)
    (hr : AboveFloors S qr) (hu : ql.u = qr.u) (hp : ql.p = qr.p) :
    (0 < ql.u → riemann_hllc d3 S ql qr = eulerFlux d3 S.gamma0 ql) ∧
    (ql.u < 0 → riemann_hllc d3 S ql qr = eulerFlux d3 S.gamma0 qr) ∧
    (ql.u = 0 → riemann_hllc d3 S ql qr = { d := 0, p := 0, u := ql.p, v := 0, w := 0 }) :=
  ⟨riemann_hllc_contact_pos d3 hS hl hr hu hp, riemann_hllc_contact_neg d3 hS hl hr hu hp,
    riemann_hllc_contact_zero d3 hS hl hr hu hp⟩

example : AboveFloors exampleSettings ⟨1, 1, 0, 5, 0⟩ ∧ AboveFloors exampleSettings ⟨8, 1, 0, -5, 0⟩ :=
  ⟨exampleSettings_above (by norm_num) (by norm_num), exampleSettings_above (by norm_num) (by norm_num)⟩

/-- LLF does not have this property: it diffuses a contact at rest. -/
theorem C56_llf_diffuses : ∃ ql qr : HState ℝ, AboveFloors exampleSettings ql ∧
    AboveFloors exampleSettings qr ∧ ql.u = 0 ∧ qr.u = 0 ∧ ql.p = qr.p ∧
    (riemann_llf false exampleSettings ql qr).d ≠ 0 := by
  refine ⟨⟨1, 1, 0, 0, 0⟩, ⟨2, 1, 0, 0, 0⟩, exampleSettings_above (by norm_num) (by norm_num),
    exampleSettings_above (by norm_num) (by norm_num), rfl, rfl, rfl, ?_⟩
  rw [riemann_llf_real false exampleSettings_gas.gamma]
  have h1 := cs_pos exampleSettings_gas ⟨1, 1, 0, 0, 0⟩
  have h2 := le_max_left (|(0:ℝ)| + cs exampleSettings ⟨1, 1, 0, 0, 0⟩)
    (|(0:ℝ)| + cs exampleSettings ⟨2, 1, 0, 0, 0⟩)
  rw [abs_zero] at h2
  simp only [comb4, eulerFlux, conserved, abs_zero]
  intro h
  linarith

end Verif
