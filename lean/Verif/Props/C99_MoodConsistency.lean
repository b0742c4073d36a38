import Verif.Props.C43_C75_MoodWitness
import Verif.Props.C30_C33_Cell
import Verif.Spec.Waves
import Verif.Spec.Hancock

/-!
**C99**: the fluxes the MOOD scheme stores are consistent with the Euler equations in every direction,
both the high order ones and those recomputed for flagged cells.

`m'` after a forward Euler step holds the states used (with filled ghost cells) in `bufIn it`, the fluxes
through the lower faces in `aF 0 d` and the flags in `aFlags`.
-/

namespace Verif.Mood

open Verif Spec ROps

variable {M : Scheme ℝ} {S : Settings ℝ} {P : Grid} {B : Sides}
  {lay : Layout} {J : ℕ → MoodJunk ℝ} {dt : ℝ} {it : Nat} {m m' : Addr → ℝ}

/-! ### Helpers -/

/-- Cell size along a direction. -/
def cellSize (S : Settings ℝ) : Dir → ℝ
  | .x => S.dx
  | .y => S.dy
  | .z => S.dz

theorem swapped_flux (d3 : Bool) (γ : ℝ) {d : Dir} (hd : d.ok d3) (q : HState ℝ) :
    (eulerFlux d3 γ (q.swap d)).swap d = fluxAlong d3 γ d q := by
  cases d3
  · cases d
    · ext <;> simp only [eulerFlux, fluxAlong, HState.swap, Dir.pick, energy, if_true, if_false,
        Bool.false_eq_true, reduceCtorEq] <;> ring
    · ext <;> simp only [eulerFlux, fluxAlong, HState.swap, Dir.pick, energy, if_true, if_false,
        Bool.false_eq_true, reduceCtorEq] <;> ring
    · simp [Dir.ok] at hd
  · cases d <;> ext <;> simp only [eulerFlux, fluxAlong, HState.swap, Dir.pick, energy, if_true, if_false,
        reduceCtorEq] <;> ring

theorem swap_above {q : HState ℝ} (hq : AboveFloors S q) (d : Dir) : AboveFloors S (q.swap d) := by
  cases d <;> exact ⟨hq.d, hq.p⟩

theorem dtOver_eq (S : Settings ℝ) (dt : ℝ) (d : Dir) : dtOver S dt d = dt / cellSize S d := by
  cases d <;> rfl

theorem lowFlux_same (hv : ValidMood M S) (hS : GasParams S) {q : HState ℝ} (hq : AboveFloors S q)
    (hw : M.d3 = false → q.w = 0) {d : Dir} (hd : d.ok M.d3) :
    lowFlux M.d3 S dt d (conserved M.d3 S.gamma0 q) (conserved M.d3 S.gamma0 q) =
      (fluxAlong M.d3 S.gamma0 d q).scale M.d3 (dt / cellSize S d) := by
  unfold lowFlux
  rw [C31_roundtrip M.d3 hS q hq hw, ← swapped_flux M.d3 S.gamma0 hd, dtOver_eq]
  have e : (if M.d3 = true then (riemann_hydro M.d3 S (q.swap d) (q.swap d)).getD HState.zero
      else riemann_hll M.d3 S (q.swap d) (q.swap d)) = eulerFlux M.d3 S.gamma0 (q.swap d) := by
    split
    · obtain ⟨f, e⟩ := riemann_some hv (q.swap d) (q.swap d)
      rw [e]
      exact C27_dispatch M.d3 hS _ _ (swap_above hq d) e
    · exact riemann_hll_consistent _ hS _
  simp only [e]

theorem lowFlux_upwind (h2 : M.d3 = false) (hS : GasParams S) {ql qr : HState ℝ}
    (hl : AboveFloors S ql) (hr : AboveFloors S qr) (hwl : ql.w = 0) (hwr : qr.w = 0) {d : Dir}
    (hd : d.ok M.d3)
    (h : max (soundSpeed S.gamma0 ql) (soundSpeed S.gamma0 qr) ≤
      min (d.pick ql.u ql.v ql.w) (d.pick qr.u qr.v qr.w)) :
    lowFlux M.d3 S dt d (conserved M.d3 S.gamma0 ql) (conserved M.d3 S.gamma0 qr) =
      (fluxAlong M.d3 S.gamma0 d ql).scale M.d3 (dt / cellSize S d) := by
  unfold lowFlux
  rw [C31_roundtrip M.d3 hS ql hl (fun _ => hwl), C31_roundtrip M.d3 hS qr hr (fun _ => hwr),
    ← swapped_flux M.d3 S.gamma0 hd, dtOver_eq]
  have hs : ∀ q : HState ℝ, soundSpeed S.gamma0 (q.swap d) = soundSpeed S.gamma0 q := by
    intro q; cases d <;> rfl
  have hu : ∀ q : HState ℝ, (q.swap d).u = d.pick q.u q.v q.w := by intro q; cases d <;> rfl
  rw [h2]
  simp only [Bool.false_eq_true, if_false]
  rw [riemann_hll_upwind false hS (swap_above hl d) (swap_above hr d)
    (by rw [hs, hs, hu, hu]; exact h)]

/-! ### Properties -/

/-- **C99, recomputed fluxes**: where a flagged cell and its lower neighbour in direction `d` hold the same
gas, the flux stored for the face between them is the physical flux in direction `d` times the time step
over the size of the cell in that direction. -/
theorem C99_flagged (h : MoodSetup M P B) (hv : ValidMood M S) (hS : GasParams S)
    (r : Runs (time_integration lay M S P J dt .forward_euler it) m m') {i j k : ℕ}
    (hi : i < P.nx.toNat) (hj : j < P.ny.toNat) (hk : k < depth M.d3 P)
    (hf : 0 < m' ((cell M.d3 P i j k).at aFlags 0)) {d : Dir} (hd : d.ok M.d3) {q : HState ℝ}
    (hq : AboveFloors S q) (hw : M.d3 = false → q.w = 0)
    (hu : ∀ c, c = cell M.d3 P i j k ∨ c = (cell M.d3 P i j k).down d →
      field M.d3 m' (bufIn it) c = conserved M.d3 S.gamma0 q) {v : ℕ} (hvar : v < P.nbvar) :
    m' ((cell M.d3 P i j k).at (aF 0 d) v) = (fluxAlong M.d3 S.gamma0 d q).get v * (dt / cellSize S d) := by
  rw [h.nv] at hvar
  rw [← field_get M.d3 m' _ _ hvar, C43_lower_faces h r hi hj hk hf hd, hu _ (Or.inl rfl),
    hu _ (Or.inr rfl), lowFlux_same hv hS hq hw hd, scale_get _ _ _ hvar]

/-- **C99, upwinding of the recomputed fluxes (2D)**: if gas flows into a flagged cell through its lower
face faster than sound on both sides, the flux stored is that of the gas below the face. -/
theorem C99_upwind (h : MoodSetup M P B) (h2 : M.d3 = false) (hS : GasParams S)
    (r : Runs (time_integration lay M S P J dt .forward_euler it) m m') {i j k : ℕ}
    (hi : i < P.nx.toNat) (hj : j < P.ny.toNat) (hk : k < depth M.d3 P)
    (hf : 0 < m' ((cell M.d3 P i j k).at aFlags 0)) {d : Dir} (hd : d.ok M.d3) {ql qr : HState ℝ}
    (hl : AboveFloors S ql) (hr : AboveFloors S qr) (hwl : ql.w = 0) (hwr : qr.w = 0)
    (hul : field M.d3 m' (bufIn it) ((cell M.d3 P i j k).down d) = conserved M.d3 S.gamma0 ql)
    (hur : field M.d3 m' (bufIn it) (cell M.d3 P i j k) = conserved M.d3 S.gamma0 qr)
    (hs : max (soundSpeed S.gamma0 ql) (soundSpeed S.gamma0 qr) ≤
      min (d.pick ql.u ql.v ql.w) (d.pick qr.u qr.v qr.w)) {v : ℕ} (hvar : v < P.nbvar) :
    m' ((cell M.d3 P i j k).at (aF 0 d) v) = (fluxAlong M.d3 S.gamma0 d ql).get v * (dt / cellSize S d) := by
  rw [h.nv] at hvar
  rw [← field_get M.d3 m' _ _ hvar, C43_lower_faces h r hi hj hk hf hd, hul, hur,
    lowFlux_upwind h2 hS hl hr hwl hwr hd hs, scale_get _ _ _ hvar]

/-- **C99, high order fluxes**: where the gas is uniform over the stencils of a cell that is not flagged
and of its lower neighbour in direction `d`, the flux stored for the face between them is the physical flux
in direction `d` times the time step over the cell size the code uses (in direction `z` that of `y`, see
C44). -/
theorem C99_smooth (h : MoodSetup M P B) (hM : M.Genuine) (hv : ValidMood M S) (hS : GasParams S)
    (r : Runs (time_integration lay M S P J dt .forward_euler it) m m') {i j k : ℕ}
    (hi : i < P.nx.toNat) (hj : j < P.ny.toNat) (hk : k < depth M.d3 P)
    (hf : m' ((cell M.d3 P i j k).at aFlags 0) = 0) (ha : AwayFromLowerSides M.d3 i j k)
    {d : Dir} (hd : d.ok M.d3) {q : HState ℝ} (hq : AboveFloors S q) (hw : M.d3 = false → q.w = 0)
    (hu : ∀ c, c = cell M.d3 P i j k ∨ c = (cell M.d3 P i j k).down d →
      ∀ o ∈ stencilOffsets M.id, field M.d3 m' (bufIn it) (shiftCell c o) = conserved M.d3 S.gamma0 q)
    {v : ℕ} (hvar : v < P.nbvar) :
    m' ((cell M.d3 P i j k).at (aF 0 d) v) =
      (fluxAlong M.d3 S.gamma0 d q).get v * (dt / usedSpacing S d) := by
  obtain ⟨g, gf, gg⟩ := euler_run h r
  have hok := h.stage
  obtain ⟨hb, hin⟩ := mood_cell_box h hi hj hk
  have hg : 1 ≤ P.ghostWidth := by have := hok.gw2; omega
  have hbd := inner_down_box hg hd hb hin
  have hr := inner_recon hin
  have hr' : reconRegion M.d3 P ((cell M.d3 P i j k).down d) := by
    cases e : M.d3
    · rw [e] at hin hd
      exact (face_recon2 rfl hd (inner_face d hin)).2
    · obtain ⟨a1, a2, a3⟩ := ha e
      refine inner_recon ?_
      rw [e] at hin hk
      rw [inner_iff] at hin ⊢
      have := hin.1 rfl
      obtain ⟨-, h2, h3, h4, h5⟩ := hin
      cases d <;> simp only [cell, Cell.down, if_true, forall_true_left] at * <;> omega
  rw [h.nv] at hvar
  rw [← field_get M.d3 m' _ _ hvar, gf d _ hd hb (inner_face d hin), finalFlux_unflagged]
  swap
  · rw [← gg _ hb, hf]; exact lt_irrefl _
  have pc : ∀ c, c = cell M.d3 P i j k ∨ c = (cell M.d3 P i j k).down d → P.box M.d3 c →
      reconRegion M.d3 P c → polyAt M P (J 0) (fillF M.d3 P B (field M.d3 m (bufIn it)))
        (polys M.d3 m) c = constCoefs M (conserved M.d3 S.gamma0 q) := by
    intro c hc hbc hrc
    have zero : shiftCell c ⟨0, 0, 0⟩ = c := by ext <;> simp [shiftCell]
    have h0 : (⟨0, 0, 0⟩ : Offset) ∈ stencilOffsets M.id := by cases M.id <;> decide
    funext n
    unfold polyAt
    by_cases hn : n < M.ncoefs
    · rw [if_pos hn, if_pos hrc]
      refine newCoef_uniform hv.id ?_ ?_ n
      · rw [← g.input _ hbc]
        have := hu c hc _ h0
        rwa [zero] at this
      · intro o ho
        rw [← g.input _ (recon_box hok hbc hrc (nonCentre_mem ho))]
        exact hu c hc o (nonCentre_mem ho)
    · rw [if_neg hn]
      have := M.ncoefs_pos
      unfold constCoefs
      rw [if_neg (by omega)]
  unfold flux0 storedFlux
  rw [pc _ (Or.inl rfl) hb hr, pc _ (Or.inr rfl) hbd hr', meanFlux_uniform hM hv hS, scale_get _ _ _ hvar,
    fluxFactor_eq]
  unfold physFlux
  rw [C31_roundtrip M.d3 hS q hq hw, swapped_flux _ _ hd]

/-! ### Examples -/

theorem jet_conserved (ρ : ℝ) : jet ρ = conserved false hllSettings.gamma0 ⟨ρ, 1, 10, 0, 0⟩ := by
  unfold jet conserved energy
  rw [hll_gamma]
  ext <;> simp <;> ring

/-- The premises of `C99_flagged` and `C99_upwind` hold in a run in which a cell is flagged: the gas does
not vary along `y`, and it flows along `x` faster than sound. -/
example (r : Runs (time_integration lay witScheme hllSettings jetBox J (1 / 10) .forward_euler 0)
    jetMemory m') :
    m' ((cell false jetBox 0 0 0).at (aF 0 .y) IV) = 1 * (1 / 10 / 1) ∧
    m' ((cell false jetBox 0 0 0).at (aF 0 .x) ID) = 1 * 10 * (1 / 10 / 1) := by
  have hf := (C43_fails r).1
  obtain ⟨g, -, -⟩ := euler_run jet_setup r
  have hb : jetBox.box false (cell false jetBox 0 0 0) := jet_box_x.2 (by decide)
  have hbx : jetBox.box false ((cell false jetBox 0 0 0).down .x) := jet_box_x.2 (by decide)
  have hby : jetBox.box false ((cell false jetBox 0 0 0).down .y) := jet_box_x.2 (by decide)
  have p5 : prof 2 = 5 := by norm_num [prof]
  have p1 : prof 1 = 1 := by norm_num [prof]
  have st : ∀ c, jetBox.box false c → field false m' (bufIn 0) c =
      conserved false hllSettings.gamma0 ⟨prof c.i, 1, 10, 0, 0⟩ := by
    intro c hc
    rw [← jet_conserved]
    exact (g.input c hc).trans (jet_fill hc)
  have hv : ValidMood witScheme hllSettings :=
    ⟨by decide, by simp [hllSettings], fun e => by cases e⟩
  constructor
  · have k := C99_flagged jet_setup hv hllSettings_gas r (i := 0) (j := 0) (k := 0) (by decide) (by decide)
      (by decide) hf (d := .y) (Or.inr (by decide)) (q := ⟨5, 1, 10, 0, 0⟩)
      (jet_above (by norm_num) (by norm_num) _ _) (fun _ => rfl) (by
        rintro c (rfl | rfl)
        · exact (st _ hb).trans (by rw [show (cell false jetBox 0 0 0).i = 2 from rfl, p5]; rfl)
        · exact (st _ hby).trans (by
            rw [show ((cell false jetBox 0 0 0).down .y).i = 2 from rfl, p5]; rfl)) (v := IV) (by decide)
    refine k.trans ?_
    simp [fluxAlong, HState.get, IV, cellSize, Dir.pick, hll_dy]
  · have s : ∀ ρ : ℝ, 1 ≤ ρ → soundSpeed hllSettings.gamma0 ⟨ρ, 1, 10, 0, 0⟩ ≤ 10 := by
      intro ρ h
      unfold soundSpeed
      rw [hll_gamma, Real.sqrt_le_iff]
      refine ⟨by norm_num, ?_⟩
      show 7 / 5 * 1 / ρ ≤ _
      rw [div_le_iff₀ (by linarith)]
      linarith
    have k := C99_upwind jet_setup rfl hllSettings_gas r (i := 0) (j := 0) (k := 0) (by decide) (by decide)
      (by decide) hf (d := .x) (Or.inr (by decide)) (ql := ⟨1, 1, 10, 0, 0⟩) (qr := ⟨5, 1, 10, 0, 0⟩)
      (jet_above (by norm_num) (by norm_num) _ _) (jet_above (by norm_num) (by norm_num) _ _) rfl rfl
      ((st _ hbx).trans (by rw [show ((cell false jetBox 0 0 0).down .x).i = 1 from rfl, p1]; rfl))
      ((st _ hb).trans (by rw [show (cell false jetBox 0 0 0).i = 2 from rfl, p5]; rfl))
      (by
        show _ ≤ min (10 : ℝ) 10
        rw [min_self]
        exact max_le (s 1 le_rfl) (s 5 (by norm_num))) (v := ID) (by decide)
    refine k.trans ?_
    simp [fluxAlong, HState.get, ID, cellSize, Dir.pick, hll_dx]

/-- The premises of `C99_smooth` hold in a run with uniform gas. -/
example (r : Runs (time_integration lay witScheme hllSettings jetBox J dt .forward_euler 0)
    (fun a => (jet 2).get a.v) m') :
    m' ((cell false jetBox 1 1 0).at (aF 0 .x) ID) = 2 * 10 * (dt / 1) := by
  obtain ⟨g, -, gg⟩ := euler_run jet_setup r
  have hv : ValidMood witScheme hllSettings :=
    ⟨by decide, by simp [hllSettings], fun e => by cases e⟩
  have hb : jetBox.box false (cell false jetBox 1 1 0) := jet_box_x.2 (by decide)
  have hf := uniform_fill (m := fun a => (jet 2).get a.v) (U := bufIn 0) jet_setup ⟨by decide, by decide⟩
    ⟨by decide, by decide⟩ (fun e => by cases e) (jet 2) (jet_norm 2) (fun i j k v _ _ _ _ => rfl)
  have k := C99_smooth jet_setup witScheme_genuine hv hllSettings_gas r (i := 1) (j := 1) (k := 0)
    (by decide) (by decide) (by decide) (by
      refine (gg _ hb).trans ?_
      exact uniform_unflagged jet_setup witScheme_genuine hv hllSettings_gas hf
        (by show (0 : ℝ) ≤ 2; norm_num) (by decide) (by decide) (by decide) (fun e => by cases e))
    (fun e => by cases e) (d := .x) (Or.inr (by decide)) (q := ⟨2, 1, 10, 0, 0⟩)
    (jet_above (by norm_num) (by norm_num) _ _) (fun _ => rfl) (by
      intro c hc o ho
      have hbc : jetBox.box false (shiftCell c o) := by
        have ho' : o ∈ stencilOffsets .d2deg1 := ho
        have : ∀ o ∈ stencilOffsets .d2deg1, -1 ≤ o.x ∧ o.x ≤ 1 ∧ -1 ≤ o.y ∧ o.y ≤ 1 ∧ o.z = 0 := by
          decide
        have hc' : 2 ≤ c.i ∧ c.i ≤ 3 ∧ c.j = 3 ∧ c.k = 0 := by rcases hc with rfl | rfl <;> decide
        have := this o ho'
        rw [jet_box_x]
        simp only [shiftCell]
        omega
      refine (g.input _ hbc).trans ((hf _ hbc).trans ?_)
      exact jet_conserved 2) (v := ID) (by decide)
  refine k.trans ?_
  simp [fluxAlong, HState.get, ID, usedSpacing, Dir.pick, hll_dx]

end Verif.Mood
