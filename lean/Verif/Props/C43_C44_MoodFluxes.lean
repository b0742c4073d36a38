import Verif.Lemmas.MoodPeriodic
import Verif.Props.C45_C73_MoodStep

/-!
# C43, C44: fluxes of the MOOD scheme

Conventions as in `C45_C73_MoodStep`; all over the real numbers.  `m'` after a forward Euler step
holds the new states in buffer `bufOut it`, the states of the input with filled ghost cells in
`bufIn it`, the fluxes through the lower faces in `aF 0 d` and the flags in `aFlags`.
-/

namespace Verif.Mood

open Verif Spec ROps

variable {M : Scheme ℝ} {S : Settings ℝ} {P : Grid} {B : Sides}
  {lay : Layout} {J : ℕ → MoodJunk ℝ} {dt : ℝ} {it : Nat} {m m' : Addr → ℝ}

/-- What an Euler step leaves in memory. -/
theorem euler_run (h : MoodSetup M P B)
    (r : Runs (time_integration lay M S P J dt .forward_euler it) m m') :
    MoodResult M P B (bufIn it) (bufOut it)
        (eulerAt M S P B (J 0) dt (polys M.d3 m) (field M.d3 m (bufIn it))) m m' ∧
      (∀ d c, d.ok M.d3 → P.box M.d3 c → faceRegion M.d3 P d c → field M.d3 m' (aF 0 d) c =
        finalFlux M S P (J 0) dt (polys M.d3 m) (fillF M.d3 P B (field M.d3 m (bufIn it))) d c) ∧
      (∀ c, P.box M.d3 c → m' (c.at aFlags 0) =
        flagAt M S P (J 0) dt (polys M.d3 m) (fillF M.d3 P B (field M.d3 m (bufIn it))) c) := by
  rw [time_integration_bufs] at r
  obtain ⟨m1, y, q⟩ := euler_yields (lay := lay) (S := S) (J := J) (dt := dt) h (bufs_it it)
    real_zero_lt m
  obtain rfl := y.unique r
  exact q

/-! ### C43 flagged cells -/

/-- **C43, lower faces**: the fluxes through the lower faces of a flagged cell are the first order
fluxes of the cell averages. -/
theorem C43_lower_faces (h : MoodSetup M P B)
    (r : Runs (time_integration lay M S P J dt .forward_euler it) m m') {i j k : ℕ}
    (hi : i < P.nx.toNat) (hj : j < P.ny.toNat) (hk : k < depth M.d3 P)
    (hf : 0 < m' ((cell M.d3 P i j k).at aFlags 0)) {d : Dir} (hd : d.ok M.d3) :
    field M.d3 m' (aF 0 d) (cell M.d3 P i j k) =
      lowFlux M.d3 S dt d (field M.d3 m' (bufIn it) ((cell M.d3 P i j k).down d))
        (field M.d3 m' (bufIn it) (cell M.d3 P i j k)) := by
  obtain ⟨q, qf, qg⟩ := euler_run h r
  obtain ⟨hb, hin⟩ := mood_cell_box h hi hj hk
  have hg : 1 ≤ P.ghostWidth := by have := h.stage.gw2; omega
  rw [qf d _ hd hb (inner_face d hin), q.input _ hb, q.input _ (inner_down_box hg hd hb hin)]
  exact finalFlux_flagged (by rw [← qg _ hb]; exact hf)

/-- **C43, decision**: with positive floors the test that sets the flags only looks at the density
after the update; the pressure test never fires, since it is applied to the state before the update
and to a pressure that is already floored. -/
theorem C43_flag_is_density (d3 : Bool) (hS : GasParams S) (u : HState ℝ)
    (F : Dir → HState ℝ × HState ℝ) :
    flagOf d3 S u F = if (accFluxes d3 u F).d < 0 then 1 else 0 := flagOf_real d3 hS u F

/-- **C43 fails, pressure**: for every state there are fluxes for which the update gives a positive
density and a negative pressure, and the cell is not flagged. -/
theorem C43_negative_pressure_passes (d3 : Bool) (hS : GasParams S) (u : HState ℝ) (hu : 0 < u.d) :
    ∃ F : Dir → HState ℝ × HState ℝ, flagOf d3 S u F = 0 ∧
      let n := accFluxes d3 u F
      0 < n.d ∧ (S.gamma0 - 1) *
        (n.p - (n.u ^ 2 + n.v ^ 2 + (if d3 then n.w ^ 2 else 0)) / (2 * n.d)) < 0 := by
  refine ⟨fun d => if d = .x then (⟨0, -(|u.p| + 1), 0, 0, 0⟩, ⟨0, 0, 0, 0, 0⟩)
    else (⟨0, 0, 0, 0, 0⟩, ⟨0, 0, 0, 0, 0⟩), ?_, ?_⟩
  · rw [flagOf_real d3 hS, if_neg]
    cases d3 <;> simp [accFluxes, zipState] <;> linarith
  · have hp : u.p - (|u.p| + 1) < 0 := by
      have := le_abs_self u.p
      linarith
    have hG := hS.gamma
    cases d3
    · simp only [accFluxes, zipState, Bool.false_eq_true, if_false, if_true, reduceCtorEq]
      rops
      norm_num
      refine ⟨hu, mul_neg_of_pos_of_neg (by linarith) ?_⟩
      have : 0 ≤ (u.u ^ 2 + u.v ^ 2) / (2 * u.d) := by positivity
      linarith
    · simp only [accFluxes, zipState, if_true, if_false, reduceCtorEq]
      rops
      norm_num
      refine ⟨hu, mul_neg_of_pos_of_neg (by linarith) ?_⟩
      have : 0 ≤ (u.u ^ 2 + u.v ^ 2 + u.w ^ 2) / (2 * u.d) := by positivity
      linarith

/-! ### C44 scaling of the fluxes -/

/-- Cells whose lower neighbours the code reconstructs: all in 2D, in 3D those that do not touch the
lower sides. -/
def AwayFromLowerSides (d3 : Bool) (i j k : ℕ) : Prop := d3 = true → 1 ≤ i ∧ 1 ≤ j ∧ 1 ≤ k

theorem uniform_fill (h : MoodSetup M P B) (hx : B.xlo ≠ .reflecting ∧ B.xhi ≠ .reflecting)
    (hy : B.ylo ≠ .reflecting ∧ B.yhi ≠ .reflecting)
    (hz : M.d3 = true → B.zlo ≠ .reflecting ∧ B.zhi ≠ .reflecting) (u : HState ℝ)
    (hn : u.norm M.d3 = u) {U : Nat}
    (hu : ∀ i j k v, i < P.nx.toNat → j < P.ny.toNat → k < depth M.d3 P → v < P.nbvar →
      m ((cell M.d3 P i j k).at U v) = u.get v) :
    ∀ c, P.box M.d3 c → fillF M.d3 P B (field M.d3 m U) c = u := by
  intro c hb
  refine fillF_uniform h hx hy hz hn (fun c hb hi => ?_) hb
  refine state_ext (field_norm ..) hn fun v hv => ?_
  obtain ⟨i, j, k, l1, l2, l3, rfl⟩ := inner_cell hb hi
  rw [field_get _ _ _ _ hv, hu i j k v l1 l2 l3 (by rw [h.nv]; exact hv)]

/-- Fluxes of a uniform state around a cell away from the lower sides. -/
theorem uniform_flux0 (h : MoodSetup M P B) (hM : M.Genuine) (hv : ValidMood M S) (hS : GasParams S)
    {J : MoodJunk ℝ} {old : ℕ → Cell → HState ℝ} {f : Cell → HState ℝ} {u : HState ℝ}
    (hf : ∀ c, P.box M.d3 c → f c = u) {i j k : ℕ}
    (hi : i < P.nx.toNat) (hj : j < P.ny.toNat) (hk : k < depth M.d3 P)
    (ha : AwayFromLowerSides M.d3 i j k) {d : Dir} (hd : d.ok M.d3) :
    flux0 M S P J dt old f d (cell M.d3 P i j k) =
        (physFlux M.d3 S d u).scale M.d3 (fluxFactor S dt d) ∧
    flux0 M S P J dt old f d ((cell M.d3 P i j k).up d) =
        (physFlux M.d3 S d u).scale M.d3 (fluxFactor S dt d) := by
  have hok := h.stage
  have hg : 1 ≤ P.ghostWidth := by have := hok.gw2; omega
  obtain ⟨hb, hin⟩ := mood_cell_box h hi hj hk
  have hud : ((cell M.d3 P i j k).up d).down d = cell M.d3 P i j k := by
    cases d <;> ext <;> simp [Cell.up, Cell.down]
  refine ⟨flux0_uniform hok hM hv hS hf hb (inner_down_box hg hd hb hin) (inner_recon hin) ?_,
    flux0_uniform hok hM hv hS hf (inner_up_box hg hd hb hin) (by rw [hud]; exact hb)
      (inner_recon_up d hin) (by rw [hud]; exact inner_recon hin)⟩
  cases e : M.d3
  · rw [e] at hin hd
    exact (face_recon2 rfl hd (inner_face d hin)).2
  · obtain ⟨a1, a2, a3⟩ := ha e
    refine inner_recon ?_
    rw [e] at hin hk
    rw [inner_iff] at hin ⊢
    have := hin.1 rfl
    obtain ⟨-, h2, h3, h4, h5⟩ := hin
    cases d <;> simp only [cell, Cell.down, if_true, forall_true_left] at * <;> omega

/-- A uniform state is not flagged away from the lower sides. -/
theorem uniform_unflagged (h : MoodSetup M P B) (hM : M.Genuine) (hv : ValidMood M S)
    (hS : GasParams S) {J : MoodJunk ℝ} {old : ℕ → Cell → HState ℝ} {f : Cell → HState ℝ}
    {u : HState ℝ} (hf : ∀ c, P.box M.d3 c → f c = u) (hu : 0 ≤ u.d) {i j k : ℕ}
    (hi : i < P.nx.toNat) (hj : j < P.ny.toNat) (hk : k < depth M.d3 P)
    (ha : AwayFromLowerSides M.d3 i j k) :
    flagAt M S P J dt old f (cell M.d3 P i j k) = 0 := by
  obtain ⟨hb, hin⟩ := mood_cell_box h hi hj hk
  unfold flagAt
  rw [if_pos hin, flagOf_real _ hS, if_neg]
  have hv0 : 0 < hydroVars M.d3 := by cases M.d3 <;> decide
  have e := accPairs_get M.d3 (flux0 M S P J dt old f) (f (cell M.d3 P i j k))
    (cell M.d3 P i j k) hv0
  rw [updCell_get _ _ _ _ hv0] at e
  have k1 := uniform_flux0 (J := J) (dt := dt) (old := old) h hM hv hS hf hi hj hk ha
    (d := .x) (Or.inr (by decide))
  have k2 := uniform_flux0 (J := J) (dt := dt) (old := old) h hM hv hS hf hi hj hk ha
    (d := .y) (Or.inr (by decide))
  rw [k1.1, k1.2, k2.1, k2.2] at e
  have k3 : (if M.d3 = true then (flux0 M S P J dt old f .z (cell M.d3 P i j k)).get 0 -
      (flux0 M S P J dt old f .z ((cell M.d3 P i j k).up .z)).get 0 else 0) = 0 := by
    split
    · next e3 =>
      have k3 := uniform_flux0 (J := J) (dt := dt) (old := old) h hM hv hS hf hi hj hk ha
        (d := .z) (Or.inl e3)
      rw [k3.1, k3.2, sub_self]
    · rfl
  rw [k3, hf _ hb] at e
  have e' : (accFluxes M.d3 (f (cell M.d3 P i j k))
      (fluxPairs M.d3 (flux0 M S P J dt old f) (cell M.d3 P i j k))).d = u.d := by
    rw [hf _ hb]
    simpa [HState.get] using e
  rw [e']
  linarith

/-- Cell size by which the fluxes in direction `d` are divided. -/
def usedSpacing (S : Settings ℝ) : Dir → ℝ
  | .x => S.dx
  | .y => S.dy
  | .z => S.dy

theorem fluxFactor_eq (S : Settings ℝ) (dt : ℝ) (d : Dir) :
    fluxFactor S dt d = dt / usedSpacing S d := by cases d <;> rfl

theorem scale_get (d3 : Bool) (q : HState ℝ) (s : ℝ) {v : ℕ} (hv : v < hydroVars d3) :
    (q.scale d3 s).get v = q.get v * s := by
  cases d3
  · have : v = 0 ∨ v = 1 ∨ v = 2 ∨ v = 3 := by simp [hydroVars] at hv; omega
    rcases this with rfl | rfl | rfl | rfl <;> rfl
  · have : v = 0 ∨ v = 1 ∨ v = 2 ∨ v = 3 ∨ v = 4 := by simp [hydroVars] at hv; omega
    rcases this with rfl | rfl | rfl | rfl | rfl <;> rfl

/-- **C44**: for a uniform gas the flux stored for a face is the physical flux times the time step
over the cell size, where the cell size is `dx`, `dy` and, in direction `z`, `dy` again. -/
theorem C44_flux_scaling (h : MoodSetup M P B) (hM : M.Genuine) (hv : ValidMood M S)
    (hS : GasParams S) (hx : B.xlo ≠ .reflecting ∧ B.xhi ≠ .reflecting)
    (hy : B.ylo ≠ .reflecting ∧ B.yhi ≠ .reflecting)
    (hz : M.d3 = true → B.zlo ≠ .reflecting ∧ B.zhi ≠ .reflecting) (u : HState ℝ)
    (hn : u.norm M.d3 = u) (hpos : 0 ≤ u.d)
    (r : Runs (time_integration lay M S P J dt .forward_euler it) m m')
    (hu : ∀ i j k v, i < P.nx.toNat → j < P.ny.toNat → k < depth M.d3 P → v < P.nbvar →
      m ((cell M.d3 P i j k).at (bufIn it) v) = u.get v) {i j k v : ℕ}
    (hi : i < P.nx.toNat) (hj : j < P.ny.toNat) (hk : k < depth M.d3 P) (hvar : v < P.nbvar)
    (ha : AwayFromLowerSides M.d3 i j k) {d : Dir} (hd : d.ok M.d3) :
    m' ((cell M.d3 P i j k).at (aF 0 d) v) =
      (physFlux M.d3 S d u).get v * (dt / usedSpacing S d) := by
  obtain ⟨q, qf, qg⟩ := euler_run h r
  obtain ⟨hb, hin⟩ := mood_cell_box h hi hj hk
  have hf := uniform_fill h hx hy hz u hn hu
  rw [h.nv] at hvar
  rw [← field_get M.d3 m' _ _ hvar, qf d _ hd hb (inner_face d hin), finalFlux_unflagged,
    (uniform_flux0 h hM hv hS hf hi hj hk ha hd).1, scale_get _ _ _ hvar, fluxFactor_eq]
  rw [uniform_unflagged h hM hv hS hf hpos hi hj hk ha]
  exact lt_irrefl _

/-- **C44 fails in 3D unless `dy = dz`**: for every uniform gas at rest with positive pressure the
momentum flux stored for faces in direction `z` is not pressure times `dt/dz`. -/
theorem C44_fails_3D (h : MoodSetup M P B) (hM : M.Genuine) (hv : ValidMood M S)
    (hS : GasParams S) (h3 : M.d3 = true) (hx : B.xlo ≠ .reflecting ∧ B.xhi ≠ .reflecting)
    (hy : B.ylo ≠ .reflecting ∧ B.yhi ≠ .reflecting)
    (hz : B.zlo ≠ .reflecting ∧ B.zhi ≠ .reflecting) (hdt : dt ≠ 0) (hyz : S.dy ≠ S.dz)
    (ρ p : ℝ) (hρ : S.smallr ≤ ρ) (hp : ρ * S.smallp ≤ p)
    (r : Runs (time_integration lay M S P J dt .forward_euler it) m m')
    (hu : ∀ i j k v, i < P.nx.toNat → j < P.ny.toNat → k < depth M.d3 P → v < P.nbvar →
      m ((cell M.d3 P i j k).at (bufIn it) v) =
        (⟨ρ, p / (S.gamma0 - 1), 0, 0, 0⟩ : HState ℝ).get v) {i j k : ℕ}
    (hi : i < P.nx.toNat) (hj : j < P.ny.toNat) (hk : k < depth M.d3 P)
    (ha : 1 ≤ i ∧ 1 ≤ j ∧ 1 ≤ k) :
    m' ((cell M.d3 P i j k).at (aF 0 .z) IW) = p * (dt / S.dy) ∧
    m' ((cell M.d3 P i j k).at (aF 0 .z) IW) ≠ p * (dt / S.dz) := by
  have hr := hS.smallr
  have hpos : 0 < ρ := lt_of_lt_of_le hr hρ
  have hpp : 0 < p := lt_of_lt_of_le (mul_pos hpos hS.smallp) hp
  have hG := hS.gamma
  have e := C44_flux_scaling h hM hv hS hx hy (fun _ => hz) ⟨ρ, p / (S.gamma0 - 1), 0, 0, 0⟩
    (by rw [h3]; rfl) hpos.le r hu hi hj hk (v := IW) (by rw [h.nv, h3]; decide) (fun _ => ha)
    (d := .z) (Or.inl h3)
  have ep : (physFlux M.d3 S .z ⟨ρ, p / (S.gamma0 - 1), 0, 0, 0⟩).get IW = p := by
    rw [h3]
    simp only [physFlux, HState.swap, eulerFlux, computePrimitives, HState.get, IW, if_true]
    rops
    have e1 : max ρ S.smallr = ρ := max_eq_left hρ
    rw [e1]
    have e2 : (S.gamma0 - 1) * ρ * (p / (S.gamma0 - 1) / ρ -
        1 / 2 * (0 / ρ * (0 / ρ) + 0 / ρ * (0 / ρ) + 0 / ρ * (0 / ρ))) = p := by
      have : S.gamma0 - 1 ≠ 0 := by linarith
      field_simp
      ring
    rw [e2, max_eq_left hp]
    ring
  rw [ep] at e
  refine ⟨e, ?_⟩
  rw [e]
  intro e'
  have h1 : dt / S.dy = dt / S.dz := mul_left_cancel₀ hpp.ne' e'
  exact hyz (by
    have h2 := congrArg (fun x => x / dt) h1
    simp only [div_div_cancel_left' hdt, div_right_comm] at h2
    simpa using h2)

end Verif.Mood
