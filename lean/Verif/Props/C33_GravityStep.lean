import Verif.Props.C22_C26_HydroStep
import Verif.Props.C30_C33_Cell

/-!
# C33: a step with gravity, cell by cell

The state a step leaves in an interior cell, compared with the flux balance of the cell.
-/

namespace Verif

open Spec ROps

/-- Old content of variable `v` of cell `c` plus what came in through the lower faces minus what left
through the upper faces (flux arrays of implementation 0 as the step left them). -/
def Spec.fluxBalance (d3 : Bool) (old flux : Addr → ℝ) (U : Nat) (c : Cell) (v : Nat) : ℝ :=
  old (c.at U v) +
    (flux (c.at (aF 0 .x) v) - flux ((⟨c.i + 1, c.j, c.k⟩ : Cell).at (aF 0 .x) v)) +
    (flux (c.at (aF 0 .y) v) - flux ((⟨c.i, c.j + 1, c.k⟩ : Cell).at (aF 0 .y) v)) +
    (if d3 then flux (c.at (aF 0 .z) v) - flux ((⟨c.i, c.j, c.k + 1⟩ : Cell).at (aF 0 .z) v) else 0)

/-- Internal energy of a cell with contents `f`. -/
noncomputable def Spec.internalEnergy (d3 : Bool) (f : Nat → ℝ) : ℝ :=
  f IE - (f IU ^ 2 + f IV ^ 2 + if d3 then f IW ^ 2 else 0) / (2 * f ID)

variable {d3 : Bool} {S : Settings ℝ} {P : Grid} {B : Sides} {J : Junk ℝ} {dt : ℝ} {it : Nat}
  {m m' : Addr → ℝ}

/-- **C33**: after a step with gravity every interior cell holds the flux balance, changed by
gravity as follows: density not at all, momentum by `dt·g·(ρ_old+ρ_new)/2`, energy such that the
internal energy is not changed (2D: provided the new density is not below the floor). -/
theorem C33_step (h : BoxSetup d3 (hydroVars d3) 2 P B)
    (r : Runs (godunov_unsplit d3 S P J 0 true dt it) m m') (i j k : Nat) (hi : i < P.nx.toNat)
    (hj : j < P.ny.toNat) (hk : k < depth d3 P)
    (hd : d3 = false → S.smallr ≤ m' ((cell d3 P i j k).at (bufOut it) ID)) :
    let c := cell d3 P i j k
    let old := fun v => m (c.at (bufIn it) v)
    let new := fun v => m' (c.at (bufOut it) v)
    let bal := fluxBalance d3 m m' (bufIn it) c
    new ID = bal ID ∧
    new IU = bal IU + dt * m (c.at aG 0) * ((old ID + new ID) / 2) ∧
    new IV = bal IV + dt * m (c.at aG 1) * ((old ID + new ID) / 2) ∧
    (d3 = true → new IW = bal IW + dt * m (c.at aG 2) * ((old ID + new ID) / 2)) ∧
    internalEnergy d3 new = internalEnergy d3 bal := by
  obtain ⟨m1, m2, f, y, R⟩ := step_whole (S := S) (J := J) (grav := true) (dt := dt) (it := it)
    h (Or.inl rfl) m
  obtain rfl := y.unique r
  obtain ⟨b1, b2⟩ := cell_box h hi hj hk
  have hg := h.gw
  have hnx := h.nx
  have hny := h.ny
  set c := cell d3 P i j k with hc
  have hnew := R.inner c b1 b2
  simp only [stepCell, if_true] at hnew
  have hold : ∀ v, v < hydroVars d3 → m1 (c.at (bufIn it) v) = m (c.at (bufIn it) v) :=
    fun v hv => f.interior b1 b2 (h.nv ▸ hv)
  have hgr : ∀ v, m1 (c.at aG v) = m (c.at aG v) := fun v => by
    refine f.frame _ fun e => ?_
    have : bufIn it = aG := e.1.symm
    unfold bufIn at this; split_ifs at this <;> simp [aU, aU2, aG] at this
  have hflux : ∀ d : Dir, d.ok d3 → ∀ v, v < hydroVars d3 →
      (stepFlux d3 S J 0 true dt (field d3 m1 (bufIn it)) (gfield d3 m1) d c).get v =
        m' (c.at (aF 0 d) v) ∧
      (stepFlux d3 S J 0 true dt (field d3 m1 (bufIn it)) (gfield d3 m1) d (c.up d)).get v =
        m' ((c.up d).at (aF 0 d) v) := by
    intro d hdir v hv
    have hb2 := box_iff.1 b1
    have hi2 := inner_iff.1 b2
    have q1 : P.faces d3 c := by
      rw [faces_iff]
      refine ⟨fun e => ?_, by omega, by omega, by omega, by omega⟩
      have := hi2.1 e; omega
    have q2 : P.box d3 (c.up d) ∧ P.faces d3 (c.up d) := by
      rw [faces_iff, box_iff]
      cases d <;> simp only [Cell.up]
      · cases d3
        · simp only [Bool.false_eq_true, if_false] at *
          exact ⟨⟨by omega, by omega, by omega, by omega, by tauto⟩, fun e => e.elim, by omega,
            by omega, by omega, by omega⟩
        · simp only [if_true, forall_true_left] at *
          exact ⟨⟨by omega, by omega, by omega, by omega, by omega⟩, ⟨by omega, by omega⟩, by omega,
            by omega, by omega, by omega⟩
      · cases d3
        · simp only [Bool.false_eq_true, if_false] at *
          exact ⟨⟨by omega, by omega, by omega, by omega, by tauto⟩, fun e => e.elim, by omega,
            by omega, by omega, by omega⟩
        · simp only [if_true, forall_true_left] at *
          exact ⟨⟨by omega, by omega, by omega, by omega, by omega⟩, ⟨by omega, by omega⟩, by omega,
            by omega, by omega, by omega⟩
      · cases d3
        · simp [Dir.ok] at hdir
        · simp only [if_true, forall_true_left] at *
          exact ⟨⟨by omega, by omega, by omega, by omega, by omega⟩, ⟨by omega, by omega⟩, by omega,
            by omega, by omega, by omega⟩
    rw [← field_get d3 m' (aF 0 d) _ hv, ← field_get d3 m' (aF 0 d) _ hv,
      R.fluxes rfl d _ hdir b1 q1, R.fluxes rfl d _ hdir q2.1 q2.2]
    exact ⟨rfl, rfl⟩
  have hbal : ∀ v, v < hydroVars d3 → (updCell d3 (stepFlux d3 S J 0 true dt
      (field d3 m1 (bufIn it)) (gfield d3 m1)) (field d3 m1 (bufIn it) c) c).get v =
      fluxBalance d3 m m' (bufIn it) c v := by
    intro v hv
    rw [updCell_get d3 _ _ _ hv, field_get _ _ _ _ hv, hold v hv]
    have hx := hflux .x (Or.inr (by decide)) v hv
    have hy := hflux .y (Or.inr (by decide)) v hv
    rw [hx.1, hx.2, hy.1, hy.2]
    unfold fluxBalance
    cases d3
    · rfl
    · have hz := hflux .z (Or.inl rfl) v hv
      simp only [if_true]
      rw [hz.1, hz.2]; rfl
  set w := updCell d3 (stepFlux d3 S J 0 true dt (field d3 m1 (bufIn it)) (gfield d3 m1))
      (field d3 m1 (bufIn it) c) c with hw
  have hget : ∀ v, v < hydroVars d3 → m' (c.at (bufOut it) v) =
      (gravitySource d3 S dt (field d3 m1 (bufIn it) c).d (gfield d3 m1 c) w).get v := by
    intro v hv
    rw [← hnew, field_get d3 m' _ _ hv]
  have v0 : 0 < hydroVars d3 := by cases d3 <;> decide
  have v1 : 1 < hydroVars d3 := by cases d3 <;> decide
  have v2 : 2 < hydroVars d3 := by cases d3 <;> decide
  have v3 : 3 < hydroVars d3 := by cases d3 <;> decide
  have g0 := hget 0 v0
  have hd' : d3 = false → S.smallr ≤ w.d := by
    intro e
    have := hd e
    rw [show ID = 0 from rfl, g0] at this
    exact this
  obtain ⟨s0, s1, s2, s3, s4⟩ := C33_gravity (S := S) d3 dt (field d3 m1 (bufIn it) c).d
    (gfield d3 m1 c) w hd'
  have e0 : m' (c.at (bufOut it) 0) = w.d := g0.trans s0
  have o0 : (field d3 m1 (bufIn it) c).d = m (c.at (bufIn it) 0) := hold 0 v0
  have gu : (gfield d3 m1 c).u = m (c.at aG 0) := hgr 0
  have gv : (gfield d3 m1 c).v = m (c.at aG 1) := hgr 1
  have e2 := (hget 2 v2).trans s1
  have e3 := (hget 3 v3).trans s2
  have e1 := hget 1 v1
  rw [o0, gu, ← e0] at e2
  rw [o0, gv, ← e0] at e3
  have b0 : w.d = fluxBalance d3 m m' (bufIn it) c 0 := hbal 0 v0
  have b1' : w.p = fluxBalance d3 m m' (bufIn it) c 1 := hbal 1 v1
  have b2' : w.u = fluxBalance d3 m m' (bufIn it) c 2 := hbal 2 v2
  have b3' : w.v = fluxBalance d3 m m' (bufIn it) c 3 := hbal 3 v3
  simp only [ID, IU, IV, IW, IE]
  refine ⟨e0.trans b0, by rw [e2, b2'], by rw [e3, b3'], ?_, ?_⟩
  · intro e
    have v4 : 4 < hydroVars d3 := by subst e; decide
    have e4 := (hget 4 v4).trans (s3 e)
    have b4 : w.w = fluxBalance d3 m m' (bufIn it) c 4 := hbal 4 v4
    have gw : (gfield d3 m1 c).w = m (c.at aG 2) := by
      subst e; exact hgr 2
    rw [o0, gw, ← e0] at e4
    rw [e4, b4]
  · unfold internalEnergy
    simp only [ID, IU, IV, IW, IE]
    unfold kinetic at s4
    have k1 : (gravitySource d3 S dt (field d3 m1 (bufIn it) c).d (gfield d3 m1 c) w).p =
      m' (c.at (bufOut it) 1) := e1.symm
    have k2 : (gravitySource d3 S dt (field d3 m1 (bufIn it) c).d (gfield d3 m1 c) w).u =
      m' (c.at (bufOut it) 2) := (hget 2 v2).symm
    have k3 : (gravitySource d3 S dt (field d3 m1 (bufIn it) c).d (gfield d3 m1 c) w).v =
      m' (c.at (bufOut it) 3) := (hget 3 v3).symm
    have k0 : (gravitySource d3 S dt (field d3 m1 (bufIn it) c).d (gfield d3 m1 c) w).d =
      m' (c.at (bufOut it) 0) := g0.symm
    rw [k0, k1, k2, k3, b0, b1', b2', b3'] at s4
    cases d3
    · simpa using s4
    · have k4 : (gravitySource true S dt (field true m1 (bufIn it) c).d (gfield true m1 c) w).w =
        m' (c.at (bufOut it) 4) := (hget 4 (by decide)).symm
      have b4 : w.w = fluxBalance true m m' (bufIn it) c 4 := hbal 4 (by decide)
      rw [k4, b4] at s4
      simpa using s4

/-- Hypotheses met: a 3D step with gravity exists from every memory. -/
example (J : Junk ℝ) (m : Addr → ℝ) : ∃ m', Runs (godunov_unsplit true exampleSettings
    (exampleBox true .reflecting) J 0 true (1 / 10) 0) m m' ∧ 0 < (exampleBox true .reflecting).nx.toNat := by
  obtain ⟨m', y⟩ := C58_hydro_step (S := exampleSettings) (exampleBox_setup true .reflecting) J 0
    (Or.inl rfl) true (1 / 10) 0 m
  exact ⟨m', y.run, by decide⟩

end Verif
