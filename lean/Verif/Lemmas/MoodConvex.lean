import Verif.Lemmas.MoodWhole
import Verif.Lemmas.RealOps
import Mathlib.Tactic.Ring

/-! Helper lemmas: the stages of the MOOD integrators over the real numbers. -/

namespace Verif.Mood

open Verif K Function ROps Spec

section any
variable {α : Type} [ROps α] {M : Scheme α} {P : Grid} {S : Settings α} {J : MoodJunk α} {dt : α}
  {B : Sides}

theorem fillF_inner {d3 : Bool} {f : Cell → HState α} {c : Cell} (hi : P.inner d3 c) {v : ℕ}
    (hv : v < hydroVars d3) : (fillF d3 P B f c).get v = (f c).get v := by
  unfold fillF
  rw [ofComps_get d3 _ hv]
  obtain ⟨h1, h2, h3, h4, h5⟩ := inner_iff.1 hi
  unfold crossAll srcCell
  simp only
  rw [source_inner h4 h5, source_inner h2 h3, cross_inner h4 h5, cross_inner h2 h3]
  cases d3
  · rfl
  · simp only [if_true]
    rw [source_inner (h1 rfl).1 (h1 rfl).2, cross_inner (h1 rfl).1 (h1 rfl).2]

/-- A state is determined by its components. -/
theorem state_ext {d3 : Bool} {a b : HState α} (ha : a.norm d3 = a) (hb : b.norm d3 = b)
    (h : ∀ v, v < hydroVars d3 → a.get v = b.get v) : a = b := by
  have h0 := h 0 (by cases d3 <;> decide)
  have h1 := h 1 (by cases d3 <;> decide)
  have h2 := h 2 (by cases d3 <;> decide)
  have h3 := h 3 (by cases d3 <;> decide)
  cases d3
  · rw [← ha, ← hb]
    exact HState.ext h0 h1 h2 h3 rfl
  · exact HState.ext h0 h1 h2 h3 (h 4 (by decide))

theorem fillF_inner_eq {d3 : Bool} {f : Cell → HState α} {c : Cell} (hi : P.inner d3 c)
    (hn : (f c).norm d3 = f c) : fillF d3 P B f c = f c :=
  state_ext (ofComps_norm _ _) hn fun _ hv => fillF_inner hi hv

theorem eulerAt_congr (h : MoodSetup M P B) {f g : Cell → HState α}
    {old old' : ℕ → Cell → HState α} {c : Cell} (hb : P.box M.d3 c) (hi : P.inner M.d3 c)
    (e : ∀ c, P.box M.d3 c → P.inner M.d3 c → f c = g c)
    (eo : ∀ i c, i < M.ncoefs → P.box M.d3 c → ¬ reconRegion M.d3 P c → old i c = old' i c) :
    eulerAt M S P B J dt old f c = eulerAt M S P B J dt old' g c := by
  unfold eulerAt
  rw [final_pairs_congr h.stage hb hi (fun c hb => fillF_congr h e hb) eo, fillF_congr h e hb]

theorem eulerAt_norm {old : ℕ → Cell → HState α} {f : Cell → HState α} {c : Cell} :
    (eulerAt M S P B J dt old f c).norm M.d3 = eulerAt M S P B J dt old f c := accFluxes_norm _ _ _

end any

/-! ### Real numbers -/

theorem accFluxes_get (d3 : Bool) (u : HState ℝ) (f : Dir → HState ℝ × HState ℝ) {v : ℕ}
    (hv : v < hydroVars d3) : (accFluxes d3 u f).get v = u.get v + (sumFluxes d3 f).get v := by
  unfold accFluxes sumFluxes
  cases d3
  · simp only [Bool.false_eq_true, if_false, zipState_get false _ _ _ hv]
    ring
  · simp only [if_true, zipState_get true _ _ _ hv]
    ring

variable {M : Scheme ℝ} {P : Grid} {S : Settings ℝ} {J : ℕ → MoodJunk ℝ} {dt : ℝ} {B : Sides}
  {old : ℕ → Cell → HState ℝ} {f : Cell → HState ℝ} {c : Cell}

theorem ssprk2At_get (hi : P.inner M.d3 c) {v : ℕ} (hv : v < hydroVars M.d3) :
    (ssprk2At M S P B J dt old f c).get v = 1 / 2 * (f c).get v +
      1 / 2 * (eulerAt M S P B (J 1) dt old (eulerAt M S P B (J 0) dt old f) c).get v := by
  unfold ssprk2At
  rw [ofComps_get _ _ hv, comp_eq_get, accFluxes_get _ _ _ hv, zipState_get _ _ _ _ hv,
    fillF_inner hi hv, fillF_inner hi hv]
  conv_rhs => rw [eulerAt, accFluxes_get _ _ _ hv, fillF_inner hi hv]
  rops
  ring

theorem rk3Second_get (hi : P.inner M.d3 c) {v : ℕ} (hv : v < hydroVars M.d3) :
    (rk3Second M S P B J dt old f c).get v = 3 / 4 * (f c).get v +
      1 / 4 * (eulerAt M S P B (J 1) dt old (eulerAt M S P B (J 0) dt old f) c).get v := by
  unfold rk3Second
  rw [ofComps_get _ _ hv, comp_eq_get, comp_eq_get, comp_eq_get, fillF_inner hi hv,
    fillF_inner hi hv, sumAt]
  conv_rhs => rw [eulerAt, accFluxes_get _ _ _ hv, fillF_inner hi hv]
  rops
  ring

theorem rk3Second_norm : (rk3Second M S P B J dt old f c).norm M.d3 =
    rk3Second M S P B J dt old f c := ofComps_norm _ _

theorem ssprk3At_get (hi : P.inner M.d3 c) {v : ℕ} (hv : v < hydroVars M.d3) :
    (ssprk3At M S P B J dt old f c).get v = 1 / 3 * (f c).get v +
      2 / 3 * (eulerAt M S P B (J 2) dt old (rk3Second M S P B J dt old f) c).get v := by
  unfold ssprk3At
  rw [ofComps_get _ _ hv, comp_eq_get, comp_eq_get, comp_eq_get, fillF_inner hi hv,
    fillF_inner hi hv, sumAt]
  conv_rhs => rw [eulerAt, accFluxes_get _ _ _ hv, fillF_inner hi hv]
  rops
  ring

end Verif.Mood
