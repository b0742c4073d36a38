import Verif.Lemmas.MoodUniform
import Verif.Lemmas.HydroFlux

/-! Helper lemmas: balance of the MOOD update and periodic domains. -/

namespace Verif.Mood

open Verif K Function ROps Spec

variable {M : Scheme ℝ} {P : Grid} {S : Settings ℝ} {J : MoodJunk ℝ} {dt : ℝ} {B : Sides}
  {old : ℕ → Cell → HState ℝ} {f : Cell → HState ℝ} {c : Cell}

theorem accPairs_get (d3 : Bool) (F : Dir → Cell → HState ℝ) (u : HState ℝ) (c : Cell) {v : Nat}
    (hv : v < hydroVars d3) :
    (accFluxes d3 u (fluxPairs d3 F c)).get v = (updCell d3 F u c).get v := by
  rw [updCell_get _ _ _ _ hv, accFluxes_get _ _ _ hv]
  unfold sumFluxes fluxPairs
  cases d3
  · simp only [Bool.false_eq_true, if_false, zipState_get false _ _ _ hv, Dir.pick]
    ring
  · simp only [if_true, zipState_get true _ _ _ hv, Dir.pick]
    ring

theorem eulerAt_get (hi : P.inner M.d3 c) {v : Nat} (hv : v < hydroVars M.d3) :
    let F := finalFlux M S P J dt old (fillF M.d3 P B f)
    (eulerAt M S P B J dt old f c).get v = (f c).get v +
      ((F .x c).get v - (F .x (c.up .x)).get v) + ((F .y c).get v - (F .y (c.up .y)).get v) +
      (if M.d3 then (F .z c).get v - (F .z (c.up .z)).get v else 0) := by
  intro F
  unfold eulerAt
  rw [accPairs_get _ _ _ _ hv, updCell_get _ _ _ _ hv, fillF_inner hi hv]

/-! ### Periodic repetition -/

theorem fillF_periodic_x (h : MoodSetup M P (Sides.all .periodic)) {c : Cell} (hb : P.box M.d3 c)
    (hc : c.i < 2 * P.ghostWidth) :
    fillF M.d3 P (Sides.all .periodic) f (shiftBy P.nx 0 0 c) =
      fillF M.d3 P (Sides.all .periodic) f c := by
  unfold fillF
  congr 1
  funext v
  rw [periodic_cross, periodic_cross]
  congr 2
  simp only [srcCell, shiftBy, Sides.all, add_zero]
  rw [source_periodic h.nx (box_iff.1 hb).1 hc]

theorem fillF_periodic_y (h : MoodSetup M P (Sides.all .periodic)) {c : Cell} (hb : P.box M.d3 c)
    (hc : c.j < 2 * P.ghostWidth) :
    fillF M.d3 P (Sides.all .periodic) f (shiftBy 0 P.ny 0 c) =
      fillF M.d3 P (Sides.all .periodic) f c := by
  unfold fillF
  congr 1
  funext v
  rw [periodic_cross, periodic_cross]
  congr 2
  simp only [srcCell, shiftBy, Sides.all, add_zero]
  rw [source_periodic h.ny (box_iff.1 hb).2.2.1 hc]

theorem shiftCell_shiftBy (a b e : Int) (c : Cell) (o : Offset) :
    shiftCell (shiftBy a b e c) o = shiftBy a b e (shiftCell c o) := by
  ext <;> simp only [shiftCell, shiftBy] <;> omega

theorem down_shiftBy (a b e : Int) (c : Cell) (d : Dir) :
    (shiftBy a b e c).down d = shiftBy a b e (c.down d) := by
  cases d <;> ext <;> simp only [Cell.down, shiftBy] <;> omega

theorem polyAt_shift (hid : M.id ≠ .d3deg4) {c : Cell}
    (hr : reconRegion M.d3 P c) {a b e : Int} (hr' : reconRegion M.d3 P (shiftBy a b e c))
    (hc : ∀ o ∈ stencilOffsets M.id, f (shiftBy a b e (shiftCell c o)) = f (shiftCell c o))
    (h0 : f (shiftBy a b e c) = f c) :
    polyAt M P J f old (shiftBy a b e c) = polyAt M P J f old c := by
  funext i
  unfold polyAt
  by_cases hi : i < M.ncoefs
  · rw [if_pos hi, if_pos hi, if_pos hr, if_pos hr']
    refine newCoef_shift hid h0 (fun o ho => ?_) i
    rw [shiftCell_shiftBy]
    exact hc o (nonCentre_mem ho)
  · rw [if_neg hi, if_neg hi]

theorem flagAt_outer {c : Cell} (hi : ¬ P.inner M.d3 c) :
    flagAt M S P J dt old f c = 0 := by
  unfold flagAt
  rw [if_neg hi]
  simp [lit]

theorem finalFlux_unflagged {d : Dir} {c : Cell} (h : ¬ 0 < flagAt M S P J dt old f c) :
    finalFlux M S P J dt old f d c = flux0 M S P J dt old f d c := by
  unfold finalFlux
  rw [if_neg]
  simp only [lit_real, ltb]
  norm_num
  exact not_lt.1 h

theorem finalFlux_flagged {d : Dir} {c : Cell} (h : 0 < flagAt M S P J dt old f c) :
    finalFlux M S P J dt old f d c = lowFlux M.d3 S dt d (f (c.down d)) (f c) := by
  unfold finalFlux
  rw [if_pos]
  simp only [lit_real, ltb]
  norm_num
  exact h

theorem polyAt_periodic_x (h : MoodSetup M P (Sides.all .periodic)) (hid : M.id ≠ .d3deg4)
    (hd : M.d3 = false) {c : Cell} (hk : c.k = 0) (h1 : P.ghostWidth - 1 ≤ c.i)
    (h2 : c.i ≤ P.ghostWidth) (h3 : P.ghostWidth - 1 ≤ c.j) (h4 : c.j < P.ny + P.ghostWidth + 1) :
    polyAt M P J (fillF M.d3 P (Sides.all .periodic) f) old (shiftBy P.nx 0 0 c) =
      polyAt M P J (fillF M.d3 P (Sides.all .periodic) f) old c := by
  have hg := h.stage.gw2
  have hnx := h.nx
  have hny := h.ny
  have gw := h.gw
  refine polyAt_shift hid ?_ ?_ (fun o ho => ?_) ?_
  · unfold reconRegion; rw [hd, P.isize_eq, P.jsize_eq]
    simp only [Bool.false_eq_true, if_false]; omega
  · unfold reconRegion shiftBy; rw [hd, P.isize_eq, P.jsize_eq]
    simp only [Bool.false_eq_true, if_false]; omega
  · obtain ⟨s1, s2, s3, s4, -⟩ := stencil_reach M.id o ho
    have s5 := stencil_flat M.id hd o ho
    refine fillF_periodic_x h ?_ ?_
    · rw [box_iff, hd]; simp only [Bool.false_eq_true, if_false, shiftCell]; omega
    · simp only [shiftCell]; omega
  · refine fillF_periodic_x h ?_ (by omega)
    rw [box_iff, hd]; simp only [Bool.false_eq_true, if_false]; omega

theorem polyAt_periodic_y (h : MoodSetup M P (Sides.all .periodic)) (hid : M.id ≠ .d3deg4)
    (hd : M.d3 = false) {c : Cell} (hk : c.k = 0) (h1 : P.ghostWidth - 1 ≤ c.j)
    (h2 : c.j ≤ P.ghostWidth) (h3 : P.ghostWidth - 1 ≤ c.i) (h4 : c.i < P.nx + P.ghostWidth + 1) :
    polyAt M P J (fillF M.d3 P (Sides.all .periodic) f) old (shiftBy 0 P.ny 0 c) =
      polyAt M P J (fillF M.d3 P (Sides.all .periodic) f) old c := by
  have hg := h.stage.gw2
  have hnx := h.nx
  have hny := h.ny
  have gw := h.gw
  refine polyAt_shift hid ?_ ?_ (fun o ho => ?_) ?_
  · unfold reconRegion; rw [hd, P.isize_eq, P.jsize_eq]
    simp only [Bool.false_eq_true, if_false]; omega
  · unfold reconRegion shiftBy; rw [hd, P.isize_eq, P.jsize_eq]
    simp only [Bool.false_eq_true, if_false]; omega
  · obtain ⟨s1, s2, s3, s4, -⟩ := stencil_reach M.id o ho
    have s5 := stencil_flat M.id hd o ho
    refine fillF_periodic_y h ?_ ?_
    · rw [box_iff, hd]; simp only [Bool.false_eq_true, if_false, shiftCell]; omega
    · simp only [shiftCell]; omega
  · refine fillF_periodic_y h ?_ (by omega)
    rw [box_iff, hd]; simp only [Bool.false_eq_true, if_false]; omega

/-- In two dimensions the fluxes through opposite sides of a periodic domain agree where the border
cell is not flagged. -/
theorem border_flux_x (h : MoodSetup M P (Sides.all .periodic)) (hv : ValidMood M S)
    (hd : M.d3 = false) {j k : ℕ} (hj : j < P.ny.toNat)
    (hn : ¬ 0 < flagAt M S P J dt old (fillF M.d3 P (Sides.all .periodic) f) (cell M.d3 P 0 j k)) :
    finalFlux M S P J dt old (fillF M.d3 P (Sides.all .periodic) f) .x (cell M.d3 P 0 j k) =
    finalFlux M S P J dt old (fillF M.d3 P (Sides.all .periodic) f) .x
      (cell M.d3 P P.nx.toNat j k) := by
  have hg := h.stage.gw2
  have hnx := h.nx
  have es : cell M.d3 P P.nx.toNat j k = shiftBy P.nx 0 0 (cell M.d3 P 0 j k) := by
    rw [hd]
    ext
    · simp only [cell, shiftBy]; omega
    · simp only [cell, shiftBy]; omega
    · simp [cell, shiftBy]
  have ni : ¬ P.inner M.d3 (cell M.d3 P P.nx.toNat j k) := by
    rw [inner_iff]
    unfold cell
    simp only
    omega
  rw [finalFlux_unflagged hn, finalFlux_unflagged (by rw [flagAt_outer ni]; exact lt_irrefl _), es]
  refine storedFlux_shift hv ?_ ?_
  · refine (polyAt_periodic_x h hv.id hd ?_ ?_ ?_ ?_ ?_).symm <;> simp [cell, hd] <;> omega
  · rw [down_shiftBy]
    refine (polyAt_periodic_x h hv.id hd ?_ ?_ ?_ ?_ ?_).symm <;> simp [cell, hd, Cell.down] <;>
      omega

theorem border_flux_y (h : MoodSetup M P (Sides.all .periodic)) (hv : ValidMood M S)
    (hd : M.d3 = false) {i k : ℕ} (hi : i < P.nx.toNat)
    (hn : ¬ 0 < flagAt M S P J dt old (fillF M.d3 P (Sides.all .periodic) f) (cell M.d3 P i 0 k)) :
    finalFlux M S P J dt old (fillF M.d3 P (Sides.all .periodic) f) .y (cell M.d3 P i 0 k) =
    finalFlux M S P J dt old (fillF M.d3 P (Sides.all .periodic) f) .y
      (cell M.d3 P i P.ny.toNat k) := by
  have hg := h.stage.gw2
  have hny := h.ny
  have es : cell M.d3 P i P.ny.toNat k = shiftBy 0 P.ny 0 (cell M.d3 P i 0 k) := by
    rw [hd]
    ext
    · simp only [cell, shiftBy]; omega
    · simp only [cell, shiftBy]; omega
    · simp [cell, shiftBy]
  have ni : ¬ P.inner M.d3 (cell M.d3 P i P.ny.toNat k) := by
    rw [inner_iff]
    unfold cell
    simp only
    omega
  rw [finalFlux_unflagged hn, finalFlux_unflagged (by rw [flagAt_outer ni]; exact lt_irrefl _), es]
  refine storedFlux_shift hv ?_ ?_
  · refine (polyAt_periodic_y h hv.id hd ?_ ?_ ?_ ?_ ?_).symm <;> simp [cell, hd] <;> omega
  · rw [down_shiftBy]
    refine (polyAt_periodic_y h hv.id hd ?_ ?_ ?_ ?_ ?_).symm <;> simp [cell, hd, Cell.down] <;>
      omega

end Verif.Mood
