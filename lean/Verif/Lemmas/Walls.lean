import Verif.Lemmas.MirrorBox

/-! Helper lemmas: what crosses the sides of a closed box in a hydro step. -/

namespace Verif

open Spec Sdm ROps

section
variable {d3 : Bool} {S : Settings ℝ} {J : Junk ℝ} {dt : ℝ} {P : Grid} {B : Sides} {impl : Int}
  {it : Nat} {m m1 m' : Addr → ℝ} {a : Dir}

/-- Cells on which the flux through the lower face of a cell inside, or just beyond the upper sides, depends. -/
theorem near_face (h : BoxSetup d3 (hydroVars d3) 2 P B) {c c' : Cell} {d : Dir} (hd : d.ok d3)
    (hi : P.ghostWidth ≤ c.i ∧ c.i ≤ P.nx + P.ghostWidth) (hj : P.ghostWidth ≤ c.j ∧ c.j ≤ P.ny + P.ghostWidth)
    (hk : if d3 then P.ghostWidth ≤ c.k ∧ c.k ≤ P.nz + P.ghostWidth else c.k = 0)
    (hn : near d3 c c' ∨ near d3 (c.down d) c') :
    P.box d3 c' ∧ ∀ e, c.coord e - 2 ≤ c'.coord e ∧ c'.coord e ≤ c.coord e + 1 := by
  have hg := h.gw
  have bnd : c.i - 2 ≤ c'.i ∧ c'.i ≤ c.i + 1 ∧ c.j - 2 ≤ c'.j ∧ c'.j ≤ c.j + 1 ∧ c.k - 2 ≤ c'.k ∧
      c'.k ≤ c.k + 1 ∧ (d3 = false → c'.k = c.k) := by
    rcases hn with hn | hn
    · obtain ⟨h1, h2, h3, h4, h5, h6, h7⟩ := near_bounds hn
      refine ⟨?_, ?_, ?_, ?_, ?_, ?_, h7⟩ <;> omega
    · obtain ⟨h1, h2, h3, h4, h5, h6, h7⟩ := near_bounds hn
      cases d <;> simp only [Cell.down] at h1 h2 h3 h4 h5 h6 h7
      · refine ⟨?_, ?_, ?_, ?_, ?_, ?_, h7⟩ <;> omega
      · refine ⟨?_, ?_, ?_, ?_, ?_, ?_, h7⟩ <;> omega
      · refine ⟨?_, ?_, ?_, ?_, ?_, ?_, fun e => ?_⟩
        all_goals first | omega | (subst e; simp [Dir.ok] at hd)
  obtain ⟨b1, b2, b3, b4, b5, b6, b7⟩ := bnd
  refine ⟨box_iff.2 ?_, fun e => ?_⟩
  · cases d3
    · simp only [Bool.false_eq_true, if_false] at hk ⊢
      refine ⟨by omega, by omega, by omega, by omega, ?_⟩
      rw [b7 rfl]; exact hk
    · simp only [if_true] at hk ⊢
      exact ⟨by omega, by omega, by omega, by omega, by omega, by omega⟩
  · cases e <;> simp only [Cell.coord] <;> omega

theorem csgn_periodic (n g c : Int) (b : Bool) : csgn n g .periodic .periodic b c = 1 := by
  unfold csgn behindWall
  have : (BC.periodic == BC.reflecting) = false := rfl
  simp [this]

/-- One period along an axis. -/
def period (P : Grid) (a : Dir) (c : Cell) : Cell :=
  match a with
  | .x => shiftBy P.nx 0 0 c
  | .y => shiftBy 0 P.ny 0 c
  | .z => shiftBy 0 0 P.nz c

theorem period_translation (P : Grid) (a : Dir) : Translation (period P a) := by
  cases a
  · exact shiftBy_translation _ _ _
  · exact shiftBy_translation _ _ _
  · exact shiftBy_translation _ _ _

/-- Along a periodic axis the filled array repeats, whatever the other sides are. -/
theorem FilledMem.repeats {w : Int} {U : ℕ} (h : BoxSetup d3 (hydroVars d3) w P B)
    (f : FilledMem d3 false P B U m m1) (ha : a.ok d3) (hB : lowBC B a = .periodic ∧ highBC B a = .periodic)
    {c : Cell} (hb : P.box d3 c) (hc : c.coord a < 2 * P.ghostWidth) :
    field d3 m1 U (period P a c) = field d3 m1 U c := by
  refine field_ext fun v hv => ?_
  have hb' := box_iff.1 hb
  have hv' : v < P.nbvar := h.nv ▸ hv
  have hnx := h.nx
  have hny := h.ny
  cases a
  · simp only [lowBC, highBC, Cell.coord] at hB hc
    have hb2 : P.box d3 (period P .x c) := by
      rw [box_iff]; simp only [period, shiftBy, add_zero]
      exact ⟨by omega, by omega, hb'.2.2.1, hb'.2.2.2.1, hb'.2.2.2.2⟩
    rw [f.cells _ _ hb2 hv', f.cells _ _ hb hv', crossAll_eq, crossAll_eq]
    simp only [srcCell, csgnAll, period, shiftBy, add_zero, hB.1, hB.2, csgn_periodic]
    rw [source_periodic hnx hb'.1 hc]
  · simp only [lowBC, highBC, Cell.coord] at hB hc
    have hb2 : P.box d3 (period P .y c) := by
      rw [box_iff]; simp only [period, shiftBy, add_zero]
      exact ⟨hb'.1, hb'.2.1, by omega, by omega, hb'.2.2.2.2⟩
    rw [f.cells _ _ hb2 hv', f.cells _ _ hb hv', crossAll_eq, crossAll_eq]
    simp only [srcCell, csgnAll, period, shiftBy, add_zero, hB.1, hB.2, csgn_periodic]
    rw [source_periodic hny hb'.2.2.1 hc]
  · have h3 : d3 = true := ha.resolve_right (by simp)
    subst h3
    simp only [if_true] at hb'
    have hnz := h.nz rfl
    simp only [lowBC, highBC, Cell.coord] at hB hc
    have hb2 : P.box true (period P .z c) := by
      rw [box_iff]; simp only [period, shiftBy, add_zero]
      exact ⟨hb'.1, hb'.2.1, hb'.2.2.1, hb'.2.2.2.1, by simp only [if_true]; omega⟩
    rw [f.cells _ _ hb2 hv', f.cells _ _ hb hv', crossAll_eq, crossAll_eq]
    simp only [srcCell, csgnAll, period, shiftBy, add_zero, hB.1, hB.2, csgn_periodic, if_true]
    rw [source_periodic hnz hb'.2.2.2.2.1 hc]

/-- What its own mirror image cannot flow. -/
theorem get_of_mirror {f : HState ℝ} (h : f = (mirrorAlong a f).times (turn a a)) {v : ℕ} (hv : v < 5)
    (hn : v ≠ 2 + axis a) : f.get v = 0 := by
  have h0 := congrArg HState.d h
  have h1 := congrArg HState.p h
  have h2 := congrArg HState.u h
  have h3 := congrArg HState.v h
  have h4 := congrArg HState.w h
  have : v = 0 ∨ v = 1 ∨ v = 2 ∨ v = 3 ∨ v = 4 := by omega
  cases a <;> simp [mirrorAlong, HState.times, turn] at h0 h1 h2 h3 h4 <;>
    rcases this with rfl | rfl | rfl | rfl | rfl <;> simp only [HState.get] <;>
    first | linarith | exact absurd rfl hn

/-- Nothing but momentum normal to it crosses a reflecting side. -/
theorem wall_flux (h : BoxSetup d3 (hydroVars d3) 2 P B) (hv : ValidHydro d3 S) (hG : GasParams S)
    (hS : S.riemann ≠ .approx) (f : FilledMem d3 false P B (bufIn it) m m1) (ha : a.ok d3) {c : Cell}
    (hw : (lowBC B a = .reflecting ∧ c.coord a = P.ghostWidth) ∨
      (highBC B a = .reflecting ∧ c.coord a = P.along a + P.ghostWidth))
    (hi : P.ghostWidth ≤ c.i ∧ c.i ≤ P.nx + P.ghostWidth) (hj : P.ghostWidth ≤ c.j ∧ c.j ≤ P.ny + P.ghostWidth)
    (hk : if d3 then P.ghostWidth ≤ c.k ∧ c.k ≤ P.nz + P.ghostWidth else c.k = 0) {v : ℕ} (hv5 : v < 5)
    (hn : v ≠ 2 + axis a) :
    (stepFlux d3 S J impl false dt (field d3 m1 (bufIn it)) (gfield d3 m1) a c).get v = 0 := by
  have hg := h.gw
  have hle : P.ghostWidth ≤ P.along a := by
    cases a
    · exact h.nx
    · exact h.ny
    · exact h.nz (ha.resolve_right (by simp))
  apply get_of_mirror (a := a) _ hv5 hn
  rcases hw with ⟨hB, hc⟩ | ⟨hB, hc⟩
  · have := stepFlux_mirror (J := J) (J' := J) (impl := impl) (dt := dt) (grav := false)
      (g := gfield d3 m1) (g' := gfield d3 m1) hv hG hS ha (reflectAt_reflection a (2 * P.ghostWidth - 1))
      (u := field d3 m1 (bufIn it)) (u' := field d3 m1 (bufIn it)) (c := c) (e := a) ha
      (fun e => by cases e)
      (fun c' hc' => by
        obtain ⟨b1, b2⟩ := near_face h ha hi hj hk hc'
        have := b2 a
        exact f.wall_low h (by decide) ha hB b1 (by omega))
      (fun e => by cases e)
    have e : faceImage a a (reflectAt a (2 * P.ghostWidth - 1)) c = c := by
      unfold faceImage
      rw [if_pos rfl]
      cases a <;> simp only [reflectAt, Cell.up, Cell.coord] at hc ⊢ <;> ext <;> simp <;> omega
    rw [e] at this
    exact this
  · have := stepFlux_mirror (J := J) (J' := J) (impl := impl) (dt := dt) (grav := false)
      (g := gfield d3 m1) (g' := gfield d3 m1) hv hG hS ha
      (reflectAt_reflection a (2 * (P.along a + P.ghostWidth) - 1))
      (u := field d3 m1 (bufIn it)) (u' := field d3 m1 (bufIn it)) (c := c) (e := a) ha
      (fun e => by cases e)
      (fun c' hc' => by
        obtain ⟨b1, b2⟩ := near_face h ha hi hj hk hc'
        have := b2 a
        exact f.wall_high h (by decide) ha hB b1 (by omega))
      (fun e => by cases e)
    have e : faceImage a a (reflectAt a (2 * (P.along a + P.ghostWidth) - 1)) c = c := by
      unfold faceImage
      rw [if_pos rfl]
      cases a <;> simp only [reflectAt, Cell.up, Cell.coord, Grid.along] at hc ⊢ <;> ext <;> simp <;> omega
    rw [e] at this
    exact this

/-- Through mirrored periodic sides flows the same. -/
theorem repeat_flux (h : BoxSetup d3 (hydroVars d3) 2 P B) (hv : ValidHydro d3 S)
    (f : FilledMem d3 false P B (bufIn it) m m1) (ha : a.ok d3)
    (hB : lowBC B a = .periodic ∧ highBC B a = .periodic) {c : Cell} (hc : c.coord a = P.ghostWidth)
    (hi : P.ghostWidth ≤ c.i ∧ c.i ≤ P.nx + P.ghostWidth) (hj : P.ghostWidth ≤ c.j ∧ c.j ≤ P.ny + P.ghostWidth)
    (hk : if d3 then P.ghostWidth ≤ c.k ∧ c.k ≤ P.nz + P.ghostWidth else c.k = 0) :
    stepFlux d3 S J impl false dt (field d3 m1 (bufIn it)) (gfield d3 m1) a (period P a c) =
      stepFlux d3 S J impl false dt (field d3 m1 (bufIn it)) (gfield d3 m1) a c := by
  have hg := h.gw
  refine stepFlux_shift hv (period_translation _ _) (fun c' hc' => ?_) (by simp)
  obtain ⟨b1, b2⟩ := near_face h ha hi hj hk hc'
  have := b2 a
  exact f.repeats h ha hB b1 (by omega)

/-- In a closed box what flows in flows out. -/
theorem closed_inflow (h : BoxSetup d3 (hydroVars d3) 2 P B) (hv : ValidHydro d3 S) (hG : GasParams S)
    (hS : WallSolver d3 S B) (f : FilledMem d3 false P B (bufIn it) m m1) {v : ℕ} (hv5 : v < hydroVars d3)
    (hB : Closed d3 B v) :
    (let F := stepFlux d3 S J impl false dt (field d3 m1 (bufIn it)) (gfield d3 m1)
     netInflow d3 P (fun c => (F .x c).get v) (fun c => (F .y c).get v) (fun c => (F .z c).get v)) = 0 := by
  have hg := h.gw
  have hnx := h.nx
  have hny := h.ny
  have hv5' : v < 5 := lt_of_lt_of_le hv5 (by cases d3 <;> decide)
  have key : ∀ (a : Dir) (c c' : Cell), a.ok d3 → c' = period P a c → c.coord a = P.ghostWidth →
      (P.ghostWidth ≤ c.i ∧ c.i < P.nx + P.ghostWidth) → (P.ghostWidth ≤ c.j ∧ c.j < P.ny + P.ghostWidth) →
      (if d3 then P.ghostWidth ≤ c.k ∧ c.k < P.nz + P.ghostWidth else c.k = 0) →
      (stepFlux d3 S J impl false dt (field d3 m1 (bufIn it)) (gfield d3 m1) a c).get v -
        (stepFlux d3 S J impl false dt (field d3 m1 (bufIn it)) (gfield d3 m1) a c').get v = 0 := by
    intro a c c' ha e hc hi hj hk
    have hk' : if d3 then P.ghostWidth ≤ c.k ∧ c.k ≤ P.nz + P.ghostWidth else c.k = 0 := by
      cases d3
      · exact hk
      · simp only [if_true] at hk ⊢; omega
    rcases hB a ha with hB | ⟨hl, hh, hn⟩
    · rw [e, repeat_flux h hv f ha hB hc ⟨hi.1, hi.2.le⟩ ⟨hj.1, hj.2.le⟩ hk', sub_self]
    · have hS' := hS a ha (Or.inl hl)
      rw [wall_flux h hv hG hS' f ha (Or.inl ⟨hl, hc⟩) ⟨hi.1, hi.2.le⟩ ⟨hj.1, hj.2.le⟩ hk' hv5' hn,
        wall_flux h hv hG hS' f ha (Or.inr ⟨hh, ?_⟩) ?_ ?_ ?_ hv5' hn, sub_zero]
      · rw [e]; cases a <;> simp only [period, shiftBy, Cell.coord, Grid.along] at hc ⊢ <;> omega
      · rw [e]; cases a <;> simp only [period, shiftBy, Cell.coord] at hc ⊢ <;> omega
      · rw [e]; cases a <;> simp only [period, shiftBy, Cell.coord] at hc ⊢ <;> omega
      · rw [e]
        cases d3
        · cases a
          · simpa [period, shiftBy] using hk
          · simpa [period, shiftBy] using hk
          · exact absurd rfl (ha.resolve_left (by decide))
        · simp only [if_true] at hk ⊢
          cases a <;> simp only [period, shiftBy, Cell.coord] at hc ⊢ <;> omega
  simp only [netInflow]
  have zx : (∑ j ∈ Finset.range P.ny.toNat, ∑ k ∈ Finset.range (depth d3 P),
      ((stepFlux d3 S J impl false dt (field d3 m1 (bufIn it)) (gfield d3 m1) .x
        (cell d3 P 0 j k)).get v - (stepFlux d3 S J impl false dt (field d3 m1 (bufIn it))
        (gfield d3 m1) .x (cell d3 P P.nx.toNat j k)).get v)) = 0 := by
    refine Finset.sum_eq_zero fun j hj => Finset.sum_eq_zero fun k hk => ?_
    rw [Finset.mem_range] at hj hk
    refine key .x _ _ (Or.inr (by decide)) ?_ ?_ ?_ ?_ ?_
    · simp [cell, period, shiftBy]; omega
    · simp [cell, Cell.coord]
    · simp only [cell]; omega
    · simp only [cell]; omega
    · unfold depth at hk
      cases d3
      · simp [cell]
      · simp only [cell, if_true] at hk ⊢; omega
  have zy : (∑ i ∈ Finset.range P.nx.toNat, ∑ k ∈ Finset.range (depth d3 P),
      ((stepFlux d3 S J impl false dt (field d3 m1 (bufIn it)) (gfield d3 m1) .y
        (cell d3 P i 0 k)).get v - (stepFlux d3 S J impl false dt (field d3 m1 (bufIn it))
        (gfield d3 m1) .y (cell d3 P i P.ny.toNat k)).get v)) = 0 := by
    refine Finset.sum_eq_zero fun j hj => Finset.sum_eq_zero fun k hk => ?_
    rw [Finset.mem_range] at hj hk
    refine key .y _ _ (Or.inr (by decide)) ?_ ?_ ?_ ?_ ?_
    · simp [cell, period, shiftBy]; omega
    · simp [cell, Cell.coord]
    · simp only [cell]; omega
    · simp only [cell]; omega
    · unfold depth at hk
      cases d3
      · simp [cell]
      · simp only [cell, if_true] at hk ⊢; omega
  rw [zx, zy]
  cases d3
  · simp
  · have hnz := h.nz rfl
    simp only [if_true, zero_add]
    refine Finset.sum_eq_zero fun i hi => Finset.sum_eq_zero fun j hj => ?_
    rw [Finset.mem_range] at hi hj
    refine key .z _ _ (Or.inl rfl) ?_ ?_ ?_ ?_ ?_
    · simp [cell, period, shiftBy]; omega
    · simp [cell, Cell.coord]
    · simp only [cell]; omega
    · simp only [cell]; omega
    · simp only [cell, if_true]; omega

end

end Verif
