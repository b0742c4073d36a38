import Verif.Lemmas.Walls

/-! Helper lemmas: the whole hydro step seen in a mirror. -/

namespace Verif

open Spec Sdm ROps

section
variable {d3 : Bool} {S : Settings ℝ} {J J' : Junk ℝ} {dt : ℝ} {P : Grid} {B : Sides} {impl : Int} {grav : Bool}
  {it : Nat} {m m1 : Addr → ℝ} {a : Dir}

theorem flipGrid_box (a : Dir) (c : Cell) : (flipGrid a P).box d3 c ↔ P.box d3 c := by cases a <;> exact Iff.rfl

theorem flipGrid_inner (a : Dir) (c : Cell) : (flipGrid a P).inner d3 c ↔ P.inner d3 c := by
  cases a <;> exact Iff.rfl

theorem flipGrid_sizes (a : Dir) (P : Grid) : (flipGrid a P).nx = P.nx ∧ (flipGrid a P).ny = P.ny ∧
    (flipGrid a P).nz = P.nz ∧ (flipGrid a P).ghostWidth = P.ghostWidth ∧ (flipGrid a P).nbvar = P.nbvar := by
  cases a <;> exact ⟨rfl, rfl, rfl, rfl, rfl⟩

/-- The parameters of the mirrored run describe a box again. -/
theorem Spec.BoxSetup.flip {nv : ℕ} {w : Int} (h : BoxSetup d3 nv w P B) (a : Dir) :
    BoxSetup d3 nv w (flipGrid a P) (B.flip a) := by
  cases a
  · exact ⟨h.gw, h.nv, h.nx, h.ny, h.nz, h.xmax, h.xmin, h.ymin, h.ymax, h.zmin, h.zmax⟩
  · exact ⟨h.gw, h.nv, h.nx, h.ny, h.nz, h.xmin, h.xmax, h.ymax, h.ymin, h.zmin, h.zmax⟩
  · exact ⟨h.gw, h.nv, h.nx, h.ny, h.nz, h.xmin, h.xmax, h.ymin, h.ymax, h.zmax, h.zmin⟩

theorem mirrored_box (ha : a.ok d3) {c : Cell} (h : P.box d3 c) : P.box d3 (mirrored P a c) := by
  rw [box_iff] at h ⊢
  obtain ⟨h1, h2, h3, h4, h5⟩ := h
  cases d3
  · cases a
    · exact ⟨by simp only [mirrored]; omega, by simp only [mirrored]; omega, h3, h4, h5⟩
    · exact ⟨h1, h2, by simp only [mirrored]; omega, by simp only [mirrored]; omega, h5⟩
    · exact absurd rfl (ha.resolve_left (by decide))
  · simp only [if_true] at h5 ⊢
    cases a <;> simp only [mirrored] <;> exact ⟨by omega, by omega, by omega, by omega, by omega, by omega⟩

theorem mirrored_inner (ha : a.ok d3) {c : Cell} (h : P.inner d3 c) : P.inner d3 (mirrored P a c) := by
  rw [inner_iff] at h ⊢
  obtain ⟨h0, h1, h2, h3, h4⟩ := h
  cases a <;> refine ⟨fun e => ?_, ?_, ?_, ?_, ?_⟩ <;> simp only [mirrored] <;> (try have := h0 e) <;> omega

theorem mirrored_mirrored (a : Dir) (c : Cell) : mirrored P a (mirrored P a c) = c := by
  cases a <;> simp [mirrored]

/-- Interior cells by number. -/
theorem inner_cell' (h : BoxSetup d3 (hydroVars d3) 2 P B) {c : Cell} (hb : P.box d3 c) (hi : P.inner d3 c) :
    ∃ i j k, i < P.nx.toNat ∧ j < P.ny.toNat ∧ k < depth d3 P ∧ c = cell d3 P i j k := by
  have hg := h.gw
  rw [box_iff] at hb
  rw [inner_iff] at hi
  obtain ⟨h0, h1, h2, h3, h4⟩ := hi
  cases d3
  · simp only [Bool.false_eq_true, if_false] at hb
    refine ⟨(c.i - P.ghostWidth).toNat, (c.j - P.ghostWidth).toNat, 0, by omega, by omega, by simp [depth], ?_⟩
    simp only [cell, Bool.false_eq_true, if_false]
    ext <;> simp only <;> omega
  · have := h0 rfl
    refine ⟨(c.i - P.ghostWidth).toNat, (c.j - P.ghostWidth).toNat, (c.k - P.ghostWidth).toNat, by omega, by omega,
      by simp [depth]; omega, ?_⟩
    simp only [cell, if_true]
    ext <;> simp only <;> omega

/-- Arrays whose interiors are mirror images are so after the ghost cells have been filled. -/
theorem fill_mirror (h : BoxSetup d3 (hydroVars d3) 2 P B) (ha : a.ok d3) {U : ℕ} {n n1 : Addr → ℝ}
    (f : FilledMem d3 false P B U m m1) (f' : FilledMem d3 false (flipGrid a P) (B.flip a) U n n1)
    (hm : ∀ c, P.box d3 c → P.inner d3 c → ∀ v < hydroVars d3,
      n ((mirrored P a c).at U v) = m (c.at U v) * bsgn (normalTo (axis a) false v)) {c : Cell} (hb : P.box d3 c) :
    field d3 n1 U (mirrored P a c) = mirrorAlong a (field d3 m1 U c) := by
  refine field_mirror ha fun v hv => ?_
  have hb' := box_iff.1 hb
  have hg := h.gw
  have hg0 : 0 ≤ P.ghostWidth := by omega
  have hv' : v < P.nbvar := h.nv ▸ hv
  have hnx := h.nx
  have hny := h.ny
  obtain ⟨s1, s2, s3, s4, s5⟩ := flipGrid_sizes a P
  have hb2 : (flipGrid a P).box d3 (mirrored P a c) := (flipGrid_box a _).2 (mirrored_box ha hb)
  rw [f'.cells _ _ hb2 (s5 ▸ hv'), f.cells _ _ hb hv', crossAll_eq, crossAll_eq]
  have es : srcCell d3 (flipGrid a P) (B.flip a) (mirrored P a c) = mirrored P a (srcCell d3 P B c) := by
    simp only [srcCell, s1, s2, s3, s4]
    cases a
    · simp only [mirrored, Sides.flip, source_flip hg0 hnx]
    · simp only [mirrored, Sides.flip, source_flip hg0 hny]
    · have h3 : d3 = true := ha.resolve_right (by simp)
      simp only [mirrored, Sides.flip, source_flip hg0 (h.nz h3), h3, if_true]
  have ec : csgnAll d3 (flipGrid a P) (B.flip a) (mirrored P a c) v = csgnAll d3 P B c v := by
    simp only [csgnAll, s1, s2, s3, s4]
    cases a
    · simp only [mirrored, Sides.flip, csgn_flip hg0 hnx]
    · simp only [mirrored, Sides.flip, csgn_flip hg0 hny]
    · have h3 : d3 = true := ha.resolve_right (by simp)
      simp only [mirrored, Sides.flip, csgn_flip hg0 (h.nz h3), h3, if_true]
  rw [es, ec]
  have key : ∀ (n : Int) (lo hi : BC) (c : Int), P.ghostWidth ≤ n → 0 ≤ c → c < n + 2 * P.ghostWidth →
      P.ghostWidth ≤ source n P.ghostWidth lo hi c ∧ source n P.ghostWidth lo hi c < n + P.ghostWidth := by
    intro n lo hi c h2 h3 h4
    unfold source
    split_ifs
    · cases lo <;> dsimp only <;> omega
    · cases hi <;> dsimp only <;> omega
    · omega
  have kx := key P.nx B.xlo B.xhi c.i hnx hb'.1 hb'.2.1
  have ky := key P.ny B.ylo B.yhi c.j hny hb'.2.2.1 hb'.2.2.2.1
  rw [hm (srcCell d3 P B c) ?_ ?_ v hv]
  · ring
  · rw [box_iff]
    simp only [srcCell]
    refine ⟨by omega, by omega, by omega, by omega, ?_⟩
    cases d3
    · simpa using hb'.2.2.2.2
    · have h5 := hb'.2.2.2.2
      simp only [if_true] at h5 ⊢
      have kz := key P.nz B.zlo B.zhi c.k (h.nz rfl) h5.1 h5.2
      omega
  · rw [inner_iff]
    simp only [srcCell]
    refine ⟨?_, by omega, by omega, by omega, by omega⟩
    rintro rfl
    have h5 := hb'.2.2.2.2
    simp only [if_true] at h5 ⊢
    have kz := key P.nz B.zlo B.zhi c.k (h.nz rfl) h5.1 h5.2
    omega

theorem updCell_mirror (ha : a.ok d3) {F F' : Dir → Cell → HState ℝ} {u : HState ℝ} {c c' : Cell}
    (hF : ∀ e, e.ok d3 → F' e (if e = a then c'.up e else c') = (mirrorAlong a (F e c)).times (turn a e) ∧
      F' e (if e = a then c' else c'.up e) = (mirrorAlong a (F e (c.up e))).times (turn a e)) :
    updCell d3 F' (mirrorAlong a u) c' = mirrorAlong a (updCell d3 F u c) := by
  have hx := hF .x (Or.inr (by decide))
  have hy := hF .y (Or.inr (by decide))
  unfold updCell
  cases d3
  · simp only [Bool.false_eq_true, if_false]
    cases a
    · simp at hx hy
      simp only [hx.1, hx.2, hy.1, hy.2]
      simp only [HState.plusMinus, mirrorAlong, HState.times, turn]; rops
      ext <;> simp <;> ring
    · simp at hx hy
      simp only [hx.1, hx.2, hy.1, hy.2]
      simp only [HState.plusMinus, mirrorAlong, HState.times, turn]; rops
      ext <;> simp <;> ring
    · exact absurd rfl (ha.resolve_left (by decide))
  · have hz := hF .z (Or.inl rfl)
    simp only [if_true]
    cases a <;> simp at hx hy hz <;> simp only [hx.1, hx.2, hy.1, hy.2, hz.1, hz.2] <;>
      simp only [HState.plusMinus, mirrorAlong, HState.times, turn] <;> rops <;> ext <;> simp <;> ring

theorem gravitySource_mirror (ha : a.ok d3) (rho : ℝ) (g u : HState ℝ) :
    gravitySource d3 S dt rho (mirrorAlong a g) (mirrorAlong a u) = mirrorAlong a (gravitySource d3 S dt rho g u) := by
  unfold gravitySource
  cases d3
  · cases a
    · simp only [mirrorAlong, Bool.false_eq_true, if_false]; rops
      ext <;> simp <;> ring
    · simp only [mirrorAlong, Bool.false_eq_true, if_false]; rops
      ext <;> simp <;> ring
    · exact absurd rfl (ha.resolve_left (by decide))
  · cases a <;> simp only [mirrorAlong, if_true] <;> rops <;> ext <;> simp <;> ring

theorem mirrorAlong_d (a : Dir) (q : HState ℝ) : (mirrorAlong a q).d = q.d := by cases a <;> rfl

/-- A step of the mirrored run gives the mirrored result. -/
theorem step_mirror (h : BoxSetup d3 (hydroVars d3) 2 P B) (hv : ValidHydro d3 S) (hG : GasParams S)
    (hS : S.riemann ≠ .approx) (ha : a.ok d3) (himpl : impl = 0 ∨ impl = 1)
    (hz : grav = true → impl = 0 ∨ a ≠ .z) {m' n n' : Addr → ℝ}
    (r : Runs (godunov_unsplit d3 S P J impl grav dt it) m m')
    (r' : Runs (godunov_unsplit d3 S (flipGrid a P) J' impl grav dt it) n n')
    (hm : ∀ c, P.box d3 c → P.inner d3 c → ∀ v < hydroVars d3,
      n ((mirrored P a c).at (bufIn it) v) = m (c.at (bufIn it) v) * bsgn (normalTo (axis a) false v))
    (hgr : grav = true → ∀ c, P.box d3 c → gfield d3 n (mirrored P a c) = mirrorAlong a (gfield d3 m c))
    {c : Cell} (hb : P.box d3 c) (hi : P.inner d3 c) :
    field d3 n' (bufOut it) (mirrored P a c) = mirrorAlong a (field d3 m' (bufOut it) c) := by
  obtain ⟨m1, m2, f, y, R⟩ := step_whole (S := S) (J := J) (grav := grav) (dt := dt) (it := it) h himpl m
  obtain rfl := y.unique r
  obtain ⟨n1, n2, f', y', R'⟩ := step_whole (S := S) (J := J') (grav := grav) (dt := dt) (it := it)
    (h.flip a) himpl n
  obtain rfl := y'.unique r'
  rw [R.inner c hb hi, R'.inner _ ((flipGrid_box a _).2 (mirrored_box ha hb))
    ((flipGrid_inner a _).2 (mirrored_inner ha hi))]
  have hu : ∀ c, P.box d3 c → field d3 n1 (bufIn it) (mirrored P a c) = mirrorAlong a (field d3 m1 (bufIn it) c) :=
    fun c hc => fill_mirror h ha f f' hm hc
  have hbufG : ∀ (c : Cell) v, ¬ ((c.at aG v).arr = bufIn it ∧ P.box d3 (c.at aG v).cell ∧ (c.at aG v).v < P.nbvar) := by
    intro c v e
    have := e.1
    simp only [Cell.at_arr] at this
    unfold bufIn at this
    split_ifs at this <;> simp [aG, aU, aU2] at this
  have hbufG' : ∀ (c : Cell) v, ¬ ((c.at aG v).arr = bufIn it ∧ (flipGrid a P).box d3 (c.at aG v).cell ∧
      (c.at aG v).v < (flipGrid a P).nbvar) := by
    intro c v e
    exact hbufG c v ⟨e.1, (flipGrid_box a _).1 e.2.1, (flipGrid_sizes a P).2.2.2.2 ▸ e.2.2⟩
  have hgm : ∀ c, gfield d3 m1 c = gfield d3 m c := by
    intro c; unfold gfield; rw [f.frame _ (hbufG c 0), f.frame _ (hbufG c 1), f.frame _ (hbufG c 2)]
  have hgn : ∀ c, gfield d3 n1 c = gfield d3 n c := by
    intro c; unfold gfield; rw [f'.frame _ (hbufG' c 0), f'.frame _ (hbufG' c 1), f'.frame _ (hbufG' c 2)]
  have hgr' : grav = true → ∀ c, P.box d3 c → gfield d3 n1 (mirrored P a c) = mirrorAlong a (gfield d3 m1 c) := by
    intro e c hc; rw [hgm, hgn]; exact hgr e c hc
  have hτ : Reflection a (mirrored P a) := by
    have := reflectAt_reflection a (P.along a + 2 * P.ghostWidth - 1)
    rwa [show reflectAt a (P.along a + 2 * P.ghostWidth - 1) = mirrored P a from
      (funext fun c => (mirrored_eq P a c)).symm] at this
  have hb' := box_iff.1 hb
  have hi' := inner_iff.1 hi
  have hgw := h.gw
  have hF : ∀ e, e.ok d3 → ∀ c0, c0 = c ∨ c0 = c.up e →
      stepFlux d3 S J' impl grav dt (field d3 n1 (bufIn it)) (gfield d3 n1) e (faceImage a e (mirrored P a) c0) =
        (mirrorAlong a (stepFlux d3 S J impl grav dt (field d3 m1 (bufIn it)) (gfield d3 m1) e c0)).times
          (turn a e) := by
    intro e he c0 hc0
    have bnd : (P.ghostWidth ≤ c0.i ∧ c0.i ≤ P.nx + P.ghostWidth) ∧
        (P.ghostWidth ≤ c0.j ∧ c0.j ≤ P.ny + P.ghostWidth) ∧
        (if d3 then P.ghostWidth ≤ c0.k ∧ c0.k ≤ P.nz + P.ghostWidth else c0.k = 0) := by
      obtain ⟨i0, i1, i2, i3, i4⟩ := hi'
      obtain ⟨b1, b2, b3, b4, b5⟩ := hb'
      rcases hc0 with rfl | rfl
      · refine ⟨by omega, by omega, ?_⟩
        cases d3
        · exact b5
        · have := i0 rfl
          simp only [if_true]; omega
      · cases d3
        · simp only [Bool.false_eq_true, if_false] at b5 ⊢
          cases e
          · exact ⟨by simp only [Cell.up]; omega, by simp only [Cell.up]; omega, b5⟩
          · exact ⟨by simp only [Cell.up]; omega, by simp only [Cell.up]; omega, b5⟩
          · exact absurd rfl (he.resolve_left (by decide))
        · have := i0 rfl
          simp only [if_true]
          cases e <;> simp only [Cell.up] <;> omega
    refine stepFlux_mirror hv hG hS ha hτ he hz (fun c' hc' => hu c' (near_face h he bnd.1 bnd.2.1 bnd.2.2 hc').1) ?_
    rintro eg c1 (rfl | rfl)
    · exact hgr' eg _ (near_face h he bnd.1 bnd.2.1 bnd.2.2 (Or.inl (Or.inl rfl))).1
    · exact hgr' eg _ (near_face h he bnd.1 bnd.2.1 bnd.2.2 (Or.inr (Or.inl rfl))).1
  have hup := updCell_mirror (d3 := d3) ha
    (F := stepFlux d3 S J impl grav dt (field d3 m1 (bufIn it)) (gfield d3 m1))
    (F' := stepFlux d3 S J' impl grav dt (field d3 n1 (bufIn it)) (gfield d3 n1))
    (u := field d3 m1 (bufIn it) c) (c := c) (c' := mirrored P a c)
    (fun e he => ⟨by
      rw [← hF e he c (Or.inl rfl)]; unfold faceImage; split_ifs with h
      · subst h; rfl
      · rfl, by
      rw [← hF e he _ (Or.inr rfl)]; unfold faceImage; split_ifs with h
      · subst h; rw [hτ.up_along, down_up]
      · rw [hτ.up _ _ h]⟩)
  unfold stepCell
  rw [hu c hb, hup]
  split_ifs with hgv
  · rw [hgr' hgv c hb, mirrorAlong_d, gravitySource_mirror ha]
  · rfl

end

end Verif
