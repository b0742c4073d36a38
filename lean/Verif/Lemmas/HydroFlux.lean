import Verif.Lemmas.HydroWhole

/-! Helper lemmas: fluxes of the hydro step - unassigned values, translations, agreement of the two
versions. -/

namespace Verif

open K Function ROps Spec

section anyα
variable {α : Type} [ROps α]

variable {d3 : Bool} {S : Settings α} {J J' : Junk α} {grav : Bool} {dt : α}

theorem ValidHydro.riemann (h : ValidHydro d3 S) (ql qr : HState α) (j j' : HState α) :
    (riemann_hydro d3 S ql qr).getD j = (riemann_hydro d3 S ql qr).getD j' := by
  have h1 := h.hlld
  have h2 := h.hll
  unfold riemann_hydro
  cases d3 <;> cases e : S.riemann <;> simp_all

theorem ValidHydro.slopes (h : ValidHydro d3 S) (q : HState α) (a b : Dir → HState α)
    (j j' : Dir → HState α) : (slopes d3 S q a b).getD j = (slopes d3 S q a b).getD j' := by
  have h1 := h.slope
  unfold Verif.slopes
  rcases h1 with h1 | h1 | h1 <;> simp only [h1, if_true, Bool.true_or, Bool.or_true] <;>
    (try split_ifs) <;> rfl

theorem ValidHydro.faceFlux (h : ValidHydro d3 S) (j j' : HState α) (dtd : α) (d : Dir)
    (a b : HState α) : faceFlux d3 S j dtd d a b = faceFlux d3 S j' dtd d a b := by
  unfold Verif.faceFlux; rw [h.riemann _ _ j j']

theorem ValidHydro.slopesAt (h : ValidHydro d3 S) (j j' : Dir → HState α) (q : Cell → HState α)
    (c : Cell) : slopesAt d3 S j q c = slopesAt d3 S j' q c := h.slopes _ _ _ _ _

/-! ### translations -/

/-- A map of cells that commutes with going to neighbours. -/
structure Translation (τ : Cell → Cell) : Prop where
  up : ∀ d c, τ (c.up d) = (τ c).up d
  down : ∀ d c, τ (c.down d) = (τ c).down d

/-- The cell itself and its direct neighbours. -/
def near (d3 : Bool) (c c' : Cell) : Prop :=
  c' = c ∨ ∃ d : Dir, d.ok d3 ∧ (c' = c.up d ∨ c' = c.down d)

theorem slopesAt_shift (h : ValidHydro d3 S) {τ : Cell → Cell} (hτ : Translation τ)
    {q q' : Cell → HState α} {c : Cell} (hq : ∀ c', near d3 c c' → q' (τ c') = q c')
    (j j' : Dir → HState α) : slopesAt d3 S j' q' (τ c) = slopesAt d3 S j q c := by
  have hx : Dir.ok d3 .x := Or.inr (by decide)
  have hy : Dir.ok d3 .y := Or.inr (by decide)
  rw [h.slopesAt j' j]
  have h0 := hq c (Or.inl rfl)
  have hu : ∀ d : Dir, d.ok d3 → q' ((τ c).up d) = q (c.up d) := fun d hd => by
    rw [← hτ.up]; exact hq _ (Or.inr ⟨d, hd, Or.inl rfl⟩)
  have hdn : ∀ d : Dir, d.ok d3 → q' ((τ c).down d) = q (c.down d) := fun d hd => by
    rw [← hτ.down]; exact hq _ (Or.inr ⟨d, hd, Or.inr rfl⟩)
  unfold Verif.slopesAt upF downF
  rw [h0, hu _ hx, hu _ hy, hdn _ hx, hdn _ hy]
  cases d3
  · rfl
  · rw [hu .z (Or.inl rfl), hdn .z (Or.inl rfl)]

/-- The flux through the lower face of `τ c` of translated data is the flux through the lower face
of `c`. -/
theorem stepFlux_shift (h : ValidHydro d3 S) {impl : Int} {τ : Cell → Cell} (hτ : Translation τ)
    {u u' g g' : Cell → HState α} {c : Cell} {d : Dir}
    (hu : ∀ c', near d3 c c' ∨ near d3 (c.down d) c' → u' (τ c') = u c')
    (hg : grav = true → g' (τ c) = g c ∧ g' (τ (c.down d)) = g (c.down d)) :
    stepFlux d3 S J' impl grav dt u' g' d (τ c) = stepFlux d3 S J impl grav dt u g d c := by
  have hq : ∀ c', near d3 c c' ∨ near d3 (c.down d) c' →
      primAt d3 S u' (τ c') = primAt d3 S u c' := fun c' hc' => by
    unfold primAt; rw [hu c' hc']
  have e0 := hq c (Or.inl (Or.inl rfl))
  have e1 := hq (c.down d) (Or.inr (Or.inl rfl))
  have p : ∀ (b : Bool), (b = true → grav = true) → ∀ q : HState α,
      pred d3 b dt (g' (τ c)) q = pred d3 b dt (g c) q ∧
      pred d3 b dt (g' ((τ c).down d)) q = pred d3 b dt (g (c.down d)) q := by
    intro b hb q
    cases b
    · exact ⟨rfl, rfl⟩
    · rw [← hτ.down, (hg (hb rfl)).1, (hg (hb rfl)).2]; exact ⟨rfl, rfl⟩
  unfold stepFlux
  split_ifs with hi
  · unfold fluxAt fluxOf
    rw [h.faceFlux (J'.flux (τ c) d) (J.flux c d), (p grav id _).1, (p grav id _).2, ← hτ.down, e0,
      e1, slopesAt_shift h hτ (fun c' hc' => hq c' (Or.inl hc')) (J.slope c 0),
      slopesAt_shift h hτ (fun c' hc' => hq c' (Or.inr hc')) (J.slope c d.tag)]
  · have hs : ∀ c0 : Cell, (∀ c', near d3 c0 c' → primAt d3 S u' (τ c') = primAt d3 S u c') →
        slopes1 d3 S J' (primAt d3 S u') (τ c0) = slopes1 d3 S J (primAt d3 S u) c0 := by
      intro c0 hc0
      unfold slopes1 storedAt
      rw [slopesAt_shift h hτ hc0 (if d3 then J.slope c0 0 else fun _ => HState.zero)]
    unfold fluxAtSplit fluxOf
    rw [h.faceFlux (J'.flux (τ c) d) (J.flux c d), (p _ (by simp; tauto) _).1, (p grav id _).2,
      ← hτ.down, e0, e1, hs c fun c' hc' => hq c' (Or.inl hc'),
      hs (c.down d) fun c' hc' => hq c' (Or.inr hc')]

theorem Translation.id : Translation id := ⟨fun _ _ => rfl, fun _ _ => rfl⟩

/-- Values of unassigned variables do not matter. -/
theorem stepFlux_junk (h : ValidHydro d3 S) {impl : Int} (J J' : Junk α) (u g : Cell → HState α)
    (d : Dir) (c : Cell) :
    stepFlux d3 S J' impl grav dt u g d c = stepFlux d3 S J impl grav dt u g d c :=
  stepFlux_shift h Translation.id (fun _ _ => rfl) (fun _ => ⟨rfl, rfl⟩)

/-! ### agreement of the two versions -/

theorem traceAlongDir_congr {q : HState α} {dq dq' : Dir → HState α} {dtd : Dir → α} {d : Dir}
    {upper : Bool} (hd : d.ok d3) (h : ∀ d : Dir, d.ok d3 → dq d = dq' d) :
    traceAlongDir d3 S q dq dtd d upper = traceAlongDir d3 S q dq' dtd d upper := by
  have hx := h .x (Or.inr (by decide))
  have hy := h .y (Or.inr (by decide))
  have hdd := h d hd
  unfold traceAlongDir traceSource
  cases d3
  · simp only [hx, hy, hdd, Bool.false_eq_true, if_false]
  · have hz := h .z (Or.inl rfl)
    simp only [hx, hy, hz, hdd]

theorem stepFlux_agree (h : ValidHydro d3 S) {d : Dir} (hg : grav = true → d ≠ .z) (J J' : Junk α)
    (u g : Cell → HState α) (hd : d.ok d3) (c : Cell) :
    stepFlux d3 S J' 1 grav dt u g d c = stepFlux d3 S J 0 grav dt u g d c := by
  have hz : (grav && d != .z) = grav := by
    cases grav
    · rfl
    · cases d <;> simp_all
  have key : ∀ (c : Cell) (j : Dir → HState α) (d' : Dir), d'.ok d3 →
      slopes1 d3 S J' (primAt d3 S u) c d' = slopesAt d3 S j (primAt d3 S u) c d' := by
    intro c j d' hd'
    unfold slopes1 storedAt
    rw [h.slopesAt _ j]
    cases d' with
    | x => rfl
    | y => rfl
    | z =>
      rcases hd' with rfl | hd'
      · rfl
      · exact absurd rfl hd'
  simp only [stepFlux, fluxAtSplit, fluxAt, fluxOf, if_true, one_ne_zero, if_false, hz]
  rw [h.faceFlux (J'.flux c d) (J.flux c d),
    traceAlongDir_congr hd (key (c.down d) (J.slope c d.tag)),
    traceAlongDir_congr hd (key c (J.slope c 0))]

theorem updCell_ext {F F' : Dir → Cell → HState α} (h : ∀ (d : Dir) c, d.ok d3 → F d c = F' d c)
    (u : HState α) (c : Cell) : updCell d3 F u c = updCell d3 F' u c := by
  have hx := fun c => h .x c (Or.inr (by decide))
  have hy := fun c => h .y c (Or.inr (by decide))
  cases d3
  · simp only [updCell, hx, hy]; rfl
  · have hz := fun c => h .z c (Or.inl rfl)
    simp only [updCell, hx, hy, hz]

theorem stepCell_ext {F F' : Dir → Cell → HState α} (h : ∀ (d : Dir) c, d.ok d3 → F d c = F' d c)
    (u g : Cell → HState α) (c : Cell) :
    stepCell d3 S grav dt F u g c = stepCell d3 S grav dt F' u g c := by
  unfold stepCell; rw [updCell_ext h]

/-- Two steps from the same memory with equal fluxes give the same output array. -/
theorem output_eq {P : Grid} {B : Sides} {impl impl' : Int} {it : Nat}
    (h : BoxSetup d3 (hydroVars d3) 2 P B) (hi : impl = 0 ∨ impl = 1) (hi' : impl' = 0 ∨ impl' = 1)
    (hF : ∀ (u g : Cell → HState α) (d : Dir) c, d.ok d3 →
      stepFlux d3 S J impl grav dt u g d c = stepFlux d3 S J' impl' grav dt u g d c)
    {m m1 m2 : Addr → α}
    (r1 : Runs (godunov_unsplit d3 S P J impl grav dt it) m m1)
    (r2 : Runs (godunov_unsplit d3 S P J' impl' grav dt it) m m2) :
    ∀ a, a.arr = bufOut it → m1 a = m2 a := by
  obtain ⟨f1, x1, F1, Y1, R1⟩ := step_whole (S := S) (J := J) (grav := grav) (dt := dt) (it := it)
    h hi m
  obtain ⟨f2, x2, F2, Y2, R2⟩ := step_whole (S := S) (J := J') (grav := grav) (dt := dt) (it := it)
    h hi' m
  obtain rfl := Y1.unique r1
  obtain rfl := Y2.unique r2
  have hff : f1 = f2 := by
    funext a
    by_cases ha : a.arr = bufIn it ∧ P.box d3 a.cell ∧ a.v < P.nbvar
    · have e1 := F1.cells a.cell a.v ha.2.1 ha.2.2
      have e2 := F2.cells a.cell a.v ha.2.1 ha.2.2
      rw [← ha.1] at e1 e2
      exact e1.trans e2.symm
    · rw [F1.frame a ha, F2.frame a ha]
  subst hff
  intro a ha
  by_cases hd : P.box d3 a.cell ∧ a.v < P.nbvar
  · have key : field d3 m1 (bufOut it) a.cell = field d3 m2 (bufOut it) a.cell := by
      by_cases hin : P.inner d3 a.cell
      · rw [R1.inner _ hd.1 hin, R2.inner _ hd.1 hin]
        exact stepCell_ext (fun d c hdd => hF _ _ d c hdd) _ _ _
      · rw [R1.outer _ hd.1 hin, R2.outer _ hd.1 hin]
    have e1 := field_get d3 m1 (bufOut it) a.cell (v := a.v) (h.nv ▸ hd.2)
    have e2 := field_get d3 m2 (bufOut it) a.cell (v := a.v) (h.nv ▸ hd.2)
    rw [key, e2] at e1
    rw [← ha] at e1
    exact e1.symm
  · have nd : ∀ i : Int, ¬ hydroDom d3 P i grav a := by
      rintro i ⟨h1, ⟨-, h3⟩ | ⟨-, h3, -⟩⟩
      · exact hd ⟨h1, h3⟩
      · have := (hydroOk_of (it := it) h hi).out_lt
        rw [← ha, h3] at this; simp [aG] at this
    rw [R1.frame a (nd _), R2.frame a (nd _)]

end anyα

/-! ### periodic domains -/

/-- Translation by a vector. -/
def shiftBy (a b e : Int) (c : Cell) : Cell := ⟨c.i + a, c.j + b, c.k + e⟩

theorem shiftBy_translation (a b e : Int) : Translation (shiftBy a b e) := by
  constructor
  · intro d c; cases d <;> simp [shiftBy, Cell.up, add_right_comm]
  · intro d c; cases d <;> simp [shiftBy, Cell.down] <;> ring

theorem source_periodic {n g c : Int} (hn : g ≤ n) (h0 : 0 ≤ c) (h1 : c < 2 * g) :
    source n g .periodic .periodic (c + n) = source n g .periodic .periodic c := by
  unfold source
  by_cases hc : c < g
  · rw [if_neg (by omega), if_neg (by omega), if_pos hc]
  · rw [if_neg (by omega), if_pos (by omega), if_neg hc, if_neg (by omega)]
    simp

section periodic

variable {d3 mhd : Bool} {P : Grid} {nv : Nat} {w : Int} {U : Nat} {m m1 : Addr → ℝ}

theorem periodic_cross (c : Cell) (v : Nat) (x : ℝ) :
    crossAll d3 mhd P (Sides.all .periodic) c v x = x :=
  crossAll_real_id ⟨by decide, by decide⟩ ⟨by decide, by decide⟩
    (fun _ => ⟨by decide, by decide⟩) c v x

/-- The filled state repeats after one period. -/
theorem FilledMem.periodic_x (h : BoxSetup d3 nv w P (Sides.all .periodic))
    (f : FilledMem d3 mhd P (Sides.all .periodic) U m m1) {c : Cell} (hb : P.box d3 c)
    (hc : c.i < 2 * P.ghostWidth) {v : Nat} (hv : v < P.nbvar) :
    m1 ((shiftBy P.nx 0 0 c).at U v) = m1 (c.at U v) := by
  have hb' := box_iff.1 hb
  have : P.box d3 (shiftBy P.nx 0 0 c) := by
    have := h.nx
    rw [box_iff]; simp only [shiftBy]
    refine ⟨by omega, by omega, by omega, by omega, ?_⟩
    simpa using hb'.2.2.2.2
  rw [f.cells _ _ this hv, f.cells _ _ hb hv, periodic_cross, periodic_cross]
  congr 2
  simp only [srcCell, shiftBy, Sides.all, add_zero]
  rw [source_periodic h.nx hb'.1 hc]

theorem FilledMem.periodic_y (h : BoxSetup d3 nv w P (Sides.all .periodic))
    (f : FilledMem d3 mhd P (Sides.all .periodic) U m m1) {c : Cell} (hb : P.box d3 c)
    (hc : c.j < 2 * P.ghostWidth) {v : Nat} (hv : v < P.nbvar) :
    m1 ((shiftBy 0 P.ny 0 c).at U v) = m1 (c.at U v) := by
  have hb' := box_iff.1 hb
  have : P.box d3 (shiftBy 0 P.ny 0 c) := by
    have := h.ny
    rw [box_iff]; simp only [shiftBy]
    refine ⟨by omega, by omega, by omega, by omega, ?_⟩
    simpa using hb'.2.2.2.2
  rw [f.cells _ _ this hv, f.cells _ _ hb hv, periodic_cross, periodic_cross]
  congr 2
  simp only [srcCell, shiftBy, Sides.all, add_zero]
  rw [source_periodic h.ny hb'.2.2.1 hc]

theorem FilledMem.periodic_z (h : BoxSetup true nv w P (Sides.all .periodic))
    (f : FilledMem true mhd P (Sides.all .periodic) U m m1) {c : Cell} (hb : P.box true c)
    (hc : c.k < 2 * P.ghostWidth) {v : Nat} (hv : v < P.nbvar) :
    m1 ((shiftBy 0 0 P.nz c).at U v) = m1 (c.at U v) := by
  have hb' := box_iff.1 hb
  simp only [if_true] at hb'
  have : P.box true (shiftBy 0 0 P.nz c) := by
    have := h.nz rfl
    rw [box_iff]; simp only [shiftBy, if_true]
    exact ⟨by omega, by omega, by omega, by omega, by omega, by omega⟩
  rw [f.cells _ _ this hv, f.cells _ _ hb hv, periodic_cross, periodic_cross]
  congr 2
  simp only [srcCell, shiftBy, Sides.all, add_zero, if_true]
  rw [source_periodic (h.nz rfl) hb'.2.2.2.2.1 hc]

/-- All cells equal after the fill if the interior is uniform and no side reflects. -/
theorem FilledMem.uniform {B : Sides} (h : BoxSetup d3 nv w P B) (hw : 0 ≤ w)
    (f : FilledMem d3 mhd P B U m m1)
    (hx : B.xlo ≠ .reflecting ∧ B.xhi ≠ .reflecting) (hy : B.ylo ≠ .reflecting ∧ B.yhi ≠ .reflecting)
    (hz : d3 = true → B.zlo ≠ .reflecting ∧ B.zhi ≠ .reflecting) {x : ℝ} {v : Nat}
    (hv : v < P.nbvar)
    (hu : ∀ c, P.box d3 c → P.inner d3 c → m (c.at U v) = x) (hpos : 1 ≤ P.nx ∧ 1 ≤ P.ny)
    (hpz : d3 = true → 1 ≤ P.nz) {c : Cell} (hb : P.box d3 c) :
    m1 (c.at U v) = x := by
  rw [f.cells _ _ hb hv, crossAll_real_id hx hy hz]
  have hb' := box_iff.1 hb
  have key : ∀ (n : Int) (lo hi : BC) (c : Int), 1 ≤ n → P.ghostWidth ≤ n → 0 ≤ c →
      c < n + 2 * P.ghostWidth → lo ≠ .reflecting → hi ≠ .reflecting →
      P.ghostWidth ≤ source n P.ghostWidth lo hi c ∧
        source n P.ghostWidth lo hi c < n + P.ghostWidth := by
    intro n lo hi c h1 h2 h3 h4 h5 h6
    unfold source
    split_ifs
    · cases lo <;> simp_all <;> omega
    · cases hi <;> simp_all <;> omega
    · omega
  have hg := h.gw
  have kx := key P.nx B.xlo B.xhi c.i hpos.1 h.nx hb'.1 hb'.2.1 hx.1 hx.2
  have ky := key P.ny B.ylo B.yhi c.j hpos.2 h.ny hb'.2.2.1 hb'.2.2.2.1 hy.1 hy.2
  apply hu
  · rw [box_iff]
    simp only [srcCell]
    refine ⟨by omega, by omega, by omega, by omega, ?_⟩
    cases d3
    · simpa using hb'.2.2.2.2
    · have h5 := hb'.2.2.2.2
      simp only [if_true] at h5 ⊢
      have kz := key P.nz B.zlo B.zhi c.k (hpz rfl) (h.nz rfl) h5.1 h5.2 (hz rfl).1 (hz rfl).2
      omega
  · rw [inner_iff]
    simp only [srcCell]
    refine ⟨?_, by omega, by omega, by omega, by omega⟩
    rintro rfl
    have h5 := hb'.2.2.2.2
    simp only [if_true] at h5 ⊢
    have kz := key P.nz B.zlo B.zhi c.k (hpz rfl) (h.nz rfl) h5.1 h5.2 (hz rfl).1 (hz rfl).2
    omega

end periodic

/-! ### conservation -/

section conservation

variable {d3 : Bool} {S : Settings ℝ} {J : Junk ℝ} {dt : ℝ} {P : Grid} {B : Sides} {impl : Int}
  {it : Nat} {m m1 m' : Addr → ℝ}

/-- Change of the totals in a step without gravity. -/
theorem total_change (h : BoxSetup d3 (hydroVars d3) 2 P B)
    (f : FilledMem d3 false P B (bufIn it) m m1)
    (r : StepResult d3 S P J impl false dt (bufIn it) (bufOut it) m1 m') {v : Nat}
    (hv : v < hydroVars d3) :
    total d3 P m' (bufOut it) v = total d3 P m (bufIn it) v +
      (let F := stepFlux d3 S J impl false dt (field d3 m1 (bufIn it)) (gfield d3 m1)
       netInflow d3 P (fun c => (F .x c).get v) (fun c => (F .y c).get v)
        (fun c => (F .z c).get v)) := by
  have e1 : total d3 P m' (bufOut it) v = interiorSum d3 P (fun c =>
      (updCell d3 (stepFlux d3 S J impl false dt (field d3 m1 (bufIn it)) (gfield d3 m1))
        (field d3 m1 (bufIn it) c) c).get v) := by
    refine interiorSum_congr fun i j k hi hj hk => ?_
    obtain ⟨b1, b2⟩ := cell_box h hi hj hk
    have := r.inner _ b1 b2
    simp only [stepCell, Bool.false_eq_true, if_false] at this
    rw [← this, field_get _ _ _ _ hv]; rfl
  have e2 : total d3 P m (bufIn it) v = interiorSum d3 P (fun c =>
      (field d3 m1 (bufIn it) c).get v) := by
    refine interiorSum_congr fun i j k hi hj hk => ?_
    obtain ⟨b1, b2⟩ := cell_box h hi hj hk
    rw [field_get _ _ _ _ hv, f.interior b1 b2 (h.nv ▸ hv)]; rfl
  rw [e1, e2, interiorSum_updCell d3 P _ _ hv]

theorem near_bounds {c c' : Cell} (h : near d3 c c') :
    c.i - 1 ≤ c'.i ∧ c'.i ≤ c.i + 1 ∧ c.j - 1 ≤ c'.j ∧ c'.j ≤ c.j + 1 ∧ c.k - 1 ≤ c'.k ∧
      c'.k ≤ c.k + 1 ∧ (d3 = false → c'.k = c.k) := by
  rcases h with rfl | ⟨d, hd, rfl | rfl⟩
  · refine ⟨?_, ?_, ?_, ?_, ?_, ?_, fun _ => rfl⟩ <;> omega
  · cases d <;> simp only [Cell.up] <;> refine ⟨?_, ?_, ?_, ?_, ?_, ?_, fun e => ?_⟩ <;>
      first | omega | trivial | (subst e; simp [Dir.ok] at hd)
  · cases d <;> simp only [Cell.down] <;> refine ⟨?_, ?_, ?_, ?_, ?_, ?_, fun e => ?_⟩ <;>
      first | omega | trivial | (subst e; simp [Dir.ok] at hd)

/-- Fluxes through opposite sides of a periodic box agree. -/
theorem periodic_flux (h : BoxSetup d3 (hydroVars d3) 2 P (Sides.all .periodic))
    (hv : ValidHydro d3 S)
    (f : FilledMem d3 false P (Sides.all .periodic) (bufIn it) m m1) :
    let F := stepFlux d3 S J impl false dt (field d3 m1 (bufIn it)) (gfield d3 m1)
    (∀ j k, j < P.ny.toNat → k < depth d3 P →
      F .x (cell d3 P 0 j k) = F .x (cell d3 P P.nx.toNat j k)) ∧
    (∀ i k, i < P.nx.toNat → k < depth d3 P →
      F .y (cell d3 P i 0 k) = F .y (cell d3 P i P.ny.toNat k)) ∧
    (d3 = true → ∀ i j, i < P.nx.toNat → j < P.ny.toNat →
      F .z (cell d3 P i j 0) = F .z (cell d3 P i j P.nz.toNat)) := by
  intro F
  have hg := h.gw
  have hnx := h.nx
  have hny := h.ny
  have bnd : ∀ (c c' : Cell) (d : Dir), d.ok d3 → near d3 c c' ∨ near d3 (c.down d) c' →
      c.i - 2 ≤ c'.i ∧ c'.i ≤ c.i + 1 ∧ c.j - 2 ≤ c'.j ∧ c'.j ≤ c.j + 1 ∧ c.k - 2 ≤ c'.k ∧
      c'.k ≤ c.k + 1 ∧ (d3 = false → c'.k = c.k) := by
    intro c c' d hd hn
    rcases hn with hn | hn
    · obtain ⟨h1, h2, h3, h4, h5, h6, h7⟩ := near_bounds hn
      refine ⟨?_, ?_, ?_, ?_, ?_, ?_, h7⟩ <;> omega
    · obtain ⟨h1, h2, h3, h4, h5, h6, h7⟩ := near_bounds hn
      cases d <;> simp only [Cell.down] at h1 h2 h3 h4 h5 h6 h7
      · refine ⟨?_, ?_, ?_, ?_, ?_, ?_, h7⟩ <;> omega
      · refine ⟨?_, ?_, ?_, ?_, ?_, ?_, h7⟩ <;> omega
      · refine ⟨?_, ?_, ?_, ?_, ?_, ?_, fun e => ?_⟩
        all_goals first | omega | (subst e; simp [Dir.ok] at hd)
  refine ⟨?_, ?_, ?_⟩
  · intro j k hj hk
    have e : cell d3 P P.nx.toNat j k = shiftBy P.nx 0 0 (cell d3 P 0 j k) := by
      simp [cell, shiftBy]; omega
    rw [e]
    refine (stepFlux_shift hv (shiftBy_translation _ _ _) ?_ (by simp)).symm
    intro c' hc'
    have hb := bnd _ _ .x (Or.inr (by decide)) hc'
    unfold depth at hk
    simp only [cell] at hb
    refine field_ext fun v hv => ?_
    refine f.periodic_x h (box_iff.2 ?_) (by omega) (h.nv ▸ hv)
    cases d3
    · simp only [Bool.false_eq_true, if_false] at hk hb ⊢
      refine ⟨by omega, by omega, by omega, by omega, hb.2.2.2.2.2.2 trivial⟩
    · simp only [if_true] at hk hb ⊢
      refine ⟨by omega, by omega, by omega, by omega, by omega, by omega⟩
  · intro i k hi hk
    have e : cell d3 P i P.ny.toNat k = shiftBy 0 P.ny 0 (cell d3 P i 0 k) := by
      simp [cell, shiftBy]; omega
    rw [e]
    refine (stepFlux_shift hv (shiftBy_translation _ _ _) ?_ (by simp)).symm
    intro c' hc'
    have hb := bnd _ _ .y (Or.inr (by decide)) hc'
    unfold depth at hk
    simp only [cell] at hb
    refine field_ext fun v hv => ?_
    refine f.periodic_y h (box_iff.2 ?_) (by omega) (h.nv ▸ hv)
    cases d3
    · simp only [Bool.false_eq_true, if_false] at hk hb ⊢
      refine ⟨by omega, by omega, by omega, by omega, hb.2.2.2.2.2.2 trivial⟩
    · simp only [if_true] at hk hb ⊢
      refine ⟨by omega, by omega, by omega, by omega, by omega, by omega⟩
  · rintro rfl i j hi hj
    have hnz := h.nz rfl
    have e : cell true P i j P.nz.toNat = shiftBy 0 0 P.nz (cell true P i j 0) := by
      simp [cell, shiftBy]; omega
    rw [e]
    refine (stepFlux_shift hv (shiftBy_translation _ _ _) ?_ (by simp)).symm
    intro c' hc'
    have hb := bnd _ _ .z (Or.inl rfl) hc'
    simp only [cell, if_true] at hb
    refine field_ext fun v hv => ?_
    refine f.periodic_z h (box_iff.2 ?_) (by omega) (h.nv ▸ hv)
    simp only [if_true]
    refine ⟨by omega, by omega, by omega, by omega, by omega, by omega⟩

end conservation

end Verif
