import Verif.Lemmas.Exchange
import Verif.Lemmas.MirrorStep

/-! Helper lemmas: the whole hydro step with two axes exchanged. -/

namespace Verif

open Spec Sdm ROps

section
variable {d3 : Bool} {S : Settings ℝ} {J J' : Junk ℝ} {dt : ℝ} {P : Grid} {B : Sides} {impl : Int} {grav : Bool}
  {it : Nat} {m m1 : Addr → ℝ} {t : Dir}

theorem exchangeCell_up (t e : Dir) (c : Cell) :
    exchangeCell t (c.up e) = (exchangeCell t c).up (exchanged t e) := by cases t <;> cases e <;> rfl

theorem exchangeCell_down (t e : Dir) (c : Cell) :
    exchangeCell t (c.down e) = (exchangeCell t c).down (exchanged t e) := by cases t <;> cases e <;> rfl

/-! ### Fluxes -/

theorem slopesAt_exchange (hv : ValidHydro d3 S) (ht : CanExchange d3 t)
    {q q' : Cell → HState ℝ} {c : Cell} (hq : ∀ c', near d3 c c' → q' (exchangeCell t c') = exchangeState t (q c'))
    (j j' : Dir → HState ℝ) {e : Dir} (he : e.ok d3) :
    slopesAt d3 (exchangeSettings t S) j' q' (exchangeCell t c) (exchanged t e) =
      exchangeState t (slopesAt d3 S j q c e) := by
  unfold slopesAt
  rw [hq c (Or.inl rfl)]
  have hu : q' (exchangeCell t (c.up e)) = exchangeState t (q (c.up e)) := hq _ (Or.inr ⟨e, he, Or.inl rfl⟩)
  have hd : q' (exchangeCell t (c.down e)) = exchangeState t (q (c.down e)) := hq _ (Or.inr ⟨e, he, Or.inr rfl⟩)
  have U : ∀ (e : Dir) (_ : e.ok d3) (q : Cell → HState ℝ) (c : Cell), upF d3 q c e = q (c.up e) := by
    intro e he q c
    cases e
    · rfl
    · rfl
    · have : d3 = true := he.resolve_right (by simp)
      subst this; rfl
  have D : ∀ (e : Dir) (_ : e.ok d3) (q : Cell → HState ℝ) (c : Cell), downF d3 q c e = q (c.down e) := by
    intro e he q c
    cases e
    · rfl
    · rfl
    · have : d3 = true := he.resolve_right (by simp)
      subst this; rfl
  apply slopes_exchange hv ht
  · rw [U _ he, U _ (exchanged_ok ht he), ← exchangeCell_up, hu]
  · rw [D _ he, D _ (exchanged_ok ht he), ← exchangeCell_down, hd]

theorem flux_exchange (hv : ValidHydro d3 S) (ht : CanExchange d3 t) {gl gr : Bool} {dt : ℝ} (j j' : HState ℝ)
    {q q' g g' : Cell → HState ℝ} {s s' : Cell → Dir → HState ℝ} {c : Cell} {e : Dir} (he : e.ok d3)
    (hq : ∀ c0, c0 = c ∨ c0 = c.down e → q' (exchangeCell t c0) = exchangeState t (q c0))
    (hs : ∀ c0, c0 = c ∨ c0 = c.down e → ∀ d, d.ok d3 →
      s' (exchangeCell t c0) (exchanged t d) = exchangeState t (s c0 d))
    (hg : gl = true ∨ gr = true → ∀ c0, c0 = c ∨ c0 = c.down e → g' (exchangeCell t c0) = exchangeState t (g c0)) :
    fluxOf d3 (exchangeSettings t S) j' gl gr dt (exchanged t e) (q' ((exchangeCell t c).down (exchanged t e)))
      (s' ((exchangeCell t c).down (exchanged t e))) (g' ((exchangeCell t c).down (exchanged t e)))
      (q' (exchangeCell t c)) (s' (exchangeCell t c)) (g' (exchangeCell t c)) =
      exchangeState t (fluxOf d3 S j gl gr dt e (q (c.down e)) (s (c.down e)) (g (c.down e)) (q c) (s c) (g c)) := by
  have pr : ∀ (b : Bool), (b = true → gl = true ∨ gr = true) → ∀ c0, c0 = c ∨ c0 = c.down e → ∀ q : HState ℝ,
      pred d3 b dt (g' (exchangeCell t c0)) q = pred d3 b dt (exchangeState t (g c0)) q := by
    intro b hb c0 h0 q
    cases b
    · rfl
    · rw [hg (hb rfl) c0 h0]
  rw [← exchangeCell_down]
  unfold fluxOf
  rw [pr gl Or.inl _ (Or.inr rfl), pr gr Or.inr _ (Or.inl rfl), hq _ (Or.inl rfl), hq _ (Or.inr rfl),
    trace_exchange ht _ _ _ (hs _ (Or.inr rfl)) dt he, trace_exchange ht _ _ _ (hs _ (Or.inl rfl)) dt he,
    pred_exchange ht, pred_exchange ht, faceFlux_exchange hv ht he j j',
    show dtOver (exchangeSettings t S) dt (exchanged t e) = dtOver S dt e by cases t <;> cases e <;> rfl]

theorem stepFlux_exchange (hv : ValidHydro d3 S) (ht : CanExchange d3 t)
    {u u' g g' : Cell → HState ℝ} {c : Cell} {e : Dir} (he : e.ok d3)
    (hz : grav = true → impl = 0 ∨ t = .z)
    (hu : ∀ c', near d3 c c' ∨ near d3 (c.down e) c' → u' (exchangeCell t c') = exchangeState t (u c'))
    (hg : grav = true → ∀ c0, c0 = c ∨ c0 = c.down e → g' (exchangeCell t c0) = exchangeState t (g c0)) :
    stepFlux d3 (exchangeSettings t S) J' impl grav dt u' g' (exchanged t e) (exchangeCell t c) =
      exchangeState t (stepFlux d3 S J impl grav dt u g e c) := by
  have hq : ∀ c', near d3 c c' ∨ near d3 (c.down e) c' →
      primAt d3 (exchangeSettings t S) u' (exchangeCell t c') = exchangeState t (primAt d3 S u c') := fun c' hc' => by
    unfold primAt; rw [hu c' hc', prim_exchange ht]
  have hq' : ∀ c0, c0 = c ∨ c0 = c.down e →
      primAt d3 (exchangeSettings t S) u' (exchangeCell t c0) = exchangeState t (primAt d3 S u c0) := by
    rintro c0 (rfl | rfl)
    · exact hq _ (Or.inl (Or.inl rfl))
    · exact hq _ (Or.inr (Or.inl rfl))
  have hsl : ∀ (j j' : Dir → HState ℝ) c0, c0 = c ∨ c0 = c.down e → ∀ d, d.ok d3 →
      slopesAt d3 (exchangeSettings t S) j' (primAt d3 (exchangeSettings t S) u') (exchangeCell t c0) (exchanged t d) =
        exchangeState t (slopesAt d3 S j (primAt d3 S u) c0 d) := by
    rintro j j' c0 (rfl | rfl) d hd
    · exact slopesAt_exchange hv ht (fun c' hc' => hq c' (Or.inl hc')) j j' hd
    · exact slopesAt_exchange hv ht (fun c' hc' => hq c' (Or.inr hc')) j j' hd
  have hv' := hv.exchange t
  unfold stepFlux
  split_ifs with hi
  · unfold fluxAt
    rw [hv'.slopesAt _ (fun _ => HState.zero), hv'.slopesAt (J'.slope _ 0) (fun _ => HState.zero),
      hv.slopesAt (J.slope _ e.tag) (fun _ => HState.zero), hv.slopesAt (J.slope _ 0) (fun _ => HState.zero)]
    exact flux_exchange hv ht _ _ he hq' (hsl _ _) (fun h => hg (by simpa using h))
  · unfold fluxAtSplit
    have eb : (grav && exchanged t e != .z) = (grav && e != .z) := by
      cases hgr : grav
      · rfl
      · obtain rfl := (hz hgr).resolve_left hi
        cases e <;> rfl
    rw [eb]
    refine flux_exchange hv ht _ _ he hq' (fun c0 h0 d hd => ?_) (fun h => hg (by simp at h; tauto))
    unfold slopes1 storedAt
    have := hsl (if d3 then J.slope c0 0 else fun _ => HState.zero)
      (if d3 then J'.slope (exchangeCell t c0) 0 else fun _ => HState.zero) c0 h0 d hd
    cases d3
    · obtain rfl := ht.resolve_left (by decide)
      cases d
      · exact this
      · exact this
      · exact absurd rfl (hd.resolve_left (by decide))
    · cases t <;> cases d <;> exact this

/-! ### The box -/

theorem Spec.BoxSetup.exchange {nv : ℕ} {w : Int} (h : BoxSetup d3 nv w P B) (ht : CanExchange d3 t) :
    BoxSetup d3 nv w (exchangeGrid t P) (B.exchange t) := by
  rcases ht with rfl | rfl
  · cases t
    · exact ⟨h.gw, h.nv, h.nx, h.nz rfl, fun _ => h.ny, h.xmin, h.xmax, h.zmin rfl, h.zmax rfl,
        fun _ => h.ymin, fun _ => h.ymax⟩
    · exact ⟨h.gw, h.nv, h.nz rfl, h.ny, fun _ => h.nx, h.zmin rfl, h.zmax rfl, h.ymin, h.ymax,
        fun _ => h.xmin, fun _ => h.xmax⟩
    · exact ⟨h.gw, h.nv, h.ny, h.nx, h.nz, h.ymin, h.ymax, h.xmin, h.xmax, h.zmin, h.zmax⟩
  · exact ⟨h.gw, h.nv, h.ny, h.nx, h.nz, h.ymin, h.ymax, h.xmin, h.xmax, h.zmin, h.zmax⟩

theorem exchange_box (ht : CanExchange d3 t) {c : Cell} (h : P.box d3 c) :
    (exchangeGrid t P).box d3 (exchangeCell t c) := by
  rw [box_iff] at h ⊢
  obtain ⟨h1, h2, h3, h4, h5⟩ := h
  cases d3
  · obtain rfl := ht.resolve_left (by decide)
    exact ⟨h3, h4, h1, h2, h5⟩
  · simp only [if_true] at h5 ⊢
    cases t
    · exact ⟨h1, h2, h5.1, h5.2, h3, h4⟩
    · exact ⟨h5.1, h5.2, h3, h4, h1, h2⟩
    · exact ⟨h3, h4, h1, h2, h5⟩

theorem exchange_inner (ht : CanExchange d3 t) {c : Cell} (h : P.inner d3 c) :
    (exchangeGrid t P).inner d3 (exchangeCell t c) := by
  rw [inner_iff] at h ⊢
  obtain ⟨h0, h1, h2, h3, h4⟩ := h
  cases d3
  · obtain rfl := ht.resolve_left (by decide)
    refine ⟨fun e => absurd e (by decide), ?_, ?_, ?_, ?_⟩ <;> simp only [exchangeGrid, exchangeCell] <;> omega
  · have := h0 rfl
    cases t <;> refine ⟨fun e => ?_, ?_, ?_, ?_, ?_⟩ <;> simp only [exchangeGrid, exchangeCell] <;> omega

theorem exchangeVar_lt (ht : CanExchange d3 t) {v : ℕ} (hv : v < hydroVars d3) :
    exchangeVar t v < hydroVars d3 := by
  unfold exchangeVar
  cases d3
  · obtain rfl := ht.resolve_left (by decide)
    simp only [hydroVars] at hv ⊢; split_ifs <;> simp at * <;> omega
  · cases t <;> simp only [hydroVars, if_true] at hv ⊢ <;> split_ifs <;> omega

theorem exchangeVar_exchangeVar (t : Dir) (v : ℕ) : exchangeVar t (exchangeVar t v) = v := by
  unfold exchangeVar
  cases t <;> dsimp only <;> split_ifs <;> omega

theorem exchangeCell_exchangeCell (t : Dir) (c : Cell) : exchangeCell t (exchangeCell t c) = c := by
  cases t <;> rfl

theorem field_exchange (ht : CanExchange d3 t) {m m' : Addr → ℝ} {A A' : ℕ} {c c' : Cell}
    (h : ∀ v < hydroVars d3, m' (c'.at A' (exchangeVar t v)) = m (c.at A v)) :
    field d3 m' A' c' = exchangeState t (field d3 m A c) := by
  have h0 := h 0 (by cases d3 <;> decide)
  have h1 := h 1 (by cases d3 <;> decide)
  have h2 := h 2 (by cases d3 <;> decide)
  have h3 := h 3 (by cases d3 <;> decide)
  unfold field
  cases d3
  · obtain rfl := ht.resolve_left (by decide)
    simp [exchangeVar] at h0 h1 h2 h3
    simp [exchangeState, h0, h1, h2, h3]
  · have h4 := h 4 (by decide)
    cases t <;> simp [exchangeVar] at h0 h1 h2 h3 h4 <;> simp [exchangeState, h0, h1, h2, h3, h4]

theorem normalTo_exchange (e : Dir) {v : ℕ} (hv : v < 5) :
    normalTo (axis (exchanged t e)) false (exchangeVar t v) = normalTo (axis e) false v := by
  interval_cases v <;> cases t <;> cases e <;> rfl

/-- Arrays whose interiors are exchanged images are so after the ghost cells have been filled. -/
theorem fill_exchange (h : BoxSetup d3 (hydroVars d3) 2 P B) (ht : CanExchange d3 t) {U : ℕ} {n n1 : Addr → ℝ}
    (f : FilledMem d3 false P B U m m1) (f' : FilledMem d3 false (exchangeGrid t P) (B.exchange t) U n n1)
    (hm : ∀ c, P.box d3 c → P.inner d3 c → ∀ v < hydroVars d3,
      n ((exchangeCell t c).at U (exchangeVar t v)) = m (c.at U v)) {c : Cell} (hb : P.box d3 c) :
    field d3 n1 U (exchangeCell t c) = exchangeState t (field d3 m1 U c) := by
  refine field_exchange ht fun v hv => ?_
  have hb' := box_iff.1 hb
  have hg := h.gw
  have hg0 : 0 ≤ P.ghostWidth := by omega
  have hv' : v < P.nbvar := h.nv ▸ hv
  have hnx := h.nx
  have hny := h.ny
  have s5 : (exchangeGrid t P).nbvar = P.nbvar := by cases t <;> rfl
  have hv2 : exchangeVar t v < (exchangeGrid t P).nbvar := by rw [s5, h.nv]; exact exchangeVar_lt ht hv
  rw [f'.cells _ _ (exchange_box ht hb) hv2, f.cells _ _ hb hv', crossAll_eq, crossAll_eq]
  have es : srcCell d3 (exchangeGrid t P) (B.exchange t) (exchangeCell t c) = exchangeCell t (srcCell d3 P B c) := by
    cases d3
    · obtain rfl := ht.resolve_left (by decide)
      rfl
    · cases t <;> rfl
  have ec : csgnAll d3 (exchangeGrid t P) (B.exchange t) (exchangeCell t c) (exchangeVar t v) =
      csgnAll d3 P B c v := by
    have nv : ∀ e, normalTo (axis (exchanged t e)) false (exchangeVar t v) = normalTo (axis e) false v := by
      exact fun e => normalTo_exchange e (lt_of_lt_of_le hv (by cases d3 <;> decide))
    have nx := nv .x
    have ny := nv .y
    have nz := nv .z
    unfold csgnAll
    cases d3
    · obtain rfl := ht.resolve_left (by decide)
      simp only [exchanged, axis] at nx ny nz
      simp only [exchangeGrid, exchangeCell, Sides.exchange, nx, ny, Bool.false_eq_true, if_false]
      ring
    · cases t <;> simp only [exchanged, axis] at nx ny nz <;>
        simp only [exchangeGrid, exchangeCell, Sides.exchange, nx, ny, nz, if_true] <;> ring
  rw [es, ec]
  have key : ∀ (n : Int) (lo hi : BC) (c : Int), P.ghostWidth ≤ n → 0 ≤ c → c < n + 2 * P.ghostWidth →
      P.ghostWidth ≤ source n P.ghostWidth lo hi c ∧ source n P.ghostWidth lo hi c < n + P.ghostWidth := by
    intro n lo hi c h2 h3 h4
    unfold source
    split_ifs
    · cases lo <;> dsimp only <;> omega
    · cases hi <;> dsimp only <;> omega
    · omega
  have kx := key P.nx B.xlo B.xhi c.i hnx hb'.1 hb'.2.1
  have ky := key P.ny B.ylo B.yhi c.j hny hb'.2.2.1 hb'.2.2.2.1
  rw [hm (srcCell d3 P B c) ?_ ?_ v hv]
  · rw [box_iff]
    simp only [srcCell]
    refine ⟨by omega, by omega, by omega, by omega, ?_⟩
    cases d3
    · simpa using hb'.2.2.2.2
    · have h5 := hb'.2.2.2.2
      simp only [if_true] at h5 ⊢
      have kz := key P.nz B.zlo B.zhi c.k (h.nz rfl) h5.1 h5.2
      omega
  · rw [inner_iff]
    simp only [srcCell]
    refine ⟨?_, by omega, by omega, by omega, by omega⟩
    rintro rfl
    have h5 := hb'.2.2.2.2
    simp only [if_true] at h5 ⊢
    have kz := key P.nz B.zlo B.zhi c.k (h.nz rfl) h5.1 h5.2
    omega

theorem updCell_exchange (ht : CanExchange d3 t) {F F' : Dir → Cell → HState ℝ} {u : HState ℝ} {c c' : Cell}
    (hF : ∀ e, e.ok d3 → F' (exchanged t e) c' = exchangeState t (F e c) ∧
      F' (exchanged t e) (c'.up (exchanged t e)) = exchangeState t (F e (c.up e))) :
    updCell d3 F' (exchangeState t u) c' = exchangeState t (updCell d3 F u c) := by
  have hx := hF .x (Or.inr (by decide))
  have hy := hF .y (Or.inr (by decide))
  unfold updCell
  cases d3
  · obtain rfl := ht.resolve_left (by decide)
    simp only [exchanged] at hx hy
    simp only [Bool.false_eq_true, if_false, hx.1, hx.2, hy.1, hy.2]
    simp only [HState.plusMinus, exchangeState]; rops
    ext <;> simp <;> ring
  · have hz := hF .z (Or.inl rfl)
    simp only [if_true]
    cases t <;> simp only [exchanged] at hx hy hz <;> simp only [hx.1, hx.2, hy.1, hy.2, hz.1, hz.2] <;>
      simp only [HState.plusMinus, exchangeState] <;> rops <;> ext <;> simp <;> ring

theorem gravitySource_exchange (ht : CanExchange d3 t) (rho : ℝ) (g u : HState ℝ) :
    gravitySource d3 (exchangeSettings t S) dt rho (exchangeState t g) (exchangeState t u) =
      exchangeState t (gravitySource d3 S dt rho g u) := by
  unfold gravitySource
  cases d3
  · obtain rfl := ht.resolve_left (by decide)
    simp only [exchangeState, exchangeSettings, Bool.false_eq_true, if_false]; rops
    ext <;> simp <;> ring
  · cases t <;> simp only [exchangeState, exchangeSettings, if_true] <;> rops <;> ext <;> simp <;> ring

theorem exchangeState_d (t : Dir) (q : HState ℝ) : (exchangeState t q).d = q.d := by cases t <;> rfl

/-- A step of the run with exchanged axes gives the result with exchanged axes. -/
theorem step_exchange (h : BoxSetup d3 (hydroVars d3) 2 P B) (hv : ValidHydro d3 S)
    (ht : CanExchange d3 t) (himpl : impl = 0 ∨ impl = 1)
    (hz : grav = true → impl = 0 ∨ t = .z) {m' n n' : Addr → ℝ}
    (r : Runs (godunov_unsplit d3 S P J impl grav dt it) m m')
    (r' : Runs (godunov_unsplit d3 (exchangeSettings t S) (exchangeGrid t P) J' impl grav dt it) n n')
    (hm : ∀ c, P.box d3 c → P.inner d3 c → ∀ v < hydroVars d3,
      n ((exchangeCell t c).at (bufIn it) (exchangeVar t v)) = m (c.at (bufIn it) v))
    (hgr : grav = true → ∀ c, P.box d3 c → gfield d3 n (exchangeCell t c) = exchangeState t (gfield d3 m c))
    {c : Cell} (hb : P.box d3 c) (hi : P.inner d3 c) :
    field d3 n' (bufOut it) (exchangeCell t c) = exchangeState t (field d3 m' (bufOut it) c) := by
  obtain ⟨m1, m2, f, y, R⟩ := step_whole (S := S) (J := J) (grav := grav) (dt := dt) (it := it) h himpl m
  obtain rfl := y.unique r
  obtain ⟨n1, n2, f', y', R'⟩ := step_whole (S := exchangeSettings t S) (J := J') (grav := grav) (dt := dt) (it := it)
    (h.exchange ht) himpl n
  obtain rfl := y'.unique r'
  rw [R.inner c hb hi, R'.inner _ (exchange_box ht hb) (exchange_inner ht hi)]
  have hu : ∀ c, P.box d3 c →
      field d3 n1 (bufIn it) (exchangeCell t c) = exchangeState t (field d3 m1 (bufIn it) c) :=
    fun c hc => fill_exchange h ht f f' hm hc
  have hbufG : ∀ (Q : Grid) (c : Cell) v,
      ¬ ((c.at aG v).arr = bufIn it ∧ Q.box d3 (c.at aG v).cell ∧ (c.at aG v).v < Q.nbvar) := by
    intro Q c v e
    have := e.1
    simp only [Cell.at_arr] at this
    unfold bufIn at this
    split_ifs at this <;> simp [aG, aU, aU2] at this
  have hgm : ∀ c, gfield d3 m1 c = gfield d3 m c := by
    intro c; unfold gfield; rw [f.frame _ (hbufG _ c 0), f.frame _ (hbufG _ c 1), f.frame _ (hbufG _ c 2)]
  have hgn : ∀ c, gfield d3 n1 c = gfield d3 n c := by
    intro c; unfold gfield; rw [f'.frame _ (hbufG _ c 0), f'.frame _ (hbufG _ c 1), f'.frame _ (hbufG _ c 2)]
  have hgr' : grav = true → ∀ c, P.box d3 c → gfield d3 n1 (exchangeCell t c) = exchangeState t (gfield d3 m1 c) := by
    intro e c hc; rw [hgm, hgn]; exact hgr e c hc
  have hb' := box_iff.1 hb
  have hi' := inner_iff.1 hi
  have hgw := h.gw
  have hF : ∀ e, e.ok d3 → ∀ c0, c0 = c ∨ c0 = c.up e →
      stepFlux d3 (exchangeSettings t S) J' impl grav dt (field d3 n1 (bufIn it)) (gfield d3 n1) (exchanged t e)
          (exchangeCell t c0) =
        exchangeState t (stepFlux d3 S J impl grav dt (field d3 m1 (bufIn it)) (gfield d3 m1) e c0) := by
    intro e he c0 hc0
    have bnd : (P.ghostWidth ≤ c0.i ∧ c0.i ≤ P.nx + P.ghostWidth) ∧
        (P.ghostWidth ≤ c0.j ∧ c0.j ≤ P.ny + P.ghostWidth) ∧
        (if d3 then P.ghostWidth ≤ c0.k ∧ c0.k ≤ P.nz + P.ghostWidth else c0.k = 0) := by
      obtain ⟨i0, i1, i2, i3, i4⟩ := hi'
      obtain ⟨b1, b2, b3, b4, b5⟩ := hb'
      rcases hc0 with rfl | rfl
      · refine ⟨by omega, by omega, ?_⟩
        cases d3
        · exact b5
        · have := i0 rfl
          simp only [if_true]; omega
      · cases d3
        · simp only [Bool.false_eq_true, if_false] at b5 ⊢
          cases e
          · exact ⟨by simp only [Cell.up]; omega, by simp only [Cell.up]; omega, b5⟩
          · exact ⟨by simp only [Cell.up]; omega, by simp only [Cell.up]; omega, b5⟩
          · exact absurd rfl (he.resolve_left (by decide))
        · have := i0 rfl
          simp only [if_true]
          cases e <;> simp only [Cell.up] <;> omega
    refine stepFlux_exchange hv ht he hz (fun c' hc' => hu c' (near_face h he bnd.1 bnd.2.1 bnd.2.2 hc').1) ?_
    rintro eg c1 (rfl | rfl)
    · exact hgr' eg _ (near_face h he bnd.1 bnd.2.1 bnd.2.2 (Or.inl (Or.inl rfl))).1
    · exact hgr' eg _ (near_face h he bnd.1 bnd.2.1 bnd.2.2 (Or.inr (Or.inl rfl))).1
  have hup := updCell_exchange (d3 := d3) ht
    (F := stepFlux d3 S J impl grav dt (field d3 m1 (bufIn it)) (gfield d3 m1))
    (F' := stepFlux d3 (exchangeSettings t S) J' impl grav dt (field d3 n1 (bufIn it)) (gfield d3 n1))
    (u := field d3 m1 (bufIn it) c) (c := c) (c' := exchangeCell t c)
    (fun e he => ⟨hF e he c (Or.inl rfl), by rw [← hF e he _ (Or.inr rfl), exchangeCell_up]⟩)
  unfold stepCell
  rw [hu c hb, hup]
  split_ifs with hgv
  · rw [hgr' hgv c hb, exchangeState_d, gravitySource_exchange ht]
  · rfl

end

end Verif
