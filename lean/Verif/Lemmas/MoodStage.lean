import Verif.Lemmas.MoodEffects
import Verif.Lemmas.HydroWhole

/-! Helper lemmas: the fluxes of one stage of the MOOD solver, and the Euler step. -/

namespace Verif.Mood

open Verif K Function ROps Spec

variable {α : Type} [ROps α]

/-- Fluxes through lower and upper faces. -/
def fluxPairs (d3 : Bool) (F : Dir → Cell → HState α) (c : Cell) : Dir → HState α × HState α :=
  Dir.pick (F .x c, F .x (c.up .x)) (F .y c, F .y (c.up .y))
    (if d3 then (F .z c, F .z (c.up .z)) else (HState.zero, HState.zero))

/-- Fluxes before the correction. -/
def flux0 (M : Scheme α) (S : Settings α) (P : Grid) (J : MoodJunk α) (dt : α)
    (old : ℕ → Cell → HState α) (f : Cell → HState α) (d : Dir) (c : Cell) : HState α :=
  storedFlux M S J dt (polyAt M P J f old) d c

/-- Flag of a cell. -/
def flagAt (M : Scheme α) (S : Settings α) (P : Grid) (J : MoodJunk α) (dt : α)
    (old : ℕ → Cell → HState α) (f : Cell → HState α) (c : Cell) : α :=
  if P.inner M.d3 c then flagOf M.d3 S (f c) (fluxPairs M.d3 (flux0 M S P J dt old f) c) else lit 0

/-- Fluxes used in the update. -/
def finalFlux (M : Scheme α) (S : Settings α) (P : Grid) (J : MoodJunk α) (dt : α)
    (old : ℕ → Cell → HState α) (f : Cell → HState α) (d : Dir) (c : Cell) : HState α :=
  if ltb (lit 0) (flagAt M S P J dt old f c) = true then lowFlux M.d3 S dt d (f (c.down d)) (f c)
  else flux0 M S P J dt old f d c

/-- Result of the four loops of one stage. -/
structure StageResult (M : Scheme α) (S : Settings α) (P : Grid) (J : MoodJunk α) (dt : α)
    (U : Nat) (m m' : Addr → α) : Prop where
  flux : ∀ d c, d.ok M.d3 → P.box M.d3 c → faceRegion M.d3 P d c → field M.d3 m' (aF 0 d) c =
    finalFlux M S P J dt (fun i => field M.d3 m (aPoly i)) (field M.d3 m U) d c
  flag : ∀ c, P.box M.d3 c → m' (c.at aFlags 0) =
    flagAt M S P J dt (fun i => field M.d3 m (aPoly i)) (field M.d3 m U) c
  keep : ∀ a : Addr, a.arr < 10 → a.arr ≠ aFlags → (∀ d, a.arr ≠ aF 0 d) → m' a = m a
  poly : ∀ i c, i < M.ncoefs → P.box M.d3 c → field M.d3 m' (aPoly i) c =
    polyAt M P J (field M.d3 m U) (fun i => field M.d3 m (aPoly i)) c i

variable {M : Scheme α} {P : Grid} {ti : TimeInt} {U : Nat} {lay : Layout} {S : Settings α}
  {J : MoodJunk α} {dt : α}

theorem storedFlux_congr {co co' : Cell → ℕ → HState α} {d : Dir} {c : Cell}
    (h1 : co c = co' c) (h2 : co (c.down d) = co' (c.down d)) :
    storedFlux M S J dt co d c = storedFlux M S J dt co' d c := by
  unfold storedFlux; rw [h1, h2]

theorem accFluxes_congr {d3 : Bool} {u : HState α} {f g : Dir → HState α × HState α}
    (h : ∀ d, d.ok d3 → f d = g d) : accFluxes d3 u f = accFluxes d3 u g := by
  unfold accFluxes
  rw [h .x (Or.inr (by decide)), h .y (Or.inr (by decide))]
  cases d3
  · rfl
  · rw [h .z (Or.inl rfl)]

theorem sumFluxes_congr {d3 : Bool} {f g : Dir → HState α × HState α}
    (h : ∀ d, d.ok d3 → f d = g d) : sumFluxes d3 f = sumFluxes d3 g := by
  unfold sumFluxes
  rw [h .x (Or.inr (by decide)), h .y (Or.inr (by decide))]
  cases d3
  · rfl
  · rw [h .z (Or.inl rfl)]

theorem flagOf_congr {d3 : Bool} {u : HState α} {f g : Dir → HState α × HState α}
    (h : ∀ d, d.ok d3 → f d = g d) : flagOf d3 S u f = flagOf d3 S u g := by
  unfold flagOf; rw [accFluxes_congr h]

theorem fluxesAt_pairs {d3 : Bool} {m : Addr → α} {F : Dir → Cell → HState α} {c : Cell}
    (h : ∀ d, d.ok d3 → field d3 m (aF 0 d) c = F d c ∧
      field d3 m (aF 0 d) (c.up d) = F d (c.up d)) :
    fluxesAt d3 m c = fluxPairs d3 F c := by
  have hx := h .x (Or.inr (by decide))
  have hy := h .y (Or.inr (by decide))
  unfold fluxesAt fluxPairs
  rw [hx.1, hx.2, hy.1, hy.2]
  cases d3
  · rfl
  · have hz := h .z (Or.inl rfl)
    rw [hz.1, hz.2]

theorem field_congr {d3 : Bool} {m m' : Addr → α} {A : Nat} (h : ∀ a : Addr, a.arr = A → m' a = m a) :
    field d3 m' A = field d3 m A := by
  funext c
  have : ∀ v, m' (c.at A v) = m (c.at A v) := fun v => h _ rfl
  cases d3 <;> simp [field, this]

theorem stage_yields (h : StageOk M P) (hU : stateArray ti U)
    (hz : ltb (lit 0 : α) (lit 0) = false) (m : Addr → α) :
    ∃ m', YieldsAll (moodDom M.d3 P M.ncoefs ti) (stageFluxes lay M S P dt J U) m m' ∧
      StageResult M S P J dt U m m' := by
  have hlt := stateArray_lt hU
  have hg : 1 ≤ P.ghostWidth := by have := h.gw2; omega
  set m1 := reconMem M P J U m with e1
  set m2 := fluxMem M S P J dt m1 with e2
  set m3 := flagMem M.d3 S P U m2 with e3
  set m4 := lowMem M.d3 S P dt U m3 with e4
  have o1 : ∀ a : Addr, a.arr < 10 → m1 a = m a := fun a ha => reconMem_other ha
  have o2 : ∀ a : Addr, (∀ d, a.arr ≠ aF 0 d) → m2 a = m1 a := fun a ha => fluxMem_other ha
  have o3 : ∀ a : Addr, a.arr ≠ aFlags → m3 a = m2 a := fun a ha => flagMem_other ha
  have o4 : ∀ a : Addr, (∀ d, a.arr ≠ aF 0 d) → m4 a = m3 a := fun a ha => lowMem_other ha
  have nF : ∀ d, U ≠ aF 0 d := stateArray_flux hU
  have nG : U ≠ aFlags := stateArray_flags hU
  have fU2 : field M.d3 m2 U = field M.d3 m U := by
    rw [field_congr (A := U) fun a ha => o2 a (ha ▸ nF), field_congr fun a ha => o1 a (ha ▸ hlt)]
  have fU3 : field M.d3 m3 U = field M.d3 m U := by
    rw [field_congr (A := U) fun a ha => o3 a (ha ▸ nG), fU2]
  have co : ∀ c, P.box M.d3 c → coefsAt M.d3 m1 c M.ncoefs =
      polyAt M P J (field M.d3 m U) (fun i => field M.d3 m (aPoly i)) c := fun c hc =>
    coefsAt_reconMem hc
  have f2 : ∀ d c, d.ok M.d3 → P.box M.d3 c → faceRegion M.d3 P d c →
      field M.d3 m2 (aF 0 d) c =
        flux0 M S P J dt (fun i => field M.d3 m (aPoly i)) (field M.d3 m U) d c := by
    intro d c hd hb hf
    rw [e2, fluxMem_field hd hb hf]
    exact storedFlux_congr (co c hb) (co _ (face_down_box h hd hb hf))
  have f3 : ∀ d, field M.d3 m3 (aF 0 d) = field M.d3 m2 (aF 0 d) := fun d =>
    field_congr fun a ha => o3 a (ha ▸ aF_flags d)
  have g3 : ∀ c, P.box M.d3 c → m3 (c.at aFlags 0) =
      flagAt M S P J dt (fun i => field M.d3 m (aPoly i)) (field M.d3 m U) c := by
    intro c hc
    rw [e3]
    unfold flagMem flagAt
    rw [if_pos ⟨rfl, hc, rfl⟩]
    show (if P.inner M.d3 c then flagOf M.d3 S (field M.d3 m2 U c) (fluxesAt M.d3 m2 c)
      else lit 0) = _
    by_cases hi : P.inner M.d3 c
    · rw [if_pos hi, if_pos hi, fU2]
      refine congrArg _ (fluxesAt_pairs fun d hd => ⟨f2 d c hd hc (inner_face d hi),
        f2 d _ hd (inner_up_box hg hd hc hi) (inner_face_up d hi)⟩)
    · rw [if_neg hi, if_neg hi]
  refine ⟨m4, ?_, ?_, ?_, ?_, ?_⟩
  · refine .cons (reconstruct_yields h hU m) (.cons (computeFluxes_yields h m1)
      (.cons (computeMoodFlags_yields h hU m2) (.cons (recomputeFluxes_yields h hU hz m3 ?_)
      (.nil _))))
    intro c hb hi
    rw [g3 c hb]
    unfold flagAt
    rw [if_neg hi]
  · intro d c hd hb hf
    rw [e4, lowMem_field hd hb, g3 c hb, fU3, f3, f2 d c hd hb hf]
    rfl
  · intro c hb
    rw [o4 _ fun d e => aF_flags d e.symm, g3 c hb]
  · intro a h1 h2 h3
    rw [o4 a h3, o3 a h2, o2 a h3, o1 a h1]
  · intro i c hi hb
    have hp : 10 ≤ aPoly i := by simp [aPoly]
    have n1 : ∀ d, aPoly i ≠ aF 0 d := fun d e => by have := aF_lt d; omega
    have n2 : aPoly i ≠ aFlags := fun e => by rw [e] at hp; exact absurd hp (by decide)
    rw [field_congr (A := aPoly i) fun a ha => o4 a (ha ▸ n1),
      field_congr (A := aPoly i) fun a ha => o3 a (ha ▸ n2),
      field_congr (A := aPoly i) fun a ha => o2 a (ha ▸ n1)]
    have := congrFun (co c hb) i
    rw [← this]
    unfold coefsAt
    rw [if_pos hi]

/-- Fluxes around an inner cell after a stage. -/
theorem StageResult.pairs (h : StageOk M P) {m m' : Addr → α}
    (r : StageResult M S P J dt U m m') {c : Cell} (hb : P.box M.d3 c) (hi : P.inner M.d3 c) :
    fluxesAt M.d3 m' c = fluxPairs M.d3
      (finalFlux M S P J dt (fun i => field M.d3 m (aPoly i)) (field M.d3 m U)) c := by
  have hg : 1 ≤ P.ghostWidth := by have := h.gw2; omega
  exact fluxesAt_pairs fun d hd => ⟨r.flux d c hd hb (inner_face d hi),
    r.flux d _ hd (inner_up_box hg hd hb hi) (inner_face_up d hi)⟩

theorem StageResult.state {A : Nat} (hA : stateArray ti A)
    {m m' : Addr → α} (r : StageResult M S P J dt U m m') : field M.d3 m' A = field M.d3 m A :=
  field_congr fun a ha => r.keep a (ha ▸ stateArray_lt hA) (ha ▸ stateArray_flags hA)
    (ha ▸ stateArray_flux hA)

/-! ### Dependence of the fluxes on the data -/

theorem newCoef_congr (h : StageOk M P) {f g : Cell → HState α} {c : Cell} (hb : P.box M.d3 c)
    (hr : reconRegion M.d3 P c) (e : ∀ c, P.box M.d3 c → f c = g c) (i : ℕ) :
    newCoef M J f c i = newCoef M J g c i := by
  unfold newCoef
  rw [e c hb]
  congr 1
  rw [List.map_map, List.map_map]
  refine List.map_congr_left fun o ho => ?_
  exact e _ (recon_box h hb hr (nonCentre_mem ho))

theorem polyAt_congr (h : StageOk M P) {f g : Cell → HState α} {old old' : ℕ → Cell → HState α}
    {c : Cell} (hb : P.box M.d3 c) (e : ∀ c, P.box M.d3 c → f c = g c)
    (eo : ∀ i c, i < M.ncoefs → P.box M.d3 c → ¬ reconRegion M.d3 P c → old i c = old' i c) :
    polyAt M P J f old c = polyAt M P J g old' c := by
  funext i
  unfold polyAt
  by_cases hi : i < M.ncoefs
  · rw [if_pos hi, if_pos hi]
    by_cases hr : reconRegion M.d3 P c
    · rw [if_pos hr, if_pos hr, newCoef_congr h hb hr e]
    · rw [if_neg hr, if_neg hr, eo i c hi hb hr]
  · rw [if_neg hi, if_neg hi]

theorem flux0_congr (h : StageOk M P) {f g : Cell → HState α} {old old' : ℕ → Cell → HState α}
    {d : Dir} {c : Cell} (hd : d.ok M.d3) (hb : P.box M.d3 c) (hf : faceRegion M.d3 P d c)
    (e : ∀ c, P.box M.d3 c → f c = g c)
    (eo : ∀ i c, i < M.ncoefs → P.box M.d3 c → ¬ reconRegion M.d3 P c → old i c = old' i c) :
    flux0 M S P J dt old f d c = flux0 M S P J dt old' g d c :=
  storedFlux_congr (polyAt_congr h hb e eo)
    (polyAt_congr h (face_down_box h hd hb hf) e eo)

theorem flagAt_congr (h : StageOk M P) {f g : Cell → HState α} {old old' : ℕ → Cell → HState α}
    {c : Cell} (hb : P.box M.d3 c) (e : ∀ c, P.box M.d3 c → f c = g c)
    (eo : ∀ i c, i < M.ncoefs → P.box M.d3 c → ¬ reconRegion M.d3 P c → old i c = old' i c) :
    flagAt M S P J dt old f c = flagAt M S P J dt old' g c := by
  have hg : 1 ≤ P.ghostWidth := by have := h.gw2; omega
  unfold flagAt
  by_cases hi : P.inner M.d3 c
  · rw [if_pos hi, if_pos hi, e c hb]
    refine flagOf_congr fun d hd => ?_
    have a1 := flux0_congr (S := S) (J := J) (dt := dt) h hd hb (inner_face d hi) e eo
    have a2 := flux0_congr (S := S) (J := J) (dt := dt) h hd (inner_up_box hg hd hb hi)
      (inner_face_up d hi) e eo
    cases d
    · exact Prod.ext a1 a2
    · exact Prod.ext a1 a2
    · have e3 : M.d3 = true := by simpa [Dir.ok] using hd
      simp only [fluxPairs, Dir.pick, e3, if_true]
      exact Prod.ext a1 a2
  · rw [if_neg hi, if_neg hi]

theorem finalFlux_congr (h : StageOk M P) {f g : Cell → HState α} {old old' : ℕ → Cell → HState α}
    {d : Dir} {c : Cell} (hd : d.ok M.d3) (hb : P.box M.d3 c) (hf : faceRegion M.d3 P d c)
    (e : ∀ c, P.box M.d3 c → f c = g c)
    (eo : ∀ i c, i < M.ncoefs → P.box M.d3 c → ¬ reconRegion M.d3 P c → old i c = old' i c) :
    finalFlux M S P J dt old f d c = finalFlux M S P J dt old' g d c := by
  unfold finalFlux
  rw [flagAt_congr h hb e eo, flux0_congr h hd hb hf e eo, e c hb,
    e _ (face_down_box h hd hb hf)]

theorem pairs_congr {d3 : Bool} {F G : Dir → Cell → HState α} {c : Cell}
    (h : ∀ d, d.ok d3 → F d c = G d c ∧ F d (c.up d) = G d (c.up d)) :
    fluxPairs d3 F c = fluxPairs d3 G c := by
  have hx := h .x (Or.inr (by decide))
  have hy := h .y (Or.inr (by decide))
  unfold fluxPairs
  rw [hx.1, hx.2, hy.1, hy.2]
  cases d3
  · rfl
  · have hz := h .z (Or.inl rfl)
    rw [hz.1, hz.2]

theorem final_pairs_congr (h : StageOk M P) {f g : Cell → HState α}
    {old old' : ℕ → Cell → HState α} {c : Cell} (hb : P.box M.d3 c) (hi : P.inner M.d3 c)
    (e : ∀ c, P.box M.d3 c → f c = g c)
    (eo : ∀ i c, i < M.ncoefs → P.box M.d3 c → ¬ reconRegion M.d3 P c → old i c = old' i c) :
    fluxPairs M.d3 (finalFlux M S P J dt old f) c =
      fluxPairs M.d3 (finalFlux M S P J dt old' g) c := by
  have hg : 1 ≤ P.ghostWidth := by have := h.gw2; omega
  exact pairs_congr fun d hd => ⟨finalFlux_congr h hd hb (inner_face d hi) e eo,
    finalFlux_congr h hd (inner_up_box hg hd hb hi) (inner_face_up d hi) e eo⟩

/-! ### Ghost fill and copy -/

/-- States after the ghost fill. -/
def fillF (d3 : Bool) (P : Grid) (B : Sides) (f : Cell → HState α) (c : Cell) : HState α :=
  ofComps d3 fun v => crossAll d3 false P B c v ((f (srcCell d3 P B c)).get v)

theorem FilledMem.field_eq {d3 : Bool} {B : Sides} {m m1 : Addr → α} (hn : P.nbvar = hydroVars d3)
    (f : FilledMem d3 false P B U m m1) {c : Cell} (hb : P.box d3 c) :
    field d3 m1 U c = fillF d3 P B (field d3 m U) c := by
  have := fun v hv => f.cells c v hb hv
  cases d3
  · have hv : ∀ v, v < 4 → m1 (c.at U v) = crossAll false false P B c v
        ((field false m U (srcCell false P B c)).get v) := by
      intro v hv
      rw [this v (by rw [hn]; exact hv), field_get false m U _ hv]
    simp only [field, fillF, ofComps, hv 0 (by decide), hv 1 (by decide), hv 2 (by decide),
      hv 3 (by decide), ID, IP, IU, IV, Bool.false_eq_true, if_false]
  · have hv : ∀ v, v < 5 → m1 (c.at U v) = crossAll true false P B c v
        ((field true m U (srcCell true P B c)).get v) := by
      intro v hv
      rw [this v (by rw [hn]; exact hv), field_get true m U _ hv]
    simp only [field, fillF, ofComps, hv 0 (by decide), hv 1 (by decide), hv 2 (by decide),
      hv 3 (by decide), hv 4 (by decide), ID, IP, IU, IV, IW, if_true]

open Classical in
/-- Memory after the copy. -/
noncomputable def copyMem (d3 : Bool) (P : Grid) (dst src : Nat) (m : Addr → α) (a : Addr) : α :=
  if a.arr = dst ∧ P.box d3 a.cell ∧ a.v < P.nbvar then m (a.cell.at src a.v) else m a

theorem copy_yields (h : StageOk M P) {dst src : Nat} (h1 : stateArray ti dst)
    (h2 : stateArray ti src) (hne : src ≠ dst) (m : Addr → α) :
    (deepCopy M.d3 P dst src : Launch Addr α).Yields (moodDom M.d3 P M.ncoefs ti) m
      (copyMem M.d3 P dst src m) := by
  have y := mdrange_yields (d3 := M.d3) (P := P) (dom := moodDom M.d3 P M.ncoefs ti)
    (out := fun A => A = dst) (body := fun c => forVars P.nbvar fun v => (do
      let x ← K.load (c.at src v)
      K.store (c.at dst v) x : K Addr α Unit)) ?_ m
  · have e : mdEffect M.d3 P (fun c => forVars P.nbvar fun v => (do
      let x ← K.load (c.at src v)
      K.store (c.at dst v) x : K Addr α Unit)) m = copyMem M.d3 P dst src m := by
      funext a
      unfold mdEffect copyMem
      by_cases hb : P.box M.d3 a.cell
      · rw [if_pos hb]
        have : ∀ n, ((forVars n fun v => (do
            let x ← K.load (a.cell.at src v)
            K.store (a.cell.at dst v) x : K Addr α Unit)).exec m) = fun b =>
            if b.arr = dst ∧ b.cell = a.cell ∧ b.v < n then m (a.cell.at src b.v) else m b := by
          intro n
          induction n with
          | zero => funext b; simp [forVars, K.exec]
          | succ n ih =>
            show K.exec (K.bind _ _) m = _
            rw [K.exec_bind, ih]
            funext b
            simp only [K.bind_eq, K.bind, K.load, K.store, K.exec, Function.update_apply,
              Cell.at_arr, hne, false_and, if_false]
            by_cases hbn : b = a.cell.at dst n
            · subst hbn; simp
            · rw [if_neg hbn]
              have : (b.arr = dst ∧ b.cell = a.cell ∧ b.v < n + 1) ↔
                  (b.arr = dst ∧ b.cell = a.cell ∧ b.v < n) := by
                constructor
                · rintro ⟨h1, h2, h3⟩
                  refine ⟨h1, h2, ?_⟩
                  have : b.v ≠ n := fun e => hbn (by rw [Addr.eq_iff]; exact ⟨h1, h2, e⟩)
                  omega
                · rintro ⟨h1, h2, h3⟩; exact ⟨h1, h2, by omega⟩
              simp only [this]
        rw [this]
        simp [hb]
      · rw [if_neg hb, if_neg (fun e => hb e.2.1)]
    rw [e] at y
    exact y
  · intro c hc
    refine CellFP.forVars fun v hv => ?_
    rw [h.nv] at hv
    exact CellFP.bind (CellFP.load (h.dom_state h2 hc v hv) fun e => (hne e).elim) fun _ =>
      CellFP.store (h.dom_state h1 hc v hv) rfl rfl

omit [ROps α] in
theorem copyMem_other {d3 : Bool} {dst src : Nat} {m : Addr → α} {a : Addr} (h : a.arr ≠ dst) :
    copyMem d3 P dst src m a = m a := by
  unfold copyMem; rw [if_neg (fun e => h e.1)]

theorem copyMem_field {d3 : Bool} {dst src : Nat} {m : Addr → α} {c : Cell} (hb : P.box d3 c)
    (hn : P.nbvar = hydroVars d3) : field d3 (copyMem d3 P dst src m) dst c = field d3 m src c := by
  refine field_ext fun v hv => ?_
  unfold copyMem
  rw [if_pos ⟨rfl, hb, by rw [hn]; exact hv⟩]
  rfl

end Verif.Mood
