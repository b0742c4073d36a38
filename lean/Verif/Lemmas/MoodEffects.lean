import Verif.Lemmas.MoodKernels

/-! Helper lemmas: effect of every loop of the MOOD solver. -/

namespace Verif.Mood

open Verif K Function ROps

variable {α : Type} [ROps α]

/-- Arrays that hold states. -/
def stateArray (ti : TimeInt) (U : Nat) : Prop :=
  U = aU ∨ U = aU2 ∨ ((ti = .ssprk2 ∨ ti = .ssprk3 ∨ ti = .ssprk54) ∧ U = aRK1) ∨
  ((ti = .ssprk3 ∨ ti = .ssprk54) ∧ U = aRK2)

/-- What the loops need: wide enough ghost region, right number of variables, nonempty domain. -/
structure StageOk (M : Scheme α) (P : Grid) : Prop where
  gw : (get_stencil_ghostwidth M.id : ℤ) ≤ P.ghostWidth
  nv : P.nbvar = hydroVars M.d3
  nx : 0 < P.nx
  ny : 0 < P.ny
  nz : M.d3 = true → 0 < P.nz

theorem two_le_ghostwidth (id : StencilId) : 2 ≤ get_stencil_ghostwidth id := by
  cases id <;> decide

variable {M : Scheme α} {P : Grid} {ti : TimeInt} {U : Nat} {lay : Layout} {S : Settings α}
  {J : MoodJunk α} {dt : α}

namespace StageOk

theorem gw2 (h : StageOk M P) : 2 ≤ P.ghostWidth := by
  have := two_le_ghostwidth M.id
  have := h.gw
  omega

theorem nonempty (h : StageOk M P) : Nonempty3 M.d3 P := by
  have := h.gw2
  have := h.nx
  have := h.ny
  refine ⟨?_, ?_, fun e => ?_⟩
  · rw [P.isize_eq]; omega
  · rw [P.jsize_eq]; omega
  · have := h.nz e; rw [P.ksize_eq]; omega

theorem dom_state (h : StageOk M P) (hU : stateArray ti U) {c : Cell} (hb : P.box M.d3 c) :
    ∀ v, v < hydroVars M.d3 → moodDom M.d3 P M.ncoefs ti (c.at U v) := by
  intro v hv
  refine ⟨hb, Or.inl ⟨?_, by rw [h.nv]; exact hv⟩⟩
  simp only [Cell.at_arr]
  unfold moodArray
  rcases hU with e | e | e | e
  · exact Or.inl e
  · exact Or.inr (Or.inl e)
  · exact Or.inr (Or.inr (Or.inr (Or.inr (Or.inr (Or.inr (Or.inl e))))))
  · exact Or.inr (Or.inr (Or.inr (Or.inr (Or.inr (Or.inr (Or.inr e))))))

theorem dom_poly (h : StageOk M P) {c : Cell} (hb : P.box M.d3 c) {i : ℕ} (hi : i < M.ncoefs) :
    ∀ v, v < hydroVars M.d3 → moodDom M.d3 P M.ncoefs ti (c.at (aPoly i) v) := by
  intro v hv
  refine ⟨hb, Or.inl ⟨?_, by rw [h.nv]; exact hv⟩⟩
  exact Or.inr (Or.inr (Or.inr (Or.inr (Or.inr (Or.inl ⟨i, hi, rfl⟩)))))

theorem dom_flux (h : StageOk M P) {c : Cell} (hb : P.box M.d3 c) {d : Dir} (hd : d.ok M.d3) :
    ∀ v, v < hydroVars M.d3 → moodDom M.d3 P M.ncoefs ti (c.at (aF 0 d) v) := by
  intro v hv
  refine ⟨hb, Or.inl ⟨?_, by rw [h.nv]; exact hv⟩⟩
  unfold moodArray
  cases d
  · exact Or.inr (Or.inr (Or.inl rfl))
  · exact Or.inr (Or.inr (Or.inr (Or.inl rfl)))
  · refine Or.inr (Or.inr (Or.inr (Or.inr (Or.inl ⟨?_, rfl⟩))))
    rcases hd with e | e
    · exact e
    · exact absurd rfl e

end StageOk

theorem stateArray_lt (h : stateArray ti U) : U < 10 := by
  rcases h with e | e | ⟨-, e⟩ | ⟨-, e⟩ <;> rw [e] <;> decide

theorem stateArray_flux (h : stateArray ti U) (d : Dir) : U ≠ aF 0 d := by
  rcases h with e | e | ⟨-, e⟩ | ⟨-, e⟩ <;> rw [e] <;> cases d <;> decide

theorem stateArray_flags (h : stateArray ti U) : U ≠ aFlags := by
  rcases h with e | e | ⟨-, e⟩ | ⟨-, e⟩ <;> rw [e] <;> decide

theorem aF_lt (d : Dir) : aF 0 d < 10 := by cases d <;> decide

theorem aF_inj {d d' : Dir} (h : aF 0 d = aF 0 d') : d = d' := by
  cases d <;> cases d' <;> first | rfl | exact absurd h (by decide)

theorem aF_flags (d : Dir) : aF 0 d ≠ aFlags := by cases d <;> decide

/-! ### Regions -/

theorem stencil_flat (id : StencilId) : id.is3d = false → ∀ o ∈ stencilOffsets id, o.z = 0 := by
  cases id <;> decide +kernel

theorem nonCentre_mem {o : Offset} {l : List Offset} (h : o ∈ nonCentre l) : o ∈ l := by
  unfold nonCentre at h
  exact (List.mem_filter.1 h).1

theorem recon_box (h : StageOk M P) {c : Cell} (hb : P.box M.d3 c) (hr : reconRegion M.d3 P c)
    {o : Offset} (ho : o ∈ stencilOffsets M.id) : P.box M.d3 (shiftCell c o) := by
  have g := h.gw
  have s := stencil_reach M.id o ho
  have f := stencil_flat M.id
  obtain ⟨b1, b2, b3, b4, b5⟩ := hb
  unfold Grid.box shiftCell
  unfold reconRegion at hr
  simp only
  by_cases e : M.d3 = true
  · simp only [e, if_true] at hr b5 ⊢
    omega
  · have e' : M.d3 = false := by simpa using e
    have f' := f e' o ho
    simp only [e', Bool.false_eq_true, if_false] at hr b5 ⊢
    omega

theorem face_down_box (h : StageOk M P) {c : Cell} {d : Dir} (hd : d.ok M.d3)
    (hb : P.box M.d3 c) (hf : faceRegion M.d3 P d c) : P.box M.d3 (c.down d) := by
  have g := h.gw2
  obtain ⟨b1, b2, b3, b4, b5⟩ := hb
  obtain ⟨f1, f2, f3, f4, f5⟩ := hf
  unfold Grid.box
  by_cases e : M.d3 = true
  · simp only [e, if_true, true_implies] at f1 b5 ⊢
    cases d <;> simp only [Cell.down] <;> omega
  · have e' : M.d3 = false := by simpa using e
    simp only [e', Bool.false_eq_true, if_false] at b5 ⊢
    cases d
    · simp only [Cell.down]; omega
    · simp only [Cell.down]; omega
    · simp [Dir.ok, e'] at hd

theorem inner_face {d3 : Bool} {c : Cell} (d : Dir) (h : P.inner d3 c) : faceRegion d3 P d c := by
  obtain ⟨h1, h2, h3, h4, h5⟩ := h
  refine ⟨fun e => ?_, ?_⟩
  · have := h1 e; cases d <;> simp only <;> omega
  · cases d <;> simp only <;> omega

theorem inner_face_up {d3 : Bool} {c : Cell} (d : Dir) (h : P.inner d3 c) :
    faceRegion d3 P d (c.up d) := by
  obtain ⟨h1, h2, h3, h4, h5⟩ := h
  refine ⟨fun e => ?_, ?_⟩
  · have := h1 e; cases d <;> simp only [Cell.up] <;> omega
  · cases d <;> simp only [Cell.up] <;> omega

theorem inner_up_box {d3 : Bool} {c : Cell} {d : Dir} (hg : 1 ≤ P.ghostWidth) (hd : d.ok d3)
    (hb : P.box d3 c) (h : P.inner d3 c) : P.box d3 (c.up d) := by
  obtain ⟨b1, b2, b3, b4, b5⟩ := hb
  obtain ⟨h1, h2, h3, h4, h5⟩ := h
  unfold Grid.box
  cases d3
  · simp only [Bool.false_eq_true, if_false] at b5 ⊢
    cases d
    · simp only [Cell.up]; omega
    · simp only [Cell.up]; omega
    · simp [Dir.ok] at hd
  · simp only [if_true, true_implies] at h1 b5 ⊢
    cases d <;> simp only [Cell.up] <;> omega

theorem inner_down_box {d3 : Bool} {c : Cell} {d : Dir} (hg : 1 ≤ P.ghostWidth) (hd : d.ok d3)
    (hb : P.box d3 c) (h : P.inner d3 c) : P.box d3 (c.down d) := by
  obtain ⟨b1, b2, b3, b4, b5⟩ := hb
  obtain ⟨h1, h2, h3, h4, h5⟩ := h
  unfold Grid.box
  cases d3
  · simp only [Bool.false_eq_true, if_false] at b5 ⊢
    cases d
    · simp only [Cell.down]; omega
    · simp only [Cell.down]; omega
    · simp [Dir.ok] at hd
  · simp only [if_true, true_implies] at h1 b5 ⊢
    cases d <;> simp only [Cell.down] <;> omega

/-! ### Reconstruction -/

/-- New coefficients of a cell. -/
def newCoef (M : Scheme α) (J : MoodJunk α) (f : Cell → HState α) (c : Cell) (i : ℕ) : HState α :=
  reconState M (J.rhs c) (f c) (((nonCentre (stencilOffsets M.id)).map (shiftCell c)).map f) i

theorem reconState_norm (junk : ℕ → α) (uc : HState α) (un : List (HState α)) (i : ℕ) :
    (reconState M junk uc un i).norm M.d3 = reconState M junk uc un i := ofComps_norm _ _

/-- The list of stores of the reconstruction. -/
def reconStores (M : Scheme α) (P : Grid) (J : MoodJunk α) (f : Cell → HState α) (n : ℕ) :
    List (Nat × (Cell → Prop) × (Cell → HState α)) :=
  (List.range n).map fun i => (aPoly i, reconRegion M.d3 P, fun c => newCoef M J f c i)

/-- Memory after the reconstruction. -/
noncomputable def reconMem (M : Scheme α) (P : Grid) (J : MoodJunk α) (U : Nat) (m : Addr → α) :
    Addr → α :=
  (reconStores M P J (field M.d3 m U) M.ncoefs).foldl (setAll M.d3 P) m

theorem forVars_stores {d3 : Bool} {c : Cell} (g : ℕ → HState α) (A : ℕ → ℕ) (n : ℕ)
    (m : Addr → α) :
    (forVars n fun i => storeState d3 (A i) c (g i)).exec m =
      ((List.range n).map fun i => (A i, g i)).foldl (fun m x => setState d3 m x.1 c x.2) m := by
  induction n generalizing m with
  | zero => rfl
  | succ n ih =>
    rw [List.range_succ, List.map_append, List.foldl_append, ← ih]
    show ((forVars n fun i => storeState d3 (A i) c (g i)).bind fun _ =>
      storeState d3 (A n) c (g n)).exec m = _
    rw [K.exec_bind, storeState_exec]
    rfl

theorem reconstruct_yields (h : StageOk M P) (hU : stateArray ti U) (m : Addr → α) :
    (reconstruct lay M P J U).Yields (moodDom M.d3 P M.ncoefs ti) m (reconMem M P J U m) := by
  have y := rangeCells_yields' (lay := lay) (dom := moodDom M.d3 P M.ncoefs ti)
    (out := fun A => 10 ≤ A) h.nonempty m (body := fun c =>
    if reconRegion M.d3 P c then do
      let uc ← loadState M.d3 U c
      let un ← loadStates M.d3 U ((nonCentre (stencilOffsets M.id)).map (shiftCell c))
      forVars M.ncoefs fun icoef =>
        storeState M.d3 (aPoly icoef) c (reconState M (J.rhs c) uc un icoef)
    else pure ()) ?_
  · rw [mdEffect_list (reconStores M P J (field M.d3 m U) M.ncoefs)] at y
    · exact y
    intro c hc
    by_cases hr : reconRegion M.d3 P c
    · simp only [hr, if_true, K.bind_eq]
      rw [(loadState_reads _ _ _ _).exec_bind, (loadStates_reads _ _ _ _).exec_bind,
        forVars_stores]
      unfold reconStores
      generalize List.range M.ncoefs = L
      have : ∀ (L : List ℕ) (m' : Addr → α),
          (L.map fun i => (aPoly i, newCoef M J (field M.d3 m U) c i)).foldl
            (fun m x => setState M.d3 m x.1 c x.2) m' =
          (L.map fun i => (aPoly i, reconRegion M.d3 P,
            fun c => newCoef M J (field M.d3 m U) c i)).foldl (setIf M.d3 c) m' := by
        intro L
        induction L with
        | nil => intro m'; rfl
        | cons i L ih =>
          intro m'
          rw [List.map_cons, List.map_cons, List.foldl_cons, List.foldl_cons, ih]
          simp [setIf, hr]
      exact this L m
    · simp only [hr, if_false]
      unfold reconStores
      generalize List.range M.ncoefs = L
      have : ∀ (L : List ℕ) (m' : Addr → α),
          (L.map fun i => (aPoly i, reconRegion M.d3 P,
            fun c => newCoef M J (field M.d3 m U) c i)).foldl (setIf M.d3 c) m' = m' := by
        intro L
        induction L with
        | nil => intro m'; rfl
        | cons i L ih =>
          intro m'
          rw [List.map_cons, List.foldl_cons]
          simp only [setIf, hr, if_false]
          exact ih m'
      exact (this L m).symm
  · intro c hc
    have hlt := stateArray_lt hU
    split_ifs with hr
    · refine CellFP.bind (CellFP.loadState (h.dom_state hU hc) fun e => by omega) fun _ =>
        CellFP.bind (CellFP.loadStates ?_ (by omega)) fun _ =>
        CellFP.forVars fun i hi => CellFP.storeState (h.dom_poly hc hi) (by simp [aPoly])
      intro c' hc'
      obtain ⟨o, ho, rfl⟩ := List.mem_map.1 hc'
      exact h.dom_state hU (recon_box h hc hr (nonCentre_mem ho))
    · exact CellFP.ret _

theorem foldl_setAll_other {d3 : Bool} {a : Addr}
    (L : List (Nat × (Cell → Prop) × (Cell → HState α))) (m : Addr → α)
    (h : ∀ x ∈ L, a.arr ≠ x.1) : L.foldl (setAll d3 P) m a = m a := by
  induction L generalizing m with
  | nil => rfl
  | cons x L ih =>
    rw [List.foldl_cons, ih _ fun y hy => h y (by simp [hy])]
    exact setArr_ne (Or.inl (h x (by simp)))

theorem reconMem_other {m : Addr → α} {a : Addr} (h : a.arr < 10) :
    reconMem M P J U m a = m a := by
  refine foldl_setAll_other _ _ fun x hx => ?_
  obtain ⟨i, -, rfl⟩ := List.mem_map.1 hx
  simp only [aPoly]; omega

/-- Coefficients after the reconstruction. -/
def polyAt (M : Scheme α) (P : Grid) (J : MoodJunk α) (f : Cell → HState α)
    (old : ℕ → Cell → HState α) (c : Cell) (i : ℕ) : HState α :=
  if i < M.ncoefs then (if reconRegion M.d3 P c then newCoef M J f c i else old i c)
  else HState.zero

theorem reconMem_poly {m : Addr → α} {c : Cell} (hb : P.box M.d3 c) (i : ℕ) (n : ℕ) :
    field M.d3 ((reconStores M P J (field M.d3 m U) n).foldl (setAll M.d3 P) m) (aPoly i) c =
      if i < n ∧ reconRegion M.d3 P c then newCoef M J (field M.d3 m U) c i
      else field M.d3 m (aPoly i) c := by
  induction n with
  | zero => simp [reconStores]
  | succ n ih =>
    have e : reconStores M P J (field M.d3 m U) (n + 1) = reconStores M P J (field M.d3 m U) n ++
        [(aPoly n, reconRegion M.d3 P, fun c => newCoef M J (field M.d3 m U) c n)] := by
      simp [reconStores, List.range_succ]
    rw [e, List.foldl_append, List.foldl_cons, List.foldl_nil]
    simp only [setAll]
    by_cases hi : i = n
    · subst hi
      by_cases hr : reconRegion M.d3 P c
      · rw [field_setArr_same ⟨hb, hr⟩, if_pos ⟨by omega, hr⟩]
        exact reconState_norm _ _ _ _
      · rw [field_setArr_ne (Or.inr fun e => hr e.2), ih, if_neg (fun e => hr e.2),
          if_neg (fun e => hr e.2)]
    · rw [field_setArr_ne (Or.inl (by simp only [aPoly]; omega)), ih]
      have : (i < n + 1 ∧ reconRegion M.d3 P c) ↔ (i < n ∧ reconRegion M.d3 P c) := by
        constructor
        · rintro ⟨h1, h2⟩; exact ⟨by omega, h2⟩
        · rintro ⟨h1, h2⟩; exact ⟨by omega, h2⟩
      by_cases hh : i < n ∧ reconRegion M.d3 P c
      · rw [if_pos hh, if_pos (this.2 hh)]
      · rw [if_neg hh, if_neg (fun e => hh (this.1 e))]

theorem coefsAt_reconMem {m : Addr → α} {c : Cell} (hb : P.box M.d3 c) :
    coefsAt M.d3 (reconMem M P J U m) c M.ncoefs =
      polyAt M P J (field M.d3 m U) (fun i => field M.d3 m (aPoly i)) c := by
  funext i
  unfold coefsAt polyAt reconMem
  by_cases hi : i < M.ncoefs
  · rw [if_pos hi, if_pos hi, reconMem_poly hb]
    by_cases hr : reconRegion M.d3 P c
    · rw [if_pos ⟨hi, hr⟩, if_pos hr]
    · rw [if_neg (fun e => hr e.2), if_neg hr]
  · rw [if_neg hi, if_neg hi]

/-! ### Fluxes -/

theorem coefsAt_congr {d3 : Bool} {m m' : Addr → α} (h : ∀ a : Addr, 10 ≤ a.arr → m a = m' a)
    (c : Cell) (n : ℕ) : coefsAt d3 m c n = coefsAt d3 m' c n := by
  funext i
  unfold coefsAt
  split_ifs
  · exact field_ext' fun v => h _ (by simp [aPoly])
  · rfl
where
  field_ext' {d3 : Bool} {m m' : Addr → α} {A : Nat} {c : Cell}
    (h : ∀ v, m (c.at A v) = m' (c.at A v)) : field d3 m A c = field d3 m' A c := by
    cases d3 <;> simp [field, h]

/-- The stored flux. -/
def storedFlux (M : Scheme α) (S : Settings α) (J : MoodJunk α) (dt : α)
    (co : Cell → ℕ → HState α) (d : Dir) (c : Cell) : HState α :=
  (meanFlux M S (J.flux c d) d (co (c.down d)) (co c)).scale M.d3 (fluxFactor S dt d)

theorem computeFluxAlong_exec (c : Cell) (d : Dir) (m : Addr → α) :
    (computeFluxAlong M S P J dt c d).exec m = setIf M.d3 c m (aF 0 d, faceRegion M.d3 P d,
      storedFlux M S J dt (fun c => coefsAt M.d3 m c M.ncoefs) d) := by
  unfold computeFluxAlong setIf
  by_cases hf : faceRegion M.d3 P d c
  · simp only [hf, if_true, K.bind_eq]
    rw [(loadCoefs_reads _ _ _ _).exec_bind, (loadCoefs_reads _ _ _ _).exec_bind, storeState_exec]
    rfl
  · simp only [hf, if_false]; rfl

/-- The list of stores. -/
def fluxStores (M : Scheme α) (S : Settings α) (P : Grid) (J : MoodJunk α) (dt : α)
    (co : Cell → ℕ → HState α) : List (Nat × (Cell → Prop) × (Cell → HState α)) :=
  [(aF 0 .x, faceRegion M.d3 P .x, storedFlux M S J dt co .x),
    (aF 0 .y, faceRegion M.d3 P .y, storedFlux M S J dt co .y)] ++
  (if M.d3 then [(aF 0 .z, faceRegion M.d3 P .z, storedFlux M S J dt co .z)] else [])

/-- Memory after the flux computation. -/
noncomputable def fluxMem (M : Scheme α) (S : Settings α) (P : Grid) (J : MoodJunk α) (dt : α)
    (m : Addr → α) : Addr → α :=
  (fluxStores M S P J dt fun c => coefsAt M.d3 m c M.ncoefs).foldl (setAll M.d3 P) m

theorem coefsAt_setIf {d3 : Bool} {c : Cell} {m : Addr → α} {A : ℕ} {R : Cell → Prop}
    {f : Cell → HState α} (hA : A < 10) :
    (fun c' => coefsAt d3 (setIf d3 c m (A, R, f)) c' n) = fun c' => coefsAt d3 m c' n := by
  funext c'
  refine coefsAt_congr (fun a ha => ?_) c' n
  unfold setIf
  split_ifs
  · simp only [setState]; rw [if_neg]; rintro ⟨e, -⟩; omega
  · rfl

theorem computeFluxAlong_fp (h : StageOk M P) {c : Cell} (hb : P.box M.d3 c) {d : Dir}
    (hd : d.ok M.d3) : CellFP (moodDom M.d3 P M.ncoefs ti) (fun A => ∃ d, A = aF 0 d) c
      (computeFluxAlong M S P J dt c d) := by
  unfold computeFluxAlong
  have ho : ∀ i, ¬ ∃ d, aPoly i = aF 0 d := fun i ⟨d, e⟩ => by
    have := aF_lt d; simp only [aPoly] at e; omega
  split_ifs with hf
  · exact CellFP.bind (CellFP.loadCoefs (fun i hi => h.dom_poly hb hi) ho) fun _ =>
      CellFP.bind (CellFP.loadCoefs (fun i hi => h.dom_poly (face_down_box h hd hb hf) hi) ho)
        fun _ => CellFP.storeState (h.dom_flux hb hd) ⟨d, rfl⟩
  · exact CellFP.ret _

theorem computeFluxes_yields (h : StageOk M P) (m : Addr → α) :
    (computeFluxes lay M S P J dt).Yields (moodDom M.d3 P M.ncoefs ti) m
      (fluxMem M S P J dt m) := by
  have y := rangeCells_yields' (lay := lay) (dom := moodDom M.d3 P M.ncoefs ti)
    (out := fun A => ∃ d, A = aF 0 d) h.nonempty m (body := fun c => do
    computeFluxAlong M S P J dt c .x
    computeFluxAlong M S P J dt c .y
    if M.d3 then computeFluxAlong M S P J dt c .z else pure ()) ?_
  · rw [mdEffect_list (fluxStores M S P J dt fun c => coefsAt M.d3 m c M.ncoefs)] at y
    · exact y
    intro c hc
    simp only [K.bind_eq]
    rw [K.exec_bind, K.exec_bind, computeFluxAlong_exec, computeFluxAlong_exec,
      coefsAt_setIf (aF_lt _)]
    unfold fluxStores
    by_cases e : M.d3 = true
    · simp only [e, if_true]
      rw [computeFluxAlong_exec]
      simp only [e]
      rw [coefsAt_setIf (aF_lt _), coefsAt_setIf (aF_lt _)]
      rfl
    · have e' : M.d3 = false := by simpa using e
      simp only [e', Bool.false_eq_true, if_false]
      rfl
  · intro c hc
    refine CellFP.bind (computeFluxAlong_fp h hc (Or.inr (by decide))) fun _ =>
      CellFP.bind (computeFluxAlong_fp h hc (Or.inr (by decide))) fun _ => ?_
    split_ifs with e
    · exact computeFluxAlong_fp h hc (Or.inl e)
    · exact CellFP.ret _

theorem fluxMem_other {m : Addr → α} {a : Addr} (h : ∀ d, a.arr ≠ aF 0 d) :
    fluxMem M S P J dt m a = m a := by
  refine foldl_setAll_other _ _ fun x hx => ?_
  unfold fluxStores at hx
  split_ifs at hx <;> simp only [List.cons_append, List.nil_append, List.mem_cons,
    List.not_mem_nil, or_false] at hx
  · rcases hx with rfl | rfl | rfl
    · exact h .x
    · exact h .y
    · exact h .z
  · rcases hx with rfl | rfl
    · exact h .x
    · exact h .y

theorem fluxMem_field {m : Addr → α} {c : Cell} {d : Dir} (hd : d.ok M.d3) (hb : P.box M.d3 c)
    (hf : faceRegion M.d3 P d c) :
    field M.d3 (fluxMem M S P J dt m) (aF 0 d) c =
      storedFlux M S J dt (fun c => coefsAt M.d3 m c M.ncoefs) d c := by
  have n : ∀ d, (storedFlux M S J dt (fun c => coefsAt M.d3 m c M.ncoefs) d c).norm M.d3 =
    storedFlux M S J dt (fun c => coefsAt M.d3 m c M.ncoefs) d c := fun d => scale_norm _ _ _
  unfold fluxMem fluxStores
  by_cases e : M.d3 = true
  · simp only [e, if_true, List.cons_append, List.nil_append, List.foldl_cons, List.foldl_nil,
      setAll] at hb hf n ⊢
    cases d
    · rw [field_setArr_ne (Or.inl (by decide)), field_setArr_ne (Or.inl (by decide)),
        field_setArr_same ⟨hb, hf⟩]; exact n _
    · rw [field_setArr_ne (Or.inl (by decide)), field_setArr_same ⟨hb, hf⟩]; exact n _
    · rw [field_setArr_same ⟨hb, hf⟩]; exact n _
  · have e' : M.d3 = false := by simpa using e
    simp only [e', Bool.false_eq_true, if_false, List.append_nil, List.foldl_cons, List.foldl_nil,
      setAll] at hb hf n ⊢
    cases d
    · rw [field_setArr_ne (Or.inl (by decide)), field_setArr_same ⟨hb, hf⟩]; exact n _
    · rw [field_setArr_same ⟨hb, hf⟩]; exact n _
    · simp [Dir.ok, e'] at hd

/-! ### Flags -/

open Classical in
/-- Memory after the flags have been set. -/
noncomputable def flagMem (d3 : Bool) (S : Settings α) (P : Grid) (U : Nat) (m : Addr → α)
    (a : Addr) : α :=
  if a.arr = aFlags ∧ P.box d3 a.cell ∧ a.v = 0 then
    (if P.inner d3 a.cell then flagOf d3 S (field d3 m U a.cell) (fluxesAt d3 m a.cell) else lit 0)
  else m a

theorem fluxesAt_update {d3 : Bool} {m : Addr → α} {a : Addr} {x : α}
    (h : ∀ d, a.arr ≠ aF 0 d) (c : Cell) : fluxesAt d3 (Function.update m a x) c = fluxesAt d3 m c := by
  have e : ∀ (d : Dir) (c : Cell), field d3 (Function.update m a x) (aF 0 d) c = field d3 m (aF 0 d) c := by
    intro d c
    have : ∀ v, Function.update m a x (c.at (aF 0 d) v) = m (c.at (aF 0 d) v) := fun v =>
      update_of_ne (by rintro rfl; exact h d rfl) _ _
    cases d3 <;> simp [field, this]
  unfold fluxesAt
  simp only [e]

theorem field_update {d3 : Bool} {m : Addr → α} {a : Addr} {x : α} {A : Nat}
    (h : a.arr ≠ A) (c : Cell) : field d3 (Function.update m a x) A c = field d3 m A c := by
  have : ∀ v, Function.update m a x (c.at A v) = m (c.at A v) := fun v =>
    update_of_ne (by rintro rfl; exact h rfl) _ _
  cases d3 <;> simp [field, this]

theorem loadFluxes_fp {dom : Addr → Prop} {out : Nat → Prop} {d3 : Bool} {c : Cell}
    (h : ∀ d, d.ok d3 → ∀ v, v < hydroVars d3 →
      dom (c.at (aF 0 d) v) ∧ dom ((c.up d).at (aF 0 d) v)) (h' : ∀ d, ¬ out (aF 0 d)) :
    CellFP dom out c (loadFluxes d3 c : K Addr α _) := by
  have l0 : ∀ d, d.ok d3 → CellFP dom out c (loadState d3 (aF 0 d) c : K Addr α _) :=
    fun d hd => CellFP.loadState (fun v hv => (h d hd v hv).1) fun e => (h' d e).elim
  have l1 : ∀ d, d.ok d3 → CellFP dom out c (loadState d3 (aF 0 d) (c.up d) : K Addr α _) :=
    fun d hd => CellFP.loadState (fun v hv => (h d hd v hv).2) fun e => (h' d e).elim
  have ox : Dir.ok d3 .x := Or.inr (by decide)
  have oy : Dir.ok d3 .y := Or.inr (by decide)
  unfold loadFluxes
  refine CellFP.bind (l0 _ ox) fun _ => CellFP.bind (l1 _ ox) fun _ => CellFP.bind (l0 _ oy)
    fun _ => CellFP.bind (l1 _ oy) fun _ => ?_
  split_ifs with e
  · exact CellFP.bind (l0 _ (Or.inl e)) fun _ => CellFP.bind (l1 _ (Or.inl e)) fun _ =>
      CellFP.ret _
  · exact CellFP.ret _

theorem inner_fluxes_dom (h : StageOk M P) {c : Cell} (hb : P.box M.d3 c) (hi : P.inner M.d3 c) :
    ∀ d, d.ok M.d3 → ∀ v, v < hydroVars M.d3 → moodDom M.d3 P M.ncoefs ti (c.at (aF 0 d) v) ∧
      moodDom M.d3 P M.ncoefs ti ((c.up d).at (aF 0 d) v) := fun d hd v hv =>
  have hg : 1 ≤ P.ghostWidth := by have := h.gw2; omega
  ⟨h.dom_flux hb hd v hv, h.dom_flux (inner_up_box hg hd hb hi) hd v hv⟩

theorem computeMoodFlags_yields (h : StageOk M P) (hU : stateArray ti U) (m : Addr → α) :
    (computeMoodFlags lay M.d3 S P U).Yields (moodDom M.d3 P M.ncoefs ti) m
      (flagMem M.d3 S P U m) := by
  have hff : ∀ d, aFlags ≠ aF 0 d := fun d e => aF_flags d e.symm
  have y := rangeCells_yields' (lay := lay) (dom := moodDom M.d3 P M.ncoefs ti)
    (out := fun A => A = aFlags) h.nonempty m (body := fun c => do
    K.store (c.at aFlags 0) (lit 0)
    if P.inner M.d3 c then do
      let u ← loadState M.d3 U c
      let f ← loadFluxes M.d3 c
      K.store (c.at aFlags 0) (flagOf M.d3 S u f)
    else pure ()) ?_
  · have e : mdEffect M.d3 P (fun c => (do
        K.store (c.at aFlags 0) (lit 0)
        if P.inner M.d3 c then do
          let u ← loadState M.d3 U c
          let f ← loadFluxes M.d3 c
          K.store (c.at aFlags 0) (flagOf M.d3 S u f)
        else pure () : K Addr α Unit)) m = flagMem M.d3 S P U m := by
      funext a
      unfold mdEffect flagMem
      by_cases hb : P.box M.d3 a.cell
      · rw [if_pos hb]
        simp only [K.bind_eq]
        rw [K.exec_bind]
        show K.exec _ (Function.update m (a.cell.at aFlags 0) (lit 0)) a = _
        by_cases hi : P.inner M.d3 a.cell
        · simp only [hi, if_true]
          rw [(loadState_reads _ _ _ _).exec_bind, (loadFluxes_reads _ _ _).exec_bind,
            fluxesAt_update hff, field_update (Ne.symm (stateArray_flags hU))]
          show Function.update (Function.update m _ _) _ _ a = _
          rw [update_idem]
          by_cases ha : a.arr = aFlags ∧ a.v = 0
          · rw [if_pos ⟨ha.1, hb, ha.2⟩]
            have : a = a.cell.at aFlags 0 := by rw [Addr.eq_iff]; exact ⟨ha.1, rfl, ha.2⟩
            rw [update_apply, if_pos this]
          · rw [if_neg (fun e => ha ⟨e.1, e.2.2⟩), update_of_ne]
            intro e
            rw [Addr.eq_iff] at e
            exact ha ⟨e.1, e.2.2⟩
        · simp only [hi, if_false]
          show Function.update m _ _ a = _
          by_cases ha : a.arr = aFlags ∧ a.v = 0
          · rw [if_pos ⟨ha.1, hb, ha.2⟩]
            have : a = a.cell.at aFlags 0 := by rw [Addr.eq_iff]; exact ⟨ha.1, rfl, ha.2⟩
            rw [update_apply, if_pos this]
          · rw [if_neg (fun e => ha ⟨e.1, e.2.2⟩), update_of_ne]
            intro e
            rw [Addr.eq_iff] at e
            exact ha ⟨e.1, e.2.2⟩
      · rw [if_neg hb, if_neg (fun e => hb e.2.1)]
    rw [e] at y
    exact y
  · intro c hc
    have hs : ∀ x : α, CellFP (moodDom M.d3 P M.ncoefs ti) (fun A => A = aFlags) c
        (K.store (c.at aFlags 0) x) := fun x =>
      CellFP.store ⟨hc, Or.inr ⟨rfl, by simp⟩⟩ rfl rfl
    refine CellFP.bind (hs _) fun _ => ?_
    split_ifs with hi
    · exact CellFP.bind (CellFP.loadState (h.dom_state hU hc)
        fun e => (stateArray_flags hU e).elim) fun _ =>
        CellFP.bind (loadFluxes_fp (inner_fluxes_dom h hc hi) aF_flags) fun _ => hs _
    · exact CellFP.ret _

theorem flagMem_other {m : Addr → α} {a : Addr} {d3 : Bool} (h : a.arr ≠ aFlags) :
    flagMem d3 S P U m a = m a := by
  unfold flagMem
  rw [if_neg (fun e => h e.1)]

/-! ### Recomputation -/

/-- The list of stores. -/
def lowStores (d3 : Bool) (S : Settings α) (dt : α) (f : Cell → HState α) (flag : Cell → α) :
    List (Nat × (Cell → Prop) × (Cell → HState α)) :=
  [(aF 0 .x, fun c => ltb (lit 0) (flag c) = true, fun c => lowFlux d3 S dt .x (f (c.down .x)) (f c)),
   (aF 0 .y, fun c => ltb (lit 0) (flag c) = true, fun c => lowFlux d3 S dt .y (f (c.down .y)) (f c))] ++
  (if d3 then
    [(aF 0 .z, fun c => ltb (lit 0) (flag c) = true, fun c => lowFlux d3 S dt .z (f (c.down .z)) (f c))]
  else [])

/-- Memory after the recomputation. -/
noncomputable def lowMem (d3 : Bool) (S : Settings α) (P : Grid) (dt : α) (U : Nat)
    (m : Addr → α) : Addr → α :=
  (lowStores d3 S dt (field d3 m U) fun c => m (c.at aFlags 0)).foldl (setAll d3 P) m

theorem lowFlux_norm (d3 : Bool) (d : Dir) (a b : HState α) :
    (lowFlux d3 S dt d a b).norm d3 = lowFlux d3 S dt d a b := scale_norm _ _ _

theorem recomputeAlong_exec (d3 : Bool) (c : Cell) (d : Dir) (m : Addr → α) :
    (recomputeAlong d3 S dt U c d).exec m = setState d3 m (aF 0 d) c
      (lowFlux d3 S dt d (field d3 m U (c.down d)) (field d3 m U c)) := by
  unfold recomputeAlong
  simp only [K.bind_eq]
  rw [(loadState_reads _ _ _ _).exec_bind, (loadState_reads _ _ _ _).exec_bind, storeState_exec]

theorem recomputeAlong_fp (h : StageOk M P) (hU : stateArray ti U) {c : Cell}
    (hb : P.box M.d3 c) (hi : P.inner M.d3 c) {d : Dir} (hd : d.ok M.d3) :
    CellFP (moodDom M.d3 P M.ncoefs ti) (fun A => ∃ d, A = aF 0 d) c
      (recomputeAlong M.d3 S dt U c d) := by
  have hg : 1 ≤ P.ghostWidth := by have := h.gw2; omega
  have ho : ¬ ∃ d, U = aF 0 d := fun ⟨d, e⟩ => stateArray_flux hU d e
  exact CellFP.bind (CellFP.loadState (h.dom_state hU (inner_down_box hg hd hb hi))
    fun e => (ho e).elim) fun _ => CellFP.bind (CellFP.loadState (h.dom_state hU hb)
    fun e => (ho e).elim) fun _ => CellFP.storeState (h.dom_flux hb hd) ⟨d, rfl⟩

/-- Field after a store elsewhere. -/
theorem field_setState_fun {d3 : Bool} {m : Addr → α} {A B : Nat} {c : Cell} {q : HState α}
    (h : B ≠ A) : field d3 (setState d3 m A c q) B = field d3 m B :=
  funext fun _ => field_setState_ne (Or.inl h)

theorem recomputeFluxes_yields (h : StageOk M P) (hU : stateArray ti U)
    (hz : ltb (lit 0 : α) (lit 0) = false) (m : Addr → α)
    (hm : ∀ c, P.box M.d3 c → ¬ P.inner M.d3 c → m (c.at aFlags 0) = lit 0) :
    (recomputeFluxes lay M.d3 S P dt U).Yields (moodDom M.d3 P M.ncoefs ti) m
      (lowMem M.d3 S P dt U m) := by
  have hUF := stateArray_flux hU
  have ox : Dir.ok M.d3 .x := Or.inr (by decide)
  have oy : Dir.ok M.d3 .y := Or.inr (by decide)
  have hin : ∀ c, P.box M.d3 c → ltb (lit 0) (m (c.at aFlags 0)) = true → P.inner M.d3 c := by
    intro c hb hl
    by_contra hi
    rw [hm c hb hi, hz] at hl
    exact absurd hl (by decide)
  have y := rangeCells_yields (lay := lay) (dom := moodDom M.d3 P M.ncoefs ti)
    (out := fun A => ∃ d, A = aF 0 d) h.nonempty m (body := fun c => do
    let flag ← K.load (c.at aFlags 0)
    let flagx : α := lit 0
    let flagy : α := lit 0
    let flagz : α := lit 0
    if ltb (lit 0) flag || ltb (lit 0) flagx then recomputeAlong M.d3 S dt U c .x else pure ()
    if ltb (lit 0) flag || ltb (lit 0) flagy then recomputeAlong M.d3 S dt U c .y else pure ()
    if M.d3 then
      if ltb (lit 0) flag || ltb (lit 0) flagz then recomputeAlong M.d3 S dt U c .z else pure ()
    else pure ()) ?_
  · rw [mdEffect_list (lowStores M.d3 S dt (field M.d3 m U) fun c => m (c.at aFlags 0))] at y
    · exact y
    intro c hc
    simp only [K.bind_eq]
    rw [(Reads.load _ _).exec_bind]
    simp only [hz, Bool.or_false]
    unfold lowStores
    by_cases hl : ltb (lit 0) (m (c.at aFlags 0)) = true
    · simp only [hl, if_true]
      rw [K.exec_bind, K.exec_bind, recomputeAlong_exec, recomputeAlong_exec,
        field_setState_fun (hUF _)]
      by_cases e : M.d3 = true
      · simp only [e, if_true]
        rw [recomputeAlong_exec, field_setState_fun (hUF _), field_setState_fun (hUF _)]
        simp only [List.cons_append, List.nil_append, List.foldl_cons, List.foldl_nil, setIf, hl,
          if_true]
      · have e' : M.d3 = false := by simpa using e
        simp only [e', Bool.false_eq_true, if_false, List.append_nil, List.foldl_cons,
          List.foldl_nil, setIf, hl, if_true]
        rfl
    · have hl' : ltb (lit 0) (m (c.at aFlags 0)) = false := by simpa using hl
      simp only [hl', Bool.false_eq_true, if_false]
      by_cases e : M.d3 = true
      · simp only [e, if_true, List.cons_append, List.nil_append, List.foldl_cons, List.foldl_nil,
          setIf, hl', Bool.false_eq_true, if_false]
        rfl
      · have e' : M.d3 = false := by simpa using e
        simp only [e', Bool.false_eq_true, if_false, List.append_nil, List.foldl_cons,
          List.foldl_nil, setIf, hl']
        rfl
  · intro c hc
    have hro : ¬ ∃ d, (c.at aFlags 0).arr = aF 0 d := fun ⟨d, e⟩ => aF_flags d e.symm
    refine ⟨⟨⟨hc, Or.inr ⟨rfl, by simp⟩⟩, fun e => (hro e).elim⟩, fun v => ?_⟩
    beta_reduce
    rw [if_pos hro]
    refine FP.fix ?_
    simp only [K.bind, hz, Bool.or_false]
    by_cases hl : ltb (lit 0) (m (c.at aFlags 0)) = true
    · have hi := hin c hc hl
      simp only [hl, if_true]
      refine CellFP.bind (recomputeAlong_fp h hU hc hi ox) fun _ =>
        CellFP.bind (recomputeAlong_fp h hU hc hi oy) fun _ => ?_
      split_ifs with e
      · exact recomputeAlong_fp h hU hc hi (Or.inl e)
      · exact CellFP.ret _
    · have hl' : ltb (lit 0) (m (c.at aFlags 0)) = false := by simpa using hl
      simp only [hl', Bool.false_eq_true, if_false]
      split_ifs <;> trivial

theorem lowMem_other {m : Addr → α} {a : Addr} {d3 : Bool} (h : ∀ d, a.arr ≠ aF 0 d) :
    lowMem d3 S P dt U m a = m a := by
  refine foldl_setAll_other _ _ fun x hx => ?_
  unfold lowStores at hx
  split_ifs at hx <;> simp only [List.cons_append, List.nil_append, List.mem_cons,
    List.not_mem_nil, or_false] at hx
  · rcases hx with rfl | rfl | rfl
    · exact h .x
    · exact h .y
    · exact h .z
  · rcases hx with rfl | rfl
    · exact h .x
    · exact h .y

theorem lowMem_field {m : Addr → α} {d3 : Bool} {c : Cell} {d : Dir} (hd : d.ok d3)
    (hb : P.box d3 c) :
    field d3 (lowMem d3 S P dt U m) (aF 0 d) c =
      if ltb (lit 0) (m (c.at aFlags 0)) = true then
        lowFlux d3 S dt d (field d3 m U (c.down d)) (field d3 m U c)
      else field d3 m (aF 0 d) c := by
  unfold lowMem lowStores
  by_cases hl : ltb (lit 0) (m (c.at aFlags 0)) = true
  · rw [if_pos hl]
    cases d3
    · simp only [Bool.false_eq_true, if_false, List.append_nil, List.foldl_cons, List.foldl_nil,
        setAll]
      cases d
      · rw [field_setArr_ne (Or.inl (by decide)), field_setArr_same ⟨hb, hl⟩]
        exact lowFlux_norm _ _ _ _
      · rw [field_setArr_same ⟨hb, hl⟩]; exact lowFlux_norm _ _ _ _
      · simp [Dir.ok] at hd
    · simp only [if_true, List.cons_append, List.nil_append, List.foldl_cons, List.foldl_nil,
        setAll]
      cases d
      · rw [field_setArr_ne (Or.inl (by decide)), field_setArr_ne (Or.inl (by decide)),
          field_setArr_same ⟨hb, hl⟩]
        exact lowFlux_norm _ _ _ _
      · rw [field_setArr_ne (Or.inl (by decide)), field_setArr_same ⟨hb, hl⟩]
        exact lowFlux_norm _ _ _ _
      · rw [field_setArr_same ⟨hb, hl⟩]; exact lowFlux_norm _ _ _ _
  · rw [if_neg hl]
    have hn : ∀ {p : Prop}, ¬ (p ∧ ltb (lit 0) (m (c.at aFlags 0)) = true) := fun e => hl e.2
    cases d3
    · simp only [Bool.false_eq_true, if_false, List.append_nil, List.foldl_cons, List.foldl_nil,
        setAll]
      rw [field_setArr_ne (Or.inr hn), field_setArr_ne (Or.inr hn)]
    · simp only [if_true, List.cons_append, List.nil_append, List.foldl_cons, List.foldl_nil,
        setAll]
      rw [field_setArr_ne (Or.inr hn), field_setArr_ne (Or.inr hn), field_setArr_ne (Or.inr hn)]

/-! ### Updates -/

theorem inner_store_yields {g : (Addr → α) → Cell → HState α} {body : Cell → K Addr α Unit}
    (h : StageOk M P) {UNew : Nat} (m : Addr → α)
    (hfp : ∀ c, P.box M.d3 c → P.inner M.d3 c →
      CellFP (moodDom M.d3 P M.ncoefs ti) (fun A => A = UNew) c (body c))
    (hex : ∀ c, (body c).exec m = setState M.d3 m UNew c (g m c)) :
    (rangeCells lay M.d3 P fun c => if P.inner M.d3 c then body c else pure ()).Yields
      (moodDom M.d3 P M.ncoefs ti) m
      (setArr M.d3 m UNew (fun c => P.box M.d3 c ∧ P.inner M.d3 c) (g m)) := by
  have y := rangeCells_yields' (lay := lay) (dom := moodDom M.d3 P M.ncoefs ti)
    (out := fun A => A = UNew) h.nonempty m
    (body := fun c => if P.inner M.d3 c then body c else pure ()) ?_
  · rw [mdEffect_list [(UNew, fun c => P.inner M.d3 c, g m)]] at y
    · exact y
    intro c hc
    simp only [List.foldl_cons, List.foldl_nil, setIf]
    by_cases hi : P.inner M.d3 c
    · simp only [hi, if_true]; exact hex c
    · simp only [hi, if_false]; rfl
  · intro c hc
    split_ifs with hi
    · exact hfp c hc hi
    · exact CellFP.ret _

variable {UOld URK UNew : Nat}

theorem updateState_yields (h : StageOk M P) (h1 : stateArray ti UOld) (h2 : stateArray ti UNew)
    (m : Addr → α) : (updateState lay M.d3 P UOld UNew).Yields (moodDom M.d3 P M.ncoefs ti) m
      (setArr M.d3 m UNew (fun c => P.box M.d3 c ∧ P.inner M.d3 c)
        fun c => accFluxes M.d3 (field M.d3 m UOld c) (fluxesAt M.d3 m c)) := by
  refine inner_store_yields h m (g := fun m c =>
    accFluxes M.d3 (field M.d3 m UOld c) (fluxesAt M.d3 m c)) ?_ ?_
  · intro c hc hi
    exact CellFP.bind (CellFP.loadState (h.dom_state h1 hc) fun _ => rfl) fun _ =>
      CellFP.bind (loadFluxes_fp (inner_fluxes_dom h hc hi)
        fun d e => stateArray_flux h2 d e.symm) fun _ =>
        CellFP.storeState (h.dom_state h2 hc) rfl
  · intro c
    simp only [K.bind_eq]
    rw [(loadState_reads _ _ _ _).exec_bind, (loadFluxes_reads _ _ _).exec_bind, storeState_exec]

theorem updateSsprk2_yields (h : StageOk M P) (h1 : stateArray ti UOld) (h3 : stateArray ti URK)
    (h2 : stateArray ti UNew)
    (m : Addr → α) : (updateSsprk2 lay M.d3 P UOld URK UNew).Yields (moodDom M.d3 P M.ncoefs ti) m
      (setArr M.d3 m UNew (fun c => P.box M.d3 c ∧ P.inner M.d3 c)
        fun c => ofComps M.d3 fun v => lit (1 / 2) * comp (accFluxes M.d3
          (zipState M.d3 (· + ·) (field M.d3 m UOld c) (field M.d3 m URK c))
          (fluxesAt M.d3 m c)) v) := by
  refine inner_store_yields h m (g := fun m c =>
    ofComps M.d3 fun v => lit (1 / 2) * comp (accFluxes M.d3
          (zipState M.d3 (· + ·) (field M.d3 m UOld c) (field M.d3 m URK c))
          (fluxesAt M.d3 m c)) v) ?_ ?_
  · intro c hc hi
    exact CellFP.bind (CellFP.loadState (h.dom_state h1 hc) fun _ => rfl) fun _ =>
      CellFP.bind (CellFP.loadState (h.dom_state h3 hc) fun _ => rfl) fun _ =>
      CellFP.bind (loadFluxes_fp (inner_fluxes_dom h hc hi)
        fun d e => stateArray_flux h2 d e.symm) fun _ =>
        CellFP.storeState (h.dom_state h2 hc) rfl
  · intro c
    simp only [K.bind_eq]
    rw [(loadState_reads _ _ _ _).exec_bind, (loadState_reads _ _ _ _).exec_bind,
      (loadFluxes_reads _ _ _).exec_bind, storeState_exec]

theorem updateWeight_yields {w1 w2 w3 : α} (h : StageOk M P) (h1 : stateArray ti UOld)
    (h3 : stateArray ti URK) (h2 : stateArray ti UNew) (m : Addr → α) :
    (updateWeight lay M.d3 P UOld URK UNew w1 w2 w3).Yields (moodDom M.d3 P M.ncoefs ti) m
      (setArr M.d3 m UNew (fun c => P.box M.d3 c ∧ P.inner M.d3 c)
        fun c => ofComps M.d3 fun v => (w1 * comp (field M.d3 m UOld c) v +
          w2 * comp (field M.d3 m URK c) v) + w3 * comp (sumFluxes M.d3 (fluxesAt M.d3 m c)) v) := by
  refine inner_store_yields h m (g := fun m c =>
    ofComps M.d3 fun v => (w1 * comp (field M.d3 m UOld c) v +
          w2 * comp (field M.d3 m URK c) v) + w3 * comp (sumFluxes M.d3 (fluxesAt M.d3 m c)) v) ?_ ?_
  · intro c hc hi
    exact CellFP.bind (CellFP.loadState (h.dom_state h1 hc) fun _ => rfl) fun _ =>
      CellFP.bind (CellFP.loadState (h.dom_state h3 hc) fun _ => rfl) fun _ =>
      CellFP.bind (loadFluxes_fp (inner_fluxes_dom h hc hi)
        fun d e => stateArray_flux h2 d e.symm) fun _ =>
        CellFP.storeState (h.dom_state h2 hc) rfl
  · intro c
    simp only [K.bind_eq]
    rw [(loadState_reads _ _ _ _).exec_bind, (loadState_reads _ _ _ _).exec_bind,
      (loadFluxes_reads _ _ _).exec_bind, storeState_exec]

end Verif.Mood
