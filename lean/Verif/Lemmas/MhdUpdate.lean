import Verif.Lemmas.MhdStep

/-! Helper lemmas: fluxes, electric field and updates of an MHD step, implementation version 0. -/

namespace Verif

open K Function ROps

variable {α : Type} [ROps α]

section loops

variable {d3 : Bool} {S : MSettings α} {P : Grid} {J : MJunk α} {impl : Int}
  {Uin Uout : Nat} {xmin dt : α} {T : Cell → Predicted α}

theorem loadFlux_fp {dom : Addr → Prop} {out : Nat → Prop} {c : Cell} {d : Dir}
    (hd : d ∈ dirs d3) (h : MhdOk d3 P impl Uin Uout) (hs : ∀ a, mhdDom d3 P impl a → dom a)
    (ho : ∀ A, 40 ≤ A → A < 58 → ¬ out A) (hc : P.box d3 c) (hf : P.faces d3 c) :
    CellFP dom out c (loadFlux S J c d) :=
  CellFP.bind (CellFP.get_state (fun v hv => hs _ (h.dom_qm hd (faces_down h.gw hf hc hd).1 v hv))
    fun e => (ho _ (mQm_range d).1 (mQm_range d).2 e).elim) fun _ =>
  CellFP.bind (CellFP.get_state (fun v hv => hs _ (h.dom_qp hd hc v hv))
    fun e => (ho _ (mQp_range d).1 (mQp_range d).2 e).elim) fun _ => CellFP.ret _

theorem loadFlux_reads {m : Addr → α} (hg : 3 ≤ P.ghostWidth) (hT : Traced d3 S P T m) {c : Cell}
    {d : Dir} (hd : d ∈ dirs d3) (hc : P.box d3 c) (hf : P.faces d3 c) :
    Reads (loadFlux S J c d) m (mfluxOf d3 S J T c d) := by
  have b := faces_down hg hf hc hd
  refine Reads.bind (get_state_reads _ _ _) (Reads.bind (get_state_reads _ _ _) ⟨rfl, ?_⟩)
  rw [hT.qm _ b.1 b.2 d hd, hT.qp c hc (faces_traced hf) d hd]
  rfl

theorem emf_z (d3 : Bool) : EmfDir.z ∈ emfDirs d3 := by cases d3 <;> simp [emfDirs]

theorem loadEmf_fp {dom : Addr → Prop} {out : Nat → Prop} {c : Cell} {e : EmfDir}
    (he : e ∈ emfDirs d3) (h : MhdOk d3 P impl Uin Uout) (hs : ∀ a, mhdDom d3 P impl a → dom a)
    (ho : ∀ A, 40 ≤ A → A < 58 → ¬ out A) (hc : P.box d3 c) (hf : P.faces d3 c) :
    CellFP dom out c (loadEmf S c e) := by
  have l : ∀ k c', P.box d3 c' → CellFP dom out c (get_state (mEdge e k) c' : K Addr α _) :=
    fun k c' hc' => CellFP.get_state (fun v hv => hs _ (h.dom_edge he k hc' v hv))
      fun o => (ho _ (mEdge_range e k).1 (mEdge_range e k).2 o).elim
  have b1 := fun d hd => (faces_down (d := d) h.gw hf hc hd).1
  have b2 := fun d d' hd hd' hne => (faces_down2 (d := d) (d' := d') h.gw hf hc hd hd' hne).1
  cases e <;> cases d3 <;> simp [emfDirs] at he <;>
  exact CellFP.bind (l _ _ (b2 _ _ (by decide) (by decide) (by decide))) fun _ =>
    CellFP.bind (l _ _ (b1 _ (by decide))) fun _ => CellFP.bind (l _ _ (b1 _ (by decide))) fun _ =>
    CellFP.bind (l _ _ hc) fun _ => CellFP.ret _

theorem loadEmf_reads {m : Addr → α} (hg : 3 ≤ P.ghostWidth) (hT : Traced d3 S P T m) {c : Cell}
    {e : EmfDir} (he : e ∈ emfDirs d3) (hc : P.box d3 c) (hf : P.faces d3 c) :
    Reads (loadEmf S c e) m (emfOf d3 S T c e) := by
  have b1 := fun d hd => faces_down (d := d) hg hf hc hd
  have b2 := fun d d' hd hd' hne => faces_down2 (d := d) (d' := d') hg hf hc hd hd' hne
  have q := fun k c' (hb : P.box d3 c' ∧ P.traced d3 c') => hT.edge c' hb.1 hb.2 e he k
  cases e
  · cases d3
    · simp [emfDirs] at he
    · refine Reads.bind (get_state_reads _ _ _) (Reads.bind (get_state_reads _ _ _)
        (Reads.bind (get_state_reads _ _ _) (Reads.bind (get_state_reads _ _ _) ⟨rfl, ?_⟩)))
      rw [q _ _ (b2 _ _ (by decide) (by decide) (by decide)), q _ _ (b1 _ (by decide)),
        q _ _ (b1 _ (by decide)), q _ _ ⟨hc, faces_traced hf⟩]
      rfl
  · cases d3
    · simp [emfDirs] at he
    · refine Reads.bind (get_state_reads _ _ _) (Reads.bind (get_state_reads _ _ _)
        (Reads.bind (get_state_reads _ _ _) (Reads.bind (get_state_reads _ _ _) ⟨rfl, ?_⟩)))
      rw [q _ _ (b2 _ _ (by decide) (by decide) (by decide)), q _ _ (b1 _ (by decide)),
        q _ _ (b1 _ (by decide)), q _ _ ⟨hc, faces_traced hf⟩]
      rfl
  · have hx : Dir.x ∈ dirs d3 := by cases d3 <;> decide
    have hy : Dir.y ∈ dirs d3 := by cases d3 <;> decide
    refine Reads.bind (get_state_reads _ _ _) (Reads.bind (get_state_reads _ _ _)
      (Reads.bind (get_state_reads _ _ _) (Reads.bind (get_state_reads _ _ _) ⟨rfl, ?_⟩)))
    rw [q _ _ (b2 _ _ hx hy (by decide)), q _ _ (b1 _ hx),
      q _ _ (b1 _ hy), q _ _ ⟨hc, faces_traced hf⟩]
    rfl

/-- Flux loop of implementation version 0. -/
theorem mhd_fluxes (h : MhdOk d3 P 0 Uin Uout) {m : Addr → α} (hT : Traced d3 S P T m) :
    ∃ m', (computeFluxesAndStore d3 S P J).Yields (mhdDom d3 P 0) m m' ∧
      (∀ c, P.box d3 c → P.faces d3 c → ∀ d ∈ dirs d3,
        mfield m' (mF d) c = mfluxOf d3 S J T c d) ∧
      (∀ a, a.arr < 58 → m' a = m a) := by
  have hFP : ∀ c, P.box d3 c → CellFP (mhdDom d3 P 0) (fun A => 58 ≤ A) c
      (computeFluxesAndStoreBody d3 S P J c) := by
    intro c hc
    by_cases hf : P.faces d3 c
    · rw [computeFluxesAndStoreBody, if_pos hf]
      exact CellFP.each _ fun d hd =>
        CellFP.bind (loadFlux_fp hd h (fun _ h => h) (fun A _ h => by omega) hc hf) fun _ =>
        CellFP.set_state (h.dom_f hd hc) (mF_range d).1
    · rw [computeFluxesAndStoreBody, if_neg hf]; exact CellFP.ret _
  refine ⟨_, mdrange_yields hFP m, ?_, fun a ha => mdEffect_frame hFP m (by omega)⟩
  intro c hc hf d hd
  rw [mfield_mdEffect m _ hc, computeFluxesAndStoreBody, if_pos hf]
  have step : ∀ d ∈ dirs d3, ∀ m1 : Addr → α, (∀ a, a.arr < 58 → m1 a = m a) →
      ((loadFlux S J c d).bind fun flux => set_state (mF d) c flux).exec m1 =
        msetState m1 (mF d) c (mfluxOf d3 S J T c d) := by
    intro d hd m1 h1
    have hT1 : Traced d3 S P T m1 := by
      have e : ∀ A, A < 58 → mfield m1 A = mfield m A := fun A hA => by
        funext c; exact mfield_ext fun v _ => h1 _ hA
      refine ⟨fun c h1 h2 d hd => ?_, fun c h1 h2 d hd => ?_, fun c h1 h2 d hd k => ?_⟩
      · rw [e _ (mQm_range d).2, hT.qm c h1 h2 d hd]
      · rw [e _ (mQp_range d).2, hT.qp c h1 h2 d hd]
      · rw [e _ (mEdge_range d k).2, hT.edge c h1 h2 d hd k]
    rw [(loadFlux_reads h.gw hT1 hd hc hf).exec_bind, set_state_exec]
  have fr : ∀ (m1 : Addr → α) d q, (∀ a, a.arr < 58 → m1 a = m a) →
      ∀ a, a.arr < 58 → msetState m1 (mF d) c q a = m a := by
    intro m1 d q h1 a ha
    rw [msetState, if_neg (by have := mF_range d; omega), h1 a ha]
  cases d3
  · simp only [dirs, each, bind_eq, pure_eq, exec_bind, K.exec, Bool.false_eq_true, if_false]
    have s1 := step .x (by decide) m (fun _ _ => rfl)
    have s2 := step .y (by decide) _ (fr m .x (mfluxOf false S J T c .x) (fun _ _ => rfl))
    simp only [exec_bind] at s1 s2
    rw [s1, s2]
    cases d <;> simp [dirs] at hd
    · rw [mfield_msetState_ne (Or.inl (by decide)), mfield_msetState_same]
    · rw [mfield_msetState_same]
  · simp only [dirs, each, bind_eq, pure_eq, exec_bind, K.exec, if_true]
    have s1 := step .x (by decide) m (fun _ _ => rfl)
    have s2 := step .y (by decide) _ (fr m .x (mfluxOf true S J T c .x) (fun _ _ => rfl))
    have s3 := step .z (by decide) _ (fr (msetState m (mF .x) c (mfluxOf true S J T c .x)) .y
      (mfluxOf true S J T c .y) (fr m .x (mfluxOf true S J T c .x) (fun _ _ => rfl)))
    simp only [exec_bind] at s1 s2 s3
    rw [s1, s2, s3]
    cases d
    · rw [mfield_msetState_ne (Or.inl (by decide)), mfield_msetState_ne (Or.inl (by decide)),
        mfield_msetState_same]
    · rw [mfield_msetState_ne (Or.inl (by decide)), mfield_msetState_same]
    · rw [mfield_msetState_same]

/-- Electric field loop of implementation version 0. -/
theorem mhd_emf (h : MhdOk d3 P 0 Uin Uout) {m : Addr → α} (hT : Traced d3 S P T m) :
    ∃ m', (computeEmfAndStore d3 S P).Yields (mhdDom d3 P 0) m m' ∧
      (∀ c, P.box d3 c → P.faces d3 c → ∀ e ∈ emfDirs d3,
        m' (c.at mEmf e.comp) = emfOf d3 S T c e) ∧
      (∀ a, a.arr ≠ mEmf → m' a = m a) := by
  have hFP : ∀ c, P.box d3 c → CellFP (mhdDom d3 P 0) (fun A => A = mEmf) c
      (computeEmfAndStoreBody d3 S P c) := by
    intro c hc
    by_cases hf : P.faces d3 c
    · rw [computeEmfAndStoreBody, if_pos hf]
      exact CellFP.each _ fun d hd =>
        CellFP.bind (loadEmf_fp hd h (fun _ h => h) (fun A _ h => by simp only [mEmf]; omega) hc hf) fun _ =>
        CellFP.store (h.dom_emf hd hc) rfl rfl
    · rw [computeEmfAndStoreBody, if_neg hf]; exact CellFP.ret _
  refine ⟨_, mdrange_yields hFP m, ?_, fun a ha => mdEffect_frame hFP m ha⟩
  intro c hc hf d hd
  rw [mdEffect, Cell.at_cell, if_pos hc, computeEmfAndStoreBody, if_pos hf]
  have step : ∀ d ∈ emfDirs d3, ∀ m1 : Addr → α, (∀ a, a.arr ≠ mEmf → m1 a = m a) →
      ((loadEmf S c d).bind fun x => K.store (c.at mEmf d.comp) x).exec m1 =
        Function.update m1 (c.at mEmf d.comp) (emfOf d3 S T c d) := by
    intro d hd m1 h1
    have hT1 : Traced d3 S P T m1 := by
      have e : ∀ A, A < 58 → mfield m1 A = mfield m A := fun A hA => by
        funext c; exact mfield_ext fun v _ => h1 _ (by simp only [Cell.at_arr, mEmf]; omega)
      refine ⟨fun c h1 h2 d hd => ?_, fun c h1 h2 d hd => ?_, fun c h1 h2 d hd k => ?_⟩
      · rw [e _ (mQm_range d).2, hT.qm c h1 h2 d hd]
      · rw [e _ (mQp_range d).2, hT.qp c h1 h2 d hd]
      · rw [e _ (mEdge_range d k).2, hT.edge c h1 h2 d hd k]
    rw [(loadEmf_reads h.gw hT1 hd hc hf).exec_bind]
    rfl
  have fr : ∀ (m1 : Addr → α) v q, (∀ a, a.arr ≠ mEmf → m1 a = m a) →
      ∀ a, a.arr ≠ mEmf → Function.update m1 (c.at mEmf v) q a = m a := by
    intro m1 d q h1 a ha
    rw [Function.update_of_ne (by rintro rfl; exact ha rfl), h1 a ha]
  cases d3
  · simp only [emfDirs, each, bind_eq, pure_eq, exec_bind, K.exec, Bool.false_eq_true, if_false]
    have s1 := step .z (by decide) m (fun _ _ => rfl)
    simp only [exec_bind] at s1
    rw [s1]
    cases d <;> simp [emfDirs] at hd
    rw [Function.update_self]
  · simp only [emfDirs, each, bind_eq, pure_eq, exec_bind, K.exec, if_true]
    have s1 := step .z (by decide) m (fun _ _ => rfl)
    have s2 := step .y (by decide) _ (fr m EmfDir.z.comp (emfOf true S T c .z) (fun _ _ => rfl))
    have s3 := step .x (by decide) _ (fr (Function.update m (c.at mEmf EmfDir.z.comp) (emfOf true S T c .z))
      EmfDir.y.comp (emfOf true S T c .y) (fr m EmfDir.z.comp (emfOf true S T c .z) (fun _ _ => rfl)))
    simp only [exec_bind] at s1 s2 s3
    rw [s1, s2, s3]
    cases d <;> simp [Function.update_apply, EmfDir.comp, Cell.at]

theorem updateDirs_fp {dom : Addr → Prop} {out : Nat → Prop} {c : Cell} (l : List Dir)
    (h0 : ∀ d ∈ l, ∀ v, v < 8 → dom (c.at (mF d) v))
    (h1 : ∀ d ∈ l, ∀ v, v < 8 → dom ((c.up d).at (mF d) v)) (ho : ∀ d, ¬ out (mF d)) (u : MState α) :
    CellFP dom out c (updateDirs d3 S dt c l u) := by
  induction l generalizing u with
  | nil => exact CellFP.ret _
  | cons d l ih =>
    exact CellFP.bind (CellFP.get_state (h0 d (by simp)) fun e => (ho _ e).elim) fun _ =>
      CellFP.bind (CellFP.get_state (h1 d (by simp)) fun e => (ho _ e).elim) fun _ =>
      ih (fun d hd => h0 d (by simp [hd])) (fun d hd => h1 d (by simp [hd])) _

theorem updateDirs_reads {m : Addr → α} {F : Cell → Dir → MState α} {c : Cell} (l : List Dir)
    (h0 : ∀ d ∈ l, mfield m (mF d) c = F c d)
    (h1 : ∀ d ∈ l, mfield m (mF d) (c.up d) = F (c.up d) d) (u : MState α) :
    Reads (updateDirs d3 S dt c l u) m (fluxUpd d3 S dt F c l u) := by
  induction l generalizing u with
  | nil => exact ⟨rfl, rfl⟩
  | cons d l ih =>
    refine Reads.bind (get_state_reads _ _ _) (Reads.bind (get_state_reads _ _ _) ?_)
    rw [h0 d (by simp), h1 d (by simp)]
    exact ih (fun d hd => h0 d (by simp [hd])) (fun d hd => h1 d (by simp [hd])) _

/-- Conservative update of implementation version 0. -/
theorem mhd_update (h : MhdOk d3 P 0 Uin Uout) {m : Addr → α} {F : Cell → Dir → MState α}
    (hF : ∀ c, P.box d3 c → P.faces d3 c → ∀ d ∈ dirs d3, mfield m (mF d) c = F c d) :
    ∃ m', (updateMhd d3 S P dt Uout).Yields (mhdDom d3 P 0) m m' ∧
      (∀ c, P.box d3 c → P.inner d3 c →
        mfield m' Uout c = fluxUpd d3 S dt F c (dirs d3) (mfield m Uout c)) ∧
      (∀ c, P.box d3 c → ¬ P.inner d3 c → mfield m' Uout c = mfield m Uout c) ∧
      (∀ a, a.arr ≠ Uout → m' a = m a) := by
  have ho : ∀ d, mF d ≠ Uout := fun d => by have := h.out_lt; have := mF_range d; omega
  have hFP : ∀ c, P.box d3 c → CellFP (mhdDom d3 P 0) (fun A => A = Uout) c
      (updateMhdBody d3 S P dt Uout c) := by
    intro c hc
    by_cases hi : P.inner d3 c
    · rw [updateMhdBody, if_pos hi]
      exact CellFP.bind (CellFP.get_state (h.dom_out hc) fun _ => rfl) fun _ =>
        CellFP.bind (updateDirs_fp _ (fun d hd => h.dom_f hd hc)
          (fun d hd => h.dom_f hd (inner_up h.gw hi hc hd).1) ho _) fun _ =>
        CellFP.set_state (h.dom_out hc) rfl
    · rw [updateMhdBody, if_neg hi]; exact CellFP.ret _
  refine ⟨_, mdrange_yields hFP m, ?_, ?_, fun a ha => mdEffect_frame hFP m ha⟩
  · intro c hc hi
    rw [mfield_mdEffect m _ hc, updateMhdBody, if_pos hi]
    simp only [bind_eq]
    rw [(get_state_reads _ _ _).exec_bind, (updateDirs_reads (F := F) _
      (fun d hd => hF c hc (inner_faces hi) d hd)
      (fun d hd => hF _ (inner_up h.gw hi hc hd).1 (inner_up h.gw hi hc hd).2 d hd) _).exec_bind,
      set_state_exec, mfield_msetState_same]
  · intro c hc hi
    rw [mfield_mdEffect m _ hc, updateMhdBody, if_neg hi]
    rfl

/-- Field update of implementation version 0. -/
theorem mhd_updateEmf (h : MhdOk d3 P 0 Uin Uout) {m : Addr → α} {E : Cell → EmfDir → α}
    (hE : ∀ c, P.box d3 c → P.faces d3 c → ∀ e ∈ emfDirs d3, m (c.at mEmf e.comp) = E c e) :
    ∃ m', (updateEmf d3 S P dt Uout).Yields (mhdDom d3 P 0) m m' ∧
      (∀ c, P.box d3 c → P.inner d3 c →
        mfield m' Uout c = emfUpd d3 S dt E c (mfield m Uout c)) ∧
      (∀ c, P.box d3 c → ¬ P.inner d3 c → mfield m' Uout c = mfield m Uout c) ∧
      (∀ a, a.arr ≠ Uout → m' a = m a) := by
  have ho : mEmf ≠ Uout := by have := h.out_lt; simp only [mEmf]; omega
  have df : ∀ {op v e d s c}, P.box d3 c → P.inner d3 c → e ∈ emfDirs d3 → d ∈ dirs d3 → v < 8 →
      CellFP (mhdDom d3 P 0) (fun A => A = Uout) c (emfDiff op Uout c v e d s : K Addr α Unit) := by
    intro op v e d s c hc hi he hd hv
    exact CellFP.bind (CellFP.load (h.dom_out hc v hv) fun _ => rfl) fun _ =>
      CellFP.bind (CellFP.load (h.dom_emf he (inner_up h.gw hi hc hd).1) fun o => (ho o).elim) fun _ =>
      CellFP.bind (CellFP.load (h.dom_emf he hc) fun o => (ho o).elim) fun _ =>
      CellFP.store (h.dom_out hc v hv) rfl rfl
  have hx : Dir.x ∈ dirs d3 := by cases d3 <;> decide
  have hy : Dir.y ∈ dirs d3 := by cases d3 <;> decide
  have hFP : ∀ c, P.box d3 c → CellFP (mhdDom d3 P 0) (fun A => A = Uout) c
      (updateEmfBody d3 S P dt Uout c) := by
    intro c hc
    by_cases hi : P.inner d3 c
    · rw [updateEmfBody, if_pos hi]
      refine CellFP.bind (df hc hi (emf_z _) hy (by decide)) fun _ =>
        CellFP.bind (df hc hi (emf_z _) hx (by decide)) fun _ => ?_
      cases d3
      · exact CellFP.ret _
      · exact CellFP.bind (df hc hi (by decide) (by decide) (by decide)) fun _ =>
          CellFP.bind (df hc hi (by decide) (by decide) (by decide)) fun _ =>
          CellFP.bind (df hc hi (by decide) (by decide) (by decide)) fun _ =>
          df hc hi (by decide) (by decide) (by decide)
    · rw [updateEmfBody, if_neg hi]; exact CellFP.ret _
  refine ⟨_, mdrange_yields hFP m, ?_, ?_, fun a ha => mdEffect_frame hFP m ha⟩
  · intro c hc hi
    rw [mfield_mdEffect m _ hc, updateEmfBody, if_pos hi]
    have e0 := fun e he => hE c hc (inner_faces hi) e he
    have e1 := fun d hd e he =>
      hE (c.up d) (inner_up (d := d) h.gw hi hc hd).1 (inner_up h.gw hi hc hd).2 e he
    cases d3
    · have a0 := e0 .z (by decide)
      have a1 := e1 .x (by decide) .z (by decide)
      have a2 := e1 .y (by decide) .z (by decide)
      obtain ⟨i, j, k⟩ := c
      simp only [Cell.at, Cell.up, EmfDir.comp] at a0 a1 a2
      simp [emfDiff, emfUpd, mfield, K.exec, K.load, K.store, K.bind, Function.update_apply, Cell.at,
        Cell.up, EmfDir.comp, IA, IB, ho, a0, a1, a2]
    · have a0 := e0 .z (by decide)
      have a1 := e1 .x (by decide) .z (by decide)
      have a2 := e1 .y (by decide) .z (by decide)
      have b0 := e0 .y (by decide)
      have b1 := e1 .x (by decide) .y (by decide)
      have b2 := e1 .z (by decide) .y (by decide)
      have c0 := e0 .x (by decide)
      have c1 := e1 .y (by decide) .x (by decide)
      have c2 := e1 .z (by decide) .x (by decide)
      obtain ⟨i, j, k⟩ := c
      simp only [Cell.at, Cell.up, EmfDir.comp] at a0 a1 a2 b0 b1 b2 c0 c1 c2
      simp [emfDiff, emfUpd, mfield, K.exec, K.load, K.store, K.bind, Function.update_apply, Cell.at,
        Cell.up, EmfDir.comp, IA, IB, IC, ho, a0, a1, a2, b0, b1, b2, c0, c1, c2]
  · intro c hc hi
    rw [mfield_mdEffect m _ hc, updateEmfBody, if_neg hi]
    rfl

end loops

end Verif
