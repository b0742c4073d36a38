import Verif.Lemmas.MhdHalf
import Verif.Lemmas.MhdFlux

/-! Helper lemmas: a whole MHD step of implementation version 2, in exact arithmetic. -/

namespace Verif

open K Function ROps Spec

/-! ### Fluxes and electric fields as functions of the states -/

section scheme

variable {α : Type} [ROps α]

/-- Field through the lower face in direction `d` after half a time step. -/
def faceOf (d3 : Bool) (S : MSettings α) (dt : α) (U Q : Cell → MState α) (d : Dir) (c : Cell) : α :=
  (U c).getB d + srcOf d3 S dt U Q d c

/-- Flux at the lower face in direction `d`, in rotated variables. -/
def flux2Of (d3 : Bool) (S : MSettings α) (J : MJunk α) (dt : α) (U Q : Cell → MState α) (c : Cell)
    (d : Dir) : MState α :=
  (riemann_mhd S
    ((faceState2 S d true (halfOf d3 S J dt U Q (c.down d)) (slopesOf S J U Q d (c.down d))
      (faceOf d3 S dt U Q d c)).swap d)
    ((faceState2 S d false (halfOf d3 S J dt U Q c) (slopesOf S J U Q d c)
      (faceOf d3 S dt U Q d c)).swap d)).getD (J.flux c d)

/-- Slope of the face field component `d` along `t`. -/
def limOf (S : MSettings α) (U : Cell → MState α) (d t : Dir) (c : Cell) : α :=
  slopeScalar S.toSettings ((U c).getB d) ((U (c.up t)).getB d)
    ((U (if t = .z then c.up .z else c.down t)).getB d)

/-- State of cell `c` at its corner `k` around edge `e`. -/
def edge2Of (d3 : Bool) (S : MSettings α) (J : MJunk α) (dt : α) (U Q : Cell → MState α) (e : EmfDir)
    (k : Corner) (c : Cell) : MState α :=
  edgeState2 S e.first e.second k (halfOf d3 S J dt U Q c) (slopesOf S J U Q e.first c)
    (slopesOf S J U Q e.second c)
    (faceOf d3 S dt U Q e.first (c.upIf e.first k.right))
    (limOf S U e.first e.second (c.upIf e.first k.right))
    (faceOf d3 S dt U Q e.second (c.upIf e.second k.top))
    (limOf S U e.second e.first (c.upIf e.second k.top))

/-- Electric field at the lower edge in direction `e`. -/
def emf2Of (d3 : Bool) (S : MSettings α) (J : MJunk α) (dt : α) (U Q : Cell → MState α) (c : Cell)
    (e : EmfDir) : α :=
  let f := e.first
  let s := e.second
  let X := edge2Of d3 S J dt U Q e
  if e = .y then compute_emf S e (X .RT ((c.down f).down s)) (X .LT (c.down s)) (X .RB (c.down f)) (X .LB c)
  else compute_emf S e (X .RT ((c.down f).down s)) (X .RB (c.down f)) (X .LT (c.down s)) (X .LB c)

/-- The update of a cell. -/
def mstep2Of (d3 : Bool) (S : MSettings α) (J : MJunk α) (dt : α) (U : Cell → MState α) (c : Cell) :
    MState α :=
  emfUpd d3 S dt (emf2Of d3 S J dt U (primOf d3 S U)) c
    (fluxUpd d3 S dt (flux2Of d3 S J dt U (primOf d3 S U)) c (dirs d3) (U c))

end scheme

/-! ### Loads -/

section loads

variable {d3 : Bool} {S : MSettings ℝ} {P : Grid} {J : MJunk ℝ} {Uin Uout : Nat} {dt : ℝ}
  {U Q : Cell → MState ℝ} {m : Addr → ℝ}

theorem Half.agree (h : MhdBuf d3 P 2 Uin Uout) (H : Half d3 S P J dt Uin U Q m) {m'' : Addr → ℝ}
    (hm : ∀ a, a.arr ≠ Uout → m'' a = m a) : Half d3 S P J dt Uin U Q m'' := by
  have ho := h.out_lt
  have e : ∀ A, A ≠ Uout → mfield m'' A = mfield m A := fun A hA => by
    funext c; exact mfield_ext fun v _ => hm _ hA
  refine ⟨?_, fun c h1 h2 => ?_, fun c h1 h2 d hd => ?_, fun c h1 h2 d hd => ?_⟩
  · rw [e _ h.ne]; exact H.uin
  · rw [e _ (by simp only [mQ2]; omega)]; exact H.half c h1 h2
  · rw [e _ (by have := mSlopes_range d; omega)]; exact H.slopes c h1 h2 d hd
  · rw [hm _ (by simp only [Cell.at_arr, mFaceMag]; omega)]; exact H.src c h1 h2 d hd

/-- Locations read by the update loops. -/
def AddR (d3 : Bool) (P : Grid) (U : Nat) (a : Addr) : Prop := mhdDom d3 P 2 a ∧ a.arr ≠ U
/-- Locations added to by the update loops. -/
def AddC (d3 : Bool) (P : Grid) (U : Nat) (a : Addr) : Prop := mhdDom d3 P 2 a ∧ a.arr = U

theorem loadFlux2_FP {W C : Addr → Prop} (h : MhdBuf d3 P 2 Uin Uout) {c : Cell} {d : Dir}
    (hd : d ∈ dirs d3) (hc : P.box d3 c) (hf : P.faces d3 c) :
    (loadFlux2 S J Uin c d).FP (AddR d3 P Uout) W C := by
  have ho := h.out_lt
  have hr := mSlopes_range d
  have b := (faces_down h.gw hf hc hd).1
  have hv : d.bvar < 8 := by cases d <;> decide
  have s : ∀ c', P.box d3 c' → (get_state (mSlopes d) c' : K Addr ℝ _).FP (AddR d3 P Uout) W C :=
    fun c' hc' => get_state_FP fun v hv => ⟨h.dom_slopes hd hc' v hv, by simp only [Cell.at_arr]; omega⟩
  have q : ∀ c', P.box d3 c' → (get_state mQ2 c' : K Addr ℝ _).FP (AddR d3 P Uout) W C :=
    fun c' hc' => get_state_FP fun v hv => ⟨h.dom_q2 hc' v hv, by simp only [Cell.at_arr, mQ2]; omega⟩
  exact FP.bind (s _ hc) fun _ => FP.bind (q _ hc) fun _ =>
    FP.bind (FP.load ⟨h.dom_in hc _ hv, h.ne⟩) fun _ =>
    FP.bind (FP.load ⟨h.dom_face hd hc, by simp only [Cell.at_arr, mFaceMag]; omega⟩) fun _ =>
    FP.bind (s _ b) fun _ => FP.bind (q _ b) fun _ => trivial

theorem loadFlux2_reads (h : MhdBuf d3 P 2 Uin Uout) (H : Half d3 S P J dt Uin U Q m) {c : Cell} {d : Dir}
    (hd : d ∈ dirs d3) (hc : P.box d3 c) (hf : P.faces d3 c) :
    Reads (loadFlux2 S J Uin c d) m (flux2Of d3 S J dt U Q c d) := by
  obtain ⟨b1, b2⟩ := faces_down h.gw hf hc hd
  have t := faces_traced hf
  refine ⟨rfl, Eq.trans (b := (riemann_mhd S
    ((faceState2 S d true (mfield m mQ2 (c.down d)) (mfield m (mSlopes d) (c.down d))
      (m (c.at Uin d.bvar) + m (c.at mFaceMag d.comp))).swap d)
    ((faceState2 S d false (mfield m mQ2 c) (mfield m (mSlopes d) c)
      (m (c.at Uin d.bvar) + m (c.at mFaceMag d.comp))).swap d)).getD (J.flux c d)) rfl ?_⟩
  rw [H.half _ b1 b2, H.half _ hc t, H.slopes _ b1 b2 d hd, H.slopes _ hc t d hd, H.src _ hc t d hd,
    mem_getB m, H.uin]
  rfl

/-- The cells used around an edge. -/
theorem edge_cells {c : Cell} {e : EmfDir} (hg : 3 ≤ P.ghostWidth) (he : e ∈ emfDirs d3)
    (hc : P.box d3 c) (hf : P.faces d3 c) (k : Corner) {c' : Cell}
    (hk : c' = (if k.right then c.down e.first else c).upIf e.second false ∧ k.top = false ∨
      c' = (if k.right then c.down e.first else c).down e.second ∧ k.top = true) :
    (e.first ∈ dirs d3 ∧ e.second ∈ dirs d3) ∧
    (P.box d3 c' ∧ P.traced d3 c') ∧
    (P.box d3 (c'.upIf e.first k.right) ∧ P.traced d3 (c'.upIf e.first k.right)) ∧
    (P.box d3 (c'.upIf e.second k.top) ∧ P.traced d3 (c'.upIf e.second k.top)) := by
  have hd : e.first ∈ dirs d3 ∧ e.second ∈ dirs d3 := by
    cases d3 <;> cases e <;> simp [emfDirs] at he <;> simp [dirs, EmfDir.first, EmfDir.second]
  refine ⟨hd, ?_⟩
  rcases hk with ⟨rfl, hk⟩ | ⟨rfl, hk⟩ <;> cases hr : k.right <;>
    cases d3 <;> cases e <;> simp [emfDirs] at he <;>
    simp only [hk, EmfDir.first, EmfDir.second] <;> guards2 <;>
    refine ⟨⟨?_, ?_⟩, ⟨?_, ?_⟩, ⟨?_, ?_⟩⟩ <;> omega

theorem lim_cells {c : Cell} {t : Dir} (hg : 3 ≤ P.ghostWidth) (ht : t ∈ dirs d3) (hc : P.box d3 c)
    (h : P.traced d3 c) : P.box d3 (c.up t) ∧ P.box d3 (if t = .z then c.up .z else c.down t) := by
  cases d3 <;> cases t <;> simp [dirs] at ht <;> simp only [reduceCtorEq] <;> guards2 <;> omega

theorem loadEdge2_FP {W C : Addr → Prop} (h : MhdBuf d3 P 2 Uin Uout) {c' : Cell} {e : EmfDir} {k : Corner}
    (hk : (e.first ∈ dirs d3 ∧ e.second ∈ dirs d3) ∧ (P.box d3 c' ∧ P.traced d3 c') ∧
      (P.box d3 (c'.upIf e.first k.right) ∧ P.traced d3 (c'.upIf e.first k.right)) ∧
      (P.box d3 (c'.upIf e.second k.top) ∧ P.traced d3 (c'.upIf e.second k.top))) :
    (loadEdge2 S Uin e k c').FP (AddR d3 P Uout) W C := by
  obtain ⟨⟨d1, d2⟩, ⟨b, t⟩, ⟨b0, t0⟩, ⟨b1, t1⟩⟩ := hk
  have ho := h.out_lt
  have hv : ∀ d : Dir, d.bvar < 8 := fun d => by cases d <;> decide
  have l : ∀ c'', P.box d3 c'' → ∀ d : Dir, (K.load (c''.at Uin d.bvar) : K Addr ℝ _).FP (AddR d3 P Uout) W C :=
    fun c'' hc d => FP.load ⟨h.dom_in hc _ (hv d), h.ne⟩
  have s : ∀ c'', P.box d3 c'' → ∀ d ∈ dirs d3, (K.load (c''.at mFaceMag (Dir.comp d)) : K Addr ℝ _).FP
      (AddR d3 P Uout) W C :=
    fun c'' hc d hd => FP.load ⟨h.dom_face hd hc, by simp only [Cell.at_arr, mFaceMag]; omega⟩
  have lim : ∀ c'', P.box d3 c'' → P.traced d3 c'' → ∀ t ∈ dirs d3, ∀ d : Dir,
      (loadLimitedSlope S Uin c'' t d.bvar).FP (AddR d3 P Uout) W C := fun c'' hc ht t hd d =>
    FP.bind (l _ hc d) fun _ => FP.bind (l _ (lim_cells h.gw hd hc ht).1 d) fun _ =>
    FP.bind (l _ (lim_cells h.gw hd hc ht).2 d) fun _ => trivial
  have sl : ∀ d ∈ dirs d3, (get_state (mSlopes d) c' : K Addr ℝ _).FP (AddR d3 P Uout) W C :=
    fun d hd => get_state_FP fun v hv => ⟨h.dom_slopes hd b v hv, by
      have := mSlopes_range d; simp only [Cell.at_arr]; omega⟩
  exact FP.bind (get_state_FP fun v hv => ⟨h.dom_q2 b v hv, by simp only [Cell.at_arr, mQ2]; omega⟩) fun _ =>
    FP.bind (l _ b0 _) fun _ => FP.bind (s _ b0 _ d1) fun _ => FP.bind (lim _ b0 t0 _ d2 _) fun _ =>
    FP.bind (l _ b1 _) fun _ => FP.bind (s _ b1 _ d2) fun _ => FP.bind (lim _ b1 t1 _ d1 _) fun _ =>
    FP.bind (sl _ d1) fun _ => FP.bind (sl _ d2) fun _ => trivial

theorem loadEdge2_reads (H : Half d3 S P J dt Uin U Q m) {c' : Cell} {e : EmfDir} {k : Corner}
    (hk : (e.first ∈ dirs d3 ∧ e.second ∈ dirs d3) ∧ (P.box d3 c' ∧ P.traced d3 c') ∧
      (P.box d3 (c'.upIf e.first k.right) ∧ P.traced d3 (c'.upIf e.first k.right)) ∧
      (P.box d3 (c'.upIf e.second k.top) ∧ P.traced d3 (c'.upIf e.second k.top))) :
    Reads (loadEdge2 S Uin e k c') m (edge2Of d3 S J dt U Q e k c') := by
  obtain ⟨⟨d1, d2⟩, ⟨b, t⟩, ⟨b0, t0⟩, ⟨b1, t1⟩⟩ := hk
  have lim : ∀ (d t : Dir) (c : Cell), slopeScalar S.toSettings (m (c.at Uin d.bvar))
      (m ((c.up t).at Uin d.bvar)) (m ((if t = .z then c.up .z else c.down t).at Uin d.bvar)) =
      limOf S U d t c := fun d t c => by
    rw [mem_getB m, mem_getB m, mem_getB m, H.uin]; rfl
  refine ⟨rfl, Eq.trans (b := edgeState2 S e.first e.second k (mfield m mQ2 c')
    (mfield m (mSlopes e.first) c') (mfield m (mSlopes e.second) c')
    (m ((c'.upIf e.first k.right).at Uin e.first.bvar) +
      m ((c'.upIf e.first k.right).at mFaceMag e.first.comp))
    (slopeScalar S.toSettings (m ((c'.upIf e.first k.right).at Uin e.first.bvar))
      (m (((c'.upIf e.first k.right).up e.second).at Uin e.first.bvar))
      (m ((if e.second = .z then (c'.upIf e.first k.right).up .z
        else (c'.upIf e.first k.right).down e.second).at Uin e.first.bvar)))
    (m ((c'.upIf e.second k.top).at Uin e.second.bvar) +
      m ((c'.upIf e.second k.top).at mFaceMag e.second.comp))
    (slopeScalar S.toSettings (m ((c'.upIf e.second k.top).at Uin e.second.bvar))
      (m (((c'.upIf e.second k.top).up e.first).at Uin e.second.bvar))
      (m ((if e.first = .z then (c'.upIf e.second k.top).up .z
        else (c'.upIf e.second k.top).down e.first).at Uin e.second.bvar)))) rfl ?_⟩
  rw [lim, lim, H.half _ b t, H.slopes _ b t _ d1, H.slopes _ b t _ d2, H.src _ b0 t0 _ d1,
    H.src _ b1 t1 _ d2, mem_getB m, mem_getB m, H.uin]
  rfl

theorem loadEmf2_FP {W C : Addr → Prop} (h : MhdBuf d3 P 2 Uin Uout) {c : Cell} {e : EmfDir}
    (he : e ∈ emfDirs d3) (hc : P.box d3 c) (hf : P.faces d3 c) :
    (loadEmf2 S Uin c e).FP (AddR d3 P Uout) W C :=
  FP.bind (loadEdge2_FP h (edge_cells h.gw he hc hf .LB (Or.inl ⟨rfl, rfl⟩))) fun _ =>
  FP.bind (loadEdge2_FP h (edge_cells h.gw he hc hf .RT (Or.inr ⟨rfl, rfl⟩))) fun _ =>
  FP.bind (loadEdge2_FP h (edge_cells h.gw he hc hf .RB (Or.inl ⟨rfl, rfl⟩))) fun _ =>
  FP.bind (loadEdge2_FP h (edge_cells h.gw he hc hf .LT (Or.inr ⟨rfl, rfl⟩))) fun _ => trivial

theorem Reads.bind' {X Y : Type} {p : K Addr ℝ X} {k : X → K Addr ℝ Y} {x : X} {y : Y}
    (h : Reads p m x) (h' : Reads (k x) m y) : Reads (p.bind k) m y := by
  refine ⟨?_, ?_⟩
  · rw [K.exec_bind, h.1, h.2, h'.1]
  · rw [K.value_bind, h.1, h.2, h'.2]

theorem loadEmf2_reads (h : MhdBuf d3 P 2 Uin Uout) (H : Half d3 S P J dt Uin U Q m) {c : Cell} {e : EmfDir}
    (he : e ∈ emfDirs d3) (hc : P.box d3 c) (hf : P.faces d3 c) :
    Reads (loadEmf2 S Uin c e) m (emf2Of d3 S J dt U Q c e) :=
  Reads.bind' (loadEdge2_reads H (edge_cells h.gw he hc hf .LB (Or.inl ⟨rfl, rfl⟩))) <|
  Reads.bind' (loadEdge2_reads H (edge_cells h.gw he hc hf .RT (Or.inr ⟨rfl, rfl⟩))) <|
  Reads.bind' (loadEdge2_reads H (edge_cells h.gw he hc hf .RB (Or.inl ⟨rfl, rfl⟩))) <|
  Reads.bind' (loadEdge2_reads H (edge_cells h.gw he hc hf .LT (Or.inr ⟨rfl, rfl⟩))) ⟨rfl, rfl⟩

theorem Additive.loadFlux2 (h : MhdBuf d3 P 2 Uin Uout) (H : Half d3 S P J dt Uin U Q m) {c : Cell} {d : Dir}
    (hd : d ∈ dirs d3) (hc : P.box d3 c) (hf : P.faces d3 c) :
    Additive Uout (loadFlux2 S J Uin c d) m (flux2Of d3 S J dt U Q c d) (fun _ => 0) :=
  Additive.reads (loadFlux2_FP h hd hc hf) (fun _ ha => ha.2)
    (fun _ hm => loadFlux2_reads h (H.agree h hm) hd hc hf)

theorem Additive.loadEmf2 (h : MhdBuf d3 P 2 Uin Uout) (H : Half d3 S P J dt Uin U Q m) {c : Cell} {e : EmfDir}
    (he : e ∈ emfDirs d3) (hc : P.box d3 c) (hf : P.faces d3 c) :
    Additive Uout (loadEmf2 S Uin c e) m (emf2Of d3 S J dt U Q c e) (fun _ => 0) :=
  Additive.reads (loadEmf2_FP h he hc hf) (fun _ ha => ha.2)
    (fun _ hm => loadEmf2_reads h (H.agree h hm) he hc hf)

/-! ### Loops -/

/-- A loop of additive work items. -/
theorem additive_yields2 (h : MhdBuf d3 P 2 Uin Uout) {body : Cell → K Addr ℝ Unit}
    (hFP : ∀ c, P.box d3 c → (body c).FP (AddR d3 P Uout) (fun _ => False) (AddC d3 P Uout)) :
    (mdrange d3 P body).Yields (mhdDom d3 P 2) m (fun a => m a +
      ∑ t ∈ Finset.range (P.isize.toNat * P.jsize.toNat * (if d3 then P.ksize.toNat else 1)),
        (body (P.cellOf t)).adds m a) := by
  refine Launch.yields_of_footprint_atomic _ _ (fun _ => AddR d3 P Uout) (fun _ _ => False)
    (fun _ => AddC d3 P Uout) _ _ (fun t ht => hFP _ (Grid.cellOf_box ht)) ?_ ?_ ?_ ?_ ?_ ?_ ?_
  · rintro t a _ (h | h | h)
    · exact h.1
    · exact h.elim
    · exact h.1
  · intro _ _ _ _ _ _ h; exact h.elim
  · intro _ _ _ _ _ _ h; exact h.elim
  · rintro _ _ a _ _ h1 h2
    first | exact h1.2 h2.2 | exact h2.2 h1.2
  · rintro _ _ a _ _ h1 h2; exact h2
  · intro _ _ _ h; exact h.elim
  · intro a _; rfl

theorem flux2_additive (h : MhdBuf d3 P 2 Uin Uout) (H : Half d3 S P J dt Uin U Q m) {c : Cell}
    (hc : P.box d3 c) {d : Dir} (hd : d ∈ dirs d3) :
    Additive Uout (computeFluxAlongDirBody d3 S P J dt Uin Uout d c) m ()
      (fun a => if a.arr = Uout then
        fluxAdds d3 S P dt (flux2Of d3 S J dt U Q) c a.cell a.v d else 0) := by
  by_cases hf : P.faces d3 c
  · rw [computeFluxAlongDirBody, if_pos hf]
    refine (Additive.bind (Additive.loadFlux2 h H hd hc hf)
      (Additive.bind (Additive.ite Additive.atomicFlux)
        (Additive.ite Additive.atomicFlux))).congr fun a => ?_
    by_cases ha : a.arr = Uout
    · rw [if_pos ha]
      simp only [ha, true_and, zero_add, fluxAdds, hf, fluxTerm]
      congr 1
      · by_cases h1 : P.ownOk d3 c <;> by_cases h2 : a.cell = c <;> by_cases h3 : fluxVar d3 a.v <;>
          simp [h1, h2, h3]
      · by_cases h1 : P.lowerOk d3 d c <;> by_cases h2 : a.cell = c.down d <;>
          by_cases h3 : fluxVar d3 a.v <;> simp [h1, h2, h3]
    · simp [ha]
  · rw [computeFluxAlongDirBody, if_neg hf]
    refine (Additive.ret ()).congr fun a => ?_
    simp [fluxAdds, hf]

theorem flux2_FP (h : MhdBuf d3 P 2 Uin Uout) {c : Cell} (hc : P.box d3 c) {d : Dir} (hd : d ∈ dirs d3) :
    (computeFluxAlongDirBody d3 S P J dt Uin Uout d c).FP (AddR d3 P Uout) (fun _ => False)
      (AddC d3 P Uout) := by
  by_cases hf : P.faces d3 c
  · rw [computeFluxAlongDirBody, if_pos hf]
    have at' : ∀ (sgn : ℝ → ℝ) (s : ℝ) (c' : Cell) (f : MState ℝ), P.box d3 c' →
        (atomicFlux d3 sgn s Uout c' f).FP (AddR d3 P Uout) (fun _ => False) (AddC d3 P Uout) := by
      intro sgn s c' f hc'
      have aa : ∀ v x, v < 8 → (K.atomicAdd (c'.at Uout v) x : K Addr ℝ Unit).FP (AddR d3 P Uout)
        (fun _ => False) (AddC d3 P Uout) := fun v x hv => FP.atomicAdd ⟨h.dom_out hc' v hv, rfl⟩
      refine FP.bind (aa _ _ (by decide)) fun _ => FP.bind (aa _ _ (by decide)) fun _ =>
        FP.bind (aa _ _ (by decide)) fun _ => FP.bind (aa _ _ (by decide)) fun _ =>
        FP.bind (aa _ _ (by decide)) fun _ => ?_
      cases d3
      · exact aa _ _ (by decide)
      · trivial
    refine FP.bind (loadFlux2_FP h hd hc hf) fun _ => FP.bind ?_ fun _ => ?_
    · split_ifs
      · exact at' _ _ _ _ hc
      · trivial
    · split_ifs
      · exact at' _ _ _ _ (faces_down h.gw hf hc hd).1
      · trivial
  · rw [computeFluxAlongDirBody, if_neg hf]; trivial

/-- Flux loop along one direction. -/
theorem flux2_loop (h : MhdBuf d3 P 2 Uin Uout) (H : Half d3 S P J dt Uin U Q m) {d : Dir}
    (hd : d ∈ dirs d3) :
    ∃ m', (computeFluxAlongDir d3 S P J dt Uin Uout d).Yields (mhdDom d3 P 2) m m' ∧
      (∀ c, P.box d3 c → P.inner d3 c → mfield m' Uout c =
        fluxUpd d3 S dt (flux2Of d3 S J dt U Q) c [d] (mfield m Uout c)) ∧
      (∀ c, P.box d3 c → ¬ P.inner d3 c → mfield m' Uout c = mfield m Uout c) ∧
      (∀ a, a.arr ≠ Uout → m' a = m a) := by
  have key : ∀ c, P.box d3 c → ∀ v,
      ∑ t ∈ Finset.range (P.isize.toNat * P.jsize.toNat * (if d3 then P.ksize.toNat else 1)),
        (computeFluxAlongDirBody d3 S P J dt Uin Uout d (P.cellOf t)).adds m (c.at Uout v) =
      if P.inner d3 c ∧ fluxVar d3 v then fluxTerm S dt (flux2Of d3 S J dt U Q) v d c -
          fluxTerm S dt (flux2Of d3 S J dt U Q) v d (c.up d) else 0 := by
    intro c hc v
    rw [Finset.sum_congr rfl fun t ht => additive_adds
      (flux2_additive h H (Grid.cellOf_box (Finset.mem_range.1 ht)) hd) _]
    simp only [Cell.at_arr, if_true, Cell.at_cell, Cell.at_v]
    simp only [fluxAdds]
    rw [Finset.sum_add_distrib, sum_own (d3 := d3) (P := P)
      (fun c => P.faces d3 c ∧ P.ownOk d3 c ∧ fluxVar d3 v)
      (fun c => fluxTerm S dt (flux2Of d3 S J dt U Q) v d c) c,
      sum_low (d3 := d3) (P := P)
      (fun c => P.faces d3 c ∧ P.lowerOk d3 d c ∧ fluxVar d3 v)
      (fun c => -fluxTerm S dt (flux2Of d3 S J dt U Q) v d c) c d]
    have o' : (P.box d3 c ∧ P.faces d3 c ∧ P.ownOk d3 c ∧ fluxVar d3 v) ↔
        (P.inner d3 c ∧ fluxVar d3 v) := by rw [← own_iff h.gw hc]; tauto
    have l' : (P.box d3 (c.up d) ∧ P.faces d3 (c.up d) ∧ P.lowerOk d3 d (c.up d) ∧
        fluxVar d3 v) ↔ (P.inner d3 c ∧ fluxVar d3 v) := by rw [← low_iff h.gw hc hd]; tauto
    simp only [o', l']
    split_ifs <;> ring
  refine ⟨_, additive_yields2 h (fun c hc => flux2_FP h hc hd), ?_, ?_, ?_⟩
  · intro c hc hi
    apply MState.ext_get
    intro v hv
    rw [mfield_get _ _ _ hv, key c hc v, ← mfield_get m _ _ hv]
    cases d3 <;> interval_cases v <;>
      simp [hi, fluxVar, fluxUpd, addFlux, MState.get, fluxTerm] <;> ring
  · intro c hc hi
    refine mfield_ext fun v hv => ?_
    rw [key c hc v, if_neg (fun e => hi e.1), add_zero]
  · intro a ha
    rw [Finset.sum_eq_zero, add_zero]
    intro t ht
    exact adds_zero (flux2_FP h (Grid.cellOf_box (Finset.mem_range.1 ht)) hd) m fun e => ha e.2

theorem fluxUpd_append {F : Cell → Dir → MState ℝ} {c : Cell} (l l' : List Dir) (u : MState ℝ) :
    fluxUpd d3 S dt F c (l ++ l') u = fluxUpd d3 S dt F c l' (fluxUpd d3 S dt F c l u) := by
  induction l generalizing u with
  | nil => rfl
  | cons d l ih => simp only [List.cons_append, fluxUpd, ih]

/-- All flux loops. -/
theorem flux2_loops (h : MhdBuf d3 P 2 Uin Uout) (l : List Dir) (hl : ∀ d ∈ l, d ∈ dirs d3) :
    ∀ m, Half d3 S P J dt Uin U Q m →
    ∃ m', YieldsAll (mhdDom d3 P 2) (l.map (computeFluxAlongDir d3 S P J dt Uin Uout)) m m' ∧
      (∀ c, P.box d3 c → P.inner d3 c → mfield m' Uout c =
        fluxUpd d3 S dt (flux2Of d3 S J dt U Q) c l (mfield m Uout c)) ∧
      (∀ c, P.box d3 c → ¬ P.inner d3 c → mfield m' Uout c = mfield m Uout c) ∧
      (∀ a, a.arr ≠ Uout → m' a = m a) := by
  induction l with
  | nil => exact fun m _ => ⟨m, .nil _, fun _ _ _ => rfl, fun _ _ _ => rfl, fun _ _ => rfl⟩
  | cons d l ih =>
    intro m H
    obtain ⟨m1, y1, i1, n1, g1⟩ := flux2_loop h H (hl d (by simp))
    obtain ⟨m2, y2, i2, n2, g2⟩ := ih (fun d hd => hl d (by simp [hd])) m1 (H.agree h g1)
    refine ⟨m2, .cons y1 y2, fun c hc hi => ?_, fun c hc hi => ?_, fun a ha => ?_⟩
    · rw [i2 c hc hi, i1 c hc hi, ← fluxUpd_append]; rfl
    · rw [n2 c hc hi, n1 c hc hi]
    · rw [g2 a ha, g1 a ha]

/-! ### Electric field -/

/-- One component of the electric field. -/
noncomputable def onlyE (e : EmfDir) (E : Cell → EmfDir → ℝ) (c : Cell) (e' : EmfDir) : ℝ :=
  if e' = e then E c e' else 0

theorem emf2_additive (h : MhdBuf d3 P 2 Uin Uout) (H : Half d3 S P J dt Uin U Q m) {c : Cell}
    (hc : P.box d3 c) {e : EmfDir} (he : e ∈ emfDirs d3) :
    Additive Uout (reconstructEmfBody d3 S P dt Uin Uout e c) m ()
      (fun a => if a.arr = Uout then
        emfAdds d3 S P dt (onlyE e (emf2Of d3 S J dt U Q)) c a.cell a.v else 0) := by
  by_cases hf : P.faces d3 c
  · simp only [reconstructEmfBody, if_pos hf]
    have le := Additive.loadEmf2 (e := e) h H he hc hf
    have at' : ∀ (b : Prop) [Decidable b] (c' : Cell) (v : Nat) (x : ℝ),
        Additive Uout (Verif.atomicIf b (c'.at Uout v) x) m ()
          (fun a => if b ∧ a = c'.at Uout v then x else 0) :=
      fun b _ c' v x => Additive.atomicIf rfl
    have h56 : ¬ IA = IB := by decide
    have h57 : ¬ IA = IC := by decide
    have h67 : ¬ IB = IC := by decide
    cases e
    all_goals
      refine (Additive.bind le (Additive.bind (at' _ _ _ _) (Additive.bind (at' _ _ _ _)
        (Additive.bind (at' _ _ _ _) (at' _ _ _ _))))).congr fun a => ?_
      by_cases ha : a.arr = Uout
      · simp only [Addr.eq_iff, Cell.at_arr, Cell.at_cell, Cell.at_v, ha, true_and, if_true]
        generalize a.v = v
        cases d3
        · simp [emfDirs] at he
          try
            simp only [emfAdds, emfOwn, emfLow, onlyE, hf, true_and, dirs, List.map_cons, List.map_nil,
              List.sum_cons, List.sum_nil, Bool.false_eq_true, if_false, emfOwnOk, emfLowOk,
              false_imp_iff, reduceCtorEq, zero_mul, neg_zero, ite_self, add_zero, if_true]
            by_cases h5 : v = IA
            · subst h5
              simp only [h56, and_true, and_false, if_false, if_true, add_zero, zero_add]
              split_ifs <;> ring
            · by_cases h6 : v = IB
              · subst h6
                simp only [h5, and_true, and_false, if_false, if_true, add_zero, zero_add]
                split_ifs <;> ring
              · simp only [h5, h6, and_false, if_false, add_zero, ite_self]
        · simp only [emfAdds, emfOwn, emfLow, onlyE, hf, true_and, dirs, List.map_cons, List.map_nil,
            List.sum_cons, List.sum_nil, if_true, emfOwnOk, emfLowOk, true_imp_iff,
            reduceCtorEq, if_false, zero_mul, neg_zero, ite_self, add_zero, zero_add]
          by_cases h5 : v = IA
          · subst h5
            simp only [h56, h57, and_true, and_false, if_false, if_true, add_zero, zero_add, ite_self]
            try (split_ifs <;> ring)
          · by_cases h6 : v = IB
            · subst h6
              simp only [h5, h67, and_true, and_false, if_false, if_true, add_zero, zero_add, ite_self]
              try (split_ifs <;> ring)
            · by_cases h7 : v = IC
              · subst h7
                simp only [h5, h6, and_true, and_false, if_false, if_true, add_zero, zero_add, ite_self]
                try (split_ifs <;> ring)
              · simp only [h5, h6, h7, and_false, if_false, add_zero, ite_self]
      · have : ∀ (c' : Cell) v, a ≠ c'.at Uout v := fun c' v e => ha (by rw [e]; rfl)
        simp [this, ha]
  · simp only [reconstructEmfBody, if_neg hf]
    refine (Additive.ret ()).congr fun a => ?_
    simp [emfAdds, hf]

theorem emf2_FP (h : MhdBuf d3 P 2 Uin Uout) {c : Cell} (hc : P.box d3 c) {e : EmfDir}
    (he : e ∈ emfDirs d3) :
    (reconstructEmfBody d3 S P dt Uin Uout e c).FP (AddR d3 P Uout) (fun _ => False)
      (AddC d3 P Uout) := by
  by_cases hf : P.faces d3 c
  · simp only [reconstructEmfBody, if_pos hf]
    have at' : ∀ (b : Prop) [Decidable b] (c' : Cell) (v : Nat) (x : ℝ), P.box d3 c' → v < 8 →
        (Verif.atomicIf b (c'.at Uout v) x : K Addr ℝ Unit).FP (AddR d3 P Uout)
          (fun _ => False) (AddC d3 P Uout) := by
      intro b _ c' v x hc' hv
      unfold Verif.atomicIf
      split_ifs
      · exact FP.atomicAdd ⟨h.dom_out hc' v hv, rfl⟩
      · trivial
    have bd := fun d hd => (faces_down (d := d) h.gw hf hc hd).1
    refine FP.bind (loadEmf2_FP h he hc hf) fun _ => ?_
    cases e <;> cases d3 <;> simp [emfDirs] at he <;>
    exact FP.bind (at' _ _ _ _ hc (by decide)) fun _ => FP.bind (at' _ _ _ _ hc (by decide)) fun _ =>
      FP.bind (at' _ _ _ _ (bd _ (by decide)) (by decide)) fun _ =>
      at' _ _ _ _ (bd _ (by decide)) (by decide)
  · simp only [reconstructEmfBody, if_neg hf]; trivial

/-- Electric field loop of one edge direction. -/
theorem emf2_loop (h : MhdBuf d3 P 2 Uin Uout) (H : Half d3 S P J dt Uin U Q m) {e : EmfDir}
    (he : e ∈ emfDirs d3) :
    ∃ m', (reconstructEmf d3 S P dt Uin Uout e).Yields (mhdDom d3 P 2) m m' ∧
      (∀ c, P.box d3 c → P.inner d3 c → mfield m' Uout c =
        emfUpd d3 S dt (onlyE e (emf2Of d3 S J dt U Q)) c (mfield m Uout c)) ∧
      (∀ a, a.arr ≠ Uout → m' a = m a) := by
  set E := onlyE e (emf2Of d3 S J dt U Q) with hE
  have key : ∀ c, P.box d3 c → ∀ v,
      ∑ t ∈ Finset.range (P.isize.toNat * P.jsize.toNat * (if d3 then P.ksize.toNat else 1)),
        (reconstructEmfBody d3 S P dt Uin Uout e (P.cellOf t)).adds m (c.at Uout v) =
      (if P.box d3 c ∧ P.faces d3 c ∧ emfOwnOk d3 P c then emfOwn d3 S dt E v c else 0) +
      ((dirs d3).map fun d =>
        if P.box d3 (c.up d) ∧ P.faces d3 (c.up d) ∧ emfLowOk d3 P d (c.up d) then
          emfLow d3 S dt E v d (c.up d) else 0).sum := by
    intro c hc v
    rw [Finset.sum_congr rfl fun t ht => additive_adds
      (emf2_additive h H (Grid.cellOf_box (Finset.mem_range.1 ht)) he) _]
    simp only [Cell.at_arr, if_true, Cell.at_cell, Cell.at_v, ← hE]
    simp only [emfAdds]
    have own := sum_own (d3 := d3) (P := P) (fun c => P.faces d3 c ∧ emfOwnOk d3 P c)
      (fun c => emfOwn d3 S dt E v c) c
    have low := fun d => sum_low (d3 := d3) (P := P)
      (fun c => P.faces d3 c ∧ emfLowOk d3 P d c)
      (fun c => emfLow d3 S dt E v d c) c d
    rw [Finset.sum_add_distrib, own]
    congr 1
    cases d3
    · simp only [dirs, Bool.false_eq_true, if_false, List.map_cons, List.map_nil, List.sum_cons,
        List.sum_nil, add_zero, Finset.sum_add_distrib] at low ⊢
      rw [low, low]
    · simp only [dirs, if_true, List.map_cons, List.map_nil, List.sum_cons,
        List.sum_nil, add_zero, Finset.sum_add_distrib] at low ⊢
      rw [low, low, low]
  refine ⟨_, additive_yields2 h (fun c hc => emf2_FP h hc he), ?_, ?_⟩
  · intro c hc hi
    have o := (own_iff h.gw hc).2 hi
    have l := fun d hd => (low_iff (d := d) h.gw hc hd).2 hi
    apply MState.ext_get
    intro v hv
    rw [mfield_get _ _ _ hv, key c hc v, ← mfield_get m _ _ hv,
      if_pos ⟨o.1, o.2.1, fun _ => o.2.2⟩]
    have ll : ((dirs d3).map fun d =>
        if P.box d3 (c.up d) ∧ P.faces d3 (c.up d) ∧ emfLowOk d3 P d (c.up d) then
          emfLow d3 S dt E v d (c.up d) else 0) =
        (dirs d3).map fun d => emfLow d3 S dt E v d (c.up d) :=
      List.map_congr_left fun d hd => if_pos ⟨(l d hd).1, (l d hd).2.1, fun _ => (l d hd).2.2⟩
    rw [ll]
    cases d3 <;> interval_cases v <;>
      simp [emfUpd, dirs, MState.get, emfOwn, emfLow, IA, IB, IC] <;> ring
  · intro a ha
    rw [Finset.sum_eq_zero, add_zero]
    intro t ht
    exact adds_zero (emf2_FP h (Grid.cellOf_box (Finset.mem_range.1 ht)) he) m fun e => ha e.2

/-- All electric field loops. -/
theorem emf2_loops (h : MhdBuf d3 P 2 Uin Uout) (H : Half d3 S P J dt Uin U Q m) :
    ∃ m', YieldsAll (mhdDom d3 P 2) ((if d3 then [EmfDir.x, .y, .z] else [.z]).map
        (reconstructEmf d3 S P dt Uin Uout)) m m' ∧
      (∀ c, P.box d3 c → P.inner d3 c → mfield m' Uout c =
        emfUpd d3 S dt (emf2Of d3 S J dt U Q) c (mfield m Uout c)) ∧
      (∀ a, a.arr ≠ Uout → m' a = m a) := by
  cases d3
  · obtain ⟨m1, y1, i1, g1⟩ := emf2_loop h H (e := .z) (by decide)
    refine ⟨m1, .cons y1 (.nil _), fun c hc hi => ?_, g1⟩
    rw [i1 c hc hi]
    simp only [emfUpd, onlyE, if_true, Bool.false_eq_true, if_false]
  · obtain ⟨m1, y1, i1, g1⟩ := emf2_loop h H (e := .x) (by decide)
    have H1 := H.agree h g1
    obtain ⟨m2, y2, i2, g2⟩ := emf2_loop h H1 (e := .y) (by decide)
    have H2 := H1.agree h g2
    obtain ⟨m3, y3, i3, g3⟩ := emf2_loop h H2 (e := .z) (by decide)
    refine ⟨m3, .cons y1 (.cons y2 (.cons y3 (.nil _))), fun c hc hi => ?_, fun a ha => ?_⟩
    · rw [i3 c hc hi, i2 c hc hi, i1 c hc hi]
      simp only [emfUpd, onlyE, if_true, reduceCtorEq, if_false, MState.mk.injEq, true_and]
      rops
      refine ⟨?_, ?_, ?_⟩ <;> ring
    · rw [g3 a ha, g2 a ha, g1 a ha]

/-- A whole step of implementation version 2, in exact arithmetic. -/
theorem mhd_step2 {B : Sides} {xmin : ℝ} (h : MhdBuf d3 P 2 Uin Uout) (hB : BoxSetup d3 8 3 P B)
    (m : Addr → ℝ) :
    ∃ m1 m', YieldsAll (mhdDom d3 P 2) (mhd_unsplit_impl d3 S P J xmin 2 dt Uin Uout) m m' ∧
      FilledMem d3 true P B Uin m m1 ∧ mfield m' Uin = mfield m1 Uin ∧
      (∀ c, P.box d3 c → P.inner d3 c →
        mfield m' Uout c = mstep2Of d3 S J dt (mfield m1 Uin) c) := by
  obtain ⟨m1, m2, y2, f1, o2, q2, g2⟩ := mhd_prepare (S := S) h hB m
  have hne := h.ne
  have hi := h.in_lt
  have ho := h.out_lt
  have u2 : mfield m2 Uin = mfield m1 Uin := by
    funext c
    exact mfield_ext fun v _ => g2 _ hne (by simp only [Cell.at_arr, aQ]; omega)
  obtain ⟨m3, y3, t3, g3⟩ := mhd_half (S := S) (J := J) (dt := dt) h q2 u2
  obtain ⟨m4, y4, i4, n4, g4⟩ := flux2_loops h (dirs d3) (fun _ h => h) m3 t3
  obtain ⟨m5, y5, i5, g5⟩ := emf2_loops h (t3.agree h g4)
  have out3 : ∀ c, P.box d3 c → mfield m3 Uout c = mfield m1 Uin c := by
    intro c hc
    rw [← o2 c hc]
    exact mfield_ext fun v _ => g3 _ (by simp only [Cell.at_arr]; omega)
  refine ⟨m1, m5, y2.append ?_, f1, ?_, ?_⟩
  · rw [mhdAdvance, if_neg (by decide), if_neg (by decide), if_pos rfl]
    exact (y3.append y4).append y5
  · funext c
    refine mfield_ext fun v _ => ?_
    rw [g5 _ hne, g4 _ hne, g3 _ (by simp only [Cell.at_arr]; omega),
      g2 _ hne (by simp only [Cell.at_arr, aQ]; omega)]
  · intro c hc hin
    rw [i5 c hc hin, i4 c hc hin, out3 c hc]
    rfl

end loads

end Verif
