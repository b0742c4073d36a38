import Verif.Lemmas.MhdState
import Verif.Lemmas.HydroStep

/-! Helper lemmas: effect of the loops of an MHD step (implementation version 0). -/

namespace Verif

open K Function ROps

variable {α : Type} [ROps α]

/-- Component of the magnetic field. -/
def MState.getB (d : Dir) (q : MState α) : α :=
  match d with
  | .x => q.a
  | .y => q.b
  | .z => q.c

/-- The face field of a state. -/
def MState.bvec (q : MState α) : BVec α := ⟨q.a, q.b, q.c⟩

/-! ### The scheme as functions of the states -/

/-- Primitive state. -/
def primOf (d3 : Bool) (S : MSettings α) (U : Cell → MState α) (c : Cell) : MState α :=
  (constoprim_mhd S (U c) (U (c.up .x)).a (U (c.up .y)).b
    (if d3 then (U (c.up .z)).c else lit 0)).1

/-- Electric field component. -/
def elecAvg (U Q : Cell → MState α) (c : Cell) (e1 e2 f s : Dir) (vf vs bf bs : MState α → α) : α :=
  lit (1/4) * (vf (Q ((c.down e1).down e2)) + vf (Q (c.down e1)) + vf (Q (c.down e2)) + vf (Q c)) *
    (lit (1/2) * (bs (U (c.down f)) + bs (U c))) -
  lit (1/4) * (vs (Q ((c.down e1).down e2)) + vs (Q (c.down e1)) + vs (Q (c.down e2)) + vs (Q c)) *
    (lit (1/2) * (bf (U (c.down s)) + bf (U c)))

/-- Electric field. -/
def elecOf (U Q : Cell → MState α) (d : Dir) (c : Cell) : α :=
  match d with
  | .x => elecAvg U Q c .y .z .y .z (·.v) (·.w) (·.b) (·.c)
  | .y => elecAvg U Q c .x .z .z .x (·.w) (·.u) (·.c) (·.a)
  | .z => elecAvg U Q c .x .y .x .y (·.u) (·.v) (·.a) (·.b)

/-- Face slopes. -/
def dbOf (S : MSettings α) (U : Cell → MState α) (d t : Dir) (c : Cell) : α :=
  if d = t then lit 0
  else faceSlope3 S ((U c).getB d) ((U (c.up t)).getB d) ((U (c.down t)).getB d)

/-- Coordinate of the cell centre. -/
def xPosOf (S : MSettings α) (P : Grid) (xmin : α) (c : Cell) : α :=
  xmin + S.dx / lit 2 + lit ((c.i - P.ghostWidth : Int) : ℚ) * S.dx

/-- Predictor in 3D. -/
def pred3Of (S : MSettings α) (xPos dt : α) (U Q : Cell → MState α) (c : Cell) : Predicted α :=
  predict3 S (Q c)
    (slope_unsplit_hydro_3d S (Q c) (fun d => Q (c.up d)) (fun d => Q (c.down d)))
    (fun d up => (U (c.upIf d up)).getB d) (fun d t up => dbOf S U d t (c.upIf d up))
    (fun x y => elecOf U Q .x ((c.upIf .y x).upIf .z y))
    (fun x y => elecOf U Q .y ((c.upIf .x x).upIf .z y))
    (fun x y => elecOf U Q .z ((c.upIf .x x).upIf .y y))
    (dtOver S.toSettings dt .x) (dtOver S.toSettings dt .y) (dtOver S.toSettings dt .z) xPos

/-- Predictor in 2D. -/
def pred2Of (S : MSettings α) (junk : Dir → MState α) (dt : α) (U Q : Cell → MState α) (c : Cell) :
    Predicted α :=
  predict2 S junk (fun i j => Q (c.shift i j 0)) (fun i j => (U (c.shift i j 0)).bvec)
    (dtOver S.toSettings dt .x) (dtOver S.toSettings dt .y)

/-- Predictor. -/
def predOf (d3 : Bool) (S : MSettings α) (P : Grid) (J : MJunk α) (xmin dt : α)
    (U Q : Cell → MState α) (c : Cell) : Predicted α :=
  if d3 then pred3Of S (xPosOf S P xmin c) dt U Q c else pred2Of S (J.slope c) dt U Q c

/-- Flux at the lower face in direction `d`, in rotated variables. -/
def mfluxOf (d3 : Bool) (S : MSettings α) (J : MJunk α) (T : Cell → Predicted α) (c : Cell) (d : Dir) :
    MState α :=
  (riemann_mhd S ((faceState d3 S (T (c.down d)) d true).swap d)
    ((faceState d3 S (T c) d false).swap d)).getD (J.flux c d)

/-- Electric field at the lower edge in direction `e`. -/
def emfOf (d3 : Bool) (S : MSettings α) (T : Cell → Predicted α) (c : Cell) (e : EmfDir) : α :=
  match e with
  | .z => compute_emf S .z (edgeState d3 S (T ((c.down .x).down .y)) .z .RT)
      (edgeState d3 S (T (c.down .x)) .z .RB) (edgeState d3 S (T (c.down .y)) .z .LT)
      (edgeState d3 S (T c) .z .LB)
  | .y => compute_emf S .y (edgeState d3 S (T ((c.down .x).down .z)) .y .RT)
      (edgeState d3 S (T (c.down .z)) .y .LT) (edgeState d3 S (T (c.down .x)) .y .RB)
      (edgeState d3 S (T c) .y .LB)
  | .x => compute_emf S .x (edgeState d3 S (T ((c.down .y).down .z)) .x .RT)
      (edgeState d3 S (T (c.down .y)) .x .RB) (edgeState d3 S (T (c.down .z)) .x .LT)
      (edgeState d3 S (T c) .x .LB)

/-- Update by fluxes. -/
def fluxUpd (d3 : Bool) (S : MSettings α) (dt : α) (F : Cell → Dir → MState α) (c : Cell) :
    List Dir → MState α → MState α
  | [], u => u
  | d :: l, u => fluxUpd d3 S dt F c l
      (addFlux d3 (fun x y => x - y) (dtOver S.toSettings dt d) d
        (addFlux d3 (fun x y => x + y) (dtOver S.toSettings dt d) d u (F c d)) (F (c.up d) d))

/-- Update by the electric field. -/
def emfUpd (d3 : Bool) (S : MSettings α) (dt : α) (E : Cell → EmfDir → α) (c : Cell) (u : MState α) :
    MState α :=
  let dtd := dtOver S.toSettings dt
  let a := u.a + (E (c.up .y) .z - E c .z) * dtd .y
  let b := u.b - (E (c.up .x) .z - E c .z) * dtd .x
  if d3 then
    { u with
      a := a - (E (c.up .z) .y - E c .y) * dtd .z
      b := b + (E (c.up .z) .x - E c .x) * dtd .z
      c := u.c + (E (c.up .x) .y - E c .y) * dtd .x - (E (c.up .y) .x - E c .x) * dtd .y }
  else { u with
      a := a
      b := b }

/-! ### Memory -/

/-- Grid and buffers of a step of any implementation. -/
structure MhdBuf (d3 : Bool) (P : Grid) (impl : Int) (Uin Uout : Nat) : Prop where
  gw : 3 ≤ P.ghostWidth
  nv : P.nbvar = 8
  bufs : (Uin = aU ∧ Uout = aU2) ∨ (Uin = aU2 ∧ Uout = aU)

structure MhdOk (d3 : Bool) (P : Grid) (impl : Int) (Uin Uout : Nat) : Prop
    extends MhdBuf d3 P impl Uin Uout where
  impl01 : impl = 0 ∨ impl = 1

namespace MhdBuf

variable {d3 : Bool} {P : Grid} {impl : Int} {Uin Uout : Nat}

theorem dom_in (h : MhdBuf d3 P impl Uin Uout) {c : Cell} (hb : P.box d3 c) :
    ∀ v, v < 8 → mhdDom d3 P impl (c.at Uin v) := fun v hv =>
  ⟨hb, Or.inl ⟨by rcases h.bufs with h | h <;> simp [mhdArray, h.1], h.nv ▸ hv⟩⟩

theorem dom_out (h : MhdBuf d3 P impl Uin Uout) {c : Cell} (hb : P.box d3 c) :
    ∀ v, v < 8 → mhdDom d3 P impl (c.at Uout v) := fun v hv =>
  ⟨hb, Or.inl ⟨by rcases h.bufs with h | h <;> simp [mhdArray, h.2], h.nv ▸ hv⟩⟩

theorem dom_q (h : MhdBuf d3 P impl Uin Uout) {c : Cell} (hb : P.box d3 c) :
    ∀ v, v < 8 → mhdDom d3 P impl (c.at aQ v) := fun v hv =>
  ⟨hb, Or.inl ⟨by simp [mhdArray], h.nv ▸ hv⟩⟩

theorem ne (h : MhdBuf d3 P impl Uin Uout) : Uin ≠ Uout := by
  rcases h.bufs with ⟨rfl, rfl⟩ | ⟨rfl, rfl⟩ <;> simp [aU, aU2]
theorem in_lt (h : MhdBuf d3 P impl Uin Uout) : Uin < 2 := by
  rcases h.bufs with ⟨rfl, rfl⟩ | ⟨rfl, rfl⟩ <;> simp [aU, aU2]
theorem out_lt (h : MhdBuf d3 P impl Uin Uout) : Uout < 2 := by
  rcases h.bufs with ⟨rfl, rfl⟩ | ⟨rfl, rfl⟩ <;> simp [aU, aU2]

end MhdBuf

namespace MhdOk

variable {d3 : Bool} {P : Grid} {impl : Int} {Uin Uout : Nat}

theorem dom_qm (h : MhdOk d3 P impl Uin Uout) {c : Cell} {d : Dir} (hd : d ∈ dirs d3)
    (hb : P.box d3 c) : ∀ v, v < 8 → mhdDom d3 P impl (c.at (mQm d) v) := fun _ hv =>
  ⟨hb, Or.inl ⟨Or.inr (Or.inr (Or.inr (Or.inl ⟨h.impl01, Or.inl ⟨d, hd, Or.inl rfl⟩⟩))), h.nv ▸ hv⟩⟩

theorem dom_qp (h : MhdOk d3 P impl Uin Uout) {c : Cell} {d : Dir} (hd : d ∈ dirs d3)
    (hb : P.box d3 c) : ∀ v, v < 8 → mhdDom d3 P impl (c.at (mQp d) v) := fun _ hv =>
  ⟨hb, Or.inl ⟨Or.inr (Or.inr (Or.inr (Or.inl ⟨h.impl01, Or.inl ⟨d, hd, Or.inr rfl⟩⟩))), h.nv ▸ hv⟩⟩

theorem dom_edge (h : MhdOk d3 P impl Uin Uout) {c : Cell} {e : EmfDir} (hd : e ∈ emfDirs d3)
    (k : Corner)
    (hb : P.box d3 c) : ∀ v, v < 8 → mhdDom d3 P impl (c.at (mEdge e k) v) := fun _ hv =>
  ⟨hb, Or.inl ⟨Or.inr (Or.inr (Or.inr (Or.inl ⟨h.impl01, Or.inr ⟨e, hd, k, rfl⟩⟩))), h.nv ▸ hv⟩⟩

theorem dom_f (h : MhdOk d3 P 0 Uin Uout) {c : Cell} {d : Dir} (hd : d ∈ dirs d3)
    (hb : P.box d3 c) : ∀ v, v < 8 → mhdDom d3 P 0 (c.at (mF d) v) := fun _ hv =>
  ⟨hb, Or.inl ⟨Or.inr (Or.inr (Or.inr (Or.inr (Or.inl ⟨rfl, d, hd, rfl⟩)))), h.nv ▸ hv⟩⟩

theorem dom_emf (_ : MhdOk d3 P 0 Uin Uout) {c : Cell} {e : EmfDir} (hd : e ∈ emfDirs d3)
    (hb : P.box d3 c) : mhdDom d3 P 0 (c.at mEmf e.comp) :=
  ⟨hb, Or.inr (Or.inl ⟨rfl, rfl, by cases d3 <;> cases e <;> simp_all [emfDirs, EmfDir.comp]⟩)⟩

theorem dom_e (h : MhdOk true P impl Uin Uout) {c : Cell} (hb : P.box true c) :
    ∀ v, v < 3 → mhdDom true P impl (c.at mE v) := fun _ hv =>
  ⟨hb, Or.inr (Or.inr (Or.inl ⟨rfl, h.impl01, hv, Or.inl rfl⟩))⟩

theorem dom_delta (h : MhdOk true P impl Uin Uout) {c : Cell} (d : Dir) (hb : P.box true c) :
    ∀ v, v < 3 → mhdDom true P impl (c.at (mDelta d) v) := fun _ hv =>
  ⟨hb, Or.inr (Or.inr (Or.inl ⟨rfl, h.impl01, hv, Or.inr ⟨d, rfl⟩⟩))⟩

end MhdOk

theorem mQm_range (d : Dir) : 40 ≤ mQm d ∧ mQm d < 58 := by cases d <;> decide
theorem mQp_range (d : Dir) : 40 ≤ mQp d ∧ mQp d < 58 := by cases d <;> decide
theorem mEdge_range (e : EmfDir) (k : Corner) : 40 ≤ mEdge e k ∧ mEdge e k < 58 := by
  cases e <;> cases k <;> decide
theorem mF_range (d : Dir) : 58 ≤ mF d ∧ mF d ≤ 60 := by cases d <;> decide
theorem mDelta_range (d : Dir) : 63 ≤ mDelta d ∧ mDelta d ≤ 65 := by cases d <;> decide

section guards

variable {d3 : Bool} {P : Grid} {c : Cell}

/-- Unfold guards. -/
macro "guards" : tactic => `(tactic|
  (simp only [Grid.box, Grid.convertible, Grid.traced, Grid.nonborder, Grid.faces, Grid.inner,
    Cell.up, Cell.down, Cell.shift, Bool.false_eq_true, if_false, if_true, false_imp_iff,
    true_imp_iff, forall_const, true_and] at *))

theorem conv_up (h : P.convertible d3 c) (hb : P.box d3 c) {d : Dir} (hd : d ∈ dirs d3) :
    P.box d3 (c.up d) := by
  cases d3 <;> cases d <;> simp [dirs] at hd <;> guards <;> omega

theorem faces_down {d : Dir} (hg : 3 ≤ P.ghostWidth) (h : P.faces d3 c) (hb : P.box d3 c)
    (hd : d ∈ dirs d3) : P.box d3 (c.down d) ∧ P.traced d3 (c.down d) := by
  cases d3 <;> cases d <;> simp [dirs] at hd <;> guards <;> omega

theorem faces_traced (h : P.faces d3 c) : P.traced d3 c := by
  cases d3 <;> guards <;> omega

theorem faces_down2 {d d' : Dir} (hg : 3 ≤ P.ghostWidth) (h : P.faces d3 c) (hb : P.box d3 c)
    (hd : d ∈ dirs d3) (hd' : d' ∈ dirs d3) (hne : d ≠ d') :
    P.box d3 ((c.down d).down d') ∧ P.traced d3 ((c.down d).down d') := by
  cases d3 <;> cases d <;> cases d' <;> simp [dirs] at hd hd' hne <;> guards <;> omega

theorem inner_faces (h : P.inner d3 c) : P.faces d3 c := by
  cases d3 <;> guards <;> omega

theorem inner_up {d : Dir} (hg : 3 ≤ P.ghostWidth) (h : P.inner d3 c) (hb : P.box d3 c)
    (hd : d ∈ dirs d3) : P.box d3 (c.up d) ∧ P.faces d3 (c.up d) := by
  cases d3 <;> cases d <;> simp [dirs] at hd <;> guards <;> omega

end guards

section loops

variable {d3 : Bool} {S : MSettings α} {P : Grid} {J : MJunk α} {impl : Int}
  {Uin Uout : Nat} {xmin dt : α}

theorem mhd_copy (h : MhdBuf d3 P impl Uin Uout) (m : Addr → α) :
    ∃ m', (deepCopy d3 P Uout Uin).Yields (mhdDom d3 P impl) m m' ∧
      (∀ c, P.box d3 c → mfield m' Uout c = mfield m Uin c) ∧
      (∀ a, a.arr ≠ Uout → m' a = m a) := by
  have hFP : ∀ c, P.box d3 c → CellFP (mhdDom d3 P impl) (fun A => A = Uout) c
      (forVars P.nbvar fun v => (do
        let x ← K.load (c.at Uin v)
        K.store (c.at Uout v) x : K Addr α Unit)) := by
    intro c hc
    refine CellFP.forVars fun v hv => ?_
    rw [h.nv] at hv
    exact CellFP.bind (CellFP.load (h.dom_in hc v hv) fun e => (h.ne e).elim) fun _ =>
      CellFP.store (h.dom_out hc v hv) rfl rfl
  refine ⟨_, mdrange_yields hFP m, ?_, fun a ha => mdEffect_frame hFP m ha⟩
  intro c hc
  rw [mfield_mdEffect m _ hc, h.nv]
  obtain ⟨i, j, k⟩ := c
  have e := h.ne
  simp [mfield, forVars, K.exec, K.load, K.store, K.bind, Function.update_apply, Cell.at, e]

theorem mhd_convert (h : MhdBuf d3 P impl Uin Uout) (m : Addr → α) :
    ∃ m', (convertToPrimitivesMhd d3 S P Uin aQ).Yields (mhdDom d3 P impl) m m' ∧
      (∀ c, P.box d3 c → P.convertible d3 c →
        mfield m' aQ c = primOf d3 S (mfield m Uin) c) ∧
      (∀ a, a.arr ≠ aQ → m' a = m a) := by
  have hq : Uin ≠ aQ := by have := h.in_lt; simp only [aQ]; omega
  have hFP : ∀ c, P.box d3 c → CellFP (mhdDom d3 P impl) (fun A => A = aQ) c
      (convertToPrimitivesMhdBody d3 S P Uin aQ c) := by
    intro c hc
    by_cases hcv : P.convertible d3 c
    · rw [convertToPrimitivesMhdBody, if_pos hcv]
      refine CellFP.bind (CellFP.get_state (h.dom_in hc) fun e => (hq e).elim) fun _ =>
        CellFP.bind (CellFP.load (h.dom_in (conv_up hcv hc (by cases d3 <;> simp [dirs])) _ (by decide))
          fun e => (hq e).elim) fun _ =>
        CellFP.bind (CellFP.load (h.dom_in (conv_up hcv hc (by cases d3 <;> simp [dirs])) _ (by decide))
          fun e => (hq e).elim) fun _ => CellFP.bind ?_ fun _ =>
        CellFP.set_state (h.dom_q hc) rfl
      cases d3
      · exact CellFP.ret _
      · exact CellFP.load (h.dom_in (conv_up hcv hc (by simp [dirs])) _ (by decide))
          fun e => (hq e).elim
    · rw [convertToPrimitivesMhdBody, if_neg hcv]; exact CellFP.ret _
  refine ⟨_, mdrange_yields hFP m, ?_, fun a ha => mdEffect_frame hFP m ha⟩
  intro c hc hcv
  rw [mfield_mdEffect m _ hc, convertToPrimitivesMhdBody, if_pos hcv]
  cases d3
  · refine Eq.trans (b := mfield ((set_state aQ c (primOf false S (mfield m Uin) c)).exec m) aQ c) rfl ?_
    rw [set_state_exec, mfield_msetState_same]
  · refine Eq.trans (b := mfield ((set_state aQ c (primOf true S (mfield m Uin) c)).exec m) aQ c) rfl ?_
    rw [set_state_exec, mfield_msetState_same]

/-! #### Trace -/

theorem storeTrace_fp {dom : Addr → Prop} {out : Nat → Prop} {c : Cell} {T : Predicted α}
    (hm : ∀ d ∈ dirs d3, ∀ v, v < 8 → dom (c.at (mQm d) v))
    (hp : ∀ d ∈ dirs d3, ∀ v, v < 8 → dom (c.at (mQp d) v))
    (he : ∀ e ∈ emfDirs d3, ∀ k, ∀ v, v < 8 → dom (c.at (mEdge e k) v))
    (ho : ∀ A, 40 ≤ A → A < 58 → out A) :
    CellFP dom out c (storeTrace d3 S c T) := by
  refine CellFP.bind (CellFP.each _ fun d hd => ?_) fun _ => CellFP.each _ fun e he' =>
    CellFP.each _ fun k _ => ?_
  · exact CellFP.bind (CellFP.set_state (hm d hd) (ho _ (mQm_range d).1 (mQm_range d).2)) fun _ =>
      CellFP.set_state (hp d hd) (ho _ (mQp_range d).1 (mQp_range d).2)
  · exact CellFP.set_state (he e he' k) (ho _ (mEdge_range e k).1 (mEdge_range e k).2)

theorem storeTrace_exec (c : Cell) (T : Predicted α) (m : Addr → α) :
    (∀ d ∈ dirs d3, mfield ((storeTrace d3 S c T).exec m) (mQm d) c = faceState d3 S T d true ∧
      mfield ((storeTrace d3 S c T).exec m) (mQp d) c = faceState d3 S T d false) ∧
    (∀ e ∈ emfDirs d3, ∀ k,
      mfield ((storeTrace d3 S c T).exec m) (mEdge e k) c = edgeState d3 S T e k) := by
  cases d3
  · simp only [storeTrace, dirs, emfDirs, corners, each, bind_eq, pure_eq, exec_bind, K.exec,
      set_state_exec, Bool.false_eq_true, if_false, List.mem_cons, List.not_mem_nil, or_false]
    refine ⟨?_, ?_⟩
    · rintro d (rfl | rfl) <;> constructor <;>
        (repeat first
          | exact mfield_msetState_same
          | rw [mfield_msetState_ne (Or.inl (by decide))])
    · rintro e rfl k
      cases k <;>
        (repeat first
          | exact mfield_msetState_same
          | rw [mfield_msetState_ne (Or.inl (by decide))])
  · simp only [storeTrace, dirs, emfDirs, corners, each, bind_eq, pure_eq, exec_bind, K.exec,
      set_state_exec, if_true, List.mem_cons, List.not_mem_nil, or_false]
    refine ⟨?_, ?_⟩
    · rintro d (rfl | rfl | rfl) <;> constructor <;>
        (repeat first
          | exact mfield_msetState_same
          | rw [mfield_msetState_ne (Or.inl (by decide))])
    · rintro e (rfl | rfl | rfl) k <;> cases k <;>
        (repeat first
          | exact mfield_msetState_same
          | rw [mfield_msetState_ne (Or.inl (by decide))])

theorem collectM_exec {ι X : Type} [DecidableEq ι] {dflt : X} {f : ι → K Addr α X} {m : Addr → α}
    {x : ι → X} (l : List ι) (h : ∀ i ∈ l, Reads (f i) m (x i)) {Y : Type}
    (k : (ι → X) → K Addr α Y) :
    ((collect dflt f l).bind k).exec m = (k (fun i => if i ∈ l then x i else dflt)).exec m :=
  (collect_reads l h).exec_bind

/-- The facts about memory after the trace loops. -/
structure Traced (d3 : Bool) (S : MSettings α) (P : Grid) (T : Cell → Predicted α)
    (m' : Addr → α) : Prop where
  qm : ∀ c, P.box d3 c → P.traced d3 c → ∀ d ∈ dirs d3,
    mfield m' (mQm d) c = faceState d3 S (T c) d true
  qp : ∀ c, P.box d3 c → P.traced d3 c → ∀ d ∈ dirs d3,
    mfield m' (mQp d) c = faceState d3 S (T c) d false
  edge : ∀ c, P.box d3 c → P.traced d3 c → ∀ e ∈ emfDirs d3, ∀ k,
    mfield m' (mEdge e k) c = edgeState d3 S (T c) e k

theorem predict2_congr {junk : Dir → MState α} {q q' : Int → Int → MState α}
    {b b' : Int → Int → BVec α} {dtdx dtdy : α}
    (hq : ∀ i j, -1 ≤ i → i ≤ 1 → -1 ≤ j → j ≤ 1 → q i j = q' i j)
    (hb : ∀ i j, -1 ≤ i → i ≤ 2 → -1 ≤ j → j ≤ 2 → b i j = b' i j) :
    predict2 S junk q b dtdx dtdy = predict2 S junk q' b' dtdx dtdy := by
  have q00 := hq 0 0 (by omega) (by omega) (by omega) (by omega)
  have q01 := hq 0 1 (by omega) (by omega) (by omega) (by omega)
  have q10 := hq 1 0 (by omega) (by omega) (by omega) (by omega)
  have q11 := hq 1 1 (by omega) (by omega) (by omega) (by omega)
  have q0m := hq 0 (-1) (by omega) (by omega) (by omega) (by omega)
  have qm0 := hq (-1) 0 (by omega) (by omega) (by omega) (by omega)
  have q1m := hq 1 (-1) (by omega) (by omega) (by omega) (by omega)
  have qm1 := hq (-1) 1 (by omega) (by omega) (by omega) (by omega)
  have qmm := hq (-1) (-1) (by omega) (by omega) (by omega) (by omega)
  have b00 := hb 0 0 (by omega) (by omega) (by omega) (by omega)
  have b01 := hb 0 1 (by omega) (by omega) (by omega) (by omega)
  have b10 := hb 1 0 (by omega) (by omega) (by omega) (by omega)
  have b11 := hb 1 1 (by omega) (by omega) (by omega) (by omega)
  have b0m := hb 0 (-1) (by omega) (by omega) (by omega) (by omega)
  have bm0 := hb (-1) 0 (by omega) (by omega) (by omega) (by omega)
  have b1m := hb 1 (-1) (by omega) (by omega) (by omega) (by omega)
  have bm1 := hb (-1) 1 (by omega) (by omega) (by omega) (by omega)
  unfold predict2
  simp only [show (0:Int) - 1 = -1 from rfl, show (1:Int) - 1 = 0 from rfl, q00, q01, q10, q11, q0m,
    qm0, q1m, qm1, qmm, b00, b01, b10, b11, b0m, bm0, b1m, bm1]

theorem mem_square {lo : List Int} {i j : Int} : (i, j) ∈ square lo ↔ i ∈ lo ∧ j ∈ lo := by
  simp [square]

theorem mhd_trace2 (h : MhdOk false P impl Uin Uout) (m : Addr → α) :
    ∃ m', (computeTrace2 S P J dt Uin aQ).Yields (mhdDom false P impl) m m' ∧
      Traced false S P (fun c => pred2Of S (J.slope c) dt (mfield m Uin) (mfield m aQ) c) m' ∧
      (∀ a, a.arr < 40 ∨ 58 ≤ a.arr → m' a = m a) := by
  have hi : ¬ (40 ≤ Uin ∧ Uin < 58) := by have := h.in_lt; omega
  have hq : ¬ (40 ≤ aQ ∧ aQ < 58) := by decide
  have hg := h.gw
  have hFP : ∀ c, P.box false c → CellFP (mhdDom false P impl) (fun A => 40 ≤ A ∧ A < 58) c
      (computeTrace2Body S P J dt Uin aQ c) := by
    intro c hc
    by_cases ht : P.traced false c
    · rw [computeTrace2Body, if_pos ht]
      refine CellFP.bind (CellFP.collect _ ?_) fun _ => CellFP.bind (CellFP.collect _ ?_) fun _ =>
        storeTrace_fp (fun d hd => h.dom_qm hd hc) (fun d hd => h.dom_qp hd hc)
          (fun e he k => h.dom_edge he k hc) fun A h1 h2 => ⟨h1, h2⟩
      · rintro ⟨i, j⟩ hx
        rw [mem_square] at hx
        refine CellFP.get_state (h.dom_q ?_) fun e => (hq e).elim
        simp only [List.mem_cons, List.not_mem_nil, or_false] at hx
        guards; omega
      · rintro ⟨i, j⟩ hx
        rw [mem_square] at hx
        refine CellFP.get_magField (h.dom_in ?_) fun e => (hi e).elim
        simp only [List.mem_cons, List.not_mem_nil, or_false] at hx
        guards; omega
    · rw [computeTrace2Body, if_neg ht]; exact CellFP.ret _
  have key : ∀ c, P.box false c → P.traced false c → ∀ A,
      mfield (mdEffect false P (computeTrace2Body S P J dt Uin aQ) m) A c = mfield ((storeTrace false S c
        (pred2Of S (J.slope c) dt (mfield m Uin) (mfield m aQ) c)).exec m) A c := by
    intro c hc ht A
    refine (mfield_mdEffect m A hc).trans ?_
    rw [computeTrace2Body, if_pos ht]
    simp only [bind_eq]
    rw [collectM_exec (x := fun i : Int × Int => mfield m aQ (c.shift i.1 i.2 0)) _
      fun i _ => get_state_reads _ _ _]
    rw [collectM_exec (x := fun i : Int × Int => (mfield m Uin (c.shift i.1 i.2 0)).bvec) _
      fun i _ => ⟨rfl, rfl⟩]
    congr 3
  refine ⟨_, mdrange_yields hFP m, ⟨?_, ?_, ?_⟩, fun a ha => mdEffect_frame hFP m (by omega)⟩
  · intro c hc ht d hd
    rw [key c hc ht]
    exact ((storeTrace_exec c _ m).1 d hd).1
  · intro c hc ht d hd
    rw [key c hc ht]
    exact ((storeTrace_exec c _ m).1 d hd).2
  · intro c hc ht e he k
    rw [key c hc ht]
    exact (storeTrace_exec c _ m).2 e he k

/-! #### Electric field and slopes (3D) -/

theorem nonborder_down {c : Cell} (h : P.nonborder c) (d : Dir) : P.box true (c.down d) := by
  cases d <;> guards <;> omega
theorem nonborder_up {c : Cell} (h : P.nonborder c) (d : Dir) : P.box true (c.up d) := by
  cases d <;> guards <;> omega
theorem nonborder_down2 {c : Cell} (h : P.nonborder c) {d d' : Dir} (hne : d ≠ d') :
    P.box true ((c.down d).down d') := by
  cases d <;> cases d' <;> simp at hne <;> guards <;> omega

theorem elecAlong_fp {dom : Addr → Prop} {out : Nat → Prop} {c : Cell} (h : MhdBuf true P impl Uin Uout)
    (hd : ∀ a, mhdDom true P impl a → dom a) (h1 : ¬ out Uin) (h2 : ¬ out aQ)
    (hc : P.box true c) (hn : P.nonborder c) {e1 e2 f s : Dir} (hne : e1 ≠ e2) {vf vs bf bs : Nat}
    (hvf : vf < 8) (hvs : vs < 8) (hbf : bf < 8) (hbs : bs < 8) :
    CellFP dom out c (elecAlong Uin aQ c e1 e2 f s vf vs bf bs : K Addr α α) := by
  have q : ∀ c', P.box true c' → ∀ v, v < 8 → CellFP dom out c (K.load (c'.at aQ v) : K Addr α α) :=
    fun c' hc' v hv => CellFP.load (hd _ (h.dom_q hc' v hv)) fun e => (h2 e).elim
  have u : ∀ c', P.box true c' → ∀ v, v < 8 → CellFP dom out c (K.load (c'.at Uin v) : K Addr α α) :=
    fun c' hc' v hv => CellFP.load (hd _ (h.dom_in hc' v hv)) fun e => (h1 e).elim
  have b00 := nonborder_down2 hn hne
  exact CellFP.bind (q _ b00 _ hvf) fun _ => CellFP.bind (q _ (nonborder_down hn e1) _ hvf) fun _ =>
    CellFP.bind (q _ (nonborder_down hn e2) _ hvf) fun _ => CellFP.bind (q _ hc _ hvf) fun _ =>
    CellFP.bind (q _ b00 _ hvs) fun _ => CellFP.bind (q _ (nonborder_down hn e1) _ hvs) fun _ =>
    CellFP.bind (q _ (nonborder_down hn e2) _ hvs) fun _ => CellFP.bind (q _ hc _ hvs) fun _ =>
    CellFP.bind (u _ (nonborder_down hn s) _ hbf) fun _ => CellFP.bind (u _ hc _ hbf) fun _ =>
    CellFP.bind (u _ (nonborder_down hn f) _ hbs) fun _ => CellFP.bind (u _ hc _ hbs) fun _ =>
    CellFP.ret _

theorem mhd_elec (h : MhdBuf true P impl Uin Uout)
    (he : ∀ c, P.box true c → ∀ v, v < 3 → mhdDom true P impl (c.at mE v)) (m : Addr → α) :
    ∃ m', (computeElecField P Uin aQ).Yields (mhdDom true P impl) m m' ∧
      (∀ c, P.nonborder c → ∀ d : Dir,
        m' (c.at mE d.comp) = elecOf (mfield m Uin) (mfield m aQ) d c) ∧
      (∀ a, a.arr ≠ mE → m' a = m a) := by
  have hi : Uin ≠ mE := by have := h.in_lt; simp only [mE]; omega
  have hFP : ∀ c, P.box true c → CellFP (mhdDom true P impl) (fun A => A = mE) c
      (computeElecFieldBody P Uin aQ c : K Addr α Unit) := by
    intro c hc
    by_cases hn : P.nonborder c
    · rw [computeElecFieldBody, if_pos hn]
      have el := fun (e1 e2 f s : Dir) (vf vs bf bs : Nat) (hne : e1 ≠ e2) hvf hvs hbf hbs =>
        elecAlong_fp (α := α) (f := f) (s := s) (vf := vf) (vs := vs) (bf := bf) (bs := bs)
          (out := fun A => A = mE) h (fun _ h => h) hi (by decide) hc hn hne hvf hvs hbf hbs
      exact CellFP.bind (el _ _ _ _ _ _ _ _ (by decide) (by decide) (by decide) (by decide) (by decide))
        fun _ => CellFP.bind (CellFP.store (he c hc _ (by decide)) rfl rfl) fun _ =>
        CellFP.bind (el _ _ _ _ _ _ _ _ (by decide) (by decide) (by decide) (by decide) (by decide))
        fun _ => CellFP.bind (CellFP.store (he c hc _ (by decide)) rfl rfl) fun _ =>
        CellFP.bind (el _ _ _ _ _ _ _ _ (by decide) (by decide) (by decide) (by decide) (by decide))
        fun _ => CellFP.store (he c hc _ (by decide)) rfl rfl
    · rw [computeElecFieldBody, if_neg hn]; exact CellFP.ret _
  refine ⟨_, mdrange_yields hFP m, ?_, fun a ha => mdEffect_frame hFP m ha⟩
  intro c hn d
  have hc : P.box true c := by guards; omega
  rw [mdEffect, Cell.at_cell, if_pos hc, computeElecFieldBody, if_pos hn]
  have n1 : aQ ≠ mE := by decide
  obtain ⟨i, j, k⟩ := c
  cases d <;>
  simp [elecAlong, K.exec, K.load, K.store, K.bind, Function.update_apply, Cell.at, Cell.down, hi, n1,
    Dir.comp, elecOf, elecAvg, mfield, IU, IV, IW, IA, IB, IC]

theorem mhd_slopes (h : MhdOk true P impl Uin Uout) (m : Addr → α) :
    ∃ m', (computeMagSlopes S P Uin).Yields (mhdDom true P impl) m m' ∧
      (∀ c, P.nonborder c → ∀ d t : Dir,
        m' (c.at (mDelta d) t.comp) = dbOf S (mfield m Uin) d t c) ∧
      (∀ a, a.arr < 63 → m' a = m a) := by
  have hi : ¬ 63 ≤ Uin := by have := h.in_lt; omega
  have hFP : ∀ c, P.box true c → CellFP (mhdDom true P impl) (fun A => 63 ≤ A) c
      (computeMagSlopesBody S P Uin c) := by
    intro c hc
    by_cases hn : P.nonborder c
    · rw [computeMagSlopesBody, if_pos hn]
      have sl : ∀ t v, v < 8 → CellFP (mhdDom true P impl) (fun A => 63 ≤ A) c
          (loadFaceSlope S Uin c t v) := fun t v hv =>
        CellFP.bind (CellFP.load (h.dom_in hc v hv) fun e => (hi e).elim) fun _ =>
        CellFP.bind (CellFP.load (h.dom_in (nonborder_up hn t) v hv) fun e => (hi e).elim) fun _ =>
        CellFP.bind (CellFP.load (h.dom_in (nonborder_down hn t) v hv) fun e => (hi e).elim) fun _ =>
        CellFP.ret _
      have st : ∀ d v x, v < 3 → CellFP (mhdDom true P impl) (fun A => 63 ≤ A) c
          (K.store (c.at (mDelta d) v) x : K Addr α Unit) := fun d v x hv =>
        CellFP.store (h.dom_delta d hc v hv) (mDelta_range d).1 rfl
      exact CellFP.bind (sl _ _ (by decide)) fun _ => CellFP.bind (sl _ _ (by decide)) fun _ =>
        CellFP.bind (sl _ _ (by decide)) fun _ => CellFP.bind (sl _ _ (by decide)) fun _ =>
        CellFP.bind (sl _ _ (by decide)) fun _ => CellFP.bind (sl _ _ (by decide)) fun _ =>
        CellFP.bind (st _ _ _ (by decide)) fun _ => CellFP.bind (st _ _ _ (by decide)) fun _ =>
        CellFP.bind (st _ _ _ (by decide)) fun _ => CellFP.bind (st _ _ _ (by decide)) fun _ =>
        CellFP.bind (st _ _ _ (by decide)) fun _ => CellFP.bind (st _ _ _ (by decide)) fun _ =>
        CellFP.bind (st _ _ _ (by decide)) fun _ => CellFP.bind (st _ _ _ (by decide)) fun _ =>
        st _ _ _ (by decide)
    · rw [computeMagSlopesBody, if_neg hn]; exact CellFP.ret _
  refine ⟨_, mdrange_yields hFP m, ?_, fun a ha => mdEffect_frame hFP m (by omega)⟩
  intro c hn d t
  have hc : P.box true c := by guards; omega
  rw [mdEffect, Cell.at_cell, if_pos hc, computeMagSlopesBody, if_pos hn]
  obtain ⟨i, j, k⟩ := c
  cases d <;> cases t <;>
  simp [loadFaceSlope, K.exec, K.load, K.store, K.bind, Function.update_apply, Cell.at, Cell.down,
    Cell.up, mDelta, Dir.pick, Dir.comp, dbOf, mfield, MState.getB, IA, IB, IC]

theorem trace3_body {m m0 : Addr → α} {c : Cell} (ht : P.traced true c)
    (hU : mfield m Uin = mfield m0 Uin) (hQ : mfield m aQ = mfield m0 aQ)
    (hE : ∀ d x f y s, f ≠ s → m (((c.upIf f x).upIf s y).at mE (Dir.comp d)) =
      elecOf (mfield m0 Uin) (mfield m0 aQ) d ((c.upIf f x).upIf s y))
    (hD : ∀ d t up, m ((c.upIf d up).at (mDelta d) (Dir.comp t)) =
      dbOf S (mfield m0 Uin) d t (c.upIf d up)) :
    (computeTrace3Body S P xmin dt Uin aQ c).exec m = (storeTrace true S c
        (pred3Of S (xPosOf S P xmin c) dt (mfield m0 Uin) (mfield m0 aQ) c)).exec m := by
  rw [computeTrace3Body, if_pos ht]
  refine Eq.trans (b := (storeTrace true S c (predict3 S (mfield m aQ c)
    (slope_unsplit_hydro_3d S (mfield m aQ c)
      (Dir.pick (mfield m aQ (c.up .x)) (mfield m aQ (c.up .y)) (mfield m aQ (c.up .z)))
      (Dir.pick (mfield m aQ (c.down .x)) (mfield m aQ (c.down .y)) (mfield m aQ (c.down .z))))
    _ _ _ _ _ _ _ _ _)).exec m) rfl ?_
  congr 2
  unfold pred3Of
  congr 1
  · rw [hQ]
  · rw [hQ]
    congr 1
    · funext d; cases d <;> rfl
    · funext d; cases d <;> rfl
  · rw [← hU]
    funext d up
    cases d <;> cases up <;> rfl
  · funext d t up
    have := hD d t up
    cases d <;> cases t <;> cases up <;> first | exact this | rfl
  · funext x y
    have := hE .x x .y y .z (by decide)
    cases x <;> cases y <;> exact this
  · funext x y
    have := hE .y x .x y .z (by decide)
    cases x <;> cases y <;> exact this
  · funext x y
    have := hE .z x .x y .y (by decide)
    cases x <;> cases y <;> exact this

theorem mhd_trace3 (h : MhdOk true P impl Uin Uout) (m : Addr → α) :
    ∃ m', YieldsAll (mhdDom true P impl)
        [computeElecField P Uin aQ, computeMagSlopes S P Uin, computeTrace3 S P xmin dt Uin aQ] m m' ∧
      Traced true S P (fun c => pred3Of S (xPosOf S P xmin c) dt (mfield m Uin) (mfield m aQ) c) m' ∧
      (∀ a, a.arr < 40 → m' a = m a) := by
  obtain ⟨m1, y1, e1, f1⟩ := mhd_elec h.toMhdBuf (fun c hc => h.dom_e hc) m
  obtain ⟨m2, y2, e2, f2⟩ := mhd_slopes (S := S) h m1
  have hi : ¬ (40 ≤ Uin ∧ Uin < 58) := by have := h.in_lt; omega
  have hq : ¬ (40 ≤ aQ ∧ aQ < 58) := by decide
  have hg := h.gw
  have hFP : ∀ c, P.box true c → CellFP (mhdDom true P impl) (fun A => 40 ≤ A ∧ A < 58) c
      (computeTrace3Body S P xmin dt Uin aQ c) := by
    intro c hc
    by_cases ht : P.traced true c
    · rw [computeTrace3Body, if_pos ht]
      have bu : ∀ d, P.box true (c.up d) := by intro d; cases d <;> guards <;> omega
      have bd : ∀ d, P.box true (c.down d) := by intro d; cases d <;> guards <;> omega
      have buu : ∀ d d', d ≠ d' → P.box true ((c.up d).up d') := by
        intro d d' hne; cases d <;> cases d' <;> simp at hne <;> guards <;> omega
      have gs : ∀ c', P.box true c' → CellFP (mhdDom true P impl) (fun A => 40 ≤ A ∧ A < 58) c
          (get_state aQ c' : K Addr α _) := fun c' hc' =>
        CellFP.get_state (h.dom_q hc') fun e => (hq e).elim
      have gu : ∀ c', P.box true c' → ∀ v, v < 8 → CellFP (mhdDom true P impl)
          (fun A => 40 ≤ A ∧ A < 58) c (K.load (c'.at Uin v) : K Addr α _) := fun c' hc' v hv =>
        CellFP.load (h.dom_in hc' v hv) fun e => (hi e).elim
      have gd : ∀ c', P.box true c' → ∀ d v, v < 3 → CellFP (mhdDom true P impl)
          (fun A => 40 ≤ A ∧ A < 58) c (K.load (c'.at (mDelta d) v) : K Addr α _) :=
        fun c' hc' d v hv => CellFP.load (h.dom_delta d hc' v hv) fun e => by
          have := mDelta_range d; simp only [Cell.at_arr] at e; omega
      have ge : ∀ c', P.box true c' → ∀ v, v < 3 → CellFP (mhdDom true P impl)
          (fun A => 40 ≤ A ∧ A < 58) c (K.load (c'.at mE v) : K Addr α _) :=
        fun c' hc' v hv => CellFP.load (h.dom_e hc' v hv) fun e => by
          simp only [Cell.at_arr, mE] at e; omega
      have le : ∀ v f s, v < 3 → f ≠ s → CellFP (mhdDom true P impl)
          (fun A => 40 ≤ A ∧ A < 58) c (loadElec c v f s : K Addr α _) := fun v f s hv hne =>
        CellFP.bind (ge _ hc v hv) fun _ => CellFP.bind (ge _ (bu s) v hv) fun _ =>
        CellFP.bind (ge _ (bu f) v hv) fun _ => CellFP.bind (ge _ (buu f s hne) v hv) fun _ =>
        CellFP.ret _
      exact CellFP.bind (gs _ hc) fun _ => CellFP.bind (gs _ (bu _)) fun _ =>
        CellFP.bind (gs _ (bd _)) fun _ => CellFP.bind (gs _ (bu _)) fun _ =>
        CellFP.bind (gs _ (bd _)) fun _ => CellFP.bind (gs _ (bu _)) fun _ =>
        CellFP.bind (gs _ (bd _)) fun _ => CellFP.bind (gu _ hc _ (by decide)) fun _ =>
        CellFP.bind (gu _ (bu _) _ (by decide)) fun _ => CellFP.bind (gu _ hc _ (by decide)) fun _ =>
        CellFP.bind (gu _ (bu _) _ (by decide)) fun _ => CellFP.bind (gu _ hc _ (by decide)) fun _ =>
        CellFP.bind (gu _ (bu _) _ (by decide)) fun _ => CellFP.bind (gd _ hc _ _ (by decide)) fun _ =>
        CellFP.bind (gd _ hc _ _ (by decide)) fun _ => CellFP.bind (gd _ hc _ _ (by decide)) fun _ =>
        CellFP.bind (gd _ hc _ _ (by decide)) fun _ => CellFP.bind (gd _ hc _ _ (by decide)) fun _ =>
        CellFP.bind (gd _ hc _ _ (by decide)) fun _ =>
        CellFP.bind (gd _ (bu _) _ _ (by decide)) fun _ =>
        CellFP.bind (gd _ (bu _) _ _ (by decide)) fun _ =>
        CellFP.bind (gd _ (bu _) _ _ (by decide)) fun _ =>
        CellFP.bind (gd _ (bu _) _ _ (by decide)) fun _ =>
        CellFP.bind (gd _ (bu _) _ _ (by decide)) fun _ =>
        CellFP.bind (gd _ (bu _) _ _ (by decide)) fun _ =>
        CellFP.bind (le _ _ _ (by decide) (by decide)) fun _ =>
        CellFP.bind (le _ _ _ (by decide) (by decide)) fun _ =>
        CellFP.bind (le _ _ _ (by decide) (by decide)) fun _ =>
        storeTrace_fp (fun d hd => h.dom_qm hd hc) (fun d hd => h.dom_qp hd hc)
          (fun e he k => h.dom_edge he k hc) fun A h1 h2 => ⟨h1, h2⟩
    · rw [computeTrace3Body, if_neg ht]; exact CellFP.ret _
  have key : ∀ c, P.box true c → P.traced true c → ∀ A,
      mfield (mdEffect true P (computeTrace3Body S P xmin dt Uin aQ) m2) A c =
        mfield ((storeTrace true S c
        (pred3Of S (xPosOf S P xmin c) dt (mfield m Uin) (mfield m aQ) c)).exec m2) A c := by
    intro c hc ht A
    refine (mfield_mdEffect m2 A hc).trans ?_
    have hUU : mfield m1 Uin = mfield m Uin := by
      funext c; exact mfield_ext fun v _ => f1 _ (by have := h.in_lt; simp only [Cell.at_arr, mE]; omega)
    have hUU' : mfield m2 Uin = mfield m1 Uin := by
      funext c; exact mfield_ext fun v _ => f2 _ (by have := h.in_lt; simp only [Cell.at_arr]; omega)
    rw [trace3_body (m0 := m) ht (hUU'.trans hUU)]
    · funext c; refine mfield_ext fun v _ => (f2 _ ?_).trans (f1 _ ?_)
      · simp [aQ]
      · simp [aQ, mE]
    · intro d x f y s hne
      rw [f2 _ (by simp [mE])]
      refine e1 _ ?_ d
      unfold Cell.upIf
      cases f <;> cases s <;> simp at hne <;> cases x <;> cases y <;> guards <;> omega
    · intro d t up
      rw [e2 _ _ d t, hUU]
      unfold Cell.upIf
      cases d <;> cases up <;> guards <;> omega
  refine ⟨_, .cons y1 (.cons y2 (.cons (mdrange_yields hFP m2) (.nil _))), ⟨?_, ?_, ?_⟩, ?_⟩
  · intro c hc ht d hd
    rw [key c hc ht]
    exact ((storeTrace_exec c _ m2).1 d hd).1
  · intro c hc ht d hd
    rw [key c hc ht]
    exact ((storeTrace_exec c _ m2).1 d hd).2
  · intro c hc ht e he k
    rw [key c hc ht]
    exact (storeTrace_exec c _ m2).2 e he k
  · intro a ha
    rw [mdEffect_frame hFP m2 (by omega), f2 a (by omega), f1 a (by simp only [mE]; omega)]

end loops

end Verif
