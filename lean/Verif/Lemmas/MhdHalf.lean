import Verif.Lemmas.MhdWhole

/-! Helper lemmas: the loops of implementation version 2 of the MHD step before the flux loops. -/

namespace Verif

open K Function ROps Spec

variable {α : Type} [ROps α]

/-! ### The scheme as functions of the states -/

/-- Slopes along `d`; the normal field component has the difference of the face values. -/
def slopesOf (S : MSettings α) (J : MJunk α) (U Q : Cell → MState α) (d : Dir) (c : Cell) : MState α :=
  (slopeAlong S (J.slope c .x) (Q c) (Q (c.up d)) (Q (c.down d))).setB d
    ((U (c.up d)).getB d - (U c).getB d)

/-- Primitive variables after half a time step. -/
def halfOf (d3 : Bool) (S : MSettings α) (J : MJunk α) (dt : α) (U Q : Cell → MState α) (c : Cell) :
    MState α :=
  let t := dtOver S.toSettings dt
  let n := fun d => (U (c.up d)).getB d - (U c).getB d
  if d3 then updatedPrim3 S (Q c) (slopesOf S J U Q .x c) (slopesOf S J U Q .y c)
    (slopesOf S J U Q .z c) (n .x) (n .y) (n .z) (t .x) (t .y) (t .z)
  else updatedPrim2 S (Q c) (slopesOf S J U Q .x c) (slopesOf S J U Q .y c) (n .x) (n .y) (t .x) (t .y)

/-- Change of the face field in half a time step. -/
def srcOf (d3 : Bool) (S : MSettings α) (dt : α) (U Q : Cell → MState α) (d : Dir) (c : Cell) : α :=
  let t := dtOver S.toSettings dt
  let D := fun v e => elecOf U Q v (c.up e) - elecOf U Q v c
  if d3 then
    match d with
    | .x => D .z .y * lit (1/2) * t .y - D .y .z * lit (1/2) * t .z
    | .y => -D .z .x * lit (1/2) * t .x + D .x .z * lit (1/2) * t .z
    | .z => D .y .x * lit (1/2) * t .x - D .x .y * lit (1/2) * t .y
  else
    match d with
    | .x => D .z .y * lit (1/2) * t .y
    | .y => -D .z .x * lit (1/2) * t .x
    | .z => lit 0

/-- Facts about memory before the flux loops. -/
structure Half (d3 : Bool) (S : MSettings α) (P : Grid) (J : MJunk α) (dt : α) (Uin : Nat)
    (U Q : Cell → MState α) (m : Addr → α) : Prop where
  uin : mfield m Uin = U
  half : ∀ c, P.box d3 c → P.traced d3 c → mfield m mQ2 c = halfOf d3 S J dt U Q c
  slopes : ∀ c, P.box d3 c → P.traced d3 c → ∀ d ∈ dirs d3,
    mfield m (mSlopes d) c = slopesOf S J U Q d c
  src : ∀ c, P.box d3 c → P.traced d3 c → ∀ d ∈ dirs d3,
    m (c.at mFaceMag d.comp) = srcOf d3 S dt U Q d c

namespace MhdBuf

variable {d3 : Bool} {P : Grid} {Uin Uout : Nat}

theorem dom_q2 (h : MhdBuf d3 P 2 Uin Uout) {c : Cell} (hb : P.box d3 c) :
    ∀ v, v < 8 → mhdDom d3 P 2 (c.at mQ2 v) := fun _ hv =>
  ⟨hb, Or.inl ⟨by simp [mhdArray], h.nv ▸ hv⟩⟩

theorem dom_slopes (h : MhdBuf d3 P 2 Uin Uout) {c : Cell} {d : Dir} (hd : d ∈ dirs d3)
    (hb : P.box d3 c) : ∀ v, v < 8 → mhdDom d3 P 2 (c.at (mSlopes d) v) := fun _ hv =>
  ⟨hb, Or.inl ⟨Or.inr (Or.inr (Or.inr (Or.inr (Or.inr ⟨rfl, Or.inr ⟨d, hd, rfl⟩⟩)))), h.nv ▸ hv⟩⟩

theorem dom_e2 (_ : MhdBuf d3 P 2 Uin Uout) {c : Cell} (hb : P.box d3 c) :
    ∀ v, (v < if d3 then 3 else 1) → mhdDom d3 P 2 (c.at mE v) := fun _ hv =>
  ⟨hb, Or.inr (Or.inr (Or.inr (Or.inl ⟨rfl, rfl, hv⟩)))⟩

theorem dom_face (_ : MhdBuf d3 P 2 Uin Uout) {c : Cell} {d : Dir} (hd : d ∈ dirs d3)
    (hb : P.box d3 c) : mhdDom d3 P 2 (c.at mFaceMag d.comp) :=
  ⟨hb, Or.inr (Or.inr (Or.inr (Or.inr ⟨rfl, rfl, by
    cases d3 <;> cases d <;> simp_all [dirs, Dir.comp]⟩)))⟩

end MhdBuf

theorem mSlopes_range (d : Dir) : 73 ≤ mSlopes d := by cases d <;> decide

theorem mSlopes_inj {d e : Dir} (h : mSlopes d = mSlopes e) : d = e := by
  revert h; cases d <;> cases e <;> decide

theorem mem_getB (m : Addr → α) (A : Nat) (c : Cell) (d : Dir) :
    m (c.at A d.bvar) = (mfield m A c).getB d := by cases d <;> rfl

section loops

variable {d3 : Bool} {S : MSettings α} {P : Grid} {J : MJunk α}
  {Uin Uout : Nat} {dt : α}

/-- Unfold guards. -/
macro "guards2" : tactic => `(tactic|
  (simp only [Grid.box, Grid.convertible, Grid.traced, Grid.nonborder, Grid.faces, Grid.inner,
    Grid.offBorder, Cell.upIf,
    Cell.up, Cell.down, Cell.shift, Bool.false_eq_true, if_false, if_true, false_imp_iff,
    true_imp_iff, forall_const, true_and] at *))

theorem off_nbr {c : Cell} (hc : P.box d3 c) (h : P.offBorder d3 c) {d : Dir} (hd : d ∈ dirs d3) :
    P.box d3 (c.up d) ∧ P.box d3 (c.down d) := by
  cases d3 <;> cases d <;> simp [dirs] at hd <;> guards2 <;> omega

theorem traced_off {c : Cell} (hg : 3 ≤ P.ghostWidth) (hc : P.box d3 c) (h : P.traced d3 c) :
    P.offBorder d3 c := by
  cases d3 <;> guards2 <;> omega

/-- One direction of the slopes loop. -/
def slopesDir (S : MSettings α) (J : MJunk α) (U Q : Nat) (c : Cell) (qc : MState α) (d : Dir) :
    K Addr α Unit := do
  let qm ← get_state Q (c.down d)
  let qp ← get_state Q (c.up d)
  set_state (mSlopes d) c (slopeAlong S (J.slope c .x) qc qp qm)
  let u1 ← K.load ((c.up d).at U d.bvar)
  let u0 ← K.load (c.at U d.bvar)
  K.store (c.at (mSlopes d) d.bvar) (u1 - u0)

theorem slopesDir_exec (hi : Uin < 2) {m : Addr → α} {c : Cell} {qc : MState α} (d : Dir) :
    mfield ((slopesDir S J Uin aQ c qc d).exec m) (mSlopes d) c =
      (slopeAlong S (J.slope c .x) qc (mfield m aQ (c.up d)) (mfield m aQ (c.down d))).setB d
        ((mfield m Uin (c.up d)).getB d - (mfield m Uin c).getB d) ∧
    ∀ a, a.arr ≠ mSlopes d → (slopesDir S J Uin aQ c qc d).exec m a = m a := by
  have e : (slopesDir S J Uin aQ c qc d).exec m = Function.update
      ((set_state (mSlopes d) c (slopeAlong S (J.slope c .x) qc (mfield m aQ (c.up d))
        (mfield m aQ (c.down d)))).exec m) (c.at (mSlopes d) d.bvar)
      (((set_state (mSlopes d) c (slopeAlong S (J.slope c .x) qc (mfield m aQ (c.up d))
        (mfield m aQ (c.down d)))).exec m) ((c.up d).at Uin d.bvar) -
       ((set_state (mSlopes d) c (slopeAlong S (J.slope c .x) qc (mfield m aQ (c.up d))
        (mfield m aQ (c.down d)))).exec m) (c.at Uin d.bvar)) := rfl
  have hr := mSlopes_range d
  have n1 : Uin ≠ mSlopes d := by omega
  rw [e, set_state_exec]
  have g : ∀ q (c' : Cell), msetState m (mSlopes d) c q (c'.at Uin d.bvar) = (mfield m Uin c').getB d :=
    fun q c' => by rw [mem_getB (msetState m (mSlopes d) c q), mfield_msetState_ne (Or.inl n1)]
  rw [g, g]
  generalize slopeAlong S (J.slope c .x) qc (mfield m aQ (c.up d)) (mfield m aQ (c.down d)) = q
  generalize (mfield m Uin (c.up d)).getB d - (mfield m Uin c).getB d = x
  constructor
  · obtain ⟨i, j, k⟩ := c
    cases d <;> simp [mfield, Function.update_apply, Cell.at, msetState, Dir.bvar, MState.setB, IA, IB,
      IC, Addr.cell, MState.get]
  · intro a ha
    rw [Function.update_of_ne (by rintro rfl; exact ha rfl)]
    simp [msetState, ha]

theorem slopes_each {m : Addr → α} {c : Cell} {qc : MState α} (hi : Uin < 2) (l : List Dir)
    (hl : l.Nodup) (m' : Addr → α) (h : ∀ a, a.arr < 73 → m' a = m a) :
    (∀ d ∈ l, mfield ((each (slopesDir S J Uin aQ c qc) l).exec m') (mSlopes d) c =
      (slopeAlong S (J.slope c .x) qc (mfield m aQ (c.up d)) (mfield m aQ (c.down d))).setB d
        ((mfield m Uin (c.up d)).getB d - (mfield m Uin c).getB d)) ∧
    ∀ a, (∀ d ∈ l, a.arr ≠ mSlopes d) → (each (slopesDir S J Uin aQ c qc) l).exec m' a = m' a := by
  induction l generalizing m' with
  | nil => exact ⟨fun d hd => by simp at hd, fun _ _ => rfl⟩
  | cons d l ih =>
    obtain ⟨hd, hl⟩ := List.nodup_cons.1 hl
    have e : (each (slopesDir S J Uin aQ c qc) (d :: l)).exec m' =
        (each (slopesDir S J Uin aQ c qc) l).exec ((slopesDir S J Uin aQ c qc d).exec m') :=
      exec_bind _ _ _
    obtain ⟨h1, h2⟩ := slopesDir_exec (S := S) (J := J) (m := m') (c := c) (qc := qc) hi d
    have hr := mSlopes_range d
    obtain ⟨i1, i2⟩ := ih hl _ (fun a ha => (h2 a (by omega)).trans (h a ha))
    have f : ∀ A, A < 73 → ∀ c, mfield m' A c = mfield m A c := fun A hA c =>
      mfield_ext fun v _ => h _ (by simpa using hA)
    rw [e]
    refine ⟨fun d' hd' => ?_, fun a ha => ?_⟩
    · rcases List.mem_cons.1 hd' with rfl | hd'
      · rw [← f aQ (by decide), ← f aQ (by decide), ← f Uin (by omega), ← f Uin (by omega), ← h1]
        refine mfield_ext fun v _ => i2 _ fun d'' hd'' e => ?_
        rw [Cell.at_arr] at e
        exact hd (mSlopes_inj e ▸ hd'')
      · exact i1 d' hd'
    · rw [i2 a fun d' hd' => ha d' (by simp [hd']), h2 a (ha d (by simp))]

theorem half_slopes (h : MhdBuf d3 P 2 Uin Uout) (m : Addr → α) :
    ∃ m', (computeSlopesMhd d3 S P J Uin aQ).Yields (mhdDom d3 P 2) m m' ∧
      (∀ c, P.box d3 c → P.offBorder d3 c → ∀ d ∈ dirs d3,
        mfield m' (mSlopes d) c = slopesOf S J (mfield m Uin) (mfield m aQ) d c) ∧
      (∀ a, a.arr < 73 → m' a = m a) := by
  have hi : ¬ 73 ≤ Uin := by have := h.in_lt; omega
  have hq : ¬ 73 ≤ aQ := by decide
  have hFP : ∀ c, P.box d3 c → CellFP (mhdDom d3 P 2) (fun A => 73 ≤ A) c
      (computeSlopesMhdBody d3 S P J Uin aQ c) := by
    intro c hc
    by_cases ho : P.offBorder d3 c
    · rw [computeSlopesMhdBody, if_pos ho]
      refine CellFP.bind (CellFP.get_state (h.dom_q hc) fun e => (hq e).elim) fun _ =>
        CellFP.each _ fun d hd => ?_
      obtain ⟨b1, b2⟩ := off_nbr hc ho hd
      have hv : d.bvar < 8 := by cases d <;> decide
      exact CellFP.bind (CellFP.get_state (h.dom_q b2) fun e => (hq e).elim) fun _ =>
        CellFP.bind (CellFP.get_state (h.dom_q b1) fun e => (hq e).elim) fun _ =>
        CellFP.bind (CellFP.set_state (h.dom_slopes hd hc) (mSlopes_range d)) fun _ =>
        CellFP.bind (CellFP.load (h.dom_in b1 _ hv) fun e => (hi e).elim) fun _ =>
        CellFP.bind (CellFP.load (h.dom_in hc _ hv) fun e => (hi e).elim) fun _ =>
        CellFP.store (h.dom_slopes hd hc _ hv) (mSlopes_range d) rfl
    · rw [computeSlopesMhdBody, if_neg ho]; exact CellFP.ret _
  refine ⟨_, mdrange_yields hFP m, ?_, fun a ha => mdEffect_frame hFP m (by omega)⟩
  intro c hc ho d hd
  rw [mfield_mdEffect m _ hc, computeSlopesMhdBody, if_pos ho]
  have e : ((do
      let qc ← get_state aQ c
      each (slopesDir S J Uin aQ c qc) (dirs d3) : K Addr α Unit).exec m) =
      (each (slopesDir S J Uin aQ c (mfield m aQ c)) (dirs d3)).exec m := rfl
  refine (congrArg (fun x => mfield x (mSlopes d) c) e).trans ?_
  exact (slopes_each h.in_lt (dirs d3) (by cases d3 <;> decide) m fun _ _ => rfl).1 d hd

theorem half_prim (h : MhdBuf d3 P 2 Uin Uout) (m : Addr → α) :
    ∃ m', (computeUpdatedPrimVar d3 S P dt Uin aQ).Yields (mhdDom d3 P 2) m m' ∧
      (∀ c, P.box d3 c → P.traced d3 c → ∀ U Q, mfield m Uin = U → mfield m aQ c = Q c →
        (∀ d ∈ dirs d3, mfield m (mSlopes d) c = slopesOf S J U Q d c) →
        mfield m' mQ2 c = halfOf d3 S J dt U Q c) ∧
      (∀ a, a.arr ≠ mQ2 → m' a = m a) := by
  have hi : Uin ≠ mQ2 := by have := h.in_lt; simp only [mQ2]; omega
  have hFP : ∀ c, P.box d3 c → CellFP (mhdDom d3 P 2) (fun A => A = mQ2) c
      (computeUpdatedPrimVarBody d3 S P dt Uin aQ c) := by
    intro c hc
    by_cases ht : P.traced d3 c
    · rw [computeUpdatedPrimVarBody, if_pos ht]
      have ho := traced_off h.gw hc ht
      have sl : ∀ d ∈ dirs d3, CellFP (mhdDom d3 P 2) (fun A => A = mQ2) c
          (get_state (mSlopes d) c : K Addr α _) := fun d hd =>
        CellFP.get_state (h.dom_slopes hd hc) fun e => by
          have := mSlopes_range d; simp only [mQ2] at e; omega
      have nd : ∀ d ∈ dirs d3, CellFP (mhdDom d3 P 2) (fun A => A = mQ2) c
          (loadNormalDiff Uin c d : K Addr α _) := fun d hd => by
        have hv : d.bvar < 8 := by cases d <;> decide
        exact CellFP.bind (CellFP.load (h.dom_in (off_nbr hc ho hd).1 _ hv) fun e => (hi e).elim)
          fun _ => CellFP.bind (CellFP.load (h.dom_in hc _ hv) fun e => (hi e).elim) fun _ =>
          CellFP.ret _
      have hx : Dir.x ∈ dirs d3 := by cases d3 <;> decide
      have hy : Dir.y ∈ dirs d3 := by cases d3 <;> decide
      refine CellFP.bind (CellFP.get_state (h.dom_q hc) fun e => absurd e (show aQ ≠ mQ2 by decide)) fun _ =>
        CellFP.bind (sl _ hx) fun _ => CellFP.bind (sl _ hy) fun _ => CellFP.bind (nd _ hx) fun _ =>
        CellFP.bind (nd _ hy) fun _ => ?_
      cases d3
      · exact CellFP.set_state (h.dom_q2 hc) rfl
      · exact CellFP.bind (sl _ (by decide)) fun _ => CellFP.bind (nd _ (by decide)) fun _ =>
          CellFP.set_state (h.dom_q2 hc) rfl
    · rw [computeUpdatedPrimVarBody, if_neg ht]; exact CellFP.ret _
  refine ⟨_, mdrange_yields hFP m, ?_, fun a ha => mdEffect_frame hFP m ha⟩
  intro c hc ht U Q hU hQ hs
  rw [mfield_mdEffect m _ hc, computeUpdatedPrimVarBody, if_pos ht]
  have hx := hs .x (by cases d3 <;> decide)
  have hy := hs .y (by cases d3 <;> decide)
  subst hU
  cases d3
  · refine Eq.trans (b := mfield ((set_state mQ2 c (updatedPrim2 S (mfield m aQ c)
      (mfield m (mSlopes .x) c) (mfield m (mSlopes .y) c) _ _ _ _)).exec m) mQ2 c) rfl ?_
    rw [set_state_exec, mfield_msetState_same, hQ, hx, hy]
    rfl
  · have hz := hs .z (by decide)
    refine Eq.trans (b := mfield ((set_state mQ2 c (updatedPrim3 S (mfield m aQ c)
      (mfield m (mSlopes .x) c) (mfield m (mSlopes .y) c) (mfield m (mSlopes .z) c)
      _ _ _ _ _ _)).exec m) mQ2 c) rfl ?_
    rw [set_state_exec, mfield_msetState_same, hQ, hx, hy, hz]
    rfl

theorem half_elec2 (h : MhdBuf false P 2 Uin Uout) (m : Addr → α) :
    ∃ m', (computeElecField2 P Uin aQ).Yields (mhdDom false P 2) m m' ∧
      (∀ c, P.box false c → 0 < c.j → 0 < c.i →
        m' (c.at mE 0) = elecOf (mfield m Uin) (mfield m aQ) .z c) ∧
      (∀ a, a.arr ≠ mE → m' a = m a) := by
  have hi : Uin ≠ mE := by have := h.in_lt; simp only [mE]; omega
  have hq : aQ ≠ mE := by decide
  have hFP : ∀ c, P.box false c → CellFP (mhdDom false P 2) (fun A => A = mE) c
      (computeElecField2Body P Uin aQ c : K Addr α Unit) := by
    intro c hc
    unfold computeElecField2Body
    split_ifs with hn
    · have q : ∀ c', P.box false c' → ∀ v, v < 8 → CellFP (mhdDom false P 2) (fun A => A = mE) c
          (K.load (c'.at aQ v) : K Addr α α) :=
        fun c' hc' v hv => CellFP.load (h.dom_q hc' v hv) fun e => (hq e).elim
      have u : ∀ c', P.box false c' → ∀ v, v < 8 → CellFP (mhdDom false P 2) (fun A => A = mE) c
          (K.load (c'.at Uin v) : K Addr α α) :=
        fun c' hc' v hv => CellFP.load (h.dom_in hc' v hv) fun e => (hi e).elim
      have bx : P.box false (c.down .x) := by guards2; omega
      have by' : P.box false (c.down .y) := by guards2; omega
      have bxy : P.box false ((c.down .x).down .y) := by guards2; omega
      refine CellFP.bind ?_ fun _ => CellFP.store (h.dom_e2 hc 0 (by decide)) rfl rfl
      exact CellFP.bind (q _ bxy _ (by decide)) fun _ => CellFP.bind (q _ bx _ (by decide)) fun _ =>
        CellFP.bind (q _ by' _ (by decide)) fun _ => CellFP.bind (q _ hc _ (by decide)) fun _ =>
        CellFP.bind (q _ bxy _ (by decide)) fun _ => CellFP.bind (q _ bx _ (by decide)) fun _ =>
        CellFP.bind (q _ by' _ (by decide)) fun _ => CellFP.bind (q _ hc _ (by decide)) fun _ =>
        CellFP.bind (u _ by' _ (by decide)) fun _ => CellFP.bind (u _ hc _ (by decide)) fun _ =>
        CellFP.bind (u _ bx _ (by decide)) fun _ => CellFP.bind (u _ hc _ (by decide)) fun _ =>
        CellFP.ret _
    · exact CellFP.ret _
  refine ⟨_, mdrange_yields hFP m, ?_, fun a ha => mdEffect_frame hFP m ha⟩
  intro c hc hj hii
  have hn : 0 < c.j ∧ c.j < P.jsize ∧ 0 < c.i ∧ c.i < P.isize := by guards2; omega
  rw [mdEffect, Cell.at_cell, if_pos hc, computeElecField2Body, if_pos hn]
  obtain ⟨i, j, k⟩ := c
  simp [elecAlong, K.exec, K.load, K.store, K.bind, Cell.at, Cell.down,
    elecOf, elecAvg, mfield, IU, IV, IA, IB]

/-- Electric field of both dimensions. -/
theorem half_elec (h : MhdBuf d3 P 2 Uin Uout) (m : Addr → α) :
    ∃ m', (if d3 then computeElecField P Uin aQ else computeElecField2 P Uin aQ).Yields
        (mhdDom d3 P 2) m m' ∧
      (∀ c, P.box d3 c → P.offBorder d3 c →
        (d3 = false → m' (c.at mE 0) = elecOf (mfield m Uin) (mfield m aQ) .z c) ∧
        (d3 = true → ∀ d : Dir, m' (c.at mE d.comp) = elecOf (mfield m Uin) (mfield m aQ) d c)) ∧
      (∀ a, a.arr ≠ mE → m' a = m a) := by
  cases d3
  · obtain ⟨m', y, e, f⟩ := half_elec2 h m
    refine ⟨m', y, fun c hc ho => ⟨fun _ => e c hc ?_ ?_, fun h => by cases h⟩, f⟩ <;>
    · guards2; omega
  · obtain ⟨m', y, e, f⟩ := mhd_elec h (fun c hc => h.dom_e2 hc) m
    refine ⟨m', y, fun c hc ho => ⟨fun h => (by cases h), fun _ => e c ?_⟩, f⟩
    guards2; omega

theorem half_src (h : MhdBuf d3 P 2 Uin Uout) (m : Addr → α) :
    ∃ m', (computeSourceFaceMag d3 S P dt).Yields (mhdDom d3 P 2) m m' ∧
      (∀ c, P.box d3 c → P.offBorder d3 c → ∀ U Q : Cell → MState α,
        (∀ c', (c' = c ∨ ∃ d ∈ dirs d3, c' = c.up d) →
          (d3 = false → m (c'.at mE 0) = elecOf U Q .z c') ∧
          (d3 = true → ∀ d : Dir, m (c'.at mE d.comp) = elecOf U Q d c')) →
        ∀ d ∈ dirs d3, m' (c.at mFaceMag d.comp) = srcOf d3 S dt U Q d c) ∧
      (∀ a, a.arr ≠ mFaceMag → m' a = m a) := by
  have hne : mE ≠ mFaceMag := by decide
  have hFP : ∀ c, P.box d3 c → CellFP (mhdDom d3 P 2) (fun A => A = mFaceMag) c
      (computeSourceFaceMagBody d3 S P dt c) := by
    intro c hc
    by_cases ho : P.offBorder d3 c
    · have nb := fun d hd => (off_nbr (d := d) hc ho hd).1
      have dif : ∀ d ∈ dirs d3, ∀ v, (v < if d3 then 3 else 1) →
          CellFP (mhdDom d3 P 2) (fun A => A = mFaceMag) c (elecDiff c v d : K Addr α _) :=
        fun d hd v hv =>
        CellFP.bind (CellFP.load (h.dom_e2 (nb d hd) v hv) fun e => (hne e).elim) fun _ =>
        CellFP.bind (CellFP.load (h.dom_e2 hc v hv) fun e => (hne e).elim) fun _ => CellFP.ret _
      have st : ∀ d ∈ dirs d3, ∀ x, CellFP (mhdDom d3 P 2) (fun A => A = mFaceMag) c
          (K.store (c.at mFaceMag (Dir.comp d)) x : K Addr α Unit) := fun d hd x =>
        CellFP.store (h.dom_face hd hc) rfl rfl
      simp only [computeSourceFaceMagBody, if_pos ho]
      cases d3
      · exact CellFP.bind (dif _ (by decide) _ (by decide)) fun _ =>
          CellFP.bind (st .x (by decide) _) fun _ =>
          CellFP.bind (dif _ (by decide) _ (by decide)) fun _ => st .y (by decide) _
      · exact CellFP.bind (dif _ (by decide) _ (by decide)) fun _ =>
          CellFP.bind (dif _ (by decide) _ (by decide)) fun _ =>
          CellFP.bind (st .x (by decide) _) fun _ =>
          CellFP.bind (dif _ (by decide) _ (by decide)) fun _ =>
          CellFP.bind (dif _ (by decide) _ (by decide)) fun _ =>
          CellFP.bind (st .y (by decide) _) fun _ =>
          CellFP.bind (dif _ (by decide) _ (by decide)) fun _ =>
          CellFP.bind (dif _ (by decide) _ (by decide)) fun _ => st .z (by decide) _
    · simp only [computeSourceFaceMagBody, if_neg ho]; exact CellFP.ret _
  refine ⟨_, mdrange_yields hFP m, ?_, fun a ha => mdEffect_frame hFP m ha⟩
  intro c hc ho U Q hE d hd
  rw [mdEffect, Cell.at_cell, if_pos hc]
  simp only [computeSourceFaceMagBody, if_pos ho]
  cases d3
  · have e0 := (hE c (Or.inl rfl)).1 rfl
    have ex := (hE (c.up .x) (Or.inr ⟨_, by decide, rfl⟩)).1 rfl
    have ey := (hE (c.up .y) (Or.inr ⟨_, by decide, rfl⟩)).1 rfl
    cases d <;> simp [dirs] at hd <;>
    simp [elecDiff, K.exec, K.load, K.store, K.bind, Function.update_apply, Dir.comp, srcOf, e0, ex,
      ey, Cell.at, mE, mFaceMag] <;> simp_all [Cell.at, mE]
  · have e0 := (hE c (Or.inl rfl)).2 rfl
    have ex := (hE (c.up .x) (Or.inr ⟨_, by decide, rfl⟩)).2 rfl
    have ey := (hE (c.up .y) (Or.inr ⟨_, by decide, rfl⟩)).2 rfl
    have ez := (hE (c.up .z) (Or.inr ⟨_, by decide, rfl⟩)).2 rfl
    have e00 := e0 .x
    have e01 := e0 .y
    have e02 := e0 .z
    have ex1 := ex .y
    have ex2 := ex .z
    have ey0 := ey .x
    have ey2 := ey .z
    have ez0 := ez .x
    have ez1 := ez .y
    simp only [Dir.comp] at e00 e01 e02 ex1 ex2 ey0 ey2 ez0 ez1
    clear e0 ex ey ez
    cases d <;>
    simp_all [elecDiff, K.exec, K.load, K.store, K.bind, Function.update_apply, Dir.comp, srcOf,
      Cell.at, mE, mFaceMag]

theorem slopesOf_congr {U U' Q Q' : Cell → MState α} {c : Cell} {d : Dir} (h0 : Q c = Q' c)
    (h1 : Q (c.up d) = Q' (c.up d)) (h2 : Q (c.down d) = Q' (c.down d)) (h3 : U c = U' c)
    (h4 : U (c.up d) = U' (c.up d)) : slopesOf S J U Q d c = slopesOf S J U' Q' d c := by
  unfold slopesOf
  rw [h0, h1, h2, h3, h4]

theorem near_self (c : Cell) : Near d3 1 c c := by cases d3 <;> near
theorem near_up {c : Cell} {d : Dir} (hd : d ∈ dirs d3) : Near d3 1 c (c.up d) := by
  cases d3 <;> cases d <;> simp [dirs] at hd <;> near
theorem near_down {c : Cell} {d : Dir} (hd : d ∈ dirs d3) : Near d3 1 c (c.down d) := by
  cases d3 <;> cases d <;> simp [dirs] at hd <;> near

/-- All loops before the flux loops. -/
theorem mhd_half (h : MhdBuf d3 P 2 Uin Uout) {m m0 : Addr → α}
    (hQ : ∀ c, P.box d3 c → P.convertible d3 c → mfield m aQ c = primOf d3 S (mfield m0 Uin) c)
    (hU : mfield m Uin = mfield m0 Uin) :
    ∃ m', YieldsAll (mhdDom d3 P 2) [computeSlopesMhd d3 S P J Uin aQ,
        computeUpdatedPrimVar d3 S P dt Uin aQ,
        if d3 then computeElecField P Uin aQ else computeElecField2 P Uin aQ,
        computeSourceFaceMag d3 S P dt] m m' ∧
      Half d3 S P J dt Uin (mfield m0 Uin) (primOf d3 S (mfield m0 Uin)) m' ∧
      (∀ a, a.arr < 40 → m' a = m a) := by
  have hg := h.gw
  have hi := h.in_lt
  obtain ⟨m1, y1, e1, f1⟩ := half_slopes (S := S) (J := J) h m
  obtain ⟨m2, y2, e2, f2⟩ := half_prim (S := S) (J := J) (dt := dt) h m1
  obtain ⟨m3, y3, e3, f3⟩ := half_elec h m2
  obtain ⟨m4, y4, e4, f4⟩ := half_src (S := S) (dt := dt) h m3
  have low : ∀ a, a.arr < 40 → m2 a = m a := fun a ha => by
    rw [f2 a (by simp only [mQ2]; omega), f1 a (by omega)]
  have low4 : ∀ a, a.arr < 40 → m4 a = m a := fun a ha => by
    rw [f4 a (by simp only [mFaceMag]; omega), f3 a (by simp only [mE]; omega), low a ha]
  have lowf : ∀ A, A < 40 → mfield m2 A = mfield m A := fun A hA => by
    funext c; exact mfield_ext fun v _ => low _ hA
  have u1 : mfield m1 Uin = mfield m0 Uin := by
    rw [← hU]; funext c; exact mfield_ext fun v _ => f1 _ (by simp only [Cell.at_arr]; omega)
  have q1 : mfield m1 aQ = mfield m aQ := by
    funext c; exact mfield_ext fun v _ => f1 _ (by simp [aQ])
  have sl : ∀ c, P.box d3 c → P.traced d3 c → ∀ d ∈ dirs d3, mfield m1 (mSlopes d) c =
      slopesOf S J (mfield m0 Uin) (primOf d3 S (mfield m0 Uin)) d c := by
    intro c hc ht d hd
    have n := fun c' hn => hQ c' (traced_near (c' := c') hg hc ht hn).1 (traced_near hg hc ht hn).2
    rw [e1 c hc (traced_off hg hc ht) d hd]
    refine slopesOf_congr (n _ (near_self c)) (n _ (near_up hd)) (n _ (near_down hd)) ?_ ?_ <;> rw [hU]
  have el : ∀ c, P.box d3 c → P.traced d3 c → ∀ c', (c' = c ∨ ∃ d ∈ dirs d3, c' = c.up d) →
      P.box d3 c' ∧ P.offBorder d3 c' ∧ ∀ d, (d3 = false → d = .z) →
        elecOf (mfield m2 Uin) (mfield m2 aQ) d c' =
        elecOf (mfield m0 Uin) (primOf d3 S (mfield m0 Uin)) d c' := by
    intro c hc ht c' hc'
    have n := fun c' hn => hQ c' (traced_near (c' := c') hg hc ht hn).1 (traced_near hg hc ht hn).2
    rw [lowf Uin (by omega), lowf aQ (by decide), hU]
    cases d3
    · refine ⟨?_, ?_, ?_⟩
      · rcases hc' with rfl | ⟨d, hd, rfl⟩
        · exact hc
        · cases d <;> simp [dirs] at hd <;> guards2 <;> omega
      · rcases hc' with rfl | ⟨d, hd, rfl⟩
        · guards2; omega
        · cases d <;> simp [dirs] at hd <;> guards2 <;> omega
      · intro d hd
        obtain rfl := hd rfl
        simp only [elecOf, elecAvg]
        rw [n c' ?_, n (c'.down .x) ?_, n (c'.down .y) ?_, n ((c'.down .x).down .y) ?_]
        all_goals
          rcases hc' with rfl | ⟨d, hd, rfl⟩
          · near
          · cases d <;> simp [dirs] at hd <;> near
    · refine ⟨?_, ?_, ?_⟩
      · rcases hc' with rfl | ⟨d, hd, rfl⟩
        · exact hc
        · cases d <;> guards2 <;> omega
      · rcases hc' with rfl | ⟨d, hd, rfl⟩
        · guards2; omega
        · cases d <;> guards2 <;> omega
      · intro d _
        refine elecOf_congr d (n _ ?_) (fun e => n _ ?_) (fun e e' hne => n _ ?_) rfl fun _ => rfl
        · rcases hc' with rfl | ⟨d, hd, rfl⟩
          · near
          · cases d <;> near
        · rcases hc' with rfl | ⟨d, hd, rfl⟩
          · cases e <;> near
          · cases d <;> cases e <;> near
        · rcases hc' with rfl | ⟨d, hd, rfl⟩
          · cases e <;> cases e' <;> simp at hne <;> near
          · cases d <;> cases e <;> cases e' <;> simp at hne <;> near
  refine ⟨m4, .cons y1 (.cons y2 (.cons y3 (.cons y4 (.nil _)))), ⟨?_, ?_, ?_, ?_⟩, low4⟩
  · rw [← hU]; funext c; exact mfield_ext fun v _ => low4 _ (by simp only [Cell.at_arr]; omega)
  · intro c hc ht
    have n := traced_near hg hc ht (near_self c)
    rw [← e2 c hc ht _ _ u1 (by rw [q1]; exact hQ c n.1 n.2) (sl c hc ht)]
    exact mfield_ext fun v _ => by rw [f4 _ (by simp [mQ2, mFaceMag]), f3 _ (by simp [mQ2, mE])]
  · intro c hc ht d hd
    rw [← sl c hc ht d hd]
    have hr := mSlopes_range d
    exact mfield_ext fun v _ => by
      rw [f4 _ (by simp only [Cell.at_arr, mFaceMag]; omega), f3 _ (by simp only [Cell.at_arr, mE]; omega),
        f2 _ (by simp only [Cell.at_arr, mQ2]; omega)]
  · intro c hc ht d hd
    refine e4 c hc (traced_off hg hc ht) _ _ (fun c' hc' => ?_) d hd
    obtain ⟨b, o, e⟩ := el c hc ht c' hc'
    obtain ⟨k1, k2⟩ := e3 c' b o
    refine ⟨fun h2 => (k1 h2).trans (e _ fun _ => rfl), fun h3 d => (k2 h3 d).trans (e _ fun h2 => ?_)⟩
    rw [h3] at h2; cases h2

end loops

end Verif
