import Verif.Lemmas.MhdUpdate
import Verif.Lemmas.HydroWhole

/-! Helper lemmas: a whole MHD step, implementation version 0. -/

namespace Verif

open K Function ROps Spec

variable {α : Type} [ROps α]

/-- Offsets between `-1` and `hi`. -/
def Near (d3 : Bool) (hi : Int) (c c' : Cell) : Prop :=
  -1 ≤ c'.i - c.i ∧ c'.i - c.i ≤ hi ∧ -1 ≤ c'.j - c.j ∧ c'.j - c.j ≤ hi ∧
  if d3 then -1 ≤ c'.k - c.k ∧ c'.k - c.k ≤ hi else c'.k = c.k

section

variable {d3 : Bool} {S : MSettings α} {P : Grid} {J : MJunk α} {impl : Int}
  {Uin Uout : Nat} {xmin dt : α}

/-- Unfold offsets. -/
macro "near" : tactic => `(tactic|
  (simp only [Near, Cell.up, Cell.down, Cell.shift, Cell.upIf, if_true, Bool.false_eq_true, if_false,
      and_true]
   try omega))

theorem elecOf_congr {U U' Q Q' : Cell → MState α} {c : Cell} (d : Dir)
    (hQ : Q c = Q' c) (hQ1 : ∀ e, Q (c.down e) = Q' (c.down e))
    (hQ2 : ∀ e e', e ≠ e' → Q ((c.down e).down e') = Q' ((c.down e).down e'))
    (hU : U c = U' c) (hU1 : ∀ e, U (c.down e) = U' (c.down e)) :
    elecOf U Q d c = elecOf U' Q' d c := by
  cases d <;>
  simp only [elecOf, elecAvg, hQ, hQ1, hU, hU1, hQ2 _ _ (by decide : Dir.x ≠ Dir.y),
    hQ2 _ _ (by decide : Dir.x ≠ Dir.z), hQ2 _ _ (by decide : Dir.y ≠ Dir.z)]

theorem dbOf_congr {U U' : Cell → MState α} {c : Cell} {d t : Dir} (h0 : U c = U' c)
    (h1 : d ≠ t → U (c.up t) = U' (c.up t)) (h2 : d ≠ t → U (c.down t) = U' (c.down t)) :
    dbOf S U d t c = dbOf S U' d t c := by
  unfold dbOf
  split_ifs with e
  · rfl
  · rw [h0, h1 e, h2 e]

theorem predOf_congr {U U' Q Q' : Cell → MState α} {c : Cell}
    (hQ : ∀ c', Near d3 1 c c' → Q c' = Q' c') (hU : ∀ c', Near d3 2 c c' → U c' = U' c') :
    predOf d3 S P J xmin dt U Q c = predOf d3 S P J xmin dt U' Q' c := by
  cases d3
  · simp only [predOf, Bool.false_eq_true, if_false, pred2Of]
    refine predict2_congr (fun i j _ _ _ _ => hQ _ ?_) (fun i j _ _ _ _ => ?_)
    · near
    · rw [hU]
      near
  · simp only [predOf, if_true, pred3Of]
    have q0 : Q c = Q' c := hQ _ (by near)
    have el : ∀ d x f y s, f ≠ s → elecOf U Q d ((c.upIf f x).upIf s y) =
        elecOf U' Q' d ((c.upIf f x).upIf s y) := by
      intro d x f y s hne
      refine elecOf_congr d (hQ _ ?_) (fun e => hQ _ ?_) (fun e e' he => hQ _ ?_) (hU _ ?_)
        (fun e => hU _ ?_)
      · cases f <;> cases s <;> simp at hne <;> cases x <;> cases y <;> near
      · cases f <;> cases s <;> simp at hne <;> cases x <;> cases y <;> cases e <;> near
      · cases f <;> cases s <;> simp at hne <;> cases e <;> cases e' <;> simp at he <;>
          cases x <;> cases y <;> near
      · cases f <;> cases s <;> simp at hne <;> cases x <;> cases y <;> near
      · cases f <;> cases s <;> simp at hne <;> cases x <;> cases y <;> cases e <;> near
    congr 1
    · congr 1
      · funext d; exact hQ _ (by cases d <;> near)
      · funext d; exact hQ _ (by cases d <;> near)
    · funext d up
      rw [hU]
      cases d <;> cases up <;> near
    · funext d t up
      refine dbOf_congr (hU _ ?_) (fun e => hU _ ?_) (fun e => hU _ ?_)
      · cases d <;> cases up <;> near
      · cases d <;> cases t <;> simp at e <;> cases up <;> near
      · cases d <;> cases t <;> simp at e <;> cases up <;> near
    · funext x y; exact el _ _ _ _ _ (by decide)
    · funext x y; exact el _ _ _ _ _ (by decide)
    · funext x y; exact el _ _ _ _ _ (by decide)

theorem primOf_congr {U U' : Cell → MState α} {c : Cell}
    (hU : ∀ c', Near d3 1 c c' → U c' = U' c') : primOf d3 S U c = primOf d3 S U' c := by
  cases d3
  · simp only [primOf, Bool.false_eq_true, if_false]
    rw [hU c (by near), hU (c.up .x) (by near), hU (c.up .y) (by near)]
  · simp only [primOf, if_true]
    rw [hU c (by near), hU (c.up .x) (by near), hU (c.up .y) (by near), hU (c.up .z) (by near)]

variable (d3 S P J xmin dt) in
/-- Predicted states from the conservative states. -/
def traceOf (U : Cell → MState α) (c : Cell) : Predicted α :=
  predOf d3 S P J xmin dt U (primOf d3 S U) c

variable (d3 S P J xmin dt) in
/-- The update of a cell. -/
def mstepOf (U : Cell → MState α) (c : Cell) : MState α :=
  emfUpd d3 S dt (emfOf d3 S (traceOf d3 S P J xmin dt U)) c
    (fluxUpd d3 S dt (mfluxOf d3 S J (traceOf d3 S P J xmin dt U)) c (dirs d3) (U c))

theorem traced_near {c c' : Cell} (hg : 3 ≤ P.ghostWidth) (hc : P.box d3 c) (h : P.traced d3 c)
    (hn : Near d3 1 c c') : P.box d3 c' ∧ P.convertible d3 c' := by
  cases d3 <;> simp only [Near, Bool.false_eq_true, if_false, if_true] at hn <;> guards <;> omega

/-- The trace loops, with the primitive variables eliminated. -/
theorem mhd_trace (h : MhdOk d3 P impl Uin Uout) {m m0 : Addr → α}
    (hQ : ∀ c, P.box d3 c → P.convertible d3 c → mfield m aQ c = primOf d3 S (mfield m0 Uin) c)
    (hU : mfield m Uin = mfield m0 Uin) :
    ∃ m', YieldsAll (mhdDom d3 P impl) (mhdTrace d3 S P J xmin dt Uin) m m' ∧
      Traced d3 S P (traceOf d3 S P J xmin dt (mfield m0 Uin)) m' ∧
      (∀ a, a.arr < 40 → m' a = m a) := by
  have cast : ∀ m', Traced d3 S P (predOf d3 S P J xmin dt (mfield m Uin) (mfield m aQ)) m' →
      Traced d3 S P (traceOf d3 S P J xmin dt (mfield m0 Uin)) m' := by
    intro m' hT
    have e : ∀ c, P.box d3 c → P.traced d3 c →
        predOf d3 S P J xmin dt (mfield m Uin) (mfield m aQ) c =
        traceOf d3 S P J xmin dt (mfield m0 Uin) c := by
      intro c hc ht
      refine predOf_congr (fun c' hn => ?_) (fun c' _ => by rw [hU])
      have := traced_near h.gw hc ht hn
      exact hQ c' this.1 this.2
    refine ⟨fun c h1 h2 d hd => ?_, fun c h1 h2 d hd => ?_, fun c h1 h2 d hd k => ?_⟩
    · rw [← e c h1 h2]; exact hT.qm c h1 h2 d hd
    · rw [← e c h1 h2]; exact hT.qp c h1 h2 d hd
    · rw [← e c h1 h2]; exact hT.edge c h1 h2 d hd k
  cases d3
  · obtain ⟨m', y, hT, hf⟩ := mhd_trace2 (S := S) (J := J) (dt := dt) h m
    exact ⟨m', .cons y (.nil _), cast m' hT, fun a ha => hf a (Or.inl ha)⟩
  · obtain ⟨m', y, hT, hf⟩ := mhd_trace3 (S := S) (xmin := xmin) (dt := dt) h m
    exact ⟨m', y, cast m' hT, hf⟩

/-- The first part of a step. -/
theorem mhd_prepare {B : Sides} (h : MhdBuf d3 P impl Uin Uout) (hB : BoxSetup d3 8 3 P B)
    (m : Addr → α) :
    ∃ m1 m2, YieldsAll (mhdDom d3 P impl) (mhdPrepare d3 S P Uin Uout) m m2 ∧
      FilledMem d3 true P B Uin m m1 ∧
      (∀ c, P.box d3 c → mfield m2 Uout c = mfield m1 Uin c) ∧
      (∀ c, P.box d3 c → P.convertible d3 c → mfield m2 aQ c = primOf d3 S (mfield m1 Uin) c) ∧
      (∀ a, a.arr ≠ Uout → a.arr ≠ aQ → m2 a = m1 a) := by
  obtain ⟨m1, y1, f1⟩ := fill_mem d3 true hB (by decide) Uin m
  obtain ⟨m2, y2, e2, g2⟩ := mhd_copy h m1
  obtain ⟨m3, y3, e3, g3⟩ := mhd_convert (S := S) h m2
  have hne := h.ne
  have hq : Uin ≠ aQ := by have := h.in_lt; simp only [aQ]; omega
  have hq' : Uout ≠ aQ := by have := h.out_lt; simp only [aQ]; omega
  have eU : mfield m2 Uin = mfield m1 Uin := by
    funext c; exact mfield_ext fun v _ => g2 _ hne
  refine ⟨m1, m3, ?_, f1, ?_, ?_, ?_⟩
  · refine YieldsAll.append (y1.mono ?_) (.cons y2 (.cons y3 (.nil _)))
    rintro a ⟨rfl, hb, hv⟩
    have := h.dom_in hb a.v (h.nv ▸ hv)
    exact this
  · intro c hc
    rw [← e2 c hc]
    exact mfield_ext fun v _ => g3 _ hq'
  · intro c hc hcv
    rw [e3 c hc hcv, eU]
  · intro a h1 h2
    rw [g3 a h2, g2 a h1]

/-- A whole step of implementation version 0. -/
theorem mhd_step0 {B : Sides} (h : MhdOk d3 P 0 Uin Uout) (hB : BoxSetup d3 8 3 P B)
    (m : Addr → α) :
    ∃ m1 m', YieldsAll (mhdDom d3 P 0) (mhd_unsplit_impl d3 S P J xmin 0 dt Uin Uout) m m' ∧
      FilledMem d3 true P B Uin m m1 ∧ mfield m' Uin = mfield m1 Uin ∧
      (∀ c, P.box d3 c → P.inner d3 c →
        mfield m' Uout c = mstepOf d3 S P J xmin dt (mfield m1 Uin) c) ∧
      (∀ c, P.box d3 c → ¬ P.inner d3 c → mfield m' Uout c = mfield m1 Uin c) := by
  obtain ⟨m1, m2, y2, f1, o2, q2, g2⟩ := mhd_prepare (S := S) h.toMhdBuf hB m
  have hne := h.ne
  have hi := h.in_lt
  have ho := h.out_lt
  have u2 : mfield m2 Uin = mfield m1 Uin := by
    funext c
    exact mfield_ext fun v _ => g2 _ hne (by simp only [Cell.at_arr, aQ]; omega)
  obtain ⟨m3, y3, t3, g3⟩ := mhd_trace (S := S) (J := J) (xmin := xmin) (dt := dt) h q2 u2
  obtain ⟨m4, y4, e4, g4⟩ := mhd_fluxes (J := J) h t3
  have t4 : Traced d3 S P (traceOf d3 S P J xmin dt (mfield m1 Uin)) m4 := by
    have e : ∀ A, A < 58 → mfield m4 A = mfield m3 A := fun A hA => by
      funext c; exact mfield_ext fun v _ => g4 _ hA
    refine ⟨fun c h1 h2 d hd => ?_, fun c h1 h2 d hd => ?_, fun c h1 h2 d hd k => ?_⟩
    · rw [e _ (mQm_range d).2]; exact t3.qm c h1 h2 d hd
    · rw [e _ (mQp_range d).2]; exact t3.qp c h1 h2 d hd
    · rw [e _ (mEdge_range d k).2]; exact t3.edge c h1 h2 d hd k
  obtain ⟨m5, y5, e5, g5⟩ := mhd_emf h t4
  obtain ⟨m6, y6, i6, n6, g6⟩ := mhd_update (S := S) (dt := dt) h
    (F := mfluxOf d3 S J (traceOf d3 S P J xmin dt (mfield m1 Uin))) (m := m5) (by
      intro c hc hf d hd
      rw [← e4 c hc hf d hd]
      exact mfield_ext fun v _ => g5 _ (by
        have := mF_range d; simp only [Cell.at_arr, mEmf]; omega))
  obtain ⟨m7, y7, i7, n7, g7⟩ := mhd_updateEmf (S := S) (dt := dt) h
    (E := emfOf d3 S (traceOf d3 S P J xmin dt (mfield m1 Uin))) (m := m6) (by
      intro c hc hf d hd
      rw [← e5 c hc hf d hd]
      exact g6 _ (by simp only [Cell.at_arr, mEmf]; omega))
  have out5 : ∀ c, P.box d3 c → mfield m5 Uout c = mfield m1 Uin c := by
    intro c hc
    rw [← o2 c hc]
    refine mfield_ext fun v _ => ?_
    rw [g5 _ (by simp only [Cell.at_arr, mEmf]; omega), g4 _ (by simp only [Cell.at_arr]; omega),
      g3 _ (by simp only [Cell.at_arr]; omega)]
  refine ⟨m1, m7, y2.append ?_, f1, ?_, ?_, ?_⟩
  · rw [mhdAdvance, if_pos rfl]
    exact y3.append (.cons y4 (.cons y5 (.cons y6 (.cons y7 (.nil _)))))
  · funext c
    refine mfield_ext fun v _ => ?_
    rw [g7 _ hne, g6 _ hne, g5 _ (by simp only [Cell.at_arr, mEmf]; omega),
      g4 _ (by simp only [Cell.at_arr]; omega), g3 _ (by simp only [Cell.at_arr]; omega),
      g2 _ hne (by simp only [Cell.at_arr, aQ]; omega)]
  · intro c hc hin
    rw [i7 c hc hin, i6 c hc hin, out5 c hc]
    rfl
  · intro c hc hin
    rw [n7 c hc hin, n6 c hc hin, out5 c hc]

end

end Verif
