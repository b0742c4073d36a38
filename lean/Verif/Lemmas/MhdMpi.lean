import Verif.Spec.MhdMpi
import Verif.Lemmas.HydroMpi
import Verif.Lemmas.MhdProgram
import Verif.Props.C122_C123_MhdProgram

/-! Helper lemmas: a parallel MHD run and a serial one side by side. -/

namespace Verif

open Spec ROps

/-! ### The second part of a step -/

section core
variable {d3 : Bool} {S : MSettings ℝ} {P : Grid} {Uin Uout : Nat}

/-- What the second part of a step starts from. -/
structure Ready (d3 : Bool) (S : MSettings ℝ) (P : Grid) (Uin Uout : Nat) (m : Addr → ℝ) : Prop where
  out : ∀ c, P.box d3 c → mfield m Uout c = mfield m Uin c
  prim : ∀ c, P.box d3 c → P.convertible d3 c → mfield m aQ c = primOf d3 S (mfield m Uin) c

theorem ready_of {B : Sides} {impl : Int} (h : MhdBuf d3 P impl Uin Uout) (hB : BoxSetup d3 8 3 P B) {m m2 : Addr → ℝ}
    (r : Runs (mhdPrepare d3 S P Uin Uout) m m2) : Ready d3 S P Uin Uout m2 ∧
      ∃ m1, FilledMem d3 true P B Uin m m1 ∧ mfield m2 Uin = mfield m1 Uin := by
  obtain ⟨m1, _, y, f, o, q, g⟩ := mhd_prepare (S := S) h hB m
  obtain rfl := y.unique r
  have u : mfield m2 Uin = mfield m1 Uin := by
    have := h.in_lt
    funext c
    exact mfield_ext fun v _ => g _ h.ne (by simp only [Cell.at_arr, aQ]; omega)
  exact ⟨⟨fun c hc => by rw [o c hc, u], fun c hc hv => by rw [q c hc hv, u]⟩, m1, f, u⟩

variable {J : MJunk ℝ} {xmin dt : ℝ} {m : Addr → ℝ}

theorem advance0 (h : MhdOk d3 P 0 Uin Uout) (hR : Ready d3 S P Uin Uout m) :
    ∃ m', YieldsAll (mhdDom d3 P 0) (mhdAdvance d3 S P J xmin 0 dt Uin Uout) m m' ∧
      ∀ c, P.box d3 c → P.inner d3 c → mfield m' Uout c = mstepOf d3 S P J xmin dt (mfield m Uin) c := by
  have hne := h.ne
  have hi := h.in_lt
  have ho := h.out_lt
  obtain ⟨m3, y3, t3, g3⟩ := mhd_trace (S := S) (J := J) (xmin := xmin) (dt := dt) h hR.prim rfl
  obtain ⟨m4, y4, e4, g4⟩ := mhd_fluxes (J := J) h t3
  have t4 : Traced d3 S P (traceOf d3 S P J xmin dt (mfield m Uin)) m4 := by
    have e : ∀ A, A < 58 → mfield m4 A = mfield m3 A := fun A hA => by
      funext c; exact mfield_ext fun v _ => g4 _ hA
    refine ⟨fun c h1 h2 d hd => ?_, fun c h1 h2 d hd => ?_, fun c h1 h2 d hd k => ?_⟩
    · rw [e _ (mQm_range d).2]; exact t3.qm c h1 h2 d hd
    · rw [e _ (mQp_range d).2]; exact t3.qp c h1 h2 d hd
    · rw [e _ (mEdge_range d k).2]; exact t3.edge c h1 h2 d hd k
  obtain ⟨m5, y5, e5, g5⟩ := mhd_emf h t4
  obtain ⟨m6, y6, i6, n6, g6⟩ := mhd_update (S := S) (dt := dt) h
    (F := mfluxOf d3 S J (traceOf d3 S P J xmin dt (mfield m Uin))) (m := m5) (by
      intro c hc hf d hd
      rw [← e4 c hc hf d hd]
      exact mfield_ext fun v _ => g5 _ (by
        have := mF_range d; simp only [Cell.at_arr, mEmf]; omega))
  obtain ⟨m7, y7, i7, n7, g7⟩ := mhd_updateEmf (S := S) (dt := dt) h
    (E := emfOf d3 S (traceOf d3 S P J xmin dt (mfield m Uin))) (m := m6) (by
      intro c hc hf d hd
      rw [← e5 c hc hf d hd]
      exact g6 _ (by simp only [Cell.at_arr, mEmf]; omega))
  have out5 : ∀ c, P.box d3 c → mfield m5 Uout c = mfield m Uin c := by
    intro c hc
    rw [← hR.out c hc]
    refine mfield_ext fun v _ => ?_
    rw [g5 _ (by simp only [Cell.at_arr, mEmf]; omega), g4 _ (by simp only [Cell.at_arr]; omega),
      g3 _ (by simp only [Cell.at_arr]; omega)]
  refine ⟨m7, ?_, ?_⟩
  · rw [mhdAdvance, if_pos rfl]
    exact y3.append (.cons y4 (.cons y5 (.cons y6 (.cons y7 (.nil _)))))
  · intro c hc hin
    rw [i7 c hc hin, i6 c hc hin, out5 c hc]
    rfl

theorem advance1 (h : MhdOk d3 P 1 Uin Uout) (hR : Ready d3 S P Uin Uout m) :
    ∃ m', YieldsAll (mhdDom d3 P 1) (mhdAdvance d3 S P J xmin 1 dt Uin Uout) m m' ∧
      ∀ c, P.box d3 c → P.inner d3 c → mfield m' Uout c = mstepOf d3 S P J xmin dt (mfield m Uin) c := by
  have hne := h.ne
  have hi := h.in_lt
  have ho := h.out_lt
  obtain ⟨m3, y3, t3, g3⟩ := mhd_trace (S := S) (J := J) (xmin := xmin) (dt := dt) h hR.prim rfl
  obtain ⟨m4, y4, i4, n4, g4⟩ := mhd_fluxUpdate (J := J) (dt := dt) h t3
  have t4 := t3.agree (by omega) g4
  obtain ⟨m5, y5, i5, n5, g5⟩ := mhd_emfUpdate (dt := dt) h t4
  have out3 : ∀ c, P.box d3 c → mfield m3 Uout c = mfield m Uin c := by
    intro c hc
    rw [← hR.out c hc]
    exact mfield_ext fun v _ => g3 _ (by simp only [Cell.at_arr]; omega)
  refine ⟨m5, ?_, ?_⟩
  · rw [mhdAdvance, if_neg (by decide), if_pos rfl]
    exact y3.append (.cons y4 (.cons y5 (.nil _)))
  · intro c hc hin
    rw [i5 c hc hin, i4 c hc hin, out3 c hc]
    rfl

theorem advance2 (h : MhdBuf d3 P 2 Uin Uout) (hR : Ready d3 S P Uin Uout m) :
    ∃ m', YieldsAll (mhdDom d3 P 2) (mhdAdvance d3 S P J xmin 2 dt Uin Uout) m m' ∧
      ∀ c, P.box d3 c → P.inner d3 c → mfield m' Uout c = mstep2Of d3 S J dt (mfield m Uin) c := by
  have hne := h.ne
  have hi := h.in_lt
  have ho := h.out_lt
  obtain ⟨m3, y3, t3, g3⟩ := mhd_half (S := S) (J := J) (dt := dt) h hR.prim rfl
  obtain ⟨m4, y4, i4, n4, g4⟩ := flux2_loops h (dirs d3) (fun _ h => h) m3 t3
  obtain ⟨m5, y5, i5, g5⟩ := emf2_loops h (t3.agree h g4)
  have out3 : ∀ c, P.box d3 c → mfield m3 Uout c = mfield m Uin c := by
    intro c hc
    rw [← hR.out c hc]
    exact mfield_ext fun v _ => g3 _ (by simp only [Cell.at_arr]; omega)
  refine ⟨m5, ?_, ?_⟩
  · rw [mhdAdvance, if_neg (by decide), if_neg (by decide), if_pos rfl]
    exact (y3.append y4).append y5
  · intro c hc hin
    rw [i5 c hc hin, i4 c hc hin, out3 c hc]
    rfl

/-- The second part of a step, any version. -/
theorem advance_any {impl : Int} (h : MhdBuf d3 P impl Uin Uout) (hi : ValidImpl d3 S impl) (J : MJunk ℝ) (xmin dt : ℝ)
    (hR : Ready d3 S P Uin Uout m) :
    ∃ m', YieldsAll (mhdDom d3 P impl) (mhdAdvance d3 S P J xmin impl dt Uin Uout) m m' ∧
      ∀ c, P.box d3 c → P.inner d3 c →
        mfield m' Uout c = mstepAny d3 S P J xmin impl dt (mfield m Uin) c := by
  rcases hi with ⟨rfl | rfl, -⟩ | ⟨rfl, -⟩
  · obtain ⟨m', y, e⟩ := advance0 (J := J) (xmin := xmin) (dt := dt) ⟨h, Or.inl rfl⟩ hR
    exact ⟨m', y, fun c h1 h2 => by rw [e c h1 h2, mstepAny, if_neg (by decide)]⟩
  · obtain ⟨m', y, e⟩ := advance1 (J := J) (xmin := xmin) (dt := dt) ⟨h, Or.inr rfl⟩ hR
    exact ⟨m', y, fun c h1 h2 => by rw [e c h1 h2, mstepAny, if_neg (by decide)]⟩
  · obtain ⟨m', y, e⟩ := advance2 (J := J) (xmin := xmin) (dt := dt) h hR
    exact ⟨m', y, fun c h1 h2 => by rw [e c h1 h2, mstepAny, if_pos rfl]⟩

/-! ### Translations -/

theorem fluxUpd_move {F F' : Cell → Dir → MState ℝ} (t : Int × Int × Int)
    (hF : ∀ c d, F c d = F' (c.move t) d) (l : List Dir) (c : Cell) (u : MState ℝ) :
    fluxUpd d3 S dt F c l u = fluxUpd d3 S dt F' (c.move t) l u := by
  induction l generalizing u with
  | nil => rfl
  | cons d l ih => simp only [fluxUpd, hF, Cell.move_up, ih]

theorem emfUpd_move {E E' : Cell → EmfDir → ℝ} (t : Int × Int × Int) (hE : ∀ c e, E c e = E' (c.move t) e) (c : Cell)
    (u : MState ℝ) : emfUpd d3 S dt E c u = emfUpd d3 S dt E' (c.move t) u := by
  simp only [emfUpd, hE, Cell.move_up]

/-- A step of a translated state is the translated step. -/
theorem mstepAny_move {impl : Int} (hi : ValidImpl d3 S impl) (t : Int × Int × Int) (U : Cell → MState ℝ) (c : Cell) :
    mstepAny d3 S P J xmin impl dt (fun x => U (x.move t)) c = mstepAny d3 S P J xmin impl dt U (c.move t) := by
  unfold mstepAny
  rcases hi with ⟨hi, hv⟩ | ⟨rfl, hv⟩
  · have h2 : impl ≠ 2 := by omega
    rw [if_neg h2, if_neg h2]
    unfold mstepOf
    have hT : traceOf d3 S P J xmin dt (fun x => U (x.move t)) = fun x => traceOf d3 S P J xmin dt U (x.move t) :=
      funext fun x => traceOf_move t hv.defined U x
    rw [hT]
    rw [fluxUpd_move (F' := mfluxOf d3 S J (traceOf d3 S P J xmin dt U)) t fun c d => mfluxOf_move t hv.defined _ c d]
    exact emfUpd_move t (fun c e => emfOf_move t _ c e) _ _
  · rw [if_pos rfl, if_pos rfl]
    unfold mstep2Of
    have hp : primOf d3 S (fun x => U (x.move t)) = fun x => primOf d3 S U (x.move t) :=
      funext fun x => primOf_move t U x
    rw [hp]
    rw [fluxUpd_move (F' := flux2Of d3 S J dt U (primOf d3 S U)) t fun c d =>
      flux2Of_move hv.slopes hv.riemann t c d]
    exact emfUpd_move t (fun c e => emf2Of_move hv.slopes t c e) _ _

theorem inDomain_move (P : Grid) (p : Cell) : inDomain P p = Cell.move (p.i * P.nx, p.j * P.ny, p.k * P.nz) := by
  funext c; simp only [inDomain, Cell.move, Cell.shift, Cell.mk.injEq]; exact ⟨add_comm _ _, add_comm _ _, add_comm _ _⟩

/-- The step does not depend on the grid. -/
theorem mstepAny_grid {impl : Int} (hi : ValidImpl d3 S impl) (P' : Grid) (J' : MJunk ℝ) (U : Cell → MState ℝ) (c : Cell) :
    mstepAny d3 S P J xmin impl dt U c = mstepAny d3 S P' J' xmin impl dt U c := by
  unfold mstepAny
  rcases hi with ⟨hi, hv⟩ | ⟨rfl, hv⟩
  · have h2 : impl ≠ 2 := by omega
    rw [if_neg h2, if_neg h2, mstepOf_junk hv.defined P' J' xmin]
  · rw [if_pos rfl, if_pos rfl, mstep2Of_junk hv.slopes hv.riemann J']

end core

/-! ### The first part of a step -/

section prepare
variable {C : MhdConf ℝ} {T : Ranks} {B : Sides}

theorem whole_mhd_ok (hT : RanksOk C.d3 T) (hC : C.Ok B) : (C.whole T).Ok B :=
  ⟨whole_setup (by decide) hT hC.box, hC.valid⟩

theorem mhdBuf_of {d3 : Bool} {P : Grid} (h : BoxSetup d3 8 3 P B) (impl : Int) (it : Nat) :
    MhdBuf d3 P impl (bufIn it) (bufOut it) :=
  ⟨h.gw, h.nv, by unfold bufIn bufOut; split_ifs <;> simp⟩

/-- Entries a rank may touch. -/
def mpiDom (C : MhdConf ℝ) (U : Nat) (a : Addr) : Prop :=
  mhdInitDom C.d3 C.P C.impl a ∨ haloAlloc C.d3 C.P U a

/-- Statements of the first part of a step, aligned. -/
noncomputable def prepareLine (C : MhdConf ℝ) (T : Ranks) (Uin Uout : Nat) : List (Nat → MpiOp ℝ) :=
  haloLine C.d3 true T C.P Uin ++
    [fun _ => .kernels [deepCopy C.d3 C.P Uout Uin, convertToPrimitivesMhd C.d3 C.S C.P Uin aQ]]

theorem prepareLine_prog (C : MhdConf ℝ) (T : Ranks) (Uin Uout r : Nat) :
    ((prepareLine C T Uin Uout).map fun f => f r) = mhdPrepareMpi C.d3 T C.S C.P Uin Uout r := by
  unfold prepareLine mhdPrepareMpi haloLine mhdBoundariesMpi
  cases C.d3 <;> rfl

/-- The first part of a step of all ranks is that of the whole. -/
theorem prepare_lock (hT : RanksOk C.d3 T) (hC : C.Ok B) {it : ℕ} {M : Nat → Addr → ℝ} {G G1 : Addr → ℝ}
    (h : MhdParts C.d3 T C.P (bufIn it) M G)
    (r : Runs (mhdPrepare C.d3 C.S (Spec.whole T C.P) (bufIn it) (bufOut it)) G G1) :
    ∃ M1, LockSeq T.num (fun _ => mpiDom C (bufIn it)) (prepareLine C T (bufIn it) (bufOut it)) M M1 ∧
      MhdPartsGhost C.d3 T C.P (bufIn it) M1 G1 ∧ (∀ r, r < T.num → Ready C.d3 C.S C.P (bufIn it) (bufOut it) (M1 r)) := by
  have hB := hC.box
  have hW := whole_setup (T := T) (by decide) hT hB
  have hb := mhdBuf_of hB C.impl it
  have hbW := mhdBuf_of hW C.impl it
  have hlt := bufIn_lt it
  -- the whole
  obtain ⟨-, f, F, u⟩ := ready_of hbW hW r
  obtain ⟨f', yf, F'⟩ := fill_mem C.d3 true hW (by decide) (bufIn it) G
  have ef : ∀ (c : Cell) (v : Nat), (Spec.whole T C.P).box C.d3 c → v < 8 → f (c.at (bufIn it) v) = f' (c.at (bufIn it) v) := by
    intro c v hc hv
    rw [F.cells c v hc (hW.nv ▸ hv), F'.cells c v hc (hW.nv ▸ hv)]
  -- the ranks
  obtain ⟨M2, l2, w2, -⟩ := halo_line (α := ℝ) (U := bufIn it) (mhd := true) (fun x => by rops; simp) hT hB (by decide)
    (by omega) G M (fun p hp c hb hi v hv => h p hp c hb hi v (hB.nv ▸ hv)) (G' := f') yf.run
  choose M3 y3 e3 g3 using fun r => mhd_copy hb (M2 r)
  choose M4 y4 e4 g4 using fun r => mhd_convert (S := C.S) hb (M3 r)
  have hne := hb.ne
  have hq : bufIn it ≠ aQ := by simp only [aQ]; omega
  have hq' : bufOut it ≠ aQ := by have := hb.out_lt; simp only [aQ]; omega
  have k : ∀ (r : Nat) (c : Cell) (v : Nat), M4 r (c.at (bufIn it) v) = M2 r (c.at (bufIn it) v) := fun r c v => by
    rw [g4 r _ hq, g3 r _ hne]
  refine ⟨M4, (l2.mono fun _ _ h => Or.inr h).append (.loops fun r _ =>
      .cons ((y3 r).mono fun _ h => Or.inl (Or.inl h)) (.cons ((y4 r).mono fun _ h => Or.inl (Or.inl h)) (.nil _))), ?_, ?_⟩
  · intro p hp c hc v hv
    have hcw := whole_box hT hB hp hc
    rw [k, w2 p hp c hc v (hB.nv ▸ hv), ← ef _ v hcw hv, ← mfield_get G1 _ _ hv, u, mfield_get f _ _ hv]
  · intro r _
    refine ⟨fun c hc => ?_, fun c hc hv => ?_⟩
    · rw [mfield_ext (m' := M3 r) (A' := bufOut it) (c' := c) fun v _ => g4 r _ hq', e3 r c hc]
      exact mfield_ext fun v _ => (k r c v).symm
    · rw [e4 r c hc hv]
      congr 1
      funext c'
      exact mfield_ext fun v _ => (g4 r _ hq).symm

theorem ghost_field {d3 : Bool} {P : Grid} {U : Nat} {M : Nat → Addr → ℝ} {G : Addr → ℝ} (h : MhdPartsGhost d3 T P U M G)
    {p : Cell} (hp : Block T.mx T.my T.mz p) {c : Cell} (hc : P.box d3 c) :
    mfield (M (owner T.my T.mz p)) U c = mfield G U (inDomain P p c) :=
  mfield_ext fun v hv => h p hp c hc v hv

/-- The second part of a step of all ranks is that of the whole. -/
theorem advance_parts (hT : RanksOk C.d3 T) (hC : C.Ok B) {it : ℕ} {M : Nat → Addr → ℝ} {G G' : Addr → ℝ}
    (h : MhdPartsGhost C.d3 T C.P (bufIn it) M G)
    (hM : ∀ r, r < T.num → Ready C.d3 C.S C.P (bufIn it) (bufOut it) (M r))
    (hG : Ready C.d3 C.S (Spec.whole T C.P) (bufIn it) (bufOut it) G) (J : Nat → MJunk ℝ) {J0 : MJunk ℝ} {dt : ℝ}
    (r : Runs (mhdAdvance C.d3 C.S (Spec.whole T C.P) J0 C.xmin C.impl dt (bufIn it) (bufOut it)) G G') :
    ∃ M', (∀ r, r < T.num → YieldsAll (mhdDom C.d3 C.P C.impl)
        (mhdAdvance C.d3 C.S C.P (J r) C.xmin C.impl dt (bufIn it) (bufOut it)) (M r) (M' r)) ∧
      MhdParts C.d3 T C.P (bufOut it) M' G' := by
  have hB := hC.box
  have hW := whole_setup (T := T) (by decide) hT hB
  obtain ⟨_, yG, eG⟩ := advance_any (mhdBuf_of hW C.impl it) hC.valid J0 C.xmin dt hG
  obtain rfl := yG.unique r
  have key : ∀ r, ∃ m', r < T.num → YieldsAll (mhdDom C.d3 C.P C.impl)
        (mhdAdvance C.d3 C.S C.P (J r) C.xmin C.impl dt (bufIn it) (bufOut it)) (M r) m' ∧
      ∀ c, C.P.box C.d3 c → C.P.inner C.d3 c → mfield m' (bufOut it) c =
        mstepAny C.d3 C.S C.P (J r) C.xmin C.impl dt (mfield (M r) (bufIn it)) c := by
    intro r
    by_cases hr : r < T.num
    · obtain ⟨m', a, b⟩ := advance_any (mhdBuf_of hB C.impl it) hC.valid (J r) C.xmin dt (hM r hr)
      exact ⟨m', fun _ => ⟨a, b⟩⟩
    · exact ⟨M r, fun h => absurd h hr⟩
  choose M' hM' using key
  refine ⟨M', fun r hr => (hM' r hr).1, ?_⟩
  intro p hp c hb hi v hv
  have ho := owner_lt hT hp
  rw [← mfield_get (M' _) _ _ hv, ← mfield_get G' _ _ hv, (hM' _ ho).2 c hb hi,
    eG _ (whole_box hT hB hp hb) (whole_inner hT hB hp hb hi)]
  congr 1
  rw [mstepAny_grid hC.valid (Spec.whole T C.P) J0,
    mstepAny_congr (U' := fun x => mfield G (bufIn it) (inDomain C.P p x)) fun c' hw =>
      ghost_field h hp (inner_within hB hb hi hw)]
  rw [inDomain_move]
  exact mstepAny_move hC.valid _ _ _

theorem inside_parts (hT : RanksOk C.d3 T) (hC : C.Ok B) {it : ℕ} {M : Nat → Addr → ℝ} {G : Addr → ℝ}
    (h : MhdPartsGhost C.d3 T C.P (bufIn it) M G)
    (hM : ∀ r, r < T.num → Ready C.d3 C.S C.P (bufIn it) (bufOut it) (M r))
    (hG : Ready C.d3 C.S (Spec.whole T C.P) (bufIn it) (bufOut it) G) {p : Cell} (hp : Block T.mx T.my T.mz p) {c : Cell}
    (hc : Inside C.d3 C.P c) : Inside C.d3 (Spec.whole T C.P) (inDomain C.P p c) ∧
      mfield (M (owner T.my T.mz p)) aQ c = mfield G aQ (inDomain C.P p c) := by
  have hB := hC.box
  have hW := whole_setup (T := T) (by decide) hT hB
  have hi : Inside C.d3 (Spec.whole T C.P) (inDomain C.P p c) :=
    ⟨whole_box hT hB hp hc.1, whole_inner hT hB hp hc.1 hc.2⟩
  refine ⟨hi, ?_⟩
  rw [(hM _ (owner_lt hT hp)).prim c hc.1 (inside_conv hB hc), hG.prim _ hi.1 (inside_conv hW hi),
    primOf_congr (U' := fun x => mfield G (bufIn it) (inDomain C.P p x)) fun c' hn =>
      ghost_field h hp (inside_near hB hc hn), inDomain_move]
  exact primOf_move _ _ _

theorem inside_split (hT : RanksOk C.d3 T) (hC : C.Ok B) {c : Cell} (hc : Inside C.d3 (Spec.whole T C.P) c) :
    ∃ p c', Block T.mx T.my T.mz p ∧ Inside C.d3 C.P c' ∧ c = inDomain C.P p c' := by
  have hB := hC.box
  have hg0 : 0 ≤ C.P.ghostWidth := by have := hB.gw; omega
  have hnx : 0 < C.P.nx := by have := hB.nx; have := hB.gw; omega
  have hny : 0 < C.P.ny := by have := hB.ny; have := hB.gw; omega
  have hi := (interior_iff (P := Spec.whole T C.P) hg0).1 hc
  obtain ⟨px, i, a1, a2, a3, a4, a5⟩ := split_index hnx hi.1 hi.2.1
  obtain ⟨py, j, b1, b2, b3, b4, b5⟩ := split_index hny hi.2.2.1 hi.2.2.2.1
  by_cases hd : C.d3 = true
  · rw [if_pos hd] at hi
    have hnz : 0 < C.P.nz := by have := hB.nz hd; have := hB.gw; omega
    obtain ⟨pz, k, c1, c2, c3, c4, c5⟩ := split_index hnz hi.2.2.2.2.1 hi.2.2.2.2.2
    refine ⟨⟨px, py, pz⟩, ⟨i, j, k⟩, ⟨a1, a2, b1, b2, c1, c2⟩, (interior_iff hg0).2 ⟨a3, a4, b3, b4, ?_⟩, ?_⟩
    · rw [if_pos hd]; exact ⟨c3, c4⟩
    · ext
      · exact a5.symm
      · exact b5.symm
      · exact c5.symm
  · rw [if_neg hd] at hi
    have e := hT.flat (by simpa using hd)
    refine ⟨⟨px, py, 0⟩, ⟨i, j, 0⟩, ⟨a1, a2, b1, b2, le_rfl, by simp only; omega⟩,
      (interior_iff hg0).2 ⟨a3, a4, b3, b4, ?_⟩, ?_⟩
    · rw [if_neg hd]
    · ext
      · exact a5.symm
      · exact b5.symm
      · simp only [inDomain, zero_mul, add_zero]; exact hi.2.2.2.2

/-- All ranks compute the time step of the whole. -/
theorem mhd_mpi_dt (hT : RanksOk C.d3 T) (hC : C.Ok B) (hg : C.Gas) {it : ℕ} {M : Nat → Addr → ℝ} {G : Addr → ℝ}
    (h : MhdPartsGhost C.d3 T C.P (bufIn it) M G)
    (hM : ∀ r, r < T.num → Ready C.d3 C.S C.P (bufIn it) (bufOut it) (M r))
    (hG : Ready C.d3 C.S (Spec.whole T C.P) (bufIn it) (bufOut it) G) {t : Nat → ℝ} {t0 : ℝ} {dt : Nat → ℝ} {dt0 : ℝ}
    (ht : ∀ r, r < T.num → t r = t0) (hd : C.MpiDt T.num t M dt) (hd0 : (C.whole T).Dt t0 G dt0) :
    ∀ r, r < T.num → dt r = dt0 := by
  obtain ⟨L, D, hL, hD, e⟩ := hd
  obtain ⟨d, hdl, rfl⟩ := hd0
  have hB := hC.box
  obtain ⟨X, ⟨x1, x2⟩, ed⟩ := mhdDt_greatest hdl
  have cfl := hg.cfl
  have ed : d = C.S.cfl / X := ed
  -- no rank has a shorter step
  have lo : ∀ s, s < T.num → d ≤ L s := by
    intro s hs
    obtain ⟨p, hp, rfl⟩ := owner_surj hT hs
    have pos := mdt_pos_of hC hg (fun c hc => (hM _ hs).prim c hc.1 (inside_conv hB hc)) (hL _ hs)
    obtain ⟨Y, ⟨y1, -⟩, eY⟩ := mhdDt_greatest (hL _ hs)
    rw [eY] at pos ⊢
    have hY : 0 < Y := (div_pos_iff_of_pos_left cfl).1 pos
    rw [ed]
    refine div_le_div_of_nonneg_left cfl.le hY (x2 ?_)
    rcases y1 with y1 | ⟨c, hc, y1⟩
    · exact Or.inl y1
    · obtain ⟨a, b⟩ := inside_parts hT hC h hM hG hp hc
      exact Or.inr ⟨_, a, by rw [y1, b]; rfl⟩
  -- some rank has this one
  have hi : ∃ s, s < T.num ∧ L s ≤ d := by
    have up : ∀ p, Block T.mx T.my T.mz p → ∀ Y, IsGreatest (insert C.bot {x | ∃ c, Inside C.d3 C.P c ∧
        x = cflRateMhd C.d3 C.S (mfield (M (owner T.my T.mz p)) aQ c)}) Y → X ≤ Y → C.S.cfl / Y ≤ C.S.cfl / X := by
      intro p hp Y hY hXY
      have posG := mdt_pos_of (whole_mhd_ok hT hC) ⟨hg.params, hg.spacings, hg.cfl⟩
        (fun c hc => hG.prim c hc.1 (inside_conv (whole_mhd_ok hT hC).box hc)) hdl
      rw [ed] at posG
      exact div_le_div_of_nonneg_left cfl.le ((div_pos_iff_of_pos_left cfl).1 posG) hXY
    rcases x1 with x1 | ⟨c, hc, x1⟩
    · obtain ⟨p, hp, ho⟩ := owner_surj hT (num_pos hT)
      refine ⟨_, owner_lt hT hp, ?_⟩
      obtain ⟨Y, hY, eY⟩ := mhdDt_greatest (hL _ (owner_lt hT hp))
      rw [eY, ed]
      exact up p hp Y hY (hY.2 (Or.inl x1))
    · obtain ⟨p, c', hp, hc', rfl⟩ := inside_split hT hC hc
      refine ⟨_, owner_lt hT hp, ?_⟩
      obtain ⟨Y, hY, eY⟩ := mhdDt_greatest (hL _ (owner_lt hT hp))
      rw [eY, ed]
      refine up p hp Y hY (hY.2 (Or.inr ⟨c', hc', ?_⟩))
      rw [x1, (inside_parts hT hC h hM hG hp hc').2]
      rfl
  intro r hr
  obtain ⟨a, s, hs, b⟩ := allReduce_min hD r hr
  obtain ⟨s', hs', c⟩ := hi
  have : D r = d := le_antisymm ((a s' hs').trans c) (b ▸ lo s hs)
  rw [e r hr, ht r hr, this]
  rfl

theorem mpiPrepare_eq {s : Nat → HydroState ℝ} {r : Nat} : C.mpiPrepare T s r =
    mhdPrepareMpi C.d3 T C.S C.P (bufIn (s r).iteration) (bufOut (s r).iteration) r := by
  unfold MhdConf.mpiPrepare bufIn bufOut; split_ifs <;> rfl

theorem advance_eq {J : MJunk ℝ} {dt : ℝ} {it : Nat} : C.advance J dt it =
    mhdAdvance C.d3 C.S C.P J C.xmin C.impl dt (bufIn it) (bufOut it) := by
  unfold MhdConf.advance bufIn bufOut; split_ifs <;> rfl

/-- The job of the first part of a step. -/
theorem prepare_job (hT : RanksOk C.d3 T) (hC : C.Ok B) {it : ℕ} {M : Nat → Addr → ℝ} {G G1 : Addr → ℝ}
    (h : MhdParts C.d3 T C.P (bufIn it) M G)
    (r : Runs (mhdPrepare C.d3 C.S (Spec.whole T C.P) (bufIn it) (bufOut it)) G G1) :
    JobOK T.num (mhdPrepareMpi C.d3 T C.S C.P (bufIn it) (bufOut it)) (mpiDom C (bufIn it)) M (fun R =>
      MhdPartsGhost C.d3 T C.P (bufIn it) R G1 ∧ ∀ r, r < T.num → Ready C.d3 C.S C.P (bufIn it) (bufOut it) (R r)) := by
  obtain ⟨M1, l, w, k⟩ := prepare_lock hT hC h r
  refine (LockSeq.job l ?_).congr fun r _ => (prepareLine_prog C T _ _ r).symm
  intro X hX
  refine ⟨fun p hp c hc v hv => ?_, fun r hr => ?_⟩
  · rw [hX _ (owner_lt hT hp)]; exact w p hp c hc v hv
  · rw [hX r hr]; exact k r hr

/-- The set-up of all ranks is the set-up of the whole. -/
theorem mhd_mpi_setup (hT : RanksOk C.d3 T) (hC : C.Ok B) {D : Domain ℝ} {Q : MhdProblem ℝ} (hQ : MhdDeterministic Q)
    {G : Addr → ℝ} (r : Runs (mhdSetup C.d3 C.S (Spec.whole T C.P) (alone D) Q) (fun _ => lit 0) G) :
    JobOK T.num (mhdSetupMpi C.d3 T C.S C.P D Q) (mpiDom C aU) (fun _ _ => lit 0) (fun R =>
      MhdPartsGhost C.d3 T C.P aU R G ∧ ∀ r, r < T.num → Ready C.d3 C.S C.P aU aU2 (R r)) ∧
    Ready C.d3 C.S (Spec.whole T C.P) aU aU2 G := by
  have hB := hC.box
  have hW := whole_setup (T := T) (by decide) hT hB
  obtain ⟨G0, r0, r1⟩ := runs_split r
  have e0 := mhd_init_run hW.gw hW.nv r0
  choose M0 y0 d0 _ using fun r => mhd_init (d3 := C.d3) (S := C.S) (D := D.ofRank T r) (impl := C.impl) hB.gw hB.nv Q
    (fun _ => lit 0)
  have hp : MhdParts C.d3 T C.P (bufIn 0) M0 G0 := by
    intro p hp c hb hi v hv
    change M0 _ (c.at aU v) = G0 (Cell.at _ aU v)
    rw [d0 _ c v hb hi, e0 _ v (whole_box hT hB hp hb) (whole_inner hT hB hp hb hi)]
    have ho := owner_coords hp
    refine initVal_same (P := C.P) (P' := Spec.whole T C.P) (D := D.ofRank T (owner T.my T.mz p)) (D' := alone D)
      (fun _ => rfl) (fun _ => rfl) ⟨rfl, rfl, rfl, rfl, rfl, rfl, rfl⟩ ?_ hi (whole_inner hT hB hp hb hi) hQ.1 hQ.2 v
    refine ⟨?_, ?_, fun _ => ?_⟩ <;> simp only [Domain.ofRank, alone, ho, inDomain] <;> ring
  have rd := ready_of (mhdBuf_of hW C.impl 0) hW r1
  refine ⟨?_, rd.1⟩
  obtain ⟨M1, l, w, k⟩ := prepare_lock (it := 0) hT hC hp r1
  have l' : LockSeq T.num (fun _ => mpiDom C (bufIn 0))
      ((fun r => MpiOp.kernels (mhdInitLoops C.d3 C.S C.P (D.ofRank T r) aU Q)) :: prepareLine C T (bufIn 0) (bufOut 0))
      (fun _ _ => lit 0) M1 :=
    (LockSeq.loops (dom := fun _ => mpiDom C (bufIn 0)) fun r _ => (y0 r).mono fun _ h => Or.inl h).append l
  refine (LockSeq.job l' ?_).congr fun r _ => ?_
  · intro X hX
    refine ⟨fun p hp c hc v hv => ?_, fun r hr => ?_⟩
    · rw [hX _ (owner_lt hT hp)]; exact w p hp c hc v hv
    · rw [hX r hr]; exact k r hr
  · rw [List.map_cons, prepareLine_prog]; rfl

/-- The second part of a step and the first part of the next as one job. -/
theorem overlap_job (hT : RanksOk C.d3 T) (hC : C.Ok B) {it : ℕ} {M : Nat → Addr → ℝ} {G G' G1 : Addr → ℝ}
    (h : MhdPartsGhost C.d3 T C.P (bufIn it) M G)
    (hM : ∀ r, r < T.num → Ready C.d3 C.S C.P (bufIn it) (bufOut it) (M r))
    (hG : Ready C.d3 C.S (Spec.whole T C.P) (bufIn it) (bufOut it) G) (J : Nat → MJunk ℝ) {J0 : MJunk ℝ} {dt : ℝ}
    (r : Runs (mhdAdvance C.d3 C.S (Spec.whole T C.P) J0 C.xmin C.impl dt (bufIn it) (bufOut it)) G G')
    (r' : Runs (mhdPrepare C.d3 C.S (Spec.whole T C.P) (bufIn (it + 1)) (bufOut (it + 1))) G' G1) :
    JobOK T.num (fun r => [MpiOp.kernels (C.advance (J r) dt it)] ++
        mhdPrepareMpi C.d3 T C.S C.P (bufIn (it + 1)) (bufOut (it + 1)) r) (mpiDom C (bufIn (it + 1))) M (fun R =>
      MhdPartsGhost C.d3 T C.P (bufIn (it + 1)) R G1 ∧
      ∀ r, r < T.num → Ready C.d3 C.S C.P (bufIn (it + 1)) (bufOut (it + 1)) (R r)) := by
  obtain ⟨M', y, w⟩ := advance_parts hT hC h hM hG J r
  rw [bufOut_eq] at w
  obtain ⟨M1, l, w1, k⟩ := prepare_lock hT hC w r'
  have l' : LockSeq T.num (fun _ => mpiDom C (bufIn (it + 1)))
      ((fun r => MpiOp.kernels (C.advance (J r) dt it)) :: prepareLine C T (bufIn (it + 1)) (bufOut (it + 1))) M M1 :=
    (LockSeq.loops (dom := fun _ => mpiDom C (bufIn (it + 1))) fun r hr => by
      rw [advance_eq]; exact (y r hr).mono fun _ h => Or.inl (Or.inl h)).append l
  refine (LockSeq.job l' ?_).congr fun r _ => ?_
  · intro X hX
    refine ⟨fun p hp c hc v hv => ?_, fun r hr => ?_⟩
    · rw [hX _ (owner_lt hT hp)]; exact w1 p hp c hc v hv
    · rw [hX r hr]; exact k r hr
  · rw [List.map_cons, prepareLine_prog]; rfl

theorem mpiDt_exists (hT : RanksOk C.d3 T) (t : Nat → ℝ) (M : Nat → Addr → ℝ) : ∃ dt, C.MpiDt T.num t M dt := by
  choose L hL using fun r => mhdDt_some C.bot C.d3 C.S C.P (M r)
  obtain ⟨D, hD⟩ := allReduce_exists (num_pos hT) L
  exact ⟨_, L, D, fun r _ => hL r, hD, fun _ _ => rfl⟩

end prepare

/-! ### The loop -/

section loop
variable {C : MhdConf ℝ} {T : Ranks} {B : Sides} {s s' : Nat → HydroState ℝ} {z z' : HydroState ℝ}

/-- The parallel run `s` and the serial run `z` are at the same point. -/
structure MhdBeside (C : MhdConf ℝ) (T : Ranks) (s : Nat → HydroState ℝ) (z : HydroState ℝ) : Prop where
  t : ∀ r, r < T.num → (s r).t = z.t
  it : ∀ r, r < T.num → (s r).iteration = z.iteration
  saved : ∀ r, r < T.num → (s r).timesSaved = z.timesSaved
  parts : MhdParts C.d3 T C.P (bufIn z.iteration) (fun r => (s r).m) z.m
  files : ∀ p, Block T.mx T.my T.mz p →
    List.Forall₂ (MhdPartFile C.d3 C.P p) (s (owner T.my T.mz p)).files z.files

theorem MhdBeside.finished (h : MhdBeside C T s z) {r : Nat} (hr : r < T.num) :
    C.ctl.finished (s r).ctl = (C.whole T).ctl.finished z.ctl := by
  simp only [Sim.finished, HydroState.ctl, h.t r hr, h.it r hr]; rfl

theorem MhdBeside.shouldSave (h : MhdBeside C T s z) {r : Nat} (hr : r < T.num) :
    C.ctl.shouldSave (s r).ctl = (C.whole T).ctl.shouldSave z.ctl := by
  simp only [Sim.shouldSave, HydroState.ctl, h.t r hr, h.saved r hr]; rfl

/-- Only the states of the ranks count. -/
theorem MhdBeside.congr (h : MhdBeside C T s z) (hT : RanksOk C.d3 T) (e : ∀ r, r < T.num → s' r = s r) :
    MhdBeside C T s' z := by
  refine ⟨fun r hr => by rw [e r hr, h.t r hr], fun r hr => by rw [e r hr, h.it r hr],
    fun r hr => by rw [e r hr, h.saved r hr], ?_, ?_⟩
  · intro p hp
    have := e _ (owner_lt hT hp)
    simp only [this]
    exact h.parts p hp
  · intro p hp
    rw [e _ (owner_lt hT hp)]
    exact h.files p hp

theorem MhdBeside.save (h : MhdBeside C T s z) (hT : RanksOk C.d3 T) (hC : C.Ok B) :
    MhdBeside C T (fun r => (s r).save) z.save := by
  refine ⟨h.t, h.it, fun r hr => ?_, h.parts, ?_⟩
  · simp only [HydroState.save, h.saved r hr]
  · intro p hp
    have ho := owner_lt hT hp
    simp only [save_file]
    refine List.rel_append (h.files p hp) (.cons ⟨h.saved _ ho, h.t _ ho, ?_⟩ .nil)
    intro i j k v h1 h2 h3 h4
    obtain ⟨b1, b2⟩ := mcell_box hC.box (by decide) h1 h2 h3
    simp only [h.it _ ho]
    exact h.parts p hp _ b1 b2 v h4

theorem MhdBeside.saveIf (h : MhdBeside C T s z) (hT : RanksOk C.d3 T) (hC : C.Ok B) :
    MhdBeside C T (fun r => C.saveIf (s r)) ((C.whole T).saveIf z) := by
  unfold MhdConf.saveIf
  have e : (C.whole T).ctl.nOutput = C.ctl.nOutput := rfl
  rw [e]
  split_ifs
  · exact h.save hT hC
  · exact h

theorem MhdBeside.saveDue (h : MhdBeside C T s z) (hT : RanksOk C.d3 T) (hC : C.Ok B) :
    MhdBeside C T (fun r => C.saveDue (s r)) ((C.whole T).saveDue z) := by
  unfold MhdConf.saveDue
  have ee : (C.whole T).ctl.enableOutput = C.ctl.enableOutput := rfl
  by_cases hs : ((C.whole T).ctl.enableOutput && (C.whole T).ctl.shouldSave z.ctl) = true
  · rw [if_pos hs]
    refine (h.save hT hC).congr hT fun r hr => if_pos ?_
    rw [h.shouldSave hr, ← ee]; exact hs
  · rw [if_neg hs]
    refine h.congr hT fun r hr => if_neg ?_
    rw [h.shouldSave hr, ← ee]; exact hs

/-- The job of the first part of a step. -/
theorem mhd_job (hT : RanksOk C.d3 T) (hC : C.Ok B) (h : MhdBeside C T s z) {G1 : Addr → ℝ}
    (r : Runs (mhdPrepare C.d3 C.S (Spec.whole T C.P) (bufIn z.iteration) (bufOut z.iteration)) z.m G1) :
    JobOK T.num (C.mpiPrepare T s) (mpiDom C (bufIn z.iteration)) (fun r => (s r).m) (fun R =>
      MhdPartsGhost C.d3 T C.P (bufIn z.iteration) R G1 ∧
      ∀ r, r < T.num → Ready C.d3 C.S C.P (bufIn z.iteration) (bufOut z.iteration) (R r)) := by
  refine (prepare_job hT hC h.parts r).congr fun r hr => ?_
  rw [mpiPrepare_eq, h.it r hr]

/-- A serial step, in parts. -/
theorem next_parts (q : C.Next z z') : ∃ G1 dt J m',
    Runs (mhdPrepare C.d3 C.S C.P (bufIn z.iteration) (bufOut z.iteration)) z.m G1 ∧ C.Dt z.t G1 dt ∧
    Runs (mhdAdvance C.d3 C.S C.P J C.xmin C.impl dt (bufIn z.iteration) (bufOut z.iteration)) G1 m' ∧
    z' = { C.saveDue z with m := m', dt := dt, iteration := z.iteration + 1, t := z.t + dt } := by
  obtain ⟨dt, m', ⟨G1, r1, d1, J, r2⟩, rfl⟩ := q
  obtain ⟨e1, e2, e3⟩ := saveDue_eq C z
  rw [e1] at r1
  rw [e2] at d1
  rw [e3] at r1 r2
  exact ⟨G1, dt, J, m', r1, d1, r2, rfl⟩

theorem mhd_mpi_next (hT : RanksOk C.d3 T) (hC : C.Ok B) (hg : C.Gas) (h : MhdBeside C T s z)
    (r : C.MpiNext T s s') (q : (C.whole T).Next z z') :
    MhdBeside C T s' z' ∧ ∀ r, r < T.num → (s' r).dt = z'.dt := by
  obtain ⟨M1, dt, J, M', hj, hd, ha, e⟩ := r
  obtain ⟨G1, dt0, J0, m', g1, gd, g2, rfl⟩ := next_parts q
  obtain ⟨w, k⟩ := (mhd_job hT hC h g1).of_run hj
  have hB := hC.box
  have hW := whole_setup (T := T) (by decide) hT hB
  have hR := (ready_of (mhdBuf_of hW C.impl z.iteration) hW g1).1
  have hdt := mhd_mpi_dt hT hC hg w k hR h.t hd gd
  obtain ⟨R, y, wR⟩ := advance_parts hT hC w k hR J g2
  have eR : ∀ r, r < T.num → M' r = R r := fun r hr => by
    have := ha r hr
    rw [hdt r hr, h.it r hr, advance_eq] at this
    exact (y r hr).unique this
  have b := h.saveDue hT hC
  refine ⟨⟨fun r hr => by rw [e r hr]; simp only [h.t r hr, hdt r hr],
    fun r hr => by rw [e r hr]; simp only [h.it r hr],
    fun r hr => by rw [e r hr]; exact b.saved r hr, ?_, ?_⟩, fun r hr => by rw [e r hr]; exact hdt r hr⟩
  · intro p hp
    have ho := owner_lt hT hp
    simp only [e _ ho, ← bufOut_eq, eR _ ho]
    exact wR p hp
  · intro p hp
    rw [e _ (owner_lt hT hp)]
    exact b.files p hp

theorem mhdMpiNext_exists (hT : RanksOk C.d3 T) (hC : C.Ok B) (h : MhdBeside C T s z) : ∃ s', C.MpiNext T s s' := by
  have hB := hC.box
  have hW := whole_setup (T := T) (by decide) hT hB
  obtain ⟨-, G1, y1, -⟩ := mhd_prepare (S := C.S) (mhdBuf_of hW C.impl z.iteration) hW z.m
  have job := mhd_job hT hC h y1.run
  obtain ⟨M1, hM1⟩ := job.exists_run
  obtain ⟨w, k⟩ := job.of_run hM1
  obtain ⟨dt, hdt⟩ := mpiDt_exists (C := C) hT (fun r => (s r).t) M1
  let J : MJunk ℝ := ⟨fun _ _ => MState.zero, fun _ _ => MState.zero⟩
  have key : ∀ r, ∃ m', r < T.num → Runs (C.advance J (dt r) (s r).iteration) (M1 r) m' := by
    intro r
    by_cases hr : r < T.num
    · obtain ⟨m', a, -⟩ := advance_any (mhdBuf_of hB C.impl z.iteration) hC.valid J C.xmin (dt r) (k r hr)
      exact ⟨m', fun _ => by rw [h.it r hr, advance_eq]; exact a.run⟩
    · exact ⟨M1 r, fun h => absurd h hr⟩
  choose M' hM' using key
  exact ⟨_, M1, dt, fun _ => J, M', hM1, hdt, hM', fun _ _ => rfl⟩

theorem mhd_mpi_loop (hT : RanksOk C.d3 T) (hC : C.Ok B) (hg : C.Gas) (hn : C.ctl.nlog ≠ 0)
    (h : MhdBeside C T s z) (hl : (C.whole T).Loop z (some z')) :
    (∃ s', C.MpiLoop T s (some s')) ∧ ∀ x, C.MpiLoop T s x → ∃ s', x = some s' ∧ MhdBeside C T s' z' := by
  have h0 := num_pos hT
  generalize hx : some z' = x at hl
  induction hl generalizing s with
  | done hf =>
    cases hx
    refine ⟨⟨s, .done fun r hr => by rw [h.finished hr]; exact hf⟩, fun x hx => ?_⟩
    have no : ∀ r, r < T.num → ¬ C.ctl.finished (s r).ctl = false := fun r hr e => by
      rw [h.finished hr, hf] at e; cases e
    cases hx with
    | done => exact ⟨s, rfl, h⟩
    | ub hr e => exact absurd e (no _ hr)
    | mixed _ hr _ e => exact absurd e (no _ hr)
    | hang e => exact absurd (e 0 h0) (no 0 h0)
    | step e => exact absurd (e 0 h0) (no 0 h0)
  | ub => cases hx
  | @step z z1 x hf _ hs hl ih =>
    have go : ∀ r, r < T.num → C.ctl.finished (s r).ctl = false := fun r hr => by rw [h.finished hr]; exact hf
    have no : ∀ r, r < T.num → ¬ C.ctl.finished (s r).ctl = true := fun r hr e => by rw [go r hr] at e; cases e
    constructor
    · obtain ⟨s1, nx⟩ := mhdMpiNext_exists hT hC h
      obtain ⟨⟨s', l⟩, -⟩ := ih (mhd_mpi_next hT hC hg h nx hs).1 hx
      exact ⟨s', .step go hn nx l⟩
    · intro x hx'
      cases hx' with
      | done e => exact absurd (e 0 h0) (no 0 h0)
      | ub _ _ e => exact absurd e hn
      | mixed hr _ e => exact absurd e (no _ hr)
      | hang _ hh =>
        obtain ⟨G1, -, -, -, g1, -⟩ := next_parts hs
        exact absurd hh (mhd_job hT hC h g1).no_hang
      | step _ _ nx l => exact (ih (mhd_mpi_next hT hC hg h nx hs).1 hx).2 _ l

end loop

end Verif
