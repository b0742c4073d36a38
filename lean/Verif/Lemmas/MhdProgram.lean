import Verif.Lemmas.HydroProgram
import Verif.Lemmas.MhdForm
import Verif.Lemmas.MhdLocal2
import Verif.Lemmas.MhdSame2
import Verif.Lemmas.OtherDt
import Verif.Spec.MhdProgram

/-! Lemmas about the MHD program. -/

namespace Verif

open Spec ROps

theorem runs_append {A V : Type} [DecidableEq A] [Add V] {L L' : List (Launch A V)} {m m1 m2 : A → V}
    (h : Runs L m m1) (h' : Runs L' m1 m2) : Runs (L ++ L') m m2 := by
  induction h with
  | nil => exact h'
  | cons a _ ih => exact .cons a (ih h')

theorem runs_split {A V : Type} [DecidableEq A] [Add V] {L L' : List (Launch A V)} {m m2 : A → V}
    (h : Runs (L ++ L') m m2) : ∃ m1, Runs L m m1 ∧ Runs L' m1 m2 := by
  induction L generalizing m with
  | nil => exact ⟨m, .nil m, h⟩
  | cons a L ih =>
    cases h with
    | cons r h =>
      obtain ⟨m1, h1, h2⟩ := ih h
      exact ⟨m1, .cons r h1, h2⟩

section

variable {d3 : Bool} {S : MSettings ℝ} {P : Grid} {B : Sides}

/-- Array `U` of `m` and array `U'` of `m'` agree in the interior. -/
def AgreeAt (d3 : Bool) (P : Grid) (U U' : Nat) (m m' : Addr → ℝ) : Prop :=
  ∀ i j k v, i < P.nx.toNat → j < P.ny.toNat → k < depth d3 P → v < 8 →
    m ((cell d3 P i j k).at U v) = m' ((cell d3 P i j k).at U' v)

theorem filled_agreeAt (h : BoxSetup d3 8 3 P B) {U U' : Nat} {m m' f f' : Addr → ℝ}
    (ha : AgreeAt d3 P U U' m m') (F : FilledMem d3 true P B U m f) (F' : FilledMem d3 true P B U' m' f')
    {c : Cell} (hb : P.box d3 c) : mfield f U c = mfield f' U' c := by
  refine mfield_ext fun v hv => ?_
  rw [F.cells c v hb (h.nv ▸ hv), F'.cells c v hb (h.nv ▸ hv)]
  obtain ⟨b1, b2⟩ := srcCell_inner h (by decide) hb
  obtain ⟨i, j, k, hi, hj, hk, e⟩ := inner_cell b1 b2
  rw [e, ha i j k v hi hj hk hv]

/-- What a step with implementation version `impl` puts in a cell. -/
noncomputable def mstepAny (d3 : Bool) (S : MSettings ℝ) (P : Grid) (J : MJunk ℝ) (xmin : ℝ) (impl : Int) (dt : ℝ)
    (U : Cell → MState ℝ) (c : Cell) : MState ℝ :=
  if impl = 2 then mstep2Of d3 S J dt U c else mstepOf d3 S P J xmin dt U c

/-- Implementation version and settings that go together. -/
def ValidImpl (d3 : Bool) (S : MSettings ℝ) (impl : Int) : Prop :=
  ((impl = 0 ∨ impl = 1) ∧ ValidMhd d3 S) ∨ (impl = 2 ∧ ValidMhd2 S)

theorem mhd_any (h : BoxSetup d3 8 3 P B) {impl : Int} (hi : ValidImpl d3 S impl) (J : MJunk ℝ) (xmin dt : ℝ) (it : Nat)
    (m : Addr → ℝ) :
    ∃ m1 m', YieldsAll (mhdDom d3 P impl) (mhd_unsplit d3 S P J xmin impl dt it) m m' ∧
      FilledMem d3 true P B (bufIn it) m m1 ∧
      ∀ c, P.box d3 c → P.inner d3 c →
        mfield m' (bufOut it) c = mstepAny d3 S P J xmin impl dt (mfield m1 (bufIn it)) c := by
  rcases hi with ⟨hi, -⟩ | ⟨rfl, -⟩
  · have h2 : impl ≠ 2 := by omega
    obtain ⟨m1, m', y, f, -, e⟩ := mhd_whole (S := S) (J := J) (xmin := xmin) (dt := dt) (it := it) h hi m
    exact ⟨m1, m', y, f, fun c h1 h3 => by rw [e c h1 h3, mstepAny, if_neg h2]⟩
  · obtain ⟨m1, m', y, f, -, e⟩ := mhd_whole2 (S := S) (J := J) (xmin := xmin) (dt := dt) (it := it) h m
    exact ⟨m1, m', y, f, fun c h1 h3 => by rw [e c h1 h3, mstepAny, if_pos rfl]⟩

theorem form_any (h : BoxSetup d3 8 3 P B) {impl : Int} (hi : ValidImpl d3 S impl) {J : MJunk ℝ} {xmin dt : ℝ} {it : Nat}
    {m m' : Addr → ℝ} (r : Runs (mhd_unsplit d3 S P J xmin impl dt it) m m') :
    ∃ F E m1, StepForm d3 S P B dt it F E m m1 m' ∧ SameFlow d3 (mfield m1 (bufIn it)) F E := by
  rcases hi with ⟨hi, hv⟩ | ⟨rfl, hv⟩
  · obtain ⟨F, E, m1, f, g⟩ := mhd_form h hi r
    exact ⟨F, E, m1, f, g hv⟩
  · obtain ⟨F, E, m1, f, g⟩ := mhd_form2 h r
    exact ⟨F, E, m1, f, g hv⟩

/-- Versions `i` and `i'` are the same scheme. -/
def SameImpl (d3 : Bool) (i i' : Int) : Prop := i = i' ∨ (i ≠ 2 ∧ i' ≠ 2) ∨ d3 = false

theorem mstepAny_same {i i' : Int} (hi : ValidImpl d3 S i) (hi' : ValidImpl d3 S i') (hs : SameImpl d3 i i') (J J' : MJunk ℝ)
    (xmin dt : ℝ) (U : Cell → MState ℝ) (c : Cell) :
    mstepAny d3 S P J xmin i dt U c = mstepAny d3 S P J' xmin i' dt U c := by
  unfold mstepAny
  by_cases h1 : i = 2 <;> by_cases h2 : i' = 2
  · obtain ⟨h, -⟩ | ⟨-, hv⟩ := hi
    · omega
    rw [if_pos h1, if_pos h2, mstep2Of_junk hv.slopes hv.riemann J']
  · obtain ⟨-, hv⟩ | ⟨h, -⟩ := hi'
    · obtain rfl : d3 = false := by rcases hs with h | h | h <;> [omega; omega; exact h]
      rw [if_pos h1, if_neg h2, mstep_same (P := P) (xmin := xmin) (hv.defined.slope rfl), mstepOf_junk hv.defined P J' xmin]
    · omega
  · obtain ⟨-, hv⟩ | ⟨h, -⟩ := hi
    · obtain rfl : d3 = false := by rcases hs with h | h | h <;> [omega; omega; exact h]
      rw [if_neg h1, if_pos h2, mstep_same (P := P) (xmin := xmin) (hv.defined.slope rfl), mstepOf_junk hv.defined P J' xmin]
    · omega
  · obtain ⟨-, hv⟩ | ⟨h, -⟩ := hi
    · rw [if_neg h1, if_neg h2, mstepOf_junk hv.defined P J' xmin]
    · omega

theorem mstepAny_congr {impl : Int} {J : MJunk ℝ} {xmin dt : ℝ} {U U' : Cell → MState ℝ} {c : Cell}
    (hU : ∀ c', Within d3 (-2) 3 c c' → U c' = U' c') :
    mstepAny d3 S P J xmin impl dt U c = mstepAny d3 S P J xmin impl dt U' c := by
  unfold mstepAny
  rw [mstepOf_congr hU, mstep2Of_congr hU]

theorem step_agreeAt (h : BoxSetup d3 8 3 P B) {impl impl' : Int} (hi : ValidImpl d3 S impl)
    (hi' : ValidImpl d3 S impl') (hs : SameImpl d3 impl impl')
    {xmin dt : ℝ} {it it' : Nat} {J J' : MJunk ℝ} {m m' x x' : Addr → ℝ}
    (ha : AgreeAt d3 P (bufIn it) (bufIn it') m m')
    (r : Runs (mhd_unsplit d3 S P J xmin impl dt it) m x)
    (r' : Runs (mhd_unsplit d3 S P J' xmin impl' dt it') m' x') :
    AgreeAt d3 P (bufOut it) (bufOut it') x x' := by
  obtain ⟨f, y, Y, F, N⟩ := mhd_any h hi J xmin dt it m
  obtain ⟨f', y', Y', F', N'⟩ := mhd_any h hi' J' xmin dt it' m'
  obtain rfl := Y.unique r
  obtain rfl := Y'.unique r'
  intro i j k v h1 h2 h3 hv8
  obtain ⟨b1, b2⟩ := mcell_box h (by decide) h1 h2 h3
  rw [← mfield_get x _ _ hv8, ← mfield_get x' _ _ hv8, N _ b1 b2, N' _ b1 b2]
  rw [mstepAny_same hi hi' hs J J',
    mstepAny_congr fun c' hw => filled_agreeAt h ha F F' (inner_within h b1 b2 hw)]

theorem inside_conv (h : BoxSetup d3 8 3 P B) {c : Cell} (hc : Inside d3 P c) : P.convertible d3 c := by
  obtain ⟨hb, hi⟩ := hc
  have hg := h.gw
  cases d3 <;> guards <;> omega

theorem inside_near (h : BoxSetup d3 8 3 P B) {c c' : Cell} (hc : Inside d3 P c) (hn : Near d3 1 c c') :
    P.box d3 c' := by
  obtain ⟨hb, hi⟩ := hc
  have hg := h.gw
  cases d3 <;> simp only [Near, Bool.false_eq_true, if_false, if_true] at hn <;> guards <;> omega

/-- What the time step is computed from. -/
theorem prepared (h : BoxSetup d3 8 3 P B) {it : Nat} {m m1 : Addr → ℝ}
    (r : Runs (mhdPrepare d3 S P (bufIn it) (bufOut it)) m m1) :
    ∃ f, FilledMem d3 true P B (bufIn it) m f ∧
      ∀ c, Inside d3 P c → mfield m1 aQ c = primOf d3 S (mfield f (bufIn it)) c := by
  obtain ⟨f, m2, y, F, -, q, -⟩ := mhd_prepare (S := S) (mhdOk_of (it := it) (impl := 0) h (Or.inl rfl)).toMhdBuf h m
  obtain rfl := y.unique r
  exact ⟨f, F, fun c hc => q c hc.1 (inside_conv h hc)⟩

theorem dt_agreeAt (h : BoxSetup d3 8 3 P B) {bot : ℝ} {it it' : Nat} {m m' m1 m1' : Addr → ℝ} {d d' : ℝ}
    (ha : AgreeAt d3 P (bufIn it) (bufIn it') m m')
    (r : Runs (mhdPrepare d3 S P (bufIn it) (bufOut it)) m m1)
    (r' : Runs (mhdPrepare d3 S P (bufIn it') (bufOut it')) m' m1')
    (hd : MhdComputeDtLocal bot d3 S P m1 d) (hd' : MhdComputeDtLocal bot d3 S P m1' d') : d = d' := by
  obtain ⟨f, F, q⟩ := prepared h r
  obtain ⟨f', F', q'⟩ := prepared h r'
  obtain ⟨M, g, rfl⟩ := mhdDt_greatest hd
  obtain ⟨M', g', rfl⟩ := mhdDt_greatest hd'
  have e : ∀ c, Inside d3 P c → mfield m1 aQ c = mfield m1' aQ c := fun c hc => by
    rw [q c hc, q' c hc]
    exact primOf_congr fun c' hn => filled_agreeAt h ha F F' (inside_near h hc hn)
  have e2 : {x | ∃ c, Inside d3 P c ∧ x = cflRateMhd d3 S (mfield m1 aQ c)} =
      {x | ∃ c, Inside d3 P c ∧ x = cflRateMhd d3 S (mfield m1' aQ c)} := by
    ext x
    constructor <;> rintro ⟨c, hc, rfl⟩
    · exact ⟨c, hc, by rw [e c hc]⟩
    · exact ⟨c, hc, by rw [e c hc]⟩
  rw [e2] at g
  rw [g.unique g']

end

section

variable {C : MhdConf ℝ} {B : Sides}

/-- A step is a step of the scheme with the time step computed. -/
theorem MhdConf.Step.unsplit {t : ℝ} {it : Nat} {m m' : Addr → ℝ} {dt : ℝ} (r : C.Step t it m dt m') :
    ∃ J m1 d, Runs (mhd_unsplit C.d3 C.S C.P J C.xmin C.impl dt it) m m' ∧
      Runs (mhdPrepare C.d3 C.S C.P (bufIn it) (bufOut it)) m m1 ∧
      MhdComputeDtLocal C.bot C.d3 C.S C.P m1 d ∧ dt = C.ctl.computeDt t d := by
  obtain ⟨m1, r1, ⟨d, hd, e⟩, J, r2⟩ := r
  exact ⟨J, m1, d, by rw [mhd_bufs]; exact runs_append r1 r2, r1, hd, e⟩

theorem mhdDt_some (bot : ℝ) (d3 : Bool) (S : MSettings ℝ) (P : Grid) (m : Addr → ℝ) :
    ∃ dt, MhdComputeDtLocal bot d3 S P m dt :=
  ⟨_, _, ⟨.thread (List.range _), List.Perm.refl _, rfl⟩, rfl⟩

theorem mhdStep_exists (hC : C.Ok B) (t : ℝ) (it : Nat) (m : Addr → ℝ) : ∃ dt m', C.Step t it m dt m' := by
  obtain ⟨-, m1, y, -⟩ := mhd_prepare (S := C.S) (mhdOk_of (it := it) (impl := 0) hC.box (Or.inl rfl)).toMhdBuf hC.box m
  obtain ⟨d, hd⟩ := mhdDt_some C.bot C.d3 C.S C.P m1
  let J : MJunk ℝ := ⟨fun _ _ => MState.zero, fun _ _ => MState.zero⟩
  obtain ⟨-, m', y2, -⟩ := mhd_any hC.box hC.valid J C.xmin (C.ctl.computeDt t d) it m
  have r := y2.run
  rw [mhd_bufs] at r
  obtain ⟨m1', r1, r2⟩ := runs_split r
  obtain rfl := y.unique r1
  exact ⟨_, m', m1', r1, ⟨d, hd, rfl⟩, J, r2⟩

/-- State `s'` of a run with `off` steps fewer, which has not written the files `F`, shows what `s` shows. -/
structure Shadow (C : MhdConf ℝ) (off : ℕ) (F : List (Snapshot (Cell → ℕ → ℝ) ℝ)) (s s' : HydroState ℝ) :
    Prop where
  t : s.t = s'.t
  it : s.iteration = s'.iteration + off
  saved : s.timesSaved = s'.timesSaved
  data : AgreeAt C.d3 C.P (bufIn s.iteration) (bufIn s'.iteration) s.m s'.m
  files : SameMhdFiles C.d3 C.P s.files (F ++ s'.files)

/-- `off` steps fewer and implementation version `i`. -/
def MhdConf.alt (C : MhdConf ℝ) (off i : Int) : MhdConf ℝ := { C.less off with impl := i }

variable {off : ℕ} {i : Int} {F : List (Snapshot (Cell → ℕ → ℝ) ℝ)} {s s' : HydroState ℝ}

theorem Shadow.file (h : Shadow C off F s s') : SameMhdFile C.d3 C.P s.file s'.file :=
  ⟨h.saved, h.t, h.data⟩

theorem Shadow.save (h : Shadow C off F s s') : Shadow C off F s.save s'.save := by
  refine ⟨h.t, h.it, ?_, h.data, ?_⟩
  · simp only [HydroState.save, h.saved]
  · simp only [HydroState.save, ← List.append_assoc]
    exact List.rel_append h.files (.cons h.file .nil)

theorem Shadow.saveIf (h : Shadow C off F s s') : Shadow C off F (C.saveIf s) ((C.alt off i).saveIf s') := by
  unfold MhdConf.saveIf
  have e : (C.alt off i).ctl.nOutput = C.ctl.nOutput := rfl
  rw [e]
  split_ifs
  · exact h.save
  · exact h

theorem Shadow.finished (h : Shadow C off F s s') :
    (C.alt off i).ctl.finished s'.ctl = C.ctl.finished s.ctl := by
  have e : ((s'.iteration : Int) ≥ C.ctl.nStepmax - off) ↔ (s.iteration : Int) ≥ C.ctl.nStepmax := by
    rw [h.it]; push_cast; constructor <;> intro <;> omega
  change (leb (C.ctl.tEnd - lit (1 / 10 ^ 14)) s'.t || decide ((s'.iteration : Int) ≥ C.ctl.nStepmax - off)) =
    (leb (C.ctl.tEnd - lit (1 / 10 ^ 14)) s.t || decide ((s.iteration : Int) ≥ C.ctl.nStepmax))
  rw [h.t, decide_eq_decide.2 e]

theorem Shadow.shouldSave (h : Shadow C off F s s') :
    (C.alt off i).ctl.shouldSave s'.ctl = C.ctl.shouldSave s.ctl := by
  simp only [Sim.shouldSave, MhdConf.alt, MhdConf.less, HydroState.ctl, h.t, h.saved]
  rfl

theorem Shadow.saveDue (h : Shadow C off F s s') : Shadow C off F (C.saveDue s) ((C.alt off i).saveDue s') := by
  unfold MhdConf.saveDue
  rw [h.shouldSave]
  have e : (C.alt off i).ctl.enableOutput = C.ctl.enableOutput := rfl
  rw [e]
  split_ifs
  · exact h.save
  · exact h

theorem saveDue_eq (C : MhdConf ℝ) (s : HydroState ℝ) :
    (C.saveDue s).m = s.m ∧ (C.saveDue s).t = s.t ∧ (C.saveDue s).iteration = s.iteration := by
  unfold MhdConf.saveDue; split_ifs <;> exact ⟨rfl, rfl, rfl⟩

theorem mhdNext_shadow (hC : C.Ok B) (hi : ValidImpl C.d3 C.S i)
    (hs : SameImpl C.d3 C.impl i) (h : Shadow C off F s s') {r r' : HydroState ℝ} (n : C.Next s r)
    (n' : (C.alt off i).Next s' r') : Shadow C off F r r' := by
  obtain ⟨dt, m, st, rfl⟩ := n
  obtain ⟨dt', m', st', rfl⟩ := n'
  have hd := h.saveDue (i := i)
  obtain ⟨-, e2, e3⟩ := saveDue_eq C s
  obtain ⟨-, f2, f3⟩ := saveDue_eq (C.alt off i) s'
  obtain ⟨J, m1, d, u, p, q, rfl⟩ := st.unsplit
  obtain ⟨J', m1', d', u', p', q', rfl⟩ := st'.unsplit
  obtain rfl : d = d' := dt_agreeAt hC.box hd.data p p' q q'
  have et : (C.alt off i).ctl.computeDt ((C.alt off i).saveDue s').t d = C.ctl.computeDt (C.saveDue s).t d := by
    rw [← hd.t]; rfl
  rw [et] at u' ⊢
  refine ⟨?_, ?_, hd.saved, ?_, hd.files⟩
  · simp only [h.t]
  · simp only [h.it]; omega
  · have := step_agreeAt hC.box hC.valid hi hs hd.data u u'
    rw [bufOut_eq, bufOut_eq, e3, f3] at this
    exact this

theorem mhdNext_exists (hC : C.Ok B) (s : HydroState ℝ) : ∃ s', C.Next s s' := by
  obtain ⟨dt, m', h⟩ := mhdStep_exists hC (C.saveDue s).t (C.saveDue s).iteration (C.saveDue s).m
  exact ⟨_, dt, m', h, rfl⟩

theorem mhdLoop_ends (hC : C.Ok B) (hn : C.ctl.nlog ≠ 0) (s : HydroState ℝ) : ∃ f, C.Loop s (some f) := by
  obtain ⟨n, hk⟩ : ∃ n : ℕ, C.ctl.nStepmax ≤ s.iteration + n := ⟨(C.ctl.nStepmax - s.iteration).toNat, by omega⟩
  induction n generalizing s with
  | zero =>
    refine ⟨s, .done ?_⟩
    have : (s.iteration : Int) ≥ C.ctl.nStepmax := by simpa using hk
    simp [Sim.finished, HydroState.ctl, this]
  | succ n ih =>
    by_cases hf : C.ctl.finished s.ctl = true
    · exact ⟨s, .done hf⟩
    · obtain ⟨s', h⟩ := mhdNext_exists hC s
      have hi : s'.iteration = s.iteration + 1 := by obtain ⟨_, _, _, rfl⟩ := h; rfl
      obtain ⟨f, l⟩ := ih s' (by rw [hi]; push_cast at hk ⊢; omega)
      exact ⟨f, .step (by simpa using hf) hn h l⟩

theorem mhdLoop_alt (hC : C.Ok B) (hi : ValidImpl C.d3 C.S i) (hs : SameImpl C.d3 C.impl i) (hn : C.ctl.nlog ≠ 0) {s s' : HydroState ℝ} (h : Shadow C off F s s')
    {r r' : Option (HydroState ℝ)} (l : C.Loop s r) (l' : (C.alt off i).Loop s' r') :
    ∃ f f', r = some f ∧ r' = some f' ∧ Shadow C off F f f' := by
  induction l generalizing s' with
  | @done s hf =>
    cases l' with
    | done => exact ⟨_, _, rfl, rfl, h⟩
    | ub hf' => rw [h.finished, hf] at hf'; cases hf'
    | step hf' => rw [h.finished, hf] at hf'; cases hf'
  | ub _ h0 => exact (hn h0).elim
  | @step s s1 r hf _ n _ ih =>
    cases l' with
    | done hf' => rw [h.finished, hf] at hf'; cases hf'
    | ub _ h0 => exact (hn h0).elim
    | step _ _ n' l' => exact ih (mhdNext_shadow hC hi hs h n n') l'

theorem mhdLoop_shadow (hC : C.Ok B) (hn : C.ctl.nlog ≠ 0) {s s' : HydroState ℝ} (h : Shadow C off F s s')
    {r r' : Option (HydroState ℝ)} (l : C.Loop s r) (l' : (C.less off).Loop s' r') :
    ∃ f f', r = some f ∧ r' = some f' ∧ Shadow C off F f f' :=
  mhdLoop_alt (i := C.impl) hC hC.valid (Or.inl rfl) hn h l l'

theorem less_zero (C : MhdConf ℝ) : C.less 0 = C := by
  unfold MhdConf.less; rw [sub_zero]

/-! ### Invariants of the loop -/

theorem mhdSaveIf_m (C : MhdConf ℝ) (s : HydroState ℝ) : (C.saveIf s).m = s.m ∧ (C.saveIf s).t = s.t ∧
    (C.saveIf s).iteration = s.iteration := by
  unfold MhdConf.saveIf; split_ifs <;> exact ⟨rfl, rfl, rfl⟩

/-- What holds of the newest array and of all files holds at the end if a step keeps it. -/
theorem mhdLoop_files {I : (Cell → ℕ → ℝ) → Prop}
    (hstep : ∀ J dt it m m', Runs (mhd_unsplit C.d3 C.S C.P J C.xmin C.impl dt it) m m' →
      I (fun c v => m (c.at (bufIn it) v)) → I (fun c v => m' (c.at (bufIn (it + 1)) v)))
    {s : HydroState ℝ} {r : Option (HydroState ℝ)} (hl : C.Loop s r)
    (h1 : I (fun c v => s.m (c.at (bufIn s.iteration) v))) (h2 : ∀ x ∈ s.files, I x.data) :
    ∀ s', r = some s' → I (fun c v => s'.m (c.at (bufIn s'.iteration) v)) ∧ ∀ x ∈ s'.files, I x.data := by
  induction hl with
  | done => rintro s' ⟨⟩; exact ⟨h1, h2⟩
  | ub => rintro s' ⟨⟩
  | @step s s1 r _ _ hn _ ih =>
    obtain ⟨dt, m', st, rfl⟩ := hn
    obtain ⟨e1, e2, e3⟩ := saveDue_eq C s
    obtain ⟨J, m1, d, u, -⟩ := st.unsplit
    rw [e1, e3] at u
    refine ih (hstep _ _ _ _ _ u h1) fun x hx => ?_
    change x ∈ (C.saveDue s).files at hx
    unfold MhdConf.saveDue at hx
    split_ifs at hx
    · rw [save_file, List.mem_append, List.mem_singleton] at hx
      rcases hx with hx | rfl
      · exact h2 x hx
      · exact h1
    · exact h2 x hx

/-- Files are never taken back. -/
theorem mhdLoop_prefix {s : HydroState ℝ} {r : Option (HydroState ℝ)} (hl : C.Loop s r) :
    ∀ s', r = some s' → s.files <+: s'.files := by
  induction hl with
  | done => rintro s' ⟨⟩; exact List.prefix_refl _
  | ub => rintro s' ⟨⟩
  | @step s s1 r _ _ hn _ ih =>
    obtain ⟨dt, m', -, rfl⟩ := hn
    intro s' e
    refine List.IsPrefix.trans ?_ (ih s' e)
    change s.files <+: (C.saveDue s).files
    unfold MhdConf.saveDue
    split_ifs
    · exact List.prefix_append _ _
    · exact List.prefix_refl _

/-- The first file holds the array `U` the constructor leaves. -/
theorem mhd_first_file {s0 : HydroState ℝ} {r : Option (HydroState ℝ)} {setup : List (Launch Addr ℝ)}
    {m0 : Addr → ℝ} {t : ℝ} {n : Int} (hs : C.Start setup m0 t n s0) (hl : C.Loop s0 r) {s : HydroState ℝ}
    (e : r.map C.saveIf = some s) (ho : C.ctl.nOutput ≠ 0) :
    ∃ m1, Runs setup m0 m1 ∧ s.files.head? = some ⟨n, t, fun c v => m1 (c.at aU v)⟩ := by
  obtain ⟨s1, rfl, rfl⟩ := Option.map_eq_some_iff.1 e
  obtain ⟨m1, dt, hr, -, rfl⟩ := hs
  have e0 : ∀ y : HydroState ℝ, C.saveIf y = y.save := fun y => if_pos ho
  refine ⟨m1, hr, ?_⟩
  obtain ⟨l, hl⟩ := mhdLoop_prefix hl s1 rfl
  rw [e0, save_file, ← hl, e0, save_file]
  rfl

/-- Without output there are no files. -/
theorem mhd_no_files {s0 : HydroState ℝ} {r : Option (HydroState ℝ)} {setup : List (Launch Addr ℝ)}
    {m0 : Addr → ℝ} {t : ℝ} {n : Int} (hs : C.Start setup m0 t n s0) (hl : C.Loop s0 r) {s : HydroState ℝ}
    (e : r.map C.saveIf = some s) (ho : C.ctl.nOutput = 0) : s.files = [] := by
  obtain ⟨s1, rfl, rfl⟩ := Option.map_eq_some_iff.1 e
  obtain ⟨m1, dt, -, -, rfl⟩ := hs
  have e0 : ∀ y : HydroState ℝ, C.saveIf y = y := fun y => if_neg (by simp [ho])
  have key : ∀ {s r}, C.Loop s r → s.files = [] → ∀ s', r = some s' → s'.files = [] := by
    intro s r hl
    induction hl with
    | done => rintro h s' ⟨⟩; exact h
    | ub => rintro h s' ⟨⟩
    | @step s s1 r _ _ hn _ ih =>
      intro h
      obtain ⟨dt, m', -, rfl⟩ := hn
      refine ih ?_
      change (C.saveDue s).files = []
      unfold MhdConf.saveDue
      rw [if_neg (by simp [Sim.enableOutput, ho])]
      exact h
  rw [e0] at hl ⊢
  exact key hl rfl s1 rfl

/-- What holds of the first file holds of all if a step keeps it. -/
theorem mhd_run_files {I : (Cell → ℕ → ℝ) → Prop}
    (hstep : ∀ J dt it m m', Runs (mhd_unsplit C.d3 C.S C.P J C.xmin C.impl dt it) m m' →
      I (fun c v => m (c.at (bufIn it) v)) → I (fun c v => m' (c.at (bufIn (it + 1)) v)))
    {s0 : HydroState ℝ} {r : Option (HydroState ℝ)} {setup : List (Launch Addr ℝ)} {m0 : Addr → ℝ} {t : ℝ}
    {n : Int} (hs : C.Start setup m0 t n s0) (hl : C.Loop s0 r)
    {s : HydroState ℝ} (e : r.map C.saveIf = some s) {x0 : Snapshot (Cell → ℕ → ℝ) ℝ} (hx : s.files.head? = some x0)
    (h0 : I x0.data) : ∀ x ∈ s.files, I x.data := by
  by_cases ho : C.ctl.nOutput = 0
  · rw [mhd_no_files hs hl e ho] at hx; cases hx
  obtain ⟨s1, rfl, rfl⟩ := Option.map_eq_some_iff.1 e
  obtain ⟨m1, dt, hr, -, rfl⟩ := hs
  have e0 : ∀ y : HydroState ℝ, C.saveIf y = y.save := fun y => if_pos ho
  have hI : I (fun c v => m1 (c.at (bufIn 0) v)) := by
    obtain ⟨l, hp⟩ := mhdLoop_prefix hl s1 rfl
    rw [e0, save_file, ← hp, e0, save_file] at hx
    simp only [List.nil_append, List.cons_append, List.head?_cons, Option.some.injEq] at hx
    rw [← hx] at h0
    exact h0
  obtain ⟨a, b⟩ := mhdLoop_files hstep hl (by rw [e0]; exact hI)
    (by rw [e0, save_file]; simpa using hI) s1 rfl
  intro x hx
  rw [e0, save_file, List.mem_append, List.mem_singleton] at hx
  rcases hx with hx | rfl
  · exact b x hx
  · exact a

end

end Verif
