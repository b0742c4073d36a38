import Verif.Lemmas.HighProgram
import Verif.Props.C74_C75_MoodLowerSides
import Verif.Props.C130_InitMood

/-!
# C132: the MOOD program from start to end

Trusted model: `Verif.Model.HighProgram`.  What the files should look like is in `Verif.Spec.HighProgram`.
-/

namespace Verif

open Spec ROps Mood Start Special

variable {C : MoodConf ℝ} {B : Sides} {D : Domain ℝ} {Q : MoodProblem ℝ}

/-! ### Uninitialised variables have no effect -/

section junk

variable {M : Mood.Scheme ℝ} {S : Settings ℝ} {P : Grid} {J J' : MoodJunk ℝ} {dt : ℝ}

private theorem finalFlux_junk (hv : ValidMood M S) :
    finalFlux M S P J dt = finalFlux M S P J' dt := by
  have hp : ∀ f old, polyAt M P J f old = polyAt M P J' f old := by
    intro f old
    funext c i
    unfold polyAt
    rw [newCoef_shift (J' := J') (g := f) (c' := c) hv.id rfl fun _ _ => rfl]
  have h0 : ∀ old f, flux0 M S P J dt old f = flux0 M S P J' dt old f := by
    intro old f
    funext d c
    unfold flux0
    rw [hp]
    exact storedFlux_shift hv rfl rfl
  funext old f d c
  unfold finalFlux flagAt
  rw [h0]

private theorem eulerAt_junk (hv : ValidMood M S) : eulerAt M S P B J dt = eulerAt M S P B J' dt := by
  funext old f c
  unfold eulerAt
  rw [finalFlux_junk hv]

variable {K K' : ℕ → MoodJunk ℝ} {old old' : ℕ → Cell → HState ℝ} {f g : Cell → HState ℝ}

/-- The new states depend on the old ones, and on the coefficients that are never computed, only. -/
private theorem stepAt_same (h : MoodSetup M P B) (hv : ValidMood M S) {ti : TimeInt}
    (e : ∀ c, P.box M.d3 c → P.inner M.d3 c → f c = g c)
    (eo : ∀ i c, i < M.ncoefs → P.box M.d3 c → ¬ reconRegion M.d3 P c → old i c = old' i c) {c : Cell}
    (hb : P.box M.d3 c) (hi : P.inner M.d3 c) :
    stepAt M S P B K dt ti old f c = stepAt M S P B K' dt ti old' g c := by
  have e1 : ∀ {a b : Cell → HState ℝ} (n n' : ℕ), (∀ c, P.box M.d3 c → P.inner M.d3 c → a c = b c) →
      ∀ c, P.box M.d3 c → P.inner M.d3 c →
        eulerAt M S P B (K n) dt old a c = eulerAt M S P B (K' n') dt old' b c := by
    intro a b n n' hab c hb hi
    rw [eulerAt_junk (J' := K' n') hv]
    exact eulerAt_congr h hb hi hab eo
  cases ti with
  | forward_euler => exact e1 0 0 e c hb hi
  | ssprk2 =>
    refine state_ext (d3 := M.d3) (ofComps_norm _ _) (ofComps_norm _ _) fun v hv' => ?_
    show (ssprk2At M S P B K dt old f c).get v = (ssprk2At M S P B K' dt old' g c).get v
    rw [ssprk2At_get hi hv', ssprk2At_get hi hv', e c hb hi, e1 1 1 (e1 0 0 e) c hb hi]
  | ssprk3 =>
    have e2 : ∀ c, P.box M.d3 c → P.inner M.d3 c →
        rk3Second M S P B K dt old f c = rk3Second M S P B K' dt old' g c := by
      intro c hb hi
      refine state_ext rk3Second_norm rk3Second_norm fun v hv' => ?_
      rw [rk3Second_get hi hv', rk3Second_get hi hv', e c hb hi, e1 1 1 (e1 0 0 e) c hb hi]
    refine state_ext (d3 := M.d3) (ofComps_norm _ _) (ofComps_norm _ _) fun v hv' => ?_
    show (ssprk3At M S P B K dt old f c).get v = (ssprk3At M S P B K' dt old' g c).get v
    rw [ssprk3At_get hi hv', ssprk3At_get hi hv', e c hb hi, e1 2 2 e2 c hb hi]
  | ssprk54 => exact e c hb hi

end junk

/-! ### A step -/

/-- What two runs have in common: the current interior states, and the coefficients that no loop computes. -/
private def MoodAlike (C : MoodConf ℝ) (it : ℕ) (m n : Addr → ℝ) : Prop :=
  (∀ c, C.P.box C.M.d3 c → C.P.inner C.M.d3 c → field C.M.d3 m (bufIn it) c = field C.M.d3 n (bufIn it) c) ∧
  ∀ i c, i < C.M.ncoefs → C.P.box C.M.d3 c → ¬ reconRegion C.M.d3 C.P c → polys C.M.d3 m i c = polys C.M.d3 n i c

private theorem mood_step (hC : C.Ok B) {lay lay' : Layout} {J J' : ℕ → MoodJunk ℝ} {dt : ℝ} {ti : TimeInt} {it : ℕ}
    {m n m' n' : Addr → ℝ} (e : MoodAlike C it m n)
    (r : Runs (Mood.time_integration lay C.M C.S C.P J dt ti it) m m')
    (r' : Runs (Mood.time_integration lay' C.M C.S C.P J' dt ti it) n n') : MoodAlike C (it + 1) m' n' := by
  obtain ⟨m1, y, q⟩ := step_yields (S := C.S) (lay := lay) (J := J) (dt := dt) (ti := ti) (it := it) hC.box real_zero_lt m
  obtain ⟨n1, y', q'⟩ := step_yields (S := C.S) (lay := lay') (J := J') (dt := dt) (ti := ti) (it := it) hC.box real_zero_lt n
  obtain rfl := y.unique r
  obtain rfl := y'.unique r'
  refine ⟨fun c hb hi => ?_, fun i c h1 hb hr => ?_⟩
  · rw [bufIn_succ, q.out c hb hi, q'.out c hb hi]
    exact stepAt_same hC.box hC.valid e.1 e.2 hb hi
  · rw [q.kept i c h1 hb hr, q'.kept i c h1 hb hr, e.2 i c h1 hb hr]

private theorem width_pos (M : Mood.Scheme ℝ) : (0 : Int) < get_stencil_ghostwidth M.id := by
  have := two_le_ghostwidth M.id
  omega

private theorem mood_dt (hC : C.Ok B) {lay lay' : Layout} {it : ℕ} {m n : Addr → ℝ} {d d' : ℝ} (e : MoodAlike C it m n)
    (h : Mood.ComputeDtLocal TOps.pow C.bot lay C.M.d3 (STENCIL_DEGREE C.M.id) C.ssprk3 C.S C.P it m d)
    (h' : Mood.ComputeDtLocal TOps.pow C.bot lay' C.M.d3 (STENCIL_DEGREE C.M.id) C.ssprk3 C.S C.P it n d') : d = d' := by
  obtain ⟨X, g, rfl⟩ := moodDt_greatest (nonempty_of_box hC.box (width_pos _)) h
  obtain ⟨X', g', rfl⟩ := moodDt_greatest (nonempty_of_box hC.box (width_pos _)) h'
  have e2 : {x | ∃ c, Inside C.M.d3 C.P c ∧ x = cflRate C.M.d3 C.S (field C.M.d3 m (bufIn it) c)} =
      {x | ∃ c, Inside C.M.d3 C.P c ∧ x = cflRate C.M.d3 C.S (field C.M.d3 n (bufIn it) c)} := by
    ext x
    constructor <;> rintro ⟨c, hc, rfl⟩
    · exact ⟨c, hc, by rw [e.1 c hc.1 hc.2]⟩
    · exact ⟨c, hc, by rw [e.1 c hc.1 hc.2]⟩
  rw [e2] at g
  obtain rfl := g.unique g'
  rfl

private theorem mood_dt_pos (hC : C.Ok B) (hG : GasParams C.S) (hs : Spacings C.M.d3 C.S) (hcfl : 0 < C.S.cfl)
    {it : ℕ} {m : Addr → ℝ} {d : ℝ}
    (h : Mood.ComputeDtLocal TOps.pow C.bot C.lay C.M.d3 (STENCIL_DEGREE C.M.id) C.ssprk3 C.S C.P it m d) : 0 < d := by
  obtain ⟨X, ⟨-, g⟩, rfl⟩ := moodDt_greatest (nonempty_of_box hC.box (width_pos _)) h
  obtain ⟨c, hc⟩ := exists_inside hC.box (width_pos _)
  have hX : 0 < X := by
    refine lt_of_lt_of_le ?_ (g (.inr ⟨c, hc, rfl⟩))
    rw [cflRate_eq]
    exact signalRate_pos hs (C31_physical C.M.d3 hG _).2.2.2.2.1 _
  split_ifs
  · exact Real.rpow_pos_of_pos (div_pos hcfl hX) _
  · exact div_pos hcfl hX

/-! ### The start -/

private theorem mood_post (hC : C.Ok B) (m : Addr → ℝ) : ∃ m', Runs C.post m m' ∧
    ∀ m'', Runs C.post m m'' →
      (∀ c, C.P.box C.M.d3 c → C.P.inner C.M.d3 c → field C.M.d3 m'' aU c = field C.M.d3 m aU c) ∧
      (∀ a : Addr, 10 ≤ a.arr → m'' a = m a) := by
  have hU : stateArray C.ti aU := (bufs_it 0).inp
  have hU2 : stateArray C.ti aU2 := (bufs_it 0).outp
  have hne : aU ≠ aU2 := (bufs_it 0).ne
  obtain ⟨m1, y1, -, i1, o1⟩ := fill_yields (ti := C.ti) hC.box hU m
  have y2 := Mood.copy_yields hC.box.stage hU2 hU hne m1
  have y : YieldsAll (moodDom C.M.d3 C.P C.M.ncoefs C.ti) C.post m (copyMem C.M.d3 C.P aU2 aU m1) :=
    y1.append (.cons y2 (.nil _))
  refine ⟨_, y.run, fun m'' r => ?_⟩
  obtain rfl := y.unique r
  refine ⟨fun c hb hi => ?_, fun a ha => ?_⟩
  · rw [Mood.field_congr (A := aU) fun a h => copyMem_other (by rw [h]; exact hne), i1 c hb hi]
  · have h1 := stateArray_lt hU
    have h2 := stateArray_lt hU2
    rw [copyMem_other (by omega), o1 a (by omega)]

private theorem mood_init (hC : C.Ok B) (m : Addr → ℝ) : ∃ m', Runs (C.init D Q) m m' ∧
    ∀ m'', Runs (C.init D Q) m m'' →
      (∀ c v, C.P.box C.M.d3 c → v < C.P.nbvar →
        m'' (c.at aU v) = (moodState C.M.d3 C.S C.P D c Q).elim (m (c.at aU v)) fun s => Mood.comp s v) ∧
      (∀ a : Addr, a.arr ≠ aU → m'' a = m a) := by
  obtain ⟨m', y, hv, ho⟩ := state_fill (lay := C.lay) (places_mood (d3 := C.M.d3) (P := C.P) (U := aU))
    (nonempty_of_box hC.box (width_pos _)) (fun c _ => moodState C.M.d3 C.S C.P D c Q) m
  have y' : YieldsAll _ (C.init D Q) m m' := .cons y (.nil _)
  refine ⟨m', y'.run, fun m'' r => ?_⟩
  obtain rfl := y'.unique r
  exact ⟨fun c v hb h => hv c onePt v hb (List.mem_singleton.2 rfl) h, ho⟩

private theorem mood_start (hC : C.Ok B) {lay : Layout} {m1 m2 m1' m2' : Addr → ℝ}
    (r1 : Runs (C.init D Q) (fun _ => lit 0) m1) (r2 : Runs C.post m1 m2)
    (r1' : Runs ((C.ordered lay).init D Q) (fun _ => lit 0) m1') (r2' : Runs (C.ordered lay).post m1' m2') :
    MoodAlike C 0 m2 m2' := by
  have hC' : (C.ordered lay).Ok B := ⟨hC.box, hC.valid⟩
  obtain ⟨-, -, a⟩ := mood_post hC m1
  obtain ⟨-, -, a'⟩ := mood_post hC' m1'
  obtain ⟨-, -, b⟩ := mood_init (D := D) (Q := Q) hC (fun _ => lit 0)
  obtain ⟨-, -, b'⟩ := mood_init (D := D) (Q := Q) hC' (fun _ => lit 0)
  have k := a _ r2
  have k' := a' _ r2'
  have l := b _ r1
  have l' := b' _ r1'
  refine ⟨fun c hb hi => (k.1 c hb hi).trans (Eq.trans (field_ext fun v hv => ?_) (k'.1 c hb hi).symm), fun i c _ _ _ => ?_⟩
  · exact (l.1 c v hb (hC.box.nv ▸ hv)).trans (l'.1 c v hb (hC.box.nv ▸ hv)).symm
  · refine field_ext fun v hv => ?_
    have ha : 10 ≤ (c.at (aPoly i) v).arr := by show 10 ≤ 10 + i; omega
    have hn : (c.at (aPoly i) v).arr ≠ aU := by
      have : aU < 10 := by decide
      omega
    rw [k.2 _ ha, k'.2 _ ha, l.2 _ hn, l'.2 _ hn]

private theorem mood_twins (hC : C.Ok B) (lay : Layout) :
    C.driver.Twins (C.ordered lay).driver (MoodAlike C) (SameCells C) where
  ctl := rfl
  every := rfl
  dt e h h' := mood_dt hC e h h'
  step e := fun ⟨_, r⟩ ⟨_, r'⟩ => mood_step hC e r r'
  shows {it m m'} e := by
    intro c v hc hv
    have := e.1 c hc.1 hc.2
    show m (c.at (bufIn it) v) = m' (c.at (bufIn it) v)
    rw [← field_get C.M.d3 m _ _ hv, ← field_get C.M.d3 m' _ _ hv, this]

private theorem mood_total (hC : C.Ok B) : C.driver.Total where
  dt it m := ⟨_, _, ⟨.thread (List.range _), List.Perm.refl _, rfl⟩, rfl⟩
  step it dt m := by
    obtain ⟨m', y⟩ := C73_mood_step (S := C.S) hC.box real_zero_lt C.lay (fun _ => ⟨fun _ _ _ => HState.zero, fun _ _ => 0⟩) dt C.ti it m
    exact ⟨m', _, y.run⟩

/-! ### C132 -/

/-- **C132**: the MOOD program runs to its end, whatever the schedules of its loops, the order of its reductions and the values of
uninitialised variables, and all its runs – also those of a build whose loops go through the cells in the other order – write the same
files and stop after the same number of steps at the same time. -/
theorem C132_same_files (hC : C.Ok B) :
    (∃ s, C.Main D Q (some s)) ∧
    ∀ lay r r', C.Main D Q r → (C.ordered lay).Main D Q r' → ∃ s s', r = some s ∧ r' = some s' ∧
      List.Forall₂ (SameMoodFile C) s.files s'.files ∧ s.t = s'.t ∧ s.iteration = s'.iteration := by
  have hev : C.driver.every ≠ 0 := show (10 : Int) ≠ 0 by decide
  constructor
  · obtain ⟨m1, r1, -⟩ := mood_init (D := D) (Q := Q) hC (fun _ => lit 0)
    obtain ⟨m2, r2, -⟩ := mood_post hC m1
    exact Driver.main_exists (mood_total hC) hev r1 r2
  · intro lay r r' h h'
    exact Driver.main_same (mood_twins hC lay) hev (fun a b c d => mood_start hC a b c d) h h'

/-- **C132**: the files are numbered without gaps from 0 and their times never decrease and lie between the start time and the end
time. -/
theorem C132_order (hC : C.Ok B) (hG : GasParams C.S) (hs : Spacings C.M.d3 C.S) (hcfl : 0 < C.S.cfl)
    (ht : C.ctl.tCurrent ≤ C.ctl.tEnd) {s : HydroState ℝ} (hm : C.Main D Q (some s)) :
    InOrder 0 C.ctl.tCurrent C.ctl.tEnd s.files :=
  Driver.main_ordered (fun _ hd => mood_dt_pos hC hG hs hcfl hd) ht hm

/-- **C132**: the first file is written at the start time, the last at the end; the first shows in every cell the gas of the problem,
whenever the initial condition holds it (C130: `hG`). -/
theorem C132_first (hC : C.Ok B) (ho : C.ctl.nOutput ≠ 0) {G : ℝ → ℝ → ℝ → PointGas}
    (hG : ∀ m, ∃ m', (moodInit C.lay C.M.d3 C.S C.P D aU Q).Yields
        (fun a => a.arr = aU ∧ C.P.box C.M.d3 a.cell ∧ a.v < C.P.nbvar) m m' ∧
      MoodSamples C.M.d3 C.S C.P D aU m' G) {s : HydroState ℝ} (hm : C.Main D Q (some s)) :
    ∃ x0 x1, s.files.head? = some x0 ∧ x0.number = 0 ∧ x0.time = C.ctl.tCurrent ∧ MoodFileShows C D G x0 ∧
      s.files.getLast? = some x1 ∧ x1.time = s.t := by
  obtain ⟨m1, m2, r1, r2, e⟩ := Driver.first_file hm ho
  refine ⟨_, _, e, rfl, rfl, ?_, Driver.last_file hm ho, rfl⟩
  obtain ⟨m', y, hs⟩ := hG (fun _ => lit 0)
  have y' : YieldsAll _ (C.init D Q) (fun _ => lit 0) m' := .cons y (.nil _)
  obtain rfl := y'.unique r1
  obtain ⟨-, -, a⟩ := mood_post hC m1
  intro b v hb hv
  refine Eq.trans ?_ (hs b v hb.1 (hC.box.nv ▸ hv))
  show m2 (b.at aU v) = m1 (b.at aU v)
  rw [← field_get C.M.d3 m2 _ _ hv, ← field_get C.M.d3 m1 _ _ hv, (a _ r2).1 b hb.1 hb.2]

/-- **C132 fails with ssprk54**: nothing moves; every file shows the states of the first, whatever the time it is marked with. -/
theorem C132_ssprk54_frozen (hC : C.Ok B) (hti : C.ti = .ssprk54) {s : HydroState ℝ} (hm : C.Main D Q (some s))
    {x0 : Snapshot FileData ℝ} (hx0 : s.files.head? = some x0) : ∀ x ∈ s.files, SameCells C x.data x0.data := by
  intro x hx
  refine (Driver.run_files (V := C.driver) (I := fun _ d => SameCells C d x0.data) ?_ hm hx0
    (fun _ _ _ _ => rfl) x hx).elim fun _ h => h.2
  · rintro it dt m m' ⟨J, r⟩ h c v hc hv
    change Runs (Mood.time_integration C.lay C.M C.S C.P J dt C.ti it) m m' at r
    rw [hti] at r
    obtain ⟨i, j, k, h1, h2, h3, rfl⟩ := inside_cell hc
    refine Eq.trans ?_ (h _ v hc hv)
    have := C45_ssprk54_does_nothing hC.box real_zero_lt r i j k v h1 h2 h3 (hC.box.nv ▸ hv)
    rw [← bufIn_succ] at this
    exact this

/-- **C132**: in two dimensions a uniform gas without reflecting sides stays as it is: all files show it. -/
theorem C132_uniform (hC : C.Ok B) (hM : C.M.Genuine) (hG : GasParams C.S) (h2 : C.M.d3 = false)
    (hx : B.xlo ≠ .reflecting ∧ B.xhi ≠ .reflecting) (hy : B.ylo ≠ .reflecting ∧ B.yhi ≠ .reflecting)
    {u : HState ℝ} (hu : 0 ≤ u.d) {s : HydroState ℝ} (hm : C.Main D Q (some s)) {x0 : Snapshot FileData ℝ}
    (hx0 : s.files.head? = some x0) (h0 : UniformCells C u x0.data) : ∀ x ∈ s.files, UniformCells C u x.data := by
  by_cases hti : C.ti = .ssprk54
  · intro x h c v hc hv
    rw [C132_ssprk54_frozen hC hti hm hx0 x h c v hc hv, h0 c v hc hv]
  intro x h
  refine (Driver.run_files (V := C.driver) (I := fun _ d => UniformCells C u d) ?_ hm hx0 h0 x h).elim fun _ h => h.2
  · rintro it dt m m' ⟨J, r⟩ h c v hc hv
    obtain ⟨i, j, k, h1, h2', h3, rfl⟩ := inside_cell hc
    have := C74_uniform_2D hC.box hM hC.valid hG h2 hx hy u hu hti r (fun i j k h1 h2 h3 v =>
      h _ v (mood_cell_box hC.box h1 h2 h3) (hC.box.nv ▸ v.2)) i j k h1 h2' h3 ⟨v, hC.box.nv ▸ hv⟩
    rw [← bufIn_succ] at this
    exact this

/-- **C132 fails in three dimensions**: a gas at rest, with forward Euler and the LLF solver, does not stay as it is.  After one step
the last file has less mass than the first, also in a periodic box (the coefficients next to the lower sides are never computed). -/
theorem C132_fails_3D (hC : C.Ok B) (hM : C.M.Genuine) (hG : GasParams C.S) (hs : Spacings C.M.d3 C.S) (h3 : C.M.d3 = true)
    (hx : B.xlo ≠ .reflecting ∧ B.xhi ≠ .reflecting) (hy : B.ylo ≠ .reflecting ∧ B.yhi ≠ .reflecting)
    (hz : B.zlo ≠ .reflecting ∧ B.zhi ≠ .reflecting) (hllf : C.S.riemann = .llf)
    (hti : C.ssprk2 = false ∧ C.ssprk3 = false ∧ C.ssprk54 = false) (hcfl : 0 < C.S.cfl ∧ C.S.cfl ≤ 1)
    (hn : C.ctl.nStepmax = 1) (ht : C.ctl.tCurrent < C.ctl.tEnd - 1 / 10 ^ 14) (ho : C.ctl.nOutput ≠ 0)
    {ρ p : ℝ} (hρ : C.S.smallr < ρ) (hp : ρ * C.S.smallp ≤ p) {s : HydroState ℝ} (hm : C.Main D Q (some s))
    {x0 : Snapshot FileData ℝ} (hx0 : s.files.head? = some x0) (h0 : UniformCells C (Mood.restGas C.S ρ p) x0.data) :
    ∃ x1, s.files.getLast? = some x1 ∧ fileTotal C.M.d3 C.P x1 ID < fileTotal C.M.d3 C.P x0 ID := by
  obtain ⟨a1, a2, ra1, ra2, ef⟩ := Driver.first_file hm ho
  refine ⟨_, Driver.last_file hm ho, ?_⟩
  obtain rfl := Option.some.inj (hx0.symm.trans ef)
  obtain ⟨s0, r, ⟨m1, d, m2, r1, -, r2, rfl⟩, hl, e⟩ := hm
  obtain ⟨s1, rfl, rfl⟩ := Option.map_eq_some_iff.1 e.symm
  have e0 : ∀ y : HydroState ℝ, C.driver.saveIf y = C.driver.save y := fun y => if_pos ho
  -- the state after the constructor is the one in the first file
  have hfirst : (fun (c : Cell) v => a2 (c.at (C.driver.cur 0) v)) = fun (c : Cell) v => m2 (c.at (C.driver.cur 0) v) := by
    obtain ⟨l, hp⟩ := Driver.loop_prefix hl s1 rfl
    rw [e0, Driver.save_files, ← hp, e0, Driver.save_files] at hx0
    exact congrArg Snapshot.data (Option.some.inj hx0).symm
  rw [hfirst] at h0 ⊢
  obtain ⟨-, -, kp⟩ := mood_post hC m1
  obtain ⟨-, -, ki⟩ := mood_init (D := D) (Q := Q) hC (fun _ => lit 0)
  have hpoly : ∀ ip (c : Cell) v, m2 (c.at (aPoly ip) v) = 0 := by
    intro ip c v
    have ha : 10 ≤ (c.at (aPoly ip) v).arr := by show 10 ≤ 10 + ip; omega
    have hn : (c.at (aPoly ip) v).arr ≠ aU := by
      have : aU < 10 := by decide
      omega
    rw [(kp _ r2).2 _ ha, (ki _ r1).2 _ hn]
    exact lit_real 0 |>.trans (by norm_num)
  have hnf : C.driver.ctl.finished (C.driver.saveIf ⟨m2, C.driver.ctl.tCurrent,
      C.driver.ctl.computeDt C.driver.ctl.tCurrent d, 0, 0, []⟩).ctl = false := by
    simp only [Sim.finished, HydroState.ctl, (Driver.saveIf_eq _ _).2.1, (Driver.saveIf_eq _ _).2.2]
    have : ¬ (C.driver.ctl.tEnd - lit (1 / 10 ^ 14) ≤ C.driver.ctl.tCurrent) := by
      show ¬ (C.ctl.tEnd - (((1 / 10 ^ 14 : ℚ)) : ℝ) ≤ C.ctl.tCurrent)
      push_cast
      linarith
    simp only [leb, decide_eq_false this, Bool.false_or, decide_eq_false_iff_not]
    show ¬ (((0 : ℕ) : Int) ≥ C.ctl.nStepmax)
    omega
  cases hl with
  | done h => rw [hnf] at h; cases h
  | step _ _ hnext hl =>
    obtain ⟨d', m', hd, ⟨J, st⟩, rfl⟩ := hnext
    rw [(Driver.saveIf_eq _ _).1, (Driver.saveIf_eq _ _).2.2] at hd st
    rw [(Driver.saveIf_eq _ _).2.1] at st
    cases hl with
    | step hf =>
      refine absurd hf ?_
      have : C.driver.ctl.nStepmax = 1 := hn
      simp [Sim.finished, HydroState.ctl, (Driver.saveIf_eq _ _).2.2, this]
    | done =>
      have et : C.ti = .forward_euler := by
        simp only [MoodConf.ti, hti.1, hti.2.1, hti.2.2]; rfl
      change Runs (Mood.time_integration C.lay C.M C.S C.P J _ C.ti 0) m2 m' at st
      rw [et] at st
      have hrun : RestRun C.M C.S C.P B (C.driver.ctl.computeDt C.driver.ctl.tCurrent d') ρ p m2 (bufIn 0) := by
        have hd0 := mood_dt_pos hC hG hs hcfl.1 hd
        have hbound : 0 < C.ctl.computeDt C.ctl.tCurrent d' ∧ C.ctl.computeDt C.ctl.tCurrent d' ≤ d' := by
          unfold Sim.computeDt
          by_cases h : C.ctl.tEnd < C.ctl.tCurrent + d'
          · rw [if_pos ((ltb_iff _ _).2 h)]
            have : (0 : ℝ) < 1 / 10 ^ 14 := by norm_num
            constructor
            · show 0 < C.ctl.tEnd - C.ctl.tCurrent
              linarith
            · show C.ctl.tEnd - C.ctl.tCurrent ≤ d'
              linarith
          · rw [if_neg fun e => h ((ltb_iff _ _).1 e)]
            exact ⟨hd0, le_refl _⟩
        have hstate : ∀ c v, Inside C.M.d3 C.P c → v < hydroVars C.M.d3 →
            m2 (c.at (bufIn 0) v) = (Mood.restGas C.S ρ p).get v := h0
        refine ⟨hC.box, hM, hC.valid.id, h3, hllf, hG, hx, hy, hz, hs.dx, hs.dy, hbound.1, ?_, hρ, hp,
          fun i j k v a1 a2 a3 hv => hstate _ v (mood_cell_box hC.box a1 a2 a3) (hC.box.nv ▸ hv),
          fun ip c v _ _ _ _ => hpoly ip c v⟩
        obtain ⟨X, ⟨-, g⟩, hX⟩ := moodDt_greatest (nonempty_of_box hC.box (width_pos _)) hd
        rw [if_neg (by simp [hti.2.1])] at hX
        obtain ⟨c, hc⟩ := exists_inside hC.box (width_pos _)
        have hrate := g (.inr ⟨c, hc, rfl⟩)
        have hcell : field C.M.d3 m2 (bufIn 0) c = Mood.restGas C.S ρ p := by
          refine state_ext (field_norm ..) (by rw [h3]; rfl) fun v hv => ?_
          rw [field_get _ _ _ _ hv]
          exact hstate c v hc hv
        have hsound := C31_physical true hG (Mood.restGas C.S ρ p)
        have hprim := restGas_prim hG hρ.le hp
        rw [cflRate_eq, hcell, h3, hprim] at hrate
        simp only [hprim] at hsound
        obtain ⟨-, -, -, -, hc0, hc2⟩ := hsound
        set a := (computePrimitives true C.S (Mood.restGas C.S ρ p)).2
        have ha : Real.sqrt (C.S.gamma0 * p / ρ) = a := by rw [← hc2]; exact Real.sqrt_sq hc0.le
        simp only [signalRate, abs_zero, zero_add, if_true] at hrate
        have p1 := div_pos hc0 hs.dx
        have p2 := div_pos hc0 hs.dy
        have p3 := div_pos hc0 (hs.dz h3)
        have hXp : 0 < X := by linarith
        have hdX : d' * X = C.S.cfl := by rw [hX]; field_simp
        rw [ha]
        show a * (C.ctl.computeDt C.ctl.tCurrent d' / C.S.dx + 2 * (C.ctl.computeDt C.ctl.tCurrent d' / C.S.dy)) ≤ 2
        set τ := C.ctl.computeDt C.ctl.tCurrent d'
        have e1 : a * (τ / C.S.dx + 2 * (τ / C.S.dy)) = τ * (a / C.S.dx + 2 * (a / C.S.dy)) := by ring
        rw [e1]
        have e2 : τ * (a / C.S.dx + 2 * (a / C.S.dy)) ≤ d' * (2 * X) :=
          mul_le_mul hbound.2 (by linarith) (by linarith) hd0.le
        have := hcfl.2
        linarith
      have := C75_fails_3D hrun st
      simp only [fileTotal, (Driver.saveIf_eq _ _).1, (Driver.saveIf_eq _ _).2.2]
      exact this

/-! ### The premises are met -/

/-- At most `n` steps with forward Euler (with `rk` true: ssprk54) in a periodic box. -/
noncomputable def exampleMoodConf (d3 rk : Bool) (n : Int) : MoodConf ℝ :=
  ⟨.left, genuineScheme (if d3 then .d3deg1 else .d2deg1), llfSettings, exampleBox d3 .periodic, false, false, rk, -1,
    ⟨1, 0, n, 5, 10, false, id, fun _ => 0, fun u _ => u⟩⟩

theorem exampleMoodConf_ok (d3 rk : Bool) (n : Int) : (exampleMoodConf d3 rk n).Ok (Sides.all .periodic) := by
  cases d3
  · exact ⟨exampleBox_setup false .periodic, show StencilId.d2deg1 ≠ .d3deg4 by decide,
      show RiemannSolver.llf ≠ .hlld by decide, fun _ => show RiemannSolver.llf ≠ .hll by decide⟩
  · exact ⟨exampleBox_setup true .periodic, show StencilId.d3deg1 ≠ .d3deg4 by decide,
      show RiemannSolver.llf ≠ .hlld by decide, fun _ => show RiemannSolver.llf ≠ .hll by decide⟩

/-- The blast of a bomb as dense and as hot as the air: gas at rest. -/
private noncomputable def rest : BlastParams ℝ := ⟨1, 0, 0, 0, 1, 1, 1, 1⟩

private def unitBox : Domain ℝ := ⟨0, 3, 0, 2, 0, 2, 0, 0, 0⟩

private theorem rest_run (d3 rk : Bool) (n : Int) : ∃ s x0, (exampleMoodConf d3 rk n).Main unitBox (.blast rest) (some s) ∧
    s.files.head? = some x0 ∧ UniformCells (exampleMoodConf d3 rk n) (Mood.restGas llfSettings 1 1) x0.data := by
  have hC := exampleMoodConf_ok d3 rk n
  obtain ⟨⟨s, hs⟩, -⟩ := C132_same_files (D := unitBox) (Q := .blast rest) hC
  obtain ⟨x0, -, e, -, -, h, -⟩ := C132_first (G := blastGas (exampleMoodConf d3 rk n).M.d3 rest) hC
    (by simp [exampleMoodConf])
    (fun m => C130_blast (by norm_num [rest]) ⟨rfl, rfl, rfl⟩ (nonempty_of_box hC.box (width_pos _)) m) hs
  refine ⟨s, x0, hs, e, fun c v hc hv => (h c v hc hv).trans ?_⟩
  have hgas : ∀ d x y z, (blastGas d rest x y z).conserved (exampleMoodConf d3 rk n).S.gamma0 = Mood.restGas llfSettings 1 1 := by
    intro d x y z
    simp only [blastGas, rest, PointGas.conserved, exampleMoodConf, Mood.restGas, llfSettings, exampleSettings]
    norm_num
  rw [hgas]
  exact comp_eq_get _ _

/-- Gas at rest in two dimensions: the premises of the order of the files and of uniform flows. -/
example : ∃ s, (exampleMoodConf false false 100).Main unitBox (.blast rest) (some s) ∧ s.files ≠ [] ∧ InOrder 0 0 1 s.files ∧
    ∀ x ∈ s.files, UniformCells (exampleMoodConf false false 100) (Mood.restGas llfSettings 1 1) x.data := by
  have hC := exampleMoodConf_ok false false 100
  obtain ⟨s, x0, hs, e, hu⟩ := rest_run false false 100
  refine ⟨s, hs, fun h => by (rw [h] at e; cases e), ?_, ?_⟩
  · refine C132_order hC llfSettings_gas ⟨?_, ?_, fun _ => ?_⟩ ?_ ?_ hs <;>
      norm_num [exampleMoodConf, llfSettings, exampleSettings]
  · exact C132_uniform hC (genuineScheme_genuine _) llfSettings_gas rfl (by decide) (by decide)
      (by norm_num [Mood.restGas]) hs e hu

/-- Gas at rest in three dimensions: mass is lost. -/
example : ∃ s x0 x1, (exampleMoodConf true false 1).Main unitBox (.blast rest) (some s) ∧
    s.files.head? = some x0 ∧ s.files.getLast? = some x1 ∧
    fileTotal true (exampleBox true .periodic) x1 ID < fileTotal true (exampleBox true .periodic) x0 ID := by
  have hC := exampleMoodConf_ok true false 1
  obtain ⟨s, x0, hs, e, hu⟩ := rest_run true false 1
  obtain ⟨x1, e1, h1⟩ := C132_fails_3D (ρ := 1) (p := 1) hC (genuineScheme_genuine _) llfSettings_gas
    ⟨by norm_num [exampleMoodConf, llfSettings, exampleSettings], by norm_num [exampleMoodConf, llfSettings, exampleSettings],
      fun _ => by norm_num [exampleMoodConf, llfSettings, exampleSettings]⟩ rfl (by decide) (by decide) (by decide) rfl
    ⟨rfl, rfl, rfl⟩ (by norm_num [exampleMoodConf, llfSettings, exampleSettings]) rfl (by norm_num [exampleMoodConf])
    (by simp [exampleMoodConf]) (by norm_num [exampleMoodConf, llfSettings, exampleSettings])
    (by norm_num [exampleMoodConf, llfSettings, exampleSettings]) hs e hu
  exact ⟨s, x0, x1, hs, e, e1, h1⟩

/-- The implosion with ssprk54: all files show the start. -/
example (d3 : Bool) : ∃ s x0, (exampleMoodConf d3 true 100).Main unitBox .implode (some s) ∧ s.files.head? = some x0 ∧
    MoodFileShows (exampleMoodConf d3 true 100) unitBox (fixedImplosion (exampleMoodConf d3 true 100).M.d3) x0 ∧
    ∀ x ∈ s.files, SameCells (exampleMoodConf d3 true 100) x.data x0.data := by
  have hC := exampleMoodConf_ok d3 true 100
  obtain ⟨⟨s, hs⟩, -⟩ := C132_same_files (D := unitBox) (Q := .implode) hC
  obtain ⟨x0, -, e, -, -, h, -⟩ := C132_first (G := fixedImplosion (exampleMoodConf d3 true 100).M.d3) hC
    (by simp [exampleMoodConf]) (fun m => C130_implode ⟨rfl, rfl, rfl⟩ (nonempty_of_box hC.box (width_pos _)) m) hs
  exact ⟨s, x0, hs, e, h, C132_ssprk54_frozen hC rfl hs e⟩

end Verif
