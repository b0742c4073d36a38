import Verif.Spec.HydroProgram
import Verif.Lemmas.Restart
import Verif.Lemmas.InitHydro
import Verif.Lemmas.MhdFlux
import Verif.Props.C22_C26_HydroStep
import Verif.Props.C32_C59_Dt

/-! Helper lemmas: the hydro program runs a `Sim` on the content of the interior. -/

namespace Verif

open Spec ROps

/-- Content of the interior: cell `(i,j,k)` counted from the lower corner, variable. -/
abbrev Content := ℕ → ℕ → ℕ → ℕ → ℝ

/-- Indices of interior cells and variables. -/
def InsideOf (d3 : Bool) (P : Grid) (i j k v : ℕ) : Prop :=
  i < P.nx.toNat ∧ j < P.ny.toNat ∧ k < depth d3 P ∧ v < hydroVars d3

open Classical in
/-- Cut off outside. -/
noncomputable def Content.cut (d3 : Bool) (P : Grid) (f : Content) : Content :=
  fun i j k v => if InsideOf d3 P i j k v then f i j k v else 0

/-- The interior of array `U`. -/
noncomputable def interior (d3 : Bool) (P : Grid) (f : Cell → ℕ → ℝ) : Content :=
  Content.cut d3 P fun i j k v => f (cell d3 P i j k) v

/-- The content as a function on cells. -/
def Content.on (d3 : Bool) (P : Grid) (u : Content) (c : Cell) (v : ℕ) : ℝ :=
  u (c.i - P.ghostWidth).toNat (c.j - P.ghostWidth).toNat
    (if d3 then (c.k - P.ghostWidth).toNat else 0) v

/-- State made of the variables of a cell. -/
def stateOf (d3 : Bool) (f : ℕ → ℝ) : HState ℝ := ⟨f 0, f 1, f 2, f 3, if d3 then f 4 else 0⟩

/-- The content with ghost cells. -/
noncomputable def Content.filled (d3 : Bool) (P : Grid) (B : Sides) (u : Content) (c : Cell) : HState ℝ :=
  stateOf d3 fun v => crossAll d3 false P B c v (u.on d3 P (srcCell d3 P B c) v)

/-- Uninitialised variables are zero. -/
noncomputable def junk0 : Junk ℝ := ⟨fun _ _ _ => HState.zero, fun _ _ => HState.zero⟩

/-- One step on the content of the interior; `g` is the gravity field. -/
noncomputable def hydroUpdate (C : HydroConf ℝ) (B : Sides) (g : Cell → HState ℝ) (u : Content)
    (dt : ℝ) : Content :=
  Content.cut C.d3 C.P fun i j k v =>
    (stepCell C.d3 C.S C.grav dt
      (stepFlux C.d3 C.S junk0 C.impl C.grav dt (u.filled C.d3 C.P B) g)
      (u.filled C.d3 C.P B) g (cell C.d3 C.P i j k)).get v

/-- Rate of a cell with state `q` and gravity `g`. -/
noncomputable def rateOf (C : HydroConf ℝ) (q g : HState ℝ) : ℝ :=
  if C.grav then cflRateGravity C.d3 C.S q g else cflRate C.d3 C.S q

/-- The CFL time step of the content of the interior. -/
noncomputable def hydroDt (C : HydroConf ℝ) (g : Cell → HState ℝ) (u : Content) : ℝ :=
  C.S.cfl / sSup {r | ∃ i j k, i < C.P.nx.toNat ∧ j < C.P.ny.toNat ∧ k < depth C.d3 C.P ∧
    r = rateOf C (stateOf C.d3 (u i j k)) (g (cell C.d3 C.P i j k))}

/-- The run as the time loop sees it. -/
noncomputable def hydroSim (C : HydroConf ℝ) (B : Sides) (g : Cell → HState ℝ) : Sim Content ℝ where
  tEnd := C.ctl.tEnd
  tCurrent := C.ctl.tCurrent
  nStepmax := C.ctl.nStepmax
  nOutput := C.ctl.nOutput
  nlog := C.ctl.nlog
  dtInside := false
  fill := id
  dtLocal := hydroDt C g
  update := hydroUpdate C B g

/-- A file as its interior. -/
noncomputable def fileOf (C : HydroConf ℝ) (x : Snapshot (Cell → ℕ → ℝ) ℝ) : Snapshot Content ℝ :=
  ⟨x.number, x.time, interior C.d3 C.P x.data⟩

/-- The newest state of the arrays. -/
noncomputable def HydroState.content (C : HydroConf ℝ) (s : HydroState ℝ) : Content :=
  interior C.d3 C.P fun c v => s.m (c.at (bufIn s.iteration) v)

/-- The concrete state `s` is the state `σ` of the loop. -/
structure Views (C : HydroConf ℝ) (g : Cell → HState ℝ) (s : HydroState ℝ) (σ : SimState Content ℝ) :
    Prop where
  t : σ.t = s.t
  it : σ.iteration = s.iteration
  saved : σ.timesSaved = s.timesSaved
  newest : σ.newest = s.content C
  grav : gfield C.d3 s.m = g
  out : σ.out = s.files.map (fileOf C)

section
variable {C : HydroConf ℝ} {B : Sides} {g : Cell → HState ℝ}

theorem cut_inside {d3 : Bool} {P : Grid} {f : Content} {i j k v : ℕ} (h : InsideOf d3 P i j k v) :
    Content.cut d3 P f i j k v = f i j k v := if_pos h

theorem cut_congr {d3 : Bool} {P : Grid} {f f' : Content}
    (h : ∀ i j k v, InsideOf d3 P i j k v → f i j k v = f' i j k v) :
    Content.cut d3 P f = Content.cut d3 P f' := by
  funext i j k v
  unfold Content.cut
  split_ifs with hi
  · exact h i j k v hi
  · rfl

theorem field_eq_stateOf (d3 : Bool) (m : Addr → ℝ) (A : ℕ) (c : Cell) :
    field d3 m A c = stateOf d3 fun v => m (c.at A v) := by
  simp only [field, stateOf, lit, Rat.cast_zero]

theorem stateOf_congr {d3 : Bool} {f f' : ℕ → ℝ} (h : ∀ v, v < hydroVars d3 → f v = f' v) :
    stateOf d3 f = stateOf d3 f' := by
  cases d3
  · simp only [stateOf, h 0 (by decide), h 1 (by decide), h 2 (by decide), h 3 (by decide)]; rfl
  · simp only [stateOf, h 0 (by decide), h 1 (by decide), h 2 (by decide), h 3 (by decide),
      h 4 (by decide)]

/-! ### One step -/

theorem near_box {d3 : Bool} {P : Grid} (hg : 2 ≤ P.ghostWidth) {c c' : Cell} (hk : d3 = false → c.k = 0)
    (hs : P.sloped d3 c) (hn : near d3 c c') : P.box d3 c' := by
  rcases hn with rfl | ⟨d, hd, rfl | rfl⟩
  · exact Grid.sloped_box (by omega) hk hs
  · exact Grid.sloped_up_box hg hd hk hs
  · exact Grid.sloped_down_box hg hd hk hs

/-- The new state of an interior cell depends on the box around it only, wherever the box is. -/
theorem stepCell_shift {d3 : Bool} {S : Settings ℝ} (hv : ValidHydro d3 S) {P : Grid}
    (hg : 2 ≤ P.ghostWidth) {τ : Cell → Cell} (hτ : Translation τ) {u u' g g' : Cell → HState ℝ}
    {J J' : Junk ℝ} {impl : Int} {grav : Bool} {dt : ℝ}
    (hu : ∀ c, P.box d3 c → u' (τ c) = u c)
    (hgg : grav = true → ∀ c, P.box d3 c → g' (τ c) = g c)
    {c : Cell} (hb : P.box d3 c) (hi : P.inner d3 c) :
    stepCell d3 S grav dt (stepFlux d3 S J' impl grav dt u' g') u' g' (τ c) =
      stepCell d3 S grav dt (stepFlux d3 S J impl grav dt u g) u g c := by
  have hk : d3 = false → c.k = 0 := fun e => by subst e; exact Grid.box_k hb
  have key : ∀ (d : Dir) c, d.ok d3 → (d3 = false → c.k = 0) → P.faces d3 c →
      stepFlux d3 S J' impl grav dt u' g' d (τ c) = stepFlux d3 S J impl grav dt u g d c := by
    intro d c hd hk hf
    have b1 := Grid.sloped_box (by omega) hk (Grid.faces_sloped hf)
    have b2 := Grid.sloped_box (by omega) (Cell.down_k hd hk) (Grid.faces_down (d := d) hf)
    refine stepFlux_shift hv hτ (fun c' hc' => hu c' ?_) fun e => ⟨hgg e _ b1, hgg e _ b2⟩
    rcases hc' with hc' | hc'
    · exact near_box hg hk (Grid.faces_sloped hf) hc'
    · exact near_box hg (Cell.down_k hd hk) (Grid.faces_down hf) hc'
  have hc : ∀ d : Dir, d.ok d3 → stepFlux d3 S J' impl grav dt u' g' d (τ c) =
      stepFlux d3 S J impl grav dt u g d c := fun d hd => key d c hd hk (Grid.inner_faces hi)
  have hup : ∀ d : Dir, d.ok d3 → stepFlux d3 S J' impl grav dt u' g' d ((τ c).up d) =
      stepFlux d3 S J impl grav dt u g d (c.up d) := fun d hd => by
    rw [← hτ.up]; exact key d _ hd (Cell.up_k hd hk) (Grid.inner_up hd hi)
  have hx : Dir.ok d3 .x := Or.inr (by decide)
  have hy : Dir.ok d3 .y := Or.inr (by decide)
  have e : updCell d3 (stepFlux d3 S J' impl grav dt u' g') (u' (τ c)) (τ c) =
      updCell d3 (stepFlux d3 S J impl grav dt u g) (u c) c := by
    rw [hu c hb]
    cases d3
    · simp only [updCell, hc _ hx, hc _ hy, hup _ hx, hup _ hy]; rfl
    · simp only [updCell, hc _ hx, hc _ hy, hup _ hx, hup _ hy, hc .z (Or.inl rfl), hup .z (Or.inl rfl)]
  unfold stepCell
  rw [e, hu c hb]
  by_cases hgr : grav = true
  · rw [hgg hgr c hb]
  · rw [if_neg hgr, if_neg hgr]

/-- Content of an interior cell. -/
theorem interior_cell {d3 : Bool} {P : Grid} {f : Cell → ℕ → ℝ} {c : Cell} (hb : P.box d3 c)
    (hi : P.inner d3 c) {v : ℕ} (hv : v < hydroVars d3) :
    (interior d3 P f).on d3 P c v = f c v := by
  obtain ⟨i, j, k, h1, h2, h3, rfl⟩ := inner_cell hb hi
  have e1 : ((cell d3 P i j k).i - P.ghostWidth).toNat = i := by simp [cell]
  have e2 : ((cell d3 P i j k).j - P.ghostWidth).toNat = j := by simp [cell]
  unfold Content.on
  rw [e1, e2]
  cases d3
  · have : k = 0 := by simp [depth] at h3; omega
    subst this
    exact cut_inside ⟨h1, h2, h3, hv⟩
  · have e3 : ((cell true P i j k).k - P.ghostWidth).toNat = k := by simp [cell]
    simp only [if_true]
    rw [e3]
    exact cut_inside ⟨h1, h2, h3, hv⟩

/-- The filled memory holds the filled content. -/
theorem filled_field (h : BoxSetup C.d3 (hydroVars C.d3) 2 C.P B) {A : ℕ} {m m1 : Addr → ℝ}
    (f : FilledMem C.d3 false C.P B A m m1) {c : Cell} (hb : C.P.box C.d3 c) :
    field C.d3 m1 A c = (interior C.d3 C.P fun c v => m (c.at A v)).filled C.d3 C.P B c := by
  rw [field_eq_stateOf]
  refine stateOf_congr fun v hv => ?_
  obtain ⟨b, i⟩ := srcCell_inner h (by decide) hb
  rw [f.cells c v hb (h.nv ▸ hv), interior_cell b i hv]

/-- One step of the arrays is one step of the content. -/
theorem step_content (hC : C.Ok B) {J : Junk ℝ} {dt : ℝ} {it : ℕ} {m m' : Addr → ℝ}
    (r : Runs (godunov_unsplit C.d3 C.S C.P J C.impl C.grav dt it) m m') :
    (interior C.d3 C.P fun c v => m' (c.at (bufOut it) v)) =
      hydroUpdate C B (gfield C.d3 m) (interior C.d3 C.P fun c v => m (c.at (bufIn it) v)) dt ∧
    gfield C.d3 m' = gfield C.d3 m := by
  obtain ⟨m1, m2, f, y, R⟩ := step_whole (S := C.S) (J := J) (grav := C.grav) (dt := dt) (it := it)
    hC.box hC.impl m
  obtain rfl := y.unique r
  have hG : gfield C.d3 m1 = gfield C.d3 m := by
    have : ∀ a, a.arr = aG → m1 a = m a := fun a ha => f.frame a fun e => by
      have : bufIn it = aG := e.1.symm.trans ha
      unfold bufIn at this; split_ifs at this <;> simp [aU, aU2, aG] at this
    funext c
    simp only [gfield, this _ (show (c.at aG 0).arr = aG from rfl),
      this _ (show (c.at aG 1).arr = aG from rfl), this _ (show (c.at aG 2).arr = aG from rfl)]
  have hG' : gfield C.d3 m' = gfield C.d3 m1 := by
    funext c
    simp only [gfield, R.gravity _ (show (c.at aG 0).arr = aG from rfl),
      R.gravity _ (show (c.at aG 1).arr = aG from rfl), R.gravity _ (show (c.at aG 2).arr = aG from rfl)]
  refine ⟨?_, hG'.trans hG⟩
  refine cut_congr fun i j k v ⟨h1, h2, h3, h4⟩ => ?_
  obtain ⟨b1, b2⟩ := cell_box hC.box h1 h2 h3
  beta_reduce
  rw [← field_get C.d3 m' (bufOut it) _ h4, R.inner _ b1 b2, hG]
  congr 1
  exact (stepCell_shift hC.valid hC.box.gw Translation.id
    (fun c hc => (filled_field hC.box f hc).symm) (fun _ _ _ => rfl) b1 b2).symm

/-- The time step of the arrays is that of the content. -/
theorem dt_content (hC : C.Ok B) {it : ℕ} {m : Addr → ℝ} {d : ℝ}
    (r : ComputeDtLocal C.bot C.d3 C.S C.P C.grav it m d) :
    d = hydroDt C (gfield C.d3 m) (interior C.d3 C.P fun c v => m (c.at (bufIn it) v)) := by
  have hpos : ∀ c, C.P.box C.d3 c → C.P.inner C.d3 c → 0 < rateAt C.d3 C.S C.grav (bufIn it) m c := by
    intro c _ _
    by_cases hg : C.grav = true
    · rw [hg]; exact rateAt_gravity_pos hC.gas hC.spacings _ c
    · rw [Bool.not_eq_true] at hg
      simp only [rateAt, hg, Bool.false_eq_true, if_false, cflRate_eq]
      exact signalRate_pos hC.spacings (C31_physical C.d3 hC.gas _).2.2.2.2.1 _
  obtain ⟨M, rfl, -, h1, c, hb, hi, h2⟩ := computeDt_spec hC.box hC.bot hpos r
  unfold hydroDt
  congr 1
  symm
  have hq : ∀ i j k, i < C.P.nx.toNat → j < C.P.ny.toNat → k < depth C.d3 C.P →
      rateOf C (stateOf C.d3 ((interior C.d3 C.P fun c v => m (c.at (bufIn it) v)) i j k))
        (gfield C.d3 m (cell C.d3 C.P i j k)) = rateAt C.d3 C.S C.grav (bufIn it) m (cell C.d3 C.P i j k) := by
    intro i j k a1 a2 a3
    have e : stateOf C.d3 ((interior C.d3 C.P fun c v => m (c.at (bufIn it) v)) i j k) =
        field C.d3 m (bufIn it) (cell C.d3 C.P i j k) := by
      rw [field_eq_stateOf]
      exact stateOf_congr fun v hv => cut_inside ⟨a1, a2, a3, hv⟩
    rw [rateOf, rateAt, e]
  refine IsGreatest.csSup_eq ⟨?_, ?_⟩
  · obtain ⟨i, j, k, a1, a2, a3, rfl⟩ := inner_cell hb hi
    exact ⟨i, j, k, a1, a2, a3, by rw [hq i j k a1 a2 a3, h2]⟩
  · rintro x ⟨i, j, k, a1, a2, a3, rfl⟩
    obtain ⟨b1, b2⟩ := cell_box hC.box a1 a2 a3
    rw [hq i j k a1 a2 a3]
    exact h1 _ b1 b2

/-! ### The loop -/

theorem Views.finished {s : HydroState ℝ} {σ : SimState Content ℝ} (h : Views C g s σ) :
    (hydroSim C B g).finished σ = C.ctl.finished s.ctl := by
  simp only [Sim.finished, hydroSim, HydroState.ctl, h.t, h.it]
  rfl

theorem Views.shouldSave {s : HydroState ℝ} {σ : SimState Content ℝ} (h : Views C g s σ) :
    (hydroSim C B g).shouldSave σ = C.ctl.shouldSave s.ctl := by
  simp only [Sim.shouldSave, hydroSim, HydroState.ctl, h.t, h.saved]
  rfl

theorem save_file (s : HydroState ℝ) :
    s.save.files = s.files ++ [⟨s.timesSaved, s.t, fun c v => s.m (c.at (bufIn s.iteration) v)⟩] := rfl

theorem tmod_two (n : ℕ) : ((n : Int).tmod 2 = 0) ↔ n % 2 = 0 := by
  rw [Int.tmod_eq_emod_of_nonneg (by omega)]; omega

theorem Views.save {s : HydroState ℝ} {σ : SimState Content ℝ} (h : Views C g s σ) :
    Views C g s.save (Sim.saveSolution σ) := by
  refine ⟨h.t, h.it, ?_, h.newest, h.grav, ?_⟩
  · simp [Sim.saveSolution, HydroState.save, h.saved]
  · have e : (Sim.saveSolution σ).out = σ.out ++ [⟨σ.timesSaved, σ.t, σ.newest⟩] := rfl
    rw [e, save_file, List.map_append, h.out, h.saved, h.t, h.newest]
    rfl

theorem Views.saveIf {s : HydroState ℝ} {σ : SimState Content ℝ} (h : Views C g s σ) :
    Views C g (C.saveIf s) ((hydroSim C B g).finish σ) := by
  unfold HydroConf.saveIf Sim.finish
  have e : (hydroSim C B g).nOutput = C.ctl.nOutput := rfl
  rw [e]
  split_ifs
  · exact h.save
  · exact h

theorem setDt_exists (C : HydroConf ℝ) (s : HydroState ℝ) : ∃ s', C.SetDt s s' := by
  obtain ⟨d, hd⟩ := computeDt_exists C.bot C.d3 C.S C.P C.grav s.iteration s.m
  exact ⟨_, d, hd, rfl⟩

theorem next_exists (hC : C.Ok B) (s : HydroState ℝ) : ∃ s', C.Next s s' := by
  obtain ⟨s2, h2⟩ := setDt_exists C (if C.ctl.enableOutput && C.ctl.shouldSave s.ctl then s.save else s)
  obtain ⟨m1, m2, -, y, -⟩ := step_whole (S := C.S) (J := junk0) (grav := C.grav) (dt := s2.dt)
    (it := s2.iteration) hC.box hC.impl s2.m
  exact ⟨_, s2, h2, junk0, m2, y.run, rfl⟩

/-- A pass of the program is a pass of the loop. -/
theorem next_views (hC : C.Ok B) (hn : C.ctl.nlog ≠ 0) {s s' : HydroState ℝ} {σ : SimState Content ℝ}
    (h : Views C g s σ) (r : C.Next s s') :
    ∃ σ', (hydroSim C B g).nextIteration σ = some σ' ∧ Views C g s' σ' := by
  obtain ⟨σ', e, q⟩ := nextIteration_spec (S := hydroSim C B g) hn (s := σ) (by rw [h.it]; omega)
  refine ⟨σ', e, ?_⟩
  obtain ⟨s2, ⟨d, hd, rfl⟩, J, m', hr, rfl⟩ := r
  set s1 := if (C.ctl.enableOutput && C.ctl.shouldSave s.ctl) = true then s.save else s with hs1
  have e1 : s1.m = s.m ∧ s1.t = s.t ∧ s1.iteration = s.iteration := by
    rw [hs1]; split_ifs <;> exact ⟨rfl, rfl, rfl⟩
  obtain ⟨em, et, ei⟩ := e1
  rw [em, ei] at hd
  have hdt : (hydroSim C B g).stepDt σ = C.ctl.computeDt s1.t d := by
    have : (hydroSim C B g).stepDt σ = C.ctl.computeDt σ.t (hydroDt C g σ.newest) := rfl
    rw [this, dt_content hC hd, h.newest, h.t, et, h.grav]
    rfl
  simp only at hr
  rw [ei, em] at hr
  obtain ⟨c1, c2⟩ := step_content hC hr
  have hcond : ((hydroSim C B g).nOutput ≠ 0 ∧ (hydroSim C B g).shouldSave σ = true) ↔
      (C.ctl.enableOutput && C.ctl.shouldSave s.ctl) = true := by
    rw [h.shouldSave, Bool.and_eq_true, Sim.enableOutput]
    have : (hydroSim C B g).nOutput = C.ctl.nOutput := rfl
    rw [this]
    by_cases h0 : C.ctl.nOutput = 0 <;> simp [h0]
  refine ⟨?_, ?_, ?_, ?_, ?_, ?_⟩
  · rw [q.t, hdt, h.t, et]
  · rw [q.it, h.it, ei]; push_cast; rfl
  · rw [q.saved, hs1]
    simp only [hcond, h.saved]
    split_ifs <;> rfl
  · rw [q.newest, hdt]
    have : (hydroSim C B g).update ((hydroSim C B g).fill σ.newest) =
        hydroUpdate C B g σ.newest := rfl
    rw [this, h.newest, ← h.grav, HydroState.content, ← c1, HydroState.content]
    simp only [ei, ← bufOut_eq]
  · exact c2.trans h.grav
  · rw [q.out, hs1]
    simp only [hcond, h.saved, h.t, h.newest, h.out]
    split_ifs
    · rw [save_file, List.map_append]; rfl
    · simp

theorem views_loop (hC : C.Ok B) (hn : C.ctl.nlog ≠ 0) {s : HydroState ℝ} {σ σ' : SimState Content ℝ}
    (h : Views C g s σ) (hl : (hydroSim C B g).Loop σ (some σ')) :
    (∃ s', C.Loop s (some s')) ∧ ∀ r, C.Loop s r → ∃ s', r = some s' ∧ Views C g s' σ' := by
  generalize hx : some σ' = x at hl
  induction hl generalizing s with
  | done hf =>
    cases hx
    rw [h.finished] at hf
    refine ⟨⟨s, .done hf⟩, fun r hr => ?_⟩
    cases hr with
    | done => exact ⟨s, rfl, h⟩
    | ub hf' => simp_all
    | step hf' => simp_all
  | ub => cases hx
  | @step σ σ1 x hf hs hl ih =>
    rw [h.finished] at hf
    constructor
    · obtain ⟨s1, r1⟩ := next_exists hC s
      obtain ⟨σ2, e, v⟩ := next_views hC hn h r1
      rw [hs] at e; cases e
      obtain ⟨⟨s', l⟩, -⟩ := ih v hx
      exact ⟨s', .step hf hn r1 l⟩
    · intro r hr
      cases hr with
      | done hf' => simp_all
      | ub _ h0 => exact absurd h0 hn
      | step _ _ r1 l =>
        obtain ⟨σ2, e, v⟩ := next_views hC hn h r1
        rw [hs] at e; cases e
        exact (ih v hx).2 r l

/-- The loop ends. -/
theorem loop_ends {D α : Type} [ROps α] {S : Sim D α} (hn : S.nlog ≠ 0) {s : SimState D α} (h0 : 0 ≤ s.iteration) :
    ∃ s', S.Loop s (some s') := by
  obtain ⟨n, hk⟩ : ∃ n : ℕ, S.nStepmax ≤ s.iteration + n := ⟨(S.nStepmax - s.iteration).toNat, by omega⟩
  induction n generalizing s with
  | zero =>
    refine ⟨s, .done ?_⟩
    have : s.iteration ≥ S.nStepmax := by simpa using hk
    simp [Sim.finished, this]
  | succ n ih =>
    by_cases hf : S.finished s = true
    · exact ⟨s, .done hf⟩
    · obtain ⟨s1, e, q⟩ := nextIteration_spec hn h0
      obtain ⟨s', l⟩ := ih (s := s1) (by rw [q.it]; omega) (by rw [q.it]; push_cast at hk; omega)
      exact ⟨s', .step (by simpa using hf) e l⟩

/-- State of the loop at the start. -/
noncomputable def simStart (C : HydroConf ℝ) (B : Sides) (g : Cell → HState ℝ) (u : Content) (t : ℝ) (n : Int) :
    SimState Content ℝ :=
  (hydroSim C B g).finish ⟨t, C.ctl.computeDt t (hydroDt C g u), 0, n, u, u, []⟩

theorem start_views {setup : List (Launch Addr ℝ)} {m0 m1 : Addr → ℝ} {t : ℝ} {n : Int}
    (hu : ∀ m, Runs setup m0 m → m = m1) {s : HydroState ℝ} (r : C.Start setup m0 t n s) :
    Views C (gfield C.d3 m1) s (simStart C B (gfield C.d3 m1)
      (interior C.d3 C.P fun c v => m1 (c.at aU v)) t n) := by
  obtain ⟨m, s1, hr, ⟨d, hd, rfl⟩, rfl⟩ := r
  obtain rfl := hu m hr
  exact Views.saveIf ⟨rfl, rfl, rfl, rfl, rfl, rfl⟩

theorem start_exists {setup : List (Launch Addr ℝ)} {m0 m1 : Addr → ℝ} {t : ℝ} {n : Int}
    (hr : Runs setup m0 m1) : ∃ s, C.Start setup m0 t n s := by
  obtain ⟨s', h⟩ := setDt_exists C ⟨m1, t, C.ctl.tEnd, 0, n, []⟩
  exact ⟨_, m1, s', hr, h, rfl⟩

/-- The whole program does what the loop does. -/
theorem program_views (hC : C.Ok B) (hn : C.ctl.nlog ≠ 0) {setup : List (Launch Addr ℝ)} {m0 m1 : Addr → ℝ}
    {t : ℝ} {n : Int} (hr : Runs setup m0 m1) (hu : ∀ m, Runs setup m0 m → m = m1) :
    ∃ σ, (hydroSim C B (gfield C.d3 m1)).Loop (simStart C B (gfield C.d3 m1)
        (interior C.d3 C.P fun c v => m1 (c.at aU v)) t n) (some σ) ∧
      (∃ s r', C.Start setup m0 t n s ∧ C.Loop s (some r')) ∧
      ∀ s r', C.Start setup m0 t n s → C.Loop s r' → ∃ s', r'.map C.saveIf = some s' ∧
        Views C (gfield C.d3 m1) s' ((hydroSim C B (gfield C.d3 m1)).finish σ) := by
  obtain ⟨σ, l⟩ := loop_ends (S := hydroSim C B (gfield C.d3 m1)) hn (s := simStart C B (gfield C.d3 m1)
        (interior C.d3 C.P fun c v => m1 (c.at aU v)) t n) (by
      unfold simStart Sim.finish; split_ifs <;> exact le_refl _)
  refine ⟨σ, l, ?_, ?_⟩
  · obtain ⟨s, hs⟩ := start_exists (C := C) (t := t) (n := n) hr
    obtain ⟨⟨r', hl⟩, -⟩ := views_loop hC hn (start_views hu hs) l
    exact ⟨s, r', hs, hl⟩
  · intro s r' hs hl
    obtain ⟨s', rfl, v⟩ := (views_loop hC hn (start_views hu hs) l).2 r' hl
    exact ⟨_, rfl, v.saveIf⟩

/-! ### States on the way -/

theorem visits_loop {D α : Type} [ROps α] {S : Sim D α} {a s : SimState D α} {r : Option (SimState D α)}
    (hv : S.Visits a s) (hl : S.Loop s r) : S.Loop a r := by
  induction hv with
  | refl => exact hl
  | tail _ hf hn ih => exact ih (.step hf hn hl)

theorem reaches_views (hC : C.Ok B) (hn : C.ctl.nlog ≠ 0) {s0 s : HydroState ℝ} {σ0 : SimState Content ℝ}
    (h : Views C g s0 σ0) (hr : C.Reaches s0 s) :
    ∃ σ, (hydroSim C B g).Visits σ0 σ ∧ Views C g s σ := by
  induction hr with
  | refl => exact ⟨σ0, .refl, h⟩
  | tail _ hf hx ih =>
    obtain ⟨σ, v, w⟩ := ih
    obtain ⟨σ', e, w'⟩ := next_views hC hn w hx
    exact ⟨σ', .tail v (w.finished.trans hf) e, w'⟩

/-- The constructor of a restarted run. -/
theorem restart_once (hC : C.Ok B) (m : Addr → ℝ) :
    ∃ m1, Runs (hydroBoundaries C.d3 C.P aU ++ [deepCopy C.d3 C.P aU2 aU]) m m1 ∧
      (∀ m', Runs (hydroBoundaries C.d3 C.P aU ++ [deepCopy C.d3 C.P aU2 aU]) m m' → m' = m1) ∧
      (interior C.d3 C.P fun c v => m1 (c.at aU v)) = (interior C.d3 C.P fun c v => m (c.at aU v)) ∧
      ∀ a, a.arr ≠ aU → a.arr ≠ aU2 → m1 a = m a := by
  have h := hC.box
  have hok : HydroOk C.d3 C.P C.impl aU aU2 := ⟨h.gw, h.nv, Or.inl ⟨rfl, rfl⟩, hC.impl⟩
  obtain ⟨m1, y1, f1⟩ := fill_mem C.d3 false h (by decide) aU m
  have y2 := deepCopy_yields (grav := C.grav) hok m1
  have y : YieldsAll (hydroDom C.d3 C.P C.impl C.grav)
      (hydroBoundaries C.d3 C.P aU ++ [deepCopy C.d3 C.P aU2 aU]) m
      (setArr C.d3 m1 aU2 (C.P.box C.d3) (field C.d3 m1 aU)) := by
    refine YieldsAll.append (y1.mono ?_) (.cons y2 (.nil _))
    rintro a ⟨h1, h2, h3⟩
    have := hok.dom_in (grav := C.grav) h2 a.v (h.nv ▸ h3)
    rw [← h1] at this
    exact this
  refine ⟨_, y.run, fun m' r => y.unique r, ?_, ?_⟩
  · refine cut_congr fun i j k v ⟨a1, a2, a3, a4⟩ => ?_
    obtain ⟨b1, b2⟩ := cell_box h a1 a2 a3
    beta_reduce
    rw [setArr_ne (Or.inl (by simp [aU, aU2])), f1.interior b1 b2 (h.nv ▸ a4)]
  · intro a h1 h2
    rw [setArr_ne (Or.inl h2), f1.frame _ fun e => h1 e.1]

/-! ### No gravity field -/

theorem pred_zero (d3 grav : Bool) (dt : ℝ) (g q : HState ℝ) (hg : g.u = 0 ∧ g.v = 0 ∧ g.w = 0) :
    pred d3 grav dt g q = q := by
  obtain ⟨h1, h2, h3⟩ := hg
  unfold pred addGravity
  cases grav
  · rfl
  · cases q; cases d3 <;> simp [h1, h2, h3]

theorem stepFlux_still {d3 : Bool} {S : Settings ℝ} {J : Junk ℝ} {impl : Int} {dt : ℝ}
    {u g : Cell → HState ℝ} (hg : ∀ c, (g c).u = 0 ∧ (g c).v = 0 ∧ (g c).w = 0) (grav : Bool) (d : Dir) (c : Cell) :
    stepFlux d3 S J impl grav dt u g d c = stepFlux d3 S J impl false dt u g d c := by
  unfold stepFlux fluxAt fluxAtSplit fluxOf
  simp only [pred_zero _ _ _ _ _ (hg _)]

theorem stepCell_still {d3 : Bool} {S : Settings ℝ} {dt : ℝ} {F : Dir → Cell → HState ℝ}
    {u g : Cell → HState ℝ} (hg : ∀ c, (g c).u = 0 ∧ (g c).v = 0 ∧ (g c).w = 0) (grav : Bool) (c : Cell) :
    stepCell d3 S grav dt F u g c = stepCell d3 S false dt F u g c := by
  obtain ⟨h1, h2, h3⟩ := hg c
  unfold stepCell gravitySource
  cases grav
  · rfl
  · simp only [if_true, Bool.false_eq_true, if_false, h1, h2, h3, mul_zero, zero_mul, add_zero]
    cases d3 <;> simp

theorem sameFiles_of {a b : List (Snapshot (Cell → ℕ → ℝ) ℝ)}
    (h : a.map (fileOf C) = b.map (fileOf C)) : SameFiles C.d3 C.P a b := by
  induction a generalizing b with
  | nil => cases b with
    | nil => exact .nil
    | cons => simp at h
  | cons x a ih => cases b with
    | nil => simp at h
    | cons y b =>
      simp only [List.map_cons, List.cons.injEq] at h
      refine .cons ?_ (ih h.2)
      have h1 := congrArg Snapshot.number h.1
      have h2 := congrArg Snapshot.time h.1
      have h3 := congrArg Snapshot.data h.1
      refine ⟨h1, h2, fun i j k v a1 a2 a3 a4 => ?_⟩
      have := congrFun (congrFun (congrFun (congrFun h3 i) j) k) v
      simp only [fileOf, interior] at this
      rwa [cut_inside ⟨a1, a2, a3, a4⟩, cut_inside ⟨a1, a2, a3, a4⟩] at this

/-! ### Invariants of the loop -/

/-- What holds of the newest array and of all files holds at the end if a step keeps it. -/
theorem loop_files {I : (Cell → ℕ → ℝ) → Prop} {G : (Addr → ℝ) → Prop}
    (hstep : ∀ J dt it m m', Runs (godunov_unsplit C.d3 C.S C.P J C.impl C.grav dt it) m m' → G m →
      I (fun c v => m (c.at (bufIn it) v)) → G m' ∧ I (fun c v => m' (c.at (bufIn (it + 1)) v)))
    {s : HydroState ℝ} {r : Option (HydroState ℝ)} (hl : C.Loop s r)
    (hg : G s.m) (h1 : I (fun c v => s.m (c.at (bufIn s.iteration) v))) (h2 : ∀ x ∈ s.files, I x.data) :
    ∀ s', r = some s' → I (fun c v => s'.m (c.at (bufIn s'.iteration) v)) ∧ ∀ x ∈ s'.files, I x.data := by
  induction hl with
  | done => rintro s' ⟨⟩; exact ⟨h1, h2⟩
  | ub => rintro s' ⟨⟩
  | @step s s1 r _ _ hn _ ih =>
    obtain ⟨s2, ⟨d, -, rfl⟩, J, m', hr, rfl⟩ := hn
    by_cases hs : (C.ctl.enableOutput && C.ctl.shouldSave s.ctl) = true
    · rw [if_pos hs] at hr ih
      have hm : G s.save.m := hg
      refine ih (hstep _ _ _ _ _ hr hm h1).1 (hstep _ _ _ _ _ hr hm h1).2 fun x hx => ?_
      rw [show ({ s.save with dt := _, m := _, iteration := _, t := _ } : HydroState ℝ).files = s.save.files
        from rfl, save_file, List.mem_append, List.mem_singleton] at hx
      rcases hx with hx | rfl
      · exact h2 x hx
      · exact h1
    · rw [if_neg hs] at hr ih
      exact ih (hstep _ _ _ _ _ hr hg h1).1 (hstep _ _ _ _ _ hr hg h1).2 h2

/-- Files are never taken back. -/
theorem loop_prefix {s : HydroState ℝ} {r : Option (HydroState ℝ)} (hl : C.Loop s r) :
    ∀ s', r = some s' → s.files <+: s'.files := by
  induction hl with
  | done => rintro s' ⟨⟩; exact List.prefix_refl _
  | ub => rintro s' ⟨⟩
  | @step s s1 r _ _ hn _ ih =>
    obtain ⟨s2, ⟨d, -, rfl⟩, J, m', hr, rfl⟩ := hn
    intro s' e
    refine List.IsPrefix.trans ?_ (ih s' e)
    split_ifs
    · exact List.prefix_append _ _
    · exact List.prefix_refl _

/-- The first file holds the array `U` the constructor leaves. -/
theorem first_file {s0 : HydroState ℝ} {r : Option (HydroState ℝ)} {setup : List (Launch Addr ℝ)}
    {m0 : Addr → ℝ} {t : ℝ} {n : Int} (hs : C.Start setup m0 t n s0) (hl : C.Loop s0 r) {s : HydroState ℝ}
    (e : r.map C.saveIf = some s) (ho : C.ctl.nOutput ≠ 0) :
    ∃ m1, Runs setup m0 m1 ∧ s.files.head? = some ⟨n, t, fun c v => m1 (c.at aU v)⟩ := by
  obtain ⟨s1, rfl, rfl⟩ := Option.map_eq_some_iff.1 e
  obtain ⟨m1, s2, hr, ⟨d, -, rfl⟩, rfl⟩ := hs
  have e0 : ∀ y : HydroState ℝ, C.saveIf y = y.save := fun y => if_pos ho
  refine ⟨m1, hr, ?_⟩
  obtain ⟨l, hl⟩ := loop_prefix hl s1 rfl
  rw [e0, save_file, ← hl, e0, save_file]
  rfl

/-- Without output there are no files. -/
theorem no_files {s0 : HydroState ℝ} {r : Option (HydroState ℝ)} {setup : List (Launch Addr ℝ)}
    {m0 : Addr → ℝ} {t : ℝ} {n : Int} (hs : C.Start setup m0 t n s0) (hl : C.Loop s0 r) {s : HydroState ℝ}
    (e : r.map C.saveIf = some s) (ho : C.ctl.nOutput = 0) : s.files = [] := by
  obtain ⟨s1, rfl, rfl⟩ := Option.map_eq_some_iff.1 e
  obtain ⟨m1, s2, -, ⟨d, -, rfl⟩, rfl⟩ := hs
  have e0 : ∀ y : HydroState ℝ, C.saveIf y = y := fun y => if_neg (by simp [ho])
  have key : ∀ {s r}, C.Loop s r → s.files = [] → ∀ s', r = some s' → s'.files = [] := by
    intro s r hl
    induction hl with
    | done => rintro h s' ⟨⟩; exact h
    | ub => rintro h s' ⟨⟩
    | @step s s1 r _ _ hn _ ih =>
      intro h
      obtain ⟨s2, ⟨d, -, rfl⟩, J, m', hr, rfl⟩ := hn
      refine ih ?_
      rw [if_neg (by simp [Sim.enableOutput, ho])]
      exact h
  rw [e0] at hl ⊢
  exact key hl rfl s1 rfl

/-- What holds of the first file holds of all if a step keeps it. -/
theorem run_files {I : (Cell → ℕ → ℝ) → Prop} {G : (Addr → ℝ) → Prop}
    (hstep : ∀ J dt it m m', Runs (godunov_unsplit C.d3 C.S C.P J C.impl C.grav dt it) m m' → G m →
      I (fun c v => m (c.at (bufIn it) v)) → G m' ∧ I (fun c v => m' (c.at (bufIn (it + 1)) v)))
    {s0 : HydroState ℝ} {r : Option (HydroState ℝ)} {setup : List (Launch Addr ℝ)} {m0 : Addr → ℝ} {t : ℝ}
    {n : Int} (hs : C.Start setup m0 t n s0) (hg : ∀ m, Runs setup m0 m → G m) (hl : C.Loop s0 r)
    {s : HydroState ℝ} (e : r.map C.saveIf = some s) {x0 : Snapshot (Cell → ℕ → ℝ) ℝ} (hx : s.files.head? = some x0)
    (h0 : I x0.data) : ∀ x ∈ s.files, I x.data := by
  by_cases ho : C.ctl.nOutput = 0
  · rw [no_files hs hl e ho] at hx; cases hx
  have hs' := hs
  obtain ⟨s1, rfl, rfl⟩ := Option.map_eq_some_iff.1 e
  obtain ⟨m1, s2, hr, ⟨d, -, rfl⟩, rfl⟩ := hs
  have e0 : ∀ y : HydroState ℝ, C.saveIf y = y.save := fun y => if_pos ho
  have hI : I (fun c v => m1 (c.at (bufIn 0) v)) := by
    obtain ⟨l, hp⟩ := loop_prefix hl s1 rfl
    rw [e0, save_file, ← hp, e0, save_file] at hx
    simp only [List.nil_append, List.cons_append, List.head?_cons, Option.some.injEq] at hx
    rw [← hx] at h0
    exact h0
  obtain ⟨a, b⟩ := loop_files hstep hl (by rw [e0]; exact hg _ hr) (by rw [e0]; exact hI)
    (by rw [e0, save_file]; simpa using hI) s1 rfl
  intro x hx
  rw [e0, save_file, List.mem_append, List.mem_singleton] at hx
  rcases hx with hx | rfl
  · exact b x hx
  · exact a

end

end Verif
