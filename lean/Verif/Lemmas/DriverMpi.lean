import Verif.Lemmas.HighProgram
import Verif.Lemmas.HydroMpi
import Verif.Model.SdmMpi

/-! Lemmas about the time loop of a solver on several MPI processes. -/

namespace Verif.Driver

open Spec ROps

/-- Several processes (`V`, programs `J` of a step) and one process (`W`) side by side.  `K`: the processes hold what the one
process holds; `Good` is assumed of the memory of the one process where a time step is computed; `F`: rank `r` shows its part. -/
structure MpiTwins (V W : Driver ℝ) (N : Nat) (J : Jobs ℝ) (K : (Nat → Addr → ℝ) → (Addr → ℝ) → Prop)
    (F : Nat → FileData → FileData → Prop) (Good : (Addr → ℝ) → Prop) : Prop where
  pos : 0 < N
  ctl : V.ctl = W.ctl
  every : V.every = W.every
  congr : ∀ {s s' : Nat → Addr → ℝ} {m}, (∀ r, r < N → s' r = s r) → K s m → K s' m
  dtExists : ∀ it m, ∃ d, V.Dt it m d
  dt : ∀ {it s m} {L D : Nat → ℝ} {d : ℝ}, K s m → Good m → (∀ r, r < N → V.Dt it (s r) (L r)) →
    AllReduce mpiMin N L D → W.Dt it m d → ∀ r, r < N → D r = d
  jobExists : ∀ its dts, ∃ prog, J its dts prog
  job : ∀ {it dt s m m'} {its : Nat → Nat} {dts : Nat → ℝ} {prog}, K s m → J its dts prog →
    (∀ r, r < N → its r = it) → (∀ r, r < N → dts r = dt) → W.Step it dt m m' →
    ∃ dom, JobOK N prog dom s fun R => K R m'
  shows : ∀ {it s m}, K s m → ∀ r, r < N →
    F r (fun c v => s r (c.at (V.cur it) v)) (fun c v => m (c.at (W.cur it) v))

/-- The states of the processes and of the one process at the same moment. -/
structure MpiSide (N : Nat) (K : (Nat → Addr → ℝ) → (Addr → ℝ) → Prop) (F : Nat → FileData → FileData → Prop)
    (s : Nat → HydroState ℝ) (z : HydroState ℝ) : Prop where
  t : ∀ r, r < N → (s r).t = z.t
  it : ∀ r, r < N → (s r).iteration = z.iteration
  saved : ∀ r, r < N → (s r).timesSaved = z.timesSaved
  data : K (fun r => (s r).m) z.m
  files : ∀ r, r < N → List.Forall₂ (Alike (F r)) (s r).files z.files

section
variable {V W : Driver ℝ} {N : Nat} {J : Jobs ℝ} {K : (Nat → Addr → ℝ) → (Addr → ℝ) → Prop}
  {F : Nat → FileData → FileData → Prop} {Good : (Addr → ℝ) → Prop} {s s' : Nat → HydroState ℝ} {z z' : HydroState ℝ}

theorem MpiSide.congr (T : MpiTwins V W N J K F Good) (h : MpiSide N K F s z) (e : ∀ r, r < N → s' r = s r) :
    MpiSide N K F s' z :=
  ⟨fun r hr => by rw [e r hr]; exact h.t r hr, fun r hr => by rw [e r hr]; exact h.it r hr,
    fun r hr => by rw [e r hr]; exact h.saved r hr, T.congr (fun r hr => by rw [e r hr]) h.data,
    fun r hr => by rw [e r hr]; exact h.files r hr⟩

theorem MpiSide.save (T : MpiTwins V W N J K F Good) (h : MpiSide N K F s z) :
    MpiSide N K F (fun r => V.save (s r)) (W.save z) := by
  refine ⟨h.t, h.it, fun r hr => ?_, h.data, fun r hr => ?_⟩
  · simp only [Driver.save, h.saved r hr]
  · refine List.rel_append (h.files r hr) (.cons ⟨h.saved r hr, h.t r hr, ?_⟩ .nil)
    have := T.shows (it := z.iteration) h.data r hr
    simp only [Driver.file]
    rw [h.it r hr]
    exact this

theorem MpiSide.saveIf (T : MpiTwins V W N J K F Good) (h : MpiSide N K F s z) :
    MpiSide N K F (fun r => V.saveIf (s r)) (W.saveIf z) := by
  unfold Driver.saveIf
  rw [T.ctl]
  split_ifs
  · exact h.save T
  · exact h

theorem MpiSide.finished (T : MpiTwins V W N J K F Good) (h : MpiSide N K F s z) {r : Nat} (hr : r < N) :
    V.ctl.finished (s r).ctl = W.ctl.finished z.ctl := by
  rw [T.ctl]
  simp only [Sim.finished, HydroState.ctl, h.t r hr, h.it r hr]
  rfl

theorem MpiSide.saveDue (T : MpiTwins V W N J K F Good) (h : MpiSide N K F s z) :
    MpiSide N K F (fun r => V.saveDue (s r)) (W.saveDue z) := by
  have e : ∀ r, r < N → V.ctl.shouldSave (s r).ctl = W.ctl.shouldSave z.ctl := by
    intro r hr
    rw [T.ctl]
    simp only [Sim.shouldSave, HydroState.ctl, h.t r hr, h.saved r hr]
    rfl
  unfold Driver.saveDue
  by_cases hs : (W.ctl.enableOutput && W.ctl.shouldSave z.ctl) = true
  · rw [if_pos hs]
    refine (h.save T).congr T fun r hr => if_pos ?_
    rw [e r hr, T.ctl]; exact hs
  · rw [if_neg hs]
    refine h.congr T fun r hr => if_neg ?_
    rw [e r hr, T.ctl]; exact hs

theorem mpiSetDt_exists (T : MpiTwins V W N J K F Good) (s : Nat → HydroState ℝ) : ∃ s', V.MpiSetDt N s s' := by
  choose L hL using fun r => T.dtExists (s r).iteration (s r).m
  obtain ⟨D, hD⟩ := allReduce_exists T.pos L
  exact ⟨_, L, D, fun r _ => hL r, hD, fun _ _ => rfl⟩

theorem MpiSide.setDt (T : MpiTwins V W N J K F Good) (h : MpiSide N K F s z) (hg : Good z.m)
    (r : V.MpiSetDt N s s') {d : ℝ} (hd : W.Dt z.iteration z.m d) :
    MpiSide N K F s' z ∧ ∀ r, r < N → (s' r).dt = W.ctl.computeDt z.t d := by
  obtain ⟨L, D, hL, hD, e⟩ := r
  have k := T.dt h.data hg (it := z.iteration) (L := L) (fun r hr => by rw [← h.it r hr]; exact hL r hr) hD hd
  refine ⟨⟨fun r hr => by rw [e r hr]; exact h.t r hr, fun r hr => by rw [e r hr]; exact h.it r hr,
    fun r hr => by rw [e r hr]; exact h.saved r hr, T.congr (fun r hr => by rw [e r hr]) h.data,
    fun r hr => by rw [e r hr]; exact h.files r hr⟩, fun r hr => ?_⟩
  rw [e r hr]
  simp only [k r hr, h.t r hr, T.ctl]

theorem MpiSide.before (T : MpiTwins V W N J K F Good) (h : MpiSide N K F s z) (hg : Good z.m)
    (r : V.MpiBefore N s s') {d : ℝ} (hd : W.Dt z.iteration z.m d) :
    MpiSide N K F s' (W.saveDue z) ∧ ∀ r, r < N → (s' r).dt = W.ctl.computeDt z.t d := by
  obtain ⟨e1, e2, e3⟩ := saveDue_eq W z
  have := (h.saveDue T).setDt T (by rw [e1]; exact hg) r (d := d) (by rw [e1, e3]; exact hd)
  rw [e2] at this
  exact this

/-- The job of a step. -/
theorem MpiSide.job (T : MpiTwins V W N J K F Good) (h : MpiSide N K F s (W.saveDue z)) {dt : ℝ}
    (hd : ∀ r, r < N → (s r).dt = dt) {prog : Nat → List (MpiOp ℝ)}
    (hj : J (fun r => (s r).iteration) (fun r => (s r).dt) prog) {m' : Addr → ℝ} (st : W.Step z.iteration dt z.m m') :
    ∃ dom, JobOK N prog dom (fun r => (s r).m) fun R => K R m' := by
  obtain ⟨e1, -, e3⟩ := saveDue_eq W z
  exact T.job (it := z.iteration) h.data hj (fun r hr => (h.it r hr).trans e3) hd (e1.symm ▸ st)

theorem MpiSide.next (T : MpiTwins V W N J K F Good) (h : MpiSide N K F s z) (hg : Good z.m)
    (r : V.MpiNext N J s s') (q : W.Next z z') : MpiSide N K F s' z' := by
  obtain ⟨s2, h2, prog, M', hj, hr, e⟩ := r
  obtain ⟨d, m', hd, st, rfl⟩ := q
  obtain ⟨b, hdt⟩ := h.before T hg h2 hd
  obtain ⟨e1, e2, e3⟩ := saveDue_eq W z
  obtain ⟨dom, ok⟩ := b.job T hdt hj st
  refine ⟨fun r hr => ?_, fun r hr => ?_, fun r hr => by rw [e r hr]; exact b.saved r hr, ?_, fun r hr => ?_⟩
  · rw [e r hr]; simp only [b.t r hr, hdt r hr, e2]
  · rw [e r hr]; simp only [b.it r hr, e3]
  · exact T.congr (fun r hr => by rw [e r hr]) (ok.of_run hr)
  · rw [e r hr]; exact b.files r hr

theorem Reaches.head {z1 z2 : HydroState ℝ} (hf : W.ctl.finished z.ctl = false) (n : W.Next z z1)
    (r : W.Reaches z1 z2) : W.Reaches z z2 := by
  induction r with
  | refl => exact .tail .refl hf n
  | tail _ hf n ih => exact .tail ih hf n

theorem MpiSide.loop (T : MpiTwins V W N J K F Good) (hn : W.every ≠ 0) (h : MpiSide N K F s z)
    (hg : ∀ y, W.Reaches z y → Good y.m) (hl : W.Loop z (some z')) :
    (∃ s', V.MpiLoop N J s (some s')) ∧ ∀ x, V.MpiLoop N J s x → ∃ s', x = some s' ∧ MpiSide N K F s' z' := by
  have h0 := T.pos
  generalize hx : some z' = x at hl
  induction hl generalizing s with
  | done hf =>
    cases hx
    refine ⟨⟨s, .done fun r hr => by rw [h.finished T hr]; exact hf⟩, fun x hx => ?_⟩
    have no : ∀ r, r < N → ¬ V.ctl.finished (s r).ctl = false := fun r hr e => by
      rw [h.finished T hr, hf] at e; cases e
    cases hx with
    | done => exact ⟨s, rfl, h⟩
    | ub hr e => exact absurd e (no _ hr)
    | mixed _ hr _ e => exact absurd e (no _ hr)
    | hang e => exact absurd (e 0 h0) (no 0 h0)
    | step e => exact absurd (e 0 h0) (no 0 h0)
  | ub => cases hx
  | @step z z1 x hf _ hs hl ih =>
    have go : ∀ r, r < N → V.ctl.finished (s r).ctl = false := fun r hr => by rw [h.finished T hr]; exact hf
    have no : ∀ r, r < N → ¬ V.ctl.finished (s r).ctl = true := fun r hr e => by rw [go r hr] at e; cases e
    have hgz := hg z .refl
    have hg1 : ∀ y, W.Reaches z1 y → Good y.m := fun y r => hg y (r.head hf hs)
    have hv : V.every ≠ 0 := T.every ▸ hn
    constructor
    · obtain ⟨s2, h2⟩ := mpiSetDt_exists T (fun r => V.saveDue (s r))
      obtain ⟨prog, hj⟩ := T.jobExists (fun r => (s2 r).iteration) (fun r => (s2 r).dt)
      have hs' := hs
      obtain ⟨d, m', hd, st, rfl⟩ := hs'
      obtain ⟨b, hdt⟩ := h.before T hgz h2 hd
      obtain ⟨dom, ok⟩ := b.job T hdt hj st
      obtain ⟨M', hM'⟩ := ok.exists_run
      have nx : V.MpiNext N J s (fun r => { s2 r with
          m := M' r, iteration := (s2 r).iteration + 1, t := (s2 r).t + (s2 r).dt }) :=
        ⟨s2, h2, prog, M', hj, hM', fun _ _ => rfl⟩
      obtain ⟨⟨s', l⟩, -⟩ := ih (h.next T hgz nx hs) hg1 hx
      exact ⟨s', .step go hv nx l⟩
    · intro x hx'
      cases hx' with
      | done e => exact absurd (e 0 h0) (no 0 h0)
      | ub _ _ e => exact absurd e hv
      | mixed hr _ e => exact absurd e (no _ hr)
      | hang _ h2 hj hh =>
        obtain ⟨d, m', hd, st, rfl⟩ := hs
        obtain ⟨b, hdt⟩ := h.before T hgz h2 hd
        obtain ⟨dom, ok⟩ := b.job T hdt hj st
        exact absurd hh ok.no_hang
      | step _ _ nx l => exact (ih (h.next T hgz nx hs) hg1 hx).2 _ l

/-- The whole program. -/
theorem mpi_main (T : MpiTwins V W N J K F Good) (hn : W.every ≠ 0) {init : Nat → List (Launch Addr ℝ)}
    {post : Nat → List (MpiOp ℝ)} {initW postW : List (Launch Addr ℝ)}
    (hex : ∃ M : Nat → Addr → ℝ, ∀ r, r < N → Runs (init r) (fun _ => lit 0) (M r))
    (hinit : ∀ {M : Nat → Addr → ℝ} {m}, (∀ r, r < N → Runs (init r) (fun _ => lit 0) (M r)) →
      Runs initW (fun _ => lit 0) m → K M m)
    (hpost : ∀ {M : Nat → Addr → ℝ} {m m'}, K M m → Runs postW m m' → ∃ dom, JobOK N post dom M fun R => K R m')
    (hgood : ∀ {m m'}, Runs postW m m' → Good m' → Good m)
    (hg : ∀ y, W.Visits initW postW y → Good y.m) (hm : W.Main initW postW (some z)) :
    (∃ s, V.MpiMain N J init post (some s)) ∧
      ∀ x, V.MpiMain N J init post x → ∃ s, x = some s ∧ MpiSide N K F s z := by
  obtain ⟨z0, r0, ⟨m1, d, m2, r1, hd, r2, rfl⟩, hl, e⟩ := hm
  obtain ⟨z1, rfl, rfl⟩ := Option.map_eq_some_iff.1 e.symm
  have hg' : ∀ y, W.Reaches (W.saveIf ⟨m2, W.ctl.tCurrent, W.ctl.computeDt W.ctl.tCurrent d, 0, 0, []⟩) y → Good y.m :=
    fun y hy => hg y ⟨_, ⟨m1, d, m2, r1, hd, r2, rfl⟩, hy⟩
  have g2 : Good m2 := by
    have := hg' _ .refl
    rw [(saveIf_eq W _).1] at this
    exact this
  have g1 : Good m1 := hgood r2 g2
  -- after the first time step
  have start : ∀ {s : Nat → HydroState ℝ}, V.MpiStart N init s →
      MpiSide N K F s ⟨m1, W.ctl.tCurrent, W.ctl.tEnd, 0, 0, []⟩ := by
    rintro s ⟨M1, hM1, hs⟩
    have h0 : MpiSide N K F (fun r => ⟨M1 r, V.ctl.tCurrent, V.ctl.tEnd, 0, 0, []⟩)
        ⟨m1, W.ctl.tCurrent, W.ctl.tEnd, 0, 0, []⟩ :=
      ⟨fun r _ => by rw [T.ctl], fun _ _ => rfl, fun _ _ => rfl, hinit hM1 r1, fun _ _ => .nil⟩
    exact (h0.setDt T g1 hs hd).1
  -- after the exchange
  have after : ∀ {s : Nat → HydroState ℝ} {M : Nat → Addr → ℝ}, V.MpiStart N init s →
      JobRuns N post (fun r => (s r).m) M → MpiSide N K F (fun r => V.saveIf { s r with m := M r })
        (W.saveIf ⟨m2, W.ctl.tCurrent, W.ctl.computeDt W.ctl.tCurrent d, 0, 0, []⟩) := by
    intro s M hs hr
    have b := start hs
    obtain ⟨dom, ok⟩ := hpost b.data r2
    have k := ok.of_run hr
    exact MpiSide.saveIf T ⟨b.t, b.it, b.saved, k, b.files⟩
  constructor
  · obtain ⟨M1, hM1⟩ := hex
    obtain ⟨s, hs⟩ := mpiSetDt_exists T (fun r => ⟨M1 r, V.ctl.tCurrent, V.ctl.tEnd, 0, 0, []⟩)
    have hs' : V.MpiStart N init s := ⟨M1, hM1, hs⟩
    obtain ⟨dom, ok⟩ := hpost (start hs').data r2
    obtain ⟨M, hM⟩ := ok.exists_run
    obtain ⟨⟨s', l⟩, -⟩ := (after hs' hM).loop T hn hg' hl
    exact ⟨_, .run hs' hM l⟩
  · intro x hx
    cases hx with
    | hang hs hh =>
      obtain ⟨dom, ok⟩ := hpost (start hs).data r2
      exact absurd hh ok.no_hang
    | run hs hM l =>
      obtain ⟨s', rfl, b⟩ := ((after hs hM).loop T hn hg' hl).2 _ l
      exact ⟨_, rfl, b.saveIf T⟩

end

end Verif.Driver
