import Verif.Spec.Restart
import Verif.Lemmas.Restart
import Verif.Lemmas.RealOps

/-!
# C116: a restarted run continues the run

A run writes a snapshot and goes on; a second run is started from the file.  The restarted run makes the same steps
and writes the same snapshots under the same numbers – unless a snapshot is due again straight away, the clock
is reset, the run is extended with the same number of outputs, or the file is not read.
-/

namespace Verif

open Spec

variable {D α : Type} [ROps α]

private theorem current_eq {s : SimState D α} (h : 0 ≤ s.iteration) : current s = s.newest := by
  rw [current, SimState.newest, Int.tmod_eq_emod_of_nonneg h]

private theorem finish_out (S : Sim D α) (h : S.nOutput ≠ 0) (s : SimState D α) :
    (S.finish s).out = s.out ++ [⟨s.timesSaved, s.t, s.newest⟩] := by
  rw [Sim.finish, if_pos h]; rfl

/-- The first step of both runs and what follows.  `d` = 1 if the restarted run writes the state a second time. -/
private theorem continue_core {S : Sim D α} {same : D → D → Prop} (hG : GhostsDerived S same)
    (hn : S.nlog ≠ 0) {u0 zero : D} {s fin : SimState D α} (hv : S.Visits (S.start u0) s)
    (hm : S.Main u0 (some fin)) (hf : S.finished s = false) (ho : S.nOutput ≠ 0)
    (hs : S.shouldSave s = true) {u : D} (hu : same u (current s))
    {d : Int} (hd : d = 0 ∧ S.shouldSave { s with timesSaved := s.timesSaved + 1 } = false ∨
      d = 1 ∧ S.nOutput < 0) :
    ∃ rfin l, (∀ r, (stepsLeft S s.iteration).Restarted zero
        (some ⟨u, s.timesSaved, s.t⟩) false r ↔ r = some rfin) ∧
      fin.out = s.out ++ ⟨s.timesSaved, s.t, current s⟩ :: l ∧
      rfin.out = ⟨s.timesSaved, s.t, S.fill u⟩ ::
        ((if d = 0 then [] else [⟨s.timesSaved + 1, s.t, S.fill u⟩]) ++ l.map (Snapshot.shift d)) ∧
      rfin.t = fin.t ∧ rfin.iteration + s.iteration = fin.iteration ∧ current rfin = current fin := by
  obtain ⟨n, hi, -⟩ := visits_inv hn hv
  have hit : 0 ≤ s.iteration := by rw [hi.iteration]; omega
  obtain ⟨r', hl, e⟩ := hm
  obtain ⟨f1, rfl, rfl⟩ : ∃ f1, r' = some f1 ∧ fin = S.finish f1 := by
    cases r' with
    | none => cases e
    | some f => exact ⟨f, rfl, by simpa using e⟩
  have hl' := loop_of_visits hv hl
  set i := s.iteration with hidef
  obtain ⟨s', n1e, n1⟩ := nextIteration_spec hn hit
  cases hl' with
  | done h => simp_all
  | step _ hx hl2 =>
    rw [n1e] at hx; cases hx
    set r0 := (stepsLeft S i).restart zero (some ⟨u, s.timesSaved, s.t⟩) false with hr0
    have ho' : (stepsLeft S i).nOutput ≠ 0 := ho
    have hr1 : r0 = Sim.saveSolution ((stepsLeft S i).reconstruct zero
        (some ⟨u, s.timesSaved, s.t⟩) false) := if_pos ho'
    have r_t : r0.t = s.t := by rw [hr1]; rfl
    have r_it : r0.iteration = 0 := by rw [hr1]; rfl
    have r_sv : r0.timesSaved = s.timesSaved + 1 := by rw [hr1]; rfl
    have r_U : r0.newest = S.fill u := by rw [hr1]; rfl
    have r_out : r0.out = [⟨s.timesSaved, s.t, S.fill u⟩] := by rw [hr1]; rfl
    obtain ⟨r1, q1, q⟩ := nextIteration_spec (S := stepsLeft S i) (s := r0) hn (by omega)
    have hsm : same r0.newest s.newest := by
      rw [r_U, ← current_eq hit]
      exact hG.equiv.trans (hG.fill_same u) hu
    have hdt : (stepsLeft S i).stepDt r0 = S.stepDt s := by
      have e1 : S.fill r0.newest = S.fill s.newest := hG.fill_eq _ _ hsm
      have e2 : S.dtLocal r0.newest = S.dtLocal s.newest := hG.dt_eq _ _ hsm
      show S.computeDt r0.t (S.dtLocal (if S.dtInside then S.fill r0.newest else r0.newest)) = S.computeDt s.t _
      rw [r_t]
      congr 1
      split
      · rw [e1]
      · exact e2
    have hsv : (stepsLeft S i).shouldSave r0 = decide (d ≠ 0) := by
      rcases hd with ⟨rfl, h⟩ | ⟨rfl, h⟩
      · rw [Sim.shouldSave] at h ⊢
        rw [r_t, r_sv]; exact h
      · simp [Sim.shouldSave, stepsLeft, h]
    have hdd : d = 0 ∨ d = 1 := by tauto
    have hff : (stepsLeft S i).finished r0 = false := by
      rw [← hf]
      have e : (r0.iteration ≥ S.nStepmax - i) ↔ (s.iteration ≥ S.nStepmax) := by
        rw [r_it]; omega
      unfold Sim.finished
      rw [r_t]
      exact congrArg _ (decide_eq_decide.2 e)
    have hin : InStep S i d (s.out ++ [⟨s.timesSaved, s.t, s.newest⟩])
        (⟨s.timesSaved, s.t, S.fill u⟩ ::
          (if d = 0 then [] else [⟨s.timesSaved + 1, s.t, S.fill u⟩])) s' r1 := by
      refine ⟨?_, ?_, ?_, ?_, ?_, ?_, [], ?_, ?_⟩
      · rw [q.t, n1.t, hdt, r_t]
      · rw [q.it, n1.it, r_it]; omega
      · rw [n1.it]; omega
      · rw [q.it, r_it]; omega
      · rw [q.newest, n1.newest, hdt]
        show S.update (S.fill r0.newest) _ = _
        rw [hG.fill_eq _ _ hsm]
      · rw [q.saved, n1.saved, hsv, r_sv, if_pos (show S.nOutput ≠ 0 ∧ S.shouldSave s = true from ⟨ho, hs⟩)]
        rcases hdd with rfl | rfl <;> simp [ho']
      · rw [n1.out, if_pos ⟨ho, hs⟩]; simp
      · rw [q.out, hsv, r_out, r_t, r_sv, r_U]
        rcases hdd with rfl | rfl <;> simp [ho']
    obtain ⟨rf, p1, p⟩ := inStep_loop hn (hd.imp And.left And.right) hin hl2
    obtain ⟨l, l1, l2⟩ := p.out
    refine ⟨(stepsLeft S i).finish rf, l ++ [⟨f1.timesSaved, f1.t, f1.newest⟩], ?_, ?_, ?_, ?_, ?_, ?_⟩
    · intro r
      constructor
      · rintro ⟨x, h1, rfl⟩
        have hx : (stepsLeft S i).Loop r0 (some rf) := .step hff q1 p1
        rw [loop_unique h1 hx]; rfl
      · rintro rfl
        exact ⟨some rf, .step hff q1 p1, rfl⟩
    · rw [finish_out S ho, l1, current_eq hit]; simp
    · rw [finish_out _ ho', l2, p.saved, p.t, p.newest, List.map_append]
      rcases hdd with rfl | rfl <;> simp [Snapshot.shift]
    · have : ∀ (T : Sim D α) (x : SimState D α), (T.finish x).t = x.t := by
        intro T x; unfold Sim.finish; split <;> rfl
      rw [this, this, p.t]
    · have : ∀ (T : Sim D α) (x : SimState D α), (T.finish x).iteration = x.iteration := by
        intro T x; unfold Sim.finish; split <;> rfl
      rw [this, this, p.it]
    · have : ∀ (T : Sim D α) (x : SimState D α), current (T.finish x) = current x := by
        intro T x; unfold Sim.finish; split <;> rfl
      rw [this, this, current_eq p.itr, current_eq p.its, p.newest]

/-- **C116**: let the run reach state `s`, write it as a snapshot and go on to the end.  A run restarted from that
file (its content agreeing with `s` inside the domain), with the steps made taken off `nstepmax`, ends, has one
outcome, writes the state under the number it had, and then exactly the snapshots `l` the first run
wrote afterwards; it ends at the same time, in the same state, after the same number of steps altogether.  Premise: no
second snapshot is due at the time of the first. -/
theorem C116_continue {S : Sim D α} {same : D → D → Prop} (hG : GhostsDerived S same)
    (hn : S.nlog ≠ 0) {u0 zero : D} {s fin : SimState D α} (hv : S.Visits (S.start u0) s)
    (hm : S.Main u0 (some fin)) (hf : S.finished s = false) (ho : S.nOutput ≠ 0)
    (hs : S.shouldSave s = true) (hq : S.shouldSave { s with timesSaved := s.timesSaved + 1 } = false)
    {u : D} (hu : same u (current s)) :
    ∃ rfin l, (∀ r, (stepsLeft S s.iteration).Restarted zero
        (some ⟨u, s.timesSaved, s.t⟩) false r ↔ r = some rfin) ∧
      fin.out = s.out ++ ⟨s.timesSaved, s.t, current s⟩ :: l ∧
      rfin.out = ⟨s.timesSaved, s.t, S.fill u⟩ :: l ∧
      rfin.t = fin.t ∧ rfin.iteration + s.iteration = fin.iteration ∧ current rfin = current fin := by
  obtain ⟨rfin, l, h1, h2, h3, h4⟩ := continue_core (zero := zero) hG hn hv hm hf ho hs hu
    (Or.inl ⟨rfl, hq⟩)
  refine ⟨rfin, l, h1, h2, ?_, h4⟩
  have e : (Snapshot.shift 0 : Snapshot D α → Snapshot D α) = id := by
    funext x; simp [Snapshot.shift]
  rw [h3, e]
  simp

/-- **C116**, when every step is written (`noutput < 0`): the restarted run writes the state it started from twice, and
everything afterwards under a number one too high. -/
theorem C116_every_step {S : Sim D α} {same : D → D → Prop} (hG : GhostsDerived S same)
    (hn : S.nlog ≠ 0) {u0 zero : D} {s fin : SimState D α} (hv : S.Visits (S.start u0) s)
    (hm : S.Main u0 (some fin)) (hf : S.finished s = false) (ho : S.nOutput < 0)
    {u : D} (hu : same u (current s)) :
    ∃ rfin l, (∀ r, (stepsLeft S s.iteration).Restarted zero
        (some ⟨u, s.timesSaved, s.t⟩) false r ↔ r = some rfin) ∧
      fin.out = s.out ++ ⟨s.timesSaved, s.t, current s⟩ :: l ∧
      rfin.out = ⟨s.timesSaved, s.t, S.fill u⟩ :: ⟨s.timesSaved + 1, s.t, S.fill u⟩ ::
        l.map (fun x => ⟨x.number + 1, x.time, x.data⟩) ∧
      rfin.t = fin.t ∧ rfin.iteration + s.iteration = fin.iteration ∧ current rfin = current fin := by
  have hs : S.shouldSave s = true := by simp [Sim.shouldSave, ho]
  obtain ⟨rfin, l, h1, h2, h3, h4⟩ := continue_core (zero := zero) hG hn hv hm hf (by omega) hs hu
    (Or.inr ⟨rfl, ho⟩)
  exact ⟨rfin, l, h1, h2, h3, h4⟩

/-- **C116**, the premise in real numbers: no second snapshot is due at time `t` after snapshot `n` if `t` has not
passed the time of snapshot `n + 1` and is not the end. -/
theorem C116_not_due {S : Sim D ℝ} (s : SimState D ℝ) (ho : 0 < S.nOutput)
    (h1 : s.t ≤ (s.timesSaved + 1) * (S.tEnd / S.nOutput)) (h2 : 1 / 10 ^ 12 ≤ |s.t - S.tEnd|) :
    S.shouldSave { s with timesSaved := s.timesSaved + 1 } = false := by
  have e1 : ¬ S.nOutput < 0 := by omega
  simp only [Sim.shouldSave, if_neg e1, ROps.ltb, ROps.fabs, ROps.lit]
  push_cast
  rw [if_neg, if_neg]
  · simpa using h2
  · simp only [decide_eq_true_eq, not_lt]
    linarith

/-- Time does not run backwards nor past the end. -/
private theorem next_time {S : Sim D ℝ} (hn : S.nlog ≠ 0) (hp : ∀ u, 0 < S.dtLocal u)
    {s s' : SimState D ℝ} (hi : 0 ≤ s.iteration) (ht : s.t ≤ S.tEnd) (hx : S.nextIteration s = some s') :
    NextSpec S s s' ∧ s.t ≤ s'.t ∧ s'.t ≤ S.tEnd := by
  obtain ⟨s1, e, q⟩ := nextIteration_spec hn hi
  rw [hx] at e; cases e
  refine ⟨q, ?_⟩
  rw [q.t, Sim.stepDt, Sim.computeDt]
  have := hp (if S.dtInside = true then S.fill s.newest else s.newest)
  set d := S.dtLocal (if S.dtInside = true then S.fill s.newest else s.newest)
  simp only [ROps.ltb, decide_eq_true_eq]
  split_ifs with h <;> constructor <;> linarith

/-- **C116**, where the outputs of a restarted run go missing: started from file number `n`, with whatever time `t`
it begins and whatever the end time is now, the run writes nothing after its first snapshot while
`t ≤ (n + 1)·tEnd/noutput` (and the end is not reached). -/
theorem C116_silent {S : Sim D ℝ} (hn : S.nlog ≠ 0) (hp : ∀ u, 0 < S.dtLocal u) (ho : 0 < S.nOutput)
    {zero : D} {f : RestartFile D ℝ} {reset : Bool} (ht : (if reset then 0 else f.time) ≤ S.tEnd)
    {r : SimState D ℝ} (hv : S.Visits (S.restart zero (some f) reset) r)
    (h1 : r.t ≤ (f.number + 1) * (S.tEnd / S.nOutput)) (h2 : r.t ≤ S.tEnd - 1 / 10 ^ 12) :
    r.out = [⟨f.number, if reset then 0 else f.time, S.fill f.data⟩] := by
  have ho' : S.nOutput ≠ 0 := by omega
  suffices H : 0 ≤ r.iteration ∧ r.t ≤ S.tEnd ∧ (r.t ≤ (f.number + 1) * (S.tEnd / S.nOutput) →
      r.t ≤ S.tEnd - 1 / 10 ^ 12 → r.timesSaved = f.number + 1 ∧
      r.out = [⟨f.number, if reset then 0 else f.time, S.fill f.data⟩]) from (H.2.2 h1 h2).2
  clear h1 h2
  generalize h0 : S.restart zero (some f) reset = r0 at hv
  induction hv with
  | refl =>
    subst h0
    simp only [Sim.restart, ho', Sim.reconstruct, Sim.saveSolution]
    simp only [ROps.lit] at ht ⊢
    simp [ht, ho']
  | @tail s s' _ hf hx ih =>
    obtain ⟨a1, a2, a3⟩ := ih
    obtain ⟨q, b1, b2⟩ := next_time hn hp a1 a2 hx
    refine ⟨by rw [q.it]; omega, b2, fun h1 h2 => ?_⟩
    obtain ⟨c1, c2⟩ := a3 (b1.trans h1) (b1.trans h2)
    have hs : S.shouldSave s = false := by
      have := C116_not_due (S := S) { s with timesSaved := f.number } ho (b1.trans h1) (by
        rw [abs_of_nonpos (by linarith)]; show _ ≤ -(s.t - S.tEnd); linarith)
      rw [Sim.shouldSave] at this ⊢
      rw [c1]; exact this
    rw [q.saved, q.out, hs]
    simp [c1, c2]

/-- **C116**, extended runs: a run restarted from its last snapshot (number `n + 1 ≥ noutput`) with the same
`noutput`, be it with a later end time or with the clock reset, writes nothing between its first snapshot and
the end. -/
theorem C116_extended {S : Sim D ℝ} (hn : S.nlog ≠ 0) (hp : ∀ u, 0 < S.dtLocal u) (ho : 0 < S.nOutput)
    (hE : 0 ≤ S.tEnd)
    {zero : D} {f : RestartFile D ℝ} {reset : Bool} (ht : (if reset then 0 else f.time) ≤ S.tEnd)
    (hk : S.nOutput ≤ f.number + 1)
    {r : SimState D ℝ} (hv : S.Visits (S.restart zero (some f) reset) r)
    (h2 : r.t ≤ S.tEnd - 1 / 10 ^ 12) : r.out.length = 1 := by
  rw [C116_silent hn hp ho ht hv _ h2]
  · rfl
  · have h3 : (S.nOutput : ℝ) ≤ (f.number : ℝ) + 1 := by exact_mod_cast hk
    have h4 : (0 : ℝ) < S.nOutput := by exact_mod_cast ho
    have h5 : S.tEnd ≤ ((f.number : ℝ) + 1) * (S.tEnd / S.nOutput) := by
      rw [mul_div_assoc', le_div_iff₀ h4]
      nlinarith
    have : (0 : ℝ) ≤ 1 / 10 ^ 12 := by norm_num
    linarith

/-- **C116**, which files are read: those whose name ends in `.h5`, if HDF5 is built in and enabled for
output.  PnetCDF files never are. -/
theorem C116_reads (useHdf5 enabled : Bool) (name : List Char) :
    restartReads useHdf5 enabled name = true ↔ useHdf5 = true ∧ enabled = true ∧ IsH5 name := by
  simp only [restartReads, Bool.and_eq_true, IsH5]
  refine and_congr_right fun _ => and_congr_right fun _ => ?_
  have hs : ".h5".toList = ['.', 'h', '5'] := rfl
  rw [hs]
  constructor
  · intro h
    split_ifs at h with hl
    have h' := of_decide_eq_true h
    rw [List.take_of_length_le (by simp; omega)] at h'
    exact ⟨name.take (name.length - 3), by
      rw [← h']; exact (List.take_append_drop _ _).symm⟩
  · rintro ⟨stem, rfl⟩
    rw [if_pos (by simp)]
    simp

/-- **C116**, a file that is not read stops nothing: the run starts at `tCurrent`, snapshot number 0, from the
zeros the array was allocated with. -/
theorem C116_unread (S : Sim D α) (zero : D) :
    let r := S.restart zero none false
    r.t = S.tCurrent ∧ r.iteration = 0 ∧ current r = S.fill zero ∧
      (S.nOutput ≠ 0 → r.out = [⟨0, S.tCurrent, S.fill zero⟩]) := by
  by_cases h : S.nOutput = 0 <;>
    simp [Sim.restart, Sim.reconstruct, Sim.saveSolution, current, h]

/-! ### The premises are met -/

/-- A toy scheme: one cell and one ghost cell. -/
private def toy : Sim (ℚ × ℚ) ℚ where
  tEnd := 10
  tCurrent := 0
  nStepmax := 100
  nOutput := 5
  nlog := 1
  dtInside := false
  fill := fun u => (u.1, u.1)
  dtLocal := fun _ => 1
  update := fun u dt => (u.1 + dt, u.2)

private def toyRun : ℕ → SimState (ℚ × ℚ) ℚ
  | 0 => toy.start (7, 0)
  | n + 1 => (toy.nextIteration (toyRun n)).getD (toyRun n)

example : ∃ (same : ℚ × ℚ → ℚ × ℚ → Prop) (s fin : SimState (ℚ × ℚ) ℚ) (u : ℚ × ℚ),
    GhostsDerived toy same ∧ toy.nlog ≠ 0 ∧ toy.Visits (toy.start (7, 0)) s ∧
    toy.Main (7, 0) (some fin) ∧ toy.finished s = false ∧ toy.nOutput ≠ 0 ∧ toy.shouldSave s = true ∧
    toy.shouldSave { s with timesSaved := s.timesSaved + 1 } = false ∧ same u (current s) ∧
    u ≠ current s ∧ s.timesSaved = 1 ∧ s.t = 3 := by
  have hn : toy.nlog ≠ 0 := by decide
  obtain ⟨N, hN, hlt⟩ := exists_stop toy (7, 0)
  obtain ⟨f, -, hl⟩ := loop_from hn hN hlt N (by omega) (loopInv_start toy (7, 0))
  refine ⟨fun a b => a.1 = b.1, toyRun 3, toy.finish f, (10, 1), ⟨⟨fun _ => rfl, fun h => h.symm,
    fun h h' => h.trans h'⟩, ?_, ?_, ?_⟩, hn, ?_, ⟨_, hl, rfl⟩, ?_, ?_, ?_, ?_, ?_, ?_, ?_, ?_⟩
  · intro a b h; simp only [toy, h]
  · intro a; rfl
  · intro a b h; rfl
  · exact (((Sim.Visits.refl.tail (by decide +kernel) rfl).tail (by decide +kernel) rfl).tail
      (by decide +kernel) rfl : toy.Visits (toy.start (7, 0)) (toyRun 3))
  all_goals decide +kernel

/-- The same scheme with real numbers, restarted from its last snapshot with the end time doubled. -/
private noncomputable def toyR : Sim (ℝ × ℝ) ℝ where
  tEnd := 20
  tCurrent := 0
  nStepmax := 100
  nOutput := 5
  nlog := 1
  dtInside := false
  fill := fun u => (u.1, u.1)
  dtLocal := fun _ => 1
  update := fun u dt => (u.1 + dt, u.2)

example : ∃ r, toyR.Visits (toyR.restart (0, 0) (some ⟨(17, 0), 5, 10⟩) false) r ∧
    (if false then (0 : ℝ) else 10) ≤ toyR.tEnd ∧ (∀ u, 0 < toyR.dtLocal u) ∧
    toyR.nOutput ≤ 5 + 1 ∧ r.t ≤ toyR.tEnd - 1 / 10 ^ 12 := by
  refine ⟨_, .refl, ?_, ?_, ?_, ?_⟩
  · simp only [toyR]; norm_num
  · intro u; simp [toyR]
  · simp [toyR]
  · show (10 : ℝ) ≤ 20 - 1 / 10 ^ 12
    norm_num

end Verif
