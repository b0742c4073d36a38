import Verif.Model.Restart
import Verif.Lemmas.TimeLoop

/-! Helper lemmas: two runs of the loop side by side. -/

namespace Verif

open Spec

variable {D α : Type} [ROps α]

/-- Time step the loop takes in state `s`. -/
def Sim.stepDt (S : Sim D α) (s : SimState D α) : α :=
  S.computeDt s.t (S.dtLocal (if S.dtInside then S.fill s.newest else s.newest))

/-- What a pass of the loop does. -/
structure NextSpec (S : Sim D α) (s s' : SimState D α) : Prop where
  it : s'.iteration = s.iteration + 1
  t : s'.t = s.t + S.stepDt s
  newest : s'.newest = S.update (S.fill s.newest) (S.stepDt s)
  saved : s'.timesSaved = if S.nOutput ≠ 0 ∧ S.shouldSave s = true then s.timesSaved + 1 else s.timesSaved
  out : s'.out = s.out ++
    if S.nOutput ≠ 0 ∧ S.shouldSave s = true then [⟨s.timesSaved, s.t, s.newest⟩] else []

theorem nextIteration_spec {S : Sim D α} (hn : S.nlog ≠ 0) {s : SimState D α} (h0 : 0 ≤ s.iteration) :
    ∃ s', S.nextIteration s = some s' ∧ NextSpec S s s' := by
  simp only [Sim.nextIteration, if_neg hn]
  obtain ⟨n, hi⟩ := Int.eq_ofNat_of_zero_le h0
  have key : ∀ s1 : SimState D α, s1.iteration = s.iteration → s1.t = s.t → s1.U = s.U → s1.U2 = s.U2 →
      (S.godunov s1).iteration = s.iteration ∧ (S.godunov s1).t = s.t ∧
      (S.godunov s1).dt = S.stepDt s ∧ (S.godunov s1).out = s1.out ∧
      (S.godunov s1).timesSaved = s1.timesSaved ∧
      (if (s.iteration + 1).tmod 2 = 0 then (S.godunov s1).U else (S.godunov s1).U2) =
        S.update (S.fill s.newest) (S.stepDt s) := by
    intro s1 h1 h2 h3 h4
    rw [Sim.stepDt, SimState.newest]
    have hp := parity_succ n
    by_cases hq : (n : Int).tmod 2 = 0 <;>
      simp [Sim.godunov, h1, h2, h3, h4, hi, hq, hp]
  by_cases h : S.nOutput ≠ 0 ∧ S.shouldSave s = true
  · have e : (S.enableOutput && S.shouldSave s) = true := by simp [Sim.enableOutput, h.1, h.2]
    rw [if_pos e]
    obtain ⟨k1, k2, k3, k4, k5, k6⟩ := key (Sim.saveSolution s) rfl rfl rfl rfl
    refine ⟨_, rfl, ⟨by simp [k1], by simp [k2, k3], ?_, ?_, ?_⟩⟩
    · rw [← k6]; simp [SimState.newest, k1]
    · rw [if_pos h]; exact k5
    · rw [if_pos h]; exact k4
  · have e : (S.enableOutput && S.shouldSave s) = false := by
      by_cases hq : S.nOutput = 0
      · simp [Sim.enableOutput, hq]
      · have : S.shouldSave s = false := by simpa [hq] using h
        simp [this]
    rw [e, if_neg (by simp)]
    obtain ⟨k1, k2, k3, k4, k5, k6⟩ := key s rfl rfl rfl rfl
    refine ⟨_, rfl, ⟨by simp [k1], by simp [k2, k3], ?_, ?_, ?_⟩⟩
    · rw [← k6]; simp [SimState.newest, k1]
    · rw [if_neg h]; simp [k5]
    · rw [if_neg h]; simp [k4]

theorem loop_of_visits {S : Sim D α} {a s : SimState D α} {r : Option (SimState D α)}
    (hv : S.Visits a s) (hl : S.Loop a r) : S.Loop s r := by
  induction hv with
  | refl => exact hl
  | tail _ hf hn ih =>
    cases ih with
    | done h => simp_all
    | ub _ h => simp_all
    | step _ h hl' => rw [hn] at h; cases h; exact hl'

/-- A snapshot written under another number. -/
def Snapshot.shift (d : Int) (x : Snapshot D α) : Snapshot D α := { x with number := x.number + d }

/-- Two runs in step: same time and state, `i` iterations and `d` numbers apart, and the same snapshots `l`
since they wrote `a` and `b`. -/
structure InStep (S : Sim D α) (i d : Int) (a b : List (Snapshot D α)) (s r : SimState D α) : Prop where
  t : r.t = s.t
  it : s.iteration = r.iteration + i
  its : 0 ≤ s.iteration
  itr : 0 ≤ r.iteration
  newest : r.newest = s.newest
  saved : r.timesSaved = s.timesSaved + d
  out : ∃ l, s.out = a ++ l ∧ r.out = b ++ l.map (Snapshot.shift d)

/-- The parameters of the restarted run: the steps already made are taken off `nstepmax`. -/
def Sim.less (S : Sim D α) (i : Int) : Sim D α := { S with nStepmax := S.nStepmax - i }

theorem InStep.finished {S : Sim D α} {i d : Int} {a b : List (Snapshot D α)} {s r : SimState D α}
    (h : InStep S i d a b s r) : (S.less i).finished r = S.finished s := by
  have e : (r.iteration ≥ S.nStepmax - i) ↔ (s.iteration ≥ S.nStepmax) := by rw [h.it]; omega
  unfold Sim.finished
  rw [h.t]
  exact congrArg _ (decide_eq_decide.2 e)

theorem inStep_loop {S : Sim D α} (hn : S.nlog ≠ 0) {i d : Int} {a b : List (Snapshot D α)}
    (hd : d = 0 ∨ S.nOutput < 0)
    {s r fin : SimState D α} (h : InStep S i d a b s r) (hl : S.Loop s (some fin)) :
    ∃ rfin, (S.less i).Loop r (some rfin) ∧ InStep S i d a b fin rfin := by
  generalize hx : some fin = x at hl
  induction hl generalizing r with
  | done hf =>
    cases hx
    refine ⟨r, .done ?_, h⟩
    rw [← hf]
    exact h.finished
  | ub => cases hx
  | @step s s' x hf hs hl ih =>
    obtain ⟨s1, e1, n1⟩ := nextIteration_spec hn h.its
    rw [hs] at e1
    cases e1
    obtain ⟨r', e2, n2⟩ := nextIteration_spec (S := S.less i) hn h.itr
    have hsv : (S.less i).shouldSave r = S.shouldSave s := by
      rcases hd with hd | hd
      · simp only [Sim.shouldSave, Sim.less, h.t, h.saved, hd, add_zero]
      · simp [Sim.shouldSave, Sim.less, hd]
    have hdt : (S.less i).stepDt r = S.stepDt s := by
      simp only [Sim.stepDt, Sim.less, Sim.computeDt, h.t, h.newest]
    have hno : (S.less i).nOutput = S.nOutput := rfl
    have hff : (S.less i).finished r = false := by
      rw [← hf]
      exact h.finished
    have hin : InStep S i d a b s' r' := by
      refine ⟨?_, ?_, ?_, ?_, ?_, ?_, ?_⟩
      · rw [n2.t, n1.t, hdt, h.t]
      · rw [n1.it, n2.it, h.it]; omega
      · rw [n1.it]; have := h.its; omega
      · rw [n2.it]; have := h.itr; omega
      · rw [n2.newest, n1.newest, hdt, h.newest]; rfl
      · rw [n2.saved, n1.saved, hsv, hno, h.saved]
        split_ifs <;> omega
      · obtain ⟨l, l1, l2⟩ := h.out
        refine ⟨l ++ if S.nOutput ≠ 0 ∧ S.shouldSave s = true then [⟨s.timesSaved, s.t, s.newest⟩] else [],
          ?_, ?_⟩
        · rw [n1.out, l1, List.append_assoc]
        · rw [n2.out, l2, hsv, hno, List.map_append, List.append_assoc, h.saved, h.t, h.newest]
          split_ifs <;> rfl
    obtain ⟨rfin, q1, q2⟩ := ih hin hx
    exact ⟨rfin, .step hff e2 q1, q2⟩

end Verif
