import Verif.Lemmas.TimeLoop
import Mathlib.Tactic.Linarith
import Mathlib.Tactic.NormNum

/-!
# C13–C16: time loop, outputs, double buffering

`Spec.seq`, `Spec.stopsAt`, `Spec.shots` (in `Verif.Spec.TimeLoop`) describe a run without arrays,
parity or counters.
-/

namespace Verif

open Spec

variable {D α : Type} [ROps α]

/-- **C16** (and totality of the loop): with `nlog ≠ 0` the program ends, in exactly one way, and the final
time and the newest array are those of the step sequence of the scheme at the first stopping index; the
snapshots are those of the specification, each holding the newest state at its moment. For every
arithmetic (bit for bit). -/
theorem C16_double_buffering (S : Sim D α) (u0 : D) (hlog : S.nlog ≠ 0) :
    ∃ N s, stopsAt S u0 N = true ∧ (∀ n < N, stopsAt S u0 n = false) ∧
      S.Main u0 (some s) ∧ (∀ r, S.Main u0 r → r = some s) ∧
      s.iteration = N ∧ s.t = (seq S u0 N).1 ∧
      (if s.iteration % 2 = 0 then s.U else s.U2) = (seq S u0 N).2 ∧
      s.out.map (fun x => (x.time, x.data)) =
        (if S.nOutput = 0 then [] else shots S u0 N ++ [seq S u0 N]) := by
  obtain ⟨N, hN, hlt⟩ := exists_stop S u0
  obtain ⟨s, hi, hl⟩ := loop_from hlog hN hlt N (by omega) (loopInv_start S u0)
  have hnew : (if s.iteration % 2 = 0 then s.U else s.U2) = (seq S u0 N).2 := by
    rw [← hi.newest, SimState.newest, hi.iteration,
      Int.tmod_eq_emod_of_nonneg (by omega : (0 : Int) ≤ N)]
  refine ⟨N, S.finish s, hN, hlt, ⟨_, hl, rfl⟩, ?_, ?_, ?_, ?_, ?_⟩
  · rintro r ⟨r', h1, rfl⟩
    rw [loop_unique h1 hl]; rfl
  · by_cases h0 : S.nOutput = 0 <;> simp [Sim.finish, h0, Sim.saveSolution, hi.iteration]
  · by_cases h0 : S.nOutput = 0 <;> simp [Sim.finish, h0, Sim.saveSolution, hi.t]
  · by_cases h0 : S.nOutput = 0
    · simpa [Sim.finish, h0] using hnew
    · simpa [Sim.finish, h0, Sim.saveSolution] using hnew
  · by_cases h0 : S.nOutput = 0
    · simp [Sim.finish, h0, hi.out]
    · have ho := hi.out
      rw [if_neg h0] at ho
      have e : (numbered (shots S u0 N)).map (fun x => (x.time, x.data)) = shots S u0 N := by
        apply List.ext_getElem <;> simp [numbered]
      have e2 : (if s.iteration.tmod 2 = 0 then s.U else s.U2) = (seq S u0 N).2 := hi.newest
      simp [Sim.finish, h0, Sim.saveSolution, ho, e, hi.t, e2]

/-- **C16** (one step): whenever the loop makes a step from `s` to `s'`, the newest state after the step is the
scheme applied to the newest state before it – whatever the other array contains. -/
theorem C16_step_reads_newest (S : Sim D α) (u0 : D) (hlog : S.nlog ≠ 0)
    {s s' : SimState D α} (hv : S.Visits (S.start u0) s) (hnx : S.nextIteration s = some s') :
    (if s'.iteration % 2 = 0 then s'.U else s'.U2) =
      S.update (S.fill (if s.iteration % 2 = 0 then s.U else s.U2)) s'.dt := by
  obtain ⟨n, h, -⟩ := visits_inv hlog hv
  have hit := h.iteration
  simp only [Sim.nextIteration, if_neg hlog, Option.some.injEq] at hnx
  subst hnx
  have key : ∀ s1 : SimState D α, s1.iteration = n → 
      (if ((S.godunov s1).iteration + 1) % 2 = 0 then (S.godunov s1).U else (S.godunov s1).U2) =
      S.update (S.fill (if s1.iteration % 2 = 0 then s1.U else s1.U2)) (S.godunov s1).dt := by
    intro s1 e
    have e2 : ((n : Int).tmod 2 = 0) ↔ ((n : Int) % 2 = 0) := by
      rw [Int.tmod_eq_emod_of_nonneg (by omega)]
    by_cases hp : (n : Int) % 2 = 0
    · have hp' : ¬ ((n : Int) + 1) % 2 = 0 := by omega
      simp [Sim.godunov, e, e2, hp, hp']
    · have hp' : ((n : Int) + 1) % 2 = 0 := by omega
      simp [Sim.godunov, e, e2, hp, hp']
  by_cases hs : (S.enableOutput && S.shouldSave s) = true
  · rw [if_pos hs]
    exact key (Sim.saveSolution s) hit
  · rw [if_neg hs]
    exact key s hit

/-- **C15**: the snapshots of a run are numbered 0, 1, 2, … without gaps; the first is the initial state
(ghosts filled) at the start time, the last is the state at the end of the run; none is written when
`nOutput = 0`; and with `nOutput < 0` there is the initial one, one before every step, and the final
one. -/
theorem C15_outputs (S : Sim D α) (u0 : D) (hlog : S.nlog ≠ 0) {s : SimState D α}
    (hm : S.Main u0 (some s)) :
    (S.nOutput = 0 → s.out = []) ∧
    (∀ i (h : i < s.out.length), s.out[i].number = i) ∧
    (S.nOutput ≠ 0 → 2 ≤ s.out.length ∧
      s.out.head?.map (fun x => (x.time, x.data)) = some (S.tCurrent, S.fill u0) ∧
      s.out.getLast?.map (fun x => (x.time, x.data)) =
        some (s.t, if s.iteration % 2 = 0 then s.U else s.U2)) ∧
    (S.nOutput < 0 → s.out.map (fun x => (x.time, x.data)) =
      seq S u0 0 :: (List.range (s.iteration.toNat + 1)).map (seq S u0)) := by
  obtain ⟨N, hN, hlt⟩ := exists_stop S u0
  obtain ⟨s1, hi, hl⟩ := loop_from hlog hN hlt N (by omega) (loopInv_start S u0)
  obtain ⟨r', h1, h2⟩ := hm
  rw [loop_unique h1 hl] at h2
  simp only [Option.map_some, Option.some.injEq] at h2
  subst h2
  have hnew : (if s1.iteration.tmod 2 = 0 then s1.U else s1.U2) = (seq S u0 N).2 := hi.newest
  have hnew' : (if s1.iteration % 2 = 0 then s1.U else s1.U2) = (seq S u0 N).2 := by
    rw [← hnew, hi.iteration, Int.tmod_eq_emod_of_nonneg (by omega : (0 : Int) ≤ N)]
  have hout : (S.finish s1).out =
      if S.nOutput = 0 then [] else numbered (shots S u0 N ++ [seq S u0 N]) := by
    by_cases h0 : S.nOutput = 0
    · simp [Sim.finish, h0, hi.out]
    · have ho := hi.out
      have hsv := hi.saved
      rw [if_neg h0] at ho
      rw [ho, numbered_length] at hsv
      simp [Sim.finish, h0, Sim.saveSolution, ho, numbered_append, hsv, hi.t, hnew]
  have hmap : ∀ l : List (α × D),
      (numbered l).map (fun x => (x.time, x.data)) = l := by
    intro l; apply List.ext_getElem <;> simp [numbered]
  have hit : (S.finish s1).iteration = N := by
    by_cases h0 : S.nOutput = 0 <;> simp [Sim.finish, h0, Sim.saveSolution, hi.iteration]
  have hhead : ∀ n, ∃ l, shots S u0 n = seq S u0 0 :: l := by
    intro n
    induction n with
    | zero => exact ⟨[], rfl⟩
    | succ n ih =>
      obtain ⟨l, hl⟩ := ih
      simp only [shots]
      split
      · exact ⟨l ++ [seq S u0 n], by rw [hl]; rfl⟩
      · exact ⟨l, hl⟩
  refine ⟨fun h0 => by simp [hout, h0], ?_, ?_, ?_⟩
  · intro i h
    have hl2 : ∀ (l : List (Snapshot D α)), (∀ i (h : i < l.length), l[i].number = i) →
        l = (S.finish s1).out → (S.finish s1).out[i].number = i := by
      intro l hl e; subst e; exact hl i h
    by_cases h0 : S.nOutput = 0
    · exact hl2 [] (by intro i h; simp at h) (by simp [hout, h0])
    · exact hl2 (numbered (shots S u0 N ++ [seq S u0 N])) (by intro i h; simp only [numbered, List.getElem_mapIdx])
        (by simp [hout, h0])
  · intro h0
    rw [if_neg h0] at hout
    obtain ⟨l, hl⟩ := hhead N
    refine ⟨?_, ?_, ?_⟩
    · rw [hout, numbered_length, hl]; simp
    · rw [← List.head?_map, hout, hmap, hl]; simp [seq]
    · rw [← List.getLast?_map, hout, hmap]
      have e1 : (S.finish s1).t = (seq S u0 N).1 := by simp [Sim.finish, h0, Sim.saveSolution, hi.t]
      have e2 : (if (S.finish s1).iteration % 2 = 0 then (S.finish s1).U else (S.finish s1).U2) =
          (seq S u0 N).2 := by
        simpa [Sim.finish, h0, Sim.saveSolution] using hnew'
      rw [e1, e2]; simp
  · intro hneg
    rw [if_neg (by omega)] at hout
    rw [hout, hmap, hit]
    have hs : ∀ n, shots S u0 n = seq S u0 0 :: (List.range n).map (seq S u0) := by
      intro n
      induction n with
      | zero => rfl
      | succ n ih =>
        have : due S (seq S u0 n).1 (shots S u0 n).length = true := by simp [due, hneg]
        simp only [shots, this, if_true]
        rw [ih, List.range_succ, List.map_append]; rfl
    rw [hs]
    simp [List.range_succ]

/-- **C13**: in exact arithmetic, a run that starts at or before the end time never goes past it, and with
positive CFL time steps time increases strictly from step to step. -/
theorem C13_never_past_end (S : Sim D ℝ) (u0 : D) (hlog : S.nlog ≠ 0)
    (h0 : S.tCurrent ≤ S.tEnd) {s : SimState D ℝ} (hv : S.Visits (S.start u0) s) :
    s.t ≤ S.tEnd ∧
    ((∀ u, 0 < S.dtLocal u) → ∀ s', S.finished s = false → S.nextIteration s = some s' →
      s.t < s'.t ∧ s'.t ≤ S.tEnd) := by
  have le : ∀ n, (seq S u0 n).1 ≤ S.tEnd := by
    intro n
    induction n with
    | zero => exact h0
    | succ n ih =>
      simp only [seq, clip, ROps.ltb, decide_eq_true_eq]
      generalize S.dtLocal (if S.dtInside = true then _ else _) = d
      split
      · linarith
      · rename_i h; push Not at h; exact h
  obtain ⟨n, h, -⟩ := visits_inv hlog hv
  refine ⟨by rw [h.t]; exact le n, ?_⟩
  intro hpos s' hf hnx
  obtain ⟨s'', e, h'⟩ := loopInv_next hlog h
  rw [hnx] at e
  cases e
  refine ⟨?_, by rw [h'.t]; exact le _⟩
  rw [h.t, h'.t]
  have hlt : (seq S u0 n).1 < S.tEnd := by
    rw [loopInv_finished h] at hf
    simp only [stopsAt, ROps.leb, ROps.lit, Bool.or_eq_false_iff, decide_eq_false_iff_not,
      not_le] at hf
    have := hf.1
    have h14 : (0 : ℝ) < ((1 / 10 ^ 14 : ℚ) : ℝ) := by norm_num
    linarith
  simp only [seq, clip, ROps.ltb, decide_eq_true_eq]
  have hd := hpos (if S.dtInside = true then S.fill (seq S u0 n).2 else (seq S u0 n).2)
  generalize S.dtLocal (if S.dtInside = true then _ else _) = d at hd ⊢
  split
  · linarith
  · linarith

/-- **C14** (for every arithmetic): the loop ends after at most `nStepmax` iterations (none if
`nStepmax ≤ 0`); it does no iteration if the start time is within the tolerance of the end time or past
it; and if it stops before the iteration limit, the final time is within the tolerance. -/
theorem C14_loop_stops (S : Sim D α) (u0 : D) (hlog : S.nlog ≠ 0) :
    ∃ s, S.Main u0 (some s) ∧ (∀ r, S.Main u0 r → r = some s) ∧
      0 ≤ s.iteration ∧ s.iteration ≤ max 0 S.nStepmax ∧
      (ROps.leb (S.tEnd - ROps.lit (1 / 10 ^ 14)) S.tCurrent = true →
        s.iteration = 0 ∧ s.t = S.tCurrent) ∧
      (s.iteration < S.nStepmax → ROps.leb (S.tEnd - ROps.lit (1 / 10 ^ 14)) s.t = true) := by
  obtain ⟨N, s, hN, hlt, hm, hu, hit, ht, -, -⟩ := C16_double_buffering S u0 hlog
  refine ⟨s, hm, hu, by omega, ?_, ?_, ?_⟩
  · by_contra hc
    have h1 := hlt (N - 1) (by omega)
    rw [stopsAt_of_ge (by omega)] at h1
    exact absurd h1 (by simp)
  · intro h
    have hz : stopsAt S u0 0 = true := by rw [stopsAt, seq, h]; rfl
    have : N = 0 := by
      by_contra hc
      rw [hlt 0 (by omega)] at hz; exact absurd hz (by simp)
    subst this
    exact ⟨by simpa using hit, by rw [ht]; rfl⟩
  · intro h
    rw [hit] at h
    rw [stopsAt, Bool.or_eq_true] at hN
    rcases hN with hN | hN
    · rw [ht]; exact hN
    · simp only [decide_eq_true_eq] at hN; omega

/-- **C14** (exact arithmetic): if the run starts early enough and stops before the iteration limit, then it
reaches the end time: either the last step was shortened and the final time is exactly `tEnd`, or the last
full CFL step landed within `1e-14` below it. -/
theorem C14_reaches_end (S : Sim D ℝ) (u0 : D) (hlog : S.nlog ≠ 0)
    (h0 : S.tCurrent < S.tEnd - 1 / 10 ^ 14) {s : SimState D ℝ} (hm : S.Main u0 (some s))
    (hs : s.iteration < S.nStepmax) :
    s.t = S.tEnd ∨ (S.tEnd - 1 / 10 ^ 14 ≤ s.t ∧ s.t ≤ S.tEnd ∧ ∃ n u,
      s.t = (seq S u0 n).1 + S.dtLocal u) := by
  obtain ⟨N, s', hN, hlt, hm', hu, hit, ht, -, -⟩ := C16_double_buffering S u0 hlog
  have := hu _ hm
  cases this
  rw [stopsAt, Bool.or_eq_true] at hN
  have hN' : S.tEnd - 1 / 10 ^ 14 ≤ (seq S u0 N).1 := by
    rcases hN with hN | hN
    · simpa [ROps.leb, ROps.lit] using hN
    · simp only [decide_eq_true_eq] at hN; omega
  match N, hN', ht with
  | 0, hN', _ => simp only [seq] at hN'; linarith
  | n + 1, hN', ht =>
    rw [ht]
    simp only [seq, clip, ROps.ltb, decide_eq_true_eq] at hN' ⊢
    generalize hd : S.dtLocal (if S.dtInside = true then _ else _) = d at hN' ⊢
    split
    · left; ring
    · rename_i h
      rw [if_neg h] at hN'
      push Not at h
      exact .inr ⟨hN', h, n, _, by rw [hd]⟩

/-- **C52**: with `nlog = 0` every MUSCL run that has a step to do is undefined behaviour (remainder by
zero), and it is the only case. -/
theorem C52_nlog_zero (S : Sim D α) (u0 : D) :
    S.Main u0 none ↔ (S.nlog = 0 ∧ S.finished (S.start u0) = false) := by
  constructor
  · rintro ⟨r', h1, h2⟩
    by_cases hlog : S.nlog = 0
    · refine ⟨hlog, ?_⟩
      cases h1 with
      | done => simp at h2
      | ub hf => exact hf
      | step hf => exact hf
    · obtain ⟨-, s, -, -, -, hu, -⟩ := C16_double_buffering S u0 hlog
      have := hu none ⟨r', h1, h2⟩
      simp at this
  · rintro ⟨h1, h2⟩
    exact ⟨none, .ub h2 (by simp [Sim.nextIteration, h1]), rfl⟩

/-! Non-vacuity: a run over rational numbers with constant step 3/10 to `tEnd = 1`, where `update`
counts the steps and records the time steps used. -/

private def exSim : Sim (List ℚ) ℚ where
  tEnd := 1
  tCurrent := 0
  nStepmax := 10
  nOutput := -1
  nlog := 10
  dtInside := true
  fill u := u
  dtLocal _ := 3 / 10
  update u dt := dt :: u

example : stopsAt exSim [] 4 = true ∧ stopsAt exSim [] 3 = false ∧
    seq exSim [] 4 = (1, [1/10, 3/10, 3/10, 3/10]) := by
  refine ⟨?_, ?_, ?_⟩ <;>
    norm_num [stopsAt, seq, clip, exSim, ROps.ltb, ROps.leb, ROps.lit]

/-- The hypotheses of C13 and C14 are met by a real run. -/
example : ∃ S : Sim ℕ ℝ, S.nlog ≠ 0 ∧ S.tCurrent < S.tEnd - 1 / 10 ^ 14 ∧
    (∀ u, 0 < S.dtLocal u) ∧ ∃ s, S.Main 0 (some s) ∧ s.iteration < S.nStepmax := by
  refine ⟨⟨1, 0, 5, 1, 10, false, id, fun _ => 2, fun n _ => n + 1⟩, by norm_num, by norm_num,
    fun _ => by norm_num, ?_⟩
  obtain ⟨N, s, hN, hlt, hm, -, hit, -⟩ := C16_double_buffering
    (⟨1, 0, 5, 1, 10, false, id, fun _ => 2, fun n _ => n + 1⟩ : Sim ℕ ℝ) 0 (by norm_num)
  refine ⟨s, hm, ?_⟩
  rw [hit]
  have h1 : stopsAt (⟨1, 0, 5, 1, 10, false, id, fun _ => 2, fun n _ => n + 1⟩ : Sim ℕ ℝ) 0 1
      = true := by
    norm_num [stopsAt, seq, clip, ROps.ltb, ROps.leb, ROps.lit]
  have : N ≤ 1 := by
    by_contra hc
    rw [hlt 1 (by omega)] at h1
    exact absurd h1 (by simp)
  show (N : Int) < 5
  omega

end Verif
