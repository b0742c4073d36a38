import Verif.Spec.TimeLoop

/-! Helper lemmas: the loop follows the specification sequence. -/

namespace Verif

open Spec

variable {D α : Type} [ROps α]

/-- Consecutive numbering. -/
def numbered (l : List (α × D)) : List (Snapshot D α) :=
  l.mapIdx fun i x => ⟨(i : Int), x.1, x.2⟩

theorem numbered_append (l : List (α × D)) (x : α × D) :
    numbered (l ++ [x]) = numbered l ++ [⟨(l.length : Int), x.1, x.2⟩] := by
  simp [numbered, List.mapIdx_append]

theorem numbered_length (l : List (α × D)) : (numbered l).length = l.length := by
  simp [numbered]

/-- The array holding the newest state. -/
def SimState.newest (s : SimState D α) : D := if s.iteration.tmod 2 = 0 then s.U else s.U2

theorem parity_succ (n : ℕ) : (((n : Int) + 1).tmod 2 = 0) ↔ ¬ ((n : Int).tmod 2 = 0) := by
  rw [Int.tmod_eq_emod_of_nonneg (by omega), Int.tmod_eq_emod_of_nonneg (by omega)]; omega

/-- Loop invariant: `s` is the state after `n` steps. -/
structure LoopInv (S : Sim D α) (u0 : D) (n : ℕ) (s : SimState D α) : Prop where
  t : s.t = (seq S u0 n).1
  iteration : s.iteration = n
  newest : s.newest = (seq S u0 n).2
  saved : s.timesSaved = s.out.length
  out : s.out = if S.nOutput = 0 then [] else numbered (shots S u0 n)

theorem loopInv_start (S : Sim D α) (u0 : D) : LoopInv S u0 0 (S.start u0) := by
  by_cases h : S.nOutput = 0
  · constructor <;> simp [Sim.start, h, Sim.construct, seq, SimState.newest]
  · constructor <;>
      simp [Sim.start, h, Sim.construct, seq, SimState.newest, Sim.saveSolution, shots, numbered]

theorem loopInv_finished {S : Sim D α} {u0 : D} {n : ℕ} {s : SimState D α}
    (h : LoopInv S u0 n s) : S.finished s = stopsAt S u0 n := by
  simp [Sim.finished, stopsAt, h.t, h.iteration]

theorem shouldSave_eq {S : Sim D α} {s : SimState D α} {k : ℕ} (hk : s.timesSaved = k) :
    S.shouldSave s = due S s.t k := by
  simp only [Sim.shouldSave, due, hk]
  by_cases h1 : S.nOutput < 0 <;> simp [h1]

theorem loopInv_next {S : Sim D α} {u0 : D} {n : ℕ} {s : SimState D α} (hn : S.nlog ≠ 0)
    (h : LoopInv S u0 n s) : ∃ s', S.nextIteration s = some s' ∧ LoopInv S u0 (n + 1) s' := by
  simp only [Sim.nextIteration, if_neg hn]
  -- the optional snapshot
  obtain ⟨s1, hs1, a1, a2, a3, a4, a5⟩ : ∃ s1, s1 =
      (if (S.enableOutput && S.shouldSave s) = true then Sim.saveSolution s else s) ∧
      s1.t = s.t ∧ s1.iteration = s.iteration ∧ s1.newest = s.newest ∧
      s1.timesSaved = s1.out.length ∧
      s1.out = (if S.nOutput = 0 then [] else numbered (shots S u0 (n + 1))) := by
    refine ⟨_, rfl, ?_⟩
    by_cases h0 : S.nOutput = 0
    · have e : S.enableOutput = false := by simp [Sim.enableOutput, h0]
      have := h.out
      simp only [h0, if_true] at this
      simp [e, h0, this, h.saved]
    · have e : S.enableOutput = true := by simp [Sim.enableOutput, h0]
      have ho := h.out
      simp only [if_neg h0] at ho
      have hl : s.timesSaved = ((shots S u0 n).length : ℕ) := by
        rw [h.saved, ho, numbered_length]
      rw [e, Bool.true_and, shouldSave_eq hl, h.t]
      simp only [shots, if_neg h0]
      by_cases hd : due S (seq S u0 n).1 (shots S u0 n).length = true
      · rw [if_pos hd, if_pos hd]
        refine ⟨h.t, rfl, rfl, ?_, ?_⟩
        · simp [Sim.saveSolution, h.saved]
        · have e2 : (if s.iteration.tmod 2 = 0 then s.U else s.U2) = (seq S u0 n).2 := h.newest
          simp only [Sim.saveSolution, numbered_append, ho, hl, h.t, e2]
      · rw [if_neg hd, if_neg hd]
        exact ⟨h.t, rfl, rfl, h.saved, ho⟩
  rw [← hs1]
  refine ⟨_, rfl, ?_⟩
  have hit : s1.iteration = n := by rw [a2, h.iteration]
  have hnew := a3.trans h.newest
  have ht : s1.t = (seq S u0 n).1 := a1.trans h.t
  by_cases hp : (n : Int).tmod 2 = 0
  · have hp' : ¬ ((n : Int) + 1).tmod 2 = 0 := by rw [parity_succ]; simpa using hp
    rw [SimState.newest, hit, if_pos hp] at hnew
    constructor
    · simp [Sim.godunov, hit, hp, ht, seq, Sim.computeDt, clip, hnew]
    · simp [Sim.godunov, hit, hp]
    · simp [Sim.godunov, hit, hp, hp', ht, seq, Sim.computeDt, clip, hnew, SimState.newest]
    · simp [Sim.godunov, hit, hp, a4]
    · simpa [Sim.godunov, hit, hp] using a5
  · have hp' : ((n : Int) + 1).tmod 2 = 0 := by rw [parity_succ]; exact hp
    rw [SimState.newest, hit, if_neg hp] at hnew
    constructor
    · simp [Sim.godunov, hit, hp, ht, seq, Sim.computeDt, clip, hnew]
    · simp [Sim.godunov, hit, hp]
    · simp [Sim.godunov, hit, hp, hp', ht, seq, Sim.computeDt, clip, hnew, SimState.newest]
    · simp [Sim.godunov, hit, hp, a4]
    · simpa [Sim.godunov, hit, hp] using a5

theorem stopsAt_of_ge {S : Sim D α} {u0 : D} {n : ℕ} (h : S.nStepmax ≤ n) :
    stopsAt S u0 n = true := by simp [stopsAt, h]

/-- There is a first stop. -/
theorem exists_stop (S : Sim D α) (u0 : D) :
    ∃ N, stopsAt S u0 N = true ∧ ∀ n < N, stopsAt S u0 n = false := by
  classical
  have h : ∃ n, stopsAt S u0 n = true := ⟨S.nStepmax.toNat, stopsAt_of_ge (by omega)⟩
  refine ⟨Nat.find h, Nat.find_spec h, fun n hn => ?_⟩
  simpa using Nat.find_min h hn

theorem loop_from {S : Sim D α} {u0 : D} (hn : S.nlog ≠ 0) {N : ℕ} (hN : stopsAt S u0 N = true)
    (hlt : ∀ n < N, stopsAt S u0 n = false) (k : ℕ) {n : ℕ} {s : SimState D α} (hk : n + k = N)
    (h : LoopInv S u0 n s) : ∃ s', LoopInv S u0 N s' ∧ S.Loop s (some s') := by
  induction k generalizing n s with
  | zero =>
    have : n = N := by omega
    subst this
    exact ⟨s, h, .done ((loopInv_finished h).trans hN)⟩
  | succ k ih =>
    obtain ⟨s1, e, h1⟩ := loopInv_next hn h
    obtain ⟨s', h2, h3⟩ := ih (by omega) h1
    exact ⟨s', h2, .step ((loopInv_finished h).trans (hlt n (by omega))) e h3⟩

theorem loop_unique {S : Sim D α} {s : SimState D α} {r r' : Option (SimState D α)}
    (h : S.Loop s r) (h' : S.Loop s r') : r = r' := by
  induction h with
  | done hf => cases h' with
    | done => rfl
    | ub hf' => simp_all
    | step hf' => simp_all
  | ub hf hn => cases h' with
    | done => simp_all
    | ub => rfl
    | step _ hn' => simp_all
  | step hf hn _ ih => cases h' with
    | done => simp_all
    | ub _ hn' => simp_all
    | step _ hn' h2 =>
      rw [hn] at hn'
      cases hn'
      exact ih h2

theorem visits_inv {S : Sim D α} {u0 : D} (hn : S.nlog ≠ 0) {s : SimState D α}
    (h : S.Visits (S.start u0) s) :
    ∃ n, LoopInv S u0 n s ∧ ∀ k < n, stopsAt S u0 k = false := by
  generalize h0 : S.start u0 = s0 at h
  induction h with
  | refl => subst h0; exact ⟨0, loopInv_start S u0, fun k hk => by omega⟩
  | tail _ hf hnx ih =>
    obtain ⟨n, h1, h2⟩ := ih
    obtain ⟨s', e, h3⟩ := loopInv_next hn h1
    rw [hnx] at e
    cases e
    refine ⟨n + 1, h3, fun k hk => ?_⟩
    rcases Nat.lt_succ_iff_lt_or_eq.1 hk with hk | rfl
    · exact h2 k hk
    · rw [← loopInv_finished h1]; exact hf

end Verif
