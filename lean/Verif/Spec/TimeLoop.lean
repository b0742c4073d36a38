import Verif.Model.TimeLoop

/-!
# What a run should produce (independent of arrays, parity and loop)

The run is a sequence of times and states; `update ∘ fill` is one step of the scheme.
-/

namespace Verif.Spec

variable {D α : Type} [ROps α]

/-- A step never goes past the end time: the CFL step, or what is left. -/
def clip (tEnd t d : α) : α := if ROps.ltb tEnd (t + d) then tEnd - t else d

/-- Time and state after `n` steps, from state `u` (ghost cells filled) at time `t`. -/
def seq (S : Sim D α) (u0 : D) : ℕ → α × D
  | 0 => (S.tCurrent, S.fill u0)
  | n + 1 =>
    let (t, u) := seq S u0 n
    let dt := clip S.tEnd t (S.dtLocal (if S.dtInside then S.fill u else u))
    (t + dt, S.update (S.fill u) dt)

/-- The run stops before step `n`. -/
def stopsAt (S : Sim D α) (u0 : D) (n : ℕ) : Bool :=
  ROps.leb (S.tEnd - ROps.lit (1 / 10 ^ 14)) (seq S u0 n).1 || decide ((n : Int) ≥ S.nStepmax)

/-- Is a snapshot due before a step at time `t`, when `k` snapshots have been written?  Always if
`nOutput < 0`; otherwise if more than `tEnd/nOutput` passed since the time the last snapshot stands for, or
if the end is reached. -/
def due (S : Sim D α) (t : α) (k : ℕ) : Bool :=
  decide (S.nOutput < 0) ||
  ROps.ltb (S.tEnd / ROps.lit (S.nOutput : ℚ))
    (t - ROps.lit (((k : Int) - 1 : Int) : ℚ) * (S.tEnd / ROps.lit (S.nOutput : ℚ))) ||
  ROps.ltb (ROps.fabs (t - S.tEnd)) (ROps.lit (1 / 10 ^ 12))

/-- Snapshots (time and state, in order) written before step `n` starts: the initial one, then those
due. -/
def shots (S : Sim D α) (u0 : D) : ℕ → List (α × D)
  | 0 => [seq S u0 0]
  | n + 1 =>
    let l := shots S u0 n
    if due S (seq S u0 n).1 l.length then l ++ [seq S u0 n] else l

end Verif.Spec
