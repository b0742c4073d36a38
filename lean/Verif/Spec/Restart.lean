import Verif.Model.Restart

/-! What restarting should mean. -/

namespace Verif.Spec

variable {D α : Type} [ROps α]

/-- A name ending in `.h5`. -/
def IsH5 (name : List Char) : Prop := ∃ stem : List Char, name = stem ++ ".h5".toList

/-- `same` – equal inside the domain – is all that matters: the ghost cells are computed from the inside, which
the fill keeps, and the time step looks at the inside only. -/
structure GhostsDerived (S : Sim D α) (same : D → D → Prop) : Prop where
  equiv : Equivalence same
  fill_eq : ∀ a b, same a b → S.fill a = S.fill b
  fill_same : ∀ a, same (S.fill a) a
  dt_eq : ∀ a b, same a b → S.dtLocal a = S.dtLocal b

/-- The array with the newest state: the arrays swap roles in every step. -/
def current (s : SimState D α) : D := if s.iteration % 2 = 0 then s.U else s.U2

/-- The number of steps still allowed when `i` have been made. -/
def stepsLeft (S : Sim D α) (i : Int) : Sim D α := { S with nStepmax := S.nStepmax - i }

end Verif.Spec
