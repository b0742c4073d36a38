import Verif.Model.Kernel
import Mathlib.Algebra.Group.Defs

/-! Vocabulary for the statements about parallel loops. -/

namespace Verif.K

variable {A V X : Type}

/-- `p` may perform an access of kind `κ` at `a` (for some values returned by its loads). -/
inductive May : K A V X → Kind → A → Prop
  | readHere (a k) : May (.read a k) .read a
  | writeHere (a v k) : May (.write a v k) .write a
  | addHere (a v k) : May (.add a v k) .add a
  | read (a k v κ b) : May (k v) κ b → May (.read a k) κ b
  | write (a v k κ b) : May k κ b → May (.write a v k) κ b
  | add (a v k κ b) : May k κ b → May (.add a v k) κ b

/-- Sum of the values a work item, run alone, atomically adds to location `a`. -/
def adds [DecidableEq A] [AddCommMonoid V] : K A V X → (A → V) → A → V
  | ret _, _, _ => 0
  | read b k, m, a => (k (m b)).adds m a
  | write b v k, m, a => k.adds (Function.update m b v) a
  | add b v k, m, a =>
      (if a = b then v else 0) + k.adds (Function.update m b (m b + v)) a

/-- Run the work items `body t`, for `t` in the list, one after the other. -/
def sequentially [DecidableEq A] [Add V] (body : Nat → K A V Unit) (order : List Nat)
    (m : A → V) : A → V :=
  order.foldl (fun m t => (body t).exec m) m

end Verif.K
