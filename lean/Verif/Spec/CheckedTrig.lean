import Verif.Spec.Checked
import Verif.Model.Trig

/-! Checked real arithmetic for the functions of the initial conditions. -/

namespace Verif.Spec.CReal

open Classical in
/-- The logarithm needs a positive argument, the arc sine one of at most 1 in size, a power a positive
base. -/
noncomputable instance : TOps CReal where
  toROps := inferInstance
  pi := ok Real.pi
  sin := map1 Real.sin
  cos := map1 Real.cos
  exp := map1 Real.exp
  log a := match a with
    | some x => if 0 < x then some (Real.log x) else none
    | none => none
  asin a := match a with
    | some x => if |x| ≤ 1 then some (Real.arcsin x) else none
    | none => none
  atan := map1 Real.arctan
  atan2 := map2 fun y x => Complex.arg ⟨x, y⟩
  pow a b := match a, b with
    | some x, some y => if 0 < x then some (x ^ y) else none
    | _, _ => none

end Verif.Spec.CReal
