import Verif.Model.Ops
import Mathlib.Analysis.SpecialFunctions.Trigonometric.Arctan
import Mathlib.Analysis.SpecialFunctions.Pow.Real
import Mathlib.Analysis.SpecialFunctions.Complex.Arg

/-!
# Mathematical functions of the initial conditions

The initial conditions use functions of `<cmath>` that the solvers do not.  As in `Model/Ops.lean` the
class has no laws; the real instance is exact.
-/

namespace Verif

/-- Functions of `<cmath>` used by the initial conditions, and `PI_F`
(`src/shared/real_type.h:65-75`).  No laws. -/
class TOps (α : Type) extends ROps α where
  pi : α
  sin : α → α
  cos : α → α
  exp : α → α
  log : α → α
  asin : α → α
  atan : α → α
  /-- `atan2 y x` -/
  atan2 : α → α → α
  pow : α → α → α

/-- Exact real functions. -/
noncomputable instance : TOps ℝ where
  toROps := inferInstance
  pi := Real.pi
  sin := Real.sin
  cos := Real.cos
  exp := Real.exp
  log := Real.log
  asin := Real.arcsin
  atan := Real.arctan
  atan2 := fun y x => Complex.arg ⟨x, y⟩
  pow := fun x y => x ^ y

/-- IEEE double precision. -/
instance : TOps Float where
  toROps := inferInstance
  pi := 3.141592653589793238462643383279502884
  sin := Float.sin
  cos := Float.cos
  exp := Float.exp
  log := Float.log
  asin := Float.asin
  atan := Float.atan
  atan2 := Float.atan2
  pow := Float.pow

end Verif
