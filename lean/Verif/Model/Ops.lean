import Mathlib.Analysis.Real.Sqrt
import Mathlib.Data.Rat.Cast.Order

/-!
# Arithmetic

The numerical code is modelled over a class of operations **without laws**: `real_t` of the code
(`src/shared/real_type.h`, `double` or `float`) has `+ - * /`, unary minus, `sqrt`, `fabs`, `fmin`,
`fmax`, comparisons and literals.  A theorem over an arbitrary `ROps` holds for IEEE arithmetic bit for bit
(as long as the compiler does not reassociate).  `ℝ` and `ℚ` (without `sqrt`) are the exact instances.
-/

namespace Verif

/-- Operations of `real_t` (`src/shared/real_type.h:1-89`). No laws. -/
class ROps (α : Type) extends Add α, Sub α, Mul α, Div α, Neg α where
  /-- a floating point literal of the source, e.g. `HALF_F`, `1.0` -/
  lit : ℚ → α
  sqrt : α → α
  fabs : α → α
  fmin : α → α → α
  fmax : α → α → α
  /-- `a < b` -/
  ltb : α → α → Bool
  /-- `a <= b` -/
  leb : α → α → Bool
  /-- `a == b` -/
  eqb : α → α → Bool
  /-- `COPYSIGN(x, y)` (`src/shared/real_type.h:78-82`) -/
  copysign : α → α → α

open Classical in
/-- Exact real arithmetic. -/
noncomputable instance : ROps ℝ where
  lit q := (q : ℝ)
  sqrt := Real.sqrt
  fabs := abs
  fmin := min
  fmax := max
  ltb a b := decide (a < b)
  leb a b := decide (a ≤ b)
  eqb a b := decide (a = b)
  copysign x y := if y < 0 then -|x| else |x|

/-- Exact rational arithmetic, used in concrete examples.  `sqrt` is only exact on squares of
numerator and denominator (examples do not depend on it elsewhere). -/
instance : ROps ℚ where
  lit q := q
  sqrt q := if q ≤ 0 then 0 else (Nat.sqrt q.num.toNat : ℚ) / (Nat.sqrt q.den : ℚ)
  fabs := abs
  fmin := min
  fmax := max
  ltb a b := decide (a < b)
  leb a b := decide (a ≤ b)
  eqb a b := decide (a = b)
  copysign x y := if y < 0 then -|x| else |x|

/-- IEEE double precision, to make explicit that law-free theorems apply to it. -/
instance : ROps Float where
  lit q := Float.ofInt q.num / Float.ofNat q.den
  sqrt := Float.sqrt
  fabs := Float.abs
  fmin a b := if a ≤ b then a else b
  fmax a b := if a ≤ b then b else a
  ltb a b := decide (a < b)
  leb a b := decide (a ≤ b)
  eqb a b := a == b
  copysign x y := if y < 0 || 1.0 / y < 0 then -(Float.abs x) else Float.abs x

namespace ROps
variable {α : Type} [ROps α]
/-- `a > b` -/
def gtb (a b : α) : Bool := ltb b a
/-- `a >= b` -/
def geb (a b : α) : Bool := leb b a
end ROps

end Verif
