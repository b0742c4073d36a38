import Verif.Model.Riemann

/-!
Checked real arithmetic: the value `none` stands for an undefined result (division by zero, square
root of a negative number) and everything computed from it is `none`.  Running the code at this
type shows whether a result depends on an undefined operation (NaN/Inf in floating point).
-/

namespace Verif.Spec

/-- Real number or undefined. -/
def CReal : Type := Option ℝ

namespace CReal

/-- A defined number. -/
def ok (x : ℝ) : CReal := some x

/-- The undefined result. -/
def undef : CReal := none

def map1 (f : ℝ → ℝ) : CReal → CReal
  | some x => some (f x)
  | none => none

def map2 (f : ℝ → ℝ → ℝ) : CReal → CReal → CReal
  | some x, some y => some (f x y)
  | _, _ => none

open Classical in
noncomputable instance : ROps CReal where
  add := map2 (· + ·)
  sub := map2 (· - ·)
  mul := map2 (· * ·)
  div a b := match a, b with
    | some x, some y => if y = 0 then none else some (x / y)
    | _, _ => none
  neg := map1 (- ·)
  lit q := some (q : ℝ)
  sqrt a := match a with
    | some x => if x < 0 then none else some (Real.sqrt x)
    | none => none
  fabs := map1 abs
  fmin := map2 min
  fmax := map2 max
  ltb a b := match a, b with
    | some x, some y => decide (x < y)
    | _, _ => false
  leb a b := match a, b with
    | some x, some y => decide (x ≤ y)
    | _, _ => false
  eqb a b := match a, b with
    | some x, some y => decide (x = y)
    | _, _ => false
  copysign := map2 (fun x y => if y < 0 then -|x| else |x|)

end CReal

open CReal

/-- Defined state. -/
def okState (q : HState ℝ) : HState CReal := ⟨ok q.d, ok q.p, ok q.u, ok q.v, ok q.w⟩

/-- Defined settings. -/
def okSettings (S : Settings ℝ) : Settings CReal :=
  { gamma0 := ok S.gamma0, gamma6 := ok S.gamma6, smallr := ok S.smallr, smallc := ok S.smallc,
    smallp := ok S.smallp, smallpp := ok S.smallpp, slope_type := ok S.slope_type, cfl := ok S.cfl,
    dx := ok S.dx, dy := ok S.dy, dz := ok S.dz, riemann := S.riemann }

end Verif.Spec
