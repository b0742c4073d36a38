import Verif.Model.Ops

/-!
# What the ghost cells should contain (independent of the code)

One coordinate axis has `n` interior positions `g, …, n+g-1` and `g` ghost positions on either side.
-/

namespace Verif.Spec

/-- The three boundary conditions a user can choose. -/
inductive BC | reflecting | absorbing | periodic
  deriving DecidableEq

/-- Number used for the condition in the parameter file (`boundary_type_xmin=1` …). -/
def BC.code : BC → Int
  | reflecting => 1
  | absorbing => 2
  | periodic => 3

/-- Interior position from which position `c` of the axis takes its value:
mirror image (reflecting), nearest interior cell (absorbing), one period away (periodic). -/
def source (n g : Int) (lo hi : BC) (c : Int) : Int :=
  if c < g then
    match lo with
    | .reflecting => g + (g - 1 - c)
    | .absorbing => g
    | .periodic => c + n
  else if n + g ≤ c then
    match hi with
    | .reflecting => (n + g - 1) - (c - (n + g))
    | .absorbing => n + g - 1
    | .periodic => c - n
  else c

/-- Position `c` lies behind a reflecting wall. -/
def behindWall (n g : Int) (lo hi : BC) (c : Int) : Bool :=
  (decide (c < g) && lo == .reflecting) || (decide (n + g ≤ c) && hi == .reflecting)

/-- Position `c` is a ghost position. -/
def isGhost (n g c : Int) : Bool := decide (c < g) || decide (n + g ≤ c)

/-- What happens to a value copied along one axis: interior values are untouched; ghost values are
multiplied by `-1` if they are a normal component behind a reflecting wall, by `1` otherwise. -/
def cross {α : Type} [ROps α] (n g : Int) (lo hi : BC) (normal : Bool) (c : Int) (x : α) : α :=
  if isGhost n g c then x * ROps.lit (if behindWall n g lo hi c && normal then -1 else 1) else x

/-- Variables: density, energy, three velocity/momentum components, three magnetic components, at positions
0,1,2,3,4,5,6,7 of a state.  `normalTo 0/1/2` (x/y/z): the velocity component along the axis, and with
magnetic field also the field component along it. -/
def normalTo (axis : Nat) (mhd : Bool) (v : Nat) : Bool :=
  decide (v = 2 + axis) || (mhd && decide (v = 5 + axis))

end Verif.Spec
