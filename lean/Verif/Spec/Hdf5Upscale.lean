import Verif.Model.Params
import Mathlib.Data.Real.Basic

/-!
# Refining a staggered state by two

Positions are relative to the first inner cell of the whole domain and may be negative (ghost cells).
-/

namespace Verif.Hdf5

/-- The coarse cell a fine cell lies in. -/
def parent (d3 : Bool) (c : Cell) : Cell := ⟨c.i / 2, c.j / 2, if d3 then c.k / 2 else 0⟩

/-- The face normal to axis 0, 1, 2 at the lower side of a fine cell is half way between two coarse faces. -/
def between (d3 : Bool) (axis : Nat) (c : Cell) : Bool :=
  match axis with
  | 0 => c.i % 2 = 1
  | 1 => c.j % 2 = 1
  | 2 => d3 && decide (c.k % 2 = 1)
  | _ => false

/-- Next cell along an axis. -/
def nextCell (axis : Nat) (c : Cell) : Cell :=
  match axis with
  | 0 => ⟨c.i + 1, c.j, c.k⟩
  | 1 => ⟨c.i, c.j + 1, c.k⟩
  | 2 => ⟨c.i, c.j, c.k + 1⟩
  | _ => c

/-- Cell averages are copied. -/
noncomputable def refinedCell (d3 : Bool) (W : Cell → ℝ) (c : Cell) : ℝ := W (parent d3 c)

/-- Face averages are interpolated linearly along the normal. -/
noncomputable def refinedFace (d3 : Bool) (axis : Nat) (W : Cell → ℝ) (c : Cell) : ℝ :=
  if between d3 axis c then (W (parent d3 c) + W (nextCell axis (parent d3 c))) / 2 else W (parent d3 c)

/-- What variable `v` becomes: magnetic fields live on faces. -/
noncomputable def refined (d3 : Bool) (v : Nat) (W : Cell → ℝ) (c : Cell) : ℝ :=
  if v = 5 then refinedFace d3 0 W c else if v = 6 then refinedFace d3 1 W c else if v = 7 then refinedFace d3 2 W c
  else refinedCell d3 W c

/-- Divergence of a staggered field on cells of size `dx, dy, dz`. -/
noncomputable def divOf (d3 : Bool) (dx dy dz : ℝ) (A B C : Cell → ℝ) (c : Cell) : ℝ :=
  (A (nextCell 0 c) - A c) / dx + (B (nextCell 1 c) - B c) / dy +
    if d3 then (C (nextCell 2 c) - C c) / dz else 0

end Verif.Hdf5
