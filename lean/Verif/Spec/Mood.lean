import Mathlib.MeasureTheory.Integral.IntervalIntegral.Basic

/-! Specification for the MOOD reconstruction, independent of the model: the mean of a function
over a cell of a regular grid whose cell `0` is centred at the origin. -/

namespace Verif.Spec

/-- mean of `f` over the cell `(i, j)`, `[(i-1/2)dx, (i+1/2)dx] × [(j-1/2)dy, (j+1/2)dy]` -/
noncomputable def cellMean2 (dx dy : ℝ) (i j : ℤ) (f : ℝ → ℝ → ℝ) : ℝ :=
  (∫ x in ((i - 1 / 2) * dx)..((i + 1 / 2) * dx),
    ∫ y in ((j - 1 / 2) * dy)..((j + 1 / 2) * dy), f x y) / (dx * dy)

/-- mean of `f` over the cell `(i, j, k)` -/
noncomputable def cellMean3 (dx dy dz : ℝ) (i j k : ℤ) (f : ℝ → ℝ → ℝ → ℝ) : ℝ :=
  (∫ x in ((i - 1 / 2) * dx)..((i + 1 / 2) * dx),
    ∫ y in ((j - 1 / 2) * dy)..((j + 1 / 2) * dy),
      ∫ z in ((k - 1 / 2) * dz)..((k + 1 / 2) * dz), f x y z) / (dx * dy * dz)

end Verif.Spec
