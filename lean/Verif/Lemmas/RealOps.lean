import Verif.Model.Ops

/-! The operations of `ROps` at `ℝ`, as rewriting rules. -/

namespace Verif

theorem rops_add (a b : ℝ) : @HAdd.hAdd ℝ ℝ ℝ (@instHAdd ℝ (ROps.toAdd)) a b = a + b := rfl
theorem rops_sub (a b : ℝ) : @HSub.hSub ℝ ℝ ℝ (@instHSub ℝ (ROps.toSub)) a b = a - b := rfl
theorem rops_mul (a b : ℝ) : @HMul.hMul ℝ ℝ ℝ (@instHMul ℝ (ROps.toMul)) a b = a * b := rfl
theorem rops_div (a b : ℝ) : @HDiv.hDiv ℝ ℝ ℝ (@instHDiv ℝ (ROps.toDiv)) a b = a / b := rfl
theorem rops_neg (a : ℝ) : @Neg.neg ℝ (ROps.toNeg) a = -a := rfl
theorem rops_lit (q : ℚ) : (ROps.lit q : ℝ) = (q : ℝ) := rfl
theorem rops_sqrt (a : ℝ) : ROps.sqrt a = Real.sqrt a := rfl
theorem rops_fabs (a : ℝ) : ROps.fabs a = |a| := rfl
theorem rops_fmin (a b : ℝ) : ROps.fmin a b = min a b := rfl
theorem rops_fmax (a b : ℝ) : ROps.fmax a b = max a b := rfl
theorem rops_ltb (a b : ℝ) : (ROps.ltb a b = true) = (a < b) := by simp [ROps.ltb]
theorem rops_leb (a b : ℝ) : (ROps.leb a b = true) = (a ≤ b) := by simp [ROps.leb]
theorem rops_gtb (a b : ℝ) : (ROps.gtb a b = true) = (b < a) := by simp [ROps.gtb, rops_ltb]
theorem rops_geb (a b : ℝ) : (ROps.geb a b = true) = (b ≤ a) := by simp [ROps.geb, rops_leb]
theorem rops_eqb (a b : ℝ) : (ROps.eqb a b = true) = (a = b) := by simp [ROps.eqb]
theorem rops_copysign (x y : ℝ) : ROps.copysign x y = if y < 0 then -|x| else |x| := by
  simp only [ROps.copysign]

/-- `rops` rewrites the operations of `ROps` at `ℝ` to those of `ℝ`. -/
macro "rops" : tactic => `(tactic|
  simp only [rops_add, rops_sub, rops_mul, rops_div, rops_neg, rops_lit, rops_sqrt, rops_fabs,
    rops_fmin, rops_fmax, rops_ltb, rops_leb, rops_gtb, rops_geb, rops_eqb, rops_copysign,
    Rat.cast_zero, Rat.cast_one, Rat.cast_ofNat, Rat.cast_div])

end Verif
