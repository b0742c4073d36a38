import Mathlib.Analysis.SpecialFunctions.Integrals.Basic
import Mathlib.Tactic.FieldSimp
import Mathlib.Tactic.Ring
import Verif.Lemmas.RealOps
import Verif.Model.MoodPoly
import Verif.Spec.Mood

/-! Helper lemmas: powers, polynomial evaluation and moments over the reals. -/

namespace Verif.Mood

open Verif ROps Spec

theorem ipow_real (x : ℝ) (n : ℕ) : ipow x n = x ^ n := by
  induction n with
  | zero => simp [ipow, lit]
  | succ n ih => rw [ipow, ih, pow_succ]

theorem ofInt_real (i : ℤ) : (ofInt i : ℝ) = (i : ℝ) := by
  simp [ofInt, lit]

theorem lit_real (q : ℚ) : (lit q : ℝ) = (q : ℝ) := rfl

theorem foldl_add_real (f : ℕ → ℝ) (n : ℕ) (z : ℝ) :
    (List.range n).foldl (fun acc i => acc + f i) z = z + ∑ i ∈ Finset.range n, f i := by
  induction n with
  | zero => simp
  | succ n ih => rw [List.range_succ, List.foldl_append, ih, Finset.sum_range_succ]; simp; ring

theorem eval2_real (mm : ℕ → ℕ → ℕ) (nc : ℕ) (x y : ℝ) (c : ℕ → ℝ) :
    eval2 mm nc x y c = ∑ i ∈ Finset.range nc, c i * x ^ mm i 0 * y ^ mm i 1 := by
  have h := foldl_add_real (fun i => c i * x ^ mm i 0 * y ^ mm i 1) nc 0
  rw [zero_add] at h
  rw [← h]
  unfold eval2
  simp only [ipow_real, lit_real, Rat.cast_zero]

theorem eval3_real (mm : ℕ → ℕ → ℕ) (nc : ℕ) (x y z : ℝ) (c : ℕ → ℝ) :
    eval3 mm nc x y z c =
      ∑ i ∈ Finset.range nc, c i * x ^ mm i 0 * y ^ mm i 1 * z ^ mm i 2 := by
  have h := foldl_add_real (fun i => c i * x ^ mm i 0 * y ^ mm i 1 * z ^ mm i 2) nc 0
  rw [zero_add] at h
  rw [← h]
  unfold eval3
  simp only [ipow_real, lit_real, Rat.cast_zero]

/-- mean of `x^n` over an interval of the grid, as a formula -/
noncomputable def mom (dx : ℝ) (i : ℤ) (n : ℕ) : ℝ :=
  dx ^ n / (n + 1) * (((i : ℝ) + 1 / 2) ^ (n + 1) - ((i : ℝ) - 1 / 2) ^ (n + 1))

theorem eval_moment2_real {dx dy : ℝ} (hx : dx ≠ 0) (hy : dy ≠ 0) (i j : ℤ) (n m : ℕ) :
    eval_moment2 dx dy i j n m = mom dx i n * mom dy j m := by
  unfold eval_moment2 mom
  simp only [ipow_real, ofInt_real]
  rops
  push_cast
  have hn : (n : ℝ) + 1 ≠ 0 := by positivity
  have hm : (m : ℝ) + 1 ≠ 0 := by positivity
  field_simp
  ring

theorem eval_moment3_real {dx dy dz : ℝ} (hx : dx ≠ 0) (hy : dy ≠ 0) (hz : dz ≠ 0)
    (i j k : ℤ) (n m l : ℕ) :
    eval_moment3 dx dy dz i j k n m l = mom dx i n * mom dy j m * mom dz k l := by
  unfold eval_moment3 mom
  simp only [ipow_real, ofInt_real]
  rops
  push_cast
  have hn : (n : ℝ) + 1 ≠ 0 := by positivity
  have hm : (m : ℝ) + 1 ≠ 0 := by positivity
  have hl : (l : ℝ) + 1 ≠ 0 := by positivity
  field_simp
  ring

theorem integral_mom {dx : ℝ} (hx : dx ≠ 0) (i : ℤ) (n : ℕ) :
    (∫ x in (((i : ℝ) - 1 / 2) * dx)..(((i : ℝ) + 1 / 2) * dx), x ^ n) = mom dx i n * dx := by
  rw [integral_pow]
  unfold mom
  rw [mul_pow, mul_pow]
  field_simp
  ring

/-- mean of a polynomial of two variables over a cell -/
theorem cellMean2_poly {dx dy : ℝ} (hx : dx ≠ 0) (hy : dy ≠ 0) (i j : ℤ) (mm : ℕ → ℕ → ℕ)
    (nc : ℕ) (c : ℕ → ℝ) :
    cellMean2 dx dy i j (fun x y => ∑ k ∈ Finset.range nc, c k * x ^ mm k 0 * y ^ mm k 1)
      = ∑ k ∈ Finset.range nc, c k * (mom dx i (mm k 0) * mom dy j (mm k 1)) := by
  unfold cellMean2
  have h1 : ∀ x : ℝ,
      (∫ y in (((j : ℝ) - 1 / 2) * dy)..(((j : ℝ) + 1 / 2) * dy),
        ∑ k ∈ Finset.range nc, c k * x ^ mm k 0 * y ^ mm k 1)
      = ∑ k ∈ Finset.range nc, (c k * (mom dy j (mm k 1) * dy)) * x ^ mm k 0 := by
    intro x
    rw [intervalIntegral.integral_finsetSum]
    · refine Finset.sum_congr rfl fun k _ => ?_
      rw [intervalIntegral.integral_const_mul, integral_mom hy]; ring
    · intro k _
      exact (Continuous.intervalIntegrable (by fun_prop) _ _)
  simp only [h1]
  rw [intervalIntegral.integral_finsetSum]
  · rw [Finset.sum_div]
    refine Finset.sum_congr rfl fun k _ => ?_
    rw [intervalIntegral.integral_const_mul, integral_mom hx]
    field_simp
  · intro k _
    exact (Continuous.intervalIntegrable (by fun_prop) _ _)

/-- mean of a polynomial of three variables over a cell -/
theorem cellMean3_poly {dx dy dz : ℝ} (hx : dx ≠ 0) (hy : dy ≠ 0) (hz : dz ≠ 0) (i j l : ℤ)
    (mm : ℕ → ℕ → ℕ) (nc : ℕ) (c : ℕ → ℝ) :
    cellMean3 dx dy dz i j l
        (fun x y z => ∑ k ∈ Finset.range nc, c k * x ^ mm k 0 * y ^ mm k 1 * z ^ mm k 2)
      = ∑ k ∈ Finset.range nc,
          c k * (mom dx i (mm k 0) * mom dy j (mm k 1) * mom dz l (mm k 2)) := by
  unfold cellMean3
  have h0 : ∀ x y : ℝ,
      (∫ z in (((l : ℝ) - 1 / 2) * dz)..(((l : ℝ) + 1 / 2) * dz),
        ∑ k ∈ Finset.range nc, c k * x ^ mm k 0 * y ^ mm k 1 * z ^ mm k 2)
      = ∑ k ∈ Finset.range nc, (c k * (mom dz l (mm k 2) * dz) * x ^ mm k 0) * y ^ mm k 1 := by
    intro x y
    rw [intervalIntegral.integral_finsetSum]
    · refine Finset.sum_congr rfl fun k _ => ?_
      rw [intervalIntegral.integral_const_mul, integral_mom hz]; ring
    · intro k _
      exact (Continuous.intervalIntegrable (by fun_prop) _ _)
  have h1 : ∀ x : ℝ,
      (∫ y in (((j : ℝ) - 1 / 2) * dy)..(((j : ℝ) + 1 / 2) * dy),
        ∑ k ∈ Finset.range nc, (c k * (mom dz l (mm k 2) * dz) * x ^ mm k 0) * y ^ mm k 1)
      = ∑ k ∈ Finset.range nc,
          (c k * (mom dz l (mm k 2) * dz) * (mom dy j (mm k 1) * dy)) * x ^ mm k 0 := by
    intro x
    rw [intervalIntegral.integral_finsetSum]
    · refine Finset.sum_congr rfl fun k _ => ?_
      rw [intervalIntegral.integral_const_mul, integral_mom hy]; ring
    · intro k _
      exact (Continuous.intervalIntegrable (by fun_prop) _ _)
  simp only [h0, h1]
  rw [intervalIntegral.integral_finsetSum]
  · rw [Finset.sum_div]
    refine Finset.sum_congr rfl fun k _ => ?_
    rw [intervalIntegral.integral_const_mul, integral_mom hx]
    field_simp
  · intro k _
    exact (Continuous.intervalIntegrable (by fun_prop) _ _)

theorem mom_zero_exp (dx : ℝ) (i : ℤ) : mom dx i 0 = 1 := by
  unfold mom; norm_num

theorem mom_odd (dx : ℝ) {n : ℕ} (h : n % 2 = 1) : mom dx 0 n = 0 := by
  unfold mom
  have he : Even (n + 1) := ⟨(n + 1) / 2, by omega⟩
  have : ((0 : ℤ) : ℝ) - 1 / 2 = -(((0 : ℤ) : ℝ) + 1 / 2) := by norm_num
  rw [this, he.neg_pow]; ring

/-- the coefficients found by a left inverse of the geometry matrix -/
theorem reconCoefs_leftInverse (nc nr : ℕ) (pi : ℕ → ℕ → ℝ) (G : ℕ → ℕ → ℝ) (p : ℕ → ℝ) (uc : ℝ)
    (rhs : List ℝ) (hlen : rhs.length = nr)
    (hpi : ∀ r < nc, ∀ c < nc, ∑ ik ∈ Finset.range nr, pi r ik * G ik c = if r = c then 1 else 0)
    (hrhs : ∀ ik < nr, rhs.getD ik 0 = ∑ c ∈ Finset.range nc, G ik c * p (c + 1))
    (r : ℕ) (hr : r < nc) : reconCoefs nc pi uc rhs (r + 1) = p (r + 1) := by
  have e : reconCoefs nc pi uc rhs (r + 1)
      = ∑ ik ∈ Finset.range nr, pi r ik * rhs.getD ik 0 := by
    have h := foldl_add_real (fun ik => pi r ik * rhs.getD ik 0) nr 0
    rw [zero_add] at h
    rw [← h]
    simp only [reconCoefs, if_pos hr, hlen, lit_real, Rat.cast_zero]
  rw [e]
  have e2 : ∀ ik ∈ Finset.range nr, pi r ik * rhs.getD ik 0
      = ∑ c ∈ Finset.range nc, (pi r ik * G ik c) * p (c + 1) := by
    intro ik hik
    rw [hrhs ik (Finset.mem_range.1 hik), Finset.mul_sum]
    exact Finset.sum_congr rfl fun c _ => by ring
  rw [Finset.sum_congr rfl e2, Finset.sum_comm]
  have e3 : ∀ c ∈ Finset.range nc, (∑ ik ∈ Finset.range nr, (pi r ik * G ik c) * p (c + 1))
      = (if r = c then p (c + 1) else 0) := by
    intro c hc
    rw [← Finset.sum_mul, hpi r hr c (Finset.mem_range.1 hc)]
    split <;> simp
  rw [Finset.sum_congr rfl e3]
  simp [hr]

end Verif.Mood
