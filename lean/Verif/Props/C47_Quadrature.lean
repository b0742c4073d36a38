import Mathlib.Analysis.SpecialFunctions.Integrals.Basic
import Mathlib.Tactic.FieldSimp
import Mathlib.Tactic.NormNum
import Verif.Lemmas.MoodGeometry
import Verif.Model.MoodQuad

/-! C47: the face quadrature rules of the MOOD solver. -/

namespace Verif.Mood

open Verif ROps MeasureTheory

/-- C47: on a face the points of the lower and of the upper cell are the same points of space: the
upper face of a cell and the lower face of the next cell, one cell size further, agree, for every
rule, direction and point (2D). -/
theorem C47_faces_match_2D (n iq : ℕ) (x y : ℝ) :
    (x + (quadLoc2 n .x true iq : ℝ × ℝ).1, y + (quadLoc2 n .x true iq : ℝ × ℝ).2)
      = (x + 1 + (quadLoc2 n .x false iq : ℝ × ℝ).1, y + (quadLoc2 n .x false iq : ℝ × ℝ).2) ∧
    (x + (quadLoc2 n .y true iq : ℝ × ℝ).1, y + (quadLoc2 n .y true iq : ℝ × ℝ).2)
      = (x + (quadLoc2 n .y false iq : ℝ × ℝ).1, y + 1 + (quadLoc2 n .y false iq : ℝ × ℝ).2) := by
  constructor <;>
    simp only [quadLoc2, normalCoord, if_true, Bool.false_eq_true, if_false, Prod.mk.injEq,
      true_and, and_true, lit_real] <;> push_cast <;> ring

/-- C47: the same in 3D. -/
theorem C47_faces_match_3D (n iq : ℕ) (x y z : ℝ) :
    (let p := (quadLoc3 n .x true iq : ℝ × ℝ × ℝ); let q := (quadLoc3 n .x false iq : ℝ × ℝ × ℝ)
      (x + p.1, y + p.2.1, z + p.2.2) = (x + 1 + q.1, y + q.2.1, z + q.2.2)) ∧
    (let p := (quadLoc3 n .y true iq : ℝ × ℝ × ℝ); let q := (quadLoc3 n .y false iq : ℝ × ℝ × ℝ)
      (x + p.1, y + p.2.1, z + p.2.2) = (x + q.1, y + 1 + q.2.1, z + q.2.2)) ∧
    (let p := (quadLoc3 n .z true iq : ℝ × ℝ × ℝ); let q := (quadLoc3 n .z false iq : ℝ × ℝ × ℝ)
      (x + p.1, y + p.2.1, z + p.2.2) = (x + q.1, y + q.2.1, z + 1 + q.2.2)) := by
  refine ⟨?_, ?_, ?_⟩ <;>
    simp only [quadLoc3, normalCoord, if_true, Bool.false_eq_true, if_false, Prod.mk.injEq,
      true_and, and_true, lit_real] <;> push_cast <;> ring

/-! ## one direction -/

/-- error of the literals for the square roots: `SQRT_3` is accurate to all its digits, `SQRT_3_5`
only to 16 digits (the literal is `0.77459666924148340…`, the square root of 0.6 is
`0.77459666924148337…`) -/
noncomputable def quadEps (n : ℕ) : ℝ := if n = 3 then 1 / 10 ^ 16 else 1 / 10 ^ 36

/-- the rule applied to a function of the tangential coordinate -/
noncomputable def rule (n : ℕ) (p : ℝ → ℝ) : ℝ := quadSum2 n (fun iq => p (tang2 n iq))

theorem rule1 (p : ℝ → ℝ) : rule 1 p = p 0 := by
  simp [rule, quadSum2, tang2, lit]

theorem rule2 (p : ℝ → ℝ) :
    rule 2 p = 1 / 2 * p (-(1 / 2 / SQRT_3)) + 1 / 2 * p (1 / 2 / SQRT_3) := by
  simp only [rule, quadSum2, tang2, quadWeight, List.range, List.range.loop, List.foldl]
  norm_num [lit_real, neg_div]
  ring

theorem rule3 (p : ℝ → ℝ) :
    rule 3 p = 5 / 18 * p (-(1 / 2 * SQRT_3_5)) + 8 / 18 * p 0 + 5 / 18 * p (1 / 2 * SQRT_3_5) := by
  simp only [rule, quadSum2, tang2, quadWeight, List.range, List.range.loop, List.foldl]
  norm_num [lit_real]
  ring

/-- mean of a power over the unit interval around 0 -/
theorem mean_pow (k : ℕ) : (∫ t in (-1 / 2 : ℝ)..(1 / 2), t ^ k)
    = ((1 / 2) ^ (k + 1) - (-1 / 2) ^ (k + 1)) / (k + 1) := integral_pow k

/-- error of the rule with `n` points on a power below `2 n` -/
theorem rule_pow (n : ℕ) (hn : n = 1 ∨ n = 2 ∨ n = 3) (k : ℕ) (hk : k < 2 * n) :
    |rule n (fun t => t ^ k) - ∫ t in (-1 / 2 : ℝ)..(1 / 2), t ^ k| ≤ quadEps n := by
  rw [mean_pow]
  unfold quadEps
  rcases hn with rfl | rfl | rfl
  · rw [rule1]
    interval_cases k <;> norm_num
  · rw [rule2]
    unfold SQRT_3
    interval_cases k <;> norm_num [lit_real, abs_le]
  · rw [rule3]
    unfold SQRT_3_5
    interval_cases k <;> norm_num [lit_real, abs_le]

/-- C47: the literal for the square root of 0.6 is wrong from the 17th digit on: it is too large by
more than `2·10⁻¹⁷`. -/
theorem C47_sqrt_3_5_digits : √(3 / 5) + 2 / 10 ^ 17 < (SQRT_3_5 : ℝ) ∧
    (SQRT_3_5 : ℝ) < √(3 / 5) + 3 / 10 ^ 17 := by
  unfold SQRT_3_5
  rw [lit_real]
  constructor
  · rw [← lt_sub_iff_add_lt, Real.sqrt_lt' (by norm_num)]
    norm_num
  · rw [← sub_lt_iff_lt_add, Real.lt_sqrt (by norm_num)]
    norm_num

/-- the rules are symmetric: odd powers are integrated exactly, for any exponent -/
theorem rule_odd (n : ℕ) (hn : n = 1 ∨ n = 2 ∨ n = 3) (k : ℕ) (hk : Odd k) :
    rule n (fun t => t ^ k) = ∫ t in (-1 / 2 : ℝ)..(1 / 2), t ^ k := by
  have hk0 : k ≠ 0 := by rintro rfl; exact absurd hk (by decide)
  have he : Even (k + 1) := hk.add_one
  rw [mean_pow, neg_div, he.neg_pow, sub_self, zero_div]
  rcases hn with rfl | rfl | rfl
  · rw [rule1]; simp [hk0]
  · rw [rule2, hk.neg_pow]; ring
  · rw [rule3, hk.neg_pow]; simp [hk0]

theorem rule_sum (n : ℕ) (hn : n = 1 ∨ n = 2 ∨ n = 3) (m : ℕ) (p : ℕ → ℝ → ℝ) (c : ℕ → ℝ) :
    rule n (fun t => ∑ k ∈ Finset.range m, c k * p k t)
      = ∑ k ∈ Finset.range m, c k * rule n (p k) := by
  rcases hn with rfl | rfl | rfl
  · simp only [rule1]
  · simp only [rule2, Finset.mul_sum]
    rw [← Finset.sum_add_distrib]
    exact Finset.sum_congr rfl fun k _ => by ring
  · simp only [rule3, Finset.mul_sum]
    rw [← Finset.sum_add_distrib, ← Finset.sum_add_distrib]
    exact Finset.sum_congr rfl fun k _ => by ring

theorem integral_poly (m : ℕ) (c : ℕ → ℝ) :
    (∫ t in (-1 / 2 : ℝ)..(1 / 2), ∑ k ∈ Finset.range m, c k * t ^ k)
      = ∑ k ∈ Finset.range m, c k * ∫ t in (-1 / 2 : ℝ)..(1 / 2), t ^ k := by
  rw [intervalIntegral.integral_finsetSum]
  · exact Finset.sum_congr rfl fun k _ => intervalIntegral.integral_const_mul _ _
  · intro k _
    exact (intervalIntegral.intervalIntegrable_pow k).const_mul (c k)

/-- C47 (2D): with `n` = 1, 2, 3 points every polynomial of degree below `2 n` is integrated over
the face exactly, up to the error of the literals for the square roots: at most `quadEps n` times the
sum of the absolute coefficients (`10⁻³⁶` with 1 or 2 points, `10⁻¹⁶` with 3). -/
theorem C47_exact_2D (n : ℕ) (hn : n = 1 ∨ n = 2 ∨ n = 3) (c : ℕ → ℝ) :
    |quadSum2 n (fun iq => ∑ k ∈ Finset.range (2 * n), c k * (tang2 n iq) ^ k)
        - ∫ t in (-1 / 2 : ℝ)..(1 / 2), ∑ k ∈ Finset.range (2 * n), c k * t ^ k|
      ≤ quadEps n * ∑ k ∈ Finset.range (2 * n), |c k| := by
  have h : quadSum2 n (fun iq => ∑ k ∈ Finset.range (2 * n), c k * (tang2 n iq) ^ k)
      = rule n (fun t => ∑ k ∈ Finset.range (2 * n), c k * t ^ k) := rfl
  rw [h, rule_sum n hn (2 * n) (fun k t => t ^ k) c, integral_poly, ← Finset.sum_sub_distrib]
  refine (Finset.abs_sum_le_sum_abs _ _).trans ?_
  rw [Finset.mul_sum]
  refine Finset.sum_le_sum fun k hk => ?_
  rw [← mul_sub, abs_mul, mul_comm]
  exact mul_le_mul_of_nonneg_right (rule_pow n hn k (Finset.mem_range.1 hk)) (abs_nonneg _)

/-- C47: constants (and with them uniform fluxes) are integrated exactly, without any error of the
literals: the weights sum to one. -/
theorem C47_weights (n : ℕ) (hn : n = 1 ∨ n = 2 ∨ n = 3) (v : ℝ) :
    quadSum2 n (fun _ => v) = v ∧ quadSum3 n (fun _ => v) = v := by
  rcases hn with rfl | rfl | rfl
  · simp [quadSum2, quadSum3]
  · constructor
    · simp only [quadSum2, quadWeight, List.range, List.range.loop, List.foldl]
      norm_num [lit_real]; ring
    · simp only [quadSum3, quadWeight, List.range, List.range.loop, List.foldl]
      norm_num [lit_real, List.range, List.range.loop]; ring
  · constructor
    · simp only [quadSum2, quadWeight, List.range, List.range.loop, List.foldl]
      norm_num [lit_real]; ring
    · simp only [quadSum3, quadWeight, List.range, List.range.loop, List.foldl]
      norm_num [lit_real, List.range, List.range.loop]; ring

/-- C47: for every stencil the rule integrates the traces of the stencil's polynomials exactly
(degree at most `2 n - 1`), and the number of points is 1, 2 or 3. -/
theorem C47_enough_points (id : StencilId) :
    (QUADRATURE_NUM_POINTS id = 1 ∨ QUADRATURE_NUM_POINTS id = 2 ∨ QUADRATURE_NUM_POINTS id = 3) ∧
    STENCIL_DEGREE id < 2 * QUADRATURE_NUM_POINTS id := by
  cases id <;> decide

/-! ## 3D -/

theorem tang3_eq (n a : ℕ) (hn : n = 1 ∨ n = 2 ∨ n = 3) (ha : a < n) :
    (tang3 n a : ℝ) = tang2 n a := by
  rcases hn with rfl | rfl | rfl <;> interval_cases a <;>
    norm_num [tang3, tang2, ofInt_real, lit_real, neg_div]

/-- the 3D rule is the product of two 2D rules -/
theorem rule3D (n : ℕ) (hn : n = 1 ∨ n = 2 ∨ n = 3) (p : ℝ → ℝ → ℝ) :
    quadSum3 n (fun iq => p (tang3 n (iq % n)) (tang3 n (iq / n)))
      = rule n (fun t => rule n (fun s => p s t)) := by
  rcases hn with rfl | rfl | rfl
  · simp [quadSum3, rule1, tang3, lit]
  · have h0 := tang3_eq 2 0 (by simp) (by omega)
    have h1 := tang3_eq 2 1 (by simp) (by omega)
    simp only [rule, quadSum3, quadSum2, quadWeight, List.range, List.range.loop, List.foldl]
    norm_num [lit_real, List.range, List.range.loop, h0, h1]
    ring
  · have h0 := tang3_eq 3 0 (by simp) (by omega)
    have h1 := tang3_eq 3 1 (by simp) (by omega)
    have h2 := tang3_eq 3 2 (by simp) (by omega)
    simp only [rule, quadSum3, quadSum2, quadWeight, List.range, List.range.loop, List.foldl]
    norm_num [lit_real, List.range, List.range.loop, h0, h1, h2]
    ring

theorem rule_const_mul (n : ℕ) (hn : n = 1 ∨ n = 2 ∨ n = 3) (c : ℝ) (p : ℝ → ℝ) :
    rule n (fun t => c * p t) = c * rule n p := by
  rcases hn with rfl | rfl | rfl
  · simp only [rule1]
  · simp only [rule2]; ring
  · simp only [rule3]; ring

theorem mean_pow_bound (k : ℕ) : |∫ t in (-1 / 2 : ℝ)..(1 / 2), t ^ k| ≤ 1 := by
  have h := intervalIntegral.norm_integral_le_of_norm_le_const (a := (-1 / 2 : ℝ)) (b := 1 / 2)
    (C := 1) (f := fun t => t ^ k) (fun t ht => by
      rw [Set.uIoc_of_le (by norm_num)] at ht
      rw [Real.norm_eq_abs, abs_pow]
      exact pow_le_one₀ (abs_nonneg _) (abs_le.2 ⟨by linarith [ht.1], by linarith [ht.2]⟩))
  rw [Real.norm_eq_abs] at h
  refine h.trans ?_
  norm_num

/-- C47 (3D): the product rule with `n × n` points integrates every polynomial of degree below `2 n`
in each tangential coordinate exactly over the face, up to the error of the literals: at most
`3 quadEps n` times the sum of the absolute coefficients. -/
theorem C47_exact_3D (n : ℕ) (hn : n = 1 ∨ n = 2 ∨ n = 3) (c : ℕ → ℕ → ℝ) :
    |quadSum3 n (fun iq => ∑ l ∈ Finset.range (2 * n), ∑ k ∈ Finset.range (2 * n),
          c k l * (tang3 n (iq % n)) ^ k * (tang3 n (iq / n)) ^ l)
        - ∑ l ∈ Finset.range (2 * n), ∑ k ∈ Finset.range (2 * n), c k l *
            (∫ t in (-1 / 2 : ℝ)..(1 / 2), ∫ s in (-1 / 2 : ℝ)..(1 / 2), s ^ k * t ^ l)|
      ≤ 3 * quadEps n * ∑ l ∈ Finset.range (2 * n), ∑ k ∈ Finset.range (2 * n), |c k l| := by
  have e := rule3D n hn (fun s t => ∑ l ∈ Finset.range (2 * n), ∑ k ∈ Finset.range (2 * n),
    c k l * s ^ k * t ^ l)
  rw [e]
  have h1 : rule n (fun t => rule n (fun s => ∑ l ∈ Finset.range (2 * n),
      ∑ k ∈ Finset.range (2 * n), c k l * s ^ k * t ^ l))
      = ∑ l ∈ Finset.range (2 * n), ∑ k ∈ Finset.range (2 * n),
          c k l * (rule n (fun s => s ^ k) * rule n (fun t => t ^ l)) := by
    have inner : ∀ t : ℝ, rule n (fun s => ∑ l ∈ Finset.range (2 * n),
        ∑ k ∈ Finset.range (2 * n), c k l * s ^ k * t ^ l)
        = ∑ l ∈ Finset.range (2 * n), (∑ k ∈ Finset.range (2 * n),
            c k l * rule n (fun s => s ^ k)) * t ^ l := by
      intro t
      have := rule_sum n hn (2 * n) (fun l s => ∑ k ∈ Finset.range (2 * n), c k l * s ^ k)
        (fun l => t ^ l)
      rw [show (fun s => ∑ l ∈ Finset.range (2 * n), ∑ k ∈ Finset.range (2 * n),
          c k l * s ^ k * t ^ l)
        = fun s => ∑ l ∈ Finset.range (2 * n), t ^ l * ∑ k ∈ Finset.range (2 * n), c k l * s ^ k
        from by
          funext s
          refine Finset.sum_congr rfl fun l _ => ?_
          rw [Finset.mul_sum]
          exact Finset.sum_congr rfl fun k _ => by ring, this]
      refine Finset.sum_congr rfl fun l _ => ?_
      rw [rule_sum n hn (2 * n) (fun k s => s ^ k) (fun k => c k l), mul_comm]
    simp only [inner]
    rw [rule_sum n hn (2 * n) (fun l t => t ^ l)]
    refine Finset.sum_congr rfl fun l _ => ?_
    rw [Finset.sum_mul]
    exact Finset.sum_congr rfl fun k _ => by ring
  rw [h1, ← Finset.sum_sub_distrib]
  refine (Finset.abs_sum_le_sum_abs _ _).trans ?_
  rw [Finset.mul_sum]
  refine Finset.sum_le_sum fun l hl => ?_
  rw [← Finset.sum_sub_distrib]
  refine (Finset.abs_sum_le_sum_abs _ _).trans ?_
  rw [Finset.mul_sum]
  refine Finset.sum_le_sum fun k hk => ?_
  have hk' := rule_pow n hn k (Finset.mem_range.1 hk)
  have hl' := rule_pow n hn l (Finset.mem_range.1 hl)
  have hint : (∫ t in (-1 / 2 : ℝ)..(1 / 2), ∫ s in (-1 / 2 : ℝ)..(1 / 2), s ^ k * t ^ l)
      = (∫ s in (-1 / 2 : ℝ)..(1 / 2), s ^ k) * ∫ t in (-1 / 2 : ℝ)..(1 / 2), t ^ l := by
    simp only [intervalIntegral.integral_mul_const]
    rw [intervalIntegral.integral_const_mul]
  rw [hint, ← mul_sub, abs_mul, mul_comm (3 * quadEps n)]
  refine mul_le_mul_of_nonneg_left ?_ (abs_nonneg _)
  have bk := mean_pow_bound k
  have bl := mean_pow_bound l
  set X := rule n (fun s => s ^ k)
  set Y := rule n (fun t => t ^ l)
  set x := ∫ t in (-1 / 2 : ℝ)..(1 / 2), t ^ k
  set y := ∫ t in (-1 / 2 : ℝ)..(1 / 2), t ^ l
  have hq : (0 : ℝ) ≤ quadEps n ∧ quadEps n ≤ 1 := by unfold quadEps; split <;> norm_num
  have : X * Y - x * y = (X - x) * (Y - y) + (X - x) * y + x * (Y - y) := by ring
  rw [this]
  have a1 : |(X - x) * (Y - y)| ≤ quadEps n * 1 := by
    rw [abs_mul]; exact mul_le_mul hk' (hl'.trans hq.2) (abs_nonneg _) hq.1
  have a2 : |(X - x) * y| ≤ quadEps n * 1 := by
    rw [abs_mul]; exact mul_le_mul hk' bl (abs_nonneg _) hq.1
  have a3 : |x * (Y - y)| ≤ 1 * quadEps n := by
    rw [abs_mul]; exact mul_le_mul bk hl' (abs_nonneg _) zero_le_one
  calc |(X - x) * (Y - y) + (X - x) * y + x * (Y - y)|
      ≤ |(X - x) * (Y - y)| + |(X - x) * y| + |x * (Y - y)| := abs_add_three _ _ _
    _ ≤ 3 * quadEps n := by linarith

example : (2 : ℕ) = 1 ∨ (2 : ℕ) = 2 ∨ (2 : ℕ) = 3 := by omega

end Verif.Mood
