import Mathlib.Analysis.SpecialFunctions.Integrals.Basic
import Mathlib.Algebra.Polynomial.Eval.Degree
import Verif.Props.C129_InitSdm

/-! # C130: initial conditions of the high order finite volume solver -/

namespace Verif.Start

open Verif Sdm Special Spec ROps TOps

section helpers

variable {S : Settings ℝ}

theorem zMood_eq (S : Settings ℝ) (P : Grid) (D : Domain ℝ) (k : Int) :
    zMood S P D k = D.zmin + (k - P.ghostWidth + 1 / 2) * S.dz := by
  show D.zmin + S.dz / ((2 : ℚ) : ℝ) + (((k - P.ghostWidth : Int) : ℚ) : ℝ) * S.dz = _
  push_cast; ring

theorem implodeMood_eq (d3 : Bool) (x y z : ℝ) :
    implodeMood d3 S x y z = (fixedImplosion d3 x y z).conserved S.gamma0 := by
  unfold implodeMood fixedImplosion
  dsimp only
  have key : (if d3 = true then gtb (if d3 = true then x + y + z else x + y) (lit (1/2)) &&
        ltb (if d3 = true then x + y + z else x + y) (lit (5/2))
      else gtb (if d3 = true then x + y + z else x + y) (lit (1/2))) = true ↔
      (if d3 then 0.5 < x + y + z ∧ x + y + z < 2.5 else 0.5 < x + y) := by
    cases d3
    · simp only [Bool.false_eq_true, if_false]
      rw [gtb_iff]; rops; norm_num
    · simp only [if_true]
      rw [Bool.and_eq_true, gtb_iff, ltb_iff]; rops; norm_num
  by_cases h : (if d3 then 0.5 < x + y + z ∧ x + y + z < 2.5 else 0.5 < x + y)
  · rw [if_pos h]
    refine (if_pos (key.2 h)).trans ?_
    rw [atRest_eq]
    rops
  · rw [if_neg h]
    refine (if_neg fun e => h (key.1 e)).trans ?_
    rw [atRest_eq]
    rops
    norm_num

theorem kinetic {d : ℝ} (h : d ≠ 0) (u v w : ℝ) :
    1 / 2 * (d * u * (d * u) + d * v * (d * v) + d * w * (d * w)) / d = d * (u ^ 2 + v ^ 2 + w ^ 2) / 2 := by
  field_simp

theorem kinetic2 {d : ℝ} (h : d ≠ 0) (u v : ℝ) :
    1 / 2 * (d * u * (d * u) + d * v * (d * v)) / d = d * (u ^ 2 + v ^ 2 + 0 ^ 2) / 2 := by
  field_simp; ring

theorem khMood_smooth2 (D : Domain ℝ) {p : KHParams ℝ} (h1 : p.p_rand = false) (h2 : p.p_sine_rob = true)
    (r : ℕ → ℝ) (x y z : ℝ) (h0 : (shearGas2 p x y z).rho ≠ 0) :
    khMood false S D p r x y z = some ((shearGas2 p x y z).conserved S.gamma0) := by
  unfold khMood
  simp only [h1, h2, Bool.false_eq_true, if_false, if_true]
  have e1 : p.d_in + ramp p y * (p.d_out - p.d_in) = (shearGas2 p x y z).rho := by
    unfold ramp shearGas2 layers
    simp only [TOps.exp]
    rops
    ring
  have e2 : p.vflow_in + ramp p y * (p.vflow_out - p.vflow_in) = (shearGas2 p x y z).u := by
    unfold ramp shearGas2 layers
    simp only [TOps.exp]
    rops
    ring
  have e3 : p.w0 * sin (lit (p.mode : ℚ) * pi * x) = (shearGas2 p x y z).v := by
    unfold shearGas2
    simp only [TOps.sin, TOps.pi]
    rops
    push_cast
    ring
  have e4 : (shearGas2 p x y z).w = 0 := rfl
  have e5 : (shearGas2 p x y z).p = p.pressure := rfl
  have e6 : ∀ d : ℝ, d * p.w0 * sin (lit (p.mode : ℚ) * pi * x) = d * (p.w0 * sin (lit (p.mode : ℚ) * pi * x)) :=
    fun d => mul_assoc _ _ _
  have a1 := e1; have a2 := e2; have a3 := e3; have a6 := e6
  revert a1 a2 a3 a6
  rops
  intro a1 a2 a3 a6
  rw [a1, a2, a6, a3, kinetic2 h0]
  unfold PointGas.conserved
  rw [e4, e5, mul_zero]

theorem khMood_smooth3 (D : Domain ℝ) {p : KHParams ℝ} (h1 : p.p_rand = false) (h2 : p.p_sine_rob = true)
    (r : ℕ → ℝ) (x y z : ℝ) (h0 : (shearGas3 p x y z).rho ≠ 0) :
    khMood true S D p r x y z = some ((shearGas3 p x y z).conserved S.gamma0) := by
  unfold khMood
  simp only [h1, h2, Bool.false_eq_true, if_false, if_true]
  have a1 : p.d_in + ramp p z * (p.d_out - p.d_in) = (shearGas3 p x y z).rho := by
    unfold ramp shearGas3 layers
    simp only [TOps.exp]
    rops
    ring
  have a2 : p.vflow_in + ramp p z * (p.vflow_out - p.vflow_in) = (shearGas3 p x y z).u := by
    unfold ramp shearGas3 layers
    simp only [TOps.exp]
    rops
    ring
  have a4 : p.vflow_in / lit 2 + ramp p z * (p.vflow_out / lit 2 - p.vflow_in / lit 2) = (shearGas3 p x y z).v := by
    unfold ramp shearGas3 layers
    simp only [TOps.exp]
    rops
    ring
  have a3 : p.w0 * sin (lit (p.mode : ℚ) * pi * x) * sin (lit (p.mode : ℚ) * pi * y) = (shearGas3 p x y z).w := by
    unfold shearGas3
    simp only [TOps.sin, TOps.pi]
    rops
    push_cast
    ring
  have e5 : (shearGas3 p x y z).p = p.pressure := rfl
  have a6 : ∀ d : ℝ, d * p.w0 * sin (lit (p.mode : ℚ) * pi * x) * sin (lit (p.mode : ℚ) * pi * y) =
      d * (p.w0 * sin (lit (p.mode : ℚ) * pi * x) * sin (lit (p.mode : ℚ) * pi * y)) :=
    fun d => by rw [mul_assoc, mul_assoc, ← mul_assoc p.w0]
  revert a1 a2 a3 a4 a6
  rops
  intro a1 a2 a4 a3 a6
  rw [a1, a2, a4, a6, a3, kinetic h0]
  unfold PointGas.conserved
  rw [e5]

theorem khMood_sharp (d3 : Bool) (D : Domain ℝ) {p : KHParams ℝ} (h1 : p.p_rand = true) (hi : p.d_in ≠ 0)
    (ho : p.d_out ≠ 0) (r : ℕ → ℝ) (x y z : ℝ) :
    khMood d3 S D p r x y z = some ((sharpGas p
      (if d3 then (z - D.zmin) / (D.zmax - D.zmin) else (y - D.ymin) / (D.ymax - D.ymin))
      (p.amplitude * (r 0 - 1 / 2)) (p.amplitude * (r 1 - 1 / 2))
      (if d3 then p.amplitude * (r 2 - 1 / 2) else 0)).conserved S.gamma0) := by
  unfold khMood
  simp only [h1, if_true]
  have e : (if d3 = true then (z - D.zmin) / (D.zmax - D.zmin) else (y - D.ymin) / (D.ymax - D.ymin) : ℝ) =
    (if d3 = true then @HDiv.hDiv ℝ ℝ ℝ (@instHDiv ℝ ROps.toDiv) (@HSub.hSub ℝ ℝ ℝ (@instHSub ℝ ROps.toSub) z D.zmin)
      (@HSub.hSub ℝ ℝ ℝ (@instHSub ℝ ROps.toSub) D.zmax D.zmin) else
      @HDiv.hDiv ℝ ℝ ℝ (@instHDiv ℝ ROps.toDiv) (@HSub.hSub ℝ ℝ ℝ (@instHSub ℝ ROps.toSub) y D.ymin)
      (@HSub.hSub ℝ ℝ ℝ (@instHSub ℝ ROps.toSub) D.ymax D.ymin)) := rfl
  rw [← e]
  generalize (if d3 = true then (z - D.zmin) / (D.zmax - D.zmin) else (y - D.ymin) / (D.ymax - D.ymin) : ℝ) = h
  unfold sharpGas
  by_cases hh : 1 / 4 ≤ h ∧ h ≤ 3 / 4
  · have hb : ¬ (ltb h (lit (1/4)) || gtb h (lit (3/4))) = true := fun e => (outside_iff h).1 e hh
    simp only [if_pos hh, if_neg hb, PointGas.conserved]
    rops
    cases d3
    · simp only [Bool.false_eq_true, if_false]
      rw [kinetic2 hi, zero_add, mul_zero]
    · simp only [if_true]
      rw [kinetic hi, zero_add, zero_add]
  · have hb := (outside_iff h).2 hh
    simp only [if_neg hh, if_pos hb, PointGas.conserved]
    rops
    cases d3
    · simp only [Bool.false_eq_true, if_false]
      rw [kinetic2 ho, zero_add, mul_zero]
    · simp only [if_true]
      rw [kinetic ho, zero_add, zero_add]

/-! ### The quadrature rules -/

theorem gauss_of_moments {n : ℕ} {node weight : Fin n → ℝ}
    (h : ∀ k, k < 2 * n → ∑ i, weight i * node i ^ k = (1 / 2) * ∫ x in (-1 : ℝ)..1, x ^ k) :
    IsGauss n node weight := by
  intro f hf
  simp only [Polynomial.eval_eq_sum_range' hf]
  rw [intervalIntegral.integral_finset_sum fun i _ => (Continuous.intervalIntegrable (by fun_prop) _ _)]
  simp only [intervalIntegral.integral_const_mul, Finset.mul_sum]
  rw [Finset.sum_comm]
  refine Finset.sum_congr rfl fun k hk => ?_
  have := h k (Finset.mem_range.1 hk)
  rw [mul_left_comm, ← this, Finset.mul_sum]
  exact Finset.sum_congr rfl fun i _ => by ring

theorem moments {k : ℕ} : (1 / 2 : ℝ) * ∫ x in (-1 : ℝ)..1, x ^ k = (1 - (-1) ^ (k + 1)) / (2 * (k + 1)) := by
  rw [integral_pow]
  rw [one_pow]
  field_simp

/-- Nodes of the code. -/
noncomputable def nodes : (n : ℕ) → Fin n → ℝ
  | 1 => ![0]
  | 2 => ![-(1 / √3), 1 / √3]
  | 3 => ![-(√3 / √5), 0, √3 / √5]
  | 4 => ![-√(3 / 7 - 2 / 7 * √(6 / 5)), √(3 / 7 - 2 / 7 * √(6 / 5)), -√(3 / 7 + 2 / 7 * √(6 / 5)),
      √(3 / 7 + 2 / 7 * √(6 / 5))]
  | _ => fun _ => 0

/-- Weights of the code. -/
noncomputable def weights : (n : ℕ) → Fin n → ℝ
  | 1 => ![1]
  | 2 => ![1 / 2, 1 / 2]
  | 3 => ![5 / 2 / 9, 4 / 9, 5 / 2 / 9]
  | 4 => ![1 / 2 * (1 / 2 + √30 / 36), 1 / 2 * (1 / 2 + √30 / 36), 1 / 2 * (1 / 2 - √30 / 36),
      1 / 2 * (1 / 2 - √30 / 36)]
  | _ => fun _ => 0

theorem gauss1 : IsGauss 1 (nodes 1) (weights 1) := by
  refine gauss_of_moments fun k hk => ?_
  rw [moments]
  interval_cases k <;> norm_num [nodes, weights]

theorem gauss2 : IsGauss 2 (nodes 2) (weights 2) := by
  refine gauss_of_moments fun k hk => ?_
  have h3 : (√3 : ℝ) ^ 2 = 3 := Real.sq_sqrt (by norm_num)
  have h0 : (√3 : ℝ) ≠ 0 := by positivity
  rw [moments, Fin.sum_univ_two]
  interval_cases k <;> simp only [nodes, weights, Matrix.cons_val_zero, Matrix.cons_val_one]
  · norm_num
  · norm_num
  · rw [neg_sq, div_pow, h3]; norm_num
  · norm_num; ring

theorem gauss3 : IsGauss 3 (nodes 3) (weights 3) := by
  refine gauss_of_moments fun k hk => ?_
  have h3 : (√3 / √5 : ℝ) ^ 2 = 3 / 5 := by
    rw [div_pow, Real.sq_sqrt (by norm_num), Real.sq_sqrt (by norm_num)]
  rw [moments, Fin.sum_univ_three]
  simp only [nodes, weights, Matrix.cons_val_zero, Matrix.cons_val_one, Matrix.cons_val]
  generalize (√3 / √5 : ℝ) = a at *
  interval_cases k
  · norm_num
  · norm_num
  · rw [neg_sq, h3]; norm_num
  · norm_num; ring
  · rw [show (-a) ^ 4 = (a ^ 2) ^ 2 by ring, show a ^ 4 = (a ^ 2) ^ 2 by ring, h3]; norm_num
  · norm_num; ring

theorem gauss4 : IsGauss 4 (nodes 4) (weights 4) := by
  refine gauss_of_moments fun k hk => ?_
  have hs : (√(6 / 5) : ℝ) ^ 2 = 6 / 5 := Real.sq_sqrt (by norm_num)
  have hs1 : (√(6 / 5) : ℝ) ≤ 3 / 2 := Real.sqrt_le_iff.2 ⟨by norm_num, by norm_num⟩
  have hs0 : (0 : ℝ) ≤ √(6 / 5) := Real.sqrt_nonneg _
  have h30 : (√30 : ℝ) = 5 * √(6 / 5) := by
    rw [show (30 : ℝ) = 5 ^ 2 * (6 / 5) by norm_num, Real.sqrt_mul (by norm_num), Real.sqrt_sq (by norm_num)]
  have ha : (√(3 / 7 - 2 / 7 * √(6 / 5)) : ℝ) ^ 2 = 3 / 7 - 2 / 7 * √(6 / 5) := Real.sq_sqrt (by linarith)
  have hb : (√(3 / 7 + 2 / 7 * √(6 / 5)) : ℝ) ^ 2 = 3 / 7 + 2 / 7 * √(6 / 5) := Real.sq_sqrt (by linarith)
  rw [moments, Fin.sum_univ_four]
  simp only [nodes, weights, Matrix.cons_val_zero, Matrix.cons_val_one, Matrix.cons_val, h30]
  generalize (√(3 / 7 - 2 / 7 * √(6 / 5)) : ℝ) = a at *
  generalize (√(3 / 7 + 2 / 7 * √(6 / 5)) : ℝ) = b at *
  generalize (√(6 / 5) : ℝ) = s at *
  have e4 : ∀ t : ℝ, (-t) ^ 4 = (t ^ 2) ^ 2 ∧ t ^ 4 = (t ^ 2) ^ 2 ∧ (-t) ^ 6 = (t ^ 2) ^ 3 ∧ t ^ 6 = (t ^ 2) ^ 3 :=
    fun t => ⟨by ring, by ring, by ring, by ring⟩
  interval_cases k
  · norm_num; ring
  · norm_num
  · rw [neg_sq, neg_sq, ha, hb]
    norm_num
    linear_combination (-(5 : ℝ) / 63) * hs
  · norm_num; ring
  · rw [(e4 a).1, (e4 b).1, (e4 a).2.1, (e4 b).2.1, ha, hb]
    norm_num
    linear_combination ((2 : ℝ) / 147) * hs
  · norm_num; ring
  · rw [(e4 a).2.2.1, (e4 b).2.2.1, (e4 a).2.2.2, (e4 b).2.2.2, ha, hb]
    norm_num
    linear_combination (55 / 1029 - 20 / 3087 * s ^ 2) * hs
  · norm_num; ring

/-- The sum in the code, component by component. -/
theorem fold_comp (f : ℝ → ℝ → HState ℝ) (L : List ((ℝ × ℝ) × ℝ × ℝ)) (q : HState ℝ) {v : ℕ} (hv : v < 4) :
    Mood.comp (L.foldl (fun q ab => addTimes q (f ab.1.1 ab.2.1) ab.1.2 ab.2.2) q) v =
      Mood.comp q v + (L.map fun ab => ab.1.2 * ab.2.2 * Mood.comp (f ab.1.1 ab.2.1) v).sum := by
  induction L generalizing q with
  | nil => simp
  | cons ab L ih =>
    rw [List.foldl_cons, ih, List.map_cons, List.sum_cons, ← add_assoc]
    congr 1
    have e : ∀ a s : ℝ, a + s * ab.1.2 * ab.2.2 = a + ab.1.2 * ab.2.2 * s := fun a s => by ring
    interval_cases v <;> exact e _ _

theorem fold_rule {n : ℕ} (f : ℝ → ℝ → HState ℝ) (node weight : Fin n → ℝ) (dx dy x y : ℝ) {v : ℕ} (hv : v < 4) :
    Mood.comp ((((List.ofFn fun j => (y + dy / 2 * node j, weight j)).flatMap fun b =>
        (List.ofFn fun i => (x + dx / 2 * node i, weight i)).map fun a => (a, b))).foldl
      (fun q ab => addTimes q (f ab.1.1 ab.2.1) ab.1.2 ab.2.2) ⟨lit 0, lit 0, lit 0, lit 0, lit 0⟩) v =
    ruleMean node weight dx dy (fun x y => Mood.comp (f x y) v) x y := by
  rw [fold_comp _ _ _ hv]
  have e0 : Mood.comp (⟨lit 0, lit 0, lit 0, lit 0, lit 0⟩ : HState ℝ) v = 0 := by
    interval_cases v <;> exact Rat.cast_zero
  rw [e0, zero_add, List.map_flatMap, List.flatMap_def, List.sum_flatten, List.map_map, List.map_ofFn, List.sum_ofFn]
  unfold ruleMean
  refine Finset.sum_congr rfl fun j _ => ?_
  simp only [Function.comp_def, List.map_map, List.map_ofFn, List.sum_ofFn]

theorem quad_lists {n : ℕ} (hn : n = 2 ∨ n = 3 ∨ n = 4) (x dx : ℝ) :
    (quadPos (n : Int) x dx).zip (quadWeights (n : Int)) =
      List.ofFn fun i => (x + dx / 2 * nodes n i, weights n i) := by
  have two : ((2 : ℚ) : ℝ) = 2 := by norm_num
  have half : ((1 / 2 : ℚ) : ℝ) = 1 / 2 := by norm_num
  have h3 : ((3 : ℚ) : ℝ) = 3 := by norm_num
  have h5 : ((5 : ℚ) : ℝ) = 5 := by norm_num
  have h6 : ((6 : ℚ) : ℝ) = 6 := by norm_num
  have h7 : ((7 : ℚ) : ℝ) = 7 := by norm_num
  have h9 : ((9 : ℚ) : ℝ) = 9 := by norm_num
  have h4 : ((4 : ℚ) : ℝ) = 4 := by norm_num
  have h52 : ((5 / 2 : ℚ) : ℝ) = 5 / 2 := by norm_num
  have h36 : ((36 : ℚ) : ℝ) = 36 := by norm_num
  have h30 : ((30 : ℚ) : ℝ) = 30 := by norm_num
  rcases hn with rfl | rfl | rfl
  · show [(x - ((1 / 2 : ℚ) : ℝ) * dx * ((1 : ℚ) : ℝ) / √((3 : ℚ) : ℝ), ((1 / 2 : ℚ) : ℝ)),
      (x + ((1 / 2 : ℚ) : ℝ) * dx * ((1 : ℚ) : ℝ) / √((3 : ℚ) : ℝ), ((1 / 2 : ℚ) : ℝ))] =
      [(x + dx / 2 * -(1 / √3), 1 / 2), (x + dx / 2 * (1 / √3), 1 / 2)]
    rw [half, h3, Rat.cast_one]
    congr 2 <;> ring_nf
  · show [(x - ((1 / 2 : ℚ) : ℝ) * dx * √((3 : ℚ) : ℝ) / √((5 : ℚ) : ℝ), ((5 / 2 : ℚ) : ℝ) / ((9 : ℚ) : ℝ)),
      (x, ((4 : ℚ) : ℝ) / ((9 : ℚ) : ℝ)),
      (x + ((1 / 2 : ℚ) : ℝ) * dx * √((3 : ℚ) : ℝ) / √((5 : ℚ) : ℝ), ((5 / 2 : ℚ) : ℝ) / ((9 : ℚ) : ℝ))] =
      [(x + dx / 2 * -(√3 / √5), 5 / 2 / 9), (x + dx / 2 * 0, 4 / 9), (x + dx / 2 * (√3 / √5), 5 / 2 / 9)]
    rw [half, h3, h5, h9, h4, h52, mul_zero, add_zero]
    congr 2
    · ring
    · congr 3; ring
  · show [(x - ((1 / 2 : ℚ) : ℝ) * dx * √(((3 : ℚ) : ℝ) / ((7 : ℚ) : ℝ) - ((2 : ℚ) : ℝ) / ((7 : ℚ) : ℝ) *
          √(((6 : ℚ) : ℝ) / ((5 : ℚ) : ℝ))), ((1 / 2 : ℚ) : ℝ) * (((1 / 2 : ℚ) : ℝ) + √((30 : ℚ) : ℝ) / ((36 : ℚ) : ℝ))),
      (x + ((1 / 2 : ℚ) : ℝ) * dx * √(((3 : ℚ) : ℝ) / ((7 : ℚ) : ℝ) - ((2 : ℚ) : ℝ) / ((7 : ℚ) : ℝ) *
          √(((6 : ℚ) : ℝ) / ((5 : ℚ) : ℝ))), ((1 / 2 : ℚ) : ℝ) * (((1 / 2 : ℚ) : ℝ) + √((30 : ℚ) : ℝ) / ((36 : ℚ) : ℝ))),
      (x - ((1 / 2 : ℚ) : ℝ) * dx * √(((3 : ℚ) : ℝ) / ((7 : ℚ) : ℝ) + ((2 : ℚ) : ℝ) / ((7 : ℚ) : ℝ) *
          √(((6 : ℚ) : ℝ) / ((5 : ℚ) : ℝ))), ((1 / 2 : ℚ) : ℝ) * (((1 / 2 : ℚ) : ℝ) - √((30 : ℚ) : ℝ) / ((36 : ℚ) : ℝ))),
      (x + ((1 / 2 : ℚ) : ℝ) * dx * √(((3 : ℚ) : ℝ) / ((7 : ℚ) : ℝ) + ((2 : ℚ) : ℝ) / ((7 : ℚ) : ℝ) *
          √(((6 : ℚ) : ℝ) / ((5 : ℚ) : ℝ))), ((1 / 2 : ℚ) : ℝ) * (((1 / 2 : ℚ) : ℝ) - √((30 : ℚ) : ℝ) / ((36 : ℚ) : ℝ)))] =
      [(x + dx / 2 * -√(3 / 7 - 2 / 7 * √(6 / 5)), 1 / 2 * (1 / 2 + √30 / 36)),
      (x + dx / 2 * √(3 / 7 - 2 / 7 * √(6 / 5)), 1 / 2 * (1 / 2 + √30 / 36)),
      (x + dx / 2 * -√(3 / 7 + 2 / 7 * √(6 / 5)), 1 / 2 * (1 / 2 - √30 / 36)),
      (x + dx / 2 * √(3 / 7 + 2 / 7 * √(6 / 5)), 1 / 2 * (1 / 2 - √30 / 36))]
    rw [half, h3, h5, h6, h7, h30, h36, two]
    generalize √(3 / 7 - 2 / 7 * √(6 / 5)) = a
    generalize √(3 / 7 + 2 / 7 * √(6 / 5)) = b
    have e1 : ∀ t : ℝ, x - 1 / 2 * dx * t = x + dx / 2 * -t := fun t => by ring
    have e2 : ∀ t : ℝ, x + 1 / 2 * dx * t = x + dx / 2 * t := fun t => by ring
    rw [e1, e2, e1, e2]

theorem vortexPoint_eq (p : IsentropicVortexParams ℝ) (w_a x y z : ℝ) {v : ℕ} (hv : v < 4) :
    Mood.comp (vortexPoint S p w_a x y) v =
      Mood.comp (({ vortexGas S.gamma0 p x y z with w := w_a } : PointGas).conserved S.gamma0) v := by
  obtain ⟨h1, h2, h3, h4⟩ := vortex_eqs (S := S) p x y z
  unfold vortexPoint PointGas.conserved
  dsimp only
  rw [← h1, ← h2, ← h3, ← h4]
  interval_cases v
  · rfl
  · show vortexRho S p x y * vortexT S p x y / (S.gamma0 - ((1 : ℚ) : ℝ)) + ((1 / 2 : ℚ) : ℝ) * vortexRho S p x y *
      (vortexU p x y * vortexU p x y + vortexV p x y * vortexV p x y + w_a * w_a) =
      vortexRho S p x y * vortexT S p x y / (S.gamma0 - 1) + vortexRho S p x y *
      (vortexU p x y ^ 2 + vortexV p x y ^ 2 + w_a ^ 2) / 2
    push_cast
    ring
  · rfl
  · rfl

theorem vortexQuad_eq (p : IsentropicVortexParams ℝ) (w_a x y z : ℝ) {n : ℕ} (h1 : 1 ≤ n) (h4 : n ≤ 4) :
    ∃ q, vortexQuad S p w_a (n : Int) x y = some q ∧ ∀ v, v < 4 → Mood.comp q v =
      ruleMean (nodes n) (weights n) S.dx S.dy (fun x y =>
        Mood.comp (({ vortexGas S.gamma0 p x y z with w := w_a } : PointGas).conserved S.gamma0) v) x y := by
  unfold vortexQuad
  by_cases hn : n = 1
  · subst hn
    refine ⟨_, if_pos rfl, fun v hv => ?_⟩
    rw [vortexPoint_eq _ _ _ _ z hv]
    unfold ruleMean
    simp only [nodes, weights, Finset.univ_unique, Finset.sum_singleton, Fin.default_eq_zero,
      Matrix.cons_val_fin_one, mul_zero, add_zero, one_mul]
  · have h : n = 2 ∨ n = 3 ∨ n = 4 := by omega
    refine ⟨_, (if_neg (by exact_mod_cast hn)).trans (if_pos (by exact_mod_cast h)), fun v hv => ?_⟩
    rw [quad_lists h, quad_lists h]
    refine (fold_rule (fun x y => vortexPoint S p w_a x y) _ _ _ _ _ _ hv).trans ?_
    simp only [vortexPoint_eq _ _ _ _ z hv]

theorem gauss_all {n : ℕ} (h1 : 1 ≤ n) (h4 : n ≤ 4) : IsGauss n (nodes n) (weights n) := by
  interval_cases n
  · exact gauss1
  · exact gauss2
  · exact gauss3
  · exact gauss4

end helpers

variable {lay : Layout} {d3 : Bool} {S : Settings ℝ} {P : Grid} {D : Domain ℝ} {U : ℕ}

/-- From the values in the cells to the array. -/
theorem mood_of {Q : MoodProblem ℝ} {G : ℝ → ℝ → ℝ → PointGas} (hD : FirstProcess D) (hne : Mood.Nonempty3 d3 P)
    (m : Addr → ℝ)
    (h : ∀ c, moodState d3 S P D c Q =
      some ((G (xMood S P D c.i) (yMood S P D c.j) (zMood S P D c.k)).conserved S.gamma0)) :
    ∃ m', (moodInit lay d3 S P D U Q).Yields (fun a => a.arr = U ∧ P.box d3 a.cell ∧ a.v < P.nbvar) m m' ∧
      MoodSamples d3 S P D U m' G := by
  obtain ⟨m', y, hv, -⟩ := state_fill (lay := lay) (places_mood (U := U)) hne
    (fun c _ => moodState d3 S P D c Q) m
  refine ⟨m', y, fun b v hb hv' => (hv b onePt v hb (List.mem_singleton.2 rfl) hv').trans ?_⟩
  rw [h, xMood_eq, yMood_eq, zMood_eq, hD.1, hD.2.1, hD.2.2]
  simp only [Int.cast_zero, mul_zero, add_zero]
  rfl

/-- **C130.** The blast. -/
theorem C130_blast {q : BlastParams ℝ} (hr : 0 ≤ q.blast_radius) (hD : FirstProcess D) (hne : Mood.Nonempty3 d3 P)
    (m : Addr → ℝ) :
    ∃ m', (moodInit lay d3 S P D U (.blast q)).Yields
        (fun a => a.arr = U ∧ P.box d3 a.cell ∧ a.v < P.nbvar) m m' ∧
      MoodSamples d3 S P D U m' (blastGas d3 q) :=
  mood_of hD hne m fun _ => congrArg some (blastState_eq _ hr _ _ _)

/-- **C130.** Four quadrants, in 2D, and in 3D as columns at rest along `z`. -/
theorem C130_quadrants {n : Int} {xt yt : ℝ} (hD : FirstProcess D) (hne : Mood.Nonempty3 d3 P) (m : Addr → ℝ) :
    ∃ m', (moodInit lay d3 S P D U (.fourQuadrant n xt yt)).Yields
        (fun a => a.arr = U ∧ P.box d3 a.cell ∧ a.v < P.nbvar) m m' ∧
      MoodSamples d3 S P D U m' (quadrantGas (getRiemannConfig2d n) xt yt) :=
  mood_of hD hne m fun _ => congrArg some (quadrantState_eq _ _ _ _ _ _)

/-- **C130.** Kelvin-Helmholtz instability with smooth layers, 2D. -/
theorem C130_shear2 {q : KHParams ℝ} {rnd : Cell → ℕ → ℝ} (h1 : q.p_rand = false) (h2 : q.p_sine_rob = true)
    (h0 : ∀ x y z, (shearGas2 q x y z).rho ≠ 0) (hD : FirstProcess D) (hne : Mood.Nonempty3 false P) (m : Addr → ℝ) :
    ∃ m', (moodInit lay false S P D U (.kelvinHelmholtz q rnd)).Yields
        (fun a => a.arr = U ∧ P.box false a.cell ∧ a.v < P.nbvar) m m' ∧
      MoodSamples false S P D U m' (shearGas2 q) :=
  mood_of hD hne m fun _ => khMood_smooth2 D h1 h2 _ _ _ _ (h0 _ _ _)

/-- **C130.** Kelvin-Helmholtz instability with smooth layers, 3D. -/
theorem C130_shear3 {q : KHParams ℝ} {rnd : Cell → ℕ → ℝ} (h1 : q.p_rand = false) (h2 : q.p_sine_rob = true)
    (h0 : ∀ x y z, (shearGas3 q x y z).rho ≠ 0) (hD : FirstProcess D) (hne : Mood.Nonempty3 true P) (m : Addr → ℝ) :
    ∃ m', (moodInit lay true S P D U (.kelvinHelmholtz q rnd)).Yields
        (fun a => a.arr = U ∧ P.box true a.cell ∧ a.v < P.nbvar) m m' ∧
      MoodSamples true S P D U m' (shearGas3 q) :=
  mood_of hD hne m fun _ => khMood_smooth3 D h1 h2 _ _ _ _ (h0 _ _ _)

/-- **C130.** Kelvin-Helmholtz instability with sharp layers and noise. -/
theorem C130_sharp {q : KHParams ℝ} {rnd : Cell → ℕ → ℝ} (h1 : q.p_rand = true) (hi : q.d_in ≠ 0) (ho : q.d_out ≠ 0)
    (hr : ∀ c n, 0 ≤ rnd c n ∧ rnd c n ≤ 1) (hD : FirstProcess D) (hne : Mood.Nonempty3 d3 P) (m : Addr → ℝ) :
    ∃ m', (moodInit lay d3 S P D U (.kelvinHelmholtz q rnd)).Yields
        (fun a => a.arr = U ∧ P.box d3 a.cell ∧ a.v < P.nbvar) m m' ∧
      ∀ b, P.box d3 b → ∃ a₁ a₂ a₃, |a₁| ≤ |q.amplitude| / 2 ∧ |a₂| ≤ |q.amplitude| / 2 ∧
        |a₃| ≤ |q.amplitude| / 2 ∧ (d3 = false → a₃ = 0) ∧ ∀ v, v < P.nbvar →
        m' (b.at U v) = Mood.comp ((sharpGas q
          (if d3 then (D.zmin + (b.k + P.nz * D.k_mpi - P.ghostWidth + 1 / 2) * S.dz - D.zmin) / (D.zmax - D.zmin)
          else (D.ymin + (b.j + P.ny * D.j_mpi - P.ghostWidth + 1 / 2) * S.dy - D.ymin) / (D.ymax - D.ymin))
          a₁ a₂ a₃).conserved S.gamma0) v := by
  obtain ⟨m', y, hv, -⟩ := state_fill (lay := lay) (places_mood (U := U)) hne
    (fun c _ => moodState d3 S P D c (.kelvinHelmholtz q rnd)) m
  refine ⟨m', y, fun b hb => ⟨q.amplitude * (rnd b 0 - 1 / 2), q.amplitude * (rnd b 1 - 1 / 2),
    if d3 then q.amplitude * (rnd b 2 - 1 / 2) else 0, half_noise (hr _ _), half_noise (hr _ _), ?_, ?_, ?_⟩⟩
  · split_ifs
    · exact half_noise (hr _ _)
    · rw [abs_zero]; positivity
  · rintro rfl
    rfl
  · intro v hv'
    refine (hv b onePt v hb (List.mem_singleton.2 rfl) hv').trans ?_
    show (khMood d3 S D q (rnd b) _ _ _).elim _ _ = _
    rw [khMood_sharp _ _ h1 hi ho, yMood_eq, zMood_eq, hD.2.1, hD.2.2]
    simp only [Int.cast_zero, mul_zero, add_zero]
    rfl

/-- **C130.** With neither kind of perturbation the solver stores nothing. -/
theorem C130_shear_none {q : KHParams ℝ} {rnd : Cell → ℕ → ℝ} (h1 : q.p_rand = false) (h2 : q.p_sine_rob = false)
    (hne : Mood.Nonempty3 d3 P) (m : Addr → ℝ) :
    ∃ m', (moodInit lay d3 S P D U (.kelvinHelmholtz q rnd)).Yields
        (fun a => a.arr = U ∧ P.box d3 a.cell ∧ a.v < P.nbvar) m m' ∧
      ∀ b v, P.box d3 b → v < P.nbvar → m' (b.at U v) = m (b.at U v) := by
  obtain ⟨m', y, hv, -⟩ := state_fill (lay := lay) (places_mood (U := U)) hne
    (fun c _ => moodState d3 S P D c (.kelvinHelmholtz q rnd)) m
  refine ⟨m', y, fun b v hb hv' => (hv b onePt v hb (List.mem_singleton.2 rfl) hv').trans ?_⟩
  show (khMood d3 S D q (rnd b) _ _ _).elim _ _ = _
  simp only [khMood, h1, h2, Bool.false_eq_true, if_false]
  rfl

/-- **C130.** The implosion is a fixed one. -/
theorem C130_implode (hD : FirstProcess D) (hne : Mood.Nonempty3 d3 P) (m : Addr → ℝ) :
    ∃ m', (moodInit lay d3 S P D U .implode).Yields (fun a => a.arr = U ∧ P.box d3 a.cell ∧ a.v < P.nbvar) m m' ∧
      MoodSamples d3 S P D U m' (fixedImplosion d3) :=
  mood_of hD hne m fun _ => congrArg some (implodeMood_eq _ _ _ _)

/-- **C130.** In the unit square, with the parameters left at their defaults, this is the implosion that the other
solvers start from. -/
theorem C130_implode_default {D : Domain ℝ} {q : ImplodeParams ℝ} (h1 : D.xmin = 0) (h2 : D.xmax = 1) (h3 : D.ymin = 0)
    (hs : q.shape ≠ 1) (ho : q.rho_out = 1 ∧ q.p_out = 1 ∧ q.u_out = 0 ∧ q.v_out = 0)
    (hi : q.rho_in = 0.125 ∧ q.p_in = 0.14 ∧ q.u_in = 0 ∧ q.v_in = 0) (x y z : ℝ) :
    implodeGas false D q x y z = fixedImplosion false x y z := by
  unfold implodeGas fixedImplosion
  simp only [Bool.false_eq_true, if_false, if_neg hs, h1, h2, h3, ho.1, ho.2.1, ho.2.2.1, ho.2.2.2, hi.1, hi.2.1,
    hi.2.2.1, hi.2.2.2]
  norm_num

/-- The parameters of the text: the defaults. -/
example : ∃ q : ImplodeParams ℝ, q.shape ≠ 1 ∧ (q.rho_out = 1 ∧ q.p_out = 1 ∧ q.u_out = 0 ∧ q.v_out = 0) ∧
    (q.rho_in = 0.125 ∧ q.p_in = 0.14 ∧ q.u_in = 0 ∧ q.v_in = 0) :=
  ⟨⟨1, 1, 0, 0, 0, 0, 0, 0, 0.125, 0.14, 0, 0, 0, 0, 0, 0, 0⟩, by decide, ⟨rfl, rfl, rfl, rfl⟩, rfl, rfl, rfl, rfl⟩

/-- **C130.** The parameters of the implosion have no effect: if they ask for a density other than 1 and 0.125
anywhere, the run starts from something else. -/
theorem C130_implode_wrong {q : ImplodeParams ℝ} (hD : FirstProcess D) (hne : Mood.Nonempty3 d3 P) (m : Addr → ℝ)
    (hn : 0 < P.nbvar) {b : Cell} (hb : P.box d3 b) {G : PointGas}
    (hG : G = implodeGas d3 D q (D.xmin + (b.i + P.nx * D.i_mpi - P.ghostWidth + 1 / 2) * S.dx)
      (D.ymin + (b.j + P.ny * D.j_mpi - P.ghostWidth + 1 / 2) * S.dy)
      (D.zmin + (b.k + P.nz * D.k_mpi - P.ghostWidth + 1 / 2) * S.dz))
    (h1 : G.rho ≠ 1) (h2 : G.rho ≠ 0.125) :
    ∃ m', (moodInit lay d3 S P D U .implode).Yields (fun a => a.arr = U ∧ P.box d3 a.cell ∧ a.v < P.nbvar) m m' ∧
      ¬ MoodSamples d3 S P D U m' (implodeGas d3 D q) := by
  obtain ⟨m', y, h⟩ := C130_implode (lay := lay) (S := S) (U := U) hD hne m
  refine ⟨m', y, fun hw => ?_⟩
  have e1 := h b 0 hb hn
  have e2 := hw b 0 hb hn
  rw [e1, ← hG] at e2
  have e3 : (fixedImplosion d3 (D.xmin + (b.i + P.nx * D.i_mpi - P.ghostWidth + 1 / 2) * S.dx)
      (D.ymin + (b.j + P.ny * D.j_mpi - P.ghostWidth + 1 / 2) * S.dy)
      (D.zmin + (b.k + P.nz * D.k_mpi - P.ghostWidth + 1 / 2) * S.dz)).rho = G.rho := e2
  unfold fixedImplosion at e3
  rw [apply_ite PointGas.rho] at e3
  split_ifs at e3
  · exact h1 e3.symm
  · exact h2 e3.symm
  · exact h1 e3.symm
  · exact h2 e3.symm

/-- **C130.** The isentropic vortex in 2D, with one to four quadrature points per direction: every cell holds the
mean over the cell, by the rule of Gauss and Legendre with that many points, of the densities of mass, momentum and
energy of a vortex gas that also moves with the velocity `w_a` across the plane. -/
theorem C130_vortex {q : IsentropicVortexParams ℝ} {w_a : ℝ} {n : ℕ} {junk : Cell → ℕ → ℝ} (h1 : 1 ≤ n) (h4 : n ≤ 4)
    (hD : FirstProcess D) (hne : Mood.Nonempty3 false P) (h3 : P.nbvar = 4) (m : Addr → ℝ) :
    ∃ m' node weight, (moodInit lay false S P D U (.vortex q w_a n junk)).Yields
        (fun a => a.arr = U ∧ P.box false a.cell ∧ a.v < P.nbvar) m m' ∧ IsGauss n node weight ∧
      ∀ b v, P.box false b → v < P.nbvar → m' (b.at U v) = ruleMean node weight S.dx S.dy (fun x y =>
        Mood.comp (({ vortexGas S.gamma0 q x y 0 with w := w_a } : PointGas).conserved S.gamma0) v)
        (D.xmin + (b.i + P.nx * D.i_mpi - P.ghostWidth + 1 / 2) * S.dx)
        (D.ymin + (b.j + P.ny * D.j_mpi - P.ghostWidth + 1 / 2) * S.dy) := by
  obtain ⟨m', y, hv, -⟩ := state_fill (lay := lay) (places_mood (U := U)) hne
    (fun c _ => moodState false S P D c (.vortex q w_a n junk)) m
  refine ⟨m', nodes n, weights n, y, gauss_all h1 h4, fun b v hb hv' =>
    (hv b onePt v hb (List.mem_singleton.2 rfl) hv').trans ?_⟩
  show Mood.comp (vortexMood false S q w_a n (junk b) _ _) v = _
  obtain ⟨s, e1, e2⟩ := vortexQuad_eq (S := S) q w_a (xMood S P D b.i) (yMood S P D b.j) 0 h1 h4
  have e3 : v < 4 := h3 ▸ hv'
  have e4 : Mood.comp (vortexMood false S q w_a n (junk b) (xMood S P D b.i) (yMood S P D b.j)) v = Mood.comp s v := by
    unfold vortexMood
    rw [e1]
    interval_cases v <;> rfl
  rw [e4, e2 v e3, xMood_eq, yMood_eq, hD.1, hD.2.1]
  simp only [Int.cast_zero, mul_zero, add_zero]

/-- **C130.** So with `w_a = 0` the run starts from the vortex. -/
theorem C130_vortex_still {q : IsentropicVortexParams ℝ} {n : ℕ} {junk : Cell → ℕ → ℝ} (h1 : 1 ≤ n) (h4 : n ≤ 4)
    (hD : FirstProcess D) (hne : Mood.Nonempty3 false P) (h3 : P.nbvar = 4) (m : Addr → ℝ) :
    ∃ m' node weight, (moodInit lay false S P D U (.vortex q 0 n junk)).Yields
        (fun a => a.arr = U ∧ P.box false a.cell ∧ a.v < P.nbvar) m m' ∧ IsGauss n node weight ∧
      ∀ b v, P.box false b → v < P.nbvar → m' (b.at U v) = ruleMean node weight S.dx S.dy (fun x y =>
        Mood.comp ((vortexGas S.gamma0 q x y 0).conserved S.gamma0) v)
        (D.xmin + (b.i + P.nx * D.i_mpi - P.ghostWidth + 1 / 2) * S.dx)
        (D.ymin + (b.j + P.ny * D.j_mpi - P.ghostWidth + 1 / 2) * S.dy) :=
  C130_vortex (w_a := 0) h1 h4 hD hne h3 m

/-- **C130.** With another `w_a`, whose default is 1, the energy is too large: in 2D there is no momentum across the
plane, so that the pressure at the start is too large by `(gamma - 1) rho w_a^2 / 2`. -/
theorem C130_vortex_wrong {q : IsentropicVortexParams ℝ} {w_a : ℝ} {n : ℕ} {junk : Cell → ℕ → ℝ} (h1 : 1 ≤ n)
    (h4 : n ≤ 4) (hD : FirstProcess D) (hne : Mood.Nonempty3 false P) (h3 : P.nbvar = 4) (m : Addr → ℝ) :
    ∃ m' node weight, (moodInit lay false S P D U (.vortex q w_a n junk)).Yields
        (fun a => a.arr = U ∧ P.box false a.cell ∧ a.v < P.nbvar) m m' ∧ IsGauss n node weight ∧
      ∀ b, P.box false b → m' (b.at U 1) = ruleMean node weight S.dx S.dy (fun x y =>
        ((vortexGas S.gamma0 q x y 0).conserved S.gamma0).p)
        (D.xmin + (b.i + P.nx * D.i_mpi - P.ghostWidth + 1 / 2) * S.dx)
        (D.ymin + (b.j + P.ny * D.j_mpi - P.ghostWidth + 1 / 2) * S.dy) + m' (b.at U 0) * w_a ^ 2 / 2 := by
  obtain ⟨m', node, weight, y, hg, h⟩ := C130_vortex (lay := lay) (S := S) (U := U) (q := q) (w_a := w_a)
    (junk := junk) h1 h4 hD hne h3 m
  refine ⟨m', node, weight, y, hg, fun b hb => ?_⟩
  rw [h b 1 hb (by omega), h b 0 hb (by omega)]
  have key : ∀ x y, Mood.comp (({ vortexGas S.gamma0 q x y 0 with w := w_a } : PointGas).conserved S.gamma0) 1 =
      ((vortexGas S.gamma0 q x y 0).conserved S.gamma0).p +
      Mood.comp (({ vortexGas S.gamma0 q x y 0 with w := w_a } : PointGas).conserved S.gamma0) 0 * w_a ^ 2 / 2 := by
    intro x y
    show (vortexGas S.gamma0 q x y 0).p / (S.gamma0 - 1) + (vortexGas S.gamma0 q x y 0).rho *
        ((vortexGas S.gamma0 q x y 0).u ^ 2 + (vortexGas S.gamma0 q x y 0).v ^ 2 + w_a ^ 2) / 2 =
      (vortexGas S.gamma0 q x y 0).p / (S.gamma0 - 1) + (vortexGas S.gamma0 q x y 0).rho *
        ((vortexGas S.gamma0 q x y 0).u ^ 2 + (vortexGas S.gamma0 q x y 0).v ^ 2 + 0 ^ 2) / 2 +
      (vortexGas S.gamma0 q x y 0).rho * w_a ^ 2 / 2
    ring
  unfold ruleMean
  simp only [key, Finset.sum_mul, Finset.sum_div, ← Finset.sum_add_distrib]
  exact Finset.sum_congr rfl fun j _ => Finset.sum_congr rfl fun i _ => by ring

/-- **C130.** In 3D the energy is read from behind the end of an array: it is whatever is there. -/
theorem C130_vortex3_wrong {q : IsentropicVortexParams ℝ} {w_a : ℝ} {n : Int} {junk : Cell → ℕ → ℝ}
    (hne : Mood.Nonempty3 true P) (h3 : P.nbvar = 5) (m : Addr → ℝ) :
    ∃ m', (moodInit lay true S P D U (.vortex q w_a n junk)).Yields
        (fun a => a.arr = U ∧ P.box true a.cell ∧ a.v < P.nbvar) m m' ∧
      ∀ b, P.box true b → m' (b.at U 1) = junk b 4 := by
  obtain ⟨m', y, hv, -⟩ := state_fill (lay := lay) (places_mood (U := U)) hne
    (fun c _ => moodState true S P D c (.vortex q w_a n junk)) m
  exact ⟨m', y, fun b hb => hv b onePt 1 hb (List.mem_singleton.2 rfl) (by omega)⟩

/-- **C130.** With another number of quadrature points the run starts from numbers that nobody has set. -/
theorem C130_vortex_points_wrong {q : IsentropicVortexParams ℝ} {w_a : ℝ} {n : Int} {junk : Cell → ℕ → ℝ}
    (hn : n < 1 ∨ 4 < n) (hne : Mood.Nonempty3 false P) (h3 : P.nbvar = 4) (m : Addr → ℝ) :
    ∃ m', (moodInit lay false S P D U (.vortex q w_a n junk)).Yields
        (fun a => a.arr = U ∧ P.box false a.cell ∧ a.v < P.nbvar) m m' ∧
      ∀ b v, P.box false b → v < P.nbvar → m' (b.at U v) = junk b v := by
  obtain ⟨m', y, hv, -⟩ := state_fill (lay := lay) (places_mood (U := U)) hne
    (fun c _ => moodState false S P D c (.vortex q w_a n junk)) m
  refine ⟨m', y, fun b v hb hv' => (hv b onePt v hb (List.mem_singleton.2 rfl) hv').trans ?_⟩
  show Mood.comp (vortexMood false S q w_a n (junk b) _ _) v = _
  have e : ∀ x y, vortexQuad S q w_a n x y = none := by
    intro x y
    unfold vortexQuad
    rw [if_neg (by omega), if_neg (by omega)]
  unfold vortexMood
  rw [e]
  have : v < 4 := h3 ▸ hv'
  interval_cases v <;> rfl

/-- **C130.** All processes of a run on several ones start from the numbers of the first one. -/
theorem C130_ranks (Q : MoodProblem ℝ) (hne : Mood.Nonempty3 d3 P) (m : Addr → ℝ) :
    ∃ m', ∀ i j k, (moodInit lay d3 S P { D with i_mpi := i, j_mpi := j, k_mpi := k } U Q).Yields
        (fun a => a.arr = U ∧ P.box d3 a.cell ∧ a.v < P.nbvar) m m' := by
  obtain ⟨m', y, -, -⟩ := state_fill (lay := lay) (places_mood (U := U)) hne
    (fun c _ => moodState d3 S P D c Q) m
  refine ⟨m', fun i j k => ?_⟩
  have e : ∀ c, moodState d3 S P { D with i_mpi := i, j_mpi := j, k_mpi := k } c Q = moodState d3 S P D c Q := by
    intro c
    cases Q <;> rfl
  unfold moodInit
  simp only [e]
  exact y

/-- **C130.** So on several processes the field is not the one asked for: here, where the interface of the four
quadrants lies between the place of a cell and the place that it would have in the first process. -/
theorem C130_ranks_wrong {n : Int} {xt yt : ℝ} (hne : Mood.Nonempty3 d3 P) (m : Addr → ℝ) (hn : 0 < P.nbvar)
    {b : Cell} (hb : P.box d3 b)
    (h1 : D.xmin + (b.i - P.ghostWidth + 1 / 2) * S.dx < xt)
    (h2 : xt ≤ D.xmin + (b.i + P.nx * D.i_mpi - P.ghostWidth + 1 / 2) * S.dx)
    (hj : D.j_mpi = 0) (h3 : yt ≤ D.ymin + (b.j - P.ghostWidth + 1 / 2) * S.dy)
    (h5 : (getRiemannConfig2d n).U0.d ≠ (getRiemannConfig2d n).U1.d) :
    ∃ m', (moodInit lay d3 S P D U (.fourQuadrant n xt yt)).Yields
        (fun a => a.arr = U ∧ P.box d3 a.cell ∧ a.v < P.nbvar) m m' ∧
      ¬ MoodSamples d3 S P D U m' (quadrantGas (getRiemannConfig2d n) xt yt) := by
  obtain ⟨m', y, hv, -⟩ := state_fill (lay := lay) (places_mood (U := U)) hne
    (fun c _ => moodState d3 S P D c (.fourQuadrant n xt yt)) m
  refine ⟨m', y, fun hw => h5 ?_⟩
  have e := (hv b onePt 0 hb (List.mem_singleton.2 rfl) hn).symm.trans (hw b 0 hb hn)
  have e' : (quadrantState (quadrantStates S n) xt yt (xMood S P D b.i) (yMood S P D b.j)).d = _ := e
  rw [quadrantState_eq _ _ _ _ _ 0, xMood_eq, yMood_eq, hj] at e'
  unfold quadrantGas at e'
  rw [if_neg (not_le.2 h1), if_pos h3, if_pos h2, if_pos (by simpa using h3)] at e'
  have e3 : (((getRiemannConfig2d n).U1.d : ℚ) : ℝ) = (((getRiemannConfig2d n).U0.d : ℚ) : ℝ) := e'
  exact (by exact_mod_cast e3.symm)

/-- The hypotheses of `C130_ranks_wrong` are met: the second of two processes with 8 by 4 cells each. -/
example : ∃ (P : Grid) (D : Domain ℝ) (b : Cell), Mood.Nonempty3 false P ∧ P.nbvar = 4 ∧ P.box false b ∧
    D.xmin + (b.i - P.ghostWidth + 1 / 2) * (1 / 16 : ℝ) < 1 / 2 ∧
    1 / 2 ≤ D.xmin + (b.i + P.nx * D.i_mpi - P.ghostWidth + 1 / 2) * (1 / 16 : ℝ) ∧ D.j_mpi = 0 ∧
    1 / 2 ≤ D.ymin + (b.j - P.ghostWidth + 1 / 2) * (1 / 4 : ℝ) ∧
    (getRiemannConfig2d 3).U0.d ≠ (getRiemannConfig2d 3).U1.d :=
  ⟨{ nx := 8, ny := 4, nz := 1, ghostWidth := 2, nbvar := 4,
      boundary_type_xmin := 1, boundary_type_xmax := 1, boundary_type_ymin := 1, boundary_type_ymax := 1,
      boundary_type_zmin := 1, boundary_type_zmax := 1 }, ⟨0, 1, 0, 1, 0, 1, 1, 0, 0⟩, ⟨3, 4, 0⟩,
    ⟨by decide, by decide, nofun⟩, rfl, by decide, by norm_num, by norm_num, rfl, by norm_num, by decide +kernel⟩

/-- **C130.** Nothing but the array of the solution is written, whatever the problem. -/
theorem C130_only (Q : MoodProblem ℝ) (hne : Mood.Nonempty3 d3 P) (m : Addr → ℝ) :
    ∃ m', (moodInit lay d3 S P D U Q).Yields (fun a => a.arr = U ∧ P.box d3 a.cell ∧ a.v < P.nbvar) m m' ∧
      ∀ a, a.arr ≠ U → m' a = m a := by
  obtain ⟨m', y, -, h⟩ := state_fill (lay := lay) (places_mood (U := U)) hne
    (fun c _ => moodState d3 S P D c Q) m
  exact ⟨m', y, h⟩

/-- **C130.** The names the solver knows; every other name selects the four quadrants. -/
theorem C130_names : moodBranch "implode" = .implode ∧ moodBranch "blast" = .blast ∧
    moodBranch "kelvin_helmholtz" = .kelvinHelmholtz ∧ moodBranch "wedge" = .wedge ∧
    moodBranch "isentropic_vortex" = .vortex ∧
    ∀ name, name ∉ ["implode", "blast", "kelvin-helmholtz", "kelvin_helmholtz", "wedge", "isentropic_vortex"] →
      moodBranch name = .fourQuadrant := by
  refine ⟨by decide, by decide, by decide, by decide, by decide, ?_⟩
  intro name h
  simp only [List.mem_cons, List.not_mem_nil, or_false, not_or] at h
  obtain ⟨h1, h2, h3, h4, h5, h6⟩ := h
  simp [moodBranch, h1, h2, h3, h4, h5, h6]

/-- Shear layers whose density vanishes nowhere: equal densities. -/
example : ∃ q : KHParams ℝ, q.p_rand = false ∧ q.p_sine_rob = true ∧ ∀ x y z, (shearGas2 q x y z).rho ≠ 0 :=
  ⟨⟨2, 2, 5/2, false, true, false, 1/2, -1/2, 1/10, 2, 1/10, 1/20⟩, rfl, rfl, fun x y z => by
    unfold shearGas2; dsimp only; ring_nf; norm_num⟩

end Verif.Start
