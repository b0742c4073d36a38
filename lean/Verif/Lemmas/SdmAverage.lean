import Verif.Lemmas.SdmLimiter
import Verif.Lemmas.SdmBalance
import Verif.Spec.SdmLimiter
import Mathlib.Analysis.SpecialFunctions.Trigonometric.Bounds

/-! Helper lemmas: the averages of the limiter over the reals. -/

namespace Verif.Sdm

open Verif Spec Polynomial Finset

/-! ### Weights -/

theorem sum_sin_odd (h : ℝ) (n : ℕ) :
    2 * Real.sin h * ∑ k ∈ range n, Real.sin ((2 * k + 1) * h) = 1 - Real.cos (2 * n * h) := by
  induction n with
  | zero => simp
  | succ n ih =>
    rw [sum_range_succ, mul_add, ih]
    have e : Real.cos (2 * n * h) - Real.cos (2 * (n + 1 : ℕ) * h) =
        2 * Real.sin h * Real.sin ((2 * n + 1) * h) := by
      rw [Real.cos_sub_cos]
      have e1 : (2 * n * h + 2 * (n + 1 : ℕ) * h) / 2 = (2 * n + 1) * h := by push_cast; ring
      have e2 : (2 * n * h - 2 * (n + 1 : ℕ) * h) / 2 = -h := by push_cast; ring
      rw [e1, e2, Real.sin_neg]
      ring
    linarith

theorem half_angle {N : ℕ} (hN : 0 < N) :
    0 < Real.pi / (2 * N) ∧ Real.pi / (2 * N) < Real.pi := by
  have h := sol_angle (N := N) (i := 0) hN
  simpa using h

theorem sin_half_pos {N : ℕ} (hN : 0 < N) : 0 < Real.sin (Real.pi / (2 * N)) :=
  Real.sin_pos_of_pos_of_lt_pi (half_angle hN).1 (half_angle hN).2

theorem angle_eq (N k : ℕ) : angle N k = (2 * k + 1) * (Real.pi / (2 * N)) := by rw [angle, mul_div_assoc]

theorem sum_sin {N : ℕ} (hN : 0 < N) :
    ∑ k ∈ range N, Real.sin (angle N k) = 1 / Real.sin (Real.pi / (2 * N)) := by
  have h := sum_sin_odd (Real.pi / (2 * N)) N
  have hN' : (N : ℝ) ≠ 0 := by exact_mod_cast hN.ne'
  have e : 2 * N * (Real.pi / (2 * N)) = Real.pi := by field_simp
  rw [e, Real.cos_pi] at h
  simp only [angle_eq]
  rw [eq_div_iff (sin_half_pos hN).ne']
  linarith

theorem sin_angle_pos {N k : ℕ} (hk : k < N) : 0 < Real.sin (angle N k) :=
  Real.sin_pos_of_pos_of_lt_pi (sol_angle hk).1 (sol_angle hk).2

theorem sum_sin_pos {N : ℕ} (hN : 0 < N) : 0 < ∑ k ∈ range N, Real.sin (angle N k) :=
  sum_pos (fun k hk => sin_angle_pos (mem_range.1 hk)) ⟨0, mem_range.2 hN⟩

theorem quadWeight_eq {N k : ℕ} (hk : k < N) : quadWeight (solPts N) k = Real.sin (angle N k) / 2 := by
  have h : solPts N k - solPts N k * solPts N k = (Real.sin (angle N k) / 2) ^ 2 := by
    rw [solPts_eq]
    have := Real.sin_sq_add_cos_sq (angle N k)
    unfold angle at *
    linear_combination -this / 4
  show Real.sqrt (solPts N k - solPts N k * solPts N k) = _
  rw [h, Real.sqrt_sq (by have := sin_angle_pos hk; linarith)]

theorem one_lt_excess {N : ℕ} (hN : 0 < N) : 1 < excess N := by
  rw [excess, lt_div_iff₀ (sin_half_pos hN), one_mul]
  exact Real.sin_lt (half_angle hN).1

theorem excess_pow_pos (d3 : Bool) {N : ℕ} (hN : 0 < N) : 0 < excess N ^ dims d3 :=
  pow_pos (lt_trans one_pos (one_lt_excess hN)) _

theorem one_lt_excess_pow (d3 : Bool) {N : ℕ} (hN : 0 < N) : 1 < excess N ^ dims d3 :=
  one_lt_pow₀ (one_lt_excess hN) (by cases d3 <;> decide)

theorem line_sum {N : ℕ} (hN : 0 < N) (u : ℕ → ℝ) :
    Real.pi / N * ∑ k ∈ range N, u k * quadWeight (solPts N) k = excess N * angleMean N u := by
  have e : ∑ k ∈ range N, u k * quadWeight (solPts N) k =
      (∑ k ∈ range N, Real.sin (angle N k) * u k) / 2 := by
    rw [sum_div]
    exact sum_congr rfl fun k hk => by rw [quadWeight_eq (mem_range.1 hk)]; ring
  have h0 := (sin_half_pos hN).ne'
  have hN' : (N : ℝ) ≠ 0 := by exact_mod_cast hN.ne'
  rw [e, angleMean, sum_sin hN, excess]
  generalize Real.sin (Real.pi / (2 * N)) = t at *
  field_simp

theorem angleMean_congr {N : ℕ} {f g : ℕ → ℝ} (h : ∀ j, j < N → f j = g j) :
    angleMean N f = angleMean N g := by
  unfold angleMean
  rw [sum_congr rfl fun j hj => by rw [h j (mem_range.1 hj)]]

theorem angleMean_lin (N : ℕ) (f g : ℕ → ℝ) (a b : ℝ) :
    angleMean N (fun j => a * f j + b * g j) = a * angleMean N f + b * angleMean N g := by
  unfold angleMean
  rw [← mul_div_assoc, ← mul_div_assoc, ← add_div, mul_sum, mul_sum, ← sum_add_distrib]
  congr 1
  exact sum_congr rfl fun j _ => by ring

theorem angleMean_const {N : ℕ} (hN : 0 < N) (a : ℝ) : angleMean N (fun _ => a) = a := by
  unfold angleMean
  rw [← sum_mul, mul_div_assoc, mul_comm, div_mul_cancel₀ _ (sum_sin_pos hN).ne']

theorem angleMean_le {N : ℕ} (hN : 0 < N) {f g : ℕ → ℝ} (h : ∀ j, j < N → f j ≤ g j) :
    angleMean N f ≤ angleMean N g := by
  unfold angleMean
  refine div_le_div_of_nonneg_right (sum_le_sum fun k hk => ?_) (sum_sin_pos hN).le
  exact mul_le_mul_of_nonneg_left (h k (mem_range.1 hk)) (sin_angle_pos (mem_range.1 hk)).le

theorem angleMean_swap (N : ℕ) (f : ℕ → ℕ → ℝ) :
    (angleMean N fun x => angleMean N fun y => f x y) =
      angleMean N fun y => angleMean N fun x => f x y := by
  unfold angleMean
  simp only [← mul_div_assoc, ← sum_div, mul_sum]
  rw [sum_comm]
  simp only [mul_left_comm]

theorem angleMean_smul (N : ℕ) (f : ℕ → ℝ) (a : ℝ) : angleMean N (fun j => a * f j) = a * angleMean N f := by
  have := angleMean_lin N f (fun _ => 0) a 0
  simpa using this

theorem cellAngleMean_congr {d3 : Bool} {N : ℕ} {f g : Pt → ℝ} (h : ∀ p, IsSolPt d3 N p → f p = g p) :
    cellAngleMean d3 N f = cellAngleMean d3 N g := by
  unfold cellAngleMean
  refine angleMean_congr fun x hx => angleMean_congr fun y hy => ?_
  cases d3
  · simp only [Bool.false_eq_true, if_false]
    exact h _ ⟨hx, hy, by simp⟩
  · simp only [if_true]
    exact angleMean_congr fun z hz => h _ ⟨hx, hy, by simpa using hz⟩

theorem cellAngleMean_le {d3 : Bool} {N : ℕ} (hN : 0 < N) {f g : Pt → ℝ}
    (h : ∀ p, IsSolPt d3 N p → f p ≤ g p) : cellAngleMean d3 N f ≤ cellAngleMean d3 N g := by
  unfold cellAngleMean
  refine angleMean_le hN fun x hx => angleMean_le hN fun y hy => ?_
  cases d3
  · simp only [Bool.false_eq_true, if_false]
    exact h _ ⟨hx, hy, by simp⟩
  · simp only [if_true]
    exact angleMean_le hN fun z hz => h _ ⟨hx, hy, by simpa using hz⟩

theorem cellAngleMean_const (d3 : Bool) {N : ℕ} (hN : 0 < N) (a : ℝ) :
    cellAngleMean d3 N (fun _ => a) = a := by
  unfold cellAngleMean
  cases d3 <;> simp [angleMean_const hN]

theorem cellAngleMean_lin (d3 : Bool) (N : ℕ) (f g : Pt → ℝ) (a b : ℝ) :
    cellAngleMean d3 N (fun p => a * f p + b * g p) =
      a * cellAngleMean d3 N f + b * cellAngleMean d3 N g := by
  unfold cellAngleMean
  cases d3
  · simp only [Bool.false_eq_true, if_false, angleMean_lin]
  · simp only [if_true, angleMean_lin]

/-! ### Sums over the points of a cell -/

theorem foldl_sum {ι : Type} (L : List ι) (f : ι → ℝ) (a : ℝ) :
    L.foldl (fun s i => s + f i) a = a + (L.map f).sum := by
  induction L generalizing a with
  | nil => simp
  | cons i L ih => simp [ih, add_assoc]

theorem list_sum_range (n : ℕ) (f : ℕ → ℝ) : ((List.range n).map f).sum = ∑ k ∈ range n, f k := by
  induction n with
  | zero => simp
  | succ n ih => rw [List.range_succ, List.map_append, List.sum_append, ih, sum_range_succ]; simp

theorem list_sum_flatMap {ι κ : Type} (L : List ι) (g : ι → List κ) (f : κ → ℝ) :
    ((L.flatMap g).map f).sum = (L.map fun i => ((g i).map f).sum).sum := by
  induction L with
  | nil => rfl
  | cons i L ih => simp only [List.flatMap_cons, List.map_append, List.sum_append, List.map_cons, List.sum_cons, ih]

/-- Sum over the points of a cell. -/
noncomputable def pointSum (d3 : Bool) (N : ℕ) (F : Pt → ℝ) : ℝ :=
  ∑ x ∈ range N, ∑ y ∈ range N, ∑ z ∈ range (if d3 then N else 1), F ⟨x, y, z⟩

theorem cellPts_sum (d3 : Bool) (N : ℕ) (F : Pt → ℝ) : ((cellPts d3 N).map F).sum = pointSum d3 N F := by
  unfold cellPts
  rw [list_sum_flatMap, list_sum_range]
  have : ∀ z, ((List.flatMap (fun y => List.map (fun x => (⟨x, y, z⟩ : Pt)) (List.range N))
      (List.range N)).map F).sum = ∑ y ∈ range N, ∑ x ∈ range N, F ⟨x, y, z⟩ := by
    intro z
    rw [list_sum_flatMap, list_sum_range]
    refine sum_congr rfl fun y _ => ?_
    rw [List.map_map, list_sum_range]
    rfl
  simp only [this]
  unfold pointSum
  rw [sum_comm, sum_comm (s := range N) (t := range N)]
  refine sum_congr rfl fun y _ => ?_
  rw [sum_comm]

theorem gradLines_sum {d3 : Bool} (N : ℕ) {d : Dir} (hd : d3 = true ∨ d ≠ .z) (F : Pt → ℝ) :
    ((gradLines d3 N d).map fun p => ∑ k ∈ range N, F (p.set d k)).sum = pointSum d3 N F := by
  cases d with
  | x =>
    unfold gradLines lines
    simp only []
    rw [list_sum_flatMap, list_sum_range]
    simp only [List.map_map, list_sum_range, Function.comp_def, Pt.set]
    unfold pointSum
    rw [sum_comm, sum_comm (s := range N) (t := range N)]
    refine sum_congr rfl fun y _ => ?_
    rw [sum_comm]
  | y =>
    unfold gradLines lines
    simp only []
    rw [list_sum_flatMap, list_sum_range]
    simp only [List.map_map, list_sum_range, Function.comp_def, Pt.set]
    unfold pointSum
    rw [sum_comm]
    refine sum_congr rfl fun y _ => ?_
    rw [sum_comm]
  | z =>
    obtain rfl : d3 = true := by simpa using hd
    unfold gradLines
    simp only []
    rw [list_sum_flatMap, list_sum_range]
    simp only [List.map_map, list_sum_range, Function.comp_def, Pt.set]
    rfl

theorem weighted_sum (d3 : Bool) {N : ℕ} (hN : 0 < N) (f : Pt → ℝ) :
    (pointSum d3 N fun p => weigh d3 (solPts N) p (f p)) * quadScale d3 Real.pi N =
      excess N ^ dims d3 * cellAngleMean d3 N f := by
  have eN : (ROps.lit (N : ℚ) : ℝ) = N := by rw [rops_lit]; push_cast; rfl
  have h1 : ∀ x y, Real.pi / N * ∑ z ∈ range N, f ⟨x, y, z⟩ * quadWeight (solPts N) z =
      excess N * angleMean N fun z => f ⟨x, y, z⟩ := fun x y => line_sum hN _
  cases d3
  · have h2 : ∀ x, Real.pi / N * ∑ y ∈ range N, f ⟨x, y, 0⟩ * quadWeight (solPts N) y =
      excess N * angleMean N fun y => f ⟨x, y, 0⟩ := fun x => line_sum hN _
    have h3 := line_sum hN fun x => angleMean N fun y => f ⟨x, y, 0⟩
    simp only [dims, cellAngleMean, Bool.false_eq_true, if_false]
    have e : (pointSum false N fun p => weigh false (solPts N) p (f p)) * quadScale false Real.pi N =
        Real.pi / N * ∑ x ∈ range N, (Real.pi / N * ∑ y ∈ range N, f ⟨x, y, 0⟩ * quadWeight (solPts N) y) *
          quadWeight (solPts N) x := by
      simp only [pointSum, weigh, quadScale, Bool.false_eq_true, if_false, eN, sum_range_one]
      simp only [sum_mul, mul_sum]
      exact sum_congr rfl fun x _ => sum_congr rfl fun y _ => by ring
    rw [e]
    simp only [h2]
    have e2 : ∑ x ∈ range N, (excess N * angleMean N fun y => f ⟨x, y, 0⟩) * quadWeight (solPts N) x =
        excess N * ∑ x ∈ range N, (angleMean N fun y => f ⟨x, y, 0⟩) * quadWeight (solPts N) x := by
      rw [mul_sum]
      exact sum_congr rfl fun x _ => by ring
    rw [e2]
    linear_combination excess N * h3
  · have h3 : ∀ x, Real.pi / N * ∑ y ∈ range N, (angleMean N fun z => f ⟨x, y, z⟩) *
        quadWeight (solPts N) y = excess N * angleMean N fun y => angleMean N fun z => f ⟨x, y, z⟩ :=
      fun x => line_sum hN _
    have h4 := line_sum hN fun x => angleMean N fun y => angleMean N fun z => f ⟨x, y, z⟩
    simp only [dims, cellAngleMean, if_true]
    have e : (pointSum true N fun p => weigh true (solPts N) p (f p)) * quadScale true Real.pi N =
        Real.pi / N * ∑ x ∈ range N, (Real.pi / N * ∑ y ∈ range N, (Real.pi / N *
          ∑ z ∈ range N, f ⟨x, y, z⟩ * quadWeight (solPts N) z) * quadWeight (solPts N) y) *
          quadWeight (solPts N) x := by
      simp only [pointSum, weigh, quadScale, if_true, eN]
      simp only [sum_mul, mul_sum]
      exact sum_congr rfl fun x _ => sum_congr rfl fun y _ => sum_congr rfl fun z _ => by ring
    rw [e]
    simp only [h1]
    have e2 : ∀ x, Real.pi / N * ∑ y ∈ range N, (excess N * angleMean N fun z => f ⟨x, y, z⟩) *
        quadWeight (solPts N) y = excess N * (excess N * angleMean N fun y => angleMean N fun z => f ⟨x, y, z⟩) := by
      intro x
      rw [← h3 x, mul_sum, mul_sum, mul_sum]
      exact sum_congr rfl fun x _ => by ring
    simp only [e2]
    have e3 : ∑ x ∈ range N, (excess N * (excess N * angleMean N fun y => angleMean N fun z => f ⟨x, y, z⟩)) *
        quadWeight (solPts N) x = excess N * (excess N * ∑ x ∈ range N, (angleMean N fun y =>
          angleMean N fun z => f ⟨x, y, z⟩) * quadWeight (solPts N) x) := by
      rw [mul_sum, mul_sum]
      exact sum_congr rfl fun x _ => by ring
    rw [e3]
    linear_combination excess N * excess N * h4

/-! ### What the loops store -/

theorem avgVal_eq {M : Scheme ℝ} (hM : ExactScheme M) (S : Settings ℝ) (u : Vals ℝ) (c : Cell) (iv : ℕ) :
    avgVal M S Real.pi u c iv =
      floorAverage S iv (excess M.N ^ dims M.d3 * cellAngleMean M.d3 M.N fun p => u c p iv) := by
  unfold avgVal
  rw [foldl_sum, hM.sp, cellPts_sum, rops_lit, Rat.cast_zero, zero_add, weighted_sum _ hM.orders.1]

theorem gradVal_eq {N : ℕ} (f : ℕ → ℝ) (k : ℕ) :
    gradVal N (solPts N) f k =
      (derivative (Lagrange.interpolate (range N) (solPts N) f)).eval (solPts N k) := by
  rw [gradVal, sumIf_eq, Lagrange.interpolate_apply, derivative_sum, eval_finsetSum]
  simp only [filter_true_of_mem, implies_true]
  refine sum_congr rfl fun i _ => ?_
  rw [sol2sol_derivative_eq]
  simp

theorem set_set (p : Pt) (d : Dir) (a b : ℕ) : (p.set d a).set d b = p.set d b := by cases d <;> rfl

theorem get_set (p : Pt) (d : Dir) (a : ℕ) : (p.set d a).get d = a := by cases d <;> rfl

theorem gradAvg_eq {M : Scheme ℝ} (hM : ExactScheme M) {d : Dir} (hd : M.d3 = true ∨ d ≠ .z) (u : Vals ℝ)
    (c : Cell) (iv : ℕ) :
    gradAvg M Real.pi d u c iv =
      excess M.N ^ dims M.d3 * cellAngleMean M.d3 M.N (slopeAt M.N d fun p => u c p iv) := by
  rw [← weighted_sum _ hM.orders.1, ← gradLines_sum M.N hd]
  unfold gradAvg
  congr 1
  have : ∀ (L : List Pt) (a : ℝ), L.foldl (fun a p => (List.range M.N).foldl
      (fun s k => s + weigh M.d3 M.sp (p.set d k) (gradVal M.N M.sp (fun i => u c (p.set d i) iv) k)) a) a =
      a + (L.map fun p => ∑ k ∈ range M.N,
        weigh M.d3 (solPts M.N) (p.set d k) (slopeAt M.N d (fun p => u c p iv) (p.set d k))).sum := by
    intro L
    induction L with
    | nil => intro a; simp
    | cons p L ih =>
      intro a
      rw [List.foldl_cons, ih, foldl_sum, list_sum_range, List.map_cons, List.sum_cons, ← add_assoc, hM.sp]
      congr 3
      funext k
      rw [gradVal_eq, slopeAt, get_set]
      simp only [set_set]
  rw [this, rops_lit, Rat.cast_zero, zero_add]

end Verif.Sdm
