import Verif.Lemmas.SdmGeometry

/-! Helper lemmas: the flux points. -/

namespace Verif.Sdm

open Verif ROps Finset Polynomial

/-! ### Square roots that occur -/

noncomputable def r3 : ℝ := 1 / Real.sqrt 3
noncomputable def r4 : ℝ := Real.sqrt (3 / 5)
noncomputable def b5 : ℝ := Real.sqrt (6 / 5)
noncomputable def r5 : ℝ := Real.sqrt (3 / 7 + 2 / 7 * b5)
noncomputable def q5 : ℝ := Real.sqrt (3 / 7 - 2 / 7 * b5)
noncomputable def b6 : ℝ := Real.sqrt (10 / 7)
noncomputable def r6 : ℝ := 1 / 3 * Real.sqrt (5 + 2 * b6)
noncomputable def q6 : ℝ := 1 / 3 * Real.sqrt (5 - 2 * b6)

theorem r3_sq : r3 ^ 2 = 1 / 3 := by
  rw [r3, div_pow, Real.sq_sqrt (by norm_num)]; norm_num
theorem r3_pos : 0 < r3 := by unfold r3; positivity
theorem r4_sq : r4 ^ 2 = 3 / 5 := Real.sq_sqrt (by norm_num)
theorem r4_pos : 0 < r4 := by unfold r4; positivity
theorem b5_sq : b5 ^ 2 = 6 / 5 := Real.sq_sqrt (by norm_num)
theorem b5_pos : 0 < b5 := by unfold b5; positivity
theorem b5_lt : b5 < 11 / 10 := by nlinarith [b5_sq, b5_pos]
theorem r5_sq : r5 ^ 2 = 3 / 7 + 2 / 7 * b5 := Real.sq_sqrt (by nlinarith [b5_pos])
theorem q5_sq : q5 ^ 2 = 3 / 7 - 2 / 7 * b5 := Real.sq_sqrt (by nlinarith [b5_lt])
theorem r5_pos : 0 < r5 := Real.sqrt_pos.mpr (by nlinarith [b5_pos])
theorem q5_pos : 0 < q5 := Real.sqrt_pos.mpr (by nlinarith [b5_lt])
theorem b6_sq : b6 ^ 2 = 10 / 7 := Real.sq_sqrt (by norm_num)
theorem b6_pos : 0 < b6 := by unfold b6; positivity
theorem b6_lt : b6 < 6 / 5 := by nlinarith [b6_sq, b6_pos]
theorem r6_sq : r6 ^ 2 = (5 + 2 * b6) / 9 := by
  rw [r6, mul_pow, Real.sq_sqrt (by nlinarith [b6_pos])]; ring
theorem q6_sq : q6 ^ 2 = (5 - 2 * b6) / 9 := by
  rw [q6, mul_pow, Real.sq_sqrt (by nlinarith [b6_lt])]; ring
theorem r6_pos : 0 < r6 := by
  have : 0 < Real.sqrt (5 + 2 * b6) := Real.sqrt_pos.mpr (by nlinarith [b6_pos])
  unfold r6; positivity
theorem q6_pos : 0 < q6 := by
  have : 0 < Real.sqrt (5 - 2 * b6) := Real.sqrt_pos.mpr (by nlinarith [b6_lt])
  unfold q6; positivity

/-- `1 - 2 x` for the flux points, in increasing order of `x`. -/
noncomputable def nodes : ℕ → List ℝ
  | 1 => [1, -1]
  | 2 => [1, 0, -1]
  | 3 => [1, r3, -r3, -1]
  | 4 => [1, r4, 0, -r4, -1]
  | 5 => [1, r5, q5, -q5, -r5, -1]
  | 6 => [1, r6, q6, 0, -q6, -r6, -1]
  | _ => []

theorem fluxPts_nodes {N i : ℕ} (hN : Orders N) (hi : i < N + 1) :
    fluxPts N i = (1 - (nodes N).getD i 0) / 2 := by
  obtain ⟨h1, h2⟩ := hN
  unfold fluxPts
  interval_cases N <;> interval_cases i <;>
    simp only [fluxPt, nodes, List.getD_cons_zero, List.getD_cons_succ, r3, r4, b5, r5, q5, b6, r6,
      q6] <;> rops <;> push_cast <;> ring

theorem nodes_bounds : r3 < 1 ∧ r4 < 1 ∧ r5 < 1 ∧ q5 < r5 ∧ r6 < 1 ∧ q6 < r6 := by
  have s3 := r3_sq
  have p3 := r3_pos
  have s4 := r4_sq
  have p4 := r4_pos
  have t5 := b5_pos
  have u5 := b5_lt
  have s5 := r5_sq
  have p5 := r5_pos
  have v5 := q5_sq
  have w5 := q5_pos
  have t6 := b6_pos
  have u6 := b6_lt
  have s6 := r6_sq
  have p6 := r6_pos
  have v6 := q6_sq
  have w6 := q6_pos
  refine ⟨?_, ?_, ?_, ?_, ?_, ?_⟩
  · clear s4 p4 t5 u5 s5 p5 v5 w5 t6 u6 s6 p6 v6 w6; nlinarith
  · clear s3 p3 t5 u5 s5 p5 v5 w5 t6 u6 s6 p6 v6 w6; nlinarith
  · clear s3 p3 s4 p4 v5 w5 t6 u6 s6 p6 v6 w6; nlinarith
  · clear s3 p3 s4 p4 t6 u6 s6 p6 v6 w6; nlinarith
  · clear s3 p3 s4 p4 t5 u5 s5 p5 v5 w5 v6 w6; nlinarith
  · clear s3 p3 s4 p4 t5 u5 s5 p5 v5 w5; nlinarith

theorem nodes_sorted {N i j : ℕ} (hN : Orders N) (hij : i < j) (hj : j < N + 1) :
    (nodes N).getD j 0 < (nodes N).getD i 0 := by
  obtain ⟨h1, h2⟩ := hN
  have p3 := r3_pos
  have p4 := r4_pos
  have p5 := r5_pos
  have w5 := q5_pos
  have p6 := r6_pos
  have w6 := q6_pos
  obtain ⟨l3, l4, l5, m5, l6, m6⟩ := nodes_bounds
  interval_cases N <;> interval_cases j <;> interval_cases i <;>
    simp only [nodes, List.getD_cons_zero, List.getD_cons_succ] <;> linarith

theorem fluxPts_lt {N i j : ℕ} (hN : Orders N) (hij : i < j) (hj : j < N + 1) :
    fluxPts N i < fluxPts N j := by
  rw [fluxPts_nodes hN (by omega), fluxPts_nodes hN hj]
  have := nodes_sorted hN hij hj
  linarith

theorem fluxPts_zero {N : ℕ} (hN : Orders N) : fluxPts N 0 = 0 := by
  rw [fluxPts_nodes hN (by omega)]
  obtain ⟨h1, h2⟩ := hN
  interval_cases N <;> simp [nodes]

theorem fluxPts_last {N : ℕ} (hN : Orders N) : fluxPts N N = 1 := by
  rw [fluxPts_nodes hN (by omega)]
  obtain ⟨h1, h2⟩ := hN
  interval_cases N <;> simp [nodes]

theorem fluxPts_injOn {N : ℕ} (hN : Orders N) : Set.InjOn (fluxPts N) (range (N + 1)) := by
  intro i hi j hj e
  simp only [coe_range, Set.mem_Iio] at hi hj
  rcases lt_trichotomy i j with h | h | h
  · exact absurd e (fluxPts_lt hN h hj).ne
  · exact h
  · exact absurd e (fluxPts_lt hN h hi).ne'

/-! ### Zeros of the Legendre polynomials -/

theorem legendre_eval (n : ℕ) (x : ℝ) : aeval x (shiftedLegendre n)
    = ∑ k ∈ range (n + 1), ((-1 : ℤ) ^ k * (n.choose k) * ((n + k).choose n) : ℤ) * x ^ k := by
  simp [shiftedLegendre, map_sum]

theorem fluxPts_legendre {N i : ℕ} (hN : Orders N) (h0 : 0 < i) (hi : i < N) :
    aeval (fluxPts N i) (shiftedLegendre (N - 1)) = 0 := by
  rw [fluxPts_nodes hN (by omega), legendre_eval]
  obtain ⟨h1, h2⟩ := hN
  interval_cases N <;> interval_cases i <;>
    simp only [nodes, List.getD_cons_zero, List.getD_cons_succ, sum_range_succ, sum_range_zero,
      show ∀ n, Nat.choose n 0 = 1 from fun n => Nat.choose_zero_right n,
      show Nat.choose 1 1 = 1 from rfl, show Nat.choose 2 1 = 2 from rfl,
      show Nat.choose 2 2 = 1 from rfl, show Nat.choose 3 1 = 3 from rfl,
      show Nat.choose 3 2 = 3 from rfl, show Nat.choose 3 3 = 1 from rfl,
      show Nat.choose 4 1 = 4 from rfl, show Nat.choose 4 2 = 6 from rfl,
      show Nat.choose 4 3 = 4 from rfl, show Nat.choose 4 4 = 1 from rfl,
      show Nat.choose 5 1 = 5 from rfl, show Nat.choose 5 2 = 10 from rfl,
      show Nat.choose 5 3 = 10 from rfl, show Nat.choose 5 4 = 5 from rfl,
      show Nat.choose 5 5 = 1 from rfl, show Nat.choose 6 3 = 20 from rfl,
      show Nat.choose 6 4 = 15 from rfl, show Nat.choose 7 4 = 35 from rfl,
      show Nat.choose 8 4 = 70 from rfl, show Nat.choose 6 5 = 6 from rfl,
      show Nat.choose 7 5 = 21 from rfl, show Nat.choose 8 5 = 56 from rfl,
      show Nat.choose 9 5 = 126 from rfl, show Nat.choose 10 5 = 252 from rfl,
      Nat.reduceSub, Nat.reduceAdd] <;>
    push_cast
  · norm_num
  · linear_combination (3 / 2) * r3_sq
  · linear_combination (3 / 2) * r3_sq
  · linear_combination (5 / 2) * r4 * r4_sq
  · norm_num
  · linear_combination (-5 / 2) * r4 * r4_sq
  · linear_combination (35 * (r5 ^ 2 + (3 / 7 + 2 / 7 * b5)) - 30) / 8 * r5_sq + 5 / 14 * b5_sq
  · linear_combination (35 * (q5 ^ 2 + (3 / 7 - 2 / 7 * b5)) - 30) / 8 * q5_sq + 5 / 14 * b5_sq
  · linear_combination (35 * (q5 ^ 2 + (3 / 7 - 2 / 7 * b5)) - 30) / 8 * q5_sq + 5 / 14 * b5_sq
  · linear_combination (35 * (r5 ^ 2 + (3 / 7 + 2 / 7 * b5)) - 30) / 8 * r5_sq + 5 / 14 * b5_sq
  · linear_combination r6 / 8 * ((63 * (r6 ^ 2 + (5 + 2 * b6) / 9) - 70) * r6_sq + 28 / 9 * b6_sq)
  · linear_combination q6 / 8 * ((63 * (q6 ^ 2 + (5 - 2 * b6) / 9) - 70) * q6_sq + 28 / 9 * b6_sq)
  · norm_num
  · linear_combination -q6 / 8 * ((63 * (q6 ^ 2 + (5 - 2 * b6) / 9) - 70) * q6_sq + 28 / 9 * b6_sq)
  · linear_combination -r6 / 8 * ((63 * (r6 ^ 2 + (5 + 2 * b6) / 9) - 70) * r6_sq + 28 / 9 * b6_sq)

/-! ### Chebyshev polynomials -/

theorem T_step (n : ℤ) (x : ℝ) : (Chebyshev.T ℝ (n + 2)).eval x
    = 2 * x * (Chebyshev.T ℝ (n + 1)).eval x - (Chebyshev.T ℝ n).eval x := by
  rw [Chebyshev.T_add_two]
  simp

theorem T1_eval (x : ℝ) : (Chebyshev.T ℝ ((1 : ℕ) : ℤ)).eval x = x := by simp
theorem T2_eval (x : ℝ) : (Chebyshev.T ℝ ((2 : ℕ) : ℤ)).eval x = 2 * x ^ 2 - 1 := by
  have := T_step 0 x
  norm_num at this ⊢
  rw [this]; ring
theorem T3_eval (x : ℝ) : (Chebyshev.T ℝ ((3 : ℕ) : ℤ)).eval x = 4 * x ^ 3 - 3 * x := by
  have := T_step 1 x
  have h := T2_eval x
  norm_num at this h ⊢
  rw [this, h]; ring
theorem T4_eval (x : ℝ) : (Chebyshev.T ℝ ((4 : ℕ) : ℤ)).eval x = 8 * x ^ 4 - 8 * x ^ 2 + 1 := by
  have := T_step 2 x
  have h := T2_eval x
  have h' := T3_eval x
  norm_num at this h h' ⊢
  rw [this, h, h']; ring
theorem T5_eval (x : ℝ) :
    (Chebyshev.T ℝ ((5 : ℕ) : ℤ)).eval x = 16 * x ^ 5 - 20 * x ^ 3 + 5 * x := by
  have := T_step 3 x
  have h := T3_eval x
  have h' := T4_eval x
  norm_num at this h h' ⊢
  rw [this, h, h']; ring
theorem T6_eval (x : ℝ) :
    (Chebyshev.T ℝ ((6 : ℕ) : ℤ)).eval x = 32 * x ^ 6 - 48 * x ^ 4 + 18 * x ^ 2 - 1 := by
  have := T_step 4 x
  have h := T4_eval x
  have h' := T5_eval x
  norm_num at this h h' ⊢
  rw [this, h, h']; ring

theorem T3_r3 : (4 : ℝ) * r3 ^ 3 - 3 * r3 ≠ 0 := by
  have : 4 * r3 ^ 3 - 3 * r3 = -5 / 3 * r3 := by linear_combination 4 * r3 * r3_sq
  rw [this]
  have := r3_pos
  exact mul_ne_zero (by norm_num) this.ne'
theorem T4_r4 : (8 : ℝ) * r4 ^ 4 - 8 * r4 ^ 2 + 1 ≠ 0 := by
  have : 8 * r4 ^ 4 - 8 * r4 ^ 2 + 1 = -23 / 25 := by
    linear_combination (8 * (r4 ^ 2 + 3 / 5) - 8) * r4_sq
  rw [this]; norm_num
theorem T5_r5 : (16 : ℝ) * r5 ^ 5 - 20 * r5 ^ 3 + 5 * r5 ≠ 0 := by
  have e : 16 * r5 ^ 5 - 20 * r5 ^ 3 + 5 * r5
      = r5 * ((127 - 220 * (3 / 7 + 2 / 7 * b5)) / 35) := by
    linear_combination r5 * ((16 * (r5 ^ 2 + (3 / 7 + 2 / 7 * b5)) - 20) * r5_sq
      + 64 / 49 * b5_sq)
  rw [e]
  have h : 1 ≤ b5 := by nlinarith [b5_sq, b5_pos]
  refine mul_ne_zero r5_pos.ne' (ne_of_lt ?_)
  linarith
theorem T5_q5 : (16 : ℝ) * q5 ^ 5 - 20 * q5 ^ 3 + 5 * q5 ≠ 0 := by
  have e : 16 * q5 ^ 5 - 20 * q5 ^ 3 + 5 * q5
      = q5 * ((127 - 220 * (3 / 7 - 2 / 7 * b5)) / 35) := by
    linear_combination q5 * ((16 * (q5 ^ 2 + (3 / 7 - 2 / 7 * b5)) - 20) * q5_sq
      + 64 / 49 * b5_sq)
  rw [e]
  have h := b5_pos
  refine mul_ne_zero q5_pos.ne' (ne_of_gt ?_)
  linarith
theorem cubic6 (s c : ℝ) (h : 9 * s = 5 + 2 * c) (hc : c ^ 2 = 10 / 7) :
    32 * s ^ 3 - 48 * s ^ 2 + 18 * s - 1 = (7791 - 13678 * s) / 3969 := by
  have h2 : 63 * s ^ 2 = 70 * s - 15 := by
    have : s = (5 + 2 * c) / 9 := by linarith
    rw [this]; linear_combination 28 / 9 * hc
  linear_combination (32 * s / 63 + 2240 / 3969 - 48 / 63) * h2
theorem T6_of (a s c : ℝ) (ha : a ^ 2 = s) (h : 9 * s = 5 + 2 * c) (hc : c ^ 2 = 10 / 7)
    (hs : 13678 * s ≠ 7791) : (32 : ℝ) * a ^ 6 - 48 * a ^ 4 + 18 * a ^ 2 - 1 ≠ 0 := by
  have e : 32 * a ^ 6 - 48 * a ^ 4 + 18 * a ^ 2 - 1 = (7791 - 13678 * s) / 3969 := by
    rw [← cubic6 s c h hc, ← ha]; ring
  rw [e]
  intro h0
  exact hs (by linarith)
theorem T6_r6 : (32 : ℝ) * r6 ^ 6 - 48 * r6 ^ 4 + 18 * r6 ^ 2 - 1 ≠ 0 :=
  T6_of _ _ b6 r6_sq (by ring) b6_sq (by
    have : 1 ≤ b6 := by nlinarith [b6_sq, b6_pos]
    intro h; linarith)
theorem T6_q6 : (32 : ℝ) * q6 ^ 6 - 48 * q6 ^ 4 + 18 * q6 ^ 2 - 1 ≠ 0 :=
  T6_of _ _ (-b6) q6_sq (by ring) (by rw [neg_sq]; exact b6_sq) (by
    have : 1 ≤ b6 := by nlinarith [b6_sq, b6_pos]
    intro h; linarith)

/-- The flux points are not zeros of the Chebyshev polynomial of degree `N`. -/
theorem fluxPts_chebyshev {N i : ℕ} (hN : Orders N) (hi : i < N + 1) :
    (Chebyshev.T ℝ N).eval (1 - 2 * fluxPts N i) ≠ 0 := by
  rw [fluxPts_nodes hN hi]
  have e : ∀ a : ℝ, 1 - 2 * ((1 - a) / 2) = a := fun a => by ring
  rw [e]
  obtain ⟨h1, h2⟩ := hN
  have n3 : (4 : ℝ) * (-r3) ^ 3 - 3 * -r3 ≠ 0 := by
    have := neg_ne_zero.mpr T3_r3
    intro h; apply this; rw [← h]; ring
  have n5 : (16 : ℝ) * (-r5) ^ 5 - 20 * (-r5) ^ 3 + 5 * -r5 ≠ 0 := by
    have := neg_ne_zero.mpr T5_r5
    intro h; apply this; rw [← h]; ring
  have n5' : (16 : ℝ) * (-q5) ^ 5 - 20 * (-q5) ^ 3 + 5 * -q5 ≠ 0 := by
    have := neg_ne_zero.mpr T5_q5
    intro h; apply this; rw [← h]; ring
  have n4 : (8 : ℝ) * (-r4) ^ 4 - 8 * (-r4) ^ 2 + 1 ≠ 0 := by
    intro h; apply T4_r4; rw [← h]; ring
  have n6 : (32 : ℝ) * (-r6) ^ 6 - 48 * (-r6) ^ 4 + 18 * (-r6) ^ 2 - 1 ≠ 0 := by
    intro h; apply T6_r6; rw [← h]; ring
  have n6' : (32 : ℝ) * (-q6) ^ 6 - 48 * (-q6) ^ 4 + 18 * (-q6) ^ 2 - 1 ≠ 0 := by
    intro h; apply T6_q6; rw [← h]; ring
  interval_cases N <;> interval_cases i <;>
    simp only [nodes, List.getD_cons_zero, List.getD_cons_succ, T1_eval, T2_eval, T3_eval, T4_eval,
      T5_eval, T6_eval] <;>
    first
    | exact T3_r3 | exact n3 | exact T4_r4 | exact n4 | exact T5_r5 | exact T5_q5 | exact n5
    | exact n5' | exact T6_r6 | exact T6_q6 | exact n6 | exact n6' | norm_num

theorem solPts_ne_fluxPts {N i k : ℕ} (hN : Orders N) (hi : i < N) (hk : k < N + 1) :
    solPts N i ≠ fluxPts N k := fun e =>
  fluxPts_chebyshev hN hk (by rw [← e]; exact solPts_chebyshev hi)

end Verif.Sdm
