import Verif.Spec.Sdm
import Verif.Lemmas.RealOps
import Mathlib.Algebra.Polynomial.Derivative
import Mathlib.Analysis.SpecialFunctions.Trigonometric.Chebyshev.Basic
import Mathlib.Analysis.SpecialFunctions.Integrals.Basic
import Mathlib.RingTheory.Polynomial.ShiftedLegendre
import Mathlib.MeasureTheory.Integral.IntervalIntegral.FundThmCalculus
import Mathlib.Analysis.Calculus.Deriv.Polynomial

/-! Helper lemmas: sums, products and Lagrange polynomials of the spectral difference method. -/

namespace Verif.Sdm

open Verif ROps Finset Polynomial

theorem foldl_sumIf (c : ℕ → Bool) (f : ℕ → ℝ) (n : ℕ) (a : ℝ) :
    (List.range n).foldl (fun s k => if c k then s + f k else s) a
      = a + ∑ k ∈ (range n).filter (fun k => c k = true), f k := by
  induction n generalizing a with
  | zero => simp
  | succ n ih =>
    rw [List.range_succ, List.foldl_append, ih, range_add_one, filter_insert]
    by_cases h : c n = true
    · simp [h, add_comm, add_left_comm, add_assoc]
    · simp [h]

theorem sumIf_eq (n : ℕ) (c : ℕ → Bool) (f : ℕ → ℝ) :
    sumIf n c f = ∑ k ∈ (range n).filter (fun k => c k = true), f k := by
  have := foldl_sumIf c f n 0
  rw [zero_add] at this
  rw [← this]
  simp only [sumIf, rops_lit, Rat.cast_zero]

theorem foldl_prodIf (c : ℕ → Bool) (f : ℕ → ℝ) (n : ℕ) (a : ℝ) :
    (List.range n).foldl (fun s k => if c k then s * f k else s) a
      = a * ∏ k ∈ (range n).filter (fun k => c k = true), f k := by
  induction n generalizing a with
  | zero => simp
  | succ n ih =>
    rw [List.range_succ, List.foldl_append, ih, range_add_one, filter_insert]
    by_cases h : c n = true
    · simp [h, mul_comm, mul_left_comm]
    · simp [h]

theorem prodIf_eq (n : ℕ) (c : ℕ → Bool) (f : ℕ → ℝ) (l : ℝ) :
    prodIf n c f l = l * ∏ k ∈ (range n).filter (fun k => c k = true), f k := by
  rw [← foldl_prodIf]
  rfl

theorem filter_ne (n i : ℕ) : (range n).filter (fun k => (k != i) = true) = (range n).erase i := by
  ext k; simp [and_comm]

theorem filter_true (n : ℕ) : (range n).filter (fun k => (fun _ : ℕ => true) k = true) = range n := by
  simp

theorem eval_basis' (s : Finset ℕ) (v : ℕ → ℝ) (i : ℕ) (x : ℝ) :
    (Lagrange.basis s v i).eval x = ∏ k ∈ s.erase i, (x - v k) / (v i - v k) := by
  rw [Lagrange.basis, eval_prod]
  refine prod_congr rfl fun k _ => ?_
  simp [Lagrange.basisDivisor, div_eq_inv_mul]

theorem lagrangeEntry_eq (n : ℕ) (pts : ℕ → ℝ) (i : ℕ) (x : ℝ) :
    lagrangeEntry n pts i x = (Lagrange.basis (range n) pts i).eval x := by
  rw [lagrangeEntry, prodIf_eq, filter_ne, eval_basis', rops_lit]
  simp only [Rat.cast_one, one_mul]

theorem eval_derivative_basis (s : Finset ℕ) (v : ℕ → ℝ) (i : ℕ) (x : ℝ) :
    (derivative (Lagrange.basis s v i)).eval x
      = ∑ l ∈ s.erase i, 1 / (v i - v l) *
          ∏ k ∈ (s.erase i).erase l, (x - v k) / (v i - v k) := by
  rw [Lagrange.basis, derivative_prod_finset, eval_finsetSum]
  refine sum_congr rfl fun l _ => ?_
  rw [eval_mul, eval_prod, mul_comm]
  congr 1
  · simp [Lagrange.basisDivisor]
  · refine prod_congr rfl fun k _ => ?_
    simp [Lagrange.basisDivisor, div_eq_inv_mul]

theorem sol2sol_derivative_eq (N : ℕ) (sp : ℕ → ℝ) (i j : ℕ) :
    sol2sol_derivative N sp i j = (derivative (Lagrange.basis (range N) sp i)).eval (sp j) := by
  rw [sol2sol_derivative, sumIf_eq, filter_ne, eval_derivative_basis]
  refine sum_congr rfl fun l _ => ?_
  rw [prodIf_eq]
  have : (range N).filter (fun k => (k != i && k != l) = true) = ((range N).erase i).erase l := by
    ext k; simp; tauto
  rw [this, rops_lit, Rat.cast_one]

theorem flux2sol_derivative_eq (N : ℕ) (sp fp : ℕ → ℝ) (i j : ℕ)
    (h : ∀ k, k < N + 1 → sp j ≠ fp k) :
    flux2sol_derivative N sp fp i j
      = (derivative (Lagrange.basis (range (N + 1)) fp i)).eval (sp j) := by
  rw [flux2sol_derivative, flux2sol, lagrangeEntry_eq, sumIf_eq, filter_ne, eval_derivative_basis,
    eval_basis']
  show (∑ k ∈ _, (lit 1 : ℝ) / (sp j - fp k)) * _ = _
  rw [sum_mul]
  refine sum_congr rfl fun l hl => ?_
  have hl' : l < N + 1 := mem_range.mp (mem_of_mem_erase hl)
  have h1 : sp j - fp l ≠ 0 := sub_ne_zero.mpr (h l hl')
  rw [← mul_prod_erase _ _ hl, rops_lit, Rat.cast_one, ← mul_assoc]
  congr 1
  field_simp

theorem sum_basis_eval {n : ℕ} {v : ℕ → ℝ} (hv : Set.InjOn v (range n)) {p : ℝ[X]}
    (hp : p.degree < n) (x : ℝ) :
    ∑ k ∈ range n, p.eval (v k) * (Lagrange.basis (range n) v k).eval x = p.eval x := by
  conv_rhs => rw [Lagrange.eq_interpolate (f := p) hv (by simpa using hp)]
  rw [Lagrange.interpolate_apply, eval_finsetSum]
  simp

theorem sum_basis_derivative {n : ℕ} {v : ℕ → ℝ} (hv : Set.InjOn v (range n)) {p : ℝ[X]}
    (hp : p.degree < n) (x : ℝ) :
    ∑ k ∈ range n, p.eval (v k) * (derivative (Lagrange.basis (range n) v k)).eval x
      = (derivative p).eval x := by
  conv_rhs => rw [Lagrange.eq_interpolate (f := p) hv (by simpa using hp)]
  rw [Lagrange.interpolate_apply, derivative_sum, eval_finsetSum]
  simp

theorem sol2fluxVector_eq (N : ℕ) (sp fp : ℕ → ℝ) (u : ℕ → ℝ) (j : ℕ) :
    sol2fluxVector N sp fp u j
      = ∑ k ∈ range N, u k * (Lagrange.basis (range N) sp k).eval (fp j) := by
  rw [sol2fluxVector, sumIf_eq, filter_true]
  refine sum_congr rfl fun k _ => ?_
  rw [sol2flux, lagrangeEntry_eq]

theorem flux2solVector_eq (N : ℕ) (sp fp : ℕ → ℝ) (u : ℕ → ℝ) (j : ℕ) :
    flux2solVector N sp fp u j
      = ∑ k ∈ range (N + 1), u k * (Lagrange.basis (range (N + 1)) fp k).eval (sp j) := by
  rw [flux2solVector, sumIf_eq, filter_true]
  refine sum_congr rfl fun k _ => ?_
  rw [flux2sol, lagrangeEntry_eq]

theorem flux2solDerivativeVector_eq (N : ℕ) (sp fp : ℕ → ℝ) (u : ℕ → ℝ) (r : ℝ) (j : ℕ)
    (h : ∀ k, k < N + 1 → sp j ≠ fp k) :
    flux2solDerivativeVector N sp fp u r j
      = (∑ k ∈ range (N + 1),
          u k * (derivative (Lagrange.basis (range (N + 1)) fp k)).eval (sp j)) * r := by
  rw [flux2solDerivativeVector, sumIf_eq, filter_true]
  show _ * r = _
  congr 1
  refine sum_congr rfl fun k _ => ?_
  rw [flux2sol_derivative_eq N sp fp k j h]

/-! ### The points -/

theorem solPts_eq (N i : ℕ) :
    solPts N i = (1 - Real.cos ((2 * i + 1) * Real.pi / (2 * N))) / 2 := by
  simp only [solPts, solutionPt]
  rops
  have : Real.pi * ((2 * (i : ℚ) + 1 : ℚ) : ℝ) / 2 / ((N : ℚ) : ℝ)
      = (2 * i + 1) * Real.pi / (2 * N) := by
    push_cast
    ring
  rw [this]
  ring

theorem sol_angle {N i : ℕ} (h : i < N) :
    0 < (2 * i + 1) * Real.pi / (2 * N) ∧ (2 * i + 1) * Real.pi / (2 * N) < Real.pi := by
  have hN : (0 : ℝ) < N := by exact_mod_cast (by omega : 0 < N)
  have hi : ((2 * i + 1 : ℕ) : ℝ) < ((2 * N : ℕ) : ℝ) := by exact_mod_cast (by omega)
  push_cast at hi
  have := Real.pi_pos
  constructor
  · positivity
  · rw [div_lt_iff₀ (by positivity)]
    nlinarith

theorem solPts_lt {N i j : ℕ} (hij : i < j) (hj : j < N) : solPts N i < solPts N j := by
  rw [solPts_eq, solPts_eq]
  have hN : (0 : ℝ) < N := by exact_mod_cast (by omega : 0 < N)
  have h1 := sol_angle (i := i) (N := N) (by omega)
  have h2 := sol_angle hj
  have hij' : (i : ℝ) < j := by exact_mod_cast hij
  have hlt : (2 * i + 1) * Real.pi / (2 * N) < (2 * j + 1) * Real.pi / (2 * N) := by
    apply div_lt_div_of_pos_right _ (by positivity)
    have := Real.pi_pos
    nlinarith
  have := Real.strictAntiOn_cos ⟨h1.1.le, h1.2.le⟩ ⟨h2.1.le, h2.2.le⟩ hlt
  linarith

theorem solPts_pos {N i : ℕ} (h : i < N) : 0 < solPts N i := by
  rw [solPts_eq]
  have h1 := sol_angle h
  have := Real.strictAntiOn_cos ⟨le_refl 0, Real.pi_pos.le⟩ ⟨h1.1.le, h1.2.le⟩ h1.1
  rw [Real.cos_zero] at this
  linarith

theorem solPts_lt_one {N i : ℕ} (h : i < N) : solPts N i < 1 := by
  rw [solPts_eq]
  have h1 := sol_angle h
  have := Real.strictAntiOn_cos ⟨h1.1.le, h1.2.le⟩ ⟨Real.pi_pos.le, le_refl _⟩ h1.2
  rw [Real.cos_pi] at this
  linarith

theorem solPts_injOn (N : ℕ) : Set.InjOn (solPts N) (range N) := by
  intro i hi j hj e
  simp only [coe_range, Set.mem_Iio] at hi hj
  rcases lt_trichotomy i j with h | h | h
  · exact absurd e (solPts_lt h hj).ne
  · exact h
  · exact absurd e (solPts_lt h hi).ne'

/-- The solution points are zeros of the Chebyshev polynomial of degree `N`. -/
theorem solPts_chebyshev {N i : ℕ} (h : i < N) :
    (Chebyshev.T ℝ N).eval (1 - 2 * solPts N i) = 0 := by
  have e : 1 - 2 * solPts N i = Real.cos ((2 * i + 1) * Real.pi / (2 * N)) := by
    rw [solPts_eq]; ring
  have hN : (N : ℝ) ≠ 0 := by exact_mod_cast (by omega : N ≠ 0)
  rw [e, Chebyshev.T_real_cos, Real.cos_eq_zero_iff]
  refine ⟨i, ?_⟩
  push_cast
  field_simp

end Verif.Sdm
