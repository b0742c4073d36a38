import Verif.Lemmas.SdmPoints
import Mathlib.Analysis.SpecialFunctions.Integrals.Basic
import Mathlib.Analysis.Calculus.Deriv.Polynomial
import Mathlib.Topology.Algebra.Polynomial

/-!
# C81 to C84: numbering, points and matrices of the spectral difference method
-/

namespace Verif.Sdm

open Verif ROps Finset Polynomial

/-! ## C81: numbering of the degrees of freedom -/

theorem mix_lt {a n b m : ℕ} (ha : a < n) (hb : b < m) : a + n * b < n * m := by
  have : n * b + n ≤ n * m := by
    rw [← Nat.mul_succ]; exact Nat.mul_le_mul_left n hb
  omega

theorem mix_inj {a a' n b b' : ℕ} (ha : a < n) (ha' : a' < n) (h : a + n * b = a' + n * b') :
    a = a' ∧ b = b' := by
  have h1 := congrArg (· % n) h
  simp only [Nat.add_mul_mod_self_left, Nat.mod_eq_of_lt ha, Nat.mod_eq_of_lt ha'] at h1
  subst h1
  exact ⟨rfl, Nat.eq_of_mul_eq_mul_left (by omega : 0 < n) (Nat.add_left_cancel h)⟩

theorem mix_onto {q n m : ℕ} (h : q < n * m) : ∃ a b, a < n ∧ b < m ∧ q = a + n * b := by
  have hn : 0 < n := Nat.pos_of_ne_zero (by rintro rfl; simp at h)
  exact ⟨q % n, q / n, Nat.mod_lt _ hn, Nat.div_lt_of_lt_mul h, (Nat.mod_add_div q n).symm⟩

/-- Every variable at every solution point has a place in the array. -/
theorem dofMap_lt {d3 : Bool} {N nbvar iv : ℕ} {p : Pt} (hp : IsSolPt d3 N p) (hv : iv < nbvar) :
    DofMap d3 N p iv < nbDof d3 N nbvar := by
  obtain ⟨hx, hy, hz⟩ := hp
  cases d3
  · have := mix_lt (mix_lt hx hy) hv
    simp only [DofMap, nbDof, Bool.false_eq_true, if_false]
    rw [Nat.mul_comm nbvar]; exact this
  · have := mix_lt (mix_lt (mix_lt hx hy) hz) hv
    simp only [DofMap, nbDof, if_true]
    rw [Nat.mul_comm nbvar]; exact this

/-- No two of them share a place. -/
theorem dofMap_injective {d3 : Bool} {N iv iv' : ℕ} {p p' : Pt} (hp : IsSolPt d3 N p)
    (hp' : IsSolPt d3 N p') (h : DofMap d3 N p iv = DofMap d3 N p' iv') : p = p' ∧ iv = iv' := by
  obtain ⟨hx, hy, hz⟩ := hp
  obtain ⟨hx', hy', hz'⟩ := hp'
  cases d3
  · simp only [DofMap, Bool.false_eq_true, if_false] at h hz hz'
    obtain ⟨h1, h2⟩ := mix_inj (mix_lt hx hy) (mix_lt hx' hy') h
    obtain ⟨h3, h4⟩ := mix_inj hx hx' h1
    exact ⟨Pt.ext h3 h4 (hz.trans hz'.symm), h2⟩
  · simp only [DofMap, if_true] at h hz hz'
    obtain ⟨h1, h2⟩ := mix_inj (mix_lt (mix_lt hx hy) hz) (mix_lt (mix_lt hx' hy') hz') h
    obtain ⟨h3, h4⟩ := mix_inj (mix_lt hx hy) (mix_lt hx' hy') h1
    obtain ⟨h5, h6⟩ := mix_inj hx hx' h3
    exact ⟨Pt.ext h5 h6 h4, h2⟩

/-- No place is unused. -/
theorem dofMap_onto {d3 : Bool} {N nbvar q : ℕ} (h : q < nbDof d3 N nbvar) :
    ∃ p iv, IsSolPt d3 N p ∧ iv < nbvar ∧ q = DofMap d3 N p iv := by
  cases d3
  · simp only [nbDof, Bool.false_eq_true, if_false] at h
    rw [Nat.mul_comm] at h
    obtain ⟨a, v, ha, hv, rfl⟩ := mix_onto h
    obtain ⟨x, y, hx, hy, rfl⟩ := mix_onto ha
    exact ⟨⟨x, y, 0⟩, v, ⟨hx, hy, rfl⟩, hv, rfl⟩
  · simp only [nbDof, if_true] at h
    rw [Nat.mul_comm] at h
    obtain ⟨a, v, ha, hv, rfl⟩ := mix_onto h
    obtain ⟨b, z, hb, hz, rfl⟩ := mix_onto ha
    obtain ⟨x, y, hx, hy, rfl⟩ := mix_onto hb
    exact ⟨⟨x, y, z⟩, v, ⟨hx, hy, hz⟩, hv, rfl⟩

/-- Every variable at every flux point of a direction has a place in the array of fluxes. -/
theorem dofMapFlux_lt {d3 : Bool} {N nbvar iv : ℕ} {d : Dir} {p : Pt} (hd : d3 = true ∨ d ≠ .z)
    (hp : IsFluxPt d3 N d p) (hv : iv < nbvar) :
    DofMapFlux d3 N d p iv < nbDofFlux d3 N nbvar := by
  obtain ⟨hx, hy, hz⟩ := hp
  cases d3 <;> cases d <;>
    simp only [fluxExtent, if_true, reduceCtorEq, if_false, Bool.false_eq_true] at hx hy hz <;>
    simp only [DofMapFlux, nbDofFlux, if_true, Bool.false_eq_true, if_false]
  · exact mix_lt (mix_lt hx hy) hv
  · rw [Nat.mul_comm (N + 1) N]; exact mix_lt (mix_lt hx hy) hv
  · simp at hd
  · exact mix_lt (mix_lt (mix_lt hx hy) hz) hv
  · rw [Nat.mul_comm (N + 1) N]; exact mix_lt (mix_lt (mix_lt hx hy) hz) hv
  · rw [Nat.mul_assoc (N + 1) N N, Nat.mul_comm (N + 1) (N * N)]
    exact mix_lt (mix_lt (mix_lt hx hy) hz) hv

/-- No two of them share a place. -/
theorem dofMapFlux_injective {d3 : Bool} {N iv iv' : ℕ} {d : Dir} {p p' : Pt}
    (hd : d3 = true ∨ d ≠ .z) (hp : IsFluxPt d3 N d p) (hp' : IsFluxPt d3 N d p')
    (h : DofMapFlux d3 N d p iv = DofMapFlux d3 N d p' iv') : p = p' ∧ iv = iv' := by
  obtain ⟨hx, hy, hz⟩ := hp
  obtain ⟨hx', hy', hz'⟩ := hp'
  cases d3
  · simp only [Bool.false_eq_true, if_false] at hz hz'
    have go : ∀ {n m : ℕ}, p.x < n → p'.x < n → p.y < m → p'.y < m →
        p.x + n * p.y + n * m * iv = p'.x + n * p'.y + n * m * iv' → p = p' ∧ iv = iv' := by
      intro n m hx hx' hy hy' h
      obtain ⟨h1, h2⟩ := mix_inj (mix_lt hx hy) (mix_lt hx' hy') h
      obtain ⟨h3, h4⟩ := mix_inj hx hx' h1
      exact ⟨Pt.ext h3 h4 (hz.trans hz'.symm), h2⟩
    cases d
    · exact go hx hx' hy hy' h
    · exact go hx hx' hy hy' h
    · simp at hd
  · simp only [if_true] at hz hz'
    have go : ∀ {n m l : ℕ}, p.x < n → p'.x < n → p.y < m → p'.y < m → p.z < l → p'.z < l →
        p.x + n * p.y + n * m * p.z + n * m * l * iv
          = p'.x + n * p'.y + n * m * p'.z + n * m * l * iv' → p = p' ∧ iv = iv' := by
      intro n m l hx hx' hy hy' hz hz' h
      obtain ⟨h1, h2⟩ := mix_inj (mix_lt (mix_lt hx hy) hz) (mix_lt (mix_lt hx' hy') hz') h
      obtain ⟨h3, h4⟩ := mix_inj (mix_lt hx hy) (mix_lt hx' hy') h1
      obtain ⟨h5, h6⟩ := mix_inj hx hx' h3
      exact ⟨Pt.ext h5 h6 h4, h2⟩
    cases d
    · exact go hx hx' hy hy' hz hz' h
    · exact go hx hx' hy hy' hz hz' h
    · exact go hx hx' hy hy' hz hz' h

example : IsFluxPt true 4 .y ⟨3, 4, 3⟩ ∧ (true = true ∨ Dir.y ≠ .z) ∧ ¬ IsSolPt true 4 ⟨3, 4, 3⟩ := by
  refine ⟨?_, Or.inl rfl, ?_⟩ <;> simp [IsFluxPt, IsSolPt, fluxExtent]

/-- The flux points of direction `x` do not fit the numbering of the solution points: using `DofMap` for
them makes two points share a place. -/
theorem dofMap_not_for_fluxes (d3 : Bool) (N : ℕ) (hN : 2 ≤ N) :
    ∃ p p' : Pt, IsFluxPt d3 N .x p ∧ IsFluxPt d3 N .x p' ∧ p ≠ p' ∧
      DofMap d3 N p 0 = DofMap d3 N p' 0 := by
  refine ⟨⟨N, 0, 0⟩, ⟨0, 1, 0⟩, ?_, ?_, ?_, ?_⟩
  · cases d3 <;> simp [IsFluxPt, fluxExtent] <;> omega
  · cases d3 <;> simp [IsFluxPt, fluxExtent] <;> omega
  · intro h; have := congrArg Pt.y h; simp at this
  · cases d3 <;> simp [DofMap]

/-! ## C82: the points -/

/-- The solution points lie strictly inside the cell, in increasing order. -/
theorem solution_points_inside {N i : ℕ} (hi : i < N) : 0 < solPts N i ∧ solPts N i < 1 :=
  ⟨solPts_pos hi, solPts_lt_one hi⟩

theorem solution_points_increasing {N i j : ℕ} (hij : i < j) (hj : j < N) :
    solPts N i < solPts N j := solPts_lt hij hj

/-- They are the zeros of the Chebyshev polynomial of degree `N`, moved to the unit interval. -/
theorem solution_points_chebyshev {N i : ℕ} (hi : i < N) :
    (Chebyshev.T ℝ N).eval (1 - 2 * solPts N i) = 0 := solPts_chebyshev hi

/-- They are symmetric about the cell centre. -/
theorem solution_points_symmetric {N i : ℕ} (hi : i < N) :
    solPts N i + solPts N (N - 1 - i) = 1 := by
  rw [solPts_eq, solPts_eq]
  have hN : (N : ℝ) ≠ 0 := by exact_mod_cast (by omega : N ≠ 0)
  have : (2 * ((N - 1 - i : ℕ) : ℝ) + 1) * Real.pi / (2 * N)
      = Real.pi - (2 * i + 1) * Real.pi / (2 * N) := by
    rw [Nat.cast_sub (by omega), Nat.cast_sub (by omega)]
    push_cast
    field_simp
    ring
  rw [this, Real.cos_pi_sub]
  ring

/-- The flux points start at the lower face, end at the upper face and increase. -/
theorem flux_points_ends {N : ℕ} (hN : Orders N) : fluxPts N 0 = 0 ∧ fluxPts N N = 1 :=
  ⟨fluxPts_zero hN, fluxPts_last hN⟩

theorem flux_points_increasing {N i j : ℕ} (hN : Orders N) (hij : i < j) (hj : j ≤ N) :
    fluxPts N i < fluxPts N j := fluxPts_lt hN hij (by omega)

/-- Those inside the cell are the zeros of the Legendre polynomial of degree `N - 1`. -/
theorem flux_points_legendre {N i : ℕ} (hN : Orders N) (h0 : 0 < i) (hi : i < N) :
    aeval (fluxPts N i) (shiftedLegendre (N - 1)) = 0 := fluxPts_legendre hN h0 hi

/-- They are symmetric about the cell centre. -/
theorem flux_points_symmetric {N i : ℕ} (hN : Orders N) (hi : i ≤ N) :
    fluxPts N i + fluxPts N (N - i) = 1 := by
  rw [fluxPts_nodes hN (by omega), fluxPts_nodes hN (by omega)]
  obtain ⟨h1, h2⟩ := hN
  have hi' : i < N + 1 := by omega
  clear hi
  interval_cases N <;> interval_cases i <;> simp [nodes] <;> ring

/-- No solution point is a flux point, so no entry of the matrices divides by zero. -/
theorem solution_points_apart {N i k : ℕ} (hN : Orders N) (hi : i < N) (hk : k ≤ N) :
    solPts N i ≠ fluxPts N k := solPts_ne_fluxPts hN hi (by omega)

/-- With seven points the flux points are all equal (the arrays keep their zeros). -/
theorem flux_points_seven (i j : ℕ) : fluxPts 7 i = fluxPts 7 j := rfl

example : Orders 4 ∧ solPts 4 1 < solPts 4 2 ∧ fluxPts 4 3 < fluxPts 4 4 :=
  ⟨⟨by norm_num, by norm_num⟩, solution_points_increasing (by norm_num) (by norm_num),
    flux_points_increasing ⟨by norm_num, by norm_num⟩ (by norm_num) (by norm_num)⟩

/-! ## C83: the matrices are exact on polynomials -/

theorem degree_affine (p : ℝ[X]) (x0 h : ℝ) {n : ℕ} (hp : p.degree < n) :
    (p.comp (C x0 + C h * X)).degree < n := by
  by_cases h0 : p = 0
  · rw [h0, zero_comp, degree_zero]; exact WithBot.bot_lt_coe n
  by_cases hc : p.comp (C x0 + C h * X) = 0
  · rw [hc, degree_zero]; exact WithBot.bot_lt_coe n
  rw [← natDegree_lt_iff_degree_lt h0] at hp
  rw [← natDegree_lt_iff_degree_lt hc]
  refine lt_of_le_of_lt natDegree_comp_le (lt_of_le_of_lt ?_ hp)
  have : (C x0 + C h * X : ℝ[X]).natDegree ≤ 1 := by
    rw [add_comm]; exact natDegree_linear_le
  calc _ ≤ p.natDegree * 1 := Nat.mul_le_mul_left _ this
    _ = _ := Nat.mul_one _

theorem eval_affine (p : ℝ[X]) (x0 h x : ℝ) :
    p.eval (x0 + h * x) = (p.comp (C x0 + C h * X)).eval x := by simp

/-- Interpolation from the solution points of the cell `[x₀, x₀ + h]` to its flux points is exact for
polynomials of degree below `N`. -/
theorem sol2flux_exact {N j : ℕ} (p : ℝ[X]) (x0 h : ℝ) (hp : p.degree < N) :
    sol2fluxVector N (solPts N) (fluxPts N) (fun k => p.eval (x0 + h * solPts N k)) j
      = p.eval (x0 + h * fluxPts N j) := by
  rw [sol2fluxVector_eq]
  simp only [eval_affine]
  exact sum_basis_eval (solPts_injOn N) (degree_affine p x0 h hp) _

/-- Interpolation back is exact for polynomials of degree up to `N`. -/
theorem flux2sol_exact {N j : ℕ} (hN : Orders N) (p : ℝ[X]) (x0 h : ℝ)
    (hp : p.degree < (N + 1 : ℕ)) :
    flux2solVector N (solPts N) (fluxPts N) (fun k => p.eval (x0 + h * fluxPts N k)) j
      = p.eval (x0 + h * solPts N j) := by
  rw [flux2solVector_eq]
  simp only [eval_affine]
  exact sum_basis_eval (fluxPts_injOn hN) (degree_affine p x0 h hp) _

/-- The derivative at the solution points is exact for polynomials of degree up to `N`; `1/h` is the factor
handed in by the caller for a cell of width `h`. -/
theorem flux2sol_derivative_exact {N j : ℕ} (hN : Orders N) (hj : j < N) (p : ℝ[X]) (x0 h : ℝ)
    (hh : h ≠ 0) (hp : p.degree < (N + 1 : ℕ)) :
    flux2solDerivativeVector N (solPts N) (fluxPts N) (fun k => p.eval (x0 + h * fluxPts N k)) (1 / h) j
      = deriv (fun x => p.eval x) (x0 + h * solPts N j) := by
  rw [flux2solDerivativeVector_eq _ _ _ _ _ _ fun k hk => solPts_ne_fluxPts hN hj hk, Polynomial.deriv]
  simp only [eval_affine]
  rw [sum_basis_derivative (fluxPts_injOn hN) (degree_affine p x0 h hp), derivative_comp]
  simp
  field_simp

/-- The derivative computed from the values at the solution points is exact for polynomials of degree below
`N` (on the unit cell). -/
theorem sol2sol_derivative_exact {N j : ℕ} (p : ℝ[X]) (hp : p.degree < N) :
    ∑ i ∈ range N, p.eval (solPts N i) * sol2sol_derivative N (solPts N) i j
      = deriv (fun x => p.eval x) (solPts N j) := by
  simp only [sol2sol_derivative_eq]
  rw [sum_basis_derivative (solPts_injOn N) hp, Polynomial.deriv]

/-- Interpolating any values to the flux points and back changes nothing. -/
theorem sol2flux_flux2sol {N j : ℕ} (hN : Orders N) (hj : j < N) (u : ℕ → ℝ) :
    flux2solVector N (solPts N) (fluxPts N) (sol2fluxVector N (solPts N) (fluxPts N) u) j = u j := by
  set p := Lagrange.interpolate (range N) (solPts N) u with hp
  have hdeg : p.degree < N := by
    have := Lagrange.degree_interpolate_lt u (solPts_injOn N)
    rwa [card_range] at this
  have hu : ∀ k, k < N → p.eval (solPts N k) = u k := fun k hk =>
    Lagrange.eval_interpolate_at_node u (solPts_injOn N) (mem_range.mpr hk)
  have e : ∀ k, sol2fluxVector N (solPts N) (fluxPts N) u k = p.eval (0 + 1 * fluxPts N k) := by
    intro k
    rw [← sol2flux_exact p 0 1 hdeg, sol2fluxVector_eq, sol2fluxVector_eq]
    refine sum_congr rfl fun i hi => ?_
    simp only [zero_add, one_mul]
    rw [hu i (mem_range.mp hi)]
  have e' : sol2fluxVector N (solPts N) (fluxPts N) u = fun k => p.eval (0 + 1 * fluxPts N k) :=
    funext e
  rw [e', flux2sol_exact hN p 0 1 (hdeg.trans (by exact_mod_cast Nat.lt_succ_self N)), zero_add, one_mul,
    hu j hj]

/-- The interpolation to the flux points is not exact for polynomials of degree `N`: with one point per cell
the identity is interpolated to a constant. -/
theorem sol2flux_limit :
    sol2fluxVector 1 (solPts 1) (fluxPts 1) (fun k => (X : ℝ[X]).eval (solPts 1 k)) 1
      ≠ (X : ℝ[X]).eval (fluxPts 1 1) := by
  rw [sol2fluxVector_eq]
  simp only [eval_basis', eval_X, Finset.range_one, Finset.sum_singleton, Finset.erase_singleton,
    Finset.prod_empty, mul_one]
  rw [fluxPts_last (N := 1) ⟨le_refl _, by norm_num⟩]
  exact (solPts_lt_one (by norm_num)).ne

/-- Hypotheses are met by a cubic on a cell of width 1/10 with four points. -/
example : Orders 4 ∧ (X ^ 3 : ℝ[X]).degree < (4 : ℕ) ∧ (1 / 10 : ℝ) ≠ 0 :=
  ⟨⟨by norm_num, by norm_num⟩, by rw [degree_X_pow]; norm_num, by norm_num⟩

/-! ## C84: the derivative is conservative -/

/-- Whatever the values at the flux points, the mean over the cell of the computed derivative is the
difference of the values at the two faces. -/
theorem flux_derivative_mean {N : ℕ} (hN : Orders N) (f : ℕ → ℝ) (r : ℝ) :
    lineMean N (flux2solDerivativeVector N (solPts N) (fluxPts N) f r) = r * (f N - f 0) := by
  set F := Lagrange.interpolate (range (N + 1)) (fluxPts N) f with hF
  have hN1 : 0 < N := hN.1
  have hdegF : F.degree < (N + 1 : ℕ) := by
    have := Lagrange.degree_interpolate_lt f (fluxPts_injOn hN)
    rwa [card_range] at this
  have hval : ∀ k, k < N + 1 → F.eval (fluxPts N k) = f k := fun k hk =>
    Lagrange.eval_interpolate_at_node f (fluxPts_injOn hN) (mem_range.mpr hk)
  have hder : ∀ j, j < N → flux2solDerivativeVector N (solPts N) (fluxPts N) f r j
      = (C r * derivative F).eval (solPts N j) := by
    intro j hj
    rw [flux2solDerivativeVector_eq _ _ _ _ _ _ fun k hk => solPts_ne_fluxPts hN hj hk, eval_mul, eval_C,
      ← sum_basis_derivative (fluxPts_injOn hN) hdegF, mul_comm r]
    congr 1
    refine sum_congr rfl fun k hk => ?_
    rw [hval k (mem_range.mp hk)]
  have hdeg : (C r * derivative F).degree < N := by
    rw [← smul_eq_C_mul]
    refine lt_of_le_of_lt (degree_smul_le _ _) ?_
    by_cases h0 : derivative F = 0
    · rw [h0, degree_zero]; exact WithBot.bot_lt_coe N
    have hF0 : F ≠ 0 := fun h => h0 (by rw [h]; simp)
    rw [← natDegree_lt_iff_degree_lt h0]
    rw [← natDegree_lt_iff_degree_lt hF0] at hdegF
    have := natDegree_derivative_le F
    omega
  have hint : Lagrange.interpolate (range N) (solPts N)
      (flux2solDerivativeVector N (solPts N) (fluxPts N) f r) = C r * derivative F := by
    symm
    refine Lagrange.eq_interpolate_of_eval_eq _ (solPts_injOn N) (by rwa [card_range]) fun j hj => ?_
    exact (hder j (mem_range.mp hj)).symm
  rw [lineMean, hint]
  have hd : ∀ x ∈ Set.uIcc (0 : ℝ) 1,
      HasDerivAt (fun x => r * F.eval x) ((C r * derivative F).eval x) x := by
    intro x _
    have := (Polynomial.hasDerivAt F x).const_mul r
    simpa using this
  rw [intervalIntegral.integral_eq_sub_of_hasDerivAt hd
    ((by fun_prop : Continuous _).intervalIntegrable _ _)]
  have h0 := hval 0 (by omega)
  have h1 := hval N (by omega)
  rw [fluxPts_zero hN] at h0
  rw [fluxPts_last hN] at h1
  rw [h0, h1]
  ring

/-- The mean is a fixed combination of the point values which gives a constant its value. -/
theorem lineMean_sum (N : ℕ) (u : ℕ → ℝ) :
    lineMean N u = ∑ j ∈ range N, u j * lineMean N (fun k => if k = j then 1 else 0) := by
  have key : ∀ v : ℕ → ℝ, lineMean N v
      = ∑ j ∈ range N, v j * ∫ x in (0 : ℝ)..1, (Lagrange.basis (range N) (solPts N) j).eval x := by
    intro v
    rw [lineMean, Lagrange.interpolate_apply]
    simp only [eval_finsetSum, eval_mul, eval_C]
    rw [intervalIntegral.integral_finsetSum]
    · simp only [intervalIntegral.integral_const_mul]
    · intro j _
      exact (by fun_prop : Continuous _).intervalIntegrable _ _
  rw [key]
  refine sum_congr rfl fun j hj => ?_
  rw [key, Finset.sum_eq_single j]
  · simp
  · intro b _ hb; simp [hb]
  · intro h; exact absurd hj h

theorem lineMean_const {N : ℕ} (hN : 0 < N) (c : ℝ) : lineMean N (fun _ => c) = c := by
  have : Lagrange.interpolate (range N) (solPts N) (fun _ => c) = C c := by
    symm
    refine Lagrange.eq_interpolate_of_eval_eq _ (solPts_injOn N) ?_ fun j _ => by simp
    rw [card_range]
    exact lt_of_le_of_lt degree_C_le (by exact_mod_cast hN)
  rw [lineMean, this]
  simp

/-- The mean is that of the polynomial through the values. -/
theorem lineMean_polynomial {N : ℕ} (p : ℝ[X]) (hp : p.degree < N) :
    lineMean N (fun k => p.eval (solPts N k)) = ∫ x in (0 : ℝ)..1, p.eval x := by
  rw [lineMean, ← Lagrange.eq_interpolate (f := p) (solPts_injOn N) (by simpa using hp)]

/-- Constant fluxes have no divergence. -/
theorem flux_derivative_const {N j : ℕ} (hN : Orders N) (hj : j < N) (c r : ℝ) :
    flux2solDerivativeVector N (solPts N) (fluxPts N) (fun _ => c) r j = 0 := by
  rw [flux2solDerivativeVector_eq _ _ _ _ _ _ fun k hk => solPts_ne_fluxPts hN hj hk]
  have := sum_basis_derivative (fluxPts_injOn hN) (p := C c)
    (lt_of_le_of_lt degree_C_le (by exact_mod_cast Nat.succ_pos N)) (solPts N j)
  simp only [eval_C, derivative_C, eval_zero] at this
  rw [this, zero_mul]

/-- Constant states are interpolated to the same constant. -/
theorem sol2flux_const {N j : ℕ} (hN : 0 < N) (c : ℝ) :
    sol2fluxVector N (solPts N) (fluxPts N) (fun _ => c) j = c := by
  have := sol2flux_exact (N := N) (j := j) (C c) 0 1
    (lt_of_le_of_lt degree_C_le (by exact_mod_cast hN))
  simpa using this

example : lineMean 3 (flux2solDerivativeVector 3 (solPts 3) (fluxPts 3)
    (fun k => if k = 3 then 5 else 2) 10) = 30 := by
  rw [flux_derivative_mean ⟨by norm_num, by norm_num⟩]; norm_num

end Verif.Sdm
