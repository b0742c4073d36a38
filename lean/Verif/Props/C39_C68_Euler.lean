import Verif.Model.Euler
import Verif.Spec.Waves
import Verif.Lemmas.RealOps
import Mathlib.Analysis.Calculus.Deriv.Mul
import Mathlib.Analysis.Calculus.Deriv.Inv
import Mathlib.Analysis.Calculus.Deriv.Pow
import Mathlib.Analysis.Calculus.Deriv.Add
import Mathlib.Tactic.FieldSimp
import Mathlib.Tactic.Ring
import Mathlib.Tactic.NormNum
import Mathlib.Tactic.Positivity
import Mathlib.Tactic.Linarith

/-!
# C39, C66–C68: the Euler equations of the high order solvers
-/

namespace Verif

open Spec

variable {γ c : ℝ}

/-! ### C39 -/

/-- **C39, 2D**: conservative to characteristic and back. -/
theorem C39_roundtrip_2d (dir : Dir) (data q : HState ℝ) (hc : c ≠ 0) (hγ : γ ≠ 1) :
    Euler2.charac_to_cons dir (Euler2.cons_to_charac dir data q c γ) q c γ = data := by
  have hg : γ - 1 ≠ 0 := sub_ne_zero.2 hγ
  cases dir
  · unfold Euler2.charac_to_cons Euler2.cons_to_charac
    generalize q.u / q.d = u
    generalize q.v / q.d = v
    ext <;> rops <;> field_simp <;> ring
  · unfold Euler2.charac_to_cons Euler2.cons_to_charac
    generalize q.u / q.d = u
    generalize q.v / q.d = v
    ext <;> rops <;> field_simp <;> ring
  · rfl

/-- **C39, 2D**: characteristic to conservative and back. -/
theorem C39_inverse_2d (dir : Dir) (data q : HState ℝ) (hc : c ≠ 0) (hγ : γ ≠ 1) :
    Euler2.cons_to_charac dir (Euler2.charac_to_cons dir data q c γ) q c γ = data := by
  have hg : γ - 1 ≠ 0 := sub_ne_zero.2 hγ
  cases dir
  · unfold Euler2.charac_to_cons Euler2.cons_to_charac
    generalize q.u / q.d = u
    generalize q.v / q.d = v
    ext <;> rops <;> field_simp <;> ring
  · unfold Euler2.charac_to_cons Euler2.cons_to_charac
    generalize q.u / q.d = u
    generalize q.v / q.d = v
    ext <;> rops <;> field_simp <;> ring
  · rfl

/-- **C39, 3D**: conservative to characteristic and back. -/
theorem C39_roundtrip_3d (dir : Dir) (data q : HState ℝ) (hc : c ≠ 0) (hγ : γ ≠ 1) :
    Euler3.charac_to_cons dir (Euler3.cons_to_charac dir data q c γ) q c γ = data := by
  have hg : γ - 1 ≠ 0 := sub_ne_zero.2 hγ
  unfold Euler3.charac_to_cons Euler3.cons_to_charac
  generalize q.u / q.d = u
  generalize q.v / q.d = v
  generalize q.w / q.d = w
  cases dir <;> ext <;> rops <;> field_simp <;> ring

/-- **C39, 3D**: characteristic to conservative and back. -/
theorem C39_inverse_3d (dir : Dir) (data q : HState ℝ) (hc : c ≠ 0) (hγ : γ ≠ 1) :
    Euler3.cons_to_charac dir (Euler3.charac_to_cons dir data q c γ) q c γ = data := by
  have hg : γ - 1 ≠ 0 := sub_ne_zero.2 hγ
  unfold Euler3.charac_to_cons Euler3.cons_to_charac
  generalize q.u / q.d = u
  generalize q.v / q.d = v
  generalize q.w / q.d = w
  cases dir <;> ext <;> rops <;> field_simp <;> ring

/-- Hypotheses met. -/
example : (2 : ℝ) ≠ 0 ∧ (7 / 5 : ℝ) ≠ 1 := by norm_num

/-! ### C66 -/

theorem hasDerivAt_line (a b : ℝ) : HasDerivAt (fun t : ℝ => a + t * b) b 0 := by
  have h := HasDerivAt.const_add a (HasDerivAt.mul_const (hasDerivAt_id (0 : ℝ)) b)
  rw [one_mul] at h
  exact h

/-- The unfloored pressure of the code is the gas pressure. -/
theorem pressure3_eq {q : HState ℝ} (h : 1 / 10000000 * q.d < gasPressure true γ q) :
    Euler3.compute_pressure q γ = gasPressure true γ q := by
  have e : (γ - 1) * (q.p - 1 / 2 * (q.u * q.u + q.v * q.v + q.w * q.w) / q.d) =
      gasPressure true γ q := by
    unfold gasPressure
    rw [if_pos rfl]
    by_cases hd : q.d = 0
    · simp [hd]
    · field_simp
  unfold Euler3.compute_pressure Euler3.smallp
  rops
  rw [e, if_pos h]

/-- The pressure along a line. -/
theorem pressure3_deriv {q δ : HState ℝ} (hd : 0 < q.d)
    (h : 1 / 10000000 * q.d < gasPressure true γ q) :
    HasDerivAt (fun t => Euler3.compute_pressure (along q δ t) γ)
      ((γ - 1) * (δ.p - (q.u * δ.u + q.v * δ.v + q.w * δ.w) / q.d +
        (q.u ^ 2 + q.v ^ 2 + q.w ^ 2) / (2 * q.d ^ 2) * δ.d)) 0 := by
  have hd' := hd.ne'
  have key : HasDerivAt (fun t => gasPressure true γ (along q δ t))
      ((γ - 1) * (δ.p - (q.u * δ.u + q.v * δ.v + q.w * δ.w) / q.d +
        (q.u ^ 2 + q.v ^ 2 + q.w ^ 2) / (2 * q.d ^ 2) * δ.d)) 0 := by
    have d := HasDerivAt.const_mul 2 (hasDerivAt_line q.d δ.d)
    have e := hasDerivAt_line q.p δ.p
    have u := HasDerivAt.fun_pow (hasDerivAt_line q.u δ.u) 2
    have v := HasDerivAt.fun_pow (hasDerivAt_line q.v δ.v) 2
    have w := HasDerivAt.fun_pow (hasDerivAt_line q.w δ.w) 2
    have n := HasDerivAt.fun_div (HasDerivAt.fun_add (HasDerivAt.fun_add u v) w) d
      (by simpa using hd')
    have r := HasDerivAt.const_mul (γ - 1) (HasDerivAt.fun_sub e n)
    refine HasDerivAt.congr_deriv r ?_
    simp only [zero_mul, add_zero]
    field_simp
    ring
  refine HasDerivAt.congr_of_eventuallyEq key ?_
  have c1 := HasDerivAt.continuousAt key
  have c2 := HasDerivAt.continuousAt
    (HasDerivAt.const_mul (1 / 10000000 : ℝ) (hasDerivAt_line q.d δ.d))
  have lt : 1 / 10000000 * (q.d + 0 * δ.d) < gasPressure true γ (along q δ 0) := by
    simpa [along] using h
  filter_upwards [c2.eventually_lt c1 lt] with t ht
  exact pressure3_eq ht

/-- Derivative of a velocity times a linear function. -/
theorem hasDerivAt_carry {m r : ℝ} (hr : r ≠ 0) (m' r' : ℝ) {f : ℝ → ℝ} {f' : ℝ}
    (hf : HasDerivAt f f' 0) :
    HasDerivAt (fun t : ℝ => (m + t * m') / (r + t * r') * f t)
      ((m' - m / r * r') / r * f 0 + m / r * f') 0 := by
  have k := HasDerivAt.fun_mul
    (HasDerivAt.fun_div (hasDerivAt_line m m') (hasDerivAt_line r r') (by simpa using hr)) hf
  refine HasDerivAt.congr_deriv k ?_
  simp only [zero_mul, add_zero]
  field_simp

/-- **C66, 3D**: the flux of the code, differentiated at a state `q` in any direction `δ` and expressed
in characteristic variables, is `u_n - c`, `u_n`, `u_n`, `u_n`, `u_n + c` times the characteristic variables
of `δ`. -/
theorem C66_waves_3d (dir : Dir) (q δ : HState ℝ) (hd : 0 < q.d)
    (h : 1 / 10000000 * q.d < gasPressure true γ q) (hγ : 1 < γ) (hc : c ≠ 0)
    (hc2 : c ^ 2 = γ * gasPressure true γ q / q.d) :
    ∃ D, DirDeriv (fun q => Euler3.flux dir q (Euler3.compute_pressure q γ)) q δ D ∧
      let un := dir.pick (q.u / q.d) (q.v / q.d) (q.w / q.d)
      let a := Euler3.cons_to_charac dir δ q c γ
      Euler3.cons_to_charac dir D q c γ =
        ⟨(un - c) * a.d, (un + c) * a.p, un * a.u, un * a.v, un * a.w⟩ := by
  have hd' := hd.ne'
  have hg : γ - 1 ≠ 0 := by linarith
  have hγ0 : γ ≠ 0 := by linarith
  have P := pressure3_deriv (δ := δ) hd h
  have a0 : along q δ 0 = q := by
    simp [along]
  have p0 : Euler3.compute_pressure q γ = c ^ 2 * q.d / γ := by
    rw [pressure3_eq h, hc2]
    field_simp
  have E0 : q.p = c ^ 2 * q.d / (γ * (γ - 1)) + (q.u ^ 2 + q.v ^ 2 + q.w ^ 2) / (2 * q.d) := by
    rw [hc2]
    unfold gasPressure
    rw [if_pos rfl]
    field_simp
    ring
  have EP := HasDerivAt.fun_add (hasDerivAt_line q.p δ.p) P
  generalize hdp : (γ - 1) * (δ.p - (q.u * δ.u + q.v * δ.v + q.w * δ.w) / q.d +
        (q.u ^ 2 + q.v ^ 2 + q.w ^ 2) / (2 * q.d ^ 2) * δ.d) = dp at P EP
  cases dir
  · refine ⟨⟨δ.u, _, _, _, _⟩, ⟨hasDerivAt_line _ _, hasDerivAt_carry hd' δ.u δ.d EP,
      HasDerivAt.fun_add (hasDerivAt_carry hd' δ.u δ.d (hasDerivAt_line q.u δ.u)) P,
      hasDerivAt_carry hd' δ.u δ.d (hasDerivAt_line q.v δ.v),
      hasDerivAt_carry hd' δ.u δ.d (hasDerivAt_line q.w δ.w)⟩, ?_⟩
    simp only [p0, a0]
    unfold Euler3.cons_to_charac Dir.pick
    rw [E0, ← hdp]
    obtain ⟨r, E, mu, mv, mw⟩ := q
    obtain ⟨u, rfl⟩ : ∃ u, mu = r * u := ⟨mu / r, by field_simp⟩
    obtain ⟨v, rfl⟩ : ∃ v, mv = r * v := ⟨mv / r, by field_simp⟩
    obtain ⟨w, rfl⟩ : ∃ w, mw = r * w := ⟨mw / r, by field_simp⟩
    clear P EP p0 a0 E0 h hc2 hd hdp
    dsimp only at *
    simp only [mul_div_cancel_left₀ _ hd']
    ext <;> rops <;> field_simp <;> ring
  · refine ⟨⟨δ.v, _, _, _, _⟩, ⟨hasDerivAt_line _ _, hasDerivAt_carry hd' δ.v δ.d EP,
      hasDerivAt_carry hd' δ.v δ.d (hasDerivAt_line q.u δ.u),
      HasDerivAt.fun_add (hasDerivAt_carry hd' δ.v δ.d (hasDerivAt_line q.v δ.v)) P,
      hasDerivAt_carry hd' δ.v δ.d (hasDerivAt_line q.w δ.w)⟩, ?_⟩
    simp only [p0, a0]
    unfold Euler3.cons_to_charac Dir.pick
    rw [E0, ← hdp]
    obtain ⟨r, E, mu, mv, mw⟩ := q
    obtain ⟨u, rfl⟩ : ∃ u, mu = r * u := ⟨mu / r, by field_simp⟩
    obtain ⟨v, rfl⟩ : ∃ v, mv = r * v := ⟨mv / r, by field_simp⟩
    obtain ⟨w, rfl⟩ : ∃ w, mw = r * w := ⟨mw / r, by field_simp⟩
    clear P EP p0 a0 E0 h hc2 hd hdp
    dsimp only at *
    simp only [mul_div_cancel_left₀ _ hd']
    ext <;> rops <;> field_simp <;> ring
  · refine ⟨⟨δ.w, _, _, _, _⟩, ⟨hasDerivAt_line _ _, hasDerivAt_carry hd' δ.w δ.d EP,
      hasDerivAt_carry hd' δ.w δ.d (hasDerivAt_line q.u δ.u),
      hasDerivAt_carry hd' δ.w δ.d (hasDerivAt_line q.v δ.v),
      HasDerivAt.fun_add (hasDerivAt_carry hd' δ.w δ.d (hasDerivAt_line q.w δ.w)) P⟩, ?_⟩
    simp only [p0, a0]
    unfold Euler3.cons_to_charac Dir.pick
    rw [E0, ← hdp]
    obtain ⟨r, E, mu, mv, mw⟩ := q
    obtain ⟨u, rfl⟩ : ∃ u, mu = r * u := ⟨mu / r, by field_simp⟩
    obtain ⟨v, rfl⟩ : ∃ v, mv = r * v := ⟨mv / r, by field_simp⟩
    obtain ⟨w, rfl⟩ : ∃ w, mw = r * w := ⟨mw / r, by field_simp⟩
    clear P EP p0 a0 E0 h hc2 hd hdp
    dsimp only at *
    simp only [mul_div_cancel_left₀ _ hd']
    ext <;> rops <;> field_simp <;> ring

/-- Hypotheses met: gas at density 1, pressure 1, moving at unit speed, `γ = 7/5`. -/
example : let q : HState ℝ := ⟨1, 3, 1, 0, 0⟩
    0 < q.d ∧ 1 / 10000000 * q.d < gasPressure true (7 / 5) q ∧
      (Real.sqrt (7 / 5)) ^ 2 = 7 / 5 * gasPressure true (7 / 5) q / q.d := by
  rw [Real.sq_sqrt (by norm_num)]
  norm_num [gasPressure]

/-- The unfloored pressure of the code is the gas pressure. -/
theorem pressure2_eq {q : HState ℝ} (h : 1 / 10000000 * q.d < gasPressure false γ q) :
    Euler2.compute_pressure q γ = gasPressure false γ q := by
  have e : (γ - 1) * (q.p - 1 / 2 * (q.u * q.u + q.v * q.v) / q.d) = gasPressure false γ q := by
    unfold gasPressure
    rw [if_neg (by decide)]
    by_cases hd : q.d = 0
    · simp [hd]
    · field_simp
      ring
  unfold Euler2.compute_pressure Euler2.smallp
  rops
  rw [e, if_pos h]

/-- The pressure along a line. -/
theorem pressure2_deriv {q δ : HState ℝ} (hd : 0 < q.d)
    (h : 1 / 10000000 * q.d < gasPressure false γ q) :
    HasDerivAt (fun t => Euler2.compute_pressure (along q δ t) γ)
      ((γ - 1) * (δ.p - (q.u * δ.u + q.v * δ.v) / q.d +
        (q.u ^ 2 + q.v ^ 2) / (2 * q.d ^ 2) * δ.d)) 0 := by
  have hd' := hd.ne'
  have key : HasDerivAt (fun t => gasPressure false γ (along q δ t))
      ((γ - 1) * (δ.p - (q.u * δ.u + q.v * δ.v) / q.d +
        (q.u ^ 2 + q.v ^ 2) / (2 * q.d ^ 2) * δ.d)) 0 := by
    have d := HasDerivAt.const_mul 2 (hasDerivAt_line q.d δ.d)
    have e := hasDerivAt_line q.p δ.p
    have u := HasDerivAt.fun_pow (hasDerivAt_line q.u δ.u) 2
    have v := HasDerivAt.fun_pow (hasDerivAt_line q.v δ.v) 2
    have n := HasDerivAt.fun_div
      (HasDerivAt.fun_add (HasDerivAt.fun_add u v) (hasDerivAt_const (0 : ℝ) (0 : ℝ))) d
      (by simpa using hd')
    have r := HasDerivAt.const_mul (γ - 1) (HasDerivAt.fun_sub e n)
    refine HasDerivAt.congr_deriv r ?_
    simp only [zero_mul, add_zero]
    field_simp
    ring
  refine HasDerivAt.congr_of_eventuallyEq key ?_
  have c1 := HasDerivAt.continuousAt key
  have c2 := HasDerivAt.continuousAt
    (HasDerivAt.const_mul (1 / 10000000 : ℝ) (hasDerivAt_line q.d δ.d))
  have lt : 1 / 10000000 * (q.d + 0 * δ.d) < gasPressure false γ (along q δ 0) := by
    simpa [along] using h
  filter_upwards [c2.eventually_lt c1 lt] with t ht
  exact pressure2_eq ht

/-- Derivative of a product of momenta over the density. -/
theorem hasDerivAt_carry2 {m r : ℝ} (hr : r ≠ 0) (m' r' n n' : ℝ) :
    HasDerivAt (fun t : ℝ => (m + t * m') * (n + t * n') / (r + t * r'))
      ((m' - m / r * r') / r * n + m / r * n') 0 := by
  have k := hasDerivAt_carry (m := m) hr m' r' (hasDerivAt_line n n')
  simp only [zero_mul, add_zero] at k
  convert k using 2
  rw [div_mul_eq_mul_div]

/-- **C66, 2D**: as in 3D, for the x and y directions and the four 2D variables. -/
theorem C66_waves_2d (dir : Dir) (hdir : dir ≠ Dir.z) (q δ : HState ℝ) (hd : 0 < q.d)
    (h : 1 / 10000000 * q.d < gasPressure false γ q) (hγ : 1 < γ) (hc : c ≠ 0)
    (hc2 : c ^ 2 = γ * gasPressure false γ q / q.d) :
    ∃ D, DirDeriv (fun q => Euler2.flux dir q (Euler2.compute_pressure q γ)) q δ D ∧
      let un := dir.pick (q.u / q.d) (q.v / q.d) (q.w / q.d)
      let a := Euler2.cons_to_charac dir δ q c γ
      let b := Euler2.cons_to_charac dir D q c γ
      b.d = (un - c) * a.d ∧ b.u = un * a.u ∧ b.v = un * a.v ∧ b.p = (un + c) * a.p := by
  have hd' := hd.ne'
  have hg : γ - 1 ≠ 0 := by linarith
  have hγ0 : γ ≠ 0 := by linarith
  have P := pressure2_deriv (δ := δ) hd h
  have a0 : along q δ 0 = q := by
    simp [along]
  have p0 : Euler2.compute_pressure q γ = c ^ 2 * q.d / γ := by
    rw [pressure2_eq h, hc2]
    field_simp
  have E0 : q.p = c ^ 2 * q.d / (γ * (γ - 1)) + (q.u ^ 2 + q.v ^ 2) / (2 * q.d) := by
    rw [hc2]
    unfold gasPressure
    rw [if_neg (by decide)]
    field_simp
    ring
  have EP := HasDerivAt.fun_add (hasDerivAt_line q.p δ.p) P
  generalize hdp : (γ - 1) * (δ.p - (q.u * δ.u + q.v * δ.v) / q.d +
        (q.u ^ 2 + q.v ^ 2) / (2 * q.d ^ 2) * δ.d) = dp at P EP
  cases dir
  · refine ⟨⟨δ.u, _, _, _, 0⟩, ⟨hasDerivAt_line _ _, hasDerivAt_carry hd' δ.u δ.d EP,
      HasDerivAt.fun_add (hasDerivAt_carry2 hd' δ.u δ.d q.u δ.u) P,
      hasDerivAt_carry2 hd' δ.u δ.d q.v δ.v, hasDerivAt_const _ _⟩, ?_⟩
    simp only [p0, a0]
    unfold Euler2.cons_to_charac Dir.pick
    rw [E0, ← hdp]
    obtain ⟨r, E, mu, mv, mw⟩ := q
    obtain ⟨u, rfl⟩ : ∃ u, mu = r * u := ⟨mu / r, by field_simp⟩
    obtain ⟨v, rfl⟩ : ∃ v, mv = r * v := ⟨mv / r, by field_simp⟩
    clear P EP p0 a0 E0 h hc2 hd hdp
    dsimp only at *
    simp only [mul_div_cancel_left₀ _ hd']
    refine ⟨?_, ?_, ?_, ?_⟩ <;> rops <;> field_simp <;> ring
  · refine ⟨⟨δ.v, _, _, _, 0⟩, ⟨hasDerivAt_line _ _, hasDerivAt_carry hd' δ.v δ.d EP,
      hasDerivAt_carry2 hd' δ.v δ.d q.u δ.u,
      HasDerivAt.fun_add (hasDerivAt_carry2 hd' δ.v δ.d q.v δ.v) P, hasDerivAt_const _ _⟩, ?_⟩
    simp only [p0, a0]
    unfold Euler2.cons_to_charac Dir.pick
    rw [E0, ← hdp]
    obtain ⟨r, E, mu, mv, mw⟩ := q
    obtain ⟨u, rfl⟩ : ∃ u, mu = r * u := ⟨mu / r, by field_simp⟩
    obtain ⟨v, rfl⟩ : ∃ v, mv = r * v := ⟨mv / r, by field_simp⟩
    clear P EP p0 a0 E0 h hc2 hd hdp
    dsimp only at *
    simp only [mul_div_cancel_left₀ _ hd']
    refine ⟨?_, ?_, ?_, ?_⟩ <;> rops <;> field_simp <;> ring
  · exact absurd rfl hdir

/-- Hypotheses met. -/
example : let q : HState ℝ := ⟨1, 3, 1, 0, 0⟩
    Dir.y ≠ Dir.z ∧ 0 < q.d ∧ 1 / 10000000 * q.d < gasPressure false (7 / 5) q ∧
      (Real.sqrt (7 / 5)) ^ 2 = 7 / 5 * gasPressure false (7 / 5) q / q.d := by
  rw [Real.sq_sqrt (by norm_num)]
  refine ⟨by decide, ?_⟩
  norm_num [gasPressure]

/-! ### C67 -/

/-- **C67, 2D conversions**: on a gas above the floors, the conversion to primitive variables inverts the
definition of the conserved quantities, and `compute_pressure` agrees with it. -/
theorem C67_primitive_2d (r : HState ℝ) (hγ : 1 < γ) (hd : 1 / 100000000 ≤ r.d)
    (hp : 1 / 10000000 * r.d ≤ r.p) :
    Euler2.convert_to_primitive (conserved false γ r) γ = { r with w := 0 } ∧
      Euler2.compute_pressure (conserved false γ r) γ = r.p := by
  have hd' : r.d ≠ 0 := by
    intro h
    rw [h] at hd
    norm_num at hd
  have hg : γ - 1 ≠ 0 := by linarith
  have e : (γ - 1) * (energy false γ r -
      1 / 2 * (r.d * r.u * (r.d * r.u) + r.d * r.v * (r.d * r.v)) / r.d) = r.p := by
    unfold energy
    rw [if_neg (by decide)]
    field_simp
    ring
  have e2 : (γ - 1) * (energy false γ r -
      1 / 2 * (r.d * r.u * (r.d * r.u) + r.d * r.v * (r.d * r.v)) / max r.d (1 / 100000000)) = r.p := by
    rw [max_eq_left hd]
    exact e
  constructor
  · unfold Euler2.convert_to_primitive Euler2.smallp conserved
    rops
    rw [e2, max_eq_left hd, max_eq_left hp, mul_div_cancel_left₀ _ hd', mul_div_cancel_left₀ _ hd']
  · unfold Euler2.compute_pressure Euler2.smallp conserved
    rops
    rw [e]
    split
    · rfl
    · linarith

/-- **C67, 3D conversions**. -/
theorem C67_primitive_3d (r : HState ℝ) (hγ : 1 < γ) (hd : 0 < r.d)
    (hp : 1 / 10000000 * r.d ≤ r.p) :
    Euler3.convert_to_primitive (conserved true γ r) γ = r ∧
      Euler3.compute_pressure (conserved true γ r) γ = r.p := by
  have hd' : r.d ≠ 0 := hd.ne'
  have hg : γ - 1 ≠ 0 := by linarith
  have e : (γ - 1) * (energy true γ r - 1 / 2 * (r.d * r.u * (r.d * r.u) + r.d * r.v * (r.d * r.v) +
      r.d * r.w * (r.d * r.w)) / r.d) = r.p := by
    unfold energy
    rw [if_pos rfl]
    field_simp
    ring
  constructor
  · unfold Euler3.convert_to_primitive Euler3.smallp conserved
    rops
    simp only [if_true]
    rw [e, max_eq_left hp, mul_div_cancel_left₀ _ hd', mul_div_cancel_left₀ _ hd',
      mul_div_cancel_left₀ _ hd']
  · unfold Euler3.compute_pressure Euler3.smallp conserved
    rops
    simp only [if_true]
    rw [e]
    split
    · rfl
    · linarith

/-- **C67, 3D positivity**: whatever the energy and momenta, a positive density gives a positive pressure in
both functions, and the two functions agree. -/
theorem C67_pressure_positive_3d (q : HState ℝ) (hd : 0 < q.d) :
    Euler3.compute_pressure q γ = (Euler3.convert_to_primitive q γ).p ∧
      0 < Euler3.compute_pressure q γ := by
  have f : 0 < 1 / 10000000 * q.d := by positivity
  unfold Euler3.compute_pressure Euler3.convert_to_primitive Euler3.smallp
  rops
  constructor
  · split
    · rename_i h
      rw [max_eq_left h.le]
    · rename_i h
      rw [max_eq_right (not_lt.1 h)]
  · split
    · rename_i h
      exact f.trans h
    · exact f

/-- **C67, 2D**: the conversion floors the density where `compute_pressure` does not, so the two functions
disagree on a thin gas. -/
theorem C67_pressure_disagrees_2d : ∃ q : HState ℝ, 0 < q.d ∧
    Euler2.compute_pressure q (7 / 5) ≠ (Euler2.convert_to_primitive q (7 / 5)).p := by
  refine ⟨⟨1 / 1000000000, 1, 1 / 100000, 0, 0⟩, by norm_num, ?_⟩
  unfold Euler2.compute_pressure Euler2.convert_to_primitive Euler2.smallp
  rops
  norm_num

/-- **C67, fluxes**: the flux functions compute the Euler flux. -/
theorem C67_flux_3d (dir : Dir) (r : HState ℝ) (hd : r.d ≠ 0) :
    Euler3.flux dir (conserved true γ r) r.p = fluxAlong true γ dir r := by
  unfold Euler3.flux conserved fluxAlong Dir.pick
  cases dir <;> ext <;> simp <;> field_simp

/-- **C67, fluxes**: 2D. -/
theorem C67_flux_2d (dir : Dir) (hdir : dir ≠ Dir.z) (r : HState ℝ) (hd : r.d ≠ 0) :
    Euler2.flux dir (conserved false γ r) r.p = fluxAlong false γ dir r := by
  unfold Euler2.flux conserved fluxAlong Dir.pick
  cases dir
  · ext <;> rops <;> (try simp) <;> field_simp
  · ext <;> rops <;> (try simp) <;> field_simp
  · exact absurd rfl hdir

/-- **C67, sound speed**: `compute_speed_of_sound` returns the square of the sound speed. -/
theorem C67_sound_speed_squared (w : HState ℝ) (hγ : 1 < γ) (hd : 0 < w.d) (hp : 0 < w.p) :
    Euler2.compute_speed_of_sound w γ = soundSpeed γ w ^ 2 ∧
      Euler3.compute_speed_of_sound w γ = soundSpeed γ w ^ 2 := by
  have : 0 ≤ γ * w.p / w.d := by positivity
  unfold soundSpeed Euler2.compute_speed_of_sound Euler3.compute_speed_of_sound
  rw [Real.sq_sqrt this, mul_comm]
  exact ⟨rfl, rfl⟩

/-- **C67, sound speed**: it is below the sound speed in every gas whose sound speed is below one, and above it
in every gas whose sound speed is above one. -/
theorem C67_sound_speed_wrong (w : HState ℝ) (hγ : 1 < γ) (hd : 0 < w.d) (hp : 0 < w.p) :
    (soundSpeed γ w < 1 → Euler3.compute_speed_of_sound w γ < soundSpeed γ w) ∧
      (1 < soundSpeed γ w → soundSpeed γ w < Euler3.compute_speed_of_sound w γ) := by
  have : 0 < soundSpeed γ w := Real.sqrt_pos.2 (by positivity)
  rw [(C67_sound_speed_squared w hγ hd hp).2]
  constructor <;> intro h <;> nlinarith

/-- Hypotheses met by gases with sound speed `1/2` and `2`. -/
example : soundSpeed (7 / 5 : ℝ) ⟨28 / 5, 1, 0, 0, 0⟩ = 1 / 2 ∧
    soundSpeed (7 / 5 : ℝ) ⟨7 / 20, 1, 0, 0, 0⟩ = 2 := by
  unfold soundSpeed
  constructor <;> rw [Real.sqrt_eq_iff_mul_self_eq] <;> norm_num

/-! ### C68 -/

/-- **C68, 3D**: the viscous flux in each direction is that row of the viscous stress tensor, and the energy
flux is the power of the stress plus the heat term. -/
theorem C68_stress_3d (dir : Dir) (g : GradTensor ℝ) (v f : Vec3 ℝ) (mu : ℝ) :
    Euler3.flux_visc dir g v f mu =
      { d := 0
        u := stress 3 mu g .x dir
        v := stress 3 mu g .y dir
        w := stress 3 mu g .z dir
        p := v.x * stress 3 mu g .x dir + v.y * stress 3 mu g .y dir + v.z * stress 3 mu g .z dir +
          dir.pick f.x f.y f.z } := by
  unfold Euler3.flux_visc
  cases dir <;> ext <;> rops <;> simp [stress, trace, grad, Dir.pick] <;> ring_nf <;> simp

/-- **C68, 2D**: gradients have no z components. -/
theorem C68_stress_2d (dir : Dir) (hdir : dir ≠ Dir.z) (g : GradTensor ℝ) (v f : Vec3 ℝ) (mu : ℝ)
    (hg : g.wz = 0) :
    Euler2.flux_visc dir g v f mu =
      { d := 0
        u := stress 2 mu g .x dir
        v := stress 2 mu g .y dir
        w := 0
        p := v.x * stress 2 mu g .x dir + v.y * stress 2 mu g .y dir + dir.pick f.x f.y f.z } := by
  unfold Euler2.flux_visc
  cases dir
  · ext <;> rops <;> simp [stress, trace, grad, Dir.pick, hg] <;> ring_nf <;> simp
  · ext <;> rops <;> simp [stress, trace, grad, Dir.pick, hg] <;> ring_nf <;> simp
  · exact absurd rfl hdir

/-- **C68, 3D**: the stress the code computes is symmetric and without trace. -/
theorem C68_symmetric_3d (g : GradTensor ℝ) (v f : Vec3 ℝ) (mu : ℝ) :
    let X := Euler3.flux_visc .x g v f mu
    let Y := Euler3.flux_visc .y g v f mu
    let Z := Euler3.flux_visc .z g v f mu
    X.v = Y.u ∧ X.w = Z.u ∧ Y.w = Z.v ∧ X.u + Y.v + Z.w = 0 := by
  unfold Euler3.flux_visc
  rops
  refine ⟨?_, ?_, ?_, ?_⟩ <;> ring

/-- **C68, 2D**. -/
theorem C68_symmetric_2d (g : GradTensor ℝ) (v f : Vec3 ℝ) (mu : ℝ) :
    let X := Euler2.flux_visc .x g v f mu
    let Y := Euler2.flux_visc .y g v f mu
    X.v = Y.u ∧ X.u + Y.v = 0 := by
  unfold Euler2.flux_visc
  rops
  refine ⟨trivial, ?_⟩
  ring

/-- **C68, 3D**: viscosity heats: the work of the stress on any velocity gradient is not negative. -/
theorem C68_dissipates_3d (g : GradTensor ℝ) (v f : Vec3 ℝ) {mu : ℝ} (hmu : 0 ≤ mu) :
    let X := Euler3.flux_visc .x g v f mu
    let Y := Euler3.flux_visc .y g v f mu
    let Z := Euler3.flux_visc .z g v f mu
    0 ≤ g.ux * X.u + g.vx * X.v + g.wx * X.w + (g.uy * Y.u + g.vy * Y.v + g.wy * Y.w) +
      (g.uz * Z.u + g.vz * Z.v + g.wz * Z.w) := by
  unfold Euler3.flux_visc
  rops
  have k : 0 ≤ mu * ((g.vx + g.uy) ^ 2 + (g.wx + g.uz) ^ 2 + (g.wy + g.vz) ^ 2 +
      2 / 3 * ((g.ux - g.vy) ^ 2 + (g.vy - g.wz) ^ 2 + (g.wz - g.ux) ^ 2)) := by positivity
  refine k.trans_eq ?_
  ring

/-- **C68, 2D**. -/
theorem C68_dissipates_2d (g : GradTensor ℝ) (v f : Vec3 ℝ) {mu : ℝ} (hmu : 0 ≤ mu) :
    let X := Euler2.flux_visc .x g v f mu
    let Y := Euler2.flux_visc .y g v f mu
    0 ≤ g.ux * X.u + g.vx * X.v + (g.uy * Y.u + g.vy * Y.v) := by
  unfold Euler2.flux_visc
  rops
  have k : 0 ≤ mu * ((g.vx + g.uy) ^ 2 + (g.ux - g.vy) ^ 2) := by positivity
  refine k.trans_eq ?_
  ring

/-- **C68, 3D**: a rigid rotation (antisymmetric gradient) has no viscous momentum flux. -/
theorem C68_rigid_3d (dir : Dir) (a b e : ℝ) (v f : Vec3 ℝ) (mu : ℝ) :
    let X := Euler3.flux_visc dir ⟨0, -a, b, a, 0, -e, -b, e, 0⟩ v f mu
    X.u = 0 ∧ X.v = 0 ∧ X.w = 0 ∧ X.p = dir.pick f.x f.y f.z := by
  unfold Euler3.flux_visc Dir.pick
  cases dir <;> rops <;> refine ⟨?_, ?_, ?_, ?_⟩ <;> ring

/-- Hypotheses met. -/
example : (0 : ℝ) ≤ 1 / 10 ∧ Dir.x ≠ Dir.z ∧ (⟨1, 2, 0, 3, 4, 0, 0, 0, 0⟩ : GradTensor ℝ).wz = 0 := by
  refine ⟨by norm_num, by decide, rfl⟩

end Verif
