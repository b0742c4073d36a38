import Verif.Spec.MhdWave
import Mathlib.Analysis.Calculus.Deriv.Add
import Mathlib.Analysis.Calculus.Deriv.Mul
import Mathlib.Analysis.Calculus.Deriv.Inv
import Mathlib.Analysis.Calculus.Deriv.Pow
import Mathlib.Tactic.FieldSimp
import Mathlib.Tactic.LinearCombination

/-! Derivative of the flux of ideal MHD at a gas of density 1 that flows along the first axis. -/

namespace Verif

open Spec

/-- Derivative of the pressure. -/
noncomputable def waveDp (γ V b c : ℝ) (δ : MState ℝ) : ℝ :=
  (γ - 1) * (δ.p - V * δ.u + V ^ 2 * δ.d / 2 - b * δ.b - c * δ.c)

/-- Derivative of the flux. -/
noncomputable def waveD (γ p V a b c : ℝ) (δ : MState ℝ) : MState ℝ where
  d := δ.u
  p := (δ.p + waveDp γ V b c δ + b * δ.b + c * δ.c) * V +
    (p / (γ - 1) + V ^ 2 / 2 + p + (a ^ 2 + b ^ 2 + c ^ 2)) * (δ.u - V * δ.d) -
    a * (a * (δ.u - V * δ.d) + b * δ.v + c * δ.w)
  u := 2 * V * δ.u - V ^ 2 * δ.d + waveDp γ V b c δ + b * δ.b + c * δ.c
  v := V * δ.v - a * δ.b
  w := V * δ.w - a * δ.c
  a := 0
  b := V * δ.b + b * (δ.u - V * δ.d) - a * δ.v
  c := V * δ.c + c * (δ.u - V * δ.d) - a * δ.w

section rules

variable {f g : ℝ → ℝ} {f' g' : ℝ}

theorem d_lin (x y : ℝ) : HasDerivAt (fun t : ℝ => x + t * y) y 0 := by
  have := ((hasDerivAt_id (0 : ℝ)).mul_const y)
  rw [one_mul] at this
  exact HasDerivAt.const_add x this
theorem d_add (hf : HasDerivAt f f' 0) (hg : HasDerivAt g g' 0) : HasDerivAt (fun t => f t + g t) (f' + g') 0 :=
  HasDerivAt.add hf hg
theorem d_sub (hf : HasDerivAt f f' 0) (hg : HasDerivAt g g' 0) : HasDerivAt (fun t => f t - g t) (f' - g') 0 :=
  HasDerivAt.sub hf hg
theorem d_mul (hf : HasDerivAt f f' 0) (hg : HasDerivAt g g' 0) :
    HasDerivAt (fun t => f t * g t) (f' * g 0 + f 0 * g') 0 :=
  HasDerivAt.mul hf hg
theorem d_sq (hf : HasDerivAt f f' 0) : HasDerivAt (fun t => f t ^ 2) (2 * f 0 * f') 0 := by
  have := HasDerivAt.pow hf 2
  simpa using! this
theorem d_div (hf : HasDerivAt f f' 0) (hg : HasDerivAt g g' 0) (h : g 0 ≠ 0) :
    HasDerivAt (fun t => f t / g t) ((f' * g 0 - f 0 * g') / g 0 ^ 2) 0 :=
  HasDerivAt.div hf hg h
theorem d_const (x : ℝ) : HasDerivAt (fun _ : ℝ => x) 0 0 := hasDerivAt_const _ _

end rules

theorem fluxDeriv_wave {γ : ℝ} (hγ : γ - 1 ≠ 0) (p V a b c : ℝ) {δ : MState ℝ} (h0 : δ.a = 0) :
    FluxDeriv γ (mhdConserved γ ⟨1, p, V, 0, 0, a, b, c⟩) δ (waveD γ p V a b c δ) := by
  set U := mhdConserved γ ⟨1, p, V, 0, 0, a, b, c⟩ with hU
  have eU : U = ⟨1, p / (γ - 1) + V ^ 2 / 2 + (a ^ 2 + b ^ 2 + c ^ 2) / 2, V, 0, 0, a, b, c⟩ := by
    rw [hU]
    simp only [mhdConserved, mhdEnergy, fieldSq, MState.mk.injEq]
    refine ⟨trivial, ?_, ?_, ?_, ?_, trivial, trivial, trivial⟩ <;> ring
  have hne : U.d + 0 * δ.d ≠ 0 := by rw [eU]; norm_num
  have hρ := d_lin U.d δ.d
  have hmx := d_lin U.u δ.u
  have hmy := d_lin U.v δ.v
  have hmz := d_lin U.w δ.w
  have hE := d_lin U.p δ.p
  have ha := d_lin U.a δ.a
  have hb := d_lin U.b δ.b
  have hc := d_lin U.c δ.c
  have hu := d_div hmx hρ hne
  have hv := d_div hmy hρ hne
  have hw := d_div hmz hρ hne
  have hB := d_add (d_add (d_sq ha) (d_sq hb)) (d_sq hc)
  have hB2 := d_div hB (d_const 2) (by norm_num)
  have hK := d_div (d_add (d_add (d_sq hmx) (d_sq hmy)) (d_sq hmz)) (d_mul (d_const 2) hρ)
    (mul_ne_zero two_ne_zero hne)
  have hp := d_mul (d_const (γ - 1)) (d_sub (d_sub hE hK) hB2)
  have hvB := d_add (d_add (d_mul hu ha) (d_mul hv hb)) (d_mul hw hc)
  have hen := d_add (d_add (d_div hp (d_const (γ - 1)) hγ) (d_div (d_mul hρ (d_add (d_add (d_sq hu) (d_sq hv))
    (d_sq hw))) (d_const 2) (by norm_num))) hB2
  constructor
  · refine (d_mul hρ hu).congr_deriv ?_
    simp only [eU, waveD]; ring
  · refine (d_sub (d_mul (d_add (d_add hen hp) hB2) hu) (d_mul ha hvB)).congr_deriv ?_
    simp only [eU, waveD, waveDp, h0]; field_simp; ring
  · refine (d_sub (d_add (d_add (d_mul hρ (d_sq hu)) hp) hB2) (d_sq ha)).congr_deriv ?_
    simp only [eU, waveD, waveDp, h0]; field_simp; ring
  · refine (d_sub (d_mul (d_mul hρ hu) hv) (d_mul ha hb)).congr_deriv ?_
    simp only [eU, waveD, h0]; ring
  · refine (d_sub (d_mul (d_mul hρ hu) hw) (d_mul ha hc)).congr_deriv ?_
    simp only [eU, waveD, h0]; ring
  · exact hasDerivAt_const _ _
  · refine (d_sub (d_mul hu hb) (d_mul hv ha)).congr_deriv ?_
    simp only [eU, waveD, h0]; ring
  · refine (d_sub (d_mul hu hc) (d_mul hw ha)).congr_deriv ?_
    simp only [eU, waveD, h0]; ring

end Verif
