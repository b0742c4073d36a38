import Verif.Spec.Euler2
import Verif.Props.C102_InitHydro
import Mathlib.Analysis.SpecialFunctions.Pow.Deriv
import Mathlib.Analysis.SpecialFunctions.Log.Deriv
import Mathlib.Analysis.SpecialFunctions.Sqrt
import Mathlib.Analysis.Complex.ExponentialBounds
import Mathlib.Analysis.Real.Pi.Bounds

/-! # C104: the vortices are exact solutions of the Euler equations -/

namespace Verif

open Spec ROps TOps

variable {S : Settings ℝ} {P : Grid} {D : Domain ℝ} {B : Sides} {m m' : Addr → ℝ}

section helpers

/-- Flow with circular streamlines around a centre that moves with velocity `(ua, va)`. -/
def rotGas (R W Q : ℝ → ℝ) (ua va a b : ℝ) : PointGas :=
  ⟨R (a ^ 2 + b ^ 2), Q (a ^ 2 + b ^ 2), ua - b * W (a ^ 2 + b ^ 2), va + a * W (a ^ 2 + b ^ 2), 0⟩

/-- Derivatives of the primitive variables give those of the conserved ones and the fluxes. -/
theorem derivs_of_prim {γ : ℝ} {f : ℝ → PointGas} {r q u v x : ℝ} (hr : HasDerivAt (fun x => (f x).rho) r x)
    (hq : HasDerivAt (fun x => (f x).p) q x) (hu : HasDerivAt (fun x => (f x).u) u x)
    (hv : HasDerivAt (fun x => (f x).v) v x) (hw : ∀ x, (f x).w = 0) :
    HasDeriv4 (fun x => (f x).conserved γ)
      ⟨r, q / (γ - 1) + (r * ((f x).u * (f x).u + (f x).v * (f x).v) +
          (f x).rho * (u * (f x).u + (f x).u * u + (v * (f x).v + (f x).v * v))) / 2,
        r * (f x).u + (f x).rho * u, r * (f x).v + (f x).rho * v, 0⟩ x := by
  have hE : (fun x => ((f x).conserved γ).p) = fun x => (f x).p / (γ - 1) +
      (f x).rho * ((f x).u * (f x).u + (f x).v * (f x).v) / 2 := by
    funext x; simp only [PointGas.conserved, hw]; ring
  refine ⟨hr, ?_, hr.mul hu, hr.mul hv⟩
  show HasDerivAt (fun x => ((f x).conserved γ).p) _ x
  rw [hE]
  exact (hq.div_const _).add ((hr.mul ((hu.mul hu).add (hv.mul hv))).div_const 2)

/-- Derivatives of the primitive variables along a line. -/
structure PrimDeriv (f : ℝ → PointGas) (x : ℝ) (r q u v : ℝ) : Prop where
  rho : HasDerivAt (fun x => (f x).rho) r x
  p : HasDerivAt (fun x => (f x).p) q x
  u : HasDerivAt (fun x => (f x).u) u x
  v : HasDerivAt (fun x => (f x).v) v x
  w : ∀ x, (f x).w = 0

theorem fluxX_deriv {γ : ℝ} {f : ℝ → PointGas} {r q u v x : ℝ} (h : PrimDeriv f x r q u v) :
    HasDeriv4 (fun x => (f x).fluxX γ)
      ⟨r * (f x).u + (f x).rho * u,
        ((q / (γ - 1) + (r * ((f x).u * (f x).u + (f x).v * (f x).v) +
          (f x).rho * (u * (f x).u + (f x).u * u + (v * (f x).v + (f x).v * v))) / 2) + q) * (f x).u +
          (((f x).conserved γ).p + (f x).p) * u,
        (r * (f x).u + (f x).rho * u) * (f x).u + (f x).rho * (f x).u * u + q,
        (r * (f x).u + (f x).rho * u) * (f x).v + (f x).rho * (f x).u * v, 0⟩ x := by
  obtain ⟨-, hE, -, -⟩ := derivs_of_prim (γ := γ) h.rho h.p h.u h.v h.w
  exact ⟨h.rho.mul h.u, (hE.add h.p).mul h.u, ((h.rho.mul h.u).mul h.u).add h.p, (h.rho.mul h.u).mul h.v⟩

theorem fluxY_deriv {γ : ℝ} {f : ℝ → PointGas} {r q u v x : ℝ} (h : PrimDeriv f x r q u v) :
    HasDeriv4 (fun x => (f x).fluxY γ)
      ⟨r * (f x).v + (f x).rho * v,
        ((q / (γ - 1) + (r * ((f x).u * (f x).u + (f x).v * (f x).v) +
          (f x).rho * (u * (f x).u + (f x).u * u + (v * (f x).v + (f x).v * v))) / 2) + q) * (f x).v +
          (((f x).conserved γ).p + (f x).p) * v,
        (r * (f x).v + (f x).rho * v) * (f x).u + (f x).rho * (f x).v * u,
        (r * (f x).v + (f x).rho * v) * (f x).v + (f x).rho * (f x).v * v + q, 0⟩ x := by
  obtain ⟨-, hE, -, -⟩ := derivs_of_prim (γ := γ) h.rho h.p h.u h.v h.w
  exact ⟨h.rho.mul h.v, (hE.add h.p).mul h.v, (h.rho.mul h.v).mul h.u, ((h.rho.mul h.v).mul h.v).add h.p⟩

/-- The equations for the primitive variables imply those in conservation form. -/
theorem euler_of_prim {γ : ℝ} (hγ : γ ≠ 1) {s : ℝ → ℝ → ℝ → PointGas} {t x y : ℝ}
    {r0 q0 u0 v0 r1 q1 u1 v1 r2 q2 u2 v2 : ℝ}
    (h0 : PrimDeriv (fun τ => s τ x y) t r0 q0 u0 v0) (h1 : PrimDeriv (fun ξ => s t ξ y) x r1 q1 u1 v1)
    (h2 : PrimDeriv (fun η => s t x η) y r2 q2 u2 v2)
    (e1 : r0 + (s t x y).u * r1 + (s t x y).v * r2 + (s t x y).rho * (u1 + v2) = 0)
    (e2 : (s t x y).rho * (u0 + (s t x y).u * u1 + (s t x y).v * u2) + q1 = 0)
    (e3 : (s t x y).rho * (v0 + (s t x y).u * v1 + (s t x y).v * v2) + q2 = 0)
    (e4 : q0 + (s t x y).u * q1 + (s t x y).v * q2 + γ * (s t x y).p * (u1 + v2) = 0) :
    Euler2At γ s t x y := by
  refine ⟨_, _, _, derivs_of_prim h0.rho h0.p h0.u h0.v h0.w, fluxX_deriv h1, fluxY_deriv h2, ?_, ?_, ?_, ?_⟩
  · linear_combination e1
  · have hw : (s t x y).w = 0 := h0.w t
    have hγ' : γ - 1 ≠ 0 := sub_ne_zero.2 hγ
    simp only [PointGas.conserved, hw]
    generalize (s t x y).rho = R at *
    generalize (s t x y).p = Q at *
    generalize (s t x y).u = U at *
    generalize (s t x y).v = V at *
    have : (q0 + U * q1 + V * q2 + γ * Q * (u1 + v2)) / (γ - 1) = 0 := by rw [e4, zero_div]
    have e5 : (q0 + U * q1 + V * q2 + γ * Q * (u1 + v2)) / (γ - 1) =
        q0 / (γ - 1) + q1 / (γ - 1) * U + q2 / (γ - 1) * V + (Q / (γ - 1) + Q) * (u1 + v2) := by
      field_simp; ring
    rw [e5] at this
    linear_combination this + (U * U + V * V) / 2 * e1 + U * e2 + V * e3
  · linear_combination (s t x y).u * e1 + e2
  · linear_combination (s t x y).v * e1 + e3

/-- Circular flows in radial balance. -/
theorem rot_euler {γ : ℝ} (hγ : γ ≠ 1) {R W Q : ℝ → ℝ} {ua va cx cy : ℝ} {s : ℝ → ℝ → ℝ → PointGas}
    {O : Set ℝ} (hO : IsOpen O) {t x y r' w' q' : ℝ}
    (hs : ∀ t x y, (x - cx - ua * t) ^ 2 + (y - cy - va * t) ^ 2 ∈ O →
      s t x y = rotGas R W Q ua va (x - cx - ua * t) (y - cy - va * t))
    (hsw : ∀ t x y, (s t x y).w = 0)
    (hm : (x - cx - ua * t) ^ 2 + (y - cy - va * t) ^ 2 ∈ O)
    (hR : HasDerivAt R r' ((x - cx - ua * t) ^ 2 + (y - cy - va * t) ^ 2))
    (hW : HasDerivAt W w' ((x - cx - ua * t) ^ 2 + (y - cy - va * t) ^ 2))
    (hQ : HasDerivAt Q q' ((x - cx - ua * t) ^ 2 + (y - cy - va * t) ^ 2))
    (hb : 2 * q' = R ((x - cx - ua * t) ^ 2 + (y - cy - va * t) ^ 2) *
      W ((x - cx - ua * t) ^ 2 + (y - cy - va * t) ^ 2) ^ 2) : Euler2At γ s t x y := by
  have line : ∀ (A C : ℝ → ℝ) (a' c' z : ℝ) (f : ℝ → PointGas), (∀ z, (f z).w = 0) → HasDerivAt A a' z →
      HasDerivAt C c' z → A z ^ 2 + C z ^ 2 = (x - cx - ua * t) ^ 2 + (y - cy - va * t) ^ 2 →
      (∀ z, A z ^ 2 + C z ^ 2 ∈ O → f z = rotGas R W Q ua va (A z) (C z)) →
      PrimDeriv f z (r' * (2 * A z * a' + 2 * C z * c')) (q' * (2 * A z * a' + 2 * C z * c'))
        (-(c' * W (A z ^ 2 + C z ^ 2) + C z * (w' * (2 * A z * a' + 2 * C z * c'))))
        (a' * W (A z ^ 2 + C z ^ 2) + A z * (w' * (2 * A z * a' + 2 * C z * c'))) := by
    intro A C a' c' z f hw hA hC he hf
    have hσ : HasDerivAt (fun z => A z ^ 2 + C z ^ 2) (2 * A z * a' + 2 * C z * c') z := by
      have h1 := (hA.pow 2).add (hC.pow 2)
      refine h1.congr_deriv ?_
      push_cast; ring
    have hn : ∀ᶠ z' in nhds z, f z' = rotGas R W Q ua va (A z') (C z') := by
      have : ∀ᶠ z' in nhds z, A z' ^ 2 + C z' ^ 2 ∈ O :=
        hσ.continuousAt.eventually_mem (hO.mem_nhds (by rw [he]; exact hm))
      exact this.mono fun z' hz => hf z' hz
    have cR := HasDerivAt.comp z (h₂ := R) (h := fun z => A z ^ 2 + C z ^ 2) (by rw [he]; exact hR) hσ
    have cW := HasDerivAt.comp z (h₂ := W) (h := fun z => A z ^ 2 + C z ^ 2) (by rw [he]; exact hW) hσ
    have cQ := HasDerivAt.comp z (h₂ := Q) (h := fun z => A z ^ 2 + C z ^ 2) (by rw [he]; exact hQ) hσ
    refine ⟨?_, ?_, ?_, ?_, hw⟩
    · exact cR.congr_of_eventuallyEq (hn.mono fun z' e => by simp only [e, rotGas]; rfl)
    · exact cQ.congr_of_eventuallyEq (hn.mono fun z' e => by simp only [e, rotGas]; rfl)
    · have := (hC.mul cW).const_sub ua
      exact this.congr_of_eventuallyEq (hn.mono fun z' e => by simp only [e, rotGas]; rfl)
    · have := (hA.mul cW).const_add va
      exact this.congr_of_eventuallyEq (hn.mono fun z' e => by simp only [e, rotGas]; rfl)
  have h0 := line (fun τ => x - cx - ua * τ) (fun τ => y - cy - va * τ) (-ua) (-va) t
    (fun τ => s τ x y) (fun _ => hsw _ _ _)
    (by simpa using ((hasDerivAt_id t).const_mul ua).const_sub (x - cx))
    (by simpa using ((hasDerivAt_id t).const_mul va).const_sub (y - cy)) rfl (fun τ => hs τ x y)
  have h1 := line (fun ξ => ξ - cx - ua * t) (fun _ => y - cy - va * t) 1 0 x
    (fun ξ => s t ξ y) (fun _ => hsw _ _ _)
    (((hasDerivAt_id x).sub_const cx).sub_const (ua * t)) (hasDerivAt_const _ _) rfl (fun ξ => hs t ξ y)
  have h2 := line (fun _ => x - cx - ua * t) (fun η => η - cy - va * t) 0 1 y
    (fun η => s t x η) (fun _ => hsw _ _ _) (hasDerivAt_const _ _)
    (((hasDerivAt_id y).sub_const cy).sub_const (va * t)) rfl (fun η => hs t x η)
  refine euler_of_prim hγ h0 h1 h2 ?_ ?_ ?_ ?_ <;> rw [hs t x y hm] <;> simp only [rotGas] <;>
    generalize R ((x - cx - ua * t) ^ 2 + (y - cy - va * t) ^ 2) = R0 at * <;>
    generalize W ((x - cx - ua * t) ^ 2 + (y - cy - va * t) ^ 2) = W0 at * <;>
    generalize x - cx - ua * t = a at * <;> generalize y - cy - va * t = b at *
  · ring
  · linear_combination a * hb
  · linear_combination b * hb
  · ring

end helpers

/-- The Gresho vortex at rest. -/
noncomputable def greshoFlow (gamma : ℝ) (p : GreshoParams ℝ) (_t x y : ℝ) : PointGas := greshoGas gamma p x y 0

/-- The isentropic vortex, carried along by the ambient flow. -/
noncomputable def vortexFlow (gamma : ℝ) (p : IsentropicVortexParams ℝ) (t x y : ℝ) : PointGas :=
  vortexGas gamma p (x - p.u_a * t) (y - p.v_a * t) 0

/-- **C104**: the isentropic vortex is set up as the initial state of an exact solution: the vortex moves
with the ambient flow. -/
theorem C104_vortex {p : IsentropicVortexParams ℝ} (h : BoxSetup false 4 2 P B)
    (r : Runs (hydroSetup false S P D (.isentropicVortex p)) m m') (hg : 1 < S.gamma0) (hT : 0 < p.T_a)
    (hb : (S.gamma0 - 1) / (2 * S.gamma0) * (p.beta / (2 * Real.pi)) ^ 2 * Real.exp 1 < p.T_a) :
    Samples false S P D m' (fun x y _ => vortexFlow S.gamma0 p 0 x y) ∧
      ∀ t x y, Euler2At S.gamma0 (vortexFlow S.gamma0 p) t x y := by
  constructor
  · have := C102_vortex h r
    intro A hA i j k hi hj hk
    have e := this A hA i j k hi hj hk
    simpa only [vortexFlow, mul_zero, sub_zero, vortexGas] using e
  intro t x y
  have hg1 : S.gamma0 - 1 ≠ 0 := by linarith
  have hg0 : S.gamma0 ≠ 0 := by linarith
  generalize S.gamma0 = γ at *
  let W : ℝ → ℝ := fun σ => p.beta / (2 * Real.pi) * Real.exp ((1 - σ) / 2)
  let T : ℝ → ℝ := fun σ => p.T_a - (γ - 1) / (2 * γ) * W σ ^ 2
  let R : ℝ → ℝ := fun σ => p.rho_a * (T σ / p.T_a) ^ (1 / (γ - 1))
  set σ0 := (x - p.vortex_x - p.u_a * t) ^ 2 + (y - p.vortex_y - p.v_a * t) ^ 2 with hσ0
  have hσ : 0 ≤ σ0 := by positivity
  have dW : HasDerivAt W (W σ0 * (-1 / 2)) σ0 := by
    have h1 : HasDerivAt (fun σ : ℝ => (1 - σ) / 2) (-1 / 2) σ0 :=
      ((hasDerivAt_id σ0).const_sub 1).div_const 2
    exact (h1.exp.const_mul (p.beta / (2 * Real.pi))).congr_deriv (by simp only [W]; ring)
  have dT : HasDerivAt T ((γ - 1) / (2 * γ) * W σ0 ^ 2) σ0 := by
    have := ((dW.pow 2).const_mul ((γ - 1) / (2 * γ))).const_sub p.T_a
    refine this.congr_deriv ?_
    push_cast; ring
  have hT0 : 0 < T σ0 := by
    have e1 : W σ0 ^ 2 ≤ (p.beta / (2 * Real.pi)) ^ 2 * Real.exp 1 := by
      have : Real.exp ((1 - σ0) / 2) ^ 2 ≤ Real.exp 1 := by
        rw [← Real.exp_nat_mul]; exact Real.exp_le_exp.2 (by push_cast; linarith)
      simp only [W, mul_pow]
      exact mul_le_mul_of_nonneg_left this (by positivity)
    have e2 : 0 ≤ (γ - 1) / (2 * γ) := div_nonneg (by linarith) (by linarith)
    have := mul_le_mul_of_nonneg_left e1 e2
    simp only [T]; linarith
  have dR : HasDerivAt R (R σ0 * (W σ0 ^ 2 / (2 * γ)) / T σ0) σ0 := by
    have h1 := ((dT.div_const p.T_a).rpow_const (p := 1 / (γ - 1)) (Or.inl (by positivity))).const_mul
      p.rho_a
    refine h1.congr_deriv ?_
    rw [Real.rpow_sub_one (by positivity)]
    simp only [R]
    field_simp
  refine rot_euler (R := R) (W := W) (Q := fun σ => R σ * T σ) (cx := p.vortex_x) (cy := p.vortex_y)
    (ua := p.u_a) (va := p.v_a) (O := Set.univ) (by linarith : γ ≠ 1) isOpen_univ ?_ ?_ trivial dR dW
    (dR.mul dT) ?_
  · intro t x y _
    have e : ∀ a b c : ℝ, a - b - c = a - c - b := fun a b c => by ring
    simp only [vortexFlow, vortexGas, rotGas, R, T, W, e _ p.vortex_x, e _ p.vortex_y]
  · intro t x y; rfl
  · show 2 * (R σ0 * (W σ0 ^ 2 / (2 * γ)) / T σ0 * T σ0 + R σ0 * ((γ - 1) / (2 * γ) * W σ0 ^ 2)) =
      R σ0 * W σ0 ^ 2
    field_simp
    ring

/-- **C104**: the Gresho vortex is set up as the initial state of a steady solution of the Euler equations
(away from the two circles where its profile has kinks) if the density is 1. -/
theorem C104_gresho {p : GreshoParams ℝ} (h : BoxSetup false 4 2 P B)
    (r : Runs (hydroSetup false S P D (.gresho p)) m m') (hg : S.gamma0 ≠ 1) (hr : p.rho0 = 1) :
    Samples false S P D m' (fun x y _ => greshoFlow S.gamma0 p 0 x y) ∧
      ∀ t x y, x ^ 2 + y ^ 2 ≠ (1 / 5) ^ 2 → x ^ 2 + y ^ 2 ≠ (2 / 5) ^ 2 →
        Euler2At S.gamma0 (greshoFlow S.gamma0 p) t x y := by
  constructor
  · exact C102_gresho h r
  intro t x y h1 h2
  have key : ∀ {R W Q : ℝ → ℝ} {O : Set ℝ}, IsOpen O → ∀ {r' w' q' : ℝ},
      (∀ x y : ℝ, x ^ 2 + y ^ 2 ∈ O → greshoFlow S.gamma0 p t x y = rotGas R W Q 0 0 x y) →
      x ^ 2 + y ^ 2 ∈ O → HasDerivAt R r' (x ^ 2 + y ^ 2) → HasDerivAt W w' (x ^ 2 + y ^ 2) →
      HasDerivAt Q q' (x ^ 2 + y ^ 2) → 2 * q' = R (x ^ 2 + y ^ 2) * W (x ^ 2 + y ^ 2) ^ 2 →
      Euler2At S.gamma0 (greshoFlow S.gamma0 p) t x y := by
    intro R W Q O hO r' w' q' hs hm hR hW hQ hb
    refine rot_euler (R := R) (W := W) (Q := Q) (cx := 0) (cy := 0) (ua := 0) (va := 0) (O := O)
      (r' := r') (w' := w') (q' := q') hg hO ?_ (fun _ _ _ => rfl) ?_ ?_ ?_ ?_ ?_ <;>
      simp only [sub_zero, zero_mul]
    · exact fun _ x y hm => hs x y hm
    all_goals assumption
  set p0 := p.rho0 / (S.gamma0 * p.Ma ^ 2) with hp0
  have hp1 : 1 / (S.gamma0 * p.Ma ^ 2) = p0 := by rw [hp0, hr]
  have hsq : ∀ x y : ℝ, √(x ^ 2 + y ^ 2) ^ 2 = x ^ 2 + y ^ 2 := fun x y => Real.sq_sqrt (by positivity)
  rcases lt_or_gt_of_ne h1 with c1 | c1
  · refine key (R := fun _ => 1) (W := fun _ => 5) (Q := fun σ => p0 + 25 / 2 * σ)
      (O := Set.Iio ((1 / 5) ^ 2)) isOpen_Iio ?_ c1 (hasDerivAt_const _ _) (hasDerivAt_const _ _)
      (((hasDerivAt_id _).const_mul (25 / 2)).const_add p0) (by norm_num)
    intro x y hm
    have hlt : √(x ^ 2 + y ^ 2) < 1 / 5 := (Real.sqrt_lt' (by norm_num)).2 hm
    simp only [greshoFlow, greshoGas, greshoOmega, greshoPressure, if_pos hlt, rotGas, hr, hsq, hp1]
    ext <;> simp
  rcases lt_or_gt_of_ne h2 with c2 | c2
  · have hpos : (0 : ℝ) < x ^ 2 + y ^ 2 := lt_trans (by norm_num) c1
    have ds := (hasDerivAt_id (x ^ 2 + y ^ 2)).sqrt hpos.ne'
    have hs0 := Real.sqrt_pos.2 hpos
    have dl : HasDerivAt (fun σ => Real.log (5 * √σ)) _ (x ^ 2 + y ^ 2) :=
      (ds.const_mul 5).log (by positivity)
    refine key (R := fun _ => 1) (W := fun σ => (2 - 5 * √σ) / √σ)
      (Q := fun σ => p0 + 25 / 2 * σ + 4 * (1 - 5 * √σ + Real.log (5 * √σ)))
      (O := Set.Ioo ((1 / 5) ^ 2) ((2 / 5) ^ 2)) isOpen_Ioo ?_ ⟨c1, c2⟩ (hasDerivAt_const _ _)
      (((ds.const_mul 5).const_sub 2).div ds hs0.ne')
      ((((hasDerivAt_id _).const_mul (25 / 2)).const_add p0).add
        ((((ds.const_mul 5).const_sub 1).add dl).const_mul 4)) ?_
    · intro x y hm
      have hge : ¬ √(x ^ 2 + y ^ 2) < 1 / 5 := by
        rw [Real.sqrt_lt' (by norm_num)]; exact not_lt.2 hm.1.le
      have hlt : √(x ^ 2 + y ^ 2) < 2 / 5 := (Real.sqrt_lt' (by norm_num)).2 hm.2
      simp only [greshoFlow, greshoGas, greshoOmega, greshoPressure, if_neg hge, if_pos hlt, rotGas, hr, hsq,
        hp1]
      ext <;> simp
    · have e := hsq x y
      simp only [id]
      generalize √(x ^ 2 + y ^ 2) = r at *
      field_simp
      ring
  · refine key (R := fun _ => 1) (W := fun _ => 0) (Q := fun _ => p0 - 2 + 4 * Real.log 2)
      (O := Set.Ioi ((2 / 5) ^ 2)) isOpen_Ioi ?_ c2 (hasDerivAt_const _ _) (hasDerivAt_const _ _)
      (hasDerivAt_const _ _) (by norm_num)
    intro x y hm
    have hm' : (2 / 5 : ℝ) ^ 2 < x ^ 2 + y ^ 2 := hm
    have hge2 : ¬ √(x ^ 2 + y ^ 2) < 2 / 5 := by
      rw [Real.sqrt_lt' (by norm_num)]; exact not_lt.2 hm'.le
    have hge : ¬ √(x ^ 2 + y ^ 2) < 1 / 5 := fun e => hge2 (lt_trans e (by norm_num))
    simp only [greshoFlow, greshoGas, greshoOmega, greshoPressure, if_neg hge, if_neg hge2, rotGas, hr,
      hp1]
    ext <;> simp

/-- **C104**: with any other density it is no solution: the pressure does not balance the centrifugal
force. -/
theorem C104_gresho_wrong {p : GreshoParams ℝ} {γ : ℝ} (hr : p.rho0 ≠ 1) (t : ℝ) {x y : ℝ} (hx : x ≠ 0)
    (hm : x ^ 2 + y ^ 2 < (1 / 5) ^ 2) : ¬ Euler2At γ (greshoFlow γ p) t x y := by
  rintro ⟨a, b, c, ⟨-, -, h0, -⟩, ⟨-, -, h1, -⟩, ⟨-, -, h2, -⟩, -, -, e, -⟩
  set p0 := p.rho0 / (γ * p.Ma ^ 2) with hp0
  have flow : ∀ x y : ℝ, x ^ 2 + y ^ 2 < (1 / 5) ^ 2 →
      greshoFlow γ p t x y = ⟨p.rho0, p0 + 25 / 2 * (x ^ 2 + y ^ 2), -y * 5, x * 5, 0⟩ := by
    intro x y hm
    have hlt : √(x ^ 2 + y ^ 2) < 1 / 5 := (Real.sqrt_lt' (by norm_num)).2 hm
    simp only [greshoFlow, greshoGas, greshoOmega, greshoPressure, if_pos hlt,
      Real.sq_sqrt (show (0 : ℝ) ≤ x ^ 2 + y ^ 2 by positivity), ← hp0]
  have ha : a.u = 0 := by
    exact h0.unique (hasDerivAt_const t ((greshoFlow γ p t x y).conserved γ).u)
  have hb : b.u = 25 * x := by
    refine h1.unique ?_
    have d : HasDerivAt (fun ξ : ℝ => p.rho0 * (-y * 5) * (-y * 5) + (p0 + 25 / 2 * (ξ ^ 2 + y ^ 2)))
        (25 * x) x := by
      have := (((((hasDerivAt_id x).pow 2).add_const (y ^ 2)).const_mul (25 / 2 : ℝ)).const_add p0).const_add
        (p.rho0 * (-y * 5) * (-y * 5))
      refine this.congr_deriv ?_
      simp; ring
    refine d.congr_of_eventuallyEq ?_
    have : ∀ᶠ ξ in nhds x, ξ ^ 2 + y ^ 2 < (1 / 5) ^ 2 :=
      ((continuous_id.pow 2).add continuous_const).continuousAt.eventually_lt continuousAt_const hm
    exact this.mono fun ξ h => by simp only [PointGas.fluxX, flow ξ y h]
  have hc : c.u = -25 * p.rho0 * x := by
    refine h2.unique ?_
    have d : HasDerivAt (fun η : ℝ => p.rho0 * (x * 5) * (-η * 5)) (-25 * p.rho0 * x) y := by
      have := ((hasDerivAt_id y).neg.mul_const 5).const_mul (p.rho0 * (x * 5))
      refine this.congr_deriv ?_
      ring
    refine d.congr_of_eventuallyEq ?_
    have : ∀ᶠ η in nhds y, x ^ 2 + η ^ 2 < (1 / 5) ^ 2 :=
      (continuous_const.add (continuous_id.pow 2)).continuousAt.eventually_lt continuousAt_const hm
    exact this.mono fun η h => by simp only [PointGas.fluxY, flow x η h]
  rw [ha, hb, hc] at e
  have : x * (1 - p.rho0) = 0 := by linear_combination e / 25
  rcases mul_eq_zero.1 this with h | h
  · exact hx h
  · exact hr (by linarith)

example : ¬ Euler2At (7 / 5) (greshoFlow (7 / 5) ⟨2, 1 / 10⟩) 0 (1 / 10) 0 :=
  C104_gresho_wrong (by norm_num) 0 (by norm_num) (by norm_num)

/-- The usual vortex of strength 5 meets the hypotheses. -/
example (m : Addr → ℝ) (D : Domain ℝ) : ∃ m',
    Runs (hydroSetup false exampleSettings (exampleBox false .periodic) D
      (.isentropicVortex ⟨1, 1, 1, 1, 5, 5, 5⟩)) m m' ∧
    ∀ t x y, Euler2At (7 / 5) (vortexFlow (7 / 5) ⟨1, 1, 1, 1, 5, 5, 5⟩) t x y := by
  obtain ⟨m', r⟩ := example_run false .periodic D (.isentropicVortex ⟨1, 1, 1, 1, 5, 5, 5⟩) m
  refine ⟨m', r, (C104_vortex (exampleBox_setup false .periodic) r (by norm_num [exampleSettings])
    (by norm_num) ?_).2⟩
  have e1 := Real.exp_one_lt_d9
  have e2 := Real.pi_gt_three
  have e3 : (5 / (2 * Real.pi)) ^ 2 ≤ (5 / 6) ^ 2 := by
    apply pow_le_pow_left₀ (by positivity)
    exact div_le_div_of_nonneg_left (by norm_num) (by norm_num) (by linarith)
  show (7 / 5 - 1) / (2 * (7 / 5)) * (5 / (2 * Real.pi)) ^ 2 * Real.exp 1 < 1
  have e4 := mul_le_mul e3 e1.le (Real.exp_pos 1).le (by norm_num)
  nlinarith

end Verif
