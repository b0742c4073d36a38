import Verif.Lemmas.RealOps
import Verif.Spec.Euler
import Mathlib.Tactic.Ring
import Mathlib.Tactic.FieldSimp
import Mathlib.Tactic.Linarith
import Mathlib.Tactic.NormNum
import Mathlib.Tactic.Positivity

/-! Helper lemmas on the hydro Riemann solvers. -/

namespace Verif

open Spec

theorem cmpflx_real (d3 : Bool) {S : Settings ℝ} (hγ : 1 < S.gamma0) (q : HState ℝ) :
    cmpflx d3 S q = eulerFlux d3 S.gamma0 q := by
  have h1 : S.gamma0 - 1 ≠ 0 := by linarith
  unfold cmpflx eulerFlux energy
  cases d3 <;> simp only [if_true, if_false, Bool.false_eq_true] <;> rops <;> ext <;> simp only [] <;>
    field_simp <;> ring

theorem llfCons_real (d3 : Bool) {S : Settings ℝ} (hγ : 1 < S.gamma0) (q : HState ℝ) :
    llfCons d3 S q = conserved d3 S.gamma0 q := by
  have h1 : S.gamma0 - 1 ≠ 0 := by linarith
  unfold llfCons conserved energy
  cases d3 <;> simp only [if_true, if_false, Bool.false_eq_true] <;> rops <;> ext <;> simp only [] <;>
    field_simp <;> ring

theorem llfFlux_real (d3 : Bool) (γ : ℝ) (q : HState ℝ) :
    llfFlux d3 q (conserved d3 γ q) = eulerFlux d3 γ q := by
  unfold llfFlux conserved eulerFlux
  cases d3 <;> simp only [if_true, if_false, Bool.false_eq_true] <;> rops <;> ext <;> simp only [] <;> ring

theorem hllFlux_real (d3 : Bool) (γ : ℝ) (q : HState ℝ) :
    hllFlux d3 q (conserved d3 γ q) = eulerFlux d3 γ q := by
  unfold hllFlux conserved eulerFlux
  cases d3 <;> simp only [if_true, if_false, Bool.false_eq_true] <;> rops <;> ext <;> simp only [] <;> ring

/-- Apply a formula to each component. -/
def comb4 (f : ℝ → ℝ → ℝ → ℝ → ℝ) (a b c d : HState ℝ) : HState ℝ :=
  ⟨f a.d b.d c.d d.d, f a.p b.p c.p d.p, f a.u b.u c.u d.u, f a.v b.v c.v d.v, f a.w b.w c.w d.w⟩

/-- Floored density and pressure. -/
noncomputable def flr (S : Settings ℝ) (q : HState ℝ) : ℝ := max q.d S.smallr
noncomputable def flp (S : Settings ℝ) (q : HState ℝ) : ℝ := max q.p (flr S q * S.smallp)

theorem flr_pos {S : Settings ℝ} (hS : GasParams S) (q : HState ℝ) : 0 < flr S q :=
  lt_max_of_lt_right hS.smallr
theorem flp_pos {S : Settings ℝ} (hS : GasParams S) (q : HState ℝ) : 0 < flp S q :=
  lt_max_of_lt_right (mul_pos (flr_pos hS q) hS.smallp)
theorem flr_above {S : Settings ℝ} {q : HState ℝ} (h : AboveFloors S q) : flr S q = q.d :=
  max_eq_left h.d
theorem flp_above {S : Settings ℝ} {q : HState ℝ} (h : AboveFloors S q) : flp S q = q.p := by
  unfold flp; rw [flr_above h]; exact max_eq_left h.p

noncomputable def cs (S : Settings ℝ) (q : HState ℝ) : ℝ := Real.sqrt (S.gamma0 * flp S q / flr S q)

theorem cs_pos {S : Settings ℝ} (hS : GasParams S) (q : HState ℝ) : 0 < cs S q := by
  have := flr_pos hS q
  have := flp_pos hS q
  have := hS.gamma
  unfold cs; positivity

theorem riemann_llf_real (d3 : Bool) {S : Settings ℝ} (hγ : 1 < S.gamma0) (ql qr : HState ℝ) :
    riemann_llf d3 S ql qr =
      comb4 (fun a b c d => (a + b - max (|ql.u| + cs S ql) (|qr.u| + cs S qr) * (d - c)) / 2)
        (eulerFlux d3 S.gamma0 ql) (eulerFlux d3 S.gamma0 qr) (conserved d3 S.gamma0 ql)
        (conserved d3 S.gamma0 qr) := by
  unfold riemann_llf
  simp only [llfCons_real d3 hγ, llfFlux_real]
  unfold comb4 cs flp flr
  rops
  ext <;> simp only [] <;> try ring
  cases d3 <;> simp [eulerFlux, conserved]

noncomputable def hllSL (S : Settings ℝ) (ql qr : HState ℝ) : ℝ :=
  min (min ql.u qr.u - max (cs S ql) (cs S qr)) 0
noncomputable def hllSR (S : Settings ℝ) (ql qr : HState ℝ) : ℝ :=
  max (max ql.u qr.u + max (cs S ql) (cs S qr)) 0

theorem riemann_hll_real (d3 : Bool) {S : Settings ℝ} (hγ : 1 < S.gamma0) (ql qr : HState ℝ) :
    riemann_hll d3 S ql qr =
      comb4 (fun a b c d => (hllSR S ql qr * a - hllSL S ql qr * b
          + hllSR S ql qr * hllSL S ql qr * (d - c)) / (hllSR S ql qr - hllSL S ql qr))
        (eulerFlux d3 S.gamma0 ql) (eulerFlux d3 S.gamma0 qr) (conserved d3 S.gamma0 ql)
        (conserved d3 S.gamma0 qr) := by
  unfold riemann_hll
  simp only [llfCons_real d3 hγ, hllFlux_real]
  unfold comb4 hllSL hllSR cs flp flr
  rops
  ext <;> simp only []
  cases d3 <;> simp [eulerFlux, conserved]

theorem hllSL_SR {S : Settings ℝ} (hS : GasParams S) (ql qr : HState ℝ) :
    hllSL S ql qr < hllSR S ql qr := by
  unfold hllSL hllSR
  have h1 := cs_pos hS ql
  have h2 := le_max_left (cs S ql) (cs S qr)
  have h3 := min_le_left ql.u qr.u
  have h4 := le_max_left ql.u qr.u
  rcases le_or_gt ql.u 0 with h | h
  · exact lt_of_lt_of_le (lt_of_le_of_lt (min_le_left _ _) (by linarith)) (le_max_right _ _)
  · exact lt_of_le_of_lt (min_le_right _ _) (lt_max_of_lt_left (by linarith))

/-! ### Mirror images -/

theorem flr_mirror (S : Settings ℝ) (q : HState ℝ) : flr S (mirror q) = flr S q := rfl
theorem flp_mirror (S : Settings ℝ) (q : HState ℝ) : flp S (mirror q) = flp S q := rfl
theorem cs_mirror (S : Settings ℝ) (q : HState ℝ) : cs S (mirror q) = cs S q := rfl
theorem mirror_u (q : HState ℝ) : (mirror q).u = -q.u := rfl

theorem eulerFlux_mirror (d3 : Bool) (γ : ℝ) (q : HState ℝ) :
    eulerFlux d3 γ (mirror q) = mirrorFlux (eulerFlux d3 γ q) := by
  unfold eulerFlux mirrorFlux mirror energy
  cases d3 <;> ext <;> simp

theorem conserved_mirror (d3 : Bool) (γ : ℝ) (q : HState ℝ) :
    conserved d3 γ (mirror q) = { conserved d3 γ q with u := -(conserved d3 γ q).u } := by
  unfold conserved mirror energy
  cases d3 <;> ext <;> simp

theorem hllSL_mirror (S : Settings ℝ) (ql qr : HState ℝ) :
    hllSL S (mirror qr) (mirror ql) = - hllSR S ql qr := by
  unfold hllSL hllSR
  simp only [cs_mirror, mirror_u]
  rw [min_neg_neg, max_comm (cs S qr), max_comm qr.u, ← neg_zero, ← neg_add', min_neg_neg, neg_zero]

theorem hllSR_mirror (S : Settings ℝ) (ql qr : HState ℝ) :
    hllSR S (mirror qr) (mirror ql) = - hllSL S ql qr := by
  unfold hllSL hllSR
  simp only [cs_mirror, mirror_u]
  rw [max_neg_neg, max_comm (cs S qr), min_comm qr.u, ← neg_zero, neg_add_eq_sub, ← neg_sub,
    max_neg_neg, neg_zero]

/-! ### HLLC -/

/-- Signal speed used by HLLC. -/
noncomputable def cf (S : Settings ℝ) (q : HState ℝ) : ℝ :=
  Real.sqrt (max (S.gamma0 * flp S q / flr S q) (S.smallc * S.smallc))

noncomputable def hC (S : Settings ℝ) (ql qr : HState ℝ) : ℝ := max (cf S ql) (cf S qr)
noncomputable def hSL (S : Settings ℝ) (ql qr : HState ℝ) : ℝ := min ql.u qr.u - hC S ql qr
noncomputable def hSR (S : Settings ℝ) (ql qr : HState ℝ) : ℝ := max ql.u qr.u + hC S ql qr
noncomputable def hrcl (S : Settings ℝ) (ql qr : HState ℝ) : ℝ := flr S ql * (ql.u - hSL S ql qr)
noncomputable def hrcr (S : Settings ℝ) (ql qr : HState ℝ) : ℝ := flr S qr * (hSR S ql qr - qr.u)
noncomputable def hus (S : Settings ℝ) (ql qr : HState ℝ) : ℝ :=
  (hrcr S ql qr * qr.u + hrcl S ql qr * ql.u + (flp S ql - flp S qr)) /
    (hrcr S ql qr + hrcl S ql qr)
noncomputable def hps (S : Settings ℝ) (ql qr : HState ℝ) : ℝ :=
  (hrcr S ql qr * flp S ql + hrcl S ql qr * flp S qr
    + hrcl S ql qr * hrcr S ql qr * (ql.u - qr.u)) / (hrcr S ql qr + hrcl S ql qr)

theorem hllcStar_real (S : Settings ℝ) (ql qr : HState ℝ) :
    hllcStar S (flr S ql) ql.u (flp S ql) (flr S qr) qr.u (flp S qr) =
      ⟨hSL S ql qr, hSR S ql qr, hus S ql qr, hps S ql qr⟩ := rfl

theorem cf_sq {S : Settings ℝ} (hS : GasParams S) (q : HState ℝ) :
    0 < cf S q ∧ S.gamma0 * flp S q ≤ flr S q * (cf S q * cf S q) := by
  have h1 := flr_pos hS q
  have h2 := flp_pos hS q
  have h3 := hS.gamma
  have h4 : 0 < S.gamma0 * flp S q / flr S q := by positivity
  have h5 : 0 < max (S.gamma0 * flp S q / flr S q) (S.smallc * S.smallc) :=
    lt_max_of_lt_left h4
  refine ⟨Real.sqrt_pos.2 h5, ?_⟩
  unfold cf
  rw [Real.mul_self_sqrt h5.le]
  have := le_max_left (S.gamma0 * flp S q / flr S q) (S.smallc * S.smallc)
  rw [div_le_iff₀ h1] at this
  linarith [mul_comm (flr S q) (max (S.gamma0 * flp S q / flr S q) (S.smallc * S.smallc))]

theorem hC_sq {S : Settings ℝ} (hS : GasParams S) (ql qr : HState ℝ) :
    0 < hC S ql qr ∧ flp S ql < flr S ql * (hC S ql qr * hC S ql qr) ∧
      flp S qr < flr S qr * (hC S ql qr * hC S ql qr) := by
  have key : ∀ q, cf S q ≤ hC S ql qr → flp S q < flr S q * (hC S ql qr * hC S ql qr) := by
    intro q hq
    obtain ⟨a, b⟩ := cf_sq hS q
    have h1 := flr_pos hS q
    have h2 := flp_pos hS q
    have h3 := hS.gamma
    have : cf S q * cf S q ≤ hC S ql qr * hC S ql qr := mul_self_le_mul_self a.le hq
    have : flr S q * (cf S q * cf S q) ≤ flr S q * (hC S ql qr * hC S ql qr) :=
      mul_le_mul_of_nonneg_left this h1.le
    nlinarith
  exact ⟨lt_of_lt_of_le (cf_sq hS ql).1 (le_max_left _ _), key ql (le_max_left _ _),
    key qr (le_max_right _ _)⟩

theorem hrc_pos {S : Settings ℝ} (hS : GasParams S) (ql qr : HState ℝ) :
    0 < hrcl S ql qr ∧ 0 < hrcr S ql qr := by
  have h := (hC_sq hS ql qr).1
  have h1 := flr_pos hS ql
  have h2 := flr_pos hS qr
  constructor
  · apply mul_pos h1
    have := min_le_left ql.u qr.u
    unfold hSL; linarith
  · apply mul_pos h2
    have := le_max_right ql.u qr.u
    unfold hSR; linarith

/-- The three waves are ordered. -/
theorem hllc_order {S : Settings ℝ} (hS : GasParams S) (ql qr : HState ℝ) :
    hSL S ql qr < hus S ql qr ∧ hus S ql qr < hSR S ql qr := by
  obtain ⟨hc, hl, hr⟩ := hC_sq hS ql qr
  obtain ⟨hcl, hcr⟩ := hrc_pos hS ql qr
  have r1 := flr_pos hS ql
  have r2 := flr_pos hS qr
  have p1 := flp_pos hS ql
  have p2 := flp_pos hS qr
  have a1 : hC S ql qr ≤ ql.u - hSL S ql qr := by
    have := min_le_left ql.u qr.u; unfold hSL; linarith
  have a2 : hC S ql qr ≤ qr.u - hSL S ql qr := by
    have := min_le_right ql.u qr.u; unfold hSL; linarith
  have a3 : hC S ql qr ≤ hSR S ql qr - ql.u := by
    have := le_max_left ql.u qr.u; unfold hSR; linarith
  have a4 : hC S ql qr ≤ hSR S ql qr - qr.u := by
    have := le_max_right ql.u qr.u; unfold hSR; linarith
  have key : ∀ r x y c : ℝ, 0 < r → 0 < c → c ≤ x → c ≤ y → r * (c * c) ≤ r * x * y := by
    intro r x y c h0 h1 h2 h3
    rw [mul_assoc]
    exact mul_le_mul_of_nonneg_left (mul_le_mul h2 h3 h1.le (by linarith)) h0.le
  have e1 := key (flr S qr) _ _ _ r2 hc a4 a2
  have e2 := key (flr S ql) _ _ _ r1 hc a1 a3
  have e3 := key (flr S ql) _ _ _ r1 hc a1 a1
  have e4 := key (flr S qr) _ _ _ r2 hc a4 a4
  constructor
  · unfold hus
    rw [lt_div_iff₀ (by linarith)]
    unfold hrcl hrcr at *
    nlinarith
  · unfold hus
    rw [div_lt_iff₀ (by linarith)]
    unfold hrcl hrcr at *
    nlinarith

/-- Mass, normal momentum and energy flux of a state. -/
def G (r u p e : ℝ) : ℝ × ℝ × ℝ := (r * u, r * u * u + p, (e + p) * u)

noncomputable def hrl (S : Settings ℝ) (ql qr : HState ℝ) : ℝ :=
  flr S ql * (hSL S ql qr - ql.u) / (hSL S ql qr - hus S ql qr)
noncomputable def hel (d3 : Bool) (S : Settings ℝ) (ql qr : HState ℝ) : ℝ :=
  ((hSL S ql qr - ql.u) * hllcEtot d3 S (flr S ql) (flp S ql) ql - flp S ql * ql.u
    + hps S ql qr * hus S ql qr) / (hSL S ql qr - hus S ql qr)
noncomputable def hrr (S : Settings ℝ) (ql qr : HState ℝ) : ℝ :=
  flr S qr * (hSR S ql qr - qr.u) / (hSR S ql qr - hus S ql qr)
noncomputable def her (d3 : Bool) (S : Settings ℝ) (ql qr : HState ℝ) : ℝ :=
  ((hSR S ql qr - qr.u) * hllcEtot d3 S (flr S qr) (flp S qr) qr - flp S qr * qr.u
    + hps S ql qr * hus S ql qr) / (hSR S ql qr - hus S ql qr)

open Classical in
/-- The sampled flux. -/
noncomputable def hG (d3 : Bool) (S : Settings ℝ) (ql qr : HState ℝ) : ℝ × ℝ × ℝ :=
  if 0 < hSL S ql qr then
    G (flr S ql) ql.u (flp S ql) (hllcEtot d3 S (flr S ql) (flp S ql) ql)
  else if 0 < hus S ql qr then G (hrl S ql qr) (hus S ql qr) (hps S ql qr) (hel d3 S ql qr)
  else if 0 < hSR S ql qr then G (hrr S ql qr) (hus S ql qr) (hps S ql qr) (her d3 S ql qr)
  else G (flr S qr) qr.u (flp S qr) (hllcEtot d3 S (flr S qr) (flp S qr) qr)

open Classical in
theorem riemann_hllc_real (d3 : Bool) (S : Settings ℝ) (ql qr : HState ℝ) :
    riemann_hllc d3 S ql qr =
      { d := (hG d3 S ql qr).1, u := (hG d3 S ql qr).2.1, p := (hG d3 S ql qr).2.2
        v := (hG d3 S ql qr).1 * (if 0 < (hG d3 S ql qr).1 then ql.v else qr.v)
        w := if d3 then (hG d3 S ql qr).1 * (if 0 < (hG d3 S ql qr).1 then ql.w else qr.w)
          else 0 } := by
  have e : ∀ (c : Prop) [Decidable c] (a b b' : ℝ),
      (if c then a * b else a * b') = a * (if c then b else b') := by
    intro c _ a b b'; split <;> rfl
  have hst := hllcStar_real S ql qr
  unfold flp flr at hst
  unfold riemann_hllc
  rops
  simp only [hst]
  unfold hG G hrl hel hrr her
  by_cases h1 : 0 < hSL S ql qr
  · simp only [h1, if_true]; cases d3 <;> simp only [e] <;> rfl
  · by_cases h2 : 0 < hus S ql qr
    · simp only [h1, h2, if_true, if_false]; cases d3 <;> simp only [e] <;> rfl
    · by_cases h3 : 0 < hSR S ql qr
      · simp only [h1, h2, h3, if_true, if_false]; cases d3 <;> simp only [e] <;> rfl
      · simp only [h1, h2, h3, if_false]; cases d3 <;> simp only [e] <;> rfl

end Verif
