import Verif.Lemmas.RiemannHllc
import Verif.Lemmas.RiemannApprox

/-! Helper lemmas: consistency and mirror images of LLF and HLL; upwinding; contacts. -/

namespace Verif

open Spec

variable {S : Settings ℝ}

theorem riemann_llf_consistent (d3 : Bool) (hγ : 1 < S.gamma0) (q : HState ℝ) :
    riemann_llf d3 S q q = eulerFlux d3 S.gamma0 q := by
  rw [riemann_llf_real d3 hγ]
  unfold comb4
  ext <;> simp

theorem riemann_hll_consistent (d3 : Bool) (hS : GasParams S) (q : HState ℝ) :
    riemann_hll d3 S q q = eulerFlux d3 S.gamma0 q := by
  have h := hllSL_SR hS q q
  have h' : hllSR S q q - hllSL S q q ≠ 0 := by linarith
  rw [riemann_hll_real d3 hS.gamma]
  unfold comb4
  ext <;> simp only [] <;> field_simp <;> ring

theorem riemann_llf_mirror (d3 : Bool) (hγ : 1 < S.gamma0) (ql qr : HState ℝ) :
    riemann_llf d3 S (mirror qr) (mirror ql) = mirrorFlux (riemann_llf d3 S ql qr) := by
  rw [riemann_llf_real d3 hγ, riemann_llf_real d3 hγ]
  simp only [eulerFlux_mirror, conserved_mirror, cs_mirror, mirror_u, abs_neg]
  rw [max_comm (|qr.u| + cs S qr)]
  unfold comb4 mirrorFlux
  ext <;> simp only [] <;> ring

theorem riemann_hll_mirror (d3 : Bool) (hS : GasParams S) (ql qr : HState ℝ) :
    riemann_hll d3 S (mirror qr) (mirror ql) = mirrorFlux (riemann_hll d3 S ql qr) := by
  have h := hllSL_SR hS ql qr
  have h' : hllSR S ql qr - hllSL S ql qr ≠ 0 := by linarith
  have h'' : -hllSL S ql qr - -hllSR S ql qr ≠ 0 := by
    intro e; apply h'; linarith
  rw [riemann_hll_real d3 hS.gamma, riemann_hll_real d3 hS.gamma]
  simp only [eulerFlux_mirror, conserved_mirror, hllSL_mirror, hllSR_mirror]
  unfold comb4 mirrorFlux
  have e : ∀ x y : ℝ, x / (-hllSL S ql qr - -hllSR S ql qr) = y / (hllSR S ql qr - hllSL S ql qr) ↔ x = y := by
    intro x y
    rw [show -hllSL S ql qr - -hllSR S ql qr = hllSR S ql qr - hllSL S ql qr by ring]
    exact div_left_inj' h'
  ext <;> simp only [← neg_div] <;> rw [e] <;> ring

theorem cs_above {q : HState ℝ} (h : AboveFloors S q) : cs S q = soundSpeed S.gamma0 q := by
  unfold cs soundSpeed; rw [flr_above h, flp_above h]

/-- HLL and supersonic flow to the right. -/
theorem riemann_hll_upwind (d3 : Bool) (hS : GasParams S) {ql qr : HState ℝ}
    (hl : AboveFloors S ql) (hr : AboveFloors S qr)
    (h : max (soundSpeed S.gamma0 ql) (soundSpeed S.gamma0 qr) ≤ min ql.u qr.u) :
    riemann_hll d3 S ql qr = eulerFlux d3 S.gamma0 ql := by
  have hlt := hllSL_SR hS ql qr
  have h0 : hllSL S ql qr = 0 := by
    unfold hllSL; rw [cs_above hl, cs_above hr]; exact min_eq_right (by linarith)
  rw [riemann_hll_real d3 hS.gamma, h0]
  rw [h0] at hlt
  have hne := hlt.ne'
  have e : ∀ a b c d : ℝ, (hllSR S ql qr * a - 0 * b + hllSR S ql qr * 0 * (d - c)) /
      (hllSR S ql qr - 0) = a := by
    intro a b c d
    rw [zero_mul, mul_zero, zero_mul, sub_zero, add_zero, sub_zero, mul_div_cancel_left₀ _ hne]
  unfold comb4
  ext <;> simp only [e]

theorem cf_above {q : HState ℝ} (h : AboveFloors S q) (hs : 0 < S.smallc) :
    cf S q = max (soundSpeed S.gamma0 q) S.smallc := by
  unfold cf soundSpeed
  rw [flr_above h, flp_above h]
  rcases le_total (S.gamma0 * q.p / q.d) (S.smallc * S.smallc) with h' | h'
  · rw [max_eq_right h', Real.sqrt_mul_self hs.le, max_eq_right]
    rw [Real.sqrt_le_left hs.le, sq]; exact h'
  · rw [max_eq_left h', max_eq_left]
    rw [Real.le_sqrt' hs, sq]; exact h'

theorem hllcFlux_left (d3 : Bool) (hS : GasParams S) {q : HState ℝ} (hq : AboveFloors S q) :
    G (flr S q) q.u (flp S q) (hllcEtot d3 S (flr S q) (flp S q) q) =
      ((eulerFlux d3 S.gamma0 q).d, (eulerFlux d3 S.gamma0 q).u, (eulerFlux d3 S.gamma0 q).p) := by
  have hγ : S.gamma0 - 1 ≠ 0 := by have := hS.gamma; linarith
  rw [flr_above hq, flp_above hq]
  unfold G eulerFlux energy hllcEtot
  rops
  cases d3 <;> ext <;> simp only [if_true, if_false, Bool.false_eq_true] <;> field_simp <;> ring

/-- The flux is that of the left state, if the sampled flux is and mass flows to the right. -/
theorem riemann_hllc_of_left (d3 : Bool) (hS : GasParams S) {ql qr : HState ℝ}
    (hl : AboveFloors S ql) (hu : 0 < ql.u)
    (h : hG d3 S ql qr = G (flr S ql) ql.u (flp S ql) (hllcEtot d3 S (flr S ql) (flp S ql) ql)) :
    riemann_hllc d3 S ql qr = eulerFlux d3 S.gamma0 ql := by
  have hd : 0 < ql.d := lt_of_lt_of_le hS.smallr hl.d
  rw [riemann_hllc_real, h, hllcFlux_left d3 hS hl]
  have h0 : 0 < (eulerFlux d3 S.gamma0 ql).d := mul_pos hd hu
  simp only [h0, if_true]
  ext <;> simp [eulerFlux]

theorem riemann_hllc_upwind (d3 : Bool) (hS : GasParams S) {ql qr : HState ℝ}
    (hl : AboveFloors S ql) (hr : AboveFloors S qr)
    (h : max (max (soundSpeed S.gamma0 ql) S.smallc) (max (soundSpeed S.gamma0 qr) S.smallc)
      ≤ min ql.u qr.u) :
    riemann_hllc d3 S ql qr = eulerFlux d3 S.gamma0 ql := by
  have h0 : 0 ≤ hSL S ql qr := by
    unfold hSL hC; rw [cf_above hl hS.smallc, cf_above hr hS.smallc]; linarith
  refine riemann_hllc_of_left d3 hS hl ?_ (hG_left d3 hS ql qr h0)
  have h1 := (hC_sq hS ql qr).1
  have h2 := min_le_left ql.u qr.u
  unfold hSL at h0
  linarith

/-- A contact: equal normal velocity and pressure on both sides. -/
theorem contact_star (hS : GasParams S) {ql qr : HState ℝ} (hl : AboveFloors S ql)
    (hr : AboveFloors S qr) (hu : ql.u = qr.u) (hp : ql.p = qr.p) :
    hus S ql qr = ql.u ∧ hps S ql qr = ql.p := by
  obtain ⟨h1, h2⟩ := hrc_pos hS ql qr
  have hne : hrcr S ql qr + hrcl S ql qr ≠ 0 := by linarith
  have hu' : hus S ql qr = ql.u := by
    unfold hus; rw [flp_above hl, flp_above hr, hp, hu]; field_simp; ring
  refine ⟨hu', ?_⟩
  rw [hps_left hS, hu', flp_above hl]; ring

theorem riemann_hllc_contact_pos (d3 : Bool) (hS : GasParams S) {ql qr : HState ℝ}
    (hl : AboveFloors S ql) (hr : AboveFloors S qr) (hu : ql.u = qr.u) (hp : ql.p = qr.p)
    (h : 0 < ql.u) : riemann_hllc d3 S ql qr = eulerFlux d3 S.gamma0 ql := by
  obtain ⟨hus', hps'⟩ := contact_star hS hl hr hu hp
  have ho := (hllc_order hS ql qr).1
  apply riemann_hllc_of_left d3 hS hl h
  rcases le_total 0 (hSL S ql qr) with h0 | h0
  · exact hG_left d3 hS ql qr h0
  · rw [hG_starl d3 hS ql qr h0 (by rw [hus']; exact h.le)]
    have hne : hSL S ql qr - ql.u ≠ 0 := by rw [hus'] at ho; linarith
    have e1 : hrl S ql qr = flr S ql := by unfold hrl; rw [hus']; field_simp
    have e2 : hel d3 S ql qr = hllcEtot d3 S (flr S ql) (flp S ql) ql := by
      unfold hel; rw [hus', hps', flp_above hl]; field_simp; ring
    rw [e1, e2, hus', hps', flp_above hl]

theorem mirror_above {q : HState ℝ} (h : AboveFloors S q) : AboveFloors S (mirror q) := ⟨h.d, h.p⟩

theorem mirror_mirror (q : HState ℝ) : mirror (mirror q) = q := by unfold mirror; simp

theorem mirrorFlux_mirrorFlux (f : HState ℝ) : mirrorFlux (mirrorFlux f) = f := by
  unfold mirrorFlux; simp

theorem riemann_hllc_contact_neg (d3 : Bool) (hS : GasParams S) {ql qr : HState ℝ}
    (hl : AboveFloors S ql) (hr : AboveFloors S qr) (hu : ql.u = qr.u) (hp : ql.p = qr.p)
    (h : ql.u < 0) : riemann_hllc d3 S ql qr = eulerFlux d3 S.gamma0 qr := by
  have a := riemann_hllc_contact_pos d3 hS (ql := mirror qr) (qr := mirror ql) (mirror_above hr)
    (mirror_above hl) (by rw [mirror_u, mirror_u, hu]) hp.symm (by rw [mirror_u]; linarith)
  rw [riemann_hllc_mirror d3 hS, eulerFlux_mirror] at a
  rw [← mirrorFlux_mirrorFlux (riemann_hllc d3 S ql qr), a, mirrorFlux_mirrorFlux]

theorem riemann_hllc_contact_zero (d3 : Bool) (hS : GasParams S) {ql qr : HState ℝ}
    (hl : AboveFloors S ql) (hr : AboveFloors S qr) (hu : ql.u = qr.u) (hp : ql.p = qr.p)
    (h : ql.u = 0) : riemann_hllc d3 S ql qr = ⟨0, 0, ql.p, 0, 0⟩ := by
  obtain ⟨hus', hps'⟩ := contact_star hS hl hr hu hp
  have ho := (hllc_order hS ql qr).1
  rw [riemann_hllc_real, hG_starl d3 hS ql qr (by linarith) (by linarith)]
  unfold G
  rw [hus', h, hps']
  ext <;> simp

end Verif
