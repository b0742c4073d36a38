import Verif.Lemmas.Riemann

/-! Helper lemmas on HLLC: the flux by region, mirror symmetry. -/

namespace Verif

open Spec

variable {S : Settings ℝ}

theorem hps_left (hS : GasParams S) (ql qr : HState ℝ) :
    hps S ql qr = flp S ql + hrcl S ql qr * (ql.u - hus S ql qr) := by
  obtain ⟨h1, h2⟩ := hrc_pos hS ql qr
  have h : hrcr S ql qr + hrcl S ql qr ≠ 0 := by linarith
  unfold hps hus
  field_simp
  ring

theorem hps_right (hS : GasParams S) (ql qr : HState ℝ) :
    hps S ql qr = flp S qr + hrcr S ql qr * (hus S ql qr - qr.u) := by
  obtain ⟨h1, h2⟩ := hrc_pos hS ql qr
  have h : hrcr S ql qr + hrcl S ql qr ≠ 0 := by linarith
  unfold hps hus
  field_simp
  ring

/-- At `SL = 0` the left star flux is the left flux. -/
theorem G_left (d3 : Bool) (hS : GasParams S) (ql qr : HState ℝ) (h : hSL S ql qr = 0) :
    G (hrl S ql qr) (hus S ql qr) (hps S ql qr) (hel d3 S ql qr) =
      G (flr S ql) ql.u (flp S ql) (hllcEtot d3 S (flr S ql) (flp S ql) ql) := by
  have ho := (hllc_order hS ql qr).1
  rw [h] at ho
  have h0 : hus S ql qr ≠ 0 := ho.ne'
  have hp := hps_left hS ql qr
  have hcl : hrcl S ql qr = flr S ql * ql.u := by unfold hrcl; rw [h]; ring
  rw [hcl] at hp
  unfold G hrl hel
  rw [h]
  ext
  · simp only []; field_simp; ring
  · simp only []; rw [hp]; field_simp; ring
  · simp only []; field_simp; ring

theorem G_right (d3 : Bool) (hS : GasParams S) (ql qr : HState ℝ) (h : hSR S ql qr = 0) :
    G (hrr S ql qr) (hus S ql qr) (hps S ql qr) (her d3 S ql qr) =
      G (flr S qr) qr.u (flp S qr) (hllcEtot d3 S (flr S qr) (flp S qr) qr) := by
  have ho := (hllc_order hS ql qr).2
  rw [h] at ho
  have h0 : hus S ql qr ≠ 0 := ho.ne
  have hp := hps_right hS ql qr
  have hcr : hrcr S ql qr = -(flr S qr * qr.u) := by unfold hrcr; rw [h]; ring
  rw [hcr] at hp
  unfold G hrr her
  rw [h]
  ext
  · simp only []; field_simp; ring
  · simp only []; rw [hp]; field_simp; ring
  · simp only []; field_simp; ring

theorem hG_left (d3 : Bool) (hS : GasParams S) (ql qr : HState ℝ) (h : 0 ≤ hSL S ql qr) :
    hG d3 S ql qr = G (flr S ql) ql.u (flp S ql) (hllcEtot d3 S (flr S ql) (flp S ql) ql) := by
  unfold hG
  rcases h.lt_or_eq with h | h
  · rw [if_pos h]
  · have ho := (hllc_order hS ql qr).1
    rw [← h] at ho
    rw [if_neg (by rw [← h]; exact lt_irrefl _), if_pos ho, G_left d3 hS ql qr h.symm]

theorem hG_starl (d3 : Bool) (hS : GasParams S) (ql qr : HState ℝ) (h : hSL S ql qr ≤ 0)
    (h' : 0 ≤ hus S ql qr) :
    hG d3 S ql qr = G (hrl S ql qr) (hus S ql qr) (hps S ql qr) (hel d3 S ql qr) := by
  have ho := hllc_order hS ql qr
  unfold hG
  rw [if_neg (not_lt.2 h)]
  rcases h'.lt_or_eq with h' | h'
  · rw [if_pos h']
  · rw [← h'] at ho
    rw [if_neg (by rw [← h']; exact lt_irrefl _), if_pos ho.2]
    unfold G
    rw [← h']; simp

theorem hG_starr (d3 : Bool) (hS : GasParams S) (ql qr : HState ℝ) (h : 0 ≤ hSR S ql qr)
    (h' : hus S ql qr ≤ 0) :
    hG d3 S ql qr = G (hrr S ql qr) (hus S ql qr) (hps S ql qr) (her d3 S ql qr) := by
  have ho := hllc_order hS ql qr
  unfold hG
  rw [if_neg (by linarith), if_neg (not_lt.2 h')]
  rcases h.lt_or_eq with h | h
  · rw [if_pos h]
  · rw [if_neg (by rw [← h]; exact lt_irrefl _), G_right d3 hS ql qr h.symm]

theorem hG_right (d3 : Bool) (hS : GasParams S) (ql qr : HState ℝ) (h : hSR S ql qr ≤ 0) :
    hG d3 S ql qr = G (flr S qr) qr.u (flp S qr) (hllcEtot d3 S (flr S qr) (flp S qr) qr) := by
  have ho := hllc_order hS ql qr
  unfold hG
  rw [if_neg (by linarith), if_neg (by linarith), if_neg (by linarith)]

/-! Mirror images -/

theorem cf_mirror (q : HState ℝ) : cf S (mirror q) = cf S q := rfl
theorem hC_mirror (ql qr : HState ℝ) : hC S (mirror qr) (mirror ql) = hC S ql qr := max_comm _ _

theorem hSL_mirror (ql qr : HState ℝ) : hSL S (mirror qr) (mirror ql) = -hSR S ql qr := by
  unfold hSL hSR
  rw [hC_mirror, mirror_u, mirror_u, min_neg_neg, max_comm qr.u]; ring

theorem hSR_mirror (ql qr : HState ℝ) : hSR S (mirror qr) (mirror ql) = -hSL S ql qr := by
  unfold hSL hSR
  rw [hC_mirror, mirror_u, mirror_u, max_neg_neg, min_comm qr.u]; ring

theorem hrcl_mirror (ql qr : HState ℝ) : hrcl S (mirror qr) (mirror ql) = hrcr S ql qr := by
  unfold hrcl hrcr
  rw [hSL_mirror, mirror_u, flr_mirror]; ring

theorem hrcr_mirror (ql qr : HState ℝ) : hrcr S (mirror qr) (mirror ql) = hrcl S ql qr := by
  unfold hrcl hrcr
  rw [hSR_mirror, mirror_u, flr_mirror]; ring

theorem hus_mirror (ql qr : HState ℝ) : hus S (mirror qr) (mirror ql) = -hus S ql qr := by
  unfold hus
  rw [hrcl_mirror, hrcr_mirror, mirror_u, mirror_u, flp_mirror, flp_mirror, ← neg_div, add_comm (hrcl S ql qr)]
  congr 1; ring

theorem hps_mirror (ql qr : HState ℝ) : hps S (mirror qr) (mirror ql) = hps S ql qr := by
  unfold hps
  rw [hrcl_mirror, hrcr_mirror, mirror_u, mirror_u, flp_mirror, flp_mirror, add_comm (hrcl S ql qr)]
  congr 1; ring

theorem etot_mirror (d3 : Bool) (r p : ℝ) (q : HState ℝ) :
    hllcEtot d3 S r p (mirror q) = hllcEtot d3 S r p q := by
  unfold hllcEtot mirror
  rops
  cases d3 <;> simp

theorem hrl_mirror (ql qr : HState ℝ) : hrl S (mirror qr) (mirror ql) = hrr S ql qr := by
  unfold hrl hrr
  rw [hSL_mirror, hus_mirror, mirror_u, flr_mirror, ← neg_div_neg_eq]
  congr 1 <;> ring

theorem hrr_mirror (ql qr : HState ℝ) : hrr S (mirror qr) (mirror ql) = hrl S ql qr := by
  unfold hrl hrr
  rw [hSR_mirror, hus_mirror, mirror_u, flr_mirror, ← neg_div_neg_eq]
  congr 1 <;> ring

theorem hel_mirror (d3 : Bool) (ql qr : HState ℝ) :
    hel d3 S (mirror qr) (mirror ql) = her d3 S ql qr := by
  unfold hel her
  rw [hSL_mirror, hus_mirror, hps_mirror, mirror_u, flr_mirror, flp_mirror, etot_mirror,
    ← neg_div_neg_eq]
  congr 1 <;> ring

theorem her_mirror (d3 : Bool) (ql qr : HState ℝ) :
    her d3 S (mirror qr) (mirror ql) = hel d3 S ql qr := by
  unfold hel her
  rw [hSR_mirror, hus_mirror, hps_mirror, mirror_u, flr_mirror, flp_mirror, etot_mirror,
    ← neg_div_neg_eq]
  congr 1 <;> ring

theorem G_mirror (r u p e : ℝ) : G r (-u) p e = (-(G r u p e).1, (G r u p e).2.1, -(G r u p e).2.2) := by
  unfold G; ext <;> simp

theorem hG_mirror (d3 : Bool) (hS : GasParams S) (ql qr : HState ℝ) :
    hG d3 S (mirror qr) (mirror ql) =
      (-(hG d3 S ql qr).1, (hG d3 S ql qr).2.1, -(hG d3 S ql qr).2.2) := by
  rcases le_total 0 (hSL S ql qr) with h | h
  · rw [hG_left d3 hS ql qr h, hG_right d3 hS (mirror qr) (mirror ql)
      (by rw [hSR_mirror]; linarith), etot_mirror, mirror_u, flr_mirror, flp_mirror, G_mirror]
  · rcases le_total 0 (hus S ql qr) with h' | h'
    · rw [hG_starl d3 hS ql qr h h', hG_starr d3 hS (mirror qr) (mirror ql)
        (by rw [hSR_mirror]; linarith) (by rw [hus_mirror]; linarith), hrr_mirror, hus_mirror,
        hps_mirror, her_mirror, G_mirror]
    · rcases le_total 0 (hSR S ql qr) with h'' | h''
      · rw [hG_starr d3 hS ql qr h'' h', hG_starl d3 hS (mirror qr) (mirror ql)
          (by rw [hSL_mirror]; linarith) (by rw [hus_mirror]; linarith), hrl_mirror, hus_mirror,
          hps_mirror, hel_mirror, G_mirror]
      · rw [hG_right d3 hS ql qr h'', hG_left d3 hS (mirror qr) (mirror ql)
          (by rw [hSL_mirror]; linarith), etot_mirror, mirror_u, flr_mirror, flp_mirror, G_mirror]

theorem riemann_hllc_mirror (d3 : Bool) (hS : GasParams S) (ql qr : HState ℝ) :
    riemann_hllc d3 S (mirror qr) (mirror ql) = mirrorFlux (riemann_hllc d3 S ql qr) := by
  rw [riemann_hllc_real, riemann_hllc_real, hG_mirror d3 hS]
  unfold mirrorFlux
  have e : ∀ a x y : ℝ, -a * (if 0 < -a then y else x) = -(a * (if 0 < a then x else y)) := by
    intro a x y
    rcases lt_trichotomy a 0 with h | h | h
    · rw [if_pos (by linarith), if_neg (by linarith)]; ring
    · subst h; simp
    · rw [if_neg (by linarith), if_pos h]; ring
  ext <;> simp only []
  · exact e _ _ _
  · cases d3
    · simp
    · simp only [if_true]; exact e _ _ _

/-- Identical states. -/
theorem riemann_hllc_consistent (d3 : Bool) (hS : GasParams S) {q : HState ℝ}
    (hq : AboveFloors S q) : riemann_hllc d3 S q q = eulerFlux d3 S.gamma0 q := by
  have hγ : S.gamma0 - 1 ≠ 0 := by have := hS.gamma; linarith
  obtain ⟨h1, h2⟩ := hrc_pos hS q q
  have hne : hrcr S q q + hrcl S q q ≠ 0 := by linarith
  have hu : hus S q q = q.u := by unfold hus; field_simp; ring
  have hp : hps S q q = flp S q := by rw [hps_left hS, hu]; ring
  have ho := hllc_order hS q q
  rw [hu] at ho
  have n1 : hSL S q q - q.u ≠ 0 := by linarith
  have n2 : hSR S q q - q.u ≠ 0 := by linarith
  have hrl' : hrl S q q = flr S q := by unfold hrl; rw [hu]; field_simp
  have hrr' : hrr S q q = flr S q := by unfold hrr; rw [hu]; field_simp
  have hel' : hel d3 S q q = hllcEtot d3 S (flr S q) (flp S q) q := by
    unfold hel; rw [hu, hp]; field_simp; ring
  have her' : her d3 S q q = hllcEtot d3 S (flr S q) (flp S q) q := by
    unfold her; rw [hu, hp]; field_simp; ring
  have hG' : hG d3 S q q = G (flr S q) q.u (flp S q) (hllcEtot d3 S (flr S q) (flp S q) q) := by
    unfold hG
    rw [hrl', hrr', hel', her', hu, hp]
    simp only [ite_self]
  rw [riemann_hllc_real, hG', flr_above hq, flp_above hq]
  unfold G eulerFlux energy hllcEtot
  rops
  cases d3 <;> ext <;> simp only [if_true, if_false, Bool.false_eq_true, ite_self] <;> field_simp <;>
    ring

end Verif
