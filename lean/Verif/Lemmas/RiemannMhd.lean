import Verif.Lemmas.MhdSpeed

/-! Helper lemmas: MHD Riemann solvers over the reals and in checked arithmetic. -/

namespace Verif

open Spec CReal

variable {S : MSettings ℝ}

theorem half_add_self (x : ℝ) : 1 / 2 * (x + x) = x := by ring

theorem isoPressure_real (S : MSettings ℝ) (q : MState ℝ) :
    isoPressure S q.d q.p = (thermal S q).p := by
  unfold isoPressure thermal; rops
  split_ifs <;> simp only [] <;> ring

theorem thermal_eq (S : MSettings ℝ) (q : MState ℝ) :
    thermal S q = { q with p := (thermal S q).p } := by
  unfold thermal; split_ifs <;> rfl

theorem thermal_physical {q : MState ℝ} (hq : Physical q) : Physical (thermal S q) := by
  unfold thermal
  split_ifs with h
  · exact ⟨hq.d, by have := hq.d; simp only; positivity⟩
  · exact hq

theorem find_mhd_flux_real (hg : S.gamma0 ≠ 1) (q : MState ℝ) :
    find_mhd_flux S q = (mhdConserved S.gamma0 (thermal S q), mhdFlux S.gamma0 (thermal S q)) := by
  have hg' : S.gamma0 - 1 ≠ 0 := sub_ne_zero.2 hg
  rw [thermal_eq]
  unfold find_mhd_flux mhdConserved mhdFlux mhdEnergy vDotB fieldSq
  rw [isoPressure_real]
  generalize (thermal S q).p = p
  rops
  simp only [Prod.mk.injEq, MState.mk.injEq]
  refine ⟨⟨trivial, ?_, trivial, trivial, trivial, trivial, trivial, trivial⟩, trivial, ?_, ?_, ?_, ?_, trivial, ?_, ?_⟩
  all_goals first | trivial | ring

theorem llf_consistent (hg : S.gamma0 ≠ 1) (q : MState ℝ) :
    riemann_mhd_llf S q q = mhdFlux S.gamma0 (thermal S q) := by
  unfold riemann_mhd_llf
  rops
  simp only [half_add_self, find_mhd_flux_real hg]
  generalize mhdFlux S.gamma0 (thermal S q) = f
  unfold MState.map4
  ext <;> simp only <;> ring

/-- Speeds of `riemann_hll`. -/
theorem hll_width {ql qr : MState ℝ} (h : 0 < max (find_speed_fast_x S ql) (find_speed_fast_x S qr)) :
    0 < max (max ql.u qr.u + max (find_speed_fast_x S ql) (find_speed_fast_x S qr)) 0 -
      min (min ql.u qr.u - max (find_speed_fast_x S ql) (find_speed_fast_x S qr)) 0 := by
  have h1 := le_max_left ql.u qr.u
  have h2 := min_le_left ql.u qr.u
  have h3 := le_max_left (max ql.u qr.u + max (find_speed_fast_x S ql) (find_speed_fast_x S qr)) 0
  have h4 := min_le_left (min ql.u qr.u - max (find_speed_fast_x S ql) (find_speed_fast_x S qr)) 0
  linarith

theorem hll_consistent (hg : 1 < S.gamma0) {q : MState ℝ} (hq : Physical q) :
    riemann_mhd_hll S q q = mhdFlux S.gamma0 (thermal S q) := by
  have hf : 0 < find_speed_fast_x S q := fastSpeed_pos hq (by linarith) (fieldSq_a q)
  have hw := hll_width (S := S) (ql := q) (qr := q) (by simpa using hf)
  unfold riemann_mhd_hll
  rops
  simp only [half_add_self, find_mhd_flux_real hg.ne']
  generalize mhdFlux S.gamma0 (thermal S q) = f
  generalize mhdConserved S.gamma0 (thermal S q) = u
  generalize max (max q.u q.u + max (find_speed_fast_x S q) (find_speed_fast_x S q)) 0 = sr at *
  generalize min (min q.u q.u - max (find_speed_fast_x S q) (find_speed_fast_x S q)) 0 = sl at *
  unfold MState.map4
  have hne := hw.ne'
  ext <;> simp only <;> rw [div_eq_iff hne] <;> ring

/-! ### HLLD for identical states -/

theorem hlldWaves_same {cf : ℝ} (o : HlldSide ℝ) (hr : 0 < o.r) (hc : 0 < cf) :
    hlldWaves cf cf o o = ⟨o.u - cf, o.u + cf, o.u, o.ptot⟩ := by
  unfold hlldWaves
  rops
  simp only [min_self, max_self, HlldWaves.mk.injEq, true_and]
  have : o.r * (o.u + cf - o.u) + o.r * (o.u - (o.u - cf)) ≠ 0 := by
    have : 0 < o.r * cf := mul_pos hr hc
    intro h; nlinarith
  constructor <;> rw [div_eq_iff this] <;> ring

theorem hlldStar_same {a s : ℝ} (o : HlldSide ℝ) (hs : s ≠ o.u)
    (he : hlldEstar a s o.u o ≠ 0 ∨ (o.b = 0 ∧ o.c = 0)) (hv : o.vdotb = o.u * a + o.v * o.b + o.w * o.c) :
    hlldStar a s o.u o.ptot o =
      ⟨o.r, o.v, o.w, o.b, o.c, o.vdotb, o.etot, Real.sqrt o.r, |a| / Real.sqrt o.r⟩ := by
  have h0 : s - o.u ≠ 0 := sub_ne_zero.2 hs
  have hb : o.b * (o.r * (s - o.u) * (s - o.u) - a * a) / hlldEstar a s o.u o = o.b := by
    rcases he with he | ⟨h1, h2⟩
    · rw [div_eq_iff he]; unfold hlldEstar; rops
    · rw [h1]; simp
  have hc : o.c * (o.r * (s - o.u) * (s - o.u) - a * a) / hlldEstar a s o.u o = o.c := by
    rcases he with he | ⟨h1, h2⟩
    · rw [div_eq_iff he]; unfold hlldEstar; rops
    · rw [h2]; simp
  have hr : o.r * (s - o.u) / (s - o.u) = o.r := by field_simp
  unfold hlldStar
  rops
  simp only [hb, hc, hr, sub_self, mul_zero, zero_div, sub_zero, ite_self]
  rw [← hv]
  simp only [HlldStar.mk.injEq, true_and, and_true]
  rw [div_eq_iff h0]; ring

theorem hlldMid_same {a sgnm u : ℝ} (L : HlldStar ℝ) (hs : 0 < L.sqrr)
    (hv : L.vdotb = u * a + L.v * L.b + L.w * L.c) :
    hlldMid a sgnm u L L = ⟨L.v, L.w, L.b, L.c, L.vdotb⟩ := by
  have h0 : L.sqrr + L.sqrr ≠ 0 := by linarith
  have e : ∀ x y : ℝ, (L.sqrr * x + L.sqrr * x + y * (x - x)) / (L.sqrr + L.sqrr) = x := by
    intro x y; rw [div_eq_iff h0]; ring
  have e1 : ∀ x z : ℝ, (L.sqrr * x + L.sqrr * x + sgnm * (z - z)) / (L.sqrr + L.sqrr) = x := by
    intro x y; rw [div_eq_iff h0]; ring
  have e2 : ∀ x z : ℝ, (L.sqrr * x + L.sqrr * x + sgnm * L.sqrr * L.sqrr * (z - z)) /
      (L.sqrr + L.sqrr) = x := by
    intro x y; rw [div_eq_iff h0]; ring
  unfold hlldMid
  rops
  simp only [e1, e2, ← hv]

/-- The flux formula of HLLD at an unperturbed state. -/
theorem hlldFlux_outer (S : MSettings ℝ) (hg : S.gamma0 ≠ 1) (q : MState ℝ) :
    hlldFlux q.a (hlldOuter S q.a q.p q).r (hlldOuter S q.a q.p q).u (hlldOuter S q.a q.p q).v
      (hlldOuter S q.a q.p q).w (hlldOuter S q.a q.p q).b (hlldOuter S q.a q.p q).c
      (hlldOuter S q.a q.p q).ptot (hlldOuter S q.a q.p q).etot (hlldOuter S q.a q.p q).vdotb =
      mhdFlux S.gamma0 q := by
  have hg' : S.gamma0 - 1 ≠ 0 := sub_ne_zero.2 hg
  unfold hlldFlux hlldOuter mhdFlux mhdEnergy vDotB fieldSq
  rops
  simp only [MState.mk.injEq]
  refine ⟨trivial, ?_, ?_, trivial, trivial, trivial, ?_, ?_⟩
  all_goals ring

theorem hlldSample_same {a sgnm cf : ℝ} (o : HlldSide ℝ) (hr : 0 < o.r) (hc : 0 < cf)
    (he : hlldEstar a (o.u - cf) o.u o ≠ 0 ∨ (o.b = 0 ∧ o.c = 0))
    (hv : o.vdotb = o.u * a + o.v * o.b + o.w * o.c) :
    hlldSample a sgnm ⟨o.u - cf, o.u + cf, o.u, o.ptot⟩ o o =
      hlldFlux a o.r o.u o.v o.w o.b o.c o.ptot o.etot o.vdotb := by
  have he2 : hlldEstar a (o.u + cf) o.u o ≠ 0 ∨ (o.b = 0 ∧ o.c = 0) := by
    refine he.imp_left fun h => ?_
    convert h using 1
    unfold hlldEstar; rops; ring
  have h1 := hlldStar_same (a := a) (s := o.u - cf) o (by linarith) he hv
  have h2 := hlldStar_same (a := a) (s := o.u + cf) o (by linarith) he2 hv
  have hs : 0 < Real.sqrt o.r := Real.sqrt_pos.2 hr
  have h3 := hlldMid_same (a := a) (sgnm := sgnm) (u := o.u)
    ⟨o.r, o.v, o.w, o.b, o.c, o.vdotb, o.etot, Real.sqrt o.r, |a| / Real.sqrt o.r⟩ hs hv
  unfold hlldSample
  simp only [h1, h2, h3]
  rops
  simp only [sub_self, mul_zero, sub_zero, add_zero, ite_self]

theorem estar_same_pos {t : MState ℝ} (ht : Physical t) (hg : 0 < S.gamma0)
    (h : t.b ≠ 0 ∨ t.c ≠ 0 ∨ t.a ^ 2 / t.d < soundSq S.gamma0 t) :
    0 < hlldEstar t.a ((hlldOuter S t.a t.p t).u - find_speed_fast_x S t) (hlldOuter S t.a t.p t).u
      (hlldOuter S t.a t.p t) := by
  have h1 := alfven_lt_fastSq ht hg h
  rw [← fastSpeed_sq ht hg (fieldSq_a t)] at h1
  rw [div_lt_iff₀ ht.d] at h1
  unfold hlldEstar hlldOuter find_speed_fast_x
  rops
  nlinarith

theorem hlld_consistent (hg : 1 < S.gamma0) {q : MState ℝ} (hq : Physical q) :
    riemann_mhd_hlld S q q = mhdFlux S.gamma0 (thermal S q) := by
  have hq' := thermal_physical (S := S) hq
  unfold riemann_mhd_hlld
  rops
  simp only [half_add_self, isoPressure_real]
  have e : (⟨q.d, (thermal S q).p, q.u, q.v, q.w, q.a, q.b, q.c⟩ : MState ℝ) = thermal S q :=
    (thermal_eq S q).symm
  simp only [e]
  have ea : q.a = (thermal S q).a := by rw [thermal_eq]
  rw [ea]
  generalize thermal S q = t at *
  clear ea e
  have hf : 0 < find_speed_fast_x S t := fastSpeed_pos hq' (by linarith) (fieldSq_a t)
  rw [hlldWaves_same _ hq'.d hf, hlldSample_same _ hq'.d hf ?_ rfl, hlldFlux_outer S hg.ne']
  by_cases hbc : t.b = 0 ∧ t.c = 0
  · exact Or.inr hbc
  left
  refine (estar_same_pos hq' (by linarith) ?_).ne'
  by_cases h : t.b = 0
  · exact Or.inr (Or.inl fun h2 => hbc ⟨h, h2⟩)
  · exact Or.inl h

end Verif
