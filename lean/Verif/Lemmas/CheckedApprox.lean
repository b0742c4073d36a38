import Verif.Lemmas.Checked

/-! Helper lemmas: the approximate Riemann solver in checked arithmetic. -/

namespace Verif

open Spec CReal

variable {S : Settings ℝ}

theorem gamma6_range (hS : GasParams S) (hD : DerivedParams S) : 0 < S.gamma6 ∧ S.gamma6 < 1 := by
  have := hS.gamma
  rw [hD.gamma6]
  constructor
  · positivity
  · rw [div_lt_one (by linarith)]; linarith

theorem ww_pos (hS : GasParams S) (hD : DerivedParams S) {c p x : ℝ} (hc : 0 < c) (hp : 0 < p)
    (hx : 0 ≤ x) : 0 < c * (1 + S.gamma6 * (x - p) / p) := by
  obtain ⟨h0, h1⟩ := gamma6_range hS hD
  apply mul_pos hc
  have : 1 + S.gamma6 * (x - p) / p = (1 - S.gamma6) + S.gamma6 * x / p := by field_simp; ring
  rw [this]
  have : 0 ≤ S.gamma6 * x / p := by positivity
  linarith

theorem ck_newton (hS : GasParams S) (hD : DerivedParams S) {cl cr pl pr ul ur x : ℝ} (hcl : 0 < cl)
    (hcr : 0 < cr) (hpl : 0 < pl) (hpr : 0 < pr) (hx : 0 ≤ x) :
    approxNewton (okSettings S) (ok cl) (ok cr) (ok pl) (ok pr) (ok ul) (ok ur) (ok x) =
      (ok (approxNewton S cl cr pl pr ul ur x).1, ok (approxNewton S cl cr pl pr ul ur x).2) ∧
    0 ≤ (approxNewton S cl cr pl pr ul ur x).1 := by
  have a1 := ww_pos hS hD hcl hpl hx
  have a2 := ww_pos hS hD hcr hpr hx
  have b1 := a1.le
  have b2 := a2.le
  have w1 := Real.sqrt_pos.2 a1
  have w2 := Real.sqrt_pos.2 a2
  have n1 : ¬ (√(cl * (1 + S.gamma6 * (x - pl) / pl)) * √(cl * (1 + S.gamma6 * (x - pl) / pl)) + cl = 0) := by
    positivity
  have n2 : ¬ (√(cr * (1 + S.gamma6 * (x - pr) / pr)) * √(cr * (1 + S.gamma6 * (x - pr) / pr)) + cr = 0) := by
    positivity
  have z1 := w1.ne'
  have z2 := w2.ne'
  have p1 := hpl.ne'
  have p2 := hpr.ne'
  unfold approxNewton okSettings
  rops
  ck [b1, b2, n1, n2, z1, z2, p1, p2]
  generalize √(cl * (1 + S.gamma6 * (x - pl) / pl)) = wl at *
  generalize √(cr * (1 + S.gamma6 * (x - pr) / pr)) = wr at *
  have n3 : ¬ (2 * wr * wr * wr / (wr * wr + cr) + 2 * wl * wl * wl / (wl * wl + cl) = 0) := by
    positivity
  ck [n3]
  generalize 2 * wr * wr * wr / (wr * wr + cr) * (2 * wl * wl * wl / (wl * wl + cl)) /
    (2 * wr * wr * wr / (wr * wr + cr) + 2 * wl * wl * wl / (wl * wl + cl)) *
    (ul - (x - pl) / wl - (ur + (x - pr) / wr)) = t
  have h0 : 0 ≤ x + max t (-x) := by have := le_max_right t (-x); linarith
  have hpp : 0 < S.smallpp := by rw [hD.smallpp]; exact mul_pos hS.smallr hS.smallp
  have n4 : ¬ (x + max t (-x) + S.smallpp = 0) := by intro h; linarith
  ck [n4]
  exact ⟨trivial, h0⟩

theorem ck_loop (hS : GasParams S) (hD : DerivedParams S) {cl cr pl pr ul ur : ℝ} (hcl : 0 < cl)
    (hcr : 0 < cr) (hpl : 0 < pl) (hpr : 0 < pr) (n : Nat) {x : ℝ} (conv : ℝ) (hx : 0 ≤ x) :
    approxLoop (okSettings S) (ok cl) (ok cr) (ok pl) (ok pr) (ok ul) (ok ur) n (ok x) (ok conv) =
      ok (approxLoop S cl cr pl pr ul ur n x conv) ∧ 0 ≤ approxLoop S cl cr pl pr ul ur n x conv := by
  induction n generalizing x conv with
  | zero => exact ⟨rfl, hx⟩
  | succ n ih =>
    obtain ⟨h1, h2⟩ := ck_newton (ul := ul) (ur := ur) hS hD hcl hcr hpl hpr hx
    rw [approxLoop, h1, approxLoop]
    rops
    ck []
    by_cases h : 1 / 1000000 < conv
    · simp only [h, if_true]; exact ih _ h2
    · simp only [h, if_false]; exact ⟨trivial, hx⟩

theorem ck_star (hS : GasParams S) (hD : DerivedParams S) {rl ul pl rr ur pr : ℝ} (hrl : 0 < rl)
    (hrr : 0 < rr) (hpl : 0 < pl) (hpr : 0 < pr) :
    approxStar (okSettings S) (ok rl) (ok ul) (ok pl) (ok rr) (ok ur) (ok pr) =
      (ok (approxStar S rl ul pl rr ur pr).1, ok (approxStar S rl ul pl rr ur pr).2.1,
       ok (approxStar S rl ul pl rr ur pr).2.2.1, ok (approxStar S rl ul pl rr ur pr).2.2.2) ∧
    0 ≤ (approxStar S rl ul pl rr ur pr).1 ∧
    (approxStar S rl ul pl rr ur pr).2.2.1 =
      √(S.gamma0 * pl * rl * (1 + S.gamma6 * ((approxStar S rl ul pl rr ur pr).1 - pl) / pl)) ∧
    (approxStar S rl ul pl rr ur pr).2.2.2 =
      √(S.gamma0 * pr * rr * (1 + S.gamma6 * ((approxStar S rl ul pl rr ur pr).1 - pr) / pr)) := by
  have hg := hS.gamma
  have hcl : 0 < S.gamma0 * pl * rl := by positivity
  have hcr : 0 < S.gamma0 * pr * rr := by positivity
  have b1 := hcl.le
  have b2 := hcr.le
  have n1 : ¬ (√(S.gamma0 * pl * rl) + √(S.gamma0 * pr * rr) = 0) := by positivity
  unfold approxStar
  rops
  have e : okSettings S = { gamma0 := ok S.gamma0, gamma6 := ok S.gamma6, smallr := ok S.smallr, smallc := ok S.smallc, smallp := ok S.smallp, smallpp := ok S.smallpp, slope_type := ok S.slope_type, cfl := ok S.cfl, dx := ok S.dx, dy := ok S.dy, dz := ok S.dz, riemann := S.riemann } := rfl
  have e1 : (okSettings S).gamma0 = ok S.gamma0 := rfl
  have e2 : (okSettings S).gamma6 = ok S.gamma6 := rfl
  simp only [e1, e2]
  ck [b1, b2, n1]
  have hx : 0 ≤ max ((√(S.gamma0 * pr * rr) * pl + √(S.gamma0 * pl * rl) * pr + √(S.gamma0 * pl * rl) * √(S.gamma0 * pr * rr) * (ul - ur)) / (√(S.gamma0 * pl * rl) + √(S.gamma0 * pr * rr))) 0 := le_max_right _ _
  obtain ⟨h1, h2⟩ := ck_loop (ul := ul) (ur := ur) hS hD hcl hcr hpl hpr 10 1 hx
  rw [h1]
  generalize approxLoop S (S.gamma0 * pl * rl) (S.gamma0 * pr * rr) pl pr ul ur 10 (max ((√(S.gamma0 * pr * rr) * pl + √(S.gamma0 * pl * rl) * pr + √(S.gamma0 * pl * rl) * √(S.gamma0 * pr * rr) * (ul - ur)) / (√(S.gamma0 * pl * rl) + √(S.gamma0 * pr * rr))) 0) 1 = x at *
  have a1 := ww_pos hS hD hcl hpl h2
  have a2 := ww_pos hS hD hcr hpr h2
  have c1 := a1.le
  have c2 := a2.le
  have z1 := (Real.sqrt_pos.2 a1).ne'
  have z2 := (Real.sqrt_pos.2 a2).ne'
  have p1 := hpl.ne'
  have p2 := hpr.ne'
  ck [c1, c2, z1, z2, p1, p2]
  exact ⟨trivial, h2, trivial, trivial⟩

theorem eqb_self_real (x : ℝ) : ROps.eqb x x = true := by rw [rops_eqb]

theorem eqb_self_ok (x : ℝ) : ROps.eqb (ok x) (ok x) = true := by rw [ck_eqb]

theorem ck_sample (hS : GasParams S) (hD : DerivedParams S) {sgnm ps us ro uo po wo : ℝ} (hr : 0 < ro)
    (hp : 0 < po) (hps : 0 ≤ ps)
    (hw : wo = √(S.gamma0 * po * ro * (1 + S.gamma6 * (ps - po) / po))) :
    approxSample (okSettings S) (ok sgnm) (ok ps) (ok us) (ok ro) (ok uo) (ok po) (ok wo) =
      (ok (approxSample S sgnm ps us ro uo po wo).1, ok (approxSample S sgnm ps us ro uo po wo).2.1,
       ok (approxSample S sgnm ps us ro uo po wo).2.2) := by
  have hg := hS.gamma
  have hc : 0 < S.gamma0 * po * ro := by positivity
  have hww := ww_pos hS hD hc hp hps
  have hw0 : 0 < wo := by rw [hw]; exact Real.sqrt_pos.2 hww
  have hw2 : wo * wo = ro * ((S.gamma0 - 1) * po + (S.gamma0 + 1) * ps) / 2 := by
    rw [hw, Real.mul_self_sqrt hww.le, hD.gamma6]; field_simp; ring
  have hDn : 0 < (S.gamma0 - 1) * po + (S.gamma0 + 1) * ps := by
    have : 0 < (S.gamma0 - 1) * po := mul_pos (by linarith) hp
    have : 0 ≤ (S.gamma0 + 1) * ps := by positivity
    linarith
  have n1 : ¬ (1 + ro * (po - ps) / (wo * wo) = 0) := by
    rw [hw2]
    have : 1 + ro * (po - ps) / (ro * ((S.gamma0 - 1) * po + (S.gamma0 + 1) * ps) / 2) =
        ((S.gamma0 + 1) * po + (S.gamma0 - 1) * ps) / ((S.gamma0 - 1) * po + (S.gamma0 + 1) * ps) := by
      have key : ∀ D : ℝ, D ≠ 0 → 1 + ro * (po - ps) / (ro * D / 2) = (D + 2 * (po - ps)) / D := by
        intro D hD; field_simp
      rw [key _ hDn.ne']; congr 1; ring
    rw [this]
    have : 0 < (S.gamma0 + 1) * po := by positivity
    have : 0 ≤ (S.gamma0 - 1) * ps := mul_nonneg (by linarith) hps
    exact (div_pos (by linarith) hDn).ne'
  have n2 : ¬ (wo * wo = 0) := by positivity
  have n3 : ¬ (ro = 0) := hr.ne'
  have n4 : ∀ x, ¬ (max x S.smallr = 0) := fun x => (lt_max_of_lt_right hS.smallr).ne'
  have n5 : ∀ x y : ℝ, ¬ (max x (S.smallc + |y|) = 0) := fun x y =>
    (lt_max_of_lt_right (by have := hS.smallc; positivity)).ne'
  have n6 : ∀ x : ℝ, 0 ≤ |x| := abs_nonneg
  unfold approxSample okSettings
  rops
  ck [n1, n2, n3, n4, n6]
  by_cases h : po ≤ ps
  · simp only [h, if_true]
    ck [n5, eqb_self_ok, eqb_self_real, Bool.not_true, Bool.false_eq_true, if_false]
    split_ifs <;> first | rfl | contradiction
  · simp only [h, if_false]
    ck [n5, eqb_self_ok, eqb_self_real, Bool.not_true, Bool.false_eq_true, if_false]
    split_ifs <;> first | rfl | contradiction

theorem ck_cmpflx (d3 : Bool) (hS : GasParams S) (q : HState ℝ) :
    cmpflx d3 (okSettings S) (okState q) = okState (cmpflx d3 S q) := by
  have g1 : ¬ (S.gamma0 - 1 = 0) := by have := hS.gamma; linarith
  unfold cmpflx okSettings okState
  cases d3 <;> rops <;> ck [g1, if_true, if_false, Bool.false_eq_true]

theorem ck_approx (d3 : Bool) (hS : GasParams S) (hD : DerivedParams S) (ql qr : HState ℝ) :
    riemann_approx d3 (okSettings S) (okState ql) (okState qr) = okState (riemann_approx d3 S ql qr) := by
  have r1 := flr_pos hS ql
  have r2 := flr_pos hS qr
  have p1 := flp_pos hS ql
  have p2 := flp_pos hS qr
  obtain ⟨h1, h2, h3, h4⟩ := ck_star (ul := ql.u) (ur := qr.u) hS hD r1 r2 p1 p2
  unfold riemann_approx
  have a1 : ROps.fmax (okState ql).d (okSettings S).smallr = ok (flr S ql) := rfl
  have a2 : ROps.fmax (okState qr).d (okSettings S).smallr = ok (flr S qr) := rfl
  have a3 : ROps.fmax (okState ql).p (ok (flr S ql) * (okSettings S).smallp) = ok (flp S ql) := rfl
  have a4 : ROps.fmax (okState qr).p (ok (flr S qr) * (okSettings S).smallp) = ok (flp S qr) := rfl
  have b1 : max ql.d S.smallr = flr S ql := rfl
  have b2 : max qr.d S.smallr = flr S qr := rfl
  have b3 : max ql.p (flr S ql * S.smallp) = flp S ql := rfl
  have b4 : max qr.p (flr S qr * S.smallp) = flp S qr := rfl
  have u1 : (okState ql).u = ok ql.u := rfl
  have u2 : (okState qr).u = ok qr.u := rfl
  simp only [a1, a2, a3, a4, u1, u2, h1]
  rops
  simp only [b1, b2, b3, b4]
  generalize approxStar S (flr S ql) ql.u (flp S ql) (flr S qr) qr.u (flp S qr) = st at *
  ck []
  by_cases h : st.2.1 < 0
  · simp only [h, if_true, abs_one, show ¬ ((0:ℝ) < -1) by norm_num, if_false]
    rw [ck_sample hS hD r2 p2 h2 h4, ← ck_cmpflx d3 hS]
    cases d3 <;> rfl
  · simp only [h, if_false, abs_one, show ((0:ℝ) < 1) by norm_num, if_true]
    rw [ck_sample hS hD r1 p1 h2 h3, ← ck_cmpflx d3 hS]
    cases d3 <;> rfl

end Verif
