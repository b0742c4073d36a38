import Verif.Lemmas.RiemannMhd

/-! Helper lemmas: order of the waves of HLLD and definedness of all operations. -/

namespace Verif

open Spec CReal

variable {S : MSettings ℝ}

/-! ### order of the waves -/

/-- Pressure bound: a fast wave carries more than the total pressure of its state. -/
theorem fast_carries {q : MState ℝ} {bn : ℝ} (hq : Physical q) (hg : 1 < S.gamma0)
    (hb : bn ^ 2 ≤ fieldSq q) {m : ℝ} (hm : fastSpeed S q bn ≤ m) :
    q.p + 1 / 2 * (fieldSq q - bn ^ 2) < q.d * (m * m) := by
  have h0 := fastSpeed_pos (S := S) hq (by linarith) hb
  have h1 := fastSq_ge (S := S) hq.d hb
  rw [← fastSpeed_sq hq (by linarith) hb] at h1
  have h2 : fastSpeed S q bn ^ 2 ≤ m * m := by nlinarith
  have h3 : soundSq S.gamma0 q + (fieldSq q - bn ^ 2) / q.d ≤ m * m := h1.trans h2
  unfold soundSq at h3
  rw [← add_div, div_le_iff₀ hq.d] at h3
  have := hq.p
  nlinarith

theorem hlld_order {rl rr ul ur pl pr m : ℝ} (hl : 0 < rl) (hr : 0 < rr) (hm : 0 < m)
    (h1 : pl - pr < rl * (m * m)) (h2 : pr - pl < rr * (m * m)) :
    let sl := min ul ur - m
    let sr := max ul ur + m
    let us := (rr * (sr - ur) * ur + rl * (ul - sl) * ul + (pl - pr)) /
      (rr * (sr - ur) + rl * (ul - sl))
    0 < rr * (sr - ur) ∧ 0 < rl * (ul - sl) ∧ sl < us ∧ us < sr := by
  intro sl sr us
  have a1 : m ≤ ul - sl := by have := min_le_left ul ur; simp only [sl]; linarith
  have a2 : m ≤ ur - sl := by have := min_le_right ul ur; simp only [sl]; linarith
  have a3 : m ≤ sr - ul := by have := le_max_left ul ur; simp only [sr]; linarith
  have a4 : m ≤ sr - ur := by have := le_max_right ul ur; simp only [sr]; linarith
  clear_value sl sr
  have b1 : 0 < rr * (sr - ur) := mul_pos hr (by linarith)
  have b2 : 0 < rl * (ul - sl) := mul_pos hl (by linarith)
  have b : 0 < rr * (sr - ur) + rl * (ul - sl) := by linarith
  refine ⟨b1, b2, ?_, ?_⟩
  · rw [lt_div_iff₀ b]
    have c1 : rr * (m * m) ≤ rr * (sr - ur) * (ur - sl) := by
      rw [mul_assoc]; exact mul_le_mul_of_nonneg_left (mul_le_mul a4 a2 hm.le (by linarith)) hr.le
    have c2 : 0 < rl * (ul - sl) * (ul - sl) := mul_pos b2 (by linarith)
    nlinarith
  · rw [div_lt_iff₀ b]
    have c1 : rl * (m * m) ≤ rl * (ul - sl) * (sr - ul) := by
      rw [mul_assoc]; exact mul_le_mul_of_nonneg_left (mul_le_mul a1 a3 hm.le (by linarith)) hl.le
    have c2 : 0 < rr * (sr - ur) * (sr - ur) := mul_pos b1 (by linarith)
    nlinarith

/-! ### HLLD in checked arithmetic -/

def okSide (o : HlldSide ℝ) : HlldSide CReal :=
  ⟨ok o.r, ok o.u, ok o.v, ok o.w, ok o.b, ok o.c, ok o.etot, ok o.ptot, ok o.vdotb⟩
def okStar (o : HlldStar ℝ) : HlldStar CReal :=
  ⟨ok o.r, ok o.v, ok o.w, ok o.b, ok o.c, ok o.vdotb, ok o.etot, ok o.sqrr, ok o.calfven⟩
def okWaves (o : HlldWaves ℝ) : HlldWaves CReal := ⟨ok o.sl, ok o.sr, ok o.ustar, ok o.ptotstar⟩
def okMid (o : HlldMid ℝ) : HlldMid CReal := ⟨ok o.v, ok o.w, ok o.b, ok o.c, ok o.vdotb⟩

theorem ck_isoPressure (S : MSettings ℝ) (d p : ℝ) :
    isoPressure (okMS S) (ok d) (ok p) = ok (isoPressure S d p) := by
  unfold isoPressure okMS; rops; ck []

theorem ck_flux (hg : S.gamma0 ≠ 1) (q : MState ℝ) :
    find_mhd_flux (okMS S) (okM q) = (okM (find_mhd_flux S q).1, okM (find_mhd_flux S q).2) := by
  have g1 : ¬ (S.gamma0 - 1 = 0) := sub_ne_zero.2 hg
  have h := ck_isoPressure S q.d q.p
  have e1 : (okM q).d = ok q.d := rfl
  have e2 : (okM q).p = ok q.p := rfl
  unfold find_mhd_flux
  rw [e1, e2, h]
  generalize isoPressure S q.d q.p = p
  unfold okMS okSettings okM
  ck [g1]
  rops

theorem ck_map4 {f : CReal → CReal → CReal → CReal → CReal} {g : ℝ → ℝ → ℝ → ℝ → ℝ}
    (h : ∀ x y z t, f (ok x) (ok y) (ok z) (ok t) = ok (g x y z t)) (q r s t : MState ℝ) :
    MState.map4 f (okM q) (okM r) (okM s) (okM t) = okM (MState.map4 g q r s t) := by
  unfold MState.map4 okM; simp only [h]

theorem ck_mhd_llf (hg : 1 < S.gamma0) {ql qr : MState ℝ} (hl : Physical ql) (hr : Physical qr) :
    riemann_mhd_llf (okMS S) (okM ql) (okM qr) = okM (riemann_mhd_llf S ql qr) := by
  set a := 1 / 2 * (ql.a + qr.a) with ha
  have e0 : ROps.lit (1 / 2) * ((okM ql).a + (okM qr).a) = ok a := by unfold okM; ck []; rfl
  have e0' : (ROps.lit (1 / 2) : ℝ) * (ql.a + qr.a) = a := by rops; rfl
  have e1 : ({ okM ql with a := ok a } : MState CReal) = okM { ql with a := a } := rfl
  have e2 : ({ okM qr with a := ok a } : MState CReal) = okM { qr with a := a } := rfl
  have hl' : Physical { ql with a := a } := ⟨hl.d, hl.p⟩
  have hr' : Physical { qr with a := a } := ⟨hr.d, hr.p⟩
  unfold riemann_mhd_llf
  simp only [e0, e0', e1, e2, ck_flux hg.ne']
  generalize ({ ql with a := a } : MState ℝ) = q1 at *
  generalize ({ qr with a := a } : MState ℝ) = q2 at *
  have i1 : find_speed_info (okMS S) (okM q1) = ok (find_speed_info S q1) := by
    unfold find_speed_info
    have := ck_fast (S := S) hl' (by linarith) (fieldSq_a q1)
    show fastSpeed (okMS S) (okM q1) (ok q1.a) + ROps.fabs (ok q1.u) = _
    rw [this]; ck []; rops
  have i2 : find_speed_info (okMS S) (okM q2) = ok (find_speed_info S q2) := by
    unfold find_speed_info
    have := ck_fast (S := S) hr' (by linarith) (fieldSq_a q2)
    show fastSpeed (okMS S) (okM q2) (ok q2.a) + ROps.fabs (ok q2.u) = _
    rw [this]; ck []; rops
  rw [i1, i2]
  refine ck_map4 (fun x y z t => ?_) _ _ _ _
  have : ¬ ((2 : ℝ) = 0) := two_ne_zero
  rops
  ck [this]

theorem ck_mhd_hll (hg : 1 < S.gamma0) {ql qr : MState ℝ} (hl : Physical ql) (hr : Physical qr) :
    riemann_mhd_hll (okMS S) (okM ql) (okM qr) = okM (riemann_mhd_hll S ql qr) := by
  set a := 1 / 2 * (ql.a + qr.a) with ha
  have e0 : ROps.lit (1 / 2) * ((okM ql).a + (okM qr).a) = ok a := by unfold okM; ck []; rfl
  have e0' : (ROps.lit (1 / 2) : ℝ) * (ql.a + qr.a) = a := by rops; rfl
  have e1 : ({ okM ql with a := ok a } : MState CReal) = okM { ql with a := a } := rfl
  have e2 : ({ okM qr with a := ok a } : MState CReal) = okM { qr with a := a } := rfl
  have hl' : Physical { ql with a := a } := ⟨hl.d, hl.p⟩
  have hr' : Physical { qr with a := a } := ⟨hr.d, hr.p⟩
  unfold riemann_mhd_hll
  simp only [e0, e0', e1, e2, ck_flux hg.ne']
  generalize hq1 : ({ ql with a := a } : MState ℝ) = q1 at *
  generalize hq2 : ({ qr with a := a } : MState ℝ) = q2 at *
  have i1 : find_speed_fast_x (okMS S) (okM q1) = ok (find_speed_fast_x S q1) :=
    ck_fast (S := S) hl' (by linarith) (fieldSq_a q1)
  have i2 : find_speed_fast_x (okMS S) (okM q2) = ok (find_speed_fast_x S q2) :=
    ck_fast (S := S) hr' (by linarith) (fieldSq_a q2)
  have hf : 0 < find_speed_fast_x S q1 := fastSpeed_pos hl' (by linarith) (fieldSq_a q1)
  have hw := (hll_width (S := S) (ql := q1) (qr := q2) (lt_max_of_lt_left hf)).ne'
  have u1 : (okM ql).u = ok q1.u := by rw [← hq1]; rfl
  have u2 : (okM qr).u = ok q2.u := by rw [← hq2]; rfl
  have u3 : ql.u = q1.u := by rw [← hq1]
  have u4 : qr.u = q2.u := by rw [← hq2]
  rw [i1, i2, u1, u2, u3, u4]
  refine ck_map4 (fun x y z t => ?_) _ _ _ _
  rops
  ck [hw]

theorem ck_outer (hg : S.gamma0 ≠ 1) (a p : ℝ) (q : MState ℝ) :
    hlldOuter (okMS S) (ok a) (ok p) (okM q) = okSide (hlldOuter S a p q) := by
  have g1 : ¬ (S.gamma0 - 1 = 0) := sub_ne_zero.2 hg
  unfold hlldOuter okMS okSettings okM okSide
  ck [g1]
  rops

theorem ck_waves {cl cr : ℝ} (l r : HlldSide ℝ)
    (h : r.r * (max l.u r.u + max cl cr - r.u) + l.r * (l.u - (min l.u r.u - max cl cr)) ≠ 0) :
    hlldWaves (ok cl) (ok cr) (okSide l) (okSide r) = okWaves (hlldWaves cl cr l r) := by
  unfold hlldWaves okSide okWaves
  ck [h]
  rops

theorem ck_hlldStar {a s us ps : ℝ} (o : HlldSide ℝ) (hs : s - us ≠ 0) (he : hlldEstar a s us o ≠ 0)
    (hr : 0 < o.r * (s - o.u) / (s - us)) :
    hlldStar (ok a) (ok s) (ok us) (ok ps) (okSide o) = okStar (hlldStar a s us ps o) := by
  have he' : hlldEstar (ok a) (ok s) (ok us) (okSide o) = ok (hlldEstar a s us o) := by
    unfold hlldEstar okSide; ck []
  have h1 := hr.le
  have h2 := (Real.sqrt_pos.2 hr).ne'
  unfold hlldStar
  rw [he']
  generalize hlldEstar a s us o = e at *
  unfold okSide okStar
  by_cases ha : a * a = 0
  · ck [hs, he, h1, h2, ha, lt_irrefl, Bool.and_eq_true, false_and, if_false]
    rops
    simp only [ha, lt_irrefl, Bool.and_eq_true, rops_gtb, rops_leb, false_and, if_false]
  · ck [hs, he, h1, h2, ha, Bool.and_eq_true]
    rops
    split_ifs <;> ck [hs, he, h1, h2]

theorem ck_mid {a sg us : ℝ} (L R : HlldStar ℝ) (h : L.sqrr + R.sqrr ≠ 0) :
    hlldMid (ok a) (ok sg) (ok us) (okStar L) (okStar R) = okMid (hlldMid a sg us L R) := by
  unfold hlldMid okStar okMid
  ck [h]

theorem ck_hlldFlux (a ro uo vo wo bo co po eo vb : ℝ) :
    hlldFlux (ok a) (ok ro) (ok uo) (ok vo) (ok wo) (ok bo) (ok co) (ok po) (ok eo) (ok vb) =
      okM (hlldFlux a ro uo vo wo bo co po eo vb) := by
  unfold hlldFlux okM; ck []; rops

theorem ck_ite' {β : Type} (c : Prop) [Decidable c] (x y : β) (f : β → MState CReal) :
    (if c then f x else f y) = f (if c then x else y) := by split <;> rfl

theorem ck_hlldSample {a sg : ℝ} (W : HlldWaves ℝ) (l r : HlldSide ℝ)
    (h1 : W.sl - W.ustar ≠ 0) (h2 : W.sr - W.ustar ≠ 0)
    (e1 : hlldEstar a W.sl W.ustar l ≠ 0) (e2 : hlldEstar a W.sr W.ustar r ≠ 0)
    (r1 : 0 < l.r * (W.sl - l.u) / (W.sl - W.ustar)) (r2 : 0 < r.r * (W.sr - r.u) / (W.sr - W.ustar)) :
    hlldSample (ok a) (ok sg) (okWaves W) (okSide l) (okSide r) = okM (hlldSample a sg W l r) := by
  have k1 := ck_hlldStar (ps := W.ptotstar) l h1 e1 r1
  have k2 := ck_hlldStar (ps := W.ptotstar) r h2 e2 r2
  have s1 : 0 < (hlldStar a W.sl W.ustar W.ptotstar l).sqrr := by
    show 0 < Real.sqrt _; exact Real.sqrt_pos.2 r1
  have s2 : 0 < (hlldStar a W.sr W.ustar W.ptotstar r).sqrr := by
    show 0 < Real.sqrt _; exact Real.sqrt_pos.2 r2
  unfold hlldSample
  have w1 : (okWaves W).sl = ok W.sl := rfl
  have w2 : (okWaves W).sr = ok W.sr := rfl
  have w3 : (okWaves W).ustar = ok W.ustar := rfl
  have w4 : (okWaves W).ptotstar = ok W.ptotstar := rfl
  simp only [w1, w2, w3, w4, k1, k2]
  generalize hlldStar a W.sl W.ustar W.ptotstar l = L at *
  generalize hlldStar a W.sr W.ustar W.ptotstar r = R at *
  rw [ck_mid L R (by linarith)]
  generalize hlldMid a sg W.ustar L R = M
  unfold okStar okSide okMid
  ck [ck_hlldFlux]
  rops
  split_ifs <;> rfl

/-- Order of the waves of HLLD. -/
theorem hlldWaves_order (hg : 1 < S.gamma0) {ql qr : MState ℝ} (hl : Physical ql) (hr : Physical qr)
    {a : ℝ} {tl tr : MState ℝ}
    (htl : tl = { ql with a := a, p := isoPressure S ql.d ql.p })
    (htr : tr = { qr with a := a, p := isoPressure S qr.d qr.p }) {l r : HlldSide ℝ}
    (hl' : l = hlldOuter S a tl.p tl) (hr' : r = hlldOuter S a tr.p tr) {W : HlldWaves ℝ}
    (hW : W = hlldWaves (find_speed_fast_x S tl) (find_speed_fast_x S tr) l r) :
    0 < tr.d * (W.sr - r.u) ∧ 0 < tl.d * (l.u - W.sl) ∧ W.sl < W.ustar ∧ W.ustar < W.sr := by
  have t1 : Physical tl := by
    rw [htl, isoPressure_real]; exact ⟨hl.d, (thermal_physical hl).p⟩
  have t2 : Physical tr := by
    rw [htr, isoPressure_real]; exact ⟨hr.d, (thermal_physical hr).p⟩
  have ta : tl.a = a := by rw [htl]
  have tb : tr.a = a := by rw [htr]
  have f1 := fastSpeed_pos (S := S) t1 (by linarith) (fieldSq_a tl)
  have f2 := fastSpeed_pos (S := S) t2 (by linarith) (fieldSq_a tr)
  set cl := find_speed_fast_x S tl with hcl
  set cr := find_speed_fast_x S tr with hcr
  have c1 := fast_carries t1 hg (fieldSq_a tl) (le_max_left cl cr)
  have c2 := fast_carries t2 hg (fieldSq_a tr) (le_max_right cl cr)
  have p1 : l.ptot = tl.p + 1 / 2 * (fieldSq tl - tl.a ^ 2) + 1 / 2 * a ^ 2 := by
    rw [hl', ← ta]; unfold hlldOuter fieldSq; rops; ring
  have p2 : r.ptot = tr.p + 1 / 2 * (fieldSq tr - tr.a ^ 2) + 1 / 2 * a ^ 2 := by
    rw [hr', ← tb]; unfold hlldOuter fieldSq; rops; ring
  have q1 : 0 < tl.p + 1 / 2 * (fieldSq tl - tl.a ^ 2) := by
    have := t1.p; have := fieldSq_a tl; linarith
  have q2 : 0 < tr.p + 1 / 2 * (fieldSq tr - tr.a ^ 2) := by
    have := t2.p; have := fieldSq_a tr; linarith
  have d1 : l.r = tl.d := by rw [hl']; rfl
  have d2 : r.r = tr.d := by rw [hr']; rfl
  have hm : 0 < max cl cr := lt_max_of_lt_left f1
  obtain ⟨o1, o2, o3, o4⟩ := hlld_order (ul := l.u) (ur := r.u) (pl := l.ptot) (pr := r.ptot)
    t1.d t2.d hm (by linarith) (by linarith)
  have w1 : W.sl = min l.u r.u - max cl cr := by rw [hW]; rfl
  have w2 : W.sr = max l.u r.u + max cl cr := by rw [hW]; rfl
  have w3 : W.ustar = (tr.d * (max l.u r.u + max cl cr - r.u) * r.u
      + tl.d * (l.u - (min l.u r.u - max cl cr)) * l.u + (l.ptot - r.ptot)) /
      (tr.d * (max l.u r.u + max cl cr - r.u) + tl.d * (l.u - (min l.u r.u - max cl cr))) := by
    rw [hW, ← d1, ← d2]; rfl
  simp only [← w1, ← w2] at o1 o2 o3 o4 w3
  rw [← w3] at o3 o4
  exact ⟨o1, o2, o3, o4⟩

/-- All operations of HLLD are defined for physical states, except that the denominators `estar`
must not vanish. -/
theorem ck_mhd_hlld (hg : 1 < S.gamma0) {ql qr : MState ℝ} (hl : Physical ql) (hr : Physical qr)
    {a : ℝ} (ha : a = 1 / 2 * (ql.a + qr.a)) {tl tr : MState ℝ}
    (htl : tl = { ql with a := a, p := isoPressure S ql.d ql.p })
    (htr : tr = { qr with a := a, p := isoPressure S qr.d qr.p }) {l r : HlldSide ℝ}
    (hl' : l = hlldOuter S a tl.p tl) (hr' : r = hlldOuter S a tr.p tr) {W : HlldWaves ℝ}
    (hW : W = hlldWaves (find_speed_fast_x S tl) (find_speed_fast_x S tr) l r)
    (e1 : hlldEstar a W.sl W.ustar l ≠ 0) (e2 : hlldEstar a W.sr W.ustar r ≠ 0) :
    riemann_mhd_hlld (okMS S) (okM ql) (okM qr) = okM (riemann_mhd_hlld S ql qr) ∧
    W.sl < W.ustar ∧ W.ustar < W.sr := by
  have t1 : Physical tl := by
    rw [htl, isoPressure_real]; exact ⟨hl.d, (thermal_physical hl).p⟩
  have t2 : Physical tr := by
    rw [htr, isoPressure_real]; exact ⟨hr.d, (thermal_physical hr).p⟩
  have ta : tl.a = a := by rw [htl]
  have tb : tr.a = a := by rw [htr]
  have f1 := fastSpeed_pos (S := S) t1 (by linarith) (fieldSq_a tl)
  have f2 := fastSpeed_pos (S := S) t2 (by linarith) (fieldSq_a tr)
  set cl := find_speed_fast_x S tl with hcl
  set cr := find_speed_fast_x S tr with hcr
  have d1 : l.r = tl.d := by rw [hl']; rfl
  have d2 : r.r = tr.d := by rw [hr']; rfl
  obtain ⟨o1, o2, o3, o4⟩ := hlldWaves_order hg hl hr htl htr hl' hr' hW
  have w1 : W.sl = min l.u r.u - max cl cr := by rw [hW]; rfl
  have w2 : W.sr = max l.u r.u + max cl cr := by rw [hW]; rfl
  refine ⟨?_, o3, o4⟩
  have n1 : W.sl - W.ustar ≠ 0 := by linarith
  have n2 : W.sr - W.ustar ≠ 0 := by linarith
  have r1 : 0 < l.r * (W.sl - l.u) / (W.sl - W.ustar) := by
    rw [d1]; refine div_pos_of_neg_of_neg ?_ (by linarith); nlinarith
  have r2 : 0 < r.r * (W.sr - r.u) / (W.sr - W.ustar) := by
    rw [d2]; exact div_pos o1 (by linarith)
  have hw := ck_waves (cl := cl) (cr := cr) l r (by rw [← w1, ← w2, d1, d2]; linarith)
  rw [← hW] at hw
  have hs := ck_hlldSample (sg := if 0 ≤ a then 1 else -1) W l r n1 n2 e1 e2 r1 r2
  have e0 : ROps.lit (1 / 2) * ((okM ql).a + (okM qr).a) = ok a := by
    rw [ha]; unfold okM; ck []
  have e0' : (ROps.lit (1 / 2) : ℝ) * (ql.a + qr.a) = a := by rw [ha]; rops
  have k1 : ({ okM ql with a := ok a, p := isoPressure (okMS S) (okM ql).d (okM ql).p } : MState CReal) =
      okM tl := by rw [htl]; show MState.mk _ _ _ _ _ _ _ _ = _; erw [ck_isoPressure]; rfl
  have k2 : ({ okM qr with a := ok a, p := isoPressure (okMS S) (okM qr).d (okM qr).p } : MState CReal) =
      okM tr := by rw [htr]; show MState.mk _ _ _ _ _ _ _ _ = _; erw [ck_isoPressure]; rfl
  have k3 : find_speed_fast_x (okMS S) (okM tl) = ok cl :=
    ck_fast t1 (by linarith) (fieldSq_a tl)
  have k4 : find_speed_fast_x (okMS S) (okM tr) = ok cr :=
    ck_fast t2 (by linarith) (fieldSq_a tr)
  have k5 : hlldOuter (okMS S) (ok a) (okM tl).p (okM tl) = okSide l := by
    rw [hl']; exact ck_outer hg.ne' a tl.p tl
  have k6 : hlldOuter (okMS S) (ok a) (okM tr).p (okM tr) = okSide r := by
    rw [hr']; exact ck_outer hg.ne' a tr.p tr
  unfold riemann_mhd_hlld
  simp only [e0, e0', ← htl, ← htr, k1, k2, k3, k4]
  have m1 : isoPressure S ql.d ql.p = tl.p := by rw [htl]
  have m2 : isoPressure S qr.d qr.p = tr.p := by rw [htr]
  have m3 : isoPressure (okMS S) (okM ql).d (okM ql).p = (okM tl).p := by rw [← k1]
  have m4 : isoPressure (okMS S) (okM qr).d (okM qr).p = (okM tr).p := by rw [← k2]
  rw [m1, m2, m3, m4, k5, k6, hw, ← hl', ← hr', ← hcl, ← hcr, ← hW]
  have sg1 : (if ROps.geb (ok a) (ROps.lit 0) = true then ROps.lit 1 else -ROps.lit 1 : CReal) =
      ok (if 0 ≤ a then 1 else -1) := by ck []
  have sg2 : (if ROps.geb a (ROps.lit 0) = true then ROps.lit 1 else -ROps.lit 1 : ℝ) =
      (if 0 ≤ a then 1 else -1) := by rops
  rw [sg1, sg2]
  exact hs

/-! ### the two-dimensional solver -/

theorem pickMax_real (x y : ℝ) : pickMax x y = max x y := by
  unfold pickMax; rops
  split_ifs with h
  · exact (max_eq_left h.le).symm
  · exact (max_eq_right (not_lt.1 h)).symm

theorem pickMin_real (x y : ℝ) : pickMin x y = min x y := by
  unfold pickMin; rops
  split_ifs with h
  · exact (min_eq_left h.le).symm
  · exact (min_eq_right (not_lt.1 h)).symm

theorem ck_pickMax (x y : ℝ) : pickMax (ok x) (ok y) = ok (pickMax x y) := by
  unfold pickMax; rops; ck []
theorem ck_pickMin (x y : ℝ) : pickMin (ok x) (ok y) = ok (pickMin x y) := by
  unfold pickMin; rops; ck []

theorem FMAX4_ge (a b c d : ℝ) : a ≤ FMAX4 a b c d ∧ b ≤ FMAX4 a b c d ∧ c ≤ FMAX4 a b c d ∧
    d ≤ FMAX4 a b c d := by
  unfold FMAX4
  simp only [pickMax_real]
  refine ⟨?_, ?_, ?_, ?_⟩ <;> simp

theorem FMIN4_le (a b c d : ℝ) : FMIN4 a b c d ≤ a ∧ FMIN4 a b c d ≤ b ∧ FMIN4 a b c d ≤ c ∧
    FMIN4 a b c d ≤ d := by
  unfold FMIN4
  simp only [pickMin_real]
  refine ⟨?_, ?_, ?_, ?_⟩ <;> simp

theorem FMAX5_ge (a b c d e : ℝ) : e ≤ FMAX5 a b c d e := by
  unfold FMAX5; rw [pickMax_real]; exact le_max_left _ _

theorem ck_FMAX4 (a b c d : ℝ) : FMAX4 (ok a) (ok b) (ok c) (ok d) = ok (FMAX4 a b c d) := by
  unfold FMAX4; simp only [ck_pickMax]
theorem ck_FMIN4 (a b c d : ℝ) : FMIN4 (ok a) (ok b) (ok c) (ok d) = ok (FMIN4 a b c d) := by
  unfold FMIN4; simp only [ck_pickMin]
theorem ck_FMAX5 (a b c d e : ℝ) :
    FMAX5 (ok a) (ok b) (ok c) (ok d) (ok e) = ok (FMAX5 a b c d e) := by
  unfold FMAX5; simp only [ck_FMAX4, ck_pickMax]

theorem ck_signPos (x : ℝ) : signPos (ok x) = signPos x := by
  unfold signPos ROps.gtb; rfl

theorem ck_ind (b : Bool) : (ind b : CReal) = ok (ind b) := by
  cases b <;> rfl

/-- Order of the waves in the two-dimensional solver, one direction: `1, 2` are the states on the
lower side, `3, 4` on the upper side. -/
theorem emf_order {r1 r2 r3 r4 u1 u2 u3 u4 p1 p2 p3 p4 m s t : ℝ} (h1 : 0 < r1) (h2 : 0 < r2)
    (h3 : 0 < r3) (h4 : 0 < r4) (hm : 0 < m)
    (a1 : m ≤ u1 - s) (a2 : m ≤ u2 - s) (a3 : m ≤ u3 - s) (a4 : m ≤ u4 - s)
    (b1 : m ≤ t - u1) (b2 : m ≤ t - u2) (b3 : m ≤ t - u3) (b4 : m ≤ t - u4)
    (c1 : p1 - p3 < r1 * (m * m)) (c2 : p2 - p4 < r2 * (m * m))
    (c3 : p3 - p1 < r3 * (m * m)) (c4 : p4 - p2 < r4 * (m * m)) {x : ℝ}
    (hx : x * (r1 * (u1 - s) + r2 * (u2 - s) + r3 * (t - u3) + r4 * (t - u4)) =
      r1 * (u1 - s) * u1 + r2 * (u2 - s) * u2 + r3 * (t - u3) * u3 + r4 * (t - u4) * u4 +
        (p1 - p3 + p2 - p4)) :
    s < x ∧ x < t := by
  have b : 0 < r1 * (u1 - s) + r2 * (u2 - s) + r3 * (t - u3) + r4 * (t - u4) := by
    have := mul_pos h1 (by linarith : 0 < u1 - s)
    have := mul_pos h2 (by linarith : 0 < u2 - s)
    have := mul_pos h3 (by linarith : 0 < t - u3)
    have := mul_pos h4 (by linarith : 0 < t - u4)
    linarith
  have e : ∀ {r y z : ℝ}, 0 < r → m ≤ y → m ≤ z → r * (m * m) ≤ r * y * z := by
    intro r y z hr hy hz
    rw [mul_assoc]; exact mul_le_mul_of_nonneg_left (mul_le_mul hy hz hm.le (by linarith)) hr.le
  have f : ∀ {r y z : ℝ}, 0 < r → m ≤ y → m ≤ z → 0 < r * y * z := by
    intro r y z hr hy hz
    exact mul_pos (mul_pos hr (by linarith)) (by linarith)
  constructor
  · have g3 := e h3 b3 a3
    have g4 := e h4 b4 a4
    have g1 := f h1 a1 a1
    have g2 := f h2 a2 a2
    by_contra hc
    have hc' := mul_le_mul_of_nonneg_right (not_lt.1 hc) b.le
    nlinarith
  · have g1 := e h1 a1 b1
    have g2 := e h2 a2 b2
    have g3 := f h3 b3 b3
    have g4 := f h4 b4 b4
    by_contra hc
    have hc' := mul_le_mul_of_nonneg_right (not_lt.1 hc) b.le
    nlinarith

def okEmfWaves (W : EmfWaves ℝ) : EmfWaves CReal :=
  ⟨ok W.SL, ok W.SR, ok W.SB, ok W.ST, ok W.ustar, ok W.vstar⟩
def okEmfStar (s : EmfStar ℝ) : EmfStar CReal :=
  ⟨ok s.rx, ok s.B, ok s.ry, ok s.A, ok s.r, ok s.Ex, ok s.Ey, ok s.E⟩

theorem ck_emfStar {sx us sy vs : ℝ} (q : MState ℝ) (h1 : sx - us ≠ 0) (h2 : sy - vs ≠ 0) :
    emfStar (okM q) (ok sx) (ok us) (ok sy) (ok vs) = okEmfStar (emfStar q sx us sy vs) := by
  unfold emfStar okM okEmfStar
  ck [h1, h2]

/-- Four states as `compute_emf` passes them: the normal field is continuous. -/
structure EmfStates (qLL qRL qLR qRR : MState ℝ) : Prop where
  LL : Physical qLL
  RL : Physical qRL
  LR : Physical qLR
  RR : Physical qRR
  aL : qLL.a = qRL.a
  aR : qLR.a = qRR.a
  bL : qLL.b = qLR.b
  bR : qRL.b = qRR.b

theorem emf_ptot {q q' : MState ℝ} {bn m : ℝ} (hq : Physical q) (hq' : Physical q')
    (hg : 1 < S.gamma0) (hb : bn ^ 2 ≤ fieldSq q) (hb' : bn ^ 2 ≤ fieldSq q')
    (hm : fastSpeed S q bn ≤ m) :
    (q.p + 1 / 2 * (q.a * q.a + q.b * q.b + q.c * q.c)) -
      (q'.p + 1 / 2 * (q'.a * q'.a + q'.b * q'.b + q'.c * q'.c)) < q.d * (m * m) := by
  have h1 := fast_carries hq hg hb hm
  have := hq'.p
  unfold fieldSq at *
  nlinarith

/-- Order of all waves of the two-dimensional solver. -/
theorem emfWaves_order (hg : 1 < S.gamma0) {qLL qRL qLR qRR : MState ℝ}
    (h : EmfStates qLL qRL qLR qRR) :
    let W := emfWaves S qLL qRL qLR qRR
    W.SL < W.ustar ∧ W.ustar < W.SR ∧ W.SB < W.vstar ∧ W.vstar < W.ST ∧
    (∀ q ∈ [qLL, qRL, qLR, qRR], W.SL < q.u ∧ q.u < W.SR ∧ W.SB < q.v ∧ q.v < W.ST) ∧
    (qLL.d * (qLL.u - W.SL) + qLR.d * (qLR.u - W.SL) + qRL.d * (W.SR - qRL.u) +
      qRR.d * (W.SR - qRR.u) ≠ 0) ∧
    (qLL.d * (qLL.v - W.SB) + qLR.d * (W.ST - qLR.v) + qRL.d * (qRL.v - W.SB) +
      qRR.d * (W.ST - qRR.v) ≠ 0) := by
  intro W
  have g0 : 0 < S.gamma0 := by linarith
  obtain ⟨x1, x2, x3, x4⟩ := FMAX4_ge (find_speed_fast_x S qLL) (find_speed_fast_x S qLR)
    (find_speed_fast_x S qRL) (find_speed_fast_x S qRR)
  obtain ⟨y1, y2, y3, y4⟩ := FMAX4_ge (find_speed_fast_y S qLL) (find_speed_fast_y S qLR)
    (find_speed_fast_y S qRL) (find_speed_fast_y S qRR)
  obtain ⟨u1, u2, u3, u4⟩ := FMIN4_le qLL.u qLR.u qRL.u qRR.u
  obtain ⟨v1, v2, v3, v4⟩ := FMIN4_le qLL.v qLR.v qRL.v qRR.v
  obtain ⟨s1, s2, s3, s4⟩ := FMAX4_ge qLL.u qLR.u qRL.u qRR.u
  obtain ⟨t1, t2, t3, t4⟩ := FMAX4_ge qLL.v qLR.v qRL.v qRR.v
  have eL : W.SL = FMIN4 qLL.u qLR.u qRL.u qRR.u - FMAX4 (find_speed_fast_x S qLL)
    (find_speed_fast_x S qLR) (find_speed_fast_x S qRL) (find_speed_fast_x S qRR) := rfl
  have eR : W.SR = FMAX4 qLL.u qLR.u qRL.u qRR.u + FMAX4 (find_speed_fast_x S qLL)
    (find_speed_fast_x S qLR) (find_speed_fast_x S qRL) (find_speed_fast_x S qRR) := rfl
  have eB : W.SB = FMIN4 qLL.v qLR.v qRL.v qRR.v - FMAX4 (find_speed_fast_y S qLL)
    (find_speed_fast_y S qLR) (find_speed_fast_y S qRL) (find_speed_fast_y S qRR) := rfl
  have eT : W.ST = FMAX4 qLL.v qLR.v qRL.v qRR.v + FMAX4 (find_speed_fast_y S qLL)
    (find_speed_fast_y S qLR) (find_speed_fast_y S qRL) (find_speed_fast_y S qRR) := rfl
  have eu : W.ustar = (qLL.d * (qLL.u - W.SL) * qLL.u + qLR.d * (qLR.u - W.SL) * qLR.u
      + qRL.d * (W.SR - qRL.u) * qRL.u + qRR.d * (W.SR - qRR.u) * qRR.u
      + ((qLL.p + 1 / 2 * (qLL.a * qLL.a + qLL.b * qLL.b + qLL.c * qLL.c))
        - (qRL.p + 1 / 2 * (qRL.a * qRL.a + qRL.b * qRL.b + qRL.c * qRL.c))
        + (qLR.p + 1 / 2 * (qLR.a * qLR.a + qLR.b * qLR.b + qLR.c * qLR.c))
        - (qRR.p + 1 / 2 * (qRR.a * qRR.a + qRR.b * qRR.b + qRR.c * qRR.c)))) /
      (qLL.d * (qLL.u - W.SL) + qLR.d * (qLR.u - W.SL) + qRL.d * (W.SR - qRL.u) +
        qRR.d * (W.SR - qRR.u)) := by
    rw [eL, eR]; simp only [W, emfWaves]; rops
  have ev : W.vstar = (qLL.d * (qLL.v - W.SB) * qLL.v + qLR.d * (W.ST - qLR.v) * qLR.v
      + qRL.d * (qRL.v - W.SB) * qRL.v + qRR.d * (W.ST - qRR.v) * qRR.v
      + ((qLL.p + 1 / 2 * (qLL.a * qLL.a + qLL.b * qLL.b + qLL.c * qLL.c))
        - (qLR.p + 1 / 2 * (qLR.a * qLR.a + qLR.b * qLR.b + qLR.c * qLR.c))
        + (qRL.p + 1 / 2 * (qRL.a * qRL.a + qRL.b * qRL.b + qRL.c * qRL.c))
        - (qRR.p + 1 / 2 * (qRR.a * qRR.a + qRR.b * qRR.b + qRR.c * qRR.c)))) /
      (qLL.d * (qLL.v - W.SB) + qLR.d * (W.ST - qLR.v) + qRL.d * (qRL.v - W.SB) +
        qRR.d * (W.ST - qRR.v)) := by
    rw [eB, eT]; simp only [W, emfWaves]; rops
  have mx : 0 < FMAX4 (find_speed_fast_x S qLL) (find_speed_fast_x S qLR) (find_speed_fast_x S qRL)
      (find_speed_fast_x S qRR) := lt_of_lt_of_le (fastSpeed_pos h.LL g0 (fieldSq_a qLL)) x1
  have my : 0 < FMAX4 (find_speed_fast_y S qLL) (find_speed_fast_y S qLR) (find_speed_fast_y S qRL)
      (find_speed_fast_y S qRR) := lt_of_lt_of_le (fastSpeed_pos h.LL g0 (fieldSq_b qLL)) y1
  generalize FMAX4 (find_speed_fast_x S qLL) (find_speed_fast_x S qLR) (find_speed_fast_x S qRL)
      (find_speed_fast_x S qRR) = m at *
  generalize FMAX4 (find_speed_fast_y S qLL) (find_speed_fast_y S qLR) (find_speed_fast_y S qRL)
      (find_speed_fast_y S qRR) = n at *
  have nx : qLL.d * (qLL.u - W.SL) + qLR.d * (qLR.u - W.SL) + qRL.d * (W.SR - qRL.u) +
      qRR.d * (W.SR - qRR.u) ≠ 0 := by
    have := mul_pos h.LL.d (by linarith : 0 < qLL.u - W.SL)
    have := mul_pos h.LR.d (by linarith : 0 < qLR.u - W.SL)
    have := mul_pos h.RL.d (by linarith : 0 < W.SR - qRL.u)
    have := mul_pos h.RR.d (by linarith : 0 < W.SR - qRR.u)
    linarith
  have ny : qLL.d * (qLL.v - W.SB) + qLR.d * (W.ST - qLR.v) + qRL.d * (qRL.v - W.SB) +
      qRR.d * (W.ST - qRR.v) ≠ 0 := by
    have := mul_pos h.LL.d (by linarith : 0 < qLL.v - W.SB)
    have := mul_pos h.LR.d (by linarith : 0 < W.ST - qLR.v)
    have := mul_pos h.RL.d (by linarith : 0 < qRL.v - W.SB)
    have := mul_pos h.RR.d (by linarith : 0 < W.ST - qRR.v)
    linarith
  have ox := emf_order (s := W.SL) (t := W.SR) (x := W.ustar) (u1 := qLL.u) (u2 := qLR.u)
    (u3 := qRL.u) (u4 := qRR.u) h.LL.d h.LR.d h.RL.d h.RR.d mx
    (by linarith) (by linarith) (by linarith) (by linarith)
    (by linarith) (by linarith) (by linarith) (by linarith)
    (emf_ptot (S := S) h.LL h.RL hg (fieldSq_a qLL) (by rw [h.aL]; exact fieldSq_a qRL) x1)
    (emf_ptot (S := S) h.LR h.RR hg (fieldSq_a qLR) (by rw [h.aR]; exact fieldSq_a qRR) x2)
    (emf_ptot (S := S) h.RL h.LL hg (fieldSq_a qRL) (by rw [← h.aL]; exact fieldSq_a qLL) x3)
    (emf_ptot (S := S) h.RR h.LR hg (fieldSq_a qRR) (by rw [← h.aR]; exact fieldSq_a qLR) x4)
    (by rw [eu, div_mul_cancel₀ _ nx])
  have oy := emf_order (s := W.SB) (t := W.ST) (x := W.vstar) (u1 := qLL.v) (u2 := qRL.v)
    (u3 := qLR.v) (u4 := qRR.v) h.LL.d h.RL.d h.LR.d h.RR.d my
    (by linarith) (by linarith) (by linarith) (by linarith)
    (by linarith) (by linarith) (by linarith) (by linarith)
    (emf_ptot (S := S) h.LL h.LR hg (fieldSq_b qLL) (by rw [h.bL]; exact fieldSq_b qLR) y1)
    (emf_ptot (S := S) h.RL h.RR hg (fieldSq_b qRL) (by rw [h.bR]; exact fieldSq_b qRR) y3)
    (emf_ptot (S := S) h.LR h.LL hg (fieldSq_b qLR) (by rw [← h.bL]; exact fieldSq_b qLL) y2)
    (emf_ptot (S := S) h.RR h.RL hg (fieldSq_b qRR) (by rw [← h.bR]; exact fieldSq_b qRL) y4)
    (by
      have := div_mul_cancel₀ (qLL.d * (qLL.v - W.SB) * qLL.v + qLR.d * (W.ST - qLR.v) * qLR.v
      + qRL.d * (qRL.v - W.SB) * qRL.v + qRR.d * (W.ST - qRR.v) * qRR.v
      + ((qLL.p + 1 / 2 * (qLL.a * qLL.a + qLL.b * qLL.b + qLL.c * qLL.c))
        - (qLR.p + 1 / 2 * (qLR.a * qLR.a + qLR.b * qLR.b + qLR.c * qLR.c))
        + (qRL.p + 1 / 2 * (qRL.a * qRL.a + qRL.b * qRL.b + qRL.c * qRL.c))
        - (qRR.p + 1 / 2 * (qRR.a * qRR.a + qRR.b * qRR.b + qRR.c * qRR.c)))) ny
      rw [← ev] at this
      linear_combination this)
  refine ⟨ox.1, ox.2, oy.1, oy.2, ?_, nx, ny⟩
  intro q hq
  simp only [List.mem_cons, List.not_mem_nil, or_false] at hq
  rcases hq with rfl | rfl | rfl | rfl <;> exact ⟨by linarith, by linarith, by linarith, by linarith⟩

/-- The wave speeds in checked arithmetic. -/
theorem ck_emfWaves (hg : 1 < S.gamma0) {qLL qRL qLR qRR : MState ℝ}
    (h : EmfStates qLL qRL qLR qRR) :
    emfWaves (okMS S) (okM qLL) (okM qRL) (okM qLR) (okM qRR) =
      okEmfWaves (emfWaves S qLL qRL qLR qRR) := by
  have g0 : 0 < S.gamma0 := by linarith
  have kx : ∀ {q : MState ℝ}, Physical q →
      find_speed_fast_x (okMS S) (okM q) = ok (find_speed_fast_x S q) :=
    fun {q} hq => ck_fast hq g0 (fieldSq_a q)
  have ky : ∀ {q : MState ℝ}, Physical q →
      find_speed_fast_y (okMS S) (okM q) = ok (find_speed_fast_y S q) :=
    fun {q} hq => ck_fast hq g0 (fieldSq_b q)
  obtain ⟨-, -, -, -, -, nx, ny⟩ := emfWaves_order (S := S) hg h
  unfold emfWaves at nx ny ⊢
  rw [kx h.LL, kx h.RL, kx h.LR, kx h.RR, ky h.LL, ky h.RL, ky h.LR, ky h.RR]
  unfold okM okEmfWaves
  simp only [rops_sub, rops_add] at nx ny
  ck [ck_FMAX4, ck_FMIN4, nx, ny]
  rops

/-- All operations of the two-dimensional solver are defined. -/
theorem ck_mag (hg : 1 < S.gamma0) (hc : 0 < S.smallc) {qLL qRL qLR qRR : MState ℝ}
    (h : EmfStates qLL qRL qLR qRR) (ELL ERL ELR ERR : ℝ) :
    mag_riemann2d_hlld (okMS S) (okM qLL) (okM qRL) (okM qLR) (okM qRR) (ok ELL) (ok ERL) (ok ELR)
      (ok ERR) = ok (mag_riemann2d_hlld S qLL qRL qLR qRR ELL ERL ELR ERR) := by
  obtain ⟨o1, o2, o3, o4, o5, -, -⟩ := emfWaves_order (S := S) hg h
  obtain ⟨a1, a2, a3, a4⟩ := o5 qLL (by simp)
  obtain ⟨b1, b2, b3, b4⟩ := o5 qRL (by simp)
  obtain ⟨c1, c2, c3, c4⟩ := o5 qLR (by simp)
  obtain ⟨d1, d2, d3, d4⟩ := o5 qRR (by simp)
  have hW := ck_emfWaves (S := S) hg h
  unfold mag_riemann2d_hlld
  rw [hW]
  generalize emfWaves S qLL qRL qLR qRR = W at *
  have n1 : W.SL - W.ustar ≠ 0 := by linarith
  have n2 : W.SR - W.ustar ≠ 0 := by linarith
  have n3 : W.SB - W.vstar ≠ 0 := by linarith
  have n4 : W.ST - W.vstar ≠ 0 := by linarith
  have s1 := ck_emfStar qLL n1 n3
  have s2 := ck_emfStar qRL n2 n3
  have s3 := ck_emfStar qLR n1 n4
  have s4 := ck_emfStar qRR n2 n4
  have w1 : (okEmfWaves W).SL = ok W.SL := rfl
  have w2 : (okEmfWaves W).SR = ok W.SR := rfl
  have w3 : (okEmfWaves W).SB = ok W.SB := rfl
  have w4 : (okEmfWaves W).ST = ok W.ST := rfl
  have w5 : (okEmfWaves W).ustar = ok W.ustar := rfl
  have w6 : (okEmfWaves W).vstar = ok W.vstar := rfl
  simp only [w1, w2, w3, w4, w5, w6, s1, s2, s3, s4]
  -- positive densities
  have pos : ∀ {q : MState ℝ} {sx sy : ℝ}, 0 < q.d → 0 < (sx - q.u) / (sx - W.ustar) →
      0 < (sy - q.v) / (sy - W.vstar) →
      0 < (emfStar q sx W.ustar sy W.vstar).rx ∧ 0 < (emfStar q sx W.ustar sy W.vstar).ry ∧
      0 < (emfStar q sx W.ustar sy W.vstar).r := by
    intro q sx sy hd hx hy
    unfold emfStar
    rops
    refine ⟨?_, ?_, ?_⟩
    · rw [mul_div_assoc]; exact mul_pos hd hx
    · rw [mul_div_assoc]; exact mul_pos hd hy
    · rw [mul_div_assoc, mul_div_assoc]; exact mul_pos (mul_pos hd hx) hy
  have p1 := pos (q := qLL) (sx := W.SL) (sy := W.SB) h.LL.d
    (div_pos_of_neg_of_neg (by linarith) (by linarith)) (div_pos_of_neg_of_neg (by linarith) (by linarith))
  have p2 := pos (q := qRL) (sx := W.SR) (sy := W.SB) h.RL.d
    (div_pos (by linarith) (by linarith)) (div_pos_of_neg_of_neg (by linarith) (by linarith))
  have p3 := pos (q := qLR) (sx := W.SL) (sy := W.ST) h.LR.d
    (div_pos_of_neg_of_neg (by linarith) (by linarith)) (div_pos (by linarith) (by linarith))
  have p4 := pos (q := qRR) (sx := W.SR) (sy := W.ST) h.RR.d
    (div_pos (by linarith) (by linarith)) (div_pos (by linarith) (by linarith))
  generalize emfStar qLL W.SL W.ustar W.SB W.vstar = LL at *
  generalize emfStar qRL W.SR W.ustar W.SB W.vstar = RL at *
  generalize emfStar qLR W.SL W.ustar W.ST W.vstar = LR at *
  generalize emfStar qRR W.SR W.ustar W.ST W.vstar = RR at *
  obtain ⟨x1, x2, x3⟩ := p1
  obtain ⟨x4, x5, x6⟩ := p2
  obtain ⟨x7, x8, x9⟩ := p3
  obtain ⟨x10, x11, x12⟩ := p4
  have z : ∀ {x : ℝ}, 0 < x → Real.sqrt x ≠ 0 := fun hx => (Real.sqrt_pos.2 hx).ne'
  have width : ∀ (v x1 x2 x3 x4 y1 y2 y3 y4 : ℝ),
      max (v + FMAX5 x1 x2 x3 x4 S.smallc) 0 - min (v - FMAX5 y1 y2 y3 y4 S.smallc) 0 ≠ 0 := by
    intro v x1 x2 x3 x4 y1 y2 y3 y4
    have h1 := FMAX5_ge x1 x2 x3 x4 S.smallc
    have h2 := FMAX5_ge y1 y2 y3 y4 S.smallc
    have h3 := le_max_left (v + FMAX5 x1 x2 x3 x4 S.smallc) 0
    have h4 := min_le_left (v - FMAX5 y1 y2 y3 y4 S.smallc) 0
    linarith
  unfold okEmfStar okM okMS okSettings
  ck [ck_FMAX5, ck_signPos, ck_ind, x1.le, x2.le, x3.le, x4.le, x5.le, x6.le, x7.le, x8.le, x9.le,
    x10.le, x11.le, x12.le, z x1, z x2, z x3, z x4, z x5, z x6, z x7, z x8, z x9, z x10, z x11,
    z x12, width]
  rops

end Verif
