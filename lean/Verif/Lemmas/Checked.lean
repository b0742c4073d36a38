import Verif.Spec.Checked
import Verif.Lemmas.RiemannMore

/-! Helper lemmas: computing with checked reals. -/

namespace Verif

open Spec CReal

theorem ck_add (a b : ℝ) : ok a + ok b = ok (a + b) := rfl
theorem ck_sub (a b : ℝ) : ok a - ok b = ok (a - b) := rfl
theorem ck_mul (a b : ℝ) : ok a * ok b = ok (a * b) := rfl
theorem ck_neg (a : ℝ) : -ok a = ok (-a) := rfl
theorem ck_div {a b : ℝ} (h : b ≠ 0) : ok a / ok b = ok (a / b) := by
  show (if b = 0 then none else some (a / b)) = _
  rw [if_neg h]; rfl
theorem ck_sqrt {a : ℝ} (h : 0 ≤ a) : ROps.sqrt (ok a) = ok (Real.sqrt a) := by
  show (if a < 0 then none else some (Real.sqrt a)) = _
  rw [if_neg (not_lt.2 h)]; rfl
theorem ck_lit (q : ℚ) : (ROps.lit q : CReal) = ok (q : ℝ) := rfl
theorem ck_fabs (a : ℝ) : ROps.fabs (ok a) = ok |a| := rfl
theorem ck_fmin (a b : ℝ) : ROps.fmin (ok a) (ok b) = ok (min a b) := rfl
theorem ck_fmax (a b : ℝ) : ROps.fmax (ok a) (ok b) = ok (max a b) := rfl
theorem ck_ltb (a b : ℝ) : (ROps.ltb (ok a) (ok b) = true) = (a < b) := by
  simp [ROps.ltb, ok]
theorem ck_leb (a b : ℝ) : (ROps.leb (ok a) (ok b) = true) = (a ≤ b) := by
  simp [ROps.leb, ok]
theorem ck_gtb (a b : ℝ) : (ROps.gtb (ok a) (ok b) = true) = (b < a) := by
  simp only [ROps.gtb, ck_ltb]
theorem ck_geb (a b : ℝ) : (ROps.geb (ok a) (ok b) = true) = (b ≤ a) := by
  simp only [ROps.geb, ck_leb]
theorem ck_eqb (a b : ℝ) : (ROps.eqb (ok a) (ok b) = true) = (a = b) := by
  simp [ROps.eqb, ok]
theorem ck_copysign (x y : ℝ) : ROps.copysign (ok x) (ok y) = ok (if y < 0 then -|x| else |x|) := by
  rfl
theorem ck_ite (c : Prop) [Decidable c] (a b : ℝ) : (if c then ok a else ok b) = ok (if c then a else b) := by
  split <;> rfl

/-- Evaluate defined checked operations (side conditions from the given facts). -/
macro "ck" "[" ts:Lean.Parser.Tactic.simpLemma,* "]" : tactic => `(tactic|
  simp only [ck_add, ck_sub, ck_mul, ck_neg, ck_div, ck_sqrt, ck_lit, ck_fabs,
    ck_fmin, ck_fmax, ck_ltb, ck_leb, ck_gtb, ck_geb, ck_eqb, ck_copysign, ck_ite,
    Rat.cast_zero, Rat.cast_one, Rat.cast_ofNat, Rat.cast_div, ne_eq, not_false_eq_true, $ts,*])

variable {S : Settings ℝ}

theorem okState_eq (q : HState ℝ) : okState q = ⟨ok q.d, ok q.p, ok q.u, ok q.v, ok q.w⟩ := rfl

theorem ck_llf (d3 : Bool) (hS : GasParams S) (ql qr : HState ℝ) :
    riemann_llf d3 (okSettings S) (okState ql) (okState qr) = okState (riemann_llf d3 S ql qr) := by
  have g1 : ¬ (S.gamma0 - 1 = 0) := by have := hS.gamma; linarith
  have r1 := flr_pos hS ql
  have r2 := flr_pos hS qr
  have p1 := flp_pos hS ql
  have p2 := flp_pos hS qr
  have g0 := hS.gamma
  have d1 := r1.ne'
  have d2 := r2.ne'
  have s1 : 0 ≤ S.gamma0 * flp S ql / flr S ql := by positivity
  have s2 : 0 ≤ S.gamma0 * flp S qr / flr S qr := by positivity
  unfold flp at *
  unfold flr at *
  unfold riemann_llf llfFlux llfCons okSettings okState
  cases d3 <;> rops <;> ck [g1, d1, d2, s1, s2, if_true, if_false, Bool.false_eq_true]

theorem ck_hll (d3 : Bool) (hS : GasParams S) (ql qr : HState ℝ) :
    riemann_hll d3 (okSettings S) (okState ql) (okState qr) = okState (riemann_hll d3 S ql qr) := by
  have g1 : ¬ (S.gamma0 - 1 = 0) := by have := hS.gamma; linarith
  have r1 := flr_pos hS ql
  have r2 := flr_pos hS qr
  have p1 := flp_pos hS ql
  have p2 := flp_pos hS qr
  have g0 := hS.gamma
  have d1 := r1.ne'
  have d2 := r2.ne'
  have s1 : 0 ≤ S.gamma0 * flp S ql / flr S ql := by positivity
  have s2 : 0 ≤ S.gamma0 * flp S qr / flr S qr := by positivity
  have d3' : hllSR S ql qr - hllSL S ql qr ≠ 0 := by have := hllSL_SR hS ql qr; linarith
  unfold hllSR hllSL cs at d3'
  unfold flp at *
  unfold flr at *
  unfold riemann_hll hllFlux llfCons okSettings okState
  cases d3 <;> rops <;> ck [g1, d1, d2, s1, s2, d3', if_true, if_false, Bool.false_eq_true]

theorem ck_hllcStar (hS : GasParams S) (ql qr : HState ℝ) :
    hllcStar (okSettings S) (ok (flr S ql)) (ok ql.u) (ok (flp S ql)) (ok (flr S qr)) (ok qr.u)
      (ok (flp S qr)) = ⟨ok (hSL S ql qr), ok (hSR S ql qr), ok (hus S ql qr), ok (hps S ql qr)⟩ := by
  have g0 := hS.gamma
  have d1 := (flr_pos hS ql).ne'
  have d2 := (flr_pos hS qr).ne'
  have r1 := flr_pos hS ql
  have r2 := flr_pos hS qr
  have p1 := flp_pos hS ql
  have p2 := flp_pos hS qr
  have s1 : 0 ≤ max (S.gamma0 * flp S ql / flr S ql) (S.smallc * S.smallc) :=
    le_max_of_le_left (by positivity)
  have s2 : 0 ≤ max (S.gamma0 * flp S qr / flr S qr) (S.smallc * S.smallc) :=
    le_max_of_le_left (by positivity)
  have d3 : hrcr S ql qr + hrcl S ql qr ≠ 0 := by have := hrc_pos hS ql qr; linarith
  unfold hus hps
  unfold hrcr hrcl hSR hSL hC cf at *
  unfold hllcStar okSettings
  ck [d1, d2, s1, s2, d3]

theorem ck_etot (d3 : Bool) (hS : GasParams S) (r p : ℝ) (q : HState ℝ) :
    hllcEtot d3 (okSettings S) (ok r) (ok p) (okState q) = ok (hllcEtot d3 S r p q) := by
  have g1 : ¬ (S.gamma0 - 1 = 0) := by have := hS.gamma; linarith
  unfold hllcEtot okSettings okState
  cases d3 <;> rops <;> ck [g1, if_true, if_false, Bool.false_eq_true]

theorem ck_hllc (d3 : Bool) (hS : GasParams S) (ql qr : HState ℝ) :
    riemann_hllc d3 (okSettings S) (okState ql) (okState qr) = okState (riemann_hllc d3 S ql qr) := by
  have hst := ck_hllcStar hS ql qr
  have hst' := hllcStar_real S ql qr
  have e1 := ck_etot d3 hS (flr S ql) (flp S ql) ql
  have e2 := ck_etot d3 hS (flr S qr) (flp S qr) qr
  obtain ⟨o1, o2⟩ := hllc_order hS ql qr
  have n1 : ¬ (hSL S ql qr - hus S ql qr = 0) := by intro h; linarith
  have n2 : ¬ (hSR S ql qr - hus S ql qr = 0) := by intro h; linarith
  unfold riemann_hllc
  have a1 : ROps.fmax (okState ql).d (okSettings S).smallr = ok (flr S ql) := rfl
  have a2 : ROps.fmax (okState qr).d (okSettings S).smallr = ok (flr S qr) := rfl
  have a3 : ROps.fmax (okState ql).p (ok (flr S ql) * (okSettings S).smallp) = ok (flp S ql) := rfl
  have a4 : ROps.fmax (okState qr).p (ok (flr S qr) * (okSettings S).smallp) = ok (flp S qr) := rfl
  have b1 : max ql.d S.smallr = flr S ql := rfl
  have b2 : max qr.d S.smallr = flr S qr := rfl
  have b3 : max ql.p (flr S ql * S.smallp) = flp S ql := rfl
  have b4 : max qr.p (flr S qr * S.smallp) = flp S qr := rfl
  have u1 : (okState ql).u = ok ql.u := rfl
  have u2 : (okState qr).u = ok qr.u := rfl
  have v1 : (okState ql).v = ok ql.v := rfl
  have v2 : (okState qr).v = ok qr.v := rfl
  have w1 : (okState ql).w = ok ql.w := rfl
  have w2 : (okState qr).w = ok qr.w := rfl
  simp only [a1, a2, a3, a4, u1, u2, v1, v2, w1, w2, hst, e1, e2]
  rops
  simp only [b1, b2, b3, b4, hst']
  generalize hllcEtot d3 S (flr S ql) (flp S ql) ql = el
  generalize hllcEtot d3 S (flr S qr) (flp S qr) qr = er
  ck [n1, n2]
  by_cases c1 : 0 < hSL S ql qr
  · simp only [c1, if_true, ck_mul, ck_add, ck_gtb, ck_ite]
    cases d3 <;> simp only [if_true, if_false, Bool.false_eq_true] <;> rfl
  · by_cases c2 : 0 < hus S ql qr
    · simp only [c1, c2, if_true, if_false, ck_mul, ck_add, ck_gtb, ck_ite]
      cases d3 <;> simp only [if_true, if_false, Bool.false_eq_true] <;> rfl
    · by_cases c3 : 0 < hSR S ql qr
      · simp only [c1, c2, c3, if_true, if_false, ck_mul, ck_add, ck_gtb, ck_ite]
        cases d3 <;> simp only [if_true, if_false, Bool.false_eq_true] <;> rfl
      · simp only [c1, c2, c3, if_false, ck_mul, ck_add, ck_gtb, ck_ite]
        cases d3 <;> simp only [if_true, if_false, Bool.false_eq_true] <;> rfl

end Verif
