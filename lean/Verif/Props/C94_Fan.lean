import Verif.Spec.Fan
import Verif.Props.C37_C63_MhdRiemann
import Mathlib.Tactic.FinCases
import Mathlib.Tactic.LinearCombination

/-!
# C94: the flux of the HLLD solver is that of a fan of five waves obeying the jump conditions

`Spec.FiveWaves` is written without reference to the code.
-/

namespace Verif

open Spec

variable {S : MSettings ℝ}

/-- Outer state of the code as a state of a fan. -/
def HlldSide.fan (o : HlldSide ℝ) : FanState := ⟨o.r, o.u, o.v, o.w, o.b, o.c, o.etot, o.ptot⟩

/-- Star state of the code. -/
def HlldStar.fan (W : HlldWaves ℝ) (x : HlldStar ℝ) : FanState :=
  ⟨x.r, W.ustar, x.v, x.w, x.b, x.c, x.etot, W.ptotstar⟩

/-- State between Alfven wave and contact. -/
def HlldMid.fan (W : HlldWaves ℝ) (r e : ℝ) (x : HlldMid ℝ) : FanState :=
  ⟨r, W.ustar, x.v, x.w, x.b, x.c, e, W.ptotstar⟩

theorem jump_of {a s : ℝ} {x y : FanState}
    (h1 : y.d * y.u - x.d * x.u = s * (y.d - x.d))
    (h2 : (y.e + y.pt) * y.u - a * (y.u * a + y.v * y.b + y.w * y.c) -
      ((x.e + x.pt) * x.u - a * (x.u * a + x.v * x.b + x.w * x.c)) = s * (y.e - x.e))
    (h3 : y.d * y.u ^ 2 + y.pt - (x.d * x.u ^ 2 + x.pt) = s * (y.d * y.u - x.d * x.u))
    (h4 : y.d * y.u * y.v - a * y.b - (x.d * x.u * x.v - a * x.b) = s * (y.d * y.v - x.d * x.v))
    (h5 : y.d * y.u * y.w - a * y.c - (x.d * x.u * x.w - a * x.c) = s * (y.d * y.w - x.d * x.w))
    (h6 : y.u * y.b - y.v * a - (x.u * x.b - x.v * a) = s * (y.b - x.b))
    (h7 : y.u * y.c - y.w * a - (x.u * x.c - x.w * a) = s * (y.c - x.c)) : Jump a s x y := by
  intro i
  fin_cases i <;> simp [comps, FanState.flux, FanState.cons] <;> linarith

/-- The code's test `fabs(estar/(a*a)-1) <= 1e-8` is false. -/
def Regular (a s ustar : ℝ) (o : HlldSide ℝ) : Prop :=
  hlldEstar a s ustar o ≠ 0 ∧ (0 < a * a → 1 / 100000000 < |hlldEstar a s ustar o / (a * a) - 1|)

theorem star_fields {a s us pts : ℝ} {o : HlldSide ℝ} (hr : Regular a s us o) :
    let x := hlldStar a s us pts o
    let e := hlldEstar a s us o
    x.r = o.r * (s - o.u) / (s - us) ∧ x.v = o.v - a * o.b * (us - o.u) / e ∧
    x.b = o.b * (o.r * (s - o.u) * (s - o.u) - a * a) / e ∧ x.w = o.w - a * o.c * (us - o.u) / e ∧
    x.c = o.c * (o.r * (s - o.u) * (s - o.u) - a * a) / e ∧
    x.vdotb = us * a + x.v * x.b + x.w * x.c ∧
    x.etot = ((s - o.u) * o.etot - o.ptot * o.u + pts * us + a * (o.vdotb - x.vdotb)) / (s - us) ∧
    x.sqrr = Real.sqrt x.r ∧ x.calfven = |a| / x.sqrr := by
  have hn : ¬ ((ROps.gtb (a * a) (ROps.lit 0) && ROps.leb (ROps.fabs (hlldEstar a s us o / (a * a) - ROps.lit 1))
      (ROps.lit (1 / 100000000))) = true) := by
    rw [Bool.and_eq_true]
    rops
    rintro ⟨h1, h2⟩
    have := hr.2 (by simpa using h1)
    norm_num at h2 this
    linarith
  intro x e
  simp only [x, e]
  unfold hlldStar
  simp only [if_neg hn]
  rops
  simp only [true_and, and_self]

theorem star_jump {a s : ℝ} {W : HlldWaves ℝ} {o : HlldSide ℝ} (hr : Regular a s W.ustar o)
    (hs : s ≠ W.ustar) (hv : o.vdotb = o.u * a + o.v * o.b + o.w * o.c)
    (hp : W.ptotstar = o.ptot + o.r * (s - o.u) * (W.ustar - o.u)) :
    Jump a s o.fan ((hlldStar a s W.ustar W.ptotstar o).fan W) := by
  obtain ⟨e1, e2, e3, e4, e5, e6, e7, -, -⟩ := star_fields (pts := W.ptotstar) hr
  generalize hlldStar a s W.ustar W.ptotstar o = x at *
  have hE := hr.1
  have hs' : s - W.ustar ≠ 0 := sub_ne_zero.2 hs
  generalize hE' : hlldEstar a s W.ustar o = E at *
  have dE : E = o.r * (s - o.u) * (s - W.ustar) - a * a := by
    rw [← hE']; unfold hlldEstar; rfl
  have m : x.r * (s - W.ustar) = o.r * (s - o.u) := by rw [e1]; field_simp
  have f2 : x.v = o.v - a * o.b * (W.ustar - o.u) / E := e2
  have f4 : x.w = o.w - a * o.c * (W.ustar - o.u) / E := e4
  have k2 : (x.v - o.v) * E = -(a * o.b * (W.ustar - o.u)) := by rw [f2]; field_simp; ring
  have k4 : (x.w - o.w) * E = -(a * o.c * (W.ustar - o.u)) := by rw [f4]; field_simp; ring
  have k3 : (x.b - o.b) * E = o.b * (o.r * (s - o.u) * (W.ustar - o.u)) := by
    rw [e3, sub_mul, div_mul_cancel₀ _ hE, dE]; ring
  have k5 : (x.c - o.c) * E = o.c * (o.r * (s - o.u) * (W.ustar - o.u)) := by
    rw [e5, sub_mul, div_mul_cancel₀ _ hE, dE]; ring
  have m7 : x.etot * (s - W.ustar) = (s - o.u) * o.etot - o.ptot * o.u + W.ptotstar * W.ustar +
      a * (o.vdotb - x.vdotb) := by rw [e7]; field_simp
  have j4 : o.r * (s - o.u) * (x.v - o.v) = -(a * (x.b - o.b)) := by
    apply mul_right_cancel₀ hE
    linear_combination o.r * (s - o.u) * k2 + a * k3
  have j5 : o.r * (s - o.u) * (x.w - o.w) = -(a * (x.c - o.c)) := by
    apply mul_right_cancel₀ hE
    linear_combination o.r * (s - o.u) * k4 + a * k5
  have j6 : (s - W.ustar) * x.b = (s - o.u) * o.b - a * (x.v - o.v) := by
    apply mul_right_cancel₀ hE
    linear_combination (s - W.ustar) * k3 + a * k2 + (W.ustar - o.u) * o.b * (-dE)
  have j7 : (s - W.ustar) * x.c = (s - o.u) * o.c - a * (x.w - o.w) := by
    apply mul_right_cancel₀ hE
    linear_combination (s - W.ustar) * k5 + a * k4 + (W.ustar - o.u) * o.c * (-dE)
  refine jump_of ?_ ?_ ?_ ?_ ?_ ?_ ?_ <;> simp only [HlldSide.fan, HlldStar.fan]
  · linear_combination -m
  · linear_combination -m7 + a * e6 - a * hv
  · linear_combination -W.ustar * m + hp
  · linear_combination -x.v * m - j4
  · linear_combination -x.w * m - j5
  · linear_combination -j6
  · linear_combination -j7

theorem mid_left {a sg us : ℝ} {L R : HlldStar ℝ} (h1 : 0 < L.sqrr) (h2 : 0 < R.sqrr) (hsg : sg * sg = 1) :
    let M := hlldMid a sg us L R
    (M.b - L.b = sg * L.sqrr * (M.v - L.v) ∧ M.c - L.c = sg * L.sqrr * (M.w - L.w)) ∧
    (M.b - R.b = -(sg * R.sqrr * (M.v - R.v)) ∧ M.c - R.c = -(sg * R.sqrr * (M.w - R.w))) ∧
    M.vdotb = us * a + M.v * M.b + M.w * M.c := by
  have h : L.sqrr + R.sqrr ≠ 0 := by positivity
  unfold hlldMid
  rops
  refine ⟨⟨?_, ?_⟩, ⟨?_, ?_⟩, trivial⟩ <;> field_simp
  · linear_combination -L.sqrr * (R.b - L.b) * hsg
  · linear_combination -L.sqrr * (R.c - L.c) * hsg
  · linear_combination R.sqrr * (R.b - L.b) * hsg
  · linear_combination R.sqrr * (R.c - L.c) * hsg

/-- Jump conditions across an Alfven wave: `σ = -1` the left one, `σ = 1` the right one. -/
theorem alfven_jump {a sg σ : ℝ} {W : HlldWaves ℝ} {X : HlldStar ℝ} {M : HlldMid ℝ} (h1 : 0 < X.sqrr)
    (hr : X.sqrr * X.sqrr = X.r) (hsg : sg * |a| = a) (hsg' : sg * sg = 1)
    (hc : X.calfven = |a| / X.sqrr) (hX : X.vdotb = W.ustar * a + X.v * X.b + X.w * X.c)
    (hM : M.vdotb = W.ustar * a + M.v * M.b + M.w * M.c)
    (hb : M.b - X.b = -(σ * sg * X.sqrr * (M.v - X.v))) (hc' : M.c - X.c = -(σ * sg * X.sqrr * (M.w - X.w)))
    (hσ : σ * σ = 1) :
    Jump a (W.ustar + σ * X.calfven) (X.fan W)
      (M.fan W X.r (X.etot + σ * (sg * X.sqrr * (X.vdotb - M.vdotb)))) := by
  have k : X.calfven * X.sqrr = |a| := by rw [hc]; field_simp
  have kr : X.calfven * X.r = |a| * X.sqrr := by rw [← hr, ← k]; ring
  have ka : sg * a = |a| := by linear_combination |a| * hsg' - sg * hsg
  refine jump_of ?_ ?_ ?_ ?_ ?_ ?_ ?_ <;> simp only [HlldStar.fan, HlldMid.fan]
  · ring
  · have : X.calfven * (sg * X.sqrr) = a := by linear_combination sg * k + hsg
    linear_combination a * hM - a * hX - σ * σ * (X.vdotb - M.vdotb) * this -
      a * (X.vdotb - M.vdotb) * hσ
  · ring
  · linear_combination -a * hb - σ * (M.v - X.v) * kr + σ * X.sqrr * (M.v - X.v) * ka
  · linear_combination -a * hc' - σ * (M.w - X.w) * kr + σ * X.sqrr * (M.w - X.w) * ka
  · have e : σ * X.calfven * (M.b - X.b) = -(a * (M.v - X.v)) := by
      rw [hb]
      linear_combination -(σ * σ) * sg * (M.v - X.v) * k - σ * σ * (M.v - X.v) * hsg - a * (M.v - X.v) * hσ
    linear_combination -e
  · have e : σ * X.calfven * (M.c - X.c) = -(a * (M.w - X.w)) := by
      rw [hc']
      linear_combination -(σ * σ) * sg * (M.w - X.w) * k - σ * σ * (M.w - X.w) * hsg - a * (M.w - X.w) * hσ
    linear_combination -e

/-- Jump conditions across the contact. -/
theorem contact_jump {a r r' e e' : ℝ} {W : HlldWaves ℝ} {M : HlldMid ℝ} :
    Jump a W.ustar (M.fan W r e) (M.fan W r' e') := by
  refine jump_of ?_ ?_ ?_ ?_ ?_ ?_ ?_ <;> simp only [HlldMid.fan] <;> ring

theorem flux_fan {a r u v w b c pt e vb : ℝ} (h : vb = u * a + v * b + w * c) :
    hlldFlux a r u v w b c pt e vb = (FanState.mk r u v w b c e pt).flux a := by
  unfold hlldFlux FanState.flux
  rops
  rw [h]
  ext <;> simp <;> ring

theorem outer_fan {a p : ℝ} {q : MState ℝ} (ha : q.a = a) (hp : q.p = p) :
    (hlldOuter S a p q).fan = .ofGas S.gamma0 q ∧
      (hlldOuter S a p q).vdotb = q.u * a + q.v * q.b + q.w * q.c := by
  unfold hlldOuter HlldSide.fan FanState.ofGas mhdEnergy fieldSq
  rops
  subst ha hp
  refine ⟨?_, trivial⟩
  congr 1 <;> ring

open Classical in
theorem origin_of (a : ℝ) (s : Fin 5 → ℝ) (q : Fin 6 → FanState) :
    FluxAtOrigin a s q (if 0 < s 0 then (q 0).flux a else if 0 < s 1 then (q 1).flux a
      else if 0 < s 2 then (q 2).flux a else if 0 < s 3 then (q 3).flux a
      else if 0 < s 4 then (q 4).flux a else (q 5).flux a) := by
  have lt : ∀ (j : Fin 5) (i : Fin 6), j.castSucc < i ↔ j.1 < i.1 := fun j i => Fin.lt_def
  have eq : ∀ (j : Fin 5) (i : Fin 6), j.castSucc = i ↔ j.1 = i.1 := fun j i => Fin.ext_iff
  split_ifs with h1 h2 h3 h4 h5
  · refine ⟨0, rfl, fun j hj => absurd hj (by simp), fun j hj => ?_⟩
    obtain rfl : j = 0 := Fin.ext ((eq _ _).1 hj)
    exact h1
  · refine ⟨1, rfl, fun j hj => ?_, fun j hj => ?_⟩
    · have hj := (lt _ _).1 hj
      fin_cases j <;> first | exact absurd hj (by decide) | exact not_lt.1 h1
    · obtain rfl : j = 1 := Fin.ext ((eq _ _).1 hj)
      exact h2
  · refine ⟨2, rfl, fun j hj => ?_, fun j hj => ?_⟩
    · have hj := (lt _ _).1 hj
      fin_cases j <;> first | exact absurd hj (by decide) | exact not_lt.1 h1 | exact not_lt.1 h2
    · obtain rfl : j = 2 := Fin.ext ((eq _ _).1 hj)
      exact h3
  · refine ⟨3, rfl, fun j hj => ?_, fun j hj => ?_⟩
    · have hj := (lt _ _).1 hj
      fin_cases j <;>
        first | exact absurd hj (by decide) | exact not_lt.1 h1 | exact not_lt.1 h2 | exact not_lt.1 h3
    · obtain rfl : j = 3 := Fin.ext ((eq _ _).1 hj)
      exact h4
  · refine ⟨4, rfl, fun j hj => ?_, fun j hj => ?_⟩
    · have hj := (lt _ _).1 hj
      fin_cases j <;>
        first | exact absurd hj (by decide) | exact not_lt.1 h1 | exact not_lt.1 h2 | exact not_lt.1 h3 | exact not_lt.1 h4
    · obtain rfl : j = 4 := Fin.ext ((eq _ _).1 hj)
      exact h5
  · refine ⟨5, rfl, fun j _ => ?_, fun j hj => ?_⟩
    · fin_cases j <;>
        first | exact not_lt.1 h1 | exact not_lt.1 h2 | exact not_lt.1 h3 | exact not_lt.1 h4 | exact not_lt.1 h5
    · have := (eq _ _).1 hj; have := j.2; simp at *; omega

/-- The state at the origin of the fan the code samples. -/
theorem sample_fan {a sg : ℝ} {W : HlldWaves ℝ} {l r : HlldSide ℝ} {L R : HlldStar ℝ} {M : HlldMid ℝ}
    (hL : L = hlldStar a W.sl W.ustar W.ptotstar l) (hR : R = hlldStar a W.sr W.ustar W.ptotstar r)
    (hM : M = hlldMid a sg W.ustar L R)
    (vl : l.vdotb = l.u * a + l.v * l.b + l.w * l.c) (vr : r.vdotb = r.u * a + r.v * r.b + r.w * r.c)
    (vL : L.vdotb = W.ustar * a + L.v * L.b + L.w * L.c) (vR : R.vdotb = W.ustar * a + R.v * R.b + R.w * R.c)
    (vM : M.vdotb = W.ustar * a + M.v * M.b + M.w * M.c) :
    FluxAtOrigin a ![W.sl, W.ustar - L.calfven, W.ustar, W.ustar + R.calfven, W.sr]
      ![l.fan, L.fan W, M.fan W L.r (L.etot - sg * L.sqrr * (L.vdotb - M.vdotb)),
        M.fan W R.r (R.etot + sg * R.sqrr * (R.vdotb - M.vdotb)), R.fan W, r.fan]
      (hlldSample a sg W l r) := by
  have h := origin_of a ![W.sl, W.ustar - L.calfven, W.ustar, W.ustar + R.calfven, W.sr]
      ![l.fan, L.fan W, M.fan W L.r (L.etot - sg * L.sqrr * (L.vdotb - M.vdotb)),
        M.fan W R.r (R.etot + sg * R.sqrr * (R.vdotb - M.vdotb)), R.fan W, r.fan]
  convert h using 1
  unfold hlldSample
  simp only [← hL, ← hR, ← hM]
  rops
  rw [flux_fan vl, flux_fan vr, flux_fan vL, flux_fan vR, flux_fan vM, flux_fan vM]
  rfl

/-- The fan from the parts. -/
theorem fan_of {γ a : ℝ} {tl tr : MState ℝ} {W : HlldWaves ℝ} {l r : HlldSide ℝ} {sg : ℝ}
    (fl : l.fan = .ofGas γ tl) (fr : r.fan = .ofGas γ tr)
    (vl : l.vdotb = l.u * a + l.v * l.b + l.w * l.c) (vr : r.vdotb = r.u * a + r.v * r.b + r.w * r.c)
    (hl : 0 < l.r) (hr : 0 < r.r) (ol : 0 < l.r * (l.u - W.sl)) (or : 0 < r.r * (W.sr - r.u))
    (o1 : W.sl < W.ustar) (o2 : W.ustar < W.sr)
    (pl : W.ptotstar = l.ptot + l.r * (W.sl - l.u) * (W.ustar - l.u))
    (pr : W.ptotstar = r.ptot + r.r * (W.sr - r.u) * (W.ustar - r.u))
    (rl : Regular a W.sl W.ustar l) (rr : Regular a W.sr W.ustar r)
    (hsg : sg * |a| = a) (hsg' : sg * sg = 1) :
    ∃ s q, FiveWaves γ a tl tr s q ∧ FluxAtOrigin a s q (hlldSample a sg W l r) ∧
      s 0 = W.sl ∧ s 2 = W.ustar ∧ s 4 = W.sr ∧ (q 1).d = l.r * (W.sl - l.u) / (W.sl - W.ustar) ∧
      (q 4).d = r.r * (W.sr - r.u) / (W.sr - W.ustar) := by
  obtain ⟨a1, -, -, -, -, a6, -, a8, a9⟩ := star_fields (pts := W.ptotstar) rl
  obtain ⟨b1, -, -, -, -, b6, -, b8, b9⟩ := star_fields (pts := W.ptotstar) rr
  have jl := star_jump rl o1.ne vl pl
  have jr := star_jump rr o2.ne' vr pr
  generalize hL : hlldStar a W.sl W.ustar W.ptotstar l = L at *
  generalize hR : hlldStar a W.sr W.ustar W.ptotstar r = R at *
  have dL : 0 < L.r := by
    rw [a1]; refine div_pos_of_neg_of_neg ?_ (by linarith); linarith
  have dR : 0 < R.r := by
    rw [b1]; exact div_pos or (by linarith)
  have sL : 0 < L.sqrr := by rw [a8]; exact Real.sqrt_pos.2 dL
  have sR : 0 < R.sqrr := by rw [b8]; exact Real.sqrt_pos.2 dR
  have qL : L.sqrr * L.sqrr = L.r := by rw [a8]; exact Real.mul_self_sqrt dL.le
  have qR : R.sqrr * R.sqrr = R.r := by rw [b8]; exact Real.mul_self_sqrt dR.le
  obtain ⟨⟨m1, m2⟩, ⟨m3, m4⟩, m5⟩ := mid_left (a := a) (us := W.ustar) sL sR hsg'
  generalize hM : hlldMid a sg W.ustar L R = M at *
  have j1 := alfven_jump (σ := -1) sL qL hsg hsg' a9 a6 m5 (by rw [m1]; ring) (by rw [m2]; ring) (by norm_num)
  have j3 := alfven_jump (σ := 1) sR qR hsg hsg' b9 b6 m5 (by rw [m3]; ring) (by rw [m4]; ring) (by norm_num)
  have e1 : W.ustar + -1 * L.calfven = W.ustar - L.calfven := by ring
  have e2 : W.ustar + 1 * R.calfven = W.ustar + R.calfven := by ring
  have e3 : L.etot + -1 * (sg * L.sqrr * (L.vdotb - M.vdotb)) =
    L.etot - sg * L.sqrr * (L.vdotb - M.vdotb) := by ring
  have e4 : R.etot + 1 * (sg * R.sqrr * (R.vdotb - M.vdotb)) =
    R.etot + sg * R.sqrr * (R.vdotb - M.vdotb) := by ring
  rw [e1, e3] at j1
  rw [e2, e4] at j3
  have back : ∀ {s : ℝ} {x y : FanState}, Jump a s x y → Jump a s y x := fun h i => by
    have := h i; linarith
  refine ⟨_, _, ⟨fl, fr, ?_, ?_, ?_, ⟨rfl, rfl, rfl, rfl⟩, ⟨rfl, ?_, rfl, ?_⟩, ⟨o1, o2⟩, ?_⟩,
    sample_fan hL.symm hR.symm hM.symm vl vr a6 b6 m5, rfl, rfl, rfl, a1, b1⟩
  · intro i
    fin_cases i
    exacts [jl, j1, contact_jump, back j3, back jr]
  · intro i hi
    simp only [List.mem_cons, List.not_mem_nil, or_false] at hi
    rcases hi with rfl | rfl | rfl | rfl <;> rfl
  · intro i hi
    simp only [List.mem_cons, List.not_mem_nil, or_false] at hi
    rcases hi with rfl | rfl | rfl | rfl <;> rfl
  · show W.ustar - L.calfven = W.ustar - |a| / Real.sqrt L.r
    rw [a9, a8]
  · show W.ustar + R.calfven = W.ustar + |a| / Real.sqrt R.r
    rw [b9, b8]
  · intro i
    fin_cases i
    exacts [hl, dL, dL, dR, dR, hr]

/-- The code's special case: `fabs(estar/(a*a)-1) <= 1e-8`. -/
def Guarded (s us : ℝ) (q : MState ℝ) : Prop :=
  q.a ≠ 0 ∧ |outerMargin s us q / q.a ^ 2 - 1| ≤ 1 / 100000000

theorem alfven_inside {a x D m : ℝ} (hx : 0 < x) (hD : 0 < D) (hm : m = D * x) (h : 0 < m * x - a ^ 2) :
    |a| / Real.sqrt D < x := by
  rw [div_lt_iff₀ (Real.sqrt_pos.2 hD)]
  refine abs_lt_of_sq_lt_sq ?_ (by positivity)
  rw [mul_pow, Real.sq_sqrt hD.le]
  have : x ^ 2 * D = m * x := by rw [hm]; ring
  rw [this]
  exact sub_pos.1 h

theorem regular_of {a s us : ℝ} {q : MState ℝ} {o : HlldSide ℝ} (e1 : q.a = a) (e2 : o.r = q.d)
    (e3 : o.u = q.u) (h : outerMargin s us q ≠ 0 ∧ ¬Guarded s us q) : Regular a s us o := by
  have e : hlldEstar a s us o = outerMargin s us q := by
    unfold hlldEstar outerMargin; rw [e2, e3, e1]; ring
  refine ⟨by rw [e]; exact h.1, fun ha => ?_⟩
  rw [e]
  by_contra hn
  refine h.2 ⟨?_, ?_⟩
  · rw [e1]; rintro rfl; simp at ha
  · rw [e1, sq]; exact not_lt.1 hn

/-- **C94**: with the outer speeds `sl`, `sr` the flux is that of a fan of five waves obeying the jump
conditions; the fast and the Alfven waves are in order wherever the margins are positive. -/
theorem C94_hlld (hS : MhdParams S) (ql qr : MState ℝ) (hl : Physical ql) (hr : Physical qr) (a cl cr : ℝ)
    (ha : a = (ql.a + qr.a) / 2) (tl tr : MState ℝ) (htl : tl = { thermal S ql with a := a })
    (htr : tr = { thermal S qr with a := a }) (hcl : FastWave S.gamma0 tl a cl)
    (hcr : FastWave S.gamma0 tr a cr) (sl sr us : ℝ) (hsl : sl = min ql.u qr.u - max cl cr)
    (hsr : sr = max ql.u qr.u + max cl cr) (hus : us = contactSpeed sl sr tl tr)
    (nl : outerMargin sl us tl ≠ 0 ∧ ¬Guarded sl us tl) (nr : outerMargin sr us tr ≠ 0 ∧ ¬Guarded sr us tr) :
    ∃ s q, FiveWaves S.gamma0 a tl tr s q ∧ FluxAtOrigin a s q (riemann_mhd_hlld S ql qr) ∧
      s 0 = sl ∧ s 2 = us ∧ s 4 = sr ∧ (0 < outerMargin sl us tl → s 0 < s 1) ∧
      (0 < outerMargin sr us tr → s 3 < s 4) := by
  have h1 : tl = { ql with a := a, p := isoPressure S ql.d ql.p } := by
    rw [htl, isoPressure_real, thermal_eq]
  have h2 : tr = { qr with a := a, p := isoPressure S qr.d qr.p } := by
    rw [htr, isoPressure_real, thermal_eq]
  have p1 : Physical tl := by rw [h1, isoPressure_real]; exact ⟨hl.d, (thermal_physical hl).p⟩
  have p2 : Physical tr := by rw [h2, isoPressure_real]; exact ⟨hr.d, (thermal_physical hr).p⟩
  have ta : tl.a = a := by rw [h1]
  have tb : tr.a = a := by rw [h2]
  have u1 : tl.u = ql.u := by rw [h1]
  have u2 : tr.u = qr.u := by rw [h2]
  have c1 : cl = find_speed_fast_x S tl := fastWave_unique
    (div_pos (mul_pos (by linarith [hS.gamma]) p1.p) p1.d) hcl (by
    have := (C38_fast (by linarith [hS.gamma]) tl p1).1.2; rw [ta] at this; exact this)
  have c2 : cr = find_speed_fast_x S tr := fastWave_unique
    (div_pos (mul_pos (by linarith [hS.gamma]) p2.p) p2.d) hcr (by
    have := (C38_fast (by linarith [hS.gamma]) tr p2).1.2; rw [tb] at this; exact this)
  obtain ⟨l, hl'⟩ : ∃ l, l = hlldOuter S a tl.p tl := ⟨_, rfl⟩
  obtain ⟨r, hr'⟩ : ∃ r, r = hlldOuter S a tr.p tr := ⟨_, rfl⟩
  obtain ⟨W, hW⟩ : ∃ W, W = hlldWaves (find_speed_fast_x S tl) (find_speed_fast_x S tr) l r := ⟨_, rfl⟩
  obtain ⟨o1, o2, o3, o4⟩ := hlldWaves_order hS.gamma hl hr h1 h2 hl' hr' hW
  have f1 := outer_fan (S := S) (q := tl) ta rfl
  have f2 := outer_fan (S := S) (q := tr) tb rfl
  rw [← hl'] at f1
  rw [← hr'] at f2
  have l1 : l.r = tl.d := by rw [hl']; rfl
  have l2 : l.u = tl.u := by rw [hl']; rfl
  have l3 : l.ptot = tl.p + fieldSq tl / 2 := congrArg FanState.pt f1.1
  have r1 : r.r = tr.d := by rw [hr']; rfl
  have r2 : r.u = tr.u := by rw [hr']; rfl
  have r3 : r.ptot = tr.p + fieldSq tr / 2 := congrArg FanState.pt f2.1
  have w1 : W.sl = sl := by rw [hW, hsl, ← u1, ← u2, ← l2, ← r2, c1, c2]; rfl
  have w2 : W.sr = sr := by rw [hW, hsr, ← u1, ← u2, ← l2, ← r2, c1, c2]; rfl
  have s0 : 0 < r.r * (W.sr - r.u) + l.r * (l.u - W.sl) := by rw [l1, r1]; linarith
  have k1 : W.ustar = (r.r * (W.sr - r.u) * r.u + l.r * (l.u - W.sl) * l.u + (l.ptot - r.ptot)) /
      (r.r * (W.sr - r.u) + l.r * (l.u - W.sl)) := by rw [hW]; rfl
  have k2 : W.ptotstar = (r.r * (W.sr - r.u) * l.ptot + l.r * (l.u - W.sl) * r.ptot +
      l.r * (l.u - W.sl) * (r.r * (W.sr - r.u)) * (l.u - r.u)) /
      (r.r * (W.sr - r.u) + l.r * (l.u - W.sl)) := by rw [hW]; rfl
  have w3 : W.ustar = us := by
    rw [k1, hus, w1, w2, l1, l2, l3, r1, r2, r3]; rfl
  have pl : W.ptotstar = l.ptot + l.r * (W.sl - l.u) * (W.ustar - l.u) := by
    rw [k1, k2]; field_simp; ring
  have pr : W.ptotstar = r.ptot + r.r * (W.sr - r.u) * (W.ustar - r.u) := by
    rw [k1, k2]; field_simp; ring
  have hsg : (if 0 ≤ a then (1 : ℝ) else -1) * |a| = a := by
    split_ifs with h
    · rw [abs_of_nonneg h]; ring
    · rw [abs_of_neg (not_le.1 h)]; ring
  have hsg' : (if 0 ≤ a then (1 : ℝ) else -1) * (if 0 ≤ a then (1 : ℝ) else -1) = 1 := by
    split_ifs <;> norm_num
  have eq : riemann_mhd_hlld S ql qr = hlldSample a (if 0 ≤ a then 1 else -1) W l r := by
    have e0 : (ROps.lit (1 / 2) : ℝ) * (ql.a + qr.a) = a := by rw [ha]; rops; ring
    have m1 : isoPressure S ql.d ql.p = tl.p := by rw [h1]
    have m2 : isoPressure S qr.d qr.p = tr.p := by rw [h2]
    unfold riemann_mhd_hlld
    simp only [e0, ← h1, ← h2]
    rw [m1, m2, ← hl', ← hr', ← hW]
    congr 1
    rops
  rw [eq]
  obtain ⟨s, q, g1, g2, g3, g4, g5, g6, g7⟩ := fan_of (sg := if 0 ≤ a then 1 else -1) f1.1 f2.1
    (by rw [hl']; rfl) (by rw [hr']; rfl) (by rw [l1]; exact p1.d)
    (by rw [r1]; exact p2.d) (by rw [l1]; exact o2) (by rw [r1]; exact o1) o3 o4 pl pr
    (by rw [w3, w1]; exact regular_of ta l1 l2 nl) (by rw [w3, w2]; exact regular_of tb r1 r2 nr) hsg hsg'
  refine ⟨s, q, g1, g2, g3.trans w1, g4.trans w3, g5.trans w2, fun h => ?_, fun h => ?_⟩
  · rw [g1.alfven.2.1, g3, g4]
    have := alfven_inside (a := a) (x := W.ustar - W.sl) (D := (q 1).d) (m := l.r * (l.u - W.sl)) (by linarith) (g1.dens 1)
      (by rw [g6]; have : W.sl - W.ustar ≠ 0 := by linarith
          field_simp; ring)
      (by rw [w3, w1, l1, l2]; unfold outerMargin at h; rw [ta] at h; linarith)
    linarith
  · rw [g1.alfven.2.2.2, g5, g4]
    have := alfven_inside (a := a) (x := W.sr - W.ustar) (D := (q 4).d) (m := r.r * (W.sr - r.u)) (by linarith) (g1.dens 4)
      (by rw [g7]; have : W.sr - W.ustar ≠ 0 := by linarith
          field_simp)
      (by rw [w3, w2, r1, r2]; unfold outerMargin at h; rw [tb] at h; linarith)
    linarith

/-- **C94, without normal field**: for all physical states. -/
theorem C94_hlld_perp (hS : MhdParams S) (ql qr : MState ℝ) (hl : Physical ql) (hr : Physical qr)
    (h0 : ql.a + qr.a = 0) :
    ∃ s q, FiveWaves S.gamma0 0 { thermal S ql with a := 0 } { thermal S qr with a := 0 } s q ∧
      FluxAtOrigin 0 s q (riemann_mhd_hlld S ql qr) ∧ s 0 < s 1 ∧ s 3 < s 4 := by
  obtain ⟨tl, htl⟩ : ∃ t : MState ℝ, t = { thermal S ql with a := 0 } := ⟨_, rfl⟩
  obtain ⟨tr, htr⟩ : ∃ t : MState ℝ, t = { thermal S qr with a := 0 } := ⟨_, rfl⟩
  have h1 : tl = { ql with a := 0, p := isoPressure S ql.d ql.p } := by
    rw [htl, isoPressure_real, thermal_eq]
  have h2 : tr = { qr with a := 0, p := isoPressure S qr.d qr.p } := by
    rw [htr, isoPressure_real, thermal_eq]
  have p1 : Physical tl := by rw [h1, isoPressure_real]; exact ⟨hl.d, (thermal_physical hl).p⟩
  have p2 : Physical tr := by rw [h2, isoPressure_real]; exact ⟨hr.d, (thermal_physical hr).p⟩
  have ta : tl.a = 0 := by rw [h1]
  have tb : tr.a = 0 := by rw [h2]
  have c1 := (C38_fast (S := S) (by linarith [hS.gamma]) tl p1).1.2
  have c2 := (C38_fast (S := S) (by linarith [hS.gamma]) tr p2).1.2
  rw [ta] at c1
  rw [tb] at c2
  obtain ⟨o1, o2, o3, o4⟩ := hlldWaves_order hS.gamma hl hr h1 h2 rfl rfl rfl
  have e1 : (hlldWaves (find_speed_fast_x S tl) (find_speed_fast_x S tr) (hlldOuter S 0 tl.p tl)
      (hlldOuter S 0 tr.p tr)).sl = min ql.u qr.u - max (find_speed_fast_x S tl) (find_speed_fast_x S tr) := by
    have u1 : tl.u = ql.u := by rw [h1]
    have u2 : tr.u = qr.u := by rw [h2]
    rw [← u1, ← u2]; rfl
  have e2 : (hlldWaves (find_speed_fast_x S tl) (find_speed_fast_x S tr) (hlldOuter S 0 tl.p tl)
      (hlldOuter S 0 tr.p tr)).sr = max ql.u qr.u + max (find_speed_fast_x S tl) (find_speed_fast_x S tr) := by
    have u1 : tl.u = ql.u := by rw [h1]
    have u2 : tr.u = qr.u := by rw [h2]
    rw [← u1, ← u2]; rfl
  have e3 : (hlldWaves (find_speed_fast_x S tl) (find_speed_fast_x S tr) (hlldOuter S 0 tl.p tl)
      (hlldOuter S 0 tr.p tr)).ustar = contactSpeed (min ql.u qr.u - max (find_speed_fast_x S tl) (find_speed_fast_x S tr))
        (max ql.u qr.u + max (find_speed_fast_x S tl) (find_speed_fast_x S tr)) tl tr := by
    rw [← e1, ← e2]
    unfold contactSpeed
    have f1 := congrArg FanState.pt (outer_fan (S := S) (q := tl) ta rfl).1
    have f2 := congrArg FanState.pt (outer_fan (S := S) (q := tr) tb rfl).1
    have g1 : tl.p + fieldSq tl / 2 = (hlldOuter S 0 tl.p tl).ptot := f1.symm
    have g2 : tr.p + fieldSq tr / 2 = (hlldOuter S 0 tr.p tr).ptot := f2.symm
    rw [g1, g2]
    rfl
  rw [e1, e3] at o3
  rw [e2, e3] at o4
  rw [e1] at o2
  rw [e2] at o1
  have m1 : 0 < outerMargin (min ql.u qr.u - max (find_speed_fast_x S tl) (find_speed_fast_x S tr))
      (contactSpeed (min ql.u qr.u - max (find_speed_fast_x S tl) (find_speed_fast_x S tr))
        (max ql.u qr.u + max (find_speed_fast_x S tl) (find_speed_fast_x S tr)) tl tr) tl := by
    unfold outerMargin
    rw [ta]
    have : 0 < tl.d * (tl.u - (min ql.u qr.u - max (find_speed_fast_x S tl) (find_speed_fast_x S tr))) := o2
    have := mul_pos this (sub_pos.2 o3)
    linarith
  have m2 : 0 < outerMargin (max ql.u qr.u + max (find_speed_fast_x S tl) (find_speed_fast_x S tr))
      (contactSpeed (min ql.u qr.u - max (find_speed_fast_x S tl) (find_speed_fast_x S tr))
        (max ql.u qr.u + max (find_speed_fast_x S tl) (find_speed_fast_x S tr)) tl tr) tr := by
    unfold outerMargin
    rw [tb]
    have : 0 < tr.d * (max ql.u qr.u + max (find_speed_fast_x S tl) (find_speed_fast_x S tr) - tr.u) := o1
    have := mul_pos this (sub_pos.2 o4)
    linarith
  obtain ⟨s, q, k1, k2, -, -, -, k3, k4⟩ := C94_hlld hS ql qr hl hr 0 _ _ (by rw [h0]; simp) tl tr htl htr c1 c2
    _ _ _ rfl rfl rfl ⟨m1.ne', fun h => h.1 ta⟩ ⟨m2.ne', fun h => h.1 tb⟩
  rw [← htl, ← htr]
  exact ⟨s, q, k1, k2, k3 m1, k4 m2⟩

/-- The premises of `C94_hlld` hold for two gases colliding in an oblique field. -/
example : let q : ℝ → MState ℝ := fun u => ⟨1, 4 / 3, u, 0, 0, 1, 1, 0⟩
    Physical (q 1) ∧ Physical (q (-1)) ∧ FastWave 2 (q 1) 1 2 ∧ FastWave 2 (q (-1)) 1 2 ∧
    contactSpeed (-3) 3 (q 1) (q (-1)) = 0 ∧ outerMargin (-3) 0 (q 1) = 11 ∧ outerMargin 3 0 (q (-1)) = 11 ∧
    ¬Guarded (-3) 0 (q 1) ∧ ¬Guarded 3 0 (q (-1)) := by
  refine ⟨⟨by norm_num, by norm_num⟩, ⟨by norm_num, by norm_num⟩, ?_, ?_, ?_, ?_, ?_, ?_, ?_⟩
  · constructor <;> norm_num [Magnetosonic, soundSq, fieldSq]
  · constructor <;> norm_num [Magnetosonic, soundSq, fieldSq]
  · norm_num [contactSpeed, fieldSq]
  · norm_num [outerMargin]
  · norm_num [outerMargin]
  · rintro ⟨-, h⟩; norm_num [outerMargin, abs_of_pos] at h
  · rintro ⟨-, h⟩; norm_num [outerMargin, abs_of_pos] at h

/-! ### The special case of the code -/

/-- Two gases colliding with velocity one. -/
noncomputable def collide (u : ℝ) : MState ℝ := ⟨1, 294 / 13, u, 0, 0, 6, 1, 0⟩

theorem collide_wave (u : ℝ) : FastWave 2 (collide u) 6 7 := by
  constructor <;> norm_num [Magnetosonic, soundSq, fieldSq, collide]

theorem jump_to {a s : ℝ} {x y : FanState} (h : Jump a s x y) :
    y.d * y.u - x.d * x.u = s * (y.d - x.d) ∧
    y.d * y.u ^ 2 + y.pt - a ^ 2 - (x.d * x.u ^ 2 + x.pt - a ^ 2) = s * (y.d * y.u - x.d * x.u) ∧
    y.d * y.u * y.v - a * y.b - (x.d * x.u * x.v - a * x.b) = s * (y.d * y.v - x.d * x.v) ∧
    y.u * y.b - y.v * a - (x.u * x.b - x.v * a) = s * (y.b - x.b) :=
  ⟨h 0, h 2, h 3, h 6⟩

/-- What the jump conditions say. -/
theorem collide_fan {s : Fin 5 → ℝ} {q : Fin 6 → FanState} (h : FiveWaves 2 6 (collide 1) (collide (-1)) s q)
    (h0 : s 0 = -8) (h4 : s 4 = 8) {f : MState ℝ} (hf : FluxAtOrigin 6 s q f) :
    f.v = Real.sqrt (9 / 8) - 15 / 2 := by
  have u1 := h.u 1 (by simp)
  have u2 := h.u 2 (by simp)
  have u3 := h.u 3 (by simp)
  have u4 := h.u 4 (by simp)
  have t4 := h.pt 4 (by simp)
  have L := h.left
  have R := h.right
  obtain ⟨c1, -, c3, -⟩ := h.contact
  obtain ⟨a1, a2, a3, a4⟩ := h.alfven
  have J0 : Jump 6 (-8) (.ofGas 2 (collide 1)) (q 1) := by rw [← h0, ← L]; exact h.jump 0
  have J1 : Jump 6 (s 1) (q 1) (q 2) := h.jump 1
  have J3 : Jump 6 (s 3) (q 3) (q 4) := h.jump 3
  have J4 : Jump 6 8 (q 4) (.ofGas 2 (collide (-1))) := by rw [← h4, ← R]; exact h.jump 4
  obtain ⟨d1, m1, v1, b1⟩ := jump_to J0
  obtain ⟨-, -, w1, -⟩ := jump_to J1
  obtain ⟨-, -, w4, -⟩ := jump_to J3
  obtain ⟨d4, m4, v4, b4⟩ := jump_to J4
  have e0 : ∀ u, FanState.ofGas 2 (collide u) =
      ⟨1, u, 0, 0, 1, 0, mhdEnergy 2 (collide u), 294 / 13 + 37 / 2⟩ := by
    intro u
    unfold FanState.ofGas
    have : fieldSq (collide u) = 37 := by norm_num [fieldSq, collide]
    rw [this]; rfl
  simp only [e0, u1, u4, t4] at d1 m1 v1 b1 d4 m4 v4 b4
  simp only [u1, u2, u3, u4, a1, a3] at w1 w4
  have s2 : s 2 = 0 := by
    have e1 : 9 * s 2 + (q 1).pt = 8 + (1 + (294 / 13 + 37 / 2)) := by
      linear_combination m1 - s 2 * d1
    have e4 : -9 * s 2 + (q 1).pt = 8 + (1 + (294 / 13 + 37 / 2)) := by
      linear_combination -m4 + s 2 * d4
    linarith only [e1, e4]
  simp only [s2] at d1 d4 v1 b1 v4 b4 w1 w4
  have D1 : (q 1).d = 9 / 8 := by linarith only [d1]
  have D4 : (q 4).d = 9 / 8 := by linarith only [d4]
  rw [s2] at u1 u2 u3 u4
  simp only [D1, D4] at v1 b1 v4 b4 w1 w4
  obtain ⟨t, ht⟩ : ∃ t, t = Real.sqrt (9 / 8) := ⟨_, rfl⟩
  have tp : 0 < t := by rw [ht]; exact Real.sqrt_pos.2 (by norm_num)
  have tq : t * t = 9 / 8 := by rw [ht]; exact Real.mul_self_sqrt (by norm_num)
  rw [s2, D1, ← ht, abs_of_pos (by norm_num : (0 : ℝ) < 6)] at a2
  rw [s2, D4, ← ht, abs_of_pos (by norm_num : (0 : ℝ) < 6)] at a4
  have s1 : s 1 * t = -6 := by rw [a2]; field_simp; ring
  have s3 : s 3 * t = 6 := by rw [a4]; field_simp; ring
  have V1 : (q 1).v = 1 / 6 := by linarith only [v1, b1]
  have V4 : (q 4).v = -1 / 6 := by linarith only [v4, b4]
  have B1 : (q 1).b = 5 / 4 := by linarith only [v1, b1]
  have B4 : (q 4).b = 5 / 4 := by linarith only [v4, b4]
  have x1 : (q 2).b - 5 / 4 = t * ((q 2).v - 1 / 6) := by
    rw [← tq, V1, B1] at w1
    linear_combination -(1 / 6) * w1 - (1 / 6) * t * ((q 2).v - 1 / 6) * s1
  have x4 : 5 / 4 - (q 3).b = t * (-1 / 6 - (q 3).v) * -1 := by
    rw [← tq, V4, B4] at w4
    linear_combination -(1 / 6) * w4 - (1 / 6) * t * (-1 / 6 - (q 3).v) * s3
  have z : (q 3).b = 5 / 4 - t / 6 := by rw [c1, c3] at x1; linarith only [x1, x4]
  have n0 : 0 < 6 / t := div_pos (by norm_num) tp
  have n1 : s 1 < 0 := by rw [a2]; linarith only [n0]
  have n3 : 0 < s 3 := by rw [a4]; linarith only [n0]
  obtain ⟨i, e, k1, k2⟩ := hf
  have : i = 3 := by
    fin_cases i
    · have := k2 0 rfl; linarith only [this, h0]
    · have := k2 1 rfl; linarith only [this, n1]
    · have := k2 2 rfl; linarith only [this, s2]
    · rfl
    · have := k1 3 (by decide); linarith only [this, n3]
    · have := k1 3 (by decide); linarith only [this, n3]
  rw [e, this, ← ht]
  simp only [FanState.flux, u3, z]
  ring

theorem collide_speed (u : ℝ) : find_speed_fast_x exampleMhd (collide u) = 7 := by
  have p : Physical (collide u) := ⟨by norm_num [collide], by norm_num [collide]⟩
  have h := (C38_fast (S := exampleMhd) (by norm_num [exampleMhd, exampleSettings]) _ p).1.2
  have g : exampleMhd.gamma0 = 2 := rfl
  rw [g] at h
  exact fastWave_unique (by norm_num [soundSq, collide]) h (collide_wave u)

/-- The transverse momentum flux the code computes. -/
theorem collide_code : (riemann_mhd_hlld exampleMhd (collide 1) (collide (-1))).v = -6 := by
  have e0 : (ROps.lit (1 / 2) : ℝ) * ((collide 1).a + (collide (-1)).a) = 6 := by
    rops; norm_num [collide]
  have p : ∀ u, isoPressure exampleMhd (collide u).d (collide u).p = 294 / 13 := by
    intro u
    rw [isoPressure_real, thermal_adiabatic rfl]; rfl
  have t : ∀ u, MState.mk (collide u).d (294 / 13) (collide u).u (collide u).v (collide u).w 6
      (collide u).b (collide u).c = collide u := fun u => rfl
  have o : ∀ u, hlldOuter exampleMhd 6 (294 / 13) (collide u) =
      ⟨1, u, 0, 0, 1, 0, 294 / 13 + u * u / 2 + 37 / 2, 294 / 13 + 37 / 2, 6 * u⟩ := by
    intro u
    have g : exampleMhd.gamma0 = 2 := rfl
    unfold hlldOuter collide
    rops
    rw [g]
    norm_num
    constructor <;> ring
  have w : hlldWaves (7 : ℝ) 7 ⟨1, 1, 0, 0, 1, 0, 294 / 13 + 1 * 1 / 2 + 37 / 2, 294 / 13 + 37 / 2, 6 * 1⟩
      ⟨1, -1, 0, 0, 1, 0, 294 / 13 + -1 * -1 / 2 + 37 / 2, 294 / 13 + 37 / 2, 6 * -1⟩ =
      ⟨-8, 8, 0, 294 / 13 + 37 / 2 + 9⟩ := by
    unfold hlldWaves
    rops
    norm_num
  have st : ∀ s v e k : ℝ, s * (s - v) = 72 →
      let x := hlldStar 6 s 0 (294 / 13 + 37 / 2 + 9) ⟨1, v, 0, 0, 1, 0, e, 294 / 13 + 37 / 2, k⟩
      x.v = 0 ∧ x.b = 1 ∧ x.sqrr = Real.sqrt ((s - v) / s) ∧ x.calfven = 6 / Real.sqrt ((s - v) / s) := by
    intro s v e k h
    have he : hlldEstar 6 s 0 (⟨1, v, 0, 0, 1, 0, e, 294 / 13 + 37 / 2, k⟩ : HlldSide ℝ) = 36 := by
      unfold hlldEstar; linarith
    have hn : (ROps.gtb ((6 : ℝ) * 6) (ROps.lit 0) && ROps.leb (ROps.fabs (hlldEstar 6 s 0
        (⟨1, v, 0, 0, 1, 0, e, 294 / 13 + 37 / 2, k⟩ : HlldSide ℝ) / (6 * 6) - ROps.lit 1))
        (ROps.lit (1 / 100000000))) = true := by
      rw [he, Bool.and_eq_true]
      rops
      norm_num
    intro x
    simp only [x]
    unfold hlldStar
    simp only [if_pos hn]
    rops
    norm_num
  unfold riemann_mhd_hlld
  simp only [e0, p, t, o, collide_speed]
  rw [w]
  have sg : (if ROps.geb (6 : ℝ) (ROps.lit 0) = true then ROps.lit 1 else -ROps.lit 1 : ℝ) = 1 := by
    rops; norm_num
  rw [sg]
  obtain ⟨a1, a2, a3, a4⟩ := st (-8) 1 (294 / 13 + 1 * 1 / 2 + 37 / 2) (6 * 1) (by norm_num)
  obtain ⟨b1, b2, b3, b4⟩ := st 8 (-1) (294 / 13 + -1 * -1 / 2 + 37 / 2) (6 * -1) (by norm_num)
  have q1 : ((-8 : ℝ) - 1) / -8 = 9 / 8 := by norm_num
  have q2 : ((8 : ℝ) - -1) / 8 = 9 / 8 := by norm_num
  rw [q1] at a3 a4
  rw [q2] at b3 b4
  have tp : 0 < Real.sqrt (9 / 8) := Real.sqrt_pos.2 (by norm_num)
  have m : (hlldMid 6 1 0
      (hlldStar 6 (-8) 0 (294 / 13 + 37 / 2 + 9) ⟨1, 1, 0, 0, 1, 0, 294 / 13 + 1 * 1 / 2 + 37 / 2, 294 / 13 + 37 / 2, 6 * 1⟩)
      (hlldStar 6 8 0 (294 / 13 + 37 / 2 + 9) ⟨1, -1, 0, 0, 1, 0, 294 / 13 + -1 * -1 / 2 + 37 / 2, 294 / 13 + 37 / 2, 6 * -1⟩)).b
      = (1 : ℝ) := by
    unfold hlldMid
    simp only [a1, a2, a3, b1, b2, b3]
    field_simp
    ring
  unfold hlldSample
  simp only [a4, b4]
  rops
  have c1 : ¬ (0 < (0 : ℝ) - 6 / Real.sqrt (9 / 8)) := by
    have : 0 < 6 / Real.sqrt (9 / 8) := by positivity
    linarith
  have c2 : 0 < (0 : ℝ) + 6 / Real.sqrt (9 / 8) := by positivity
  rw [if_neg (by norm_num), if_neg c1, if_neg (by norm_num), if_pos c2]
  unfold hlldFlux
  simp only [m]
  ring

/-- **C94, failure of the special case** (see DESIGN.md): the premises of `C94_hlld` except the one about
the special case hold, but no fan with the outer speeds of the code has the flux the code returns. -/
theorem C94_guard :
    MhdParams exampleMhd ∧ exampleMhd.gamma0 = 2 ∧ Physical (collide 1) ∧ Physical (collide (-1)) ∧
    FastWave 2 (collide 1) 6 7 ∧ FastWave 2 (collide (-1)) 6 7 ∧
    contactSpeed (-8) 8 (collide 1) (collide (-1)) = 0 ∧
    outerMargin (-8) 0 (collide 1) = 36 ∧ outerMargin 8 0 (collide (-1)) = 36 ∧
    ∀ s q, FiveWaves 2 6 (collide 1) (collide (-1)) s q → s 0 = -8 → s 4 = 8 →
      ¬ FluxAtOrigin 6 s q (riemann_mhd_hlld exampleMhd (collide 1) (collide (-1))) := by
  refine ⟨exampleMhd_params, rfl, ⟨by norm_num [collide], by norm_num [collide]⟩,
    ⟨by norm_num [collide], by norm_num [collide]⟩, collide_wave _, collide_wave _, ?_, ?_, ?_, ?_⟩
  · norm_num [contactSpeed, collide, fieldSq]
  · norm_num [outerMargin, collide]
  · norm_num [outerMargin, collide]
  · intro s q h h0 h4 hf
    have := collide_fan h h0 h4 hf
    rw [collide_code] at this
    have e : Real.sqrt (9 / 8) = 3 / 2 := by linarith
    have k := Real.sq_sqrt (show (0 : ℝ) ≤ 9 / 8 by norm_num)
    rw [e] at k
    norm_num at k

end Verif
