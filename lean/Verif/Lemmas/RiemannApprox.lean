import Verif.Lemmas.Riemann

/-! Helper lemmas on the approximate (Newton) Riemann solver. -/

namespace Verif

open Spec

variable {S : Settings ℝ}

theorem approxNewton_swap (cl cr pl pr ul ur pold : ℝ) :
    approxNewton S cr cl pr pl (-ur) (-ul) pold = approxNewton S cl cr pl pr ul ur pold := by
  unfold approxNewton
  rops
  generalize √(cl * (1 + S.gamma6 * (pold - pl) / pl)) = a
  generalize √(cr * (1 + S.gamma6 * (pold - pr) / pr)) = b
  have e1 : (-ur - (pold - pr) / b - (-ul + (pold - pl) / a)) =
      (ul - (pold - pl) / a - (ur + (pold - pr) / b)) := by ring
  rw [e1, mul_comm (2 * a * a * a / (a * a + cl)), add_comm (2 * a * a * a / (a * a + cl))]

theorem approxLoop_swap (cl cr pl pr ul ur : ℝ) (n : Nat) (pold conv : ℝ) :
    approxLoop S cr cl pr pl (-ur) (-ul) n pold conv = approxLoop S cl cr pl pr ul ur n pold conv := by
  induction n generalizing pold conv with
  | zero => rfl
  | succ n ih => simp only [approxLoop, approxNewton_swap, ih]

theorem approxStar_swap (rl ul pl rr ur pr : ℝ) :
    approxStar S rr (-ur) pr rl (-ul) pl =
      ((approxStar S rl ul pl rr ur pr).1, -(approxStar S rl ul pl rr ur pr).2.1,
        (approxStar S rl ul pl rr ur pr).2.2.2, (approxStar S rl ul pl rr ur pr).2.2.1) := by
  unfold approxStar
  simp only []
  rops
  simp only [approxLoop_swap]
  have : max ((√(S.gamma0 * pl * rl) * pr + √(S.gamma0 * pr * rr) * pl +
      √(S.gamma0 * pr * rr) * √(S.gamma0 * pl * rl) * (-ur - -ul)) /
      (√(S.gamma0 * pr * rr) + √(S.gamma0 * pl * rl))) 0 =
    max ((√(S.gamma0 * pr * rr) * pl + √(S.gamma0 * pl * rl) * pr +
      √(S.gamma0 * pl * rl) * √(S.gamma0 * pr * rr) * (ul - ur)) /
      (√(S.gamma0 * pl * rl) + √(S.gamma0 * pr * rr))) 0 := by
    congr 2 <;> ring
  rw [this]
  ext <;> simp only []
  ring

theorem approxSample_swap (sgnm pstar ustar ro uo po wo : ℝ) :
    approxSample S (-sgnm) pstar (-ustar) ro (-uo) po wo =
      ((approxSample S sgnm pstar ustar ro uo po wo).1,
        -(approxSample S sgnm pstar ustar ro uo po wo).2.1,
        (approxSample S sgnm pstar ustar ro uo po wo).2.2) := by
  unfold approxSample
  simp only []
  rops
  simp only [neg_mul_neg]
  split_ifs <;> simp
  all_goals ring

theorem copysign_one (x : ℝ) : (ROps.copysign (ROps.lit 1) x : ℝ) = if x < 0 then -1 else 1 := by
  rops; simp

/-- Contact velocity found by the approximate solver. -/
noncomputable def approxUstar (S : Settings ℝ) (ql qr : HState ℝ) : ℝ :=
  (approxStar S (flr S ql) ql.u (flp S ql) (flr S qr) qr.u (flp S qr)).2.1

theorem riemann_approx_real (d3 : Bool) (hγ : 1 < S.gamma0) (ql qr : HState ℝ) :
    riemann_approx d3 S ql qr =
      (let st := approxStar S (flr S ql) ql.u (flp S ql) (flr S qr) qr.u (flp S qr)
       if st.2.1 < 0 then
         let g := approxSample S (-1) st.1 st.2.1 (flr S qr) qr.u (flp S qr) st.2.2.2
         eulerFlux d3 S.gamma0 ⟨g.1, g.2.2, g.2.1, qr.v, if d3 then qr.w else 0⟩
       else
         let g := approxSample S 1 st.1 st.2.1 (flr S ql) ql.u (flp S ql) st.2.2.1
         eulerFlux d3 S.gamma0 ⟨g.1, g.2.2, g.2.1, ql.v, if d3 then ql.w else 0⟩) := by
  unfold riemann_approx
  simp only [cmpflx_real d3 hγ, copysign_one]
  have e1 : (ROps.fmax ql.d S.smallr) = flr S ql := rfl
  have e2 : (ROps.fmax qr.d S.smallr) = flr S qr := rfl
  have e3 : (ROps.fmax ql.p (flr S ql * S.smallp)) = flp S ql := rfl
  have e4 : (ROps.fmax qr.p (flr S qr * S.smallp)) = flp S qr := rfl
  rw [e1, e2]
  have e3' : ROps.fmax ql.p (@HMul.hMul ℝ ℝ ℝ (@instHMul ℝ ROps.toMul) (flr S ql) S.smallp) = flp S ql := rfl
  have e4' : ROps.fmax qr.p (@HMul.hMul ℝ ℝ ℝ (@instHMul ℝ ROps.toMul) (flr S qr) S.smallp) = flp S qr := rfl
  rw [e3', e4']
  generalize approxStar S (flr S ql) ql.u (flp S ql) (flr S qr) qr.u (flp S qr) = st
  rops
  by_cases h : st.2.1 < 0
  · simp only [h, if_true]
    simp only [show ¬ ((0:ℝ) < -1) by norm_num, if_false]
  · simp only [h, if_false]
    simp only [show ((0:ℝ) < 1) by norm_num, if_true]

theorem riemann_approx_mirror (d3 : Bool) (hγ : 1 < S.gamma0) (ql qr : HState ℝ)
    (hne : approxUstar S ql qr ≠ 0) :
    riemann_approx d3 S (mirror qr) (mirror ql) = mirrorFlux (riemann_approx d3 S ql qr) := by
  rw [riemann_approx_real d3 hγ, riemann_approx_real d3 hγ]
  simp only [flr_mirror, flp_mirror, mirror_u, approxStar_swap]
  unfold approxUstar at hne
  generalize approxStar S (flr S ql) ql.u (flp S ql) (flr S qr) qr.u (flp S qr) = st at *
  rcases lt_or_gt_of_ne hne with h | h
  · rw [if_pos h, if_neg (by linarith)]
    have := approxSample_swap (S := S) (-1) st.1 st.2.1 (flr S qr) qr.u (flp S qr) st.2.2.2
    rw [neg_neg] at this
    rw [this, ← eulerFlux_mirror]; rfl
  · rw [if_neg (not_lt.2 h.le), if_pos (neg_lt_zero.2 h)]
    have := approxSample_swap (S := S) 1 st.1 st.2.1 (flr S ql) ql.u (flp S ql) st.2.2.1
    rw [this, ← eulerFlux_mirror]; rfl

/-! ### Identical states -/

theorem approxStar_same (hS : GasParams S) {r u p : ℝ} (hr : 0 < r) (hp : 0 < p) :
    approxStar S r u p r u p = (p, u, √(S.gamma0 * p * r), √(S.gamma0 * p * r)) := by
  have h1 := hS.gamma
  have hc : 0 < S.gamma0 * p * r := by positivity
  have hw : 0 < √(S.gamma0 * p * r) := Real.sqrt_pos.2 hc
  have hp0 : p ≠ 0 := hp.ne'
  have e0 : ((√(S.gamma0 * p * r) * p + √(S.gamma0 * p * r) * p +
      √(S.gamma0 * p * r) * √(S.gamma0 * p * r) * (u - u)) /
      (√(S.gamma0 * p * r) + √(S.gamma0 * p * r))) = p := by
    have : √(S.gamma0 * p * r) ≠ 0 := hw.ne'
    generalize √(S.gamma0 * p * r) = w at *
    field_simp; ring
  have e1 : ∀ c : ℝ, c * (1 + S.gamma6 * (p - p) / p) = c := by intro c; simp
  have hN : approxNewton S (S.gamma0 * p * r) (S.gamma0 * p * r) p p u u p = (p, 0) := by
    unfold approxNewton
    rops
    simp only [e1]
    have : (u - (p - p) / √(S.gamma0 * p * r) - (u + (p - p) / √(S.gamma0 * p * r))) = 0 := by
      simp
    rw [this, mul_zero, max_eq_left (by linarith)]
    simp
  have hL : ∀ conv, approxLoop S (S.gamma0 * p * r) (S.gamma0 * p * r) p p u u 10 p conv = p := by
    intro conv
    have h0 : ∀ n, approxLoop S (S.gamma0 * p * r) (S.gamma0 * p * r) p p u u n p 0 = p := by
      intro n
      induction n with
      | zero => rfl
      | succ n ih =>
        simp only [approxLoop, hN]
        rw [if_neg]
        rops; norm_num
    rw [approxLoop, hN]
    split
    · exact h0 9
    · rfl
  unfold approxStar
  rops
  simp only [e0, max_eq_left hp.le, hL, e1]
  ext <;> simp only []
  simp only [sub_self, zero_div]; ring

theorem approxSample_same {r p w : ℝ} (s u : ℝ) (hr : S.smallr ≤ r) :
    approxSample S s p u r u p w = (r, u, p) := by
  unfold approxSample
  rops
  have e1 : r / (1 + r * (p - p) / (w * w)) = r := by simp
  simp only [e1, max_eq_left hr, le_refl, if_true]
  have e2 : ∀ f x : ℝ, f * x + (1 - f) * x = x := by intro f x; ring
  simp only [e2, ite_self]

theorem riemann_approx_consistent (d3 : Bool) (hS : GasParams S) {q : HState ℝ}
    (hq : AboveFloors S q) : riemann_approx d3 S q q = eulerFlux d3 S.gamma0 q := by
  have hr : 0 < q.d := lt_of_lt_of_le hS.smallr hq.d
  have hp : 0 < q.p := lt_of_lt_of_le (mul_pos hr hS.smallp) hq.p
  rw [riemann_approx_real d3 hS.gamma, flr_above hq, flp_above hq, approxStar_same hS hr hp]
  simp only [approxSample_same _ _ hq.d, ite_self]
  unfold eulerFlux energy
  cases d3 <;> simp

end Verif
