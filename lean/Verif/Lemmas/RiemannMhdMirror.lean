import Verif.Lemmas.RiemannMhd

/-! Mirror symmetry and upwinding of the MHD Riemann solvers. -/

namespace Verif

open ROps Spec

variable {S : MSettings ℝ}

theorem fast_mirror (q : MState ℝ) : find_speed_fast_x S (mmirror q) = find_speed_fast_x S q := by
  unfold find_speed_fast_x fastSpeed mmirror
  simp only
  rops
  simp only [neg_mul_neg, mul_assoc]

theorem flux_mirror (q : MState ℝ) :
    (find_mhd_flux S (mmirror q)).1 = { (find_mhd_flux S q).1 with
      u := -(find_mhd_flux S q).1.u
      a := -(find_mhd_flux S q).1.a } ∧
    (find_mhd_flux S (mmirror q)).2 = mmirrorFlux (find_mhd_flux S q).2 := by
  unfold find_mhd_flux mmirror mmirrorFlux
  generalize isoPressure S q.d q.p = p
  rops
  constructor
  · simp only [MState.mk.injEq]
    refine ⟨?_, ?_, ?_, ?_, ?_, ?_, ?_, ?_⟩ <;> first | trivial | ring1
  · simp only [MState.mk.injEq]
    refine ⟨?_, ?_, ?_, ?_, ?_, ?_, ?_, ?_⟩ <;> first | trivial | ring1

theorem mean_mirror (ql qr : MState ℝ) :
    ({ mmirror qr with a := 1 / 2 * ((mmirror qr).a + (mmirror ql).a) } : MState ℝ) =
      mmirror { qr with a := 1 / 2 * (ql.a + qr.a) } := by
  unfold mmirror; simp only [MState.mk.injEq, true_and, and_true]; ring

theorem mean_mirror' (ql qr : MState ℝ) :
    ({ mmirror ql with a := 1 / 2 * ((mmirror qr).a + (mmirror ql).a) } : MState ℝ) =
      mmirror { ql with a := 1 / 2 * (ql.a + qr.a) } := by
  unfold mmirror; simp only [MState.mk.injEq, true_and, and_true]; ring

theorem info_mirror (q : MState ℝ) : find_speed_info S (mmirror q) = find_speed_info S q := by
  have f : fastSpeed S (mmirror q) (mmirror q).a = fastSpeed S q q.a := fast_mirror q
  unfold find_speed_info
  rw [f]
  have e : |(mmirror q).u| = |q.u| := abs_neg q.u
  rops
  rw [e]

theorem llf_mirror (ql qr : MState ℝ) :
    riemann_mhd_llf S (mmirror qr) (mmirror ql) = mmirrorFlux (riemann_mhd_llf S ql qr) := by
  unfold riemann_mhd_llf
  rops
  simp only [mean_mirror, mean_mirror', info_mirror, (flux_mirror _).1, (flux_mirror _).2]
  rw [max_comm]
  generalize max (find_speed_info S _) (find_speed_info S _) = A
  generalize find_mhd_flux S { ql with a := 1 / 2 * (ql.a + qr.a) } = l
  generalize find_mhd_flux S { qr with a := 1 / 2 * (ql.a + qr.a) } = r
  unfold MState.map4 mmirrorFlux
  simp only [MState.mk.injEq]
  refine ⟨?_, ?_, ?_, ?_, ?_, ?_, ?_, ?_⟩ <;> ring1

theorem hll_mirror (ql qr : MState ℝ) :
    riemann_mhd_hll S (mmirror qr) (mmirror ql) = mmirrorFlux (riemann_mhd_hll S ql qr) := by
  unfold riemann_mhd_hll
  rops
  simp only [mean_mirror, mean_mirror', fast_mirror, (flux_mirror _).1, (flux_mirror _).2]
  have e : ∀ q : MState ℝ, (mmirror q).u = -q.u := fun q => rfl
  simp only [e]
  generalize find_speed_fast_x S { qr with a := 1 / 2 * (ql.a + qr.a) } = B
  generalize find_speed_fast_x S { ql with a := 1 / 2 * (ql.a + qr.a) } = A
  generalize find_mhd_flux S { ql with a := 1 / 2 * (ql.a + qr.a) } = l
  generalize find_mhd_flux S { qr with a := 1 / 2 * (ql.a + qr.a) } = r
  have h1 : min (min (-qr.u) (-ql.u) - max B A) 0 = -max (max ql.u qr.u + max A B) 0 := by
    rw [min_neg_neg, max_comm B A, max_comm qr.u ql.u]
    rw [← neg_add', ← neg_zero (G := ℝ), min_neg_neg, neg_zero]
  have h2 : max (max (-qr.u) (-ql.u) + max B A) 0 = -min (min ql.u qr.u - max A B) 0 := by
    rw [max_neg_neg, max_comm B A, min_comm qr.u ql.u, neg_add_eq_sub, ← neg_sub (min _ _),
      ← neg_zero (G := ℝ), max_neg_neg, neg_zero]
  rw [h1, h2]
  generalize max (max ql.u qr.u + max A B) 0 = sr
  generalize min (min ql.u qr.u - max A B) 0 = sl
  have hd : -sl - -sr = sr - sl := by ring
  rw [hd]
  unfold MState.map4 mmirrorFlux
  simp only [MState.mk.injEq]
  refine ⟨?_, ?_, ?_, ?_, ?_, ?_, ?_, ?_⟩ <;> ring1

/-! ### HLLD -/

/-- One side of the fan seen in the mirror. -/
def HlldSide.flip (o : HlldSide ℝ) : HlldSide ℝ := { o with u := -o.u }

theorem outer_mirror (a p : ℝ) (q : MState ℝ) :
    hlldOuter S (-a) p (mmirror q) = (hlldOuter S a p q).flip := by
  unfold hlldOuter HlldSide.flip mmirror
  rops
  simp only [neg_mul_neg]

theorem waves_mirror (cl cr : ℝ) (l r : HlldSide ℝ) :
    hlldWaves cr cl r.flip l.flip =
      ⟨-(hlldWaves cl cr l r).sr, -(hlldWaves cl cr l r).sl, -(hlldWaves cl cr l r).ustar,
        (hlldWaves cl cr l r).ptotstar⟩ := by
  unfold hlldWaves HlldSide.flip
  rops
  have h1 : min (-r.u) (-l.u) - max cr cl = -(max l.u r.u + max cl cr) := by
    rw [min_neg_neg, max_comm cr cl, max_comm r.u l.u]; ring
  have h2 : max (-r.u) (-l.u) + max cr cl = -(min l.u r.u - max cl cr) := by
    rw [max_neg_neg, max_comm cr cl, min_comm r.u l.u]; ring
  rw [h1, h2]
  generalize max l.u r.u + max cl cr = sr
  generalize min l.u r.u - max cl cr = sl
  have e : l.r * (-sl - -l.u) + r.r * (-r.u - -sr) = r.r * (sr - r.u) + l.r * (l.u - sl) := by ring
  rw [e]
  simp only [HlldWaves.mk.injEq, true_and]
  constructor <;> ring

theorem star_mirror (a s us ps : ℝ) (o : HlldSide ℝ) :
    hlldStar (-a) (-s) (-us) ps o.flip = hlldStar a s us ps o := by
  have h0 : hlldEstar (-a) (-s) (-us) o.flip = hlldEstar a s us o := by
    unfold hlldEstar HlldSide.flip; rops; ring
  unfold hlldStar
  rw [h0]
  generalize hlldEstar a s us o = E
  unfold HlldSide.flip
  rops
  simp only [neg_mul_neg, abs_neg]
  have e1 : o.r * (-s - -o.u) / (-s - -us) = o.r * (s - o.u) / (s - us) := by
    rw [show -s - -us = -(s - us) by ring, show o.r * (-s - -o.u) = -(o.r * (s - o.u)) by ring,
      neg_div_neg_eq]
  have e2 : o.v - -a * o.b * (-us - -o.u) / E = o.v - a * o.b * (us - o.u) / E := by
    congr 2; ring
  have e3 : o.w - -a * o.c * (-us - -o.u) / E = o.w - a * o.c * (us - o.u) / E := by
    congr 2; ring
  have e4 : o.r * (-s - -o.u) * (-s - -o.u) = o.r * (s - o.u) * (s - o.u) := by ring
  rw [e1, e2, e3, e4]
  congr 1
  rw [show -s - -us = -(s - us) by ring, div_neg, ← neg_div]
  congr 1
  ring

theorem mid_mirror (a sg us : ℝ) (L R : HlldStar ℝ) :
    hlldMid (-a) (-sg) (-us) R L = hlldMid a sg us L R := by
  unfold hlldMid
  rops
  have e1 : (R.sqrr * R.v + L.sqrr * L.v + -sg * (L.b - R.b)) / (R.sqrr + L.sqrr) =
    (L.sqrr * L.v + R.sqrr * R.v + sg * (R.b - L.b)) / (L.sqrr + R.sqrr) := by
    rw [add_comm R.sqrr L.sqrr]; congr 1; ring
  have e2 : (R.sqrr * R.w + L.sqrr * L.w + -sg * (L.c - R.c)) / (R.sqrr + L.sqrr) =
    (L.sqrr * L.w + R.sqrr * R.w + sg * (R.c - L.c)) / (L.sqrr + R.sqrr) := by
    rw [add_comm R.sqrr L.sqrr]; congr 1; ring
  have e3 : (R.sqrr * L.b + L.sqrr * R.b + -sg * R.sqrr * L.sqrr * (L.v - R.v)) / (R.sqrr + L.sqrr) =
    (L.sqrr * R.b + R.sqrr * L.b + sg * L.sqrr * R.sqrr * (R.v - L.v)) / (L.sqrr + R.sqrr) := by
    rw [add_comm R.sqrr L.sqrr]; congr 1; ring
  have e4 : (R.sqrr * L.c + L.sqrr * R.c + -sg * R.sqrr * L.sqrr * (L.w - R.w)) / (R.sqrr + L.sqrr) =
    (L.sqrr * R.c + R.sqrr * L.c + sg * L.sqrr * R.sqrr * (R.w - L.w)) / (L.sqrr + R.sqrr) := by
    rw [add_comm R.sqrr L.sqrr]; congr 1; ring
  rw [e1, e2, e3, e4, neg_mul_neg]

theorem hlldFlux_mirror (a ro uo vo wo bo co po eo vb : ℝ) :
    hlldFlux (-a) ro (-uo) vo wo bo co po eo vb = mmirrorFlux (hlldFlux a ro uo vo wo bo co po eo vb) := by
  unfold hlldFlux mmirrorFlux
  rops
  simp only [MState.mk.injEq]
  refine ⟨?_, ?_, ?_, ?_, ?_, ?_, ?_, ?_⟩ <;> first | trivial | ring1

/-- The speeds of the five waves of the fan, from left to right (outer wave, Alfven wave, contact,
Alfven wave, outer wave). -/
noncomputable def fanSpeeds (a : ℝ) (W : HlldWaves ℝ) (l r : HlldSide ℝ) : List ℝ :=
  [W.sl, W.ustar - (hlldStar a W.sl W.ustar W.ptotstar l).calfven, W.ustar,
    W.ustar + (hlldStar a W.sr W.ustar W.ptotstar r).calfven, W.sr]

theorem hlldFlux_still (a ro ro' vo wo bo co po eo eo' vb : ℝ) :
    hlldFlux a ro 0 vo wo bo co po eo vb = hlldFlux a ro' 0 vo wo bo co po eo' vb := by
  unfold hlldFlux; rops; simp

theorem sample_mirror (a sg : ℝ) (W : HlldWaves ℝ) (l r : HlldSide ℝ)
    (h1 : W.sl ≠ 0) (h2 : W.ustar - (hlldStar a W.sl W.ustar W.ptotstar l).calfven ≠ 0)
    (h3 : W.ustar + (hlldStar a W.sr W.ustar W.ptotstar r).calfven ≠ 0) (h4 : W.sr ≠ 0)
    (o1 : W.sl ≤ W.ustar - (hlldStar a W.sl W.ustar W.ptotstar l).calfven)
    (o2 : W.ustar - (hlldStar a W.sl W.ustar W.ptotstar l).calfven ≤ W.ustar)
    (o3 : W.ustar ≤ W.ustar + (hlldStar a W.sr W.ustar W.ptotstar r).calfven)
    (o4 : W.ustar + (hlldStar a W.sr W.ustar W.ptotstar r).calfven ≤ W.sr) :
    hlldSample (-a) (-sg) ⟨-W.sr, -W.sl, -W.ustar, W.ptotstar⟩ r.flip l.flip =
      mmirrorFlux (hlldSample a sg W l r) := by
  unfold hlldSample
  simp only [star_mirror, mid_mirror]
  generalize hlldStar a W.sl W.ustar W.ptotstar l = L at *
  generalize hlldStar a W.sr W.ustar W.ptotstar r = R at *
  generalize hlldMid a sg W.ustar L R = M at *
  simp only [hlldFlux_mirror]
  have hs : W.ustar = 0 →
      hlldFlux a L.r W.ustar M.v M.w M.b M.c W.ptotstar
        (L.etot - sg * L.sqrr * (L.vdotb - M.vdotb)) M.vdotb =
      hlldFlux a R.r W.ustar M.v M.w M.b M.c W.ptotstar
        (R.etot + sg * R.sqrr * (R.vdotb - M.vdotb)) M.vdotb := by
    intro h; rw [h]; exact hlldFlux_still _ _ _ _ _ _ _ _ _ _ _
  have e1 : R.etot - -sg * R.sqrr * (R.vdotb - M.vdotb) =
      R.etot + sg * R.sqrr * (R.vdotb - M.vdotb) := by ring
  have e2 : L.etot + -sg * L.sqrr * (L.vdotb - M.vdotb) =
      L.etot - sg * L.sqrr * (L.vdotb - M.vdotb) := by ring
  have f1 : ∀ o : HlldSide ℝ, o.flip.u = -o.u := fun _ => rfl
  have f2 : ∀ o : HlldSide ℝ, o.flip.r = o.r := fun _ => rfl
  have f3 : ∀ o : HlldSide ℝ, o.flip.v = o.v := fun _ => rfl
  have f4 : ∀ o : HlldSide ℝ, o.flip.w = o.w := fun _ => rfl
  have f5 : ∀ o : HlldSide ℝ, o.flip.b = o.b := fun _ => rfl
  have f6 : ∀ o : HlldSide ℝ, o.flip.c = o.c := fun _ => rfl
  have f7 : ∀ o : HlldSide ℝ, o.flip.ptot = o.ptot := fun _ => rfl
  have f8 : ∀ o : HlldSide ℝ, o.flip.etot = o.etot := fun _ => rfl
  have f9 : ∀ o : HlldSide ℝ, o.flip.vdotb = o.vdotb := fun _ => rfl
  simp only [f1, f2, f3, f4, f5, f6, f7, f8, f9, hlldFlux_mirror, e1, e2]
  generalize L.etot - sg * L.sqrr * (L.vdotb - M.vdotb) = el at *
  generalize R.etot + sg * R.sqrr * (R.vdotb - M.vdotb) = er at *
  rops
  simp only [← apply_ite mmirrorFlux]
  congr 1
  rw [show -W.ustar - R.calfven = -(W.ustar + R.calfven) by ring,
    show -W.ustar + L.calfven = -(W.ustar - L.calfven) by ring]
  generalize W.ustar + R.calfven = sar at *
  generalize W.ustar - L.calfven = sal at *
  simp only [neg_pos]
  rcases lt_or_gt_of_ne h1 with a1 | a1
  · rcases lt_or_gt_of_ne h2 with a2 | a2
    · rcases lt_trichotomy W.ustar 0 with a3 | a3 | a3
      · rcases lt_or_gt_of_ne h3 with a4 | a4
        · rcases lt_or_gt_of_ne h4 with a5 | a5 <;>
            simp [a1, a2, a3, a4, a5, a1.not_gt, a2.not_gt, a3.not_gt, a4.not_gt, a5.not_gt]
        · have a5 : 0 < W.sr := by linarith
          simp [a1, a2, a3, a4, a5, a1.not_gt, a2.not_gt, a3.not_gt, a4.not_gt, a5.not_gt]
      · have a4 : 0 < sar := lt_of_le_of_ne (by linarith) h3.symm
        have a5 : 0 < W.sr := by linarith
        have hs := hs a3
        rw [a3] at hs
        simp [a1, a2, a3, a4, a5, a1.not_gt, a2.not_gt, a4.not_gt, a5.not_gt, hs]
      · have a4 : 0 < sar := by linarith
        have a5 : 0 < W.sr := by linarith
        simp [a1, a2, a3, a4, a5, a1.not_gt, a2.not_gt, a3.not_gt, a4.not_gt, a5.not_gt]
    · have a3 : 0 < W.ustar := by linarith
      have a4 : 0 < sar := by linarith
      have a5 : 0 < W.sr := by linarith
      simp [a1, a2, a1.not_gt, a2.not_gt, a3.not_gt, a4.not_gt, a5.not_gt]
  · have a2 : 0 < sal := by linarith
    have a3 : 0 < W.ustar := by linarith
    have a4 : 0 < sar := by linarith
    have a5 : 0 < W.sr := by linarith
    simp [a1, a1.not_gt, a2.not_gt, a3.not_gt, a4.not_gt, a5.not_gt]

/-- Without normal field the sign used between the Alfven waves does not matter. -/
theorem sample_sign (sg sg' : ℝ) (W : HlldWaves ℝ) (l r : HlldSide ℝ) (h : W.ustar ≠ 0) :
    hlldSample 0 sg W l r = hlldSample 0 sg' W l r := by
  have c1 : (hlldStar 0 W.sl W.ustar W.ptotstar l).calfven = 0 := by
    unfold hlldStar; rops; simp
  have c2 : (hlldStar 0 W.sr W.ustar W.ptotstar r).calfven = 0 := by
    unfold hlldStar; rops; simp
  unfold hlldSample
  rops
  simp only [c1, c2, sub_zero, add_zero]
  split_ifs <;> rfl

/-- The speeds of the five waves of the fan of `riemann_mhd_hlld`, as computed by the code. -/
noncomputable def hlldFan (S : MSettings ℝ) (ql qr : MState ℝ) : List ℝ :=
  let a := 1 / 2 * (ql.a + qr.a)
  let tl : MState ℝ := { ql with a := a, p := isoPressure S ql.d ql.p }
  let tr : MState ℝ := { qr with a := a, p := isoPressure S qr.d qr.p }
  let l := hlldOuter S a tl.p tl
  let r := hlldOuter S a tr.p tr
  fanSpeeds a (hlldWaves (find_speed_fast_x S tl) (find_speed_fast_x S tr) l r) l r

theorem hlld_mirror (ql qr : MState ℝ) (hn : ∀ s ∈ hlldFan S ql qr, s ≠ 0)
    (ho : (hlldFan S ql qr).Pairwise (· ≤ ·)) :
    riemann_mhd_hlld S (mmirror qr) (mmirror ql) = mmirrorFlux (riemann_mhd_hlld S ql qr) := by
  unfold riemann_mhd_hlld
  unfold hlldFan at hn ho
  rops
  dsimp only at hn ho
  generalize ha : 1 / 2 * (ql.a + qr.a) = a at *
  have ha' : 1 / 2 * ((mmirror qr).a + (mmirror ql).a) = -a := by
    rw [← ha]; simp only [mmirror]; ring
  have e1 : ∀ q : MState ℝ,
      ({ mmirror q with a := -a, p := isoPressure S (mmirror q).d (mmirror q).p } : MState ℝ) =
        mmirror { q with a := a, p := isoPressure S q.d q.p } := fun _ => rfl
  rw [ha']
  simp only [e1, fast_mirror]
  have e2 : ∀ q : MState ℝ, (mmirror q).p = q.p := fun _ => rfl
  have e3 : ∀ q : MState ℝ, (mmirror q).d = q.d := fun _ => rfl
  simp only [e2, e3, outer_mirror, waves_mirror]
  generalize hlldOuter S a (isoPressure S ql.d ql.p)
    { ql with a := a, p := isoPressure S ql.d ql.p } = l at *
  generalize hlldOuter S a (isoPressure S qr.d qr.p)
    { qr with a := a, p := isoPressure S qr.d qr.p } = r at *
  generalize hlldWaves (find_speed_fast_x S { ql with a := a, p := isoPressure S ql.d ql.p })
    (find_speed_fast_x S { qr with a := a, p := isoPressure S qr.d qr.p }) l r = W at *
  unfold fanSpeeds at hn ho
  simp only [List.mem_cons, List.not_mem_nil, or_false, forall_eq_or_imp, forall_eq] at hn
  simp only [List.pairwise_cons, List.mem_cons, List.not_mem_nil, or_false, forall_eq_or_imp,
    forall_eq] at ho
  have key := fun sg => sample_mirror a sg W l r hn.1 hn.2.1 hn.2.2.2.1 hn.2.2.2.2 ho.1.1 ho.2.1.1
    ho.2.2.1.1 ho.2.2.2.1
  rcases lt_trichotomy a 0 with h | h | h
  · rw [if_pos (by linarith), if_neg (by linarith)]
    have := key (-1)
    rw [neg_neg] at this
    exact this
  · subst h
    rw [if_pos (by linarith), if_pos le_rfl]
    have := key 1
    rw [← this, neg_zero]
    exact sample_sign _ _ _ _ _ (neg_ne_zero.2 hn.2.2.1)
  · rw [if_neg (by linarith), if_pos (by linarith)]
    exact key 1

/-! ### Upwinding -/

/-- When all waves move to the right HLL returns the flux of the left state. -/
theorem hll_upwind_left (hg : S.gamma0 ≠ 1) (ql qr : MState ℝ) (ha : ql.a = qr.a)
    (hc : 0 < max (find_speed_fast_x S ql) (find_speed_fast_x S qr))
    (h : 0 ≤ min ql.u qr.u - max (find_speed_fast_x S ql) (find_speed_fast_x S qr)) :
    riemann_mhd_hll S ql qr = mhdFlux S.gamma0 (thermal S ql) := by
  have hw := hll_width (S := S) (ql := ql) (qr := qr) hc
  have hm : 1 / 2 * (ql.a + qr.a) = ql.a := by rw [← ha]; ring
  have hm' : ({ qr with a := ql.a } : MState ℝ) = qr := by rw [ha]
  unfold riemann_mhd_hll
  rops
  simp only [hm, hm', find_mhd_flux_real hg]
  rw [min_eq_right h] at hw ⊢
  generalize max (max ql.u qr.u + max (find_speed_fast_x S ql) (find_speed_fast_x S qr)) 0 = sr at *
  rw [sub_zero] at hw ⊢
  have e : ∀ x y z : ℝ, (sr * x - 0 * y + sr * 0 * z) / sr = x := by
    intro x y z; rw [div_eq_iff hw.ne']; ring
  simp only [e]
  rfl

/-- When all waves move to the left HLL returns the flux of the right state. -/
theorem hll_upwind_right (hg : S.gamma0 ≠ 1) (ql qr : MState ℝ) (ha : ql.a = qr.a)
    (hc : 0 < max (find_speed_fast_x S ql) (find_speed_fast_x S qr))
    (h : max ql.u qr.u + max (find_speed_fast_x S ql) (find_speed_fast_x S qr) ≤ 0) :
    riemann_mhd_hll S ql qr = mhdFlux S.gamma0 (thermal S qr) := by
  have hw := hll_width (S := S) (ql := ql) (qr := qr) hc
  have hm : 1 / 2 * (ql.a + qr.a) = ql.a := by rw [← ha]; ring
  have hm' : ({ qr with a := ql.a } : MState ℝ) = qr := by rw [ha]
  unfold riemann_mhd_hll
  rops
  simp only [hm, hm', find_mhd_flux_real hg]
  rw [max_eq_right h] at hw ⊢
  generalize min (min ql.u qr.u - max (find_speed_fast_x S ql) (find_speed_fast_x S qr)) 0 = sl at *
  rw [zero_sub] at hw ⊢
  have e : ∀ x y z : ℝ, (0 * x - sl * y + 0 * sl * z) / -sl = y := by
    intro x y z; rw [div_eq_iff hw.ne']; ring
  simp only [e]
  rfl

/-- When all waves move to the right HLLD returns the flux of the left state. -/
theorem hlld_upwind_left (hg : S.gamma0 ≠ 1) (ql qr : MState ℝ) (ha : ql.a = qr.a)
    (h : ∀ s ∈ hlldFan S ql qr, 0 < s) :
    riemann_mhd_hlld S ql qr = mhdFlux S.gamma0 (thermal S ql) := by
  have hm : 1 / 2 * (ql.a + qr.a) = ql.a := by rw [← ha]; ring
  have e : ({ ql with a := ql.a, p := isoPressure S ql.d ql.p } : MState ℝ) = thermal S ql := by
    rw [isoPressure_real]; exact (thermal_eq S ql).symm
  have e1 : (thermal S ql).a = ql.a := by rw [thermal_eq]
  unfold hlldFan at h
  unfold riemann_mhd_hlld hlldSample
  rops
  rw [hm] at h ⊢
  simp only [e] at h ⊢
  have key := hlldFlux_outer S hg (thermal S ql)
  rw [e1] at key
  have hp : isoPressure S ql.d ql.p = (thermal S ql).p := isoPressure_real S ql
  rw [hp] at h ⊢
  rw [if_pos (h _ (by simp [fanSpeeds]))]
  exact key

/-- When all waves move to the left HLLD returns the flux of the right state. -/
theorem hlld_upwind_right (hg : S.gamma0 ≠ 1) (ql qr : MState ℝ) (ha : ql.a = qr.a)
    (h : ∀ s ∈ hlldFan S ql qr, s < 0) :
    riemann_mhd_hlld S ql qr = mhdFlux S.gamma0 (thermal S qr) := by
  have hm : 1 / 2 * (ql.a + qr.a) = qr.a := by rw [← ha]; ring
  have e : ({ qr with a := qr.a, p := isoPressure S qr.d qr.p } : MState ℝ) = thermal S qr := by
    rw [isoPressure_real]; exact (thermal_eq S qr).symm
  have e1 : (thermal S qr).a = qr.a := by rw [thermal_eq]
  unfold hlldFan at h
  unfold riemann_mhd_hlld hlldSample
  rops
  rw [hm] at h ⊢
  simp only [e] at h ⊢
  have key := hlldFlux_outer S hg (thermal S qr)
  rw [e1] at key
  have hp : isoPressure S qr.d qr.p = (thermal S qr).p := isoPressure_real S qr
  rw [hp] at h ⊢
  rw [if_neg (h _ (by simp [fanSpeeds])).not_gt, if_neg (h _ (by simp [fanSpeeds])).not_gt,
    if_neg (h _ (by simp [fanSpeeds])).not_gt, if_neg (h _ (by simp [fanSpeeds])).not_gt,
    if_neg (h _ (by simp [fanSpeeds])).not_gt]
  exact key

end Verif
