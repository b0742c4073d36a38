import Verif.Lemmas.RiemannMhdChecked

/-! HLLD for two identical states, in checked arithmetic. -/

namespace Verif

open ROps Spec CReal

variable {S : MSettings ℝ}

/-- HLLD is defined and consistent, unless the field is exactly along the normal and the Alfven
speed at least the sound speed. -/
theorem ck_hlld_same (hg : 1 < S.gamma0) {q : MState ℝ} (hq : Physical q)
    (h : q.b ≠ 0 ∨ q.c ≠ 0 ∨ q.a ^ 2 / q.d < soundSq S.gamma0 (thermal S q)) :
    riemann_mhd_hlld (okMS S) (okM q) (okM q) = okM (mhdFlux S.gamma0 (thermal S q)) := by
  have ht := thermal_physical (S := S) hq
  have e : ({ q with a := q.a, p := isoPressure S q.d q.p } : MState ℝ) = thermal S q := by
    rw [isoPressure_real]; exact (thermal_eq S q).symm
  have ea : (thermal S q).a = q.a := by rw [thermal_eq]
  have eb : (thermal S q).b = q.b := by rw [thermal_eq]
  have ec : (thermal S q).c = q.c := by rw [thermal_eq]
  have ed : (thermal S q).d = q.d := by rw [thermal_eq]
  have hf : 0 < find_speed_fast_x S (thermal S q) :=
    fastSpeed_pos ht (by linarith) (fieldSq_a _)
  have hW := hlldWaves_same (hlldOuter S q.a (thermal S q).p (thermal S q)) ht.d hf
  have hE := estar_same_pos (S := S) ht (by linarith) (by rw [ea, eb, ec, ed]; exact h)
  rw [ea] at hE
  have key := ck_mhd_hlld (S := S) hg hq hq (half_add_self q.a).symm e.symm e.symm rfl rfl hW.symm
    hE.ne' (by
      have : hlldEstar q.a ((hlldOuter S q.a (thermal S q).p (thermal S q)).u +
          find_speed_fast_x S (thermal S q)) (hlldOuter S q.a (thermal S q).p (thermal S q)).u
          (hlldOuter S q.a (thermal S q).p (thermal S q)) =
        hlldEstar q.a ((hlldOuter S q.a (thermal S q).p (thermal S q)).u -
          find_speed_fast_x S (thermal S q)) (hlldOuter S q.a (thermal S q).p (thermal S q)).u
          (hlldOuter S q.a (thermal S q).p (thermal S q)) := by
        unfold hlldEstar; rops; ring
      rw [this]; exact hE.ne')
  rw [key.1, hlld_consistent hg hq]

theorem undef_add (x : CReal) : undef + x = undef := by cases x <;> rfl
theorem add_undef (x : CReal) : x + undef = undef := by cases x <;> rfl
theorem undef_sub (x : CReal) : undef - x = undef := by cases x <;> rfl
theorem sub_undef (x : CReal) : x - undef = undef := by cases x <;> rfl
theorem undef_mul (x : CReal) : undef * x = undef := by cases x <;> rfl
theorem mul_undef (x : CReal) : x * undef = undef := by cases x <;> rfl
theorem undef_div (x : CReal) : undef / x = undef := by cases x <;> rfl
theorem div_zero_undef (x : CReal) : x / ok 0 = undef := by
  cases x with
  | none => rfl
  | some y => show (if (0 : ℝ) = 0 then none else _) = _; rw [if_pos rfl]; rfl

/-- HLLD for two identical states whose field is exactly along the normal, with an Alfven speed
at least the sound speed and at least the velocity: energy flux and transverse momentum flux come from
`0/0`. -/
theorem hlld_aligned (hg : 1 < S.gamma0) (hi : S.cIso = 0) {q : MState ℝ} (hq : Physical q)
    (hb : q.b = 0) (hc : q.c = 0) (ha : soundSq S.gamma0 q ≤ q.a ^ 2 / q.d)
    (hu : q.u ^ 2 < q.a ^ 2 / q.d) :
    (riemann_mhd_hlld (okMS S) (okM q) (okM q)).p = undef ∧
    (riemann_mhd_hlld (okMS S) (okM q) (okM q)).b = undef := by
  have hd := hq.d
  have g0 : 0 < S.gamma0 := by linarith
  have hfs : fieldSq q = q.a ^ 2 := by unfold fieldSq; rw [hb, hc]; ring
  have hsq : fastSq S q q.a = q.a ^ 2 / q.d := by
    have h := fastSq_root (S := S) hd (fieldSq_a q)
    have h1 := fastSq_ge_alfven (S := S) hd (fieldSq_a q)
    unfold Magnetosonic at h
    rw [hfs] at h
    generalize fastSq S q q.a = x at *
    generalize q.a ^ 2 / q.d = A at *
    have : (x - soundSq S.gamma0 q) * (x - A) = 0 := by linear_combination h
    rcases mul_eq_zero.1 this with h2 | h2 <;> linarith
  set cf := find_speed_fast_x S q with hcf
  have fpos : 0 < cf := fastSpeed_pos hq g0 (fieldSq_a q)
  have fsq : cf ^ 2 = q.a ^ 2 / q.d := by
    rw [← hsq]; exact fastSpeed_sq hq g0 (fieldSq_a q)
  have hA : q.d * cf ^ 2 = q.a ^ 2 := by rw [fsq]; field_simp
  have ha0 : q.a ≠ 0 := by
    intro h; rw [h] at hA
    have : 0 < q.d * cf ^ 2 := by positivity
    rw [hA] at this; simp at this
  have hu1 : q.u < cf := by rw [← fsq] at hu; exact lt_of_pow_lt_pow_left₀ 2 fpos.le hu
  have hu2 : -cf < q.u := by
    rw [← fsq, ← neg_sq q.u] at hu
    have := lt_of_pow_lt_pow_left₀ 2 fpos.le hu
    linarith
  have hal : |q.a| / Real.sqrt q.d = cf := by
    rw [div_eq_iff (Real.sqrt_pos.2 hd).ne', ← Real.sqrt_sq fpos.le, ← Real.sqrt_mul (sq_nonneg _),
      mul_comm, hA, Real.sqrt_sq_eq_abs]
  have hiso : isoPressure S q.d q.p = q.p := by
    unfold isoPressure; rops; rw [hi]; simp
  have ck1 : isoPressure (okMS S) (okM q).d (okM q).p = ok q.p := by
    rw [← hiso]; exact ck_isoPressure S q.d q.p
  have e0 : ROps.lit (1 / 2) * ((okM q).a + (okM q).a) = ok q.a := by
    unfold okM; ck [half_add_self]
  have e1 : ({ okM q with a := ok q.a, p := ok q.p } : MState CReal) = okM q := rfl
  have e2 : find_speed_fast_x (okMS S) (okM q) = ok cf := ck_fast hq g0 (fieldSq_a q)
  have e3 : hlldOuter (okMS S) (ok q.a) (ok q.p) (okM q) = okSide (hlldOuter S q.a q.p q) :=
    ck_outer hg.ne' q.a q.p q
  unfold riemann_mhd_hlld
  simp only [e0, ck1, e1, e2, e3]
  set o := hlldOuter S q.a q.p q with ho
  have o1 : o.r = q.d := rfl
  have o2 : o.u = q.u := rfl
  have hw : hlldWaves (ok cf) (ok cf) (okSide o) (okSide o) =
      okWaves ⟨o.u - cf, o.u + cf, o.u, o.ptot⟩ := by
    rw [ck_waves o o, hlldWaves_same o hd fpos]
    rw [min_self, max_self, max_self, o1, o2]
    have : 0 < q.d * cf := mul_pos hd fpos
    intro h; linarith
  rw [hw]
  have sg1 : (if ROps.geb (ok q.a) (ROps.lit 0) = true then ROps.lit 1 else -ROps.lit 1 : CReal) =
      ok (if 0 ≤ q.a then 1 else -1) := by ck []
  rw [sg1]
  generalize (if 0 ≤ q.a then (1 : ℝ) else -1) = sg
  -- the star regions
  have star : ∀ s : ℝ, s - o.u ≠ 0 → q.d * (s - o.u) * (s - o.u) = q.a * q.a →
      (hlldStar (ok q.a) (ok s) (ok o.u) (ok o.ptot) (okSide o)).v = undef ∧
      (hlldStar (ok q.a) (ok s) (ok o.u) (ok o.ptot) (okSide o)).b = undef ∧
      (hlldStar (ok q.a) (ok s) (ok o.u) (ok o.ptot) (okSide o)).calfven = ok cf := by
    intro s hs hA'
    have he' : hlldEstar (ok q.a) (ok s) (ok o.u) (okSide o) = ok 0 := by
      unfold hlldEstar okSide; ck []; rw [o1, hA', sub_self]
    have haa : q.a * q.a ≠ 0 := mul_ne_zero ha0 ha0
    have hr : q.d * (s - o.u) / (s - o.u) = q.d := mul_div_cancel_right₀ _ hs
    have hd' : 0 ≤ q.d := hd.le
    have hsq' : Real.sqrt q.d ≠ 0 := (Real.sqrt_pos.2 hd).ne'
    unfold hlldStar
    rw [he']
    have cond : (gtb (ok q.a * ok q.a) (lit 0) &&
        leb (fabs (ok 0 / (ok q.a * ok q.a) - lit 1)) (lit (1 / 100000000))) = false := by
      have : leb (fabs (ok 0 / (ok q.a * ok q.a) - lit 1)) (lit (1 / 100000000)) = false := by
        ck [haa]
        rw [Bool.eq_false_iff, ne_eq, ck_leb]
        norm_num
      rw [this, Bool.and_false]
    simp only [cond, Bool.false_eq_true, if_false, div_zero_undef, sub_undef, true_and]
    unfold okSide
    ck [hs, o1, hr, hd', hsq', hal]
  obtain ⟨l1, l2, l3⟩ := star (o.u - cf) (by intro h; linarith) (by linear_combination hA)
  obtain ⟨r1, r2, r3⟩ := star (o.u + cf) (by intro h; linarith) (by linear_combination hA)
  unfold hlldSample
  have w1 : (okWaves ⟨o.u - cf, o.u + cf, o.u, o.ptot⟩).sl = ok (o.u - cf) := rfl
  have w2 : (okWaves ⟨o.u - cf, o.u + cf, o.u, o.ptot⟩).sr = ok (o.u + cf) := rfl
  have w3 : (okWaves ⟨o.u - cf, o.u + cf, o.u, o.ptot⟩).ustar = ok o.u := rfl
  have w4 : (okWaves ⟨o.u - cf, o.u + cf, o.u, o.ptot⟩).ptotstar = ok o.ptot := rfl
  simp only [w1, w2, w3, w4]
  generalize hlldStar (ok q.a) (ok (o.u - cf)) (ok o.u) (ok o.ptot) (okSide o) = L at *
  generalize hlldStar (ok q.a) (ok (o.u + cf)) (ok o.u) (ok o.ptot) (okSide o) = R at *
  have mv : (hlldMid (ok q.a) (ok sg) (ok o.u) L R).v = undef := by
    unfold hlldMid; simp only [l1, mul_undef, undef_add, undef_div]
  have mb : (hlldMid (ok q.a) (ok sg) (ok o.u) L R).b = undef := by
    unfold hlldMid; simp only [r2, mul_undef, undef_add, undef_div]
  have mvb : (hlldMid (ok q.a) (ok sg) (ok o.u) L R).vdotb = undef := by
    unfold hlldMid; simp only [l1, mul_undef, undef_add, undef_div, undef_mul, add_undef]
  generalize hlldMid (ok q.a) (ok sg) (ok o.u) L R = M at *
  have n1 : ¬ (0 < o.u - cf) := by rw [o2]; linarith
  have n2 : 0 < o.u + cf := by rw [o2]; linarith
  simp only [l3, r3]
  ck [n1, n2, if_false, if_true]
  unfold hlldFlux
  split_ifs <;> simp only [mv, mb, mvb, mul_undef, sub_undef, undef_mul, undef_sub, and_self]

end Verif
