import Verif.Lemmas.RiemannMhdChecked

/-! The two-dimensional Riemann solver for the electromotive force at an edge: definedness and
consistency. -/

namespace Verif

open ROps Spec CReal

variable {S : MSettings ℝ}

theorem turn_physical {q : MState ℝ} (h : Physical q) (e : EmfDir) : Physical (q.turn e) := by
  cases e <;> exact ⟨h.d, h.p⟩

theorem ck_turn (q : MState ℝ) (e : EmfDir) : (okM q).turn e = okM (q.turn e) := by
  cases e <;> rfl

theorem isoPressure_pos {d p : ℝ} (hd : 0 < d) (hp : 0 < p) : 0 < isoPressure S d p := by
  unfold isoPressure; rops
  split_ifs with h
  · positivity
  · exact hp

/-- All operations of `compute_emf` are defined. -/
theorem ck_compute_emf (hg : 1 < S.gamma0) (hc : 0 < S.smallc) (e : EmfDir)
    {rt rb lt lb : MState ℝ} (h1 : Physical rt) (h2 : Physical rb) (h3 : Physical lt)
    (h4 : Physical lb) :
    compute_emf (okMS S) e (okM rt) (okM rb) (okM lt) (okM lb) = ok (compute_emf S e rt rb lt lb) := by
  have k1 := turn_physical h1 e
  have k2 := turn_physical h2 e
  have k3 := turn_physical h3 e
  have k4 := turn_physical h4 e
  unfold compute_emf
  simp only [ck_turn]
  generalize rt.turn e = rt at *
  generalize rb.turn e = rb at *
  generalize lt.turn e = lt at *
  generalize lb.turn e = lb at *
  have key := ck_mag (S := S) hg hc
    (qLL := ⟨rt.d, isoPressure S rt.d rt.p, rt.u, rt.v, rt.w, 1 / 2 * (rt.a + lt.a),
      1 / 2 * (rt.b + rb.b), rt.c⟩)
    (qRL := ⟨lt.d, isoPressure S lt.d lt.p, lt.u, lt.v, lt.w, 1 / 2 * (rt.a + lt.a),
      1 / 2 * (lt.b + lb.b), lt.c⟩)
    (qLR := ⟨rb.d, isoPressure S rb.d rb.p, rb.u, rb.v, rb.w, 1 / 2 * (rb.a + lb.a),
      1 / 2 * (rt.b + rb.b), rb.c⟩)
    (qRR := ⟨lb.d, isoPressure S lb.d lb.p, lb.u, lb.v, lb.w, 1 / 2 * (rb.a + lb.a),
      1 / 2 * (lt.b + lb.b), lb.c⟩)
    ⟨⟨k1.d, isoPressure_pos k1.d k1.p⟩, ⟨k3.d, isoPressure_pos k3.d k3.p⟩,
      ⟨k2.d, isoPressure_pos k2.d k2.p⟩, ⟨k4.d, isoPressure_pos k4.d k4.p⟩, rfl, rfl, rfl, rfl⟩
    (rt.u * (1 / 2 * (rt.b + rb.b)) - rt.v * (1 / 2 * (rt.a + lt.a)))
    (lt.u * (1 / 2 * (lt.b + lb.b)) - lt.v * (1 / 2 * (rt.a + lt.a)))
    (rb.u * (1 / 2 * (rt.b + rb.b)) - rb.v * (1 / 2 * (rb.a + lb.a)))
    (lb.u * (1 / 2 * (lt.b + lb.b)) - lb.v * (1 / 2 * (rb.a + lb.a)))
  refine Eq.trans ?_ (key.trans ?_)
  · unfold okM
    simp only [ck_isoPressure]
    ck []
  · rops

theorem FMAX4_same (x : ℝ) : FMAX4 x x x x = x := by
  unfold FMAX4; simp [pickMax_real]

theorem FMIN4_same (x : ℝ) : FMIN4 x x x x = x := by
  unfold FMIN4; simp [pickMin_real]

theorem signPos_real (x : ℝ) : signPos x = decide (0 ≤ x) := by
  have : signPos x = decide ((0 : ℝ) < if x < 0 then -|(1 : ℝ)| else |(1 : ℝ)|) := by
    unfold signPos ROps.gtb; rops; rfl
  rw [this]
  by_cases h : x < 0
  · rw [if_pos h, decide_eq_decide]
    constructor
    · intro h1; simp only [abs_one] at h1; linarith
    · intro h1; linarith
  · simp [h, not_lt.1 h]

theorem emfStar_same {q : MState ℝ} {sx sy : ℝ} (h1 : sx - q.u ≠ 0) (h2 : sy - q.v ≠ 0) :
    emfStar q sx q.u sy q.v = ⟨q.d, q.b, q.d, q.a, q.d, q.u * q.b - q.v * q.a,
      q.u * q.b - q.v * q.a, q.u * q.b - q.v * q.a⟩ := by
  unfold emfStar; rops
  simp only [mul_div_assoc, div_self h1, div_self h2, mul_one]

/-- Four equal states: the electric field of the state. -/
theorem mag_consistent (hg : 0 < S.gamma0) (hc : 0 < S.smallc) {q : MState ℝ} (h : Physical q) :
    mag_riemann2d_hlld S q q q q (q.u * q.b - q.v * q.a) (q.u * q.b - q.v * q.a)
      (q.u * q.b - q.v * q.a) (q.u * q.b - q.v * q.a) = q.u * q.b - q.v * q.a := by
  have fx : 0 < find_speed_fast_x S q := fastSpeed_pos h hg (fieldSq_a q)
  have fy : 0 < find_speed_fast_y S q := fastSpeed_pos h hg (fieldSq_b q)
  have hd := h.d
  have hW : emfWaves S q q q q = ⟨q.u - find_speed_fast_x S q, q.u + find_speed_fast_x S q,
      q.v - find_speed_fast_y S q, q.v + find_speed_fast_y S q, q.u, q.v⟩ := by
    unfold emfWaves
    simp only [FMAX4_same, FMIN4_same]
    generalize find_speed_fast_x S q = f at *
    generalize find_speed_fast_y S q = g at *
    rops
    congr 1
    · rw [div_eq_iff (by have := mul_pos hd fx; nlinarith)]
      ring
    · rw [div_eq_iff (by have := mul_pos hd fy; nlinarith)]
      ring
  unfold mag_riemann2d_hlld
  rw [hW]
  generalize find_speed_fast_x S q = f at *
  generalize find_speed_fast_y S q = g at *
  have e1 : emfStar q (q.u - f) q.u (q.v - g) q.v = _ :=
    emfStar_same (by linarith) (by linarith)
  have e2 : emfStar q (q.u - f) q.u (q.v + g) q.v = _ :=
    emfStar_same (by linarith) (by linarith)
  have e3 : emfStar q (q.u + f) q.u (q.v - g) q.v = _ :=
    emfStar_same (by linarith) (by linarith)
  have e4 : emfStar q (q.u + f) q.u (q.v + g) q.v = _ :=
    emfStar_same (by linarith) (by linarith)
  simp only [e1, e2, e3, e4]
  have k1 := FMAX5_ge (fabs q.a / sqrt q.d) (fabs q.a / sqrt q.d)
    (fabs q.a / sqrt q.d) (fabs q.a / sqrt q.d) S.smallc
  have k2 := FMAX5_ge (fabs q.b / sqrt q.d) (fabs q.b / sqrt q.d)
    (fabs q.b / sqrt q.d) (fabs q.b / sqrt q.d) S.smallc
  generalize FMAX5 (fabs q.a / sqrt q.d) (fabs q.a / sqrt q.d)
    (fabs q.a / sqrt q.d) (fabs q.a / sqrt q.d) S.smallc = ca at *
  generalize FMAX5 (fabs q.b / sqrt q.d) (fabs q.b / sqrt q.d)
    (fabs q.b / sqrt q.d) (fabs q.b / sqrt q.d) S.smallc = cb at *
  have wx : max (q.u + ca) 0 - min (q.u - ca) 0 ≠ 0 := by
    have h3 := le_max_left (q.u + ca) 0
    have h4 := min_le_left (q.u - ca) 0
    linarith
  have wy : max (q.v + cb) 0 - min (q.v - cb) 0 ≠ 0 := by
    have h3 := le_max_left (q.v + cb) 0
    have h4 := min_le_left (q.v - cb) 0
    linarith
  simp only [signPos_real, ind]
  rops
  generalize max (q.u + ca) 0 = ar at *
  generalize min (q.u - ca) 0 = al at *
  generalize max (q.v + cb) 0 = at' at *
  generalize min (q.v - cb) 0 = ab at *
  generalize q.u * q.b - q.v * q.a = E
  have t1 : (al * ab * E - al * at' * E - ar * ab * E + ar * at' * E) / (ar - al) / (at' - ab) = E := by
    rw [div_div, div_eq_iff (mul_ne_zero wx wy)]; ring
  have t2 : (ar * E - al * E) / (ar - al) = E := by rw [div_eq_iff wx]; ring
  have t3 : (at' * E - ab * E) / (at' - ab) = E := by rw [div_eq_iff wy]; ring
  simp only [t1, t2, t3, sub_self, mul_zero, add_zero, sub_zero, zero_add]
  have b1 : ¬ (0 ≤ q.v + g) → ¬ (0 ≤ q.v - g) := fun a b => a (by linarith)
  have b2 : ¬ (0 ≤ q.u + f) → ¬ (0 ≤ q.u - f) := fun a b => a (by linarith)
  by_cases p1 : 0 ≤ q.v - g <;> by_cases p2 : 0 ≤ q.v + g <;> by_cases p3 : 0 ≤ q.u - f <;>
    by_cases p4 : 0 ≤ q.u + f <;> simp [p1, p2, p3, p4] <;> simp_all

/-- Consistency of the edge solver. -/
theorem compute_emf_consistent (hg : 0 < S.gamma0) (hc : 0 < S.smallc) (e : EmfDir) {q : MState ℝ}
    (h : Physical q) : compute_emf S e q q q q = electric e q := by
  have k := turn_physical h e
  have hE : electric e q = (q.turn e).u * (q.turn e).b - (q.turn e).v * (q.turn e).a := by
    cases e <;> simp only [electric, MState.turn]
  rw [hE]
  unfold compute_emf
  generalize q.turn e = q at *
  have key := mag_consistent (S := S) hg hc (q := { q with p := isoPressure S q.d q.p })
    ⟨k.d, isoPressure_pos k.d k.p⟩
  simp only at key
  rops
  simp only [half_add_self]
  exact key

end Verif
