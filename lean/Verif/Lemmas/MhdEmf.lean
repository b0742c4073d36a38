import Verif.Lemmas.RiemannMhdChecked
import Verif.Lemmas.RiemannApprox

/-! Helper lemmas: upwinding of the edge solver. -/

namespace Verif

open ROps Spec

theorem le_FMIN4 {x a b c d : ℝ} (h1 : x ≤ a) (h2 : x ≤ b) (h3 : x ≤ c) (h4 : x ≤ d) :
    x ≤ FMIN4 a b c d := by
  unfold FMIN4; simp only [pickMin_real]; simp [*]

theorem FMAX4_le {x a b c d : ℝ} (h1 : a ≤ x) (h2 : b ≤ x) (h3 : c ≤ x) (h4 : d ≤ x) :
    FMAX4 a b c d ≤ x := by
  unfold FMAX4; simp only [pickMax_real]; simp [*]

theorem signPos_nonneg {x : ℝ} (h : 0 ≤ x) : signPos x = true := by
  unfold signPos; rw [copysign_one, if_neg (by linarith)]
  simp [gtb, ltb, lit]

theorem signPos_neg {x : ℝ} (h : x < 0) : signPos x = false := by
  unfold signPos; rw [copysign_one, if_pos h]
  simp [gtb, ltb, lit]

section
variable {S : MSettings ℝ} {LL RL LR RR : MState ℝ} {c : ℝ}

theorem SL_nonneg (h : ∀ q ∈ [LL, LR, RL, RR], find_speed_fast_x S q ≤ c ∧ c ≤ q.u) :
    0 ≤ (emfWaves S LL RL LR RR).SL := by
  simp only [List.mem_cons, List.not_mem_nil, or_false, forall_eq_or_imp, forall_eq] at h
  simp only [emfWaves]
  have h1 := le_FMIN4 h.1.2 h.2.1.2 h.2.2.1.2 h.2.2.2.2
  have h2 := FMAX4_le h.1.1 h.2.1.1 h.2.2.1.1 h.2.2.2.1
  rops; linarith

theorem SB_nonneg (h : ∀ q ∈ [LL, LR, RL, RR], find_speed_fast_y S q ≤ c ∧ c ≤ q.v) :
    0 ≤ (emfWaves S LL RL LR RR).SB := by
  simp only [List.mem_cons, List.not_mem_nil, or_false, forall_eq_or_imp, forall_eq] at h
  simp only [emfWaves]
  have h1 := le_FMIN4 h.1.2 h.2.1.2 h.2.2.1.2 h.2.2.2.2
  have h2 := FMAX4_le h.1.1 h.2.1.1 h.2.2.1.1 h.2.2.2.1
  rops; linarith

theorem fastSpeed_nonneg (S : MSettings ℝ) (q : MState ℝ) (b : ℝ) : 0 ≤ fastSpeed S q b := by
  rw [fastSpeed_real]; exact Real.sqrt_nonneg _

theorem FMAX4_lt {x a b c d : ℝ} (h1 : a < x) (h2 : b < x) (h3 : c < x) (h4 : d < x) :
    FMAX4 a b c d < x := by
  unfold FMAX4; simp only [pickMax_real]; simp [*]

theorem SR_neg (h : ∀ q ∈ [LL, LR, RL, RR], find_speed_fast_x S q ≤ c ∧ q.u < -c) :
    (emfWaves S LL RL LR RR).SL < 0 ∧ (emfWaves S LL RL LR RR).SR < 0 := by
  simp only [List.mem_cons, List.not_mem_nil, or_false, forall_eq_or_imp, forall_eq] at h
  simp only [emfWaves]
  have h1 := FMAX4_lt h.1.2 h.2.1.2 h.2.2.1.2 h.2.2.2.2
  have h2 := FMAX4_le h.1.1 h.2.1.1 h.2.2.1.1 h.2.2.2.1
  have h3 := (FMAX4_ge (find_speed_fast_x S LL) (find_speed_fast_x S LR) (find_speed_fast_x S RL)
    (find_speed_fast_x S RR)).1
  have h4 : 0 ≤ find_speed_fast_x S LL := fastSpeed_nonneg _ _ _
  have h5 := (FMIN4_le LL.u LR.u RL.u RR.u).1
  have h6 := h.1
  constructor <;> rops <;> linarith

theorem ST_neg (h : ∀ q ∈ [LL, LR, RL, RR], find_speed_fast_y S q ≤ c ∧ q.v < -c) :
    (emfWaves S LL RL LR RR).SB < 0 ∧ (emfWaves S LL RL LR RR).ST < 0 := by
  simp only [List.mem_cons, List.not_mem_nil, or_false, forall_eq_or_imp, forall_eq] at h
  simp only [emfWaves]
  have h1 := FMAX4_lt h.1.2 h.2.1.2 h.2.2.1.2 h.2.2.2.2
  have h2 := FMAX4_le h.1.1 h.2.1.1 h.2.2.1.1 h.2.2.2.1
  have h3 := (FMAX4_ge (find_speed_fast_y S LL) (find_speed_fast_y S LR) (find_speed_fast_y S RL)
    (find_speed_fast_y S RR)).1
  have h4 : 0 ≤ find_speed_fast_y S LL := fastSpeed_nonneg _ _ _
  have h5 := (FMIN4_le LL.v LR.v RL.v RR.v).1
  have h6 := h.1
  constructor <;> rops <;> linarith

variable {cx cy : ℝ} (e1 e2 e3 e4 : ℝ)

/-- If all four states move towards the upper right at least with the fast speeds, the edge solver
returns the electric field of the lower left state; likewise for the other quadrants. -/
theorem mag_upwind (hx : ∀ q ∈ [LL, LR, RL, RR], find_speed_fast_x S q ≤ cx ∧ cx ≤ q.u)
    (hy : ∀ q ∈ [LL, LR, RL, RR], find_speed_fast_y S q ≤ cy ∧ cy ≤ q.v) :
    mag_riemann2d_hlld S LL RL LR RR e1 e2 e3 e4 = e1 := by
  simp only [mag_riemann2d_hlld, signPos_nonneg (SL_nonneg hx), signPos_nonneg (SB_nonneg hy),
    Bool.not_true, Bool.false_and, ind, if_true, Bool.false_eq_true, if_false]
  rops
  simp

theorem mag_upwind_ul (hx : ∀ q ∈ [LL, LR, RL, RR], find_speed_fast_x S q ≤ cx ∧ q.u < -cx)
    (hy : ∀ q ∈ [LL, LR, RL, RR], find_speed_fast_y S q ≤ cy ∧ cy ≤ q.v) :
    mag_riemann2d_hlld S LL RL LR RR e1 e2 e3 e4 = e2 := by
  simp only [mag_riemann2d_hlld, signPos_neg (SR_neg hx).1, signPos_neg (SR_neg hx).2,
    signPos_nonneg (SB_nonneg hy), Bool.not_true, Bool.not_false, Bool.false_and, Bool.and_false,
    Bool.and_true, Bool.true_and, ind, if_true, Bool.false_eq_true, if_false]
  rops
  simp

theorem mag_upwind_lr (hx : ∀ q ∈ [LL, LR, RL, RR], find_speed_fast_x S q ≤ cx ∧ cx ≤ q.u)
    (hy : ∀ q ∈ [LL, LR, RL, RR], find_speed_fast_y S q ≤ cy ∧ q.v < -cy) :
    mag_riemann2d_hlld S LL RL LR RR e1 e2 e3 e4 = e3 := by
  simp only [mag_riemann2d_hlld, signPos_neg (ST_neg hy).1, signPos_neg (ST_neg hy).2,
    signPos_nonneg (SL_nonneg hx), Bool.not_true, Bool.not_false, Bool.false_and, Bool.and_false,
    Bool.and_true, Bool.true_and, ind, if_true, Bool.false_eq_true, if_false]
  rops
  simp

theorem mag_upwind_ll (hx : ∀ q ∈ [LL, LR, RL, RR], find_speed_fast_x S q ≤ cx ∧ q.u < -cx)
    (hy : ∀ q ∈ [LL, LR, RL, RR], find_speed_fast_y S q ≤ cy ∧ q.v < -cy) :
    mag_riemann2d_hlld S LL RL LR RR e1 e2 e3 e4 = e4 := by
  simp only [mag_riemann2d_hlld, signPos_neg (ST_neg hy).1, signPos_neg (ST_neg hy).2,
    signPos_neg (SR_neg hx).1, signPos_neg (SR_neg hx).2, Bool.not_true, Bool.not_false,
    Bool.false_and, Bool.and_false,
    Bool.and_true, Bool.true_and, ind, if_true, Bool.false_eq_true, if_false]
  rops
  simp
end

end Verif
