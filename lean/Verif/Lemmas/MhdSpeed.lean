import Verif.Spec.Mhd
import Verif.Lemmas.Checked
import Mathlib.Tactic.Positivity
import Mathlib.Tactic.Linarith
import Mathlib.Tactic.FieldSimp
import Mathlib.Tactic.LinearCombination

/-! Helper lemmas: fast magnetosonic speed. -/

namespace Verif

open Spec CReal

variable {S : MSettings ℝ}

/-- Radicand of the inner square root. -/
noncomputable def fastDisc (S : MSettings ℝ) (q : MState ℝ) (bn : ℝ) : ℝ :=
  (1 / 2 * ((q.a * q.a + q.b * q.b + q.c * q.c) / q.d + S.gamma0 * q.p / q.d)) *
    (1 / 2 * ((q.a * q.a + q.b * q.b + q.c * q.c) / q.d + S.gamma0 * q.p / q.d)) -
    S.gamma0 * q.p / q.d * bn * bn / q.d

/-- Square of the fast speed. -/
noncomputable def fastSq (S : MSettings ℝ) (q : MState ℝ) (bn : ℝ) : ℝ :=
  1 / 2 * ((q.a * q.a + q.b * q.b + q.c * q.c) / q.d + S.gamma0 * q.p / q.d) +
    Real.sqrt (fastDisc S q bn)

theorem fastSpeed_real (S : MSettings ℝ) (q : MState ℝ) (bn : ℝ) :
    fastSpeed S q bn = Real.sqrt (fastSq S q bn) := by
  unfold fastSpeed fastSq fastDisc; rops

/-- The discriminant in terms of squared speeds. -/
theorem fastDisc_eq {q : MState ℝ} (bn : ℝ) :
    fastDisc S q bn = (1 / 2 * (soundSq S.gamma0 q + (fieldSq q - bn ^ 2) / q.d - bn ^ 2 / q.d)) ^ 2
      + bn ^ 2 / q.d * ((fieldSq q - bn ^ 2) / q.d) := by
  unfold fastDisc soundSq fieldSq
  rw [show S.gamma0 * q.p / q.d * bn * bn / q.d = S.gamma0 * q.p / q.d * (bn ^ 2 / q.d) by ring]
  generalize S.gamma0 * q.p / q.d = c2
  simp only [sub_div, add_div]
  rw [show q.a ^ 2 = q.a * q.a by ring, show q.b ^ 2 = q.b * q.b by ring,
    show q.c ^ 2 = q.c * q.c by ring]
  generalize q.a * q.a / q.d = x
  generalize q.b * q.b / q.d = y
  generalize q.c * q.c / q.d = z
  generalize bn ^ 2 / q.d = n
  ring

theorem fastDisc_nonneg {q : MState ℝ} {bn : ℝ} (hd : 0 < q.d) (hb : bn ^ 2 ≤ fieldSq q) :
    0 ≤ fastDisc S q bn := by
  rw [fastDisc_eq]
  have : 0 ≤ (fieldSq q - bn ^ 2) / q.d := div_nonneg (by linarith) hd.le
  positivity

theorem fastMean {q : MState ℝ} : 1 / 2 * ((q.a * q.a + q.b * q.b + q.c * q.c) / q.d +
    S.gamma0 * q.p / q.d) = 1 / 2 * (fieldSq q / q.d + soundSq S.gamma0 q) := by
  unfold fieldSq soundSq; ring

/-- Lower bound for the square of the fast speed. -/
theorem fastSq_ge {q : MState ℝ} {bn : ℝ} (hd : 0 < q.d) (hb : bn ^ 2 ≤ fieldSq q) :
    soundSq S.gamma0 q + (fieldSq q - bn ^ 2) / q.d ≤ fastSq S q bn := by
  unfold fastSq
  rw [fastMean]
  have h : 1 / 2 * (soundSq S.gamma0 q + (fieldSq q - bn ^ 2) / q.d - bn ^ 2 / q.d) ≤
      Real.sqrt (fastDisc S q bn) := by
    refine Real.le_sqrt_of_sq_le ?_
    rw [fastDisc_eq]
    have : 0 ≤ (fieldSq q - bn ^ 2) / q.d := div_nonneg (by linarith) hd.le
    have : 0 ≤ bn ^ 2 / q.d * ((fieldSq q - bn ^ 2) / q.d) := by positivity
    linarith
  rw [sub_div] at *
  linarith

/-- The fast speed is at least the Alfven speed. -/
theorem fastSq_ge_alfven {q : MState ℝ} {bn : ℝ} (hd : 0 < q.d) (hb : bn ^ 2 ≤ fieldSq q) :
    bn ^ 2 / q.d ≤ fastSq S q bn := by
  unfold fastSq
  rw [fastMean]
  have h : 1 / 2 * (bn ^ 2 / q.d - soundSq S.gamma0 q - (fieldSq q - bn ^ 2) / q.d) ≤
      Real.sqrt (fastDisc S q bn) := by
    refine Real.le_sqrt_of_sq_le ?_
    rw [fastDisc_eq]
    have : 0 ≤ (fieldSq q - bn ^ 2) / q.d := div_nonneg (by linarith) hd.le
    have : 0 ≤ bn ^ 2 / q.d * ((fieldSq q - bn ^ 2) / q.d) := by positivity
    nlinarith [this]
  rw [sub_div] at *
  linarith

theorem fastSq_le {q : MState ℝ} {bn : ℝ} (hq : Physical q) (hg : 0 < S.gamma0) :
    fastSq S q bn ≤ soundSq S.gamma0 q + fieldSq q / q.d := by
  have hd := hq.d
  have hp := hq.p
  unfold fastSq
  rw [fastMean]
  have h0 : 0 ≤ 1 / 2 * (fieldSq q / q.d + soundSq S.gamma0 q) := by
    unfold fieldSq soundSq; positivity
  have h : Real.sqrt (fastDisc S q bn) ≤ 1 / 2 * (fieldSq q / q.d + soundSq S.gamma0 q) := by
    refine Real.sqrt_le_iff.2 ⟨h0, ?_⟩
    unfold fastDisc
    rw [fastMean]
    have : 0 ≤ S.gamma0 * q.p / q.d * bn * bn / q.d := by
      rw [show S.gamma0 * q.p / q.d * bn * bn / q.d = S.gamma0 * q.p / q.d * bn ^ 2 / q.d by ring]
      positivity
    nlinarith
  linarith

theorem fastSq_root {q : MState ℝ} {bn : ℝ} (hd : 0 < q.d) (hb : bn ^ 2 ≤ fieldSq q) :
    Magnetosonic S.gamma0 q bn (fastSq S q bn) := by
  have h := Real.sq_sqrt (fastDisc_nonneg (S := S) hd hb)
  unfold Magnetosonic fastSq
  rw [fastMean]
  have h2 : fastDisc S q bn = (1 / 2 * (fieldSq q / q.d + soundSq S.gamma0 q)) ^ 2
      - soundSq S.gamma0 q * (bn ^ 2 / q.d) := by
    unfold fastDisc; rw [fastMean]; unfold soundSq; ring
  have h3 := h.trans h2
  generalize Real.sqrt (fastDisc S q bn) = s at *
  linear_combination h3

theorem soundSq_pos {q : MState ℝ} (hq : Physical q) (hg : 0 < S.gamma0) :
    0 < soundSq S.gamma0 q := by
  have := hq.d; have := hq.p
  unfold soundSq; positivity

theorem fastSq_pos {q : MState ℝ} {bn : ℝ} (hq : Physical q) (hg : 0 < S.gamma0)
    (hb : bn ^ 2 ≤ fieldSq q) : 0 < fastSq S q bn := by
  have h := fastSq_ge (S := S) hq.d hb
  have h1 := soundSq_pos (S := S) hq hg
  have : 0 ≤ (fieldSq q - bn ^ 2) / q.d := div_nonneg (by linarith) hq.d.le
  linarith

theorem fastSpeed_pos {q : MState ℝ} {bn : ℝ} (hq : Physical q) (hg : 0 < S.gamma0)
    (hb : bn ^ 2 ≤ fieldSq q) : 0 < fastSpeed S q bn := by
  rw [fastSpeed_real]; exact Real.sqrt_pos.2 (fastSq_pos hq hg hb)

theorem fastSpeed_sq {q : MState ℝ} {bn : ℝ} (hq : Physical q) (hg : 0 < S.gamma0)
    (hb : bn ^ 2 ≤ fieldSq q) : fastSpeed S q bn ^ 2 = fastSq S q bn := by
  rw [fastSpeed_real, Real.sq_sqrt (fastSq_pos hq hg hb).le]

theorem fieldSq_a (q : MState ℝ) : q.a ^ 2 ≤ fieldSq q := by unfold fieldSq; nlinarith [sq_nonneg q.b, sq_nonneg q.c]
theorem fieldSq_b (q : MState ℝ) : q.b ^ 2 ≤ fieldSq q := by unfold fieldSq; nlinarith [sq_nonneg q.a, sq_nonneg q.c]
theorem fieldSq_c (q : MState ℝ) : q.c ^ 2 ≤ fieldSq q := by unfold fieldSq; nlinarith [sq_nonneg q.a, sq_nonneg q.b]

/-- The fast speed exceeds the Alfven speed unless the field is exactly along the normal (and the
Alfven speed is at least the sound speed). -/
theorem alfven_lt_fastSq {q : MState ℝ} (hq : Physical q) (hg : 0 < S.gamma0)
    (h : q.b ≠ 0 ∨ q.c ≠ 0 ∨ q.a ^ 2 / q.d < soundSq S.gamma0 q) :
    q.a ^ 2 / q.d < fastSq S q q.a := by
  have hd := hq.d
  have hb := fieldSq_a q
  have hpos := fastSq_pos (S := S) hq hg hb
  rcases lt_or_eq_of_le (fastSq_ge_alfven (S := S) hq.d hb) with h1 | h1
  · exact h1
  exfalso
  have hr := fastSq_root (S := S) hq.d hb
  unfold Magnetosonic at hr
  have hge := fastSq_ge (S := S) hq.d hb
  have hbt : 0 ≤ (fieldSq q - q.a ^ 2) / q.d := div_nonneg (by linarith) hq.d.le
  rw [← h1] at hr hge hpos
  have hz : (fieldSq q - q.a ^ 2) / q.d * (q.a ^ 2 / q.d) = 0 := by
    rw [sub_div]; linear_combination -hr
  rcases mul_eq_zero.1 hz with h2 | h2
  · have h3 : q.b ^ 2 + q.c ^ 2 = 0 := by
      rcases div_eq_zero_iff.1 h2 with h3 | h3
      · unfold fieldSq at h3; linarith
      · exact absurd h3 hd.ne'
    have h4 : q.b ^ 2 = 0 := by nlinarith [sq_nonneg q.b, sq_nonneg q.c]
    have h5 : q.c ^ 2 = 0 := by nlinarith [sq_nonneg q.b, sq_nonneg q.c]
    rcases h with h | h | h
    · exact h (pow_eq_zero_iff (two_ne_zero) |>.1 h4)
    · exact h (pow_eq_zero_iff (two_ne_zero) |>.1 h5)
    · linarith
  · rw [h2] at hpos; exact lt_irrefl _ hpos

/-- The fast speed in checked arithmetic. -/
theorem ck_fast {q : MState ℝ} {bn : ℝ} (hq : Physical q) (hg : 0 < S.gamma0)
    (hb : bn ^ 2 ≤ fieldSq q) : fastSpeed (okMS S) (okM q) (ok bn) = ok (fastSpeed S q bn) := by
  have h1 := hq.d.ne'
  have h2 := fastDisc_nonneg (S := S) hq.d hb
  have h3 := (fastSq_pos (S := S) hq hg hb).le
  unfold fastSq at h3
  unfold fastDisc at h2 h3
  unfold fastSpeed okMS okSettings okM
  ck [h1, h2, h3]
  rops

/-- The other formula for the fast speed in the code gives the same value. -/
theorem fast_mhd_speed_eq {q : MState ℝ} {bn : ℝ} (hd : 0 < q.d) (hb : bn ^ 2 ≤ fieldSq q) :
    fast_mhd_speed_dir S q bn = fastSpeed S q bn := by
  rw [fastSpeed_real]
  unfold fast_mhd_speed_dir fastSq
  rops
  have h := fastDisc_nonneg (S := S) hd hb
  congr 1
  have e : ((q.b * q.b + q.c * q.c) / q.d + q.a * q.a / q.d + S.gamma0 * q.p / q.d) *
      ((q.b * q.b + q.c * q.c) / q.d + q.a * q.a / q.d + S.gamma0 * q.p / q.d) -
      4 * (S.gamma0 * q.p / q.d) * (bn * bn / q.d) = 2 ^ 2 * fastDisc S q bn := by
    unfold fastDisc; ring
  rw [e, max_eq_right (by positivity), Real.sqrt_mul (by norm_num), Real.sqrt_sq (by norm_num)]
  ring

end Verif
