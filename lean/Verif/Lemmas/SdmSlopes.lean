import Verif.Lemmas.SdmAverage
import Verif.Lemmas.SdmWhole

/-! Helper lemmas: slopes of the limiter over the reals. -/

namespace Verif.Sdm

open Verif Spec Polynomial Finset ROps

theorem minmod_spec (M a b c : ℝ) : IsLimitedSlope M a b c (minmodTvb a b c M) := by
  have e : minmodTvb a b c M = if |a| < M then a else if 0 < a * b ∧ 0 < b * c then
      (if 0 < a then 1 else -1) * min |a| (min |b| |c|) else 0 := by
    unfold minmodTvb
    simp only [show ∀ x y : ℝ, ltb x y = decide (x < y) from fun _ _ => rfl,
      show ∀ x y : ℝ, gtb x y = decide (y < x) from fun _ _ => rfl,
      show ∀ x : ℝ, fabs x = |x| from fun _ => rfl, show ∀ x y : ℝ, fmin x y = min x y from fun _ _ => rfl,
      decide_eq_true_eq, Bool.and_eq_true, rops_lit]
    push_cast
    rfl
  rw [e]
  unfold IsLimitedSlope
  by_cases h1 : |a| < M
  · rw [if_pos h1]
    exact .inl ⟨h1, rfl⟩
  rw [if_neg h1]
  right
  have h1' := not_lt.1 h1
  by_cases h2 : 0 < a * b ∧ 0 < b * c
  · rw [if_pos h2]
    rcases lt_trichotomy a 0 with ha | ha | ha
    · right; left
      have hb : b < 0 := by by_contra hb; nlinarith [h2.1]
      have hc : c < 0 := by by_contra hc; nlinarith [h2.2]
      rw [if_neg (by linarith), abs_of_neg ha, abs_of_neg hb, abs_of_neg hc]
      rw [abs_of_neg ha] at h1'
      refine ⟨h1', ha, hb, hc, ?_⟩
      rcases le_total (-b) (-c) with x | x
      · rw [min_eq_left x]
        rcases le_total (-a) (-b) with y | y
        · rw [min_eq_left y]; exact ⟨.inl (by ring), by linarith, by linarith, by linarith⟩
        · rw [min_eq_right y]; exact ⟨.inr (.inl (by ring)), by linarith, by linarith, by linarith⟩
      · rw [min_eq_right x]
        rcases le_total (-a) (-c) with y | y
        · rw [min_eq_left y]; exact ⟨.inl (by ring), by linarith, by linarith, by linarith⟩
        · rw [min_eq_right y]; exact ⟨.inr (.inr (by ring)), by linarith, by linarith, by linarith⟩
    · simp [ha] at h2
    · left
      have hb : 0 < b := by by_contra hb; nlinarith [h2.1]
      have hc : 0 < c := by by_contra hc; nlinarith [h2.2]
      rw [if_pos ha, abs_of_pos ha, abs_of_pos hb, abs_of_pos hc]
      rw [abs_of_pos ha] at h1'
      refine ⟨h1', ha, hb, hc, ?_⟩
      rcases le_total b c with x | x
      · rw [min_eq_left x]
        rcases le_total a b with y | y
        · rw [min_eq_left y]; exact ⟨.inl (by ring), by linarith, by linarith, by linarith⟩
        · rw [min_eq_right y]; exact ⟨.inr (.inl (by ring)), by linarith, by linarith, by linarith⟩
      · rw [min_eq_right x]
        rcases le_total a c with y | y
        · rw [min_eq_left y]; exact ⟨.inl (by ring), by linarith, by linarith, by linarith⟩
        · rw [min_eq_right y]; exact ⟨.inr (.inr (by ring)), by linarith, by linarith, by linarith⟩
  · rw [if_neg h2]
    right; right
    refine ⟨h1', fun h => h2 ⟨mul_pos h.1 h.2.1, mul_pos h.2.1 h.2.2⟩,
      fun h => h2 ⟨mul_pos_of_neg_of_neg h.1 h.2.1, mul_pos_of_neg_of_neg h.2.1 h.2.2⟩, rfl⟩

/-- The limited slope is determined. -/
theorem IsLimitedSlope.unique {M a b c r r' : ℝ} (h : IsLimitedSlope M a b c r)
    (h' : IsLimitedSlope M a b c r') : r = r' := by
  unfold IsLimitedSlope at h h'
  rcases h with h | h | h | h <;> rcases h' with h' | h' | h' | h'
  · rw [h.2, h'.2]
  · linarith [h.1, h'.1]
  · linarith [h.1, h'.1]
  · linarith [h.1, h'.1]
  · linarith [h.1, h'.1]
  · obtain ⟨-, -, -, -, e, a1, a2, a3⟩ := h
    obtain ⟨-, -, -, -, e', b1, b2, b3⟩ := h'
    apply le_antisymm
    · rcases e' with rfl | rfl | rfl <;> assumption
    · rcases e with rfl | rfl | rfl <;> assumption
  · linarith [h.2.1, h'.2.1]
  · exact absurd ⟨h.2.1, h.2.2.1, h.2.2.2.1⟩ h'.2.1
  · linarith [h.1, h'.1]
  · linarith [h.2.1, h'.2.1]
  · obtain ⟨-, -, -, -, e, a1, a2, a3⟩ := h
    obtain ⟨-, -, -, -, e', b1, b2, b3⟩ := h'
    apply le_antisymm
    · rcases e with rfl | rfl | rfl <;> assumption
    · rcases e' with rfl | rfl | rfl <;> assumption
  · exact absurd ⟨h.2.1, h.2.2.1, h.2.2.2.1⟩ h'.2.2.1
  · linarith [h.1, h'.1]
  · exact absurd ⟨h'.2.1, h'.2.2.1, h'.2.2.2.1⟩ h.2.1
  · exact absurd ⟨h'.2.1, h'.2.2.1, h'.2.2.2.1⟩ h.2.2.1
  · rw [h.2.2.2, h'.2.2.2]

theorem minmod_small {M a : ℝ} (h : |a| < M) (b c : ℝ) : minmodTvb a b c M = a :=
  (minmod_spec M a b c).unique (.inl ⟨h, rfl⟩)

theorem minmod_zero (M b c : ℝ) : minmodTvb 0 b c M = 0 := by
  refine (minmod_spec M 0 b c).unique ?_
  by_cases h : |(0 : ℝ)| < M
  · exact .inl ⟨h, rfl⟩
  · exact .inr (.inr (.inr ⟨not_lt.1 h, fun h => lt_irrefl _ h.1, fun h => lt_irrefl _ h.1, rfl⟩))

theorem minmod_flat {M a : ℝ} (h : M ≤ |a|) (c : ℝ) : minmodTvb a 0 c M = 0 :=
  (minmod_spec M a 0 c).unique
    (.inr (.inr (.inr ⟨h, fun h => lt_irrefl _ h.2.1, fun h => lt_irrefl _ h.2.1, rfl⟩)))

/-! ### States -/

theorem comp_part (q : HState ℝ) (iv : ℕ) : Mood.comp q iv = part q iv := rfl

theorem part_ofComps {d3 : Bool} (f : ℕ → ℝ) {iv : ℕ} (hv : iv < hydroVars d3) :
    part (Mood.ofComps d3 f) iv = f iv := by
  unfold part Mood.ofComps
  cases d3
  · simp only [hydroVars, Bool.false_eq_true, if_false] at hv
    interval_cases iv <;> rfl
  · simp only [hydroVars, if_true] at hv
    interval_cases iv <;> rfl

theorem toCharac_zero (d3 : Bool) (d : Dir) (q : HState ℝ) (a γ : ℝ) :
    toCharac d3 d HState.zero q a γ = HState.zero := by
  unfold toCharac Euler2.cons_to_charac Euler3.cons_to_charac HState.zero
  cases d3 <;> cases d <;> simp [rops_lit]

theorem ofCharac_zero (d3 : Bool) (d : Dir) (q : HState ℝ) (a γ : ℝ) :
    ofCharac d3 d HState.zero q a γ = HState.zero := by
  unfold ofCharac Euler2.charac_to_cons Euler3.charac_to_cons HState.zero
  cases d3 <;> cases d <;> simp [rops_lit]

theorem part_zero (iv : ℕ) : part (HState.zero : HState ℝ) iv = 0 := by
  unfold part HState.zero
  split_ifs <;> simp [rops_lit]

theorem ofComps_zero (d3 : Bool) : Mood.ofComps d3 (fun _ => (0 : ℝ)) = HState.zero := by
  unfold Mood.ofComps HState.zero
  cases d3 <;> simp [rops_lit]

theorem ofComps_part (d3 : Bool) (q : HState ℝ) (h : d3 = false → q.w = 0) :
    Mood.ofComps d3 (part q) = q := by
  obtain ⟨a, b, c, d, e⟩ := q
  cases d3
  · have := h rfl
    simp only at this
    subst this
    simp [Mood.ofComps, part, ID, IP, IU, IV, rops_lit]
  · simp [Mood.ofComps, part, ID, IP, IU, IV, IW]

theorem slopeChange_eq (n : ℕ) (a b : HState ℝ) :
    slopeChange n a b = (∑ iv ∈ range n, |part a iv - part b iv|) / n := by
  unfold slopeChange
  rw [foldl_sum, list_sum_range, rops_lit, Rat.cast_zero, zero_add]
  congr 1

theorem slopeChange_nonneg (n : ℕ) (a b : HState ℝ) : 0 ≤ slopeChange n a b := by
  rw [slopeChange_eq]
  exact div_nonneg (sum_nonneg fun _ _ => abs_nonneg _) (Nat.cast_nonneg _)

theorem slopeChange_same {n : ℕ} {a b : HState ℝ} (h : ∀ iv, iv < n → part a iv = part b iv) :
    slopeChange n a b = 0 := by
  rw [slopeChange_eq, sum_eq_zero fun iv hv => by rw [h iv (mem_range.1 hv), sub_self, abs_zero], zero_div]

theorem limiterSpeed_eq (d3 : Bool) (q : HState ℝ) (γ : ℝ) : limiterSpeed d3 q γ = q.p * γ / q.d := by
  unfold limiterSpeed Euler2.compute_speed_of_sound Euler3.compute_speed_of_sound
  cases d3 <;> rfl

theorem limiterTest_eq (M : Scheme ℝ) (S : Settings ℝ) (P : Grid) (mdx2 : ℝ)
    (q gx xl xr gy yl yr gz zl zr : HState ℝ) :
    limiterTest M S P mdx2 q gx xl xr gy yl yr gz zl zr = true ↔
      1 / 10000000000 <
        slopeChange P.nbvar (newSlope M.d3 S mdx2 .x q gx xl xr) (rawSlope M.d3 S .x q gx) +
        slopeChange P.nbvar (newSlope M.d3 S mdx2 .y q gy yl yr) (rawSlope M.d3 S .y q gy) +
        if M.d3 then slopeChange P.nbvar (newSlope M.d3 S mdx2 .z q gz zl zr) (rawSlope M.d3 S .z q gz)
        else 0 := by
  unfold limiterTest
  simp only [show ∀ x y : ℝ, gtb x y = decide (y < x) from fun _ _ => rfl, decide_eq_true_eq, rops_lit]
  push_cast
  cases M.d3 <;> simp

theorem stored_eq {M : Scheme ℝ} {P : Grid} (h : Ready M P) {m' : Addr → ℝ} {f : ℕ → ℝ} {c : Cell} {X : ℕ}
    (e : ∀ iv, iv < P.nbvar → m' (c.at X iv) = f iv) :
    Mood.ofComps M.d3 f = stored M.d3 m' X c := by
  have nv := h.nv
  unfold Mood.ofComps stored
  rcases hd : M.d3 with _ | _
  · rw [hd] at nv
    rw [e 0 (by rw [nv]; decide), e 1 (by rw [nv]; decide), e 2 (by rw [nv]; decide),
      e 3 (by rw [nv]; decide)]
    simp [rops_lit, ID, IP, IU, IV]
  · rw [hd] at nv
    rw [e 0 (by rw [nv]; decide), e 1 (by rw [nv]; decide), e 2 (by rw [nv]; decide),
      e 3 (by rw [nv]; decide), e 4 (by rw [nv]; decide)]
    simp [ID, IP, IU, IV, IW]

theorem ofComps_one {d3 : Bool} {q : HState ℝ} (h : d3 = false → q.w = 0) :
    (Mood.ofComps d3 fun iv => Mood.comp q iv * lit 1) = q := by
  have : (fun iv => Mood.comp q iv * lit 1) = part q := by
    funext iv
    rw [rops_lit, Rat.cast_one, mul_one]
    rfl
  rw [this, ofComps_part d3 q h]

theorem ofComps_minus {d3 : Bool} {a b : HState ℝ} (ha : d3 = false → a.w = 0) (hb : d3 = false → b.w = 0) :
    (Mood.ofComps d3 fun iv => Mood.comp a iv - Mood.comp b iv) = minus a b := by
  rw [← ofComps_part d3 (minus a b) fun h => by simp [minus, ha h, hb h]]
  refine ofComps_congr fun iv _ => ?_
  rw [comp_part, comp_part]
  unfold part minus
  split_ifs <;> rfl

theorem stored_w {d3 : Bool} (m : Addr → ℝ) (A : ℕ) (c : Cell) : d3 = false → (stored d3 m A c).w = 0 := by
  intro h
  simp [stored, h]

theorem rawSlope_eq {d3 : Bool} (S : Settings ℝ) (d : Dir) (q : HState ℝ) {g : HState ℝ}
    (hg : d3 = false → g.w = 0) :
    rawSlope d3 S d q g = toCharac d3 d g q (q.p * S.gamma0 / q.d) S.gamma0 := by
  unfold rawSlope
  rw [ofComps_one hg, limiterSpeed_eq]

theorem newSlope_part {d3 : Bool} (S : Settings ℝ) (T : ℝ) (d : Dir) {q g lo hi : HState ℝ}
    (hq : d3 = false → q.w = 0) (hg : d3 = false → g.w = 0) (hl : d3 = false → lo.w = 0)
    (hh : d3 = false → hi.w = 0) {iv : ℕ} (hv : iv < hydroVars d3) :
    part (newSlope d3 S T d q g lo hi) iv =
      minmodTvb (part (toCharac d3 d g q (q.p * S.gamma0 / q.d) S.gamma0) iv)
        (part (toCharac d3 d (minus q lo) q (q.p * S.gamma0 / q.d) S.gamma0) iv)
        (part (toCharac d3 d (minus hi q) q (q.p * S.gamma0 / q.d) S.gamma0) iv) T := by
  unfold newSlope
  simp only []
  rw [part_ofComps _ hv, rawSlope_eq S d q hg, ofComps_minus hq hl, ofComps_minus hh hq, limiterSpeed_eq,
    rops_lit, Rat.cast_one, one_mul, one_mul]
  rfl

theorem consSlope_is {d3 : Bool} (S : Settings ℝ) (T : ℝ) (d : Dir) {q g lo hi : HState ℝ}
    (hq : d3 = false → q.w = 0) (hg : d3 = false → g.w = 0) (hl : d3 = false → lo.w = 0)
    (hh : d3 = false → hi.w = 0) :
    IsCellSlope d3 T S.gamma0 (q.p * S.gamma0 / q.d) d q g lo hi (consSlope d3 S T d q g lo hi) := by
  refine ⟨Mood.ofComps d3 (part (newSlope d3 S T d q g lo hi)), ?_, fun iv hv => ?_⟩
  · unfold consSlope
    rw [limiterSpeed_eq]
    congr 2
    funext iv
    rw [rops_lit, Rat.cast_one, div_one]
    rfl
  · rw [part_ofComps _ hv, newSlope_part S T d hq hg hl hh hv]
    exact minmod_spec _ _ _ _

theorem linearValue_eq (d3 : Bool) (N : ℕ) (p : Pt) (a x y z : ℝ) :
    linearValue d3 (solPts N) p a x y z = a + (solPts N p.x - 1 / 2) * x + (solPts N p.y - 1 / 2) * y +
      if d3 then (solPts N p.z - 1 / 2) * z else 0 := by
  unfold linearValue
  rw [rops_lit]
  push_cast
  cases d3 <;> simp

/-! ### Means of linear functions -/

theorem solPts_one : solPts 1 0 = 1 / 2 := by
  rw [solPts_eq]
  simp

theorem lineMean_centred {N : ℕ} (hN : 0 < N) : lineMean N (fun k => solPts N k - 1 / 2) = 0 := by
  rcases Nat.lt_or_ge 1 N with h | h
  · have e := lineMean_polynomial (N := N) (X - C (1 / 2) : ℝ[X])
      (by rw [degree_X_sub_C]; exact_mod_cast h)
    simp only [eval_sub, eval_X, eval_C] at e
    rw [e, intervalIntegral.integral_sub (Continuous.intervalIntegrable (by fun_prop) _ _)
      (Continuous.intervalIntegrable (by fun_prop) _ _)]
    simp
  · obtain rfl : N = 1 := by omega
    rw [lineMean_congr (g := fun _ => 0) fun j hj => by
      obtain rfl : j = 0 := by omega
      rw [solPts_one, sub_self], lineMean_const hN]

theorem angleMean_centred {N : ℕ} (hN : 0 < N) : angleMean N (fun k => solPts N k - 1 / 2) = 0 := by
  unfold angleMean
  have h : ∑ k ∈ range N, Real.sin (angle N k) * (solPts N k - 1 / 2) =
      -∑ k ∈ range N, Real.sin (angle N k) * (solPts N k - 1 / 2) := by
    conv_lhs => rw [← sum_range_reflect]
    rw [← sum_neg_distrib]
    refine sum_congr rfl fun k hk => ?_
    have hk' := mem_range.1 hk
    have e : angle N (N - 1 - k) = Real.pi - angle N k := by
      unfold angle
      have hN' : (N : ℝ) ≠ 0 := by exact_mod_cast hN.ne'
      rw [Nat.cast_sub (by omega), Nat.cast_sub (by omega)]
      push_cast
      field_simp
      ring
    rw [e, Real.sin_pi_sub]
    have := solution_points_symmetric hk'
    linear_combination Real.sin (angle N k) * this
  have : ∑ k ∈ range N, Real.sin (angle N k) * (solPts N k - 1 / 2) = 0 := by linarith
  rw [this, zero_div]

theorem LinearIn.mean {d3 : Bool} {N : ℕ} (hN : 0 < N) {f : Pt → ℝ} {a : ℝ} {s : Dir → ℝ}
    (h : LinearIn d3 N f a s) : cellMean d3 N f = a := by
  rw [cellMean_congr h]
  have c := lineMean_centred hN
  have l : ∀ (b t : ℝ), lineMean N (fun k => b + (solPts N k - 1 / 2) * t) = b := by
    intro b t
    have := lineMean_lin N (fun _ => 1) (fun k => solPts N k - 1 / 2) b t
    rw [c, lineMean_const hN] at this
    rw [lineMean_congr (g := fun j => b * 1 + t * (solPts N j - 1 / 2)) fun j _ => by ring, this]
    ring
  unfold cellMean
  cases d3
  · simp only [Bool.false_eq_true, if_false, add_zero]
    simp only [l]
  · simp only [if_true]
    simp only [l]

theorem LinearIn.angle_mean {d3 : Bool} {N : ℕ} (hN : 0 < N) {f : Pt → ℝ} {a : ℝ} {s : Dir → ℝ}
    (h : LinearIn d3 N f a s) : cellAngleMean d3 N f = a := by
  rw [cellAngleMean_congr h]
  have c := angleMean_centred hN
  have l : ∀ (b t : ℝ), angleMean N (fun k => b + (solPts N k - 1 / 2) * t) = b := by
    intro b t
    have := angleMean_lin N (fun _ => 1) (fun k => solPts N k - 1 / 2) b t
    rw [c, angleMean_const hN] at this
    rw [angleMean_congr (g := fun j => b * 1 + t * (solPts N j - 1 / 2)) fun j _ => by ring, this]
    ring
  unfold cellAngleMean
  cases d3
  · simp only [Bool.false_eq_true, if_false, add_zero]
    simp only [l]
  · simp only [if_true]
    simp only [l]

theorem interpolate_const {N : ℕ} (hN : 0 < N) (c : ℝ) :
    Lagrange.interpolate (range N) (solPts N) (fun _ => c) = C c := by
  symm
  refine Lagrange.eq_interpolate_of_eval_eq _ (solPts_injOn N) ?_ fun j _ => by simp
  rw [card_range]
  exact lt_of_le_of_lt degree_C_le (by exact_mod_cast hN)

theorem interpolate_congr {N : ℕ} {f g : ℕ → ℝ} (h : ∀ j, j < N → f j = g j) :
    Lagrange.interpolate (range N) (solPts N) f = Lagrange.interpolate (range N) (solPts N) g :=
  Lagrange.interpolate_eq_of_values_eq_on _ _ fun j hj => h j (mem_range.1 hj)

theorem solPt_set {d3 : Bool} {N : ℕ} {d : Dir} (hd : d3 = true ∨ d ≠ .z) {p : Pt} (hp : IsSolPt d3 N p)
    {k : ℕ} (hk : k < N) : IsSolPt d3 N (p.set d k) := by
  obtain ⟨h1, h2, h3⟩ := hp
  cases d
  · exact ⟨hk, h2, h3⟩
  · exact ⟨h1, hk, h3⟩
  · obtain rfl : d3 = true := by simpa using hd
    exact ⟨h1, h2, by simpa [Pt.set] using hk⟩

theorem slopeAt_flat {d3 : Bool} {N : ℕ} (hN : 0 < N) {d : Dir} (hd : d3 = true ∨ d ≠ .z) {f : Pt → ℝ} {a : ℝ}
    (h : ∀ p, IsSolPt d3 N p → f p = a) {p : Pt} (hp : IsSolPt d3 N p) : slopeAt N d f p = 0 := by
  unfold slopeAt
  rw [interpolate_congr (g := fun _ => a) fun j hj => h _ (solPt_set hd hp hj), interpolate_const hN]
  simp

/-- Derivatives of a linear function. -/
theorem slopeAt_linear {d3 : Bool} {N : ℕ} (hN : 1 < N) {d : Dir} (hd : d3 = true ∨ d ≠ .z) {f : Pt → ℝ} {a : ℝ}
    {s : Dir → ℝ} (h : LinearIn d3 N f a s) {p : Pt} (hp : IsSolPt d3 N p) : slopeAt N d f p = s d := by
  unfold slopeAt
  set b := f p - (solPts N (p.get d) - 1 / 2) * s d with hb
  have e : ∀ k, k < N → f (p.set d k) = (C (b - s d / 2) + C (s d) * X).eval (solPts N k) := by
    intro k hk
    rw [h _ (solPt_set hd hp hk), hb, h p hp]
    cases d
    · simp [Pt.set, Pt.get]; ring
    · simp [Pt.set, Pt.get]; ring
    · obtain rfl : d3 = true := by simpa using hd
      simp [Pt.set, Pt.get]; ring
  rw [interpolate_congr e, ← Lagrange.eq_interpolate (solPts_injOn N)]
  · simp
  · rw [card_range]
    refine lt_of_le_of_lt (degree_add_le _ _) (max_lt (lt_of_le_of_lt degree_C_le ?_) ?_)
    · exact_mod_cast (by omega : 0 < N)
    · exact lt_of_le_of_lt (degree_C_mul_X_le _) (by exact_mod_cast hN)

end Verif.Sdm
