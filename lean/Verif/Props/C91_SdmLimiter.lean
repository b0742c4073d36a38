import Verif.Lemmas.SdmSlopes
import Verif.Props.C85_C89_SdmStep

/-!
# C91: limiting in the spectral difference solver

`Runs (limiting M S P Real.pi T A) m m'`: the loops launched for the averages, the average derivatives and the
limiter, with threshold `T` (`sdm/M_TVB`), take memory `m` to `m'`.  `A`: the array that holds the solution.
`cellAngleMean`: weighted mean over the points of a cell.  `excess N > 1`: sum of the weights of the code along a
line.  `cellMean`: mean over the cell of the polynomial through the values.
-/

namespace Verif.Sdm

open Verif Spec ROps Finset

section any
variable {α : Type} [ROps α] {M : Scheme α} {S : Settings α} {P : Grid} {B : Sides}

/-- **C91**: for every order, grid, state and threshold the loops access only allocated entries, are free of data
races, terminate, and their combined result does not depend on the schedule. -/
theorem C91_safe (h : Setup M P B) {ti : Mood.TimeInt} {A : ℕ} (hA : solArray ti A) (pi T : α) (m : Addr → α) :
    ∃ m', YieldsAll (limDom M.d3 M.N P ti) (limiting M S P pi T A) m m' ∧
      ∀ a, a.arr ≠ A → ¬ meanArray M.d3 a.arr → m' a = m a := by
  obtain ⟨m', y, -, -, -, f⟩ := limiting_yields (S := S) h.ready hA pi T m
  exact ⟨m', y, f⟩

end any

variable {M : Scheme ℝ} {S : Settings ℝ} {P : Grid} {B : Sides} {ti : Mood.TimeInt} {A : ℕ} {T : ℝ}
  {m m' : Addr → ℝ}

/-! ### Averages -/

/-- **C91**: the average stored for a cell is the weighted mean of its values times `excess N` per direction; that
of the density is kept at or above `smallr`. -/
theorem C91_average (hM : ExactScheme M) (h : Setup M P B) (hA : solArray ti A)
    (r : Runs (limiting M S P Real.pi T A) m m') {c : Cell} (hc : P.box M.d3 c) {iv : ℕ}
    (hv : iv < hydroVars M.d3) :
    m' (c.at sAvg iv) =
      let a := excess M.N ^ dims M.d3 * cellAngleMean M.d3 M.N fun p => valsOf M m A c p iv
      if iv = 0 then max a S.smallr else a := by
  obtain ⟨m', y, -, e, -⟩ := limiting_yields (S := S) h.ready hA Real.pi T m
  obtain rfl := y.unique r
  rw [e c iv hc (by rw [h.ready.nv]; exact hv), avgVal_eq hM]
  simp only [floorAverage]
  by_cases h0 : iv = ID
  · rw [if_pos h0, if_pos (show iv = 0 from h0)]
    simp only [show ∀ x y : ℝ, gtb x y = decide (y < x) from fun _ _ => rfl, decide_eq_true_eq]
    split_ifs with hs
    · rw [max_eq_left hs.le]
    · rw [max_eq_right (not_lt.1 hs)]
  · rw [if_neg h0, if_neg (show ¬ iv = 0 from h0)]

/-- **C91**: the weighted mean lies between the smallest and the largest value. -/
theorem C91_weighted_mean {d3 : Bool} {N : ℕ} (hN : 0 < N) {f : Pt → ℝ} {lo hi : ℝ}
    (h : ∀ p, IsSolPt d3 N p → lo ≤ f p ∧ f p ≤ hi) :
    lo ≤ cellAngleMean d3 N f ∧ cellAngleMean d3 N f ≤ hi := by
  constructor
  · rw [← cellAngleMean_const d3 hN lo]
    exact cellAngleMean_le hN fun p hp => (h p hp).1
  · rw [← cellAngleMean_const d3 hN hi]
    exact cellAngleMean_le hN fun p hp => (h p hp).2

/-- **C91**: the weights sum to more than one at every order. -/
theorem C91_factor {N : ℕ} (hN : 0 < N) : 1 < excess N := one_lt_excess hN

/-- **C91**: at order one the sum of the weights is `π / 2` per direction. -/
theorem C91_factor_one : excess 1 = Real.pi / 2 := by
  rw [excess]
  norm_num

/-- **C91**: at order two in 2D the factor is `π² / 8`, that is 1.23. -/
theorem C91_factor_two : excess 2 ^ dims false = Real.pi ^ 2 / 8 := by
  have h2 : Real.pi / (2 * (2 : ℕ)) = Real.pi / 4 := by norm_num
  rw [excess, h2, Real.sin_pi_div_four]
  show (Real.pi / 4 / (√2 / 2)) ^ 2 = _
  have : (√2 : ℝ) ^ 2 = 2 := Real.sq_sqrt (by norm_num)
  rw [div_pow, div_pow, div_pow, this]
  ring

/-- **C91** (violated): the average of a positive quantity that is the same everywhere in the cell is larger than
that quantity. -/
theorem C91_average_too_large (hM : ExactScheme M) (h : Setup M P B) (hA : solArray ti A)
    (r : Runs (limiting M S P Real.pi T A) m m') {c : Cell} (hc : P.box M.d3 c) {iv : ℕ}
    (hv : iv < hydroVars M.d3) {a : ℝ} (ha : 0 < a)
    (hu : ∀ p, IsSolPt M.d3 M.N p → valsOf M m A c p iv = a) :
    cellMean M.d3 M.N (fun p => valsOf M m A c p iv) = a ∧ a < m' (c.at sAvg iv) := by
  have hN : 0 < M.N := hM.orders.1
  refine ⟨by rw [cellMean_congr hu, cellMean_const _ hN], ?_⟩
  rw [C91_average hM h hA r hc hv, cellAngleMean_congr hu, cellAngleMean_const _ hN]
  have h1 := one_lt_excess_pow M.d3 hN
  have h2 : a < excess M.N ^ dims M.d3 * a := by nlinarith
  simp only []
  split_ifs
  · exact lt_max_of_lt_left h2
  · exact h2

/-- **C91**: the average derivative stored for a cell is, with the same factor, the weighted mean of the derivative
of the polynomials on the lines of the cell, in units of the cell. -/
theorem C91_gradient (hM : ExactScheme M) (h : Setup M P B) (hA : solArray ti A)
    (r : Runs (limiting M S P Real.pi T A) m m') {c : Cell} (hc : P.box M.d3 c) {d : Dir}
    (hd : M.d3 = true ∨ d ≠ .z) {iv : ℕ} (hv : iv < hydroVars M.d3) :
    m' (c.at (sGrad d) iv) = excess M.N ^ dims M.d3 *
      cellAngleMean M.d3 M.N (slopeAt M.N d fun p => valsOf M m A c p iv) := by
  obtain ⟨m', y, -, -, e, -⟩ := limiting_yields (S := S) h.ready hA Real.pi T m
  obtain rfl := y.unique r
  rw [e d c iv hd hc (by rw [h.ready.nv]; exact hv), gradAvg_eq hM hd]

/-! ### Slopes -/

/-- **C91**: the slope kept is the given one if smaller than the threshold, else the smallest of the three if they
have the same sign, else zero. -/
theorem C91_minmod (T a b c r : ℝ) : minmodTvb a b c T = r ↔ IsLimitedSlope T a b c r :=
  ⟨fun h => h ▸ minmod_spec T a b c, fun h => (minmod_spec T a b c).unique h⟩

theorem limited_value (hM : ExactScheme M) (h : Setup M P B) (hA : solArray ti A)
    (r : Runs (limiting M S P Real.pi T A) m m') {c : Cell} (hb : P.box M.d3 c) {p : Pt}
    (hp : IsSolPt M.d3 M.N p) {iv : ℕ} (hv : iv < hydroVars M.d3) :
    valsOf M m' A c p iv = limitVals M S P T (stored M.d3 m' sAvg) (fun d => stored M.d3 m' (sGrad d))
      (valsOf M m A) c p iv := by
  obtain ⟨m', y, e, ea, eg, -⟩ := limiting_yields (S := S) h.ready hA Real.pi T m
  obtain rfl := y.unique r
  have nv := h.ready.nv
  refine (e c p iv hb hp (by rw [nv]; exact hv)).trans (limitVals_congr ?_ ?_ hb p iv)
  · exact fun c hc => stored_eq h.ready fun iv hv => ea c iv hc hv
  · exact fun d c hd hc => stored_eq h.ready fun iv hv => eg d c iv hd hc hv

theorem stored_part {d3 : Bool} (m : Addr → ℝ) (A : ℕ) (c : Cell) {iv : ℕ} (hv : iv < hydroVars d3) :
    part (stored d3 m A c) iv = m (c.at A iv) := by
  unfold part stored
  cases d3
  · simp only [hydroVars, Bool.false_eq_true, if_false] at hv
    interval_cases iv <;> rfl
  · simp only [hydroVars, if_true] at hv
    interval_cases iv <;> rfl

/-- **C91**: a cell either keeps all its values, or gets values that are linear in position: the stored average in
the middle, with slopes limited in the characteristic variables against the differences of the stored averages.  The
speed of sound of these variables is taken as `γ` times average energy over average density. -/
theorem C91_limited (hM : ExactScheme M) (h : Setup M P B) (hA : solArray ti A)
    (r : Runs (limiting M S P Real.pi T A) m m') {c : Cell} (hb : P.box M.d3 c) (hc : P.inner M.d3 c) :
    (∀ p iv, IsSolPt M.d3 M.N p → iv < hydroVars M.d3 → valsOf M m' A c p iv = valsOf M m A c p iv) ∨
    ∃ s : Dir → HState ℝ,
      (∀ iv, iv < hydroVars M.d3 → LinearIn M.d3 M.N (fun p => valsOf M m' A c p iv)
        (m' (c.at sAvg iv)) fun d => part (s d) iv) ∧
      ∀ d, M.d3 = true ∨ d ≠ .z →
        let q := stored M.d3 m' sAvg c
        IsCellSlope M.d3 T S.gamma0 (q.p * S.gamma0 / q.d) d q (stored M.d3 m' (sGrad d) c)
          (stored M.d3 m' sAvg (c.down d)) (stored M.d3 m' sAvg (c.up d)) (s d) := by
  have ho := offBorder_inner h.gw hc
  by_cases ht : limiterActs M S P T (stored M.d3 m' sAvg) (fun d => stored M.d3 m' (sGrad d)) c = true
  · right
    refine ⟨fun d => cellSlope M S T (stored M.d3 m' sAvg) (fun d => stored M.d3 m' (sGrad d)) d c,
      fun iv hv p hp => ?_, fun d _ => ?_⟩
    · have := limited_value hM h hA r hb hp hv
      rw [limitVals, ho, ht, Bool.and_self, if_pos rfl, comp_part, stored_part _ _ _ hv, hM.sp,
        linearValue_eq] at this
      exact this
    · exact consSlope_is S T d (stored_w _ _ _) (stored_w _ _ _) (stored_w _ _ _) (stored_w _ _ _)
  · left
    intro p iv hp hv
    have := limited_value hM h hA r hb hp hv
    rw [limitVals, Bool.eq_false_of_not_eq_true ht, Bool.and_false, if_neg (by decide)] at this
    exact this

/-- **C91**: where the values change, the mean of every variable over the cell becomes the stored average. -/
theorem C91_mean (hM : ExactScheme M) (h : Setup M P B) (hA : solArray ti A)
    (r : Runs (limiting M S P Real.pi T A) m m') {c : Cell} (hb : P.box M.d3 c) (hc : P.inner M.d3 c)
    (hne : ∃ p iv, IsSolPt M.d3 M.N p ∧ iv < hydroVars M.d3 ∧ valsOf M m' A c p iv ≠ valsOf M m A c p iv)
    {iv : ℕ} (hv : iv < hydroVars M.d3) :
    cellMean M.d3 M.N (fun p => valsOf M m' A c p iv) = m' (c.at sAvg iv) := by
  rcases C91_limited hM h hA r hb hc with e | ⟨s, e, -⟩
  · obtain ⟨p, jv, hp, hj, hn⟩ := hne
    exact absurd (e p jv hp hj) hn
  · exact (e iv hv).mean hM.orders.1

theorem acts_iff (avg : Cell → HState ℝ) (grad : Dir → Cell → HState ℝ) (c : Cell) :
    limiterActs M S P T avg grad c = true ↔ 1 / 10000000000 <
      slopeChange P.nbvar (newSlope M.d3 S T .x (avg c) (grad .x c) (avg (c.down .x)) (avg (c.up .x)))
        (rawSlope M.d3 S .x (avg c) (grad .x c)) +
      slopeChange P.nbvar (newSlope M.d3 S T .y (avg c) (grad .y c) (avg (c.down .y)) (avg (c.up .y)))
        (rawSlope M.d3 S .y (avg c) (grad .y c)) +
      if M.d3 then slopeChange P.nbvar (newSlope M.d3 S T .z (avg c) (grad .z c) (avg (c.down .z))
        (avg (c.up .z))) (rawSlope M.d3 S .z (avg c) (grad .z c)) else 0 :=
  limiterTest_eq _ _ _ _ _ _ _ _ _ _ _ _ _ _

/-- **C91**: a cell in which no limited slope differs from the given one keeps its values. -/
theorem C91_kept (hM : ExactScheme M) (h : Setup M P B) (hA : solArray ti A)
    (r : Runs (limiting M S P Real.pi T A) m m') {c : Cell} (hb : P.box M.d3 c)
    (hs : ∀ d, M.d3 = true ∨ d ≠ .z → ∀ iv, iv < hydroVars M.d3 →
      let q := stored M.d3 m' sAvg c
      let t := part (toCharac M.d3 d (stored M.d3 m' (sGrad d) c) q (q.p * S.gamma0 / q.d) S.gamma0) iv
      |t| < T ∨ t = 0) {p : Pt} (hp : IsSolPt M.d3 M.N p) {iv : ℕ} (hv : iv < hydroVars M.d3) :
    valsOf M m' A c p iv = valsOf M m A c p iv := by
  rw [limited_value hM h hA r hb hp hv, limitVals, if_neg]
  rw [Bool.and_eq_true, not_and, acts_iff]
  intro _
  have z : ∀ d, M.d3 = true ∨ d ≠ .z → slopeChange P.nbvar
      (newSlope M.d3 S T d (stored M.d3 m' sAvg c) (stored M.d3 m' (sGrad d) c)
        (stored M.d3 m' sAvg (c.down d)) (stored M.d3 m' sAvg (c.up d)))
      (rawSlope M.d3 S d (stored M.d3 m' sAvg c) (stored M.d3 m' (sGrad d) c)) = 0 := by
    intro d hd
    refine slopeChange_same fun iv hv => ?_
    rw [h.ready.nv] at hv
    rw [newSlope_part S T d (stored_w _ _ _) (stored_w _ _ _) (stored_w _ _ _) (stored_w _ _ _) hv,
      rawSlope_eq S d _ (stored_w _ _ _)]
    rcases hs d hd iv hv with hs | hs
    · exact minmod_small hs _ _
    · rw [hs, minmod_zero]
  rw [z .x (.inr (by decide)), z .y (.inr (by decide))]
  split_ifs with h3
  · rw [z .z (.inl h3)]; norm_num
  · norm_num

theorem grad_flat (hM : ExactScheme M) (h : Setup M P B) (hA : solArray ti A)
    (r : Runs (limiting M S P Real.pi T A) m m') {c : Cell} (hb : P.box M.d3 c) {a : ℕ → ℝ}
    (hu : ∀ p iv, IsSolPt M.d3 M.N p → iv < hydroVars M.d3 → valsOf M m A c p iv = a iv) {d : Dir}
    (hd : M.d3 = true ∨ d ≠ .z) : stored M.d3 m' (sGrad d) c = HState.zero := by
  have hN : 0 < M.N := hM.orders.1
  rw [← ofComps_zero M.d3]
  symm
  refine stored_eq h.ready fun iv hv => ?_
  rw [h.ready.nv] at hv
  rw [C91_gradient hM h hA r hb hd hv, cellAngleMean_congr (g := fun _ => 0) fun p hp =>
    slopeAt_flat hN hd (fun p hp => hu p iv hp hv) hp, cellAngleMean_const _ hN, mul_zero]

/-- **C91**: a cell with the same state at all its points keeps it, whatever its neighbours and the threshold.  In
particular a uniform gas is kept. -/
theorem C91_flat_cell (hM : ExactScheme M) (h : Setup M P B) (hA : solArray ti A)
    (r : Runs (limiting M S P Real.pi T A) m m') {c : Cell} (hb : P.box M.d3 c) {a : ℕ → ℝ}
    (hu : ∀ p iv, IsSolPt M.d3 M.N p → iv < hydroVars M.d3 → valsOf M m A c p iv = a iv) {p : Pt}
    (hp : IsSolPt M.d3 M.N p) {iv : ℕ} (hv : iv < hydroVars M.d3) : valsOf M m' A c p iv = a iv := by
  rw [C91_kept hM h hA r hb (fun d hd iv _ => .inr ?_) hp hv, hu p iv hp hv]
  rw [grad_flat hM h hA r hb hu hd, toCharac_zero, part_zero]

/-- **C91**: at order one the limiter changes nothing. -/
theorem C91_first_order (hM : ExactScheme M) (h1 : M.N = 1) (h : Setup M P B) (hA : solArray ti A)
    (r : Runs (limiting M S P Real.pi T A) m m') {c : Cell} (hb : P.box M.d3 c) {p : Pt}
    (hp : IsSolPt M.d3 M.N p) {iv : ℕ} (hv : iv < hydroVars M.d3) :
    valsOf M m' A c p iv = valsOf M m A c p iv := by
  have e : ∀ p, IsSolPt M.d3 M.N p → p = ⟨0, 0, 0⟩ := by
    rintro ⟨x, y, z⟩ ⟨hx, hy, hz⟩
    simp only at hx hy hz
    rw [h1] at hx hy hz
    have : z = 0 := by split_ifs at hz <;> omega
    rw [this, show x = 0 by omega, show y = 0 by omega]
  rw [C91_flat_cell hM h hA r hb (a := fun iv => valsOf M m A c ⟨0, 0, 0⟩ iv)
    (fun p iv hp _ => by rw [e p hp]) hp hv, e p hp]

/-! ### Conservation -/

theorem ramp_linear (d3 : Bool) (N : ℕ) (ρ s E : ℝ) (iv : ℕ) :
    LinearIn d3 N (fun p => ramp N ρ s E p iv) (if iv = 0 then ρ else if iv = 1 then E else 0)
      fun d => if d = .x ∧ iv = 0 then s else 0 := by
  intro p _
  simp only [ramp]
  split_ifs <;> simp_all <;> ring

/-- State with density `a` and energy `b` at rest. -/
def still (a b : ℝ) : HState ℝ := ⟨a, b, 0, 0, 0⟩

theorem still_eq (d3 : Bool) (a b : ℝ) :
    still a b = Mood.ofComps d3 fun iv => if iv = 0 then a else if iv = 1 then b else 0 := by
  unfold still Mood.ofComps
  cases d3 <;> simp [ID, IP, IU, IV, IW, rops_lit]

theorem still_charac (d3 : Bool) {a b g c γ : ℝ} (hγ : γ ≠ 1) :
    toCharac d3 .x (still g 0) (still a b) c γ = ⟨0, 0, g, 0, 0⟩ := by
  have h1 : γ - 1 ≠ 0 := sub_ne_zero.2 hγ
  have h2 : (γ - 1) * (c * c / (γ - 1)) = c * c := by field_simp
  unfold toCharac Euler2.cons_to_charac Euler3.cons_to_charac still
  cases d3 <;> simp [rops_lit, h2]

theorem cons_zero {d3 : Bool} {T : ℝ} {d : Dir} {q g lo hi : HState ℝ}
    (h : ∀ iv, iv < hydroVars d3 → part (newSlope d3 S T d q g lo hi) iv = 0) :
    consSlope d3 S T d q g lo hi = HState.zero := by
  unfold consSlope
  rw [ofComps_congr (g := fun _ => 0) fun iv hv => by
    rw [comp_part, h iv hv, zero_div], ofComps_zero, ofCharac_zero]

/-- In a gas at rest whose density has the same slope `s`, at least the threshold, in every cell, every limited cell is left with a flat
gas, `excess N` per direction denser. -/
theorem limited_ramp (hM : ExactScheme M) (hN : 2 ≤ M.N) (h : Setup M P B) (hA : solArray ti A)
    (r : Runs (limiting M S P Real.pi T A) m m') (hγ : S.gamma0 ≠ 1) {ρ s E : ℝ} (hρ : S.smallr ≤ ρ)
    (hρ0 : 0 < ρ) (hT : T ≤ s) (hs : 1 / 1000000000 ≤ s)
    (hu : ∀ c p iv, P.box M.d3 c → IsSolPt M.d3 M.N p → iv < hydroVars M.d3 →
      valsOf M m A c p iv = ramp M.N ρ s E p iv) {c : Cell} (hb : P.box M.d3 c) (ho : offBorder M.d3 P c = true) {p : Pt}
    (hp : IsSolPt M.d3 M.N p) {iv : ℕ} (hv : iv < hydroVars M.d3) :
    valsOf M m' A c p iv = part (still (excess M.N ^ dims M.d3 * ρ) (excess M.N ^ dims M.d3 * E)) iv := by
  have h0 : 0 < M.N := hM.orders.1
  set κ := excess M.N ^ dims M.d3 with hκ
  have k1 : 1 < κ := one_lt_excess_pow M.d3 h0
  have sa : ∀ c, P.box M.d3 c → stored M.d3 m' sAvg c = still (κ * ρ) (κ * E) := by
    intro c hc
    rw [still_eq M.d3]
    symm
    refine stored_eq h.ready fun iv hv => ?_
    rw [h.ready.nv] at hv
    rw [C91_average hM h hA r hc hv, cellAngleMean_congr fun p hp => hu c p iv hc hp hv,
      (ramp_linear M.d3 M.N ρ s E iv).angle_mean h0]
    simp only [← hκ]
    split_ifs
    · rw [max_eq_left]; nlinarith
    · rfl
    · ring
  have sg : ∀ d, M.d3 = true ∨ d ≠ .z → ∀ c, P.box M.d3 c →
      stored M.d3 m' (sGrad d) c = still (if d = .x then κ * s else 0) 0 := by
    intro d hd c hc
    rw [still_eq M.d3]
    symm
    refine stored_eq h.ready fun iv hv => ?_
    rw [h.ready.nv] at hv
    have hl : LinearIn M.d3 M.N (fun p => valsOf M m A c p iv)
        (if iv = 0 then ρ else if iv = 1 then E else 0) fun d => if d = .x ∧ iv = 0 then s else 0 :=
      fun p hp => (hu c p iv hc hp hv).trans (ramp_linear M.d3 M.N ρ s E iv p hp)
    rw [C91_gradient hM h hA r hc hd hv, cellAngleMean_congr (g := fun _ => if d = .x ∧ iv = 0 then s else 0)
      fun p hp => slopeAt_linear hN hd hl hp, cellAngleMean_const _ h0]
    simp only [← hκ]
    split_ifs <;> simp_all
  have nb := fun (d : Dir) (hd : M.d3 = true ∨ d ≠ .z) => offBorder_box hb ho hd
  have hx : M.d3 = true ∨ Dir.x ≠ .z := .inr (by decide)
  have hy : M.d3 = true ∨ Dir.y ≠ .z := .inr (by decide)
  have hn : ∀ d, M.d3 = true ∨ d ≠ .z → ∀ iv, iv < hydroVars M.d3 → part (newSlope M.d3 S T d
      (stored M.d3 m' sAvg c) (stored M.d3 m' (sGrad d) c) (stored M.d3 m' sAvg (c.down d))
      (stored M.d3 m' sAvg (c.up d))) iv = 0 := by
    intro d hd iv hv
    rw [newSlope_part S T d (stored_w _ _ _) (stored_w _ _ _) (stored_w _ _ _) (stored_w _ _ _) hv,
      sa c hb, sa _ (nb d hd).1, sa _ (nb d hd).2, sg d hd c hb]
    have em : minus (still (κ * ρ) (κ * E)) (still (κ * ρ) (κ * E)) = HState.zero := by
      simp [minus, still, HState.zero, rops_lit]
    rw [em, toCharac_zero, part_zero]
    by_cases hdx : d = .x
    · subst hdx
      rw [if_pos rfl, still_charac _ hγ]
      by_cases h2 : iv = 2
      · subst h2
        refine minmod_flat ?_ _
        show T ≤ |κ * s|
        rw [abs_of_nonneg (by nlinarith)]
        nlinarith
      · rw [show part (⟨0, 0, κ * s, 0, 0⟩ : HState ℝ) iv = 0 by simp [part, h2], minmod_zero]
    · rw [if_neg hdx, show still 0 0 = HState.zero by simp [still, HState.zero, rops_lit], toCharac_zero,
        part_zero, minmod_zero]
  have act : limiterActs M S P T (stored M.d3 m' sAvg) (fun d => stored M.d3 m' (sGrad d)) c = true := by
    rw [acts_iff]
    have n5 : (P.nbvar : ℝ) ≤ 5 := by
      rw [h.ready.nv]; cases M.d3 <;> norm_num [hydroVars]
    have n0 : (0 : ℝ) < P.nbvar := by
      rw [h.ready.nv]; cases M.d3 <;> norm_num [hydroVars]
    have n2 : 2 < P.nbvar := by
      rw [h.ready.nv]; cases M.d3 <;> decide
    have cx : 1 / 10000000000 < slopeChange P.nbvar (newSlope M.d3 S T .x (stored M.d3 m' sAvg c)
        (stored M.d3 m' (sGrad .x) c) (stored M.d3 m' sAvg (c.down .x)) (stored M.d3 m' sAvg (c.up .x)))
        (rawSlope M.d3 S .x (stored M.d3 m' sAvg c) (stored M.d3 m' (sGrad .x) c)) := by
      rw [slopeChange_eq, lt_div_iff₀ n0]
      refine lt_of_lt_of_le ?_ (single_le_sum (f := fun iv => |part (newSlope M.d3 S T .x
        (stored M.d3 m' sAvg c) (stored M.d3 m' (sGrad .x) c) (stored M.d3 m' sAvg (c.down .x))
        (stored M.d3 m' sAvg (c.up .x))) iv -
        part (rawSlope M.d3 S .x (stored M.d3 m' sAvg c) (stored M.d3 m' (sGrad .x) c)) iv|)
        (fun _ _ => abs_nonneg _) (mem_range.2 n2))
      have n2' : 2 < hydroVars M.d3 := by rw [← h.ready.nv]; exact n2
      rw [hn .x hx 2 n2', rawSlope_eq S .x _ (stored_w _ _ _), sa c hb, sg .x hx c hb, if_pos rfl,
        still_charac _ hγ]
      show _ < |0 - κ * s|
      rw [zero_sub, abs_neg, abs_of_nonneg (by nlinarith)]
      nlinarith
    have cy := slopeChange_nonneg P.nbvar (newSlope M.d3 S T .y (stored M.d3 m' sAvg c)
        (stored M.d3 m' (sGrad .y) c) (stored M.d3 m' sAvg (c.down .y)) (stored M.d3 m' sAvg (c.up .y)))
        (rawSlope M.d3 S .y (stored M.d3 m' sAvg c) (stored M.d3 m' (sGrad .y) c))
    have cz := slopeChange_nonneg P.nbvar (newSlope M.d3 S T .z (stored M.d3 m' sAvg c)
        (stored M.d3 m' (sGrad .z) c) (stored M.d3 m' sAvg (c.down .z)) (stored M.d3 m' sAvg (c.up .z)))
        (rawSlope M.d3 S .z (stored M.d3 m' sAvg c) (stored M.d3 m' (sGrad .z) c))
    split_ifs <;> linarith
  rw [limited_value hM h hA r hb hp hv, limitVals, ho, act, Bool.and_self, if_pos rfl, comp_part, sa c hb,
    hM.sp, linearValue_eq]
  have zx : cellSlope M S T (stored M.d3 m' sAvg) (fun d => stored M.d3 m' (sGrad d)) .x c = HState.zero :=
    cons_zero (hn .x hx)
  have zy : cellSlope M S T (stored M.d3 m' sAvg) (fun d => stored M.d3 m' (sGrad d)) .y c = HState.zero :=
    cons_zero (hn .y hy)
  rw [zx, zy, comp_part, comp_part, part_zero]
  split_ifs with h3
  · rw [show cellSlope M S T (stored M.d3 m' sAvg) (fun d => stored M.d3 m' (sGrad d)) .z c = HState.zero
      from cons_zero (hn .z (.inl h3)), part_zero]
    ring
  · ring

/-- **C91** (violated): limiting changes the total mass and energy.  In a gas at rest whose density has the same
slope `s` in every cell, at least the threshold, every total is multiplied by `excess N` per direction. -/
theorem C91_not_conserved (hM : ExactScheme M) (hN : 2 ≤ M.N) (h : Setup M P B) (hA : solArray ti A)
    (r : Runs (limiting M S P Real.pi T A) m m') (hγ : S.gamma0 ≠ 1) {ρ s E : ℝ} (hρ : S.smallr ≤ ρ)
    (hρ0 : 0 < ρ) (hT : T ≤ s) (hs : 1 / 1000000000 ≤ s)
    (hu : ∀ c p iv, P.box M.d3 c → IsSolPt M.d3 M.N p → iv < hydroVars M.d3 →
      valsOf M m A c p iv = ramp M.N ρ s E p iv) {iv : ℕ} (hv : iv < hydroVars M.d3) :
    content M.d3 M.N P (valsOf M m' A) iv =
      excess M.N ^ dims M.d3 * content M.d3 M.N P (valsOf M m A) iv := by
  have h0 : 0 < M.N := hM.orders.1
  set κ := excess M.N ^ dims M.d3 with hκ
  unfold content
  have step : ∀ c, P.box M.d3 c → P.inner M.d3 c → (cellMean M.d3 M.N fun p => valsOf M m' A c p iv) =
      κ * cellMean M.d3 M.N fun p => valsOf M m A c p iv := by
    intro c hb hc
    have lin : LinearIn M.d3 M.N (fun p => valsOf M m' A c p iv) (part (still (κ * ρ) (κ * E)) iv) fun _ => 0 := by
      intro p hp
      simp only []
      rw [limited_ramp hM hN h hA r hγ hρ hρ0 hT hs hu hb (offBorder_inner h.gw hc) hp hv, ← hκ]
      simp
    rw [lin.mean h0, cellMean_congr fun p hp => hu c p iv hb hp hv,
      (ramp_linear M.d3 M.N ρ s E iv).mean h0]
    unfold part still
    split_ifs <;> simp
  have := interiorSum_lin M.d3 P (fun c => cellMean M.d3 M.N fun p => valsOf M m A c p iv) (fun _ => 0) κ 0
  simp only [zero_mul, add_zero] at this
  rw [← this]
  refine interiorSum_congr fun i j k hi hj hk => ?_
  exact step _ (cell_inner h hi hj hk).1 (cell_inner h hi hj hk).2

/-- **C91** (violated): in a box with at least one cell the total mass grows. -/
theorem C91_mass_grows (hM : ExactScheme M) (hN : 2 ≤ M.N) (h : Setup M P B) (hA : solArray ti A)
    (r : Runs (limiting M S P Real.pi T A) m m') (hγ : S.gamma0 ≠ 1) {ρ s E : ℝ} (hρ : S.smallr ≤ ρ)
    (hρ0 : 0 < ρ) (hT : T ≤ s) (hs : 1 / 1000000000 ≤ s)
    (hu : ∀ c p iv, P.box M.d3 c → IsSolPt M.d3 M.N p → iv < hydroVars M.d3 →
      valsOf M m A c p iv = ramp M.N ρ s E p iv) :
    content M.d3 M.N P (valsOf M m A) 0 < content M.d3 M.N P (valsOf M m' A) 0 := by
  have h0 : 0 < M.N := hM.orders.1
  have hv : 0 < hydroVars M.d3 := by cases M.d3 <;> decide
  rw [C91_not_conserved hM hN h hA r hγ hρ hρ0 hT hs hu hv]
  have k1 := one_lt_excess_pow M.d3 h0
  have pos : 0 < content M.d3 M.N P (valsOf M m A) 0 := by
    have e : content M.d3 M.N P (valsOf M m A) 0 = interiorSum M.d3 P fun _ => ρ := by
      refine interiorSum_congr fun i j k hi hj hk => ?_
      have hc := cell_inner h hi hj hk
      rw [cellMean_congr fun p hp => hu _ p 0 hc.1 hp hv, (ramp_linear M.d3 M.N ρ s E 0).mean h0, if_pos rfl]
    rw [e]
    unfold interiorSum
    have hg := h.gw
    have hx := h.nx
    have hy := h.ny
    have hz := h.nz
    have d0 : 0 < depth M.d3 P := by
      unfold depth
      split_ifs with h3
      · have := hz h3; omega
      · exact one_pos
    refine sum_pos (fun i _ => sum_pos (fun j _ => sum_pos (fun k _ => hρ0) ?_) ?_) ?_
    · exact ⟨0, mem_range.2 d0⟩
    · exact ⟨0, mem_range.2 (by omega)⟩
    · exact ⟨0, mem_range.2 (by omega)⟩
  nlinarith

/-- **C91** (violated): the speed used for the characteristic variables is not the speed of sound; for a gas of
density 1, pressure 1 at rest with `γ = 7/5` it is `7/2`, whose square is not `γ p / ρ`. -/
theorem C91_wrong_speed (d3 : Bool) :
    limiterSpeed d3 (⟨1, 1 / (7 / 5 - 1), 0, 0, 0⟩ : HState ℝ) (7 / 5) = 7 / 2 ∧
      limiterSpeed d3 (⟨1, 1 / (7 / 5 - 1), 0, 0, 0⟩ : HState ℝ) (7 / 5) ^ 2 ≠ 7 / 5 * 1 / 1 := by
  rw [limiterSpeed_eq]
  norm_num

/-! ### Examples -/

open Classical in
/-- Memory holding the ramp of density `2 + (x - 1/2)` in every cell. -/
noncomputable def rampMem (M : Scheme ℝ) : Addr → ℝ := fun a =>
  if h : ∃ c p iv, IsSolPt M.d3 M.N p ∧ a = M.sol sU c p iv then
    ramp M.N 2 1 1 h.choose_spec.choose h.choose_spec.choose_spec.choose
  else 0

theorem rampMem_vals (M : Scheme ℝ) {c : Cell} {p : Pt} {iv : ℕ} (hp : IsSolPt M.d3 M.N p) :
    valsOf M (rampMem M) sU c p iv = ramp M.N 2 1 1 p iv := by
  have h : ∃ c' p' iv', IsSolPt M.d3 M.N p' ∧ M.sol sU c p iv = M.sol sU c' p' iv' := ⟨c, p, iv, hp, rfl⟩
  show rampMem M (M.sol sU c p iv) = _
  rw [rampMem, dif_pos h]
  obtain ⟨h1, h2⟩ := h.choose_spec.choose_spec.choose_spec
  have := sol_inj hp h1 h2
  exact congrArg₂ _ this.2.2.1.symm this.2.2.2.symm

/-- In the channel of order three, with the density between 3/2 and 5/2 everywhere and threshold 1/2, the loops run
and the mass grows. -/
example (d3 : Bool) : ∃ m', Runs (limiting (exampleScheme d3) hllcSettings (channel d3) Real.pi (1 / 2) sU)
      (rampMem (exampleScheme d3)) m' ∧
    (∀ c p, IsSolPt d3 3 p → 0 < valsOf (exampleScheme d3) (rampMem (exampleScheme d3)) sU c p 0) ∧
    content d3 3 (channel d3) (valsOf (exampleScheme d3) (rampMem (exampleScheme d3)) sU) 0 <
      content d3 3 (channel d3) (valsOf (exampleScheme d3) m' sU) 0 := by
  obtain ⟨m', y, -⟩ := C91_safe (S := hllcSettings) (channel_setup d3) (ti := .ssprk2) (A := sU) (.inl rfl)
    Real.pi (1 / 2) (rampMem (exampleScheme d3))
  refine ⟨m', y.run, fun c p hp => ?_, ?_⟩
  · rw [rampMem_vals (exampleScheme d3) hp, ramp, if_pos rfl]
    have := solPts_pos hp.1
    show 0 < 2 + 1 * (solPts 3 p.x - 1 / 2)
    linarith
  · exact C91_mass_grows (M := exampleScheme d3) (exampleScheme_exact d3) (by norm_num [exampleScheme])
      (channel_setup d3) (ti := .ssprk2) (.inl rfl) y.run (by norm_num [hllcSettings, exampleSettings])
      (by norm_num [hllcSettings, exampleSettings]) (by norm_num : (0 : ℝ) < 2) (s := 1) (E := 1) (by norm_num)
      (by norm_num) fun c p iv _ hp _ => rampMem_vals _ hp

/-- The three kinds of limited slope. -/
example : IsLimitedSlope 1 (1 / 2) 5 (-3) (1 / 2) ∧ IsLimitedSlope 1 4 2 3 2 ∧ IsLimitedSlope 1 (-4) (-2) (-3) (-2) ∧
    IsLimitedSlope 1 4 (-2) 3 0 := by
  refine ⟨.inl ?_, .inr (.inl ?_), .inr (.inr (.inl ?_)), .inr (.inr (.inr ?_))⟩ <;> norm_num [abs_of_pos, abs_of_neg]

end Verif.Sdm
