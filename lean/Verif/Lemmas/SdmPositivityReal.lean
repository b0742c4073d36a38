import Verif.Spec.SdmPositivity
import Verif.Lemmas.SdmPositivity
import Verif.Lemmas.SdmSlopes
import Verif.Lemmas.SdmUniform
import Verif.Lemmas.SdmWalls

/-! Helper lemmas: positivity preservation over the reals. -/

namespace Verif.Sdm

open Verif ROps Finset

theorem ltb_real (a b : ℝ) : (ltb a b = true) ↔ a < b := by
  rw [show ltb a b = decide (a < b) from rfl, decide_eq_true_eq]

theorem keepMin_real (a b : ℝ) : keepMin a b = min a b := by
  unfold keepMin
  by_cases h : a < b
  · rw [if_pos ((ltb_real a b).2 h), min_eq_left h.le]
  · rw [if_neg fun e => h ((ltb_real a b).1 e), min_eq_right (not_lt.1 h)]

/-! ### Flux points -/

/-- The flux points of a cell. -/
def fluxLocs (d3 : Bool) (N : ℕ) : List ((Dir × Pt) × ℕ) :=
  (cellLines d3 N).flatMap fun x => (List.range (N + 1)).map fun j => (x, j)

theorem foldl_locs {σ : Type} (d3 : Bool) (N : ℕ) (f : σ → (Dir × Pt) → ℕ → σ) (a : σ) :
    (cellLines d3 N).foldl (fun acc x => (List.range (N + 1)).foldl (fun r j => f r x j) acc) a =
      (fluxLocs d3 N).foldl (fun r y => f r y.1 y.2) a := by
  unfold fluxLocs
  rw [List.foldl_flatMap]
  simp only [List.foldl_map]

theorem mem_fluxLocs {d3 : Bool} {N : ℕ} {y : (Dir × Pt) × ℕ} :
    y ∈ fluxLocs d3 N ↔ y.1 ∈ cellLines d3 N ∧ y.2 < N + 1 := by
  obtain ⟨x, j⟩ := y
  simp only [fluxLocs, List.mem_flatMap, List.mem_map, List.mem_range, Prod.mk.injEq]
  constructor
  · rintro ⟨x', h, j', hj, rfl, rfl⟩; exact ⟨h, hj⟩
  · rintro ⟨h, hj⟩; exact ⟨x, h, j, hj, rfl, rfl⟩

theorem fluxLoc_of_mem {d3 : Bool} {N : ℕ} {y : (Dir × Pt) × ℕ} (h : y ∈ fluxLocs d3 N) :
    IsFluxLoc d3 N y.1.1 y.1.2 y.2 := by
  obtain ⟨h1, h2⟩ := mem_fluxLocs.1 h
  obtain ⟨h3, h4, -⟩ := mem_cellLines.1 h1
  exact ⟨h3, h4, by omega⟩

/-- Every flux point is visited. -/
theorem IsFluxLoc.mem {d3 : Bool} {N : ℕ} {d : Dir} {p : Pt} {j : ℕ} (h : IsFluxLoc d3 N d p j) :
    ((d, p.set d 0), j) ∈ fluxLocs d3 N := by
  obtain ⟨h1, h2, h3⟩ := h
  have hN : 0 < N := by have := h2.1; omega
  refine mem_fluxLocs.2 ⟨mem_cellLines.2 ⟨h1, solPt_set h1 h2 hN, get_set p d 0⟩, by simpa using by omega⟩

theorem fluxValue_base (N : ℕ) (u : Vals ℝ) (c : Cell) (d : Dir) (p : Pt) (j iv : ℕ) :
    fluxValue N u c d (p.set d 0) j iv = fluxValue N u c d p j iv := by
  unfold fluxValue
  simp only [set_set]

theorem fluxGas_base (d3 : Bool) (N : ℕ) (u : Vals ℝ) (c : Cell) (d : Dir) (p : Pt) (j : ℕ) :
    fluxGas d3 N u c d (p.set d 0) j = fluxGas d3 N u c d p j := by
  unfold fluxGas
  simp only [fluxValue_base]

theorem fluxStateOf_eq {M : Scheme ℝ} (hM : ExactScheme M) (u : Vals ℝ) (c : Cell) (x : Dir × Pt) (j : ℕ) :
    fluxStateOf M u c x j = fluxGas M.d3 M.N u c x.1 x.2 j := by
  unfold fluxStateOf lineState
  rw [hM.sp, hM.fp]
  simp only [sol2flux_line]
  cases h : M.d3 <;> simp [fluxGas, fluxValue, Mood.ofComps, ID, IP, IU, IV, IW, rops_lit]

/-- Values pulled to a constant. -/
theorem lineValue_pull {N : ℕ} (hN : 0 < N) (u : ℕ → ℝ) (t a x : ℝ) :
    lineValue N (fun k => pullTo t a (u k)) x = a + t * (lineValue N u x - a) := by
  have h1 := lineValue_const hN (a - t * a) x
  have h2 := lineValue_scale N u t x
  have h3 : lineValue N (fun k => pullTo t a (u k)) x =
      lineValue N (fun k => u k * t) x + lineValue N (fun _ => a - t * a) x := by
    unfold lineValue
    rw [← Polynomial.eval_add, ← map_add]
    congr 2
    funext k
    show t * (u k - a) + a = u k * t + (a - t * a)
    ring
  rw [h3, h1, h2]
  ring

/-! ### Least density -/

theorem minVal_eq {M : Scheme ℝ} (hM : ExactScheme M) (big : ℝ) (u : Vals ℝ) (c : Cell) :
    minVal M big u c = (fluxLocs M.d3 M.N).foldl
      (fun r y => min r (fluxValue M.N u c y.1.1 y.1.2 y.2 0)) big := by
  unfold minVal
  rw [foldl_locs M.d3 M.N (fun r x j => keepMin r
    (sol2fluxVector M.N M.sp M.fp (fun k => u c (x.2.set x.1 k) ID) j))]
  simp only [keepMin_real, hM.sp, hM.fp, sol2flux_line]
  rfl

theorem foldl_min_le {ι : Type} (L : List ι) (f : ι → ℝ) (a : ℝ) :
    L.foldl (fun r y => min r (f y)) a ≤ a ∧ ∀ y ∈ L, L.foldl (fun r y => min r (f y)) a ≤ f y := by
  induction L generalizing a with
  | nil => simp
  | cons i L ih =>
    obtain ⟨h1, h2⟩ := ih (min a (f i))
    refine ⟨h1.trans (min_le_left _ _), fun y hy => ?_⟩
    rcases List.mem_cons.1 hy with rfl | hy
    · exact h1.trans (min_le_right _ _)
    · exact h2 y hy

theorem le_foldl_min {ι : Type} (L : List ι) (f : ι → ℝ) (a b : ℝ) (ha : b ≤ a) (h : ∀ y ∈ L, b ≤ f y) :
    b ≤ L.foldl (fun r y => min r (f y)) a := by
  induction L generalizing a with
  | nil => exact ha
  | cons i L ih =>
    exact ih _ (le_min ha (h i (by simp))) fun y hy => h y (by simp [hy])

theorem minVal_le {M : Scheme ℝ} (hM : ExactScheme M) (big : ℝ) (u : Vals ℝ) (c : Cell) {d : Dir} {p : Pt}
    {j : ℕ} (h : IsFluxLoc M.d3 M.N d p j) : minVal M big u c ≤ fluxValue M.N u c d p j 0 := by
  rw [minVal_eq hM, ← fluxValue_base]
  exact (foldl_min_le _ (fun y => fluxValue M.N u c y.1.1 y.1.2 y.2 0) _).2 _ h.mem

theorem le_minVal {M : Scheme ℝ} (hM : ExactScheme M) {big : ℝ} {u : Vals ℝ} {c : Cell} {L : ℝ} (hb : L ≤ big)
    (h : ∀ d p j, IsFluxLoc M.d3 M.N d p j → L ≤ fluxValue M.N u c d p j 0) : L ≤ minVal M big u c := by
  rw [minVal_eq hM]
  exact le_foldl_min _ _ _ _ hb fun y hy => h _ _ _ (fluxLoc_of_mem hy)

/-! ### First factor -/

theorem theta1_eq (S : Settings ℝ) (a r : ℝ) :
    theta1 S a r = min ((a - S.smallr) / (a - r) + 1 / 10000000000000) 1 := by
  unfold theta1
  simp only [ltb_real, rops_lit]
  push_cast
  rcases lt_or_ge ((a - S.smallr) / (a - r) + 1 / 10000000000000) 1 with h | h
  · rw [if_pos h, min_eq_left h.le]
  · rw [if_neg (not_lt.2 h), min_eq_right h]

theorem theta1_nonneg {S : Settings ℝ} {a r : ℝ} (h1 : S.smallr ≤ a) (h2 : r < a) : 0 ≤ theta1 S a r := by
  rw [theta1_eq]
  refine le_min ?_ one_pos.le
  have : 0 ≤ (a - S.smallr) / (a - r) := div_nonneg (by linarith) (by linarith)
  linarith

theorem theta1_le_one (S : Settings ℝ) (a r : ℝ) : theta1 S a r ≤ 1 := by
  rw [theta1_eq]; exact min_le_right _ _

/-- The density at a point no lower than the least one. -/
theorem theta1_floor {S : Settings ℝ} {a r x : ℝ} (h1 : S.smallr ≤ a) (h2 : r < a) (hx : r ≤ x) :
    S.smallr - (a - r) / 10000000000000 ≤ a + theta1 S a r * (x - a) := by
  have h0 := theta1_nonneg h1 h2
  have hr : 0 < a - r := by linarith
  have h3 : theta1 S a r * (a - r) ≤ a - S.smallr + (a - r) / 10000000000000 := by
    have : theta1 S a r ≤ (a - S.smallr) / (a - r) + 1 / 10000000000000 := by
      rw [theta1_eq]; exact min_le_left _ _
    calc theta1 S a r * (a - r) ≤ ((a - S.smallr) / (a - r) + 1 / 10000000000000) * (a - r) :=
          mul_le_mul_of_nonneg_right this hr.le
      _ = _ := by field_simp
  have h4 : theta1 S a r * (r - a) ≤ theta1 S a r * (x - a) :=
    mul_le_mul_of_nonneg_left (by linarith) h0
  linarith [mul_sub (theta1 S a r) a r, mul_sub (theta1 S a r) r a]

theorem theta1_one {S : Settings ℝ} {a r : ℝ} (h2 : r < a) (h : S.smallr ≤ r) : theta1 S a r = 1 := by
  rw [theta1_eq]
  refine min_eq_right ?_
  have : 1 ≤ (a - S.smallr) / (a - r) := by
    rw [le_div_iff₀ (by linarith)]; linarith
  linarith

theorem theta1_lt_one {S : Settings ℝ} {a r : ℝ} (ha : 0 < a) (hr : r ≤ 0) (h1 : S.smallr ≤ a)
    (h : a < 10000000000000 * S.smallr) : theta1 S a r < 1 := by
  rw [theta1_eq]
  refine min_lt_of_left_lt ?_
  have h2 : (a - S.smallr) / (a - r) ≤ (a - S.smallr) / a :=
    div_le_div_of_nonneg_left (by linarith) ha (by linarith)
  have h3 : (a - S.smallr) / a < 1 - 1 / 10000000000000 := by
    rw [div_lt_iff₀ ha]; linarith
  linarith

/-! ### Second factor -/

theorem mdot_eq (d3 : Bool) (a b : HState ℝ) (h : d3 = false → b.w = 0) :
    mdot d3 a b = a.u * b.u + a.v * b.v + a.w * b.w := by
  unfold mdot
  cases d3
  · simp [h rfl]
  · simp

/-- Twice the density times the excess of the energy density over that of a gas of pressure `(γ-1) e`. -/
def cone (e : ℝ) (q : HState ℝ) : ℝ := 2 * q.d * (q.p - e) - (q.u ^ 2 + q.v ^ 2 + q.w ^ 2)

theorem cone_iff {γ P : ℝ} (hγ : 1 < γ) {q : HState ℝ} (hq : 0 < q.d) :
    0 ≤ cone (P / (γ - 1)) q ↔ P ≤ gasPressure γ q := by
  unfold cone gasPressure
  have h1 : 0 < γ - 1 := by linarith
  have h2 : gasPressure γ q - P = (γ - 1) / (2 * q.d) * cone (P / (γ - 1)) q := by
    unfold cone gasPressure
    field_simp
    ring
  have h3 : 0 < (γ - 1) / (2 * q.d) := by positivity
  unfold cone gasPressure at h2
  constructor
  · intro h
    have := mul_nonneg h3.le h
    linarith
  · intro h
    by_contra hn
    have := mul_neg_of_pos_of_neg h3 (not_le.1 hn)
    linarith

theorem cone_pos_iff {γ P : ℝ} (hγ : 1 < γ) {q : HState ℝ} (hq : 0 < q.d) :
    0 < cone (P / (γ - 1)) q ↔ P < gasPressure γ q := by
  have h1 : 0 < γ - 1 := by linarith
  have h2 : gasPressure γ q - P = (γ - 1) / (2 * q.d) * cone (P / (γ - 1)) q := by
    unfold cone gasPressure
    field_simp
    ring
  have h3 : 0 < (γ - 1) / (2 * q.d) := by positivity
  constructor
  · intro h
    have := mul_pos h3 h
    linarith
  · intro h
    by_contra hn
    have := mul_nonpos_of_nonneg_of_nonpos h3.le (not_lt.1 hn)
    linarith

theorem between_d_pos {a b : HState ℝ} (ha : 0 < a.d) (hb : 0 < b.d) {t : ℝ} (h0 : 0 ≤ t) (h1 : t ≤ 1) :
    0 < (between a b t).d := by
  show 0 < a.d + t * (b.d - a.d)
  rcases eq_or_lt_of_le h0 with rfl | h0
  · simpa using ha
  · nlinarith [mul_pos h0 hb, mul_nonneg (sub_nonneg.2 h1) ha.le]

/-- Gases of at least a given pressure form a convex set. -/
theorem cone_between {e : ℝ} {a b : HState ℝ} (ha : 0 < a.d) (hb : 0 < b.d) (ca : 0 ≤ cone e a)
    (cb : 0 ≤ cone e b) {t : ℝ} (h0 : 0 ≤ t) (h1 : t ≤ 1) : 0 ≤ cone e (between a b t) := by
  have hx : 0 ≤ 2 * a.d * (b.p - e) + 2 * b.d * (a.p - e) - 2 * (a.u * b.u + a.v * b.v + a.w * b.w) := by
    unfold cone at ca cb
    have hab : 0 < a.d * b.d := mul_pos ha hb
    refine (mul_nonneg_iff_of_pos_left hab).1 ?_
    have k1 := mul_nonneg (sq_nonneg a.d) cb
    have k2 := mul_nonneg (sq_nonneg b.d) ca
    nlinarith [sq_nonneg (a.d * b.u - b.d * a.u), sq_nonneg (a.d * b.v - b.d * a.v),
      sq_nonneg (a.d * b.w - b.d * a.w)]
  have e1 : cone e (between a b t) = (1 - t) ^ 2 * cone e a + t ^ 2 * cone e b + t * (1 - t) *
      (2 * a.d * (b.p - e) + 2 * b.d * (a.p - e) - 2 * (a.u * b.u + a.v * b.v + a.w * b.w)) := by
    unfold cone between
    ring
  rw [e1]
  have := mul_nonneg (mul_nonneg h0 (sub_nonneg.2 h1)) hx
  have := mul_nonneg (sq_nonneg (1 - t)) ca
  have := mul_nonneg (sq_nonneg t) cb
  linarith

theorem clampRoot_cases (s : ℝ) : clampRoot s = 0 ∨ (clampRoot s = s ∧ 0 < s ∧ s < 1) := by
  unfold clampRoot
  simp only [ltb_real, show ∀ x y : ℝ, gtb x y = decide (y < x) from fun _ _ => rfl, decide_eq_true_eq,
    rops_lit]
  push_cast
  by_cases h1 : s < 1
  · rw [if_pos h1]
    by_cases h0 : 0 < s
    · rw [if_pos h0]
      split_ifs
      · exact .inl rfl
      · exact .inr ⟨rfl, h0, h1⟩
    · rw [if_neg h0]
      split_ifs <;> exact .inl rfl
  · rw [if_neg h1, if_pos one_pos]
    rw [if_pos]
    · exact .inl rfl
    · show |(1 : ℝ) - 1| < _
      norm_num

theorem clampRoot_range (s : ℝ) : 0 ≤ clampRoot s ∧ clampRoot s < 1 := by
  rcases clampRoot_cases s with h | ⟨h, h0, h1⟩
  · rw [h]; exact ⟨le_rfl, one_pos⟩
  · rw [h]; exact ⟨h0.le, h1⟩

theorem pickRoot_cases (a b c : ℝ) : pickRoot a b c = 0 ∨
    ∃ D : ℝ, D ^ 2 = |(b / a) ^ 2 - 4 * (c / a)| ∧ pickRoot a b c = (-(b / a) - D) / 2 := by
  have hs := Real.sq_sqrt (abs_nonneg (b / a * (b / a) - 4 * (c / a)))
  unfold pickRoot
  simp only [rops_lit]
  push_cast
  split_ifs
  · right
    refine ⟨√|b / a * (b / a) - 4 * (c / a)|, by rw [hs, sq], ?_⟩
    show (1 / 2 : ℝ) * (-(b / a) - √|b / a * (b / a) - 4 * (c / a)|) = _
    ring
  · right
    refine ⟨-√|b / a * (b / a) - 4 * (c / a)|, by rw [neg_sq, hs, sq], ?_⟩
    show (1 / 2 : ℝ) * (-(b / a) + √|b / a * (b / a) - 4 * (c / a)|) = _
    ring
  · exact .inl rfl

/-- The fraction taken keeps the quadratic nonnegative if it is so at zero but not at one. -/
theorem root_nonneg {a b c : ℝ} (h0 : 0 < c) (h1 : a + b + c < 0) :
    0 ≤ a * clampRoot (pickRoot a b c) ^ 2 + b * clampRoot (pickRoot a b c) + c := by
  rcases clampRoot_cases (pickRoot a b c) with h | ⟨h, hp, -⟩
  · rw [h]; simp [h0.le]
  rw [h]
  rcases pickRoot_cases a b c with e | ⟨D, hD, e⟩
  · rw [e]; simp [h0.le]
  by_cases ha : a = 0
  · subst ha
    simp only [div_zero, ne_eq, OfNat.ofNat_ne_zero, not_false_eq_true, zero_pow, mul_zero, sub_zero,
      abs_zero] at hD
    have : D = 0 := by simpa using hD
    rw [e, this]
    simp [h0.le]
  · have hd : 0 ≤ (b / a) ^ 2 - 4 * (c / a) := by
      have : (b / a) ^ 2 - 4 * (c / a) = (b ^ 2 - 4 * a * c) / a ^ 2 := by field_simp
      rw [this]
      refine div_nonneg ?_ (sq_nonneg a)
      rcases lt_or_gt_of_ne ha with ha | ha
      · nlinarith [sq_nonneg b, mul_pos_of_neg_of_neg ha (neg_neg_of_pos h0)]
      · have : (a + c) ^ 2 ≤ b ^ 2 := by
          have h2 : a + c ≤ -b := by linarith
          nlinarith
        nlinarith [sq_nonneg (a - c)]
    rw [abs_of_nonneg hd] at hD
    have h2 : a * ((-(b / a) - D) / 2) ^ 2 + b * ((-(b / a) - D) / 2) + c = 0 := by
      have h3 : a * D ^ 2 = a * ((b / a) ^ 2 - 4 * (c / a)) := by rw [hD]
      have h4 : a * (b / a) = b := by field_simp
      have h5 : a * (c / a) = c := by field_simp
      have h6 : a * (b / a) ^ 2 = b * (b / a) := by rw [sq, ← mul_assoc, h4]
      have h7 : a * D ^ 2 = b * (b / a) - 4 * c := by rw [h3, mul_sub, h6]; linarith
      have h8 : a * ((-(b / a) - D) / 2) ^ 2 = (a * (b / a) ^ 2 + 2 * (a * (b / a)) * D + a * D ^ 2) / 4 := by
        ring
      rw [h8, h6, h4, h7]
      ring
    rw [e, h2]

/-- The quadratic of the code is the cone along the segment from the averages. -/
theorem pressureRoot_spec {d3 : Bool} {γ : ℝ} (hγ : 1 < γ) {a q : HState ℝ} (ha : 0 < a.d) (hq : 0 < q.d)
    (wa : d3 = false → a.w = 0) (wq : d3 = false → q.w = 0)
    (pa : 1 / 10000000000000 < gasPressure γ a) :
    0 ≤ pressureRoot d3 γ a q ∧ pressureRoot d3 γ a q < 1 ∧
      0 ≤ cone (1 / 10000000000000 / (γ - 1)) (between a q (pressureRoot d3 γ a q)) := by
  have hr := clampRoot_range
  have hg : γ - 1 ≠ 0 := by linarith
  set e : ℝ := 1 / 10000000000000 / (γ - 1) with he
  have key : ∃ A B C : ℝ, pressureRoot d3 γ a q = clampRoot (pickRoot A B C) ∧
      ∀ t, cone e (between a q t) = A * t ^ 2 + B * t + C := by
    refine ⟨2 * (q.d - a.d) * (q.p - a.p) - ((q.u - a.u) * (q.u - a.u) + (q.v - a.v) * (q.v - a.v) +
        (q.w - a.w) * (q.w - a.w)),
      2 * (q.d - a.d) * (a.p - e) + 2 * a.d * (q.p - a.p) -
        2 * (a.u * (q.u - a.u) + a.v * (q.v - a.v) + a.w * (q.w - a.w)),
      2 * a.d * a.p - (a.u * a.u + a.v * a.v + a.w * a.w) - 2 * (1 / 10000000000000) * a.d / (γ - 1), ?_, ?_⟩
    · unfold pressureRoot
      have w : d3 = false → q.w - a.w = 0 := fun h => by rw [wa h, wq h, sub_zero]
      simp only []
      rw [mdot_eq d3 _ _ w, mdot_eq d3 _ _ w, mdot_eq d3 _ _ wa]
      simp only [rops_lit, eps2, he]
      push_cast
      rfl
    · intro t
      unfold cone between
      have h2 : 2 * (1 / 10000000000000) * a.d / (γ - 1) = 2 * a.d * e := by rw [he]; ring
      rw [h2]
      ring
  obtain ⟨A, B, C, e1, e2⟩ := key
  refine ⟨e1 ▸ (hr _).1, e1 ▸ (hr _).2, ?_⟩
  have c0 : 0 < cone e a := (cone_pos_iff hγ ha).2 pa
  by_cases h1 : 0 ≤ cone e q
  · exact cone_between ha hq c0.le h1 (e1 ▸ (hr _).1) (e1 ▸ (hr _).2.le)
  · have b0 : between a q 0 = a := by unfold between; simp
    have b1 : between a q 1 = q := by unfold between; simp
    have k0 := e2 0
    have k1 := e2 1
    rw [b0] at k0
    rw [b1] at k1
    rw [e2, e1]
    refine root_nonneg ?_ ?_
    · rw [k0] at c0; linarith
    · rw [k1] at h1; linarith [not_le.1 h1]

theorem fluxPressure_eq {d3 : Bool} {q : HState ℝ} (w : d3 = false → q.w = 0) (γ : ℝ) :
    fluxPressure d3 γ q = gasPressure γ q := by
  unfold fluxPressure gasPressure
  rw [mdot_eq d3 _ _ w]
  simp only [rops_lit]
  push_cast
  congr 1
  congr 1
  rw [show q.u ^ 2 + q.v ^ 2 + q.w ^ 2 = q.u * q.u + q.v * q.v + q.w * q.w by ring, mul_comm (2 : ℝ),
    ← div_div]
  ring

theorem fluxGas_w {d3 : Bool} {N : ℕ} {u : Vals ℝ} {c : Cell} {d : Dir} {p : Pt} {j : ℕ} (h : d3 = false) :
    (fluxGas d3 N u c d p j).w = 0 := by
  subst h; simp [fluxGas]

theorem theta2Val_eq {M : Scheme ℝ} (hM : ExactScheme M) (S : Settings ℝ) (a : HState ℝ) (u : Vals ℝ)
    (c : Cell) : theta2Val M S a u c = (fluxLocs M.d3 M.N).foldl (fun t y =>
      if gasPressure S.gamma0 (fluxGas M.d3 M.N u c y.1.1 y.1.2 y.2) < 1 / 1000000000000 then
        min t (pressureRoot M.d3 S.gamma0 a (fluxGas M.d3 M.N u c y.1.1 y.1.2 y.2)) else t) 1 := by
  unfold theta2Val
  rw [foldl_locs M.d3 M.N (fun th x j => shrink M.d3 S.gamma0 a th (fluxStateOf M u c x j))]
  have : (lit 1 : ℝ) = 1 := by rw [rops_lit]; norm_num
  rw [this]
  refine foldl_congr (fun y _ t => ?_) 1
  unfold shrink
  rw [fluxStateOf_eq hM, fluxPressure_eq fun h => fluxGas_w h, rops_lit]
  simp only [ltb_real, keepMin_real]
  push_cast
  rfl

theorem foldl_minIf {ι : Type} (L : List ι) (P : ι → Prop) [DecidablePred P] (f : ι → ℝ) (a : ℝ) (ha : 0 ≤ a)
    (hf : ∀ y ∈ L, 0 ≤ f y) :
    0 ≤ L.foldl (fun r y => if P y then min r (f y) else r) a ∧
    L.foldl (fun r y => if P y then min r (f y) else r) a ≤ a ∧
    (∀ y ∈ L, P y → L.foldl (fun r y => if P y then min r (f y) else r) a ≤ f y) ∧
    ((∀ y ∈ L, ¬ P y) → L.foldl (fun r y => if P y then min r (f y) else r) a = a) := by
  induction L generalizing a with
  | nil => simp [ha]
  | cons i L ih =>
    have hi := hf i (by simp)
    have hL : ∀ y ∈ L, 0 ≤ f y := fun y hy => hf y (by simp [hy])
    rw [List.foldl_cons]
    by_cases h : P i
    · rw [if_pos h]
      obtain ⟨h1, h2, h3, -⟩ := ih (min a (f i)) (le_min ha hi) hL
      refine ⟨h1, h2.trans (min_le_left _ _), fun y hy hp => ?_, fun hn => absurd h (hn i (by simp))⟩
      rcases List.mem_cons.1 hy with rfl | hy
      · exact h2.trans (min_le_right _ _)
      · exact h3 y hy hp
    · rw [if_neg h]
      obtain ⟨h1, h2, h3, h4⟩ := ih a ha hL
      refine ⟨h1, h2, fun y hy hp => ?_, fun hn => h4 fun y hy => hn y (by simp [hy])⟩
      rcases List.mem_cons.1 hy with rfl | hy
      · exact absurd hp h
      · exact h3 y hy hp

theorem theta2Val_spec {M : Scheme ℝ} (hM : ExactScheme M) (S : Settings ℝ) (a : HState ℝ) (u : Vals ℝ)
    (c : Cell) : 0 ≤ theta2Val M S a u c ∧ theta2Val M S a u c ≤ 1 ∧
      (∀ d p j, IsFluxLoc M.d3 M.N d p j →
        gasPressure S.gamma0 (fluxGas M.d3 M.N u c d p j) < 1 / 1000000000000 →
        theta2Val M S a u c ≤ pressureRoot M.d3 S.gamma0 a (fluxGas M.d3 M.N u c d p j)) ∧
      ((∀ d p j, IsFluxLoc M.d3 M.N d p j →
        1 / 1000000000000 ≤ gasPressure S.gamma0 (fluxGas M.d3 M.N u c d p j)) →
        theta2Val M S a u c = 1) := by
  obtain ⟨h1, h2, h3, h4⟩ := foldl_minIf (fluxLocs M.d3 M.N)
    (fun y => gasPressure S.gamma0 (fluxGas M.d3 M.N u c y.1.1 y.1.2 y.2) < 1 / 1000000000000)
    (fun y => pressureRoot M.d3 S.gamma0 a (fluxGas M.d3 M.N u c y.1.1 y.1.2 y.2)) 1 one_pos.le
    fun y _ => (clampRoot_range _).1
  rw [theta2Val_eq hM]
  refine ⟨h1, h2, fun d p j h hp => ?_, fun h => h4 fun y hy => ?_⟩
  · have := h3 _ h.mem
    simp only [fluxGas_base] at this
    exact this hp
  · exact not_lt.2 (h _ _ _ (fluxLoc_of_mem hy))

/-! ### Values afterwards -/

theorem pullTo_one (a x : ℝ) : pullTo 1 a x = x := by unfold pullTo; ring

theorem densVals_eq {M : Scheme ℝ} (S : Settings ℝ) (big : ℝ) (ave : Cell → HState ℝ) (u : Vals ℝ) (c : Cell)
    (p : Pt) (iv : ℕ) : densVals S big M ave u c p iv =
      if iv = 0 then pullTo (theta1 S (ave c).d (minVal M big u c)) (ave c).d (u c p iv) else u c p iv := by
  unfold densVals
  simp only [ltb_real, rops_lit, Rat.cast_one]
  by_cases h0 : iv = 0
  · rw [if_pos h0]
    by_cases h : theta1 S (ave c).d (minVal M big u c) < 1
    · rw [if_pos ⟨h0, h⟩]
    · rw [if_neg fun e => h e.2]
      have : theta1 S (ave c).d (minVal M big u c) = 1 := le_antisymm (theta1_le_one _ _ _) (not_lt.1 h)
      rw [this, pullTo_one]
  · rw [if_neg fun e => h0 e.1, if_neg h0]

theorem blendVals_eq {M : Scheme ℝ} (hM : ExactScheme M) (S : Settings ℝ) (ave : Cell → HState ℝ) (u : Vals ℝ)
    (c : Cell) (p : Pt) (iv : ℕ) : blendVals S M ave u c p iv =
      pullTo (theta2Val M S (ave c) u c) (part (ave c) iv) (u c p iv) := by
  unfold blendVals
  simp only [ltb_real, rops_lit, Rat.cast_one]
  split_ifs with h
  · rfl
  · have : theta2Val M S (ave c) u c = 1 :=
      le_antisymm (theta2Val_spec hM S (ave c) u c).2.1 (not_lt.1 h)
    rw [this, pullTo_one]

theorem fluxValue_blend {M : Scheme ℝ} (hM : ExactScheme M) (S : Settings ℝ) (ave : Cell → HState ℝ)
    (u : Vals ℝ) (c : Cell) (d : Dir) (p : Pt) (j iv : ℕ) :
    fluxValue M.N (blendVals S M ave u) c d p j iv = part (ave c) iv +
      theta2Val M S (ave c) u c * (fluxValue M.N u c d p j iv - part (ave c) iv) := by
  unfold fluxValue
  simp only [blendVals_eq hM]
  exact lineValue_pull hM.orders.1 _ _ _ _

theorem fluxValue_dens {M : Scheme ℝ} (hM : ExactScheme M) (S : Settings ℝ) (big : ℝ) (ave : Cell → HState ℝ)
    (u : Vals ℝ) (c : Cell) (d : Dir) (p : Pt) (j : ℕ) :
    fluxValue M.N (densVals S big M ave u) c d p j 0 = (ave c).d +
      theta1 S (ave c).d (minVal M big u c) * (fluxValue M.N u c d p j 0 - (ave c).d) := by
  unfold fluxValue
  simp only [densVals_eq, if_true]
  exact lineValue_pull hM.orders.1 _ _ _ _

theorem fluxGas_blend {M : Scheme ℝ} (hM : ExactScheme M) (S : Settings ℝ) {ave : Cell → HState ℝ}
    (u : Vals ℝ) (c : Cell) (wa : M.d3 = false → (ave c).w = 0) (d : Dir) (p : Pt) (j : ℕ) :
    fluxGas M.d3 M.N (blendVals S M ave u) c d p j =
      between (ave c) (fluxGas M.d3 M.N u c d p j) (theta2Val M S (ave c) u c) := by
  unfold fluxGas between
  simp only [fluxValue_blend hM]
  congr 1
  cases h : M.d3
  · simp [wa h]
  · simp [part]

end Verif.Sdm
