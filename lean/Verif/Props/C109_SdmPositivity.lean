import Verif.Lemmas.SdmPositivityReal
import Verif.Props.C91_SdmLimiter

/-!
# C109: positivity preservation in the spectral difference solver

`Runs [positivity M S P big A] m m'`: the loop launched to restore positive density and pressure takes memory `m`
to `m'`; `stored M.d3 m sAvg c`: the average state stored for cell `c`, towards which values are pulled.
`Runs (preserving M S P Real.pi big A) m m'`: the same with the loop that computes the averages before it.
`fluxGas … d p j`: state at flux point `j` of the line in direction `d` through point `p` of the cell, where fluxes
are evaluated.  `big`: the largest number, where the search for the least density starts.
-/

namespace Verif.Sdm

open Verif Spec ROps Finset

section any
variable {α : Type} [ROps α] {M : Scheme α} {S : Settings α} {P : Grid} {B : Sides}

/-- **C109**: for every order, grid and state the loops access only allocated entries, are free of data races,
terminate, and their combined result does not depend on the schedule; nothing but the solution and the averages
changes. -/
theorem C109_safe (h : Setup M P B) {ti : Mood.TimeInt} {A : ℕ} (hA : solArray ti A) (pi big : α) (m : Addr → α) :
    ∃ m', YieldsAll (avgDom M.d3 M.N P ti) (preserving M S P pi big A) m m' ∧
      ∀ a, a.arr ≠ A → a.arr ≠ sAvg → m' a = m a := by
  obtain ⟨m', y, -, -, f⟩ := preserving_yields (S := S) h.ready hA pi big m
  exact ⟨m', y, f⟩

end any

variable {M : Scheme ℝ} {S : Settings ℝ} {P : Grid} {B : Sides} {ti : Mood.TimeInt} {A : ℕ} {big : ℝ}
  {m m' : Addr → ℝ}

theorem positivity_value (h : Setup M P B) (hA : solArray ti A) (r : Runs [positivity M S P big A] m m') {c : Cell}
    (hb : P.box M.d3 c) {p : Pt} (hp : IsSolPt M.d3 M.N p) {iv : ℕ} (hv : iv < hydroVars M.d3) :
    valsOf M m' A c p iv = posVals S big M (stored M.d3 m sAvg) (valsOf M m A) c p iv := by
  obtain ⟨m', y, e, -⟩ := positivity_yields (S := S) (ti := ti) h.ready hA big m
  obtain rfl := (YieldsAll.cons y (.nil _)).unique r
  refine (e c p iv hb hp (by rw [h.ready.nv]; exact hv)).trans (posVals_congr ?_ p iv)
  exact stored_eq h.ready fun iv _ => rfl

theorem fluxValue_congr {d3 : Bool} {N : ℕ} {u u' : Vals ℝ} {c : Cell} {d : Dir} {p : Pt} {j : ℕ}
    (hl : IsFluxLoc d3 N d p j) {iv : ℕ} (h : ∀ p, IsSolPt d3 N p → u c p iv = u' c p iv) :
    fluxValue N u c d p j iv = fluxValue N u' c d p j iv := by
  unfold fluxValue lineValue
  rw [interpolate_congr fun k hk => h _ (solPt_set hl.1 hl.2.1 hk)]

theorem fluxGas_congr {d3 : Bool} {N : ℕ} {u u' : Vals ℝ} {c : Cell} {d : Dir} {p : Pt} {j : ℕ}
    (hl : IsFluxLoc d3 N d p j) (h : ∀ p iv, IsSolPt d3 N p → iv < hydroVars d3 → u c p iv = u' c p iv) :
    fluxGas d3 N u c d p j = fluxGas d3 N u' c d p j := by
  have e : ∀ iv, iv < hydroVars d3 → fluxValue N u c d p j iv = fluxValue N u' c d p j iv :=
    fun iv hv => fluxValue_congr hl fun p hp => h p iv hp hv
  unfold fluxGas
  cases d3
  · simp only [e 0 (by decide), e 1 (by decide), e 2 (by decide), e 3 (by decide), Bool.false_eq_true, if_false]
  · simp only [e 0 (by decide), e 1 (by decide), e 2 (by decide), e 3 (by decide), e 4 (by decide)]

/-- The state after the loop at a flux point lies between the average and the state after the first step. -/
theorem positivity_gas (hM : ExactScheme M) (h : Setup M P B) (hA : solArray ti A)
    (r : Runs [positivity M S P big A] m m') {c : Cell} (hb : P.box M.d3 c) {d : Dir} {p : Pt} {j : ℕ}
    (hl : IsFluxLoc M.d3 M.N d p j) :
    let q := stored M.d3 m sAvg
    let u := densVals S big M q (valsOf M m A)
    fluxGas M.d3 M.N (valsOf M m' A) c d p j =
      between (q c) (fluxGas M.d3 M.N u c d p j) (theta2Val M S (q c) u c) := by
  intro q u
  rw [fluxGas_congr (u' := posVals S big M q (valsOf M m A)) hl fun p iv hp hv => positivity_value h hA r hb hp hv]
  exact fluxGas_blend hM S u c (stored_w m sAvg c) d p j

/-! ### Positive density and pressure -/

/-- Density after the first step. -/
theorem dens_floor (hM : ExactScheme M) {q : Cell → HState ℝ} {u : Vals ℝ} {c : Cell} (hs : S.smallr ≤ (q c).d)
    (hlow : ∃ d p j, IsFluxLoc M.d3 M.N d p j ∧ (fluxGas M.d3 M.N u c d p j).d < (q c).d) {L : ℝ} (hL : L ≤ big)
    (hmin : ∀ d p j, IsFluxLoc M.d3 M.N d p j → L ≤ (fluxGas M.d3 M.N u c d p j).d) {d : Dir} {p : Pt} {j : ℕ}
    (hl : IsFluxLoc M.d3 M.N d p j) :
    S.smallr - ((q c).d - L) / 10000000000000 ≤ (fluxGas M.d3 M.N (densVals S big M q u) c d p j).d ∧ L < (q c).d := by
  have h1 := le_minVal hM (u := u) (c := c) hL hmin
  have h2 : minVal M big u c < (q c).d := by
    obtain ⟨d, p, j, hl, hlt⟩ := hlow
    exact (minVal_le hM big u c hl).trans_lt hlt
  have h3 := theta1_floor hs h2 (minVal_le hM big u c hl)
  refine ⟨?_, h1.trans_lt h2⟩
  show _ ≤ fluxValue M.N (densVals S big M q u) c d p j 0
  rw [fluxValue_dens hM]
  linarith

/-- **C109**: where the average density is at least `smallr`, afterwards the density at every flux point of the
cell is at least `smallr`, up to `1e-13` times the distance between the average and the least density before. -/
theorem C109_density (hM : ExactScheme M) (h : Setup M P B) (hA : solArray ti A)
    (r : Runs [positivity M S P big A] m m') {c : Cell} (hb : P.box M.d3 c)
    (hs : S.smallr ≤ (stored M.d3 m sAvg c).d)
    (hlow : ∃ d p j, IsFluxLoc M.d3 M.N d p j ∧
      (fluxGas M.d3 M.N (valsOf M m A) c d p j).d < (stored M.d3 m sAvg c).d) {L : ℝ} (hL : L ≤ big)
    (hmin : ∀ d p j, IsFluxLoc M.d3 M.N d p j → L ≤ (fluxGas M.d3 M.N (valsOf M m A) c d p j).d) {d : Dir} {p : Pt}
    {j : ℕ} (hl : IsFluxLoc M.d3 M.N d p j) :
    S.smallr - ((stored M.d3 m sAvg c).d - L) / 10000000000000 ≤ (fluxGas M.d3 M.N (valsOf M m' A) c d p j).d := by
  obtain ⟨h1, h2⟩ := dens_floor hM (q := stored M.d3 m sAvg) hs hlow hL hmin hl
  rw [positivity_gas hM h hA r hb hl]
  set u := densVals S big M (stored M.d3 m sAvg) (valsOf M m A)
  obtain ⟨t0, t1, -, -⟩ := theta2Val_spec hM S (stored M.d3 m sAvg c) u c
  set t := theta2Val M S (stored M.d3 m sAvg c) u c
  show _ ≤ (stored M.d3 m sAvg c).d + t * ((fluxGas M.d3 M.N u c d p j).d - (stored M.d3 m sAvg c).d)
  set a := (stored M.d3 m sAvg c).d
  set b := (fluxGas M.d3 M.N u c d p j).d
  have h3 : S.smallr - (a - L) / 10000000000000 ≤ a := by
    have : 0 ≤ (a - L) / 10000000000000 := div_nonneg (by linarith) (by norm_num)
    linarith
  nlinarith [mul_nonneg t0 (sub_nonneg.2 h1), mul_nonneg (sub_nonneg.2 t1) (sub_nonneg.2 h3)]

theorem between_rescale (a b : HState ℝ) {s t : ℝ} (ht : t ≠ 0) :
    between a b s = between a (between a b t) (s / t) := by
  unfold between
  have : ∀ x y : ℝ, x + s / t * (x + t * (y - x) - x) = x + s * (y - x) := by
    intro x y; field_simp; ring
  simp only [this]

/-- **C109**: where moreover the pressure of the average state exceeds `1e-13`, afterwards density is positive and
pressure at least `1e-13` at every flux point of the cell, whatever they were before. -/
theorem C109_pressure (hM : ExactScheme M) (h : Setup M P B) (hA : solArray ti A)
    (r : Runs [positivity M S P big A] m m') {c : Cell} (hb : P.box M.d3 c) (hγ : 1 < S.gamma0) (hs0 : 0 < S.smallr)
    (hs : S.smallr ≤ (stored M.d3 m sAvg c).d)
    (hp : 1 / 10000000000000 < gasPressure S.gamma0 (stored M.d3 m sAvg c))
    (hlow : ∃ d p j, IsFluxLoc M.d3 M.N d p j ∧
      (fluxGas M.d3 M.N (valsOf M m A) c d p j).d < (stored M.d3 m sAvg c).d) {L : ℝ} (hL : L ≤ big)
    (hmin : ∀ d p j, IsFluxLoc M.d3 M.N d p j → L ≤ (fluxGas M.d3 M.N (valsOf M m A) c d p j).d)
    (hfar : (stored M.d3 m sAvg c).d - L < 10000000000000 * S.smallr) {d : Dir} {p : Pt} {j : ℕ}
    (hl : IsFluxLoc M.d3 M.N d p j) :
    0 < (fluxGas M.d3 M.N (valsOf M m' A) c d p j).d ∧
      1 / 10000000000000 ≤ gasPressure S.gamma0 (fluxGas M.d3 M.N (valsOf M m' A) c d p j) := by
  obtain ⟨h1, h2⟩ := dens_floor hM (q := stored M.d3 m sAvg) hs hlow hL hmin hl
  rw [positivity_gas hM h hA r hb hl]
  set u := densVals S big M (stored M.d3 m sAvg) (valsOf M m A)
  obtain ⟨t0, t1, t2, -⟩ := theta2Val_spec hM S (stored M.d3 m sAvg c) u c
  set t := theta2Val M S (stored M.d3 m sAvg c) u c
  have wa := stored_w (d3 := M.d3) m sAvg c
  set a := stored M.d3 m sAvg c with ha
  have wb : M.d3 = false → (fluxGas M.d3 M.N u c d p j).w = 0 := fun e => fluxGas_w e
  have t2 := t2 d p j hl
  set b := fluxGas M.d3 M.N u c d p j
  have da : 0 < a.d := by linarith
  have db : 0 < b.d := by
    have : (a.d - L) / 10000000000000 < S.smallr := by rw [div_lt_iff₀ (by norm_num)]; linarith
    linarith
  have dt := between_d_pos da db t0 t1
  refine ⟨dt, (cone_iff hγ dt).1 ?_⟩
  have ca := ((cone_pos_iff hγ da).2 hp).le
  by_cases hb' : gasPressure S.gamma0 b < 1 / 1000000000000
  · have t2 := t2 hb'
    obtain ⟨r0, r1, rc⟩ := pressureRoot_spec hγ da db wa wb hp
    rcases eq_or_lt_of_le r0 with e | r0
    · have : t = 0 := le_antisymm (e ▸ t2) t0
      rw [this]
      have : between a b 0 = a := by unfold between; simp
      rw [this]; exact ca
    · rw [between_rescale a b r0.ne']
      refine cone_between da (between_d_pos da db r0.le r1.le) ca rc (div_nonneg t0 r0.le) ?_
      rw [div_le_one r0]; exact t2
  · refine cone_between da db ca ((cone_iff hγ db).2 ?_) t0 t1
    have := not_lt.1 hb'
    linarith

/-! ### What is kept -/

/-- **C109**: a cell with density at least `smallr` and pressure at least `1e-12` at its flux points keeps all
its values. -/
theorem C109_kept (hM : ExactScheme M) (h : Setup M P B) (hA : solArray ti A)
    (r : Runs [positivity M S P big A] m m') {c : Cell} (hb : P.box M.d3 c) (hbig : S.smallr ≤ big)
    (hlow : ∃ d p j, IsFluxLoc M.d3 M.N d p j ∧
      (fluxGas M.d3 M.N (valsOf M m A) c d p j).d < (stored M.d3 m sAvg c).d)
    (hd : ∀ d p j, IsFluxLoc M.d3 M.N d p j → S.smallr ≤ (fluxGas M.d3 M.N (valsOf M m A) c d p j).d)
    (hp : ∀ d p j, IsFluxLoc M.d3 M.N d p j →
      1 / 1000000000000 ≤ gasPressure S.gamma0 (fluxGas M.d3 M.N (valsOf M m A) c d p j)) {p : Pt}
    (hs : IsSolPt M.d3 M.N p) {iv : ℕ} (hv : iv < hydroVars M.d3) : valsOf M m' A c p iv = valsOf M m A c p iv := by
  have h1 := le_minVal hM (u := valsOf M m A) (c := c) hbig hd
  have h2 : minVal M big (valsOf M m A) c < (stored M.d3 m sAvg c).d := by
    obtain ⟨d, p, j, hl, hlt⟩ := hlow
    exact (minVal_le hM big _ c hl).trans_lt hlt
  have hu : ∀ p iv, densVals S big M (stored M.d3 m sAvg) (valsOf M m A) c p iv = valsOf M m A c p iv := by
    intro p iv
    rw [densVals_eq, theta1_one h2 h1, pullTo_one]
    split_ifs <;> rfl
  rw [positivity_value h hA r hb hs hv, posVals, blendVals_eq hM,
    (theta2Val_spec hM S (stored M.d3 m sAvg c) _ c).2.2.2 fun d p j hl => ?_, pullTo_one, hu]
  rw [fluxGas_congr hl fun p iv _ _ => hu p iv]
  exact hp d p j hl

theorem cellMean_pull (d3 : Bool) {N : ℕ} (hN : 0 < N) (t a : ℝ) (f : Pt → ℝ) :
    cellMean d3 N (fun p => pullTo t a (f p)) = t * cellMean d3 N f + (1 - t) * a := by
  have := cellMean_lin d3 N f (fun _ => a) t (1 - t)
  rw [cellMean_const _ hN] at this
  rw [← this]
  refine cellMean_congr fun p _ => ?_
  unfold pullTo
  ring

/-- The mean over a cell afterwards. -/
theorem mean_after (hM : ExactScheme M) (h : Setup M P B) (hA : solArray ti A)
    (r : Runs [positivity M S P big A] m m') {c : Cell} (hb : P.box M.d3 c) {iv : ℕ} (hv : iv < hydroVars M.d3) :
    let q := stored M.d3 m sAvg
    let u := valsOf M m A
    let t1 := theta1 S (q c).d (minVal M big u c)
    let t2 := theta2Val M S (q c) (densVals S big M q u) c
    let t := if iv = 0 then t2 * t1 else t2
    cellMean M.d3 M.N (fun p => valsOf M m' A c p iv) =
      t * cellMean M.d3 M.N (fun p => valsOf M m A c p iv) + (1 - t) * m (c.at sAvg iv) := by
  intro q u t1 t2 t
  have hN : 0 < M.N := hM.orders.1
  rw [cellMean_congr fun p hp => positivity_value h hA r hb hp hv]
  simp only [posVals, blendVals_eq hM]
  rw [cellMean_pull _ hN, stored_part m sAvg c hv]
  simp only [densVals_eq]
  by_cases h0 : iv = 0
  · subst h0
    simp only [if_true]
    rw [cellMean_pull _ hN]
    show t2 * (t1 * _ + (1 - t1) * (stored M.d3 m sAvg c).d) + (1 - t2) * m (c.at sAvg 0) = _
    rw [show (stored M.d3 m sAvg c).d = m (c.at sAvg 0) from rfl, show t = t2 * t1 from if_pos rfl]
    ring
  · simp only [h0, if_false, t]
    rfl

/-- **C109**: the mean of every variable over a cell moves towards the stored average, by a fraction between zero
and one, the same for all variables but the density. -/
theorem C109_mean (hM : ExactScheme M) (h : Setup M P B) (hA : solArray ti A)
    (r : Runs [positivity M S P big A] m m') {c : Cell} (hb : P.box M.d3 c)
    (hs : S.smallr ≤ (stored M.d3 m sAvg c).d)
    (hlow : ∃ d p j, IsFluxLoc M.d3 M.N d p j ∧
      (fluxGas M.d3 M.N (valsOf M m A) c d p j).d < (stored M.d3 m sAvg c).d) :
    ∃ t₀ t₁ : ℝ, 0 ≤ t₀ ∧ t₀ ≤ t₁ ∧ t₁ ≤ 1 ∧ ∀ iv, iv < hydroVars M.d3 →
      let t := if iv = 0 then t₀ else t₁
      cellMean M.d3 M.N (fun p => valsOf M m' A c p iv) =
        t * cellMean M.d3 M.N (fun p => valsOf M m A c p iv) + (1 - t) * m (c.at sAvg iv) := by
  have h2 : minVal M big (valsOf M m A) c < (stored M.d3 m sAvg c).d := by
    obtain ⟨d, p, j, hl, hlt⟩ := hlow
    exact (minVal_le hM big _ c hl).trans_lt hlt
  obtain ⟨k0, k1, -, -⟩ := theta2Val_spec hM S (stored M.d3 m sAvg c)
    (densVals S big M (stored M.d3 m sAvg) (valsOf M m A)) c
  have l0 := theta1_nonneg hs h2
  have l1 := theta1_le_one S (stored M.d3 m sAvg c).d (minVal M big (valsOf M m A) c)
  exact ⟨_, _, mul_nonneg k0 l0, mul_le_of_le_one_right k0 l1, k1, fun iv hv => mean_after hM h hA r hb hv⟩

/-! ### With the averages computed before -/

/-- The two loops one after the other. -/
theorem preserving_split (hM : ExactScheme M) (h : Setup M P B) (hA : solArray ti A)
    (r : Runs (preserving M S P Real.pi big A) m m') :
    ∃ m₁, Runs [positivity M S P big A] m₁ m' ∧ valsOf M m₁ A = valsOf M m A ∧
      (∀ c, stored M.d3 m₁ sAvg c = stored M.d3 m' sAvg c) ∧ ∀ c iv, P.box M.d3 c → iv < hydroVars M.d3 →
        m₁ (c.at sAvg iv) = floorAverage S iv
          (excess M.N ^ dims M.d3 * cellAngleMean M.d3 M.N fun p => valsOf M m A c p iv) := by
  have hlt := hA.small
  obtain ⟨m1, y1, e1, f1⟩ := averageU_yields (S := S) h.ready hA Real.pi m
  obtain ⟨m2, y2, -, f2⟩ := positivity_yields (S := S) (ti := ti) h.ready hA big m1
  obtain rfl := (YieldsAll.cons y1 (.cons y2 (.nil _))).unique r
  have hne : sAvg ≠ A := by simp only [sAvg]; omega
  refine ⟨m1, (YieldsAll.cons y2 (.nil _)).run, ?_, fun c => ?_, fun c iv hc hv => ?_⟩
  · funext c p iv
    exact f1 _ (show A ≠ sAvg from fun e => hne e.symm)
  · unfold stored
    have : ∀ iv, m' (c.at sAvg iv) = m1 (c.at sAvg iv) := fun iv => f2 _ hne
    simp only [this]
  · rw [e1 c iv hc (by rw [h.ready.nv]; exact hv), avgVal_eq hM]

/-- **C109**: the average stored for a cell is the weighted mean of its values times `excess N` per direction; that
of the density is kept at or above `smallr`. -/
theorem C109_average (hM : ExactScheme M) (h : Setup M P B) (hA : solArray ti A)
    (r : Runs (preserving M S P Real.pi big A) m m') {c : Cell} (hc : P.box M.d3 c) {iv : ℕ}
    (hv : iv < hydroVars M.d3) :
    m' (c.at sAvg iv) =
      let a := excess M.N ^ dims M.d3 * cellAngleMean M.d3 M.N fun p => valsOf M m A c p iv
      if iv = 0 then max a S.smallr else a := by
  obtain ⟨m₁, -, -, e2, e3⟩ := preserving_split hM h hA r
  rw [← stored_part m' sAvg c hv, ← e2, stored_part m₁ sAvg c hv, e3 c iv hc hv]
  simp only [floorAverage]
  by_cases h0 : iv = ID
  · rw [if_pos h0, if_pos (show iv = 0 from h0)]
    simp only [show ∀ x y : ℝ, gtb x y = decide (y < x) from fun _ _ => rfl, decide_eq_true_eq]
    split_ifs with hs
    · rw [max_eq_left hs.le]
    · rw [max_eq_right (not_lt.1 hs)]
  · rw [if_neg h0, if_neg (show ¬ iv = 0 from h0)]

/-- **C109**: with the averages computed before, density is positive and pressure at least `1e-13` at every flux
point of a cell whose average has pressure above `1e-13` and whose density is not everywhere the same. -/
theorem C109_positive (hM : ExactScheme M) (h : Setup M P B) (hA : solArray ti A)
    (r : Runs (preserving M S P Real.pi big A) m m') {c : Cell} (hb : P.box M.d3 c) (hγ : 1 < S.gamma0)
    (hs0 : 0 < S.smallr) (hp : 1 / 10000000000000 < gasPressure S.gamma0 (stored M.d3 m' sAvg c))
    (hlow : ∃ d p j, IsFluxLoc M.d3 M.N d p j ∧
      (fluxGas M.d3 M.N (valsOf M m A) c d p j).d < (stored M.d3 m' sAvg c).d) {L : ℝ} (hL : L ≤ big)
    (hmin : ∀ d p j, IsFluxLoc M.d3 M.N d p j → L ≤ (fluxGas M.d3 M.N (valsOf M m A) c d p j).d)
    (hfar : (stored M.d3 m' sAvg c).d - L < 10000000000000 * S.smallr) {d : Dir} {p : Pt} {j : ℕ}
    (hl : IsFluxLoc M.d3 M.N d p j) :
    0 < (fluxGas M.d3 M.N (valsOf M m' A) c d p j).d ∧
      1 / 10000000000000 ≤ gasPressure S.gamma0 (fluxGas M.d3 M.N (valsOf M m' A) c d p j) := by
  obtain ⟨m₁, r₁, e1, e2, -⟩ := preserving_split hM h hA r
  have hs : S.smallr ≤ (stored M.d3 m' sAvg c).d := by
    show S.smallr ≤ m' (c.at sAvg 0)
    rw [C109_average hM h hA r hb (by cases M.d3 <;> decide)]
    exact le_max_right _ _
  rw [← e1] at hlow hmin
  rw [← e2] at hp hlow hfar hs
  exact C109_pressure hM h hA r₁ hb hγ hs0 hs hp hlow hL hmin hfar hl

/-- **C109** (violated): restoring positivity does not keep the mass of a cell.  Where the density is linear in
position with positive mean and not positive at some flux point, the mean density grows. -/
theorem C109_not_conserved (hM : ExactScheme M) (h : Setup M P B) (hA : solArray ti A)
    (r : Runs (preserving M S P Real.pi big A) m m') {c : Cell} (hb : P.box M.d3 c) {ρ : ℝ} {s : Dir → ℝ}
    (hρ0 : 0 < ρ) (hρ : S.smallr ≤ ρ) (hu : LinearIn M.d3 M.N (fun p => valsOf M m A c p 0) ρ s)
    (hneg : ∃ d p j, IsFluxLoc M.d3 M.N d p j ∧ (fluxGas M.d3 M.N (valsOf M m A) c d p j).d ≤ 0)
    (hfar : excess M.N ^ dims M.d3 * ρ < 10000000000000 * S.smallr) :
    cellMean M.d3 M.N (fun p => valsOf M m A c p 0) = ρ ∧ ρ < cellMean M.d3 M.N fun p => valsOf M m' A c p 0 := by
  have h0 : 0 < M.N := hM.orders.1
  have hv : 0 < hydroVars M.d3 := by cases M.d3 <;> decide
  have k1 := one_lt_excess_pow M.d3 h0
  set κ := excess M.N ^ dims M.d3
  have hm := hu.mean h0
  refine ⟨hm, ?_⟩
  obtain ⟨m₁, r₁, e1, e2, e3⟩ := preserving_split hM h hA r
  have hκ : ρ < κ * ρ := by nlinarith
  have ha : m₁ (c.at sAvg 0) = κ * ρ := by
    rw [show m₁ (c.at sAvg 0) = m' (c.at sAvg 0) from congrArg HState.d (e2 c),
      C109_average hM h hA r hb hv, hu.angle_mean h0]
    simp only [if_true]
    exact max_eq_left (by linarith)
  rw [mean_after hM h hA r₁ hb hv, e1, hm, ha]
  simp only [if_true]
  have hq : (stored M.d3 m₁ sAvg c).d = κ * ρ := ha
  have hr : minVal M big (valsOf M m A) c ≤ 0 := by
    obtain ⟨d, p, j, hl, hn⟩ := hneg
    exact (minVal_le hM big _ c hl).trans hn
  rw [hq]
  obtain ⟨u0, u1, -, -⟩ := theta2Val_spec hM S (stored M.d3 m₁ sAvg c)
    (densVals S big M (stored M.d3 m₁ sAvg) (valsOf M m A)) c
  have v0 := theta1_nonneg (S := S) (a := κ * ρ) (r := minVal M big (valsOf M m A) c) (by linarith) (by linarith)
  have v1 := theta1_lt_one (S := S) (a := κ * ρ) (r := minVal M big (valsOf M m A) c) (by linarith) hr (by linarith) hfar
  set x := theta2Val M S (stored M.d3 m₁ sAvg c) (densVals S big M (stored M.d3 m₁ sAvg) (valsOf M m A)) c
  set y := theta1 S (κ * ρ) (minVal M big (valsOf M m A) c)
  have : x * y < 1 := lt_of_le_of_lt (mul_le_of_le_one_left v0 u1) v1
  nlinarith [mul_pos (sub_pos.2 this) (sub_pos.2 hκ)]

/-! ### A ramp -/

open Polynomial in
theorem lineValue_linear {N : ℕ} (hN : 1 < N) (a s x : ℝ) :
    lineValue N (fun k => a + s * (solPts N k - 1 / 2)) x = a + s * (x - 1 / 2) := by
  have e : ∀ k, k < N → a + s * (solPts N k - 1 / 2) = (C (a - s / 2) + C s * X).eval (solPts N k) := by
    intro k _
    simp
    ring
  unfold lineValue
  rw [interpolate_congr e, ← Lagrange.eq_interpolate (solPts_injOn N)]
  · simp only [eval_add, eval_C, eval_mul, eval_X]
    ring
  · rw [card_range]
    refine lt_of_le_of_lt (degree_add_le _ _) (max_lt (lt_of_le_of_lt degree_C_le ?_) ?_)
    · exact_mod_cast (by omega : 0 < N)
    · exact lt_of_le_of_lt (degree_C_mul_X_le _) (by exact_mod_cast hN)

theorem ramp_flux_x {d3 : Bool} {N : ℕ} (hN : 1 < N) {u : Vals ℝ} {c : Cell} {ρ s E : ℝ}
    (hu : ∀ p iv, IsSolPt d3 N p → iv < hydroVars d3 → u c p iv = ramp N ρ s E p iv) {p : Pt} {j : ℕ}
    (hl : IsFluxLoc d3 N .x p j) :
    (fluxGas d3 N u c .x p j).d = ρ + s * (fluxPts N j - 1 / 2) := by
  have hv : 0 < hydroVars d3 := by cases d3 <;> decide
  show fluxValue N u c .x p j 0 = _
  rw [fluxValue_congr (u' := fun _ p iv => ramp N ρ s E p iv) hl fun p hp => hu p 0 hp hv]
  exact lineValue_linear hN ρ s _

/-- **C109** (violated): if every cell holds the same ramp of the density, negative at one end, the total mass
grows. -/
theorem C109_mass_grows (hM : ExactScheme M) (hN : 2 ≤ M.N) (h : Setup M P B) (hA : solArray ti A)
    (r : Runs (preserving M S P Real.pi big A) m m') {ρ s E : ℝ} (hρ0 : 0 < ρ) (hρ : S.smallr ≤ ρ) (hs : 2 * ρ ≤ s)
    (hfar : excess M.N ^ dims M.d3 * ρ < 10000000000000 * S.smallr)
    (hu : ∀ c p iv, P.box M.d3 c → IsSolPt M.d3 M.N p → iv < hydroVars M.d3 →
      valsOf M m A c p iv = ramp M.N ρ s E p iv) :
    content M.d3 M.N P (valsOf M m A) 0 < content M.d3 M.N P (valsOf M m' A) 0 := by
  have h0 : 0 < M.N := hM.orders.1
  have hv : 0 < hydroVars M.d3 := by cases M.d3 <;> decide
  have key : ∀ c, P.box M.d3 c → cellMean M.d3 M.N (fun p => valsOf M m A c p 0) <
      cellMean M.d3 M.N fun p => valsOf M m' A c p 0 := by
    intro c hc
    have hl : LinearIn M.d3 M.N (fun p => valsOf M m A c p 0) ρ fun d => if d = .x ∧ (0 : ℕ) = 0 then s else 0 :=
      fun p hp => (hu c p 0 hc hp hv).trans (ramp_linear M.d3 M.N ρ s E 0 p hp)
    have loc : IsFluxLoc M.d3 M.N .x ⟨0, 0, 0⟩ 0 :=
      ⟨.inr (by decide), ⟨h0, h0, by simp only []; split_ifs <;> omega⟩, Nat.zero_le _⟩
    have neg : (fluxGas M.d3 M.N (valsOf M m A) c .x ⟨0, 0, 0⟩ 0).d ≤ 0 := by
      rw [ramp_flux_x (by omega) (fun p iv hp hv => hu c p iv hc hp hv) loc, fluxPts_zero hM.orders]
      linarith
    obtain ⟨e1, e2⟩ := C109_not_conserved hM h hA r hc hρ0 hρ hl ⟨.x, _, 0, loc, neg⟩ hfar
    rw [e1]; exact e2
  unfold content interiorSum
  have hg := h.gw
  have hx := h.nx
  have hy := h.ny
  have hz := h.nz
  have d0 : 0 < depth M.d3 P := by
    unfold depth
    split_ifs with h3
    · have := hz h3; omega
    · exact one_pos
  refine sum_lt_sum_of_nonempty ⟨0, mem_range.2 (by omega)⟩ fun i hi =>
    sum_lt_sum_of_nonempty ⟨0, mem_range.2 (by omega)⟩ fun j hj =>
    sum_lt_sum_of_nonempty ⟨0, mem_range.2 d0⟩ fun k hk => ?_
  exact key _ (cell_inner h (mem_range.1 hi) (mem_range.1 hj) (mem_range.1 hk)).1

/-! ### Examples -/

theorem ramp_flux_other {d3 : Bool} {N : ℕ} (hN : 0 < N) {u : Vals ℝ} {c : Cell} {ρ s E : ℝ}
    (hu : ∀ p iv, IsSolPt d3 N p → iv < hydroVars d3 → u c p iv = ramp N ρ s E p iv) {d : Dir} (hd : d ≠ .x) {p : Pt}
    {j : ℕ} (hl : IsFluxLoc d3 N d p j) : (fluxGas d3 N u c d p j).d = ρ + s * (solPts N p.x - 1 / 2) := by
  have hv : 0 < hydroVars d3 := by cases d3 <;> decide
  show fluxValue N u c d p j 0 = _
  rw [fluxValue_congr (u' := fun _ p iv => ramp N ρ s E p iv) hl fun p hp => hu p 0 hp hv]
  have e : (fun k => ramp N ρ s E (p.set d k) 0) = fun _ => ρ + s * (solPts N p.x - 1 / 2) := by
    funext k
    rw [ramp, if_pos rfl]
    cases d
    · exact absurd rfl hd
    · rfl
    · rfl
  unfold fluxValue
  rw [e]
  exact lineValue_const hN _ _

/-- Densities of a ramp. -/
theorem ramp_flux_range {d3 : Bool} {N : ℕ} (hN : Orders N) (h2 : 1 < N) {u : Vals ℝ} {c : Cell} {ρ s E : ℝ}
    (hs : 0 ≤ s) (hu : ∀ p iv, IsSolPt d3 N p → iv < hydroVars d3 → u c p iv = ramp N ρ s E p iv) {d : Dir} {p : Pt}
    {j : ℕ} (hl : IsFluxLoc d3 N d p j) :
    ρ - s / 2 ≤ (fluxGas d3 N u c d p j).d ∧ (fluxGas d3 N u c d p j).d ≤ ρ + s / 2 := by
  by_cases hd : d = .x
  · subst hd
    rw [ramp_flux_x h2 hu hl]
    have h0 : 0 ≤ fluxPts N j := by
      rcases Nat.eq_zero_or_pos j with e | e
      · rw [e, fluxPts_zero hN]
      · have := fluxPts_lt hN e (by have := hl.2.2; omega)
        rw [fluxPts_zero hN] at this
        exact this.le
    have h1 : fluxPts N j ≤ 1 := by
      rcases eq_or_lt_of_le hl.2.2 with e | e
      · rw [e, fluxPts_last hN]
      · have := fluxPts_lt hN e (by omega)
        rw [fluxPts_last hN] at this
        exact this.le
    constructor <;> nlinarith
  · rw [ramp_flux_other hN.1 hu hd hl]
    have h0 := (solPts_pos hl.2.1.1).le
    have h1 := (solPts_lt_one hl.2.1.1).le
    constructor <;> nlinarith

/-- Energy and momentum of a ramp. -/
theorem ramp_flux_rest {d3 : Bool} {N : ℕ} (hN : 0 < N) {u : Vals ℝ} {c : Cell} {ρ s E : ℝ}
    (hu : ∀ p iv, IsSolPt d3 N p → iv < hydroVars d3 → u c p iv = ramp N ρ s E p iv) {d : Dir} {p : Pt} {j : ℕ}
    (hl : IsFluxLoc d3 N d p j) (γ : ℝ) : gasPressure γ (fluxGas d3 N u c d p j) = (γ - 1) * E := by
  have e : ∀ iv, 0 < iv → iv < hydroVars d3 → fluxValue N u c d p j iv = if iv = 1 then E else 0 := by
    intro iv h0 hv
    rw [fluxValue_congr (u' := fun _ p iv => ramp N ρ s E p iv) hl fun p hp => hu p iv hp hv]
    unfold fluxValue
    simp only [ramp, if_neg h0.ne']
    exact lineValue_const hN _ _
  unfold gasPressure fluxGas
  cases d3
  · simp [e 1 one_pos (by decide), e 2 two_pos (by decide), e 3 three_pos (by decide)]
  · simp [e 1 one_pos (by decide), e 2 two_pos (by decide), e 3 three_pos (by decide), e 4 four_pos (by decide)]

open Classical in
/-- Memory in which every cell holds a ramp. -/
noncomputable def rampWith (M : Scheme ℝ) (ρ s E : ℝ) : Addr → ℝ := fun a =>
  if h : ∃ c p iv, IsSolPt M.d3 M.N p ∧ a = M.sol sU c p iv then
    ramp M.N ρ s E h.choose_spec.choose h.choose_spec.choose_spec.choose
  else 0

theorem rampWith_vals (M : Scheme ℝ) (ρ s E : ℝ) {c : Cell} {p : Pt} {iv : ℕ} (hp : IsSolPt M.d3 M.N p) :
    valsOf M (rampWith M ρ s E) sU c p iv = ramp M.N ρ s E p iv := by
  have h : ∃ c' p' iv', IsSolPt M.d3 M.N p' ∧ M.sol sU c p iv = M.sol sU c' p' iv' := ⟨c, p, iv, hp, rfl⟩
  show rampWith M ρ s E (M.sol sU c p iv) = _
  rw [rampWith, dif_pos h]
  obtain ⟨h1, h2⟩ := h.choose_spec.choose_spec.choose_spec
  have := sol_inj hp h1 h2
  exact congrArg₂ _ this.2.2.1.symm this.2.2.2.symm

theorem excess_three (d3 : Bool) : 1 < excess 3 ^ dims d3 ∧ excess 3 ^ dims d3 < 3 := by
  refine ⟨one_lt_excess_pow d3 (by norm_num), ?_⟩
  have e : excess 3 = Real.pi / 3 := by
    have h2 : Real.pi / (2 * (3 : ℕ)) = Real.pi / 6 := by norm_num
    rw [excess, h2, Real.sin_pi_div_six]
    ring
  have h1 : Real.pi / 3 ≤ 4 / 3 := by linarith [Real.pi_le_four]
  have h0 : 0 ≤ Real.pi / 3 := by positivity
  have h3 : (Real.pi / 3) ^ dims d3 ≤ (4 / 3) ^ dims d3 := pow_le_pow_left₀ h0 h1 _
  rw [e]
  refine h3.trans_lt ?_
  cases d3 <;> norm_num [dims]

theorem ramp_average (hM : ExactScheme M) (h : Setup M P B) (hA : solArray ti A)
    (r : Runs (preserving M S P Real.pi big A) m m') {c : Cell} (hb : P.box M.d3 c) {ρ s E : ℝ} (hρ0 : 0 < ρ)
    (hρ : S.smallr ≤ ρ)
    (hu : ∀ p iv, IsSolPt M.d3 M.N p → iv < hydroVars M.d3 → valsOf M m A c p iv = ramp M.N ρ s E p iv) :
    stored M.d3 m' sAvg c = still (excess M.N ^ dims M.d3 * ρ) (excess M.N ^ dims M.d3 * E) := by
  have h0 : 0 < M.N := hM.orders.1
  have k1 := one_lt_excess_pow M.d3 h0
  set κ := excess M.N ^ dims M.d3 with hκ
  rw [still_eq M.d3]
  symm
  refine stored_eq h.ready fun iv hv => ?_
  rw [h.ready.nv] at hv
  rw [C109_average hM h hA r hb hv, cellAngleMean_congr fun p hp => hu p iv hp hv,
    (ramp_linear M.d3 M.N ρ s E iv).angle_mean h0]
  simp only [← hκ]
  split_ifs
  · rw [max_eq_left]; nlinarith
  · rfl
  · ring

/-- A density from -1 to 3 in every cell: positive afterwards at every flux point, with more mass. -/
example (d3 : Bool) : ∃ m', Runs (preserving (exampleScheme d3) hllcSettings (channel d3) Real.pi (10 ^ 100) sU)
      (rampWith (exampleScheme d3) 1 4 10) m' ∧
    (∀ c, (channel d3).box d3 c → ∀ d p j, IsFluxLoc d3 3 d p j →
      0 < (fluxGas d3 3 (valsOf (exampleScheme d3) m' sU) c d p j).d) ∧
    (∀ c, (channel d3).box d3 c → ∃ d p j, IsFluxLoc d3 3 d p j ∧
      (fluxGas d3 3 (valsOf (exampleScheme d3) (rampWith (exampleScheme d3) 1 4 10) sU) c d p j).d = -1) ∧
    content d3 3 (channel d3) (valsOf (exampleScheme d3) (rampWith (exampleScheme d3) 1 4 10) sU) 0 <
      content d3 3 (channel d3) (valsOf (exampleScheme d3) m' sU) 0 := by
  have hM := exampleScheme_exact d3
  have hA : solArray .ssprk2 sU := .inl rfl
  obtain ⟨m', y, -⟩ := C109_safe (S := hllcSettings) (channel_setup d3) hA Real.pi (10 ^ 100)
    (rampWith (exampleScheme d3) 1 4 10)
  have hu : ∀ c p iv, IsSolPt d3 3 p → iv < hydroVars d3 →
      valsOf (exampleScheme d3) (rampWith (exampleScheme d3) 1 4 10) sU c p iv = ramp 3 1 4 10 p iv :=
    fun c p iv hp _ => rampWith_vals (exampleScheme d3) 1 4 10 hp
  have ex := excess_three d3
  have ho : Orders 3 := hM.orders
  have hsr : hllcSettings.smallr = 1 / 10 ^ 8 := rfl
  have hga : hllcSettings.gamma0 = 7 / 5 := rfl
  have loc : IsFluxLoc d3 3 .x ⟨0, 0, 0⟩ 0 :=
    ⟨.inr (by decide), ⟨by decide, by decide, by cases d3 <;> decide⟩, Nat.zero_le _⟩
  have at0 : ∀ c, (fluxGas d3 3 (valsOf (exampleScheme d3) (rampWith (exampleScheme d3) 1 4 10) sU) c .x
      ⟨0, 0, 0⟩ 0).d = -1 := by
    intro c
    rw [ramp_flux_x (by decide) (hu c) loc, fluxPts_zero ho]
    norm_num
  refine ⟨m', y.run, fun c hc d p j hl => ?_, fun c _ => ⟨.x, _, 0, loc, at0 c⟩, ?_⟩
  · have av := ramp_average (M := exampleScheme d3) hM (channel_setup d3) hA y.run hc (ρ := 1) (s := 4) (E := 10)
      one_pos (by rw [hsr]; norm_num) (hu c)
    refine (C109_positive (M := exampleScheme d3) hM (channel_setup d3) hA y.run hc (by rw [hga]; norm_num)
      (by rw [hsr]; norm_num) ?_ ⟨.x, _, 0, loc, ?_⟩ (L := -1) (by norm_num) (fun d p j hl => ?_) ?_ hl).1
    · rw [av, hga]
      show _ < (7 / 5 - 1 : ℝ) * (excess 3 ^ dims d3 * 10 - (0 ^ 2 + 0 ^ 2 + 0 ^ 2) / _)
      norm_num
      linarith [ex.1]
    · rw [av]
      refine (at0 c).trans_lt ?_
      show _ < excess 3 ^ dims d3 * 1
      linarith [ex.1]
    · have := (ramp_flux_range ho (by decide) (by norm_num) (hu c) hl).1
      norm_num at this
      exact this
    · rw [av, hsr]
      show excess 3 ^ dims d3 * 1 - -1 < _
      norm_num
      linarith [ex.2]
  · refine C109_mass_grows (M := exampleScheme d3) hM (by norm_num [exampleScheme]) (channel_setup d3) hA y.run
      one_pos (by rw [hsr]; norm_num) (s := 4) (E := 10) (by norm_num) ?_ fun c p iv _ hp hv => hu c p iv hp hv
    rw [hsr]
    show excess 3 ^ dims d3 * 1 < _
    norm_num
    linarith [ex.2]

/-- A density from 3/2 to 5/2 is kept. -/
example (d3 : Bool) : ∃ m m', Runs [positivity (exampleScheme d3) hllcSettings (channel d3) (10 ^ 100) sU] m m' ∧
    (∀ c p iv, IsSolPt d3 3 p → valsOf (exampleScheme d3) m sU c p iv = ramp 3 2 1 1 p iv) ∧
    ∀ c, (channel d3).box d3 c → ∀ p iv, IsSolPt d3 3 p → iv < hydroVars d3 →
      valsOf (exampleScheme d3) m' sU c p iv = ramp 3 2 1 1 p iv := by
  have hM := exampleScheme_exact d3
  have hA : solArray .ssprk2 sU := .inl rfl
  obtain ⟨m', y, -⟩ := C109_safe (S := hllcSettings) (channel_setup d3) hA Real.pi (10 ^ 100)
    (rampWith (exampleScheme d3) 2 1 1)
  obtain ⟨m₁, r₁, e1, e2, -⟩ := preserving_split hM (channel_setup d3) hA y.run
  have hu : ∀ c p iv, IsSolPt d3 3 p → valsOf (exampleScheme d3) m₁ sU c p iv = ramp 3 2 1 1 p iv := by
    intro c p iv hp
    rw [e1]
    exact rampWith_vals (exampleScheme d3) 2 1 1 hp
  have ex := excess_three d3
  have ho : Orders 3 := hM.orders
  have hsr : hllcSettings.smallr = 1 / 10 ^ 8 := rfl
  have hga : hllcSettings.gamma0 = 7 / 5 := rfl
  have loc : IsFluxLoc d3 3 .x ⟨0, 0, 0⟩ 0 :=
    ⟨.inr (by decide), ⟨by decide, by decide, by cases d3 <;> decide⟩, Nat.zero_le _⟩
  refine ⟨m₁, m', r₁, hu, fun c hc p iv hp hv => ?_⟩
  refine (C109_kept (M := exampleScheme d3) hM (channel_setup d3) hA r₁ hc (by rw [hsr]; norm_num)
    ⟨.x, _, 0, loc, ?_⟩ (fun d p j hl => ?_) (fun d p j hl => ?_) hp hv).trans (hu c p iv hp)
  · have av := ramp_average (M := exampleScheme d3) hM (channel_setup d3) hA y.run hc (ρ := 2) (s := 1) (E := 1)
      two_pos (by rw [hsr]; norm_num) fun p iv hp _ => rampWith_vals (exampleScheme d3) 2 1 1 hp
    rw [e2, av]
    show _ < excess 3 ^ dims d3 * 2
    refine (ramp_flux_x (by decide) (fun p iv hp _ => hu c p iv hp) loc).trans_lt ?_
    rw [fluxPts_zero ho]
    linarith [ex.1]
  · have := (ramp_flux_range ho (by decide) (by norm_num) (fun p iv hp _ => hu c p iv hp) hl).1
    rw [hsr]
    refine le_trans ?_ this
    norm_num
  · rw [hga]
    refine le_trans ?_ (ramp_flux_rest (by decide) (fun p iv hp _ => hu c p iv hp) hl _).ge
    norm_num

end Verif.Sdm
