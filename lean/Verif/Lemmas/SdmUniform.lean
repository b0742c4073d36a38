import Verif.Lemmas.SdmBalance

/-! Helper lemmas: uniform states, mirror images, steps over the reals. -/

namespace Verif.Sdm

open Verif Spec Polynomial Finset

theorem lineValue_const {N : ℕ} (hN : 0 < N) (a x : ℝ) : lineValue N (fun _ => a) x = a := by
  have : Lagrange.interpolate (range N) (solPts N) (fun _ => a) = C a := by
    symm
    refine Lagrange.eq_interpolate_of_eval_eq _ (solPts_injOn N) ?_ fun j _ => by simp
    rw [card_range]
    exact lt_of_le_of_lt degree_C_le (by exact_mod_cast hN)
  rw [lineValue, this, eval_C]

theorem lineSlope_congr {N : ℕ} {f g : ℕ → ℝ} (h : ∀ k, k < N + 1 → f k = g k) {x : ℝ} :
    lineSlope N f x = lineSlope N g x := by
  unfold lineSlope
  rw [Lagrange.interpolate_apply, Lagrange.interpolate_apply]
  congr 2
  exact sum_congr rfl fun k hk => by rw [h k (mem_range.1 hk)]

theorem lt_five {d3 : Bool} {iv : ℕ} (h : iv < hydroVars d3) : iv < 5 := by
  cases d3 <;> simp [hydroVars] at h <;> omega

theorem lineSlope_const {N : ℕ} (hN : Orders N) (a x : ℝ) : lineSlope N (fun _ => a) x = 0 := by
  have : Lagrange.interpolate (range (N + 1)) (fluxPts N) (fun _ => a) = C a := by
    symm
    refine Lagrange.eq_interpolate_of_eval_eq _ (fluxPts_injOn hN) ?_ fun j _ => by simp
    rw [card_range]
    exact lt_of_le_of_lt degree_C_le (by exact_mod_cast Nat.succ_pos N)
  rw [lineSlope, this, derivative_C, eval_zero]

/-- The polynomial through the values in reverse order is the mirror image. -/
theorem lineValue_mirror (N : ℕ) (u : ℕ → ℝ) (x : ℝ) :
    lineValue N (fun k => u (N - 1 - k)) x = lineValue N u (1 - x) := by
  set F := Lagrange.interpolate (range N) (solPts N) u with hF
  have hdeg : (F.comp (1 - X)).degree < (range N).card := by
    have h1 : F.degree < (range N).card := Lagrange.degree_interpolate_lt u (solPts_injOn N)
    have h2 : (1 - X : ℝ[X]).natDegree ≤ 1 := by
      refine (natDegree_sub_le _ _).trans ?_
      simp
    by_cases h0 : F.comp (1 - X) = 0
    · rw [h0, degree_zero]; exact WithBot.bot_lt_coe _
    have hF0 : F ≠ 0 := fun h => h0 (by rw [h]; simp)
    rw [← natDegree_lt_iff_degree_lt h0]
    rw [← natDegree_lt_iff_degree_lt hF0] at h1
    rw [natDegree_comp]
    calc F.natDegree * (1 - X : ℝ[X]).natDegree ≤ F.natDegree * 1 := Nat.mul_le_mul_left _ h2
      _ = F.natDegree := mul_one _
      _ < _ := h1
  have : F.comp (1 - X) = Lagrange.interpolate (range N) (solPts N) fun k => u (N - 1 - k) := by
    refine Lagrange.eq_interpolate_of_eval_eq _ (solPts_injOn N) hdeg fun j hj => ?_
    have hj' := mem_range.1 hj
    have e : (1 : ℝ) - solPts N j = solPts N (N - 1 - j) := by
      have := solution_points_symmetric hj'
      linarith
    rw [eval_comp, eval_sub, eval_one, eval_X, e]
    exact Lagrange.eval_interpolate_at_node u (solPts_injOn N) (mem_range.2 (by omega))
  rw [lineValue, ← this, eval_comp, eval_sub, eval_one, eval_X]
  rfl

theorem eulerFlux_swap {d3 : Bool} {γ : ℝ} {d : Dir} (hd : d3 = true ∨ d ≠ .z) (r : HState ℝ) :
    (eulerFlux d3 γ (r.swap d)).swap d = fluxAlong d3 γ d r := by
  cases d <;> cases d3 <;> (try exact absurd rfl (hd.resolve_left (by decide))) <;>
    ext <;> simp only [eulerFlux, HState.swap, fluxAlong, Dir.pick, energy, if_true, if_false, reduceCtorEq,
      Bool.false_eq_true] <;> ring

/-- The Riemann solver between equal states. -/
theorem faceFlux_self {d3 : Bool} {S : Settings ℝ} (hG : GasParams S) (hr : HasSolver d3 S) {d : Dir}
    (hd : d3 = true ∨ d ≠ .z) {q : HState ℝ} (hq : AboveFloors S (primOf d3 S.gamma0 q)) :
    faceFlux d3 S d q q = gasFlux d3 S.gamma0 d q := by
  set r := primOf d3 S.gamma0 q with hrdef
  have hq' : AboveFloors S (r.swap d) := by
    cases d <;> exact ⟨hq.d, hq.p⟩
  have : (riemann_hydro d3 S (r.swap d) (r.swap d)).isSome := by
    cases h3 : d3
    · exact (C29_hydro2d S _ _).2 hr.hlld
    · exact (C29_hydro3d S _ _).2 ⟨hr.hlld, hr.hll h3⟩
  obtain ⟨f, hf⟩ := Option.isSome_iff_exists.1 this
  have e := C27_dispatch d3 hG _ f hq' hf
  unfold faceFlux gasFlux
  rw [← hrdef, hf, Option.getD_some, e, eulerFlux_swap hd]

/-! ### Uniform states -/

theorem extendAlong_everywhere {d3 : Bool} {N : ℕ} {P : Grid} {B : Sides} {q : HState ℝ}
    (h : RestAtWalls d3 B q) {d : Dir} (hd : d3 = true ∨ d ≠ .z) {iv : ℕ} (hv : iv < 5) (c : Cell) (p : Pt)
    {u : Vals ℝ} (hu : ∀ c p, u c p iv = part q iv) :
    extendAlong N P B d u c p iv = part q iv := by
  unfold extendAlong crossPt
  rw [hu]
  split_ifs with hb hn
  · have hwall : lowBC B d = .reflecting ∨ highBC B d = .reflecting := by
      unfold behindWall at hb
      simp only [Bool.or_eq_true, Bool.and_eq_true, beq_iff_eq] at hb
      exact hb.imp And.right And.right
    have h0 := h d hd hwall
    have : part q iv = 0 := by
      have hn' : iv = 2 + axis d := by simpa [normalTo] using hn
      cases d <;> subst hn' <;> simpa [part, Dir.pick, axis] using h0
    rw [this, zero_mul]
  · rops; simp
  · rfl

theorem extended_everywhere {d3 : Bool} {N : ℕ} {P : Grid} {B : Sides} {q : HState ℝ}
    (h : RestAtWalls d3 B q) {iv : ℕ} (hv : iv < 5) (c : Cell) (p : Pt) :
    extended d3 N P B (everywhere q) c p iv = everywhere q c p iv := by
  have hx : ∀ c p, extendAlong N P B .x (everywhere q) c p iv = part q iv := fun c p =>
    extendAlong_everywhere h (.inr (by decide)) hv c p fun _ _ => rfl
  have hy : ∀ c p, extendAlong N P B .y (extendAlong N P B .x (everywhere q)) c p iv = part q iv :=
    fun c p => extendAlong_everywhere h (.inr (by decide)) hv c p hx
  unfold extended
  cases d3
  · exact hy c p
  · exact extendAlong_everywhere h (.inl rfl) hv c p hy

section
variable {M : Scheme ℝ} {P : Grid} {B : Sides} {S : Settings ℝ}

theorem pointState_everywhere {d3 : Bool} {N : ℕ} (hN : 0 < N) {q : HState ℝ} {r : ℝ} (hr : r ≤ q.d)
    (hw : d3 = false → q.w = 0) {d : Dir} {u : Vals ℝ} (hu : ∀ c p iv, iv < 5 → u c p iv = part q iv)
    (c : Cell) (p : Pt) : pointState d3 N r d u c p = q := by
  unfold pointState
  simp only [hu _ _ 0 (by norm_num), hu _ _ 1 (by norm_num), hu _ _ 2 (by norm_num), hu _ _ 3 (by norm_num),
    hu _ _ 4 (by norm_num), lineValue_const hN]
  cases d3
  · ext <;> simp [part, hr]
    exact (hw rfl).symm
  · ext <;> simp [part, hr]

theorem slope_everywhere (hM : ExactScheme M) (hG : GasParams S) (hr : HasSolver M.d3 S) {q : HState ℝ}
    (hq : Settled M.d3 S q) {d : Dir} (hd : M.d3 = true ∨ d ≠ .z) {u : Vals ℝ}
    (hu : ∀ c p iv, iv < 5 → u c p iv = part q iv) (c : Cell) (p : Pt) (iv : ℕ) :
    slopeOf M.d3 M.N S (eulerFluxOf M.d3 S) (riemannFlux M.d3 S HState.zero) u d c p iv = 0 := by
  have e : ∀ k, pointFlux M.N (eulerFluxOf M.d3 S d) (riemannFlux M.d3 S HState.zero d) d
      (pointState M.d3 M.N S.smallr d u) c (p.set d k) = gasFlux M.d3 S.gamma0 d q := by
    intro k
    have hs : ∀ c p, pointState M.d3 M.N S.smallr d u c p = q := fun c p =>
      pointState_everywhere (q := q) hM.orders.1 hq.floors.d hq.phys.w hu c p
    unfold pointFlux
    simp only [hs]
    rw [riemannFlux_eq hG.gamma hq.phys hq.phys, faceFlux_self hG hr hd hq.floors,
      eulerFluxOf_eq hd hG.gamma hq.phys]
    simp
  unfold slopeOf
  simp only [e]
  rw [lineSlope_const hM.orders, zero_div]

theorem rhs_everywhere (hM : ExactScheme M) (hs : Setup M P B) (hG : GasParams S) (hr : HasSolver M.d3 S)
    {q : HState ℝ} (hq : Settled M.d3 S q) (hw : RestAtWalls M.d3 B q)
    {junk : Dir → Cell → Pt → HState ℝ} :
    SameInside M.d3 M.N P (rhs M S P B junk (everywhere q)) fun _ _ _ => 0 := by
  intro c p iv hb hc hp hv
  rw [rhs_eq hM hs hr _ c p iv hb hc hp hv]
  have hu : ∀ c p iv, iv < 5 → extended M.d3 M.N P B (everywhere q) c p iv = part q iv :=
    fun c p iv hv => extended_everywhere hw hv c p
  unfold divergenceOf
  rw [slope_everywhere hM hG hr hq (.inr (by decide)) hu, slope_everywhere hM hG hr hq (.inr (by decide)) hu]
  split_ifs with h3
  · rw [slope_everywhere hM hG hr hq (.inl h3) hu]; norm_num
  · norm_num

/-! ### Steps over the reals -/

theorem rhs_same (hs : Setup M P B) {junk : Dir → Cell → Pt → HState ℝ} {u v : Vals ℝ}
    (huv : SameInside M.d3 M.N P u v) :
    SameInside M.d3 M.N P (rhs M S P B junk u) (rhs M S P B junk v) :=
  fun _ _ iv hc _ hp _ => rhs_congr hs huv iv hc hp

theorem mix_same {u u' v v' w w' : Vals ℝ} {c0 c1 c2 dt : ℝ} (h1 : SameInside M.d3 M.N P u u')
    (h2 : SameInside M.d3 M.N P v v') (h3 : SameInside M.d3 M.N P w w') :
    SameInside M.d3 M.N P (mix c0 c1 c2 dt u v w) fun c p iv =>
      c0 * u' c p iv + c1 * v' c p iv + c2 * dt * w' c p iv := by
  intro c p iv hb hc hp hv
  show combine _ _ _ _ _ _ _ = _
  rw [h1 c p iv hb hc hp hv, h2 c p iv hb hc hp hv, h3 c p iv hb hc hp hv]
  rfl

/-- A stage in terms of explicit steps. -/
theorem mix_advance (hM : ExactScheme M) (hs : Setup M P B) (hr : HasSolver M.d3 S)
    {junk : Dir → Cell → Pt → HState ℝ} {u u' v v' : Vals ℝ} {c0 c1 c2 dt : ℝ} (hc : c2 = -c1)
    (hu : SameInside M.d3 M.N P u u') (hv : SameInside M.d3 M.N P v v') :
    SameInside M.d3 M.N P (mix c0 c1 c2 dt u v (rhs M S P B junk v)) fun c p iv =>
      c0 * u' c p iv + c1 * advance M S P B dt v' c p iv := by
  refine (mix_same hu hv ((rhs_same hs hv).trans (rhs_eq hM hs hr v'))).trans ?_
  intro c p iv _ _ _ _
  unfold advance
  rw [hc]
  ring

theorem step_euler (hM : ExactScheme M) (hs : Setup M P B) (hr : HasSolver M.d3 S)
    {junk : Dir → Cell → Pt → HState ℝ} {u u' : Vals ℝ} {dt : ℝ} (hu : SameInside M.d3 M.N P u u') :
    SameInside M.d3 M.N P (mix (ROps.lit 1) (ROps.lit 0) (ROps.lit (-1)) dt u u (rhs M S P B junk u))
      (advance M S P B dt u') := by
  refine (mix_same hu hu ((rhs_same hs hu).trans (rhs_eq hM hs hr u'))).trans ?_
  intro c p iv _ _ _ _
  unfold advance
  rops
  norm_num
  ring

/-- A stage of a uniform state. -/
theorem mix_everywhere (hM : ExactScheme M) (hs : Setup M P B) (hG : GasParams S) (hr : HasSolver M.d3 S)
    {q : HState ℝ} (hq : Settled M.d3 S q) (hw : RestAtWalls M.d3 B q)
    {junk : Dir → Cell → Pt → HState ℝ} {u v w : Vals ℝ} {a b c0 c1 c2 dt : ℝ}
    (hu : SameInside M.d3 M.N P u fun _ _ iv => a * part q iv)
    (hv : SameInside M.d3 M.N P v fun _ _ iv => b * part q iv)
    (hww : SameInside M.d3 M.N P w (everywhere q)) :
    SameInside M.d3 M.N P (mix c0 c1 c2 dt u v (rhs M S P B junk w)) fun _ _ iv =>
      (c0 * a + c1 * b) * part q iv := by
  refine (mix_same hu hv ((rhs_same hs hww).trans (rhs_everywhere hM hs hG hr hq hw))).trans ?_
  intro c p iv _ _ _ _
  ring

end

end Verif.Sdm
