import Verif.Props.C43_C44_MoodFluxes

/-!
# C74, C75: uniform states and totals in the MOOD scheme

Conventions as in `C43_C44_MoodFluxes`.
-/

namespace Verif.Mood

open Verif Spec ROps Finset

variable {M : Scheme ℝ} {S : Settings ℝ} {P : Grid} {B : Sides}
  {lay : Layout} {J : ℕ → MoodJunk ℝ} {dt : ℝ} {it : Nat} {m m' : Addr → ℝ}

/-! ### C74 uniform states, two dimensions -/

/-- No cell of a uniform state is flagged. -/
theorem uniform_no_flag (h : MoodSetup M P B) (hM : M.Genuine) (hv : ValidMood M S)
    (hS : GasParams S) (h2 : M.d3 = false) {J : MoodJunk ℝ} {old : ℕ → Cell → HState ℝ}
    {f : Cell → HState ℝ} {u : HState ℝ} (hf : ∀ c, P.box M.d3 c → f c = u) (hu : 0 ≤ u.d)
    {c : Cell} (hb : P.box M.d3 c) : ¬ 0 < flagAt M S P J dt old f c := by
  by_cases hin : P.inner M.d3 c
  · obtain ⟨i, j, k, l1, l2, l3, rfl⟩ := inner_cell hb hin
    rw [uniform_unflagged h hM hv hS hf hu l1 l2 l3 (fun e => by rw [h2] at e; cases e)]
    exact lt_irrefl _
  · rw [flagAt_outer hin]
    exact lt_irrefl _

/-- The good states of `C74_uniform_2D`. -/
def Equals (u : HState ℝ) {n : ℕ} (w : Fin n → ℝ) : Prop := ∀ v, w v = u.get v

theorem equals_convex (u : HState ℝ) (n : ℕ) : ConvexBound (n := n) (Equals u) := by
  intro a b s t _ _ hst ha hb v
  show s * a v + t * b v = _
  rw [ha, hb, ← add_mul, hst, one_mul]

/-- **C74, Euler**: in two dimensions a forward Euler step returns a uniform gas unchanged. -/
theorem C74_uniform_euler (h : MoodSetup M P B) (hM : M.Genuine) (hv : ValidMood M S)
    (hS : GasParams S) (h2 : M.d3 = false) (hx : B.xlo ≠ .reflecting ∧ B.xhi ≠ .reflecting)
    (hy : B.ylo ≠ .reflecting ∧ B.yhi ≠ .reflecting) (u : HState ℝ) (hu : 0 ≤ u.d) :
    EulerKeeps lay M S P dt (Equals u) := by
  intro J it m m' r hg i j k hi hj hk ⟨v, hvar⟩
  obtain ⟨q, -, -⟩ := euler_run h r
  obtain ⟨hb, hin⟩ := mood_cell_box h hi hj hk
  have hg1 : 1 ≤ P.ghostWidth := by have := h.stage.gw2; omega
  have hz : M.d3 = true → B.zlo ≠ .reflecting ∧ B.zhi ≠ .reflecting :=
    fun e => by rw [h2] at e; cases e
  have ha : AwayFromLowerSides M.d3 i j k := fun e => by rw [h2] at e; cases e
  have hn : (u.norm M.d3).norm M.d3 = u.norm M.d3 := by rw [h2]; rfl
  have hget : ∀ w, w < P.nbvar → (u.norm M.d3).get w = u.get w := by
    intro w hw
    rw [h.nv, h2] at hw
    have : w = 0 ∨ w = 1 ∨ w = 2 ∨ w = 3 := by simp [hydroVars] at hw; omega
    rcases this with rfl | rfl | rfl | rfl <;> rw [h2] <;> rfl
  have hf := uniform_fill (m := m) (U := bufIn it) h hx hy hz (u.norm M.d3) hn
    (fun i j k w hi hj hk hw => by rw [hget w hw]; exact hg i j k hi hj hk ⟨w, hw⟩)
  have hud : 0 ≤ (u.norm M.d3).d := by rw [h2]; exact hu
  have hvar' : v < hydroVars M.d3 := by rw [h.nv] at hvar; exact hvar
  show m' _ = _
  rw [← field_get M.d3 m' _ _ hvar', q.out _ hb hin, eulerAt_get hin hvar']
  have flat : ∀ d, d.ok M.d3 →
      finalFlux M S P (J 0) dt (polys M.d3 m) (fillF M.d3 P B (field M.d3 m (bufIn it))) d
        (cell M.d3 P i j k) =
      finalFlux M S P (J 0) dt (polys M.d3 m) (fillF M.d3 P B (field M.d3 m (bufIn it))) d
        ((cell M.d3 P i j k).up d) := by
    intro d hd
    obtain ⟨e1, e2⟩ := uniform_flux0 (J := J 0) (dt := dt) (old := polys M.d3 m) h hM hv hS hf
      hi hj hk ha hd
    rw [finalFlux_unflagged (uniform_no_flag h hM hv hS h2 hf hud hb),
      finalFlux_unflagged (uniform_no_flag h hM hv hS h2 hf hud (inner_up_box hg1 hd hb hin)),
      e1, e2]
  have k0 : (field M.d3 m (bufIn it) (cell M.d3 P i j k)).get v = u.get v := by
    rw [field_get _ _ _ _ hvar']
    exact hg i j k hi hj hk ⟨v, hvar⟩
  rw [flat .x (Or.inr (by decide)), flat .y (Or.inr (by decide)), k0, h2]
  simp

/-- **C74**: in two dimensions every integrator that updates the state returns a uniform gas
unchanged, for every time step, order and Riemann solver. -/
theorem C74_uniform_2D (h : MoodSetup M P B) (hM : M.Genuine) (hv : ValidMood M S)
    (hS : GasParams S) (h2 : M.d3 = false) (hx : B.xlo ≠ .reflecting ∧ B.xhi ≠ .reflecting)
    (hy : B.ylo ≠ .reflecting ∧ B.yhi ≠ .reflecting) (u : HState ℝ) (hu : 0 ≤ u.d)
    {ti : TimeInt} (hti : ti ≠ .ssprk54)
    (r : Runs (time_integration lay M S P J dt ti it) m m')
    (hg : AllStates M.d3 P (Equals u) m (bufIn it)) :
    AllStates M.d3 P (Equals u) m' (bufOut it) := by
  have hE : EulerKeeps lay M S P dt (Equals u) := C74_uniform_euler h hM hv hS h2 hx hy u hu
  cases ti with
  | forward_euler => exact hE J it m m' r hg
  | ssprk2 => exact C45_ssprk2_bounds h (equals_convex u _) hE r hg
  | ssprk3 => exact C45_ssprk3_bounds h (equals_convex u _) hE r hg
  | ssprk54 => exact absurd rfl hti

/-! ### C75 totals -/

/-- A side cell of the region in which fluxes are computed. -/
theorem border_box (h : MoodSetup M P B) {i j k : ℕ} {d : Dir} (hd : d.ok M.d3)
    (hi : i < P.nx.toNat ∨ (d = .x ∧ i = P.nx.toNat))
    (hj : j < P.ny.toNat ∨ (d = .y ∧ j = P.ny.toNat))
    (hk : k < depth M.d3 P ∨ (d = .z ∧ k = P.nz.toNat)) :
    P.box M.d3 (cell M.d3 P i j k) ∧ faceRegion M.d3 P d (cell M.d3 P i j k) := by
  have hg := h.stage.gw2
  have h1 := h.nx
  have h2 := h.ny
  have h3 := h.nz
  rw [box_iff]
  unfold faceRegion
  rw [P.isize_eq, P.jsize_eq, P.ksize_eq]
  cases e : M.d3
  · rw [e] at hd
    cases d <;> simp [cell, Dir.ok] at * <;> omega
  · rw [e] at hk h3
    have := h3 rfl
    cases d <;> simp [cell, depth] at * <;> omega

/-- **C75, balance**: a forward Euler step changes the total of every conserved variable by the net
inflow through the sides of the domain, for all boundary types, in 2D and 3D and whatever cells are
flagged. -/
theorem C75_balance (h : MoodSetup M P B)
    (r : Runs (time_integration lay M S P J dt .forward_euler it) m m') {v : ℕ} (hv : v < P.nbvar) :
    total M.d3 P m' (bufOut it) v = total M.d3 P m (bufIn it) v +
      netInflow M.d3 P (fun c => m' (c.at (aF 0 .x) v)) (fun c => m' (c.at (aF 0 .y) v))
        (fun c => m' (c.at (aF 0 .z) v)) := by
  obtain ⟨q, qf, -⟩ := euler_run h r
  rw [h.nv] at hv
  have e1 : total M.d3 P m' (bufOut it) v = interiorSum M.d3 P fun c =>
      (updCell M.d3 (finalFlux M S P (J 0) dt (polys M.d3 m)
        (fillF M.d3 P B (field M.d3 m (bufIn it)))) (field M.d3 m (bufIn it) c) c).get v := by
    refine interiorSum_congr fun i j k hi hj hk => ?_
    obtain ⟨hb, hin⟩ := mood_cell_box h hi hj hk
    show m' (Cell.at _ _ _) = _
    rw [← field_get M.d3 m' _ _ hv, q.out _ hb hin, eulerAt_get hin hv, updCell_get _ _ _ _ hv]
  have e2 : total M.d3 P m (bufIn it) v =
      interiorSum M.d3 P fun c => (field M.d3 m (bufIn it) c).get v :=
    interiorSum_congr fun i j k hi hj hk => (field_get M.d3 m _ _ hv).symm
  rw [e1, e2, interiorSum_updCell _ _ _ _ hv]
  congr 1
  have fx : ∀ {i j k : ℕ} {d : Dir}, d.ok M.d3 →
      (i < P.nx.toNat ∨ (d = .x ∧ i = P.nx.toNat)) → (j < P.ny.toNat ∨ (d = .y ∧ j = P.ny.toNat)) →
      (k < depth M.d3 P ∨ (d = .z ∧ k = P.nz.toNat)) →
      (finalFlux M S P (J 0) dt (polys M.d3 m) (fillF M.d3 P B (field M.d3 m (bufIn it))) d
        (cell M.d3 P i j k)).get v = m' ((cell M.d3 P i j k).at (aF 0 d) v) := by
    intro i j k d hd hi hj hk
    obtain ⟨hb, hf⟩ := border_box h hd hi hj hk
    rw [← qf d _ hd hb hf, field_get _ _ _ _ hv]
  have hg := h.stage.gw2
  have p1 : 0 < P.nx.toNat := by have := h.nx; omega
  have p2 : 0 < P.ny.toNat := by have := h.ny; omega
  unfold netInflow
  congr 1
  · congr 1
    · refine sum_congr rfl fun j hj => sum_congr rfl fun k hk => ?_
      have hj := mem_range.1 hj
      have hk := mem_range.1 hk
      beta_reduce
      rw [fx (d := .x) (Or.inr (by decide)) (Or.inl p1) (Or.inl hj) (Or.inl hk),
        fx (d := .x) (Or.inr (by decide)) (Or.inr ⟨rfl, rfl⟩) (Or.inl hj) (Or.inl hk)]
    · refine sum_congr rfl fun i hi => sum_congr rfl fun k hk => ?_
      have hi := mem_range.1 hi
      have hk := mem_range.1 hk
      beta_reduce
      rw [fx (d := .y) (Or.inr (by decide)) (Or.inl hi) (Or.inl p2) (Or.inl hk),
        fx (d := .y) (Or.inr (by decide)) (Or.inl hi) (Or.inr ⟨rfl, rfl⟩) (Or.inl hk)]
  · split
    · next e =>
      refine sum_congr rfl fun i hi => sum_congr rfl fun j hj => ?_
      have hi := mem_range.1 hi
      have hj := mem_range.1 hj
      have p3 : 0 < depth M.d3 P := by have := h.nz e; rw [e]; simp only [depth, if_true]; omega
      beta_reduce
      rw [fx (d := .z) (Or.inl e) (Or.inl hi) (Or.inl hj) (Or.inl p3),
        fx (d := .z) (Or.inl e) (Or.inl hi) (Or.inl hj) (Or.inr ⟨rfl, rfl⟩)]
    · rfl

/-- **C75, conservation**: in two dimensions with periodic sides a forward Euler step keeps the total
of every conserved variable, if no cell next to the lower sides is flagged. -/
theorem C75_conservation_2D (h : MoodSetup M P (Sides.all .periodic)) (hvm : ValidMood M S)
    (h2 : M.d3 = false)
    (r : Runs (time_integration lay M S P J dt .forward_euler it) m m') {v : ℕ} (hv : v < P.nbvar)
    (nx : ∀ j, j < P.ny.toNat → ¬ 0 < m' ((cell M.d3 P 0 j 0).at aFlags 0))
    (ny : ∀ i, i < P.nx.toNat → ¬ 0 < m' ((cell M.d3 P i 0 0).at aFlags 0)) :
    total M.d3 P m' (bufOut it) v = total M.d3 P m (bufIn it) v := by
  rw [C75_balance h r hv]
  obtain ⟨q, qf, qg⟩ := euler_run h r
  have hg := h.stage.gw2
  have p1 : 0 < P.nx.toNat := by have := h.nx; omega
  have p2 : 0 < P.ny.toNat := by have := h.ny; omega
  have p3 : 0 < depth M.d3 P := by rw [h2]; simp [depth]
  rw [h.nv] at hv
  have k0 : ∀ k, k < depth M.d3 P → k = 0 := by
    intro k hk; rw [h2] at hk; simpa [depth] using hk
  have ex : ∀ j k, j < P.ny.toNat → k < depth M.d3 P →
      m' ((cell M.d3 P 0 j k).at (aF 0 .x) v) = m' ((cell M.d3 P P.nx.toNat j k).at (aF 0 .x) v) := by
    intro j k hj hk
    obtain rfl := k0 k hk
    obtain ⟨b1, f1⟩ := border_box (d := .x) h (Or.inr (by decide)) (Or.inl p1) (Or.inl hj) (Or.inl hk)
    obtain ⟨b2, f2⟩ := border_box (d := .x) h (Or.inr (by decide)) (Or.inr ⟨rfl, rfl⟩) (Or.inl hj)
      (Or.inl hk)
    rw [← field_get M.d3 m' _ _ hv, ← field_get M.d3 m' _ _ hv,
      qf _ _ (Or.inr (by decide)) b1 f1, qf _ _ (Or.inr (by decide)) b2 f2,
      border_flux_x h hvm h2 hj]
    rw [← qg _ b1]
    exact nx j hj
  have ey : ∀ i k, i < P.nx.toNat → k < depth M.d3 P →
      m' ((cell M.d3 P i 0 k).at (aF 0 .y) v) = m' ((cell M.d3 P i P.ny.toNat k).at (aF 0 .y) v) := by
    intro i k hi hk
    obtain rfl := k0 k hk
    obtain ⟨b1, f1⟩ := border_box (d := .y) h (Or.inr (by decide)) (Or.inl hi) (Or.inl p2) (Or.inl hk)
    obtain ⟨b2, f2⟩ := border_box (d := .y) h (Or.inr (by decide)) (Or.inl hi) (Or.inr ⟨rfl, rfl⟩)
      (Or.inl hk)
    rw [← field_get M.d3 m' _ _ hv, ← field_get M.d3 m' _ _ hv,
      qf _ _ (Or.inr (by decide)) b1 f1, qf _ _ (Or.inr (by decide)) b2 f2,
      border_flux_y h hvm h2 hi]
    rw [← qg _ b1]
    exact ny i hi
  unfold netInflow
  rw [sum_eq_zero fun j hj => sum_eq_zero fun k hk => by
      beta_reduce
      rw [ex j k (mem_range.1 hj) (mem_range.1 hk), sub_self],
    sum_eq_zero fun i hi => sum_eq_zero fun k hk => by
      beta_reduce
      rw [ey i k (mem_range.1 hi) (mem_range.1 hk), sub_self], h2]
  simp

end Verif.Mood
