import Verif.Lemmas.SdmUniform

/-! Helper lemmas: reflecting sides, totals of closed boxes. -/

namespace Verif.Sdm

open Verif Spec Polynomial Finset

theorem lineValue_scale (N : ℕ) (u : ℕ → ℝ) (s x : ℝ) :
    lineValue N (fun k => u k * s) x = lineValue N u x * s := by
  rw [lineValue, lineValue, Lagrange.interpolate_apply, Lagrange.interpolate_apply, eval_finsetSum,
    eval_finsetSum, sum_mul]
  refine sum_congr rfl fun k _ => ?_
  simp only [eval_mul, eval_C]
  ring

theorem primitive_mirror {d3 : Bool} {d : Dir} (hd : d3 = true ∨ d ≠ .z) (q : HState ℝ) (γ : ℝ) :
    primitive d3 (mirrorAlong d q) γ = mirrorAlong d (primitive d3 q γ) := by
  unfold primitive
  cases d3
  · cases d
    · simp only [Bool.false_eq_true, if_false, Euler2.convert_to_primitive, mirrorAlong, neg_mul_neg, neg_div]
    · simp only [Bool.false_eq_true, if_false, Euler2.convert_to_primitive, mirrorAlong, neg_mul_neg, neg_div]
    · exact absurd rfl (hd.resolve_left (by decide))
  · cases d <;> simp only [if_true, Euler3.convert_to_primitive, mirrorAlong, neg_mul_neg, neg_div]

theorem mirrorAlong_swap (d : Dir) (r : HState ℝ) : (mirrorAlong d r).swap d = mirror (r.swap d) := by
  cases d <;> rfl

/-- Nothing but normal momentum crosses a wall. -/
theorem wall_part {d3 : Bool} {S : Settings ℝ} (hG : GasParams S) (hr : HasSolver d3 S)
    (ha : S.riemann ≠ .approx) (r f : HState ℝ) (hf : riemann_hydro d3 S r (mirror r) = some f) {d : Dir} {iv : ℕ}
    (hv : iv < 5) (hn : iv ≠ 2 + axis d) : part (f.swap d) iv = 0 := by
  obtain ⟨-, h2, h3, h4⟩ := C29_selects d3 S _ _ f hf
  have h1 := hr.hlld
  have key : f.d = 0 ∧ f.p = 0 ∧ f.v = 0 ∧ f.w = 0 := by
    apply C28_wall d3 hG r f
    cases hS : S.riemann
    · exact absurd hS ha
    · exact .inr (.inr (h2 hS))
    · exact .inr (.inl (h3 hS))
    · exact .inl (h4 hS)
    · exact absurd hS h1
  obtain ⟨k1, k2, k3, k4⟩ := key
  interval_cases iv <;> cases d <;> first
    | exact absurd rfl hn
    | simpa [part, HState.swap] using ‹_›

theorem solver_some {d3 : Bool} {S : Settings ℝ} (hr : HasSolver d3 S) (a b : HState ℝ) :
    ∃ f, riemann_hydro d3 S a b = some f := by
  rw [← Option.isSome_iff_exists]
  cases h3 : d3
  · exact (C29_hydro2d S _ _).2 hr.hlld
  · exact (C29_hydro3d S _ _).2 ⟨hr.hlld, hr.hll h3⟩

theorem wall_high {d3 : Bool} {S : Settings ℝ} (hG : GasParams S) (hr : HasSolver d3 S)
    (ha : S.riemann ≠ .approx) {d : Dir} (hd : d3 = true ∨ d ≠ .z) (q : HState ℝ) {iv : ℕ}
    (hv : iv < 5) (hn : iv ≠ 2 + axis d) :
    part (riemannFlux d3 S HState.zero d q (mirrorAlong d q)) iv = 0 := by
  unfold riemannFlux
  rw [primitive_mirror hd, mirrorAlong_swap]
  obtain ⟨f, hf⟩ := solver_some hr ((primitive d3 q S.gamma0).swap d) (mirror ((primitive d3 q S.gamma0).swap d))
  rw [hf, Option.getD_some]
  exact wall_part hG hr ha _ f hf hv hn

theorem wall_low {d3 : Bool} {S : Settings ℝ} (hG : GasParams S) (hr : HasSolver d3 S)
    (ha : S.riemann ≠ .approx) {d : Dir} (hd : d3 = true ∨ d ≠ .z) (q : HState ℝ) {iv : ℕ}
    (hv : iv < 5) (hn : iv ≠ 2 + axis d) :
    part (riemannFlux d3 S HState.zero d (mirrorAlong d q) q) iv = 0 := by
  have : mirrorAlong d (mirrorAlong d q) = q := by cases d <;> simp [mirrorAlong]
  have h := wall_high hG hr ha hd (mirrorAlong d q) hv hn
  rwa [this] at h

section
variable {M : Scheme ℝ} {P : Grid} {B : Sides} {S : Settings ℝ}

/-- Values behind a wall, on a line orthogonal to it. -/
theorem pointState_behind {d3 : Bool} {N : ℕ} {d : Dir} {r : ℝ} {u : Vals ℝ} {c c' : Cell} {a b : ℕ}
    (hab : fluxPts N a = 1 - fluxPts N b)
    (h : ∀ (p : Pt) (k iv : ℕ), u c (p.set d k) iv =
      u c' (p.set d (N - 1 - k)) iv * (if iv = 2 + axis d then -1 else 1)) (p : Pt) :
    pointState d3 N r d u c (p.set d a) = mirrorAlong d (pointState d3 N r d u c' (p.set d b)) := by
  have key : ∀ iv, lineValue N (fun k => u c (p.set d k) iv) (fluxPts N a) =
      lineValue N (fun k => u c' (p.set d k) iv) (fluxPts N b) * (if iv = 2 + axis d then -1 else 1) := by
    intro iv
    have e := lineValue_mirror N (fun k => u c' (p.set d k) iv * (if iv = 2 + axis d then -1 else 1))
      (fluxPts N a)
    simp only [h]
    rw [e, lineValue_scale, hab]
    ring_nf
  unfold pointState
  simp only [Pt.set_get_same, Pt.set_set, key]
  cases d <;> cases d3 <;> simp [mirrorAlong, axis]

theorem extended_behind {d : Dir} (hd : M.d3 = true ∨ d ≠ .z) {c : Cell} (hc : Beside M.d3 P d c)
    {x y : Int} (hb : behindWall (interior P d) P.ghostWidth (lowBC B d) (highBC B d) x = true)
    (hs : source (interior P d) P.ghostWidth (lowBC B d) (highBC B d) x = y)
    (hy : P.ghostWidth ≤ y ∧ y < interior P d + P.ghostWidth) (u : Vals ℝ) (p : Pt) (k iv : ℕ) :
    extended M.d3 M.N P B u (setCoord d c x) (p.set d k) iv =
      extended M.d3 M.N P B u (setCoord d c y) (p.set d (M.N - 1 - k)) iv *
        (if iv = 2 + axis d then -1 else 1) := by
  rw [extended_axis hd (hc.set _), extended_axis hd (hc.set _),
    extendAlong_inner (c := setCoord d c y) (by rw [coord_setCoord]; exact hy)]
  unfold extendAlong crossPt crossIdx
  rw [coord_setCoord, hb, hs, setCoord_setCoord, Pt.set_get_same, Pt.set_set, if_pos rfl, if_pos rfl]
  congr 1
  unfold normalTo
  by_cases h : iv = 2 + axis d <;> simp [h] <;> rops <;> norm_num

theorem faceMean_wall (hM : ExactScheme M) (hs : Setup M P B) (hG : GasParams S) (hr : HasSolver M.d3 S)
    (ha : S.riemann ≠ .approx) {d : Dir} (hd : M.d3 = true ∨ d ≠ .z) {c : Cell} (hc : Beside M.d3 P d c)
    {iv : ℕ} (hv : iv < 5) (hn : iv ≠ 2 + axis d) (u : Vals ℝ) :
    (lowBC B d = .reflecting →
      faceMean M.d3 M.N S (eulerFluxOf M.d3 S) (riemannFlux M.d3 S HState.zero) (extended M.d3 M.N P B u) iv d
        (setCoord d c P.ghostWidth) = 0) ∧
    (highBC B d = .reflecting →
      faceMean M.d3 M.N S (eulerFluxOf M.d3 S) (riemannFlux M.d3 S HState.zero) (extended M.d3 M.N P B u) iv d
        (setCoord d c (P.ghostWidth + interior P d)) = 0) := by
  have hg := hs.gw
  have hw := hs.wide d hd
  have f0 := fluxPts_zero hM.orders
  have f1 := fluxPts_last hM.orders
  constructor
  · intro hl
    have e := extended_behind (B := B) (c := c) hd hc (x := P.ghostWidth - 1) (y := P.ghostWidth)
      (by simp [behindWall, hl]) (by unfold source; rw [if_pos (by omega), hl]; simp only; omega)
      ⟨le_refl _, by omega⟩ u
    have q := fun p => pointState_behind (d3 := M.d3) (r := S.smallr) (a := M.N) (b := 0)
      (by rw [f0, f1]; norm_num) e p
    unfold faceMean pointFlux
    simp only [Pt.set_get_same, if_true, setCoord_down, Pt.set_set, q, wall_low hG hr ha hd _ hv hn]
    rw [cellMean_const _ hM.orders.1, zero_div]
  · intro hh
    have e := extended_behind (B := B) (c := c) hd hc (x := P.ghostWidth + interior P d)
      (y := P.ghostWidth + interior P d - 1)
      (by simp [behindWall, hh]; right; omega)
      (by unfold source; rw [if_neg (by omega), if_pos (by omega), hh]; simp only; omega)
      ⟨by omega, by omega⟩ u
    have q := fun p => pointState_behind (d3 := M.d3) (r := S.smallr) (a := 0) (b := M.N)
      (by rw [f0, f1]; norm_num) e p
    unfold faceMean pointFlux
    simp only [Pt.set_get_same, if_true, setCoord_down, Pt.set_set, q, wall_high hG hr ha hd _ hv hn]
    rw [cellMean_const _ hM.orders.1, zero_div]

/-- Nothing enters a closed box. -/
theorem faceMean_closed (hM : ExactScheme M) (hs : Setup M P B) (hG : GasParams S) (hr : HasSolver M.d3 S)
    (hw : WallSolver M.d3 S B) {iv : ℕ} (hv : iv < 5) (hcl : Closed M.d3 B iv) (u : Vals ℝ) {d : Dir}
    (hd : M.d3 = true ∨ d ≠ .z) {c : Cell} (hc : Beside M.d3 P d c) :
    faceMean M.d3 M.N S (eulerFluxOf M.d3 S) (riemannFlux M.d3 S HState.zero) (extended M.d3 M.N P B u) iv d
        (setCoord d c P.ghostWidth) =
      faceMean M.d3 M.N S (eulerFluxOf M.d3 S) (riemannFlux M.d3 S HState.zero) (extended M.d3 M.N P B u) iv d
        (setCoord d c (P.ghostWidth + interior P d)) := by
  rcases hcl d hd with h | ⟨h1, h2, h3⟩
  · exact faceMean_period hs hd h hc S _ _ u iv
  · have := faceMean_wall hM hs hG hr (hw d hd (.inl h1)) hd hc hv h3 u
    rw [this.1 h1, this.2 h2]

theorem netInflow_closed (hM : ExactScheme M) (hs : Setup M P B) (hG : GasParams S) (hr : HasSolver M.d3 S)
    (hw : WallSolver M.d3 S B) {iv : ℕ} (hv : iv < 5) (hcl : Closed M.d3 B iv) (u : Vals ℝ) :
    let e := extended M.d3 M.N P B u
    let F := faceMean M.d3 M.N S (eulerFluxOf M.d3 S) (riemannFlux M.d3 S HState.zero) e iv
    netInflow M.d3 P (F .x) (F .y) (F .z) = 0 := by
  intro e F
  have hg := hs.gw
  have hx := hs.nx
  have hy := hs.ny
  have key : ∀ (d : Dir), M.d3 = true ∨ d ≠ .z → ∀ c, Beside M.d3 P d c →
      F d (setCoord d c P.ghostWidth) = F d (setCoord d c (P.ghostWidth + interior P d)) :=
    fun d hd c hc => faceMean_closed hM hs hG hr hw hv hcl u hd hc
  have nx : ((P.nx.toNat : ℕ) : Int) = P.nx := by omega
  have ny : ((P.ny.toNat : ℕ) : Int) = P.ny := by omega
  have ix : ∀ i, i < P.nx.toNat → P.ghostWidth ≤ P.ghostWidth + (i : Int) ∧
      P.ghostWidth + (i : Int) < P.nx + P.ghostWidth := fun i hi => ⟨by omega, by omega⟩
  have iy : ∀ i, i < P.ny.toNat → P.ghostWidth ≤ P.ghostWidth + (i : Int) ∧
      P.ghostWidth + (i : Int) < P.ny + P.ghostWidth := fun i hi => ⟨by omega, by omega⟩
  have iz : ∀ k, M.d3 = true → k < depth M.d3 P →
      P.ghostWidth ≤ (cell M.d3 P 0 0 k).k ∧ (cell M.d3 P 0 0 k).k < P.nz + P.ghostWidth := by
    intro k h3 hk
    simp only [cell, depth, h3, if_true] at hk ⊢
    exact ⟨by omega, by omega⟩
  have zk : ∀ i j k, (cell M.d3 P i j k).k = (cell M.d3 P 0 0 k).k := fun _ _ _ => rfl
  have bx : ∀ j k, j < P.ny.toNat → k < depth M.d3 P → Beside M.d3 P .x (cell M.d3 P 0 j k) := by
    intro j k hj hk e he hne
    cases e
    · exact absurd rfl hne
    · exact iy j hj
    · exact iz k (he.resolve_right (by simp)) hk
  have by' : ∀ i k, i < P.nx.toNat → k < depth M.d3 P → Beside M.d3 P .y (cell M.d3 P i 0 k) := by
    intro i k hi hk e he hne
    cases e
    · exact ix i hi
    · exact absurd rfl hne
    · exact iz k (he.resolve_right (by simp)) hk
  have sx : (∑ j ∈ range P.ny.toNat, ∑ k ∈ range (depth M.d3 P),
      (F .x (cell M.d3 P 0 j k) - F .x (cell M.d3 P P.nx.toNat j k))) = 0 := by
    refine sum_eq_zero fun j hj => sum_eq_zero fun k hk => ?_
    have := key .x (.inr (by decide)) _ (bx j k (mem_range.1 hj) (mem_range.1 hk))
    simp only [setCoord, cell, interior] at this
    simp only [cell, nx, Nat.cast_zero, add_zero, this, sub_self]
  have sy : (∑ i ∈ range P.nx.toNat, ∑ k ∈ range (depth M.d3 P),
      (F .y (cell M.d3 P i 0 k) - F .y (cell M.d3 P i P.ny.toNat k))) = 0 := by
    refine sum_eq_zero fun j hj => sum_eq_zero fun k hk => ?_
    have := key .y (.inr (by decide)) _ (by' j k (mem_range.1 hj) (mem_range.1 hk))
    simp only [setCoord, cell, interior] at this
    simp only [cell, ny, Nat.cast_zero, add_zero, this, sub_self]
  unfold netInflow
  rw [sx, sy]
  split_ifs with h3
  · have hz := hs.nz h3
    have nz : ((P.nz.toNat : ℕ) : Int) = P.nz := by omega
    have bz : ∀ i j, i < P.nx.toNat → j < P.ny.toNat → Beside M.d3 P .z (cell M.d3 P i j 0) := by
      intro i j hi hj e he hne
      cases e
      · exact ix i hi
      · exact iy j hj
      · exact absurd rfl hne
    have sz : (∑ i ∈ range P.nx.toNat, ∑ j ∈ range P.ny.toNat,
        (F .z (cell M.d3 P i j 0) - F .z (cell M.d3 P i j P.nz.toNat))) = 0 := by
      refine sum_eq_zero fun i hi => sum_eq_zero fun j hj => ?_
      have := key .z (.inl h3) _ (bz i j (mem_range.1 hi) (mem_range.1 hj))
      simp only [setCoord, cell, interior] at this
      simp only [cell, h3, if_true, nz, Nat.cast_zero, add_zero, this, sub_self]
    rw [sz]; norm_num
  · norm_num

end

end Verif.Sdm
