import Verif.Lemmas.SdmReal
import Verif.Lemmas.HydroFlux

/-! Helper lemmas: totals and the divergence. -/

namespace Verif.Sdm

open Verif Spec Polynomial Finset

/-! ### Means -/

theorem lineMean_congr {N : ℕ} {f g : ℕ → ℝ} (h : ∀ j, j < N → f j = g j) : lineMean N f = lineMean N g := by
  rw [lineMean_sum, lineMean_sum N g]
  exact sum_congr rfl fun j hj => by rw [h j (mem_range.1 hj)]

theorem lineMean_lin (N : ℕ) (f g : ℕ → ℝ) (a b : ℝ) :
    lineMean N (fun j => a * f j + b * g j) = a * lineMean N f + b * lineMean N g := by
  rw [lineMean_sum, lineMean_sum N f, lineMean_sum N g, mul_sum, mul_sum, ← sum_add_distrib]
  exact sum_congr rfl fun j _ => by ring

theorem lineMean_swap (N : ℕ) (f : ℕ → ℕ → ℝ) :
    (lineMean N fun x => lineMean N fun y => f x y) = lineMean N fun y => lineMean N fun x => f x y := by
  have h : ∀ g : ℕ → ℕ → ℝ, (lineMean N fun x => lineMean N fun y => g x y) =
      ∑ x ∈ range N, ∑ y ∈ range N, g x y * lineMean N (fun k => if k = x then 1 else 0) *
        lineMean N (fun k => if k = y then 1 else 0) := by
    intro g
    rw [lineMean_sum]
    refine sum_congr rfl fun x _ => ?_
    rw [lineMean_sum N (g x), sum_mul]
    exact sum_congr rfl fun y _ => by ring
  rw [h, h, sum_comm]
  exact sum_congr rfl fun x _ => sum_congr rfl fun y _ => by ring

theorem lineMean_slope {N : ℕ} (hN : Orders N) (f : ℕ → ℝ) :
    (lineMean N fun j => lineSlope N f (solPts N j)) = lineMean N fun _ => f N - f 0 := by
  have h := flux_derivative_mean hN f 1
  rw [lineMean_const hN.1]
  rw [one_mul] at h
  rw [← h]
  exact lineMean_congr fun j hj => by rw [flux2sol_line hN f 1 hj, mul_one]

theorem cellMean_lin (d3 : Bool) (N : ℕ) (f g : Pt → ℝ) (a b : ℝ) :
    cellMean d3 N (fun p => a * f p + b * g p) = a * cellMean d3 N f + b * cellMean d3 N g := by
  unfold cellMean
  cases d3
  · simp only [Bool.false_eq_true, if_false, lineMean_lin]
  · simp only [if_true, lineMean_lin]

theorem cellMean_congr {d3 : Bool} {N : ℕ} {f g : Pt → ℝ} (h : ∀ p, IsSolPt d3 N p → f p = g p) :
    cellMean d3 N f = cellMean d3 N g := by
  unfold cellMean
  refine lineMean_congr fun x hx => lineMean_congr fun y hy => ?_
  cases d3
  · simp only [Bool.false_eq_true, if_false]
    exact h _ ⟨hx, hy, by simp⟩
  · simp only [if_true]
    exact lineMean_congr fun z hz => h _ ⟨hx, hy, by simpa using hz⟩

theorem cellMean_const (d3 : Bool) {N : ℕ} (hN : 0 < N) (a : ℝ) : cellMean d3 N (fun _ => a) = a := by
  unfold cellMean
  cases d3 <;> simp [lineMean_const hN]

theorem mean2_y {N : ℕ} {G H : ℕ → ℕ → ℝ} (h : ∀ x, lineMean N (G x) = lineMean N (H x)) :
    (lineMean N fun x => lineMean N (G x)) = lineMean N fun x => lineMean N (H x) := by
  simp only [h]

theorem mean2_x {N : ℕ} {G H : ℕ → ℕ → ℝ} (h : ∀ y, (lineMean N fun x => G x y) = lineMean N fun x => H x y) :
    (lineMean N fun x => lineMean N (G x)) = lineMean N fun x => lineMean N (H x) := by
  have e1 := lineMean_swap N G
  have e2 := lineMean_swap N H
  simp only [h] at e1
  exact e1.trans e2.symm

theorem cellMean_slope {d3 : Bool} {N : ℕ} (hN : Orders N) {d : Dir} (hd : d3 = true ∨ d ≠ .z)
    (F : Pt → ℝ) :
    (cellMean d3 N fun p => lineSlope N (fun k => F (p.set d k)) (solPts N (p.get d))) =
      cellMean d3 N fun p => F (p.set d N) - F (p.set d 0) := by
  unfold cellMean
  cases d3
  · simp only [Bool.false_eq_true, if_false]
    cases d
    · exact mean2_x fun y => lineMean_slope hN fun k => F ⟨k, y, 0⟩
    · exact mean2_y fun x => lineMean_slope hN fun k => F ⟨x, k, 0⟩
    · exact absurd rfl (hd.resolve_left (by decide))
  · simp only [if_true]
    cases d
    · refine mean2_x fun y => ?_
      exact mean2_x (G := fun x z => lineSlope N (fun k => F ⟨k, y, z⟩) (solPts N x))
        (H := fun x z => F ⟨N, y, z⟩ - F ⟨0, y, z⟩) fun z => lineMean_slope hN fun k => F ⟨k, y, z⟩
    · refine mean2_y fun x => ?_
      exact mean2_x (G := fun y z => lineSlope N (fun k => F ⟨x, k, z⟩) (solPts N y))
        (H := fun y z => F ⟨x, N, z⟩ - F ⟨x, 0, z⟩) fun z => lineMean_slope hN fun k => F ⟨x, k, z⟩
    · refine mean2_y fun x => ?_
      exact mean2_y (G := fun y z => lineSlope N (fun k => F ⟨x, y, k⟩) (solPts N z))
        (H := fun y z => F ⟨x, y, N⟩ - F ⟨x, y, 0⟩) fun y => lineMean_slope hN fun k => F ⟨x, y, k⟩

/-! ### Totals -/

theorem interiorSum_lin (d3 : Bool) (P : Grid) (f g : Cell → ℝ) (a b : ℝ) :
    interiorSum d3 P (fun c => a * f c + b * g c) = a * interiorSum d3 P f + b * interiorSum d3 P g := by
  simp only [interiorSum, sum_add_distrib, mul_sum]

theorem content_lin (d3 : Bool) (N : ℕ) (P : Grid) (u v : Vals ℝ) (a b : ℝ) (iv : ℕ) :
    content d3 N P (fun c p iv => a * u c p iv + b * v c p iv) iv =
      a * content d3 N P u iv + b * content d3 N P v iv := by
  simp only [content, cellMean_lin, interiorSum_lin]

theorem cell_inner {M : Scheme ℝ} {P : Grid} {B : Sides} (hs : Setup M P B) {i j k : ℕ}
    (hi : i < P.nx.toNat) (hj : j < P.ny.toNat) (hk : k < depth M.d3 P) :
    P.box M.d3 (cell M.d3 P i j k) ∧ P.inner M.d3 (cell M.d3 P i j k) := by
  have h1 := hs.gw
  rw [box_iff, inner_iff]
  unfold depth at hk
  cases h3 : M.d3 <;> rw [h3] at hk <;> simp only [cell, if_true, Bool.false_eq_true, if_false] at hk ⊢ <;>
    simp <;> omega

theorem content_congr {M : Scheme ℝ} {P : Grid} {B : Sides} (hs : Setup M P B) {u v : Vals ℝ}
    (h : SameInside M.d3 M.N P u v) {iv : ℕ} (hv : iv < hydroVars M.d3) :
    content M.d3 M.N P u iv = content M.d3 M.N P v iv := by
  unfold content
  refine interiorSum_congr fun i j k hi hj hk => cellMean_congr fun p hp => ?_
  obtain ⟨h1, h2⟩ := cell_inner hs hi hj hk
  exact h _ p iv h1 h2 hp hv

theorem Pt.set_get_same (d : Dir) (p : Pt) (a : ℕ) : (p.set d a).get d = a := by cases d <;> rfl

/-- The flux at a face is the same from both sides. -/
theorem pointFlux_face {N : ℕ} (hN : 0 < N) (f : HState ℝ → HState ℝ) (g : HState ℝ → HState ℝ → HState ℝ)
    (d : Dir) (q : Cell → Pt → HState ℝ) (c : Cell) (p : Pt) :
    pointFlux N f g d q c (p.set d N) = pointFlux N f g d q (c.up d) (p.set d 0) := by
  unfold pointFlux
  rw [Pt.set_get_same, Pt.set_get_same, if_neg (by omega), if_pos rfl, if_pos rfl]
  simp only [Pt.set_set, up_down]

theorem content_slope {d3 : Bool} {N : ℕ} (hN : Orders N) (P : Grid) (S : Settings ℝ)
    (f : Dir → HState ℝ → HState ℝ) (g : Dir → HState ℝ → HState ℝ → HState ℝ) (u : Vals ℝ) (iv : ℕ) {d : Dir}
    (hd : d3 = true ∨ d ≠ .z) :
    content d3 N P (slopeOf d3 N S f g u d) iv =
      -interiorSum d3 P fun c => faceMean d3 N S f g u iv d c - faceMean d3 N S f g u iv d (c.up d) := by
  have key : ∀ c, (cellMean d3 N fun p => slopeOf d3 N S f g u d c p iv) =
      faceMean d3 N S f g u iv d (c.up d) - faceMean d3 N S f g u iv d c := by
    intro c
    have h := cellMean_slope hN hd fun p =>
      part (pointFlux N (f d) (g d) d (pointState d3 N S.smallr d u) c p) iv
    have e : (fun p => slopeOf d3 N S f g u d c p iv) = fun p => (1 / width S d) *
        lineSlope N (fun k => part (pointFlux N (f d) (g d) d (pointState d3 N S.smallr d u) c (p.set d k)) iv)
          (solPts N (p.get d)) + 0 * 0 := by
      funext p; unfold slopeOf; ring
    rw [e, cellMean_lin d3 N _ (fun _ => 0), h]
    have e2 : (fun p : Pt =>
        part (pointFlux N (f d) (g d) d (pointState d3 N S.smallr d u) c (p.set d N)) iv -
        part (pointFlux N (f d) (g d) d (pointState d3 N S.smallr d u) c (p.set d 0)) iv) =
        fun p => 1 * part (pointFlux N (f d) (g d) d (pointState d3 N S.smallr d u) (c.up d) (p.set d 0)) iv +
          (-1) * part (pointFlux N (f d) (g d) d (pointState d3 N S.smallr d u) c (p.set d 0)) iv := by
      funext p
      rw [pointFlux_face hN.1]
      ring
    rw [e2, cellMean_lin]
    unfold faceMean
    ring
  unfold content
  simp only [key]
  have := interiorSum_lin d3 P (fun c => faceMean d3 N S f g u iv d (c.up d))
    (fun c => faceMean d3 N S f g u iv d c) 1 (-1)
  have h2 := interiorSum_lin d3 P (fun c => faceMean d3 N S f g u iv d c)
    (fun c => faceMean d3 N S f g u iv d (c.up d)) 1 (-1)
  simp only [one_mul, neg_one_mul, ← sub_eq_add_neg] at this h2
  rw [this, h2]
  ring

/-- The total of the divergence is what leaves through the sides. -/
theorem content_divergence {d3 : Bool} {N : ℕ} (hN : Orders N) (P : Grid) (S : Settings ℝ)
    (f : Dir → HState ℝ → HState ℝ) (g : Dir → HState ℝ → HState ℝ → HState ℝ) (u : Vals ℝ) (iv : ℕ) :
    content d3 N P (divergenceOf d3 N S f g u) iv =
      -netInflow d3 P (faceMean d3 N S f g u iv .x) (faceMean d3 N S f g u iv .y)
        (faceMean d3 N S f g u iv .z) := by
  have hx := content_slope (d3 := d3) hN P S f g u iv (d := .x) (.inr (by decide))
  have hy := content_slope (d3 := d3) hN P S f g u iv (d := .y) (.inr (by decide))
  rw [telescope_x] at hx
  rw [telescope_y] at hy
  unfold netInflow
  cases d3
  · have e : divergenceOf false N S f g u = fun c p iv => 1 * slopeOf false N S f g u .x c p iv +
        1 * slopeOf false N S f g u .y c p iv := by
      funext c p iv; simp [divergenceOf]
    rw [e, content_lin, hx, hy]
    simp only [Bool.false_eq_true, if_false]
    ring
  · have hz := content_slope (d3 := true) hN P S f g u iv (d := .z) (.inl rfl)
    rw [telescope_z] at hz
    have e : divergenceOf true N S f g u = fun c p iv => 1 * (1 * slopeOf true N S f g u .x c p iv +
        1 * slopeOf true N S f g u .y c p iv) + 1 * slopeOf true N S f g u .z c p iv := by
      funext c p iv; simp [divergenceOf]
    rw [e, content_lin _ _ _ (fun c p iv => 1 * slopeOf true N S f g u .x c p iv +
        1 * slopeOf true N S f g u .y c p iv), content_lin, hx, hy, hz]
    simp only [if_true]
    ring

/-! ### Beyond one side -/

/-- Interior along the axes other than `d`. -/
def Beside (d3 : Bool) (P : Grid) (d : Dir) (c : Cell) : Prop :=
  ∀ e, (d3 = true ∨ e ≠ .z) → e ≠ d → P.ghostWidth ≤ coord e c ∧ coord e c < interior P e + P.ghostWidth

theorem extended_axis {d3 : Bool} {N : ℕ} {P : Grid} {B : Sides} {d : Dir} (hd : d3 = true ∨ d ≠ .z)
    {c : Cell} (hc : Beside d3 P d c) (u : Vals ℝ) (p : Pt) (iv : ℕ) :
    extended d3 N P B u c p iv = extendAlong N P B d u c p iv := by
  have hx : ∀ e, d ≠ .x → ∀ a, e ≠ .x → P.ghostWidth ≤ coord .x (setCoord e c a) ∧
      coord .x (setCoord e c a) < interior P .x + P.ghostWidth := by
    intro e h a he
    rw [coord_set_ne he.symm]
    exact hc .x (.inr (by decide)) h.symm
  have hy : ∀ e, d ≠ .y → ∀ a, e ≠ .y → P.ghostWidth ≤ coord .y (setCoord e c a) ∧
      coord .y (setCoord e c a) < interior P .y + P.ghostWidth := by
    intro e h a he
    rw [coord_set_ne he.symm]
    exact hc .y (.inr (by decide)) h.symm
  have key : ∀ (e : Dir) (f g : Vals ℝ), (∀ a p iv, f (setCoord e c a) p iv = g (setCoord e c a) p iv) →
      extendAlong N P B e f c p iv = extendAlong N P B e g c p iv := by
    intro e f g h
    unfold extendAlong
    rw [h]
  unfold extended
  cases d3
  · simp only [Bool.false_eq_true, if_false]
    cases d
    · exact extendAlong_inner (hc .y (.inr (by decide)) (by decide))
    · exact key .y _ _ fun a p iv => extendAlong_inner (hx .y (by decide) a (by decide))
    · exact absurd rfl (hd.resolve_left (by decide))
  · simp only [if_true]
    cases d
    · rw [extendAlong_inner (hc .z (.inl rfl) (by decide)), extendAlong_inner (hc .y (.inl rfl) (by decide))]
    · rw [extendAlong_inner (hc .z (.inl rfl) (by decide))]
      exact key .y _ _ fun a p iv => extendAlong_inner (hx .y (by decide) a (by decide))
    · refine key .z _ _ fun a p iv => ?_
      rw [extendAlong_inner (hy .z (by decide) a (by decide)), extendAlong_inner (hx .z (by decide) a (by decide))]

theorem pointState_congr {d3 : Bool} {N : ℕ} {r : ℝ} {d : Dir} {u v : Vals ℝ} {c c' : Cell}
    (h : ∀ p iv, u c p iv = v c' p iv) (p : Pt) :
    pointState d3 N r d u c p = pointState d3 N r d v c' p := by
  unfold pointState
  simp only [h]

theorem not_behind {d : Dir} {B : Sides} (h : lowBC B d = .periodic ∧ highBC B d = .periodic) (n g c : Int) :
    behindWall n g (lowBC B d) (highBC B d) c = false := by
  rw [h.1, h.2]
  have : (BC.periodic == BC.reflecting) = false := rfl
  simp [behindWall, this]

theorem setCoord_down (d : Dir) (c : Cell) (a : Int) : (setCoord d c a).down d = setCoord d c (a - 1) := by
  cases d <;> rfl

theorem coord_down' (d e : Dir) (c : Cell) : coord e (c.down d) = if e = d then coord e c - 1 else coord e c := by
  cases d <;> cases e <;> rfl

theorem Beside.down {d3 : Bool} {P : Grid} {d : Dir} {c : Cell} (h : Beside d3 P d c) :
    Beside d3 P d (c.down d) := by
  intro e h1 h2
  rw [coord_down', if_neg h2]
  exact h e h1 h2

theorem Beside.set {d3 : Bool} {P : Grid} {d : Dir} {c : Cell} (h : Beside d3 P d c) (a : Int) :
    Beside d3 P d (setCoord d c a) := by
  intro e h1 h2
  rw [coord_set_ne h2]
  exact h e h1 h2

section
variable {M : Scheme ℝ} {P : Grid} {B : Sides}

/-- Periodic axis: the states beyond one side are those behind the other. -/
theorem extended_period (hs : Setup M P B) {d : Dir} (hd : M.d3 = true ∨ d ≠ .z)
    (h : lowBC B d = .periodic ∧ highBC B d = .periodic) {c : Cell} (hc : Beside M.d3 P d c) {x : Int}
    (h0 : 0 ≤ x) (h1 : x < 2 * P.ghostWidth) (u : Vals ℝ) (p : Pt) (iv : ℕ) :
    extended M.d3 M.N P B u (setCoord d c (x + interior P d)) p iv =
      extended M.d3 M.N P B u (setCoord d c x) p iv := by
  rw [extended_axis hd (hc.set _), extended_axis hd (hc.set _)]
  unfold extendAlong crossPt crossIdx
  rw [not_behind h, not_behind h, h.1, h.2, coord_setCoord, coord_setCoord,
    source_periodic (hs.wide d hd) h0 h1, setCoord_setCoord, setCoord_setCoord]

theorem faceMean_period (hs : Setup M P B) {d : Dir} (hd : M.d3 = true ∨ d ≠ .z)
    (h : lowBC B d = .periodic ∧ highBC B d = .periodic) {c : Cell} (hc : Beside M.d3 P d c) (S : Settings ℝ)
    (f : Dir → HState ℝ → HState ℝ) (g : Dir → HState ℝ → HState ℝ → HState ℝ) (u : Vals ℝ) (iv : ℕ) :
    faceMean M.d3 M.N S f g (extended M.d3 M.N P B u) iv d (setCoord d c P.ghostWidth) =
      faceMean M.d3 M.N S f g (extended M.d3 M.N P B u) iv d
        (setCoord d c (P.ghostWidth + interior P d)) := by
  have hg := hs.gw
  have e1 := fun p iv => extended_period hs hd h hc (x := P.ghostWidth) (by omega) (by omega) u p iv
  have e2 := fun p iv => extended_period hs hd h hc (x := P.ghostWidth - 1) (by omega) (by omega) u p iv
  have e3 : P.ghostWidth + interior P d - 1 = P.ghostWidth - 1 + interior P d := by omega
  unfold faceMean pointFlux
  simp only [Pt.set_get_same, if_true, setCoord_down, e3]
  congr 2
  funext p
  rw [pointState_congr (c := setCoord d c (P.ghostWidth - 1 + interior P d)) e2,
    pointState_congr (c := setCoord d c (P.ghostWidth + interior P d)) e1]

end

end Verif.Sdm
