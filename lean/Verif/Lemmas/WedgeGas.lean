import Mathlib.Tactic.Linarith
import Mathlib.Tactic.FieldSimp
import Verif.Lemmas.Wedge
import Verif.Spec.Special
import Verif.Lemmas.MoodGeometry

/-! Helper lemmas: the states and the front of the wedge problem, the states of the jet, over the reals. -/

namespace Verif.Special

open Verif Sdm Spec

theorem conserved_eq (gamma rho p u v w : ℝ) :
    conserved gamma rho p u v w = PointGas.conserved gamma ⟨rho, p, u, v, w⟩ := by
  unfold conserved PointGas.conserved
  congr 1
  show p / (gamma - ((1 : ℚ) : ℝ)) + ((1 / 2 : ℚ) : ℝ) * rho * (u * u + v * v + w * w) = _
  push_cast
  ring

variable (c : ConfigReader ℝ) (t : ℝ)

theorem lit14 : (ROps.lit (14 / 10) : ℝ) = 1.4 := by
  show (((14 / 10 : ℚ)) : ℝ) = 1.4
  norm_num

theorem wedge_behind :
    (WedgeParams.make c t).behind = (wedgeShock c).behind.conserved (configGamma c) := by
  show conserved (c.getFloat "hydro" "gamma0" (ROps.lit (14 / 10)))
    (c.getFloat "wedge" "rho1" ((8 : ℚ) : ℝ)) (c.getFloat "wedge" "p1" ((1165 / 10 : ℚ) : ℝ))
    (c.getFloat "wedge" "u1" (((825 / 100 : ℚ) : ℝ) *
      Real.cos (c.getFloat "wedge" "front_angle" (Real.pi / ((3 : ℚ) : ℝ)) - Real.pi / ((2 : ℚ) : ℝ))))
    (c.getFloat "wedge" "v1" (((825 / 100 : ℚ) : ℝ) *
      Real.sin (c.getFloat "wedge" "front_angle" (Real.pi / ((3 : ℚ) : ℝ)) - Real.pi / ((2 : ℚ) : ℝ))))
    (c.getFloat "wedge" "w1" ((0 : ℚ) : ℝ)) = _
  rw [conserved_eq, lit14]
  unfold wedgeShock configGamma
  have e1 : ((8 : ℚ) : ℝ) = 8 := by norm_num
  have e2 : ((1165 / 10 : ℚ) : ℝ) = 116.5 := by norm_num
  have e3 : ((825 / 100 : ℚ) : ℝ) = 8.25 := by norm_num
  have e4 : ((3 : ℚ) : ℝ) = 3 := by norm_num
  have e5 : ((2 : ℚ) : ℝ) = 2 := by norm_num
  have e6 : ((0 : ℚ) : ℝ) = 0 := by norm_num
  rw [e1, e2, e3, e4, e5, e6, Real.cos_sub_pi_div_two, Real.sin_sub_pi_div_two]
  simp only [mul_neg, neg_mul]

theorem wedge_ahead :
    (WedgeParams.make c t).ahead = (wedgeShock c).ahead.conserved (configGamma c) := by
  show conserved (c.getFloat "hydro" "gamma0" (ROps.lit (14 / 10)))
    (c.getFloat "wedge" "rho2" (ROps.lit (14 / 10))) (c.getFloat "wedge" "p2" ((1 : ℚ) : ℝ))
    (c.getFloat "wedge" "u2" ((0 : ℚ) : ℝ)) (c.getFloat "wedge" "v2" ((0 : ℚ) : ℝ))
    (c.getFloat "wedge" "w2" ((0 : ℚ) : ℝ)) = _
  rw [conserved_eq, lit14, Rat.cast_one, Rat.cast_zero]
  rfl

theorem wedge_x0 : (WedgeParams.make c t).x_f = (wedgeShock c).x0 := by
  show c.getFloat "wedge" "front_x" ((1 / 10 : ℚ) : ℝ) = c.getFloat "wedge" "front_x" 0.1
  congr 1; norm_num

theorem wedge_angle : c.getFloat "wedge" "front_angle" (Real.pi / ((3 : ℚ) : ℝ)) = (wedgeShock c).angle := by
  have e : ((3 : ℚ) : ℝ) = 3 := by norm_num
  rw [e]
  rfl

theorem wedge_slope : (WedgeParams.make c t).slope_f = Real.tan (wedgeShock c).angle :=
  congrArg Real.tan (wedge_angle c)

theorem wedge_delta :
    (WedgeParams.make c t).delta_x = (wedgeShock c).speed / Real.sin (wedgeShock c).angle * t := by
  show c.getFloat "wedge" "shock_speed" ((10 : ℚ) : ℝ) /
    Real.cos (Real.pi / ((2 : ℚ) : ℝ) - c.getFloat "wedge" "front_angle" (Real.pi / ((3 : ℚ) : ℝ))) * t = _
  rw [wedge_angle]
  have e5 : ((2 : ℚ) : ℝ) = 2 := by norm_num
  have e6 : ((10 : ℚ) : ℝ) = 10 := by norm_num
  rw [e5, e6, Real.cos_pi_div_two_sub]
  rfl

variable {c} {t}

/-- The test of the initial condition. -/
theorem init_test (h0 : 0 < (wedgeShock c).angle) (h1 : (wedgeShock c).angle < Real.pi / 2) (x y : ℝ) :
    (WedgeParams.make c t).slope_f * (x - (WedgeParams.make c t).x_f) < y ↔ (wedgeShock c).passed 0 x y := by
  rw [wedge_slope, wedge_x0, Real.tan_eq_sin_div_cos]
  have hc : 0 < Real.cos (wedgeShock c).angle := Real.cos_pos_of_mem_Ioo ⟨by linarith, h1⟩
  unfold MovingShock.passed
  rw [div_mul_eq_mul_div, div_lt_iff₀ hc]
  constructor <;> intro h <;> linarith

/-- The test of the initial condition, for a front that leans backwards. -/
theorem init_test_obtuse (h0 : Real.pi / 2 < (wedgeShock c).angle) (h1 : (wedgeShock c).angle < Real.pi) (x y : ℝ) :
    (WedgeParams.make c t).slope_f * (x - (WedgeParams.make c t).x_f) < y ↔
      0 < (x - (wedgeShock c).x0) * Real.sin (wedgeShock c).angle - y * Real.cos (wedgeShock c).angle := by
  rw [wedge_slope, wedge_x0, Real.tan_eq_sin_div_cos]
  have hc : Real.cos (wedgeShock c).angle < 0 :=
    Real.cos_neg_of_pi_div_two_lt_of_lt h0 (by linarith)
  rw [div_mul_eq_mul_div, div_lt_iff_of_neg hc]
  constructor <;> intro h <;> linarith

/-- The test at the upper boundary. -/
theorem top_test (h0 : 0 < (wedgeShock c).angle) (h1 : (wedgeShock c).angle < Real.pi) (x y : ℝ) :
    x < (WedgeParams.make c t).x_f + y / (WedgeParams.make c t).slope_f + (WedgeParams.make c t).delta_x ↔
      (wedgeShock c).passed t x y := by
  rw [wedge_slope, wedge_x0, wedge_delta, Real.tan_eq_sin_div_cos, div_div_eq_mul_div]
  have hs : 0 < Real.sin (wedgeShock c).angle := Real.sin_pos_of_pos_of_lt_pi h0 h1
  unfold MovingShock.passed
  have : (wedgeShock c).x0 + y * Real.cos (wedgeShock c).angle / Real.sin (wedgeShock c).angle +
      (wedgeShock c).speed / Real.sin (wedgeShock c).angle * t = ((wedgeShock c).x0 * Real.sin (wedgeShock c).angle +
        y * Real.cos (wedgeShock c).angle + (wedgeShock c).speed * t) / Real.sin (wedgeShock c).angle := by
    field_simp
  rw [this, lt_div_iff₀ hs]
  constructor <;> intro h <;> linarith

theorem ltb_true {a b : ℝ} : ROps.ltb a b = true ↔ a < b := decide_eq_true_iff
theorem gtb_true {a b : ℝ} : ROps.gtb a b = true ↔ b < a := decide_eq_true_iff

theorem init_state (h0 : 0 < (wedgeShock c).angle) (h1 : (wedgeShock c).angle < Real.pi / 2) (x y : ℝ) :
    (if ROps.gtb y ((WedgeParams.make c t).slope_f * (x - (WedgeParams.make c t).x_f)) then
      (WedgeParams.make c t).behind else (WedgeParams.make c t).ahead) =
    ((wedgeShock c).gasAt 0 x y).conserved (configGamma c) := by
  unfold MovingShock.gasAt
  rw [wedge_behind, wedge_ahead]
  by_cases hp : (wedgeShock c).passed 0 x y
  · rw [if_pos (gtb_true.2 ((init_test h0 h1 x y).2 hp)), if_pos hp]
  · rw [if_neg fun e => hp ((init_test h0 h1 x y).1 (gtb_true.1 e)), if_neg hp]

theorem init_state_obtuse (h0 : Real.pi / 2 < (wedgeShock c).angle) (h1 : (wedgeShock c).angle < Real.pi)
    (x y : ℝ) :
    (if ROps.gtb y ((WedgeParams.make c t).slope_f * (x - (WedgeParams.make c t).x_f)) then
      (WedgeParams.make c t).behind else (WedgeParams.make c t).ahead) =
    (if 0 < (x - (wedgeShock c).x0) * Real.sin (wedgeShock c).angle - y * Real.cos (wedgeShock c).angle then
      (wedgeShock c).behind else (wedgeShock c).ahead).conserved (configGamma c) := by
  rw [wedge_behind, wedge_ahead]
  split_ifs with a b b
  · rfl
  · exact absurd ((init_test_obtuse h0 h1 x y).1 (gtb_true.1 a)) b
  · exact absurd (gtb_true.2 ((init_test_obtuse h0 h1 x y).2 b)) a
  · rfl

theorem xMood_eq (S : Settings ℝ) (P : Grid) (D : Domain ℝ) (i : Int) :
    xMood S P D i = D.xmin + (i - P.ghostWidth + 1 / 2) * S.dx := by
  show D.xmin + S.dx / ((2 : ℚ) : ℝ) + (((i - P.ghostWidth : Int) : ℚ) : ℝ) * S.dx = _
  push_cast; ring
theorem yMood_eq (S : Settings ℝ) (P : Grid) (D : Domain ℝ) (j : Int) :
    yMood S P D j = D.ymin + (j - P.ghostWidth + 1 / 2) * S.dy := by
  show D.ymin + S.dy / ((2 : ℚ) : ℝ) + (((j - P.ghostWidth : Int) : ℚ) : ℝ) * S.dy = _
  push_cast; ring
theorem xSdm_eq (M : Scheme ℝ) (S : Settings ℝ) (P : Grid) (D : Domain ℝ) (i : Int) (k : ℕ) :
    xSdm M S P D i k = D.xmin + (i + P.nx * D.i_mpi - P.ghostWidth + M.sp k) * S.dx := by
  show D.xmin + (((i + P.nx * D.i_mpi - P.ghostWidth : Int) : ℚ) : ℝ) * S.dx + M.sp k * S.dx = _
  push_cast; ring
theorem ySdm_eq (M : Scheme ℝ) (S : Settings ℝ) (P : Grid) (D : Domain ℝ) (i : Int) (k : ℕ) :
    ySdm M S P D i k = D.ymin + (i + P.ny * D.j_mpi - P.ghostWidth + M.sp k) * S.dy := by
  show D.ymin + (((i + P.ny * D.j_mpi - P.ghostWidth : Int) : ℚ) : ℝ) * S.dy + M.sp k * S.dy = _
  push_cast; ring
theorem zSdm_eq (M : Scheme ℝ) (S : Settings ℝ) (P : Grid) (D : Domain ℝ) (i : Int) (k : ℕ) :
    zSdm M S P D i k = D.zmin + (i + P.nz * D.k_mpi - P.ghostWidth + M.sp k) * S.dz := by
  show D.zmin + (((i + P.nz * D.k_mpi - P.ghostWidth : Int) : ℚ) : ℝ) * S.dz + M.sp k * S.dz = _
  push_cast; ring

/-! ### Regions -/

theorem region_low {d3 : Bool} {P : Grid} {f : Face} {b : Cell} (hb : P.box d3 b) (hl : isLow f = true)
    (h : coord (dirOf f) b < P.ghostWidth) : region d3 P f b := ⟨hb, by rw [if_pos hl]; exact h⟩
theorem region_high {d3 : Bool} {P : Grid} {f : Face} {b : Cell} (hb : P.box d3 b) (hl : isLow f = false)
    (h : interior P (dirOf f) + P.ghostWidth ≤ coord (dirOf f) b) : region d3 P f b :=
  ⟨hb, by rw [if_neg (by simp [hl])]; exact h⟩

theorem after_x {P : Grid} {b : Cell} (h : midY P b) : ∀ e, After false .x e → inD P e b := by
  intro e he
  cases e
  · exact he.elim
  · exact h
  · simp [After] at he
theorem after_y {P : Grid} {b : Cell} : ∀ e, After false .y e → inD P e b := by
  intro e he
  cases e <;> simp [After] at he

theorem posAll2 {P : Grid} (hg : 0 < P.ghostWidth) (hnx : 1 ≤ P.nx) (hny : P.ghostWidth ≤ P.ny) :
    PosAll false P where
  g := hg
  n d hd := by
    cases d
    · show 0 ≤ P.nx; omega
    · show 0 ≤ P.ny; omega
    · simp at hd

theorem wallSign_eq {v : ℕ} (hv : v < 4) : (ROps.lit (wallSign v) : ℝ) = if v = IV then -1 else 1 := by
  show ((wallSign v : ℚ) : ℝ) = _
  unfold wallSign
  have : IV ≤ v ↔ v = IV := by unfold IV; omega
  simp only [this]
  split_ifs <;> norm_num

/-! ### Jet -/

theorem jet_jet (g : ℝ) (hg : c.getFloat "hydro" "gamma0" (ROps.lit (5 / 3)) = g) :
    (JetParams.make c).jet = (jetGas c).conserved g := by
  show conserved (c.getFloat "hydro" "gamma0" (ROps.lit (5 / 3)))
    (c.getFloat "jet" "rho_jet" ((5 : ℚ) : ℝ)) (c.getFloat "jet" "p_jet" ((4127 / 10000 : ℚ) : ℝ))
    (c.getFloat "jet" "u_jet" ((800 : ℚ) : ℝ)) (c.getFloat "jet" "v_jet" ((0 : ℚ) : ℝ))
    (c.getFloat "jet" "w_jet" ((0 : ℚ) : ℝ)) = _
  have e1 : ((5 : ℚ) : ℝ) = 5 := by norm_num
  have e2 : ((4127 / 10000 : ℚ) : ℝ) = 0.4127 := by norm_num
  have e3 : ((800 : ℚ) : ℝ) = 800 := by norm_num
  rw [conserved_eq, hg, e1, e2, e3, Rat.cast_zero]
  rfl

theorem jet_bulk (g : ℝ) (hg : c.getFloat "hydro" "gamma0" (ROps.lit (5 / 3)) = g) :
    (JetParams.make c).bulk = (bulkGas c).conserved g := by
  show conserved (c.getFloat "hydro" "gamma0" (ROps.lit (5 / 3)))
    (c.getFloat "jet" "rho_bulk" ((1 / 2 : ℚ) : ℝ)) (c.getFloat "jet" "p_bulk" ((4127 / 10000 : ℚ) : ℝ))
    (c.getFloat "jet" "u_bulk" ((0 : ℚ) : ℝ)) (c.getFloat "jet" "v_bulk" ((0 : ℚ) : ℝ))
    (c.getFloat "jet" "w_bulk" ((0 : ℚ) : ℝ)) = _
  have e1 : ((1 / 2 : ℚ) : ℝ) = 0.5 := by norm_num
  have e2 : ((4127 / 10000 : ℚ) : ℝ) = 0.4127 := by norm_num
  rw [conserved_eq, hg, e1, e2, Rat.cast_zero]
  rfl

theorem jet_pos : (JetParams.make c).pos_jet = c.getFloat "jet" "pos_jet" 0 := by
  show c.getFloat "jet" "pos_jet" ((0 : ℚ) : ℝ) = _
  rw [Rat.cast_zero]

theorem jet_width : (JetParams.make c).width_jet = c.getFloat "jet" "width_jet" 0.1 := by
  show c.getFloat "jet" "width_jet" ((1 / 10 : ℚ) : ℝ) = _
  congr 1; norm_num

end Verif.Special
