import Verif.Spec.Riemann2d
import Verif.Props.C102_InitHydro
import Mathlib.Data.List.TakeWhile

/-! # C105: the two-dimensional Riemann problems -/

namespace Verif

open Spec ROps TOps

variable {S : Settings ℝ} {P : Grid} {D : Domain ℝ} {B : Sides} {m m' : Addr → ℝ}

section helpers

/-- Tolerance. -/
def tolQ : ℚ := 1 / 1000

/-- Test for one wave, on rational numbers. -/
def waveTest (dl pl nl tl dr pr nr tr : ℚ) : Wave → Bool
  | .contact => |pl - pr| ≤ tolQ && |nl - nr| ≤ tolQ
  | .shock =>
    let q := (pr - pl) * (dr - dl) / (dl * dr)
    |tl - tr| ≤ tolQ && 0 ≤ nl - nr - tolQ && (nl - nr - tolQ) ^ 2 ≤ q && q ≤ (nl - nr + tolQ) ^ 2 &&
      |dr * (6 * pl + pr) - dl * (6 * pr + pl)| ≤ tolQ * (dl * (6 * pr + pl))
  | .rarefaction =>
    let a := min (7 / 5 * pl / dl) (7 / 5 * pr / dr)
    let b := max (7 / 5 * pl / dl) (7 / 5 * pr / dr)
    let x := nr - nl - tolQ
    let y := nr - nl + tolQ
    |tl - tr| ≤ tolQ && 0 ≤ a && 0 ≤ x && 0 ≤ 25 * (b - a) - x ^ 2 &&
      100 * a * x ^ 2 ≤ (25 * (b - a) - x ^ 2) ^ 2 &&
      0 ≤ y && 0 ≤ 25 * (b - a) - y ^ 2 && (25 * (b - a) - y ^ 2) ^ 2 ≤ 100 * a * y ^ 2 &&
      |pl ^ 5 * dr ^ 7 - pr ^ 5 * dl ^ 7| ≤ 5 * tolQ * (pr ^ 5 * dl ^ 7)

theorem castLe {a b : ℚ} (h : a ≤ b) : (a : ℝ) ≤ (b : ℝ) := by exact_mod_cast h

theorem root_diff {a b x y d : ℝ} (ha : 0 ≤ a) (hx : 0 ≤ x) (hy : 0 ≤ y)
    (h1 : 0 ≤ 25 * (b - a) - x ^ 2) (h2 : 100 * a * x ^ 2 ≤ (25 * (b - a) - x ^ 2) ^ 2)
    (h3 : 0 ≤ 25 * (b - a) - y ^ 2) (h4 : (25 * (b - a) - y ^ 2) ^ 2 ≤ 100 * a * y ^ 2)
    (hd : d = √b - √a) : x ≤ 5 * d ∧ 5 * d ≤ y := by
  have hb : 0 ≤ b := by nlinarith [sq_nonneg x]
  have sa := Real.sq_sqrt ha
  have sb := Real.sq_sqrt hb
  have na := Real.sqrt_nonneg a
  have nb := Real.sqrt_nonneg b
  subst hd
  have e1 : 10 * √a * x ≤ 25 * (b - a) - x ^ 2 := by
    refine abs_le_of_sq_le_sq' ?_ h1 |>.2
    nlinarith
  have e2 : 25 * (b - a) - y ^ 2 ≤ 10 * √a * y := by
    refine abs_le_of_sq_le_sq' ?_ (by positivity) |>.2
    nlinarith
  constructor
  · have : 5 * √a + x ≤ 5 * √b := by
      refine abs_le_of_sq_le_sq' ?_ (by positivity) |>.2
      nlinarith
    linarith
  · have : 5 * √b ≤ 5 * √a + y := by
      refine abs_le_of_sq_le_sq' ?_ (by positivity) |>.2
      nlinarith
    linarith

theorem joins_of_test {dl pl nl tl dr pr nr tr : ℚ} {w : Wave}
    (h : waveTest dl pl nl tl dr pr nr tr w = true) :
    Wave.joins (1 / 1000) ⟨dl, pl, nl, tl⟩ ⟨dr, pr, nr, tr⟩ w := by
  have ht : ((tolQ : ℚ) : ℝ) = 1 / 1000 := by norm_num [tolQ]
  cases w with
  | contact =>
    simp only [waveTest, Bool.and_eq_true, decide_eq_true_eq] at h
    have h1 := castLe h.1
    have h2 := castLe h.2
    rw [ht] at h1 h2
    push_cast at h1 h2
    exact ⟨h1, h2⟩
  | shock =>
    simp only [waveTest, Bool.and_eq_true, decide_eq_true_eq] at h
    obtain ⟨⟨⟨⟨h1, h2⟩, h3⟩, h4⟩, h5⟩ := h
    have h1 := castLe h1
    have h2 := castLe h2
    have h3 := castLe h3
    have h4 := castLe h4
    have h5 := castLe h5
    push_cast [ht] at h1 h2 h3 h4 h5
    refine ⟨h1, ?_, h5⟩
    have a1 := Real.le_sqrt_of_sq_le h3
    have a2 := Real.sqrt_le_sqrt h4
    rw [Real.sqrt_sq (by linarith)] at a2
    rw [abs_le]
    exact ⟨by linarith, by linarith⟩
  | rarefaction =>
    simp only [waveTest, Bool.and_eq_true, decide_eq_true_eq] at h
    obtain ⟨⟨⟨⟨⟨⟨⟨⟨h1, h2⟩, h3⟩, h4⟩, h5⟩, h6⟩, h7⟩, h8⟩, h9⟩ := h
    have h1 := castLe h1
    have h2 := castLe h2
    have h3 := castLe h3
    have h4 := castLe h4
    have h5 := castLe h5
    have h6 := castLe h6
    have h7 := castLe h7
    have h8 := castLe h8
    have h9 := castLe h9
    push_cast [ht] at h1 h2 h3 h4 h5 h6 h7 h8 h9
    refine ⟨h1, ?_, h9⟩
    have key := root_diff h2 h3 h6 h4 h5 h7 h8 rfl
    have e : |√(7 / 5 * (pr : ℝ) / dr) - √(7 / 5 * (pl : ℝ) / dl)| =
        √(max (7 / 5 * (pl : ℝ) / dl) (7 / 5 * pr / dr)) - √(min (7 / 5 * (pl : ℝ) / dl) (7 / 5 * pr / dr)) := by
      rcases le_total (7 / 5 * (pl : ℝ) / dl) (7 / 5 * pr / dr) with c | c
      · rw [max_eq_right c, min_eq_left c, abs_of_nonneg (sub_nonneg.2 (Real.sqrt_le_sqrt c))]
      · rw [max_eq_left c, min_eq_right c, abs_of_nonpos (sub_nonpos.2 (Real.sqrt_le_sqrt c))]
        ring
    show |((nr : ℝ) - nl) - 5 * (|√(7 / 5 * (pr : ℝ) / dr) - √(7 / 5 * (pl : ℝ) / dl)|)| ≤ 1 / 1000
    rw [e, abs_le]
    exact ⟨by linarith [key.2], by linarith [key.1]⟩

/-- Some wave passes. -/
def someWave (dl pl nl tl dr pr nr tr : ℚ) : Bool :=
  waveTest dl pl nl tl dr pr nr tr .contact || waveTest dl pl nl tl dr pr nr tr .shock ||
    waveTest dl pl nl tl dr pr nr tr .rarefaction

theorem joins_of_some {dl pl nl tl dr pr nr tr : ℚ} (h : someWave dl pl nl tl dr pr nr tr = true) :
    ∃ w, Wave.joins (1 / 1000) ⟨dl, pl, nl, tl⟩ ⟨dr, pr, nr, tr⟩ w := by
  simp only [someWave, Bool.or_eq_true] at h
  rcases h with (h | h) | h
  exacts [⟨_, joins_of_test h⟩, ⟨_, joins_of_test h⟩, ⟨_, joins_of_test h⟩]

/-- All four interfaces pass. -/
def fourTest (q : Quadrants ℚ) : Bool :=
  someWave q.U1.d q.U1.p q.U1.u q.U1.v q.U0.d q.U0.p q.U0.u q.U0.v &&
  someWave q.U2.d q.U2.p q.U2.u q.U2.v q.U3.d q.U3.p q.U3.u q.U3.v &&
  someWave q.U2.d q.U2.p q.U2.v q.U2.u q.U1.d q.U1.p q.U1.v q.U1.u &&
  someWave q.U3.d q.U3.p q.U3.v q.U3.u q.U0.d q.U0.p q.U0.v q.U0.u

theorem four_of_test {q : Quadrants ℚ} (h : fourTest q = true) : FourWaves (1 / 1000) q := by
  simp only [fourTest, Bool.and_eq_true] at h
  obtain ⟨⟨⟨h1, h2⟩, h3⟩, h4⟩ := h
  exact ⟨joins_of_some h1, joins_of_some h2, joins_of_some h3, joins_of_some h4⟩

/-- Numbers that select no case. -/
theorem config_default {n : Int} (h : n < 0 ∨ 17 < n) : getRiemannConfig2d n = riemannDefault := by
  by_cases e : n = 18
  · subst e; rfl
  · unfold getRiemannConfig2d
    rw [List.dropWhile_eq_nil_iff.2]
    · rfl
    · intro c hc
      have : ∀ c ∈ riemannCases, 0 ≤ c.label ∧ c.label ≤ 18 := by decide +kernel
      have := this c hc
      simp only [decide_eq_true_eq]
      omega

theorem config_all (p : Quadrants ℚ → Prop) (hd : p riemannDefault)
    (h : ∀ n : Fin 18, p (getRiemannConfig2d n)) (n : Int) : p (getRiemannConfig2d n) := by
  by_cases hn : n < 0 ∨ 17 < n
  · rw [config_default hn]; exact hd
  · have := h ⟨n.toNat, by omega⟩
    have e : ((⟨n.toNat, by omega⟩ : Fin 18) : Int) = n := by
      simp only; omega
    rwa [e] at this

/-- No wave joins sides of different pressure and tangential velocity. -/
theorem no_wave {l r : Side} {tol : ℝ} (hp : tol < |l.p - r.p|) (ht : tol < |l.ut - r.ut|) (w : Wave) :
    ¬ Wave.joins tol l r w := by
  cases w
  · exact fun h => absurd h.1 (not_le.2 hp)
  · exact fun h => absurd h.1 (not_le.2 ht)
  · exact fun h => absurd h.1 (not_le.2 ht)

end helpers

/-- **C105**: for every configuration number other than 5 and 9, the four interfaces of the table are elementary
waves, to one part in a thousand. -/
theorem C105_waves (n : Int) (h5 : n ≠ 5) (h9 : n ≠ 9) :
    FourWaves (1 / 1000) (getRiemannConfig2d n) := by
  have key : n ≠ 5 ∧ n ≠ 9 → FourWaves (1 / 1000) (getRiemannConfig2d n) := by
    by_cases hn : n < 0 ∨ 17 < n
    · rw [config_default hn]
      exact fun _ => four_of_test (by decide +kernel)
    · have all : ∀ n : Fin 18, (n : Int) ≠ 5 ∧ (n : Int) ≠ 9 →
          fourTest (getRiemannConfig2d (n : Int)) = true := by decide +kernel
      intro h
      have e : (((⟨n.toNat, by omega⟩ : Fin 18) : Nat) : Int) = n := by simp only; omega
      have := all ⟨n.toNat, by omega⟩
      rw [e] at this
      exact four_of_test (this h)
  exact key ⟨h5, h9⟩

/-- **C105** is false for configuration number 5: the pressure jumps at the interfaces meant to be contacts. -/
theorem C105_config5_wrong : ¬ FourWaves (1 / 10) (getRiemannConfig2d 5) := by
  rintro ⟨⟨w, hw⟩, -⟩
  have e1 : (getRiemannConfig2d 5).U1.p = 1 / 2 := by decide +kernel
  have e2 : (getRiemannConfig2d 5).U0.p = 1 := by decide +kernel
  have e3 : (getRiemannConfig2d 5).U1.v = 1 / 2 := by decide +kernel
  have e4 : (getRiemannConfig2d 5).U0.v = -1 / 2 := by decide +kernel
  refine no_wave ?_ ?_ w hw
  · show (1 : ℝ) / 10 < |((getRiemannConfig2d 5).U1.p : ℝ) - ((getRiemannConfig2d 5).U0.p : ℝ)|
    rw [e1, e2]
    push_cast; rw [abs_of_neg] <;> norm_num
  · show (1 : ℝ) / 10 < |((getRiemannConfig2d 5).U1.v : ℝ) - ((getRiemannConfig2d 5).U0.v : ℝ)|
    rw [e3, e4]
    push_cast; rw [abs_of_pos] <;> norm_num

/-- **C105** is false for configuration number 9: the interface between the right quadrants is meant to be a
rarefaction, but the velocity of one side does not fit. -/
theorem C105_config9_wrong : ¬ FourWaves (3 / 1000) (getRiemannConfig2d 9) := by
  rintro ⟨-, -, -, w, hw⟩
  have e1 : (getRiemannConfig2d 9).U3 = ⟨4562 / 10000, 3333 / 10000, 0, -4259 / 10000, 0⟩ := by
    have h1 : (getRiemannConfig2d 9).U3.d = 4562 / 10000 := by decide +kernel
    have h2 : (getRiemannConfig2d 9).U3.p = 3333 / 10000 := by decide +kernel
    have h3 : (getRiemannConfig2d 9).U3.u = 0 := by decide +kernel
    have h4 : (getRiemannConfig2d 9).U3.v = -4259 / 10000 := by decide +kernel
    have h5 : (getRiemannConfig2d 9).U3.w = 0 := by decide +kernel
    calc (getRiemannConfig2d 9).U3 = ⟨(getRiemannConfig2d 9).U3.d, (getRiemannConfig2d 9).U3.p,
          (getRiemannConfig2d 9).U3.u, (getRiemannConfig2d 9).U3.v, (getRiemannConfig2d 9).U3.w⟩ := rfl
      _ = _ := by rw [h1, h2, h3, h4, h5]
  have e2 : (getRiemannConfig2d 9).U0 = ⟨1, 1, 0, 4297 / 10000, 0⟩ := by
    have h1 : (getRiemannConfig2d 9).U0.d = 1 := by decide +kernel
    have h2 : (getRiemannConfig2d 9).U0.p = 1 := by decide +kernel
    have h3 : (getRiemannConfig2d 9).U0.u = 0 := by decide +kernel
    have h4 : (getRiemannConfig2d 9).U0.v = 4297 / 10000 := by decide +kernel
    have h5 : (getRiemannConfig2d 9).U0.w = 0 := by decide +kernel
    calc (getRiemannConfig2d 9).U0 = ⟨(getRiemannConfig2d 9).U0.d, (getRiemannConfig2d 9).U0.p,
          (getRiemannConfig2d 9).U0.u, (getRiemannConfig2d 9).U0.v, (getRiemannConfig2d 9).U0.w⟩ := rfl
      _ = _ := by rw [h1, h2, h3, h4, h5]
  rw [e1, e2] at hw
  cases w with
  | contact =>
    have := hw.1
    simp only [alongY] at this
    push_cast at this
    rw [abs_le] at this
    norm_num at this
  | shock =>
    have := (abs_le.1 hw.2.1).1
    simp only [alongY] at this
    push_cast at this
    have h0 := Real.sqrt_nonneg ((((1 : ℝ) - 3333 / 10000) * (1 - 4562 / 10000) / (4562 / 10000 * 1)))
    norm_num at this h0
    linarith
  | rarefaction =>
    have := (abs_le.1 hw.2.1).1
    simp only [alongY] at this
    push_cast at this
    have a1 : (11832 / 10000 : ℝ) ≤ √(7 / 5 * 1 / 1) := Real.le_sqrt_of_sq_le (by norm_num)
    have a2 : √(7 / 5 * (3333 / 10000) / (4562 / 10000)) ≤ (10114 / 10000 : ℝ) :=
      Real.sqrt_le_iff.2 ⟨by norm_num, by norm_num⟩
    have a3 := le_abs_self (√(7 / 5 * 1 / 1) - √(7 / 5 * (3333 / 10000 : ℝ) / (4562 / 10000)))
    linarith

/-- The 19th configuration (density, pressure and velocity in the four quadrants) cannot be selected: its
number, 18, gives the first configuration, as do all numbers outside the table. -/
theorem C105_config18_wrong : getRiemannConfig2d 18 = getRiemannConfig2d 0 ∧
    ∀ n, ¬ ((getRiemannConfig2d n).U0.v = 3 / 10 ∧ (getRiemannConfig2d n).U1.v = -3 / 10 ∧
      (getRiemannConfig2d n).U2.v = 2145 / 10000 ∧ (getRiemannConfig2d n).U3.v = -4259 / 10000) := by
  refine ⟨rfl, fun n => ?_⟩
  exact config_all (fun q => ¬ (q.U0.v = 3 / 10 ∧ q.U1.v = -3 / 10 ∧ q.U2.v = 2145 / 10000 ∧
    q.U3.v = -4259 / 10000)) (by decide +kernel) (by decide +kernel) n

/-- **C105**: the numbers from 0 to 17 select different problems; all others select the first one. -/
theorem C105_numbers : (∀ a b : Int, 0 ≤ a → a ≤ 17 → 0 ≤ b → b ≤ 17 →
      getRiemannConfig2d a = getRiemannConfig2d b → a = b) ∧
    ∀ n, n < 0 ∨ 17 < n → getRiemannConfig2d n = getRiemannConfig2d 0 := by
  refine ⟨fun a b h1 h2 h3 h4 h => ?_, fun n hn => (config_default hn).trans rfl⟩
  have all : ∀ a b : Fin 18, [(getRiemannConfig2d (a : Int)).U0.d, (getRiemannConfig2d (a : Int)).U0.v,
        (getRiemannConfig2d (a : Int)).U1.u, (getRiemannConfig2d (a : Int)).U2.d,
        (getRiemannConfig2d (a : Int)).U3.v] =
      [(getRiemannConfig2d (b : Int)).U0.d, (getRiemannConfig2d (b : Int)).U0.v,
        (getRiemannConfig2d (b : Int)).U1.u, (getRiemannConfig2d (b : Int)).U2.d,
        (getRiemannConfig2d (b : Int)).U3.v] → a = b := by decide +kernel
  have ea : (((⟨a.toNat, by omega⟩ : Fin 18) : Nat) : Int) = a := by simp only; omega
  have eb : (((⟨b.toNat, by omega⟩ : Fin 18) : Nat) : Int) = b := by simp only; omega
  have := all ⟨a.toNat, by omega⟩ ⟨b.toNat, by omega⟩ (by rw [ea, eb, h])
  rw [Fin.mk.injEq] at this
  omega

/-- **C105**: the four gases are placed in the quadrants around the chosen point. -/
theorem C105_placed {n : Int} {xt yt : ℝ} (h : BoxSetup false 4 2 P B)
    (r : Runs (hydroSetup false S P D (.fourQuadrant n xt yt)) m m') :
    Samples false S P D m' (quadrantGas (getRiemannConfig2d n) xt yt) := by
  refine samples_of h r fun c z _ => ?_
  have e : ∀ q : HState ℚ, ∀ v, v < hydroVars false → ∀ x,
      lastOf [(ID, (primToCons_2D S.gamma0 (litState q)).d), (IP, (primToCons_2D S.gamma0 (litState q)).p),
        (IU, (primToCons_2D S.gamma0 (litState q)).u), (IV, (primToCons_2D S.gamma0 (litState q)).v)] v x =
      ((gasOf q).conserved S.gamma0).get v := by
    intro q
    refine vars_dpuv ?_
    simp only [primToCons_2D, litState, gasOf, PointGas.conserved]
    rops
    refine ⟨?_, ?_, ?_, ?_⟩ <;> first | trivial | ring
  simp only [hydroValues, fourQuadrant, quadrantStates, quadrantGas]
  generalize xAt S P D c.i = x
  generalize yAt S P D c.j = y
  simp only [show ∀ a b : ℝ, ltb a b = decide (a < b) from fun _ _ => rfl, decide_eq_true_eq]
  by_cases hx : x < xt
  · rw [if_pos hx, if_neg (not_le.2 hx)]
    by_cases hy : y < yt
    · rw [if_pos hy, if_neg (not_le.2 hy)]; exact e _
    · rw [if_neg hy, if_pos (not_lt.1 hy)]; exact e _
  · rw [if_neg hx, if_pos (not_lt.1 hx)]
    by_cases hy : y < yt
    · rw [if_pos hy, if_neg (not_le.2 hy)]; exact e _
    · rw [if_neg hy, if_pos (not_lt.1 hy)]; exact e _

example (m : Addr → ℝ) (D : Domain ℝ) : ∃ m',
    Runs (hydroSetup false exampleSettings (exampleBox false .absorbing) D (.fourQuadrant 3 (4/5) (4/5))) m m' ∧
    Samples false exampleSettings (exampleBox false .absorbing) D m'
      (quadrantGas (getRiemannConfig2d 3) (4/5) (4/5)) ∧ FourWaves (1 / 1000) (getRiemannConfig2d 3) := by
  obtain ⟨m', r⟩ := example_run false .absorbing D (.fourQuadrant 3 (4/5) (4/5)) m
  exact ⟨m', r, C105_placed (exampleBox_setup false .absorbing) r, C105_waves 3 (by decide) (by decide)⟩

end Verif
