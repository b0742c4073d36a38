import Verif.Lemmas.Setup
import Mathlib.Data.Int.Log
import Mathlib.Algebra.Order.Round
import Mathlib.Tactic.Positivity
import Mathlib.Tactic.NormNum
import Mathlib.Tactic.Linarith

/-!
# C80: real parameters pass through single precision
-/

namespace Verif

open ROps

namespace Spec

/-- Finite numbers of the IEEE format binary32 (C++ `float`). -/
def IsBinary32 (x : ℝ) : Prop :=
  ∃ m e : ℤ, |m| < 2 ^ 24 ∧ -149 ≤ e ∧ e ≤ 104 ∧ x = m * (2 : ℝ) ^ e

/-- `r` is a `float` nearest to `x`. -/
def NearestBinary32 (x r : ℝ) : Prop := IsBinary32 r ∧ ∀ y, IsBinary32 y → |r - x| ≤ |y - x|

/-- A reader whose `getFloat` returns a `float`, as `ConfigMap::getFloat` is declared. -/
def FloatReader (c : ConfigReader ℝ) : Prop := ∀ s n d, IsBinary32 (c.getFloat s n d)

end Spec

open Spec

/-- The reader of the program is such a reader. -/
theorem floatReader_ofValues {strtof : Config.Str → Option ℝ} {toFloat : ℝ → ℝ}
    (h1 : ∀ s x, strtof s = some x → IsBinary32 x) (h2 : ∀ x, IsBinary32 (toFloat x))
    (v : Config.Values) : FloatReader (.ofValues strtof toFloat v) := by
  intro s n d
  show IsBinary32 ((strtof (Config.getString v s.toList n.toList [])).getD (toFloat d))
  cases e : strtof (Config.getString v s.toList n.toList []) with
  | none => exact h2 d
  | some x => exact h1 _ x e

/-- **C80**: all real parameters of a run are `float` numbers, also in a double precision build. -/
theorem C80_single_precision {b : Build} {truncate : ℝ → Int} {c : ConfigReader ℝ}
    {p : HydroParams ℝ} (hc : FloatReader c) (h : HydroParams.setup b truncate c = .ok p) :
    (IsBinary32 p.tEnd ∧ IsBinary32 p.gamma0 ∧ IsBinary32 p.cfl ∧ IsBinary32 p.slope_type ∧
      IsBinary32 p.smallc ∧ IsBinary32 p.smallr ∧ IsBinary32 p.cp ∧ IsBinary32 p.mu ∧
      IsBinary32 p.kappa) ∧
    (IsBinary32 p.xmin ∧ IsBinary32 p.xmax ∧ IsBinary32 p.ymin ∧ IsBinary32 p.ymax ∧
      IsBinary32 p.zmin ∧ IsBinary32 p.zmax) := by
  obtain ⟨-, rfl⟩ := init_ok h
  exact ⟨⟨hc _ _ _, hc _ _ _, hc _ _ _, hc _ _ _, hc _ _ _, hc _ _ _, hc _ _ _, hc _ _ _,
    hc _ _ _⟩, hc _ _ _, hc _ _ _, hc _ _ _, hc _ _ _, hc _ _ _, hc _ _ _⟩

/-- A `float` times a large power of two is an integer. -/
theorem Spec.IsBinary32.scaled {x : ℝ} (h : IsBinary32 x) : ∃ n : ℤ, x * 2 ^ 149 = n := by
  obtain ⟨m, e, -, he, -, rfl⟩ := h
  refine ⟨m * 2 ^ (e + 149).toNat, ?_⟩
  have : ((2 : ℝ) ^ e * 2 ^ 149 : ℝ) = 2 ^ (e + 149).toNat := by
    rw [← zpow_natCast, ← zpow_natCast, ← zpow_add₀ (by norm_num)]
    congr 1
    omega
  rw [mul_assoc, this]
  push_cast
  rfl

/-- **C80**: so no parameter file makes the program use the adiabatic index 1.4 of a
diatomic gas (nor does the default): the index used is never 7/5. -/
theorem C80_gamma {b : Build} {truncate : ℝ → Int} {c : ConfigReader ℝ} {p : HydroParams ℝ}
    (hc : FloatReader c) (h : HydroParams.setup b truncate c = .ok p) : p.settings.gamma0 ≠ 7 / 5 := by
  intro e
  obtain ⟨n, hn⟩ := IsBinary32.scaled (C80_single_precision hc h).1.2.1
  rw [show p.gamma0 = 7 / 5 from e] at hn
  have h5 : (7 * 2 ^ 149 : ℤ) = 5 * n := by
    have : (7 * 2 ^ 149 : ℝ) = 5 * n := by rw [← hn]; ring
    exact_mod_cast this
  omega

/-- **C80**: what is lost is at most one part in 2^24 of a number in the normal range of `float`, when the
conversion rounds to nearest. -/
theorem C80_error {x r : ℝ} (h : NearestBinary32 x r) (lo : 2 ^ (-126 : ℤ) ≤ |x|)
    (hi : |x| ≤ (2 ^ 24 - 1) * 2 ^ (104 : ℤ)) : |r - x| ≤ |x| * 2 ^ (-24 : ℤ) := by
  have x0 : 0 < |x| := lt_of_lt_of_le (by positivity) lo
  set e : ℤ := Int.log 2 |x| - 23 with he
  have e1 : (2 : ℝ) ^ (e + 23) ≤ |x| := by
    rw [he, sub_add_cancel]
    exact_mod_cast Int.zpow_log_le_self (b := 2) (by norm_num) x0
  have e2 : |x| < (2 : ℝ) ^ (e + 24) := by
    have := Int.lt_zpow_succ_log_self (b := 2) (by norm_num) |x|
    rw [show e + 24 = Int.log 2 |x| + 1 by omega]
    exact_mod_cast this
  have p0 : (0 : ℝ) < 2 ^ e := zpow_pos (by norm_num) e
  have elo : -149 ≤ e := by
    have : (2 : ℝ) ^ (-126 : ℤ) < 2 ^ (e + 24) := lt_of_le_of_lt lo e2
    have := (zpow_lt_zpow_iff_right₀ (by norm_num : (1 : ℝ) < 2)).1 this
    omega
  have ehi : e ≤ 104 := by
    have h1 : (2 : ℝ) ^ (e + 23) < 2 ^ (128 : ℤ) := by
      refine lt_of_le_of_lt (e1.trans hi) ?_
      norm_num
    have := (zpow_lt_zpow_iff_right₀ (by norm_num : (1 : ℝ) < 2)).1 h1
    omega
  set m : ℤ := round (x / 2 ^ e) with hm
  have rm : |x / 2 ^ e - m| ≤ 1 / 2 := abs_sub_round _
  have near : |m * (2 : ℝ) ^ e - x| ≤ |x| * 2 ^ (-24 : ℤ) := by
    have e3 : m * (2 : ℝ) ^ e - x = -((x / 2 ^ e - m) * 2 ^ e) := by
      field_simp
      ring
    rw [e3, abs_neg, abs_mul, abs_of_pos p0]
    have e4 : (2 : ℝ) ^ (e + 23) * 2 ^ (-24 : ℤ) = 1 / 2 * 2 ^ e := by
      rw [← zpow_add₀ (by norm_num), show e + 23 + -24 = e - 1 by ring,
        zpow_sub₀ (by norm_num), zpow_one]
      ring
    calc |x / 2 ^ e - m| * 2 ^ e ≤ 1 / 2 * 2 ^ e := by
          exact mul_le_mul_of_nonneg_right rm p0.le
      _ = (2 : ℝ) ^ (e + 23) * 2 ^ (-24 : ℤ) := e4.symm
      _ ≤ |x| * 2 ^ (-24 : ℤ) := mul_le_mul_of_nonneg_right e1 (by positivity)
  refine (h.2 _ ?_).trans near
  have mb : |m| ≤ 2 ^ 24 := by
    have h1 : |x / 2 ^ e| < 2 ^ 24 := by
      rw [abs_div, abs_of_pos p0, div_lt_iff₀ p0, ← zpow_natCast, ← zpow_add₀ (by norm_num)]
      rwa [add_comm]
    have h2 : |(m : ℝ)| < 2 ^ 24 + 1 := by
      have := abs_sub_abs_le_abs_sub (m : ℝ) (x / 2 ^ e)
      rw [abs_sub_comm] at this
      linarith
    have h3 : ((|m| : ℤ) : ℝ) < ((2 ^ 24 + 1 : ℤ) : ℝ) := by push_cast; norm_num at h2 ⊢; exact h2
    have := Int.cast_lt.1 h3
    omega
  by_cases hmm : |m| < 2 ^ 24
  · exact ⟨m, e, hmm, elo, ehi, rfl⟩
  · have hme : |m| = 2 ^ 24 := by omega
    have e104 : e ≠ 104 := by
      intro e104
      rw [e104] at rm p0
      have h1 : |x / 2 ^ (104 : ℤ)| ≤ 2 ^ 24 - 1 := by
        rw [abs_div, abs_of_pos p0, div_le_iff₀ p0]; exact hi
      have h2 : |(m : ℝ)| = 2 ^ 24 := by rw [← Int.cast_abs, hme]; norm_num
      have := abs_sub_abs_le_abs_sub (m : ℝ) (x / 2 ^ (104 : ℤ))
      rw [abs_sub_comm] at this
      linarith
    rcases (abs_eq (by norm_num)).1 hme with h1 | h1
    · refine ⟨2 ^ 23, e + 1, by norm_num, by omega, by omega, ?_⟩
      rw [h1, zpow_add₀ (by norm_num), zpow_one]
      push_cast
      ring
    · refine ⟨-2 ^ 23, e + 1, by norm_num, by omega, by omega, ?_⟩
      rw [h1, zpow_add₀ (by norm_num), zpow_one]
      push_cast
      ring

/-- 1.4 is in the normal range, so the index used is wrong by less than one part in 16 million. -/
example : (2 : ℝ) ^ (-126 : ℤ) ≤ |7 / 5| ∧ |(7 / 5 : ℝ)| ≤ (2 ^ 24 - 1) * 2 ^ (104 : ℤ) := by
  norm_num [abs_of_pos]

/-- A reader that returns floats: every real parameter is 1/2. -/
example : FloatReader ⟨fun _ _ d => d, fun _ _ _ => 1 / 2, fun _ _ d => d⟩ :=
  fun _ _ _ => ⟨1, -1, by norm_num, by norm_num, by norm_num, by norm_num⟩

end Verif
