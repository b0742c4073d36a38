import Mathlib.Tactic.NormNum
import Mathlib.Tactic.Ring
import Verif.Lemmas.MoodGeometry
import Verif.Props.C40_C41_Monomials

/-! C70: integer powers and `polynomial_setCoefs` of the MOOD solver. -/

namespace Verif.Mood

open Verif ROps

/-- C70: `power` returns the power for every exponent. -/
theorem C70_power (x : ℝ) (n : ℕ) : power x n = x ^ n := by
  induction n using Nat.strong_induction_on with
  | _ n ih =>
    rw [power]
    by_cases h0 : n = 0
    · simp [h0, lit]
    · rw [dif_neg h0]
      have ih' := ih (n / 2) (by omega)
      by_cases h1 : n % 2 = 1
      · rw [if_pos h1, ih', mul_assoc, ← pow_add, ← pow_succ']
        congr 1; omega
      · rw [if_neg h1, ih', ← pow_add]
        congr 1; omega

/-- C70: `mypow` returns the power for exponents up to 9. -/
theorem C70_mypow (x : ℝ) (n : ℕ) (h : n ≤ 9) : mypow x n = x ^ n := by
  unfold mypow
  interval_cases n <;> simp [C70_power, lit, pow_two]

/-- C70: from exponent 10 on `mypow` returns 0, which is wrong for every non-zero base. -/
theorem C70_mypow_fails (x : ℝ) (n : ℕ) (h : 10 ≤ n) (hx : x ≠ 0) :
    mypow x n = 0 ∧ mypow x n ≠ x ^ n := by
  have h0 : mypow x n = 0 := by
    unfold mypow
    repeat rw [if_neg (by omega)]
    simp [lit]
  exact ⟨h0, by rw [h0]; exact (pow_ne_zero n hx).symm⟩

example : (10 : ℕ) ≤ 12 ∧ (2 : ℝ) ≠ 0 := ⟨by omega, two_ne_zero⟩

theorem setCoefs_fold (p : ℕ → Bool) (v : ℝ) (coefs : ℕ → ℝ) (n : ℕ) :
    (List.range n).foldl (fun c i => if p i then Function.update c i v else c) coefs
      = fun i => if i < n ∧ p i = true then v else coefs i := by
  induction n with
  | zero => simp
  | succ n ih =>
    rw [List.range_succ, List.foldl_append, ih]
    funext i
    simp only [List.foldl_cons, List.foldl_nil]
    by_cases hp : p n
    · rw [if_pos hp]
      by_cases hi : i = n
      · subst hi; simp [hp]
      · rw [Function.update_of_ne hi]
        by_cases hpi : p i <;> simp [hpi]
        congr 1; exact propext ⟨fun h => by omega, fun h => by omega⟩
    · rw [if_neg hp]
      by_cases hi : i = n
      · subst hi; simp [hp]
      · by_cases hpi : p i <;> simp [hpi]
        congr 1; exact propext ⟨fun h => by omega, fun h => by omega⟩

theorem setCoefs_eq (dim nc : ℕ) (mm : ℕ → ℕ → ℕ) (e : ℕ → ℕ) (v : ℝ) (coefs : ℕ → ℝ) :
    polynomial_setCoefs dim nc mm e v coefs
      = fun i => if i < nc ∧ (∀ j < dim, mm i j = e j) then v else coefs i := by
  unfold polynomial_setCoefs
  rw [setCoefs_fold (fun i => (List.range dim).all (fun j => mm i j == e j))]
  funext i
  simp [List.all_eq_true]

/-- C70: with the table of any degree (dimension 2 or 3), setting the coefficient of an exponent
vector of admissible total degree changes exactly one coefficient: the one of the row holding this
vector. -/
theorem C70_setCoefs (dim degree fuel : ℕ) (hd : dim = 2 ∨ dim = 3)
    (hf : (degree + dim).choose degree < fuel)
    (data : ℕ → Option (List ℕ)) (hdata : init_map dim degree fuel = some data)
    (e : ℕ → ℕ) (he : ∑ j ∈ Finset.range dim, e j ≤ degree) :
    ∃ k < (degree + dim).choose degree, (∀ j < dim, monomExp data k j = e j) ∧
      ∀ (v : ℝ) (coefs : ℕ → ℝ),
        polynomial_setCoefs dim ((degree + dim).choose degree) (monomExp data) e v coefs
          = Function.update coefs k v := by
  obtain ⟨data', h', hrow, hbeyond, huniq, -, -⟩ := C40_table dim degree fuel hd hf
  obtain rfl : data' = data := Option.some.inj (h'.symm.trans hdata)
  have hlen : ((List.range dim).map e).length = dim := by simp
  have hsum : ((List.range dim).map e).sum ≤ degree := by
    rcases hd with rfl | rfl <;>
      simpa [List.range_succ, Finset.sum_range_succ, ← add_assoc] using he
  obtain ⟨k, hk, hku⟩ := huniq _ hlen hsum
  have hk' : data' k = some ((List.range dim).map e) := hk
  have hkn : k < (degree + dim).choose degree := by
    by_contra hc
    rw [hbeyond k (by omega)] at hk'
    cases hk'
  have hke : ∀ j < dim, monomExp data' k j = e j := by
    intro j hj
    simp [monomExp, hk', List.getD_eq_getElem?_getD, hj]
  refine ⟨k, hkn, hke, ?_⟩
  intro v coefs
  rw [setCoefs_eq]
  funext i
  by_cases hi : i = k
  · subst hi
    simp only [Function.update_self]
    rw [if_pos ⟨hkn, hke⟩]
  · rw [Function.update_of_ne hi, if_neg]
    rintro ⟨hin, hie⟩
    apply hi
    apply hku
    obtain ⟨r, hr, hrl, -⟩ := hrow i hin
    show data' i = _
    rw [hr]
    congr 1
    apply List.ext_getElem
    · simp [hrl]
    · intro n h1 h2
      have := hie n (by omega)
      simpa [monomExp, hr, List.getD_eq_getElem?_getD, h1] using this

/-- C70: an exponent vector above the degree sets nothing. -/
theorem C70_setCoefs_above (dim degree fuel : ℕ) (hd : dim = 2 ∨ dim = 3)
    (hf : (degree + dim).choose degree < fuel)
    (data : ℕ → Option (List ℕ)) (hdata : init_map dim degree fuel = some data)
    (e : ℕ → ℕ) (he : degree < ∑ j ∈ Finset.range dim, e j) (v : ℝ) (coefs : ℕ → ℝ) :
    polynomial_setCoefs dim ((degree + dim).choose degree) (monomExp data) e v coefs = coefs := by
  obtain ⟨data', h', hrow, -, -, -, -⟩ := C40_table dim degree fuel hd hf
  obtain rfl : data' = data := Option.some.inj (h'.symm.trans hdata)
  rw [setCoefs_eq]
  funext i
  rw [if_neg]
  rintro ⟨hin, hie⟩
  obtain ⟨r, hr, hrl, hrs⟩ := hrow i hin
  have : ∑ j ∈ Finset.range dim, e j = r.sum := by
    rw [Finset.sum_congr rfl (fun j hj => (hie j (Finset.mem_range.1 hj)).symm)]
    rcases hd with rfl | rfl
    · match r, hrl with
      | [a, b], _ => simp [monomExp, hr, Finset.sum_range_succ]
    · match r, hrl with
      | [a, b, c], _ => simp [monomExp, hr, Finset.sum_range_succ]; omega
  omega

/-- C70 (2D): setting the coefficient of `x^a y^b` to `v` in a polynomial all of whose coefficients
are 0 gives the polynomial `v x^a y^b`; in general the value of the polynomial changes by
`(v - old) x^a y^b`. -/
theorem C70_monomial_2D (degree fuel : ℕ) (hf : (degree + 2).choose degree < fuel)
    (data : ℕ → Option (List ℕ)) (hdata : init_map 2 degree fuel = some data)
    (a b : ℕ) (h : a + b ≤ degree) (v : ℝ) (coefs : ℕ → ℝ) :
    ∃ k < (degree + 2).choose degree, ∀ x y : ℝ,
      eval2 (monomExp data) ((degree + 2).choose degree) x y
        (polynomial_setCoefs 2 ((degree + 2).choose degree) (monomExp data)
          (fun j => if j = 0 then a else b) v coefs)
      = eval2 (monomExp data) ((degree + 2).choose degree) x y coefs
          + (v - coefs k) * x ^ a * y ^ b := by
  obtain ⟨k, hk, hke, hset⟩ := C70_setCoefs 2 degree fuel (Or.inl rfl) hf data hdata
    (fun j => if j = 0 then a else b) (by simpa [Finset.sum_range_succ] using h)
  refine ⟨k, hk, fun x y => ?_⟩
  rw [hset, eval2_real, eval2_real]
  have h0 := hke 0 (by omega)
  have h1 := hke 1 (by omega)
  simp only [if_true, if_neg one_ne_zero] at h0 h1
  rw [← Finset.add_sum_erase _ _ (Finset.mem_range.2 hk),
    ← Finset.add_sum_erase (Finset.range _) (fun i => coefs i * x ^ _ * y ^ _)
      (Finset.mem_range.2 hk)]
  rw [Finset.sum_congr rfl (fun i hi => by
    rw [Function.update_of_ne (Finset.ne_of_mem_erase hi)])]
  simp only [Function.update_self, h0, h1]
  ring

/-- C70 (3D): the same for `x^a y^b z^c`. -/
theorem C70_monomial_3D (degree fuel : ℕ) (hf : (degree + 3).choose degree < fuel)
    (data : ℕ → Option (List ℕ)) (hdata : init_map 3 degree fuel = some data)
    (a b c : ℕ) (h : a + b + c ≤ degree) (v : ℝ) (coefs : ℕ → ℝ) :
    ∃ k < (degree + 3).choose degree, ∀ x y z : ℝ,
      eval3 (monomExp data) ((degree + 3).choose degree) x y z
        (polynomial_setCoefs 3 ((degree + 3).choose degree) (monomExp data)
          (fun j => if j = 0 then a else if j = 1 then b else c) v coefs)
      = eval3 (monomExp data) ((degree + 3).choose degree) x y z coefs
          + (v - coefs k) * x ^ a * y ^ b * z ^ c := by
  obtain ⟨k, hk, hke, hset⟩ := C70_setCoefs 3 degree fuel (Or.inr rfl) hf data hdata
    (fun j => if j = 0 then a else if j = 1 then b else c)
    (by simpa [Finset.sum_range_succ] using h)
  refine ⟨k, hk, fun x y z => ?_⟩
  rw [hset, eval3_real, eval3_real]
  have h0 : monomExp data k 0 = a := by simpa using hke 0 (by omega)
  have h1 : monomExp data k 1 = b := by simpa using hke 1 (by omega)
  have h2 : monomExp data k 2 = c := by simpa using hke 2 (by omega)
  rw [← Finset.add_sum_erase _ _ (Finset.mem_range.2 hk),
    ← Finset.add_sum_erase (Finset.range _) (fun i => coefs i * x ^ _ * y ^ _ * z ^ _)
      (Finset.mem_range.2 hk)]
  rw [Finset.sum_congr rfl (fun i hi => by
    rw [Function.update_of_ne (Finset.ne_of_mem_erase hi)])]
  simp only [Function.update_self, h0, h1, h2]
  ring

/-- the hypotheses are met: degree 2, the monomials `x y` and `x z` -/
example : (∃ data, init_map 2 2 7 = some data) ∧ (∃ data, init_map 3 2 11 = some data) := by
  obtain ⟨d, hd, -⟩ := C40_table 2 2 7 (Or.inl rfl) (by decide)
  obtain ⟨d', hd', -⟩ := C40_table 3 2 11 (Or.inr rfl) (by decide)
  exact ⟨⟨d, hd⟩, d', hd'⟩

end Verif.Mood
