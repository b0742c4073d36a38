import Mathlib.Data.Nat.Choose.Bounds
import Mathlib.Tactic.NormNum
import Verif.Lemmas.MoodMonomials

/-! C40, C41: binomial coefficients and the table of monomials of the MOOD solver. -/

namespace Verif.Mood

/-! ## C41 -/

/-- C41: the template `Binomial<n,k>` is `n choose k` for every `k ≤ n`. -/
theorem C41_template (n k : ℕ) (h : k ≤ n) : binomialT n k = some (n.choose k) :=
  binomialT_eq n k h

example : binomialT 8 3 = some 56 := C41_template 8 3 (by norm_num)

/-- C41: for `k > n` the template does not compile (it never yields a value). -/
theorem C41_template_undefined (n k : ℕ) (h : n < k) : binomialT n k = none := by
  induction n generalizing k with
  | zero => obtain ⟨k, rfl⟩ := Nat.exists_eq_succ_of_ne_zero (by omega : k ≠ 0); rfl
  | succ n ih =>
    obtain ⟨k, rfl⟩ := Nat.exists_eq_succ_of_ne_zero (by omega : k ≠ 0)
    unfold binomialT
    rw [if_neg (by omega), ih k (by omega)]
    rfl

theorem binomLoop_eq (n : ℕ) : ∀ (todo i : ℕ), i + todo ≤ n →
    (∀ j, i ≤ j → j < i + todo → n.choose j * (n - j) < 2 ^ 31) →
    binomLoop n i todo (n.choose i) = some ((n.choose (i + todo) : ℕ) : ℤ) := by
  intro todo
  induction todo with
  | zero => intro i _ _; rfl
  | succ todo ih =>
    intro i hi hfit
    unfold binomLoop
    have hcast : ((n.choose i : ℕ) : ℤ) * ((n : ℤ) - (i : ℤ)) = ((n.choose i * (n - i) : ℕ) : ℤ) := by
      rw [Nat.cast_mul, Nat.cast_sub (by omega)]
    have hfit' := hfit i le_rfl (by omega)
    have h32 : int32 (((n.choose i : ℕ) : ℤ) * ((n : ℤ) - (i : ℤ)))
        = some ((n.choose i * (n - i) : ℕ) : ℤ) := by
      rw [hcast]
      unfold int32
      rw [if_pos]
      constructor
      · have : (0 : ℤ) ≤ ((n.choose i * (n - i) : ℕ) : ℤ) := Int.natCast_nonneg _
        norm_num
        omega
      · exact_mod_cast hfit'
    rw [h32]
    have hdiv : Int.tdiv ((n.choose i * (n - i) : ℕ) : ℤ) ((i : ℤ) + 1)
        = ((n.choose (i + 1) : ℕ) : ℤ) := by
      rw [← Nat.choose_succ_right_eq, Nat.cast_mul]
      push_cast
      rw [Int.mul_tdiv_cancel _ (by omega)]
    show binomLoop n (i + 1) todo (Int.tdiv ((n.choose i * (n - i) : ℕ) : ℤ) ((i : ℤ) + 1)) = _
    rw [hdiv, ih (i + 1) (by omega) (fun j h1 h2 => hfit j (by omega) (by omega))]
    rw [show i + 1 + todo = i + (todo + 1) by omega]

/-- C41: the run-time function returns `n choose k` for all non-negative `n` and `k`, provided no
intermediate product exceeds the range of `int`. -/
theorem C41_binom (n k : ℕ)
    (hfit : ∀ i < min k (n - k), n.choose i * (n - i) < 2 ^ 31) :
    binom n k = some ((n.choose k : ℕ) : ℤ) := by
  unfold binom
  by_cases h1 : (n : ℤ) < k
  · rw [if_pos h1, Nat.choose_eq_zero_of_lt (by exact_mod_cast h1)]; rfl
  rw [if_neg h1]
  have hkn : k ≤ n := by omega
  by_cases h2 : (k : ℤ) = 0 ∨ (n : ℤ) = 1
  · rw [if_pos h2]
    rcases h2 with h | h
    · obtain rfl : k = 0 := by omega
      simp
    · obtain rfl : n = 1 := by omega
      have : k = 0 ∨ k = 1 := by omega
      rcases this with rfl | rfl <;> simp
  rw [if_neg h2]
  by_cases h3 : (n : ℤ) = 2 ∧ (k : ℤ) = 1
  · rw [if_pos h3]
    obtain ⟨rfl, rfl⟩ : n = 2 ∧ k = 1 := by omega
    rfl
  rw [if_neg h3]
  by_cases h4 : (n : ℤ) = 2 ∧ (k : ℤ) = 2
  · rw [if_pos h4]
    obtain ⟨rfl, rfl⟩ : n = 2 ∧ k = 2 := by omega
    rfl
  rw [if_neg h4]
  by_cases h5 : (n : ℤ) = k
  · rw [if_pos h5]
    obtain rfl : n = k := by omega
    simp
  rw [if_neg h5]
  dsimp only
  by_cases h6 : (k : ℤ) > (n : ℤ) - k
  · rw [if_pos h6, show ((n : ℤ) - k).toNat = n - k by omega]
    have := binomLoop_eq n (n - k) 0 (by omega)
      (fun j _ hj => hfit j (by rw [Nat.lt_min]; omega))
    rw [Nat.choose_zero_right] at this
    rw [show (1 : ℤ) = ((1 : ℕ) : ℤ) by rfl, this, Nat.zero_add, Nat.choose_symm hkn]
  · rw [if_neg h6, show ((k : ℤ)).toNat = k by omega]
    have := binomLoop_eq n k 0 (by omega)
      (fun j _ hj => hfit j (by rw [Nat.lt_min]; omega))
    rw [Nat.choose_zero_right] at this
    rw [show (1 : ℤ) = ((1 : ℕ) : ℤ) by rfl, this, Nat.zero_add]

/-- C41: in particular there is no overflow up to `n = 26`. -/
theorem C41_binom_small (n k : ℕ) (hn : n ≤ 26) :
    binom n k = some ((n.choose k : ℕ) : ℤ) := by
  refine C41_binom n k fun i _ => ?_
  have h1 : n.choose i ≤ 2 ^ n := Nat.choose_le_two_pow n i
  have h2 : 2 ^ n ≤ 2 ^ 26 := Nat.pow_le_pow_right (by norm_num) hn
  calc n.choose i * (n - i) ≤ 2 ^ 26 * 26 := Nat.mul_le_mul (by omega) (by omega)
    _ < 2 ^ 31 := by norm_num

/-- C41: an overflow does occur for larger arguments although the result would fit: `32 choose 16`
is `601080390 < 2^31` but the loop multiplies first. -/
theorem C41_binom_overflow :
    binom 32 16 = none ∧ Nat.choose 32 16 < 2 ^ 31 := by
  refine ⟨by decide +kernel, by decide +kernel⟩

example : binom 8 3 = some 56 := C41_binom_small 8 3 (by norm_num)

/-- C41: the closed forms used to size the tables agree with the binomial coefficient. -/
theorem C41_number_of_coefficients (order : ℕ) :
    get_number_of_coefficients 2 order = (order + 2).choose 2 ∧
    get_number_of_coefficients 3 order = (order + 3).choose 3 := by
  have h2 : ∀ n : ℕ, (n + 2).choose 2 * 2 = (n + 1) * (n + 2) := by
    intro n
    induction n with
    | zero => rfl
    | succ n ih =>
      have : (n + 3).choose 2 = (n + 2).choose 2 + (n + 2) := choose_two_succ (n + 2)
      rw [show n + 1 + 2 = n + 3 by omega, this]
      linarith [ih, show (n + 1 + 1) * (n + 3) = (n + 1) * (n + 2) + 2 * (n + 2) by ring]
  have h3 : ∀ n : ℕ, (n + 3).choose 3 * 6 = (n + 1) * (n + 2) * (n + 3) := by
    intro n
    induction n with
    | zero => rfl
    | succ n ih =>
      have e1 : (n + 4).choose 3 = (n + 3).choose 3 + (n + 3).choose 2 := choose_three_succ (n + 3)
      have e2 := h2 (n + 1)
      rw [show n + 1 + 2 = n + 3 by omega] at e2
      rw [show n + 1 + 3 = n + 4 by omega, e1]
      linarith [ih, show (n + 1 + 1) * (n + 3) * (n + 4)
        = (n + 1) * (n + 2) * (n + 3) + 3 * ((n + 1 + 1) * (n + 3)) by ring]
  unfold get_number_of_coefficients
  constructor
  · rw [if_pos rfl, ← h2 order]; omega
  · rw [if_neg (by norm_num), ← h3 order]; omega

/-! ## C40 -/

/-- C40: for dimensions 2 and 3 and every degree, the loop that fills the table of monomials ends,
never writes outside the `(degree+dim) choose degree` rows, writes every row, lists every exponent
vector of total degree at most `degree` in exactly one row and nothing else, by increasing total
degree, with the constant monomial first. -/
theorem C40_table (dim degree fuel : ℕ) (hd : dim = 2 ∨ dim = 3)
    (hf : (degree + dim).choose degree < fuel) :
    ∃ data : ℕ → Option (List ℕ), init_map dim degree fuel = some data ∧
      (∀ i < (degree + dim).choose degree,
        ∃ r, data i = some r ∧ r.length = dim ∧ r.sum ≤ degree) ∧
      (∀ i, (degree + dim).choose degree ≤ i → data i = none) ∧
      (∀ r : List ℕ, r.length = dim → r.sum ≤ degree → ∃! i, data i = some r) ∧
      (∀ i j r s, i ≤ j → data i = some r → data j = some s → r.sum ≤ s.sum) ∧
      data 0 = some (List.replicate dim 0) := by
  have hT : binomialT (degree + dim) degree = some ((degree + dim).choose degree) :=
    binomialT_eq _ _ (by omega)
  have hrow0 : row dim (fun _ => 0) = List.replicate dim 0 := by
    rcases hd with rfl | rfl <;> rfl
  have hrank0 : rank dim (fun _ => 0) = 0 := by
    rcases hd with rfl | rfl <;> decide
  obtain ⟨out, hout, hin, hbeyond⟩ := init_map_loop_spec hd degree fuel (fun _ => 0) 0
    (fun _ => none) hrank0 (by omega) (by omega)
    (fun i hi => absurd hi (by omega)) (fun _ _ => rfl)
  refine ⟨out, ?_, ?_, hbeyond, ?_, ?_, ?_⟩
  · unfold init_map
    rw [hT]
    exact hout
  · intro i hi
    obtain ⟨e, he, hr⟩ := hin i hi
    refine ⟨_, he, by simp [row], ?_⟩
    exact (rank_lt_iff hd e degree).1 (hr ▸ hi)
  · intro r hlen hsum
    -- the vector as an array
    have hr : row dim (fun j => r.getD j 0) = r := by
      apply List.ext_getElem
      · simp [row, hlen]
      · intro n h1 h2
        simp [row, List.getD_eq_getElem?_getD, h2]
    have hlt := (rank_lt_iff hd (fun j => r.getD j 0) degree).2 (by rw [hr]; exact hsum)
    obtain ⟨e, he, hre⟩ := hin _ hlt
    refine ⟨rank dim (fun j => r.getD j 0), ?_, ?_⟩
    · show out _ = some r
      rw [he, rank_inj hd hre, hr]
    · intro i hi
      by_cases hb : (degree + dim).choose degree ≤ i
      · rw [hbeyond i hb] at hi; cases hi
      · obtain ⟨e', he', hre'⟩ := hin i (by omega)
        have : row dim e' = r := Option.some.inj (he'.symm.trans hi)
        rw [← hre', rank_congr hd (this.trans hr.symm)]
  · intro i j r s hij hi hj
    by_cases hb : (degree + dim).choose degree ≤ j
    · rw [hbeyond j hb] at hj; cases hj
    · obtain ⟨e, he, hre⟩ := hin i (by omega)
      obtain ⟨e', he', hre'⟩ := hin j (by omega)
      have h1 : row dim e = r := Option.some.inj (he.symm.trans hi)
      have h2 : row dim e' = s := Option.some.inj (he'.symm.trans hj)
      rw [← h1, ← h2]
      exact rank_mono hd (by omega)
  · have hpos : 0 < (degree + dim).choose degree := Nat.choose_pos (by omega)
    obtain ⟨e, he, hre⟩ := hin 0 hpos
    rw [he, rank_inj hd (hre.trans hrank0.symm), hrow0]

/-- C40: the vector `(a, b)` is found in row `(a+b+1) choose 2 + b`. -/
theorem C40_position (degree fuel a b : ℕ) (hf : (degree + 2).choose degree < fuel)
    (h : a + b ≤ degree) :
    ∃ data : ℕ → Option (List ℕ), init_map 2 degree fuel = some data ∧
      data ((a + b + 1).choose 2 + b) = some [a, b] := by
  have hT : binomialT (degree + 2) degree = some ((degree + 2).choose degree) :=
    binomialT_eq _ _ (by omega)
  obtain ⟨out, hout, hin, -⟩ := init_map_loop_spec (Or.inl rfl) degree fuel (fun _ => 0) 0
    (fun _ => none) (by decide) (by omega) (by omega)
    (fun i hi => absurd hi (by omega)) (fun _ _ => rfl)
  refine ⟨out, ?_, ?_⟩
  · unfold init_map
    rw [hT]
    exact hout
  · have hlt := (rank_lt_iff (Or.inl rfl) (fun j => [a, b].getD j 0) degree).2
      (by simpa [row2] using h)
    obtain ⟨e, he, hre⟩ := hin _ hlt
    have : rank 2 (fun j => [a, b].getD j 0) = (a + b + 1).choose 2 + b := rfl
    rw [← this, he, rank_inj (Or.inl rfl) hre]
    rfl

example : ∃ data, init_map 3 5 100 = some data :=
  let ⟨data, h, _⟩ := C40_table 3 5 100 (Or.inr rfl) (by decide)
  ⟨data, h⟩

end Verif.Mood
