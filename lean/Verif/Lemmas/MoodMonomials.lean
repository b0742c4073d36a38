import Mathlib.Data.Nat.Choose.Basic
import Mathlib.Data.Nat.Choose.Sum
import Mathlib.Tactic.Ring
import Mathlib.Tactic.Linarith
import Verif.Model.MoodPoly

/-! Helper lemmas on the monomial table: the position of an exponent vector. -/

namespace Verif.Mood

/-- position of an exponent vector of two variables -/
def rank2 (a b : ℕ) : ℕ := (a + b + 1).choose 2 + b

/-- position of an exponent vector of three variables -/
def rank3 (a b c : ℕ) : ℕ := (a + b + c + 2).choose 3 + ((a + b + c + 2).choose 2 - (a + b + 2).choose 2) + b

theorem choose_two_mono {m n : ℕ} (h : m ≤ n) : m.choose 2 ≤ n.choose 2 :=
  Nat.choose_le_choose 2 h

theorem choose_two_succ (n : ℕ) : (n + 1).choose 2 = n.choose 2 + n := by
  have := Nat.choose_succ_succ' n 1
  rw [Nat.choose_one_right] at this
  rw [show (2 : ℕ) = 1 + 1 by rfl, this]; omega

theorem choose_three_succ (n : ℕ) : (n + 1).choose 3 = n.choose 3 + n.choose 2 := by
  have := Nat.choose_succ_succ' n 2
  rw [show (3 : ℕ) = 2 + 1 by rfl, this]; omega

theorem rank3_eq (a b c : ℕ) :
    rank3 a b c + (a + b + 2).choose 2 = (a + b + c + 3).choose 3 + b := by
  unfold rank3
  have h1 : (a + b + c + 3).choose 3 = _ := choose_three_succ (a + b + c + 2)
  have h2 := choose_two_mono (m := a + b + 2) (n := a + b + c + 2) (by omega)
  omega

theorem rank2_lt (a b : ℕ) : rank2 a b < (a + b + 2).choose 2 := by
  have : (a + b + 2).choose 2 = _ := choose_two_succ (a + b + 1)
  unfold rank2; omega

theorem rank3_lt (a b c : ℕ) : rank3 a b c < (a + b + c + 3).choose 3 := by
  have := rank3_eq a b c
  have h1 := rank2_lt a b
  unfold rank2 at h1
  omega

theorem rank3_ge (a b c : ℕ) : (a + b + c + 2).choose 3 ≤ rank3 a b c := by
  unfold rank3; omega

theorem rank2_inj {a b a' b' : ℕ} (h : rank2 a b = rank2 a' b') : a = a' ∧ b = b' := by
  have key : ∀ {a b a' b' : ℕ}, rank2 a b = rank2 a' b' → a + b ≤ a' + b' := by
    intro a b a' b' h
    by_contra hlt
    have h1 := rank2_lt a' b'
    have h2 := choose_two_mono (m := a' + b' + 2) (n := a + b + 1) (by omega)
    have : (a + b + 1).choose 2 ≤ rank2 a b := by unfold rank2; omega
    omega
  have hs : a + b = a' + b' := le_antisymm (key h) (key h.symm)
  unfold rank2 at h
  rw [hs] at h
  omega

theorem rank3_inj {a b c a' b' c' : ℕ} (h : rank3 a b c = rank3 a' b' c') :
    a = a' ∧ b = b' ∧ c = c' := by
  have key : ∀ {a b c a' b' c' : ℕ}, rank3 a b c = rank3 a' b' c' →
      a + b + c ≤ a' + b' + c' := by
    intro a b c a' b' c' h
    by_contra hlt
    have h1 := rank3_lt a' b' c'
    have h2 : (a' + b' + c' + 3).choose 3 ≤ (a + b + c + 2).choose 3 :=
      Nat.choose_le_choose 3 (by omega)
    have := rank3_ge a b c
    omega
  have hs : a + b + c = a' + b' + c' := le_antisymm (key h) (key h.symm)
  have e1 := rank3_eq a b c
  have e2 := rank3_eq a' b' c'
  rw [hs] at e1
  -- the same for `a + b`
  have key2 : ∀ {a b a' b' r X : ℕ}, r + (a + b + 2).choose 2 = X + b →
      r + (a' + b' + 2).choose 2 = X + b' → a + b ≤ a' + b' := by
    intro a b a' b' r X h1 h2
    by_contra hlt
    have h3 := choose_two_mono (m := a' + b' + 3) (n := a + b + 2) (by omega)
    have h4 : (a' + b' + 3).choose 2 = _ := choose_two_succ (a' + b' + 2)
    have h5 : (a + b + 2).choose 2 = _ := choose_two_succ (a + b + 1)
    have h6 := choose_two_mono (m := a' + b' + 2) (n := a + b + 1) (by omega)
    omega
  rw [h] at e1
  have ht : a + b = a' + b' := le_antisymm (key2 e1 e2) (key2 e2 e1)
  rw [ht] at e1
  omega

/-- position of a vector, by dimension -/
def rank (dim : ℕ) (e : ℕ → ℕ) : ℕ :=
  if dim = 2 then rank2 (e 0) (e 1) else rank3 (e 0) (e 1) (e 2)

theorem row2 (e : ℕ → ℕ) : row 2 e = [e 0, e 1] := rfl
theorem row3 (e : ℕ → ℕ) : row 3 e = [e 0, e 1, e 2] := rfl

theorem rank_next {dim : ℕ} (hd : dim = 2 ∨ dim = 3) (e : ℕ → ℕ) :
    rank dim (mono_next_grlex dim e) = rank dim e + 1 := by
  rcases hd with rfl | rfl
  · simp only [rank, if_true]
    by_cases h0 : 0 < e 0
    · have : findNonzero 2 e 2 = 2 := by simp [findNonzero, h0]
      simp only [mono_next_grlex, this]
      norm_num [Function.update]
      unfold rank2
      have : e 0 - 1 + (e 1 + 1) + 1 = e 0 + e 1 + 1 := by omega
      rw [this]; omega
    · have h0' : e 0 = 0 := by omega
      by_cases h1 : 0 < e 1
      · have : findNonzero 2 e 2 = 1 := by simp [findNonzero, h0', h1]
        simp only [mono_next_grlex, this]
        norm_num [Function.update, h0']
        unfold rank2
        have := choose_two_succ (e 1 + 1)
        simp only [Nat.add_zero, Nat.zero_add]
        omega
      · have h1' : e 1 = 0 := by omega
        have : findNonzero 2 e 2 = 0 := by simp [findNonzero, h0', h1']
        simp only [mono_next_grlex, this]
        norm_num [Function.update, h0', h1', rank2, Nat.choose]
  · simp only [rank, show ¬ (3 : ℕ) = 2 by norm_num, if_false]
    by_cases h0 : 0 < e 0
    · have : findNonzero 3 e 3 = 3 := by simp [findNonzero, h0]
      simp only [mono_next_grlex, this]
      norm_num [Function.update]
      have e1 := rank3_eq (e 0 - 1) (e 1 + 1) (e 2)
      have e2 := rank3_eq (e 0) (e 1) (e 2)
      rw [show e 0 - 1 + (e 1 + 1) = e 0 + e 1 by omega] at e1
      omega
    · have h0' : e 0 = 0 := by omega
      by_cases h1 : 0 < e 1
      · have : findNonzero 3 e 3 = 2 := by simp [findNonzero, h0', h1]
        simp only [mono_next_grlex, this]
        norm_num [Function.update, h0']
        have e1 := rank3_eq (e 1 - 1) 0 (e 2 + 1)
        have e2 := rank3_eq 0 (e 1) (e 2)
        have e3 := choose_two_succ (e 1 + 1)
        rw [show e 1 - 1 + 0 + (e 2 + 1) = 0 + e 1 + e 2 by omega,
          show e 1 - 1 + 0 + 2 = e 1 + 1 by omega] at e1
        rw [show 0 + e 1 + 2 = e 1 + 1 + 1 by omega] at e2
        omega
      · have h1' : e 1 = 0 := by omega
        by_cases h2 : 0 < e 2
        · have : findNonzero 3 e 3 = 1 := by simp [findNonzero, h0', h1', h2]
          simp only [mono_next_grlex, this]
          norm_num [Function.update, h0', h1']
          have e1 := rank3_eq (e 2 + 1) 0 0
          have e2 := rank3_eq 0 0 (e 2)
          have e3 := choose_three_succ (e 2 + 3)
          rw [show e 2 + 1 + 0 + 0 + 3 = e 2 + 3 + 1 by omega,
            show e 2 + 1 + 0 + 2 = e 2 + 3 by omega] at e1
          rw [show 0 + 0 + e 2 + 3 = e 2 + 3 by omega,
            show (0 + 0 + 2 : ℕ).choose 2 = 1 by rfl] at e2
          omega
        · have h2' : e 2 = 0 := by omega
          have : findNonzero 3 e 3 = 0 := by simp [findNonzero, h0', h1', h2']
          simp only [mono_next_grlex, this]
          norm_num [Function.update, h0', h1', h2', rank3, Nat.choose]

/-- a vector is within the degree exactly when its position is within the table -/
theorem rank_lt_iff {dim : ℕ} (hd : dim = 2 ∨ dim = 3) (e : ℕ → ℕ) (degree : ℕ) :
    rank dim e < (degree + dim).choose degree ↔ (row dim e).sum ≤ degree := by
  rcases hd with rfl | rfl
  · rw [Nat.choose_symm_add, row2]
    simp only [rank, if_true, List.sum_cons, List.sum_nil]
    constructor
    · intro h
      by_contra hlt
      have : (degree + 2).choose 2 ≤ (e 0 + e 1 + 1).choose 2 := choose_two_mono (by omega)
      unfold rank2 at h
      omega
    · intro h
      have h1 := rank2_lt (e 0) (e 1)
      have := choose_two_mono (m := e 0 + e 1 + 2) (n := degree + 2) (by omega)
      omega
  · rw [Nat.choose_symm_add, row3]
    simp only [rank, show ¬ (3 : ℕ) = 2 by norm_num, if_false, List.sum_cons, List.sum_nil]
    constructor
    · intro h
      by_contra hlt
      have : (degree + 3).choose 3 ≤ (e 0 + e 1 + e 2 + 2).choose 3 :=
        Nat.choose_le_choose 3 (by omega)
      have := rank3_ge (e 0) (e 1) (e 2)
      omega
    · intro h
      have h1 := rank3_lt (e 0) (e 1) (e 2)
      have : (e 0 + e 1 + e 2 + 3).choose 3 ≤ (degree + 3).choose 3 :=
        Nat.choose_le_choose 3 (by omega)
      omega

/-- positions grow with the degree -/
theorem rank_mono {dim : ℕ} (hd : dim = 2 ∨ dim = 3) {e e' : ℕ → ℕ}
    (h : rank dim e ≤ rank dim e') : (row dim e).sum ≤ (row dim e').sum := by
  have h1 := (rank_lt_iff hd e' (row dim e').sum).2 le_rfl
  exact (rank_lt_iff hd e _).1 (lt_of_le_of_lt h h1)

theorem rank_inj {dim : ℕ} (hd : dim = 2 ∨ dim = 3) {e e' : ℕ → ℕ}
    (h : rank dim e = rank dim e') : row dim e = row dim e' := by
  rcases hd with rfl | rfl
  · simp only [rank, if_true] at h
    obtain ⟨h0, h1⟩ := rank2_inj h
    rw [row2, row2, h0, h1]
  · simp only [rank, show ¬ (3 : ℕ) = 2 by norm_num, if_false] at h
    obtain ⟨h0, h1, h2⟩ := rank3_inj h
    rw [row3, row3, h0, h1, h2]

theorem rank_congr {dim : ℕ} (hd : dim = 2 ∨ dim = 3) {e e' : ℕ → ℕ}
    (h : row dim e = row dim e') : rank dim e = rank dim e' := by
  rcases hd with rfl | rfl
  · rw [row2, row2] at h
    simp only [List.cons.injEq, and_true] at h
    simp [rank, h.1, h.2]
  · rw [row3, row3] at h
    simp only [List.cons.injEq, and_true] at h
    simp [rank, h.1, h.2.1, h.2.2]

/-- the loop of `init_map`, started at the vector whose position is `index` -/
theorem init_map_loop_spec {dim : ℕ} (hd : dim = 2 ∨ dim = 3) (degree : ℕ) :
    ∀ (fuel : ℕ) (e : ℕ → ℕ) (index : ℕ) (data : ℕ → Option (List ℕ)),
      rank dim e = index →
      index ≤ (degree + dim).choose degree →
      (degree + dim).choose degree < fuel + index →
      (∀ i < index, ∃ e, data i = some (row dim e) ∧ rank dim e = i) →
      (∀ i, (degree + dim).choose degree ≤ i → data i = none) →
      ∃ out, init_map_loop dim degree ((degree + dim).choose degree) fuel e index data = some out ∧
        (∀ i < (degree + dim).choose degree, ∃ e, out i = some (row dim e) ∧ rank dim e = i) ∧
        (∀ i, (degree + dim).choose degree ≤ i → out i = none) := by
  intro fuel
  induction fuel with
  | zero => intro e index data _ h1 h2; omega
  | succ fuel ih =>
    intro e index data hr hi hf hdata hnone
    unfold init_map_loop
    by_cases hs : (row dim e).sum ≤ degree
    · have hlt : index < (degree + dim).choose degree := by
        rw [← hr]; exact (rank_lt_iff hd e degree).2 hs
      rw [if_pos hs, if_pos hlt]
      refine ih _ _ _ ?_ hlt (by omega) ?_ ?_
      · rw [rank_next hd, hr]
      · intro i hi'
        by_cases h : i = index
        · subst h
          exact ⟨e, by simp, hr⟩
        · rw [Function.update_of_ne h]
          exact hdata i (by omega)
      · intro i hi'
        rw [Function.update_of_ne (by omega)]
        exact hnone i hi'
    · rw [if_neg hs]
      have hge : ¬ index < (degree + dim).choose degree := by
        rw [← hr]; exact fun h => hs ((rank_lt_iff hd e degree).1 h)
      exact ⟨data, rfl, fun i hi' => hdata i (by omega), hnone⟩

theorem binomialT_eq : ∀ n k : ℕ, k ≤ n → binomialT n k = some (n.choose k) := by
  intro n
  induction n with
  | zero => intro k hk; obtain rfl : k = 0 := by omega
            simp [binomialT]
  | succ n ih =>
    intro k hk
    cases k with
    | zero => simp [binomialT]
    | succ k =>
      unfold binomialT
      by_cases h : n = k
      · subst h; simp
      · rw [if_neg h, ih k (by omega), ih (k + 1) (by omega), Nat.choose_succ_succ']
        rfl

end Verif.Mood
