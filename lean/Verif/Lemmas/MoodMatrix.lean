import Mathlib.Tactic.Ring
import Mathlib.Tactic.Linarith
import Verif.Model.MoodMatrix

/-! Helper lemmas: loops and array positions of the matrix model. -/

namespace Verif.Mood

open Verif ROps

theorem forLoop_spec {σ : Type} {n : ℕ} {f : ℕ → σ → Option σ} {s : σ} (P : ℕ → σ → Prop)
    (h0 : P 0 s) (hs : ∀ i < n, ∀ s, P i s → ∃ s', f i s = some s' ∧ P (i + 1) s') :
    ∃ s', forLoop n f s = some s' ∧ P n s' := by
  unfold forLoop
  induction n with
  | zero => exact ⟨s, rfl, h0⟩
  | succ n ih =>
    obtain ⟨s', e, p⟩ := ih fun i hi => hs i (by omega)
    obtain ⟨s'', e', p'⟩ := hs n (by omega) s' p
    refine ⟨s'', ?_, p'⟩
    rw [List.range_succ, List.foldlM_append, e]
    simp [e']

theorem pos_lt {m n i j : ℕ} (hi : i < m) (hj : j < n) : i * n + j < m * n :=
  calc i * n + j < i * n + n := by omega
    _ = (i + 1) * n := by ring
    _ ≤ m * n := Nat.mul_le_mul_right n hi

theorem pos_inj {n i j i' j' : ℕ} (hj : j < n) (hj' : j' < n) (h : i * n + j = i' * n + j') :
    i = i' ∧ j = j' := by
  have hn : 0 < n := by omega
  have e1 : (i * n + j) / n = i := by
    rw [mul_comm, Nat.mul_add_div hn, Nat.div_eq_of_lt hj, add_zero]
  have e2 : (i' * n + j') / n = i' := by
    rw [mul_comm, Nat.mul_add_div hn, Nat.div_eq_of_lt hj', add_zero]
  have hi : i = i' := by rw [← e1, ← e2, h]
  subst hi
  exact ⟨rfl, by omega⟩

/-- every position of the array is the position of an entry -/
theorem pos_surj {m n p : ℕ} (h : p < m * n) : ∃ i < m, ∃ j < n, p = i * n + j := by
  have hn : 0 < n := by
    rcases Nat.eq_zero_or_pos n with rfl | hn
    · simp at h
    · exact hn
  refine ⟨p / n, ?_, p % n, Nat.mod_lt _ hn, ?_⟩
  · rw [Nat.div_lt_iff_lt_mul hn]; exact h
  · rw [mul_comm]; exact (Nat.div_add_mod p n).symm

namespace Mat

variable {α : Type}

/-- same sizes and allocation -/
def SameShape (A B : Mat α) : Prop := B.m = A.m ∧ B.n = A.n ∧ B.len = A.len

theorem SameShape.refl (A : Mat α) : SameShape A A := ⟨rfl, rfl, rfl⟩

theorem SameShape.trans {A B C : Mat α} (h : SameShape A B) (h' : SameShape B C) :
    SameShape A C :=
  ⟨h'.1.trans h.1, h'.2.1.trans h.2.1, h'.2.2.trans h.2.2⟩

theorem store_eq {A : Mat α} {p : ℕ} {v : α} (h : p < A.len) :
    A.store p v = some { A with data := Function.update A.data p v } := if_pos h

theorem load_eq {A : Mat α} {p : ℕ} (h : p < A.len) : A.load p = some (A.data p) := if_pos h

/-- a loop that updates one position per turn, distinct positions -/
theorem fill1 {N : ℕ} (pos : ℕ → ℕ) (v : ℕ → α → α) (A : Mat α)
    {body : ℕ → Mat α → Option (Mat α)}
    (hb : ∀ j < N, pos j < A.len)
    (hinj : ∀ j < N, ∀ j' < N, pos j = pos j' → j = j')
    (hbody : ∀ j < N, ∀ s, SameShape A s →
      body j s = s.store (pos j) (v j (s.data (pos j)))) :
    ∃ B, forLoop N body A = some B ∧ SameShape A B ∧
      (∀ j < N, B.data (pos j) = v j (A.data (pos j))) ∧
      (∀ p, (∀ j < N, pos j ≠ p) → B.data p = A.data p) := by
  have key := forLoop_spec (n := N) (f := body) (s := A)
    (fun k B => SameShape A B ∧ (∀ j < k, j < N → B.data (pos j) = v j (A.data (pos j))) ∧
      (∀ p, (∀ j < k, j < N → pos j ≠ p) → B.data p = A.data p)) ?_ ?_
  · obtain ⟨B, e, hs, h1, h2⟩ := key
    exact ⟨B, e, hs, fun j hj => h1 j hj hj, fun p hp => h2 p fun j hj _ => hp j hj⟩
  · exact ⟨SameShape.refl A, fun j hj => absurd hj (by omega), fun _ _ => rfl⟩
  · rintro k hk s ⟨hs, h1, h2⟩
    have hlt : pos k < s.len := hs.2.2 ▸ hb k hk
    refine ⟨_, (hbody k hk s hs).trans (store_eq hlt), ⟨hs.1, hs.2.1, hs.2.2⟩, ?_, ?_⟩
    · intro j hj hjN
      by_cases hjk : j = k
      · subst hjk
        simp only [Function.update_self]
        rw [h2 (pos j) fun j' hj' hj'N e => absurd (hinj j' hj'N j hjN e) (by omega)]
      · simp only
        rw [Function.update_of_ne fun e => hjk (hinj j hjN k hk e)]
        exact h1 j (by omega) hjN
    · intro p hp
      simp only
      rw [Function.update_of_ne fun e => hp k (by omega) hk e.symm]
      exact h2 p fun j hj hjN => hp j (by omega) hjN

/-- a double loop that updates one position per turn, distinct positions -/
theorem fill2 {M N : ℕ} (pos : ℕ → ℕ → ℕ) (v : ℕ → ℕ → α → α) (A : Mat α)
    {body : ℕ → ℕ → Mat α → Option (Mat α)}
    (hb : ∀ i < M, ∀ j < N, pos i j < A.len)
    (hinj : ∀ i < M, ∀ j < N, ∀ i' < M, ∀ j' < N, pos i j = pos i' j' → i = i' ∧ j = j')
    (hbody : ∀ i < M, ∀ j < N, ∀ s, SameShape A s →
      body i j s = s.store (pos i j) (v i j (s.data (pos i j)))) :
    ∃ B, forLoop M (fun i => forLoop N (body i)) A = some B ∧ SameShape A B ∧
      (∀ i < M, ∀ j < N, B.data (pos i j) = v i j (A.data (pos i j))) ∧
      (∀ p, (∀ i < M, ∀ j < N, pos i j ≠ p) → B.data p = A.data p) := by
  have key := forLoop_spec (n := M) (f := fun i => forLoop N (body i)) (s := A)
    (fun k B => SameShape A B ∧
      (∀ i < k, i < M → ∀ j < N, B.data (pos i j) = v i j (A.data (pos i j))) ∧
      (∀ p, (∀ i < k, i < M → ∀ j < N, pos i j ≠ p) → B.data p = A.data p)) ?_ ?_
  · obtain ⟨B, e, hs, h1, h2⟩ := key
    exact ⟨B, e, hs, fun i hi => h1 i hi hi, fun p hp => h2 p fun i hi _ => hp i hi⟩
  · exact ⟨SameShape.refl A, fun j hj => absurd hj (by omega), fun _ _ => rfl⟩
  · rintro k hk s ⟨hs, h1, h2⟩
    obtain ⟨B, e, hB, hB1, hB2⟩ := fill1 (N := N) (pos k) (v k) s (body := body k)
      (fun j hj => hs.2.2 ▸ hb k hk j hj) (fun j hj j' hj' e => (hinj k hk j hj k hk j' hj' e).2)
      (fun j hj s' hs' => hbody k hk j hj s' (hs.trans hs'))
    refine ⟨B, e, hs.trans hB, ?_, ?_⟩
    · intro i hi hiM j hj
      by_cases hik : i = k
      · subst hik
        rw [hB1 j hj, h2 (pos i j) fun i' hi' hi'M j' hj' e =>
          absurd (hinj i' hi'M j' hj' i hiM j hj e).1 (by omega)]
      · rw [hB2 (pos i j) fun j' hj' e => hik (hinj k hk j' hj' i hiM j hj e).1.symm]
        exact h1 i (by omega) hiM j hj
    · intro p hp
      rw [hB2 p fun j hj => hp k (by omega) hk j hj]
      exact h2 p fun i hi hiM => hp i (by omega) hiM

end Mat

end Verif.Mood
