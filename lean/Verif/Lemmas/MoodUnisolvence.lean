import Mathlib.Tactic.IntervalCases
import Mathlib.Tactic.LinearCombination
import Mathlib.Data.Nat.Choose.Basic
import Verif.Lemmas.MoodGeometry
import Verif.Model.MoodStencil

/-! Helper lemmas: finite differences of cell means, and uniqueness of a polynomial with given cell
means. -/

namespace Verif.Mood

/-- lowest node of the difference of order `a`: 0, -1, -1, -2, -2, -3, ... -/
def lo (a : ℕ) : ℤ := -(((a + 1) / 2 : ℕ) : ℤ)

/-- difference of order `a` on the nodes `lo a, ..., lo a + a` -/
noncomputable def diff (a : ℕ) (f : ℤ → ℝ) : ℝ :=
  ∑ t ∈ Finset.range (a + 1), (-1) ^ t * (a.choose t : ℝ) * f (lo a + t)

theorem diff_mom_lt (dx : ℝ) {a n : ℕ} (ha : a ≤ 5) (h : n < a) :
    diff a (fun i => mom dx i n) = 0 := by
  interval_cases a <;> interval_cases n <;>
    simp [diff, mom, lo, Finset.sum_range_succ, Nat.choose] <;> ring

theorem diff_mom_eq {dx : ℝ} (hx : dx ≠ 0) {a : ℕ} (ha : a ≤ 5) :
    diff a (fun i => mom dx i a) ≠ 0 := by
  have h : diff a (fun i => mom dx i a) = (-1) ^ a * (a.factorial : ℝ) * dx ^ a := by
    interval_cases a <;>
      simp [diff, mom, lo, Finset.sum_range_succ, Nat.choose, Nat.factorial] <;> ring
  rw [h]
  have : (a.factorial : ℝ) ≠ 0 := by exact_mod_cast Nat.factorial_ne_zero a
  have h1 : ((-1 : ℝ)) ^ a ≠ 0 := pow_ne_zero _ (by norm_num)
  exact mul_ne_zero (mul_ne_zero h1 this) (pow_ne_zero _ hx)

/-- the differences in the three directions of a sum of products -/
theorem diff3_sum (N : ℕ) (c : ℕ → ℝ) (f g h : ℕ → ℤ → ℝ) (a b d : ℕ) :
    ∑ t ∈ Finset.range (a + 1), ∑ u ∈ Finset.range (b + 1), ∑ v ∈ Finset.range (d + 1),
      ((-1) ^ t * (a.choose t : ℝ)) * ((-1) ^ u * (b.choose u : ℝ)) * ((-1) ^ v * (d.choose v : ℝ))
        * ∑ k ∈ Finset.range N, c k * (f k (lo a + t) * g k (lo b + u) * h k (lo d + v))
    = ∑ k ∈ Finset.range N, c k * (diff a (f k) * diff b (g k) * diff d (h k)) := by
  simp only [Finset.mul_sum]
  have e : ∀ k, c k * (diff a (f k) * diff b (g k) * diff d (h k))
      = ∑ t ∈ Finset.range (a + 1), ∑ u ∈ Finset.range (b + 1), ∑ v ∈ Finset.range (d + 1),
        ((-1) ^ t * (a.choose t : ℝ)) * ((-1) ^ u * (b.choose u : ℝ))
          * ((-1) ^ v * (d.choose v : ℝ))
          * (c k * (f k (lo a + t) * g k (lo b + u) * h k (lo d + v))) := by
    intro k
    unfold diff
    rw [Finset.sum_mul, Finset.sum_mul, Finset.mul_sum]
    refine Finset.sum_congr rfl fun t _ => ?_
    rw [Finset.mul_sum (s := Finset.range (b + 1)), Finset.sum_mul, Finset.mul_sum]
    refine Finset.sum_congr rfl fun u _ => ?_
    rw [Finset.mul_sum, Finset.mul_sum]
    refine Finset.sum_congr rfl fun v _ => ?_
    ring
  rw [Finset.sum_congr rfl (fun k _ => e k)]
  rw [Finset.sum_comm (s := Finset.range N)]
  refine Finset.sum_congr rfl fun t _ => ?_
  rw [Finset.sum_comm (s := Finset.range N)]
  refine Finset.sum_congr rfl fun u _ => ?_
  rw [Finset.sum_comm (s := Finset.range N)]

/-- A polynomial of degree at most `d ≤ 5` whose mean vanishes over every cell of a set of cells
that contains the nodes of all differences of order at most `d` is zero. -/
theorem unisolvent {dx dy dz : ℝ} (hx : dx ≠ 0) (hy : dy ≠ 0) (hz : dz ≠ 0) (N d : ℕ) (hd : d ≤ 5)
    (e0 e1 e2 : ℕ → ℕ)
    (hinj : ∀ k < N, ∀ k' < N, e0 k = e0 k' → e1 k = e1 k' → e2 k = e2 k' → k = k')
    (hdeg : ∀ k < N, e0 k + e1 k + e2 k ≤ d) (S : Offset → Prop)
    (hS : ∀ k < N, ∀ t ≤ e0 k, ∀ u ≤ e1 k, ∀ v ≤ e2 k,
      S ⟨lo (e0 k) + t, lo (e1 k) + u, lo (e2 k) + v⟩)
    (c : ℕ → ℝ)
    (H : ∀ o, S o → ∑ k ∈ Finset.range N,
      c k * (mom dx o.x (e0 k) * mom dy o.y (e1 k) * mom dz o.z (e2 k)) = 0) :
    ∀ k < N, c k = 0 := by
  -- downward induction on the degree
  have main : ∀ s, ∀ k < N, d ≤ e0 k + e1 k + e2 k + s → c k = 0 := by
    intro s
    induction s using Nat.strong_induction_on with
    | _ s ih =>
      intro k hk hs
      have hdk := hdeg k hk
      have key := diff3_sum N c (fun k' i => mom dx i (e0 k')) (fun k' i => mom dy i (e1 k'))
        (fun k' i => mom dz i (e2 k')) (e0 k) (e1 k) (e2 k)
      have hzero : ∑ t ∈ Finset.range (e0 k + 1), ∑ u ∈ Finset.range (e1 k + 1),
          ∑ v ∈ Finset.range (e2 k + 1),
          ((-1 : ℝ) ^ t * ((e0 k).choose t : ℝ)) * ((-1) ^ u * ((e1 k).choose u : ℝ))
            * ((-1) ^ v * ((e2 k).choose v : ℝ))
            * ∑ k' ∈ Finset.range N, c k' * (mom dx (lo (e0 k) + t) (e0 k')
                * mom dy (lo (e1 k) + u) (e1 k') * mom dz (lo (e2 k) + v) (e2 k')) = 0 := by
        refine Finset.sum_eq_zero fun t ht => ?_
        refine Finset.sum_eq_zero fun u hu => ?_
        refine Finset.sum_eq_zero fun v hv => ?_
        have := H _ (hS k hk t (by simpa [Nat.lt_succ_iff] using ht)
          u (by simpa [Nat.lt_succ_iff] using hu) v (by simpa [Nat.lt_succ_iff] using hv))
        rw [this, mul_zero]
      rw [hzero] at key
      rw [Finset.sum_eq_single k] at key
      · have hne : diff (e0 k) (fun i => mom dx i (e0 k)) * diff (e1 k) (fun i => mom dy i (e1 k))
            * diff (e2 k) (fun i => mom dz i (e2 k)) ≠ 0 :=
          mul_ne_zero (mul_ne_zero (diff_mom_eq hx (by omega)) (diff_mom_eq hy (by omega)))
            (diff_mom_eq hz (by omega))
        rcases mul_eq_zero.1 key.symm with h | h
        · exact h
        · exact absurd h hne
      · intro k' hk' hne
        have hk'' := Finset.mem_range.1 hk'
        by_cases h0 : e0 k' < e0 k
        · rw [diff_mom_lt dx (by omega) h0]; ring
        by_cases h1 : e1 k' < e1 k
        · rw [diff_mom_lt dy (by omega) h1]; ring
        by_cases h2 : e2 k' < e2 k
        · rw [diff_mom_lt dz (by omega) h2]; ring
        have hlt : e0 k + e1 k + e2 k < e0 k' + e1 k' + e2 k' := by
          by_contra hcon
          exact hne (hinj k' hk'' k hk (by omega) (by omega) (by omega))
        have hdk' := hdeg k' hk''
        rw [ih (d - (e0 k' + e1 k' + e2 k')) (by omega) k' hk'' (by omega)]
        ring
      · intro hcon
        exact absurd (Finset.mem_range.2 hk) hcon
  intro k hk
  exact main d k hk (by omega)

end Verif.Mood
