import Verif.Lemmas.HydroFlux
import Verif.Model.ComputeDt

/-! Helper lemmas: maximum reductions and the CFL time step. -/

namespace Verif

open Spec ROps

theorem foldl_max (f : Nat → Option ℝ) (l : List Nat) (b : ℝ) :
    let r := l.foldl (fun acc t => match f t with | some x => max acc x | none => acc) b
    (b ≤ r ∧ ∀ t ∈ l, ∀ x, f t = some x → x ≤ r) ∧
      (r = b ∨ ∃ t ∈ l, f t = some r) := by
  induction l generalizing b with
  | nil => simp
  | cons t l ih =>
    simp only [List.foldl_cons]
    cases h : f t with
    | none =>
      obtain ⟨⟨h1, h2⟩, h3⟩ := ih b
      refine ⟨⟨h1, ?_⟩, ?_⟩
      · intro s hs x hx
        rcases List.mem_cons.1 hs with rfl | hs
        · rw [h] at hx; cases hx
        · exact h2 s hs x hx
      · rcases h3 with h3 | ⟨s, hs, h3⟩
        · exact Or.inl h3
        · exact Or.inr ⟨s, List.mem_cons_of_mem _ hs, h3⟩
    | some y =>
      obtain ⟨⟨h1, h2⟩, h3⟩ := ih (max b y)
      refine ⟨⟨(le_max_left _ _).trans h1, ?_⟩, ?_⟩
      · intro s hs x hx
        rcases List.mem_cons.1 hs with rfl | hs
        · rw [h] at hx; cases hx
          exact (le_max_right _ _).trans h1
        · exact h2 s hs x hx
      · rcases h3 with h3 | ⟨s, hs, h3⟩
        · rcases max_cases b y with ⟨e, -⟩ | ⟨e, -⟩
          · exact Or.inl (h3.trans e)
          · right
            refine ⟨t, List.mem_cons_self, ?_⟩
            rw [h]; congr 1
            exact (h3.trans e).symm
        · exact Or.inr ⟨s, List.mem_cons_of_mem _ hs, h3⟩

/-- Every possible result of a maximum reduction is the maximum of the contributions. -/
theorem maxReduces_spec {bot : ℝ} {n : Nat} {f : Nat → Option ℝ} {r : ℝ}
    (h : MaxReduces bot n (fun t acc => match f t with | some x => max acc x | none => acc) r) :
    bot ≤ r ∧ (∀ t, t < n → ∀ x, f t = some x → x ≤ r) ∧ (r = bot ∨ ∃ t, t < n ∧ f t = some r) := by
  obtain ⟨T, hp, rfl⟩ := h
  have key : ∀ T : Reduction,
      bot ≤ T.value bot (fun t acc => match f t with | some x => max acc x | none => acc) ∧
      (∀ t ∈ T.items, ∀ x, f t = some x →
        x ≤ T.value bot (fun t acc => match f t with | some x => max acc x | none => acc)) ∧
      (T.value bot (fun t acc => match f t with | some x => max acc x | none => acc) = bot ∨
        ∃ t ∈ T.items, f t =
          some (T.value bot (fun t acc => match f t with | some x => max acc x | none => acc))) := by
    intro T
    induction T with
    | thread l =>
      obtain ⟨⟨h1, h2⟩, h3⟩ := foldl_max f l bot
      exact ⟨h1, h2, h3⟩
    | join a b iha ihb =>
      obtain ⟨a1, a2, a3⟩ := iha
      obtain ⟨b1, b2, b3⟩ := ihb
      simp only [Reduction.value, Reduction.items]
      set va := a.value bot (fun t acc => match f t with | some x => max acc x | none => acc)
      set vb := b.value bot (fun t acc => match f t with | some x => max acc x | none => acc)
      have hif : (if ltb va vb = true then vb else va) = max va vb := by
        rops
        split_ifs with h
        · exact (max_eq_right h.le).symm
        · exact (max_eq_left (not_lt.1 h)).symm
      rw [hif]
      refine ⟨a1.trans (le_max_left _ _), ?_, ?_⟩
      · intro t ht x hx
        rcases List.mem_append.1 ht with ht | ht
        · exact (a2 t ht x hx).trans (le_max_left _ _)
        · exact (b2 t ht x hx).trans (le_max_right _ _)
      · rcases max_cases va vb with ⟨e, -⟩ | ⟨e, -⟩
        · rw [e]
          rcases a3 with a3 | ⟨t, ht, a3⟩
          · exact Or.inl a3
          · exact Or.inr ⟨t, List.mem_append_left _ ht, a3⟩
        · rw [e]
          rcases b3 with b3 | ⟨t, ht, b3⟩
          · exact Or.inl b3
          · exact Or.inr ⟨t, List.mem_append_right _ ht, b3⟩
  obtain ⟨k1, k2, k3⟩ := key T
  refine ⟨k1, ?_, ?_⟩
  · intro t ht
    exact k2 t (hp.mem_iff.2 (List.mem_range.2 ht))
  · rcases k3 with k3 | ⟨t, ht, k3⟩
    · exact Or.inl k3
    · exact Or.inr ⟨t, List.mem_range.1 (hp.mem_iff.1 ht), k3⟩

/-- Rate of a cell. -/
noncomputable def rateAt (d3 : Bool) (S : Settings ℝ) (grav : Bool) (U : Nat) (m : Addr → ℝ) (c : Cell) : ℝ :=
  if grav then cflRateGravity d3 S (field d3 m U c) (gfield d3 m c)
  else cflRate d3 S (field d3 m U c)

/-- The time step is `cfl` over the largest rate. -/
theorem computeDt_spec {bot : ℝ} {d3 : Bool} {S : Settings ℝ} {P : Grid} {B : Sides} {grav : Bool}
    {it : Nat} {m : Addr → ℝ} {dt : ℝ} (h : BoxSetup d3 (hydroVars d3) 2 P B) (hbot : bot ≤ 0)
    (hpos : ∀ c, P.box d3 c → P.inner d3 c → 0 < rateAt d3 S grav (bufIn it) m c)
    (hr : ComputeDtLocal bot d3 S P grav it m dt) :
    ∃ M, dt = S.cfl / M ∧ 0 < M ∧
      (∀ c, P.box d3 c → P.inner d3 c → rateAt d3 S grav (bufIn it) m c ≤ M) ∧
      ∃ c, P.box d3 c ∧ P.inner d3 c ∧ rateAt d3 S grav (bufIn it) m c = M := by
  obtain ⟨M, hM, rfl⟩ := hr
  have e : dtItem d3 S P grav (if it % 2 = 0 then aU else aU2) m = fun t acc =>
      match (if P.inner d3 (P.cellOf t) then some (rateAt d3 S grav (bufIn it) m (P.cellOf t))
        else none : Option ℝ) with
      | some x => max acc x | none => acc := by
    funext t acc
    unfold dtItem
    by_cases hi : P.inner d3 (P.cellOf t)
    · rw [if_pos hi, if_pos hi, (loadState_reads _ _ _ _).2, (loadGravity_reads _ _ _).2]; rfl
    · rw [if_neg hi, if_neg hi]
  rw [e] at hM
  obtain ⟨h1, h2, h3⟩ := maxReduces_spec
    (f := fun t => if P.inner d3 (P.cellOf t) then
      some (rateAt d3 S grav (bufIn it) m (P.cellOf t)) else none) hM
  have hle : ∀ c, P.box d3 c → P.inner d3 c → rateAt d3 S grav (bufIn it) m c ≤ M := by
    intro c hb hi
    obtain ⟨t, ht, rfl⟩ := Grid.cellOf_surj hb
    exact h2 t ht _ (if_pos hi)
  have hg := h.gw
  have hnx := h.nx
  have hny := h.ny
  have hc0 := cell_box h (i := 0) (j := 0) (k := 0) (by omega) (by omega) (by
    unfold depth; cases d3
    · simp
    · have := h.nz rfl; simp; omega)
  have hM0 : 0 < M := lt_of_lt_of_le (hpos _ hc0.1 hc0.2) (hle _ hc0.1 hc0.2)
  refine ⟨M, rfl, hM0, hle, ?_⟩
  rcases h3 with h3 | ⟨t, ht, h3⟩
  · linarith
  · by_cases hi : P.inner d3 (P.cellOf t)
    · rw [if_pos hi] at h3
      exact ⟨P.cellOf t, Grid.cellOf_box ht, hi, Option.some.inj h3⟩
    · rw [if_neg hi] at h3; cases h3

end Verif
