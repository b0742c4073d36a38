import Verif.Lemmas.ComputeDt
import Verif.Lemmas.MhdStep
import Verif.Lemmas.MhdSpeed
import Verif.Lemmas.MoodKernels
import Verif.Lemmas.SdmKernels
import Verif.Model.OtherDt
import Mathlib.Analysis.SpecialFunctions.Pow.Real

/-! Helper lemmas: maximum reductions with several contributions per work item. -/

namespace Verif

open Spec ROps

theorem foldl_max_list (l : List ℝ) (b : ℝ) : IsGreatest (insert b {x | x ∈ l}) (l.foldl max b) := by
  induction l generalizing b with
  | nil => simp [IsGreatest, upperBounds]
  | cons y l ih =>
    obtain ⟨h1, h2⟩ := ih (max b y)
    simp only [List.foldl_cons]
    have hm : max b y ≤ List.foldl max (max b y) l := h2 (Set.mem_insert _ _)
    refine ⟨?_, ?_⟩
    · rcases h1 with h1 | h1
      · rcases max_cases b y with ⟨e, -⟩ | ⟨e, -⟩
        · left; exact h1.trans e
        · right; rw [h1, e]; exact List.mem_cons_self
      · right; exact List.mem_cons_of_mem _ h1
    · rintro x (rfl | hx)
      · exact (le_max_left _ _).trans hm
      · rcases List.mem_cons.1 hx with rfl | hx
        · exact (le_max_right _ _).trans hm
        · exact h2 (Set.mem_insert_of_mem _ hx)

theorem foldl_items (L : Nat → List ℝ) (l : List Nat) (b : ℝ) :
    l.foldl (fun acc t => (L t).foldl max acc) b = (l.flatMap L).foldl max b := by
  induction l generalizing b with
  | nil => rfl
  | cons t l ih => simp [ih, List.foldl_append]

/-- Every possible result of a maximum reduction is the largest of the contributions and the value the
accumulators start with. -/
theorem maxReduces_list {bot : ℝ} {n : Nat} {item : Nat → ℝ → ℝ} {r : ℝ} (L : Nat → List ℝ)
    (he : ∀ t acc, item t acc = (L t).foldl max acc) (h : MaxReduces bot n item r) :
    IsGreatest (insert bot {x | ∃ t, t < n ∧ x ∈ L t}) r := by
  have he' : item = fun t acc => (L t).foldl max acc := by funext t acc; exact he t acc
  subst he'
  obtain ⟨T, hp, rfl⟩ := h
  have key : ∀ T : Reduction, IsGreatest (insert bot {x | ∃ t ∈ T.items, x ∈ L t})
      (T.value bot fun t acc => (L t).foldl max acc) := by
    intro T
    induction T with
    | thread l =>
      simp only [Reduction.value, Reduction.items, foldl_items]
      have := foldl_max_list (l.flatMap L) bot
      simpa [List.mem_flatMap] using this
    | join a b iha ihb =>
      obtain ⟨a1, a2⟩ := iha
      obtain ⟨b1, b2⟩ := ihb
      simp only [Reduction.value, Reduction.items]
      set va := a.value bot fun t acc => (L t).foldl max acc
      set vb := b.value bot fun t acc => (L t).foldl max acc
      have hif : (if ltb va vb = true then vb else va) = max va vb := by
        rops
        split_ifs with h
        · exact (max_eq_right h.le).symm
        · exact (max_eq_left (not_lt.1 h)).symm
      rw [hif]
      refine ⟨?_, ?_⟩
      · rcases max_cases va vb with ⟨e, -⟩ | ⟨e, -⟩ <;> rw [e]
        · rcases a1 with h | ⟨t, ht, h⟩
          · exact Or.inl h
          · exact Or.inr ⟨t, List.mem_append_left _ ht, h⟩
        · rcases b1 with h | ⟨t, ht, h⟩
          · exact Or.inl h
          · exact Or.inr ⟨t, List.mem_append_right _ ht, h⟩
      · rintro x (rfl | ⟨t, ht, hx⟩)
        · exact (a2 (Set.mem_insert _ _)).trans (le_max_left _ _)
        · rcases List.mem_append.1 ht with ht | ht
          · exact (a2 (Or.inr ⟨t, ht, hx⟩)).trans (le_max_left _ _)
          · exact (b2 (Or.inr ⟨t, ht, hx⟩)).trans (le_max_right _ _)
  have := key T
  have e : {x | ∃ t ∈ T.items, x ∈ L t} = {x | ∃ t, t < n ∧ x ∈ L t} := by
    ext x
    simp only [Set.mem_setOf_eq, hp.mem_iff, List.mem_range]
  rwa [e] at this

/-- Interior cells. -/
def Inside (d3 : Bool) (P : Grid) (c : Cell) : Prop := P.box d3 c ∧ P.inner d3 c

variable {d3 : Bool} {P : Grid} {bot dt : ℝ} {m : Addr → ℝ}

/-- The MHD time step is `cfl` over the largest rate. -/
theorem mhdDt_greatest {S : MSettings ℝ} (r : MhdComputeDtLocal bot d3 S P m dt) :
    ∃ M, IsGreatest (insert bot {x | ∃ c, Inside d3 P c ∧ x = cflRateMhd d3 S (mfield m aQ c)}) M ∧
      dt = S.cfl / M := by
  obtain ⟨M, hM, rfl⟩ := r
  refine ⟨M, ?_, rfl⟩
  have := maxReduces_list (fun t => if P.inner d3 (P.cellOf t) then
    [cflRateMhd d3 S (mfield m aQ (P.cellOf t))] else []) ?_ hM
  · convert this using 2
    ext x
    constructor
    · rintro ⟨c, ⟨hb, hi⟩, rfl⟩
      obtain ⟨t, ht, rfl⟩ := Grid.cellOf_surj hb
      exact ⟨t, ht, by rw [if_pos hi]; exact List.mem_singleton_self _⟩
    · rintro ⟨t, ht, hx⟩
      by_cases hi : P.inner d3 (P.cellOf t)
      · rw [if_pos hi] at hx
        exact ⟨_, ⟨Grid.cellOf_box ht, hi⟩, List.mem_singleton.1 hx⟩
      · rw [if_neg hi] at hx; cases hx
  · intro t acc
    unfold mhdDtItem
    by_cases hi : P.inner d3 (P.cellOf t)
    · simp only [if_pos hi, (get_state_reads _ _ _).2]; rfl
    · simp only [if_neg hi]; rfl

theorem moodDt_greatest {pow : ℝ → ℝ → ℝ} {lay : Layout} {degree : ℕ} {ssprk3 : Bool} {S : Settings ℝ}
    {it : Nat} (hp : Mood.Nonempty3 d3 P)
    (r : Mood.ComputeDtLocal pow bot lay d3 degree ssprk3 S P it m dt) :
    ∃ M, IsGreatest (insert bot {x | ∃ c, Inside d3 P c ∧ x = cflRate d3 S (field d3 m (bufIn it) c)}) M ∧
      dt = if degree ≥ 2 ∧ ssprk3 = true then pow (S.cfl / M) ((degree + 1) / 3) else S.cfl / M := by
  obtain ⟨M, hM, he⟩ := r
  obtain ⟨hbox, -, hsurj⟩ := Mood.cellAt_spec (lay := lay) hp
  refine ⟨M, ?_, ?_⟩
  · have := maxReduces_list (fun t => if P.inner d3 (Mood.cellAt lay d3 P t) then
      [cflRate d3 S (field d3 m (bufIn it) (Mood.cellAt lay d3 P t))] else []) ?_ hM
    · convert this using 2
      ext x
      constructor
      · rintro ⟨c, ⟨hb, hi⟩, rfl⟩
        obtain ⟨t, ht, rfl⟩ := hsurj c hb
        exact ⟨t, ht, by rw [if_pos hi]; exact List.mem_singleton_self _⟩
      · rintro ⟨t, ht, hx⟩
        by_cases hi : P.inner d3 (Mood.cellAt lay d3 P t)
        · rw [if_pos hi] at hx
          exact ⟨_, ⟨hbox t ht, hi⟩, List.mem_singleton.1 hx⟩
        · rw [if_neg hi] at hx; cases hx
    · intro t acc
      unfold Mood.dtItem
      by_cases hi : P.inner d3 (Mood.cellAt lay d3 P t)
      · simp only [if_pos hi, (loadState_reads _ _ _ _).2]; rfl
      · simp only [if_neg hi]; rfl
  · rw [he]
    simp [lit]

theorem sdmDt_greatest {pow : ℝ → ℝ → ℝ} {M : Sdm.Scheme ℝ} {rescale ssprk3 ssprk54 : Bool}
    {S : Settings ℝ} (hp : Mood.Nonempty3 M.d3 P)
    (r : Sdm.ComputeDtLocal pow bot M rescale ssprk3 ssprk54 S P m dt) :
    ∃ X, IsGreatest (insert bot {x | ∃ c p, Inside M.d3 P c ∧ Sdm.IsSolPt M.d3 M.N p ∧
        x = Sdm.cflRate M.d3 M.N S (Sdm.stateAt M.d3 m (M.sol Sdm.sU c p))}) X ∧
      dt = if rescale = true ∧ M.N ≥ 2 ∧ (ssprk3 = true ∨ ssprk54 = true) then
        pow (S.cfl / X) ((M.N + 1) / 3) else S.cfl / X := by
  obtain ⟨X, hX, he⟩ := r
  obtain ⟨hbox, -, hsurj⟩ := Mood.cellAt_spec (lay := M.lay) hp
  refine ⟨X, ?_, ?_⟩
  · have := maxReduces_list (fun t => if P.inner M.d3 (Mood.cellAt M.lay M.d3 P t) then
      (Sdm.cellPts M.d3 M.N).map fun p =>
        Sdm.cflRate M.d3 M.N S (Sdm.stateAt M.d3 m (M.sol Sdm.sU (Mood.cellAt M.lay M.d3 P t) p))
      else []) ?_ hX
    · convert this using 2
      ext x
      constructor
      · rintro ⟨c, p, ⟨hb, hi⟩, hp, rfl⟩
        obtain ⟨t, ht, rfl⟩ := hsurj c hb
        exact ⟨t, ht, by rw [if_pos hi]; exact List.mem_map_of_mem (Sdm.mem_cellPts.2 hp)⟩
      · rintro ⟨t, ht, hx⟩
        by_cases hi : P.inner M.d3 (Mood.cellAt M.lay M.d3 P t)
        · rw [if_pos hi] at hx
          obtain ⟨p, hp, rfl⟩ := List.mem_map.1 hx
          exact ⟨_, p, ⟨hbox t ht, hi⟩, Sdm.mem_cellPts.1 hp, rfl⟩
        · rw [if_neg hi] at hx; cases hx
    · intro t acc
      unfold Sdm.dtItem
      by_cases hi : P.inner M.d3 (Mood.cellAt M.lay M.d3 P t)
      · simp only [if_pos hi, List.foldl_map]
        congr 1
        funext a p
        rw [(Sdm.loadAt_reads _ _ _).2]; rfl
      · simp only [if_neg hi]; rfl
  · rw [he]
    simp [lit]

/-- Scaling the time step by a power. -/
theorem pow_rate {cfl M : ℝ} (hc : 0 < cfl) (hM : 0 < M) (n : ℕ) :
    (cfl / M) ^ (((n : ℝ) + 1) / 3) * M = cfl * (cfl / M) ^ (((n : ℝ) - 2) / 3) := by
  have h : 0 < cfl / M := div_pos hc hM
  have e : ((n : ℝ) + 1) / 3 = ((n : ℝ) - 2) / 3 + 1 := by ring
  rw [e, Real.rpow_add h, Real.rpow_one]
  field_simp

end Verif
