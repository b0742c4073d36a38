import Verif.Lemmas.Kernel
import Verif.Spec.Kernel
import Mathlib.Tactic.Abel

/-! Helper lemmas on interleavings with atomic additions. -/

namespace Verif

open Function

namespace K

variable {A V X Y : Type} [DecidableEq A] [AddCommMonoid V]

theorem adds_zero {R W C : A → Prop} {p : K A V X} (h : p.FP R W C) (m : A → V) {a : A}
    (hC : ¬ C a) : p.adds m a = 0 := by
  induction p generalizing m with
  | ret x => rfl
  | read b k ih => exact ih _ (h.2 _) m
  | write b v k ih => exact ih h.2 _
  | add b v k ih =>
    have hb : a ≠ b := fun e => hC (e ▸ h.1)
    simp [adds, hb, ih h.2]

theorem adds_congr {R W C : A → Prop} {p : K A V X} (h : p.FP R W C)
    {m m' : A → V} (hm : ∀ a, R a ∨ W a → m a = m' a)
    (hC : ∀ a, C a → ¬ R a ∧ ¬ W a) (a : A) : p.adds m a = p.adds m' a := by
  induction p generalizing m m' with
  | ret x => rfl
  | read b k ih =>
    simp only [adds]
    rw [hm b (Or.inl h.1)]
    exact ih _ (h.2 _) hm
  | write b v k ih =>
    simp only [adds]
    apply ih h.2
    intro x hx
    by_cases e : x = b
    · subst e; simp
    · simp [update_of_ne e, hm x hx]
  | add b v k ih =>
    simp only [adds]
    congr 1
    apply ih h.2
    intro x hx
    have e : x ≠ b := by
      rintro rfl
      have := hC x h.1
      tauto
    simp [update_of_ne e, hm x hx]

theorem exec_congr' {R W C : A → Prop} {p : K A V X} (h : p.FP R W C)
    {m m' : A → V} (hm : ∀ a, R a ∨ W a → m a = m' a)
    (hC : ∀ a, C a → ¬ R a ∧ ¬ W a) :
    ∀ a, R a ∨ W a → p.exec m a = p.exec m' a := by
  induction p generalizing m m' with
  | ret x => exact hm
  | read b k ih =>
    simp only [exec]
    rw [hm b (Or.inl h.1)]
    exact ih _ (h.2 _) hm
  | write b v k ih =>
    simp only [exec]
    apply ih h.2
    intro x hx
    by_cases e : x = b
    · subst e; simp
    · simp [update_of_ne e, hm x hx]
  | add b v k ih =>
    simp only [exec]
    apply ih h.2
    intro x hx
    have e : x ≠ b := by
      rintro rfl
      have := hC x h.1
      tauto
    simp [update_of_ne e, hm x hx]

end K

section race

variable {ι A V : Type} [Fintype ι] [DecidableEq ι] [DecidableEq A] [AddCommMonoid V]

theorem reach_inv_atomic {R W C : ι → A → Prop} (hN : NonInterfering R W C)
    {m₀ : A → V} {T₀ : ι → K A V Unit} (h₀ : AllFP R W C T₀)
    {c : Cfg ι A V} (hr : Reach (m₀, T₀) c) :
    (∀ t a, W t a → (c.2 t).exec c.1 a = (T₀ t).exec m₀ a) ∧
    (∀ a, (∀ t, ¬ W t a) →
      c.1 a + ∑ t, (c.2 t).adds c.1 a = m₀ a + ∑ t, (T₀ t).adds m₀ a) := by
  have hCC : ∀ s a, C s a → ¬ R s a ∧ ¬ W s a := fun s a h => ⟨hN.cr s s a h, hN.cw s s a h⟩
  induction hr with
  | refl => exact ⟨fun _ _ _ => rfl, fun _ _ => rfl⟩
  | @tail c c' hrc hs ih =>
    have hFP : AllFP R W C c.2 := AllFP.reach (c := (m₀, T₀)) h₀ hrc
    obtain ⟨ih1, ih2⟩ := ih
    cases hs with
    | @read m T t a k ht =>
      refine ⟨fun s b hb => ?_, fun b hb => ?_⟩
      · rw [← ih1 s b hb]
        by_cases e : s = t
        · subst e; simp [ht, K.exec]
        · simp [update_of_ne e]
      · rw [← ih2 b hb]
        congr 1
        apply Finset.sum_congr rfl
        intro s _
        by_cases e : s = t
        · subst e; simp [ht, K.adds]
        · simp [update_of_ne e]
    | @write m T t a v k ht =>
      have hWt : W t a := by have := hFP t; simp only [ht] at this; exact this.1
      have hag : ∀ s, s ≠ t → ∀ x, R s x ∨ W s x → update m a v x = m x := by
        intro s e x hx
        have hxa : x ≠ a := by
          rintro rfl
          rcases hx with hx | hx
          · exact hN.wr t s x (Ne.symm e) hWt hx
          · exact hN.ww t s x (Ne.symm e) hWt hx
        simp [update_of_ne hxa]
      refine ⟨fun s b hb => ?_, fun b hb => ?_⟩
      · rw [← ih1 s b hb]
        by_cases e : s = t
        · subst e; simp [ht, K.exec]
        · simp only [update_of_ne e]
          exact K.exec_congr' (hFP s) (hag s e) (hCC s) b (Or.inr hb)
      · have hba : b ≠ a := fun e => hb t (e ▸ hWt)
        rw [← ih2 b hb]
        simp only [update_of_ne hba]
        congr 1
        apply Finset.sum_congr rfl
        intro s _
        by_cases e : s = t
        · subst e; simp [ht, K.adds]
        · simp only [update_of_ne e]
          exact K.adds_congr (hFP s) (hag s e) (hCC s) b
    | @add m T t a v k ht =>
      have hCt : C t a := by have := hFP t; simp only [ht] at this; exact this.1
      have hag : ∀ s, ∀ x, R s x ∨ W s x → update m a (m a + v) x = m x := by
        intro s x hx
        have hxa : x ≠ a := by
          rintro rfl
          rcases hx with hx | hx
          · exact hN.cr t s x hCt hx
          · exact hN.cw t s x hCt hx
        simp [update_of_ne hxa]
      refine ⟨fun s b hb => ?_, fun b hb => ?_⟩
      · rw [← ih1 s b hb]
        by_cases e : s = t
        · subst e; simp [ht, K.exec]
        · simp only [update_of_ne e]
          exact K.exec_congr' (hFP s) (hag s) (hCC s) b (Or.inr hb)
      · rw [← ih2 b hb]
        dsimp only
        rw [← Finset.add_sum_erase Finset.univ _ (Finset.mem_univ t),
          ← Finset.add_sum_erase Finset.univ (fun s => (T s).adds m b) (Finset.mem_univ t)]
        have hothers : ∀ s ∈ Finset.univ.erase t,
            (update T t k s).adds (update m a (m a + v)) b = (T s).adds m b := by
          intro s hs
          have e : s ≠ t := Finset.ne_of_mem_erase hs
          simp only [update_of_ne e]
          exact K.adds_congr (hFP s) (hag s) (hCC s) b
        rw [Finset.sum_congr rfl hothers]
        simp only [update_self, ht, K.adds]
        by_cases e : b = a
        · subst e; simp only [update_self, if_true]; abel
        · simp only [update_of_ne e, if_neg e, zero_add]

end race

/-- A loop with atomics whose work items do not otherwise interfere is well defined. -/
theorem Launch.yields_of_footprint_atomic {A V : Type} [DecidableEq A] [AddCommMonoid V]
    (L : Launch A V)
    (dom : A → Prop) (R W C : Nat → A → Prop) (m m' : A → V)
    (hFP : ∀ t, t < L.n → (L.body t).FP (R t) (W t) (C t))
    (hdom : ∀ t a, t < L.n → R t a ∨ W t a ∨ C t a → dom a)
    (hww : ∀ s t a, s < L.n → t < L.n → s ≠ t → W s a → ¬ W t a)
    (hwr : ∀ s t a, s < L.n → t < L.n → s ≠ t → W s a → ¬ R t a)
    (hcr : ∀ s t a, s < L.n → t < L.n → C s a → ¬ R t a)
    (hcw : ∀ s t a, s < L.n → t < L.n → C s a → ¬ W t a)
    (hm' : ∀ t a, t < L.n → W t a → m' a = (L.body t).exec m a)
    (hm'' : ∀ a, (∀ t, t < L.n → ¬ W t a) →
      m' a = m a + ∑ t ∈ Finset.range L.n, (L.body t).adds m a) :
    L.Yields dom m m' := by
  have hall : AllFP (fun t : Fin L.n => R t) (fun t : Fin L.n => W t) (fun t : Fin L.n => C t)
      (L.start m).2 := fun t => hFP t t.2
  have hN : NonInterfering (fun t : Fin L.n => R t) (fun t : Fin L.n => W t)
      (fun t : Fin L.n => C t) :=
    ⟨fun s t a e => hww s t a s.2 t.2 (fun h => e (Fin.ext h)),
     fun s t a e => hwr s t a s.2 t.2 (fun h => e (Fin.ext h)),
     fun s t a => hcr s t a s.2 t.2, fun s t a => hcw s t a s.2 t.2⟩
  have huniq : ∀ m'', L.Run m m'' → m'' = m' := by
    rintro m'' ⟨T', hr, hf⟩
    obtain ⟨h1, h2⟩ := reach_inv_atomic hN hall hr
    dsimp only at h1 h2
    funext a
    by_cases h : ∃ t : Fin L.n, W t a
    · obtain ⟨t, ht⟩ := h
      have := h1 t a ht
      rw [hf t] at this
      simp only [K.exec] at this
      rw [this, hm' t a t.2 ht]; rfl
    · push Not at h
      have h3 := h2 a h
      have h4 : ∑ t, (T' t).adds m'' a = 0 := by
        apply Finset.sum_eq_zero; intro t _; rw [hf t]; rfl
      rw [h4, add_zero] at h3
      rw [hm'' a (fun t ht => h ⟨t, ht⟩), h3, Finset.sum_range]
      rfl
  refine ⟨?_, ?_, step_wf.apply _, ?_, huniq⟩
  · intro m₁ T' t x hr hx
    obtain ⟨h1, h2, h3⟩ := FP.next (AllFP.reach hall hr t) hx
    obtain ⟨kx, ax⟩ := x
    cases kx
    · exact hdom t _ t.2 (Or.inl (h1 rfl))
    · exact hdom t _ t.2 (Or.inr (Or.inl (h2 rfl)))
    · exact hdom t _ t.2 (Or.inr (Or.inr (h3 rfl)))
  · intro m₁ T' s t x y hr hst hx hy
    exact no_conflict hN (AllFP.reach hall hr) hst hx hy
  · obtain ⟨m₁, T', hr, hf⟩ := exists_finish (L.start m)
    have : m₁ = m' := huniq m₁ ⟨T', hr, hf⟩
    exact ⟨T', this ▸ hr, hf⟩

end Verif
