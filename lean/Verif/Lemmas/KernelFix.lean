import Verif.Lemmas.Kernel

/-! Helper lemmas: loops whose accesses depend on values they load from memory that the loop does
not modify. -/

namespace Verif

open Function

namespace K

variable {A V X Y : Type}

open Classical in
/-- The program that continues, after a load from a location in `ro`, as if the value were that in
the memory `m₀`. -/
noncomputable def fix (m₀ : A → V) (ro : A → Prop) : K A V X → K A V X
  | ret x => ret x
  | read a k => read a fun v => if ro a then (k (m₀ a)).fix m₀ ro else (k v).fix m₀ ro
  | write a v k => write a v (k.fix m₀ ro)
  | add a v k => add a v (k.fix m₀ ro)

variable {m₀ : A → V} {ro : A → Prop}

theorem fix_bind (p : K A V X) (f : X → K A V Y) :
    (p.bind f).fix m₀ ro = (p.fix m₀ ro).bind fun x => (f x).fix m₀ ro := by
  induction p with
  | ret x => rfl
  | read a k ih =>
    simp only [bind, fix, ih]
    congr 1
    funext v
    by_cases h : ro a <;> simp [h]
  | write a v k ih => simp only [bind, fix, ih]
  | add a v k ih => simp only [bind, fix, ih]

theorem FP.fix {R W C : A → Prop} {p : K A V X} (h : p.FP R W C) : (p.fix m₀ ro).FP R W C := by
  induction p with
  | ret x => trivial
  | read a k ih =>
    refine ⟨h.1, fun v => ?_⟩
    by_cases hr : ro a
    · simpa [hr] using ih _ (h.2 _)
    · simpa [hr] using ih _ (h.2 v)
  | write a v k ih => exact ⟨h.1, ih h.2⟩
  | add a v k ih => exact ⟨h.1, ih h.2⟩

variable [DecidableEq A] [Add V]

theorem exec_fix {R W C : A → Prop} {p : K A V X} (h : (p.fix m₀ ro).FP R W C)
    (hW : ∀ a, W a → ¬ ro a) (hC : ∀ a, C a → ¬ ro a) {m : A → V} (hm : ∀ a, ro a → m a = m₀ a) :
    (p.fix m₀ ro).exec m = p.exec m := by
  induction p generalizing m with
  | ret x => rfl
  | read a k ih =>
    have h2 := h.2 (m a)
    simp only [fix, exec]
    by_cases hr : ro a
    · simp only [hr, if_true] at h2 ⊢
      rw [hm a hr]; exact ih _ h2 hm
    · simp only [hr, if_false] at h2 ⊢
      exact ih _ h2 hm
  | write a v k ih =>
    simp only [fix, exec]
    refine ih h.2 fun b hb => ?_
    rw [update_of_ne (by rintro rfl; exact hW _ h.1 hb : b ≠ a), hm b hb]
  | add a v k ih =>
    simp only [fix, exec]
    refine ih h.2 fun b hb => ?_
    rw [update_of_ne (by rintro rfl; exact hC _ h.1 hb : b ≠ a), hm b hb]

omit [DecidableEq A] [Add V] in
theorem next_fix (p : K A V Unit) : (p.fix m₀ ro).next = p.next := by
  cases p <;> rfl

end K

section
variable {ι A V : Type} [DecidableEq ι] [DecidableEq A] [Add V]

theorem Step.fix {m₀ : A → V} {ro : A → Prop} {c c' : Cfg ι A V} (h : Step c c')
    (hm : ∀ a, ro a → c.1 a = m₀ a) :
    Step (c.1, fun t => (c.2 t).fix m₀ ro) (c'.1, fun t => (c'.2 t).fix m₀ ro) := by
  have comm : ∀ (T : ι → K A V Unit) (t : ι) (p : K A V Unit),
      (fun s => (update T t p s).fix m₀ ro) = update (fun s => (T s).fix m₀ ro) t (p.fix m₀ ro) := by
    intro T t p
    funext s
    by_cases e : s = t
    · subst e; simp
    · simp [update_of_ne e]
  cases h with
  | @read m T t a k ht =>
    simp only [comm]
    have e : (T t).fix m₀ ro = .read a fun v =>
        open Classical in if ro a then (k (m₀ a)).fix m₀ ro else (k v).fix m₀ ro := by
      rw [ht]; rfl
    have s := Step.read (m := m) (T := fun s => (T s).fix m₀ ro) t e
    have e2 : (open Classical in if ro a then (k (m₀ a)).fix m₀ ro else (k (m a)).fix m₀ ro) =
        (k (m a)).fix m₀ ro := by
      by_cases hr : ro a
      · simp only [hr, if_true]; rw [← hm a hr]
      · simp only [hr, if_false]
    simp only [e2] at s
    exact s
  | @write m T t a v k ht =>
    simp only [comm]
    exact Step.write (T := fun s => (T s).fix m₀ ro) t (by rw [ht]; rfl)
  | @add m T t a v k ht =>
    simp only [comm]
    exact Step.add (T := fun s => (T s).fix m₀ ro) t (by rw [ht]; rfl)

theorem Reach.fix {m₀ : A → V} {ro : A → Prop} {R W C : ι → A → Prop} {m : A → V}
    {T : ι → K A V Unit} (hm : ∀ a, ro a → m a = m₀ a)
    (hFP : AllFP R W C fun t => (T t).fix m₀ ro)
    (hW : ∀ t a, W t a → ¬ ro a) (hC : ∀ t a, C t a → ¬ ro a)
    {c : Cfg ι A V} (h : Reach (m, T) c) :
    Reach (m, fun t => (T t).fix m₀ ro) (c.1, fun t => (c.2 t).fix m₀ ro) ∧
      ∀ a, ro a → c.1 a = m₀ a := by
  induction h with
  | refl => exact ⟨Relation.ReflTransGen.refl, hm⟩
  | @tail c c' _ hs ih =>
    obtain ⟨ih1, ih2⟩ := ih
    refine ⟨ih1.tail (hs.fix ih2), ?_⟩
    have hF := AllFP.reach (c := (m, fun t => (T t).fix m₀ ro)) hFP ih1
    intro b hb
    cases hs with
    | @read m T t a k ht => exact ih2 b hb
    | @write m T t a v k ht =>
      have h1 : W t a := by have := hF t; simp only [ht] at this; exact this.1
      simp only
      rw [update_of_ne (by rintro rfl; exact hW t _ h1 hb : b ≠ a)]; exact ih2 b hb
    | @add m T t a v k ht =>
      have h1 : C t a := by have := hF t; simp only [ht] at this; exact this.1
      simp only
      rw [update_of_ne (by rintro rfl; exact hC t _ h1 hb : b ≠ a)]; exact ih2 b hb

end

/-- A loop does what the loop with fixed values does, if the latter does not modify the fixed
locations. -/
theorem Launch.yields_of_fix {A V : Type} [DecidableEq A] [Add V] (L : Launch A V)
    {dom : A → Prop} {ro : A → Prop} {R W C : Nat → A → Prop} {m m' : A → V}
    (hFP : ∀ t, t < L.n → ((L.body t).fix m ro).FP (R t) (W t) (C t))
    (hW : ∀ t a, t < L.n → W t a → ¬ ro a) (hC : ∀ t a, t < L.n → C t a → ¬ ro a)
    (h : ({ n := L.n, body := fun t => (L.body t).fix m ro } : Launch A V).Yields dom m m') :
    L.Yields dom m m' := by
  have sim : ∀ c, Reach (L.start m) c →
      Reach (m, fun t : Fin L.n => (L.body t).fix m ro) (c.1, fun t => (c.2 t).fix m ro) :=
    fun c hr => (Reach.fix (R := fun t : Fin L.n => R t) (W := fun t : Fin L.n => W t)
      (C := fun t : Fin L.n => C t) (m := m) (T := fun t : Fin L.n => L.body t) (fun _ _ => rfl)
      (fun t => hFP t t.2) (fun t a => hW t a t.2) (fun t a => hC t a t.2) hr).1
  have huniq : ∀ m'', L.Run m m'' → m'' = m' := by
    rintro m'' ⟨T', hr, hf⟩
    refine h.unique m'' ⟨fun t => (T' t).fix m ro, sim _ hr, fun t => ?_⟩
    show K.fix m ro (T' t) = _
    rw [hf t]; rfl
  refine ⟨?_, ?_, step_wf.apply _, ?_, huniq⟩
  · intro m₁ T' t x hr hx
    exact h.inBounds m₁ (fun t => (T' t).fix m ro) t x (sim _ hr) (by rw [K.next_fix]; exact hx)
  · intro m₁ T' s t x y hr hst hx hy
    exact h.raceFree m₁ (fun t => (T' t).fix m ro) s t x y (sim _ hr) hst
      (by rw [K.next_fix]; exact hx) (by rw [K.next_fix]; exact hy)
  · obtain ⟨m₁, T', hr, hf⟩ := exists_finish (L.start m)
    have : m₁ = m' := huniq m₁ ⟨T', hr, hf⟩
    exact ⟨T', this ▸ hr, hf⟩

end Verif
