import Verif.Model.Kernel
import Mathlib.Order.PiLex
import Mathlib.Data.DFinsupp.WellFounded
import Mathlib.Algebra.BigOperators.Group.Finset.Basic
import Mathlib.Algebra.BigOperators.Fin

/-! Helper lemmas on interleavings. -/

namespace Verif

open Function

namespace K

variable {A V X Y : Type}

/-- Footprint: all loads in `R`, stores in `W`, atomic adds in `C`, whatever values are loaded. -/
def FP (R W C : A → Prop) : K A V X → Prop
  | ret _ => True
  | read a k => R a ∧ ∀ v, (k v).FP R W C
  | write a _ k => W a ∧ k.FP R W C
  | add a _ k => C a ∧ k.FP R W C

@[simp] theorem bind_eq (p : K A V X) (f : X → K A V Y) : p >>= f = p.bind f := rfl
@[simp] theorem pure_eq (x : X) : (pure x : K A V X) = .ret x := rfl

theorem bind_assoc {Z : Type} (p : K A V X) (f : X → K A V Y) (g : Y → K A V Z) :
    (p.bind f).bind g = p.bind (fun x => (f x).bind g) := by
  induction p with
  | ret x => rfl
  | read a k ih => simp only [bind]; congr; funext v; exact ih v
  | write a v k ih => simp only [bind, ih]
  | add a v k ih => simp only [bind, ih]

@[simp] theorem ret_bind (x : X) (f : X → K A V Y) : (ret x : K A V X).bind f = f x := rfl
@[simp] theorem load_bind (a : A) (f : V → K A V Y) : (load a).bind f = .read a f := rfl
@[simp] theorem store_bind (a : A) (v : V) (f : Unit → K A V Y) :
    (store a v).bind f = .write a v (f ()) := rfl
@[simp] theorem atomicAdd_bind (a : A) (v : V) (f : Unit → K A V Y) :
    (atomicAdd a v).bind f = .add a v (f ()) := rfl

theorem FP.mono {R W C R' W' C' : A → Prop} {p : K A V X}
    (hR : ∀ a, R a → R' a) (hW : ∀ a, W a → W' a) (hC : ∀ a, C a → C' a)
    (h : p.FP R W C) : p.FP R' W' C' := by
  induction p with
  | ret x => trivial
  | read a k ih => exact ⟨hR _ h.1, fun v => ih v (h.2 v)⟩
  | write a v k ih => exact ⟨hW _ h.1, ih h.2⟩
  | add a v k ih => exact ⟨hC _ h.1, ih h.2⟩

theorem FP.bind {R W C : A → Prop} {p : K A V X} {f : X → K A V Y}
    (h : p.FP R W C) (hf : ∀ x, (f x).FP R W C) : (p.bind f).FP R W C := by
  induction p with
  | ret x => exact hf x
  | read a k ih => exact ⟨h.1, fun v => ih v (h.2 v)⟩
  | write a v k ih => exact ⟨h.1, ih h.2⟩
  | add a v k ih => exact ⟨h.1, ih h.2⟩

theorem FP.load {R W C : A → Prop} {a : A} (h : R a) :
    (K.load a : K A V V).FP R W C := ⟨h, fun _ => trivial⟩
theorem FP.store {R W C : A → Prop} {a : A} {v : V} (h : W a) :
    (K.store a v).FP R W C := ⟨h, trivial⟩
theorem FP.atomicAdd {R W C : A → Prop} {a : A} {v : V} (h : C a) :
    (K.atomicAdd a v).FP R W C := ⟨h, trivial⟩
theorem FP.ret {R W C : A → Prop} {x : X} : (K.ret x : K A V X).FP R W C := trivial

variable [DecidableEq A] [Add V]

theorem exec_bind (p : K A V X) (f : X → K A V Y) (m : A → V) :
    (p.bind f).exec m = (f (p.value m)).exec (p.exec m) := by
  induction p generalizing m with
  | ret x => rfl
  | read a k ih => simp only [K.bind, exec, value, ih]
  | write a v k ih => simp only [K.bind, exec, value, ih]
  | add a v k ih => simp only [K.bind, exec, value, ih]

theorem value_bind (p : K A V X) (f : X → K A V Y) (m : A → V) :
    (p.bind f).value m = (f (p.value m)).value (p.exec m) := by
  induction p generalizing m with
  | ret x => rfl
  | read a k ih => simp only [K.bind, exec, value, ih]
  | write a v k ih => simp only [K.bind, exec, value, ih]
  | add a v k ih => simp only [K.bind, exec, value, ih]

/-- Locations outside the modified set keep their value. -/
theorem exec_frame {R W C : A → Prop} {p : K A V X} (h : p.FP R W C) (m : A → V) {a : A}
    (hW : ¬ W a) (hC : ¬ C a) : p.exec m a = m a := by
  induction p generalizing m with
  | ret x => rfl
  | read b k ih => exact ih _ (h.2 _) m
  | write b v k ih =>
    have hb : a ≠ b := fun e => hW (e ▸ h.1)
    simp only [exec]
    rw [ih h.2, update_of_ne hb]
  | add b v k ih =>
    have hb : a ≠ b := fun e => hC (e ▸ h.1)
    simp only [exec]
    rw [ih h.2, update_of_ne hb]

/-- Without atomics, the effect depends only on the footprint. -/
theorem exec_congr {R W : A → Prop} {p : K A V X} (h : p.FP R W (fun _ => False))
    {m m' : A → V} (hm : ∀ a, R a ∨ W a → m a = m' a) :
    ∀ a, R a ∨ W a → p.exec m a = p.exec m' a := by
  induction p generalizing m m' with
  | ret x => exact hm
  | read b k ih =>
    simp only [exec]
    rw [hm b (Or.inl h.1)]
    exact ih _ (h.2 _) hm
  | write b v k ih =>
    simp only [exec]
    apply ih h.2
    intro a ha
    by_cases e : a = b
    · subst e; simp
    · simp [update_of_ne e, hm a ha]
  | add b v k ih => exact h.1.elim

end K

section race

variable {ι A V : Type} [DecidableEq ι] [DecidableEq A] [Add V]

/-- Footprint of every work item of a configuration. -/
def AllFP (R W C : ι → A → Prop) (T : ι → K A V Unit) : Prop :=
  ∀ t, (T t).FP (R t) (W t) (C t)

theorem AllFP.step {R W C : ι → A → Prop} {c c' : Cfg ι A V}
    (h : AllFP R W C c.2) (hs : Step c c') : AllFP R W C c'.2 := by
  intro s
  cases hs with
  | @read m T t a k ht =>
    by_cases e : s = t
    · subst e
      have := h s
      simp only [ht] at this
      simpa using this.2 (m a)
    · simpa [update_of_ne e] using h s
  | @write m T t a v k ht =>
    by_cases e : s = t
    · subst e
      have := h s
      simp only [ht] at this
      simpa using this.2
    · simpa [update_of_ne e] using h s
  | @add m T t a v k ht =>
    by_cases e : s = t
    · subst e
      have := h s
      simp only [ht] at this
      simpa using this.2
    · simpa [update_of_ne e] using h s

theorem AllFP.reach {R W C : ι → A → Prop} {c c' : Cfg ι A V}
    (h : AllFP R W C c.2) (hs : Reach c c') : AllFP R W C c'.2 := by
  induction hs with
  | refl => exact h
  | tail _ h2 ih => exact ih.step h2

omit [DecidableEq A] [Add V] [DecidableEq ι] in
theorem FP.next {R W C : A → Prop} {p : K A V Unit} (h : p.FP R W C) {x : K.Kind × A}
    (hx : p.next = some x) :
    (x.1 = .read → R x.2) ∧ (x.1 = .write → W x.2) ∧ (x.1 = .add → C x.2) := by
  cases p with
  | ret _ => simp [K.next] at hx
  | read a k => simp [K.next] at hx; subst hx; simpa using h.1
  | write a v k => simp [K.next] at hx; subst hx; simpa using h.1
  | add a v k => simp [K.next] at hx; subst hx; simpa using h.1

/-- Footprints of different work items do not interfere. -/
structure NonInterfering (R W C : ι → A → Prop) : Prop where
  ww : ∀ s t a, s ≠ t → W s a → ¬ W t a
  wr : ∀ s t a, s ≠ t → W s a → ¬ R t a
  cr : ∀ s t a, C s a → ¬ R t a
  cw : ∀ s t a, C s a → ¬ W t a

omit [DecidableEq ι] [DecidableEq A] [Add V] in
theorem no_conflict {R W C : ι → A → Prop} (hN : NonInterfering R W C)
    {T : ι → K A V Unit} (h : AllFP R W C T) {s t : ι} (hst : s ≠ t)
    {x y : K.Kind × A} (hx : (T s).next = some x) (hy : (T t).next = some y) :
    ¬ Conflict x y := by
  intro ⟨e, h1, h2⟩
  obtain ⟨xr, xw, xc⟩ := FP.next (h s) hx
  obtain ⟨yr, yw, yc⟩ := FP.next (h t) hy
  obtain ⟨kx, ax⟩ := x
  obtain ⟨ky, ay⟩ := y
  simp only at e; subst e
  cases kx <;> cases ky <;> simp_all
  · exact hN.wr t s _ (Ne.symm hst) yw xr
  · exact hN.cr _ _ _ yc xr
  · exact hN.wr s t _ hst xw yr
  · exact hN.ww s t _ hst xw yw
  · exact hN.cw _ _ _ yc xw
  · exact hN.cr _ _ _ xc yr
  · exact hN.cw _ _ _ xc yw

/-- Sub-program relation. -/
inductive K.Child {X : Type} : K A V X → K A V X → Prop
  | read (a k v) : K.Child (k v) (.read a k)
  | write (a v k) : K.Child k (.write a v k)
  | add (a v k) : K.Child k (.add a v k)

omit [DecidableEq A] [Add V] in
theorem K.child_wf {X : Type} : WellFounded (K.Child (A := A) (V := V) (X := X)) := by
  constructor
  intro p
  induction p with
  | ret x => exact ⟨_, fun y h => by cases h⟩
  | read a k ih => exact ⟨_, fun y h => by cases h; exact ih _⟩
  | write a v k ih => exact ⟨_, fun y h => by cases h; exact ih⟩
  | add a v k ih => exact ⟨_, fun y h => by cases h; exact ih⟩

theorem step_wf {n : ℕ} :
    WellFounded (fun c' c : Cfg (Fin n) A V => Step c c') := by
  have hw : WellFounded
      (Pi.Lex (· < ·) (fun {_ : Fin n} => K.Child (A := A) (V := V) (X := Unit))) :=
    Pi.Lex.wellFounded _ (fun _ => K.child_wf)
  refine Subrelation.wf ?_ (InvImage.wf (fun c : Cfg (Fin n) A V => c.2) hw)
  intro c' c hs
  cases hs with
  | @read m T t a k ht =>
    refine ⟨t, fun j hj => ?_, ?_⟩
    · simp [update_of_ne (ne_of_lt hj)]
    · simp only [update_self, ht]; exact .read _ _ _
  | @write m T t a v k ht =>
    refine ⟨t, fun j hj => ?_, ?_⟩
    · simp [update_of_ne (ne_of_lt hj)]
    · simp only [update_self, ht]; exact .write _ _ _
  | @add m T t a v k ht =>
    refine ⟨t, fun j hj => ?_, ?_⟩
    · simp [update_of_ne (ne_of_lt hj)]
    · simp only [update_self, ht]; exact .add _ _ _

/-- An unfinished configuration can make a step. -/
theorem progress (m : A → V) (T : ι → K A V Unit) (h : ¬ Finished T) :
    ∃ c', Step (m, T) c' := by
  simp only [Finished, not_forall] at h
  obtain ⟨t, ht⟩ := h
  cases e : T t with
  | ret x => exact (ht e).elim
  | read a k => exact ⟨_, Step.read t e⟩
  | write a v k => exact ⟨_, Step.write t e⟩
  | add a v k => exact ⟨_, Step.add t e⟩

theorem exists_finish {n : ℕ} (c : Cfg (Fin n) A V) :
    ∃ m' T', Reach c (m', T') ∧ Finished T' := by
  refine step_wf.induction (C := fun c => ∃ m' T', Reach c (m', T') ∧ Finished T') c ?_
  intro c ih
  by_cases h : Finished c.2
  · exact ⟨c.1, c.2, Relation.ReflTransGen.refl, h⟩
  · obtain ⟨c', hc'⟩ := progress c.1 c.2 h
    obtain ⟨m', T', hr, hf⟩ := ih c' hc'
    exact ⟨m', T', Relation.ReflTransGen.head hc' hr, hf⟩

/-- Invariant of race-free loops without atomics. -/
theorem reach_inv {R W : ι → A → Prop} (hN : NonInterfering R W (fun _ _ => False))
    {m₀ : A → V} {T₀ : ι → K A V Unit} (h₀ : AllFP R W (fun _ _ => False) T₀)
    {c : Cfg ι A V} (hr : Reach (m₀, T₀) c) :
    (∀ t a, W t a → (c.2 t).exec c.1 a = (T₀ t).exec m₀ a) ∧
    (∀ a, (∀ t, ¬ W t a) → c.1 a = m₀ a) := by
  induction hr with
  | refl => exact ⟨fun _ _ _ => rfl, fun _ _ => rfl⟩
  | @tail c c' hrc hs ih =>
    have hFP : AllFP R W (fun _ _ => False) c.2 := AllFP.reach (c := (m₀, T₀)) h₀ hrc
    obtain ⟨ih1, ih2⟩ := ih
    cases hs with
    | @read m T t a k ht =>
      refine ⟨fun s b hb => ?_, ih2⟩
      rw [← ih1 s b hb]
      by_cases e : s = t
      · subst e; simp [ht, K.exec]
      · simp [update_of_ne e]
    | @write m T t a v k ht =>
      have hWt : W t a := by have := hFP t; simp only [ht] at this; exact this.1
      refine ⟨fun s b hb => ?_, fun b hb => ?_⟩
      · rw [← ih1 s b hb]
        by_cases e : s = t
        · subst e; simp [ht, K.exec]
        · simp only [update_of_ne e]
          refine K.exec_congr (hFP s) (fun x hx => ?_) b (Or.inr hb)
          have hxa : x ≠ a := by
            rintro rfl
            rcases hx with hx | hx
            · exact hN.wr t s x (Ne.symm e) hWt hx
            · exact hN.ww t s x (Ne.symm e) hWt hx
          simp [update_of_ne hxa]
      · have hba : b ≠ a := fun e => hb t (e ▸ hWt)
        simp only [update_of_ne hba]
        exact ih2 b hb
    | @add m T t a v k ht =>
      have := hFP t; simp only [ht] at this; exact this.1.elim

end race

/-- Main tool: a loop whose work items do not interfere is well defined, and the final memory is
described item by item. -/
theorem Launch.yields_of_footprint {A V : Type} [DecidableEq A] [Add V] (L : Launch A V)
    (dom : A → Prop) (R W : Nat → A → Prop) (m m' : A → V)
    (hFP : ∀ t, t < L.n → (L.body t).FP (R t) (W t) (fun _ => False))
    (hdomR : ∀ t a, t < L.n → R t a → dom a) (hdomW : ∀ t a, t < L.n → W t a → dom a)
    (hww : ∀ s t a, s < L.n → t < L.n → s ≠ t → W s a → ¬ W t a)
    (hwr : ∀ s t a, s < L.n → t < L.n → s ≠ t → W s a → ¬ R t a)
    (hm' : ∀ t a, t < L.n → W t a → m' a = (L.body t).exec m a)
    (hm'' : ∀ a, (∀ t, t < L.n → ¬ W t a) → m' a = m a) :
    L.Yields dom m m' := by
  have hall : AllFP (fun t : Fin L.n => R t) (fun t : Fin L.n => W t) (fun _ _ => False)
      (L.start m).2 := fun t => hFP t t.2
  have hN : NonInterfering (fun t : Fin L.n => R t) (fun t : Fin L.n => W t)
      (fun _ _ => False) :=
    ⟨fun s t a e => hww s t a s.2 t.2 (fun h => e (Fin.ext h)),
     fun s t a e => hwr s t a s.2 t.2 (fun h => e (Fin.ext h)), fun _ _ _ h => h.elim,
     fun _ _ _ h => h.elim⟩
  have huniq : ∀ m'', L.Run m m'' → m'' = m' := by
    rintro m'' ⟨T', hr, hf⟩
    obtain ⟨h1, h2⟩ := reach_inv hN hall hr
    dsimp only at h1 h2
    funext a
    by_cases h : ∃ t : Fin L.n, W t a
    · obtain ⟨t, ht⟩ := h
      have := h1 t a ht
      rw [hf t] at this
      simp only [K.exec] at this
      rw [this, hm' t a t.2 ht]; rfl
    · push Not at h
      rw [h2 a h, hm'' a (fun t ht => h ⟨t, ht⟩)]
  refine ⟨?_, ?_, step_wf.apply _, ?_, huniq⟩
  · intro m₁ T' t x hr hx
    obtain ⟨h1, h2, h3⟩ := FP.next (AllFP.reach hall hr t) hx
    obtain ⟨kx, ax⟩ := x
    cases kx
    · exact hdomR t _ t.2 (h1 rfl)
    · exact hdomW t _ t.2 (h2 rfl)
    · exact (h3 rfl).elim
  · intro m₁ T' s t x y hr hst hx hy
    exact no_conflict hN (AllFP.reach hall hr) hst hx hy
  · obtain ⟨m₁, T', hr, hf⟩ := exists_finish (L.start m)
    have : m₁ = m' := huniq m₁ ⟨T', hr, hf⟩
    exact ⟨T', this ▸ hr, hf⟩

theorem YieldsAll.run {A V : Type} [DecidableEq A] [Add V] {dom : A → Prop}
    {Ls : List (Launch A V)} {m m' : A → V} (h : YieldsAll dom Ls m m') : Runs Ls m m' := by
  induction h with
  | nil m => exact .nil m
  | cons h1 _ ih => exact .cons h1.run ih

theorem YieldsAll.unique {A V : Type} [DecidableEq A] [Add V] {dom : A → Prop}
    {Ls : List (Launch A V)} {m m' m'' : A → V} (h : YieldsAll dom Ls m m')
    (hr : Runs Ls m m'') : m'' = m' := by
  induction h generalizing m'' with
  | nil m => cases hr; rfl
  | cons h1 _ ih =>
    cases hr with
    | cons hr1 hr2 =>
      have := h1.unique _ hr1
      subst this
      exact ih hr2

theorem YieldsAll.append {A V : Type} [DecidableEq A] [Add V] {dom : A → Prop}
    {Ls Ls' : List (Launch A V)} {m m' m'' : A → V} (h : YieldsAll dom Ls m m')
    (h' : YieldsAll dom Ls' m' m'') : YieldsAll dom (Ls ++ Ls') m m'' := by
  induction h with
  | nil m => exact h'
  | cons h1 _ ih => exact .cons h1 (ih h')

end Verif
