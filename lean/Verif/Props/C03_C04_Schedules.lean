import Verif.Spec.Kernel
import Verif.Lemmas.KernelAtomic
import Mathlib.Data.List.Range

/-!
# C03, C04: parallel loops give one result under every schedule
-/

namespace Verif

open K Function

theorem K.fp_may {A V X : Type} (p : K A V X) :
    p.FP (fun a => p.May .read a) (fun a => p.May .write a) (fun a => p.May .add a) := by
  induction p with
  | ret x => trivial
  | read a k ih =>
    refine ⟨.readHere _ _, fun v => (ih v).mono ?_ ?_ ?_⟩
    all_goals intro b hb; exact .read _ _ v _ _ hb
  | write a v k ih =>
    refine ⟨.writeHere _ _ _, ih.mono ?_ ?_ ?_⟩
    all_goals intro b hb; exact .write _ _ _ _ _ hb
  | add a v k ih =>
    refine ⟨.addHere _ _ _, ih.mono ?_ ?_ ?_⟩
    all_goals intro b hb; exact .add _ _ _ _ _ hb

theorem K.sequentially_spec {A V : Type} [DecidableEq A] [Add V] (body : Nat → K A V Unit)
    (R W : Nat → A → Prop) (order : List Nat) (hnd : order.Nodup)
    (hFP : ∀ t ∈ order, (body t).FP (R t) (W t) (fun _ => False))
    (hww : ∀ s ∈ order, ∀ t ∈ order, ∀ a, s ≠ t → W s a → ¬ W t a)
    (hwr : ∀ s ∈ order, ∀ t ∈ order, ∀ a, s ≠ t → W s a → ¬ R t a) (m : A → V) :
    (∀ t ∈ order, ∀ a, W t a → sequentially body order m a = (body t).exec m a) ∧
    (∀ a, (∀ t ∈ order, ¬ W t a) → sequentially body order m a = m a) := by
  induction order generalizing m with
  | nil => exact ⟨fun t h => by simp at h, fun a _ => rfl⟩
  | cons s l ih =>
    have hsl : s ∉ l := (List.nodup_cons.1 hnd).1
    obtain ⟨ih1, ih2⟩ := ih (List.nodup_cons.1 hnd).2
      (fun t ht => hFP t (List.mem_cons_of_mem _ ht))
      (fun s hs t ht => hww s (List.mem_cons_of_mem _ hs) t (List.mem_cons_of_mem _ ht))
      (fun s hs t ht => hwr s (List.mem_cons_of_mem _ hs) t (List.mem_cons_of_mem _ ht))
      ((body s).exec m)
    have hs := hFP s List.mem_cons_self
    refine ⟨fun t ht a ha => ?_, fun a ha => ?_⟩
    · rcases List.mem_cons.1 ht with rfl | ht'
      · change sequentially body l _ a = _
        rw [ih2 a]
        intro u hu hua
        exact hww t ht u (List.mem_cons_of_mem _ hu) a (fun e => hsl (e ▸ hu)) ha hua
      · change sequentially body l _ a = _
        rw [ih1 t ht' a ha]
        have hne : s ≠ t := fun e => hsl (e ▸ ht')
        refine K.exec_congr (hFP t ht) (fun b hb => ?_) a (Or.inr ha)
        apply K.exec_frame hs m _ (fun h => h)
        intro hw
        rcases hb with hb | hb
        · exact hwr s List.mem_cons_self t ht b hne hw hb
        · exact hww s List.mem_cons_self t ht b hne hw hb
    · change sequentially body l _ a = _
      rw [ih2 a (fun t ht => ha t (List.mem_cons_of_mem _ ht))]
      exact K.exec_frame hs m (ha s List.mem_cons_self) (fun h => h)

/-- **C03.** If no work item of a loop may write a location that another work item may read or
write (and there are no atomics), and all accesses are to allocated locations, then the loop is
well defined under every interleaving and ends in the memory obtained by running the work items
one after the other, in any order. -/
theorem C03_race_free_loop_is_deterministic {A V : Type} [DecidableEq A] [Add V]
    (L : Launch A V) (dom : A → Prop) (m : A → V) (order : List Nat)
    (horder : order.Perm (List.range L.n))
    (hNoAtomics : ∀ t a, t < L.n → ¬ (L.body t).May .add a)
    (hdom : ∀ t κ a, t < L.n → (L.body t).May κ a → dom a)
    (hww : ∀ s t a, s < L.n → t < L.n → s ≠ t →
      (L.body s).May .write a → ¬ (L.body t).May .write a)
    (hwr : ∀ s t a, s < L.n → t < L.n → s ≠ t →
      (L.body s).May .write a → ¬ (L.body t).May .read a) :
    L.Yields dom m (sequentially L.body order m) := by
  have hmem : ∀ t, t ∈ order ↔ t < L.n := fun t => by rw [horder.mem_iff, List.mem_range]
  have hfp : ∀ t, t < L.n → (L.body t).FP (fun a => (L.body t).May .read a)
      (fun a => (L.body t).May .write a) (fun _ => False) := fun t ht =>
    (K.fp_may (L.body t)).mono (fun _ h => h) (fun _ h => h) (fun a h => hNoAtomics t a ht h)
  obtain ⟨h1, h2⟩ := K.sequentially_spec L.body (fun t a => (L.body t).May .read a)
    (fun t a => (L.body t).May .write a) order (horder.nodup_iff.2 List.nodup_range)
    (fun t ht => hfp t ((hmem t).1 ht))
    (fun s hs t ht a => hww s t a ((hmem s).1 hs) ((hmem t).1 ht))
    (fun s hs t ht a => hwr s t a ((hmem s).1 hs) ((hmem t).1 ht)) m
  exact L.yields_of_footprint dom _ _ m _ hfp (fun t a ht => hdom t _ a ht)
    (fun t a ht => hdom t _ a ht) hww hwr (fun t a ht ha => h1 t ((hmem t).2 ht) a ha)
    (fun a ha => h2 a (fun t ht => ha t ((hmem t).1 ht)))

/-- Non-vacuity of C03: two work items, item `t` copies location `2+t` to location `t`. -/
example : let L : Launch Nat Int := ⟨2, fun t => do let v ← load (t + 2); store t v⟩
    L.Yields (· < 4) (fun a => (a : Int) * 10) (fun a => if a < 2 then 10 * a + 20 else 10 * a) := by
  intro L
  have h := C03_race_free_loop_is_deterministic L (· < 4) (fun a => (a : Int) * 10) [1, 0]
    (by decide) ?_ ?_ ?_ ?_
  · convert h using 1
    funext a
    simp only [sequentially, L, List.foldl, bind_eq, load_bind, store, K.exec]
    by_cases h0 : a = 0
    · subst h0; simp
    · by_cases h1 : a = 1
      · subst h1; simp
      · have : ¬ a < 2 := by omega
        simp [update_of_ne h0, update_of_ne h1, this, mul_comm]
  · intro t a _ h
    cases h with
    | read _ _ _ _ _ h => cases h with
      | write _ _ _ _ _ h => cases h
  · intro t κ a ht h
    have ht' : t < 2 := ht
    cases h with
    | readHere => show t + 2 < 4; omega
    | read _ _ _ _ _ h => cases h with
      | writeHere => show t < 4; omega
      | write _ _ _ _ _ h => cases h
  · intro s t a hs ht hst h h'
    cases h with
    | read _ _ _ _ _ h => cases h with
      | writeHere => cases h' with
        | read _ _ _ _ _ h' => cases h' with
          | writeHere => exact hst rfl
          | write _ _ _ _ _ h => cases h
      | write _ _ _ _ _ h => cases h
  · intro s t a hs ht hst h h'
    have hs' : s < 2 := hs
    have ht' : t < 2 := ht
    cases h with
    | read _ _ _ _ _ h => cases h with
      | writeHere =>
        generalize hst' : s = u at h'
        cases h' with
        | readHere => omega
        | read _ _ _ _ _ h' => cases h' with
          | write _ _ _ _ _ h => cases h
      | write _ _ _ _ _ h => cases h

/-- **C04.** If the locations updated by atomic additions are neither read nor plainly written by any
work item, and otherwise no work item writes what another reads or writes, the loop is well
defined under every interleaving; every location that is not plainly written ends with its
initial value plus the sum of all contributions. -/
theorem C04_atomic_accumulation {A V : Type} [DecidableEq A] [AddCommMonoid V]
    (L : Launch A V) (dom : A → Prop) (m : A → V)
    (hdom : ∀ t κ a, t < L.n → (L.body t).May κ a → dom a)
    (hww : ∀ s t a, s < L.n → t < L.n → s ≠ t →
      (L.body s).May .write a → ¬ (L.body t).May .write a)
    (hwr : ∀ s t a, s < L.n → t < L.n → s ≠ t →
      (L.body s).May .write a → ¬ (L.body t).May .read a)
    (hadd : ∀ s t a, s < L.n → t < L.n → (L.body s).May .add a →
      ¬ (L.body t).May .read a ∧ ¬ (L.body t).May .write a) :
    ∃ m', L.Yields dom m m' ∧
      (∀ a, (∀ t, t < L.n → ¬ (L.body t).May .write a) →
        m' a = m a + ∑ t ∈ Finset.range L.n, (L.body t).adds m a) ∧
      (∀ t a, t < L.n → (L.body t).May .write a → m' a = (L.body t).exec m a) := by
  classical
  let m' : A → V := fun a =>
    if h : ∃ t, t < L.n ∧ (L.body t).May .write a then (L.body h.choose).exec m a
    else m a + ∑ t ∈ Finset.range L.n, (L.body t).adds m a
  have e1 : ∀ t a, t < L.n → (L.body t).May .write a → m' a = (L.body t).exec m a := by
    intro t a ht ha
    have h : ∃ t, t < L.n ∧ (L.body t).May .write a := ⟨t, ht, ha⟩
    have : h.choose = t := by
      by_contra hne
      exact hww _ t a h.choose_spec.1 ht hne h.choose_spec.2 ha
    simp only [m', dif_pos h, this]
  have e2 : ∀ a, (∀ t, t < L.n → ¬ (L.body t).May .write a) →
        m' a = m a + ∑ t ∈ Finset.range L.n, (L.body t).adds m a := by
    intro a ha
    have h : ¬ ∃ t, t < L.n ∧ (L.body t).May .write a := fun ⟨t, ht, h⟩ => ha t ht h
    simp only [m', dif_neg h]
  refine ⟨m', ?_, e2, e1⟩
  exact L.yields_of_footprint_atomic dom _ _ _ m m' (fun t _ => K.fp_may (L.body t))
    (fun t a ht h => by rcases h with h | h | h <;> exact hdom t _ a ht h)
    hww hwr (fun s t a hs ht h => (hadd s t a hs ht h).1)
    (fun s t a hs ht h => (hadd s t a hs ht h).2) e1 e2

/-- Non-vacuity of C04: two work items both add to location 0 a value loaded from location `1+t`. -/
example : let L : Launch Nat Int := ⟨2, fun t => do let v ← load (t + 1); atomicAdd 0 v⟩
    ∃ m', L.Yields (· < 3) (fun a => (a : Int) * 10 + 7) m' ∧ m' 0 = 7 + (17 + 27) := by
  intro L
  have key := C04_atomic_accumulation L (· < 3) (fun a => (a : Int) * 10 + 7) ?_ ?_ ?_ ?_
  · obtain ⟨m', h1, h2, -⟩ := key
    refine ⟨m', h1, ?_⟩
    rw [h2 0]
    · simp [L, K.adds, Finset.sum_range_succ, atomicAdd]
    · intro t _ h
      cases h with
      | read _ _ _ _ _ h => cases h with
        | add _ _ _ _ _ h => cases h
  · intro t κ a ht h
    have ht' : t < 2 := ht
    cases h with
    | readHere => show t + 1 < 3; omega
    | read _ _ _ _ _ h => cases h with
      | addHere => show 0 < 3; omega
      | add _ _ _ _ _ h => cases h
  · intro s t a _ _ _ h
    cases h with
    | read _ _ _ _ _ h => cases h with
      | add _ _ _ _ _ h => cases h
  · intro s t a _ _ _ h
    cases h with
    | read _ _ _ _ _ h => cases h with
      | add _ _ _ _ _ h => cases h
  · intro s t a _ _ h
    cases h with
    | read _ _ _ _ _ h => cases h with
      | addHere =>
        refine ⟨fun h' => ?_, fun h' => ?_⟩
        · generalize hz : (0 : Nat) = z at h'
          cases h' with
          | readHere => omega
          | read _ _ _ _ _ h' => cases h' with
            | add _ _ _ _ _ h => cases h
        · cases h' with
          | read _ _ _ _ _ h' => cases h' with
            | add _ _ _ _ _ h => cases h
      | add _ _ _ _ _ h => cases h

end Verif
