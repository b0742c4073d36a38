import Verif.Model.InitMhd
import Verif.Lemmas.MhdWhole

/-! Helper lemmas: loops of the initial conditions. -/

namespace Verif

open K Spec ROps TOps
open Function (update_apply update_self update_of_ne)

section stores

variable {α : Type} [TOps α]

/-- Last value stored in variable `v`, or `x`. -/
def lastOf (l : List (Nat × α)) (v : Nat) (x : α) : α :=
  l.foldl (fun y p => if p.1 = v then p.2 else y) x

theorem stores_exec (U : Nat) (c : Cell) (l : List (Nat × α)) (m : Addr → α) (a : Addr) :
    (stores U c l).exec m a = if a.arr = U ∧ a.cell = c then lastOf l a.v (m a) else m a := by
  induction l generalizing m with
  | nil => simp [stores, K.exec, lastOf]
  | cons p l ih =>
    obtain ⟨v, x⟩ := p
    simp only [stores, exec_bind, ih, K.exec, K.store, lastOf, List.foldl_cons, update_apply]
    obtain ⟨A, i, j, k, w⟩ := a
    simp only [Cell.at, Addr.mk.injEq, Addr.cell]
    by_cases h : A = U ∧ (⟨i, j, k⟩ : Cell) = c
    · obtain ⟨rfl, rfl⟩ := h
      simp only [and_self, if_true, true_and]
      by_cases e : w = v
      · simp [e]
      · simp [e, Ne.symm e]
    · have h' : ¬ (A = U ∧ i = c.i ∧ j = c.j ∧ k = c.k ∧ w = v) := by
        rintro ⟨h1, h2, h3, h4, -⟩
        exact h ⟨h1, by rw [h2, h3, h4]⟩
      simp only [h, h', if_false]

theorem stores_at (U : Nat) (c : Cell) (l : List (Nat × α)) (m : Addr → α) (v : Nat) :
    (stores U c l).exec m (c.at U v) = lastOf l v (m (c.at U v)) := by
  rw [stores_exec, if_pos ⟨rfl, rfl⟩]; rfl

theorem stores_other (U : Nat) (c : Cell) (l : List (Nat × α)) (m : Addr → α) {a : Addr}
    (h : a.arr ≠ U) : (stores U c l).exec m a = m a := by
  rw [stores_exec, if_neg fun e => h e.1]

omit [TOps α] in
theorem stores_FP {U : Nat} {c : Cell} {l : List (Nat × α)} {R W C : Addr → Prop}
    (h : ∀ p ∈ l, W (c.at U p.1)) : (stores U c l).FP R W C := by
  induction l with
  | nil => exact FP.ret
  | cons p l ih =>
    exact FP.bind (FP.store (h p (List.mem_cons_self ..))) fun _ =>
      ih fun q hq => h q (List.mem_cons_of_mem _ hq)

/-- Loop of work items that write only locations `out` of their own cell, and read such locations
only there. -/
theorem mdrange_yields_of {d3 : Bool} {P : Grid} {body : Cell → K Addr α Unit} {dom : Addr → Prop}
    {out : Addr → Prop} (h : ∀ c, P.box d3 c → (body c).FP (fun a => dom a ∧ (out a → a.cell = c))
      (fun a => dom a ∧ out a ∧ a.cell = c) (fun _ => False)) (m : Addr → α) :
    (mdrange d3 P body).Yields dom m (mdEffect d3 P body m) := by
  refine Launch.yields_of_footprint _ dom
    (fun t a => dom a ∧ (out a → a.cell = P.cellOf t))
    (fun t a => dom a ∧ out a ∧ a.cell = P.cellOf t) m _ ?_ ?_ ?_ ?_ ?_ ?_ ?_
  · intro t ht
    exact h _ (Grid.cellOf_box ht)
  · rintro t a _ ⟨h1, -⟩; exact h1
  · rintro t a _ ⟨h1, -⟩; exact h1
  · rintro s t a hs ht hst ⟨_, _, h1⟩ ⟨_, _, h2⟩
    exact hst (Grid.cellOf_inj (h1.symm.trans h2))
  · rintro s t a hs ht hst ⟨_, ho, h1⟩ ⟨_, h2⟩
    exact hst (Grid.cellOf_inj (h1.symm.trans (h2 ho)))
  · rintro t a ht ⟨_, _, h1⟩
    simp only [mdEffect]
    rw [if_pos (h1 ▸ Grid.cellOf_box ht), h1]; rfl
  · intro a ha
    simp only [mdEffect]
    split_ifs with hb
    · refine exec_frame (h _ hb) m ?_ (fun e => e)
      rintro ⟨h1, h2, h3⟩
      obtain ⟨t, ht, e⟩ := Grid.cellOf_surj hb
      exact ha t ht ⟨h1, h2, e.symm⟩
    · rfl

variable {d3 : Bool} {P : Grid} {dom : Addr → Prop} {U : Nat}

/-- Loop that only stores. -/
theorem stores_loop {f : Cell → List (Nat × α)}
    (hd : ∀ c, P.box d3 c → ∀ p ∈ f c, dom (c.at U p.1)) (m : Addr → α) :
    ∃ m', (mdrange d3 P fun c => stores U c (f c)).Yields dom m m' ∧
      (∀ c v, P.box d3 c → m' (c.at U v) = lastOf (f c) v (m (c.at U v))) ∧
      (∀ a, ¬ (a.arr = U ∧ P.box d3 a.cell) → m' a = m a) := by
  refine ⟨_, mdrange_yields_of (out := fun a => a.arr = U)
    (fun c hc => stores_FP fun p hp => ⟨hd c hc p hp, rfl, rfl⟩) m, ?_, ?_⟩
  · intro c v hc
    have hc' : P.box d3 (c.at U v).cell := hc
    simp only [mdEffect]
    rw [if_pos hc']
    exact stores_at U c (f c) m v
  · intro a ha
    simp only [mdEffect]
    split_ifs with hb
    · exact stores_other U _ _ m fun e => ha ⟨e, hb⟩
    · rfl

/-- Loop that sets the energy of the cells `G`. -/
theorem energy_loop {G : Cell → Prop} [DecidablePred G] {e : Cell → (Addr → α) → α}
    {body : Cell → K Addr α Unit}
    (hFP : ∀ c, P.box d3 c → (body c).FP
      (fun a => dom a ∧ (a.arr = U ∧ a.v = IP → a.cell = c))
      (fun a => dom a ∧ (a.arr = U ∧ a.v = IP) ∧ a.cell = c) (fun _ => False))
    (hx : ∀ c m, (body c).exec m = if G c then Function.update m (c.at U IP) (e c m) else m)
    (m : Addr → α) :
    ∃ m', (mdrange d3 P body).Yields dom m m' ∧
      (∀ c, P.box d3 c → m' (c.at U IP) = if G c then e c m else m (c.at U IP)) ∧
      (∀ a, ¬ (a.arr = U ∧ a.v = IP) → m' a = m a) := by
  refine ⟨_, mdrange_yields_of (out := fun a => a.arr = U ∧ a.v = IP) hFP m, ?_, ?_⟩
  · intro c hc
    have hc' : P.box d3 (c.at U IP).cell := hc
    simp only [mdEffect]
    rw [if_pos hc']
    have : (c.at U IP).cell = c := rfl
    rw [this, hx]
    split_ifs
    · exact update_self _ _ _
    · rfl
  · intro a ha
    simp only [mdEffect]
    split_ifs with hb
    · rw [hx]
      split_ifs
      · exact update_of_ne (fun e => ha ⟨by rw [e]; rfl, by rw [e]; rfl⟩) _ _
      · rfl
    · rfl

end stores

end Verif
