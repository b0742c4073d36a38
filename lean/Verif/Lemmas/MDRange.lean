import Verif.Lemmas.Boundaries
import Verif.Model.HydroMuscl

/-! Helper lemmas: multidimensional loops whose work items write their own cell only. -/

namespace Verif

open K Function

variable {α : Type} [ROps α]

theorem Launch.Yields.mono {A V : Type} [DecidableEq A] [Add V] {L : Launch A V}
    {dom dom' : A → Prop} {m m' : A → V} (h : L.Yields dom m m') (hd : ∀ a, dom a → dom' a) :
    L.Yields dom' m m' :=
  ⟨fun m₁ T t x hr hx => hd _ (h.inBounds m₁ T t x hr hx), h.raceFree, h.terminates, h.run,
    h.unique⟩

theorem YieldsAll.mono {A V : Type} [DecidableEq A] [Add V] {Ls : List (Launch A V)}
    {dom dom' : A → Prop} {m m' : A → V} (h : YieldsAll dom Ls m m') (hd : ∀ a, dom a → dom' a) :
    YieldsAll dom' Ls m m' := by
  induction h with
  | nil m => exact .nil m
  | cons h1 _ ih => exact .cons (h1.mono hd) ih

theorem Grid.cellOf_box {P : Grid} {d3 : Bool} {t : Nat}
    (ht : t < P.isize.toNat * P.jsize.toNat * (if d3 then P.ksize.toNat else 1)) :
    P.box d3 (P.cellOf t) := by
  have hi : 0 < P.isize.toNat := by
    rcases Nat.eq_zero_or_pos P.isize.toNat with h | h
    · rw [h] at ht; simp at ht
    · exact h
  have hj : 0 < P.jsize.toNat := by
    rcases Nat.eq_zero_or_pos P.jsize.toNat with h | h
    · rw [h] at ht; simp at ht
    · exact h
  have h1 := Nat.mod_lt t hi
  have h2 := Nat.mod_lt (t / P.isize.toNat) hj
  have h3 : t / P.isize.toNat / P.jsize.toNat < (if d3 then P.ksize.toNat else 1) := by
    rw [Nat.div_div_eq_div_mul]
    exact Nat.div_lt_of_lt_mul ht
  unfold Grid.box Grid.cellOf
  simp only
  generalize t % P.isize.toNat = x at *
  generalize t / P.isize.toNat % P.jsize.toNat = y at *
  generalize t / P.isize.toNat / P.jsize.toNat = z at *
  cases d3
  · simp only [Bool.false_eq_true, if_false] at h3 ⊢; omega
  · simp only [if_true] at h3 ⊢; omega

theorem Grid.cellOf_inj {P : Grid} {s t : Nat} (h : P.cellOf s = P.cellOf t) : s = t := by
  simp only [Grid.cellOf, Cell.mk.injEq, Int.natCast_inj] at h
  obtain ⟨h1, h2, h3⟩ := h
  have e1 := Nat.div_add_mod (s / P.isize.toNat) P.jsize.toNat
  have e2 := Nat.div_add_mod (t / P.isize.toNat) P.jsize.toNat
  rw [h3, h2] at e1
  have e3 : s / P.isize.toNat = t / P.isize.toNat := e1.symm.trans e2
  have e4 := Nat.div_add_mod s P.isize.toNat
  have e5 := Nat.div_add_mod t P.isize.toNat
  rw [e3, h1] at e4
  exact e4.symm.trans e5

theorem Grid.cellOf_surj {P : Grid} {d3 : Bool} {c : Cell} (h : P.box d3 c) :
    ∃ t, t < P.isize.toNat * P.jsize.toNat * (if d3 then P.ksize.toNat else 1) ∧
      P.cellOf t = c := by
  obtain ⟨h1, h2, h3, h4, h5⟩ := h
  have hk : 0 ≤ c.k ∧ c.k.toNat < (if d3 then P.ksize.toNat else 1) := by
    cases d3
    · simp only [Bool.false_eq_true, if_false] at h5 ⊢; omega
    · simp only [if_true] at h5 ⊢; omega
  refine ⟨c.i.toNat + P.isize.toNat * (c.j.toNat + P.jsize.toNat * c.k.toNat), ?_, ?_⟩
  · have a1 : c.i.toNat < P.isize.toNat := by omega
    have a2 : c.j.toNat < P.jsize.toNat := by omega
    have a3 := hk.2
    generalize (if d3 then P.ksize.toNat else 1) = K at *
    generalize P.isize.toNat = I at *
    generalize P.jsize.toNat = J at *
    generalize c.i.toNat = i at *
    generalize c.j.toNat = j at *
    generalize c.k.toNat = k at *
    have b1 : j + J * k + 1 ≤ J * K := by
      calc j + J * k + 1 ≤ J + J * k := by omega
        _ = J * (k + 1) := by ring
        _ ≤ J * K := Nat.mul_le_mul_left _ a3
    calc i + I * (j + J * k) < I + I * (j + J * k) := by omega
      _ = I * (j + J * k + 1) := by ring
      _ ≤ I * (J * K) := Nat.mul_le_mul_left _ b1
      _ = I * J * K := by ring
  · have a1 : c.i.toNat < P.isize.toNat := by omega
    have a2 : c.j.toNat < P.jsize.toNat := by omega
    have hI : 0 < P.isize.toNat := by omega
    have hJ : 0 < P.jsize.toNat := by omega
    ext
    · simp only [Grid.cellOf]
      rw [Nat.add_mul_mod_self_left, Nat.mod_eq_of_lt a1]; omega
    · simp only [Grid.cellOf]
      rw [Nat.add_mul_div_left _ _ hI, Nat.div_eq_of_lt a1, Nat.zero_add,
        Nat.add_mul_mod_self_left, Nat.mod_eq_of_lt a2]; omega
    · simp only [Grid.cellOf]
      rw [Nat.add_mul_div_left _ _ hI, Nat.div_eq_of_lt a1, Nat.zero_add,
        Nat.add_mul_div_left _ _ hJ, Nat.div_eq_of_lt a2, Nat.zero_add]; omega

/-- Footprint of a work item that writes only entries of its own cell in the arrays `out`, and
reads entries of other cells only in other arrays. -/
def CellFP (dom : Addr → Prop) (out : Nat → Prop) (c : Cell) {X : Type} (p : K Addr α X) : Prop :=
  p.FP (fun a => dom a ∧ (out a.arr → a.cell = c)) (fun a => dom a ∧ out a.arr ∧ a.cell = c)
    (fun _ => False)

open Classical in
/-- Effect of a loop of such work items. -/
noncomputable def mdEffect (d3 : Bool) (P : Grid) (body : Cell → K Addr α Unit) (m : Addr → α)
    (a : Addr) : α :=
  if P.box d3 a.cell then (body a.cell).exec m a else m a

theorem mdrange_yields {d3 : Bool} {P : Grid} {body : Cell → K Addr α Unit} {dom : Addr → Prop}
    {out : Nat → Prop} (h : ∀ c, P.box d3 c → CellFP dom out c (body c)) (m : Addr → α) :
    (mdrange d3 P body).Yields dom m (mdEffect d3 P body m) := by
  refine Launch.yields_of_footprint _ dom
    (fun t a => dom a ∧ (out a.arr → a.cell = P.cellOf t))
    (fun t a => dom a ∧ out a.arr ∧ a.cell = P.cellOf t) m _ ?_ ?_ ?_ ?_ ?_ ?_ ?_
  · intro t ht
    exact h _ (Grid.cellOf_box ht)
  · rintro t a _ ⟨h1, -⟩; exact h1
  · rintro t a _ ⟨h1, -⟩; exact h1
  · rintro s t a hs ht hst ⟨_, _, h1⟩ ⟨_, _, h2⟩
    exact hst (Grid.cellOf_inj (h1.symm.trans h2))
  · rintro s t a hs ht hst ⟨_, ho, h1⟩ ⟨_, h2⟩
    exact hst (Grid.cellOf_inj (h1.symm.trans (h2 ho)))
  · rintro t a ht ⟨_, _, h1⟩
    simp only [mdEffect]
    rw [if_pos (h1 ▸ Grid.cellOf_box ht), h1]; rfl
  · intro a ha
    simp only [mdEffect]
    split_ifs with hb
    · refine exec_frame (h _ hb) m ?_ (fun e => e)
      rintro ⟨h1, h2, h3⟩
      obtain ⟨t, ht, e⟩ := Grid.cellOf_surj hb
      exact ha t ht ⟨h1, h2, e.symm⟩
    · rfl

/-! ### Programs that only load -/

/-- `p` leaves memory unchanged and returns `x`. -/
def Reads {X : Type} (p : K Addr α X) (m : Addr → α) (x : X) : Prop := p.exec m = m ∧ p.value m = x

theorem Reads.load (a : Addr) (m : Addr → α) : Reads (K.load a) m (m a) := ⟨rfl, rfl⟩
theorem Reads.ret {X : Type} (x : X) (m : Addr → α) : Reads (.ret x) m x := ⟨rfl, rfl⟩
theorem Reads.bind {X Y : Type} {p : K Addr α X} {f : X → K Addr α Y} {m : Addr → α} {x : X}
    {y : Y} (h : Reads p m x) (h' : Reads (f x) m y) : Reads (p.bind f) m y := by
  obtain ⟨h1, h2⟩ := h
  refine ⟨?_, ?_⟩
  · rw [exec_bind, h1, h2]; exact h'.1
  · rw [value_bind, h1, h2]; exact h'.2

/-- After loading, go on with the value. -/
theorem Reads.exec_bind {X Y : Type} {p : K Addr α X} {f : X → K Addr α Y} {m : Addr → α} {x : X}
    (h : Reads p m x) : (p.bind f).exec m = (f x).exec m := by
  rw [K.exec_bind, h.1, h.2]

end Verif
