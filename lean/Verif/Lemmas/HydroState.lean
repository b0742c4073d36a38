import Verif.Lemmas.MDRange
import Mathlib.Tactic.IntervalCases

/-! Helper lemmas: loading and storing whole states. -/

namespace Verif

open K Function ROps

variable {α : Type} [ROps α]

/-- Component of a state. -/
def HState.get (q : HState α) : Nat → α
  | 0 => q.d
  | 1 => q.p
  | 2 => q.u
  | 3 => q.v
  | _ => q.w

/-- Two-dimensional states have no `w`. -/
def HState.norm (d3 : Bool) (q : HState α) : HState α := if d3 then q else { q with w := lit 0 }

/-- The states stored in array `A`. -/
def field (d3 : Bool) (m : Addr → α) (A : Nat) (c : Cell) : HState α :=
  ⟨m (c.at A 0), m (c.at A 1), m (c.at A 2), m (c.at A 3), if d3 then m (c.at A 4) else lit 0⟩

/-- The stored gravity vectors. -/
def gfield (d3 : Bool) (m : Addr → α) (c : Cell) : HState α :=
  ⟨lit 0, lit 0, m (c.at aG 0), m (c.at aG 1), if d3 then m (c.at aG 2) else lit 0⟩

/-- Memory after storing `q` in cell `c` of array `A`. -/
def setState (d3 : Bool) (m : Addr → α) (A : Nat) (c : Cell) (q : HState α) (a : Addr) : α :=
  if a.arr = A ∧ a.cell = c ∧ a.v < hydroVars d3 then q.get a.v else m a

open Classical in
/-- Memory after storing `f c` in every cell `c` of the region of array `A`. -/
noncomputable def setArr (d3 : Bool) (m : Addr → α) (A : Nat) (R : Cell → Prop)
    (f : Cell → HState α) (a : Addr) : α :=
  if a.arr = A ∧ R a.cell ∧ a.v < hydroVars d3 then (f a.cell).get a.v else m a

@[simp] theorem Cell.at_cell (c : Cell) (A v : Nat) : (c.at A v).cell = c := rfl
@[simp] theorem Cell.at_arr (c : Cell) (A v : Nat) : (c.at A v).arr = A := rfl
@[simp] theorem Cell.at_v (c : Cell) (A v : Nat) : (c.at A v).v = v := rfl
theorem Addr.eq_at (a : Addr) : a = a.cell.at a.arr a.v := rfl

theorem Addr.eq_iff (a b : Addr) : a = b ↔ a.arr = b.arr ∧ a.cell = b.cell ∧ a.v = b.v := by
  cases a; cases b; simp [Addr.cell, and_assoc]

theorem field_setArr_same {d3 : Bool} {m : Addr → α} {A : Nat} {R : Cell → Prop}
    {f : Cell → HState α} {c : Cell} (h : R c) :
    field d3 (setArr d3 m A R f) A c = (f c).norm d3 := by
  cases d3 <;> simp [field, setArr, h, HState.norm, HState.get, hydroVars]

theorem field_setArr_ne {d3 : Bool} {m : Addr → α} {A B : Nat} {R : Cell → Prop}
    {f : Cell → HState α} {c : Cell} (h : B ≠ A ∨ ¬ R c) :
    field d3 (setArr d3 m A R f) B c = field d3 m B c := by
  rcases h with h | h <;> cases d3 <;> simp [field, setArr, h]

theorem gfield_setArr {d3 : Bool} {m : Addr → α} {A : Nat} {R : Cell → Prop}
    {f : Cell → HState α} (h : aG ≠ A) :
    gfield d3 (setArr d3 m A R f) = gfield d3 m := by
  funext c; cases d3 <;> simp [gfield, setArr, h]

theorem setArr_ne {d3 : Bool} {m : Addr → α} {A : Nat} {R : Cell → Prop}
    {f : Cell → HState α} {a : Addr} (h : a.arr ≠ A ∨ ¬ R a.cell) :
    setArr d3 m A R f a = m a := by
  rcases h with h | h <;> simp [setArr, h]

theorem setState_eq {d3 : Bool} {m : Addr → α} {A : Nat} {c : Cell} {q : HState α} :
    setState d3 m A c q = setArr d3 m A (fun c' => c' = c) (fun _ => q) := by
  funext a; simp [setState, setArr]

theorem field_setState_same {d3 : Bool} {m : Addr → α} {A : Nat} {c : Cell} {q : HState α} :
    field d3 (setState d3 m A c q) A c = q.norm d3 := by
  rw [setState_eq]; exact field_setArr_same (R := fun c' => c' = c) rfl

theorem field_setState_ne {d3 : Bool} {m : Addr → α} {A B : Nat} {c c' : Cell} {q : HState α}
    (h : B ≠ A ∨ c' ≠ c) :
    field d3 (setState d3 m A c q) B c' = field d3 m B c' := by
  rw [setState_eq]; exact field_setArr_ne (R := fun c' => c' = c) h

theorem gfield_setState {d3 : Bool} {m : Addr → α} {A : Nat} {c : Cell} {q : HState α}
    (h : aG ≠ A) : gfield d3 (setState d3 m A c q) = gfield d3 m := by
  rw [setState_eq, gfield_setArr h]

theorem loadState_reads (d3 : Bool) (A : Nat) (c : Cell) (m : Addr → α) :
    Reads (loadState d3 A c) m (field d3 m A c) := by
  cases d3 <;> exact ⟨rfl, rfl⟩

theorem loadGravity_reads (d3 : Bool) (c : Cell) (m : Addr → α) :
    Reads (loadGravity d3 c) m (gfield d3 m c) := by
  cases d3 <;> exact ⟨rfl, rfl⟩

theorem storeState_exec (d3 : Bool) (A : Nat) (c : Cell) (q : HState α) (m : Addr → α) :
    (storeState d3 A c q).exec m = setState d3 m A c q := by
  funext a
  have e : ∀ (v : Nat), (a = c.at A v) = (a.arr = A ∧ a.cell = c ∧ a.v = v) := fun v => by
    rw [Addr.eq_iff]; rfl
  by_cases h : a.arr = A ∧ a.cell = c
  · obtain ⟨h1, h2⟩ := h
    cases d3
    · by_cases hv : a.v < 4
      · have : a.v = 0 ∨ a.v = 1 ∨ a.v = 2 ∨ a.v = 3 := by omega
        rcases this with h | h | h | h <;>
          simp [storeState, K.exec, setState, hydroVars, Function.update_apply, e, h1, h2, h,
            HState.get, ID, IP, IU, IV, IW, K.store, K.bind]
      · have : a.v ≠ 0 ∧ a.v ≠ 1 ∧ a.v ≠ 2 ∧ a.v ≠ 3 := by omega
        simp [storeState, K.exec, setState, hydroVars, Function.update_apply, e, this,
            ID, IP, IU, IV, IW, K.store, hv, K.bind]
    · by_cases hv : a.v < 5
      · have : a.v = 0 ∨ a.v = 1 ∨ a.v = 2 ∨ a.v = 3 ∨ a.v = 4 := by omega
        rcases this with h | h | h | h | h <;>
          simp [storeState, K.exec, setState, hydroVars, Function.update_apply, e, h1, h2, h,
            HState.get, ID, IP, IU, IV, IW, K.store, K.bind]
      · have : a.v ≠ 0 ∧ a.v ≠ 1 ∧ a.v ≠ 2 ∧ a.v ≠ 3 ∧ a.v ≠ 4 := by omega
        simp [storeState, K.exec, setState, hydroVars, Function.update_apply, e, this,
            ID, IP, IU, IV, IW, K.store, hv, K.bind]
  · have e' : ∀ (v : Nat), a ≠ c.at A v := fun v hv => h (by rw [e] at hv; exact ⟨hv.1, hv.2.1⟩)
    have : ¬ (a.arr = A ∧ a.cell = c ∧ a.v < hydroVars d3) := fun x => h ⟨x.1, x.2.1⟩
    cases d3 <;> simp [storeState, K.exec, setState, Function.update_apply, e', K.store, this, K.bind]

/-- Component-wise operation. -/
def HState.map2 (f : α → α → α) (a b : HState α) : HState α :=
  ⟨f a.d b.d, f a.p b.p, f a.u b.u, f a.v b.v, f a.w b.w⟩

private theorem rmw_exec (d3 : Bool) (op : α → α → α) (U : Nat) (c : Cell) (F : Nat) (c' : Cell)
    (hUF : F ≠ U) (m : Addr → α) :
    (forVars (hydroVars d3) fun v => (do
      let x ← K.load (c.at U v)
      let f ← K.load (c'.at F v)
      K.store (c.at U v) (op x f) : K Addr α Unit)).exec m
      = setState d3 m U c (HState.map2 op (field d3 m U c) (field d3 m F c')) := by
  have hne : ∀ v w, c'.at F v ≠ c.at U w := fun v w e => by
    rw [Addr.eq_iff] at e; exact hUF e.1
  have hcc : ∀ v w, (c.at U v = c.at U w) = (v = w) := fun v w => by
    rw [Addr.eq_iff]; simp
  have key : (forVars (hydroVars d3) fun v => (do
      let x ← K.load (c.at U v)
      let f ← K.load (c'.at F v)
      K.store (c.at U v) (op x f) : K Addr α Unit)).exec m
      = (storeState d3 U c (HState.map2 op (field d3 m U c) (field d3 m F c'))).exec m := by
    cases d3 <;>
      simp [hydroVars, forVars, storeState, K.exec, K.load, K.store, K.bind, field,
        HState.map2, Function.update_apply, hne, hcc, ID, IP, IU, IV, IW]
  rw [key, storeState_exec]

theorem addVars_exec (d3 : Bool) (U : Nat) (c : Cell) (F : Nat) (c' : Cell) (hUF : F ≠ U)
    (m : Addr → α) : (addVars d3 U c F c').exec m
      = setState d3 m U c (HState.map2 (· + ·) (field d3 m U c) (field d3 m F c')) :=
  rmw_exec d3 (· + ·) U c F c' hUF m

theorem subVars_exec (d3 : Bool) (U : Nat) (c : Cell) (F : Nat) (c' : Cell) (hUF : F ≠ U)
    (m : Addr → α) : (subVars d3 U c F c').exec m
      = setState d3 m U c (HState.map2 (· - ·) (field d3 m U c) (field d3 m F c')) :=
  rmw_exec d3 (· - ·) U c F c' hUF m

theorem setState_twice {d3 : Bool} {m : Addr → α} {A : Nat} {c : Cell} {q q' : HState α} :
    setState d3 (setState d3 m A c q) A c q' = setState d3 m A c q' := by
  funext a; simp only [setState]; split_ifs <;> rfl

theorem setState_norm {d3 : Bool} {m : Addr → α} {A : Nat} {c : Cell} {q : HState α} :
    setState d3 m A c (q.norm d3) = setState d3 m A c q := by
  cases d3
  · funext a; simp only [setState]; split_ifs with h
    · have : a.v < 4 := h.2.2
      have : a.v = 0 ∨ a.v = 1 ∨ a.v = 2 ∨ a.v = 3 := by omega
      rcases this with h | h | h | h <;> simp [h, HState.norm, HState.get]
    · rfl
  · rfl

/-- `q + a - b` component-wise, in this order. -/
def HState.plusMinus (d3 : Bool) (q a b : HState α) : HState α where
  d := q.d + a.d - b.d
  p := q.p + a.p - b.p
  u := q.u + a.u - b.u
  v := q.v + a.v - b.v
  w := if d3 then q.w + a.w - b.w else lit 0

theorem updateAlong_exec (d3 : Bool) (U : Nat) (c : Cell) (F : Nat) (d : Dir) (hUF : F ≠ U)
    (m : Addr → α) : (updateAlong d3 U c F d).exec m
      = setState d3 m U c ((field d3 m U c).plusMinus d3 (field d3 m F c)
          (field d3 m F (c.up d))) := by
  simp only [updateAlong, K.bind_eq]
  rw [K.exec_bind, addVars_exec _ _ _ _ _ hUF, subVars_exec _ _ _ _ _ hUF, setState_twice,
    field_setState_same, field_setState_ne (Or.inl hUF), ← setState_norm]
  congr 1
  cases d3 <;> rfl

/-! ### Footprints -/

section fp
variable {dom : Addr → Prop} {out : Nat → Prop} {c : Cell}

theorem CellFP.bind {X Y : Type} {p : K Addr α X} {f : X → K Addr α Y}
    (h : CellFP dom out c p) (hf : ∀ x, CellFP dom out c (f x)) : CellFP dom out c (p.bind f) :=
  FP.bind h hf

theorem CellFP.ret {X : Type} (x : X) : CellFP dom out c (.ret x : K Addr α X) := FP.ret

theorem CellFP.load {a : Addr} (h : dom a) (h' : out a.arr → a.cell = c) :
    CellFP dom out c (K.load a : K Addr α α) := FP.load ⟨h, h'⟩

theorem CellFP.store {a : Addr} {x : α} (h : dom a) (h1 : out a.arr) (h2 : a.cell = c) :
    CellFP dom out c (K.store a x) := FP.store ⟨h, h1, h2⟩

theorem CellFP.loadState {d3 : Bool} {A : Nat} {c' : Cell}
    (h : ∀ v, v < hydroVars d3 → dom (c'.at A v)) (h' : out A → c' = c) :
    CellFP dom out c (loadState d3 A c' : K Addr α _) := by
  cases d3
  · refine CellFP.bind (CellFP.load (h _ (by decide)) h') fun _ => CellFP.bind
      (CellFP.load (h _ (by decide)) h') fun _ => CellFP.bind (CellFP.load (h _ (by decide)) h')
      fun _ => CellFP.bind (CellFP.load (h _ (by decide)) h') fun _ => CellFP.ret _
  · refine CellFP.bind (CellFP.load (h _ (by decide)) h') fun _ => CellFP.bind
      (CellFP.load (h _ (by decide)) h') fun _ => CellFP.bind (CellFP.load (h _ (by decide)) h')
      fun _ => CellFP.bind (CellFP.load (h _ (by decide)) h') fun _ => CellFP.bind
      (CellFP.load (h _ (by decide)) h') fun _ => CellFP.ret _

theorem CellFP.loadGravity {d3 : Bool} {c' : Cell}
    (h : ∀ v, v < (if d3 then 3 else 2) → dom (c'.at aG v)) (h' : out aG → c' = c) :
    CellFP dom out c (loadGravity d3 c' : K Addr α _) := by
  cases d3
  · refine CellFP.bind (CellFP.load (h _ (by decide)) h') fun _ => CellFP.bind
      (CellFP.load (h _ (by decide)) h') fun _ => CellFP.ret _
  · refine CellFP.bind (CellFP.load (h _ (by decide)) h') fun _ => CellFP.bind
      (CellFP.load (h _ (by decide)) h') fun _ => CellFP.bind
      (CellFP.load (h _ (by decide)) h') fun _ => CellFP.ret _

theorem CellFP.storeState {d3 : Bool} {A : Nat} {q : HState α}
    (h : ∀ v, v < hydroVars d3 → dom (c.at A v)) (h' : out A) :
    CellFP dom out c (storeState d3 A c q) := by
  cases d3
  · refine CellFP.bind (CellFP.store (h _ (by decide)) h' rfl) fun _ => CellFP.bind
      (CellFP.store (h _ (by decide)) h' rfl) fun _ => CellFP.bind
      (CellFP.store (h _ (by decide)) h' rfl)
      fun _ => CellFP.bind (CellFP.store (h _ (by decide)) h' rfl) fun _ => CellFP.ret _
  · refine CellFP.bind (CellFP.store (h _ (by decide)) h' rfl) fun _ => CellFP.bind
      (CellFP.store (h _ (by decide)) h' rfl) fun _ => CellFP.bind
      (CellFP.store (h _ (by decide)) h' rfl)
      fun _ => CellFP.bind (CellFP.store (h _ (by decide)) h' rfl) fun _ =>
      CellFP.store (h _ (by decide)) h' rfl

theorem CellFP.forVars {n : Nat} {body : Nat → K Addr α Unit}
    (h : ∀ v, v < n → CellFP dom out c (body v)) : CellFP dom out c (forVars n body) :=
  forVars_fp n body h

theorem CellFP.updateAlong {d3 : Bool} {U F : Nat} {d : Dir}
    (hU : ∀ v, v < hydroVars d3 → dom (c.at U v)) (hF : ∀ v, v < hydroVars d3 → dom (c.at F v))
    (hF' : ∀ v, v < hydroVars d3 → dom ((c.up d).at F v)) (h' : out U) (h'' : ¬ out F) :
    CellFP dom out c (updateAlong d3 U c F d : K Addr α Unit) := by
  refine CellFP.bind (CellFP.forVars fun v hv => ?_) fun _ => CellFP.forVars fun v hv => ?_
  · exact CellFP.bind (CellFP.load (hU v hv) fun _ => rfl) fun _ => CellFP.bind
      (CellFP.load (hF v hv) fun h => (h'' h).elim) fun _ => CellFP.store (hU v hv) h' rfl
  · exact CellFP.bind (CellFP.load (hU v hv) fun _ => rfl) fun _ => CellFP.bind
      (CellFP.load (hF' v hv) fun h => (h'' h).elim) fun _ => CellFP.store (hU v hv) h' rfl

end fp

end Verif
