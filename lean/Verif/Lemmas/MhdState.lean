import Verif.Lemmas.HydroState
import Verif.Model.MhdMuscl

/-! Helper lemmas: loading and storing MHD states. -/

namespace Verif

open K Function ROps

variable {α : Type} [ROps α]

/-- Component of a state. -/
def MState.get (q : MState α) : Nat → α
  | 0 => q.d
  | 1 => q.p
  | 2 => q.u
  | 3 => q.v
  | 4 => q.w
  | 5 => q.a
  | 6 => q.b
  | _ => q.c

/-- The states stored in array `A`. -/
def mfield (m : Addr → α) (A : Nat) (c : Cell) : MState α :=
  ⟨m (c.at A 0), m (c.at A 1), m (c.at A 2), m (c.at A 3), m (c.at A 4), m (c.at A 5), m (c.at A 6),
    m (c.at A 7)⟩

theorem mfield_get (m : Addr → α) (A : Nat) (c : Cell) {v : Nat} (hv : v < 8) :
    (mfield m A c).get v = m (c.at A v) := by
  interval_cases v <;> rfl

theorem mfield_ext {m m' : Addr → α} {A A' : Nat} {c c' : Cell}
    (h : ∀ v, v < 8 → m (c.at A v) = m' (c'.at A' v)) : mfield m A c = mfield m' A' c' := by
  simp only [mfield, MState.mk.injEq]
  exact ⟨h 0 (by omega), h 1 (by omega), h 2 (by omega), h 3 (by omega), h 4 (by omega),
    h 5 (by omega), h 6 (by omega), h 7 (by omega)⟩

theorem MState.ext_get {q r : MState α} (h : ∀ v, v < 8 → q.get v = r.get v) : q = r := by
  ext
  · exact h 0 (by omega)
  · exact h 1 (by omega)
  · exact h 2 (by omega)
  · exact h 3 (by omega)
  · exact h 4 (by omega)
  · exact h 5 (by omega)
  · exact h 6 (by omega)
  · exact h 7 (by omega)

/-- Memory after storing `q` in cell `c` of array `A`. -/
def msetState (m : Addr → α) (A : Nat) (c : Cell) (q : MState α) (a : Addr) : α :=
  if a.arr = A ∧ a.cell = c ∧ a.v < 8 then q.get a.v else m a

theorem mfield_msetState_same {m : Addr → α} {A : Nat} {c : Cell} {q : MState α} :
    mfield (msetState m A c q) A c = q := by
  simp [mfield, msetState, MState.get]

theorem mfield_msetState_ne {m : Addr → α} {A B : Nat} {c c' : Cell} {q : MState α}
    (h : B ≠ A ∨ c' ≠ c) : mfield (msetState m A c q) B c' = mfield m B c' := by
  rcases h with h | h <;> simp [mfield, msetState, h]

theorem get_state_reads (A : Nat) (c : Cell) (m : Addr → α) :
    Reads (get_state A c) m (mfield m A c) := ⟨rfl, rfl⟩

theorem set_state_exec (A : Nat) (c : Cell) (q : MState α) (m : Addr → α) :
    (set_state A c q).exec m = msetState m A c q := by
  funext a
  obtain ⟨arr, i, j, k, v⟩ := a
  obtain ⟨ci, cj, ck⟩ := c
  simp only [set_state, K.exec, K.store, K.bind, bind_eq, Function.update_apply, msetState, Addr.cell,
    Cell.at, Addr.mk.injEq, Cell.mk.injEq, ID, IP, IU, IV, IW, IA, IB, IC]
  by_cases h : arr = A ∧ i = ci ∧ j = cj ∧ k = ck
  · obtain ⟨rfl, rfl, rfl, rfl⟩ := h
    simp only [true_and, and_self]
    by_cases hv : v < 8
    · interval_cases v <;> simp [MState.get]
    · rw [if_neg (by omega), if_neg (by omega), if_neg (by omega), if_neg (by omega),
        if_neg (by omega), if_neg (by omega), if_neg (by omega), if_neg (by omega), if_neg hv]
  · have h' : ¬ (arr = A ∧ (i = ci ∧ j = cj ∧ k = ck) ∧ v < 8) := fun e => h ⟨e.1, e.2.1⟩
    have h'' : ∀ x, ¬ (arr = A ∧ i = ci ∧ j = cj ∧ k = ck ∧ v = x) :=
      fun x e => h ⟨e.1, e.2.1, e.2.2.1, e.2.2.2.1⟩
    rw [if_neg h']
    simp only [h'', if_false]

theorem collect_reads {ι X : Type} [DecidableEq ι] {dflt : X} {f : ι → K Addr α X} {m : Addr → α}
    {x : ι → X} (l : List ι) (h : ∀ i ∈ l, Reads (f i) m (x i)) :
    Reads (collect dflt f l) m (fun i => if i ∈ l then x i else dflt) := by
  induction l with
  | nil => exact ⟨rfl, by simp [collect, K.value]⟩
  | cons i l ih =>
    have h1 := h i (by simp)
    have h2 := ih fun j hj => h j (by simp [hj])
    refine Reads.bind h1 (Reads.bind h2 ?_)
    refine ⟨rfl, ?_⟩
    funext j
    simp only [K.value, K.pure_eq, List.mem_cons]
    by_cases e : j = i
    · subst e; simp
    · simp [e]

section fp
variable {dom : Addr → Prop} {out : Nat → Prop} {c : Cell}

theorem CellFP.get_state {A : Nat} {c' : Cell}
    (h : ∀ v, v < 8 → dom (c'.at A v)) (h' : out A → c' = c) :
    CellFP dom out c (get_state A c' : K Addr α _) := by
  have l : ∀ v, v < 8 → CellFP dom out c (K.load (c'.at A v) : K Addr α α) :=
    fun v hv => CellFP.load (h v hv) h'
  refine CellFP.bind (l _ (by decide)) fun _ => CellFP.bind (l _ (by decide)) fun _ =>
    CellFP.bind (l _ (by decide)) fun _ => CellFP.bind (l _ (by decide)) fun _ =>
    CellFP.bind (l _ (by decide)) fun _ => CellFP.bind (l _ (by decide)) fun _ =>
    CellFP.bind (l _ (by decide)) fun _ => CellFP.bind (l _ (by decide)) fun _ => CellFP.ret _

theorem CellFP.set_state {A : Nat} {q : MState α}
    (h : ∀ v, v < 8 → dom (c.at A v)) (h' : out A) :
    CellFP dom out c (set_state A c q) := by
  have l : ∀ v x, v < 8 → CellFP dom out c (K.store (c.at A v) x : K Addr α Unit) :=
    fun v x hv => CellFP.store (h v hv) h' rfl
  refine CellFP.bind (l _ _ (by decide)) fun _ => CellFP.bind (l _ _ (by decide)) fun _ =>
    CellFP.bind (l _ _ (by decide)) fun _ => CellFP.bind (l _ _ (by decide)) fun _ =>
    CellFP.bind (l _ _ (by decide)) fun _ => CellFP.bind (l _ _ (by decide)) fun _ =>
    CellFP.bind (l _ _ (by decide)) fun _ => l _ _ (by decide)

theorem CellFP.get_magField {A : Nat} {c' : Cell}
    (h : ∀ v, v < 8 → dom (c'.at A v)) (h' : out A → c' = c) :
    CellFP dom out c (get_magField A c' : K Addr α _) := by
  have l : ∀ v, v < 8 → CellFP dom out c (K.load (c'.at A v) : K Addr α α) :=
    fun v hv => CellFP.load (h v hv) h'
  refine CellFP.bind (l _ (by decide)) fun _ => CellFP.bind (l _ (by decide)) fun _ =>
    CellFP.bind (l _ (by decide)) fun _ => CellFP.ret _

theorem CellFP.collect {ι X : Type} [DecidableEq ι] {dflt : X} {f : ι → K Addr α X} (l : List ι)
    (h : ∀ i ∈ l, CellFP dom out c (f i)) : CellFP dom out c (collect dflt f l) := by
  induction l with
  | nil => exact CellFP.ret _
  | cons i l ih =>
    exact CellFP.bind (h i (by simp)) fun _ => CellFP.bind (ih fun j hj => h j (by simp [hj]))
      fun _ => CellFP.ret _

theorem CellFP.each {ι : Type} {f : ι → K Addr α Unit} (l : List ι)
    (h : ∀ i ∈ l, CellFP dom out c (f i)) : CellFP dom out c (each f l) := by
  induction l with
  | nil => exact CellFP.ret _
  | cons i l ih => exact CellFP.bind (h i (by simp)) fun _ => ih fun j hj => h j (by simp [hj])

end fp

theorem mdEffect_frame {d3 : Bool} {P : Grid} {body : Cell → K Addr α Unit} {dom : Addr → Prop}
    {out : Nat → Prop} (h : ∀ c, P.box d3 c → CellFP dom out c (body c)) (m : Addr → α) {a : Addr}
    (ha : ¬ out a.arr) : mdEffect d3 P body m a = m a := by
  simp only [mdEffect]
  split_ifs with hb
  · exact exec_frame (h _ hb) m (fun e => ha e.2.1) (fun e => e)
  · rfl

theorem mfield_mdEffect {d3 : Bool} {P : Grid} {body : Cell → K Addr α Unit} (m : Addr → α) (A : Nat)
    {c : Cell} (hb : P.box d3 c) :
    mfield (mdEffect d3 P body m) A c = mfield ((body c).exec m) A c := by
  simp [mfield, mdEffect, hb]

theorem mfield_mdEffect_frame {d3 : Bool} {P : Grid} {body : Cell → K Addr α Unit}
    {dom : Addr → Prop}
    {out : Nat → Prop} (h : ∀ c, P.box d3 c → CellFP dom out c (body c)) (m : Addr → α) {A : Nat}
    (ha : ¬ out A) : mfield (mdEffect d3 P body m) A = mfield m A := by
  funext c
  exact mfield_ext fun v _ => mdEffect_frame h m ha

end Verif
