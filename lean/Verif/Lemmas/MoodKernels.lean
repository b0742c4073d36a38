import Verif.Model.MoodStep
import Verif.Lemmas.KernelFix
import Verif.Lemmas.HydroFinal
import Verif.Props.C01_C02_Index
import Verif.Props.C42_C71_Reconstruction

/-! Helper lemmas: the loops of the MOOD solver. -/

namespace Verif.Mood

open Verif K Function ROps

variable {α : Type} [ROps α]

/-! ### One-dimensional loops over all cells -/

/-- The arrays are not empty. -/
structure Nonempty3 (d3 : Bool) (P : Grid) : Prop where
  i : 0 < P.isize
  j : 0 < P.jsize
  k : d3 = true → 0 < P.ksize

theorem cellAt_spec {lay : Layout} {d3 : Bool} {P : Grid} (hp : Nonempty3 d3 P) :
    (∀ t, t < (P.isize * P.jsize * (if d3 then P.ksize else 1)).toNat →
      P.box d3 (cellAt lay d3 P t)) ∧
    (∀ s t, s < (P.isize * P.jsize * (if d3 then P.ksize else 1)).toNat →
      t < (P.isize * P.jsize * (if d3 then P.ksize else 1)).toNat →
      cellAt lay d3 P s = cellAt lay d3 P t → s = t) ∧
    (∀ c, P.box d3 c → ∃ t, t < (P.isize * P.jsize * (if d3 then P.ksize else 1)).toNat ∧
      cellAt lay d3 P t = c) := by
  cases d3
  · obtain ⟨h1, h2⟩ := C01_index_coord_2d lay P.isize P.jsize hp.i hp.j
    simp only [Bool.false_eq_true, if_false, mul_one, cellAt, Grid.box]
    refine ⟨fun t ht => ?_, fun s t hs ht e => ?_, fun c hc => ?_⟩
    · have := h1 t (by omega) (by omega)
      exact ⟨this.1, this.2.1, this.2.2.1, this.2.2.2.1, trivial⟩
    · have a := (h1 s (by omega) (by omega)).2.2.2.2
      have b := (h1 t (by omega) (by omega)).2.2.2.2
      simp only [Cell.mk.injEq] at e
      rw [e.1, e.2.1] at a
      have := a.symm.trans b
      omega
    · obtain ⟨c1, c2, c3, c4, c5⟩ := hc
      obtain ⟨g1, g2, g3⟩ := h2 c.i c.j c1 c2 c3 c4
      refine ⟨(coord2index2 lay c.i c.j P.isize P.jsize).toNat, by omega, ?_⟩
      rw [Int.toNat_of_nonneg g1, g3.1]
      ext <;> simp [c5]
  · obtain ⟨h1, h2⟩ := C01_index_coord_3d lay P.isize P.jsize P.ksize hp.i hp.j (hp.k rfl)
    simp only [if_true, cellAt, Grid.box]
    refine ⟨fun t ht => ?_, fun s t hs ht e => ?_, fun c hc => ?_⟩
    · have := h1 t (by omega) (by omega)
      exact ⟨this.1, this.2.1, this.2.2.1, this.2.2.2.1, this.2.2.2.2.1, this.2.2.2.2.2.1⟩
    · have a := (h1 s (by omega) (by omega)).2.2.2.2.2.2
      have b := (h1 t (by omega) (by omega)).2.2.2.2.2.2
      simp only [Cell.mk.injEq] at e
      rw [e.1, e.2.1, e.2.2] at a
      have := a.symm.trans b
      omega
    · obtain ⟨c1, c2, c3, c4, c5, c6⟩ := hc
      obtain ⟨g1, g2, g3⟩ := h2 c.i c.j c.k c1 c2 c3 c4 c5 c6
      refine ⟨(coord2index3 lay c.i c.j c.k P.isize P.jsize P.ksize).toNat, by omega, ?_⟩
      rw [Int.toNat_of_nonneg g1, g3.1]

/-- Effect of a loop over all cells whose work items write their own cell only; which locations they
access may depend on arrays the loop does not write. -/
theorem rangeCells_yields {lay : Layout} {d3 : Bool} {P : Grid} {body : Cell → K Addr α Unit}
    {dom : Addr → Prop} {out : Nat → Prop} (hp : Nonempty3 d3 P) (m : Addr → α)
    (h : ∀ c, P.box d3 c → CellFP dom out c ((body c).fix m fun a => ¬ out a.arr)) :
    (rangeCells lay d3 P body).Yields dom m (mdEffect d3 P body m) := by
  obtain ⟨hbox, hinj, hsurj⟩ := cellAt_spec (lay := lay) hp
  refine Launch.yields_of_fix _ (ro := fun a : Addr => ¬ out a.arr)
    (R := fun t a => dom a ∧ (out a.arr → a.cell = cellAt lay d3 P t))
    (W := fun t a => dom a ∧ out a.arr ∧ a.cell = cellAt lay d3 P t)
    (C := fun _ _ => False) (fun t ht => h _ (hbox t ht)) (fun t a _ h1 h2 => h2 h1.2.1)
    (fun _ _ _ h1 => h1.elim) ?_
  have hexec : ∀ c, P.box d3 c → ((body c).fix m fun a => ¬ out a.arr).exec m = (body c).exec m :=
    fun c hc => exec_fix (h c hc) (fun a h1 h2 => h2 h1.2.1) (fun a h1 => h1.elim) fun _ _ => rfl
  refine Launch.yields_of_footprint _ dom
    (fun t a => dom a ∧ (out a.arr → a.cell = cellAt lay d3 P t))
    (fun t a => dom a ∧ out a.arr ∧ a.cell = cellAt lay d3 P t) m _ ?_ ?_ ?_ ?_ ?_ ?_ ?_
  · intro t ht; exact h _ (hbox t ht)
  · rintro t a _ ⟨h1, -⟩; exact h1
  · rintro t a _ ⟨h1, -⟩; exact h1
  · rintro s t a hs ht hst ⟨_, _, h1⟩ ⟨_, _, h2⟩
    exact hst (hinj s t hs ht (h1.symm.trans h2))
  · rintro s t a hs ht hst ⟨_, ho, h1⟩ ⟨_, h2⟩
    exact hst (hinj s t hs ht (h1.symm.trans (h2 ho)))
  · rintro t a ht ⟨_, _, h1⟩
    simp only [mdEffect]
    rw [if_pos (h1 ▸ hbox t ht), h1]
    exact (congrFun (hexec _ (hbox t ht)) a).symm
  · intro a ha
    simp only [mdEffect]
    split_ifs with hb
    · rw [← hexec _ hb]
      refine exec_frame (h _ hb) m ?_ (fun e => e)
      rintro ⟨h1, h2, h3⟩
      obtain ⟨t, ht, e⟩ := hsurj _ hb
      exact ha t ht ⟨h1, h2, e.symm⟩
    · rfl

/-- The same if the locations are known in advance. -/
theorem rangeCells_yields' {lay : Layout} {d3 : Bool} {P : Grid} {body : Cell → K Addr α Unit}
    {dom : Addr → Prop} {out : Nat → Prop} (hp : Nonempty3 d3 P) (m : Addr → α)
    (h : ∀ c, P.box d3 c → CellFP dom out c (body c)) :
    (rangeCells lay d3 P body).Yields dom m (mdEffect d3 P body m) :=
  rangeCells_yields hp m fun c hc => FP.fix (h c hc)

/-! ### Sequences of stores -/

open Classical in
/-- Store in one cell if it is in the region. -/
noncomputable def setIf (d3 : Bool) (c : Cell) (m : Addr → α)
    (x : Nat × (Cell → Prop) × (Cell → HState α)) : Addr → α :=
  if x.2.1 c then setState d3 m x.1 c (x.2.2 c) else m

/-- Store in all cells of the region. -/
noncomputable def setAll (d3 : Bool) (P : Grid) (m : Addr → α)
    (x : Nat × (Cell → Prop) × (Cell → HState α)) : Addr → α :=
  setArr d3 m x.1 (fun c => P.box d3 c ∧ x.2.1 c) x.2.2

theorem mdEffect_list {d3 : Bool} {P : Grid} {body : Cell → K Addr α Unit} {m : Addr → α}
    (L : List (Nat × (Cell → Prop) × (Cell → HState α)))
    (h : ∀ c, P.box d3 c → (body c).exec m = L.foldl (setIf d3 c) m) :
    mdEffect d3 P body m = L.foldl (setAll d3 P) m := by
  funext a
  simp only [mdEffect]
  have outside : ∀ (L : List (Nat × (Cell → Prop) × (Cell → HState α))) (m : Addr → α),
      ¬ P.box d3 a.cell → L.foldl (setAll d3 P) m a = m a := by
    intro L
    induction L with
    | nil => intros; rfl
    | cons x L ih => intro m hb; rw [List.foldl_cons, ih _ hb]; simp [setAll, setArr, hb]
  have inside : ∀ (L : List (Nat × (Cell → Prop) × (Cell → HState α))) (m m' : Addr → α),
      P.box d3 a.cell → m a = m' a →
      L.foldl (setIf d3 a.cell) m a = L.foldl (setAll d3 P) m' a := by
    intro L
    induction L with
    | nil => intro m m' _ e; exact e
    | cons x L ih =>
      intro m m' hb e
      rw [List.foldl_cons, List.foldl_cons]
      refine ih _ _ hb ?_
      by_cases hx : x.2.1 a.cell
      · simp [setIf, setAll, hx, setState, setArr, hb, e]
      · simp [setIf, setAll, hx, setArr, e]
  by_cases hb : P.box d3 a.cell
  · rw [if_pos hb, h _ hb]; exact inside L m m hb rfl
  · rw [if_neg hb, outside L m hb]

/-! ### Loads -/

theorem loadStates_reads (d3 : Bool) (A : Nat) (cs : List Cell) (m : Addr → α) :
    Reads (loadStates d3 A cs) m (cs.map (field d3 m A)) := by
  induction cs with
  | nil => exact Reads.ret _ _
  | cons c cs ih => exact (loadState_reads _ _ _ _).bind (ih.bind (Reads.ret _ _))

/-- Coefficients stored in memory. -/
def coefsAt (d3 : Bool) (m : Addr → α) (c : Cell) (n i : ℕ) : HState α :=
  if i < n then field d3 m (aPoly i) c else HState.zero

theorem loadCoefs_reads (d3 : Bool) (c : Cell) (n : ℕ) (m : Addr → α) :
    Reads (loadCoefs d3 c n) m (coefsAt d3 m c n) := by
  induction n with
  | zero => exact Reads.ret _ _
  | succ n ih =>
    have := ih.bind (f := fun f => (loadState d3 (aPoly n) c).bind fun q => .ret (Function.update f n q))
      ((loadState_reads d3 (aPoly n) c m).bind (Reads.ret _ m))
    have e : coefsAt d3 m c (n + 1) =
        Function.update (coefsAt d3 m c n) n (field d3 m (aPoly n) c) := by
      funext i
      by_cases h : i = n
      · subst h; simp [coefsAt]
      · rw [Function.update_of_ne h]
        have : (i < n + 1) ↔ i < n := by omega
        simp [coefsAt, this]
    rw [e]; exact this

/-- Fluxes stored in memory. -/
def fluxesAt (d3 : Bool) (m : Addr → α) (c : Cell) : Dir → HState α × HState α :=
  Dir.pick (field d3 m (aF 0 .x) c, field d3 m (aF 0 .x) (c.up .x))
    (field d3 m (aF 0 .y) c, field d3 m (aF 0 .y) (c.up .y))
    (if d3 then (field d3 m (aF 0 .z) c, field d3 m (aF 0 .z) (c.up .z))
      else (HState.zero, HState.zero))

theorem loadFluxes_reads (d3 : Bool) (c : Cell) (m : Addr → α) :
    Reads (loadFluxes d3 c) m (fluxesAt d3 m c) := by
  unfold loadFluxes fluxesAt
  refine (loadState_reads _ _ _ _).bind ((loadState_reads _ _ _ _).bind
    ((loadState_reads _ _ _ _).bind ((loadState_reads _ _ _ _).bind ?_)))
  cases d3
  · exact Reads.ret _ _
  · exact (loadState_reads _ _ _ _).bind ((loadState_reads _ _ _ _).bind (Reads.ret _ _))

theorem CellFP.loadStates {dom : Addr → Prop} {out : Nat → Prop} {c : Cell} {d3 : Bool} {A : Nat}
    {cs : List Cell} (h : ∀ c' ∈ cs, ∀ v, v < hydroVars d3 → dom (c'.at A v)) (h' : ¬ out A) :
    CellFP dom out c (loadStates d3 A cs : K Addr α _) := by
  induction cs with
  | nil => exact CellFP.ret _
  | cons c cs ih =>
    exact CellFP.bind (CellFP.loadState (h c (by simp)) fun e => (h' e).elim) fun _ =>
      CellFP.bind (ih fun c' hc' => h c' (by simp [hc'])) fun _ => CellFP.ret _

theorem CellFP.loadCoefs {dom : Addr → Prop} {out : Nat → Prop} {c c' : Cell} {d3 : Bool} {n : ℕ}
    (h : ∀ i, i < n → ∀ v, v < hydroVars d3 → dom (c'.at (aPoly i) v))
    (h' : ∀ i, ¬ out (aPoly i)) :
    CellFP dom out c (loadCoefs d3 c' n : K Addr α _) := by
  induction n with
  | zero => exact CellFP.ret _
  | succ n ih =>
    exact CellFP.bind (ih fun i hi => h i (by omega)) fun _ =>
      CellFP.bind (CellFP.loadState (h n (by omega)) fun e => (h' _ e).elim) fun _ => CellFP.ret _

/-! ### Components -/

omit [ROps α] in
theorem comp_eq_get (q : HState α) (v : ℕ) : comp q v = q.get v := by
  unfold comp
  match v with
  | 0 => rfl
  | 1 => rfl
  | 2 => rfl
  | 3 => rfl
  | _ + 4 => rfl

theorem ofComps_norm (d3 : Bool) (f : ℕ → α) : (ofComps d3 f).norm d3 = ofComps d3 f := by
  cases d3 <;> rfl

theorem ofComps_get (d3 : Bool) (f : ℕ → α) {v : ℕ} (hv : v < hydroVars d3) :
    (ofComps d3 f).get v = f v := by
  cases d3
  · have : v = 0 ∨ v = 1 ∨ v = 2 ∨ v = 3 := by simp [hydroVars] at hv; omega
    rcases this with rfl | rfl | rfl | rfl <;> rfl
  · have : v = 0 ∨ v = 1 ∨ v = 2 ∨ v = 3 ∨ v = 4 := by simp [hydroVars] at hv; omega
    rcases this with rfl | rfl | rfl | rfl | rfl <;> rfl

theorem zipState_norm (d3 : Bool) (f : α → α → α) (a b : HState α) :
    (zipState d3 f a b).norm d3 = zipState d3 f a b := by cases d3 <;> rfl

theorem zipState_get (d3 : Bool) (f : α → α → α) (a b : HState α) {v : ℕ}
    (hv : v < hydroVars d3) : (zipState d3 f a b).get v = f (a.get v) (b.get v) := by
  cases d3
  · have : v = 0 ∨ v = 1 ∨ v = 2 ∨ v = 3 := by simp [hydroVars] at hv; omega
    rcases this with rfl | rfl | rfl | rfl <;> rfl
  · have : v = 0 ∨ v = 1 ∨ v = 2 ∨ v = 3 ∨ v = 4 := by simp [hydroVars] at hv; omega
    rcases this with rfl | rfl | rfl | rfl | rfl <;> rfl

theorem accFluxes_norm (d3 : Bool) (u : HState α) (f : Dir → HState α × HState α) :
    (accFluxes d3 u f).norm d3 = accFluxes d3 u f := by cases d3 <;> rfl

theorem scale_norm (d3 : Bool) (q : HState α) (s : α) : (q.scale d3 s).norm d3 = q.scale d3 s := by
  cases d3 <;> rfl

end Verif.Mood
