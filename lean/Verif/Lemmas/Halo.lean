import Verif.Lemmas.Mpi
import Verif.Lemmas.BoundariesAll
import Verif.Lemmas.Index
import Verif.Lemmas.MDRange
import Verif.Model.Halo

/-! Helper lemmas: the halo exchange, direction by direction. -/

namespace Verif

open K Function Spec

variable {α : Type} [ROps α]

/-! ### Axes -/

/-- Coordinate axis. -/
inductive Ax | x | y | z
  deriving DecidableEq

namespace Ax

def get : Ax → Cell → Int
  | x, c => c.i | y, c => c.j | z, c => c.k
def set : Ax → Cell → Int → Cell
  | x, c, t => { c with i := t } | y, c, t => { c with j := t } | z, c, t => { c with k := t }
def lo : Ax → Face
  | x => .xmin | y => .ymin | z => .zmin
def hi : Ax → Face
  | x => .xmax | y => .ymax | z => .zmax
def n (P : Grid) : Ax → Int
  | x => P.nx | y => P.ny | z => P.nz
def num : Ax → Nat
  | x => 0 | y => 1 | z => 2
def btlo (P : Grid) : Ax → Int
  | x => P.boundary_type_xmin | y => P.boundary_type_ymin | z => P.boundary_type_zmin
def bthi (P : Grid) : Ax → Int
  | x => P.boundary_type_xmax | y => P.boundary_type_ymax | z => P.boundary_type_zmax

@[simp] theorem get_set (a : Ax) (c : Cell) (t : Int) : a.get (a.set c t) = t := by cases a <;> rfl
@[simp] theorem set_get (a : Ax) (c : Cell) : a.set c (a.get c) = c := by cases a <;> rfl
@[simp] theorem set_set (a : Ax) (c : Cell) (s t : Int) : a.set (a.set c s) t = a.set c t := by
  cases a <;> rfl
theorem set_inj {a : Ax} {c d : Cell} {s : Int} (h : a.set c (a.get c + s) = a.set d (a.get d + s)) :
    c = d := by
  cases a <;> simp only [set, get, Cell.mk.injEq] at h <;> ext <;> omega

end Ax

/-- Cells of the array. -/
def Grid.cells (d3 : Bool) (P : Grid) : Cell → Prop := if d3 then P.cell3 else P.cell2

/-- The axis exists in this dimension. -/
def Ax.In (d3 : Bool) (a : Ax) : Prop := a = .z → d3 = true

theorem Grid.cells_range {d3 : Bool} {P : Grid} {a : Ax} (ha : a.In d3) {c : Cell}
    (h : P.cells d3 c) : 0 ≤ a.get c ∧ a.get c < a.n P + 2 * P.ghostWidth := by
  have hi := P.isize_eq
  have hj := P.jsize_eq
  have hk := P.ksize_eq
  cases d3 <;> cases a <;> simp only [Grid.cells, Grid.cell2, Grid.cell3, Bool.false_eq_true, if_false,
    if_true, Ax.get, Ax.n] at h ⊢ <;> first | omega | (exact absurd (ha rfl) Bool.false_ne_true)

theorem Grid.cells_set {d3 : Bool} {P : Grid} {a : Ax} (ha : a.In d3) {c : Cell}
    (h : P.cells d3 c) {t : Int} (h0 : 0 ≤ t) (h1 : t < a.n P + 2 * P.ghostWidth) :
    P.cells d3 (a.set c t) := by
  have hi := P.isize_eq
  have hj := P.jsize_eq
  have hk := P.ksize_eq
  cases d3 <;> cases a <;> simp only [Grid.cells, Grid.cell2, Grid.cell3, Bool.false_eq_true, if_false,
    if_true, Ax.set, Ax.n] at h h0 h1 ⊢ <;> first | omega | (exact absurd (ha rfl) Bool.false_ne_true)

/-- Is `face` the lower or upper face of axis `a`? -/
def Ax.isFace (a : Ax) (f : Face) : Prop := f = a.lo ∨ f = a.hi

theorem bufShape_mem {d3 : Bool} {P : Grid} {a : Ax} (ha : a.In d3) {f : Face} (hf : a.isFace f)
    (hn : 0 ≤ a.n P) (hg : 0 < P.ghostWidth) {c : Cell} {v : Nat} :
    (P.bufShape d3 f).mem c v ↔ (P.cells d3 c ∧ a.get c < P.ghostWidth ∧ v < P.nbvar) := by
  have hi := P.isize_eq
  have hj := P.jsize_eq
  have hk := P.ksize_eq
  rcases hf with rfl | rfl <;> cases d3 <;> cases a <;>
    simp only [Grid.bufShape, Shape.mem, Grid.cells, Grid.cell2, Grid.cell3, Bool.false_eq_true, if_false,
      if_true, Ax.get, Ax.n, Ax.lo, Ax.hi] at hn ⊢ <;>
    first | (constructor <;> intro h <;> omega) | (exact absurd (ha rfl) Bool.false_ne_true)

/-! ### Buffer copies -/

/-- Decoding of the work item index of the buffer loops. -/
def bufDec (d3 : Bool) (lay : Layout) (s : Shape) (t : Nat) : Cell :=
  if d3 then
    let c := index2coord3 lay t s.ni s.nj s.nk
    ⟨c.1, c.2.1, c.2.2⟩
  else
    let c := index2coord2 lay t s.ni s.nj
    ⟨c.1, c.2, 0⟩

/-- The cells of a buffer. -/
def Shape.box (s : Shape) (c : Cell) : Prop :=
  0 ≤ c.i ∧ c.i < s.ni ∧ 0 ≤ c.j ∧ c.j < s.nj ∧ 0 ≤ c.k ∧ c.k < s.nk

theorem bufDec_box {d3 : Bool} {lay : Layout} {s : Shape} (hi : 0 < s.ni) (hj : 0 < s.nj)
    (hk : 0 < s.nk) (h2 : d3 = false → s.nk = 1) {t : Nat} (ht : t < (s.ni * s.nj * s.nk).toNat) :
    s.box (bufDec d3 lay s t) := by
  cases d3
  · have h1 := h2 rfl
    obtain ⟨a, b, c, d⟩ := index2coord2_range (lay := lay) (t := t) hi hj (by omega)
      (by rw [h1] at ht; simp at ht; omega)
    simp only [Shape.box, bufDec, Bool.false_eq_true, if_false]
    exact ⟨a, b, c, d, le_refl _, by omega⟩
  · obtain ⟨a, b, c, d, e, f⟩ := index2coord3_range (lay := lay) (t := t) hi hj hk (by omega) (by omega)
    simp only [Shape.box, bufDec, if_true]
    exact ⟨a, b, c, d, e, f⟩

theorem bufDec_inj {d3 : Bool} {lay : Layout} {s : Shape} {t u : Nat}
    (h : bufDec d3 lay s t = bufDec d3 lay s u) : t = u := by
  cases d3
  · simp only [bufDec, Bool.false_eq_true, if_false, Cell.mk.injEq] at h
    have e1 := coord2index2_index2coord2 (lay := lay) (t : Int) s.ni s.nj
    have e2 := coord2index2_index2coord2 (lay := lay) (u : Int) s.ni s.nj
    rw [h.1, h.2.1, e2] at e1
    omega
  · simp only [bufDec, if_true, Cell.mk.injEq] at h
    have e1 := coord2index3_index2coord3 (lay := lay) (t : Int) s.ni s.nj s.nk
    have e2 := coord2index3_index2coord3 (lay := lay) (u : Int) s.ni s.nj s.nk
    rw [h.1, h.2.1, h.2.2, e2] at e1
    omega

theorem bufDec_surj {d3 : Bool} {lay : Layout} {s : Shape} (h2 : d3 = false → s.nk = 1) {c : Cell}
    (hc : s.box c) : ∃ t, t < (s.ni * s.nj * s.nk).toNat ∧ bufDec d3 lay s t = c := by
  obtain ⟨a, b, c1, d, e, f⟩ := hc
  cases d3
  · have h1 := h2 rfl
    obtain ⟨r1, r2⟩ := coord2index2_range (lay := lay) a b c1 d
    refine ⟨(coord2index2 lay c.i c.j s.ni s.nj).toNat, ?_, ?_⟩
    · rw [h1, mul_one]; omega
    · have e1 : ((coord2index2 lay c.i c.j s.ni s.nj).toNat : Int) = coord2index2 lay c.i c.j s.ni s.nj :=
        Int.toNat_of_nonneg r1
      simp only [bufDec, Bool.false_eq_true, if_false, e1, index2coord2_coord2index2 a b c1 d]
      ext <;> simp only; omega
  · obtain ⟨r1, r2⟩ := coord2index3_range (lay := lay) a b c1 d e f
    refine ⟨(coord2index3 lay c.i c.j c.k s.ni s.nj s.nk).toNat, by omega, ?_⟩
    have e1 : ((coord2index3 lay c.i c.j c.k s.ni s.nj s.nk).toNat : Int)
        = coord2index3 lay c.i c.j c.k s.ni s.nj s.nk := Int.toNat_of_nonneg r1
    simp only [bufDec, if_true, e1, index2coord3_coord2index3 a b c1 d e f]

/-- Everything a rank's halo exchange may touch. -/
def haloAlloc (d3 : Bool) (P : Grid) (U : Nat) (a : Addr) : Prop :=
  (a.arr = U ∧ P.cells d3 a.cell ∧ a.v < P.nbvar) ∨
  ∃ (ax : Ax) (f : Face), ax.In d3 ∧ ax.isFace f ∧ (a.arr = bufSend f ∨ a.arr = bufRecv f) ∧
    (P.bufShape d3 f).mem a.cell a.v

/-- `U` is not one of the border buffers. -/
def NotBuf (U : Nat) : Prop := ∀ f : Face, U ≠ bufSend f ∧ U ≠ bufRecv f

open Classical in
/-- Effect of a buffer loop: the entries `c + oD` of array `B`, `c` in the buffer, become the entries
`c + oS` of array `A`. -/
noncomputable def bufFx (d3 : Bool) (P : Grid) (ax : Ax) (A B : Nat) (oS oD : Int) (m : Addr → α)
    (a : Addr) : α :=
  if a.arr = B ∧ P.cells d3 (ax.set a.cell (ax.get a.cell - oD)) ∧
      ax.get a.cell - oD < P.ghostWidth ∧ a.v < P.nbvar then
    m ((ax.set a.cell (ax.get a.cell - oD + oS)).at A a.v)
  else m a

theorem buf_yields {d3 : Bool} {lay : Layout} {P : Grid} {ax : Ax} (ha : ax.In d3) {f : Face}
    (hf : ax.isFace f) (hg : 0 < P.ghostWidth) (hx : 0 < P.nx) (hy : 0 < P.ny) (hz : d3 = true → 0 < P.nz)
    (L : Launch Addr α) (dom : Addr → Prop) (A B : Nat) (oS oD : Int) (hAB : A ≠ B)
    (hn : L.n = ((P.bufShape d3 f).ni * (P.bufShape d3 f).nj * (P.bufShape d3 f).nk).toNat)
    (hbody : ∀ t, L.body t =
      copyVars P.nbvar
        (fun v => (ax.set (bufDec d3 lay (P.bufShape d3 f) t)
          (ax.get (bufDec d3 lay (P.bufShape d3 f) t) + oS)).at A v)
        (fun v => (ax.set (bufDec d3 lay (P.bufShape d3 f) t)
          (ax.get (bufDec d3 lay (P.bufShape d3 f) t) + oD)).at B v) (fun _ x => x))
    (hdom : ∀ c v, P.cells d3 c → ax.get c < P.ghostWidth → v < P.nbvar →
      dom ((ax.set c (ax.get c + oS)).at A v) ∧ dom ((ax.set c (ax.get c + oD)).at B v))
    (m : Addr → α) :
    L.Yields dom m (bufFx d3 P ax A B oS oD m) := by
  classical
  have hi := P.isize_eq
  have hj := P.jsize_eq
  have hk := P.ksize_eq
  have hax : 0 ≤ ax.n P := by
    cases ax
    · exact hx.le
    · exact hy.le
    · exact (hz (ha rfl)).le
  have hpos : 0 < (P.bufShape d3 f).ni ∧ 0 < (P.bufShape d3 f).nj ∧ 0 < (P.bufShape d3 f).nk := by
    cases d3 <;> cases f <;> simp [Grid.bufShape] at hz ⊢ <;> omega
  have h2 : d3 = false → (P.bufShape d3 f).nk = 1 := by
    intro h
    subst h
    rcases hf with rfl | rfl <;> cases ax <;> first | rfl | exact absurd (ha rfl) Bool.false_ne_true
  have hmem : ∀ c, (P.bufShape d3 f).box c ↔ (P.cells d3 c ∧ ax.get c < P.ghostWidth) := by
    intro c
    have := bufShape_mem (c := c) (v := 0) ha hf hax hg (P := P)
    by_cases h0 : 0 < P.nbvar
    · have hv : 0 < (P.bufShape d3 f).nv := by cases d3 <;> cases f <;> exact h0
      simp only [Shape.mem, h0, hv, and_true] at this
      exact this
    · -- the extents do not depend on the number of variables
      have := bufShape_mem (c := c) (v := 0) ha hf (P := { P with nbvar := 1 })
        (by cases ax <;> exact hax) hg
      have hv : 0 < (Grid.bufShape d3 { P with nbvar := 1 } f).nv := by
        cases d3 <;> cases f <;> exact Nat.one_pos
      simp only [Shape.mem, hv, and_true, Nat.one_pos, Nat.lt_one_iff] at this
      have e1 : (Grid.bufShape d3 { P with nbvar := 1 } f).ni = (P.bufShape d3 f).ni := by
        cases d3 <;> cases f <;> rfl
      have e2 : (Grid.bufShape d3 { P with nbvar := 1 } f).nj = (P.bufShape d3 f).nj := by
        cases d3 <;> cases f <;> rfl
      have e3 : (Grid.bufShape d3 { P with nbvar := 1 } f).nk = (P.bufShape d3 f).nk := by
        cases d3 <;> cases f <;> rfl
      rw [e1, e2, e3] at this
      have e4 : Grid.cells d3 { P with nbvar := 1 } c ↔ P.cells d3 c := by cases d3 <;> exact Iff.rfl
      rw [e4] at this
      exact this
  have hbox : ∀ t, t < L.n → (P.bufShape d3 f).box (bufDec d3 lay (P.bufShape d3 f) t) := by
    intro t ht
    rw [hn] at ht
    exact bufDec_box hpos.1 hpos.2.1 hpos.2.2 h2 ht
  refine copy_yields L dom P.nbvar (fun _ => True) _ _ (fun _ _ x => x)
    (fun t _ _ => hbody t) (fun t _ h => absurd trivial h) ?_ ?_ ?_ ?_ m _ ?_ ?_
  · intro s t v w _ _ _ _ _ _ e
    obtain ⟨h1, h3⟩ := Cell.at_inj e
    exact ⟨bufDec_inj (Ax.set_inj h1), h3⟩
  · intro s t v w _ _ _ _ _ _ e
    exact hAB (congrArg Addr.arr e)
  · intro t v ht _ hv
    obtain ⟨h1, h3⟩ := (hmem _).1 (hbox t ht)
    exact (hdom _ v h1 h3 hv).1
  · intro t v ht _ hv
    obtain ⟨h1, h3⟩ := (hmem _).1 (hbox t ht)
    exact (hdom _ v h1 h3 hv).2
  · intro t v ht _ hv
    obtain ⟨h1, h3⟩ := (hmem _).1 (hbox t ht)
    simp only [bufFx]
    rw [if_pos]
    · show m ((ax.set (ax.set (bufDec d3 lay (P.bufShape d3 f) t) _)
        (ax.get (ax.set (bufDec d3 lay (P.bufShape d3 f) t) _) - oD + oS)).at A v) = _
      rw [Ax.set_set, Ax.get_set]
      rw [show ∀ x : Int, x + oD - oD + oS = x + oS by intro x; omega]
    · refine ⟨rfl, ?_, ?_, hv⟩
      · show P.cells d3 (ax.set (ax.set _ _) (ax.get (ax.set _ _) - oD))
        rw [Ax.get_set, Ax.set_set, show ∀ x : Int, x + oD - oD = x by intro x; omega, Ax.set_get]
        exact h1
      · show ax.get (ax.set _ _) - oD < _
        rw [Ax.get_set]; omega
  · intro a hA
    simp only [bufFx]
    rw [if_neg]
    rintro ⟨e1, e2, e3, e4⟩
    obtain ⟨t, ht, e⟩ := bufDec_surj (lay := lay) h2
      ((hmem _).2 ⟨e2, by rw [Ax.get_set]; exact e3⟩)
    refine hA t a.v (by rw [hn]; exact ht) trivial e4 ?_
    rw [e, Ax.set_set, Ax.get_set, show ax.get a.cell - oD + oD = ax.get a.cell by omega, Ax.set_get,
      ← e1]
    rfl

/-- Offset of the sent layer. -/
def sendOff (P : Grid) (ax : Ax) (f : Face) : Int := if f = ax.lo then P.ghostWidth else ax.n P
/-- Offset of the ghost layer. -/
def recvOff (P : Grid) (ax : Ax) (f : Face) : Int := if f = ax.lo then 0 else ax.n P + P.ghostWidth

theorem borderIter_eq {d3 : Bool} {P : Grid} {ax : Ax} (ha : ax.In d3) {f : Face} (hf : ax.isFace f) :
    P.borderIter d3 f
      = (P.bufShape d3 f).ni * (P.bufShape d3 f).nj * (P.bufShape d3 f).nk := by
  rcases hf with rfl | rfl <;> cases d3 <;> cases ax <;>
    first
    | (simp [Grid.borderIter, Grid.bufShape, Ax.lo, Ax.hi]; done)
    | exact absurd (ha rfl) Bool.false_ne_true

theorem toBuf_yields {d3 : Bool} {lay : Layout} {P : Grid} {ax : Ax} (ha : ax.In d3) {f : Face}
    (hf : ax.isFace f) (hg : 0 < P.ghostWidth) (hgn : P.ghostWidth ≤ ax.n P)
    (hx : 0 < P.nx) (hy : 0 < P.ny)
    (hz : d3 = true → 0 < P.nz) {U : Nat} (hU : NotBuf U) (m : Addr → α) :
    (copyToBuf d3 lay P U f).Yields (haloAlloc d3 P U) m
      (bufFx d3 P ax U (bufSend f) (sendOff P ax f) 0 m) := by
  have hi := P.isize_eq
  have hj := P.jsize_eq
  have hk := P.ksize_eq
  have hax : 0 ≤ ax.n P := by omega
  refine buf_yields (lay := lay) ha hf hg hx hy hz _ _ U (bufSend f) _ 0 (hU f).1 ?_ ?_ ?_ m
  · rw [← borderIter_eq ha hf]; rfl
  · intro t
    rcases hf with rfl | rfl <;> cases d3 <;> cases ax <;>
    first
    | exact absurd (ha rfl) Bool.false_ne_true
    | (simp only [copyToBuf, copyToBuf2DBody, copyToBuf3DBody, Ax.lo, Ax.hi, Ax.n, Ax.set, Ax.get, bufDec,
        sendOff, Grid.bufShape, Bool.false_eq_true, if_false, if_true, copyVars, Cell.at, add_zero,
        reduceCtorEq, hi, hj, hk, add_sub_cancel_right]
       try simp only [add_comm]
       rfl)
  · intro c v hc hc' hv
    have hr := Grid.cells_range ha hc
    constructor
    · refine Or.inl ⟨rfl, ?_, hv⟩
      show P.cells d3 (ax.set c _)
      apply Grid.cells_set ha hc <;> unfold sendOff <;> split_ifs <;> omega
    · refine Or.inr ⟨ax, f, ha, hf, Or.inl rfl, ?_⟩
      show (P.bufShape d3 f).mem (ax.set c _) v
      rw [bufShape_mem ha hf hax hg, add_zero, Ax.set_get]
      exact ⟨hc, hc', hv⟩

theorem fromBuf_yields {d3 : Bool} {lay : Layout} {P : Grid} {ax : Ax} (ha : ax.In d3) {f : Face}
    (hf : ax.isFace f) (hg : 0 < P.ghostWidth) (hgn : P.ghostWidth ≤ ax.n P)
    (hx : 0 < P.nx) (hy : 0 < P.ny)
    (hz : d3 = true → 0 < P.nz) {U : Nat} (hU : NotBuf U) (m : Addr → α) :
    (copyFromBuf d3 lay P U f).Yields (haloAlloc d3 P U) m
      (bufFx d3 P ax (bufRecv f) U 0 (recvOff P ax f) m) := by
  have hi := P.isize_eq
  have hj := P.jsize_eq
  have hk := P.ksize_eq
  have hax : 0 ≤ ax.n P := by omega
  refine buf_yields (lay := lay) ha hf hg hx hy hz _ _ (bufRecv f) U 0 _ (hU f).2.symm ?_ ?_ ?_ m
  · rw [← borderIter_eq ha hf]; rfl
  · intro t
    rcases hf with rfl | rfl <;> cases d3 <;> cases ax <;>
    first
    | exact absurd (ha rfl) Bool.false_ne_true
    | (simp only [copyFromBuf, copyFromBuf2DBody, copyFromBuf3DBody, Ax.lo, Ax.hi, Ax.n, Ax.set, Ax.get,
        bufDec, recvOff, Grid.bufShape, Bool.false_eq_true, if_false, if_true, copyVars, Cell.at, add_zero,
        zero_add, reduceCtorEq, hi, hj, hk,
        show ∀ a b : Int, a + 2 * b - b = a + b by intro a b; omega]
       try simp only [add_comm]
       rfl)
  · intro c v hc hc' hv
    have hr := Grid.cells_range ha hc
    constructor
    · refine Or.inr ⟨ax, f, ha, hf, Or.inr rfl, ?_⟩
      show (P.bufShape d3 f).mem (ax.set c _) v
      rw [bufShape_mem ha hf hax hg, add_zero, Ax.set_get]
      exact ⟨hc, hc', hv⟩
    · refine Or.inl ⟨rfl, ?_, hv⟩
      show P.cells d3 (ax.set c _)
      apply Grid.cells_set ha hc <;> unfold recvOff <;> split_ifs <;> omega

end Verif
