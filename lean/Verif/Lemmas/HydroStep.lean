import Verif.Lemmas.HydroState

/-! Helper lemmas: what every loop of the hydro step does to memory. -/

namespace Verif

open K Function ROps

variable {α : Type} [ROps α]

theorem mdEffect_one {d3 : Bool} {P : Grid} {body : Cell → K Addr α Unit} {m : Addr → α} {A : Nat}
    {R : Cell → Prop} {f : Cell → HState α}
    (h1 : ∀ c, P.box d3 c → R c → (body c).exec m = setState d3 m A c (f c))
    (h0 : ∀ c, P.box d3 c → ¬ R c → (body c).exec m = m) :
    mdEffect d3 P body m = setArr d3 m A (fun c => P.box d3 c ∧ R c) f := by
  funext a
  simp only [mdEffect, setArr]
  by_cases hb : P.box d3 a.cell
  · by_cases hR : R a.cell
    · rw [if_pos hb, h1 _ hb hR]; simp [setState, hb, hR]
    · rw [if_pos hb, h0 _ hb hR]; simp [hR]
  · simp [hb]

theorem mdEffect_two {d3 : Bool} {P : Grid} {body : Cell → K Addr α Unit} {m : Addr → α}
    {A B : Nat} {R : Cell → Prop} {f g : Cell → HState α}
    (h1 : ∀ c, P.box d3 c → R c → (body c).exec m = setState d3 (setState d3 m A c (f c)) B c (g c))
    (h0 : ∀ c, P.box d3 c → ¬ R c → (body c).exec m = m) :
    mdEffect d3 P body m = setArr d3 (setArr d3 m A (fun c => P.box d3 c ∧ R c) f) B
      (fun c => P.box d3 c ∧ R c) g := by
  funext a
  simp only [mdEffect, setArr]
  by_cases hb : P.box d3 a.cell
  · by_cases hR : R a.cell
    · rw [if_pos hb, h1 _ hb hR]; simp [setState, hb, hR]
    · rw [if_pos hb, h0 _ hb hR]; simp [hR]
  · simp [hb]

theorem mdEffect_three {d3 : Bool} {P : Grid} {body : Cell → K Addr α Unit} {m : Addr → α}
    {A B C : Nat} {R : Cell → Prop} {f g h : Cell → HState α}
    (h1 : ∀ c, P.box d3 c → R c → (body c).exec m = setState d3 (setState d3
      (setState d3 m A c (f c)) B c (g c)) C c (h c))
    (h0 : ∀ c, P.box d3 c → ¬ R c → (body c).exec m = m) :
    mdEffect d3 P body m = setArr d3 (setArr d3 (setArr d3 m A (fun c => P.box d3 c ∧ R c) f) B
      (fun c => P.box d3 c ∧ R c) g) C (fun c => P.box d3 c ∧ R c) h := by
  funext a
  simp only [mdEffect, setArr]
  by_cases hb : P.box d3 a.cell
  · by_cases hR : R a.cell
    · rw [if_pos hb, h1 _ hb hR]; simp [setState, hb, hR]
    · rw [if_pos hb, h0 _ hb hR]; simp [hR]
  · simp [hb]

/-! ### Pure versions of the loads -/

/-- The next states in every direction. -/
def upF (d3 : Bool) (q : Cell → HState α) (c : Cell) : Dir → HState α :=
  Dir.pick (q (c.up .x)) (q (c.up .y)) (if d3 then q (c.up .z) else HState.zero)

/-- The previous states in every direction. -/
def downF (d3 : Bool) (q : Cell → HState α) (c : Cell) : Dir → HState α :=
  Dir.pick (q (c.down .x)) (q (c.down .y)) (if d3 then q (c.down .z) else HState.zero)

/-- Slopes of a grid function. -/
def slopesAt (d3 : Bool) (S : Settings α) (junk : Dir → HState α) (q : Cell → HState α) (c : Cell) :
    Dir → HState α :=
  (slopes d3 S (q c) (upF d3 q c) (downF d3 q c)).getD junk

theorem loadSlopes_reads (d3 : Bool) (S : Settings α) (junk : Dir → HState α) (Q : Nat) (c : Cell)
    (m : Addr → α) : Reads (loadSlopes d3 S junk Q c) m (slopesAt d3 S junk (field d3 m Q) c) := by
  unfold loadSlopes slopesAt
  refine (loadState_reads _ _ _ _).bind ((loadState_reads _ _ _ _).bind
    ((loadState_reads _ _ _ _).bind ((loadState_reads _ _ _ _).bind
    ((loadState_reads _ _ _ _).bind ?_))))
  cases d3
  · exact Reads.ret _ _
  · exact (loadState_reads _ _ _ _).bind ((loadState_reads _ _ _ _).bind (Reads.ret _ _))

/-- Gravity predictor if gravity is on. -/
def pred (d3 grav : Bool) (dt : α) (g q : HState α) : HState α :=
  if grav then addGravity d3 dt g q else q

/-- Flux through the lower face in direction `d` of a cell from states and slopes on both sides. -/
def fluxOf (d3 : Bool) (S : Settings α) (junk : HState α) (gravL gravR : Bool) (dt : α) (d : Dir)
    (qL : HState α) (dqL : Dir → HState α) (gL : HState α)
    (qR : HState α) (dqR : Dir → HState α) (gR : HState α) : HState α :=
  faceFlux d3 S junk (dtOver S dt d) d
    (pred d3 gravL dt gL (traceAlongDir d3 S qL dqL (dtOver S dt) d true))
    (pred d3 gravR dt gR (traceAlongDir d3 S qR dqR (dtOver S dt) d false))

/-- Flux computed by the "all in one" functor. -/
def fluxAt (d3 : Bool) (S : Settings α) (J : Junk α) (grav : Bool) (dt : α)
    (q g : Cell → HState α) (d : Dir) (c : Cell) : HState α :=
  fluxOf d3 S (J.flux c d) grav grav dt d
    (q (c.down d)) (slopesAt d3 S (J.slope c d.tag) q (c.down d)) (g (c.down d))
    (q c) (slopesAt d3 S (J.slope c 0) q c) (g c)

theorem allInOneFlux_reads (d3 : Bool) (S : Settings α) (J : Junk α) (grav : Bool) (dt : α)
    (Q : Nat) (c : Cell) (d : Dir) (m : Addr → α) :
    Reads (allInOneFlux d3 S J grav dt Q c (field d3 m Q c)
      (slopesAt d3 S (J.slope c 0) (field d3 m Q) c) d) m
      (fluxAt d3 S J grav dt (field d3 m Q) (gfield d3 m) d c) := by
  unfold allInOneFlux fluxAt fluxOf
  refine (loadState_reads _ _ _ _).bind ((loadSlopes_reads _ _ _ _ _ _).bind ?_)
  cases grav
  · exact Reads.ret _ _
  · exact (loadGravity_reads _ _ _).bind ((loadGravity_reads _ _ _).bind (Reads.ret _ _))

/-- Stored slopes as a function of the direction. -/
def storedSlopes (d3 : Bool) (m : Addr → α) (c : Cell) : Dir → HState α :=
  Dir.pick (field d3 m (aS .x) c) (field d3 m (aS .y) c)
    (if d3 then field d3 m (aS .z) c else HState.zero)

theorem loadStoredSlopes_reads (d3 : Bool) (c : Cell) (m : Addr → α) :
    Reads (loadStoredSlopes d3 c) m (storedSlopes d3 m c) := by
  unfold loadStoredSlopes
  refine (loadState_reads _ _ _ _).bind ((loadState_reads _ _ _ _).bind ?_)
  cases d3
  · exact Reads.ret _ _
  · exact (loadState_reads _ _ _ _).bind (Reads.ret _ _)

/-! ### Regions -/

theorem Grid.inner_box {d3 : Bool} {P : Grid} {c : Cell} (hg : 1 ≤ P.ghostWidth)
    (hk : d3 = false → c.k = 0) (h : P.inner d3 c) : P.box d3 c := by
  obtain ⟨h1, h2, h3, h4, h5⟩ := h
  refine ⟨by omega, by omega, by omega, by omega, ?_⟩
  cases d3
  · simpa using hk rfl
  · have := h1 rfl; simp; omega

theorem Grid.box_k {P : Grid} {c : Cell} (h : P.box false c) : c.k = 0 := by simpa using h.2.2.2.2

theorem Grid.inner_faces {d3 : Bool} {P : Grid} {c : Cell} (h : P.inner d3 c) :
    P.faces d3 c := by
  obtain ⟨h1, h2, h3, h4, h5⟩ := h
  exact ⟨fun hd => by have := h1 hd; omega, by omega, by omega, by omega, by omega⟩

theorem Grid.faces_sloped {d3 : Bool} {P : Grid} {c : Cell} (h : P.faces d3 c) :
    P.sloped d3 c := by
  obtain ⟨h1, h2, h3, h4, h5⟩ := h
  exact ⟨fun hd => by have := h1 hd; omega, by omega, by omega, by omega, by omega⟩

/-- A direction that exists in this dimension. -/
def Dir.ok (d3 : Bool) (d : Dir) : Prop := d3 = true ∨ d ≠ .z

theorem Grid.inner_up {d3 : Bool} {P : Grid} {c : Cell} {d : Dir} (hd : d.ok d3)
    (h : P.inner d3 c) : P.faces d3 (c.up d) := by
  obtain ⟨h1, h2, h3, h4, h5⟩ := h
  cases d <;> refine ⟨fun hd' => ?_, ?_, ?_, ?_, ?_⟩ <;> simp only [Cell.up] <;>
    first | omega | (have := h1 hd'; omega)

theorem Grid.faces_down {d3 : Bool} {P : Grid} {c : Cell} {d : Dir}
    (h : P.faces d3 c) : P.sloped d3 (c.down d) := by
  obtain ⟨h1, h2, h3, h4, h5⟩ := h
  cases d <;> refine ⟨fun hd' => ?_, ?_, ?_, ?_, ?_⟩ <;> simp only [Cell.down] <;>
    first | omega | (have := h1 hd'; omega)

theorem Grid.sloped_box {d3 : Bool} {P : Grid} {c : Cell} (hg : 1 ≤ P.ghostWidth)
    (hk : d3 = false → c.k = 0) (h : P.sloped d3 c) : P.box d3 c := by
  obtain ⟨h1, h2, h3, h4, h5⟩ := h
  refine ⟨by omega, by omega, by omega, by omega, ?_⟩
  cases d3
  · simpa using hk rfl
  · have := h1 rfl; simp; omega

theorem Grid.sloped_up_box {d3 : Bool} {P : Grid} {c : Cell} {d : Dir} (hg : 2 ≤ P.ghostWidth)
    (hd : d.ok d3) (hk : d3 = false → c.k = 0) (h : P.sloped d3 c) : P.box d3 (c.up d) := by
  obtain ⟨h1, h2, h3, h4, h5⟩ := h
  cases d <;> refine ⟨?_, ?_, ?_, ?_, ?_⟩ <;> simp only [Cell.up] <;> try omega
  all_goals (cases d3 <;> simp only [Bool.false_eq_true, if_false, if_true] <;>
    first | exact hk rfl | (have := h1 rfl; omega) | simp [Dir.ok] at hd)

theorem Grid.sloped_down_box {d3 : Bool} {P : Grid} {c : Cell} {d : Dir} (hg : 2 ≤ P.ghostWidth)
    (hd : d.ok d3) (hk : d3 = false → c.k = 0) (h : P.sloped d3 c) : P.box d3 (c.down d) := by
  obtain ⟨h1, h2, h3, h4, h5⟩ := h
  cases d <;> refine ⟨?_, ?_, ?_, ?_, ?_⟩ <;> simp only [Cell.down] <;> try omega
  all_goals (cases d3 <;> simp only [Bool.false_eq_true, if_false, if_true] <;>
    first | exact hk rfl | (have := h1 rfl; omega) | simp [Dir.ok] at hd)

theorem Cell.up_k {d3 : Bool} {c : Cell} {d : Dir} (hd : d.ok d3) (hk : d3 = false → c.k = 0) :
    d3 = false → (c.up d).k = 0 := by
  rintro rfl
  cases d
  · exact hk rfl
  · exact hk rfl
  · simp [Dir.ok] at hd

theorem Cell.down_k {d3 : Bool} {c : Cell} {d : Dir} (hd : d.ok d3) (hk : d3 = false → c.k = 0) :
    d3 = false → (c.down d).k = 0 := by
  rintro rfl
  cases d
  · exact hk rfl
  · exact hk rfl
  · simp [Dir.ok] at hd

@[simp] theorem Cell.down_up (d : Dir) (c : Cell) : (c.up d).down d = c := by
  cases d <;> simp [Cell.up, Cell.down]
@[simp] theorem Cell.up_down (d : Dir) (c : Cell) : (c.down d).up d = c := by
  cases d <;> simp [Cell.up, Cell.down]
theorem Cell.up_ne (d : Dir) (c : Cell) : c.up d ≠ c := by
  cases d <;> simp [Cell.up, Cell.ext_iff]

/-! ### The loops -/

/-- What the step relies on. -/
structure HydroOk (d3 : Bool) (P : Grid) (impl : Int) (Uin Uout : Nat) : Prop where
  gw : 2 ≤ P.ghostWidth
  nv : P.nbvar = hydroVars d3
  bufs : (Uin = aU ∧ Uout = aU2) ∨ (Uin = aU2 ∧ Uout = aU)
  impl01 : impl = 0 ∨ impl = 1

namespace HydroOk

variable {d3 : Bool} {P : Grid} {impl : Int} {grav : Bool} {Uin Uout : Nat}

theorem dom_in (h : HydroOk d3 P impl Uin Uout) {c : Cell} (hb : P.box d3 c) :
    ∀ v, v < hydroVars d3 → hydroDom d3 P impl grav (c.at Uin v) := fun v hv =>
  ⟨hb, Or.inl ⟨by rcases h.bufs with h | h <;> simp [hydroArray, h.1], h.nv ▸ hv⟩⟩

theorem dom_out (h : HydroOk d3 P impl Uin Uout) {c : Cell} (hb : P.box d3 c) :
    ∀ v, v < hydroVars d3 → hydroDom d3 P impl grav (c.at Uout v) := fun v hv =>
  ⟨hb, Or.inl ⟨by rcases h.bufs with h | h <;> simp [hydroArray, h.2], h.nv ▸ hv⟩⟩

theorem dom_q (h : HydroOk d3 P impl Uin Uout) {c : Cell} (hb : P.box d3 c) :
    ∀ v, v < hydroVars d3 → hydroDom d3 P impl grav (c.at aQ v) := fun v hv =>
  ⟨hb, Or.inl ⟨by simp [hydroArray], h.nv ▸ hv⟩⟩

theorem dom_f (h : HydroOk d3 P impl Uin Uout) {c : Cell} {d : Dir} (hd : d.ok d3)
    (hb : P.box d3 c) :
    ∀ v, v < hydroVars d3 → hydroDom d3 P impl grav (c.at (aF impl d) v) := fun v hv =>
  ⟨hb, Or.inl ⟨by
    rcases h.impl01 with h | h <;> subst h <;> cases d3 <;> cases d <;>
      simp_all [hydroArray, aF, Dir.ok], h.nv ▸ hv⟩⟩

theorem dom_s (h : HydroOk d3 P 1 Uin Uout) {c : Cell} {d : Dir} (hd : d.ok d3)
    (hb : P.box d3 c) :
    ∀ v, v < hydroVars d3 → hydroDom d3 P 1 grav (c.at (aS d) v) := fun v hv =>
  ⟨hb, Or.inl ⟨by cases d3 <;> cases d <;> simp_all [hydroArray, Dir.ok], h.nv ▸ hv⟩⟩

theorem dom_g (_ : HydroOk d3 P impl Uin Uout) {c : Cell} (hb : P.box d3 c) (hg : grav = true) :
    ∀ v, v < (if d3 then 3 else 2) → hydroDom d3 P impl grav (c.at aG v) := fun v hv =>
  ⟨hb, Or.inr ⟨hg, rfl, hv⟩⟩

theorem ne (h : HydroOk d3 P impl Uin Uout) : Uin ≠ Uout := by
  rcases h.bufs with ⟨rfl, rfl⟩ | ⟨rfl, rfl⟩ <;> simp [aU, aU2]

theorem in_lt (h : HydroOk d3 P impl Uin Uout) : Uin < 2 := by
  rcases h.bufs with ⟨rfl, rfl⟩ | ⟨rfl, rfl⟩ <;> simp [aU, aU2]
theorem out_lt (h : HydroOk d3 P impl Uin Uout) : Uout < 2 := by
  rcases h.bufs with ⟨rfl, rfl⟩ | ⟨rfl, rfl⟩ <;> simp [aU, aU2]

end HydroOk

theorem aF_range (impl : Int) (d : Dir) : 3 ≤ aF impl d ∧ aF impl d ≤ 5 := by
  cases d <;> simp only [aF] <;> (try split_ifs) <;> omega
theorem aS_range (d : Dir) : 6 ≤ aS d ∧ aS d ≤ 8 := by cases d <;> simp [aS]

section loops

variable {d3 : Bool} {S : Settings α} {P : Grid} {J : Junk α} {impl : Int} {grav : Bool}
  {Uin Uout : Nat} {dt : α} {m : Addr → α}

theorem deepCopy_yields (h : HydroOk d3 P impl Uin Uout) (m : Addr → α) :
    (deepCopy d3 P Uout Uin).Yields (hydroDom d3 P impl grav) m
      (setArr d3 m Uout (P.box d3) (field d3 m Uin)) := by
  have key : mdEffect d3 P (fun c => forVars P.nbvar fun v => (do
      let x ← K.load (c.at Uin v)
      K.store (c.at Uout v) x : K Addr α Unit)) m =
      setArr d3 m Uout (fun c => P.box d3 c ∧ True) (field d3 m Uin) := by
    refine mdEffect_one (fun c hb _ => ?_) (fun c hb h => (h trivial).elim)
    have hne : ∀ v w, c.at Uin v ≠ c.at Uout w := fun v w e => by
      rw [Addr.eq_iff] at e; exact h.ne e.1
    rw [h.nv, ← storeState_exec]
    cases d3 <;>
      simp [hydroVars, forVars, storeState, K.exec, K.load, K.store, K.bind, field,
        Function.update_apply, hne, ID, IP, IU, IV, IW]
  simp only [and_true] at key
  have := mdrange_yields (d3 := d3) (P := P) (dom := hydroDom d3 P impl grav)
    (out := fun A => A = Uout)
    (body := fun c => forVars P.nbvar fun v => (do
      let x ← K.load (c.at Uin v)
      K.store (c.at Uout v) x : K Addr α Unit)) (fun c hb => CellFP.forVars fun v hv =>
        CellFP.bind (CellFP.load (h.dom_in hb v (h.nv ▸ hv)) (fun e => (h.ne e).elim)) fun x =>
        CellFP.store (h.dom_out hb v (h.nv ▸ hv)) rfl rfl) m
  rw [key] at this
  exact this

theorem convert_yields (h : HydroOk d3 P impl Uin Uout) (m : Addr → α) :
    (convertToPrimitives d3 S P Uin aQ).Yields (hydroDom d3 P impl grav) m
      (setArr d3 m aQ (P.box d3) (fun c => (computePrimitives d3 S (field d3 m Uin c)).1)) := by
  have hne : Uin ≠ aQ := by have := h.in_lt; simp only [aQ]; omega
  have key : mdEffect d3 P (fun c => (do
      let u ← loadState d3 Uin c
      storeState d3 aQ c (computePrimitives d3 S u).1 : K Addr α Unit)) m =
      setArr d3 m aQ (fun c => P.box d3 c ∧ True)
        (fun c => (computePrimitives d3 S (field d3 m Uin c)).1) := by
    refine mdEffect_one (fun c hb _ => ?_) (fun c hb h => (h trivial).elim)
    rw [K.bind_eq, (loadState_reads _ _ _ _).exec_bind, storeState_exec]
  simp only [and_true] at key
  have := mdrange_yields (d3 := d3) (P := P) (dom := hydroDom d3 P impl grav)
    (out := fun A => A = aQ)
    (body := fun c => (do
      let u ← loadState d3 Uin c
      storeState d3 aQ c (computePrimitives d3 S u).1 : K Addr α Unit)) (fun c hb =>
        CellFP.bind (CellFP.loadState (h.dom_in hb) (fun e => (hne e).elim)) fun x =>
        CellFP.storeState (h.dom_q hb) rfl) m
  rw [key] at this
  exact this

theorem loadSlopes_fp {out : Nat → Prop} {c c' : Cell} {junk : Dir → HState α}
    (h : HydroOk d3 P impl Uin Uout) (hQ : ¬ out aQ) (hk : d3 = false → c'.k = 0)
    (hs : P.sloped d3 c') :
    CellFP (hydroDom d3 P impl grav) out c (loadSlopes d3 S junk aQ c') := by
  have hx : Dir.ok d3 .x := Or.inr (by decide)
  have hy : Dir.ok d3 .y := Or.inr (by decide)
  have hg := h.gw
  refine CellFP.bind (CellFP.loadState (h.dom_q (Grid.sloped_box (by omega) hk hs))
    (fun e => (hQ e).elim)) fun _ => ?_
  refine CellFP.bind (CellFP.loadState (h.dom_q (Grid.sloped_up_box hg hx hk hs))
    (fun e => (hQ e).elim)) fun _ => ?_
  refine CellFP.bind (CellFP.loadState (h.dom_q (Grid.sloped_down_box hg hx hk hs))
    (fun e => (hQ e).elim)) fun _ => ?_
  refine CellFP.bind (CellFP.loadState (h.dom_q (Grid.sloped_up_box hg hy hk hs))
    (fun e => (hQ e).elim)) fun _ => ?_
  refine CellFP.bind (CellFP.loadState (h.dom_q (Grid.sloped_down_box hg hy hk hs))
    (fun e => (hQ e).elim)) fun _ => ?_
  cases d3
  · exact CellFP.ret _
  · have hz : Dir.ok true .z := Or.inl rfl
    refine CellFP.bind (CellFP.loadState (h.dom_q (Grid.sloped_up_box hg hz hk hs))
      (fun e => (hQ e).elim)) fun _ => ?_
    refine CellFP.bind (CellFP.loadState (h.dom_q (Grid.sloped_down_box hg hz hk hs))
      (fun e => (hQ e).elim)) fun _ => ?_
    exact CellFP.ret _

theorem allInOneFlux_fp {out : Nat → Prop} {c : Cell} {d : Dir} {q : HState α}
    {dq : Dir → HState α} (h : HydroOk d3 P impl Uin Uout) (hQ : ¬ out aQ) (hG : ¬ out aG)
    (hd : d.ok d3) (hb : P.box d3 c) (hf : P.faces d3 c) :
    CellFP (hydroDom d3 P impl grav) out c (allInOneFlux d3 S J grav dt aQ c q dq d) := by
  have hg := h.gw
  have hk : d3 = false → c.k = 0 := fun e => by subst e; exact Grid.box_k hb
  have hbd := Grid.sloped_box (by omega) (Cell.down_k hd hk) (Grid.faces_down (d := d) hf)
  refine CellFP.bind (CellFP.loadState (h.dom_q hbd) (fun e => (hQ e).elim)) fun _ => ?_
  refine CellFP.bind (loadSlopes_fp h hQ (Cell.down_k hd hk) (Grid.faces_down hf)) fun _ => ?_
  cases grav
  · exact CellFP.ret _
  · refine CellFP.bind (CellFP.loadGravity (h.dom_g hbd rfl) (fun e => (hG e).elim)) fun _ => ?_
    refine CellFP.bind (CellFP.loadGravity (h.dom_g hb rfl) (fun e => (hG e).elim)) fun _ => ?_
    exact CellFP.ret _

/-- Memory after the "all in one" flux loop. -/
noncomputable def fluxMem (d3 : Bool) (S : Settings α) (P : Grid) (J : Junk α) (grav : Bool)
    (dt : α) (m : Addr → α) : Addr → α :=
  let R := fun c => P.box d3 c ∧ P.faces d3 c
  let F := fluxAt d3 S J grav dt (field d3 m aQ) (gfield d3 m)
  let mxy := setArr d3 (setArr d3 m (aF 0 .x) R (F .x)) (aF 0 .y) R (F .y)
  if d3 then setArr d3 mxy (aF 0 .z) R (F .z) else mxy

theorem computeAndStoreFluxes_yields (h : HydroOk d3 P 0 Uin Uout) (m : Addr → α) :
    (computeAndStoreFluxes d3 S P J grav dt aQ (aF 0)).Yields (hydroDom d3 P 0 grav) m
      (fluxMem d3 S P J grav dt m) := by
  have hx : Dir.ok d3 .x := Or.inr (by decide)
  have hy : Dir.ok d3 .y := Or.inr (by decide)
  have hgw := h.gw
  have hQ : ¬ ∃ d, aQ = aF 0 d := by
    rintro ⟨d, e⟩; have := aF_range 0 d; simp only [aQ] at e; omega
  have hG : ¬ ∃ d, aG = aF 0 d := by
    rintro ⟨d, e⟩; have := aF_range 0 d; simp only [aG] at e; omega
  have hQ' : ∀ d, aQ ≠ aF 0 d := fun d e => hQ ⟨d, e⟩
  have hG' : ∀ d, aG ≠ aF 0 d := fun d e => hG ⟨d, e⟩
  have := mdrange_yields (d3 := d3) (P := P) (dom := hydroDom d3 P 0 grav)
    (out := fun A => ∃ d, A = aF 0 d)
    (body := fun c => if P.faces d3 c then (do
      let qLoc ← loadState d3 aQ c
      let dq ← loadSlopes d3 S (J.slope c 0) aQ c
      let fx ← allInOneFlux d3 S J grav dt aQ c qLoc dq .x
      storeState d3 (aF 0 .x) c fx
      let fy ← allInOneFlux d3 S J grav dt aQ c qLoc dq .y
      storeState d3 (aF 0 .y) c fy
      if d3 then do
        let fz ← allInOneFlux d3 S J grav dt aQ c qLoc dq .z
        storeState d3 (aF 0 .z) c fz
      else pure () : K Addr α Unit)
    else pure ()) ?_ m
  · have key : mdEffect d3 P (fun c => if P.faces d3 c then (do
      let qLoc ← loadState d3 aQ c
      let dq ← loadSlopes d3 S (J.slope c 0) aQ c
      let fx ← allInOneFlux d3 S J grav dt aQ c qLoc dq .x
      storeState d3 (aF 0 .x) c fx
      let fy ← allInOneFlux d3 S J grav dt aQ c qLoc dq .y
      storeState d3 (aF 0 .y) c fy
      if d3 then do
        let fz ← allInOneFlux d3 S J grav dt aQ c qLoc dq .z
        storeState d3 (aF 0 .z) c fz
      else pure () : K Addr α Unit)
      else pure ()) m = fluxMem d3 S P J grav dt m := by
      have read2 : ∀ (c : Cell) (d d' : Dir) (f : HState α) (m : Addr → α),
          Reads (allInOneFlux d3 S J grav dt aQ c (field d3 m aQ c)
            (slopesAt d3 S (J.slope c 0) (field d3 m aQ) c) d') (setState d3 m (aF 0 d) c f)
            (fluxAt d3 S J grav dt (field d3 m aQ) (gfield d3 m) d' c) := by
        intro c d d' f m
        have e1 : field d3 (setState d3 m (aF 0 d) c f) aQ = field d3 m aQ := by
          funext c'; exact field_setState_ne (Or.inl (hQ' d))
        have e2 : gfield d3 (setState d3 m (aF 0 d) c f) = gfield d3 m := gfield_setState (hG' d)
        have := allInOneFlux_reads d3 S J grav dt aQ c d' (setState d3 m (aF 0 d) c f)
        rw [e1, e2] at this; exact this
      cases d3
      · simp only [fluxMem, Bool.false_eq_true, if_false]
        refine mdEffect_two (fun c hb hf => ?_) (fun c hb hf => ?_)
        · rw [if_pos hf, K.bind_eq, (loadState_reads _ _ _ _).exec_bind, K.bind_eq,
            (loadSlopes_reads _ _ _ _ _ _).exec_bind, K.bind_eq,
            (allInOneFlux_reads _ _ _ _ _ _ _ _ _).exec_bind, K.bind_eq, K.exec_bind,
            storeState_exec, K.bind_eq, (read2 _ _ _ _ _).exec_bind, K.bind_eq, K.exec_bind,
            storeState_exec]; rfl
        · rw [if_neg hf]; rfl
      · simp only [fluxMem, if_true]
        refine mdEffect_three (fun c hb hf => ?_) (fun c hb hf => ?_)
        · rw [if_pos hf, K.bind_eq, (loadState_reads _ _ _ _).exec_bind, K.bind_eq,
            (loadSlopes_reads _ _ _ _ _ _).exec_bind, K.bind_eq,
            (allInOneFlux_reads _ _ _ _ _ _ _ _ _).exec_bind, K.bind_eq, K.exec_bind,
            storeState_exec, K.bind_eq, (read2 _ _ _ _ _).exec_bind, K.bind_eq, K.exec_bind,
            storeState_exec, K.bind_eq]
          have e1 : ∀ f, field true (setState true m (aF 0 .x) c f) aQ = field true m aQ := by
            intro f; funext c'; exact field_setState_ne (Or.inl (hQ' _))
          have e2 : ∀ f, gfield true (setState true m (aF 0 .x) c f) = gfield true m :=
            fun f => gfield_setState (hG' _)
          have r3 := fun f f' => read2 c .y .z f' (setState true m (aF 0 .x) c f)
          simp only [e1, e2] at r3
          rw [(r3 _ _).exec_bind, storeState_exec]
        · rw [if_neg hf]; rfl
    rw [key] at this
    exact this
  · intro c hb
    by_cases hf : P.faces d3 c
    · have hk : d3 = false → c.k = 0 := fun e => by subst e; exact Grid.box_k hb
      rw [if_pos hf]
      refine CellFP.bind (CellFP.loadState (h.dom_q hb) (fun e => (hQ e).elim)) fun _ => ?_
      refine CellFP.bind (loadSlopes_fp h hQ hk (Grid.faces_sloped hf)) fun _ => ?_
      refine CellFP.bind (allInOneFlux_fp h hQ hG hx hb hf) fun _ => ?_
      refine CellFP.bind (CellFP.storeState (h.dom_f hx hb) ⟨_, rfl⟩) fun _ => ?_
      refine CellFP.bind (allInOneFlux_fp h hQ hG hy hb hf) fun _ => ?_
      refine CellFP.bind (CellFP.storeState (h.dom_f hy hb) ⟨_, rfl⟩) fun _ => ?_
      cases d3
      · exact CellFP.ret _
      · have hz : Dir.ok true .z := Or.inl rfl
        refine CellFP.bind (allInOneFlux_fp h hQ hG hz hb hf) fun _ => ?_
        exact CellFP.storeState (h.dom_f hz hb) ⟨_, rfl⟩
    · rw [if_neg hf]; exact CellFP.ret _

/-- New state of the update loop. -/
def updatedAt (d3 : Bool) (m : Addr → α) (U : Nat) (F : Dir → Nat) (c : Cell) : HState α :=
  let u := field d3 m U c
  let ux := u.plusMinus d3 (field d3 m (F .x) c) (field d3 m (F .x) (c.up .x))
  let uy := ux.plusMinus d3 (field d3 m (F .y) c) (field d3 m (F .y) (c.up .y))
  if d3 then uy.plusMinus d3 (field d3 m (F .z) c) (field d3 m (F .z) (c.up .z)) else uy

theorem plusMinus_norm (d3 : Bool) (q a b : HState α) :
    (q.plusMinus d3 a b).norm d3 = q.plusMinus d3 a b := by cases d3 <;> rfl

theorem update_yields (h : HydroOk d3 P impl Uin Uout) (m : Addr → α) :
    (update d3 P Uout (aF impl)).Yields (hydroDom d3 P impl grav) m
      (setArr d3 m Uout (fun c => P.box d3 c ∧ P.inner d3 c) (updatedAt d3 m Uout (aF impl))) := by
  have hF : ∀ d, aF impl d ≠ Uout := fun d e => by
    have := aF_range impl d; have := h.out_lt; omega
  have hgw := h.gw
  have hx : Dir.ok d3 .x := Or.inr (by decide)
  have hy : Dir.ok d3 .y := Or.inr (by decide)
  have key : mdEffect d3 P (fun c => if P.inner d3 c then (do
      updateAlong d3 Uout c (aF impl .x) .x
      updateAlong d3 Uout c (aF impl .y) .y
      if d3 then updateAlong d3 Uout c (aF impl .z) .z else pure () : K Addr α Unit)
      else pure ()) m = setArr d3 m Uout (fun c => P.box d3 c ∧ P.inner d3 c)
        (updatedAt d3 m Uout (aF impl)) := by
    refine mdEffect_one (A := Uout) (R := P.inner d3) (f := updatedAt d3 m Uout (aF impl))
      (fun c hb hi => ?_) (fun c hb hi => ?_)
    · rw [if_pos hi, K.bind_eq, K.exec_bind, updateAlong_exec _ _ _ _ _ (hF _), K.bind_eq,
        K.exec_bind, updateAlong_exec _ _ _ _ _ (hF _), setState_twice, field_setState_same,
        field_setState_ne (Or.inl (hF _)), field_setState_ne (Or.inl (hF _)), plusMinus_norm]
      cases d3
      · rfl
      · simp only [if_true]
        rw [updateAlong_exec _ _ _ _ _ (hF _), setState_twice, field_setState_same,
          field_setState_ne (Or.inl (hF _)), field_setState_ne (Or.inl (hF _)), plusMinus_norm]
        rfl
    · rw [if_neg hi]; rfl
  have := mdrange_yields (d3 := d3) (P := P) (dom := hydroDom d3 P impl grav)
    (out := fun A => A = Uout)
    (body := fun c => if P.inner d3 c then (do
      updateAlong d3 Uout c (aF impl .x) .x
      updateAlong d3 Uout c (aF impl .y) .y
      if d3 then updateAlong d3 Uout c (aF impl .z) .z else pure () : K Addr α Unit)
      else pure ()) ?_ m
  · rw [key] at this
    exact this
  · intro c hb
    by_cases hi : P.inner d3 c
    · have hk : d3 = false → c.k = 0 := fun e => by subst e; exact Grid.box_k hb
      have hup : ∀ d : Dir, d.ok d3 → P.box d3 (c.up d) := fun d hd =>
        Grid.sloped_box (by omega) (Cell.up_k hd hk) (Grid.faces_sloped (Grid.inner_up hd hi))
      have one : ∀ d : Dir, d.ok d3 → CellFP (hydroDom d3 P impl grav) (fun A => A = Uout) c
          (updateAlong d3 Uout c (aF impl d) d : K Addr α Unit) := fun d hd =>
        CellFP.updateAlong (h.dom_out hb) (h.dom_f hd hb) (h.dom_f hd (hup d hd)) rfl (hF d)
      rw [if_pos hi]
      refine CellFP.bind (one _ hx) fun _ => CellFP.bind (one _ hy) fun _ => ?_
      cases d3
      · exact CellFP.ret _
      · exact one _ (Or.inl rfl)
    · rw [if_neg hi]; exact CellFP.ret _

theorem updateDir_yields {d : Dir} (hd : d.ok d3) (h : HydroOk d3 P impl Uin Uout)
    (m : Addr → α) :
    (updateDir d3 P Uout (aF impl d) d).Yields (hydroDom d3 P impl grav) m
      (setArr d3 m Uout (fun c => P.box d3 c ∧ P.inner d3 c) (fun c =>
        (field d3 m Uout c).plusMinus d3 (field d3 m (aF impl d) c)
          (field d3 m (aF impl d) (c.up d)))) := by
  have hF : aF impl d ≠ Uout := fun e => by
    have := aF_range impl d; have := h.out_lt; omega
  have hgw := h.gw
  have key : mdEffect d3 P (fun c => if P.inner d3 c then
      (updateAlong d3 Uout c (aF impl d) d : K Addr α Unit) else pure ()) m = setArr d3 m Uout (fun c => P.box d3 c ∧ P.inner d3 c)
        (fun c => (field d3 m Uout c).plusMinus d3 (field d3 m (aF impl d) c)
          (field d3 m (aF impl d) (c.up d))) := by
    refine mdEffect_one (A := Uout) (R := P.inner d3) (f := fun c =>
        (field d3 m Uout c).plusMinus d3 (field d3 m (aF impl d) c)
          (field d3 m (aF impl d) (c.up d)))
      (fun c hb hi => ?_) (fun c hb hi => ?_)
    · rw [if_pos hi, updateAlong_exec _ _ _ _ _ hF]
    · rw [if_neg hi]; rfl
  have := mdrange_yields (d3 := d3) (P := P) (dom := hydroDom d3 P impl grav)
    (out := fun A => A = Uout)
    (body := fun c => if P.inner d3 c then
      (updateAlong d3 Uout c (aF impl d) d : K Addr α Unit) else pure ()) ?_ m
  · rw [key] at this
    exact this
  · intro c hb
    by_cases hi : P.inner d3 c
    · have hk : d3 = false → c.k = 0 := fun e => by subst e; exact Grid.box_k hb
      have hup : P.box d3 (c.up d) :=
        Grid.sloped_box (by omega) (Cell.up_k hd hk) (Grid.faces_sloped (Grid.inner_up hd hi))
      rw [if_pos hi]
      exact CellFP.updateAlong (h.dom_out hb) (h.dom_f hd hb) (h.dom_f hd hup) rfl hF
    · rw [if_neg hi]; exact CellFP.ret _

/-- Slopes stored by the slope loop. -/
def storedAt (d3 : Bool) (S : Settings α) (J : Junk α) (q : Cell → HState α) (d : Dir) (c : Cell) :
    HState α :=
  slopesAt d3 S (if d3 then J.slope c 0 else fun _ => HState.zero) q c d

/-- Memory after the slope loop. -/
noncomputable def slopeMem (d3 : Bool) (S : Settings α) (P : Grid) (J : Junk α) (m : Addr → α) :
    Addr → α :=
  let R := fun c => P.box d3 c ∧ P.sloped d3 c
  let D := storedAt d3 S J (field d3 m aQ)
  let mxy := setArr d3 (setArr d3 m (aS .x) R (D .x)) (aS .y) R (D .y)
  if d3 then setArr d3 mxy (aS .z) R (D .z) else mxy

theorem computeSlopes_yields (h : HydroOk d3 P 1 Uin Uout) (m : Addr → α) :
    (computeSlopes d3 S P J aQ).Yields (hydroDom d3 P 1 grav) m (slopeMem d3 S P J m) := by
  have hx : Dir.ok d3 .x := Or.inr (by decide)
  have hy : Dir.ok d3 .y := Or.inr (by decide)
  have hgw := h.gw
  have hQ : ¬ ∃ d, aQ = aS d := by
    rintro ⟨d, e⟩; have := aS_range d; simp only [aQ] at e; omega
  have := mdrange_yields (d3 := d3) (P := P) (dom := hydroDom d3 P 1 grav)
    (out := fun A => ∃ d, A = aS d)
    (body := fun c => if P.sloped d3 c then (do
      let dq ← loadSlopes d3 S (if d3 then J.slope c 0 else fun _ => HState.zero) aQ c
      storeState d3 (aS .x) c (dq .x)
      storeState d3 (aS .y) c (dq .y)
      if d3 then storeState d3 (aS .z) c (dq .z) else pure () : K Addr α Unit)
    else pure ()) ?_ m
  · have key : mdEffect d3 P (fun c => if P.sloped d3 c then (do
      let dq ← loadSlopes d3 S (if d3 then J.slope c 0 else fun _ => HState.zero) aQ c
      storeState d3 (aS .x) c (dq .x)
      storeState d3 (aS .y) c (dq .y)
      if d3 then storeState d3 (aS .z) c (dq .z) else pure () : K Addr α Unit)
      else pure ()) m = slopeMem d3 S P J m := by
      cases d3
      · simp only [slopeMem, Bool.false_eq_true, if_false]
        refine mdEffect_two (fun c hb hf => ?_) (fun c hb hf => ?_)
        · rw [if_pos hf, K.bind_eq, (loadSlopes_reads _ _ _ _ _ _).exec_bind, K.bind_eq,
            K.exec_bind, storeState_exec, K.bind_eq, K.exec_bind, storeState_exec]; rfl
        · rw [if_neg hf]; rfl
      · simp only [slopeMem, if_true]
        refine mdEffect_three (fun c hb hf => ?_) (fun c hb hf => ?_)
        · rw [if_pos hf, K.bind_eq, (loadSlopes_reads _ _ _ _ _ _).exec_bind, K.bind_eq,
            K.exec_bind, storeState_exec, K.bind_eq, K.exec_bind, storeState_exec,
            storeState_exec]; rfl
        · rw [if_neg hf]; rfl
    rw [key] at this
    exact this
  · intro c hb
    by_cases hf : P.sloped d3 c
    · have hk : d3 = false → c.k = 0 := fun e => by subst e; exact Grid.box_k hb
      rw [if_pos hf]
      refine CellFP.bind (loadSlopes_fp h hQ hk hf) fun _ => ?_
      refine CellFP.bind (CellFP.storeState (h.dom_s hx hb) ⟨_, rfl⟩) fun _ => ?_
      refine CellFP.bind (CellFP.storeState (h.dom_s hy hb) ⟨_, rfl⟩) fun _ => ?_
      cases d3
      · exact CellFP.ret _
      · exact CellFP.storeState (h.dom_s (Or.inl rfl) hb) ⟨_, rfl⟩
    · rw [if_neg hf]; exact CellFP.ret _

/-- Flux of the split version. -/
def fluxAtSplit (d3 : Bool) (S : Settings α) (J : Junk α) (grav : Bool) (dt : α)
    (q : Cell → HState α) (dq : Cell → Dir → HState α) (g : Cell → HState α) (d : Dir) (c : Cell) :
    HState α :=
  fluxOf d3 S (J.flux c d) grav (grav && d != .z) dt d
    (q (c.down d)) (dq (c.down d)) (g (c.down d)) (q c) (dq c) (g c)

theorem computeTraceAndFluxes_yields {d : Dir} (hd : d.ok d3) (h : HydroOk d3 P 1 Uin Uout)
    (m : Addr → α) :
    (computeTraceAndFluxes d3 S P J grav dt aQ (aF 1 d) d).Yields (hydroDom d3 P 1 grav) m
      (setArr d3 m (aF 1 d) (fun c => P.box d3 c ∧ P.faces d3 c)
        (fluxAtSplit d3 S J grav dt (field d3 m aQ) (storedSlopes d3 m) (gfield d3 m) d)) := by
  have hgw := h.gw
  have hx : Dir.ok d3 .x := Or.inr (by decide)
  have hy : Dir.ok d3 .y := Or.inr (by decide)
  have hQ : aQ ≠ aF 1 d := by
    intro e; have := aF_range 1 d; simp only [aQ] at e; omega
  have hG : aG ≠ aF 1 d := by
    intro e; have := aF_range 1 d; simp only [aG] at e; omega
  have hS : ∀ d', aS d' ≠ aF 1 d := by
    intro d' e; have := aF_range 1 d; have := aS_range d'; omega
  have key : mdEffect d3 P (fun c => if P.faces d3 c then (do
      let qLoc ← loadState d3 aQ c
      let dq ← loadStoredSlopes d3 c
      let qright := traceAlongDir d3 S qLoc dq (dtOver S dt) d false
      let qright ← (if grav && d != .z then do
          let g ← loadGravity d3 c
          pure (addGravity d3 dt g qright)
        else pure qright : K Addr α (HState α))
      let qLocNeighbor ← loadState d3 aQ (c.down d)
      let dqNeighbor ← loadStoredSlopes d3 (c.down d)
      let qleft := traceAlongDir d3 S qLocNeighbor dqNeighbor (dtOver S dt) d true
      let qleft ← (if grav then do
          let g ← loadGravity d3 (c.down d)
          pure (addGravity d3 dt g qleft)
        else pure qleft : K Addr α (HState α))
      storeState d3 (aF 1 d) c (faceFlux d3 S (J.flux c d) (dtOver S dt d) d qleft qright)
        : K Addr α Unit)
    else pure ()) m = setArr d3 m (aF 1 d) (fun c => P.box d3 c ∧ P.faces d3 c)
        (fluxAtSplit d3 S J grav dt (field d3 m aQ) (storedSlopes d3 m) (gfield d3 m) d) := by
    refine mdEffect_one (A := aF 1 d) (R := P.faces d3)
      (f := fluxAtSplit d3 S J grav dt (field d3 m aQ) (storedSlopes d3 m) (gfield d3 m) d)
      (fun c hb hf => ?_) (fun c hb hf => ?_)
    · have rg : ∀ (b : Bool) (c' : Cell) (q : HState α), Reads (if b then do
          let g ← loadGravity d3 c'
          pure (addGravity d3 dt g q)
        else pure q : K Addr α (HState α)) m (pred d3 b dt (gfield d3 m c') q) := by
        intro b c' q
        cases b
        · exact Reads.ret _ _
        · exact (loadGravity_reads _ _ _).bind (Reads.ret _ _)
      rw [if_pos hf, K.bind_eq, (loadState_reads _ _ _ _).exec_bind, K.bind_eq,
        (loadStoredSlopes_reads _ _ _).exec_bind, K.bind_eq, (rg _ _ _).exec_bind, K.bind_eq,
        (loadState_reads _ _ _ _).exec_bind, K.bind_eq,
        (loadStoredSlopes_reads _ _ _).exec_bind, K.bind_eq, (rg _ _ _).exec_bind,
        storeState_exec]
      rfl
    · rw [if_neg hf]; rfl
  have := mdrange_yields (d3 := d3) (P := P) (dom := hydroDom d3 P 1 grav)
    (out := fun A => A = aF 1 d)
    (body := fun c => if P.faces d3 c then (do
      let qLoc ← loadState d3 aQ c
      let dq ← loadStoredSlopes d3 c
      let qright := traceAlongDir d3 S qLoc dq (dtOver S dt) d false
      let qright ← (if grav && d != .z then do
          let g ← loadGravity d3 c
          pure (addGravity d3 dt g qright)
        else pure qright : K Addr α (HState α))
      let qLocNeighbor ← loadState d3 aQ (c.down d)
      let dqNeighbor ← loadStoredSlopes d3 (c.down d)
      let qleft := traceAlongDir d3 S qLocNeighbor dqNeighbor (dtOver S dt) d true
      let qleft ← (if grav then do
          let g ← loadGravity d3 (c.down d)
          pure (addGravity d3 dt g qleft)
        else pure qleft : K Addr α (HState α))
      storeState d3 (aF 1 d) c (faceFlux d3 S (J.flux c d) (dtOver S dt d) d qleft qright)
        : K Addr α Unit)
    else pure ()) ?_ m
  · rw [key] at this
    exact this
  · intro c hb
    by_cases hf : P.faces d3 c
    · have hk : d3 = false → c.k = 0 := fun e => by subst e; exact Grid.box_k hb
      have hbd := Grid.sloped_box (by omega) (Cell.down_k hd hk) (Grid.faces_down (d := d) hf)
      have fs : ∀ c' : Cell, P.box d3 c' → CellFP (hydroDom d3 P 1 grav) (fun A => A = aF 1 d) c
          (loadStoredSlopes d3 c' : K Addr α _) := by
        intro c' hb'
        refine CellFP.bind (CellFP.loadState (h.dom_s hx hb') (fun e => (hS _ e).elim)) fun _ => ?_
        refine CellFP.bind (CellFP.loadState (h.dom_s hy hb') (fun e => (hS _ e).elim)) fun _ => ?_
        cases d3
        · exact CellFP.ret _
        · exact CellFP.bind (CellFP.loadState (h.dom_s (Or.inl rfl) hb')
            (fun e => (hS _ e).elim)) fun _ => CellFP.ret _
      have fg : ∀ (b : Bool) (c' : Cell) (q : HState α), (b = true → grav = true) →
          P.box d3 c' → CellFP (hydroDom d3 P 1 grav) (fun A => A = aF 1 d) c
          (if b then do
            let g ← loadGravity d3 c'
            pure (addGravity d3 dt g q)
          else pure q : K Addr α (HState α)) := by
        intro b c' q hb1 hb'
        cases b
        · exact CellFP.ret _
        · exact CellFP.bind (CellFP.loadGravity (h.dom_g hb' (hb1 rfl))
            (fun e => (hG e).elim)) fun _ => CellFP.ret _
      rw [if_pos hf]
      refine CellFP.bind (CellFP.loadState (h.dom_q hb) (fun e => (hQ e).elim)) fun _ => ?_
      refine CellFP.bind (fs c hb) fun _ => ?_
      refine CellFP.bind (fg _ _ _ (by simp; tauto) hb) fun _ => ?_
      refine CellFP.bind (CellFP.loadState (h.dom_q hbd) (fun e => (hQ e).elim)) fun _ => ?_
      refine CellFP.bind (fs _ hbd) fun _ => ?_
      refine CellFP.bind (fg _ _ _ (fun e => e) hbd) fun _ => ?_
      exact CellFP.storeState (h.dom_f hd hb) rfl
    · rw [if_neg hf]; exact CellFP.ret _

/-- New state of the gravity loop. -/
def gravAt (d3 : Bool) (S : Settings α) (dt : α) (m : Addr → α) (Uin Uout : Nat) (c : Cell) :
    HState α :=
  gravitySource d3 S dt (field d3 m Uin c).d (gfield d3 m c) (field d3 m Uout c)

theorem gravitySourceTerm_yields (h : HydroOk d3 P impl Uin Uout) (m : Addr → α) :
    (gravitySourceTerm d3 S P dt Uin Uout).Yields (hydroDom d3 P impl true) m
      (setArr d3 m Uout (fun c => P.box d3 c ∧ P.inner d3 c) (gravAt d3 S dt m Uin Uout)) := by
  have hG : aG ≠ Uout := fun e => by have := h.out_lt; simp only [aG] at e; omega
  have key : mdEffect d3 P (fun c => if P.inner d3 c then (do
      let rhoOld ← K.load (c.at Uin ID)
      let out ← loadState d3 Uout c
      let g ← loadGravity d3 c
      let new := gravitySource d3 S dt rhoOld g out
      K.store (c.at Uout IU) new.u
      K.store (c.at Uout IV) new.v
      if d3 then K.store (c.at Uout IW) new.w else pure ()
      K.store (c.at Uout IE) new.p : K Addr α Unit)
    else pure ()) m = setArr d3 m Uout (fun c => P.box d3 c ∧ P.inner d3 c)
        (gravAt d3 S dt m Uin Uout) := by
    refine mdEffect_one (A := Uout) (R := P.inner d3) (f := gravAt d3 S dt m Uin Uout)
      (fun c hb hi => ?_) (fun c hb hi => ?_)
    · have hc : ∀ v w, (c.at Uout v = c.at Uout w) = (v = w) := fun v w => by
        rw [Addr.eq_iff]; simp
      rw [if_pos hi, K.bind_eq, (Reads.load _ _).exec_bind, K.bind_eq,
        (loadState_reads _ _ _ _).exec_bind, K.bind_eq, (loadGravity_reads _ _ _).exec_bind,
        ← storeState_exec]
      have hd : (gravAt d3 S dt m Uin Uout c).d = m (c.at Uout 0) := rfl
      have e : gravitySource d3 S dt (m (c.at Uin ID)) (gfield d3 m c) (field d3 m Uout c)
        = gravAt d3 S dt m Uin Uout c := rfl
      rw [e]
      funext a
      generalize gravAt d3 S dt m Uin Uout c = q at *
      by_cases ha : a = c.at Uout 0
      · subst ha
        cases d3 <;>
          simp [storeState, K.exec, K.load, K.store, K.bind, hc,
            Function.update_apply, ID, IP, IE, IU, IV, IW, hd]
      · cases d3 <;>
          simp only [storeState, K.exec, K.bind_eq, K.pure_eq, K.store, K.bind,
            Function.update_apply, ID, IP, IE, IU, IV, IW, ha, if_false, if_true,
            Bool.false_eq_true] <;> split_ifs <;> simp_all
    · rw [if_neg hi]; rfl
  have := mdrange_yields (d3 := d3) (P := P) (dom := hydroDom d3 P impl true)
    (out := fun A => A = Uout)
    (body := fun c => if P.inner d3 c then (do
      let rhoOld ← K.load (c.at Uin ID)
      let out ← loadState d3 Uout c
      let g ← loadGravity d3 c
      let new := gravitySource d3 S dt rhoOld g out
      K.store (c.at Uout IU) new.u
      K.store (c.at Uout IV) new.v
      if d3 then K.store (c.at Uout IW) new.w else pure ()
      K.store (c.at Uout IE) new.p : K Addr α Unit)
    else pure ()) ?_ m
  · rw [key] at this
    exact this
  · intro c hb
    by_cases hi : P.inner d3 c
    · rw [if_pos hi]
      have hv : ∀ v, v < 4 → v < hydroVars d3 := by
        intro v hv; cases d3 <;> simp [hydroVars] <;> omega
      refine CellFP.bind (CellFP.load (h.dom_in hb _ (hv _ (by decide)))
        (fun e => (h.ne e).elim)) fun _ => ?_
      refine CellFP.bind (CellFP.loadState (h.dom_out hb) (fun _ => rfl)) fun _ => ?_
      refine CellFP.bind (CellFP.loadGravity (h.dom_g hb rfl) (fun e => (hG e).elim)) fun _ => ?_
      refine CellFP.bind (CellFP.store (h.dom_out hb _ (hv _ (by decide))) rfl rfl) fun _ => ?_
      refine CellFP.bind (CellFP.store (h.dom_out hb _ (hv _ (by decide))) rfl rfl) fun _ => ?_
      have last : ∀ x : α, CellFP (hydroDom d3 P impl true) (fun A => A = Uout) c
          (K.store (c.at Uout IE) x) := fun x =>
        CellFP.store (h.dom_out hb _ (hv _ (by decide))) rfl rfl
      cases d3
      · exact last _
      · exact CellFP.bind (CellFP.store (h.dom_out hb _ (by decide)) rfl rfl) fun _ => last _
    · rw [if_neg hi]; exact CellFP.ret _

end loops

end Verif
