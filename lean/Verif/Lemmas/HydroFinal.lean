import Verif.Lemmas.HydroStep
import Verif.Lemmas.BoundariesAll

/-! Helper lemmas: the memory after a whole hydro step, as a function of the filled state. -/

namespace Verif

open K Function ROps

variable {α : Type} [ROps α]

/-- Update of one cell by the fluxes through its faces. -/
def updCell (d3 : Bool) (F : Dir → Cell → HState α) (u : HState α) (c : Cell) : HState α :=
  let ux := u.plusMinus d3 (F .x c) (F .x (c.up .x))
  let uy := ux.plusMinus d3 (F .y c) (F .y (c.up .y))
  if d3 then uy.plusMinus d3 (F .z c) (F .z (c.up .z)) else uy

/-- New state of an interior cell. -/
def stepCell (d3 : Bool) (S : Settings α) (grav : Bool) (dt : α) (F : Dir → Cell → HState α)
    (u g : Cell → HState α) (c : Cell) : HState α :=
  if grav then gravitySource d3 S dt (u c).d (g c) (updCell d3 F (u c) c)
  else updCell d3 F (u c) c

/-- Primitive variables of a grid function. -/
def primAt (d3 : Bool) (S : Settings α) (u : Cell → HState α) (c : Cell) : HState α :=
  (computePrimitives d3 S (u c)).1

/-- Slopes used by the split version. -/
def slopes1 (d3 : Bool) (S : Settings α) (J : Junk α) (q : Cell → HState α) (c : Cell) :
    Dir → HState α :=
  Dir.pick (storedAt d3 S J q .x c) (storedAt d3 S J q .y c)
    (if d3 then storedAt d3 S J q .z c else HState.zero)

/-- Fluxes of the two versions as functions of the filled conservative state. -/
def stepFlux (d3 : Bool) (S : Settings α) (J : Junk α) (impl : Int) (grav : Bool) (dt : α)
    (u g : Cell → HState α) (d : Dir) (c : Cell) : HState α :=
  if impl = 0 then fluxAt d3 S J grav dt (primAt d3 S u) g d c
  else fluxAtSplit d3 S J grav dt (primAt d3 S u) (slopes1 d3 S J (primAt d3 S u)) g d c

/-! ### normal forms -/

theorem field_norm (d3 : Bool) (m : Addr → α) (A : Nat) (c : Cell) :
    (field d3 m A c).norm d3 = field d3 m A c := by cases d3 <;> rfl

theorem prim_norm (d3 : Bool) (S : Settings α) (u : HState α) :
    (computePrimitives d3 S u).1.norm d3 = (computePrimitives d3 S u).1 := by cases d3 <;> rfl

theorem faceFlux_norm (d3 : Bool) (S : Settings α) (junk : HState α) (dtd : α) (d : Dir)
    (a b : HState α) : (faceFlux d3 S junk dtd d a b).norm d3 = faceFlux d3 S junk dtd d a b := by
  cases d3 <;> rfl

theorem storedAt_norm (d3 : Bool) (S : Settings α) (J : Junk α) (q : Cell → HState α) (d : Dir)
    (c : Cell) : (storedAt d3 S J q d c).norm d3 = storedAt d3 S J q d c := by
  cases d3
  · simp only [storedAt, slopesAt, slopes]
    split_ifs <;> simp_all [HState.norm, HState.zero]
  · rfl

theorem updCell_norm (d3 : Bool) (F : Dir → Cell → HState α) (u : HState α) (c : Cell) :
    (updCell d3 F u c).norm d3 = updCell d3 F u c := by cases d3 <;> rfl

theorem gravitySource_norm (d3 : Bool) (S : Settings α) (dt r : α) (g : HState α)
    (F : Dir → Cell → HState α) (u : HState α) (c : Cell) :
    (gravitySource d3 S dt r g (updCell d3 F u c)).norm d3 =
      gravitySource d3 S dt r g (updCell d3 F u c) := by cases d3 <;> rfl

/-! ### locality -/

theorem slopesAt_congr {d3 : Bool} {S : Settings α} {junk : Dir → HState α} {P : Grid}
    {q q' : Cell → HState α} (hg : 2 ≤ P.ghostWidth) (h : ∀ c, P.box d3 c → q c = q' c) {c : Cell}
    (hk : d3 = false → c.k = 0) (hs : P.sloped d3 c) :
    slopesAt d3 S junk q c = slopesAt d3 S junk q' c := by
  have hx : Dir.ok d3 .x := Or.inr (by decide)
  have hy : Dir.ok d3 .y := Or.inr (by decide)
  have h0 := h _ (Grid.sloped_box (by omega) hk hs)
  have h1 := h _ (Grid.sloped_up_box hg hx hk hs)
  have h2 := h _ (Grid.sloped_down_box hg hx hk hs)
  have h3 := h _ (Grid.sloped_up_box hg hy hk hs)
  have h4 := h _ (Grid.sloped_down_box hg hy hk hs)
  cases d3
  · simp [slopesAt, upF, downF, h0, h1, h2, h3, h4]
  · have h5 := h _ (Grid.sloped_up_box (d := .z) hg (Or.inl rfl) hk hs)
    have h6 := h _ (Grid.sloped_down_box (d := .z) hg (Or.inl rfl) hk hs)
    simp [slopesAt, upF, downF, h0, h1, h2, h3, h4, h5, h6]

theorem fluxAt_congr {d3 : Bool} {S : Settings α} {J : Junk α} {grav : Bool} {dt : α} {P : Grid}
    {q q' g : Cell → HState α} (hg : 2 ≤ P.ghostWidth) (h : ∀ c, P.box d3 c → q c = q' c)
    {c : Cell} {d : Dir} (hd : d.ok d3) (hb : P.box d3 c) (hf : P.faces d3 c) :
    fluxAt d3 S J grav dt q g d c = fluxAt d3 S J grav dt q' g d c := by
  have hk : d3 = false → c.k = 0 := fun e => by subst e; exact Grid.box_k hb
  have hbd := Grid.sloped_box (by omega) (Cell.down_k hd hk) (Grid.faces_down (d := d) hf)
  unfold fluxAt
  rw [h _ hb, h _ hbd, slopesAt_congr hg h hk (Grid.faces_sloped hf),
    slopesAt_congr hg h (Cell.down_k hd hk) (Grid.faces_down hf)]

theorem storedAt_congr {d3 : Bool} {S : Settings α} {J : Junk α} {P : Grid}
    {q q' : Cell → HState α} (hg : 2 ≤ P.ghostWidth) (h : ∀ c, P.box d3 c → q c = q' c) {c : Cell}
    (hk : d3 = false → c.k = 0) (hs : P.sloped d3 c) (d : Dir) :
    storedAt d3 S J q d c = storedAt d3 S J q' d c := by
  unfold storedAt; rw [slopesAt_congr hg h hk hs]

theorem updCell_congr {d3 : Bool} {F F' : Dir → Cell → HState α} {P : Grid}
    (hg : 2 ≤ P.ghostWidth)
    (h : ∀ d c, d.ok d3 → P.box d3 c → P.faces d3 c → F d c = F' d c) {c : Cell}
    (hb : P.box d3 c) (hi : P.inner d3 c) (u : HState α) : updCell d3 F u c = updCell d3 F' u c := by
  have hx : Dir.ok d3 .x := Or.inr (by decide)
  have hy : Dir.ok d3 .y := Or.inr (by decide)
  have hk : d3 = false → c.k = 0 := fun e => by subst e; exact Grid.box_k hb
  have hup : ∀ d : Dir, d.ok d3 → F d (c.up d) = F' d (c.up d) := fun d hd =>
    h d _ hd (Grid.sloped_box (by omega) (Cell.up_k hd hk)
      (Grid.faces_sloped (Grid.inner_up hd hi))) (Grid.inner_up hd hi)
  have hc : ∀ d : Dir, d.ok d3 → F d c = F' d c := fun d hd => h d _ hd hb (Grid.inner_faces hi)
  cases d3
  · simp [updCell, hup _ hx, hup _ hy, hc _ hx, hc _ hy]
  · simp [updCell, hup _ hx, hup _ hy, hc _ hx, hc _ hy, hup .z (Or.inl rfl), hc .z (Or.inl rfl)]

/-- Result of the loops after the ghost fill (`m`) in terms of the filled state. -/
structure StepResult (d3 : Bool) (S : Settings α) (P : Grid) (J : Junk α) (impl : Int)
    (grav : Bool) (dt : α) (Uin Uout : Nat) (m m' : Addr → α) : Prop where
  inner : ∀ c, P.box d3 c → P.inner d3 c → field d3 m' Uout c =
    stepCell d3 S grav dt (stepFlux d3 S J impl grav dt (field d3 m Uin) (gfield d3 m))
      (field d3 m Uin) (gfield d3 m) c
  outer : ∀ c, P.box d3 c → ¬ P.inner d3 c → field d3 m' Uout c = field d3 m Uin c
  fluxes : impl = 0 → ∀ d c, d.ok d3 → P.box d3 c → P.faces d3 c → field d3 m' (aF impl d) c =
    stepFlux d3 S J impl grav dt (field d3 m Uin) (gfield d3 m) d c
  input : ∀ a, a.arr = Uin → m' a = m a
  gravity : ∀ a, a.arr = aG → m' a = m a
  frame : ∀ a, ¬ hydroDom d3 P impl grav a → m' a = m a

section whole

variable {d3 : Bool} {S : Settings α} {P : Grid} {J : Junk α} {impl : Int} {grav : Bool}
  {Uin Uout : Nat} {dt : α}

theorem fluxMem_field {d : Dir} (hd : d.ok d3) {m : Addr → α} {c : Cell}
    (hc : P.box d3 c ∧ P.faces d3 c) :
    field d3 (fluxMem d3 S P J grav dt m) (aF 0 d) c =
      fluxAt d3 S J grav dt (field d3 m aQ) (gfield d3 m) d c := by
  have n1 : ∀ d c, (fluxAt d3 S J grav dt (field d3 m aQ) (gfield d3 m) d c).norm d3 =
    fluxAt d3 S J grav dt (field d3 m aQ) (gfield d3 m) d c := fun d c => faceFlux_norm _ _ _ _ _ _ _
  have e1 : aF 0 .x ≠ aF 0 .y := by simp [aF]
  have e2 : aF 0 .x ≠ aF 0 .z := by simp [aF]
  have e3 : aF 0 .y ≠ aF 0 .z := by simp [aF]
  cases d3
  · simp only [fluxMem, Bool.false_eq_true, if_false]
    cases d
    · rw [field_setArr_ne (Or.inl e1), field_setArr_same hc, n1]
    · rw [field_setArr_same hc, n1]
    · simp [Dir.ok] at hd
  · simp only [fluxMem, if_true]
    cases d
    · rw [field_setArr_ne (Or.inl e2), field_setArr_ne (Or.inl e1), field_setArr_same hc, n1]
    · rw [field_setArr_ne (Or.inl e3), field_setArr_same hc, n1]
    · rw [field_setArr_same hc, n1]

theorem fluxMem_other {m : Addr → α} {a : Addr} (h : ∀ d, a.arr ≠ aF 0 d) :
    fluxMem d3 S P J grav dt m a = m a := by
  unfold fluxMem
  cases d3
  · simp only [Bool.false_eq_true, if_false]
    rw [setArr_ne (Or.inl (h _)), setArr_ne (Or.inl (h _))]
  · simp only [if_true]
    rw [setArr_ne (Or.inl (h _)), setArr_ne (Or.inl (h _)), setArr_ne (Or.inl (h _))]

theorem slopeMem_field {d : Dir} (hd : d.ok d3) {m : Addr → α} {c : Cell}
    (hc : P.box d3 c ∧ P.sloped d3 c) :
    field d3 (slopeMem d3 S P J m) (aS d) c = storedAt d3 S J (field d3 m aQ) d c := by
  have n1 := storedAt_norm d3 S J (field d3 m aQ)
  have e1 : aS .x ≠ aS .y := by simp [aS]
  have e2 : aS .x ≠ aS .z := by simp [aS]
  have e3 : aS .y ≠ aS .z := by simp [aS]
  cases d3
  · simp only [slopeMem, Bool.false_eq_true, if_false]
    cases d
    · rw [field_setArr_ne (Or.inl e1), field_setArr_same hc, n1]
    · rw [field_setArr_same hc, n1]
    · simp [Dir.ok] at hd
  · simp only [slopeMem, if_true]
    cases d
    · rw [field_setArr_ne (Or.inl e2), field_setArr_ne (Or.inl e1), field_setArr_same hc, n1]
    · rw [field_setArr_ne (Or.inl e3), field_setArr_same hc, n1]
    · rw [field_setArr_same hc, n1]

theorem slopeMem_other {m : Addr → α} {a : Addr} (h : ∀ d, a.arr ≠ aS d) :
    slopeMem d3 S P J m a = m a := by
  unfold slopeMem
  cases d3
  · simp only [Bool.false_eq_true, if_false]
    rw [setArr_ne (Or.inl (h _)), setArr_ne (Or.inl (h _))]
  · simp only [if_true]
    rw [setArr_ne (Or.inl (h _)), setArr_ne (Or.inl (h _)), setArr_ne (Or.inl (h _))]

theorem field_of_eq {m m' : Addr → α} {A : Nat} (h : ∀ a, a.arr = A → m' a = m a) :
    field d3 m' A = field d3 m A := by
  funext c
  have h' : ∀ v, m' (c.at A v) = m (c.at A v) := fun v => h _ rfl
  cases d3 <;> simp [field, h']

theorem gfield_of_eq {m m' : Addr → α} (h : ∀ a, a.arr = aG → m' a = m a) :
    gfield d3 m' = gfield d3 m := by
  funext c
  have h' : ∀ v, m' (c.at aG v) = m (c.at aG v) := fun v => h _ rfl
  cases d3 <;> simp [gfield, h']

/-- Where every loop of the step writes. -/
theorem Launch.Yields.frame {L : Launch Addr α} {dom : Addr → Prop} {m m' : Addr → α}
    (h : L.Yields dom m m') {a : Addr} (ha : ¬ dom a) : m' a = m a := by
  obtain ⟨T', hr, -⟩ := h.run
  have key : ∀ c : Cfg (Fin L.n) Addr α, Reach (L.start m) c → c.1 a = m a := by
    intro c hc
    induction hc with
    | refl => rfl
    | @tail b c' h1 h2 ih =>
      cases h2 with
      | read t ht => exact ih
      | @write m1 T t b' v k ht =>
        have hd : dom b' := h.inBounds m1 T t (.write, b') h1 (by rw [ht]; rfl)
        have : a ≠ b' := fun e => ha (e ▸ hd)
        rw [← ih]; exact Function.update_of_ne this _ _
      | @add m1 T t b' v k ht =>
        have hd : dom b' := h.inBounds m1 T t (.add, b') h1 (by rw [ht]; rfl)
        have : a ≠ b' := fun e => ha (e ▸ hd)
        rw [← ih]; exact Function.update_of_ne this _ _
  exact key _ hr

theorem YieldsAll.frame {Ls : List (Launch Addr α)} {dom : Addr → Prop} {m m' : Addr → α}
    (h : YieldsAll dom Ls m m') {a : Addr} (ha : ¬ dom a) : m' a = m a := by
  induction h with
  | nil m => rfl
  | cons h1 _ ih => rw [ih, h1.frame ha]

theorem godunov_eq : godunov_unsplit_impl d3 S P J impl grav dt Uin Uout =
    hydroBoundaries d3 P Uin ++ afterFill d3 S P J impl grav dt Uin Uout := rfl

/-- Gravity stage on top of an updated memory. -/
theorem gravity_stage (h : HydroOk d3 P impl Uin Uout) {m m5 : Addr → α}
    {F : Dir → Cell → HState α}
    (hin : ∀ a, a.arr = Uin → m5 a = m a) (hg : ∀ a, a.arr = aG → m5 a = m a)
    (hi : ∀ c, P.box d3 c → P.inner d3 c → field d3 m5 Uout c = updCell d3 F (field d3 m Uin c) c)
    (ho : ∀ c, P.box d3 c → ¬ P.inner d3 c → field d3 m5 Uout c = field d3 m Uin c) :
    ∃ m', YieldsAll (hydroDom d3 P impl grav)
        (if grav then [gravitySourceTerm d3 S P dt Uin Uout] else []) m5 m' ∧
      (∀ c, P.box d3 c → P.inner d3 c → field d3 m' Uout c =
        stepCell d3 S grav dt F (field d3 m Uin) (gfield d3 m) c) ∧
      (∀ c, P.box d3 c → ¬ P.inner d3 c → field d3 m' Uout c = field d3 m Uin c) ∧
      (∀ a, a.arr ≠ Uout → m' a = m5 a) := by
  cases grav
  · exact ⟨m5, .nil _, by simpa [stepCell] using hi, ho, fun _ _ => rfl⟩
  · refine ⟨_, .cons (gravitySourceTerm_yields h m5) (.nil _), ?_, ?_, ?_⟩
    · intro c hb hc
      rw [field_setArr_same ⟨hb, hc⟩, gravAt, hi c hb hc, field_of_eq hin, gfield_of_eq hg,
        gravitySource_norm]
      simp [stepCell]
    · intro c hb hc
      rw [field_setArr_ne (Or.inr (fun x => hc x.2)), ho c hb hc]
    · intro a ha
      exact setArr_ne (Or.inl ha)

theorem core0 (h : HydroOk d3 P 0 Uin Uout) (m : Addr → α) :
    ∃ m', YieldsAll (hydroDom d3 P 0 grav) (afterFill d3 S P J 0 grav dt Uin Uout) m m' ∧
      StepResult d3 S P J 0 grav dt Uin Uout m m' := by
  have hgw := h.gw
  have hin := h.in_lt
  have hout := h.out_lt
  have hF : ∀ d, aF 0 d ≠ Uout := fun d e => by have := aF_range 0 d; omega
  have hFi : ∀ d, Uin ≠ aF 0 d := fun d e => by have := aF_range 0 d; omega
  have hFo : ∀ d, Uout ≠ aF 0 d := fun d e => by have := aF_range 0 d; omega
  have hFG : ∀ d, aG ≠ aF 0 d := fun d e => by
    have := aF_range 0 d; simp only [aG] at e; omega
  have hQo : Uout ≠ aQ := by simp only [aQ]; omega
  have hQi : Uin ≠ aQ := by simp only [aQ]; omega
  have hGo : aG ≠ Uout := by simp only [aG]; omega
  have hQG : aG ≠ aQ := by simp [aQ, aG]
  set m2 := setArr d3 m Uout (P.box d3) (field d3 m Uin) with hm2
  have e2i : field d3 m2 Uin = field d3 m Uin := by
    funext c; exact field_setArr_ne (Or.inl h.ne)
  set m3 := setArr d3 m2 aQ (P.box d3) (fun c => (computePrimitives d3 S (field d3 m2 Uin c)).1)
    with hm3
  have e3q : ∀ c, P.box d3 c → field d3 m3 aQ c = primAt d3 S (field d3 m Uin) c := by
    intro c hc
    rw [hm3, field_setArr_same hc, prim_norm, e2i]; rfl
  have e3o : ∀ c, P.box d3 c → field d3 m3 Uout c = field d3 m Uin c := by
    intro c hc
    rw [hm3, field_setArr_ne (Or.inl hQo), hm2, field_setArr_same hc, field_norm]
  have a3 : ∀ a, a.arr ≠ Uout → a.arr ≠ aQ → m3 a = m a := by
    intro a h1 h2
    rw [hm3, setArr_ne (Or.inl h2), hm2, setArr_ne (Or.inl h1)]
  have e3g : gfield d3 m3 = gfield d3 m := gfield_of_eq fun a ha =>
    a3 a (ha ▸ hGo) (ha ▸ hQG)
  set m4 := fluxMem d3 S P J grav dt m3 with hm4
  have e4f : ∀ d c, d.ok d3 → P.box d3 c → P.faces d3 c → field d3 m4 (aF 0 d) c =
      stepFlux d3 S J 0 grav dt (field d3 m Uin) (gfield d3 m) d c := by
    intro d c hd hb hf
    rw [hm4, fluxMem_field hd ⟨hb, hf⟩, fluxAt_congr hgw e3q hd hb hf, e3g]
    simp [stepFlux]
  have a4 : ∀ a, (∀ d, a.arr ≠ aF 0 d) → m4 a = m3 a := fun a ha => fluxMem_other ha
  have e4o : field d3 m4 Uout = field d3 m3 Uout := field_of_eq fun a ha =>
    a4 a (fun d => ha ▸ hFo d)
  set m5 := setArr d3 m4 Uout (fun c => P.box d3 c ∧ P.inner d3 c) (updatedAt d3 m4 Uout (aF 0))
    with hm5
  have a5 : ∀ a, a.arr ≠ Uout → m5 a = m4 a := fun a ha => setArr_ne (Or.inl ha)
  have e5f : ∀ d c, d.ok d3 → P.box d3 c → P.faces d3 c → field d3 m5 (aF 0 d) c =
      stepFlux d3 S J 0 grav dt (field d3 m Uin) (gfield d3 m) d c := by
    intro d c hd hb hf
    rw [hm5, field_setArr_ne (Or.inl (hF d)), e4f d c hd hb hf]
  have e5i : ∀ c, P.box d3 c → P.inner d3 c → field d3 m5 Uout c =
      updCell d3 (stepFlux d3 S J 0 grav dt (field d3 m Uin) (gfield d3 m)) (field d3 m Uin c)
        c := by
    intro c hb hi
    rw [hm5, field_setArr_same ⟨hb, hi⟩]
    have : updatedAt d3 m4 Uout (aF 0) c = updCell d3 (fun d c => field d3 m4 (aF 0 d) c)
        (field d3 m4 Uout c) c := by cases d3 <;> rfl
    rw [this, updCell_norm, updCell_congr hgw e4f hb hi, e4o, e3o c hb]
  have e5o : ∀ c, P.box d3 c → ¬ P.inner d3 c → field d3 m5 Uout c = field d3 m Uin c := by
    intro c hb hi
    rw [hm5, field_setArr_ne (Or.inr fun x => hi x.2), e4o, e3o c hb]
  have all : ∀ a, (∀ d, a.arr ≠ aF 0 d) → a.arr ≠ Uout → a.arr ≠ aQ → m5 a = m a :=
    fun a h1 h2 h3 => by rw [a5 a h2, a4 a h1, a3 a h2 h3]
  obtain ⟨m', y, r1, r2, r3⟩ := gravity_stage (S := S) (dt := dt) (grav := grav) h (m := m)
    (m5 := m5)
    (fun a ha => all a (fun d => ha ▸ hFi d) (ha ▸ h.ne) (ha ▸ hQi))
    (fun a ha => all a (fun d => ha ▸ hFG d) (ha ▸ hGo) (ha ▸ hQG)) e5i e5o
  have Y : YieldsAll (hydroDom d3 P 0 grav) (afterFill d3 S P J 0 grav dt Uin Uout) m m' := by
    simp only [afterFill, if_true, List.cons_append, List.nil_append]
    exact .cons (deepCopy_yields h m) (.cons (convert_yields h m2)
      (.cons (computeAndStoreFluxes_yields h m3) (.cons (update_yields h m4) y)))
  refine ⟨m', Y, ⟨r1, r2, ?_, ?_, ?_, fun a ha => Y.frame ha⟩⟩
  · intro _ d c hd hb hf
    rw [← e5f d c hd hb hf]
    have := field_of_eq (d3 := d3) (m := m5) (m' := m') (A := aF 0 d) fun a ha => r3 a (ha ▸ hF d)
    rw [this]
  · intro a ha
    rw [r3 a (ha ▸ h.ne), all a (fun d => ha ▸ hFi d) (ha ▸ h.ne) (ha ▸ hQi)]
  · intro a ha
    rw [r3 a (ha ▸ hGo), all a (fun d => ha ▸ hFG d) (ha ▸ hGo) (ha ▸ hQG)]

theorem fluxAtSplit_congr {q q' g g' : Cell → HState α} {dq dq' : Cell → Dir → HState α}
    (hg : 2 ≤ P.ghostWidth) (h : ∀ c, P.box d3 c → q c = q' c) (hgg : g = g')
    (hdq : ∀ c, P.box d3 c → P.sloped d3 c → dq c = dq' c)
    {c : Cell} {d : Dir} (hd : d.ok d3) (hb : P.box d3 c) (hf : P.faces d3 c) :
    fluxAtSplit d3 S J grav dt q dq g d c = fluxAtSplit d3 S J grav dt q' dq' g' d c := by
  have hk : d3 = false → c.k = 0 := fun e => by subst e; exact Grid.box_k hb
  have hbd := Grid.sloped_box (by omega) (Cell.down_k hd hk) (Grid.faces_down (d := d) hf)
  unfold fluxAtSplit
  rw [h _ hb, h _ hbd, hdq _ hb (Grid.faces_sloped hf), hdq _ hbd (Grid.faces_down hf), hgg]

/-- One direction of the split version: fluxes, then update. -/
theorem split_stage (h : HydroOk d3 P 1 Uin Uout) {d : Dir} (hd : d.ok d3) {m m4 : Addr → α}
    {q g : Cell → HState α} {dq : Cell → Dir → HState α} {w : Cell → HState α}
    (hq : ∀ c, P.box d3 c → field d3 m4 aQ c = q c)
    (hs : ∀ c, P.box d3 c → P.sloped d3 c → storedSlopes d3 m4 c = dq c)
    (hG : gfield d3 m4 = g)
    (hi : ∀ c, P.box d3 c → P.inner d3 c → field d3 m4 Uout c = w c)
    (ho : ∀ c, P.box d3 c → ¬ P.inner d3 c → field d3 m4 Uout c = field d3 m Uin c)
    (hother : ∀ a, a.arr = Uin ∨ a.arr = aG → m4 a = m a) :
    ∃ m5, YieldsAll (hydroDom d3 P 1 grav)
        [computeTraceAndFluxes d3 S P J grav dt aQ (aF 1 d) d, updateDir d3 P Uout (aF 1 d) d]
        m4 m5 ∧
      (∀ c, P.box d3 c → field d3 m5 aQ c = q c) ∧
      (∀ c, P.box d3 c → P.sloped d3 c → storedSlopes d3 m5 c = dq c) ∧
      gfield d3 m5 = g ∧
      (∀ c, P.box d3 c → P.inner d3 c → field d3 m5 Uout c =
        (w c).plusMinus d3 (fluxAtSplit d3 S J grav dt q dq g d c)
          (fluxAtSplit d3 S J grav dt q dq g d (c.up d))) ∧
      (∀ c, P.box d3 c → ¬ P.inner d3 c → field d3 m5 Uout c = field d3 m Uin c) ∧
      (∀ a, a.arr = Uin ∨ a.arr = aG → m5 a = m a) := by
  have hgw := h.gw
  have hin := h.in_lt
  have hout := h.out_lt
  have hr := aF_range 1 d
  have hF : aF 1 d ≠ Uout := by omega
  have hQF : aQ ≠ aF 1 d := by simp only [aQ]; omega
  have hGF : aG ≠ aF 1 d := by simp only [aG]; omega
  have hSF : ∀ d', aS d' ≠ aF 1 d := fun d' => by have := aS_range d'; omega
  have hQo : aQ ≠ Uout := by simp only [aQ]; omega
  have hGo : aG ≠ Uout := by simp only [aG]; omega
  have hSo : ∀ d', aS d' ≠ Uout := fun d' => by have := aS_range d'; omega
  have hUF : Uout ≠ aF 1 d := by omega
  have hUiF : Uin ≠ aF 1 d := by omega
  set mF := setArr d3 m4 (aF 1 d) (fun c => P.box d3 c ∧ P.faces d3 c)
        (fluxAtSplit d3 S J grav dt (field d3 m4 aQ) (storedSlopes d3 m4) (gfield d3 m4) d) with hmF
  set m5 := setArr d3 mF Uout (fun c => P.box d3 c ∧ P.inner d3 c) (fun c =>
        (field d3 mF Uout c).plusMinus d3 (field d3 mF (aF 1 d) c)
          (field d3 mF (aF 1 d) (c.up d))) with hm5
  have a5 : ∀ a, a.arr ≠ Uout → a.arr ≠ aF 1 d → m5 a = m4 a := by
    intro a h1 h2
    rw [hm5, setArr_ne (Or.inl h1), hmF, setArr_ne (Or.inl h2)]
  have ef : ∀ c, P.box d3 c → P.faces d3 c → field d3 mF (aF 1 d) c =
      fluxAtSplit d3 S J grav dt q dq g d c := by
    intro c hb hf
    rw [hmF, field_setArr_same ⟨hb, hf⟩]
    have : ∀ c, (fluxAtSplit d3 S J grav dt (field d3 m4 aQ) (storedSlopes d3 m4) (gfield d3 m4)
      d c).norm d3 = fluxAtSplit d3 S J grav dt (field d3 m4 aQ) (storedSlopes d3 m4)
      (gfield d3 m4) d c := fun c => faceFlux_norm _ _ _ _ _ _ _
    rw [this, fluxAtSplit_congr hgw hq hG hs hd hb hf]
  have eo : field d3 mF Uout = field d3 m4 Uout := by
    funext c; exact field_setArr_ne (Or.inl hUF)
  refine ⟨m5, .cons (computeTraceAndFluxes_yields hd h m4) (.cons (updateDir_yields hd h mF)
    (.nil _)), ?_, ?_, ?_, ?_, ?_, ?_⟩
  · intro c hb
    rw [← hq c hb]
    rw [field_of_eq fun a ha => a5 a (ha ▸ hQo) (ha ▸ hQF)]
  · intro c hb hsl
    rw [← hs c hb hsl]
    simp only [storedSlopes]
    rw [field_of_eq fun a ha => a5 a (ha ▸ hSo .x) (ha ▸ hSF .x),
      field_of_eq fun a ha => a5 a (ha ▸ hSo .y) (ha ▸ hSF .y),
      field_of_eq fun a ha => a5 a (ha ▸ hSo .z) (ha ▸ hSF .z)]
  · rw [← hG]
    exact gfield_of_eq fun a ha => a5 a (ha ▸ hGo) (ha ▸ hGF)
  · intro c hb hic
    have hk : d3 = false → c.k = 0 := fun e => by subst e; exact Grid.box_k hb
    have hfu : P.faces d3 (c.up d) := Grid.inner_up hd hic
    have hbu : P.box d3 (c.up d) :=
        Grid.sloped_box (by omega) (Cell.up_k hd hk) (Grid.faces_sloped hfu)
    rw [hm5, field_setArr_same ⟨hb, hic⟩, plusMinus_norm, ef c hb (Grid.inner_faces hic),
      ef _ hbu hfu, eo, hi c hb hic]
  · intro c hb hic
    rw [hm5, field_setArr_ne (Or.inr fun x => hic x.2), eo, ho c hb hic]
  · rintro a (ha | ha)
    · rw [a5 a (ha ▸ h.ne) (ha ▸ hUiF), hother a (Or.inl ha)]
    · rw [a5 a (ha ▸ hGo) (ha ▸ hGF), hother a (Or.inr ha)]

theorem core1 (h : HydroOk d3 P 1 Uin Uout) (m : Addr → α) :
    ∃ m', YieldsAll (hydroDom d3 P 1 grav) (afterFill d3 S P J 1 grav dt Uin Uout) m m' ∧
      StepResult d3 S P J 1 grav dt Uin Uout m m' := by
  have hgw := h.gw
  have hin := h.in_lt
  have hout := h.out_lt
  have hx : Dir.ok d3 .x := Or.inr (by decide)
  have hy : Dir.ok d3 .y := Or.inr (by decide)
  have hQo : Uout ≠ aQ := by simp only [aQ]; omega
  have hQi : Uin ≠ aQ := by simp only [aQ]; omega
  have hGo : aG ≠ Uout := by simp only [aG]; omega
  have hQG : aG ≠ aQ := by simp [aQ, aG]
  have hSi : ∀ d, Uin ≠ aS d := fun d e => by have := aS_range d; omega
  have hSo : ∀ d, Uout ≠ aS d := fun d e => by have := aS_range d; omega
  have hSG : ∀ d, aG ≠ aS d := fun d e => by have := aS_range d; simp only [aG] at e; omega
  have hSQ : ∀ d, aQ ≠ aS d := fun d e => by have := aS_range d; simp only [aQ] at e; omega
  set m2 := setArr d3 m Uout (P.box d3) (field d3 m Uin) with hm2
  have e2i : field d3 m2 Uin = field d3 m Uin := by
    funext c; exact field_setArr_ne (Or.inl h.ne)
  set m3 := setArr d3 m2 aQ (P.box d3) (fun c => (computePrimitives d3 S (field d3 m2 Uin c)).1)
    with hm3
  have e3q : ∀ c, P.box d3 c → field d3 m3 aQ c = primAt d3 S (field d3 m Uin) c := by
    intro c hc
    rw [hm3, field_setArr_same hc, prim_norm, e2i]; rfl
  have e3o : ∀ c, P.box d3 c → field d3 m3 Uout c = field d3 m Uin c := by
    intro c hc
    rw [hm3, field_setArr_ne (Or.inl hQo), hm2, field_setArr_same hc, field_norm]
  have a3 : ∀ a, a.arr ≠ Uout → a.arr ≠ aQ → m3 a = m a := by
    intro a h1 h2
    rw [hm3, setArr_ne (Or.inl h2), hm2, setArr_ne (Or.inl h1)]
  set m4 := slopeMem d3 S P J m3 with hm4
  have a4 : ∀ a, (∀ d, a.arr ≠ aS d) → m4 a = m3 a := fun a ha => slopeMem_other ha
  have e4q : ∀ c, P.box d3 c → field d3 m4 aQ c = primAt d3 S (field d3 m Uin) c := by
    intro c hc
    rw [field_of_eq fun a ha => a4 a (fun d => ha ▸ hSQ d), e3q c hc]
  have e4o : ∀ c, P.box d3 c → field d3 m4 Uout c = field d3 m Uin c := by
    intro c hc
    rw [field_of_eq fun a ha => a4 a (fun d => ha ▸ hSo d), e3o c hc]
  have e4s : ∀ c, P.box d3 c → P.sloped d3 c → storedSlopes d3 m4 c =
      slopes1 d3 S J (primAt d3 S (field d3 m Uin)) c := by
    intro c hb hs
    have hk : d3 = false → c.k = 0 := fun e => by subst e; exact Grid.box_k hb
    have one : ∀ d : Dir, d.ok d3 → field d3 m4 (aS d) c =
        storedAt d3 S J (primAt d3 S (field d3 m Uin)) d c := by
      intro d hd
      rw [hm4, slopeMem_field hd ⟨hb, hs⟩, storedAt_congr hgw e3q hk hs]
    unfold storedSlopes slopes1
    rw [one _ hx, one _ hy]
    cases d3
    · rfl
    · rw [one .z (Or.inl rfl)]
  have all4 : ∀ a, a.arr = Uin ∨ a.arr = aG → m4 a = m a := by
    rintro a (ha | ha)
    · rw [a4 a (fun d => ha ▸ hSi d), a3 a (ha ▸ h.ne) (ha ▸ hQi)]
    · rw [a4 a (fun d => ha ▸ hSG d), a3 a (ha ▸ hGo) (ha ▸ hQG)]
  have e4g : gfield d3 m4 = gfield d3 m := gfield_of_eq fun a ha => all4 a (Or.inr ha)
  obtain ⟨m5, y5, q5, s5, g5, i5, o5, f5⟩ := split_stage (S := S) (J := J) (dt := dt) (grav := grav)
    h hx (m := m) e4q e4s e4g (fun c hb _ => e4o c hb) (fun c hb _ => e4o c hb) all4
  obtain ⟨m6, y6, q6, s6, g6, i6, o6, f6⟩ := split_stage (S := S) (J := J) (dt := dt) (grav := grav)
    h hy (m := m) q5 s5 g5 i5 o5 f5
  have zst : ∃ m7, YieldsAll (hydroDom d3 P 1 grav) (if d3 then
      [computeTraceAndFluxes d3 S P J grav dt aQ (aF 1 .z) .z,
       updateDir d3 P Uout (aF 1 .z) .z] else []) m6 m7 ∧
      (∀ c, P.box d3 c → P.inner d3 c → field d3 m7 Uout c =
        updCell d3 (stepFlux d3 S J 1 grav dt (field d3 m Uin) (gfield d3 m)) (field d3 m Uin c) c) ∧
      (∀ c, P.box d3 c → ¬ P.inner d3 c → field d3 m7 Uout c = field d3 m Uin c) ∧
      (∀ a, a.arr = Uin ∨ a.arr = aG → m7 a = m a) := by
    cases d3
    · exact ⟨m6, .nil _, i6, o6, f6⟩
    · obtain ⟨m7, y7, -, -, -, i7, o7, f7⟩ := split_stage (S := S) (J := J) (dt := dt)
        (grav := grav) h (Or.inl rfl : Dir.ok true .z) (m := m) q6 s6 g6 i6 o6 f6
      exact ⟨m7, y7, i7, o7, f7⟩
  obtain ⟨m7, y7, i7, o7, f7⟩ := zst
  obtain ⟨m', y, r1, r2, r3⟩ := gravity_stage (S := S) (dt := dt) (grav := grav) h (m := m)
    (m5 := m7) (fun a ha => f7 a (Or.inl ha)) (fun a ha => f7 a (Or.inr ha)) i7 o7
  have Y : YieldsAll (hydroDom d3 P 1 grav) (afterFill d3 S P J 1 grav dt Uin Uout) m m' := by
    have : afterFill d3 S P J 1 grav dt Uin Uout = [deepCopy d3 P Uout Uin,
        convertToPrimitives d3 S P Uin aQ, computeSlopes d3 S P J aQ] ++
        ([computeTraceAndFluxes d3 S P J grav dt aQ (aF 1 .x) .x, updateDir d3 P Uout (aF 1 .x) .x]
        ++ ([computeTraceAndFluxes d3 S P J grav dt aQ (aF 1 .y) .y,
          updateDir d3 P Uout (aF 1 .y) .y] ++ ((if d3 then
      [computeTraceAndFluxes d3 S P J grav dt aQ (aF 1 .z) .z,
       updateDir d3 P Uout (aF 1 .z) .z] else []) ++
       (if grav then [gravitySourceTerm d3 S P dt Uin Uout] else [])))) := by
      simp [afterFill]
    rw [this]
    exact YieldsAll.append (.cons (deepCopy_yields h m) (.cons (convert_yields h m2)
      (.cons (computeSlopes_yields h m3) (.nil _)))) (y5.append (y6.append (y7.append y)))
  refine ⟨m', Y, ⟨r1, r2, ?_, ?_, ?_, fun a ha => Y.frame ha⟩⟩
  · intro e; exact absurd e (by decide)
  · intro a ha
    rw [r3 a (ha ▸ h.ne), f7 a (Or.inl ha)]
  · intro a ha
    rw [r3 a (ha ▸ hGo), f7 a (Or.inr ha)]

/-- Both versions. -/
theorem core (h : HydroOk d3 P impl Uin Uout) (m : Addr → α) :
    ∃ m', YieldsAll (hydroDom d3 P impl grav) (afterFill d3 S P J impl grav dt Uin Uout) m m' ∧
      StepResult d3 S P J impl grav dt Uin Uout m m' := by
  rcases h.impl01 with rfl | rfl
  · exact core0 h m
  · exact core1 h m

end whole

end Verif
