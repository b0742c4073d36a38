import Verif.Lemmas.SdmGhosts
import Verif.Model.Wedge

/-! Helper lemmas: filling cells from numbers or other cells. -/

namespace Verif.Special

open Verif Sdm K Function Spec

variable {α : Type} [ROps α]

/-- The number a `Fill` stands for. -/
def Fill.eval (ad : Cell → Pt → ℕ → Addr) (m : Addr → α) (iv : ℕ) : Fill α → α
  | .value x => x
  | .copy c p => m (ad c p iv)
  | .scaled c p s => m (ad c p iv) * ROps.lit s

/-- Addresses of the variables at the points of the cells of array `U`. -/
structure Places (d3 : Bool) (P : Grid) (U : ℕ) (pts : List Pt) (ad : Cell → Pt → ℕ → Addr)
    (dom : Addr → Prop) : Prop where
  nodup : pts.Nodup
  inj : ∀ c p iv c' p' iv', p ∈ pts → p' ∈ pts → ad c p iv = ad c' p' iv' → c = c' ∧ p = p' ∧ iv = iv'
  arr : ∀ c p iv, (ad c p iv).arr = U
  cell : ∀ c p iv, (ad c p iv).cell = c
  dom : ∀ c p iv, P.box d3 c → p ∈ pts → iv < P.nbvar → dom (ad c p iv)

/-- The sources lie in the array, outside the set `Z` of the cells that are filled. -/
def Fill.Ok (d3 : Bool) (P : Grid) (pts : List Pt) (Z : Cell → Prop) : Fill α → Prop
  | .value _ => True
  | .copy c p => P.box d3 c ∧ ¬ Z c ∧ p ∈ pts
  | .scaled c p _ => P.box d3 c ∧ ¬ Z c ∧ p ∈ pts

variable {d3 : Bool} {P : Grid} {U : ℕ} {pts : List Pt} {ad : Cell → Pt → ℕ → Addr} {dom : Addr → Prop}

theorem fillCell_exec (hp : Places d3 P U pts ad dom) {Z : Cell → Prop} {src : Pt → ℕ → Fill α} {c : Cell}
    (hc : Z c) (hok : ∀ p ∈ pts, ∀ iv < P.nbvar, (src p iv).Ok d3 P pts Z) :
    (fillCell pts P.nbvar ad src c).FP
      (fun a => ∃ c' p iv, P.box d3 c' ∧ ¬ Z c' ∧ p ∈ pts ∧ iv < P.nbvar ∧ a = ad c' p iv)
      (fun a => ∃ p iv, p ∈ pts ∧ iv < P.nbvar ∧ a = ad c p iv) (fun _ => False) ∧
    ∀ (m : Addr → α) p iv, p ∈ pts → iv < P.nbvar →
      (fillCell pts P.nbvar ad src c).exec m (ad c p iv) = (src p iv).eval ad m iv := by
  have hfp : ∀ x ∈ pts ×ˢ List.range P.nbvar, ((match src x.1 x.2 with
    | .value v => K.store (ad c x.1 x.2) v
    | .copy c' p => do
      let y ← K.load (ad c' p x.2)
      K.store (ad c x.1 x.2) y
    | .scaled c' p s => do
      let y ← K.load (ad c' p x.2)
      K.store (ad c x.1 x.2) (y * ROps.lit s)) : K Addr α Unit).FP
      (fun a => ∃ c' p iv, P.box d3 c' ∧ ¬ Z c' ∧ p ∈ pts ∧ iv < P.nbvar ∧ a = ad c' p iv)
      (fun a => a = ad c x.1 x.2) fun _ => False := by
    rintro ⟨p, iv⟩ hx
    simp only [List.mem_product, List.mem_range] at hx
    have h := hok p hx.1 iv hx.2
    revert h
    cases src p iv with
    | value v => intro _; exact FP.store rfl
    | copy c' p' =>
      rintro ⟨h1, h2, h3⟩
      exact FP.bind (FP.load ⟨_, _, _, h1, h2, h3, hx.2, rfl⟩) fun _ => FP.store rfl
    | scaled c' p' s =>
      rintro ⟨h1, h2, h3⟩
      exact FP.bind (FP.load ⟨_, _, _, h1, h2, h3, hx.2, rfl⟩) fun _ => FP.store rfl
  refine ⟨forEach_fp fun x hx => (hfp x hx).mono (fun _ h => h) ?_ fun _ h => h, ?_⟩
  · rintro a rfl
    obtain ⟨h1, h2⟩ := List.mem_product.1 hx
    exact ⟨x.1, x.2, h1, List.mem_range.1 h2, rfl⟩
  · intro m p iv h1 h2
    refine (forEach_exec (i := (p, iv)) (nodup_prod hp.nodup List.nodup_range) hfp ?_ m
      (by simp [List.mem_product, h1, h2]) rfl).trans ?_
    rotate_left
    · cases src p iv with
      | value v => dsimp only; exact Function.update_self _ _ _
      | copy c' p' => 
        dsimp only
        refine (congrFun ((Reads.load (ad c' p' iv) m).exec_bind) _).trans ?_
        exact Function.update_self _ _ _
      | scaled c' p' s => 
        dsimp only
        refine (congrFun ((Reads.load (ad c' p' iv) m).exec_bind) _).trans ?_
        exact Function.update_self _ _ _
    · rintro ⟨p, iv⟩ hi ⟨p', iv'⟩ hj hij a rfl
      simp only [List.mem_product, List.mem_range] at hi hj
      refine ⟨?_, fun e => hij ?_⟩
      · rintro ⟨c', p', iv', _, h2, h3, _, e⟩
        exact h2 ((hp.inj _ _ _ _ _ _ hi.1 h3 e).1 ▸ hc)
      · obtain ⟨-, h3, h4⟩ := hp.inj _ _ _ _ _ _ hi.1 hj.1 e
        exact Prod.ext h3 h4

theorem face_fill (hp : Places d3 P U pts ad dom) (h : PosAll d3 P) {face : Face}
    (hf : d3 = true ∨ dirOf face ≠ .z) (src : Cell → Pt → ℕ → Fill α)
    (hok : ∀ c, region d3 P face c → ∀ p ∈ pts, ∀ iv < P.nbvar, (src c p iv).Ok d3 P pts (region d3 P face))
    (m : Addr → α) :
    ∃ m', (faceLaunch d3 P face fun c => fillCell pts P.nbvar ad (src c) c).Yields dom m m' ∧
      (∀ c p iv, region d3 P face c → p ∈ pts → iv < P.nbvar →
        m' (ad c p iv) = (src c p iv).eval ad m iv) ∧
      (∀ a, ¬ (a.arr = U ∧ region d3 P face a.cell) → m' a = m a) := by
  classical
  obtain ⟨dec, hdec⟩ := faceDec (α := α) h face hf
  let act : Cell → K Addr α Unit := fun c => fillCell pts P.nbvar ad (src c) c
  have hex := fun c (hc : region d3 P face c) => fillCell_exec (src := src c) hp hc (hok c hc)
  let m' : Addr → α := fun a => if a.arr = U ∧ region d3 P face a.cell then (act a.cell).exec m a else m a
  refine ⟨m', ?_, ?_, fun a ha => if_neg ha⟩
  · refine Launch.yields_of_footprint _ _
      (fun t a => region d3 P face (dec t) ∧ ∃ c' p iv, P.box d3 c' ∧ ¬ region d3 P face c' ∧
        p ∈ pts ∧ iv < P.nbvar ∧ a = ad c' p iv)
      (fun t a => region d3 P face (dec t) ∧ ∃ p iv, p ∈ pts ∧ iv < P.nbvar ∧ a = ad (dec t) p iv)
      m m' ?_ ?_ ?_ ?_ ?_ ?_ ?_
    · intro t _
      show (if d3 then faceBody3 P face act t else faceBody2 P face act t : K Addr α Unit).FP _ _ _
      by_cases hr : region d3 P face (dec t)
      · have := hdec.yes act t hr
        rw [this]
        exact (hex _ hr).1.mono (fun a ha => ⟨hr, ha⟩) (fun a ha => ⟨hr, ha⟩) fun _ h => h
      · have := hdec.no act t hr
        rw [this]
        exact FP.ret
    · rintro t a _ ⟨_, c', p, iv, h1, _, h3, h4, rfl⟩
      exact hp.dom _ _ _ h1 h3 h4
    · rintro t a _ ⟨h1, p, iv, h3, h4, rfl⟩
      exact hp.dom _ _ _ h1.1 h3 h4
    · rintro s t a _ _ hst ⟨h1, p, iv, h2, _, rfl⟩ ⟨h1', p', iv', h2', _, e⟩
      exact hst (hdec.inj s t h1 h1' (hp.inj _ _ _ _ _ _ h2 h2' e).1)
    · rintro s t a _ _ hst ⟨h1, p, iv, h2, _, rfl⟩ ⟨_, c', p', iv', _, h1', h2', _, e⟩
      exact h1' ((hp.inj _ _ _ _ _ _ h2 h2' e).1 ▸ h1)
    · rintro t a _ ⟨hr, p, iv, h2, h3, rfl⟩
      show m' _ = (if d3 then faceBody3 P face act t else faceBody2 P face act t : K Addr α Unit).exec m _
      have := hdec.yes act t hr
      rw [this]
      simp only [m', hp.arr, hp.cell]
      exact if_pos ⟨trivial, hr⟩
    · intro a ha
      simp only [m']
      split_ifs with hh
      · refine exec_frame (hex _ hh.2).1 m ?_ fun e => e
        rintro ⟨p, iv, h2, h3, e⟩
        obtain ⟨t, ht, et⟩ := hdec.surj _ hh.2
        exact ha t ht ⟨et ▸ hh.2, p, iv, h2, h3, et.symm ▸ e⟩
      · rfl
  · intro c p iv hr h1 h2
    simp only [m', hp.arr, hp.cell]
    rw [if_pos ⟨trivial, hr⟩]
    exact (hex c hr).2 m p iv h1 h2

theorem places_mood : Places d3 P U [onePt] (fun c _ iv => c.at U iv)
    (fun a => a.arr = U ∧ P.box d3 a.cell ∧ a.v < P.nbvar) where
  nodup := List.nodup_singleton _
  inj := by
    intro c p iv c' p' iv' h1 h2 h
    simp only [List.mem_singleton] at h1 h2
    simp only [Cell.at, Addr.mk.injEq] at h
    obtain ⟨-, h2', h3, h4, h5⟩ := h
    exact ⟨Cell.ext h2' h3 h4, h1.trans h2.symm, h5⟩
  arr _ _ _ := rfl
  cell _ _ _ := rfl
  dom _ _ _ h _ h2 := ⟨rfl, h, h2⟩

theorem places_sdm {M : Scheme α} {ti : Mood.TimeInt} (hU : solArray ti U) :
    Places M.d3 P U (cellPts M.d3 M.N) (M.sol U) (sdmDom M.d3 M.N P ti) where
  nodup := nodup_cellPts _ _
  inj _ _ _ _ _ _ h1 h2 h := (sol_inj (mem_cellPts.1 h1) (mem_cellPts.1 h2) h).2
  arr _ _ _ := rfl
  cell _ _ _ := rfl
  dom _ _ _ h h1 h2 := sol_dom hU h (mem_cellPts.1 h1) h2

/-- All cells, from numbers. -/
theorem cells_fill {lay : Layout} (hp : Places d3 P U pts ad dom) (hne : Mood.Nonempty3 d3 P)
    (val : Cell → Pt → ℕ → α) (m : Addr → α) :
    ∃ m', (Mood.rangeCells lay d3 P fun c =>
        fillCell pts P.nbvar ad (fun p iv => .value (val c p iv)) c).Yields dom m m' ∧
      (∀ c p iv, P.box d3 c → p ∈ pts → iv < P.nbvar → m' (ad c p iv) = val c p iv) ∧
      (∀ a, a.arr ≠ U → m' a = m a) := by
  let M : Scheme α := ⟨lay, d3, 0, fun _ => ROps.lit 0, fun _ => ROps.lit 0⟩
  have hex := fun c => fillCell_exec (src := fun p iv => Fill.value (val c p iv)) (c := c) hp
    (Z := fun _ => True) trivial fun _ _ _ _ => trivial
  have := cells_yields (M := M) (body := fun c => fillCell pts P.nbvar ad (fun p iv => .value (val c p iv)) c)
    (dom := dom) (out := fun A => A = U) Addr.cell hne m ?_
  · refine ⟨_, this, ?_, ?_⟩
    · intro c p iv hc h1 h2
      simp only [hp.cell]
      rw [if_pos hc]
      exact (hex c).2 m p iv h1 h2
    · intro a ha
      show (if _ then _ else _) = _
      split_ifs
      · refine exec_frame (hex _).1 m ?_ fun e => e
        rintro ⟨p, iv, _, _, e⟩
        exact ha (e ▸ hp.arr _ _ _)
      · rfl
  · intro c hc
    refine (hex c).1.mono ?_ ?_ fun _ h => h
    · rintro a ⟨_, _, _, _, h, _⟩
      exact absurd trivial h
    · rintro a ⟨p, iv, h1, h2, rfl⟩
      exact ⟨hp.dom _ _ _ hc h1 h2, hp.arr _ _ _, hp.cell _ _ _⟩

/-! ### All faces -/

/-- Where the sources may lie. -/
def Fill.From (pts : List Pt) (Q : Cell → Prop) : Fill α → Prop
  | .value _ => True
  | .copy c p => Q c ∧ p ∈ pts
  | .scaled c p _ => Q c ∧ p ∈ pts

theorem Fill.From.ok {pts : List Pt} {Q Z : Cell → Prop} {f : Fill α} (h : f.From pts Q)
    (hQ : ∀ c, Q c → P.box d3 c ∧ ¬ Z c) : f.Ok d3 P pts Z := by
  cases f
  · trivial
  · exact ⟨(hQ _ h.1).1, (hQ _ h.1).2, h.2⟩
  · exact ⟨(hQ _ h.1).1, (hQ _ h.1).2, h.2⟩

theorem Fill.From.eval {pts : List Pt} {Q : Cell → Prop} {f : Fill α} (h : f.From pts Q) {m m' : Addr → α}
    {iv : ℕ} (hm : ∀ c p, Q c → p ∈ pts → m (ad c p iv) = m' (ad c p iv)) :
    f.eval ad m iv = f.eval ad m' iv := by
  cases f
  · rfl
  · exact hm _ _ h.1 h.2
  · exact congrArg (· * _) (hm _ _ h.1 h.2)

/-- The cell is not in a ghost layer of direction `d`. -/
def inD (P : Grid) (d : Dir) (c : Cell) : Prop :=
  P.ghostWidth ≤ coord d c ∧ coord d c < interior P d + P.ghostWidth

/-- The source differs from the cell along `d` only. -/
def Along (P : Grid) (d : Dir) (c c' : Cell) : Prop := (∃ x, c' = setCoord d c x) ∧ inD P d c'

theorem Along.box {d : Dir} (h : PosAll d3 P) (hd : d3 = true ∨ d ≠ .z) {c c' : Cell} (hc : P.box d3 c)
    (ha : Along P d c c') : P.box d3 c' := by
  obtain ⟨⟨x, rfl⟩, h1, h2⟩ := ha
  rw [coord_setCoord] at h1 h2
  have := size_eq P d
  have := h.g
  exact box_setCoord hd hc (by omega) (by omega)

theorem coord_setCoord_ne {d e : Dir} (h : d ≠ e) (c : Cell) (x : Int) :
    coord e (setCoord d c x) = coord e c := by
  cases d <;> cases e <;> first | rfl | exact absurd rfl h

theorem inD_setCoord {d e : Dir} (h : d ≠ e) (c : Cell) (x : Int) :
    inD P e (setCoord d c x) ↔ inD P e c := by
  unfold inD; rw [coord_setCoord_ne h]

/-- The launch of one face. -/
def faceFill (d3 : Bool) (P : Grid) (pts : List Pt) (ad : Cell → Pt → ℕ → Addr)
    (src : Face → Cell → Pt → ℕ → Fill α) (f : Face) : Launch Addr α :=
  faceLaunch d3 P f fun c => fillCell pts P.nbvar ad (src f c) c

theorem axis_fill (hp : Places d3 P U pts ad dom) (h : PosAll d3 P) {d : Dir} (hd : d3 = true ∨ d ≠ .z)
    {src : Face → Cell → Pt → ℕ → Fill α}
    (hs : ∀ f, dirOf f = d → ∀ c, region d3 P f c → ∀ p ∈ pts, ∀ iv < P.nbvar,
      (src f c p iv).From pts (Along P d c)) (m : Addr → α) :
    ∃ m', YieldsAll dom [faceFill d3 P pts ad src (lowFace d), faceFill d3 P pts ad src (highFace d)] m m' ∧
      (∀ f, dirOf f = d → ∀ c p iv, region d3 P f c → p ∈ pts → iv < P.nbvar →
        m' (ad c p iv) = (src f c p iv).eval ad m' iv) ∧
      (∀ c p iv, inD P d c → m' (ad c p iv) = m (ad c p iv)) ∧ (∀ a, a.arr ≠ U → m' a = m a) := by
  have hlo : d3 = true ∨ dirOf (lowFace d) ≠ .z := by rwa [dirOf_low]
  have hhi : d3 = true ∨ dirOf (highFace d) ≠ .z := by rwa [dirOf_high]
  have hok : ∀ f, dirOf f = d → ∀ c, region d3 P f c → ∀ p ∈ pts, ∀ iv < P.nbvar,
      (src f c p iv).Ok d3 P pts (region d3 P f) := by
    rintro f rfl c hc p h1 iv h2
    refine (hs f rfl c hc p h1 iv h2).ok fun c' hc' => ⟨hc'.box h hd hc.1, fun hr => ?_⟩
    obtain ⟨_, h3, h4⟩ := hc'
    have := hr.2
    split_ifs at this <;> omega
  obtain ⟨m1, y1, v1, f1⟩ := face_fill hp h hlo (src (lowFace d)) (hok _ (dirOf_low d)) m
  obtain ⟨m2, y2, v2, f2⟩ := face_fill hp h hhi (src (highFace d)) (hok _ (dirOf_high d)) m1
  have hin1 : ∀ c p iv, inD P d c → m1 (ad c p iv) = m (ad c p iv) := by
    intro c p iv hc
    refine f1 _ fun e => ?_
    have := e.2.2
    rw [hp.cell, isLow_low, dirOf_low, if_pos rfl] at this
    exact absurd this (by have := hc.1; omega)
  have hin2 : ∀ c p iv, inD P d c → m2 (ad c p iv) = m1 (ad c p iv) := by
    intro c p iv hc
    refine f2 _ fun e => ?_
    have := e.2.2
    rw [hp.cell, isLow_high, dirOf_high, if_neg (by simp)] at this
    exact absurd this (by have := hc.2; omega)
  refine ⟨m2, .cons y1 (.cons y2 (.nil _)), ?_, fun c p iv hc => (hin2 c p iv hc).trans (hin1 c p iv hc),
    fun a ha => (f2 a fun e => ha e.1).trans (f1 a fun e => ha e.1)⟩
  intro f hf c p iv hc h1 h2
  have hfrom := hs f hf c hc p h1 iv h2
  have hcase : f = lowFace d ∨ f = highFace d := by subst hf; cases f <;> simp [lowFace, highFace, dirOf]
  rcases hcase with rfl | rfl
  · have hnot : ¬ region d3 P (highFace d) c := by
      intro e
      have e1 := hc.2
      have e2 := e.2
      rw [isLow_low, dirOf_low, if_pos rfl] at e1
      rw [isLow_high, dirOf_high, if_neg (by simp)] at e2
      have := h.n d hd
      omega
    rw [f2 _ fun e => hnot (hp.cell c p iv ▸ e.2), v1 c p iv hc h1 h2]
    exact hfrom.eval fun c' p' hc' _ => ((hin2 c' p' iv hc'.2).trans (hin1 c' p' iv hc'.2)).symm
  · rw [v2 c p iv hc h1 h2]
    exact hfrom.eval fun c' p' hc' _ => (hin2 c' p' iv hc'.2).symm

/-- The directions filled after `d`. -/
def After (d3 : Bool) (d e : Dir) : Prop :=
  match d, e with
  | .x, .y => True
  | .x, .z => d3 = true
  | .y, .z => d3 = true
  | _, _ => False

/-- The faces in the order of the solvers. -/
def faces (d3 : Bool) : List Face :=
  [Face.xmin, .xmax, .ymin, .ymax] ++ if d3 then [Face.zmin, .zmax] else []

theorem YieldsAll.append {dom : Addr → Prop} {L L' : List (Launch Addr α)} {m m' m'' : Addr → α}
    (h : YieldsAll dom L m m') (h' : YieldsAll dom L' m' m'') : YieldsAll dom (L ++ L') m m'' := by
  induction h with
  | nil _ => exact h'
  | cons y _ ih => exact .cons y (ih h')

theorem ghost_fill (hp : Places d3 P U pts ad dom) (h : PosAll d3 P)
    {src : Face → Cell → Pt → ℕ → Fill α}
    (hs : ∀ f, (d3 = true ∨ dirOf f ≠ .z) → ∀ c, region d3 P f c → ∀ p ∈ pts, ∀ iv < P.nbvar,
      (src f c p iv).From pts (Along P (dirOf f) c)) (m : Addr → α) :
    ∃ m', YieldsAll dom ((faces d3).map (faceFill d3 P pts ad src)) m m' ∧
      (∀ f, (d3 = true ∨ dirOf f ≠ .z) → ∀ c p iv, region d3 P f c → (∀ e, After d3 (dirOf f) e → inD P e c) →
        p ∈ pts → iv < P.nbvar → m' (ad c p iv) = (src f c p iv).eval ad m' iv) ∧
      (∀ c p iv, (∀ d, (d3 = true ∨ d ≠ .z) → inD P d c) → m' (ad c p iv) = m (ad c p iv)) ∧
      (∀ a, a.arr ≠ U → m' a = m a) := by
  have hx : d3 = true ∨ Dir.x ≠ .z := .inr (by decide)
  have hy : d3 = true ∨ Dir.y ≠ .z := .inr (by decide)
  have hs' : ∀ {d}, (d3 = true ∨ d ≠ .z) → ∀ f, dirOf f = d → ∀ c, region d3 P f c → ∀ p ∈ pts,
      ∀ iv < P.nbvar, (src f c p iv).From pts (Along P d c) := by
    rintro d hd f rfl; exact hs f hd
  obtain ⟨m1, y1, v1, i1, o1⟩ := axis_fill hp h hx (hs' hx) m
  obtain ⟨m2, y2, v2, i2, o2⟩ := axis_fill hp h hy (hs' hy) m1
  cases d3 with
  | false =>
    refine ⟨m2, YieldsAll.append y1 y2, ?_, fun c p iv hc => (i2 c p iv (hc _ hy)).trans (i1 c p iv (hc _ hx)),
      fun a ha => (o2 a ha).trans (o1 a ha)⟩
    intro f hf c p iv hc hl h1 h2
    have hfrom := hs f hf c hc p h1 iv h2
    cases hd : dirOf f with
    | x =>
      rw [hd] at hl hfrom
      rw [i2 c p iv (hl .y trivial), v1 f hd c p iv hc h1 h2]
      refine hfrom.eval fun c' p' hc' _ => (i2 c' p' iv ?_).symm
      obtain ⟨⟨x, rfl⟩, _⟩ := hc'
      exact (inD_setCoord (by decide) _ _).2 (hl .y trivial)
    | y => exact v2 f hd c p iv hc h1 h2
    | z => simp [hd] at hf
  | true =>
    have hz : true = true ∨ Dir.z ≠ .z := .inl rfl
    obtain ⟨m3, y3, v3, i3, o3⟩ := axis_fill hp h hz (hs' hz) m2
    refine ⟨m3, YieldsAll.append (YieldsAll.append y1 y2) y3, ?_,
      fun c p iv hc => (i3 c p iv (hc _ hz)).trans ((i2 c p iv (hc _ hy)).trans (i1 c p iv (hc _ hx))),
      fun a ha => (o3 a ha).trans ((o2 a ha).trans (o1 a ha))⟩
    intro f hf c p iv hc hl h1 h2
    have hfrom := hs f hf c hc p h1 iv h2
    cases hd : dirOf f with
    | x =>
      rw [hd] at hl hfrom
      rw [i3 c p iv (hl .z rfl), i2 c p iv (hl .y trivial), v1 f hd c p iv hc h1 h2]
      refine hfrom.eval fun c' p' hc' _ => ?_
      obtain ⟨⟨x, rfl⟩, _⟩ := hc'
      rw [i3 _ p' iv ((inD_setCoord (by decide) _ _).2 (hl .z rfl)),
        i2 _ p' iv ((inD_setCoord (by decide) _ _).2 (hl .y trivial))]
    | y =>
      rw [hd] at hl hfrom
      rw [i3 c p iv (hl .z rfl), v2 f hd c p iv hc h1 h2]
      refine hfrom.eval fun c' p' hc' _ => ?_
      obtain ⟨⟨x, rfl⟩, _⟩ := hc'
      rw [i3 _ p' iv ((inD_setCoord (by decide) _ _).2 (hl .z rfl))]
    | z => exact v3 f hd c p iv hc h1 h2

end Verif.Special
