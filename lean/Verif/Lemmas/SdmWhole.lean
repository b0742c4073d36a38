import Verif.Lemmas.SdmGhosts

/-! Helper lemmas: whole stages and steps of the spectral difference solver. -/

namespace Verif.Sdm

open Verif K Function Spec ROps

variable {α : Type} [ROps α]

theorem isNormal_eq (d : Dir) (iv : ℕ) : isNormal d iv = normalTo (axis d) false iv := by
  cases d
  · exact isNormalX_eq false iv
  · exact isNormalY_eq false iv
  · exact isNormalZ_eq false iv

section
variable {M : Scheme α} {P : Grid} {B : Sides}

theorem Setup.wide (h : Setup M P B) : ∀ d, M.d3 = true ∨ d ≠ .z → P.ghostWidth ≤ interior P d := by
  intro d hd
  cases d
  · exact h.nx
  · exact h.ny
  · rcases hd with hd | hd
    · exact h.nz hd
    · exact absurd rfl hd

theorem Setup.ready (h : Setup M P B) : Ready M P := by
  have hg := h.gw
  have hx := h.nx
  have hy := h.ny
  refine ⟨⟨?_, ?_, fun h3 => ?_⟩, h.nv⟩
  · rw [P.isize_eq]; omega
  · rw [P.jsize_eq]; omega
  · have := h.nz h3
    rw [P.ksize_eq]; omega

theorem Setup.low (h : Setup M P B) {d : Dir} (hd : M.d3 = true ∨ d ≠ .z) :
    boundaryType P (lowFace d) = (lowBC B d).code := by
  cases d
  · exact h.xmin
  · exact h.ymin
  · rcases hd with hd | hd
    · exact h.zmin hd
    · exact absurd rfl hd

theorem Setup.high (h : Setup M P B) {d : Dir} (hd : M.d3 = true ∨ d ≠ .z) :
    boundaryType P (highFace d) = (highBC B d).code := by
  cases d
  · exact h.xmax
  · exact h.ymax
  · rcases hd with hd | hd
    · exact h.zmax hd
    · exact absurd rfl hd

/-- One axis. -/
theorem axis_extend (h : Setup M P B) {d : Dir} (hd : M.d3 = true ∨ d ≠ .z) {U : ℕ} {ti : Mood.TimeInt}
    (hU : solArray ti U) (m : Addr → α) :
    ∃ m', YieldsAll (sdmDom M.d3 M.N P ti)
        [makeBoundary M P U (lowFace d), makeBoundary M P U (highFace d)] m m' ∧
      (∀ c p iv, P.box M.d3 c → IsSolPt M.d3 M.N p → iv < hydroVars M.d3 →
        valsOf M m' U c p iv = extendAlong M.N P B d (valsOf M m U) c p iv) ∧
      (∀ a, a.arr ≠ U → m' a = m a) := by
  have hg := h.gw
  obtain ⟨m', y, e, f⟩ := axis_yields (M := M) hd (by omega) h.wide (h.low hd) (h.high hd) hU m
  refine ⟨m', y, fun c p iv hc hp hv => ?_, f⟩
  unfold valsOf
  rw [e c p iv hc hp (h.nv ▸ hv), isNormal_eq]
  rfl

/-- Where `extendAlong` looks. -/
theorem source_box (h : Setup M P B) {d : Dir} (hd : M.d3 = true ∨ d ≠ .z) {c : Cell}
    (hc : P.box M.d3 c) :
    P.box M.d3 (setCoord d c
      (source (interior P d) P.ghostWidth (lowBC B d) (highBC B d) (coord d c))) ∧
    P.ghostWidth ≤ source (interior P d) P.ghostWidth (lowBC B d) (highBC B d) (coord d c) ∧
    source (interior P d) P.ghostWidth (lowBC B d) (highBC B d) (coord d c) <
      interior P d + P.ghostWidth := by
  have hg := h.gw
  have hcc := box_coord hd hc
  have hs := size_eq P d
  have := source_range (lo := lowBC B d) (hi := highBC B d) (by omega) (h.wide d hd) hcc.1
    (c := coord d c) (by omega)
  exact ⟨box_setCoord hd hc (by omega) (by omega), this⟩

omit [ROps α] in
theorem crossIdx_sol [ROps α] {M : Scheme α} {d : Dir} (hd : M.d3 = true ∨ d ≠ .z) {p : Pt} {n g c : Int}
    {lo hi : BC} (hp : IsSolPt M.d3 M.N p) :
    IsSolPt M.d3 M.N (p.set d (crossIdx M.N n g lo hi c (p.get d))) := by
  have := hp.get_lt hd
  refine hp.set hd ?_
  unfold crossIdx
  split_ifs <;> omega

theorem extendAlong_congr (h : Setup M P B) {d : Dir} (hd : M.d3 = true ∨ d ≠ .z) {u v : Vals α}
    {c : Cell} (huv : ∀ p iv, IsSolPt M.d3 M.N p → iv < hydroVars M.d3 →
      u (setCoord d c (source (interior P d) P.ghostWidth (lowBC B d) (highBC B d) (coord d c))) p iv =
      v (setCoord d c (source (interior P d) P.ghostWidth (lowBC B d) (highBC B d) (coord d c))) p iv)
    {p : Pt} {iv : ℕ} (hp : IsSolPt M.d3 M.N p) (hv : iv < hydroVars M.d3) :
    extendAlong M.N P B d u c p iv = extendAlong M.N P B d v c p iv := by
  unfold extendAlong
  rw [huv _ _ (crossIdx_sol hd hp) hv]

theorem boundaries_yields (h : Setup M P B) {U : ℕ} {ti : Mood.TimeInt} (hU : solArray ti U)
    (m : Addr → α) :
    ∃ m', YieldsAll (sdmDom M.d3 M.N P ti) (makeBoundaries M P U) m m' ∧
      (∀ c p iv, P.box M.d3 c → IsSolPt M.d3 M.N p → iv < hydroVars M.d3 →
        valsOf M m' U c p iv = extended M.d3 M.N P B (valsOf M m U) c p iv) ∧
      (∀ a, a.arr ≠ U → m' a = m a) := by
  have hdx : M.d3 = true ∨ Dir.x ≠ .z := .inr (by decide)
  have hdy : M.d3 = true ∨ Dir.y ≠ .z := .inr (by decide)
  obtain ⟨m1, y1, e1, f1⟩ := axis_extend h hdx hU m
  obtain ⟨m2, y2, e2, f2⟩ := axis_extend h hdy hU m1
  have e2' : ∀ c p iv, P.box M.d3 c → IsSolPt M.d3 M.N p → iv < hydroVars M.d3 →
      valsOf M m2 U c p iv = extendAlong M.N P B .y (extendAlong M.N P B .x (valsOf M m U)) c p iv := by
    intro c p iv hc hp hv
    rw [e2 c p iv hc hp hv]
    exact extendAlong_congr h hdy (fun p iv hp hv => e1 _ p iv (source_box h hdy hc).1 hp hv) hp hv
  unfold makeBoundaries extended
  cases h3 : M.d3
  · rw [h3] at e2' y1 y2
    refine ⟨m2, ?_, ?_, fun a ha => by rw [f2 a ha, f1 a ha]⟩
    · simp only [Bool.false_eq_true, if_false, List.append_nil]
      exact YieldsAll.append y1 y2
    · simp only [Bool.false_eq_true, if_false]; exact e2'
  · have hdz : M.d3 = true ∨ Dir.z ≠ .z := .inl h3
    obtain ⟨m3, y3, e3, f3⟩ := axis_extend h hdz hU m2
    refine ⟨m3, ?_, ?_, fun a ha => by rw [f3 a ha, f2 a ha, f1 a ha]⟩
    · simp only [if_true]
      rw [h3] at y1 y2 y3
      exact YieldsAll.append (YieldsAll.append y1 y2) y3
    · simp only [if_true]
      intro c p iv hc hp hv
      rw [← h3] at hc hp hv
      rw [e3 c p iv hc hp hv]
      exact extendAlong_congr h hdz (fun p iv hp hv => e2' _ p iv (source_box h hdz hc).1 hp hv) hp hv

/-! ### Only the interior matters -/

theorem inner_coord {d3 : Bool} {c : Cell} {d : Dir} (hd : d3 = true ∨ d ≠ .z) (h : P.inner d3 c) :
    P.ghostWidth ≤ coord d c ∧ coord d c < interior P d + P.ghostWidth := by
  obtain ⟨h1, h2, h3, h4, h5⟩ := h
  have e1 := P.isize_eq
  have e2 := P.jsize_eq
  have e3 := P.ksize_eq
  cases d
  · exact ⟨h4, by simp only [coord, interior]; omega⟩
  · exact ⟨h2, by simp only [coord, interior]; omega⟩
  · rcases hd with hd | hd
    · have := h1 hd
      exact ⟨this.1, by simp only [coord, interior]; omega⟩
    · exact absurd rfl hd

theorem extendAlong_inner {d : Dir} {u : Vals α} {c : Cell} {p : Pt} {iv : ℕ}
    (hc : P.ghostWidth ≤ coord d c ∧ coord d c < interior P d + P.ghostWidth) {N : ℕ} :
    extendAlong N P B d u c p iv = u c p iv := by
  have h1 : ¬ coord d c < P.ghostWidth := by omega
  have h2 : ¬ interior P d + P.ghostWidth ≤ coord d c := by omega
  have hb : behindWall (interior P d) P.ghostWidth (lowBC B d) (highBC B d) (coord d c) = false := by
    simp [behindWall, h1, h2]
  unfold extendAlong crossPt crossIdx
  rw [source_interior hc.1 hc.2, hb]
  simp

theorem extended_inner {d3 : Bool} {u : Vals α} {c : Cell} {p : Pt} {iv : ℕ} (hc : P.inner d3 c) {N : ℕ} :
    extended d3 N P B u c p iv = u c p iv := by
  have hx := inner_coord (d := .x) (.inr (by decide)) hc
  have hy := inner_coord (d := .y) (.inr (by decide)) hc
  unfold extended
  cases d3
  · simp only [Bool.false_eq_true, if_false]
    rw [extendAlong_inner hy, extendAlong_inner hx]
  · have hz := inner_coord (d := .z) (.inl rfl) hc
    simp only [if_true]
    rw [extendAlong_inner hz, extendAlong_inner hy, extendAlong_inner hx]

theorem coord_set_ne {d e : Dir} (h : d ≠ e) (c : Cell) (x : Int) :
    coord d (setCoord e c x) = coord d c := by
  cases d <;> cases e <;> first | rfl | exact absurd rfl h

theorem inner_of_coord {d3 : Bool} {c : Cell}
    (h : ∀ d, d3 = true ∨ d ≠ .z → P.ghostWidth ≤ coord d c ∧ coord d c < interior P d + P.ghostWidth) :
    P.inner d3 c := by
  have e1 := P.isize_eq
  have e2 := P.jsize_eq
  have e3 := P.ksize_eq
  have hx := h .x (.inr (by decide))
  have hy := h .y (.inr (by decide))
  simp only [coord, interior] at hx hy
  refine ⟨fun h3 => ?_, ?_, ?_, ?_, ?_⟩
  · have hz := h .z (.inl h3)
    simp only [coord, interior] at hz
    omega
  all_goals omega

theorem extended_congr (h : Setup M P B) {u v : Vals α} (huv : SameInside M.d3 M.N P u v) {c : Cell}
    {p : Pt} {iv : ℕ} (hc : P.box M.d3 c) (hp : IsSolPt M.d3 M.N p) (hv : iv < hydroVars M.d3) :
    extended M.d3 M.N P B u c p iv = extended M.d3 M.N P B v c p iv := by
  have hdx : M.d3 = true ∨ Dir.x ≠ .z := .inr (by decide)
  have hdy : M.d3 = true ∨ Dir.y ≠ .z := .inr (by decide)
  -- in cells that are interior along z, after the first two axes
  have key : ∀ c, P.box M.d3 c → (M.d3 = true → P.ghostWidth ≤ coord .z c ∧
        coord .z c < interior P .z + P.ghostWidth) → ∀ p iv, IsSolPt M.d3 M.N p → iv < hydroVars M.d3 →
      extendAlong M.N P B .y (extendAlong M.N P B .x u) c p iv =
      extendAlong M.N P B .y (extendAlong M.N P B .x v) c p iv := by
    intro c hc hz p iv hp hv
    refine extendAlong_congr h hdy (fun p iv hp hv => ?_) hp hv
    have hby := source_box h hdy hc
    refine extendAlong_congr h hdx (fun p iv hp hv => ?_) hp hv
    have hbx := source_box h hdx hby.1
    refine huv _ p iv hbx.1 (inner_of_coord fun d hd => ?_) hp hv
    cases d
    · rw [coord_setCoord]; exact hbx.2
    · rw [coord_set_ne (by decide), coord_setCoord]; exact hby.2
    · rw [coord_set_ne (by decide), coord_set_ne (by decide)]
      rcases hd with hd | hd
      · exact hz hd
      · exact absurd rfl hd
  unfold extended
  cases h3 : M.d3
  · simp only [Bool.false_eq_true, if_false]
    exact key c hc (fun h => by rw [h3] at h; cases h) p iv hp hv
  · have hdz : M.d3 = true ∨ Dir.z ≠ .z := .inl h3
    simp only [if_true]
    refine extendAlong_congr h hdz (fun p iv hp hv => ?_) hp hv
    have hbz := source_box h hdz hc
    exact key _ hbz.1 (fun _ => by rw [coord_setCoord]; exact hbz.2) p iv hp hv

/-! ### Stages -/

/-- The divergence computed from the values `u` in the interior. -/
def rhs (M : Scheme α) (S : Settings α) (P : Grid) (B : Sides) (junk : Dir → Cell → Pt → HState α)
    (u : Vals α) : Vals α := divAll M S P junk (extended M.d3 M.N P B u)

theorem divAlong_congr {S : Settings α} {junk : Dir → Cell → Pt → HState α} {d : Dir}
    (hd : M.d3 = true ∨ d ≠ .z) {u v : Vals α}
    (huv : ∀ c p iv, P.box M.d3 c → IsSolPt M.d3 M.N p → iv < hydroVars M.d3 → u c p iv = v c p iv)
    {c : Cell} {p : Pt} (iv : ℕ) (hc : P.box M.d3 c) (hp : IsSolPt M.d3 M.N p) :
    divAlong M S P junk u d c p iv = divAlong M S P junk v d c p iv := by
  have hN : 0 < M.N := by have := hp.1; omega
  unfold divAlong
  refine flux2solDerivativeVector_congr fun k hk => ?_
  congr 1
  refine fluxFrom_congr hd hN (fun c p hc hp => ?_) hc (hp.flux hd hk)
  unfold interpState
  have key : ∀ f g : ℕ → α, (∀ iv, iv < hydroVars M.d3 → f iv = g iv) →
      Mood.ofComps M.d3 f = Mood.ofComps M.d3 g := by
    intro f g hfg
    unfold Mood.ofComps
    cases h3 : M.d3 <;> rw [h3] at hfg <;> simp only [Bool.false_eq_true, if_false, if_true] <;>
      congr 1 <;> exact hfg _ (by decide)
  refine key _ _ fun iv hv => ?_
  congr 1
  unfold sol2fluxVector
  exact sumIf_congr fun k hk => by beta_reduce; rw [huv c _ iv hc (hp.sol hd hk) hv]

theorem divAll_congr {S : Settings α} {junk : Dir → Cell → Pt → HState α} {u v : Vals α}
    (huv : ∀ c p iv, P.box M.d3 c → IsSolPt M.d3 M.N p → iv < hydroVars M.d3 → u c p iv = v c p iv)
    {c : Cell} {p : Pt} (iv : ℕ) (hc : P.box M.d3 c) (hp : IsSolPt M.d3 M.N p) :
    divAll M S P junk u c p iv = divAll M S P junk v c p iv := by
  unfold divAll
  rw [divAlong_congr (.inr (by decide)) huv iv hc hp, divAlong_congr (.inr (by decide)) huv iv hc hp]
  cases h3 : M.d3
  · rfl
  · simp only [if_true]
    rw [divAlong_congr (.inl h3) huv iv hc hp]

theorem rhs_congr (h : Setup M P B) {S : Settings α} {junk : Dir → Cell → Pt → HState α} {u v : Vals α}
    (huv : SameInside M.d3 M.N P u v) {c : Cell} {p : Pt} (iv : ℕ) (hc : P.box M.d3 c)
    (hp : IsSolPt M.d3 M.N p) : rhs M S P B junk u c p iv = rhs M S P B junk v c p iv :=
  divAll_congr (fun _ _ _ hc hp hv => extended_congr h huv hc hp hv) iv hc hp

/-- Ghost fill and divergence. -/
theorem stage_yields (h : Setup M P B) {S : Settings α} (hN : 0 < M.N) {ti : Mood.TimeInt} {A : ℕ}
    (hA : solArray ti A) (hAd : A ≠ sDiv) (junk : Dir → Cell → Pt → HState α) (m : Addr → α) :
    ∃ m', YieldsAll (sdmDom M.d3 M.N P ti) (makeBoundaries M P A ++ divergence M S P junk A) m m' ∧
      SameInside M.d3 M.N P (valsOf M m' sDiv) (rhs M S P B junk (valsOf M m A)) ∧
      (∀ A', A' ≠ sDiv → A' ≠ sF → SameInside M.d3 M.N P (valsOf M m' A') (valsOf M m A')) := by
  obtain ⟨m1, y1, e1, f1⟩ := boundaries_yields h hA m
  obtain ⟨m2, y2, e2, f2⟩ := divergence_yields (S := S) h.ready hN hA hAd junk m1
  refine ⟨m2, YieldsAll.append y1 y2, fun c p iv hc _ hp hv => ?_, fun A' h1 h2 c p iv hc hi hp hv => ?_⟩
  · show m2 _ = _
    rw [e2 c p iv hc hp hv]
    exact divAll_congr e1 iv hc hp
  · show m2 _ = m _
    rw [f2 _ h1 h2]
    by_cases hAA : A' = A
    · subst hAA
      have := e1 c p iv hc hp hv
      rw [extended_inner hi] at this
      exact this
    · exact f1 _ hAA

/-- The update. -/
theorem update_yields (h : Setup M P B) {ti : Mood.TimeInt} {out A0 A1 : ℕ} (ho : solArray ti out)
    (h0 : solArray ti A0) (h1 : solArray ti A1) (dt c0 c1 c2 : α) (m : Addr → α) :
    ∃ m', YieldsAll (sdmDom M.d3 M.N P ti) [updateRK M P dt out A0 A1 c0 c1 c2] m m' ∧
      SameInside M.d3 M.N P (valsOf M m' out) (fun c p iv => combine c0 c1 c2 dt (valsOf M m A0 c p iv)
        (valsOf M m A1 c p iv) (valsOf M m sDiv c p iv)) ∧
      (∀ A', A' ≠ out → SameInside M.d3 M.N P (valsOf M m' A') (valsOf M m A')) := by
  obtain ⟨m', y, e, -, f⟩ := updateRK_yields h.ready ho h0 h1 dt c0 c1 c2 m
  exact ⟨m', .cons y (.nil _), fun c p iv hc hi hp hv => e c p iv hc hi hp hv,
    fun A' hA' c p iv _ _ _ _ => f _ hA'⟩

/-! ### Steps -/

omit [ROps α] in
theorem SameInside.trans [ROps α] {d3 : Bool} {N : ℕ} {P : Grid} {u v w : Vals α}
    (h : SameInside d3 N P u v) (h' : SameInside d3 N P v w) : SameInside d3 N P u w :=
  fun c p iv hc hi hp hv => (h c p iv hc hi hp hv).trans (h' c p iv hc hi hp hv)

omit [ROps α] in
theorem SameInside.refl [ROps α] {d3 : Bool} {N : ℕ} {P : Grid} (u : Vals α) : SameInside d3 N P u u :=
  fun _ _ _ _ _ _ _ => rfl

/-- Array `A` holds `u` in the interior. -/
def Holds (M : Scheme α) (P : Grid) (m : Addr → α) (A : ℕ) (u : Vals α) : Prop :=
  SameInside M.d3 M.N P (valsOf M m A) u

/-- `combine` everywhere. -/
def mix (c0 c1 c2 dt : α) (u v w : Vals α) : Vals α :=
  fun c p iv => combine c0 c1 c2 dt (u c p iv) (v c p iv) (w c p iv)

theorem stage_holds (h : Setup M P B) {S : Settings α} (hN : 0 < M.N) {ti : Mood.TimeInt} {A : ℕ}
    (hA : solArray ti A) (hAd : A ≠ sDiv) (junk : Dir → Cell → Pt → HState α) {m : Addr → α} {u : Vals α}
    (hu : Holds M P m A u) :
    ∃ m', YieldsAll (sdmDom M.d3 M.N P ti) (makeBoundaries M P A ++ divergence M S P junk A) m m' ∧
      Holds M P m' sDiv (rhs M S P B junk u) ∧
      (∀ A' v, A' ≠ sDiv → A' ≠ sF → Holds M P m A' v → Holds M P m' A' v) := by
  obtain ⟨m', y, e, f⟩ := stage_yields h (S := S) hN hA hAd junk m
  exact ⟨m', y, e.trans fun c p iv hc _ hp _ => rhs_congr h hu iv hc hp,
    fun A' v h1 h2 hv => (f A' h1 h2).trans hv⟩

theorem update_holds (h : Setup M P B) {ti : Mood.TimeInt} {out A0 A1 : ℕ} (ho : solArray ti out)
    (h0 : solArray ti A0) (h1 : solArray ti A1) (dt c0 c1 c2 : α) {m : Addr → α} {u0 u1 w : Vals α}
    (hu0 : Holds M P m A0 u0) (hu1 : Holds M P m A1 u1) (hw : Holds M P m sDiv w) :
    ∃ m', YieldsAll (sdmDom M.d3 M.N P ti) [updateRK M P dt out A0 A1 c0 c1 c2] m m' ∧
      Holds M P m' out (mix c0 c1 c2 dt u0 u1 w) ∧
      (∀ A' v, A' ≠ out → Holds M P m A' v → Holds M P m' A' v) := by
  obtain ⟨m', y, e, f⟩ := update_yields h ho h0 h1 dt c0 c1 c2 m
  refine ⟨m', y, e.trans fun c p iv hc hi hp hv => ?_, fun A' v h1 hv => (f A' h1).trans hv⟩
  show combine _ _ _ _ _ _ _ = combine _ _ _ _ _ _ _
  rw [hu0 c p iv hc hi hp hv, hu1 c p iv hc hi hp hv, hw c p iv hc hi hp hv]

/-- A step as a map of the values in the interior. -/
def stepVals (M : Scheme α) (S : Settings α) (P : Grid) (B : Sides)
    (junk : ℕ → Dir → Cell → Pt → HState α) (ti : Mood.TimeInt) (dt : α) (u : Vals α) : Vals α :=
  match ti with
  | .forward_euler => mix (lit 1) (lit 0) (lit (-1)) dt u u (rhs M S P B (junk 0) u)
  | .ssprk2 =>
    let u1 := mix (lit 1) (lit 0) (lit (-1)) dt u u (rhs M S P B (junk 0) u)
    mix (lit (1/2)) (lit (1/2)) (lit (-1/2)) dt u u1 (rhs M S P B (junk 1) u1)
  | .ssprk3 =>
    let u1 := mix (lit 1) (lit 0) (lit (-1)) dt u u (rhs M S P B (junk 0) u)
    let u2 := mix (lit (3/4)) (lit (1/4)) (lit (-1/4)) dt u u1 (rhs M S P B (junk 1) u1)
    mix (lit 1 / lit 3) (lit 2 / lit 3) (lit (-2) / lit 3) dt u u2 (rhs M S P B (junk 2) u2)
  | .ssprk54 =>
    let u1 := mix (lit 1) (lit 0) (lit (-0.391752226571890)) dt u u (rhs M S P B (junk 0) u)
    let u2 := mix (lit 0.444370493651235) (lit 0.555629506348765) (lit (-0.368410593050371)) dt u u1
      (rhs M S P B (junk 1) u1)
    let u3 := mix (lit 0.620101851488403) (lit 0.379898148511597) (lit (-0.251891774271694)) dt u u2
      (rhs M S P B (junk 2) u2)
    let u4 := mix (lit 0.178079954393132) (lit 0.821920045606868) (lit (-0.544974750228521)) dt u u3
      (rhs M S P B (junk 3) u3)
    let w := mix (lit 0.517231671970585) (lit 0.096059710526147) (lit (-0.063692468666290)) dt u2 u3
      (rhs M S P B (junk 3) u3)
    mix (lit 1) (lit 0.386708617503269) (lit (-0.226007483236906)) dt w u4 (rhs M S P B (junk 4) u4)

omit [ROps α] in
theorem SameInside.symm [ROps α] {d3 : Bool} {N : ℕ} {P : Grid} {u v : Vals α}
    (h : SameInside d3 N P u v) : SameInside d3 N P v u :=
  fun c p iv hc hi hp hv => (h c p iv hc hi hp hv).symm

theorem mix_congr {u u' v v' w w' : Vals α} {c0 c1 c2 dt : α} (h1 : SameInside M.d3 M.N P u u')
    (h2 : SameInside M.d3 M.N P v v') (h3 : SameInside M.d3 M.N P w w') :
    SameInside M.d3 M.N P (mix c0 c1 c2 dt u v w) (mix c0 c1 c2 dt u' v' w') := by
  intro c p iv hb hc hp hv
  show combine _ _ _ _ _ _ _ = combine _ _ _ _ _ _ _
  rw [h1 c p iv hb hc hp hv, h2 c p iv hb hc hp hv, h3 c p iv hb hc hp hv]

theorem rhs_inside (h : Setup M P B) {S : Settings α} {junk : Dir → Cell → Pt → HState α} {u v : Vals α}
    (huv : SameInside M.d3 M.N P u v) :
    SameInside M.d3 M.N P (rhs M S P B junk u) (rhs M S P B junk v) :=
  fun _ _ iv hc _ hp _ => rhs_congr h huv iv hc hp

theorem stepVals_congr (h : Setup M P B) {S : Settings α} {junk : ℕ → Dir → Cell → Pt → HState α}
    {ti : Mood.TimeInt} {dt : α} {u v : Vals α} (e : SameInside M.d3 M.N P u v) :
    SameInside M.d3 M.N P (stepVals M S P B junk ti dt u) (stepVals M S P B junk ti dt v) := by
  have st : ∀ {c0 c1 c2 : α} {j : Dir → Cell → Pt → HState α} {a a' b b' w w' : Vals α},
      SameInside M.d3 M.N P a a' → SameInside M.d3 M.N P b b' → SameInside M.d3 M.N P w w' →
      SameInside M.d3 M.N P (mix c0 c1 c2 dt a b (rhs M S P B j w)) (mix c0 c1 c2 dt a' b' (rhs M S P B j w')) :=
    fun ha hb hw => mix_congr ha hb (rhs_inside h hw)
  cases ti
  · exact st e e e
  · exact st e (st e e e) (st e e e)
  · exact st e (st e (st e e e) (st e e e)) (st e (st e e e) (st e e e))
  · have e1 := st (c0 := lit 1) (c1 := lit 0) (c2 := lit (-0.391752226571890)) (j := junk 0) e e e
    have e2 := st (c0 := lit 0.444370493651235) (c1 := lit 0.555629506348765)
      (c2 := lit (-0.368410593050371)) (j := junk 1) e e1 e1
    have e3 := st (c0 := lit 0.620101851488403) (c1 := lit 0.379898148511597)
      (c2 := lit (-0.251891774271694)) (j := junk 2) e e2 e2
    have e4 := st (c0 := lit 0.178079954393132) (c1 := lit 0.821920045606868)
      (c2 := lit (-0.544974750228521)) (j := junk 3) e e3 e3
    have e5 := st (c0 := lit 0.517231671970585) (c1 := lit 0.096059710526147)
      (c2 := lit (-0.063692468666290)) (j := junk 3) e2 e3 e3
    exact st e5 e4 e4

theorem sU_sol (ti : Mood.TimeInt) : solArray ti sU := .inl rfl
theorem sRK_sol {ti : Mood.TimeInt} {i : ℕ} (h1 : 1 ≤ i) (h2 : i ≤ rkArrays ti) : solArray ti (sRK i) :=
  .inr (.inr ⟨i, h1, h2, rfl⟩)

theorem step_yields (h : Setup M P B) {S : Settings α} (hN : 0 < M.N) (ti : Mood.TimeInt) (dt : α)
    (junk : ℕ → Dir → Cell → Pt → HState α) (m : Addr → α) :
    ∃ m', YieldsAll (sdmDom M.d3 M.N P ti) (timeStep M S P junk ti dt) m m' ∧
      Holds M P m' sU (stepVals M S P B junk ti dt (valsOf M m sU)) := by
  have hU : solArray ti sU := sU_sol ti
  obtain ⟨m0, y0, d0, k0⟩ := stage_holds h (S := S) hN hU (by decide) (junk 0)
    (SameInside.refl (valsOf M m sU))
  have u0 := k0 sU _ (by decide) (by decide) (SameInside.refl (valsOf M m sU))
  cases ti with
  | forward_euler =>
    obtain ⟨m1, y1, e1, _⟩ := update_holds h hU hU hU dt (lit 1) (lit 0) (lit (-1)) u0 u0 d0
    refine ⟨m1, ?_, e1⟩
    simp only [timeStep, ← List.append_assoc]
    exact y0.append y1
  | ssprk2 =>
    have h1 : solArray .ssprk2 (sRK 1) := sRK_sol (by decide) (by decide)
    obtain ⟨m1, y1, e1, k1⟩ := update_holds h h1 hU hU dt (lit 1) (lit 0) (lit (-1)) u0 u0 d0
    obtain ⟨m2, y2, d2, k2⟩ := stage_holds h (S := S) hN h1 (by decide) (junk 1) e1
    obtain ⟨m3, y3, e3, _⟩ := update_holds h hU hU h1 dt (lit (1/2)) (lit (1/2)) (lit (-1/2))
      (k2 sU _ (by decide) (by decide) (k1 sU _ (by decide) u0))
      (k2 (sRK 1) _ (by decide) (by decide) e1) d2
    refine ⟨m3, ?_, e3⟩
    have := ((y0.append y1).append y2).append y3
    simp only [timeStep]
    simpa only [List.append_assoc] using this
  | ssprk3 =>
    have h1 : solArray .ssprk3 (sRK 1) := sRK_sol (by decide) (by decide)
    have h2 : solArray .ssprk3 (sRK 2) := sRK_sol (by decide) (by decide)
    obtain ⟨m1, y1, e1, k1⟩ := update_holds h h1 hU hU dt (lit 1) (lit 0) (lit (-1)) u0 u0 d0
    obtain ⟨m2, y2, d2, k2⟩ := stage_holds h (S := S) hN h1 (by decide) (junk 1) e1
    have u2 := k2 sU _ (by decide) (by decide) (k1 sU _ (by decide) u0)
    obtain ⟨m3, y3, e3, k3⟩ := update_holds h h2 hU h1 dt (lit (3/4)) (lit (1/4)) (lit (-1/4))
      u2 (k2 (sRK 1) _ (by decide) (by decide) e1) d2
    obtain ⟨m4, y4, d4, k4⟩ := stage_holds h (S := S) hN h2 (by decide) (junk 2) e3
    obtain ⟨m5, y5, e5, _⟩ := update_holds h hU hU h2 dt (lit 1 / lit 3) (lit 2 / lit 3)
      (lit (-2) / lit 3) (k4 sU _ (by decide) (by decide) (k3 sU _ (by decide) u2))
      (k4 (sRK 2) _ (by decide) (by decide) e3) d4
    refine ⟨m5, ?_, e5⟩
    have := ((((y0.append y1).append y2).append y3).append y4).append y5
    simp only [timeStep]
    simpa only [List.append_assoc] using this
  | ssprk54 =>
    have h1 : solArray .ssprk54 (sRK 1) := sRK_sol (by decide) (by decide)
    have h2 : solArray .ssprk54 (sRK 2) := sRK_sol (by decide) (by decide)
    have h3 : solArray .ssprk54 (sRK 3) := sRK_sol (by decide) (by decide)
    have h4 : solArray .ssprk54 (sRK 4) := sRK_sol (by decide) (by decide)
    obtain ⟨m1, y1, e1, k1⟩ := update_holds h h1 hU hU dt (lit 1) (lit 0) (lit (-0.391752226571890))
      u0 u0 d0
    obtain ⟨m2, y2, d2, k2⟩ := stage_holds h (S := S) hN h1 (by decide) (junk 1) e1
    have u2 := k2 sU _ (by decide) (by decide) (k1 sU _ (by decide) u0)
    obtain ⟨m3, y3, e3, k3⟩ := update_holds h h2 hU h1 dt (lit 0.444370493651235)
      (lit 0.555629506348765) (lit (-0.368410593050371))
      u2 (k2 (sRK 1) _ (by decide) (by decide) e1) d2
    obtain ⟨m4, y4, d4, k4⟩ := stage_holds h (S := S) hN h2 (by decide) (junk 2) e3
    have u4 := k4 sU _ (by decide) (by decide) (k3 sU _ (by decide) u2)
    have r4 := k4 (sRK 2) _ (by decide) (by decide) e3
    obtain ⟨m5, y5, e5, k5⟩ := update_holds h h3 hU h2 dt (lit 0.620101851488403)
      (lit 0.379898148511597) (lit (-0.251891774271694)) u4 r4 d4
    obtain ⟨m6, y6, d6, k6⟩ := stage_holds h (S := S) hN h3 (by decide) (junk 3) e5
    have u6 := k6 sU _ (by decide) (by decide) (k5 sU _ (by decide) u4)
    have r6 := k6 (sRK 2) _ (by decide) (by decide) (k5 (sRK 2) _ (by decide) r4)
    have s6 := k6 (sRK 3) _ (by decide) (by decide) e5
    obtain ⟨m7, y7, e7, k7⟩ := update_holds h h4 hU h3 dt (lit 0.178079954393132)
      (lit 0.821920045606868) (lit (-0.544974750228521)) u6 s6 d6
    obtain ⟨m8, y8, e8, k8⟩ := update_holds h hU h2 h3 dt (lit 0.517231671970585)
      (lit 0.096059710526147) (lit (-0.063692468666290)) (k7 (sRK 2) _ (by decide) r6)
      (k7 (sRK 3) _ (by decide) s6) (k7 sDiv _ (by decide) d6)
    have t8 := k8 (sRK 4) _ (by decide) e7
    obtain ⟨m9, y9, d9, k9⟩ := stage_holds h (S := S) hN h4 (by decide) (junk 4) t8
    obtain ⟨m10, y10, e10, _⟩ := update_holds h hU hU h4 dt (lit 1) (lit 0.386708617503269)
      (lit (-0.226007483236906)) (k9 sU _ (by decide) (by decide) e8)
      (k9 (sRK 4) _ (by decide) (by decide) t8) d9
    refine ⟨m10, ?_, e10⟩
    have := (((((((((y0.append y1).append y2).append y3).append y4).append y5).append y6).append
      (y7.append y8)).append y9).append y10)
    simp only [timeStep]
    simpa only [List.append_assoc, List.cons_append, List.nil_append] using this

end

end Verif.Sdm
