import Verif.Lemmas.MoodStage
import Verif.Lemmas.MhdFlux

/-! Helper lemmas: whole time steps of the MOOD solver. -/

namespace Verif.Mood

open Verif K Function ROps Spec

variable {α : Type} [ROps α] {M : Scheme α} {P : Grid} {ti : TimeInt} {U : Nat} {lay : Layout}
  {S : Settings α} {J : ℕ → MoodJunk α} {dt : α} {B : Sides}

/-- The width the solver is configured with. -/
abbrev MoodSetup (M : Scheme α) (P : Grid) (B : Sides) : Prop :=
  BoxSetup M.d3 (hydroVars M.d3) (get_stencil_ghostwidth M.id) P B

theorem MoodSetup.stage (h : MoodSetup M P B) : StageOk M P := by
  have w := two_le_ghostwidth M.id
  have := h.gw
  refine ⟨h.gw, h.nv, ?_, ?_, fun e => ?_⟩
  · have := h.nx; omega
  · have := h.ny; omega
  · have := h.nz e; omega

theorem MoodSetup.one_le (_ : MoodSetup M P B) : (1 : Int) ≤ get_stencil_ghostwidth M.id := by
  have w := two_le_ghostwidth M.id
  omega

theorem fillF_congr (h : MoodSetup M P B) {f g : Cell → HState α}
    (e : ∀ c, P.box M.d3 c → P.inner M.d3 c → f c = g c) {c : Cell} (hb : P.box M.d3 c) :
    fillF M.d3 P B f c = fillF M.d3 P B g c := by
  obtain ⟨h1, h2⟩ := srcCell_inner h h.one_le hb
  unfold fillF
  rw [e _ h1 h2]

theorem fill_yields (h : MoodSetup M P B) (hU : stateArray ti U) (m : Addr → α) :
    ∃ m1, YieldsAll (moodDom M.d3 P M.ncoefs ti) (hydroBoundaries M.d3 P U) m m1 ∧
      (∀ c, P.box M.d3 c → field M.d3 m1 U c = fillF M.d3 P B (field M.d3 m U) c) ∧
      (∀ c, P.box M.d3 c → P.inner M.d3 c → field M.d3 m1 U c = field M.d3 m U c) ∧
      (∀ a : Addr, a.arr ≠ U → m1 a = m a) := by
  obtain ⟨m1, y, f⟩ := fill_mem M.d3 false h h.one_le U m
  refine ⟨m1, ?_, fun c hb => FilledMem.field_eq h.nv f hb, fun c hb hi => ?_, fun a ha =>
    f.frame a fun e => ha e.1⟩
  · unfold hydroBoundaries
    refine y.mono ?_
    rintro a ⟨h1, h2, h3⟩
    have := h.stage.dom_state (ti := ti) hU h2 a.v (h.nv ▸ h3)
    rw [← h1] at this
    exact this
  · refine field_ext fun v hv => f.interior hb hi (by rw [h.nv]; exact hv)

/-- A forward Euler step of the states `f`. -/
def eulerAt (M : Scheme α) (S : Settings α) (P : Grid) (B : Sides) (J : MoodJunk α) (dt : α)
    (old : ℕ → Cell → HState α) (f : Cell → HState α) (c : Cell) : HState α :=
  accFluxes M.d3 (fillF M.d3 P B f c)
    (fluxPairs M.d3 (finalFlux M S P J dt old (fillF M.d3 P B f)) c)

/-- Coefficients in memory. -/
def polys (d3 : Bool) (m : Addr → α) (i : ℕ) (c : Cell) : HState α := field d3 m (aPoly i) c

/-- Coefficients that are never computed do not change. -/
def PolyKept (M : Scheme α) (P : Grid) (m m' : Addr → α) : Prop :=
  ∀ i c, i < M.ncoefs → P.box M.d3 c → ¬ reconRegion M.d3 P c →
    polys M.d3 m' i c = polys M.d3 m i c

theorem PolyKept.trans {m m1 m2 : Addr → α} (h : PolyKept M P m m1) (h' : PolyKept M P m1 m2) :
    PolyKept M P m m2 := fun i c hi hb hr => (h' i c hi hb hr).trans (h i c hi hb hr)

theorem PolyKept.of_eq {m m1 : Addr → α} (h : ∀ a : Addr, 10 ≤ a.arr → m1 a = m a) :
    PolyKept M P m m1 := fun i c _ _ _ => by
  unfold polys
  rw [field_congr (A := aPoly i) fun a ha => h a (by rw [ha]; simp [aPoly])]

theorem StageResult.kept {J : MoodJunk α} {m m' : Addr → α} (r : StageResult M S P J dt U m m') :
    PolyKept M P m m' := fun i c hi hb hr => by
  unfold polys
  rw [r.poly i c hi hb]
  unfold polyAt
  rw [if_pos hi, if_neg hr]

/-- Result of a step with an integrator whose new interior states are `g`. -/
structure MoodResult (M : Scheme α) (P : Grid) (B : Sides) (Uin Uout : Nat)
    (g : Cell → HState α) (m m' : Addr → α) : Prop where
  out : ∀ c, P.box M.d3 c → P.inner M.d3 c → field M.d3 m' Uout c = g c
  outer : ∀ c, P.box M.d3 c → ¬ P.inner M.d3 c → field M.d3 m' Uout c =
    fillF M.d3 P B (field M.d3 m Uin) c
  input : ∀ c, P.box M.d3 c → field M.d3 m' Uin c = fillF M.d3 P B (field M.d3 m Uin) c
  kept : PolyKept M P m m'

theorem _root_.Verif.YieldsAll.of_eq {dom : Addr → Prop} {L L' : List (Launch Addr α)} {m m' : Addr → α}
    (h : YieldsAll dom L m m') (e : L = L') : YieldsAll dom L' m m' := e ▸ h

section steps

variable {Uin Uout : Nat}

/-- Buffers. -/
def Bufs (Uin Uout : Nat) : Prop := (Uin = aU ∧ Uout = aU2) ∨ (Uin = aU2 ∧ Uout = aU)

theorem Bufs.inp (h : Bufs Uin Uout) : stateArray ti Uin := by
  rcases h with ⟨e, -⟩ | ⟨e, -⟩
  · exact Or.inl e
  · exact Or.inr (Or.inl e)
theorem Bufs.outp (h : Bufs Uin Uout) : stateArray ti Uout := by
  rcases h with ⟨-, e⟩ | ⟨-, e⟩
  · exact Or.inr (Or.inl e)
  · exact Or.inl e
theorem Bufs.ne (h : Bufs Uin Uout) : Uin ≠ Uout := by
  rcases h with ⟨e, e'⟩ | ⟨e, e'⟩ <;> rw [e, e'] <;> decide
theorem Bufs.rk (h : Bufs Uin Uout) : Uin ≠ aRK1 ∧ Uin ≠ aRK2 ∧ Uout ≠ aRK1 ∧ Uout ≠ aRK2 := by
  rcases h with ⟨e, e'⟩ | ⟨e, e'⟩ <;> rw [e, e'] <;> decide

/-- Fill and copy at the beginning of a step. -/
theorem begin_yields (h : MoodSetup M P B) (hB : Bufs Uin Uout) (m : Addr → α) :
    ∃ m2, YieldsAll (moodDom M.d3 P M.ncoefs ti)
        (hydroBoundaries M.d3 P Uin ++ [deepCopy M.d3 P Uout Uin]) m m2 ∧
      (∀ c, P.box M.d3 c → field M.d3 m2 Uin c = fillF M.d3 P B (field M.d3 m Uin) c) ∧
      (∀ c, P.box M.d3 c → field M.d3 m2 Uout c = fillF M.d3 P B (field M.d3 m Uin) c) ∧
      (∀ a : Addr, a.arr ≠ Uin → a.arr ≠ Uout → m2 a = m a) := by
  obtain ⟨m1, y1, f1, -, o1⟩ := fill_yields (ti := ti) h (hB.inp) m
  refine ⟨copyMem M.d3 P Uout Uin m1, y1.append (.cons (copy_yields h.stage hB.outp hB.inp hB.ne _)
    (.nil _)), ?_, ?_, ?_⟩
  · intro c hb
    rw [field_congr (A := Uin) fun a ha => copyMem_other (ha ▸ hB.ne), f1 c hb]
  · intro c hb
    rw [copyMem_field hb h.nv, f1 c hb]
  · intro a h1 h2
    rw [copyMem_other h2, o1 a h1]

theorem kept_begin (hB : Bufs Uin Uout) {m m2 : Addr → α}
    (o : ∀ a : Addr, a.arr ≠ Uin → a.arr ≠ Uout → m2 a = m a) : PolyKept M P m m2 := by
  have h1 := stateArray_lt (ti := .forward_euler) hB.inp
  have h2 := stateArray_lt (ti := .forward_euler) hB.outp
  exact PolyKept.of_eq fun a ha => o a (by omega) (by omega)

theorem kept_set {A : Nat} (hA : stateArray ti A) {m : Addr → α} {R : Cell → Prop}
    {g : Cell → HState α} : PolyKept M P m (setArr M.d3 m A R g) := by
  have := stateArray_lt hA
  exact PolyKept.of_eq fun a ha => setArr_ne (Or.inl (by omega))

/-- **Forward Euler.** -/
theorem euler_yields (h : MoodSetup M P B) (hB : Bufs Uin Uout)
    (hz : ltb (lit 0 : α) (lit 0) = false) (m : Addr → α) :
    ∃ m', YieldsAll (moodDom M.d3 P M.ncoefs .forward_euler)
        (time_integration_impl lay M S P J dt .forward_euler Uin Uout) m m' ∧
      MoodResult M P B Uin Uout
        (eulerAt M S P B (J 0) dt (polys M.d3 m) (field M.d3 m Uin)) m m' ∧
      (∀ d c, d.ok M.d3 → P.box M.d3 c → faceRegion M.d3 P d c → field M.d3 m' (aF 0 d) c =
        finalFlux M S P (J 0) dt (polys M.d3 m) (fillF M.d3 P B (field M.d3 m Uin)) d c) ∧
      (∀ c, P.box M.d3 c → m' (c.at aFlags 0) =
        flagAt M S P (J 0) dt (polys M.d3 m) (fillF M.d3 P B (field M.d3 m Uin)) c) := by
  have hok := h.stage
  obtain ⟨m2, y2, fi2, fo2, o2⟩ := begin_yields (ti := .forward_euler) h hB m
  obtain ⟨m3, y3, r3⟩ := stage_yields (lay := lay) (S := S) (J := J 0) (dt := dt) hok
    (hB.inp (ti := .forward_euler)) hz m2
  have k2 : PolyKept M P m m2 := kept_begin hB o2
  have y4 := updateState_yields (lay := lay) hok (hB.inp (ti := .forward_euler)) hB.outp m3
  have fi3 : field M.d3 m3 Uin = field M.d3 m2 Uin := r3.state (hB.inp (ti := .forward_euler))
  have fo3 : field M.d3 m3 Uout = field M.d3 m2 Uout := r3.state (hB.outp (ti := .forward_euler))
  have ek : ∀ i c, i < M.ncoefs → P.box M.d3 c → ¬ reconRegion M.d3 P c →
    (fun i => field M.d3 m2 (aPoly i)) i c = polys M.d3 m i c := fun i c hi hb hr => k2 i c hi hb hr
  refine ⟨_, (y2.append (y3.append (.cons y4 (.nil _)))).of_eq ?_, ⟨?_, ?_, ?_, ?_⟩, ?_, ?_⟩
  · rfl
  · intro c hb hi
    rw [field_setArr_same ⟨hb, hi⟩, accFluxes_norm, r3.pairs hok hb hi, fi3, fi2 c hb]
    unfold eulerAt
    rw [final_pairs_congr hok hb hi fi2 ek]
  · intro c hb hi
    rw [field_setArr_ne (Or.inr fun e => hi e.2), fo3, fo2 c hb]
  · intro c hb
    rw [field_setArr_ne (Or.inl hB.ne), fi3, fi2 c hb]
  · exact (k2.trans r3.kept).trans (kept_set (hB.outp (ti := .forward_euler)))
  · intro d c hd hb hf
    rw [field_setArr_ne (Or.inl (stateArray_flux (hB.outp (ti := .forward_euler)) d).symm),
      r3.flux d c hd hb hf]
    exact finalFlux_congr hok hd hb hf fi2 ek
  · intro c hb
    rw [setArr_ne (Or.inl (stateArray_flags (hB.outp (ti := .forward_euler))).symm), r3.flag c hb]
    exact flagAt_congr hok hb fi2 ek

/-- Sum of the face fluxes of an Euler step. -/
def sumAt (M : Scheme α) (S : Settings α) (P : Grid) (B : Sides) (J : MoodJunk α) (dt : α)
    (old : ℕ → Cell → HState α) (f : Cell → HState α) (c : Cell) : HState α :=
  sumFluxes M.d3 (fluxPairs M.d3 (finalFlux M S P J dt old (fillF M.d3 P B f)) c)

/-- New states of SSP-RK2. -/
def ssprk2At (M : Scheme α) (S : Settings α) (P : Grid) (B : Sides) (J : ℕ → MoodJunk α) (dt : α)
    (old : ℕ → Cell → HState α) (f : Cell → HState α) (c : Cell) : HState α :=
  let r := eulerAt M S P B (J 0) dt old f
  ofComps M.d3 fun v => lit (1 / 2) * comp (accFluxes M.d3
    (zipState M.d3 (· + ·) (fillF M.d3 P B f c) (fillF M.d3 P B r c))
    (fluxPairs M.d3 (finalFlux M S P (J 1) dt old (fillF M.d3 P B r)) c)) v

/-- Copy to `U_RK1` and first Euler stage. -/
theorem first_stage (h : MoodSetup M P B) (hB : Bufs Uin Uout)
    (hrk : stateArray ti aRK1) (hz : ltb (lit 0 : α) (lit 0) = false) (m : Addr → α) :
    ∃ m6, YieldsAll (moodDom M.d3 P M.ncoefs ti)
        ((hydroBoundaries M.d3 P Uin ++ [deepCopy M.d3 P Uout Uin]) ++
          ([deepCopy M.d3 P aRK1 Uin] ++ stageFluxes lay M S P dt (J 0) Uin ++
          [updateState lay M.d3 P Uin aRK1] ++ hydroBoundaries M.d3 P aRK1)) m m6 ∧
      (∀ c, P.box M.d3 c → field M.d3 m6 Uin c = fillF M.d3 P B (field M.d3 m Uin) c) ∧
      (∀ c, P.box M.d3 c → field M.d3 m6 Uout c = fillF M.d3 P B (field M.d3 m Uin) c) ∧
      (∀ c, P.box M.d3 c → field M.d3 m6 aRK1 c = fillF M.d3 P B
        (eulerAt M S P B (J 0) dt (polys M.d3 m) (field M.d3 m Uin)) c) ∧
      PolyKept M P m m6 := by
  have hok := h.stage
  obtain ⟨n1, n2, n3, n4⟩ := hB.rk
  have hI : stateArray ti Uin := hB.inp
  have hO : stateArray ti Uout := hB.outp
  obtain ⟨m2, y2, fi2, fo2, o2⟩ := begin_yields (ti := ti) h hB m
  have y2' := copy_yields hok hrk hI n1 m2
  set m2' := copyMem M.d3 P aRK1 Uin m2 with e2'
  have fi2' : field M.d3 m2' Uin = field M.d3 m2 Uin :=
    field_congr fun a ha => copyMem_other (ha ▸ n1)
  have fo2' : field M.d3 m2' Uout = field M.d3 m2 Uout :=
    field_congr fun a ha => copyMem_other (ha ▸ n3)
  have k2 : PolyKept M P m m2' := (kept_begin hB o2).trans
    (PolyKept.of_eq fun a ha => copyMem_other (by
      have := stateArray_lt hrk; omega))
  obtain ⟨m3, y3, r3⟩ := stage_yields (lay := lay) (S := S) (J := J 0) (dt := dt) hok hI hz m2'
  have y4 := updateState_yields (lay := lay) hok hI hrk m3
  have fi3 : field M.d3 m3 Uin = field M.d3 m2 Uin := (r3.state hI).trans fi2'
  have fo3 : field M.d3 m3 Uout = field M.d3 m2 Uout := (r3.state hO).trans fo2'
  set m4 := setArr M.d3 m3 aRK1 (fun c => P.box M.d3 c ∧ P.inner M.d3 c)
        fun c => accFluxes M.d3 (field M.d3 m3 Uin c) (fluxesAt M.d3 m3 c) with e4
  have ek : ∀ i c, i < M.ncoefs → P.box M.d3 c → ¬ reconRegion M.d3 P c →
    (fun i => field M.d3 m2' (aPoly i)) i c = polys M.d3 m i c := fun i c hi hb hr => k2 i c hi hb hr
  obtain ⟨m6, y6, f6, -, o6⟩ := fill_yields (ti := ti) h hrk m4
  refine ⟨m6, y2.append (((YieldsAll.cons y2' (.nil _)).append y3).append (.cons y4 (.nil _))
    |>.append y6), ?_, ?_, ?_, ?_⟩
  · intro c hb
    rw [field_congr (A := Uin) fun a ha => o6 a (ha ▸ n1), e4, field_setArr_ne (Or.inl n1), fi3,
      fi2 c hb]
  · intro c hb
    rw [field_congr (A := Uout) fun a ha => o6 a (ha ▸ n3), e4, field_setArr_ne (Or.inl n3), fo3,
      fo2 c hb]
  · intro c hb
    rw [f6 c hb]
    refine fillF_congr h (fun c hb hi => ?_) hb
    rw [e4, field_setArr_same ⟨hb, hi⟩, accFluxes_norm, r3.pairs hok hb hi, fi3, fi2 c hb]
    unfold eulerAt
    rw [final_pairs_congr hok hb hi (fun c hb => by rw [fi2', fi2 c hb]) ek]
  · refine ((k2.trans r3.kept).trans (kept_set hrk)).trans (PolyKept.of_eq fun a ha => o6 a ?_)
    have := stateArray_lt hrk
    omega

/-- **SSP-RK2.** -/
theorem ssprk2_yields (h : MoodSetup M P B) (hB : Bufs Uin Uout)
    (hz : ltb (lit 0 : α) (lit 0) = false) (m : Addr → α) :
    ∃ m', YieldsAll (moodDom M.d3 P M.ncoefs .ssprk2)
        (time_integration_impl lay M S P J dt .ssprk2 Uin Uout) m m' ∧
      MoodResult M P B Uin Uout
        (ssprk2At M S P B J dt (polys M.d3 m) (field M.d3 m Uin)) m m' := by
  have hok := h.stage
  have hrk : stateArray .ssprk2 aRK1 := Or.inr (Or.inr (Or.inl ⟨Or.inl rfl, rfl⟩))
  obtain ⟨m6, y6, fi6, fo6, fr6, k6⟩ := first_stage (lay := lay) (S := S) (J := J) (dt := dt)
    h hB hrk hz m
  obtain ⟨m7, y7, r7⟩ := stage_yields (lay := lay) (S := S) (J := J 1) (dt := dt) hok hrk hz m6
  have y8 := updateSsprk2_yields (lay := lay) hok (hB.inp (ti := .ssprk2)) hrk hB.outp m7
  have fi7 : field M.d3 m7 Uin = field M.d3 m6 Uin := r7.state (hB.inp (ti := .ssprk2))
  have fo7 : field M.d3 m7 Uout = field M.d3 m6 Uout := r7.state (hB.outp (ti := .ssprk2))
  have fr7 : field M.d3 m7 aRK1 = field M.d3 m6 aRK1 := r7.state hrk
  have ek : ∀ i c, i < M.ncoefs → P.box M.d3 c → ¬ reconRegion M.d3 P c →
    (fun i => field M.d3 m6 (aPoly i)) i c = polys M.d3 m i c := fun i c hi hb hr => k6 i c hi hb hr
  refine ⟨_, (y6.append (y7.append (.cons y8 (.nil _)))).of_eq ?_, ⟨?_, ?_, ?_, ?_⟩⟩
  · simp [time_integration_impl, time_int_ssprk2, List.append_assoc]
  · intro c hb hi
    rw [field_setArr_same ⟨hb, hi⟩, ofComps_norm, r7.pairs hok hb hi, fi7, fr7, fi6 c hb, fr6 c hb]
    unfold ssprk2At
    rw [final_pairs_congr hok hb hi fr6 ek]
  · intro c hb hi
    rw [field_setArr_ne (Or.inr fun e => hi e.2), fo7, fo6 c hb]
  · intro c hb
    rw [field_setArr_ne (Or.inl hB.ne), fi7, fi6 c hb]
  · exact (k6.trans r7.kept).trans (kept_set (hB.outp (ti := .ssprk2)))

/-- New states of SSP-RK3. -/
def rk3Second (M : Scheme α) (S : Settings α) (P : Grid) (B : Sides) (J : ℕ → MoodJunk α) (dt : α)
    (old : ℕ → Cell → HState α) (f : Cell → HState α) (c : Cell) : HState α :=
  let r := eulerAt M S P B (J 0) dt old f
  ofComps M.d3 fun v => (lit (3/4) * comp (fillF M.d3 P B f c) v +
    lit (1/4) * comp (fillF M.d3 P B r c) v) + lit (1/4) * comp (sumAt M S P B (J 1) dt old r c) v

def ssprk3At (M : Scheme α) (S : Settings α) (P : Grid) (B : Sides) (J : ℕ → MoodJunk α) (dt : α)
    (old : ℕ → Cell → HState α) (f : Cell → HState α) (c : Cell) : HState α :=
  let r := rk3Second M S P B J dt old f
  ofComps M.d3 fun v => (lit 1 / lit 3 * comp (fillF M.d3 P B f c) v +
    lit 2 / lit 3 * comp (fillF M.d3 P B r c) v) +
    lit 2 / lit 3 * comp (sumAt M S P B (J 2) dt old r c) v

/-- **SSP-RK3.** -/
theorem ssprk3_yields (h : MoodSetup M P B) (hB : Bufs Uin Uout)
    (hz : ltb (lit 0 : α) (lit 0) = false) (m : Addr → α) :
    ∃ m', YieldsAll (moodDom M.d3 P M.ncoefs .ssprk3)
        (time_integration_impl lay M S P J dt .ssprk3 Uin Uout) m m' ∧
      MoodResult M P B Uin Uout
        (ssprk3At M S P B J dt (polys M.d3 m) (field M.d3 m Uin)) m m' := by
  have hok := h.stage
  obtain ⟨n1, n2, n3, n4⟩ := hB.rk
  have hrk : stateArray .ssprk3 aRK1 := Or.inr (Or.inr (Or.inl ⟨Or.inr (Or.inl rfl), rfl⟩))
  have hrk2 : stateArray .ssprk3 aRK2 := Or.inr (Or.inr (Or.inr ⟨Or.inl rfl, rfl⟩))
  have hI : stateArray .ssprk3 Uin := hB.inp
  have hO : stateArray .ssprk3 Uout := hB.outp
  obtain ⟨m6, y6, fi6, fo6, fr6, k6⟩ := first_stage (lay := lay) (S := S) (J := J) (dt := dt)
    h hB hrk hz m
  obtain ⟨m7, y7, r7⟩ := stage_yields (lay := lay) (S := S) (J := J 1) (dt := dt) hok hrk hz m6
  have y8 := updateWeight_yields (lay := lay) (w1 := lit (3/4)) (w2 := lit (1/4))
    (w3 := lit (1/4)) hok hI hrk hrk2 m7
  have fi7 : field M.d3 m7 Uin = field M.d3 m6 Uin := r7.state hI
  have fo7 : field M.d3 m7 Uout = field M.d3 m6 Uout := r7.state hO
  have fr7 : field M.d3 m7 aRK1 = field M.d3 m6 aRK1 := r7.state hrk
  have ek6 : ∀ i c, i < M.ncoefs → P.box M.d3 c → ¬ reconRegion M.d3 P c →
    (fun i => field M.d3 m6 (aPoly i)) i c = polys M.d3 m i c := fun i c hi hb hr => k6 i c hi hb hr
  set m8 := setArr M.d3 m7 aRK2 (fun c => P.box M.d3 c ∧ P.inner M.d3 c)
        (fun c => ofComps M.d3 fun v => (lit (3/4) * comp (field M.d3 m7 Uin c) v +
          lit (1/4) * comp (field M.d3 m7 aRK1 c) v) +
          lit (1/4) * comp (sumFluxes M.d3 (fluxesAt M.d3 m7 c)) v) with e8
  obtain ⟨m9, y9, f9, -, o9⟩ := fill_yields (ti := .ssprk3) h hrk2 m8
  have fi9 : ∀ c, P.box M.d3 c → field M.d3 m9 Uin c = fillF M.d3 P B (field M.d3 m Uin) c := by
    intro c hb
    rw [field_congr (A := Uin) fun a ha => o9 a (ha ▸ n2), e8, field_setArr_ne (Or.inl n2), fi7,
      fi6 c hb]
  have fo9 : ∀ c, P.box M.d3 c → field M.d3 m9 Uout c = fillF M.d3 P B (field M.d3 m Uin) c := by
    intro c hb
    rw [field_congr (A := Uout) fun a ha => o9 a (ha ▸ n4), e8, field_setArr_ne (Or.inl n4), fo7,
      fo6 c hb]
  have fr9 : ∀ c, P.box M.d3 c → field M.d3 m9 aRK2 c = fillF M.d3 P B
      (rk3Second M S P B J dt (polys M.d3 m) (field M.d3 m Uin)) c := by
    intro c hb
    rw [f9 c hb]
    refine fillF_congr h (fun c hb hi => ?_) hb
    rw [e8, field_setArr_same ⟨hb, hi⟩, ofComps_norm, r7.pairs hok hb hi, fi7, fr7, fi6 c hb,
      fr6 c hb]
    unfold rk3Second sumAt
    rw [final_pairs_congr hok hb hi fr6 ek6]
  have k9 : PolyKept M P m m9 :=
    ((k6.trans r7.kept).trans (kept_set hrk2)).trans (PolyKept.of_eq fun a ha => o9 a (by
      have := stateArray_lt hrk2; omega))
  have ek9 : ∀ i c, i < M.ncoefs → P.box M.d3 c → ¬ reconRegion M.d3 P c →
    (fun i => field M.d3 m9 (aPoly i)) i c = polys M.d3 m i c := fun i c hi hb hr => k9 i c hi hb hr
  obtain ⟨m10, y10, r10⟩ := stage_yields (lay := lay) (S := S) (J := J 2) (dt := dt) hok hrk2 hz m9
  have y11 := updateWeight_yields (lay := lay) (w1 := lit 1 / lit 3) (w2 := lit 2 / lit 3)
    (w3 := lit 2 / lit 3) hok hI hrk2 hO m10
  have fi10 : field M.d3 m10 Uin = field M.d3 m9 Uin := r10.state hI
  have fo10 : field M.d3 m10 Uout = field M.d3 m9 Uout := r10.state hO
  have fr10 : field M.d3 m10 aRK2 = field M.d3 m9 aRK2 := r10.state hrk2
  refine ⟨_, (y6.append (y7.append (YieldsAll.append (.cons y8 (.nil _)) (y9.append
      (y10.append (.cons y11 (.nil _))))))).of_eq ?_, ⟨?_, ?_, ?_, ?_⟩⟩
  · simp [time_integration_impl, time_int_ssprk3, List.append_assoc]
  · intro c hb hi
    rw [field_setArr_same ⟨hb, hi⟩, ofComps_norm, r10.pairs hok hb hi, fi10, fr10, fi9 c hb,
      fr9 c hb]
    unfold ssprk3At sumAt
    rw [final_pairs_congr hok hb hi fr9 ek9]
  · intro c hb hi
    rw [field_setArr_ne (Or.inr fun e => hi e.2), fo10, fo9 c hb]
  · intro c hb
    rw [field_setArr_ne (Or.inl hB.ne), fi10, fi9 c hb]
  · exact (k9.trans r10.kept).trans (kept_set hO)

/-- **SSP-RK54**: nothing but copies. -/
theorem ssprk54_yields (h : MoodSetup M P B) (hB : Bufs Uin Uout) (m : Addr → α) :
    ∃ m', YieldsAll (moodDom M.d3 P M.ncoefs .ssprk54)
        (time_integration_impl lay M S P J dt .ssprk54 Uin Uout) m m' ∧
      MoodResult M P B Uin Uout (field M.d3 m Uin) m m' := by
  have hok := h.stage
  obtain ⟨n1, n2, n3, n4⟩ := hB.rk
  have hrk : stateArray .ssprk54 aRK1 := Or.inr (Or.inr (Or.inl ⟨Or.inr (Or.inr rfl), rfl⟩))
  have hI : stateArray .ssprk54 Uin := hB.inp
  obtain ⟨m1, y1, f1, i1, o1⟩ := fill_yields (ti := .ssprk54) h hI m
  have y2 := copy_yields hok hB.outp hI hB.ne m1
  have y3 := copy_yields hok hrk hI n1 (copyMem M.d3 P Uout Uin m1)
  have fo : ∀ c, P.box M.d3 c → field M.d3 (copyMem M.d3 P aRK1 Uin (copyMem M.d3 P Uout Uin m1))
      Uout c = field M.d3 m1 Uin c := by
    intro c hb
    rw [field_congr (A := Uout) fun a ha => copyMem_other (ha ▸ n3), copyMem_field hb h.nv]
  refine ⟨_, (y1.append (YieldsAll.append (.cons y2 (.nil _)) (.cons y3 (.nil _)))).of_eq ?_,
    ?_, ?_, ?_, ?_⟩
  · simp [time_integration_impl, time_int_ssprk54]
  · intro c hb hi
    rw [fo c hb, i1 c hb hi]
  · intro c hb hi
    rw [fo c hb, f1 c hb]
  · intro c hb
    rw [field_congr (A := Uin) fun a ha => copyMem_other (ha ▸ n1),
      field_congr (A := Uin) fun a ha => copyMem_other (ha ▸ hB.ne), f1 c hb]
  · have h1 := stateArray_lt hrk
    have h2 := stateArray_lt hI
    have h3 := stateArray_lt (hB.outp (ti := .ssprk54))
    exact PolyKept.of_eq fun a ha => by
      rw [copyMem_other (by omega), copyMem_other (by omega), o1 a (by omega)]

end steps

end Verif.Mood
