import Verif.Lemmas.MoodConvex
import Verif.Props.C27_C29_Riemann
import Verif.Props.C40_C41_Monomials
import Verif.Props.C42_C71_Reconstruction
import Mathlib.Tactic.Linarith

/-! Helper lemmas: MOOD fluxes of translated and of uniform states. -/

namespace Verif.Mood

open Verif K Function ROps Spec

/-- The monomial table is the one the solver builds. -/
def Scheme.Genuine {α : Type} (M : Scheme α) : Prop :=
  ∃ data, init_map (if M.id.is3d then 3 else 2) (STENCIL_DEGREE M.id) 100 = some data ∧
    M.mm = monomExp data

/-- Stencil and Riemann solver are among those for which the code assigns all variables. -/
structure ValidMood {α : Type} (M : Scheme α) (S : Settings α) : Prop where
  id : M.id ≠ .d3deg4
  hlld : S.riemann ≠ .hlld
  hll : M.id.is3d = true → S.riemann ≠ .hll

section any
variable {α : Type} [ROps α] {M : Scheme α} {P : Grid} {S : Settings α} {J : MoodJunk α} {dt : α}
  {B : Sides}

theorem Scheme.Genuine.first (h : M.Genuine) : ∀ j, M.mm 0 j = 0 := by
  obtain ⟨data, h1, h2⟩ := h
  have hd : (if M.id.is3d then 3 else 2) = 2 ∨ (if M.id.is3d then 3 else 2) = 3 := by
    cases M.id.is3d <;> simp
  have hf : (STENCIL_DEGREE M.id + (if M.id.is3d then 3 else 2)).choose (STENCIL_DEGREE M.id) < 100 := by
    cases M.id <;> decide
  obtain ⟨data', e, -, -, -, -, e0⟩ := C40_table _ _ 100 hd hf
  rw [h1] at e
  obtain rfl := Option.some.inj e
  intro j
  rw [h2]
  unfold monomExp
  rw [e0]
  simp only [Option.getD_some]
  rcases hd with e | e <;> rw [e] <;> (match j with | 0 => rfl | 1 => rfl | 2 => rfl | (n + 3) => rfl)

theorem Scheme.ncoefs_pos : 0 < M.ncoefs := by
  unfold Scheme.ncoefs Scheme.d3
  cases M.id <;> decide

theorem STENCIL_SIZE_eq (h : M.id ≠ .d3deg4) :
    (nonCentre (stencilOffsets M.id)).length = STENCIL_SIZE M.id - 1 :=
  (C46_stencil M.id h).2.2.2.2.2.1

/-- Coefficients only depend on the states of the stencil. -/
theorem newCoef_shift (hid : M.id ≠ .d3deg4) {J' : MoodJunk α} {f g : Cell → HState α} {c c' : Cell}
    (h0 : f c = g c')
    (h : ∀ o ∈ nonCentre (stencilOffsets M.id), f (shiftCell c o) = g (shiftCell c' o)) (i : ℕ) :
    newCoef M J f c i = newCoef M J' g c' i := by
  have e : ((nonCentre (stencilOffsets M.id)).map (shiftCell c)).map f =
      ((nonCentre (stencilOffsets M.id)).map (shiftCell c')).map g := by
    rw [List.map_map, List.map_map]
    exact List.map_congr_left fun o ho => h o ho
  unfold newCoef reconState
  rw [e, h0]
  simp only [List.length_map, STENCIL_SIZE_eq hid, Nat.sub_self, List.range_zero, List.map_nil]

theorem riemann_some (hv : ValidMood M S) (a b : HState α) :
    ∃ q, riemann_hydro M.d3 S a b = some q := by
  have : (riemann_hydro M.d3 S a b).isSome := by
    cases e : M.d3
    · exact (C29_hydro2d S a b).2 hv.hlld
    · exact (C29_hydro3d S a b).2 ⟨hv.hlld, hv.hll e⟩
  exact Option.isSome_iff_exists.1 this

theorem pointFlux_junk (hv : ValidMood M S) (junk junk' : HState α) (d : Dir) (UL UR : HState α) :
    pointFlux M.d3 S junk d UL UR = pointFlux M.d3 S junk' d UL UR := by
  unfold pointFlux
  obtain ⟨q, e⟩ := riemann_some hv ((computePrimitives M.d3 S UL).1.swap d)
    ((computePrimitives M.d3 S UR).1.swap d)
  rw [e]
  rfl

theorem meanFlux_junk (hv : ValidMood M S) (junk junk' : ℕ → HState α) (d : Dir)
    (cn cc : ℕ → HState α) : meanFlux M S junk d cn cc = meanFlux M S junk' d cn cc := by
  have e : ∀ iq UL UR, pointFlux M.d3 S (junk iq) d UL UR = pointFlux M.d3 S (junk' iq) d UL UR :=
    fun iq UL UR => pointFlux_junk hv _ _ d UL UR
  unfold meanFlux
  simp only [e]

/-- Fluxes only depend on the coefficients on both sides. -/
theorem storedFlux_shift (hv : ValidMood M S) {J' : MoodJunk α} {co co' : Cell → ℕ → HState α}
    {d : Dir} {c c' : Cell} (h1 : co c = co' c') (h2 : co (c.down d) = co' (c'.down d)) :
    storedFlux M S J dt co d c = storedFlux M S J' dt co' d c' := by
  unfold storedFlux
  rw [h1, h2, meanFlux_junk hv (J.flux c d) (J'.flux c' d)]

end any

/-! ### Uniform states over the real numbers -/

/-- Coefficients of a constant polynomial. -/
noncomputable def constCoefs (M : Scheme ℝ) (u : HState ℝ) (i : ℕ) : HState ℝ :=
  if i = 0 then u.norm M.d3 else HState.zero

variable {M : Scheme ℝ} {P : Grid} {S : Settings ℝ} {J : MoodJunk ℝ} {dt : ℝ} {B : Sides}
  {old : ℕ → Cell → HState ℝ} {f : Cell → HState ℝ} {c : Cell}

theorem foldl_zero (l : List ℕ) (p : ℕ → ℝ) (q : ℕ → ℝ) (hq : ∀ i, q i = 0) (x : ℝ) :
    l.foldl (fun tmp ik => tmp + p ik * q ik) x = x := by
  induction l generalizing x with
  | nil => rfl
  | cons a l ih => rw [List.foldl_cons, hq, mul_zero, add_zero, ih]

theorem getD_zero (l : List ℝ) (h : ∀ x ∈ l, x = 0) (i : ℕ) : l.getD i 0 = 0 := by
  rw [List.getD_eq_getElem?_getD]
  cases e : l[i]? with
  | none => rfl
  | some x => exact h x (List.mem_of_getElem? e)

theorem ofComps_zero (d3 : Bool) : ofComps d3 (fun _ => (0 : ℝ)) = HState.zero := by
  cases d3 <;> simp [ofComps, HState.zero, lit]

theorem ofComps_comp (d3 : Bool) (u : HState ℝ) : ofComps d3 (fun v => comp u v) = u.norm d3 := by
  cases d3 <;> rfl

theorem newCoef_uniform (hid : M.id ≠ .d3deg4) {u : HState ℝ} (h0 : f c = u)
    (h : ∀ o ∈ nonCentre (stencilOffsets M.id), f (shiftCell c o) = u) (i : ℕ) :
    newCoef M J f c i = constCoefs M u i := by
  rw [newCoef_shift (J' := J) (g := fun _ => u) (c' := c) hid h0 h]
  unfold newCoef reconState constCoefs
  simp only [List.length_map, STENCIL_SIZE_eq hid, Nat.sub_self, List.range_zero, List.map_nil,
    List.append_nil, List.map_map]
  match i with
  | 0 => simp only [reconCoefs, if_true]; exact ofComps_comp _ _
  | i + 1 =>
    simp only [reconCoefs, Nat.succ_ne_zero, if_false]
    rw [← ofComps_zero M.d3]
    congr 1
    funext v
    split
    · rw [foldl_zero _ _ _ (fun ik => ?_)]
      · simp [lit]
      · have : (lit 0 : ℝ) = 0 := by simp [lit]
        rw [this]
        refine getD_zero _ (fun x hx => ?_) ik
        obtain ⟨o, -, rfl⟩ := List.mem_map.1 hx
        simp
    · simp [lit]

theorem eval2_const (hM : M.Genuine) (x y a : ℝ) (g : ℕ → ℝ) (h0 : g 0 = a)
    (h : ∀ i, g (i + 1) = 0) : eval2 M.mm M.ncoefs x y g = a := by
  obtain ⟨n, hn⟩ := Nat.exists_eq_succ_of_ne_zero M.ncoefs_pos.ne'
  unfold eval2
  rw [hn, List.range_succ_eq_map, List.foldl_cons, List.foldl_map, hM.first, hM.first]
  simp only [h, zero_mul, add_zero, h0]
  have : ∀ l : List ℕ, ∀ z : ℝ, l.foldl (fun x _ => x) z = z := by
    intro l; induction l with
    | nil => intro z; rfl
    | cons a l ih => intro z; rw [List.foldl_cons, ih]
  rw [this]
  simp [ipow, lit]

theorem eval3_const (hM : M.Genuine) (x y z a : ℝ) (g : ℕ → ℝ) (h0 : g 0 = a)
    (h : ∀ i, g (i + 1) = 0) : eval3 M.mm M.ncoefs x y z g = a := by
  obtain ⟨n, hn⟩ := Nat.exists_eq_succ_of_ne_zero M.ncoefs_pos.ne'
  unfold eval3
  rw [hn, List.range_succ_eq_map, List.foldl_cons, List.foldl_map, hM.first, hM.first, hM.first]
  simp only [h, zero_mul, add_zero, h0]
  have : ∀ l : List ℕ, ∀ z : ℝ, l.foldl (fun x _ => x) z = z := by
    intro l; induction l with
    | nil => intro z; rfl
    | cons a l ih => intro z; rw [List.foldl_cons, ih]
  rw [this]
  simp [ipow, lit]

/-- Evaluating a constant polynomial on a face. -/
theorem sideState_const (hM : M.Genuine) {co : ℕ → HState ℝ} {u : HState ℝ}
    (h0 : co 0 = u.norm M.d3) (h : ∀ i, co (i + 1) = HState.zero) (d : Dir) (b : Bool) (iq : ℕ) :
    sideState M S d b iq co = u.norm M.d3 := by
  have hz : ∀ i v, comp (co (i + 1)) v = 0 := by
    intro i v
    rw [h]
    unfold comp HState.zero
    simp [lit]
  have h1 : u.norm M.d3 = ofComps M.d3 fun v => comp (co 0) v := by
    rw [h0, ofComps_comp]
    cases M.d3 <;> rfl
  rw [h1]
  unfold sideState
  cases e : M.d3
  · simp only [Bool.false_eq_true, if_false]
    congr 1
    funext v
    exact eval2_const hM _ _ _ _ rfl fun i => hz i v
  · simp only [if_true]
    congr 1
    funext v
    exact eval3_const hM _ _ _ _ _ rfl fun i => hz i v

theorem constCoefs_side (hM : M.Genuine) (u : HState ℝ) (d : Dir) (b : Bool) (iq : ℕ) :
    sideState M S d b iq (constCoefs M u) = u.norm M.d3 :=
  sideState_const hM (by simp [constCoefs]) (fun i => by simp [constCoefs]) d b iq

theorem faceStates_const (hM : M.Genuine) (u : HState ℝ) (d : Dir) (iq : ℕ) :
    faceStates M S d iq (constCoefs M u) (constCoefs M u) = (u.norm M.d3, u.norm M.d3) := by
  unfold faceStates
  simp only [constCoefs_side hM]
  have : constCoefs M u 0 = u.norm M.d3 := by simp [constCoefs]
  rw [this]
  simp

theorem quadSum2_const (n : ℕ) (h : n = 1 ∨ n = 2 ∨ n = 3) (x : ℝ) :
    quadSum2 n (fun _ => x) = x := by
  unfold quadSum2
  rcases h with rfl | rfl | rfl
  · rfl
  · norm_num [quadWeight, List.range, List.range.loop, lit_real]; ring
  · norm_num [quadWeight, List.range, List.range.loop, lit_real]; ring

theorem quadSum3_const (n : ℕ) (h : n = 1 ∨ n = 2 ∨ n = 3) (x : ℝ) :
    quadSum3 n (fun _ => x) = x := by
  unfold quadSum3
  rcases h with rfl | rfl | rfl
  · rfl
  · norm_num [quadWeight, List.range, List.range.loop, lit_real]; ring
  · norm_num [quadWeight, List.range, List.range.loop, lit_real]; ring

theorem QUADRATURE_NUM_POINTS_cases (id : StencilId) :
    QUADRATURE_NUM_POINTS id = 1 ∨ QUADRATURE_NUM_POINTS id = 2 ∨ QUADRATURE_NUM_POINTS id = 3 := by
  cases id <;> decide

/-- The mean flux of a point flux that does not vary over the face. -/
theorem meanFlux_const (junk : ℕ → HState ℝ) (d : Dir) (cn cc : ℕ → HState ℝ) (q : HState ℝ)
    (h : ∀ iq, pointFlux M.d3 S (junk iq) d (faceStates M S d iq cn cc).1
      (faceStates M S d iq cn cc).2 = q) :
    meanFlux M S junk d cn cc = (q.norm M.d3).swap d := by
  unfold meanFlux
  simp only [h]
  rw [← ofComps_comp]
  congr 2
  funext v
  split
  · exact quadSum3_const _ (QUADRATURE_NUM_POINTS_cases _) _
  · exact quadSum2_const _ (QUADRATURE_NUM_POINTS_cases _) _

/-- Primitive variables are above the floors. -/
theorem prim_above (d3 : Bool) (S : Settings ℝ) (u : HState ℝ) (d : Dir) :
    AboveFloors S ((computePrimitives d3 S u).1.swap d) := by
  constructor
  · cases d <;> simp [computePrimitives, HState.swap, fmax]
  · cases d <;> simp [computePrimitives, HState.swap, fmax]

/-- Flux of a state through a unit area orthogonal to direction `d`. -/
noncomputable def physFlux (d3 : Bool) (S : Settings ℝ) (d : Dir) (u : HState ℝ) : HState ℝ :=
  (eulerFlux d3 S.gamma0 ((computePrimitives d3 S u).1.swap d)).swap d

theorem eulerFlux_norm (d3 : Bool) (γ : ℝ) (q : HState ℝ) :
    (eulerFlux d3 γ q).norm d3 = eulerFlux d3 γ q := by
  cases d3 <;> simp [eulerFlux, HState.norm, lit]

theorem prim_norm (d3 : Bool) (u : HState ℝ) :
    computePrimitives d3 S (u.norm d3) = computePrimitives d3 S u := by
  cases d3 <;> rfl

theorem meanFlux_uniform (hM : M.Genuine) (hv : ValidMood M S) (hS : GasParams S)
    (junk : ℕ → HState ℝ) (d : Dir) (u : HState ℝ) :
    meanFlux M S junk d (constCoefs M u) (constCoefs M u) = physFlux M.d3 S d u := by
  rw [meanFlux_const (q := eulerFlux M.d3 S.gamma0 ((computePrimitives M.d3 S u).1.swap d))]
  · rw [eulerFlux_norm]; rfl
  · intro iq
    rw [faceStates_const hM]
    unfold pointFlux
    simp only [prim_norm]
    obtain ⟨q, e⟩ := riemann_some hv ((computePrimitives M.d3 S u).1.swap d)
      ((computePrimitives M.d3 S u).1.swap d)
    rw [e]
    exact C27_dispatch M.d3 hS _ _ (prim_above ..) e

/-! ### Regions -/

theorem face_recon2 {d3 : Bool} (e : d3 = false) {d : Dir} {c : Cell} (hd : d.ok d3)
    (hf : faceRegion d3 P d c) : reconRegion d3 P c ∧ reconRegion d3 P (c.down d) := by
  subst e
  obtain ⟨-, h2, h3, h4, h5⟩ := hf
  unfold reconRegion
  simp only [Bool.false_eq_true, if_false]
  cases d
  · simp only [Cell.down] at *; omega
  · simp only [Cell.down] at *; omega
  · simp [Dir.ok] at hd

theorem inner_recon {d3 : Bool} {c : Cell} (h : P.inner d3 c) : reconRegion d3 P c := by
  obtain ⟨h1, h2, h3, h4, h5⟩ := h
  unfold reconRegion
  cases d3
  · simp only [Bool.false_eq_true, if_false]; omega
  · have := h1 rfl
    simp only [if_true]; omega

theorem inner_recon_up {d3 : Bool} {c : Cell} (d : Dir) (h : P.inner d3 c) :
    reconRegion d3 P (c.up d) := by
  obtain ⟨h1, h2, h3, h4, h5⟩ := h
  unfold reconRegion
  cases d3
  · simp only [Bool.false_eq_true, if_false]; cases d <;> simp only [Cell.up] <;> omega
  · have := h1 rfl
    simp only [if_true]; cases d <;> simp only [Cell.up] <;> omega

theorem polyAt_uniform (h : StageOk M P) (hid : M.id ≠ .d3deg4) {u : HState ℝ}
    (hf : ∀ c, P.box M.d3 c → f c = u) {c : Cell} (hb : P.box M.d3 c) (hr : reconRegion M.d3 P c) :
    polyAt M P J f old c = constCoefs M u := by
  funext i
  unfold polyAt
  by_cases hi : i < M.ncoefs
  · rw [if_pos hi, if_pos hr]
    exact newCoef_uniform hid (hf c hb) (fun o ho => hf _ (recon_box h hb hr (nonCentre_mem ho))) i
  · rw [if_neg hi]
    have := M.ncoefs_pos
    unfold constCoefs
    rw [if_neg (by omega)]

/-- The stored flux between two reconstructed cells of a uniform state. -/
theorem flux0_uniform (h : StageOk M P) (hM : M.Genuine) (hv : ValidMood M S) (hS : GasParams S)
    {u : HState ℝ} (hf : ∀ c, P.box M.d3 c → f c = u) {d : Dir} {c : Cell}
    (hb : P.box M.d3 c) (hb' : P.box M.d3 (c.down d)) (hr : reconRegion M.d3 P c)
    (hr' : reconRegion M.d3 P (c.down d)) :
    flux0 M S P J dt old f d c = (physFlux M.d3 S d u).scale M.d3 (fluxFactor S dt d) := by
  unfold flux0 storedFlux
  rw [polyAt_uniform h hv.id hf hb hr, polyAt_uniform h hv.id hf hb' hr', meanFlux_uniform hM hv hS]

/-- States after the fill of a uniform interior. -/
theorem fillF_uniform (h : MoodSetup M P B) (hx : B.xlo ≠ .reflecting ∧ B.xhi ≠ .reflecting)
    (hy : B.ylo ≠ .reflecting ∧ B.yhi ≠ .reflecting)
    (hz : M.d3 = true → B.zlo ≠ .reflecting ∧ B.zhi ≠ .reflecting) {u : HState ℝ}
    (hn : u.norm M.d3 = u)
    (hf : ∀ c, P.box M.d3 c → P.inner M.d3 c → f c = u) {c : Cell} (hb : P.box M.d3 c) :
    fillF M.d3 P B f c = u := by
  obtain ⟨h1, h2⟩ := srcCell_inner h h.one_le hb
  refine state_ext (ofComps_norm _ _) hn fun v hv => ?_
  unfold fillF
  rw [ofComps_get _ _ hv, crossAll_real_id hx hy hz, hf _ h1 h2]

/-- With floors at least zero, the flag is the sign of the new density. -/
theorem flagOf_real (d3 : Bool) (hS : GasParams S) (u : HState ℝ)
    (F : Dir → HState ℝ × HState ℝ) :
    flagOf d3 S u F = if (accFluxes d3 u F).d < 0 then 1 else 0 := by
  have hp : ¬ (computePrimitives d3 S u).1.p < 0 := by
    have a := prim_above d3 S u .x
    have h1 := a.d
    have h2 := a.p
    simp only [HState.swap] at h1 h2
    have := mul_pos (lt_of_lt_of_le hS.smallr h1) hS.smallp
    linarith
  unfold flagOf
  simp only [lit_real, ltb]
  norm_num [hp]

end Verif.Mood
