import Verif.Lemmas.SdmViscous
import Verif.Lemmas.SdmUniform
import Verif.Props.C85_C89_SdmStep

/-!
# C90: viscous terms of the spectral difference solver

`viscousTerms M S P mu A`: the parallel loops launched for the viscous terms, given the viscosity `mu` and the
array `A` that holds the state; `viscDom`: the allocated entries.  `velocityGradients M S P A d`: the first three of
them, which fill the array `sVGrad d` with the derivatives in direction `d` of the velocity components at the
solution points.
-/

namespace Verif.Sdm

open Verif Spec ROps

section any
variable {α : Type} [ROps α] {M : Scheme α} {S : Settings α} {P : Grid}

/-- **C90**: the loop that evaluates the viscous fluxes is never well defined: on every grid, for every order,
direction and state, its first access is to an array for which nothing is allocated. -/
theorem C90_flux_undefined (h : Ready M P) (hN : 0 < M.N) (ti : Mood.TimeInt) {d : Dir}
    (hd : M.d3 = true ∨ d ≠ .z) (mu : α) (m : Addr → α) :
    ¬ (viscousFlux M P mu d).InBounds (viscDom M.d3 M.N P ti) m := by
  intro hin
  obtain ⟨p, L, hl⟩ := lines_ne hd hN
  have hpos : 0 < (P.isize * P.jsize * (if M.d3 then P.ksize else 1)).toNat := by
    have h1 := h.ne.i
    have h2 := h.ne.j
    have h3 : 0 < (if M.d3 then P.ksize else 1) := by
      split_ifs with e
      · exact h.ne.k e
      · norm_num
    have := mul_pos (mul_pos h1 h2) h3
    omega
  have hnx : ∃ n, velDims M.d3 + velDims M.d3 * velDims M.d3 = n + 1 := by cases M.d3 <;> exact ⟨_, rfl⟩
  obtain ⟨n, hn⟩ := hnx
  let c := Mood.cellAt M.lay M.d3 P 0
  have hx : ∃ x Lx, lines M.d3 M.N d ×ˢ List.range (M.N + 1) = x :: Lx := by
    refine List.exists_cons_of_ne_nil (List.ne_nil_of_mem (a := (p, 0)) ?_)
    rw [List.mem_product]; exact ⟨by rw [hl]; simp, by simp⟩
  obtain ⟨x, Lx, hx⟩ := hx
  have hnext : (((viscousFlux M P mu d).start m).2 ⟨0, hpos⟩).next =
      some (.read, M.flxIn sUnbound d c (x.1.set d x.2) 0) := by
    show (forEach (lines M.d3 M.N d ×ˢ List.range (M.N + 1)) _).next = _
    rw [hx]
    refine forEach_next ?_
    rw [hn]
    exact loadVals_next _ _ _
  have := hin _ _ _ _ Relation.ReflTransGen.refl hnext
  rcases this with ⟨-, ⟨h1, -⟩ | ⟨h1, -⟩⟩ | ⟨-, ⟨e, -, h1, -⟩ | ⟨h1, -⟩⟩
  · rcases h1 with h1 | h1 | ⟨i, h0, h2, h1⟩
    · exact absurd (show sUnbound = sU from h1) (by decide)
    · exact absurd (show sUnbound = sDiv from h1) (by decide)
    · have h3 : rkArrays ti ≤ 4 := by cases ti <;> decide
      have h4 : sUnbound = 2 + i := h1
      simp only [sUnbound] at h4
      omega
  · exact absurd (show sUnbound = sF from h1) (by decide)
  · have h2 : sUnbound = sVGrad e := h1
    cases e <;> exact absurd h2 (by decide)
  · exact absurd (show sUnbound = sFG from h1) (by decide)

/-- **C90**: with a positive viscosity no step of the solver is well defined, whatever the grid, the order and the
state. -/
theorem C90_undefined (h : Ready M P) (hN : 0 < M.N) (ti : Mood.TimeInt) {mu : α}
    (hmu : gtb mu (lit 0) = true) (A : ℕ) (m : Addr → α) :
    ¬ ∃ m', YieldsAll (viscDom M.d3 M.N P ti) (viscousTerms M S P mu A) m m' := by
  rintro ⟨m', y⟩
  have hmem : viscousFlux M P mu .x ∈ viscousTerms M S P mu A := by
    unfold viscousTerms
    rw [if_pos hmu]
    simp [viscousAlong]
  obtain ⟨m1, m2, y1⟩ := YieldsAll.mem y hmem
  exact C90_flux_undefined h hN ti (.inr (by decide)) mu m1 y1.inBounds

/-- **C90**: without viscosity (the default) none of the loops is launched. -/
theorem C90_off {mu : α} (hmu : gtb mu (lit 0) = false) (A : ℕ) : viscousTerms M S P mu A = [] := by
  unfold viscousTerms
  rw [hmu]; rfl

end any

section real
variable {M : Scheme ℝ} {S : Settings ℝ} {P : Grid} {B : Sides}

/-- **C90**: the gradients.  The loops access only allocated entries, have no race and a unique result.  In every
interior cell the first velocity component gets the derivative of the polynomial through its values at flux points,
with the mean of the two cells at the ends; for the other components the values at the ends are those of the cell
alone.  Except in 2D along `x` the derivative is added to what the array held. -/
theorem C90_gradients (hM : ExactScheme M) (h : Setup M P B) {ti : Mood.TimeInt} {A : ℕ} (hA : solArray ti A)
    {d : Dir} (hd : M.d3 = true ∨ d ≠ .z) (m : Addr → ℝ) :
    ∃ m', YieldsAll (viscDom M.d3 M.N P ti) (velocityGradients M S P A d) m m' ∧
      (∀ c p i, P.box M.d3 c → P.inner M.d3 c → IsSolPt M.d3 M.N p → i < velDims M.d3 →
        m' (M.sol (sVGrad d) c p i) =
          (if M.d3 = false ∧ d = .x then 0 else m (M.sol (sVGrad d) c p i)) +
          slopeAlong M.N S d (if i = 0 then meanAtFlux M.N d (velocityOf (valsOf M m A) i)
            else atFlux M.N d (velocityOf (valsOf M m A) i)) c p) ∧
      (∀ a, a.arr ≠ sF → a.arr ≠ sVGrad d → m' a = m a) := by
  have hN := hM.orders.1
  have hdim : 0 < velDims M.d3 := by cases M.d3 <;> decide
  obtain ⟨m1, y1, v1, f1⟩ := velocities_yields h.ready hN hd hA m
  obtain ⟨m2, y2, v2, w2, f2⟩ := averageBorders_yields h.ready hN hd ti hdim id m1
  obtain ⟨m3, y3, v3, f3⟩ := velocitySlopes_yields (S := S) h.ready hd ti m2
  have hseq : velocityGradients M S P A d = [velocities M P d A sF,
      averageBorders M P d sF (velDims M.d3) id, velocitySlopes M S P d (sVGrad d)] := by
    unfold velocityGradients
    refine if_neg ?_
    rintro ⟨e1, e2⟩
    rcases hd with e | e
    · rw [e1] at e; cases e
    · exact e e2
  rw [hseq]
  refine ⟨m3, .cons y1 (.cons y2 (.cons y3 (.nil _))), fun c p i hb hc hp hi => ?_, fun a h1 h2 => ?_⟩
  · have hco := inner_coord hd hc
    have hsz := size_eq P d
    have hg := h.gw
    have h0 : 0 < coord d c := by omega
    have h1 : coord d c + 1 < size P d := by omega
    have point : ∀ c' q, P.box M.d3 c' → IsFluxPt M.d3 M.N d q →
        m1 (M.flx d c' q i) = atFlux M.N d (velocityOf (valsOf M m A) i) c' q := by
      intro c' q hb' hq
      rw [v1 c' q i hb' hq hi, hM.sp, hM.fp, sol2flux_line]
      rfl
    have face : ∀ k, k < M.N + 1 → m2 (M.flx d c (p.set d k) i) =
        (if i = 0 then meanAtFlux M.N d (velocityOf (valsOf M m A) i)
          else atFlux M.N d (velocityOf (valsOf M m A) i)) c (p.set d k) := by
      intro k hk
      have hf := hp.flux hd hk
      by_cases hi0 : i = 0
      · subst hi0
        rw [if_pos rfl, v2 c _ hb hf h0 h1]
        unfold meanAtFlux
        split_ifs with e1 e2
        · rw [point _ _ hb hf, point _ _ (box_down hd hb h0)
            (by rw [Pt.set_set]; exact hp.flux hd (by omega))]
        · rw [point _ _ hb hf, point _ _ (box_up hd hb h1)
            (by rw [Pt.set_set]; exact hp.flux hd (by omega))]
        · rw [point _ _ hb hf]
      · rw [if_neg hi0, w2 c _ i hf hi0, point _ _ hb hf]
    have slope : flux2solDerivativeVector M.N M.sp M.fp (fun k => m2 (M.flx d c (p.set d k) i)) (rescale S d)
        (p.get d) = slopeAlong M.N S d (if i = 0 then meanAtFlux M.N d (velocityOf (valsOf M m A) i)
            else atFlux M.N d (velocityOf (valsOf M m A) i)) c p := by
      have e : flux2solDerivativeVector M.N M.sp M.fp (fun k => m2 (M.flx d c (p.set d k) i)) (rescale S d)
          (p.get d) = flux2solDerivativeVector M.N M.sp M.fp (fun k =>
            (if i = 0 then meanAtFlux M.N d (velocityOf (valsOf M m A) i)
              else atFlux M.N d (velocityOf (valsOf M m A) i)) c (p.set d k)) (rescale S d) (p.get d) := by
        unfold flux2solDerivativeVector
        congr 1
        exact sumIf_congr fun k hk => by beta_reduce; rw [face k hk]
      rw [e, hM.sp, hM.fp, flux2sol_line hM.orders _ _ (hp.get_lt hd), rescale_eq, mul_one_div]
      rfl
    have keep : m2 (M.sol (sVGrad d) c p i) = m (M.sol (sVGrad d) c p i) := by
      rw [f2 _ (sVGrad_ne d), f1 _ (sVGrad_ne d)]
    rw [v3 c p i hb hp hi, slope, keep]
    by_cases hcase : M.d3 = false ∧ d = .x
    · rw [if_pos hcase, if_pos hcase, zero_add]
    · rw [if_neg hcase, if_neg hcase]
  · rw [f3 a h2, f2 a h1, f1 a h1]

/-- **C90 violated**: a jump between cells does not enter the gradient of the second and third velocity component:
where such a component is constant inside the cell its derivative is left at what the array held, whatever it is in
the neighbours. -/
theorem C90_jump_missed (hM : ExactScheme M) (h : Setup M P B) {ti : Mood.TimeInt} {A : ℕ} (hA : solArray ti A)
    {d : Dir} (hd : M.d3 = true ∨ d ≠ .z) {m m' : Addr → ℝ} (r : Runs (velocityGradients M S P A d) m m')
    {c : Cell} (hb : P.box M.d3 c) (hc : P.inner M.d3 c) {i : ℕ} (hi : i < velDims M.d3) (hi0 : i ≠ 0) {w : ℝ}
    (hw : ∀ p, IsSolPt M.d3 M.N p → velocityOf (valsOf M m A) i c p = w) {p : Pt} (hp : IsSolPt M.d3 M.N p) :
    m' (M.sol (sVGrad d) c p i) = if M.d3 = false ∧ d = .x then 0 else m (M.sol (sVGrad d) c p i) := by
  obtain ⟨m1, y, v, -⟩ := C90_gradients (S := S) hM h hA hd m
  obtain rfl := y.unique r
  rw [v c p i hb hc hp hi, if_neg hi0]
  have hN := hM.orders.1
  have e : slopeAlong M.N S d (atFlux M.N d (velocityOf (valsOf M m A) i)) c p = 0 := by
    unfold slopeAlong atFlux
    have e1 : (fun k => lineValue M.N
        (fun k' => velocityOf (valsOf M m A) i c (((p.set d k).set d k'))) (fluxPts M.N ((p.set d k).get d))) =
        fun _ => w := by
      funext k
      have e2 : lineValue M.N (fun k' => velocityOf (valsOf M m A) i c (((p.set d k).set d k')))
          (fluxPts M.N ((p.set d k).get d)) = lineValue M.N (fun _ => w) (fluxPts M.N ((p.set d k).get d)) := by
        unfold lineValue
        congr 1
        refine Lagrange.interpolate_eq_of_values_eq_on _ _ fun j hj => ?_
        rw [Pt.set_set]
        exact hw _ (hp.set hd (Finset.mem_range.1 hj))
      rw [e2, lineValue_const hN]
    rw [e1, lineSlope_const hM.orders, zero_div]
  rw [e, add_zero]

/-- **C90 violated**: except in 2D along `x` the gradients accumulate.  Evaluated twice for the same state, as the
stages of the integrators do, with the array cleared before, they are twice the derivative; that is wrong wherever
the derivative is not zero. -/
theorem C90_accumulates (hM : ExactScheme M) (h : Setup M P B) {ti : Mood.TimeInt} {A : ℕ} (hA : solArray ti A)
    {d : Dir} (hd : M.d3 = true ∨ d ≠ .z) (hx : M.d3 = true ∨ d ≠ .x) {m m' m'' : Addr → ℝ}
    (r1 : Runs (velocityGradients M S P A d) m m') (r2 : Runs (velocityGradients M S P A d) m' m'')
    {c : Cell} (hb : P.box M.d3 c) (hc : P.inner M.d3 c) {p : Pt} (hp : IsSolPt M.d3 M.N p) {i : ℕ}
    (hi : i < velDims M.d3) (h0 : m (M.sol (sVGrad d) c p i) = 0) :
    m'' (M.sol (sVGrad d) c p i) = 2 * m' (M.sol (sVGrad d) c p i) ∧
    (m' (M.sol (sVGrad d) c p i) ≠ 0 → m'' (M.sol (sVGrad d) c p i) ≠ m' (M.sol (sVGrad d) c p i)) := by
  obtain ⟨m1, y1, v1, f1⟩ := C90_gradients (S := S) hM h hA hd m
  obtain rfl := y1.unique r1
  obtain ⟨m2, y2, v2, -⟩ := C90_gradients (S := S) hM h hA hd m'
  obtain rfl := y2.unique r2
  have hnot : ¬ (M.d3 = false ∧ d = .x) := by
    rintro ⟨e1, e2⟩
    rcases hx with e | e
    · rw [e1] at e; cases e
    · exact e e2
  have hne : A ≠ sVGrad d := by
    rcases hA with e | e | ⟨k, h1, h2, e⟩
    · rw [e]; cases d <;> decide
    · rw [e]; cases d <;> decide
    · have h3 : rkArrays ti ≤ 4 := by cases ti <;> decide
      rw [e]; cases d <;> simp only [sRK, sVGrad] <;> omega
  have same : valsOf M m' A = valsOf M m A := by
    funext c p i
    exact f1 _ hA.ne hne
  have key : m'' (M.sol (sVGrad d) c p i) = 2 * m' (M.sol (sVGrad d) c p i) := by
    rw [v2 c p i hb hc hp hi, if_neg hnot, same]
    have e := v1 c p i hb hc hp hi
    rw [if_neg hnot, h0, zero_add] at e
    rw [← e]; ring
  refine ⟨key, fun hn e => hn ?_⟩
  rw [key] at e
  linarith

end real

/-! ### Examples -/

/-- In the channel every step with viscosity is undefined, for every state. -/
example (d3 : Bool) (m : Addr → ℝ) : ¬ ∃ m', YieldsAll (viscDom d3 3 (channel d3) .ssprk3)
    (viscousTerms (exampleScheme d3) hllcSettings (channel d3) (1 / 100) sU) m m' :=
  C90_undefined (channel_setup d3).ready (by show 0 < 3; decide) .ssprk3 (by
    show decide ((lit 0 : ℝ) < 1 / 100) = true
    have : (lit 0 : ℝ) = 0 := by rops
    rw [this]; norm_num) sU m

example (d3 : Bool) (d : Dir) (hd : d3 = true ∨ d ≠ .z) (m : Addr → ℝ) :
    ∃ m', Runs (velocityGradients (exampleScheme d3) hllcSettings (channel d3) sU d) m m' := by
  obtain ⟨m', y, -⟩ := C90_gradients (S := hllcSettings) (exampleScheme_exact d3) (channel_setup d3)
    (ti := .ssprk3) (A := sU) (.inl rfl) hd m
  exact ⟨m', y.run⟩

open Classical in
/-- Density one; the other variables are the row number of the cell, so that the velocity jumps from row to row. -/
noncomputable def rowMem (M : Scheme ℝ) : Addr → ℝ := fun a =>
  if a.arr ≠ sU then 0 else if ∃ c p, IsSolPt M.d3 M.N p ∧ a = M.sol sU c p 0 then 1 else (a.j : ℝ)

theorem rowMem_velocity (M : Scheme ℝ) {c : Cell} {p : Pt} (hp : IsSolPt M.d3 M.N p) (i : ℕ) :
    velocityOf (valsOf M (rowMem M) sU) i c p = c.j := by
  have h1 : rowMem M (M.sol sU c p 0) = 1 := by
    unfold rowMem
    rw [if_neg (fun h => h rfl), if_pos ⟨c, p, hp, rfl⟩]
  have h2 : rowMem M (M.sol sU c p (2 + i)) = c.j := by
    unfold rowMem
    rw [if_neg (fun h => h rfl), if_neg]
    · rfl
    · rintro ⟨c', p', hp', e⟩
      have := (sol_inj hp hp' e).2.2.2
      omega
  show rowMem M (M.sol sU c p (2 + i)) / rowMem M (M.sol sU c p 0) = _
  rw [h1, h2, div_one]

/-- The vertical velocity differs by one between neighbouring rows and the gradient stays at zero. -/
example (d3 : Bool) : ∃ m', Runs (velocityGradients (exampleScheme d3) hllcSettings (channel d3) sU .y)
      (rowMem (exampleScheme d3)) m' ∧
    (∀ c p, IsSolPt d3 3 p → velocityOf (valsOf (exampleScheme d3) (rowMem (exampleScheme d3)) sU) 1
      (c.up .y) p = velocityOf (valsOf (exampleScheme d3) (rowMem (exampleScheme d3)) sU) 1 c p + 1) ∧
    ∀ c p, (channel d3).box d3 c → (channel d3).inner d3 c → IsSolPt d3 3 p →
      m' ((exampleScheme d3).sol (sVGrad .y) c p 1) = 0 := by
  have hd : (exampleScheme d3).d3 = true ∨ Dir.y ≠ .z := .inr (by decide)
  obtain ⟨m', y, -⟩ := C90_gradients (S := hllcSettings) (exampleScheme_exact d3) (channel_setup d3)
    (ti := .ssprk3) (A := sU) (.inl rfl) hd (rowMem (exampleScheme d3))
  refine ⟨m', y.run, fun c p hp => ?_, fun c p hb hc hp => ?_⟩
  · rw [rowMem_velocity _ (show IsSolPt (exampleScheme d3).d3 (exampleScheme d3).N p from hp),
      rowMem_velocity _ (show IsSolPt (exampleScheme d3).d3 (exampleScheme d3).N p from hp)]
    simp [Cell.up]
  · rw [C90_jump_missed (exampleScheme_exact d3) (channel_setup d3) (ti := .ssprk3) (.inl rfl) hd y.run hb hc
      (i := 1) (by cases d3 <;> decide) (by decide) (w := c.j) (fun p hp => rowMem_velocity _ hp 1) hp]
    refine (if_neg fun h => absurd h.2 (by decide)).trans ?_
    exact if_pos (by show sVGrad .y ≠ sU; decide)

/-- Both evaluations exist from any state. -/
example (m : Addr → ℝ) (h0 : ∀ a, a.arr = sVGrad .y → m a = 0) : ∃ m' m'',
    Runs (velocityGradients (exampleScheme false) hllcSettings (channel false) sU .y) m m' ∧
    Runs (velocityGradients (exampleScheme false) hllcSettings (channel false) sU .y) m' m'' ∧
    ∀ c p i, (channel false).box false c → (channel false).inner false c → IsSolPt false 3 p → i < 2 →
      m'' ((exampleScheme false).sol (sVGrad .y) c p i) =
        2 * m' ((exampleScheme false).sol (sVGrad .y) c p i) := by
  have hd : (exampleScheme false).d3 = true ∨ Dir.y ≠ .z := .inr (by decide)
  obtain ⟨m', y, -⟩ := C90_gradients (S := hllcSettings) (exampleScheme_exact false) (channel_setup false)
    (ti := .ssprk3) (A := sU) (.inl rfl) hd m
  obtain ⟨m'', y', -⟩ := C90_gradients (S := hllcSettings) (exampleScheme_exact false) (channel_setup false)
    (ti := .ssprk3) (A := sU) (.inl rfl) hd m'
  exact ⟨m', m'', y.run, y'.run, fun c p i hb hc hp hi =>
    (C90_accumulates (exampleScheme_exact false) (channel_setup false) (ti := .ssprk3) (.inl rfl) hd
      (.inr (by decide)) y.run y'.run hb hc hp hi (h0 _ rfl)).1⟩

end Verif.Sdm
