import Verif.Lemmas.InitHydro
import Verif.Lemmas.RealOps
import Verif.Props.C22_C26_HydroStep
import Verif.Props.C100_InitField

/-! # C103: the initial state does not depend on the decomposition among processes -/

namespace Verif

open Spec ROps TOps

namespace Spec

/-- Two processes of two decompositions of one domain: same extents, same width of the border. -/
def SameDomain {α : Type} (P P' : Grid) (D D' : Domain α) : Prop :=
  P.ghostWidth = P'.ghostWidth ∧ D.xmin = D'.xmin ∧ D.xmax = D'.xmax ∧ D.ymin = D'.ymin ∧ D.ymax = D'.ymax ∧
    D.zmin = D'.zmin ∧ D.zmax = D'.zmax

/-- The cells `c` of one process and `c'` of the other have the same position in the whole domain. -/
def SamePlace {α : Type} (d3 : Bool) (P P' : Grid) (D D' : Domain α) (c c' : Cell) : Prop :=
  c.i + P.nx * D.i_mpi = c'.i + P'.nx * D'.i_mpi ∧ c.j + P.ny * D.j_mpi = c'.j + P'.ny * D'.j_mpi ∧
    (d3 = true → c.k + P.nz * D.k_mpi = c'.k + P'.nz * D'.k_mpi)

/-- The problem draws random numbers. -/
def Random {α : Type} : HydroProblem α → Prop
  | .kelvinHelmholtz p _ => p.p_rand = true
  | _ => False

/-- The same for the MHD solver. -/
def RandomMhd {α : Type} : MhdProblem α → Prop
  | .kelvinHelmholtz p _ => p.p_rand = true
  | _ => False

/-- The field loop. -/
def IsFieldLoop {α : Type} : MhdProblem α → Prop
  | .fieldLoop _ => True
  | _ => False

end Spec

section helpers

variable {α : Type} [TOps α] {d3 : Bool} {P P' : Grid} {D D' : Domain α} {c c' : Cell}

theorem xAt_same {S : Settings α} (h : SameDomain P P' D D') (hc : SamePlace d3 P P' D D' c c') :
    xAt S P D c.i = xAt S P' D' c'.i ∧ yAt S P D c.j = yAt S P' D' c'.j ∧
      (d3 = true → zAt S P D c.k = zAt S P' D' c'.k) := by
  obtain ⟨hg, h1, h2, h3, h4, h5, h6⟩ := h
  obtain ⟨c1, c2, c3⟩ := hc
  unfold xAt yAt zAt
  rw [h1, h3, h5, hg, c1, c2]
  exact ⟨rfl, rfl, fun hd => by rw [c3 hd]⟩

theorem xPos_same {S : MSettings α} (h : SameDomain P P' D D') (hc : SamePlace d3 P P' D D' c c') :
    xPos S P D c.i = xPos S P' D' c'.i ∧ yPos S P D c.j = yPos S P' D' c'.j ∧
      (d3 = true → zPos S P D c.k = zPos S P' D' c'.k) := by
  obtain ⟨hg, h1, h2, h3, h4, h5, h6⟩ := h
  obtain ⟨c1, c2, c3⟩ := hc
  unfold xPos yPos zPos
  rw [h1, h3, h5, hg, c1, c2]
  exact ⟨rfl, rfl, fun hd => by rw [c3 hd]⟩

theorem place_up (hc : SamePlace d3 P P' D D' c c') (d : Dir) :
    SamePlace d3 P P' D D' (c.up d) (c'.up d) := by
  obtain ⟨c1, c2, c3⟩ := hc
  cases d
  · exact ⟨by simp only [Cell.up]; omega, c2, c3⟩
  · exact ⟨c1, by simp only [Cell.up]; omega, c3⟩
  · refine ⟨c1, c2, fun hd => ?_⟩
    have := c3 hd
    simp only [Cell.up]; omega

theorem hydroValues_same {S : Settings α} {Q : HydroProblem α} (h : SameDomain P P' D D')
    (hc : SamePlace d3 P P' D D' c c') (hQ : ¬ Random Q) :
    hydroValues d3 S P D Q c = hydroValues d3 S P' D' Q c' ∧
      hydroGravity d3 S P D Q c = hydroGravity d3 S P' D' Q c' := by
  obtain ⟨e1, e2, e3⟩ := xAt_same (S := S) h hc
  obtain ⟨-, h1, h2, h3, h4, h5, h6⟩ := h
  cases d3
  · cases Q <;> simp only [hydroValues, hydroGravity, implodeHydro, blastHydro, khHydro2, greshoHydro,
      fourQuadrant, isentropicVortex, rayleighTaylor, risingBubble, diskHydro, diskPos, e1, e2, h1, h2, h3, h4,
      Bool.false_eq_true, if_false, and_self]
    case kelvinHelmholtz p rnd =>
      have : p.p_rand = false := by simpa [Random] using hQ
      simp only [this, Bool.false_eq_true, if_false, and_self]
  · have e3 := e3 rfl
    cases Q <;> simp only [hydroValues, hydroGravity, implodeHydro, blastHydro, khHydro3, greshoHydro,
      fourQuadrant, isentropicVortex, rayleighTaylor, risingBubble, diskHydro, diskPos, e1, e2, e3,
      h1, h2, h3, h4, h5, h6, if_true, and_self]
    case kelvinHelmholtz p rnd =>
      have : p.p_rand = false := by simpa [Random] using hQ
      simp only [this, Bool.false_eq_true, if_false, and_self]

theorem hydro_init_run {S : Settings α} {Q : HydroProblem α} {m m' : Addr → α}
    (hn : P.nbvar = hydroVars d3) (r : Runs [hydroInitLoop d3 S P D aU Q] m m') :
    (∀ c v, P.box d3 c → m' (c.at aU v) = lastOf (hydroValues d3 S P D Q c) v (m (c.at aU v))) ∧
      (∀ c v, P.box d3 c → m' (c.at aG v) = lastOf (hydroGravity d3 S P D Q c) v (m (c.at aG v))) := by
  obtain ⟨m2, y, e, g, -⟩ := hydro_init (S := S) (D := D) (Q := Q) (impl := 0) (grav := true) hn
    (fun _ => rfl) m
  obtain rfl := (YieldsAll.cons y (.nil _)).unique r
  exact ⟨e, g⟩

end helpers

/-- **C103**: in any arithmetic, two processes of two decompositions of a domain (one of which may be the run
on a single process) set up the same state and gravity, bit by bit, in cells at the same place of the
domain, borders included, unless random numbers are drawn. -/
theorem C103_hydro {α : Type} [TOps α] {d3 : Bool} {S : Settings α} {P P' : Grid} {D D' : Domain α}
    {Q : HydroProblem α} {m0 m0' m m' : Addr → α} (hm : Fresh m0) (hm' : Fresh m0')
    (hn : P.nbvar = hydroVars d3) (hn' : P'.nbvar = hydroVars d3)
    (r : Runs [hydroInitLoop d3 S P D aU Q] m0 m) (r' : Runs [hydroInitLoop d3 S P' D' aU Q] m0' m')
    (h : SameDomain P P' D D') (hQ : ¬ Random Q) {c c' : Cell} (hb : P.box d3 c) (hb' : P'.box d3 c')
    (hc : SamePlace d3 P P' D D' c c') (v : Nat) :
    m (c.at aU v) = m' (c'.at aU v) ∧ m (c.at aG v) = m' (c'.at aG v) := by
  obtain ⟨e, g⟩ := hydro_init_run hn r
  obtain ⟨e', g'⟩ := hydro_init_run hn' r'
  obtain ⟨s1, s2⟩ := hydroValues_same (S := S) h hc hQ
  rw [e c v hb, e' c' v hb', g c v hb, g' c' v hb', s1, s2, hm, hm', hm, hm']
  exact ⟨rfl, rfl⟩

section mhd

variable {α : Type} [TOps α] {d3 : Bool} {P P' : Grid} {D D' : Domain α} {c c' : Cell} {S : MSettings α}

theorem mhd_init_run {Q : MhdProblem α} {m m' : Addr → α} (hg : 3 ≤ P.ghostWidth) (hn : P.nbvar = 8)
    (r : Runs (mhdInitLoops d3 S P D aU Q) m m') :
    ∀ c v, P.box d3 c → P.inner d3 c → m' (c.at aU v) = initVal d3 S P D m Q c v := by
  obtain ⟨m0, y, e, -⟩ := mhd_init (d3 := d3) (S := S) (D := D) (impl := 0) hg hn Q m
  obtain rfl := y.unique r
  exact e

theorem orszagTang_same (kt : α) (h : SameDomain P P' D D') (hc : SamePlace d3 P P' D D' c c') :
    (if d3 then orszagTang3 S P D kt c else orszagTang2 S P D c) =
      if d3 then orszagTang3 S P' D' kt c' else orszagTang2 S P' D' c' := by
  obtain ⟨e1, e2, e3⟩ := xPos_same (S := S) h hc
  obtain ⟨-, h1, h2, h3, h4, h5, h6⟩ := h
  cases d3
  · simp only [orszagTang2, e1, e2, Bool.false_eq_true, if_false]
  · simp only [orszagTang3, e1, e2, e3 rfl, h5, h6, if_true]

theorem wavePotential_same (p : WaveParams α) (h : SameDomain P P' D D')
    (hc : SamePlace true P P' D D' c c') : wavePotential S P D p c = wavePotential S P' D' p c' := by
  obtain ⟨e1, e2, e3⟩ := xPos_same (S := S) h hc
  simp only [wavePotential, e1, e2, e3 rfl]

theorem loopPotential_same (p : FieldLoopParams α) (h : SameDomain P P' D D')
    (hc : SamePlace d3 P P' D D' c c') :
    fieldLoopPotential d3 S P D p c = fieldLoopPotential d3 S P' D' p c' := by
  obtain ⟨e1, e2, -⟩ := xPos_same (S := S) h hc
  simp only [fieldLoopPotential, e1, e2]

theorem initVal_same {Q : MhdProblem α} {m m' : Addr → α} (hm : Fresh m) (hm' : Fresh m')
    (h : SameDomain P P' D D') (hc : SamePlace d3 P P' D D' c c') (hi : P.inner d3 c)
    (hi' : P'.inner d3 c') (hQ : ¬ RandomMhd Q) (hL : ¬ IsFieldLoop Q) (v : Nat) :
    initVal d3 S P D m Q c v = initVal d3 S P' D' m' Q c' v := by
  have f : ∀ a, m a = lit 0 := hm
  have f' : ∀ a, m' a = lit 0 := hm'
  obtain ⟨e1, e2, e3⟩ := xPos_same (S := S) h hc
  cases Q with
  | fieldLoop p => exact absurd trivial hL
  | orszagTang kt =>
    simp only [initVal, f, f', otEnergy, orszagTang_same (S := S) kt h hc,
      orszagTang_same (S := S) kt h (place_up hc .x), orszagTang_same (S := S) kt h (place_up hc .y)]
  | wave p =>
    cases d3
    · simp only [initVal, f, f', Bool.false_eq_true, if_false]
    · simp only [initVal, f, f', if_true, curlList3, wavePotential_same (S := S) p h hc,
        wavePotential_same (S := S) p h (place_up hc .x), wavePotential_same (S := S) p h (place_up hc .y),
        wavePotential_same (S := S) p h (place_up hc .z), waveFlow_eq, if_pos hi, if_pos hi', stores_at]
      simp only [waveList, e1, e2, e3 rfl]
  | blast p =>
    cases d3
    · simp only [initVal, f, f', blastMhd, e1, e2, Bool.false_eq_true, if_false]
    · simp only [initVal, f, f', blastMhd, e1, e2, e3 rfl]
  | implode p =>
    obtain ⟨-, h1, h2, h3, h4, h5, h6⟩ := h
    cases d3
    · simp only [initVal, f, f', implode2, e1, e2, h1, h2, h3, Bool.false_eq_true, if_false]
    · simp only [initVal, f, f', implode3, e1, e2, e3 rfl, h1, h2, h3, h5, if_true]
  | rotor p =>
    obtain ⟨-, h1, h2, h3, h4, h5, h6⟩ := h
    cases d3
    · simp only [initVal, f, f', rotor2, e1, e2, h1, h2, h3, h4, Bool.false_eq_true, if_false]
    · simp only [initVal, f, f', rotor3, e1, e2, h1, h2, h3, h4, if_true]
  | kelvinHelmholtz p rnd =>
    have hr : p.p_rand = false := by simpa [RandomMhd] using hQ
    obtain ⟨-, h1, h2, h3, h4, h5, h6⟩ := h
    cases d3
    · simp only [initVal, f, f', kelvinHelmholtz2, e1, e2, hr, Bool.false_eq_true, if_false]
    · simp only [initVal, f, f', kelvinHelmholtz3, e1, e2, e3 rfl, hr, Bool.false_eq_true, if_false, if_true]

end mhd

/-- **C103**: the same for the MHD solver, in the interior cells, for all problems except the field loop. -/
theorem C103_mhd {α : Type} [TOps α] {d3 : Bool} {S : MSettings α} {P P' : Grid} {D D' : Domain α}
    {Q : MhdProblem α} {m0 m0' m m' : Addr → α} (hm : Fresh m0) (hm' : Fresh m0')
    (hg : 3 ≤ P.ghostWidth) (hn : P.nbvar = 8) (hn' : P'.nbvar = 8)
    (r : Runs (mhdInitLoops d3 S P D aU Q) m0 m) (r' : Runs (mhdInitLoops d3 S P' D' aU Q) m0' m')
    (h : SameDomain P P' D D') (hQ : ¬ RandomMhd Q) (hL : ¬ IsFieldLoop Q) {c c' : Cell}
    (hb : P.box d3 c) (hb' : P'.box d3 c') (hi : P.inner d3 c) (hi' : P'.inner d3 c')
    (hc : SamePlace d3 P P' D D' c c') (v : Nat) : m (c.at aU v) = m' (c'.at aU v) := by
  rw [mhd_init_run hg hn r c v hb hi, mhd_init_run (h.1 ▸ hg) hn' r' c' v hb' hi',
    initVal_same hm hm' h hc hi hi' hQ hL v]

/-- **C103**, field loop: density, field and horizontal momentum do not depend on the decomposition; nor does
the vertical momentum in 3D. -/
theorem C103_fieldLoop {α : Type} [TOps α] {d3 : Bool} {S : MSettings α} {P P' : Grid} {D D' : Domain α}
    {p : FieldLoopParams α} {m0 m0' m m' : Addr → α} (hm : Fresh m0) (hm' : Fresh m0')
    (hg : 3 ≤ P.ghostWidth) (hn : P.nbvar = 8) (hn' : P'.nbvar = 8)
    (r : Runs (mhdInitLoops d3 S P D aU (.fieldLoop p)) m0 m)
    (r' : Runs (mhdInitLoops d3 S P' D' aU (.fieldLoop p)) m0' m')
    (h : SameDomain P P' D D') {c c' : Cell}
    (hb : P.box d3 c) (hb' : P'.box d3 c') (hi : P.inner d3 c) (hi' : P'.inner d3 c')
    (hc : SamePlace d3 P P' D D' c c') {v : Nat} (hv : v ≠ IP) (hw : d3 = true ∨ v ≠ IW) :
    m (c.at aU v) = m' (c'.at aU v) := by
  have f : ∀ a, m0 a = lit 0 := hm
  have f' : ∀ a, m0' a = lit 0 := hm'
  obtain ⟨e1, e2, -⟩ := xPos_same (S := S) h hc
  rw [mhd_init_run hg hn r c v hb hi, mhd_init_run (h.1 ▸ hg) hn' r' c' v hb' hi']
  cases d3
  · have hw : v ≠ IW := by simpa using hw
    have hw' : ¬ IW = v := fun e => hw e.symm
    simp only [initVal, if_neg hv, if_pos hi, if_pos hi', f, f', curlList2, fieldLoopFlow, e1, e2,
      loopPotential_same (S := S) p h hc, loopPotential_same (S := S) p h (place_up hc .x),
      loopPotential_same (S := S) p h (place_up hc .y), Bool.false_eq_true, if_false, lastOf, List.foldl, List.cons_append,
      List.nil_append, if_neg hw']
  · simp only [initVal, if_neg hv, if_pos hi, if_pos hi', f, f', curlList3, fieldLoopFlow, e1, e2,
      loopPotential_same (S := S) p h hc, loopPotential_same (S := S) p h (place_up hc .x),
      loopPotential_same (S := S) p h (place_up hc .y), loopPotential_same (S := S) p h (place_up hc .z), if_true]

/-- **C103** fails for the vertical momentum of the 2D field loop: it is computed from the numbers of cells of
the process, so that two decompositions of the same domain give different flows. -/
theorem C103_fieldLoop_momentum_wrong {S : MSettings ℝ} {P P' : Grid} {D D' : Domain ℝ}
    {p : FieldLoopParams ℝ} {m0 m0' m m' : Addr → ℝ}
    (hg : 3 ≤ P.ghostWidth) (hn : P.nbvar = 8) (hn' : P'.nbvar = 8)
    (r : Runs (mhdInitLoops false S P D aU (.fieldLoop p)) m0 m)
    (r' : Runs (mhdInitLoops false S P' D' aU (.fieldLoop p)) m0' m')
    (h : SameDomain P P' D D') {c c' : Cell}
    (hb : P.box false c) (hb' : P'.box false c') (hi : P.inner false c) (hi' : P'.inner false c')
    (hc : SamePlace false P P' D D' c c') (hz : P.nz = P'.nz) (hz0 : P.nz ≠ 0) (hv : p.vflow ≠ 0)
    (hd : p.density_in ≠ 0) (hne : P.nx * P.nx + P.ny * P.ny ≠ P'.nx * P'.nx + P'.ny * P'.ny) :
    m (c.at aU IW) ≠ m' (c'.at aU IW) := by
  obtain ⟨e1, e2, -⟩ := xPos_same (S := S) h hc
  rw [mhd_init_run hg hn r c IW hb hi, mhd_init_run (h.1 ▸ hg) hn' r' c' IW hb' hi']
  simp only [initVal, if_neg (show IW ≠ IP by decide), if_pos hi, if_pos hi', curlList2, fieldLoopFlow, e1, e2,
    Bool.false_eq_true, if_false, lastOf, List.foldl, List.cons_append, List.nil_append, if_true,
    if_neg (show ID ≠ IW by decide), if_neg (show IU ≠ IW by decide), if_neg (show IV ≠ IW by decide),
    if_neg (show IA ≠ IW by decide), if_neg (show IB ≠ IW by decide), if_neg (show IC ≠ IW by decide), ← hz]
  generalize hq : (if ltb (sqrt (xPos S P' D' c'.i * xPos S P' D' c'.i +
    yPos S P' D' c'.j * yPos S P' D' c'.j)) p.radius = true then p.density_in else lit 1 : ℝ) = q
  have hq0 : q ≠ 0 := by
    rw [← hq]
    rcases ite_eq_or_eq (ltb (sqrt (xPos S P' D' c'.i * xPos S P' D' c'.i +
      yPos S P' D' c'.j * yPos S P' D' c'.j)) p.radius = true) p.density_in (lit 1 : ℝ) with e | e <;> rw [e]
    · exact hd
    · rops; exact one_ne_zero
  have pos : ∀ a b : Int, (0 : ℝ) < ((a * a + b * b + P.nz * P.nz : Int) : ℝ) := by
    intro a b
    have := mul_self_pos.2 hz0
    have h1 := mul_self_nonneg a
    have h2 := mul_self_nonneg b
    exact_mod_cast (by omega : 0 < a * a + b * b + P.nz * P.nz)
  have key : ∀ a b : Int, (sqrt (lit 1 * lit ((a * a + b * b + P.nz * P.nz : Int) : ℚ)) : ℝ) =
      Real.sqrt ((a * a + b * b + P.nz * P.nz : Int) : ℝ) := by
    intro a b
    rops
    simp
  rw [key, key]
  have hzr : (lit (P.nz : ℚ) : ℝ) ≠ 0 := by rops; exact_mod_cast hz0
  intro he
  have s1 := Real.sqrt_pos.2 (pos P.nx P.ny)
  have s2 := Real.sqrt_pos.2 (pos P'.nx P'.ny)
  have hnum : q * p.vflow * (lit (P.nz : ℚ) : ℝ) ≠ 0 := mul_ne_zero (mul_ne_zero hq0 hv) hzr
  have hs : Real.sqrt ((P.nx * P.nx + P.ny * P.ny + P.nz * P.nz : Int) : ℝ) =
      Real.sqrt ((P'.nx * P'.nx + P'.ny * P'.ny + P.nz * P.nz : Int) : ℝ) := by
    rw [div_eq_div_iff s1.ne' s2.ne'] at he
    exact (mul_left_cancel₀ hnum he).symm
  have := (Real.sqrt_inj (pos P.nx P.ny).le (pos P'.nx P'.ny).le).1 hs
  have : P.nx * P.nx + P.ny * P.ny + P.nz * P.nz = P'.nx * P'.nx + P'.ny * P'.ny + P.nz * P.nz := by
    exact_mod_cast this
  omega

/-- The loops of an initial condition can be run from any memory. -/
theorem mhd_init_exists {α : Type} [TOps α] {d3 : Bool} {S : MSettings α} {P : Grid} {D : Domain α}
    (hg : 3 ≤ P.ghostWidth) (hn : P.nbvar = 8) (Q : MhdProblem α) (m : Addr → α) :
    ∃ m', Runs (mhdInitLoops d3 S P D aU Q) m m' := by
  obtain ⟨m0, y, -⟩ := mhd_init (d3 := d3) (S := S) (D := D) (impl := 0) hg hn Q m
  exact ⟨m0, y.run⟩

/-- The right half of a domain of 8 × 3 cells cut among two processes, and the whole domain. -/
def halfBox : Grid := mhdBox .periodic
/-- The whole domain. -/
def wholeBox : Grid := { mhdBox .periodic with nx := 8 }
/-- The unit square, process `n` along direction `x`. -/
noncomputable def unitSquare (n : Int) : Domain ℝ := ⟨0, 1, 0, 1, 0, 1, n, 0, 0⟩

theorem half_same : SameDomain halfBox wholeBox (unitSquare 1) (unitSquare 0) :=
  ⟨rfl, rfl, rfl, rfl, rfl, rfl, rfl⟩

/-- Cell `(4, 4)` of the right half is cell `(8, 4)` of the whole. -/
theorem half_place : SamePlace false halfBox wholeBox (unitSquare 1) (unitSquare 0) ⟨4, 4, 0⟩ ⟨8, 4, 0⟩ :=
  ⟨rfl, rfl, fun h => by cases h⟩

theorem half_in : halfBox.box false ⟨4, 4, 0⟩ ∧ halfBox.inner false ⟨4, 4, 0⟩ := by
  decide

theorem whole_in : wholeBox.box false ⟨8, 4, 0⟩ ∧ wholeBox.inner false ⟨8, 4, 0⟩ := by
  decide

example : ∃ m m' : Addr → ℝ,
    Runs (mhdInitLoops false mhdSettings halfBox (unitSquare 1) aU (.orszagTang 0)) (fun _ => lit 0) m ∧
    Runs (mhdInitLoops false mhdSettings wholeBox (unitSquare 0) aU (.orszagTang 0)) (fun _ => lit 0) m' ∧
    ∀ v, m ((⟨4, 4, 0⟩ : Cell).at aU v) = m' ((⟨8, 4, 0⟩ : Cell).at aU v) := by
  obtain ⟨m, r⟩ := mhd_init_exists (d3 := false) (S := mhdSettings) (P := halfBox) (D := unitSquare 1)
    (by decide) rfl (.orszagTang 0) (fun _ => lit 0)
  obtain ⟨m', r'⟩ := mhd_init_exists (d3 := false) (S := mhdSettings) (P := wholeBox) (D := unitSquare 0)
    (by decide) rfl (.orszagTang 0) (fun _ => lit 0)
  exact ⟨m, m', r, r', fun v => C103_mhd (fun _ => rfl) (fun _ => rfl) (by decide) rfl rfl r r' half_same
    (fun h => h) (fun h => h) half_in.1 whole_in.1 half_in.2 whole_in.2 half_place v⟩

example : ∃ m m' : Addr → ℝ,
    Runs (mhdInitLoops false mhdSettings halfBox (unitSquare 1) aU (.fieldLoop ⟨1, 1, 1, 1⟩))
      (fun _ => lit 0) m ∧
    Runs (mhdInitLoops false mhdSettings wholeBox (unitSquare 0) aU (.fieldLoop ⟨1, 1, 1, 1⟩))
      (fun _ => lit 0) m' ∧
    m ((⟨4, 4, 0⟩ : Cell).at aU IA) = m' ((⟨8, 4, 0⟩ : Cell).at aU IA) ∧
    m ((⟨4, 4, 0⟩ : Cell).at aU IW) ≠ m' ((⟨8, 4, 0⟩ : Cell).at aU IW) := by
  obtain ⟨m, r⟩ := mhd_init_exists (d3 := false) (S := mhdSettings) (P := halfBox) (D := unitSquare 1)
    (by decide) rfl (.fieldLoop ⟨1, 1, 1, 1⟩) (fun _ => lit 0)
  obtain ⟨m', r'⟩ := mhd_init_exists (d3 := false) (S := mhdSettings) (P := wholeBox) (D := unitSquare 0)
    (by decide) rfl (.fieldLoop ⟨1, 1, 1, 1⟩) (fun _ => lit 0)
  exact ⟨m, m', r, r',
    C103_fieldLoop (fun _ => rfl) (fun _ => rfl) (by decide) rfl rfl r r' half_same half_in.1 whole_in.1
      half_in.2 whole_in.2 half_place (by decide) (Or.inr (by decide)),
    C103_fieldLoop_momentum_wrong (by decide) rfl rfl r r' half_same half_in.1 whole_in.1 half_in.2 whole_in.2
      half_place rfl (by decide) one_ne_zero one_ne_zero (by decide)⟩

example : ∃ m m' : Addr → ℝ,
    Runs [hydroInitLoop false exampleSettings (exampleBox false .periodic) (unitSquare 1) aU
      (.implode ⟨1, 1, 0, 0, 0, 0, 0, 0, 2, 2, 0, 0, 0, 0, 0, 0, 0⟩)] (fun _ => lit 0) m ∧
    Runs [hydroInitLoop false exampleSettings { exampleBox false .periodic with nx := 6 } (unitSquare 0) aU
      (.implode ⟨1, 1, 0, 0, 0, 0, 0, 0, 2, 2, 0, 0, 0, 0, 0, 0, 0⟩)] (fun _ => lit 0) m' ∧
    ∀ v, m ((⟨2, 2, 0⟩ : Cell).at aU v) = m' ((⟨5, 2, 0⟩ : Cell).at aU v) := by
  obtain ⟨m, y, -⟩ := hydro_init (d3 := false) (S := exampleSettings) (P := exampleBox false .periodic)
    (D := unitSquare 1) (Q := .implode ⟨1, 1, 0, 0, 0, 0, 0, 0, 2, 2, 0, 0, 0, 0, 0, 0, 0⟩) (impl := 0)
    (grav := true) rfl (fun _ => rfl) (fun _ => lit 0)
  obtain ⟨m', y', -⟩ := hydro_init (d3 := false) (S := exampleSettings)
    (P := { exampleBox false .periodic with nx := 6 })
    (D := unitSquare 0) (Q := .implode ⟨1, 1, 0, 0, 0, 0, 0, 0, 2, 2, 0, 0, 0, 0, 0, 0, 0⟩) (impl := 0)
    (grav := true) rfl (fun _ => rfl) (fun _ => lit 0)
  have r := (YieldsAll.cons y (.nil _)).run
  have r' := (YieldsAll.cons y' (.nil _)).run
  exact ⟨m, m', r, r', fun v => (C103_hydro (c := ⟨2, 2, 0⟩) (c' := ⟨5, 2, 0⟩) (fun _ => rfl)
    (fun _ => rfl) rfl rfl r r' ⟨rfl, rfl, rfl, rfl, rfl, rfl, rfl⟩ (fun h => h) (by decide) (by decide)
    ⟨rfl, rfl, fun h => by cases h⟩ v).1⟩

end Verif
