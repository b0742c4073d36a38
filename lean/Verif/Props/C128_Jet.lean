import Verif.Lemmas.WedgeGas
import Verif.Model.HydroParams

/-! # C128: the jet problem -/

namespace Verif.Special

open Verif Sdm Spec

/-- Adiabatic index with which the states of the jet problem are made. -/
noncomputable def jetGamma (c : ConfigReader ℝ) : ℝ := c.getFloat "hydro" "gamma0" (5 / 3)

theorem jetGamma_eq (c : ConfigReader ℝ) :
    c.getFloat "hydro" "gamma0" (ROps.lit (5 / 3)) = jetGamma c := by
  unfold jetGamma
  congr 1
  show ((5 / 3 : ℚ) : ℝ) = 5 / 3
  norm_num

theorem opening2 (c : ConfigReader ℝ) (y z : ℝ) :
    (ROps.gtb y ((JetParams.make c).pos_jet - ROps.lit (1 / 2) * (JetParams.make c).width_jet) &&
      ROps.ltb y ((JetParams.make c).pos_jet + ROps.lit (1 / 2) * (JetParams.make c).width_jet)) = true ↔
    InOpening c false y z := by
  rw [Bool.and_eq_true, gtb_true, ltb_true, jet_pos, jet_width]
  show _ - ((1 / 2 : ℚ) : ℝ) * _ < y ∧ y < _ + ((1 / 2 : ℚ) : ℝ) * _ ↔
    |y - c.getFloat "jet" "pos_jet" 0| < c.getFloat "jet" "width_jet" 0.1 / 2
  rw [abs_lt]
  push_cast
  constructor <;> rintro ⟨h1, h2⟩ <;> constructor <;> linarith

theorem opening3 (c : ConfigReader ℝ) (y z : ℝ) :
    ROps.ltb ((y - (JetParams.make c).pos_jet) * (y - (JetParams.make c).pos_jet) +
        (z - (JetParams.make c).pos_jet) * (z - (JetParams.make c).pos_jet))
      (ROps.lit (1 / 4) * (JetParams.make c).width_jet * (JetParams.make c).width_jet) = true ↔
    InOpening c true y z := by
  rw [ltb_true, jet_pos, jet_width]
  show _ < ((1 / 4 : ℚ) : ℝ) * _ * _ ↔ (y - c.getFloat "jet" "pos_jet" 0) ^ 2 +
    (z - c.getFloat "jet" "pos_jet" 0) ^ 2 < (c.getFloat "jet" "width_jet" 0.1 / 2) ^ 2
  push_cast
  constructor <;> intro h <;> nlinarith [h]

theorem opening (c : ConfigReader ℝ) (d3 : Bool) (y z : ℝ) :
    (if d3 then ROps.ltb ((y - (JetParams.make c).pos_jet) * (y - (JetParams.make c).pos_jet) +
        (z - (JetParams.make c).pos_jet) * (z - (JetParams.make c).pos_jet))
      (ROps.lit (1 / 4) * (JetParams.make c).width_jet * (JetParams.make c).width_jet)
    else (ROps.gtb y ((JetParams.make c).pos_jet - ROps.lit (1 / 2) * (JetParams.make c).width_jet) &&
      ROps.ltb y ((JetParams.make c).pos_jet + ROps.lit (1 / 2) * (JetParams.make c).width_jet))) = true ↔
    InOpening c d3 y z := by
  cases d3
  · exact opening2 c y z
  · exact opening3 c y z

/-- The hypotheses on the grid: at least one cell in each direction. -/
structure JetGrid (d3 : Bool) (P : Grid) : Prop where
  g : 0 < P.ghostWidth
  nx : 1 ≤ P.nx
  ny : 1 ≤ P.ny
  nz : d3 = true → 1 ≤ P.nz

theorem JetGrid.pos {d3 : Bool} {P : Grid} (h : JetGrid d3 P) : PosAll d3 P where
  g := h.g
  n d hd := by
    cases d
    · show 0 ≤ P.nx; have := h.nx; omega
    · show 0 ≤ P.ny; have := h.ny; omega
    · show 0 ≤ P.nz; have := h.nz (by simpa using hd); omega

theorem afterX {d3 : Bool} {P : Grid} {b : Cell} (h : midY P b) (hz : d3 = true → midZ P b) :
    ∀ e, After d3 .x e → inD P e b := by
  intro e he
  cases e
  · exact he.elim
  · exact h
  · exact hz he
theorem afterY {d3 : Bool} {P : Grid} {b : Cell} (hz : d3 = true → midZ P b) :
    ∀ e, After d3 .y e → inD P e b := by
  intro e he
  cases e
  · exact he.elim
  · exact he.elim
  · exact hz he
theorem afterZ {d3 : Bool} {P : Grid} {b : Cell} : ∀ e, After d3 .z e → inD P e b := by
  intro e he
  cases e <;> exact he.elim

theorem jetSource_from {M : Scheme ℝ} {J : JetParams ℝ} {S : Settings ℝ} {P : Grid} {D : Domain ℝ}
    (hP : JetGrid M.d3 P) {f : Face} (hf : M.d3 = true ∨ dirOf f ≠ .z) {b : Cell} {p : Pt}
    (hp : p ∈ cellPts M.d3 M.N) (iv : ℕ) :
    (jetSource M J S P D f b p iv).From (cellPts M.d3 M.N) (Along P (dirOf f) b) := by
  have hx := hP.nx
  have hy := hP.ny
  have hp' := mem_cellPts.1 hp
  cases f
  · trivial
  · refine ⟨⟨⟨_, rfl⟩, by show P.ghostWidth ≤ P.nx + P.ghostWidth - 1; omega,
      by show P.nx + P.ghostWidth - 1 < P.nx + P.ghostWidth; omega⟩, ?_⟩
    split_ifs
    · exact hp
    · exact mem_cellPts.2 ⟨by have := hp'.1; show M.N - 1 - p.x < M.N; omega, hp'.2⟩
  · exact ⟨⟨⟨_, rfl⟩, by show P.ghostWidth ≤ P.ghostWidth; omega,
      by show P.ghostWidth < P.ny + P.ghostWidth; omega⟩, hp⟩
  · exact ⟨⟨⟨_, rfl⟩, by show P.ghostWidth ≤ P.ny + P.ghostWidth - 1; omega,
      by show P.ny + P.ghostWidth - 1 < P.ny + P.ghostWidth; omega⟩, hp⟩
  · have hz := hP.nz (by simpa [dirOf] using hf)
    exact ⟨⟨⟨_, rfl⟩, by show P.ghostWidth ≤ P.ghostWidth; omega,
      by show P.ghostWidth < P.nz + P.ghostWidth; omega⟩, hp⟩
  · have hz := hP.nz (by simpa [dirOf] using hf)
    exact ⟨⟨⟨_, rfl⟩, by show P.ghostWidth ≤ P.nz + P.ghostWidth - 1; omega,
      by show P.nz + P.ghostWidth - 1 < P.nz + P.ghostWidth; omega⟩, hp⟩

/-- **C128.** The treatment of the boundaries of the jet problem, in 2D and 3D, on every process of a decomposed
domain: the jet enters on the left through the opening and nowhere else, the other sides are open, the gas in the
box is not touched; all executions agree. -/
theorem C128_ghosts (c : ConfigReader ℝ) (M : Scheme ℝ) (S : Settings ℝ) (P : Grid) (D : Domain ℝ)
    {ti : Mood.TimeInt} {U : ℕ} (hU : solArray ti U) (hP : JetGrid M.d3 P) (m : Addr → ℝ) :
    ∃ m', YieldsAll (sdmDom M.d3 M.N P ti) (jetBoundaries M (JetParams.make c) S P D U) m m' ∧
      JetGhosts c (jetGamma c) M.d3 P M.N
        (fun j k => D.ymin + (j + P.ny * D.j_mpi - P.ghostWidth + M.sp k) * S.dy)
        (fun j k => D.zmin + (j + P.nz * D.k_mpi - P.ghostWidth + M.sp k) * S.dz)
        (fun b p v => m (M.sol U b p v)) (fun b p v => m' (M.sol U b p v)) := by
  obtain ⟨m', y, hval, hin, -⟩ := ghost_fill (places_sdm (M := M) hU) hP.pos
    (src := jetSource M (JetParams.make c) S P D) (fun f hf b _ p hp iv _ => jetSource_from hP hf hp iv) m
  have hx : M.d3 = true ∨ Dir.x ≠ .z := .inr (by decide)
  have hy : M.d3 = true ∨ Dir.y ≠ .z := .inr (by decide)
  refine ⟨m', y, ?_, ?_, ?_, ?_, ?_, ?_, ?_⟩
  · intro b p v hb hp hv' hbx hby hbz
    refine hin b p v fun d hd => ?_
    cases d
    · exact hbx
    · exact hby
    · exact hbz (by simpa using hd)
  · intro b p v hb hp hv' hbx hby hbz
    refine (hval .xmin hx b p v (region_low hb rfl hbx) (afterX hby hbz) (mem_cellPts.2 hp) hv').trans ?_
    show Mood.comp (if _ then _ else _) v = _
    rw [jet_jet _ (jetGamma_eq c), jet_bulk _ (jetGamma_eq c), ySdm_eq, zSdm_eq]
    by_cases hi : InOpening c M.d3 (D.ymin + (b.j + P.ny * D.j_mpi - P.ghostWidth + M.sp p.y) * S.dy)
      (D.zmin + (b.k + P.nz * D.k_mpi - P.ghostWidth + M.sp p.z) * S.dz)
    · rw [if_pos hi, if_pos ((opening c M.d3 _ _).2 hi)]
    · rw [if_neg hi, if_neg fun e => hi ((opening c M.d3 _ _).1 e)]
  · intro b p v hb hp hv' hbx hby hbz
    exact hval .xmax hx b p v (region_high hb rfl hbx) (afterX hby hbz) (mem_cellPts.2 hp) hv'
  · intro b p v hb hp hv' hbj hbz
    exact hval .ymin hy b p v (region_low hb rfl hbj) (afterY hbz) (mem_cellPts.2 hp) hv'
  · intro b p v hb hp hv' hbj hbz
    exact hval .ymax hy b p v (region_high hb rfl hbj) (afterY hbz) (mem_cellPts.2 hp) hv'
  · intro hd b p v hb hp hv' hbk
    exact hval .zmin (.inl hd) b p v (region_low hb rfl hbk) afterZ (mem_cellPts.2 hp) hv'
  · intro hd b p v hb hp hv' hbk
    exact hval .zmax (.inl hd) b p v (region_high hb rfl hbk) afterZ (mem_cellPts.2 hp) hv'

/-- **C128.** At the start the box is full of the gas around the jet, whatever was in memory. -/
theorem C128_init (c : ConfigReader ℝ) (M : Scheme ℝ) (P : Grid) {ti : Mood.TimeInt} {U : ℕ}
    (hU : solArray ti U) (hne : Mood.Nonempty3 M.d3 P) (m : Addr → ℝ) :
    ∃ m', (jetInit M (JetParams.make c) P U).Yields (sdmDom M.d3 M.N P ti) m m' ∧
      ∀ b p v, P.box M.d3 b → IsSolPt M.d3 M.N p → v < P.nbvar →
        m' (M.sol U b p v) = Mood.comp ((bulkGas c).conserved (jetGamma c)) v := by
  obtain ⟨m', y, hv, -⟩ := cells_fill (lay := M.lay) (places_sdm (M := M) hU) hne
    (fun _ _ iv => Mood.comp (JetParams.make c).bulk iv) m
  refine ⟨m', y, fun b p v hb hp hv' => (hv b p v hb (mem_cellPts.2 hp) hv').trans ?_⟩
  rw [jet_bulk _ (jetGamma_eq c)]

/-- The parameter file sets `gamma0` of section `[hydro]`: the default value does not matter. -/
def GammaGiven (c : ConfigReader ℝ) : Prop :=
  ∀ d d', c.getFloat "hydro" "gamma0" d = c.getFloat "hydro" "gamma0" d'

theorem conserved_pressure (gamma gamma' : ℝ) (q : PointGas) (h : q.rho ≠ 0) :
    idealPressure gamma' (q.conserved gamma) = (gamma' - 1) / (gamma - 1) * q.p := by
  unfold idealPressure PointGas.conserved
  field_simp
  ring

/-- **C128.** When the parameter file sets `gamma0`, the solver, which uses `gamma0` as `HydroParams` has read it, sees
in the jet and around it the pressures that the file asks for. -/
theorem C128_pressure {c : ConfigReader ℝ} (hc : GammaGiven c) (b : Build) (tr : ℝ → Int)
    (h1 : jetGamma c ≠ 1) (hj : (jetGas c).rho ≠ 0) (hb : (bulkGas c).rho ≠ 0) :
    idealPressure (HydroParams.read b tr c).gamma0 (JetParams.make c).jet = (jetGas c).p ∧
    idealPressure (HydroParams.read b tr c).gamma0 (JetParams.make c).bulk = (bulkGas c).p := by
  have e : (HydroParams.read b tr c).gamma0 = jetGamma c := hc _ _
  have h2 : jetGamma c - 1 ≠ 0 := sub_ne_zero.2 h1
  rw [e, jet_jet _ (jetGamma_eq c), jet_bulk _ (jetGamma_eq c), conserved_pressure _ _ _ hj,
    conserved_pressure _ _ _ hb, div_self h2, one_mul, one_mul]
  exact ⟨rfl, rfl⟩

/-- **C128, where the code does otherwise.** When the parameter file does not set `gamma0`, the states are made with
5/3 and the solver works with 1.4: it sees 0.6 times the pressures that the file asks for. -/
theorem C128_default_gamma {c : ConfigReader ℝ} (hc : ∀ d, c.getFloat "hydro" "gamma0" d = d) (b : Build)
    (tr : ℝ → Int) (hj : (jetGas c).rho ≠ 0) (hb : (bulkGas c).rho ≠ 0) :
    idealPressure (HydroParams.read b tr c).gamma0 (JetParams.make c).jet = 0.6 * (jetGas c).p ∧
    idealPressure (HydroParams.read b tr c).gamma0 (JetParams.make c).bulk = 0.6 * (bulkGas c).p := by
  have e : (HydroParams.read b tr c).gamma0 = 1.4 := (hc _).trans lit14
  have e' : jetGamma c = 5 / 3 := hc _
  rw [e, jet_jet _ (jetGamma_eq c), jet_bulk _ (jetGamma_eq c), conserved_pressure _ _ _ hj,
    conserved_pressure _ _ _ hb, e']
  constructor <;> norm_num

/-- The hypotheses of the theorems above are met, in 3D. -/
example : ∃ (c : ConfigReader ℝ) (P : Grid), JetGrid true P ∧ solArray .ssprk3 sU ∧ GammaGiven c ∧
    jetGamma c ≠ 1 ∧ (jetGas c).rho ≠ 0 ∧ (bulkGas c).rho ≠ 0 :=
  ⟨⟨fun _ _ d => d, fun s _ d => if s = "hydro" then 5 / 3 else d, fun _ _ d => d⟩,
    { nx := 8, ny := 4, nz := 4, ghostWidth := 1, nbvar := 5, boundary_type_xmin := 1, boundary_type_xmax := 1,
      boundary_type_ymin := 1, boundary_type_ymax := 1, boundary_type_zmin := 1, boundary_type_zmax := 1 },
    ⟨by decide, by decide, by decide, fun _ => by decide⟩, .inl rfl, fun d d' => by simp,
    by unfold jetGamma; norm_num,
    by unfold jetGas; dsimp only; rw [if_neg (by decide)]; norm_num,
    by unfold bulkGas; dsimp only; rw [if_neg (by decide)]; norm_num⟩
/-- A parameter file without `gamma0`. -/
example : ∃ c : ConfigReader ℝ, (∀ d, c.getFloat "hydro" "gamma0" d = d) ∧ (jetGas c).rho ≠ 0 ∧
    (bulkGas c).rho ≠ 0 :=
  ⟨⟨fun _ _ d => d, fun _ _ d => d, fun _ _ d => d⟩, fun _ => rfl,
    by unfold jetGas; norm_num, by unfold bulkGas; norm_num⟩

end Verif.Special
