import Verif.Lemmas.WedgeGas

/-! # C127: the wedge problem -/

namespace Verif.Special

open Verif Sdm Spec

/-! ### The states -/

/-- Apart from the position and the angle of the front, section `[wedge]` and `gamma0` have their default
values. -/
def DefaultShock (c : ConfigReader ℝ) : Prop :=
  ∀ s k d, ¬ (s = "wedge" ∧ (k = "front_x" ∨ k = "front_angle")) → c.getFloat s k d = d

/-- **C127.** The default states are those of a shock of Mach number 10: whatever the angle of the front, mass,
momentum and energy are conserved across a jump between them that moves with the speed 10 along the normal of
the front, the gas ahead rests and its sound speed is 1. -/
theorem C127_states {c : ConfigReader ℝ} (hc : DefaultShock c) (t : ℝ) :
    RankineHugoniot 1.4 (Real.sin (wedgeShock c).angle) (-Real.cos (wedgeShock c).angle) (wedgeShock c).speed
      (WedgeParams.make c t).behind (WedgeParams.make c t).ahead ∧
    (wedgeShock c).speed = 10 ∧ (WedgeParams.make c t).ahead.u = 0 ∧ (WedgeParams.make c t).ahead.v = 0 ∧
    (WedgeParams.make c t).ahead.w = 0 ∧
    1.4 * idealPressure 1.4 (WedgeParams.make c t).ahead / (WedgeParams.make c t).ahead.d = 1 := by
  have hs : (wedgeShock c).speed = 10 := hc _ _ _ (by decide)
  have hg : configGamma c = 1.4 := hc _ _ _ (by decide)
  have hb : (wedgeShock c).behind = ⟨8, 116.5, 8.25 * Real.sin (wedgeShock c).angle,
      -8.25 * Real.cos (wedgeShock c).angle, 0⟩ := by
    exact PointGas.ext (hc _ _ _ (by decide)) (hc _ _ _ (by decide)) (hc _ _ _ (by decide))
      (hc _ _ _ (by decide)) (hc _ _ _ (by decide))
  have ha : (wedgeShock c).ahead = ⟨1.4, 1, 0, 0, 0⟩ := by
    exact PointGas.ext (hc _ _ _ (by decide)) (hc _ _ _ (by decide)) (hc _ _ _ (by decide))
      (hc _ _ _ (by decide)) (hc _ _ _ (by decide))
  rw [wedge_behind, wedge_ahead, hg, hb, ha, hs]
  have h1 := Real.sin_sq_add_cos_sq (wedgeShock c).angle
  generalize Real.sin (wedgeShock c).angle = sn at *
  generalize Real.cos (wedgeShock c).angle = cs at *
  have h2 : cs ^ 2 = 1 - sn ^ 2 := by linarith
  refine ⟨⟨?_, ?_, ?_, ?_, ?_⟩, rfl, ?_, ?_, ?_, ?_⟩ <;>
    simp only [normalFlux, idealPressure, PointGas.conserved] <;> ring_nf <;>
    (try rw [show cs ^ 4 = (cs ^ 2) ^ 2 by ring]) <;> (try rw [show cs ^ 3 = cs ^ 2 * cs by ring]) <;>
    (try rw [h2]) <;> ring_nf

/-- The hypothesis of `C127_states` is met: a front at 0.2 under 45 degrees. -/
example : ∃ c : ConfigReader ℝ, DefaultShock c ∧ (wedgeShock c).x0 = 0.2 ∧ (wedgeShock c).angle = Real.pi / 4 :=
  ⟨⟨fun _ _ d => d, fun s k d => if s = "wedge" ∧ k = "front_x" then 0.2
      else if s = "wedge" ∧ k = "front_angle" then Real.pi / 4 else d, fun _ _ d => d⟩,
    fun s k d h => by
      show (if s = "wedge" ∧ k = "front_x" then (0.2 : ℝ)
        else if s = "wedge" ∧ k = "front_angle" then Real.pi / 4 else d) = d
      rw [if_neg fun e => h ⟨e.1, .inl e.2⟩, if_neg fun e => h ⟨e.1, .inr e.2⟩],
    by unfold wedgeShock; simp, by unfold wedgeShock; simp⟩

/-! ### Initial condition -/

/-- **C127.** High order finite volumes: at the start every cell, ghost cells included, holds the gas of the
moving shock at time 0 at its centre, whatever was in memory. -/
theorem C127_init_mood {c : ConfigReader ℝ} (h0 : 0 < (wedgeShock c).angle)
    (h1 : (wedgeShock c).angle < Real.pi / 2) (lay : Layout) (d3 : Bool) (S : Settings ℝ) (P : Grid)
    (D : Domain ℝ) (U : ℕ) (hne : Mood.Nonempty3 d3 P) (m : Addr → ℝ) :
    ∃ m', (moodWedgeInit lay d3 (WedgeParams.make c 0) S P D U).Yields
        (fun a => a.arr = U ∧ P.box d3 a.cell ∧ a.v < P.nbvar) m m' ∧
      ∀ b v, P.box d3 b → v < P.nbvar → m' (b.at U v) = Mood.comp (((wedgeShock c).gasAt 0
        (D.xmin + (b.i - P.ghostWidth + 1 / 2) * S.dx)
        (D.ymin + (b.j - P.ghostWidth + 1 / 2) * S.dy)).conserved (configGamma c)) v := by
  obtain ⟨m', y, hv, -⟩ := cells_fill (lay := lay) (places_mood (U := U)) hne
    (fun b _ iv => Mood.comp (if ROps.gtb (yMood S P D b.j)
      ((WedgeParams.make c 0).slope_f * (xMood S P D b.i - (WedgeParams.make c 0).x_f))
      then (WedgeParams.make c 0).behind else (WedgeParams.make c 0).ahead) iv) m
  refine ⟨m', y, fun b v hb hv' => (hv b onePt v hb (List.mem_singleton.2 rfl) hv').trans ?_⟩
  rw [init_state h0 h1, xMood_eq, yMood_eq]

/-- **C127.** Spectral differences: at the start every solution point holds the gas of the moving shock at
time 0 at that point, on every process of a decomposed domain. -/
theorem C127_init_sdm {c : ConfigReader ℝ} (h0 : 0 < (wedgeShock c).angle)
    (h1 : (wedgeShock c).angle < Real.pi / 2) (M : Scheme ℝ) (S : Settings ℝ) (P : Grid)
    (D : Domain ℝ) {ti : Mood.TimeInt} {U : ℕ} (hU : solArray ti U) (hne : Mood.Nonempty3 M.d3 P)
    (m : Addr → ℝ) :
    ∃ m', (sdmWedgeInit M (WedgeParams.make c 0) S P D U).Yields (sdmDom M.d3 M.N P ti) m m' ∧
      ∀ b p v, P.box M.d3 b → IsSolPt M.d3 M.N p → v < P.nbvar →
        m' (M.sol U b p v) = Mood.comp (((wedgeShock c).gasAt 0
          (D.xmin + (b.i + P.nx * D.i_mpi - P.ghostWidth + M.sp p.x) * S.dx)
          (D.ymin + (b.j + P.ny * D.j_mpi - P.ghostWidth + M.sp p.y) * S.dy)).conserved (configGamma c)) v := by
  obtain ⟨m', y, hv, -⟩ := cells_fill (lay := M.lay) (places_sdm (M := M) hU) hne
    (fun b p iv => Mood.comp (if ROps.gtb (ySdm M S P D b.j p.y)
      ((WedgeParams.make c 0).slope_f * (xSdm M S P D b.i p.x - (WedgeParams.make c 0).x_f))
      then (WedgeParams.make c 0).behind else (WedgeParams.make c 0).ahead) iv) m
  refine ⟨m', y, fun b p v hb hp hv' => (hv b p v hb (mem_cellPts.2 hp) hv').trans ?_⟩
  rw [init_state h0 h1, xSdm_eq, ySdm_eq]

/-- **C127, where the code does otherwise.** For a front that leans the other way (angle between 90 and 180
degrees) the initial condition of the finite volume solver has the two gases exchanged: the gas behind the
shock fills the points the front has not reached. -/
theorem C127_obtuse {c : ConfigReader ℝ} (h0 : Real.pi / 2 < (wedgeShock c).angle)
    (h1 : (wedgeShock c).angle < Real.pi) (lay : Layout) (d3 : Bool) (S : Settings ℝ) (P : Grid)
    (D : Domain ℝ) (U : ℕ) (hne : Mood.Nonempty3 d3 P) (m : Addr → ℝ) :
    ∃ m', (moodWedgeInit lay d3 (WedgeParams.make c 0) S P D U).Yields
        (fun a => a.arr = U ∧ P.box d3 a.cell ∧ a.v < P.nbvar) m m' ∧
      ∀ b v, P.box d3 b → v < P.nbvar →
        ((wedgeShock c).passed 0 (D.xmin + (b.i - P.ghostWidth + 1 / 2) * S.dx)
          (D.ymin + (b.j - P.ghostWidth + 1 / 2) * S.dy) →
          m' (b.at U v) = Mood.comp ((wedgeShock c).ahead.conserved (configGamma c)) v) ∧
        (0 < (D.xmin + (b.i - P.ghostWidth + 1 / 2) * S.dx - (wedgeShock c).x0) * Real.sin (wedgeShock c).angle -
            (D.ymin + (b.j - P.ghostWidth + 1 / 2) * S.dy) * Real.cos (wedgeShock c).angle →
          m' (b.at U v) = Mood.comp ((wedgeShock c).behind.conserved (configGamma c)) v) := by
  obtain ⟨m', y, hv, -⟩ := cells_fill (lay := lay) (places_mood (U := U)) hne
    (fun b _ iv => Mood.comp (if ROps.gtb (yMood S P D b.j)
      ((WedgeParams.make c 0).slope_f * (xMood S P D b.i - (WedgeParams.make c 0).x_f))
      then (WedgeParams.make c 0).behind else (WedgeParams.make c 0).ahead) iv) m
  refine ⟨m', y, fun b v hb hv' => ?_⟩
  have e := hv b onePt v hb (List.mem_singleton.2 rfl) hv'
  beta_reduce at e
  rw [init_state_obtuse h0 h1, xMood_eq, yMood_eq] at e
  refine ⟨fun hp => e.trans ?_, fun hp => e.trans ?_⟩
  · unfold MovingShock.passed at hp
    rw [mul_zero] at hp
    rw [if_neg (not_lt.2 hp.le)]
  · rw [if_pos hp]

/-! ### Boundaries -/

/-- **C127.** High order finite volumes in 2D: the treatment of the boundaries at time `t` fills the ghost cells as
the wedge problem asks for: gas behind the shock on the left, on the floor up to the wedge, and above as far as
the front has come; outflow on the right and in the rest of the upper side; mirror image under the wedge. -/
theorem C127_ghosts_mood {c : ConfigReader ℝ} (h0 : 0 < (wedgeShock c).angle)
    (h1 : (wedgeShock c).angle < Real.pi / 2) (t : ℝ) (S : Settings ℝ) (P : Grid) (D : Domain ℝ) (U : ℕ)
    (hg : 0 < P.ghostWidth) (hnx : 1 ≤ P.nx) (hny : P.ghostWidth ≤ P.ny) (hv : P.nbvar = 4) (m : Addr → ℝ) :
    ∃ m', YieldsAll (fun a => a.arr = U ∧ P.box false a.cell ∧ a.v < P.nbvar)
        (moodWedgeBoundaries (WedgeParams.make c t) S P D U) m m' ∧
      WedgeGhosts (wedgeShock c) (configGamma c) t P 1
        (fun i _ => D.xmin + (i - P.ghostWidth + 1 / 2) * S.dx)
        (fun j _ => D.ymin + (j - P.ghostWidth + 1 / 2) * S.dy)
        (fun b _ v => m' ((⟨b.i, P.ny + P.ghostWidth - 1, b.k⟩ : Cell).at U v))
        (fun b _ v => m (b.at U v)) (fun b _ v => m' (b.at U v)) := by
  have hsrc : ∀ f, (false = true ∨ dirOf f ≠ .z) → ∀ b, region false P f b → ∀ p ∈ [onePt],
      ∀ iv < P.nbvar, (moodWedgeSource (WedgeParams.make c t) S P D f b p iv).From [onePt]
        (Along P (dirOf f) b) := by
    intro f hf b hb p hp iv _
    have hb2 := hb.2
    cases f
    · trivial
    · exact ⟨⟨⟨_, rfl⟩, by show P.ghostWidth ≤ P.nx + P.ghostWidth - 1; omega,
        by show P.nx + P.ghostWidth - 1 < P.nx + P.ghostWidth; omega⟩, hp⟩
    · unfold moodWedgeSource
      simp only
      split_ifs
      · trivial
      · have h2 : b.j < P.ghostWidth := hb2
        have h3 : 0 ≤ b.j := hb.1.2.2.1
        exact ⟨⟨⟨_, rfl⟩, by show P.ghostWidth ≤ 2 * P.ghostWidth - 1 - b.j; omega,
          by show 2 * P.ghostWidth - 1 - b.j < P.ny + P.ghostWidth; omega⟩, hp⟩
    · unfold moodWedgeSource
      simp only
      split_ifs
      · trivial
      · exact ⟨⟨⟨_, rfl⟩, by show P.ghostWidth ≤ P.ny + P.ghostWidth - 1; omega,
          by show P.ny + P.ghostWidth - 1 < P.ny + P.ghostWidth; omega⟩, hp⟩
    · simp [dirOf] at hf
    · simp [dirOf] at hf
  obtain ⟨m', y, hval, hin, -⟩ := ghost_fill (places_mood (U := U)) (posAll2 hg hnx hny) hsrc m
  have hx : false = true ∨ Dir.x ≠ .z := .inr (by decide)
  have hy : false = true ∨ Dir.y ≠ .z := .inr (by decide)
  refine ⟨m', y, ?_, ?_, ?_, ?_, ?_, ?_⟩
  · intro b p v hb hp hv' hbx hby
    refine hin b onePt v fun d hd => ?_
    cases d
    · exact hbx
    · exact hby
    · simp at hd
  · intro b p v hb hp hv' hbx hby
    rw [← wedge_behind c t]
    exact hval .xmin hx b onePt v (region_low hb rfl hbx) (after_x hby) (List.mem_singleton.2 rfl) (hv ▸ hv')
  · intro b p v hb hp hv' hbx hby
    exact hval .xmax hx b onePt v (region_high hb rfl hbx) (after_x hby) (List.mem_singleton.2 rfl) (hv ▸ hv')
  · intro b p v hb hp hv' hbj hlt
    have e := hval .ymin hy b onePt v (region_low hb rfl hbj) after_y (List.mem_singleton.2 rfl) (hv ▸ hv')
    beta_reduce at e
    rw [e, ← wedge_behind c t]
    unfold moodWedgeSource
    simp only
    rw [if_pos (ltb_true.2 (by rw [xMood_eq, wedge_x0]; exact hlt))]
    rfl
  · intro b p v hb hp hv' hbj hlt
    have e := hval .ymin hy b onePt v (region_low hb rfl hbj) after_y (List.mem_singleton.2 rfl) (hv ▸ hv')
    beta_reduce at e
    rw [e, ← wallSign_eq hv', mul_comm]
    unfold moodWedgeSource
    simp only
    rw [if_neg (fun h => absurd (ltb_true.1 h) (by rw [xMood_eq, wedge_x0]; exact not_lt.2 hlt))]
    rfl
  · intro b p v hb hp hv' hbj
    have e := hval .ymax hy b onePt v (region_high hb rfl hbj) after_y (List.mem_singleton.2 rfl) (hv ▸ hv')
    beta_reduce at e
    rw [e, ← wedge_behind c t]
    unfold moodWedgeSource
    simp only
    have ht := top_test (t := t) h0 (h1.trans (by linarith [Real.pi_pos])) (xMood S P D b.i) (yMood S P D b.j)
    rw [xMood_eq, yMood_eq] at ht
    by_cases hp : (wedgeShock c).passed t (D.xmin + (b.i - P.ghostWidth + 1 / 2) * S.dx)
      (D.ymin + (b.j - P.ghostWidth + 1 / 2) * S.dy)
    · rw [if_pos hp, if_pos (ltb_true.2 (by rw [xMood_eq, yMood_eq]; exact ht.2 hp))]
      rfl
    · rw [if_neg hp, if_neg fun h => hp (ht.1 (by rw [← xMood_eq, ← yMood_eq]; exact ltb_true.1 h))]
      rfl

/-- **C127.** Spectral differences in 2D: the same at every solution point, with the undisturbed gas in the rest of
the upper side. -/
theorem C127_ghosts_sdm {c : ConfigReader ℝ} (h0 : 0 < (wedgeShock c).angle)
    (h1 : (wedgeShock c).angle < Real.pi / 2) (t : ℝ) {M : Scheme ℝ} (hM : M.d3 = false) (S : Settings ℝ)
    (P : Grid) (D : Domain ℝ) {ti : Mood.TimeInt} {U : ℕ} (hU : solArray ti U)
    (hg : 0 < P.ghostWidth) (hnx : 1 ≤ P.nx) (hny : P.ghostWidth ≤ P.ny) (hv : P.nbvar = 4) (m : Addr → ℝ) :
    ∃ m', YieldsAll (sdmDom false M.N P ti) (sdmWedgeBoundaries M (WedgeParams.make c t) S P D U) m m' ∧
      WedgeGhosts (wedgeShock c) (configGamma c) t P M.N
        (fun i k => D.xmin + (i + P.nx * D.i_mpi - P.ghostWidth + M.sp k) * S.dx)
        (fun j k => D.ymin + (j + P.ny * D.j_mpi - P.ghostWidth + M.sp k) * S.dy)
        (fun _ _ v => Mood.comp ((wedgeShock c).ahead.conserved (configGamma c)) v)
        (fun b p v => m (M.sol U b p v)) (fun b p v => m' (M.sol U b p v)) := by
  obtain ⟨lay, d3, N, sp, fp⟩ := M
  obtain rfl : d3 = false := hM
  have hsrc : ∀ f, (false = true ∨ dirOf f ≠ .z) → ∀ b, region false P f b → ∀ p ∈ cellPts false N,
      ∀ iv < P.nbvar, (sdmWedgeSource ⟨lay, false, N, sp, fp⟩ (WedgeParams.make c t) S P D f b p iv).From
        (cellPts false N) (Along P (dirOf f) b) := by
    intro f hf b hb p hp iv _
    have hb2 := hb.2
    have hp' := mem_cellPts.1 hp
    have hmx : mirrorX N p ∈ cellPts false N :=
      mem_cellPts.2 ⟨by have := hp'.1; show N - 1 - p.x < N; omega, hp'.2⟩
    have hmy : mirrorY N p ∈ cellPts false N :=
      mem_cellPts.2 ⟨hp'.1, by have := hp'.2.1; show N - 1 - p.y < N; omega, hp'.2.2⟩
    cases f
    · trivial
    · exact ⟨⟨⟨_, rfl⟩, by show P.ghostWidth ≤ P.nx + P.ghostWidth - 1; omega,
        by show P.nx + P.ghostWidth - 1 < P.nx + P.ghostWidth; omega⟩, hmx⟩
    · unfold sdmWedgeSource
      simp only
      split_ifs
      · trivial
      · have h2 : b.j < P.ghostWidth := hb2
        have h3 : 0 ≤ b.j := hb.1.2.2.1
        exact ⟨⟨⟨_, rfl⟩, by show P.ghostWidth ≤ 2 * P.ghostWidth - 1 - b.j; omega,
          by show 2 * P.ghostWidth - 1 - b.j < P.ny + P.ghostWidth; omega⟩, hmy⟩
    · unfold sdmWedgeSource
      simp only
      split_ifs <;> trivial
    · simp [dirOf] at hf
    · simp [dirOf] at hf
  obtain ⟨m', y, hval, hin, -⟩ := ghost_fill
    (places_sdm (M := (⟨lay, false, N, sp, fp⟩ : Scheme ℝ)) hU) (posAll2 hg hnx hny) hsrc m
  have hx : false = true ∨ Dir.x ≠ .z := .inr (by decide)
  have hy : false = true ∨ Dir.y ≠ .z := .inr (by decide)
  refine ⟨m', y, ?_, ?_, ?_, ?_, ?_, ?_⟩
  · intro b p v hb hp hv' hbx hby
    refine hin b p v fun d hd => ?_
    cases d
    · exact hbx
    · exact hby
    · simp at hd
  · intro b p v hb hp hv' hbx hby
    rw [← wedge_behind c t]
    exact hval .xmin hx b p v (region_low hb rfl hbx) (after_x hby) (mem_cellPts.2 hp) (hv ▸ hv')
  · intro b p v hb hp hv' hbx hby
    exact hval .xmax hx b p v (region_high hb rfl hbx) (after_x hby) (mem_cellPts.2 hp) (hv ▸ hv')
  · intro b p v hb hp hv' hbj hlt
    have e := hval .ymin hy b p v (region_low hb rfl hbj) after_y (mem_cellPts.2 hp) (hv ▸ hv')
    rw [e, ← wedge_behind c t]
    unfold sdmWedgeSource
    simp only
    rw [if_pos (ltb_true.2 (by rw [xSdm_eq, wedge_x0]; exact hlt))]
    rfl
  · intro b p v hb hp hv' hbj hlt
    have e := hval .ymin hy b p v (region_low hb rfl hbj) after_y (mem_cellPts.2 hp) (hv ▸ hv')
    rw [e, ← wallSign_eq hv', mul_comm]
    unfold sdmWedgeSource
    simp only
    rw [if_neg (fun h => absurd (ltb_true.1 h) (by rw [xSdm_eq, wedge_x0]; exact not_lt.2 hlt))]
    rfl
  · intro b p v hb hp hv' hbj
    have e := hval .ymax hy b p v (region_high hb rfl hbj) after_y (mem_cellPts.2 hp) (hv ▸ hv')
    rw [e, ← wedge_behind c t, ← wedge_ahead c t]
    unfold sdmWedgeSource
    simp only
    have ht := top_test (t := t) h0 (h1.trans (by linarith [Real.pi_pos]))
      (xSdm ⟨lay, false, N, sp, fp⟩ S P D b.i p.x) (ySdm ⟨lay, false, N, sp, fp⟩ S P D b.j p.y)
    by_cases hp : (wedgeShock c).passed t (D.xmin + (b.i + P.nx * D.i_mpi - P.ghostWidth + sp p.x) * S.dx)
      (D.ymin + (b.j + P.ny * D.j_mpi - P.ghostWidth + sp p.y) * S.dy)
    · rw [if_pos hp, if_pos (ltb_true.2 (ht.2 (by rw [xSdm_eq, ySdm_eq]; exact hp)))]
      rfl
    · rw [if_neg hp, if_neg fun h => hp (by have := ht.1 (ltb_true.1 h); rwa [xSdm_eq, ySdm_eq] at this)]
      rfl

/-- **C127.** What is put into the ghost cells on the left and on the floor before the wedge is the gas of the moving
shock there: the front has passed all points to the left of its foot, at any time. -/
theorem C127_inflow (W : MovingShock) (h0 : 0 < W.angle) (h1 : W.angle < Real.pi / 2) (hs : 0 ≤ W.speed)
    {t x y : ℝ} (ht : 0 ≤ t) (hx : x < W.x0) (hy : 0 ≤ y) : W.gasAt t x y = W.behind := by
  have e1 : 0 < Real.sin W.angle := Real.sin_pos_of_pos_of_lt_pi h0 (by linarith [Real.pi_pos])
  have e2 : 0 < Real.cos W.angle := Real.cos_pos_of_mem_Ioo ⟨by linarith, h1⟩
  refine if_pos ?_
  unfold MovingShock.passed
  have := mul_neg_of_neg_of_pos (sub_neg.2 hx) e1
  have := mul_nonneg hy e2.le
  have := mul_nonneg hs ht
  linarith

/-- The hypotheses of the theorems on the boundaries are met by the default parameters and a grid of 8 by 4 cells
with 2 ghost cells. -/
example : ∃ (c : ConfigReader ℝ) (P : Grid), 0 < (wedgeShock c).angle ∧ (wedgeShock c).angle < Real.pi / 2 ∧
    0 < P.ghostWidth ∧ 1 ≤ P.nx ∧ P.ghostWidth ≤ P.ny ∧ P.nbvar = 4 ∧ P.nx = 8 ∧ P.ny = 4 ∧
    solArray .ssprk3 sU :=
  ⟨⟨fun _ _ d => d, fun _ _ d => d, fun _ _ d => d⟩,
    { nx := 8, ny := 4, nz := 1, ghostWidth := 2, nbvar := 4,
      boundary_type_xmin := 1, boundary_type_xmax := 1, boundary_type_ymin := 1, boundary_type_ymax := 1,
      boundary_type_zmin := 1, boundary_type_zmax := 1 }, by
      have := Real.pi_pos
      refine ⟨?_, ?_, by decide, by decide, by decide, rfl, rfl, rfl, .inl rfl⟩
      · show 0 < Real.pi / 3; linarith
      · show Real.pi / 3 < Real.pi / 2; linarith⟩

end Verif.Special
