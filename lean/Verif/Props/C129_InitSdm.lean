import Verif.Lemmas.InitHigh
import Verif.Spec.InitHigh
import Verif.Props.C102_InitHydro

/-! # C129: initial conditions of the spectral difference solver -/

namespace Verif.Start

open Verif Sdm Special Spec ROps TOps

section helpers

variable {S : Settings ℝ}

theorem ltb_iff (a b : ℝ) : ltb a b = true ↔ a < b := by
  rw [show ltb a b = decide (a < b) from rfl, decide_eq_true_iff]
theorem gtb_iff (a b : ℝ) : gtb a b = true ↔ b < a := by
  rw [show gtb a b = decide (b < a) from rfl, decide_eq_true_iff]

theorem atRest_eq (rho p : ℝ) : atRest S rho p = PointGas.conserved S.gamma0 ⟨rho, p, 0, 0, 0⟩ := by
  unfold atRest PointGas.conserved
  rops
  simp

theorem sodState_eq (x y z : ℝ) : sodState S x = (sodGas x y z).conserved S.gamma0 := by
  unfold sodState sodGas
  by_cases h : x < 1 / 2
  · rw [if_pos h, if_pos ((ltb_iff _ _).2 (by rops; exact h)), atRest_eq]
    rops
  · rw [if_neg h, if_neg (fun e => h (by have := (ltb_iff _ _).1 e; revert this; rops; exact id)), atRest_eq]
    rops

theorem shuOsherState_eq (x y z : ℝ) : shuOsherState S x = (shuOsherGas x y z).conserved S.gamma0 := by
  unfold shuOsherState shuOsherGas shuOsherLeft
  by_cases h : x < -4
  · rw [if_pos h]
    dsimp only
    rw [if_pos ((ltb_iff _ _).2 (by rops; exact_mod_cast h))]
    unfold PointGas.conserved
    rops
    congr 1 <;> ring
  · rw [if_neg h]
    dsimp only
    rw [if_neg (fun e => h (by have := (ltb_iff _ _).1 e; revert this; rops; intro h'; exact_mod_cast h'))]
    unfold PointGas.conserved
    simp only [TOps.sin]
    rops
    congr 1 <;> ring

theorem blastState_eq (d3 : Bool) {p : BlastParams ℝ} (hr : 0 ≤ p.blast_radius) (x y z : ℝ) :
    blastState d3 S p x y z = (blastGas d3 p x y z).conserved S.gamma0 := by
  unfold blastState blastGas
  dsimp only
  have key : ltb (if d3 = true then (x - p.blast_center_x) * (x - p.blast_center_x) +
          (y - p.blast_center_y) * (y - p.blast_center_y) + (z - p.blast_center_z) * (z - p.blast_center_z)
      else (x - p.blast_center_x) * (x - p.blast_center_x) +
          (y - p.blast_center_y) * (y - p.blast_center_y)) (p.blast_radius * p.blast_radius) = true ↔
      √((x - p.blast_center_x) ^ 2 + (y - p.blast_center_y) ^ 2 +
        (if d3 then (z - p.blast_center_z) ^ 2 else 0)) < p.blast_radius := by
    rw [sqrt_lt_iff_sq (by split_ifs <;> positivity) hr, ltb_iff]
    cases d3
    · simp only [Bool.false_eq_true, if_false, sq, add_zero]
    · simp only [if_true, sq]
  by_cases h2 : √((x - p.blast_center_x) ^ 2 + (y - p.blast_center_y) ^ 2 +
      (if d3 then (z - p.blast_center_z) ^ 2 else 0)) < p.blast_radius
  · rw [if_pos h2, ← atRest_eq]
    exact if_pos (key.2 h2)
  · rw [if_neg h2, ← atRest_eq]
    exact if_neg fun e => h2 (key.1 e)

/-- What the implosion stores: velocities where momenta belong. -/
theorem implodeSdm_eq (d3 : Bool) (D : Domain ℝ) (p : ImplodeParams ℝ) (x y z : ℝ) {G : PointGas}
    (hG : G = implodeGas d3 D p x y z) :
    implodeSdm d3 S D p x y z =
      ⟨G.rho, G.p / (S.gamma0 - 1) + G.rho * (G.u ^ 2 + G.v ^ 2 + G.w ^ 2) / 2, G.u, G.v, G.w⟩ := by
  subst hG
  unfold implodeSdm implodeGas
  cases d3
  · simp only [Bool.false_eq_true, if_false]
    have key : (if p.shape = 1 then gtb (x + y * y) (lit (1/2)) && ltb (x + y * y) (lit (3/2))
        else gtb (x + y) ((D.xmin + D.xmax) / lit 2 + D.ymin)) = true ↔
        (if p.shape = 1 then 1 / 2 < x + y ^ 2 ∧ x + y ^ 2 < 3 / 2
        else (D.xmin + D.xmax) / 2 + D.ymin < x + y) := by
      split_ifs
      · rw [Bool.and_eq_true]; rops; rw [sq]
      · rops
    by_cases hc : (if p.shape = 1 then 1 / 2 < x + y ^ 2 ∧ x + y ^ 2 < 3 / 2
        else (D.xmin + D.xmax) / 2 + D.ymin < x + y)
    · rw [if_pos hc, if_pos (key.2 hc)]
      rops
      congr 1; ring
    · rw [if_neg hc, if_neg (fun e => hc (key.1 e))]
      rops
      congr 1; ring
  · simp only [if_true]
    have key : (if p.shape = 1 then gtb (x + y + z) (lit (1/2)) && ltb (x + y + z) (lit (5/2))
        else gtb (x + y + z) ((D.xmin + D.xmax) / lit 2 + D.ymin + D.zmin)) = true ↔
        (if p.shape = 1 then 1 / 2 < x + y + z ∧ x + y + z < 5 / 2
        else (D.xmin + D.xmax) / 2 + D.ymin + D.zmin < x + y + z) := by
      split_ifs
      · rw [Bool.and_eq_true]; rops
      · rops
    by_cases hc : (if p.shape = 1 then 1 / 2 < x + y + z ∧ x + y + z < 5 / 2
        else (D.xmin + D.xmax) / 2 + D.ymin + D.zmin < x + y + z)
    · rw [if_pos hc, if_pos (key.2 hc)]
      rops
      congr 1; ring
    · rw [if_neg hc, if_neg (fun e => hc (key.1 e))]
      rops
      congr 1; ring

theorem quadrantState_eq (n : Int) (xt yt x y z : ℝ) :
    quadrantState (quadrantStates S n) xt yt x y =
      (quadrantGas (getRiemannConfig2d n) xt yt x y z).conserved S.gamma0 := by
  have e : ∀ q : HState ℚ, (⟨(primToCons_2D S.gamma0 (litState q)).d, (primToCons_2D S.gamma0 (litState q)).p,
      (primToCons_2D S.gamma0 (litState q)).u, (primToCons_2D S.gamma0 (litState q)).v, lit 0⟩ : HState ℝ) =
      (gasOf q).conserved S.gamma0 := by
    intro q
    unfold primToCons_2D litState gasOf PointGas.conserved
    rops
    congr 1 <;> ring
  unfold quadrantState quadrantGas
  dsimp only
  by_cases hx : x < xt
  · rw [if_pos ((ltb_iff _ _).2 hx), if_neg (not_le.2 hx)]
    by_cases hy : y < yt
    · rw [if_pos ((ltb_iff _ _).2 hy), if_neg (not_le.2 hy)]; exact e _
    · rw [if_neg (fun h => hy ((ltb_iff _ _).1 h)), if_pos (not_lt.1 hy)]; exact e _
  · rw [if_neg (fun h => hx ((ltb_iff _ _).1 h)), if_pos (not_lt.1 hx)]
    by_cases hy : y < yt
    · rw [if_pos ((ltb_iff _ _).2 hy), if_neg (not_le.2 hy)]; exact e _
    · rw [if_neg (fun h => hy ((ltb_iff _ _).1 h)), if_pos (not_lt.1 hy)]; exact e _

theorem khSdm_smooth2 (D : Domain ℝ) {p : KHParams ℝ} (h1 : p.p_rand = false) (h2 : p.p_sine_rob = true)
    (r : ℕ → ℝ) (x y z : ℝ) : khSdm false S D p r x y z = some ((shearGas2 p x y z).conserved S.gamma0) := by
  unfold khSdm
  simp only [h1, h2, Bool.false_eq_true, if_false, if_true]
  unfold ramp shearGas2 layers PointGas.conserved
  simp only [TOps.exp, TOps.sin, TOps.pi]
  rops
  push_cast
  congr 2 <;> ring

theorem khSdm_smooth3 (D : Domain ℝ) {p : KHParams ℝ} (h1 : p.p_rand = false) (h2 : p.p_sine_rob = true)
    (r : ℕ → ℝ) (x y z : ℝ) : khSdm true S D p r x y z = some ((shearGas3 p x y z).conserved S.gamma0) := by
  unfold khSdm
  simp only [h1, h2, Bool.false_eq_true, if_false, if_true]
  unfold ramp shearGas3 layers PointGas.conserved
  simp only [TOps.exp, TOps.sin, TOps.pi]
  rops
  push_cast
  congr 2 <;> ring

theorem khSdm_sharp (d3 : Bool) (D : Domain ℝ) {p : KHParams ℝ} (h1 : p.p_rand = true) (r : ℕ → ℝ) (x y z : ℝ) :
    khSdm d3 S D p r x y z = some ((sharpGas p
      (if d3 then (z - D.zmin) / (D.zmax - D.zmin) else (y - D.ymin) / (D.ymax - D.ymin))
      (p.amplitude * (r 0 - 1 / 2)) (p.amplitude * (r 1 - 1 / 2))
      (if d3 then p.amplitude * (r 2 - 1 / 2) else 0)).conserved S.gamma0) := by
  unfold khSdm
  simp only [h1, if_true]
  have e : (if d3 = true then (z - D.zmin) / (D.zmax - D.zmin) else (y - D.ymin) / (D.ymax - D.ymin) : ℝ) =
    (if d3 = true then @HDiv.hDiv ℝ ℝ ℝ (@instHDiv ℝ ROps.toDiv) (@HSub.hSub ℝ ℝ ℝ (@instHSub ℝ ROps.toSub) z D.zmin)
      (@HSub.hSub ℝ ℝ ℝ (@instHSub ℝ ROps.toSub) D.zmax D.zmin) else
      @HDiv.hDiv ℝ ℝ ℝ (@instHDiv ℝ ROps.toDiv) (@HSub.hSub ℝ ℝ ℝ (@instHSub ℝ ROps.toSub) y D.ymin)
      (@HSub.hSub ℝ ℝ ℝ (@instHSub ℝ ROps.toSub) D.ymax D.ymin)) := rfl
  rw [← e]
  generalize (if d3 = true then (z - D.zmin) / (D.zmax - D.zmin) else (y - D.ymin) / (D.ymax - D.ymin) : ℝ) = h
  unfold sharpGas
  by_cases ho : 1 / 4 ≤ h ∧ h ≤ 3 / 4
  · have hb : ¬ (ltb h (lit (1/4)) || gtb h (lit (3/4))) = true := fun e => (outside_iff h).1 e ho
    simp only [if_pos ho, if_neg hb, PointGas.conserved]
    rops
    cases d3
    · simp only [Bool.false_eq_true, if_false]
      congr 2 <;> ring
    · simp only [if_true]
      congr 2 <;> ring
  · have hb := (outside_iff h).2 ho
    simp only [if_neg ho, if_pos hb, PointGas.conserved]
    rops
    cases d3
    · simp only [Bool.false_eq_true, if_false]
      congr 2 <;> ring
    · simp only [if_true]
      congr 2 <;> ring

theorem greshoSdm_eq (d3 : Bool) {p : GreshoParams ℝ} (h0 : p.rho0 ≠ 0) (x y z : ℝ) :
    greshoSdm d3 S p x y = (greshoGas S.gamma0 p x y z).conserved S.gamma0 := by
  unfold greshoSdm greshoGas PointGas.conserved
  simp only [TOps.cos, TOps.sin, TOps.atan2]
  rops
  rw [show S.gamma0 * p.Ma * p.Ma = S.gamma0 * p.Ma ^ 2 by ring]
  obtain ⟨h1, h2, h3⟩ := gresho_uv (p0 := p.rho0 / (S.gamma0 * p.Ma ^ 2)) (x := x) (y := y)
  rw [h1, neg_mul, h2, h3]
  have e : ∀ a b : ℝ, 1 / 2 * (p.rho0 * -a * (p.rho0 * -a) + p.rho0 * b * (p.rho0 * b)) / p.rho0 =
      p.rho0 * ((-a) ^ 2 + b ^ 2 + 0 ^ 2) / 2 := by
    intro a b
    field_simp; ring
  cases d3
  · simp only [Bool.false_eq_true, if_false]
    rw [e]
    congr 1 <;> ring
  · simp only [if_true]
    rw [mul_zero, add_zero, e]
    congr 1 <;> ring

theorem vortex_eqs (p : IsentropicVortexParams ℝ) (x y z : ℝ) :
    vortexRho S p x y = (vortexGas S.gamma0 p x y z).rho ∧ vortexU p x y = (vortexGas S.gamma0 p x y z).u ∧
    vortexV p x y = (vortexGas S.gamma0 p x y z).v ∧
    vortexRho S p x y * vortexT S p x y = (vortexGas S.gamma0 p x y z).p := by
  unfold vortexRho vortexU vortexV vortexT vortexGas
  simp only [TOps.exp, TOps.pow, TOps.pi]
  rops
  generalize x - p.vortex_x = a
  generalize y - p.vortex_y = b
  have e1 : √(a * a + b * b) * √(a * a + b * b) = a ^ 2 + b ^ 2 := by
    rw [Real.mul_self_sqrt (add_nonneg (mul_self_nonneg a) (mul_self_nonneg b))]; ring
  simp only [e1]
  have e2 : Real.exp (1 - (a ^ 2 + b ^ 2)) = Real.exp ((1 - (a ^ 2 + b ^ 2)) / 2) ^ 2 := by
    rw [← Real.exp_nat_mul]; congr 1; push_cast; ring
  rw [e2, show (1 : ℝ) / 2 * (1 - (a ^ 2 + b ^ 2)) = (1 - (a ^ 2 + b ^ 2)) / 2 by ring]
  generalize Real.exp ((1 - (a ^ 2 + b ^ 2)) / 2) = E
  have e3 : p.T_a - (S.gamma0 - 1) * p.beta * p.beta / (8 * S.gamma0 * Real.pi * Real.pi) * E ^ 2 =
      p.T_a - (S.gamma0 - 1) / (2 * S.gamma0) * (p.beta / (2 * Real.pi) * E) ^ 2 := by ring
  rw [e3]
  refine ⟨?_, ?_, ?_, ?_⟩ <;> first | trivial | ring

theorem vortexSdm_eq (p : IsentropicVortexParams ℝ) (x y z : ℝ) :
    vortexSdm S p x y = (vortexGas S.gamma0 p x y z).conserved S.gamma0 := by
  obtain ⟨h1, h2, h3, h4⟩ := vortex_eqs (S := S) p x y z
  have hw : (vortexGas S.gamma0 p x y z).w = 0 := rfl
  unfold vortexSdm PointGas.conserved
  rw [← h1, ← h2, ← h3, ← h4, hw]
  rops
  congr 1 <;> ring

end helpers

variable {M : Scheme ℝ} {S : Settings ℝ} {P : Grid} {D : Domain ℝ} {ti : Mood.TimeInt} {U : ℕ}

/-- From the values at the points to the array. -/
theorem sdm_of {Q : SdmProblem ℝ} {G : ℝ → ℝ → ℝ → PointGas} (hU : solArray ti U) (hne : Mood.Nonempty3 M.d3 P)
    (m : Addr → ℝ)
    (h : ∀ c p, sdmState M S P D c p Q =
      some ((G (xSdm M S P D c.i p.x) (ySdm M S P D c.j p.y) (zSdm M S P D c.k p.z)).conserved S.gamma0)) :
    ∃ m', (sdmInit M S P D U Q).Yields (sdmDom M.d3 M.N P ti) m m' ∧ SdmSamples M S P D U m' G := by
  obtain ⟨m', y, hv, -⟩ := state_fill (lay := M.lay) (places_sdm (M := M) hU) hne
    (fun c p => sdmState M S P D c p Q) m
  refine ⟨m', y, fun b p v hb hp hv' => (hv b p v hb (mem_cellPts.2 hp) hv').trans ?_⟩
  rw [h, xSdm_eq, ySdm_eq, zSdm_eq]
  rfl

/-- **C129.** Sod's shock tube. -/
theorem C129_sod (hU : solArray ti U) (hne : Mood.Nonempty3 M.d3 P) (m : Addr → ℝ) :
    ∃ m', (sdmInit M S P D U .sod).Yields (sdmDom M.d3 M.N P ti) m m' ∧ SdmSamples M S P D U m' sodGas :=
  sdm_of hU hne m fun _ _ => congrArg some (sodState_eq _ _ _)

/-- **C129.** The problem of Shu and Osher. -/
theorem C129_shuOsher (hU : solArray ti U) (hne : Mood.Nonempty3 M.d3 P) (m : Addr → ℝ) :
    ∃ m', (sdmInit M S P D U .shuOsher).Yields (sdmDom M.d3 M.N P ti) m m' ∧
      SdmSamples M S P D U m' shuOsherGas :=
  sdm_of hU hne m fun _ _ => congrArg some (shuOsherState_eq _ _ _)

/-- **C129.** The gas behind the shock of Shu and Osher is the one behind a shock that runs into resting gas of
density and pressure 1 with three times the speed of sound. -/
theorem C129_shuOsher_shock :
    RankineHugoniot 1.4 1 0 (3 * √(1.4 * 1 / 1)) (shuOsherLeft.conserved 1.4)
      ((⟨1, 1, 0, 0, 0⟩ : PointGas).conserved 1.4) := by
  have h35 : (√35 : ℝ) ^ 2 = 35 := Real.sq_sqrt (by norm_num)
  have e : √(1.4 * 1 / 1 : ℝ) = √35 / 5 := by
    rw [show (1.4 * 1 / 1 : ℝ) = 35 / 5 ^ 2 by norm_num, Real.sqrt_div (by norm_num), Real.sqrt_sq (by norm_num)]
  rw [e]
  unfold shuOsherLeft
  clear e
  generalize (√35 : ℝ) = s at *
  refine ⟨?_, ?_, ?_, ?_, ?_⟩ <;> simp only [normalFlux, idealPressure, PointGas.conserved] <;>
    ring_nf <;> (try rw [show s ^ 3 = s ^ 2 * s by ring]) <;> (try rw [h35]) <;> (try ring_nf)

/-- **C129.** The blast. -/
theorem C129_blast {q : BlastParams ℝ} (hr : 0 ≤ q.blast_radius) (hU : solArray ti U)
    (hne : Mood.Nonempty3 M.d3 P) (m : Addr → ℝ) :
    ∃ m', (sdmInit M S P D U (.blast q)).Yields (sdmDom M.d3 M.N P ti) m m' ∧
      SdmSamples M S P D U m' (blastGas M.d3 q) :=
  sdm_of hU hne m fun _ _ => congrArg some (blastState_eq _ hr _ _ _)

/-- **C129.** The implosion, if both gases have density 1 or are at rest. -/
theorem C129_implode {q : ImplodeParams ℝ} (h1 : q.rho_out = 1 ∨ q.u_out = 0 ∧ q.v_out = 0 ∧ q.w_out = 0)
    (h2 : q.rho_in = 1 ∨ q.u_in = 0 ∧ q.v_in = 0 ∧ q.w_in = 0) (hU : solArray ti U)
    (hne : Mood.Nonempty3 M.d3 P) (m : Addr → ℝ) :
    ∃ m', (sdmInit M S P D U (.implode q)).Yields (sdmDom M.d3 M.N P ti) m m' ∧
      SdmSamples M S P D U m' (implodeGas M.d3 D q) := by
  refine sdm_of hU hne m fun c p => congrArg some ((implodeSdm_eq _ _ _ _ _ _ rfl).trans ?_)
  generalize xSdm M S P D c.i p.x = x
  generalize ySdm M S P D c.j p.y = y
  generalize zSdm M S P D c.k p.z = z
  have key : (implodeGas M.d3 D q x y z).rho = 1 ∨ (implodeGas M.d3 D q x y z).u = 0 ∧
      (implodeGas M.d3 D q x y z).v = 0 ∧ (implodeGas M.d3 D q x y z).w = 0 := by
    unfold implodeGas
    cases M.d3 <;> split_ifs <;> simp_all <;> tauto
  generalize implodeGas M.d3 D q x y z = G at *
  unfold PointGas.conserved
  rcases key with h | ⟨h3, h4, h5⟩
  · simp only [h, one_mul]
  · simp only [h3, h4, h5, mul_zero]

/-- **C129.** Where a gas of another density moves, the implosion starts from something else: the velocity is
stored in place of the momentum. -/
theorem C129_implode_wrong {q : ImplodeParams ℝ} (hU : solArray ti U) (hne : Mood.Nonempty3 M.d3 P)
    (m : Addr → ℝ) (hn : 2 < P.nbvar) {b : Cell} {p : Pt} (hb : P.box M.d3 b) (hp : IsSolPt M.d3 M.N p) {G : PointGas}
    (hG : G = implodeGas M.d3 D q (D.xmin + (b.i + P.nx * D.i_mpi - P.ghostWidth + M.sp p.x) * S.dx)
      (D.ymin + (b.j + P.ny * D.j_mpi - P.ghostWidth + M.sp p.y) * S.dy)
      (D.zmin + (b.k + P.nz * D.k_mpi - P.ghostWidth + M.sp p.z) * S.dz))
    (h1 : G.rho ≠ 1) (h2 : G.u ≠ 0) :
    ∃ m', (sdmInit M S P D U (.implode q)).Yields (sdmDom M.d3 M.N P ti) m m' ∧
      m' (M.sol U b p 2) = G.u ∧ ¬ SdmSamples M S P D U m' (implodeGas M.d3 D q) := by
  obtain ⟨m', y, hv, -⟩ := state_fill (lay := M.lay) (places_sdm (M := M) hU) hne
    (fun c p => sdmState M S P D c p (.implode q)) m
  have hu : m' (M.sol U b p 2) = G.u := by
    refine (hv b p 2 hb (mem_cellPts.2 hp) hn).trans ?_
    show Mood.comp (implodeSdm M.d3 S D q _ _ _) 2 = _
    rw [xSdm_eq, ySdm_eq, zSdm_eq, implodeSdm_eq _ _ _ _ _ _ hG]
    rfl
  refine ⟨m', y, hu, fun hs => ?_⟩
  have := hs b p 2 hb hp hn
  rw [hu, ← hG] at this
  have e : G.u = G.rho * G.u := this
  exact h1 (mul_right_cancel₀ h2 (by rw [one_mul]; exact e.symm))

/-- There are such gases: a dense gas in motion. -/
example : ∃ G : PointGas, G = implodeGas false ⟨0, 1, 0, 1, 0, 1, 0, 0, 0⟩
      ⟨2, 1, 3, 0, 0, 0, 0, 0, 1/8, 7/50, 0, 0, 0, 0, 0, 0, 0⟩ (3 / 4) (3 / 4) 0 ∧ G.rho ≠ 1 ∧ G.u ≠ 0 := by
  refine ⟨_, rfl, ?_, ?_⟩ <;> unfold implodeGas <;> norm_num

/-- **C129.** Kelvin-Helmholtz instability with smooth layers, 2D. -/
theorem C129_shear2 {q : KHParams ℝ} {rnd : Cell → Pt → ℕ → ℝ} (hd : M.d3 = false) (h1 : q.p_rand = false)
    (h2 : q.p_sine_rob = true) (hU : solArray ti U) (hne : Mood.Nonempty3 M.d3 P) (m : Addr → ℝ) :
    ∃ m', (sdmInit M S P D U (.kelvinHelmholtz q rnd)).Yields (sdmDom M.d3 M.N P ti) m m' ∧
      SdmSamples M S P D U m' (shearGas2 q) :=
  sdm_of hU hne m fun _ _ => by
    show khSdm M.d3 S D q _ _ _ _ = _
    rw [hd]
    exact khSdm_smooth2 D h1 h2 _ _ _ _

/-- **C129.** Kelvin-Helmholtz instability with smooth layers, 3D. -/
theorem C129_shear3 {q : KHParams ℝ} {rnd : Cell → Pt → ℕ → ℝ} (hd : M.d3 = true) (h1 : q.p_rand = false)
    (h2 : q.p_sine_rob = true) (hU : solArray ti U) (hne : Mood.Nonempty3 M.d3 P) (m : Addr → ℝ) :
    ∃ m', (sdmInit M S P D U (.kelvinHelmholtz q rnd)).Yields (sdmDom M.d3 M.N P ti) m m' ∧
      SdmSamples M S P D U m' (shearGas3 q) :=
  sdm_of hU hne m fun _ _ => by
    show khSdm M.d3 S D q _ _ _ _ = _
    rw [hd]
    exact khSdm_smooth3 D h1 h2 _ _ _ _

/-- **C129.** Kelvin-Helmholtz instability with sharp layers and noise. -/
theorem C129_sharp {q : KHParams ℝ} {rnd : Cell → Pt → ℕ → ℝ} (h1 : q.p_rand = true)
    (hr : ∀ c p n, 0 ≤ rnd c p n ∧ rnd c p n ≤ 1) (hU : solArray ti U) (hne : Mood.Nonempty3 M.d3 P)
    (m : Addr → ℝ) :
    ∃ m', (sdmInit M S P D U (.kelvinHelmholtz q rnd)).Yields (sdmDom M.d3 M.N P ti) m m' ∧
      ∀ b p, P.box M.d3 b → IsSolPt M.d3 M.N p → ∃ a₁ a₂ a₃, |a₁| ≤ |q.amplitude| / 2 ∧ |a₂| ≤ |q.amplitude| / 2 ∧
        |a₃| ≤ |q.amplitude| / 2 ∧ (M.d3 = false → a₃ = 0) ∧ ∀ v, v < P.nbvar →
        m' (M.sol U b p v) = Mood.comp ((sharpGas q
          (if M.d3 then (D.zmin + (b.k + P.nz * D.k_mpi - P.ghostWidth + M.sp p.z) * S.dz - D.zmin) / (D.zmax - D.zmin)
          else (D.ymin + (b.j + P.ny * D.j_mpi - P.ghostWidth + M.sp p.y) * S.dy - D.ymin) / (D.ymax - D.ymin))
          a₁ a₂ a₃).conserved S.gamma0) v := by
  obtain ⟨m', y, hv, -⟩ := state_fill (lay := M.lay) (places_sdm (M := M) hU) hne
    (fun c p => sdmState M S P D c p (.kelvinHelmholtz q rnd)) m
  refine ⟨m', y, fun b p hb hp => ⟨q.amplitude * (rnd b p 0 - 1 / 2), q.amplitude * (rnd b p 1 - 1 / 2),
    if M.d3 then q.amplitude * (rnd b p 2 - 1 / 2) else 0, half_noise (hr _ _ _), half_noise (hr _ _ _), ?_, ?_, ?_⟩⟩
  · split_ifs
    · exact half_noise (hr _ _ _)
    · rw [abs_zero]; positivity
  · intro h
    rw [h]
    rfl
  · intro v hv'
    refine (hv b p v hb (mem_cellPts.2 hp) hv').trans ?_
    show (khSdm M.d3 S D q (rnd b p) _ _ _).elim _ _ = _
    rw [khSdm_sharp _ _ h1, ySdm_eq, zSdm_eq]
    rfl

/-- **C129.** With neither kind of perturbation the solver stores nothing: the run starts from what was in
memory. -/
theorem C129_shear_none {q : KHParams ℝ} {rnd : Cell → Pt → ℕ → ℝ} (h1 : q.p_rand = false)
    (h2 : q.p_sine_rob = false) (hU : solArray ti U) (hne : Mood.Nonempty3 M.d3 P) (m : Addr → ℝ) :
    ∃ m', (sdmInit M S P D U (.kelvinHelmholtz q rnd)).Yields (sdmDom M.d3 M.N P ti) m m' ∧
      ∀ b p v, P.box M.d3 b → IsSolPt M.d3 M.N p → v < P.nbvar → m' (M.sol U b p v) = m (M.sol U b p v) := by
  obtain ⟨m', y, hv, -⟩ := state_fill (lay := M.lay) (places_sdm (M := M) hU) hne
    (fun c p => sdmState M S P D c p (.kelvinHelmholtz q rnd)) m
  refine ⟨m', y, fun b p v hb hp hv' => (hv b p v hb (mem_cellPts.2 hp) hv').trans ?_⟩
  show (khSdm M.d3 S D q (rnd b p) _ _ _).elim _ _ = _
  simp only [khSdm, h1, h2, Bool.false_eq_true, if_false]
  rfl

/-- **C129.** The Gresho vortex, in 2D and 3D. -/
theorem C129_gresho {q : GreshoParams ℝ} (h0 : q.rho0 ≠ 0) (hU : solArray ti U) (hne : Mood.Nonempty3 M.d3 P) (m : Addr → ℝ) :
    ∃ m', (sdmInit M S P D U (.gresho q)).Yields (sdmDom M.d3 M.N P ti) m m' ∧
      SdmSamples M S P D U m' (greshoGas S.gamma0 q) :=
  sdm_of hU hne m fun _ _ => congrArg some (greshoSdm_eq _ h0 _ _ _)

/-- **C129.** The isentropic vortex. -/
theorem C129_vortex {q : IsentropicVortexParams ℝ} {t : ℝ} (hU : solArray ti U) (hne : Mood.Nonempty3 M.d3 P)
    (m : Addr → ℝ) :
    ∃ m', (sdmInit M S P D U (.vortex q false t)).Yields (sdmDom M.d3 M.N P ti) m m' ∧
      SdmSamples M S P D U m' (vortexGas S.gamma0 q) :=
  sdm_of hU hne m fun _ _ => congrArg some (vortexSdm_eq _ _ _ _)

theorem fmod_same (x : ℝ) (L : ℝ) : SameModulo L (FOps.fmod x L) x := by
  refine ⟨-(if 0 ≤ x / L then ⌊x / L⌋ else ⌈x / L⌉), ?_⟩
  show x - L * (if 0 ≤ x / L then (⌊x / L⌋ : ℝ) else (⌈x / L⌉ : ℝ)) = _
  split_ifs <;> push_cast <;> ring

theorem fmod_range {x L : ℝ} (hx : 0 ≤ x) (hL : 0 < L) : 0 ≤ FOps.fmod x L ∧ FOps.fmod x L < L := by
  have e : FOps.fmod x L = x - L * ⌊x / L⌋ := by
    show x - L * (if 0 ≤ x / L then (⌊x / L⌋ : ℝ) else (⌈x / L⌉ : ℝ)) = _
    rw [if_pos (div_nonneg hx hL.le)]
  have h1 := Int.floor_le (x / L)
  have h2 := Int.lt_floor_add_one (x / L)
  rw [le_div_iff₀ hL] at h1
  rw [div_lt_iff₀ hL] at h2
  rw [e]
  constructor <;> nlinarith

theorem fmod_small {x L : ℝ} (hx : 0 ≤ x) (hL : x < L) : FOps.fmod x L = x := by
  have hL' : 0 < L := by linarith
  show x - L * (if 0 ≤ x / L then (⌊x / L⌋ : ℝ) else (⌈x / L⌉ : ℝ)) = x
  rw [if_pos (div_nonneg hx hL'.le), Int.floor_eq_zero_iff.2 ⟨div_nonneg hx hL'.le, (div_lt_one hL').2 hL⟩]
  simp

/-- **C129.** With `use_tEnd` the array holds the solution at the time `t`: the vortex has moved with the wind, up to
periods of the box; it lies in the box if the box begins at 0 and the wind has not carried the vortex below 0. -/
theorem C129_vortex_moved {q : IsentropicVortexParams ℝ} {t : ℝ} (hU : solArray ti U)
    (hne : Mood.Nonempty3 M.d3 P) (m : Addr → ℝ) :
    ∃ m' cx cy, (sdmInit M S P D U (.vortex q true t)).Yields (sdmDom M.d3 M.N P ti) m m' ∧
      SdmSamples M S P D U m' (vortexGas S.gamma0 { q with vortex_x := cx, vortex_y := cy }) ∧
      SameModulo (D.xmax - D.xmin) cx (q.vortex_x + t * q.u_a) ∧
      SameModulo (D.ymax - D.ymin) cy (q.vortex_y + t * q.v_a) ∧
      (D.xmin = 0 → D.xmin < D.xmax → 0 ≤ q.vortex_x + t * q.u_a → D.xmin ≤ cx ∧ cx < D.xmax) ∧
      (D.ymin = 0 → D.ymin < D.ymax → 0 ≤ q.vortex_y + t * q.v_a → D.ymin ≤ cy ∧ cy < D.ymax) := by
  obtain ⟨m', y, hs⟩ := sdm_of (M := M) (S := S) (P := P) (D := D) (Q := .vortex q true t)
    (G := vortexGas S.gamma0 (vortexMoved D q true t)) hU hne m fun _ _ => congrArg some (vortexSdm_eq _ _ _ _)
  refine ⟨m', FOps.fmod (q.vortex_x + t * q.u_a) (D.xmax - D.xmin),
    FOps.fmod (q.vortex_y + t * q.v_a) (D.ymax - D.ymin), y, hs, fmod_same _ _, fmod_same _ _, ?_, ?_⟩
  · intro h0 h1 h2
    have := fmod_range h2 (sub_pos.2 h1)
    rw [h0, sub_zero] at *
    exact this
  · intro h0 h1 h2
    have := fmod_range h2 (sub_pos.2 h1)
    rw [h0, sub_zero] at *
    exact this

/-- **C129.** In a box that begins below 0 the wind can carry the vortex out of the box: the period is taken off
only when the distance from 0, not from the lower side, exceeds it. -/
theorem C129_vortex_moved_wrong {q : IsentropicVortexParams ℝ} {t : ℝ} (hU : solArray ti U)
    (hne : Mood.Nonempty3 M.d3 P) (m : Addr → ℝ) (h0 : 0 ≤ q.vortex_x + t * q.u_a)
    (h1 : D.xmax < q.vortex_x + t * q.u_a) (h2 : q.vortex_x + t * q.u_a < D.xmax - D.xmin) :
    ∃ m' cx cy, (sdmInit M S P D U (.vortex q true t)).Yields (sdmDom M.d3 M.N P ti) m m' ∧
      SdmSamples M S P D U m' (vortexGas S.gamma0 { q with vortex_x := cx, vortex_y := cy }) ∧ D.xmax < cx := by
  obtain ⟨m', y, hs⟩ := sdm_of (M := M) (S := S) (P := P) (D := D) (Q := .vortex q true t)
    (G := vortexGas S.gamma0 (vortexMoved D q true t)) hU hne m fun _ _ => congrArg some (vortexSdm_eq _ _ _ _)
  refine ⟨m', FOps.fmod (q.vortex_x + t * q.u_a) (D.xmax - D.xmin),
    FOps.fmod (q.vortex_y + t * q.v_a) (D.ymax - D.ymin), y, hs, ?_⟩
  rw [fmod_small h0 h2]
  exact h1

/-- The numbers of `C129_vortex_moved_wrong`. -/
example : (0 : ℝ) ≤ 0 + 7 * 1 ∧ (5 : ℝ) < 0 + 7 * 1 ∧ (0 : ℝ) + 7 * 1 < 5 - -5 := by norm_num

/-- **C129.** Four quadrants, 2D: the gas is the one half a cell to the upper right of the solution point. -/
theorem C129_quadrants {n : Int} {xt yt : ℝ} (hd : M.d3 = false) (hU : solArray ti U)
    (hne : Mood.Nonempty3 M.d3 P) (m : Addr → ℝ) :
    ∃ m', (sdmInit M S P D U (.fourQuadrant n xt yt)).Yields (sdmDom M.d3 M.N P ti) m m' ∧
      SdmSamples M S P D U m' (fun x y z => quadrantGas (getRiemannConfig2d n) xt yt (x + S.dx / 2) (y + S.dy / 2) z) := by
  refine sdm_of hU hne m fun c p => ?_
  show (if M.d3 = true then none else some (quadrantState (quadrantStates S n) xt yt _ _)) = _
  rw [hd, if_neg (by decide), quadrantState_eq _ _ _ _ _ (zSdm M S P D c.k p.z), xSdm_eq, ySdm_eq]
  congr 3
  · show D.xmin + S.dx / ((2 : ℚ) : ℝ) + (((c.i + P.nx * D.i_mpi - P.ghostWidth : Int) : ℚ) : ℝ) * S.dx +
      M.sp p.x * S.dx = _
    push_cast; ring
  · show D.ymin + S.dy / ((2 : ℚ) : ℝ) + (((c.j + P.ny * D.j_mpi - P.ghostWidth : Int) : ℚ) : ℝ) * S.dy +
      M.sp p.y * S.dy = _
    push_cast; ring

/-- **C129.** So points less than half a cell left of the upper interface start with the gas of the other side. -/
theorem C129_quadrants_wrong {n : Int} {xt yt : ℝ} (hd : M.d3 = false) (hU : solArray ti U)
    (hne : Mood.Nonempty3 M.d3 P) (m : Addr → ℝ) (hn : 0 < P.nbvar) {b : Cell} {p : Pt} (hb : P.box M.d3 b)
    (hp : IsSolPt M.d3 M.N p) {x y : ℝ}
    (hx : x = D.xmin + (b.i + P.nx * D.i_mpi - P.ghostWidth + M.sp p.x) * S.dx)
    (hy : y = D.ymin + (b.j + P.ny * D.j_mpi - P.ghostWidth + M.sp p.y) * S.dy)
    (h1 : x < xt) (h2 : xt ≤ x + S.dx / 2) (h3 : yt ≤ y) (h4 : 0 < S.dy)
    (h5 : (getRiemannConfig2d n).U0.d ≠ (getRiemannConfig2d n).U1.d) :
    ∃ m', (sdmInit M S P D U (.fourQuadrant n xt yt)).Yields (sdmDom M.d3 M.N P ti) m m' ∧
      m' (M.sol U b p 0) = (getRiemannConfig2d n).U0.d ∧
      ¬ SdmSamples M S P D U m' (quadrantGas (getRiemannConfig2d n) xt yt) := by
  obtain ⟨m', y', hs⟩ := C129_quadrants (M := M) (S := S) (P := P) (D := D) (n := n) (xt := xt) (yt := yt) hd hU hne m
  have h := hs b p 0 hb hp hn
  rw [← hx, ← hy] at h
  unfold quadrantGas at h
  beta_reduce at h
  rw [if_pos h2, if_pos (by linarith)] at h
  refine ⟨m', y', h, fun hw => ?_⟩
  have h' := hw b p 0 hb hp hn
  rw [← hx, ← hy] at h'
  unfold quadrantGas at h'
  rw [if_neg (not_le.2 h1), if_pos h3, h] at h'
  have e : (((getRiemannConfig2d n).U0.d : ℚ) : ℝ) = (((getRiemannConfig2d n).U1.d : ℚ) : ℝ) := h'
  exact h5 (by exact_mod_cast e)

/-- **C129.** Four quadrants, 3D: nothing is stored. -/
theorem C129_quadrants_none {n : Int} {xt yt : ℝ} (hd : M.d3 = true) (hU : solArray ti U)
    (hne : Mood.Nonempty3 M.d3 P) (m : Addr → ℝ) :
    ∃ m', (sdmInit M S P D U (.fourQuadrant n xt yt)).Yields (sdmDom M.d3 M.N P ti) m m' ∧
      ∀ b p v, P.box M.d3 b → IsSolPt M.d3 M.N p → v < P.nbvar → m' (M.sol U b p v) = m (M.sol U b p v) := by
  obtain ⟨m', y, hv, -⟩ := state_fill (lay := M.lay) (places_sdm (M := M) hU) hne
    (fun c p => sdmState M S P D c p (.fourQuadrant n xt yt)) m
  refine ⟨m', y, fun b p v hb hp hv' => (hv b p v hb (mem_cellPts.2 hp) hv').trans ?_⟩
  show ((if M.d3 = true then none else some (quadrantState (quadrantStates S n) xt yt _ _)) : Option _).elim _ _ = _
  rw [hd, if_pos rfl]
  rfl

/-- **C129.** Nothing but the array of the solution is written, whatever the problem. -/
theorem C129_only (Q : SdmProblem ℝ) (hU : solArray ti U) (hne : Mood.Nonempty3 M.d3 P) (m : Addr → ℝ) :
    ∃ m', (sdmInit M S P D U Q).Yields (sdmDom M.d3 M.N P ti) m m' ∧ ∀ a, a.arr ≠ U → m' a = m a := by
  obtain ⟨m', y, -, h⟩ := state_fill (lay := M.lay) (places_sdm (M := M) hU) hne
    (fun c p => sdmState M S P D c p Q) m
  exact ⟨m', y, h⟩

/-- **C129.** The names the solver knows, each with its own problem; every other name selects the implosion. -/
theorem C129_names : sdmBranch "sod" = .sod ∧ sdmBranch "blast" = .blast ∧ sdmBranch "four_quadrant" = .fourQuadrant ∧
    sdmBranch "kelvin_helmholtz" = .kelvinHelmholtz ∧ sdmBranch "gresho_vortex" = .gresho ∧
    sdmBranch "wedge" = .wedge ∧ sdmBranch "jet" = .jet ∧ sdmBranch "isentropic_vortex" = .vortex ∧
    sdmBranch "shu_osher" = .shuOsher ∧
    ∀ name, name ∉ ["sod", "blast", "four_quadrant", "kelvin-helmholtz", "kelvin_helmholtz", "gresho-vortex",
      "gresho_vortex", "wedge", "jet", "isentropic_vortex", "shu_osher"] → sdmBranch name = .implode := by
  refine ⟨by decide, by decide, by decide, by decide, by decide, by decide, by decide, by decide, by decide, ?_⟩
  intro name h
  simp only [List.mem_cons, List.not_mem_nil, or_false, not_or] at h
  obtain ⟨h1, h2, h3, h4, h5, h6, h7, h8, h9, h10, h11⟩ := h
  simp [sdmBranch, h1, h2, h3, h4, h5, h6, h7, h8, h9, h10, h11]

/-- The hypotheses are met: a box of 8 by 4 cells with 3 by 3 points each; configuration 3 has different densities
at the top. -/
example : ∃ (P : Grid) (M : Scheme ℝ) (p : Pt) (b : Cell), M.d3 = false ∧ Mood.Nonempty3 M.d3 P ∧
    solArray .ssprk3 sU ∧ P.box M.d3 b ∧ IsSolPt M.d3 M.N p ∧ P.nbvar = 4 ∧
    (getRiemannConfig2d 3).U0.d ≠ (getRiemannConfig2d 3).U1.d :=
  ⟨{ nx := 8, ny := 4, nz := 1, ghostWidth := 2, nbvar := 4,
      boundary_type_xmin := 1, boundary_type_xmax := 1, boundary_type_ymin := 1, boundary_type_ymax := 1,
      boundary_type_zmin := 1, boundary_type_zmax := 1 },
    ⟨.left, false, 3, fun _ => 1 / 2, fun _ => 1 / 2⟩, ⟨1, 2, 0⟩, ⟨3, 4, 0⟩, rfl, ⟨by decide, by decide, nofun⟩, .inl rfl,
    by decide, ⟨by decide, by decide, by decide⟩, rfl, by decide +kernel⟩

end Verif.Start
