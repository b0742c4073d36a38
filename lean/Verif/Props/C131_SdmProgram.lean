import Verif.Lemmas.HighProgram
import Verif.Props.C85_C89_SdmStep
import Verif.Props.C129_InitSdm

/-!
# C131: the SDM program from start to end

Trusted model: `Verif.Model.HighProgram`.  What the files should look like is in `Verif.Spec.HighProgram`.
-/

namespace Verif

open Spec ROps Sdm Start Special

variable {C : SdmConf ℝ} {B : Sides} {D : Domain ℝ} {Q : SdmProblem ℝ}

/-! ### A step -/

private theorem rhs_junk (hC : C.Ok B) {j j' : Dir → Cell → Pt → HState ℝ} {u v : Vals ℝ}
    (e : SameInside C.M.d3 C.M.N C.P u v) :
    SameInside C.M.d3 C.M.N C.P (rhs C.M C.S C.P B j u) (rhs C.M C.S C.P B j' v) :=
  (rhs_inside hC.box e).trans ((rhs_eq hC.scheme hC.box hC.solver v).trans
    (rhs_eq hC.scheme hC.box hC.solver v).symm)

private theorem stepVals_junk (hC : C.Ok B) {junk junk' : ℕ → Dir → Cell → Pt → HState ℝ} {ti : Mood.TimeInt} {dt : ℝ}
    {u v : Vals ℝ} (e : SameInside C.M.d3 C.M.N C.P u v) :
    SameInside C.M.d3 C.M.N C.P (stepVals C.M C.S C.P B junk ti dt u) (stepVals C.M C.S C.P B junk' ti dt v) := by
  have st : ∀ {c0 c1 c2 : ℝ} {j j' : Dir → Cell → Pt → HState ℝ} {a a' b b' w w' : Vals ℝ},
      SameInside C.M.d3 C.M.N C.P a a' → SameInside C.M.d3 C.M.N C.P b b' → SameInside C.M.d3 C.M.N C.P w w' →
      SameInside C.M.d3 C.M.N C.P (mix c0 c1 c2 dt a b (rhs C.M C.S C.P B j w))
        (mix c0 c1 c2 dt a' b' (rhs C.M C.S C.P B j' w')) :=
    fun ha hb hw => mix_congr ha hb (rhs_junk hC hw)
  cases ti
  · exact st e e e
  · exact st e (st e e e) (st e e e)
  · exact st e (st e (st e e e) (st e e e)) (st e (st e e e) (st e e e))
  · have e1 := st (c0 := lit 1) (c1 := lit 0) (c2 := lit (-0.391752226571890)) (j := junk 0) (j' := junk' 0) e e e
    have e2 := st (c0 := lit 0.444370493651235) (c1 := lit 0.555629506348765)
      (c2 := lit (-0.368410593050371)) (j := junk 1) (j' := junk' 1) e e1 e1
    have e3 := st (c0 := lit 0.620101851488403) (c1 := lit 0.379898148511597)
      (c2 := lit (-0.251891774271694)) (j := junk 2) (j' := junk' 2) e e2 e2
    have e4 := st (c0 := lit 0.178079954393132) (c1 := lit 0.821920045606868)
      (c2 := lit (-0.544974750228521)) (j := junk 3) (j' := junk' 3) e e3 e3
    have e5 := st (c0 := lit 0.517231671970585) (c1 := lit 0.096059710526147)
      (c2 := lit (-0.063692468666290)) (j := junk 3) (j' := junk' 3) e2 e3 e3
    exact st e5 e4 e4

private theorem sdm_step (hC : C.Ok B) {lay : Layout} {junk junk' : ℕ → Dir → Cell → Pt → HState ℝ} {ti : Mood.TimeInt}
    {dt : ℝ} {m n m' n' : Addr → ℝ} (e : SameInside C.M.d3 C.M.N C.P (valsOf C.M m sU) (valsOf C.M n sU))
    (r1 : Runs (timeStep C.M C.S C.P junk ti dt) m m')
    (r2 : Runs (timeStep { C.M with lay := lay } C.S C.P junk' ti dt) n n') :
    SameInside C.M.d3 C.M.N C.P (valsOf C.M m' sU) (valsOf C.M n' sU) := by
  obtain ⟨a, y, ha⟩ := step_yields (S := C.S) hC.box hC.scheme.orders.1 ti dt junk m
  obtain ⟨b, z, hb⟩ := step_yields (M := { C.M with lay := lay }) (S := C.S) hC.box hC.scheme.orders.1 ti dt junk' n
  obtain rfl := y.unique r1
  obtain rfl := z.unique r2
  exact SameInside.trans ha (SameInside.trans (stepVals_junk hC e) (SameInside.symm hb))

/-! ### The time step -/

private theorem state_same {d3 : Bool} {m m' : Addr → ℝ} {ad : ℕ → Addr}
    (e : ∀ iv < hydroVars d3, m (ad iv) = m' (ad iv)) : stateAt d3 m ad = stateAt d3 m' ad := by
  cases d3
  · simp only [stateAt, Mood.ofComps]
    rw [e ID (by decide), e IP (by decide), e IU (by decide), e IV (by decide)]
    rfl
  · simp only [stateAt, Mood.ofComps]
    rw [e ID (by decide), e IP (by decide), e IU (by decide), e IV (by decide), e IW (by decide)]

theorem sdm_dt (hC : C.Ok B) {lay : Layout} {m n : Addr → ℝ} {d d' : ℝ}
    (e : SameInside C.M.d3 C.M.N C.P (valsOf C.M m sU) (valsOf C.M n sU))
    (h : Sdm.ComputeDtLocal TOps.pow C.bot C.M C.rescale C.ssprk3 C.ssprk54 C.S C.P m d)
    (h' : Sdm.ComputeDtLocal TOps.pow C.bot { C.M with lay := lay } C.rescale C.ssprk3 C.ssprk54 C.S C.P n d') :
    d = d' := by
  obtain ⟨X, g, rfl⟩ := sdmDt_greatest (nonempty_of_box hC.box (by decide)) h
  obtain ⟨X', g', rfl⟩ := sdmDt_greatest (M := { C.M with lay := lay }) (nonempty_of_box hC.box (by decide)) h'
  have key : ∀ {c p}, Inside C.M.d3 C.P c → IsSolPt C.M.d3 C.M.N p →
      stateAt C.M.d3 m (C.M.sol sU c p) = stateAt C.M.d3 n (C.M.sol sU c p) :=
    fun hc hp => state_same fun iv hv => e _ _ iv hc.1 hc.2 hp hv
  have e2 : {x | ∃ c p, Inside C.M.d3 C.P c ∧ IsSolPt C.M.d3 C.M.N p ∧
        x = Sdm.cflRate C.M.d3 C.M.N C.S (stateAt C.M.d3 m (C.M.sol sU c p))} =
      {x | ∃ c p, Inside C.M.d3 C.P c ∧ IsSolPt C.M.d3 C.M.N p ∧
        x = Sdm.cflRate C.M.d3 C.M.N C.S (stateAt C.M.d3 n (C.M.sol sU c p))} := by
    ext x
    constructor <;> rintro ⟨c, p, hc, hp, rfl⟩
    · exact ⟨c, p, hc, hp, by rw [key hc hp]⟩
    · exact ⟨c, p, hc, hp, by rw [key hc hp]⟩
  rw [e2] at g
  obtain rfl := g.unique g'
  rfl

theorem sdm_rate_pos (hg : 0 < C.S.gamma0) (hs : Spacings C.M.d3 C.S) (hN : 0 < C.M.N) {u : HState ℝ}
    (hd : 0 < u.d) : 0 < Sdm.cflRate C.M.d3 C.M.N C.S u := by
  have hn : (0 : ℝ) < C.M.N := by exact_mod_cast hN
  have hx := hs.dx
  have hy := hs.dy
  have hsp : (0 : ℝ) < lit (1 / 10000000) := by rops; norm_num
  have pos : ∀ {c v w : ℝ}, 0 < c → 0 < w → 0 < (c + |v|) / (w / C.M.N) := fun hc hw =>
    div_pos (add_pos_of_pos_of_nonneg hc (abs_nonneg _)) (div_pos hw hn)
  unfold Sdm.cflRate
  cases h3 : C.M.d3
  · have hc : 0 < Euler2.compute_speed_of_sound (Euler2.convert_to_primitive u C.S.gamma0) C.S.gamma0 := by
      refine div_pos (mul_pos ?_ hg) hd
      refine lt_max_of_lt_right (mul_pos hsp (lt_max_of_lt_left hd))
    simp only [Bool.false_eq_true, if_false]
    rops
    exact add_pos (pos hc hx) (pos hc hy)
  · have hc : 0 < Euler3.compute_speed_of_sound (Euler3.convert_to_primitive u C.S.gamma0) C.S.gamma0 :=
      div_pos (mul_pos (lt_max_of_lt_right (mul_pos hsp hd)) hg) hd
    simp only [if_true]
    rops
    exact add_pos (add_pos (pos hc hx) (pos hc hy)) (pos hc (hs.dz h3))

theorem sdm_dt_pos (hC : C.Ok B) (hg : 0 < C.S.gamma0) (hs : Spacings C.M.d3 C.S) (hcfl : 0 < C.S.cfl)
    {m : Addr → ℝ} {d : ℝ} (hm : SdmDense C m)
    (h : Sdm.ComputeDtLocal TOps.pow C.bot C.M C.rescale C.ssprk3 C.ssprk54 C.S C.P m d) : 0 < d := by
  obtain ⟨X, ⟨-, g⟩, rfl⟩ := sdmDt_greatest (nonempty_of_box hC.box (by decide)) h
  obtain ⟨c, hc⟩ := exists_inside hC.box (by decide)
  have hN : 0 < C.M.N := hC.scheme.orders.1
  have hp : IsSolPt C.M.d3 C.M.N ⟨0, 0, 0⟩ := ⟨hN, hN, by split; exacts [hN, rfl]⟩
  have hX : 0 < X := lt_of_lt_of_le (sdm_rate_pos hg hs hN (hm c _ hc hp)) (g (.inr ⟨c, _, hc, hp, rfl⟩))
  split_ifs
  · exact Real.rpow_pos_of_pos (div_pos hcfl hX) _
  · exact div_pos hcfl hX

/-! ### The start -/

theorem sdm_post (hC : C.Ok B) (m : Addr → ℝ) : ∃ m', Runs C.post m m' ∧
    ∀ m'', Runs C.post m m'' → SameInside C.M.d3 C.M.N C.P (valsOf C.M m'' sU) (valsOf C.M m sU) := by
  obtain ⟨m', y, -, e, -⟩ := C87_ghosts (M := C.M) hC.box (sU_sol C.ti) m
  refine ⟨m', y.run, fun m'' r => ?_⟩
  obtain rfl := y.unique r
  exact e

theorem sdm_init (hC : C.Ok B) (m : Addr → ℝ) : ∃ m', Runs (C.init D Q) m m' ∧
    ∀ m'', Runs (C.init D Q) m m'' → ∀ c p iv, C.P.box C.M.d3 c → IsSolPt C.M.d3 C.M.N p → iv < C.P.nbvar →
      m'' (C.M.sol sU c p iv) = (sdmState C.M C.S C.P D c p Q).elim (m (C.M.sol sU c p iv)) fun s => Mood.comp s iv := by
  obtain ⟨m', y, hv, -⟩ := state_fill (lay := C.M.lay) (places_sdm (M := C.M) (sU_sol C.ti))
    (nonempty_of_box hC.box (by decide)) (fun c p => sdmState C.M C.S C.P D c p Q) m
  have y' : YieldsAll (sdmDom C.M.d3 C.M.N C.P C.ti) (C.init D Q) m m' := .cons y (.nil _)
  refine ⟨m', y'.run, fun m'' r c p iv hb hp hi => ?_⟩
  obtain rfl := y'.unique r
  exact hv c p iv hb (mem_cellPts.2 hp) hi

theorem sdm_start (hC : C.Ok B) {lay : Layout} {m1 m2 m1' m2' : Addr → ℝ}
    (r1 : Runs (C.init D Q) (fun _ => lit 0) m1) (r2 : Runs C.post m1 m2)
    (r1' : Runs ((C.ordered lay).init D Q) (fun _ => lit 0) m1') (r2' : Runs (C.ordered lay).post m1' m2') :
    SameInside C.M.d3 C.M.N C.P (valsOf C.M m2 sU) (valsOf C.M m2' sU) := by
  have hC' : (C.ordered lay).Ok B := ⟨⟨hC.scheme.orders, hC.scheme.sp, hC.scheme.fp⟩, hC.box, hC.solver⟩
  obtain ⟨-, -, a⟩ := sdm_post hC m1
  obtain ⟨-, -, a'⟩ := sdm_post hC' m1'
  obtain ⟨-, -, b⟩ := sdm_init (D := D) (Q := Q) hC (fun _ => lit 0)
  obtain ⟨-, -, b'⟩ := sdm_init (D := D) (Q := Q) hC' (fun _ => lit 0)
  refine (a _ r2).trans (SameInside.trans (fun c p iv hb hi hp hv => ?_) (SameInside.symm (a' _ r2')))
  exact (b _ r1 c p iv hb hp (hC.box.nv ▸ hv)).trans (b' _ r1' c p iv hb hp (hC.box.nv ▸ hv)).symm

private theorem sdm_twins (hC : C.Ok B) (lay : Layout) : C.driver.Twins (C.ordered lay).driver
    (fun _ m m' => SameInside C.M.d3 C.M.N C.P (valsOf C.M m sU) (valsOf C.M m' sU))
    (fun a b => SameInside C.M.d3 C.M.N C.P (sdmVals C a) (sdmVals C b)) where
  ctl := rfl
  every := rfl
  dt e h h' := sdm_dt hC e h h'
  step e := fun ⟨_, r⟩ ⟨_, r'⟩ => sdm_step hC e r r'
  shows e := e

theorem sdm_total (hC : C.Ok B) : C.driver.Total where
  dt it m := ⟨_, _, ⟨.thread (List.range _), List.Perm.refl _, rfl⟩, rfl⟩
  step it dt m := by
    obtain ⟨m', y⟩ := C85_step (S := C.S) hC.box hC.scheme.orders.1 (fun _ _ _ _ => HState.zero) C.ti dt m
    exact ⟨m', _, y.run⟩

/-! ### C131 -/

/-- **C131**: the SDM program runs to its end, whatever the schedules of its loops, the order of its reductions and the values of
uninitialised variables, and all its runs – also those of a build whose loops go through the cells in the other order – write the same
files and stop after the same number of steps at the same time. -/
theorem C131_same_files (hC : C.Ok B) (hlog : C.ctl.nlog ≠ 0) :
    (∃ s, C.Main D Q (some s)) ∧
    ∀ lay r r', C.Main D Q r → (C.ordered lay).Main D Q r' → ∃ s s', r = some s ∧ r' = some s' ∧
      List.Forall₂ (SameSdmFile C) s.files s'.files ∧ s.t = s'.t ∧ s.iteration = s'.iteration := by
  constructor
  · obtain ⟨m1, r1, -⟩ := sdm_init (D := D) (Q := Q) hC (fun _ => lit 0)
    obtain ⟨m2, r2, -⟩ := sdm_post hC m1
    exact Driver.main_exists (sdm_total hC) hlog r1 r2
  · intro lay r r' h h'
    exact Driver.main_same (sdm_twins hC lay) hlog (fun a b c d => sdm_start hC a b c d) h h'

/-- **C131**: with `nlog = 0` a run that has a step to make divides by zero. -/
theorem C131_nlog (hlog : C.ctl.nlog = 0) (ht : C.ctl.tCurrent < C.ctl.tEnd - 1 / 10 ^ 14) (hn : 0 < C.ctl.nStepmax)
    {r : Option (HydroState ℝ)} (hm : C.Main D Q r) : r = none := by
  obtain ⟨s0, r', ⟨m1, d, m2, -, -, -, rfl⟩, l, rfl⟩ := hm
  have hf : C.driver.ctl.finished (C.driver.saveIf ⟨m2, C.driver.ctl.tCurrent,
      C.driver.ctl.computeDt C.driver.ctl.tCurrent d, 0, 0, []⟩).ctl = false := by
    simp only [Sim.finished, HydroState.ctl, (Driver.saveIf_eq _ _).2.1, (Driver.saveIf_eq _ _).2.2]
    have : ¬ (C.driver.ctl.tEnd - lit (1 / 10 ^ 14) ≤ C.driver.ctl.tCurrent) := by
      show ¬ (C.ctl.tEnd - (((1 / 10 ^ 14 : ℚ)) : ℝ) ≤ C.ctl.tCurrent)
      push_cast
      linarith
    simp only [leb, decide_eq_false this, Bool.false_or, decide_eq_false_iff_not]
    show ¬ (((0 : ℕ) : Int) ≥ C.ctl.nStepmax)
    omega
  cases l with
  | done h => rw [hf] at h; cases h
  | ub => rfl
  | step _ h => exact (h hlog).elim

/-- **C131**: as long as the density stays positive, the files are numbered without gaps from 0 and their times never decrease and lie
between the start time and the end time. -/
theorem C131_order (hC : C.Ok B) (hg : 0 < C.S.gamma0) (hs : Spacings C.M.d3 C.S) (hcfl : 0 < C.S.cfl)
    (hdense : ∀ s, C.driver.Visits (C.init D Q) C.post s → SdmDense C s.m)
    (ht : C.ctl.tCurrent ≤ C.ctl.tEnd) {s : HydroState ℝ} (hm : C.Main D Q (some s)) :
    InOrder 0 C.ctl.tCurrent C.ctl.tEnd s.files :=
  Driver.main_ordered (fun hv hd => sdm_dt_pos hC hg hs hcfl (hdense _ hv) hd) ht hm

/-- **C131**: the first file is written at the start time, the last at the end; the first shows at every solution point the gas of the
problem, whenever the initial condition holds it (C129: `hG`). -/
theorem C131_first (hC : C.Ok B) (ho : C.ctl.nOutput ≠ 0) {G : ℝ → ℝ → ℝ → PointGas}
    (hG : ∀ m, ∃ m', (sdmInit C.M C.S C.P D sU Q).Yields (sdmDom C.M.d3 C.M.N C.P C.ti) m m' ∧
      SdmSamples C.M C.S C.P D sU m' G) {s : HydroState ℝ} (hm : C.Main D Q (some s)) :
    ∃ x0 x1, s.files.head? = some x0 ∧ x0.number = 0 ∧ x0.time = C.ctl.tCurrent ∧ SdmFileShows C D G x0 ∧
      s.files.getLast? = some x1 ∧ x1.time = s.t := by
  obtain ⟨m1, m2, r1, r2, e⟩ := Driver.first_file hm ho
  refine ⟨_, _, e, rfl, rfl, ?_, Driver.last_file hm ho, rfl⟩
  obtain ⟨m', y, hs⟩ := hG (fun _ => lit 0)
  have y' : YieldsAll (sdmDom C.M.d3 C.M.N C.P C.ti) (C.init D Q) (fun _ => lit 0) m' := .cons y (.nil _)
  obtain rfl := y'.unique r1
  obtain ⟨-, -, a⟩ := sdm_post hC m1
  intro b p v hb hp hv
  exact (a _ r2 b p v hb.1 hb.2 hp hv).trans (hs b p v hb.1 hp (hC.box.nv ▸ hv))

/-- **C131**: in a closed box, with forward Euler, ssprk2 or ssprk3, every file has the total of the first. -/
theorem C131_conservation (hC : C.Ok B) (hG : GasParams C.S) (hw : WallSolver C.M.d3 C.S B) (hti : C.ti ≠ .ssprk54)
    {s : HydroState ℝ} (hm : C.Main D Q (some s)) {x0 : Snapshot FileData ℝ} (hx0 : s.files.head? = some x0) {iv : ℕ}
    (hv : iv < hydroVars C.M.d3) (hcl : Closed C.M.d3 B iv) :
    ∀ x ∈ s.files, sdmTotal C x iv = sdmTotal C x0 iv := by
  intro x hx
  obtain ⟨-, -, h⟩ := Driver.run_files (V := C.driver)
    (I := fun _ d => content C.M.d3 C.M.N C.P (sdmVals C d) iv = sdmTotal C x0 iv)
    (fun it dt m m' ⟨_, r⟩ h => (C86_conserved hC.scheme hC.box hG hC.solver hw hti r hv hcl).trans h) hm hx0 rfl x hx
  exact h

/-- **C131 fails with ssprk54**: the totals grow by a factor `1.000000000000001` per step. -/
theorem C131_drift (hC : C.Ok B) (hG : GasParams C.S) (hw : WallSolver C.M.d3 C.S B) (hti : C.ti = .ssprk54)
    {s : HydroState ℝ} (hm : C.Main D Q (some s)) {x0 : Snapshot FileData ℝ} (hx0 : s.files.head? = some x0) {iv : ℕ}
    (hv : iv < hydroVars C.M.d3) (hcl : Closed C.M.d3 B iv) :
    ∀ x ∈ s.files, ∃ n ≤ s.iteration, sdmTotal C x iv = 1.000000000000001 ^ n * sdmTotal C x0 iv := by
  refine Driver.run_files (V := C.driver)
    (I := fun n d => content C.M.d3 C.M.N C.P (sdmVals C d) iv = 1.000000000000001 ^ n * sdmTotal C x0 iv)
    (fun it dt m m' ⟨_, r⟩ h => ?_) hm hx0 ?_
  · change Runs (timeStep C.M C.S C.P _ C.ti dt) m m' at r
    rw [hti] at r
    refine (C86_ssprk54 hC.scheme hC.box hG hC.solver hw r hv hcl).trans ?_
    rw [show content C.M.d3 C.M.N C.P (valsOf C.M m sU) iv = _ from h, pow_succ]
    ring
  · rw [pow_zero, one_mul]; rfl

/-- **C131**: a uniform flow above the floors, not through reflecting sides, stays as it is: all files show it. -/
theorem C131_uniform (hC : C.Ok B) (hG : GasParams C.S) (hti : C.ti ≠ .ssprk54) {q : HState ℝ}
    (hq : Settled C.M.d3 C.S q) (hw : RestAtWalls C.M.d3 B q)
    {s : HydroState ℝ} (hm : C.Main D Q (some s)) {x0 : Snapshot FileData ℝ} (hx0 : s.files.head? = some x0)
    (hu : SameInside C.M.d3 C.M.N C.P (sdmVals C x0.data) (everywhere q)) :
    ∀ x ∈ s.files, SameInside C.M.d3 C.M.N C.P (sdmVals C x.data) (everywhere q) := by
  intro x hx
  obtain ⟨-, -, h⟩ := Driver.run_files (V := C.driver)
    (I := fun _ d => SameInside C.M.d3 C.M.N C.P (sdmVals C d) (everywhere q))
    (fun it dt m m' ⟨_, r⟩ h => C88_uniform hC.scheme hC.box hG hC.solver hq hw hti r h) hm hx0 hu x hx
  exact h

/-! ### The premises are met -/

/-- A run of 100 steps at most with ssprk3 in the channel of `C85_C89_SdmStep`. -/
noncomputable def exampleSdmConf (d3 : Bool) : SdmConf ℝ :=
  ⟨exampleScheme d3, hllcSettings, channel d3, false, true, false, false, -1,
    ⟨1, 0, 100, 5, 10, false, id, fun _ => 0, fun u _ => u⟩⟩

theorem exampleSdmConf_ok (d3 : Bool) : (exampleSdmConf d3).Ok channelSides :=
  ⟨exampleScheme_exact d3, channel_setup d3, hllcSettings_solver d3⟩

/-- Sod's tube in the 2D channel. -/
example : ∃ s, (exampleSdmConf false).Main ⟨0, 3, 0, 2, 0, 1, 0, 0, 0⟩ .sod (some s) ∧
    ∃ x0, s.files.head? = some x0 ∧ SdmFileShows (exampleSdmConf false) ⟨0, 3, 0, 2, 0, 1, 0, 0, 0⟩ sodGas x0 ∧
      ∀ x ∈ s.files, ∀ iv, iv = 0 ∨ iv = 1 ∨ iv = 2 →
        sdmTotal (exampleSdmConf false) x iv = sdmTotal (exampleSdmConf false) x0 iv := by
  have hC := exampleSdmConf_ok false
  obtain ⟨⟨s, hs⟩, -⟩ := C131_same_files (D := ⟨0, 3, 0, 2, 0, 1, 0, 0, 0⟩) (Q := .sod) hC (by simp [exampleSdmConf])
  obtain ⟨x0, -, e, -, -, h, -⟩ := C131_first hC (by simp [exampleSdmConf])
    (fun m => C129_sod (sU_sol _) (nonempty_of_box hC.box (by decide)) m) hs
  refine ⟨s, hs, x0, e, h, fun x hx iv hiv => ?_⟩
  refine C131_conservation hC hllcSettings_gas (hllcSettings_wall _ _) (by decide) hs e (iv := iv)
    (by rcases hiv with rfl | rfl | rfl <;> decide) ?_ x hx
  intro d hd
  cases d
  · exact .inl ⟨rfl, rfl⟩
  · exact .inr ⟨rfl, rfl, by rcases hiv with rfl | rfl | rfl <;> decide⟩
  · exact absurd rfl (hd.resolve_left (by decide))

/-- Gas at rest: the premises of the order of the files and of uniform flows. -/
example (d3 : Bool) : ∃ q s, (exampleSdmConf d3).Main ⟨0, 3, 0, 2, 0, 1, 0, 0, 0⟩ (.blast q) (some s) ∧
    InOrder 0 0 1 s.files ∧ s.files ≠ [] ∧
    ∀ x ∈ s.files, SameInside d3 3 (channel d3) (sdmVals (exampleSdmConf d3) x.data) (everywhere ⟨1, 5 / 2, 0, 0, 0⟩) := by
  have hC := exampleSdmConf_ok d3
  let q : BlastParams ℝ := ⟨1, 0, 0, 0, 1, 1, 1, 1⟩
  let D : Domain ℝ := ⟨0, 3, 0, 2, 0, 1, 0, 0, 0⟩
  have hb : ∀ m, ∃ m', (sdmInit (exampleSdmConf d3).M (exampleSdmConf d3).S (exampleSdmConf d3).P D sU (.blast q)).Yields
      (sdmDom (exampleSdmConf d3).M.d3 (exampleSdmConf d3).M.N (exampleSdmConf d3).P (exampleSdmConf d3).ti) m m' ∧
      SdmSamples (exampleSdmConf d3).M (exampleSdmConf d3).S (exampleSdmConf d3).P D sU m' (blastGas d3 q) :=
    fun m => C129_blast (M := (exampleSdmConf d3).M) (by norm_num [q]) (sU_sol _) (nonempty_of_box hC.box (by decide)) m
  have hgas : ∀ x y z, (blastGas d3 q x y z).conserved (exampleSdmConf d3).S.gamma0 = ⟨1, 5 / 2, 0, 0, 0⟩ := by
    intro x y z
    simp only [blastGas, q, ite_self, PointGas.conserved, exampleSdmConf, hllcSettings, exampleSettings]
    norm_num
  have hset : Settled d3 hllcSettings ⟨1, 5 / 2, 0, 0, 0⟩ := by
    refine ⟨⟨by norm_num, ?_, by simp⟩, ⟨?_, ?_⟩⟩ <;> cases d3 <;>
      norm_num [Sdm.primOf, hllcSettings, exampleSettings]
  have hti : (exampleSdmConf d3).ti ≠ .ssprk54 := show Mood.TimeInt.ssprk3 ≠ .ssprk54 by decide
  have hrest : RestAtWalls d3 channelSides ⟨1, 5 / 2, 0, 0, 0⟩ := by intro d _ _; cases d <;> rfl
  have huni : ∀ {m1 m2}, Runs ((exampleSdmConf d3).init D (.blast q)) (fun _ => lit 0) m1 →
      Runs (exampleSdmConf d3).post m1 m2 →
      SameInside d3 3 (channel d3) (valsOf (exampleScheme d3) m2 sU) (everywhere ⟨1, 5 / 2, 0, 0, 0⟩) := by
    intro m1 m2 r1 r2
    obtain ⟨m', y, hs⟩ := hb (fun _ => lit 0)
    have y' : YieldsAll _ ((exampleSdmConf d3).init D (.blast q)) (fun _ => lit 0) m' := .cons y (.nil _)
    obtain rfl := y'.unique r1
    obtain ⟨-, -, a⟩ := sdm_post hC m1
    refine (a _ r2).trans fun c p v hb hi hp hv => (hs c p v hb hp ?_).trans ?_
    · exact hC.box.nv ▸ hv
    · rw [hgas]; rfl
  obtain ⟨⟨s, hs⟩, -⟩ := C131_same_files (D := D) (Q := .blast q) hC (by simp [exampleSdmConf])
  obtain ⟨m1, m2, r1, r2, e⟩ := Driver.first_file hs (by simp [exampleSdmConf, SdmConf.driver])
  refine ⟨q, s, hs, ?_, fun h => ?_, ?_⟩
  · refine C131_order hC (by norm_num [exampleSdmConf, hllcSettings, exampleSettings]) ?_
      (by norm_num [exampleSdmConf, hllcSettings, exampleSettings]) ?_ (by norm_num [exampleSdmConf]) hs
    · constructor <;> intros <;> norm_num [exampleSdmConf, hllcSettings, exampleSettings]
    · intro s hv c p hc hp
      have := Driver.visits_of (V := (exampleSdmConf d3).driver)
        (I := fun _ m => SameInside d3 3 (channel d3) (valsOf (exampleScheme d3) m sU) (everywhere ⟨1, 5 / 2, 0, 0, 0⟩))
        huni (fun ⟨_, r⟩ h => C88_uniform hC.scheme hC.box hllcSettings_gas hC.solver hset hrest hti r h) hv
        c p 0 hc.1 hc.2 hp (by cases d3 <;> decide)
      show 0 < valsOf (exampleScheme d3) s.m sU c p 0
      rw [this]
      norm_num [everywhere, part]
  · rw [h] at e; cases e
  · exact C131_uniform hC hllcSettings_gas hti hset hrest hs e (huni r1 r2)

end Verif
