import Verif.Lemmas.SdmFixedMpi
import Verif.Props.C139_C140_SdmMpi
import Verif.Props.C143_SdmLimiterBorder

/-!
# C144, C145: the SDM program with limiter and positivity preservation

Trusted model: `Verif.Model.SdmFixed`.  C143 shows that with the limiter the result depends on the number of processes; here, that
positivity preservation alone does not.
-/

namespace Verif

open Spec ROps Sdm Start

variable {C : SdmConf ℝ} {B : Sides} {T : Ranks} {D : Domain ℝ} {Q : SdmProblem ℝ} {F : Fixes ℝ}

/-! ### C144 -/

/-- **C144**: without the limiter, with or without positivity preservation, a step on all ranks never hangs, touches only memory the rank
owns, and leaves every rank its part of the serial step of the whole domain. -/
theorem C144_step (hT : RanksOk C.M.d3 T) (hC : C.Ok B) (hF : F.limiter = none) {s : Nat → Addr → ℝ} {m m' : Addr → ℝ}
    (h : SdmParts C T s m) (junk : ℕ → ℕ → Dir → Cell → Pt → HState ℝ) {j0 : ℕ → Dir → Cell → Pt → HState ℝ} {dt : ℝ}
    (r : Runs (fixedStep C.M C.S (whole T C.P) j0 F C.ti dt) m m') :
    JobOK T.num (fun r => fixedStepMpi C.M T C.S C.P (junk r) F C.ti dt r) (fixMpiDom F C.M C.P C.ti) s
      (fun R => SdmParts C T R m') := by
  obtain ⟨s', m2, l, y, e⟩ := fixedStep_all (S := C.S) hT hC.scheme hC.box hC.solver hF C.ti dt junk j0 (parts_holds.1 h)
  obtain rfl := y.unique r
  refine (LockSeq.job l (Q := fun R => SdmParts C T R m') ?_).congr fun r _ =>
    (fixedLine_prog C.M T C.S C.P junk F C.ti dt r).symm
  intro X hX
  refine parts_holds.2 fun q hq => ?_
  rw [hX _ (owner_lt hT hq)]
  exact e q hq

/-! ### C145 -/

theorem fixed_total (hC : C.Ok B) (F : Fixes ℝ) : (C.fixedDriver F).Total where
  dt it m := (sdm_total hC).dt it m
  step it dt m := by
    obtain ⟨m', y⟩ := C142_safe (S := C.S) hC.box hC.scheme.orders.1 F (fun _ _ _ _ => HState.zero) C.ti dt m
    exact ⟨m', _, y.run⟩

theorem fixed_twins (hC : C.Ok B) (F : Fixes ℝ) (lay : Layout) : (C.fixedDriver F).Twins ((C.ordered lay).fixedDriver F)
    (fun _ m m' => SameInside C.M.d3 C.M.N C.P (valsOf C.M m sU) (valsOf C.M m' sU))
    (fun a b => SameInside C.M.d3 C.M.N C.P (sdmVals C a) (sdmVals C b)) where
  ctl := rfl
  every := rfl
  dt e h h' := sdm_dt hC e h h'
  step := by
    rintro it dt m n m' n' e ⟨j, r⟩ ⟨j', r'⟩
    obtain ⟨a, b, y, z, k⟩ := twinStep (S := C.S) lay hC.scheme hC.box hC.solver F C.ti dt j j' e
    obtain rfl := y.unique r
    obtain rfl := z.unique r'
    exact k
  shows e := e

/-- **C145**: with any choice of limiter and positivity preservation the SDM program on one process runs to its end, and all its runs –
whatever the schedules, reductions, uninitialised variables, and the order of the cells in the build – write the same files
and stop after the same number of steps at the same time. -/
theorem C145_same_files (hC : C.Ok B) (F : Fixes ℝ) (hlog : C.ctl.nlog ≠ 0) :
    (∃ s, C.FixedMain F D Q (some s)) ∧
    ∀ lay r r', C.FixedMain F D Q r → (C.ordered lay).FixedMain F D Q r' → ∃ s s', r = some s ∧ r' = some s' ∧
      List.Forall₂ (SameSdmFile C) s.files s'.files ∧ s.t = s'.t ∧ s.iteration = s'.iteration := by
  constructor
  · obtain ⟨m1, r1, -⟩ := sdm_init (D := D) (Q := Q) hC (fun _ => lit 0)
    obtain ⟨m2, r2, -⟩ := sdm_post hC m1
    exact Driver.main_exists (fixed_total hC F) hlog r1 r2
  · intro lay r r' h h'
    exact Driver.main_same (fixed_twins hC F lay) hlog (fun a b c d => sdm_start hC a b c d) h h'

/-- **C145**: as long as the density stays positive, the files are numbered without gaps from 0 and their times never decrease and lie
between the start time and the end time. -/
theorem C145_order (hC : C.Ok B) (hg : 0 < C.S.gamma0) (hs : Spacings C.M.d3 C.S) (hcfl : 0 < C.S.cfl)
    (hdense : ∀ s, (C.fixedDriver F).Visits (C.init D Q) C.post s → SdmDense C s.m)
    (ht : C.ctl.tCurrent ≤ C.ctl.tEnd) {s : HydroState ℝ} (hm : C.FixedMain F D Q (some s)) :
    InOrder 0 C.ctl.tCurrent C.ctl.tEnd s.files :=
  Driver.main_ordered (fun hv hd => sdm_dt_pos hC hg hs hcfl (hdense _ hv) hd) ht hm

/-- **C145**: a uniform gas above the floors, of pressure at least `1e-12`, without flow through reflecting sides, stays as it is: all
files show it. -/
theorem C145_uniform (hC : C.Ok B) (hG : GasParams C.S) (hpi : F.pi = Real.pi) (hbig : C.S.smallr ≤ F.big) (hti : C.ti ≠ .ssprk54)
    {q : HState ℝ} (hq : Settled C.M.d3 C.S q) (hw : RestAtWalls C.M.d3 B q) (hp : 1 / 1000000000000 ≤ Sdm.gasPressure C.S.gamma0 q)
    {s : HydroState ℝ} (hm : C.FixedMain F D Q (some s)) {x0 : Snapshot FileData ℝ} (hx0 : s.files.head? = some x0)
    (hu : SameInside C.M.d3 C.M.N C.P (sdmVals C x0.data) (everywhere q)) :
    ∀ x ∈ s.files, SameInside C.M.d3 C.M.N C.P (sdmVals C x.data) (everywhere q) := by
  intro x hx
  obtain ⟨-, -, h⟩ := Driver.run_files (V := C.fixedDriver F)
    (I := fun _ d => SameInside C.M.d3 C.M.N C.P (sdmVals C d) (everywhere q))
    (fun it dt m m' ⟨_, r⟩ h => C142_uniform hC.scheme hC.box hG hC.solver hpi hbig hq hw hp hti r h) hm hx0 hu x hx
  exact h

theorem fixed_mpiTwins (hT : RanksOk C.M.d3 T) (hC : C.Ok B) (hF : F.limiter = none) (hg : 0 < C.S.gamma0)
    (hs : Spacings C.M.d3 C.S) (hcfl : 0 ≤ C.S.cfl) : (C.fixedDriver F).MpiTwins ((C.whole T).fixedDriver F) T.num (C.fixedJobs F T)
      (SdmParts C T) (rankShows C T) (SdmSomeGas C T) where
  pos := num_pos hT
  ctl := rfl
  every := rfl
  congr e h := fun q hq => by rw [e _ (owner_lt hT hq)]; exact h q hq
  dtExists := (sdm_total hC).dt
  dt h g hL hD hd := sdm_mpi_dt (it := 0) hT hC hg hs hcfl h g hL hD hd
  jobExists _ _ := ⟨_, fun _ _ _ _ _ => HState.zero, rfl⟩
  job := by
    rintro s m m' it dt its dts prog h ⟨junk, rfl⟩ - hd ⟨j0, st⟩
    refine ⟨_, (C144_step hT hC hF h junk st).congr fun r hr => ?_⟩
    rw [hd r hr]
  shows h r _ q hq e := e ▸ h q hq

/-- **C145**: without the limiter, with or without positivity preservation, as long as every rank has somewhere gas of positive
density, the SDM program on any number of MPI processes runs to its end – it never hangs – and makes the same steps and writes
the same files as on one process: same numbers, same times, and every rank's file is its part. -/
theorem C145_equals_serial (hT : RanksOk C.M.d3 T) (hC : C.Ok B) (hF : F.limiter = none) (hg : 0 < C.S.gamma0)
    (hs : Spacings C.M.d3 C.S) (hcfl : 0 ≤ C.S.cfl) (hlog : C.ctl.nlog ≠ 0) (hQ : SdmDeterministic Q)
    (hgas : ∀ y, ((C.whole T).fixedDriver F).Visits ((C.whole T).init (alone D) Q) (C.whole T).post y → SdmSomeGas C T y.m) :
    (∃ s, C.FixedMpiMain F T D Q (some s)) ∧
    ∀ x y, C.FixedMpiMain F T D Q x → (C.whole T).FixedMain F (alone D) Q y → ∃ s z, x = some s ∧ y = some z ∧
      (∀ r, r < T.num → (s r).t = z.t ∧ (s r).iteration = z.iteration) ∧
      ∀ q, Block T.mx T.my T.mz q → List.Forall₂ (SdmPartFile C q) (s (owner T.my T.mz q)).files z.files := by
  have main : ∀ {z : HydroState ℝ}, (C.whole T).FixedMain F (alone D) Q (some z) →
      (∃ s, C.FixedMpiMain F T D Q (some s)) ∧ ∀ x, C.FixedMpiMain F T D Q x →
        ∃ s, x = some s ∧ Driver.MpiSide T.num (SdmParts C T) (rankShows C T) s z := by
    intro z hz
    refine Driver.mpi_main (fixed_mpiTwins hT hC hF hg hs hcfl) hlog ?_ (fun a b => ?_) (fun a b => ?_)
      (fun a b => sdm_someGas_post hT hC a b) hgas hz
    · choose s h _ using fun r => sdm_init (D := D.ofRank T r) (Q := Q) hC (fun _ => lit 0)
      exact ⟨s, fun r _ => h r⟩
    · exact parts_of_ghost (sdm_mpi_init hT hC hQ a b)
    · exact ⟨_, (sdm_exchange hT hC a b).imp fun _ h => parts_of_ghost h⟩
  obtain ⟨⟨z, hz⟩, same⟩ := C145_same_files (D := alone D) (Q := Q) (ok_whole hT hC) F hlog
  refine ⟨(main hz).1, fun x y hx hy => ?_⟩
  obtain ⟨z', -, rfl, -⟩ := same C.M.lay _ _ hy hz
  obtain ⟨s, rfl, b⟩ := (main hy).2 x hx
  refine ⟨s, z', rfl, rfl, fun r hr => ⟨b.t r hr, b.it r hr⟩, fun q hq => ?_⟩
  exact (b.files _ (owner_lt hT hq)).imp fun _ _ h => ⟨h.1, h.2.1, h.2.2 q hq rfl⟩

/-! ### The hypotheses can be met -/

/-- Positivity preservation on, limiter off. -/
noncomputable def positivityOn : Fixes ℝ := ⟨none, true, Real.pi, 10 ^ 100⟩

/-- Gas at rest in the 3D channel on twelve ranks and on one process, with positivity preservation. -/
example : ∃ q s, (exampleSdmConf true).FixedMpiMain positivityOn exampleRanks ⟨0, 6, 0, 6, 0, 4, 0, 0, 0⟩ (.blast q) (some s) ∧
    ∃ z, ((exampleSdmConf true).whole exampleRanks).FixedMain positivityOn ⟨0, 6, 0, 6, 0, 4, 0, 0, 0⟩ (.blast q) (some z) ∧
      z.files ≠ [] ∧ InOrder 0 0 1 z.files ∧
      (∀ x ∈ z.files, SameInside true 3 (whole exampleRanks (channel true))
        (sdmVals ((exampleSdmConf true).whole exampleRanks) x.data) (everywhere ⟨1, 5 / 2, 0, 0, 0⟩)) ∧
    ∀ b, Block 2 3 2 b → List.Forall₂ (SdmPartFile (exampleSdmConf true) b) (s (owner 3 2 b)).files z.files := by
  have hC := exampleSdmConf_ok true
  have hT : RanksOk true exampleRanks := ⟨by decide, by decide, by decide, fun h => by cases h⟩
  have hW := ok_whole (C := exampleSdmConf true) hT hC
  let q : BlastParams ℝ := ⟨1, 0, 0, 0, 1, 1, 1, 1⟩
  let D : Domain ℝ := ⟨0, 6, 0, 6, 0, 4, 0, 0, 0⟩
  let W := (exampleSdmConf true).whole exampleRanks
  have hb : ∀ m, ∃ m', (sdmInit W.M W.S W.P D sU (.blast q)).Yields (sdmDom W.M.d3 W.M.N W.P W.ti) m m' ∧
      SdmSamples W.M W.S W.P D sU m' (blastGas true q) :=
    fun m => C129_blast (M := W.M) (by norm_num [q]) (sU_sol _) (nonempty_of_box hW.box (by decide)) m
  have hgas : ∀ x y z, (blastGas true q x y z).conserved W.S.gamma0 = ⟨1, 5 / 2, 0, 0, 0⟩ := by
    intro x y z
    simp only [blastGas, q, ite_self, PointGas.conserved, W, SdmConf.whole, exampleSdmConf, hllcSettings, exampleSettings]
    norm_num
  have hset : Settled true hllcSettings ⟨1, 5 / 2, 0, 0, 0⟩ := by
    refine ⟨⟨by norm_num, ?_, by simp⟩, ⟨?_, ?_⟩⟩ <;> norm_num [Sdm.primOf, hllcSettings, exampleSettings]
  have hti : W.ti ≠ .ssprk54 := show Mood.TimeInt.ssprk3 ≠ .ssprk54 by decide
  have hrest : RestAtWalls true channelSides ⟨1, 5 / 2, 0, 0, 0⟩ := by intro d _ _; cases d <;> rfl
  have hbig : hllcSettings.smallr ≤ positivityOn.big := by norm_num [positivityOn, hllcSettings, exampleSettings]
  have hpr : 1 / 1000000000000 ≤ Sdm.gasPressure hllcSettings.gamma0 ⟨1, 5 / 2, 0, 0, 0⟩ := by
    norm_num [Sdm.gasPressure, hllcSettings, exampleSettings]
  have huni : ∀ {m1 m2}, Runs (W.init D (.blast q)) (fun _ => lit 0) m1 → Runs W.post m1 m2 →
      SameInside true 3 W.P (valsOf (exampleScheme true) m2 sU) (everywhere ⟨1, 5 / 2, 0, 0, 0⟩) := by
    intro m1 m2 r1 r2
    obtain ⟨m', y, hs⟩ := hb (fun _ => lit 0)
    have y' : YieldsAll _ (W.init D (.blast q)) (fun _ => lit 0) m' := .cons y (.nil _)
    obtain rfl := y'.unique r1
    obtain ⟨-, -, a⟩ := sdm_post hW m1
    refine (a _ r2).trans fun c p v hb hi hp hv => (hs c p v hb hp ?_).trans ?_
    · exact hW.box.nv ▸ hv
    · rw [hgas]; rfl
  have hdense : ∀ y, (W.fixedDriver positivityOn).Visits (W.init D (.blast q)) W.post y → SdmDense W y.m := by
    intro y hv c p hc hp
    have := Driver.visits_of (V := W.fixedDriver positivityOn)
      (I := fun _ m => SameInside true 3 W.P (valsOf (exampleScheme true) m sU) (everywhere ⟨1, 5 / 2, 0, 0, 0⟩))
      huni (fun ⟨_, r⟩ h => C142_uniform hW.scheme hW.box hllcSettings_gas hW.solver rfl hbig hset hrest hpr hti r h) hv
      c p 0 hc.1 hc.2 hp (by decide)
    show 0 < valsOf (exampleScheme true) y.m sU c p 0
    rw [this]
    norm_num [everywhere, part]
  have hsp : Spacings true (exampleSdmConf true).S := by
    constructor <;> intros <;> norm_num [exampleSdmConf, hllcSettings, exampleSettings]
  have ha : alone D = D := rfl
  obtain ⟨⟨s, hs⟩, h⟩ := C145_equals_serial (T := exampleRanks) (D := D) (Q := .blast q) (F := positivityOn) hT hC rfl
    (by norm_num [exampleSdmConf, hllcSettings, exampleSettings]) hsp
    (by norm_num [exampleSdmConf, hllcSettings, exampleSettings]) (by simp [exampleSdmConf]) trivial
    (fun y hy => someGas_of_dense hT hC (hdense y hy))
  obtain ⟨⟨z, hz⟩, -⟩ := C145_same_files (D := D) (Q := .blast q) hW positivityOn (by simp [SdmConf.whole, exampleSdmConf])
  obtain ⟨_, _, ⟨⟩, ⟨⟩, -, f⟩ := h _ _ hs hz
  obtain ⟨m1, m2, r1, r2, e⟩ := Driver.first_file hz (by simp [SdmConf.whole, exampleSdmConf, SdmConf.driver, SdmConf.fixedDriver])
  refine ⟨q, s, hs, z, hz, ?_, ?_, ?_, f⟩
  · intro h
    rw [h] at e
    cases e
  · have := C145_order hW (by norm_num [SdmConf.whole, exampleSdmConf, hllcSettings, exampleSettings]) hsp
      (by norm_num [SdmConf.whole, exampleSdmConf, hllcSettings, exampleSettings]) hdense
      (by norm_num [SdmConf.whole, exampleSdmConf]) hz
    simpa [SdmConf.whole, exampleSdmConf] using this
  · exact C145_uniform hW hllcSettings_gas rfl hbig hti hset hrest hpr hz e (huni r1 r2)

/-- Premises of the theorem on a step: Sod's tube on twelve ranks. -/
example : ∃ (s : Nat → Addr → ℝ) (m m' : Addr → ℝ), SdmParts (exampleSdmConf true) exampleRanks s m ∧
    Runs (fixedStep (exampleScheme true) hllcSettings (whole exampleRanks (channel true)) (fun _ _ _ _ => HState.zero) positivityOn
      (exampleSdmConf true).ti (1 / 100)) m m' ∧ ∃ (c : Cell) (v : Nat), m (c.at sU v) ≠ 0 := by
  have hC := exampleSdmConf_ok true
  have hT : RanksOk true exampleRanks := ⟨by decide, by decide, by decide, fun h => by cases h⟩
  have hW := ok_whole (C := exampleSdmConf true) hT hC
  let D : Domain ℝ := ⟨0, 6, 0, 6, 0, 4, 0, 0, 0⟩
  choose s hs _ using fun r => sdm_init (D := D.ofRank exampleRanks r) (Q := .sod) hC (fun _ => 0)
  obtain ⟨m, hm, hv⟩ := sdm_init (D := alone D) (Q := .sod) hW (fun _ => 0)
  obtain ⟨m', y⟩ := C142_safe (S := hllcSettings) hW.box hC.scheme.orders.1 positivityOn
    (fun _ _ _ _ => HState.zero) (exampleSdmConf true).ti (1 / 100) m
  refine ⟨s, m, m', parts_of_ghost (C139_start (Q := .sod) hT hC trivial (fun r _ => hs r) hm), y.run, ?_⟩
  obtain ⟨c, hc⟩ := exists_inside hW.box (by decide)
  have hp : IsSolPt true 3 ⟨0, 0, 0⟩ := ⟨by decide, by decide, by decide⟩
  refine ⟨c, DofMap true 3 ⟨0, 0, 0⟩ 0, ?_⟩
  have := hv m hm c ⟨0, 0, 0⟩ 0 hc.1 hp (by decide)
  change m (((exampleSdmConf true).whole exampleRanks).M.sol sU c ⟨0, 0, 0⟩ 0) ≠ 0
  rw [this]
  simp only [sdmState, sodState, Option.elim_some]
  split_ifs <;> norm_num [Mood.comp, atRest, lit, ID]

end Verif
