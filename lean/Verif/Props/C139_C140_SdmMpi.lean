import Verif.Lemmas.SdmMpiProgram
import Verif.Props.C119_C120_HydroMpi

/-!
# C139, C140: the SDM program on several MPI processes

Trusted model: `Verif.Model.SdmMpi`.  What the parts of the files are is in `Verif.Spec.SdmMpi`.
-/

namespace Verif

open Spec ROps Sdm Start

variable {C : SdmConf ℝ} {B : Sides} {T : Ranks} {D : Domain ℝ} {Q : SdmProblem ℝ}

/-! ### C139 -/

/-- **C139**: the exchange never hangs and no rank touches memory it does not own; afterwards every rank holds, ghost cells included,
its part of what the serial ghost fill makes of the whole domain. -/
theorem C139_exchange (hT : RanksOk C.M.d3 T) (hC : C.Ok B) {s : Nat → Addr → ℝ} {m m' : Addr → ℝ}
    (h : SdmParts C T s m) (r : Runs (C.whole T).post m m') :
    JobOK T.num (C.postMpi T) (mpiDom C.M C.P C.ti) s (fun R => SdmPartsGhost C T R m') :=
  sdm_exchange hT hC h r

/-- **C139**: the ranks start from their parts of the initial condition of the whole domain. -/
theorem C139_start (hT : RanksOk C.M.d3 T) (hC : C.Ok B) (hQ : SdmDeterministic Q) {s : Nat → Addr → ℝ} {m : Addr → ℝ}
    (hs : ∀ r, r < T.num → Runs (C.init (D.ofRank T r) Q) (fun _ => 0) (s r))
    (hm : Runs ((C.whole T).init (alone D) Q) (fun _ => 0) m) : SdmPartsGhost C T s m := by
  have hz : (fun _ => ROps.lit 0 : Addr → ℝ) = fun _ => 0 := by funext _; simp [ROps.lit]
  rw [← hz] at hm
  exact sdm_mpi_init hT hC hQ (fun r hr => hz ▸ hs r hr) hm

/-- **C139**: if every rank has somewhere gas of positive density, all ranks get the time step of the serial program. -/
theorem C139_dt (hT : RanksOk C.M.d3 T) (hC : C.Ok B) (hg : 0 < C.S.gamma0) (hs : Spacings C.M.d3 C.S)
    (hcfl : 0 ≤ C.S.cfl) {s : Nat → Addr → ℝ} {m : Addr → ℝ} {it : ℕ} {L E : Nat → ℝ} {d : ℝ} (h : SdmParts C T s m)
    (hgas : SdmSomeGas C T m) (hL : ∀ r, r < T.num → C.driver.Dt it (s r) (L r)) (hE : AllReduce mpiMin T.num L E)
    (hd : (C.whole T).driver.Dt it m d) : ∀ r, r < T.num → E r = d :=
  sdm_mpi_dt hT hC hg hs hcfl h hgas hL hE hd

/-- **C139**: a step on all ranks never hangs, whatever the schedules and the values of uninitialised variables on each
rank, and leaves every rank its part of the serial step of the whole domain. -/
theorem C139_step (hT : RanksOk C.M.d3 T) (hC : C.Ok B) {s : Nat → Addr → ℝ} {m m' : Addr → ℝ}
    (h : SdmParts C T s m) (junk : ℕ → ℕ → Dir → Cell → Pt → HState ℝ) {j0 : ℕ → Dir → Cell → Pt → HState ℝ} {dt : ℝ}
    (r : Runs (timeStep C.M C.S (whole T C.P) j0 C.ti dt) m m') :
    JobOK T.num (fun r => timeStepMpi C.M T C.S C.P (junk r) C.ti dt r) (mpiDom C.M C.P C.ti) s
      (fun R => SdmParts C T R m') :=
  sdm_mpi_step (it := 0) (its := fun _ => 0) (dts := fun _ => dt) hT hC h ⟨junk, rfl⟩ (fun _ _ => rfl) ⟨j0, r⟩

/-! ### C140 -/

theorem someGas_of_dense (hT : RanksOk C.M.d3 T) (hC : C.Ok B) {m : Addr → ℝ} (h : SdmDense (C.whole T) m) :
    SdmSomeGas C T m := by
  intro q hq
  obtain ⟨c, hc⟩ := exists_inside hC.box (by decide)
  have hN : 0 < C.M.N := hC.scheme.orders.1
  have hp : IsSolPt C.M.d3 C.M.N ⟨0, 0, 0⟩ := ⟨hN, hN, by split; exacts [hN, rfl]⟩
  exact ⟨c, _, hc, hp, h _ _ ⟨whole_box hT hC.box hq hc.1, whole_inner hT hC.box hq hc.1 hc.2⟩ hp⟩

/-- **C140**: as long as every rank has somewhere gas of positive density, the SDM program on any number of MPI processes runs to its
end – it never hangs – and makes the same steps and writes the same files as the serial program on the whole domain: same
numbers, same times, and every rank's file is its part. -/
theorem C140_equals_serial (hT : RanksOk C.M.d3 T) (hC : C.Ok B) (hg : 0 < C.S.gamma0) (hs : Spacings C.M.d3 C.S)
    (hcfl : 0 ≤ C.S.cfl) (hlog : C.ctl.nlog ≠ 0) (hQ : SdmDeterministic Q)
    (hgas : ∀ y, (C.whole T).driver.Visits ((C.whole T).init (alone D) Q) (C.whole T).post y → SdmSomeGas C T y.m) :
    (∃ s, C.MpiMain T D Q (some s)) ∧
    ∀ x y, C.MpiMain T D Q x → (C.whole T).Main (alone D) Q y → ∃ s z, x = some s ∧ y = some z ∧
      (∀ r, r < T.num → (s r).t = z.t ∧ (s r).iteration = z.iteration) ∧
      ∀ q, Block T.mx T.my T.mz q → List.Forall₂ (SdmPartFile C q) (s (owner T.my T.mz q)).files z.files := by
  obtain ⟨⟨z, hz⟩, same⟩ := C131_same_files (D := alone D) (Q := Q) (ok_whole hT hC) hlog
  refine ⟨(sdm_mpi_main hT hC hg hs hcfl hlog hQ hgas hz).1, fun x y hx hy => ?_⟩
  obtain ⟨z', -, rfl, -⟩ := same C.M.lay _ _ hy hz
  obtain ⟨s, rfl, b⟩ := (sdm_mpi_main hT hC hg hs hcfl hlog hQ hgas hy).2 x hx
  refine ⟨s, z', rfl, rfl, fun r hr => ⟨b.t r hr, b.it r hr⟩, fun q hq => ?_⟩
  exact (b.files _ (owner_lt hT hq)).imp fun _ _ h => ⟨h.1, h.2.1, h.2.2 q hq rfl⟩

/-- **C140**: two runs on different numbers of processes, or with the domain cut differently, write the same: wherever a rank of one and
a rank of the other own the same cell of the domain, their files agree at all solution points. -/
theorem C140_any_ranks {C' : SdmConf ℝ} {T' : Ranks} (hT : RanksOk C.M.d3 T) (hT' : RanksOk C'.M.d3 T') (hC : C.Ok B)
    (hC' : C'.Ok B) (hw : C.whole T = C'.whole T') (hg : 0 < C.S.gamma0) (hs : Spacings C.M.d3 C.S)
    (hcfl : 0 ≤ C.S.cfl) (hlog : C.ctl.nlog ≠ 0) (hQ : SdmDeterministic Q)
    (hdense : ∀ y, (C.whole T).driver.Visits ((C.whole T).init (alone D) Q) (C.whole T).post y → SdmDense (C.whole T) y.m)
    {s s' : Nat → HydroState ℝ} (h : C.MpiMain T D Q (some s)) (h' : C'.MpiMain T' D Q (some s')) :
    ∀ q q', Block T.mx T.my T.mz q → Block T'.mx T'.my T'.mz q' →
      List.Forall₂ (fun x x' => x.number = x'.number ∧ x.time = x'.time ∧
        ∀ c c' p v, Inside C.M.d3 C.P c → Inside C'.M.d3 C'.P c' → IsSolPt C.M.d3 C.M.N p → v < hydroVars C.M.d3 →
          inDomain C.P q c = inDomain C'.P q' c' → sdmVals C x.data c p v = sdmVals C' x'.data c' p v)
        (s (owner T.my T.mz q)).files (s' (owner T'.my T'.mz q')).files := by
  have eM : C.M = C'.M := show (C.whole T).M = (C'.whole T').M by rw [hw]
  have eS : C.S = C'.S := show (C.whole T).S = (C'.whole T').S by rw [hw]
  have ec : C.ctl = C'.ctl := show (C.whole T).ctl = (C'.whole T').ctl by rw [hw]
  obtain ⟨⟨y, hy⟩, -⟩ := C131_same_files (D := alone D) (Q := Q) (ok_whole hT hC) hlog
  obtain ⟨_, z, ⟨⟩, ez, -, f⟩ := (C140_equals_serial hT hC hg hs hcfl hlog hQ
    fun y hy => someGas_of_dense hT hC (hdense y hy)).2 _ _ h hy
  obtain ⟨_, z', ⟨⟩, ez', -, f'⟩ := (C140_equals_serial hT' hC' (eS ▸ hg) (by rw [← eS, ← eM]; exact hs) (eS ▸ hcfl)
    (ec ▸ hlog) hQ fun y hy => someGas_of_dense hT' hC' (by rw [← hw] at hy ⊢; exact hdense y hy)).2 _ _ h' (hw ▸ hy)
  rw [ez] at ez'
  cases ez'
  intro q q' hq hq'
  have a := f q hq
  have a' := f' q' hq'
  revert a a'
  generalize (s (owner T.my T.mz q)).files = l
  generalize (s' (owner T'.my T'.mz q')).files = l'
  generalize z.files = w
  intro a a'
  induction a generalizing l' with
  | nil => cases a'; exact .nil
  | cons hx _ ih =>
    cases a' with
    | cons hx' a' =>
      refine .cons ⟨hx.1.trans hx'.1.symm, hx.2.1.trans hx'.2.1.symm, ?_⟩ (ih _ a')
      intro c c' p v h1 h2 h3 h4 e
      rw [hx.2.2 c p v h1 h3 h4, hx'.2.2 c' p v h2 (eM ▸ h3) (eM ▸ h4), e]
      show _ = _
      unfold sdmVals
      rw [eM]

/-! ### The hypotheses can be met -/

/-- Gas at rest in the 3D channel on twelve ranks and on one process. -/
example : ∃ q s, (exampleSdmConf true).MpiMain exampleRanks ⟨0, 6, 0, 6, 0, 4, 0, 0, 0⟩ (.blast q) (some s) ∧
    ∃ z, ((exampleSdmConf true).whole exampleRanks).Main ⟨0, 6, 0, 6, 0, 4, 0, 0, 0⟩ (.blast q) (some z) ∧ z.files ≠ [] ∧
    ∀ b, Block 2 3 2 b → List.Forall₂ (SdmPartFile (exampleSdmConf true) b) (s (owner 3 2 b)).files z.files := by
  have hC := exampleSdmConf_ok true
  have hT : RanksOk true exampleRanks := ⟨by decide, by decide, by decide, fun h => by cases h⟩
  have hW := ok_whole (C := exampleSdmConf true) hT hC
  let q : BlastParams ℝ := ⟨1, 0, 0, 0, 1, 1, 1, 1⟩
  let D : Domain ℝ := ⟨0, 6, 0, 6, 0, 4, 0, 0, 0⟩
  let W := (exampleSdmConf true).whole exampleRanks
  have hb : ∀ m, ∃ m', (sdmInit W.M W.S W.P D sU (.blast q)).Yields (sdmDom W.M.d3 W.M.N W.P W.ti) m m' ∧
      SdmSamples W.M W.S W.P D sU m' (blastGas true q) :=
    fun m => C129_blast (M := W.M) (by norm_num [q]) (sU_sol _) (nonempty_of_box hW.box (by decide)) m
  have hgas : ∀ x y z, (blastGas true q x y z).conserved W.S.gamma0 = ⟨1, 5 / 2, 0, 0, 0⟩ := by
    intro x y z
    simp only [blastGas, q, ite_self, PointGas.conserved, W, SdmConf.whole, exampleSdmConf, hllcSettings, exampleSettings]
    norm_num
  have hset : Settled true hllcSettings ⟨1, 5 / 2, 0, 0, 0⟩ := by
    refine ⟨⟨by norm_num, ?_, by simp⟩, ⟨?_, ?_⟩⟩ <;> norm_num [Sdm.primOf, hllcSettings, exampleSettings]
  have hti : W.ti ≠ .ssprk54 := show Mood.TimeInt.ssprk3 ≠ .ssprk54 by decide
  have hrest : RestAtWalls true channelSides ⟨1, 5 / 2, 0, 0, 0⟩ := by intro d _ _; cases d <;> rfl
  have huni : ∀ {m1 m2}, Runs (W.init D (.blast q)) (fun _ => lit 0) m1 → Runs W.post m1 m2 →
      SameInside true 3 W.P (valsOf (exampleScheme true) m2 sU) (everywhere ⟨1, 5 / 2, 0, 0, 0⟩) := by
    intro m1 m2 r1 r2
    obtain ⟨m', y, hs⟩ := hb (fun _ => lit 0)
    have y' : YieldsAll _ (W.init D (.blast q)) (fun _ => lit 0) m' := .cons y (.nil _)
    obtain rfl := y'.unique r1
    obtain ⟨-, -, a⟩ := sdm_post hW m1
    refine (a _ r2).trans fun c p v hb hi hp hv => (hs c p v hb hp ?_).trans ?_
    · exact hW.box.nv ▸ hv
    · rw [hgas]; rfl
  have hdense : ∀ y, W.driver.Visits (W.init D (.blast q)) W.post y → SdmSomeGas (exampleSdmConf true) exampleRanks y.m := by
    intro y hv
    refine someGas_of_dense hT hC fun c p hc hp => ?_
    have := Driver.visits_of (V := W.driver)
      (I := fun _ m => SameInside true 3 W.P (valsOf (exampleScheme true) m sU) (everywhere ⟨1, 5 / 2, 0, 0, 0⟩))
      huni (fun ⟨_, r⟩ h => C88_uniform hW.scheme hW.box hllcSettings_gas hW.solver hset hrest hti r h) hv
      c p 0 hc.1 hc.2 hp (by decide)
    show 0 < valsOf (exampleScheme true) y.m sU c p 0
    rw [this]
    norm_num [everywhere, part]
  have hsp : Spacings true (exampleSdmConf true).S := by
    constructor <;> intros <;> norm_num [exampleSdmConf, hllcSettings, exampleSettings]
  have ha : alone D = D := rfl
  obtain ⟨⟨s, hs⟩, h⟩ := C140_equals_serial (T := exampleRanks) (D := D) (Q := .blast q) hT hC
    (by norm_num [exampleSdmConf, hllcSettings, exampleSettings]) hsp
    (by norm_num [exampleSdmConf, hllcSettings, exampleSettings]) (by simp [exampleSdmConf]) trivial hdense
  obtain ⟨⟨z, hz⟩, -⟩ := C131_same_files (D := D) (Q := .blast q) hW (by simp [SdmConf.whole, exampleSdmConf])
  obtain ⟨_, _, ⟨⟩, ⟨⟩, -, f⟩ := h _ _ hs hz
  obtain ⟨m1, m2, r1, r2, e⟩ := Driver.first_file hz (by simp [SdmConf.whole, exampleSdmConf, SdmConf.driver])
  refine ⟨q, s, hs, z, hz, ?_, f⟩
  intro h
  rw [h] at e
  cases e

/-- Premises of the theorems on the exchange and a step: Sod's tube on twelve ranks. -/
example : ∃ (s : Nat → Addr → ℝ) (m m' m'' : Addr → ℝ), SdmParts (exampleSdmConf true) exampleRanks s m ∧
    Runs ((exampleSdmConf true).whole exampleRanks).post m m' ∧
    Runs (timeStep (exampleScheme true) hllcSettings (whole exampleRanks (channel true)) (fun _ _ _ _ => HState.zero)
      (exampleSdmConf true).ti (1 / 100)) m m'' ∧ ∃ (c : Cell) (v : Nat), m (c.at sU v) ≠ 0 := by
  have hC := exampleSdmConf_ok true
  have hT : RanksOk true exampleRanks := ⟨by decide, by decide, by decide, fun h => by cases h⟩
  have hW := ok_whole (C := exampleSdmConf true) hT hC
  let D : Domain ℝ := ⟨0, 6, 0, 6, 0, 4, 0, 0, 0⟩
  choose s hs _ using fun r => sdm_init (D := D.ofRank exampleRanks r) (Q := .sod) hC (fun _ => 0)
  obtain ⟨m, hm, hv⟩ := sdm_init (D := alone D) (Q := .sod) hW (fun _ => 0)
  obtain ⟨m', hm', -⟩ := sdm_post hW m
  obtain ⟨m'', y, -⟩ := step_yields (S := hllcSettings) hW.box hC.scheme.orders.1 (exampleSdmConf true).ti (1 / 100)
    (fun _ _ _ _ => HState.zero) m
  refine ⟨s, m, m', m'', parts_of_ghost (C139_start (Q := .sod) hT hC trivial (fun r _ => hs r) hm), hm', y.run, ?_⟩
  obtain ⟨c, hc⟩ := exists_inside hW.box (by decide)
  have hp : IsSolPt true 3 ⟨0, 0, 0⟩ := ⟨by decide, by decide, by decide⟩
  refine ⟨c, DofMap true 3 ⟨0, 0, 0⟩ 0, ?_⟩
  have := hv m hm c ⟨0, 0, 0⟩ 0 hc.1 hp (by decide)
  change m (((exampleSdmConf true).whole exampleRanks).M.sol sU c ⟨0, 0, 0⟩ 0) ≠ 0
  rw [this]
  simp only [sdmState, sodState, Option.elim_some]
  split_ifs <;> norm_num [Mood.comp, atRest, lit, ID]

end Verif
