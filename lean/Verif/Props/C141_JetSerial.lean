import Verif.Props.C141_JetMpi
import Verif.Props.C142_SdmFixed

/-!
# C141: the program for the jet problem without MPI

With the same parameters for which a build with MPI writes nothing but the gas around the jet (`C141_no_jet`), the files of a build
without MPI show the jet.
-/

namespace Verif

open Spec ROps Sdm Start Special

variable {C : SdmConf ℝ} {B : Sides} {c : ConfigReader ℝ} {D : Domain ℝ}

/-- A step made of any way to fill the ghost cells. -/
theorem stepWith_does (hC : C.Ok B) {bound : ℕ → List (Launch Addr ℝ)} (ti : Mood.TimeInt)
    (fill : ∀ A, solArray ti A → Sdm.Does (sdmDom C.M.d3 C.M.N C.P ti) (bound A)) (junk : ℕ → Dir → Cell → Pt → HState ℝ) (dt : ℝ) :
    Sdm.Does (sdmDom C.M.d3 C.M.N C.P ti)
      (stepWith bound (fun i A L => divergence C.M C.S C.P (junk i) A ++ L) C.M C.P ti dt) := by
  have hN := hC.scheme.orders.1
  have go : ∀ i A, solArray ti A → A ≠ sDiv → Sdm.Does (sdmDom C.M.d3 C.M.N C.P ti) (divergence C.M C.S C.P (junk i) A) :=
    fun i A hA hAd m => let ⟨m', y, _⟩ := divergence_yields (S := C.S) hC.box.ready hN hA hAd (junk i) m; ⟨m', y⟩
  have up : ∀ o A A' c0 c1 c2, solArray ti o → solArray ti A → solArray ti A' →
      Sdm.Does (sdmDom C.M.d3 C.M.N C.P ti) [updateRK C.M C.P dt o A A' c0 c1 c2] := fun o A A' c0 c1 c2 ho hA hA' m =>
    let ⟨m', y, _⟩ := Sdm.update_yields hC.box ho hA hA' dt c0 c1 c2 m; ⟨m', y⟩
  have hU := sU_sol ti
  unfold stepWith
  cases ti with
  | forward_euler => exact (fill _ hU).append ((go 0 _ hU (by decide)).append (up _ _ _ _ _ _ hU hU hU))
  | ssprk2 =>
    have h1 : solArray .ssprk2 (sRK 1) := sRK_sol (by decide) (by decide)
    exact (fill _ hU).append ((((go 0 _ hU (by decide)).append (up _ _ _ _ _ _ h1 hU hU)).append (fill _ h1)).append
      ((go 1 _ h1 (by decide)).append (up _ _ _ _ _ _ hU hU h1)))
  | ssprk3 =>
    have h1 : solArray .ssprk3 (sRK 1) := sRK_sol (by decide) (by decide)
    have h2 : solArray .ssprk3 (sRK 2) := sRK_sol (by decide) (by decide)
    exact (fill _ hU).append ((((((go 0 _ hU (by decide)).append (up _ _ _ _ _ _ h1 hU hU)).append (fill _ h1)).append
      ((go 1 _ h1 (by decide)).append (up _ _ _ _ _ _ h2 hU h1))).append (fill _ h2)).append
      ((go 2 _ h2 (by decide)).append (up _ _ _ _ _ _ hU hU h2)))
  | ssprk54 =>
    have h1 : solArray .ssprk54 (sRK 1) := sRK_sol (by decide) (by decide)
    have h2 : solArray .ssprk54 (sRK 2) := sRK_sol (by decide) (by decide)
    have h3 : solArray .ssprk54 (sRK 3) := sRK_sol (by decide) (by decide)
    have h4 : solArray .ssprk54 (sRK 4) := sRK_sol (by decide) (by decide)
    exact (fill _ hU).append ((((((((((go 0 _ hU (by decide)).append (up _ _ _ _ _ _ h1 hU hU)).append (fill _ h1)).append
      ((go 1 _ h1 (by decide)).append (up _ _ _ _ _ _ h2 hU h1))).append (fill _ h2)).append
      ((go 2 _ h2 (by decide)).append (up _ _ _ _ _ _ h3 hU h2))).append (fill _ h3)).append
      ((go 3 _ h3 (by decide)).append ((up _ _ _ _ _ _ h4 hU h3).append (up _ _ _ _ _ _ hU h2 h3)))).append (fill _ h4)).append
      ((go 4 _ h4 (by decide)).append (up _ _ _ _ _ _ hU hU h4)))

/-- **C141**: without MPI a step of the jet problem accesses only allocated entries, is free of data races, ends, and its result does not
depend on the schedule, whatever the time integration. -/
theorem C141_safe (hC : C.Ok B) (junk : ℕ → Dir → Cell → Pt → HState ℝ) (dt : ℝ) (m : Addr → ℝ) :
    ∃ m', YieldsAll (sdmDom C.M.d3 C.M.N C.P C.ti) (C.jetStep D (JetParams.make c) junk dt) m m' :=
  stepWith_does hC C.ti (fun _ hA m => let ⟨m', y, _⟩ := C128_ghosts c C.M C.S C.P D hA (jetGrid_of hC) m; ⟨m', y⟩) junk dt m

theorem jet_total (hC : C.Ok B) : (C.jetDriver D (JetParams.make c)).Total where
  dt := (sdm_total hC).dt
  step _ dt m := by
    obtain ⟨m', y⟩ := C141_safe (c := c) (D := D) hC (fun _ _ _ _ => HState.zero) dt m
    exact ⟨m', _, y.run⟩

/-- **C141.** Without MPI the program for the jet problem runs to its end, and with output its first file shows the gas around the jet in
the box and, in the cells left of the box, the jet at every point of the opening and the gas around it elsewhere. -/
theorem C141_serial (hC : C.Ok B) (hlog : C.ctl.nlog ≠ 0) (ho : C.ctl.nOutput ≠ 0) :
    (∃ s, C.JetSerial D (JetParams.make c) (some s)) ∧
    ∀ x, C.JetSerial D (JetParams.make c) x → ∃ s x0, x = some s ∧ s.files.head? = some x0 ∧ x0.number = 0 ∧
      x0.time = C.ctl.tCurrent ∧ SameInside C.M.d3 C.M.N C.P (sdmVals C x0.data) (everywhere (bulkState c)) ∧
      ∀ b p v, C.P.box C.M.d3 b → IsSolPt C.M.d3 C.M.N p → v < hydroVars C.M.d3 → b.i < C.P.ghostWidth →
        C.P.ghostWidth ≤ b.j ∧ b.j < C.P.ny + C.P.ghostWidth →
        (C.M.d3 = true → C.P.ghostWidth ≤ b.k ∧ b.k < C.P.nz + C.P.ghostWidth) →
        (InOpening c C.M.d3 (D.ymin + (b.j + C.P.ny * D.j_mpi - C.P.ghostWidth + C.M.sp p.y) * C.S.dy)
            (D.zmin + (b.k + C.P.nz * D.k_mpi - C.P.ghostWidth + C.M.sp p.z) * C.S.dz) →
          sdmVals C x0.data b p v = part (jetState c) v) ∧
        (¬ InOpening c C.M.d3 (D.ymin + (b.j + C.P.ny * D.j_mpi - C.P.ghostWidth + C.M.sp p.y) * C.S.dy)
            (D.zmin + (b.k + C.P.nz * D.k_mpi - C.P.ghostWidth + C.M.sp p.z) * C.S.dz) →
          sdmVals C x0.data b p v = part (bulkState c) v) := by
  have hU : solArray C.ti sU := sU_sol C.ti
  have nv : ∀ {v}, v < hydroVars C.M.d3 → v < C.P.nbvar := fun h => hC.box.nv ▸ h
  constructor
  · obtain ⟨m1, r1, -⟩ := initJet_runs (c := c) hC (fun _ => lit 0)
    obtain ⟨m2, y2, -⟩ := C128_ghosts c C.M C.S C.P D hU (jetGrid_of hC) m1
    exact Driver.main_exists (jet_total hC) hlog r1 y2.run
  intro x hx
  have hx' := hx
  obtain ⟨s0, r, -, l, e⟩ := hx'
  cases r with
  | none =>
    exfalso
    have key : ∀ {s r}, (C.jetDriver D (JetParams.make c)).Loop s r → r ≠ none := by
      intro s r l
      induction l with
      | done => simp
      | ub _ h => exact (hlog h).elim
      | step _ _ _ _ ih => exact ih
    exact key l rfl
  | some f =>
    subst e
    obtain ⟨m1, m2, r1, r2, e0⟩ := Driver.first_file hx ho
    obtain ⟨m2', y2, g⟩ := C128_ghosts c C.M C.S C.P D hU (jetGrid_of hC) m1
    obtain rfl := y2.unique r2
    obtain ⟨-, -, i1⟩ := initJet_runs (c := c) hC (fun _ => lit 0)
    refine ⟨_, _, rfl, e0, rfl, rfl, fun b p v hb hi hp hv => ?_, fun b p v hb hp hv h1 h2 h3 => ⟨fun h => ?_, fun h => ?_⟩⟩
    · have ei := C.P.isize_eq
      have ej := C.P.jsize_eq
      have ek := C.P.ksize_eq
      refine Eq.trans (g.inside b p v hb hp (nv hv) ?_ ?_ fun h3 => ?_) (i1 _ r1 b p v hb hp hv)
      · obtain ⟨z1, y1, y2, x1, x2⟩ := hi
        exact ⟨x1, by omega⟩
      · obtain ⟨z1, y1, y2, x1, x2⟩ := hi
        exact ⟨y1, by omega⟩
      · obtain ⟨z1, -⟩ := hi
        exact ⟨(z1 h3).1, by have := (z1 h3).2; omega⟩
    · have := g.left b p v hb hp (nv hv) h1 h2 h3
      rw [if_pos h] at this
      exact this
    · have := g.left b p v hb hp (nv hv) h1 h2 h3
      rw [if_neg h] at this
      exact this

/-- **C141.** One step is enough: with forward Euler, the solver `llf`, and a jet at least as dense as the gas at rest around it, the last
file of a program without MPI that makes one step shows at some point of every line behind the opening a density other than that
of the gas around the jet.  (With MPI no file ever does: `C141_no_jet`.) -/
theorem C141_serial_jet (hC : C.Ok B) (hG : GasParams C.S) (hti : C.ti = .forward_euler) (hllf : C.S.riemann = .llf)
    (hdx : 0 < C.S.dx) (hs : Spacings C.M.d3 C.S) (hg : 0 < C.S.gamma0) (hcfl : 0 < C.S.cfl)
    (ho : C.ctl.nOutput ≠ 0) (hn : C.ctl.nStepmax = 1)
    (ht : C.ctl.tCurrent < C.ctl.tEnd - 1 / 10 ^ 14)
    (hq : Settled C.M.d3 C.S (bulkState c)) (hj : Settled C.M.d3 C.S (jetState c)) (hrest : (bulkState c).u = 0)
    (hin : 0 < (jetState c).u) (hd : (bulkState c).d ≤ (jetState c).d)
    {s : HydroState ℝ} (hm : C.JetSerial D (JetParams.make c) (some s)) :
    ∃ x1, s.files.getLast? = some x1 ∧ ∀ b p, Inside C.M.d3 C.P b → b.i = C.P.ghostWidth → IsSolPt C.M.d3 C.M.N p →
      InOpening c C.M.d3 (D.ymin + (b.j + C.P.ny * D.j_mpi - C.P.ghostWidth + C.M.sp p.y) * C.S.dy)
        (D.zmin + (b.k + C.P.nz * D.k_mpi - C.P.ghostWidth + C.M.sp p.z) * C.S.dz) →
      ∃ k, k < C.M.N ∧ sdmVals C x1.data b (p.set .x k) 0 ≠ (bulkState c).d := by
  refine ⟨_, Driver.last_file hm ho, fun b p hb hbi hp hop => ?_⟩
  obtain ⟨s0, r, ⟨m1, d0, m2, r1, -, r2, rfl⟩, l, e⟩ := hm
  obtain ⟨f, rfl, rfl⟩ := Option.map_eq_some_iff.1 e.symm
  have hU : solArray C.ti sU := sU_sol C.ti
  have hsame : SameInside C.M.d3 C.M.N C.P (valsOf C.M m2 sU) (everywhere (bulkState c)) := by
    obtain ⟨m2', y2, g⟩ := C128_ghosts c C.M C.S C.P D hU (jetGrid_of hC) m1
    obtain rfl := y2.unique r2
    obtain ⟨-, -, i1⟩ := initJet_runs (c := c) hC (fun _ => lit 0)
    have ei := C.P.isize_eq
    have ej := C.P.jsize_eq
    have ek := C.P.ksize_eq
    intro b p v hb hi hp hv
    refine Eq.trans (g.inside b p v hb hp (hC.box.nv ▸ hv) ?_ ?_ fun h3 => ?_) (i1 _ r1 b p v hb hp hv)
    · obtain ⟨z1, y1, y2, x1, x2⟩ := hi
      exact ⟨x1, by omega⟩
    · obtain ⟨z1, y1, y2, x1, x2⟩ := hi
      exact ⟨y1, by omega⟩
    · obtain ⟨z1, -⟩ := hi
      exact ⟨(z1 h3).1, by have := (z1 h3).2; omega⟩
  let V := C.jetDriver D (JetParams.make c)
  obtain ⟨y, hy⟩ : ∃ y, y = V.saveIf ⟨m2, V.ctl.tCurrent, V.ctl.computeDt V.ctl.tCurrent d0, 0, 0, []⟩ := ⟨_, rfl⟩
  rw [← hy] at l
  have ym : y.m = m2 := hy ▸ (Driver.saveIf_eq _ _).1
  have yt : y.t = C.ctl.tCurrent := hy ▸ (Driver.saveIf_eq _ _).2.1
  have yi : y.iteration = 0 := hy ▸ (Driver.saveIf_eq _ _).2.2
  have fm : (V.saveIf f).m = f.m := (Driver.saveIf_eq _ _).1
  have hend : C.ctl.tCurrent < C.ctl.tEnd := by
    have : (0 : ℝ) < 1 / 10 ^ 14 := by positivity
    linarith
  clear hy e
  cases l with
  | done h =>
    exfalso
    simp only [Sim.finished, HydroState.ctl, yt, yi] at h
    have h1 : ¬ (V.ctl.tEnd - lit (1 / 10 ^ 14) ≤ C.ctl.tCurrent) := by
      show ¬ (C.ctl.tEnd - (((1 / 10 ^ 14 : ℚ)) : ℝ) ≤ C.ctl.tCurrent)
      push_cast
      linarith
    have h2 : ¬ (((0 : ℕ) : Int) ≥ V.ctl.nStepmax) := by
      show ¬ (((0 : ℕ) : Int) ≥ C.ctl.nStepmax)
      omega
    simp only [leb, Bool.or_eq_true, decide_eq_true_eq] at h
    exact h.elim h1 h2
  | step _ _ hnext l =>
    obtain ⟨d, m', hdt, ⟨junk, hst⟩, rfl⟩ := hnext
    have hf : f.m = m' := by
      cases l with
      | done => rfl
      | step h =>
        exfalso
        simp only [Sim.finished, HydroState.ctl, yi, Bool.or_eq_false_iff, decide_eq_false_iff_not] at h
        have h2 : ((0 + 1 : ℕ) : Int) ≥ V.ctl.nStepmax := by
          show ((0 + 1 : ℕ) : Int) ≥ C.ctl.nStepmax
          omega
        exact h.2 h2
    have hpos : 0 < V.ctl.computeDt y.t d := by
      have hdense : SdmDense C y.m := fun b p hb hp => by
        rw [ym, hsame b p 0 hb.1 hb.2 hp (by cases C.M.d3 <;> decide)]
        exact hq.phys.pos
      have := sdm_dt_pos hC hg hs hcfl hdense hdt
      rw [yt]
      unfold Sim.computeDt
      split
      · exact sub_pos.2 hend
      · exact this
    have hsame' : SameInside C.M.d3 C.M.N C.P (valsOf C.M y.m sU) (everywhere (bulkState c)) := by rw [ym]; exact hsame
    obtain ⟨k, hk, hne⟩ := C141_density_changes hC hG hti hllf hdx hq hj hrest hin hd hpos hsame' hst hb hbi hp hop
    refine ⟨k, hk, ?_⟩
    rw [fm, hf]
    exact hne

/-! ### The hypotheses can be met -/

/-- The run of `C141_JetMpi` cut off after one step. -/
noncomputable def shortJetConf : SdmConf ℝ :=
  { exampleJetConf with ctl := { exampleJetConf.ctl with nStepmax := 1 } }

/-- The program without MPI ends, its first file shows density 1/2 in the box, its last a density other than 1/2. -/
example : ∃ s, shortJetConf.JetSerial ⟨0, 6, 0, 6, 0, 4, 0, 0, 0⟩ (JetParams.make exampleJet) (some s) ∧
    ∃ x0 x1, s.files.head? = some x0 ∧ s.files.getLast? = some x1 ∧ sdmVals shortJetConf x0.data ⟨1, 1, 1⟩ ⟨0, 0, 0⟩ 0 = 0.5 ∧
      ∃ k, k < 3 ∧ sdmVals shortJetConf x1.data ⟨1, 1, 1⟩ ⟨k, 0, 0⟩ 0 ≠ 0.5 := by
  have hC : shortJetConf.Ok channelSides :=
    ⟨exampleScheme_exact true, channel_setup true, by constructor <;> simp [shortJetConf, exampleJetConf]⟩
  have hG : GasParams shortJetConf.S := by
    constructor <;> norm_num [shortJetConf, exampleJetConf, hllcSettings, exampleSettings]
  have hti : shortJetConf.ti = .forward_euler := rfl
  have hq : Settled true shortJetConf.S (bulkState exampleJet) := by
    rw [exampleJet_bulk]
    refine ⟨⟨by norm_num, ?_, by simp⟩, ⟨?_, ?_⟩⟩ <;>
      norm_num [Sdm.primOf, shortJetConf, exampleJetConf, hllcSettings, exampleSettings]
  have hj : Settled true shortJetConf.S (jetState exampleJet) := by
    rw [exampleJet_jet]
    refine ⟨⟨by norm_num, ?_, by simp⟩, ⟨?_, ?_⟩⟩ <;>
      norm_num [Sdm.primOf, shortJetConf, exampleJetConf, hllcSettings, exampleSettings]
  have hsp : Spacings true shortJetConf.S := by
    constructor <;> intros <;> norm_num [shortJetConf, exampleJetConf, hllcSettings, exampleSettings]
  have hd : (bulkState exampleJet).d = 0.5 := by rw [exampleJet_bulk]
  have hlog : shortJetConf.ctl.nlog ≠ 0 := by simp [shortJetConf, exampleJetConf, exampleSdmConf]
  have hout : shortJetConf.ctl.nOutput ≠ 0 := by simp [shortJetConf, exampleJetConf, exampleSdmConf]
  obtain ⟨⟨s, hs⟩, h⟩ := C141_serial (C := shortJetConf) (D := ⟨0, 6, 0, 6, 0, 4, 0, 0, 0⟩) (c := exampleJet) hC hlog hout
  obtain ⟨_, x0, ⟨⟩, e0, -, -, h0, -⟩ := h _ hs
  obtain ⟨x1, e1, h1⟩ := C141_serial_jet (C := shortJetConf) (c := exampleJet) hC hG hti rfl
    (by norm_num [shortJetConf, exampleJetConf, hllcSettings, exampleSettings]) hsp
    (by norm_num [shortJetConf, exampleJetConf, hllcSettings, exampleSettings])
    (by norm_num [shortJetConf, exampleJetConf, hllcSettings, exampleSettings]) hout rfl
    (by norm_num [shortJetConf, exampleJetConf, exampleSdmConf]) hq hj
    (by rw [exampleJet_bulk]) (by rw [exampleJet_jet]; norm_num) (by rw [exampleJet_jet, exampleJet_bulk]; norm_num) hs
  have hb : Inside true shortJetConf.P ⟨1, 1, 1⟩ := ⟨by decide, by decide⟩
  refine ⟨s, hs, x0, x1, e0, e1, ?_, ?_⟩
  · rw [← hd]
    exact h0 ⟨1, 1, 1⟩ ⟨0, 0, 0⟩ 0 hb.1 hb.2 ⟨by decide, by decide, by decide⟩ (by decide)
  · rw [← hd]
    refine h1 ⟨1, 1, 1⟩ ⟨0, 0, 0⟩ hb rfl ⟨by decide, by decide, by decide⟩ ?_
    unfold InOpening
    rw [if_pos (by rfl)]
    show (0 + (((1 : Int) : ℝ) + ((2 : Int) : ℝ) * ((0 : Int) : ℝ) - ((1 : Int) : ℝ) + solPts 3 0) * 1 -
        exampleJet.getFloat "jet" "pos_jet" 0) ^ 2 +
      (0 + (((1 : Int) : ℝ) + ((2 : Int) : ℝ) * ((0 : Int) : ℝ) - ((1 : Int) : ℝ) + solPts 3 0) * 1 -
        exampleJet.getFloat "jet" "pos_jet" 0) ^ 2 < (exampleJet.getFloat "jet" "width_jet" 0.1 / 2) ^ 2
    unfold exampleJet
    simp only [String.reduceEq, if_true, if_false]
    have h0 := solPts_pos (N := 3) (i := 0) (by decide)
    have h1 := solPts_lt_one (N := 3) (i := 0) (by decide)
    push_cast
    nlinarith

end Verif
