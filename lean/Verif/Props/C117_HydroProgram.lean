import Verif.Lemmas.HydroProgram
import Verif.Spec.HydroProgram
import Verif.Spec.InitHydro

/-!
# C117: the hydro program from start to end

Trusted model: `Verif.Model.HydroProgram`.  What the files should look like is in `Verif.Spec.HydroProgram`.
-/

namespace Verif

open Spec ROps

variable {C : HydroConf ℝ} {B : Sides} {D : Domain ℝ} {Q : HydroProblem ℝ}

/-! ### Order of the files -/

/-- Positive time step. -/
private theorem dt_pos (hC : C.Ok B) (hcfl : 0 < C.S.cfl) {it : ℕ} {m : Addr → ℝ} {d : ℝ}
    (r : ComputeDtLocal C.bot C.d3 C.S C.P C.grav it m d) : 0 < d := by
  have hpos : ∀ c, C.P.box C.d3 c → C.P.inner C.d3 c → 0 < rateAt C.d3 C.S C.grav (bufIn it) m c := by
    intro c _ _
    by_cases hg : C.grav = true
    · rw [hg]; exact rateAt_gravity_pos hC.gas hC.spacings _ c
    · rw [Bool.not_eq_true] at hg
      simp only [rateAt, hg, Bool.false_eq_true, if_false, cflRate_eq]
      exact signalRate_pos hC.spacings (C31_physical C.d3 hC.gas _).2.2.2.2.1 _
  obtain ⟨M, rfl, hM, -⟩ := computeDt_spec hC.box hC.bot hpos r
  exact div_pos hcfl hM

/-- The files so far are in order. -/
private structure Ordered (C : HydroConf ℝ) (n : Int) (t0 : ℝ) (s : HydroState ℝ) : Prop where
  saved : s.timesSaved = n + s.files.length
  order : InOrder n t0 C.ctl.tEnd s.files
  last : ∀ x ∈ s.files, x.time ≤ s.t
  first : t0 ≤ s.t
  fin : s.t ≤ C.ctl.tEnd

private theorem Ordered.save {n : Int} {t0 : ℝ} {s : HydroState ℝ} (h : Ordered C n t0 s) :
    Ordered C n t0 s.save := by
  refine ⟨?_, ⟨?_, ?_, ?_⟩, ?_, h.first, h.fin⟩
  · rw [save_file]; simp [HydroState.save, h.saved]; omega
  · intro i hi
    simp only [save_file] at hi ⊢
    rw [List.getElem_append]
    split_ifs with hlt
    · exact h.order.1 i hlt
    · have : i = s.files.length := by simp at hi; omega
      subst this
      simp [h.saved]
  · rw [save_file, List.map_append, List.pairwise_append]
    refine ⟨h.order.2.1, by simp, ?_⟩
    intro a ha b hb
    simp only [List.map_cons, List.map_nil, List.mem_singleton] at hb
    obtain ⟨x, hx, rfl⟩ := List.mem_map.1 ha
    exact hb ▸ h.last x hx
  · intro x hx
    rw [save_file, List.mem_append, List.mem_singleton] at hx
    rcases hx with hx | rfl
    · exact h.order.2.2 x hx
    · exact ⟨h.first, h.fin⟩
  · intro x hx
    rw [save_file, List.mem_append, List.mem_singleton] at hx
    rcases hx with hx | rfl
    · exact h.last x hx
    · exact le_refl _

private theorem Ordered.saveIf {n : Int} {t0 : ℝ} {s : HydroState ℝ} (h : Ordered C n t0 s) :
    Ordered C n t0 (C.saveIf s) := by
  unfold HydroConf.saveIf; split_ifs
  · exact h.save
  · exact h

private theorem loop_ordered (hC : C.Ok B) (hcfl : 0 < C.S.cfl) {n : Int} {t0 : ℝ} {s : HydroState ℝ}
    {r : Option (HydroState ℝ)} (hl : C.Loop s r) (h : Ordered C n t0 s) :
    ∀ s', r = some s' → Ordered C n t0 s' := by
  induction hl with
  | done => rintro s' ⟨⟩; exact h
  | ub => rintro s' ⟨⟩
  | @step s s1 r _ _ hn _ ih =>
    refine ih ?_
    obtain ⟨s2, ⟨d, hd, rfl⟩, J, m', hr, rfl⟩ := hn
    have hO : Ordered C n t0 (if (C.ctl.enableOutput && C.ctl.shouldSave s.ctl) = true then s.save else s) := by
      split_ifs
      · exact h.save
      · exact h
    revert hO hd
    generalize (if (C.ctl.enableOutput && C.ctl.shouldSave s.ctl) = true then s.save else s) = y
    intro hd hO
    have hdp := dt_pos hC hcfl hd
    have hb : y.t ≤ y.t + C.ctl.computeDt y.t d ∧ y.t + C.ctl.computeDt y.t d ≤ C.ctl.tEnd := by
      have := hO.fin
      simp only [Sim.computeDt, ROps.ltb, decide_eq_true_eq]
      split_ifs <;> constructor <;> linarith
    exact ⟨hO.saved, hO.order, fun x hx => (hO.last x hx).trans hb.1, hO.first.trans hb.1, hb.2⟩

/-! ### The program -/

private theorem setup_once (hC : C.Ok B) (hG : HasGravity Q → C.grav = true) (m : Addr → ℝ) :
    ∃ m1, Runs (hydroSetup C.d3 C.S C.P D Q) m m1 ∧
      ∀ m', Runs (hydroSetup C.d3 C.S C.P D Q) m m' → m' = m1 := by
  obtain ⟨m1, y, -⟩ := hydro_setup (S := C.S) (D := D) hC.box hC.impl hG m
  exact ⟨m1, y.run, fun m' r => y.unique r⟩

/-- **C117**: the hydro program runs to its end, whatever the schedules of its loops, the order of its reductions and the
values of uninitialised variables, and all its runs write the same files and stop after the same number of steps at
the same time. -/
theorem C117_same_files (hC : C.Ok B) (hlog : C.ctl.nlog ≠ 0) (hG : HasGravity Q → C.grav = true) :
    (∃ s, C.Main D Q (some s)) ∧
    ∀ r r', C.Main D Q r → C.Main D Q r' → ∃ s s', r = some s ∧ r' = some s' ∧
      SameFiles C.d3 C.P s.files s'.files ∧ s.t = s'.t ∧ s.iteration = s'.iteration := by
  obtain ⟨m1, hr, hu⟩ := setup_once (D := D) hC hG (fun _ => ROps.lit 0)
  obtain ⟨σ, -, ⟨s, f, a1, a2⟩, hall⟩ := program_views hC hlog (t := C.ctl.tCurrent) (n := 0) hr hu
  refine ⟨⟨C.saveIf f, s, some f, a1, a2, rfl⟩, ?_⟩
  rintro r r' ⟨s1, f1, b1, b2, rfl⟩ ⟨s2, f2, c1, c2, rfl⟩
  obtain ⟨x, ex, vx⟩ := hall s1 f1 b1 b2
  obtain ⟨y, ey, vy⟩ := hall s2 f2 c1 c2
  refine ⟨x, y, ex, ey, sameFiles_of (vx.out.symm.trans vy.out), vx.t.symm.trans vy.t, ?_⟩
  have := vx.it.symm.trans vy.it
  exact_mod_cast this

/-- **C117**: the files are numbered without gaps from 0, their times never decrease and lie between the start time and the
end time, the first holds the initial state, and the last is written at the end. -/
theorem C117_outputs (hC : C.Ok B) (hcfl : 0 < C.S.cfl) (ht : C.ctl.tCurrent ≤ C.ctl.tEnd) {s : HydroState ℝ}
    (hm : C.Main D Q (some s)) : InOrder 0 C.ctl.tCurrent C.ctl.tEnd s.files ∧
      (C.ctl.nOutput ≠ 0 →
        (∃ m1, Runs (hydroSetup C.d3 C.S C.P D Q) (fun _ => 0) m1 ∧
          s.files.head? = some ⟨0, C.ctl.tCurrent, fun c v => m1 (c.at aU v)⟩) ∧
        ∃ x, s.files.getLast? = some x ∧ x.time = s.t) := by
  obtain ⟨s0, r, hs, hl, e⟩ := hm
  obtain ⟨s1, rfl, rfl⟩ := Option.map_eq_some_iff.1 e.symm
  have h0 : Ordered C 0 C.ctl.tCurrent s0 := by
    obtain ⟨m1, s2, -, ⟨d, -, rfl⟩, rfl⟩ := hs
    refine Ordered.saveIf ⟨by simp, ⟨by simp, by simp, by simp⟩, by simp, le_refl _, ht⟩
  refine ⟨((loop_ordered hC hcfl hl h0 s1 rfl).saveIf).order, fun ho => ?_⟩
  have : C.saveIf s1 = s1.save := if_pos ho
  refine ⟨?_, ?_⟩
  · have hz : (fun _ => ROps.lit 0 : Addr → ℝ) = fun _ => 0 := by funext _; simp [ROps.lit]
    rw [← hz]
    exact first_file hs hl rfl ho
  · rw [this, save_file]
    exact ⟨_, List.getLast?_concat, rfl⟩

/-- **C117**: with periodic boundaries and without gravity, every file has the mass, momentum and energy of the first. -/
theorem C117_conservation (hC : C.Ok (Sides.all .periodic)) (hg : C.grav = false) {s : HydroState ℝ}
    (hm : C.Main D Q (some s)) {x0 : Snapshot (Cell → ℕ → ℝ) ℝ} (hx0 : s.files.head? = some x0) :
    ∀ x ∈ s.files, ∀ v < hydroVars C.d3, fileTotal C.d3 C.P x v = fileTotal C.d3 C.P x0 v := by
  obtain ⟨s0, r, hs, hl, e⟩ := hm
  intro x hx v hv
  refine run_files (I := fun d => interiorSum C.d3 C.P (fun c => d c v) = fileTotal C.d3 C.P x0 v)
    (G := fun _ => True) (fun J dt it m m' hr _ hi => ⟨trivial, ?_⟩) hs (fun _ _ => trivial) hl e.symm hx0 rfl x hx
  rw [← hi]
  rw [hg] at hr
  rw [← bufOut_eq]
  exact C22_conservation hC.box hC.valid hC.impl hr v hv

/-- **C117**: without reflecting boundaries and gravity, a uniform gas stays as it is: all files show it. -/
theorem C117_uniform (hC : C.Ok B) (hg : C.grav = false)
    (hx : B.xlo ≠ .reflecting ∧ B.xhi ≠ .reflecting) (hy : B.ylo ≠ .reflecting ∧ B.yhi ≠ .reflecting)
    (hz : C.d3 = true → B.zlo ≠ .reflecting ∧ B.zhi ≠ .reflecting) {s : HydroState ℝ}
    (hm : C.Main D Q (some s)) {x0 : Snapshot (Cell → ℕ → ℝ) ℝ} (hx0 : s.files.head? = some x0)
    {q : ℕ → ℝ} (hq : UniformFile C.d3 C.P q x0) : ∀ x ∈ s.files, UniformFile C.d3 C.P q x := by
  obtain ⟨s0, r, hs, hl, e⟩ := hm
  refine run_files (I := fun d => ∀ i j k v, i < C.P.nx.toNat → j < C.P.ny.toNat → k < depth C.d3 C.P →
    v < hydroVars C.d3 → d (cell C.d3 C.P i j k) v = q v) (G := fun _ => True) (fun J dt it m m' hr _ hi => ⟨trivial, ?_⟩) hs (fun _ _ => trivial) hl e.symm hx0 hq
  rw [hg] at hr
  intro i j k v a1 a2 a3 a4
  rw [← bufOut_eq]
  exact C26_uniform hC.box hC.valid hC.impl hx hy hz hr q hi _ v (cell_box hC.box a1 a2 a3).1 a4

/-! ### The premises are met -/

/-- A run of 100 steps at most. -/
noncomputable def exampleConf (d3 : Bool) (b : BC) : HydroConf ℝ :=
  ⟨d3, exampleSettings, exampleBox d3 b, 0, false, -1, ⟨1, 0, 100, 5, 10, false, id, fun _ => 0, fun u _ => u⟩⟩

theorem exampleConf_ok (d3 : Bool) (b : BC) : (exampleConf d3 b).Ok (Sides.all b) :=
  ⟨exampleBox_setup d3 b, exampleSettings_valid d3,
    ⟨by norm_num [exampleConf, exampleSettings], by norm_num [exampleConf, exampleSettings],
      by norm_num [exampleConf, exampleSettings], by norm_num [exampleConf, exampleSettings]⟩,
    by constructor <;> norm_num [exampleConf, exampleSettings], Or.inl rfl, by norm_num [exampleConf]⟩

example : ∃ s, (exampleConf true .periodic).Main ⟨0, 1, 0, 1, 0, 1, 0, 0, 0⟩
    (.blast ⟨1/10, 1/2, 1/2, 1/2, 1, 10, 1, 1/10⟩) (some s) ∧ ∃ x0, s.files.head? = some x0 ∧
    ∀ x ∈ s.files, ∀ v < 5, fileTotal true (exampleBox true .periodic) x v =
      fileTotal true (exampleBox true .periodic) x0 v := by
  have hC := exampleConf_ok true .periodic
  obtain ⟨⟨s, hs⟩, -⟩ := C117_same_files (D := ⟨0, 1, 0, 1, 0, 1, 0, 0, 0⟩)
    (Q := .blast ⟨1/10, 1/2, 1/2, 1/2, 1, 10, 1, 1/10⟩) hC (by simp [exampleConf]) (fun h => h.elim)
  obtain ⟨⟨m1, -, h1⟩, -⟩ := (C117_outputs hC (by norm_num [exampleConf, exampleSettings]) (by norm_num [exampleConf]) hs).2
    (by simp [exampleConf])
  exact ⟨s, hs, _, h1, C117_conservation hC rfl hs h1⟩

end Verif
