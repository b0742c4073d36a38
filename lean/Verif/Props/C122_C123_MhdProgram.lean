import Verif.Lemmas.MhdProgram
import Verif.Props.C69_C93_Dt
import Verif.Props.C95_C97_MhdScheme
import Verif.Props.C100_InitField

/-!
# C122, C123: the MHD program from start to end, and its restart

Trusted model: `Verif.Model.MhdProgram`.  What the files should look like is in `Verif.Spec.MhdProgram`.
-/

namespace Verif

open Spec ROps

variable {C : MhdConf ℝ} {B : Sides} {D : Domain ℝ} {Q : MhdProblem ℝ}

/-! ### Order of the files -/

/-- Positive time step, whatever the state. -/
theorem mdt_pos_of (hC : C.Ok B) (hG : C.Gas) {m1 : Addr → ℝ} {d : ℝ} {U : Cell → MState ℝ}
    (q : ∀ c, Inside C.d3 C.P c → mfield m1 aQ c = primOf C.d3 C.S U c)
    (hd : MhdComputeDtLocal C.bot C.d3 C.S C.P m1 d) : 0 < d := by
  obtain ⟨M, ⟨-, g⟩, rfl⟩ := mhdDt_greatest hd
  obtain ⟨c, hc⟩ := exists_inside hC.box (by decide)
  have hg : 0 < C.S.gamma0 := by have := hG.params.gamma; linarith
  have hp : Physical (mfield m1 aQ c) := by
    rw [q c hc]
    unfold primOf
    generalize (if C.d3 = true then _ else _ : ℝ) = z
    unfold constoprim_mhd
    have h1 := hG.params.smallr
    have h2 := hG.params.smallp
    have hd : ∀ x, 0 < max x C.S.smallr := fun x => lt_max_of_lt_right h1
    dsimp only
    split_ifs with hi
    · have hi : 0 < C.S.cIso := by simpa [gtb, ltb, lit] using hi
      exact ⟨by rops; exact hd _, by rops; exact mul_pos (mul_pos (hd _) hi) hi⟩
    · exact ⟨by rops; exact hd _, by rops; exact lt_max_of_lt_right (mul_pos (hd _) h2)⟩
  obtain ⟨cf, hcf⟩ := fastSpeeds_exist (d3 := C.d3) (S := C.S) hg hp
  have hr := mhdSignalRate_pos hG.spacings hcf
  rw [← cflRateMhd_eq hg hp hcf] at hr
  exact div_pos hG.cfl (lt_of_lt_of_le hr (g (Or.inr ⟨c, hc, rfl⟩)))

/-- Positive time step. -/
private theorem mdt_pos (hC : C.Ok B) (hG : C.Gas) {it : ℕ} {m m1 : Addr → ℝ} {d : ℝ}
    (r : Runs (mhdPrepare C.d3 C.S C.P (bufIn it) (bufOut it)) m m1)
    (hd : MhdComputeDtLocal C.bot C.d3 C.S C.P m1 d) : 0 < d := by
  obtain ⟨f, -, q⟩ := prepared hC.box r
  exact mdt_pos_of hC hG q hd

/-- The files so far are in order. -/
private structure MOrdered (C : MhdConf ℝ) (n : Int) (t0 : ℝ) (s : HydroState ℝ) : Prop where
  saved : s.timesSaved = n + s.files.length
  order : InOrder n t0 C.ctl.tEnd s.files
  last : ∀ x ∈ s.files, x.time ≤ s.t
  first : t0 ≤ s.t
  fin : s.t ≤ C.ctl.tEnd

private theorem MOrdered.save {n : Int} {t0 : ℝ} {s : HydroState ℝ} (h : MOrdered C n t0 s) :
    MOrdered C n t0 s.save := by
  refine ⟨?_, ⟨?_, ?_, ?_⟩, ?_, h.first, h.fin⟩
  · rw [save_file]; simp [HydroState.save, h.saved]; omega
  · intro i hi
    simp only [save_file] at hi ⊢
    rw [List.getElem_append]
    split_ifs with hlt
    · exact h.order.1 i hlt
    · have : i = s.files.length := by simp at hi; omega
      subst this
      simp [h.saved]
  · rw [save_file, List.map_append, List.pairwise_append]
    refine ⟨h.order.2.1, by simp, ?_⟩
    intro a ha b hb
    simp only [List.map_cons, List.map_nil, List.mem_singleton] at hb
    obtain ⟨x, hx, rfl⟩ := List.mem_map.1 ha
    exact hb ▸ h.last x hx
  · intro x hx
    rw [save_file, List.mem_append, List.mem_singleton] at hx
    rcases hx with hx | rfl
    · exact h.order.2.2 x hx
    · exact ⟨h.first, h.fin⟩
  · intro x hx
    rw [save_file, List.mem_append, List.mem_singleton] at hx
    rcases hx with hx | rfl
    · exact h.last x hx
    · exact le_refl _

private theorem MOrdered.saveIf {n : Int} {t0 : ℝ} {s : HydroState ℝ} (h : MOrdered C n t0 s) :
    MOrdered C n t0 (C.saveIf s) := by
  unfold MhdConf.saveIf; split_ifs
  · exact h.save
  · exact h

private theorem mloop_ordered (hC : C.Ok B) (hG : C.Gas) {n : Int} {t0 : ℝ} {s : HydroState ℝ}
    {r : Option (HydroState ℝ)} (hl : C.Loop s r) (h : MOrdered C n t0 s) :
    ∀ s', r = some s' → MOrdered C n t0 s' := by
  induction hl with
  | done => rintro s' ⟨⟩; exact h
  | ub => rintro s' ⟨⟩
  | @step s s1 r _ _ hn _ ih =>
    refine ih ?_
    obtain ⟨dt, m', st, rfl⟩ := hn
    obtain ⟨-, e2, -⟩ := saveDue_eq C s
    have hO : MOrdered C n t0 (C.saveDue s) := by
      unfold MhdConf.saveDue
      split_ifs
      · exact h.save
      · exact h
    obtain ⟨J, m1, d, -, p, q, e⟩ := st.unsplit
    have hdp := mdt_pos hC hG p q
    have hb : (C.saveDue s).t ≤ (C.saveDue s).t + dt ∧ (C.saveDue s).t + dt ≤ C.ctl.tEnd := by
      have := hO.fin
      rw [e]
      simp only [Sim.computeDt, ROps.ltb, decide_eq_true_eq]
      split_ifs <;> constructor <;> linarith
    rw [e2] at hb
    refine ⟨hO.saved, hO.order, fun x hx => (hO.last x hx).trans ?_, hO.first.trans ?_, hb.2⟩ <;>
      · rw [e2]; exact hb.1

/-! ### C122 -/

private theorem msetup_once (hC : C.Ok B) (m : Addr → ℝ) :
    ∃ m1, Runs (mhdSetup C.d3 C.S C.P D Q) m m1 ∧
      ∀ m', Runs (mhdSetup C.d3 C.S C.P D Q) m m' → m' = m1 := by
  obtain ⟨m1, y⟩ := C100_setup (S := C.S) (D := D) (impl := 0) hC.box Q m
  exact ⟨m1, y.run, fun m' r => y.unique r⟩

private theorem same_refl (d3 : Bool) (P : Grid) (l : List (Snapshot (Cell → ℕ → ℝ) ℝ)) : SameMhdFiles d3 P l l :=
  List.forall₂_same.2 fun _ _ => ⟨rfl, rfl, fun _ _ _ _ _ _ _ _ => rfl⟩

/-- Runs with two implementation versions that are the same scheme. -/
theorem main_alt (hC : C.Ok B) {i : Int} (hi : ValidImpl C.d3 C.S i) (hs : SameImpl C.d3 C.impl i)
    (hlog : C.ctl.nlog ≠ 0) {r r' : Option (HydroState ℝ)} (hr : C.Main D Q r)
    (hr' : MhdConf.Main { C with impl := i } D Q r') : ∃ s s', r = some s ∧ r' = some s' ∧
      SameMhdFiles C.d3 C.P s.files s'.files ∧ s.t = s'.t ∧ s.iteration = s'.iteration := by
  obtain ⟨m1, -, hu⟩ := msetup_once (D := D) (Q := Q) hC (fun _ => ROps.lit 0)
  obtain ⟨s1, f1, ⟨x, dt, x1, -, rfl⟩, b2, rfl⟩ := hr
  obtain ⟨s2, f2, ⟨y, dt', y1, -, rfl⟩, c2, rfl⟩ := hr'
  obtain rfl := hu x x1
  obtain rfl := hu y y1
  have h0 : Shadow C 0 [] ⟨y, C.ctl.tCurrent, dt, 0, 0, []⟩ ⟨y, C.ctl.tCurrent, dt', 0, 0, []⟩ :=
    ⟨rfl, rfl, rfl, fun _ _ _ _ _ _ _ _ => rfl, .nil⟩
  have h1 := h0.saveIf (i := i)
  have e : C.alt ((0 : ℕ) : Int) i = { C with impl := i } := by
    unfold MhdConf.alt
    rw [show C.less ((0 : ℕ) : Int) = C from less_zero C]
  rw [e] at h1
  obtain ⟨f, f', rfl, rfl, h2⟩ := mhdLoop_alt hC hi hs hlog h1 b2 (by rw [e]; exact c2)
  have h3 := h2.saveIf (i := i)
  rw [e] at h3
  exact ⟨_, _, rfl, rfl, h3.files, h3.t, h3.it⟩

/-- **C122**: the MHD program runs to its end, whatever the schedules of its loops, the order of its reductions and atomic
additions and the values of uninitialised variables, and all its runs write the same files and stop after the same
number of steps at the same time. -/
theorem C122_same_files (hC : C.Ok B) (hlog : C.ctl.nlog ≠ 0) :
    (∃ s, C.Main D Q (some s)) ∧
    ∀ r r', C.Main D Q r → C.Main D Q r' → ∃ s s', r = some s ∧ r' = some s' ∧
      SameMhdFiles C.d3 C.P s.files s'.files ∧ s.t = s'.t ∧ s.iteration = s'.iteration := by
  obtain ⟨m1, hr, hu⟩ := msetup_once (D := D) (Q := Q) hC (fun _ => ROps.lit 0)
  constructor
  · obtain ⟨d, hd⟩ := mhdDt_some C.bot C.d3 C.S C.P m1
    obtain ⟨f, l⟩ := mhdLoop_ends hC hlog (C.saveIf ⟨m1, C.ctl.tCurrent, C.ctl.computeDt C.ctl.tCurrent d, 0, 0, []⟩)
    exact ⟨C.saveIf f, _, some f, ⟨m1, _, hr, ⟨d, hd, rfl⟩, rfl⟩, l, rfl⟩
  · intro r r' hr hr'
    exact main_alt hC hC.valid (Or.inl rfl) hlog hr hr'

/-- **C122**: with implementation version 0 and with version 1 the program writes the same files. -/
theorem C122_versions (hC : C.Ok B) (h0 : C.impl = 0) (hlog : C.ctl.nlog ≠ 0) {r r' : Option (HydroState ℝ)}
    (hr : C.Main D Q r) (hr' : MhdConf.Main { C with impl := 1 } D Q r') : ∃ s s', r = some s ∧ r' = some s' ∧
      SameMhdFiles C.d3 C.P s.files s'.files ∧ s.t = s'.t ∧ s.iteration = s'.iteration := by
  refine main_alt hC ?_ (Or.inr (Or.inl ⟨by omega, by omega⟩)) hlog hr hr'
  rcases hC.valid with ⟨-, h⟩ | ⟨h, -⟩
  · exact Or.inl ⟨Or.inr rfl, h⟩
  · omega

/-- **C122**: the files are numbered without gaps from 0, their times never decrease and lie between the start time and the
end time, the first holds the initial state, and the last is written at the end. -/
theorem C122_outputs (hC : C.Ok B) (hG : C.Gas) (ht : C.ctl.tCurrent ≤ C.ctl.tEnd) {s : HydroState ℝ}
    (hm : C.Main D Q (some s)) : InOrder 0 C.ctl.tCurrent C.ctl.tEnd s.files ∧
      (C.ctl.nOutput ≠ 0 →
        (∃ m1, Runs (mhdSetup C.d3 C.S C.P D Q) (fun _ => 0) m1 ∧
          s.files.head? = some ⟨0, C.ctl.tCurrent, fun c v => m1 (c.at aU v)⟩) ∧
        ∃ x, s.files.getLast? = some x ∧ x.time = s.t) := by
  obtain ⟨s0, r, hs, hl, e⟩ := hm
  obtain ⟨s1, rfl, rfl⟩ := Option.map_eq_some_iff.1 e.symm
  have h0 : MOrdered C 0 C.ctl.tCurrent s0 := by
    obtain ⟨m1, dt, -, -, rfl⟩ := hs
    refine MOrdered.saveIf ⟨by simp, ⟨by simp, by simp, by simp⟩, by simp, le_refl _, ht⟩
  refine ⟨((mloop_ordered hC hG hl h0 s1 rfl).saveIf).order, fun ho => ?_⟩
  have : C.saveIf s1 = s1.save := if_pos ho
  refine ⟨?_, ?_⟩
  · have hz : (fun _ => ROps.lit 0 : Addr → ℝ) = fun _ => 0 := by funext _; simp [ROps.lit]
    rw [← hz]
    exact mhd_first_file hs hl rfl ho
  · rw [this, save_file]
    exact ⟨_, List.getLast?_concat, rfl⟩

/-- **C122**: with periodic boundaries every file has the mass, momentum, energy and total magnetic field of the first. -/
theorem C122_conservation (hC : C.Ok (Sides.all .periodic)) {s : HydroState ℝ}
    (hm : C.Main D Q (some s)) {x0 : Snapshot (Cell → ℕ → ℝ) ℝ} (hx0 : s.files.head? = some x0) :
    ∀ x ∈ s.files, ∀ v < 8, fileTotal C.d3 C.P x v = fileTotal C.d3 C.P x0 v := by
  obtain ⟨s0, r, hs, hl, e⟩ := hm
  intro x hx v hv
  refine mhd_run_files (I := fun d => interiorSum C.d3 C.P (fun c => d c v) = fileTotal C.d3 C.P x0 v)
    (fun J dt it m m' hr hi => ?_) hs hl e.symm hx0 rfl x hx
  rw [← hi, ← bufOut_eq]
  obtain ⟨F, E, m1, f, hs⟩ := form_any hC.box hC.valid hr
  exact f.conserves hC.box hs v hv

/-- **C122**: with periodic boundaries the divergence of the magnetic field is in every cell of every file what it is in the first. -/
theorem C122_divB (hC : C.Ok (Sides.all .periodic)) {s : HydroState ℝ}
    (hm : C.Main D Q (some s)) {x0 : Snapshot (Cell → ℕ → ℝ) ℝ} (hx0 : s.files.head? = some x0) {i j k : ℕ}
    (hi : i < C.P.nx.toNat) (hj : j < C.P.ny.toNat) (hk : C.d3 = true → k < C.P.nz.toNat) :
    ∀ x ∈ s.files, fileDiv C.d3 C.S C.P x i j k = fileDiv C.d3 C.S C.P x0 i j k := by
  obtain ⟨s0, r, hs, hl, e⟩ := hm
  intro x hx
  refine mhd_run_files (I := fun d => fileDiv C.d3 C.S C.P ⟨0, 0, d⟩ i j k = fileDiv C.d3 C.S C.P x0 i j k)
    (fun J dt it m m' hr h => ?_) hs hl e.symm hx0 rfl x hx
  rw [← h, ← bufOut_eq]
  obtain ⟨F, E, m1, f, hs⟩ := form_any hC.box hC.valid hr
  exact f.divB_periodic hC.box hs hi hj hk

/-- **C122**: with any boundaries this holds in the cells whose upper neighbours are cells of the domain. -/
theorem C122_divB_inside (hC : C.Ok B) {s : HydroState ℝ}
    (hm : C.Main D Q (some s)) {x0 : Snapshot (Cell → ℕ → ℝ) ℝ} (hx0 : s.files.head? = some x0) {i j k : ℕ}
    (hi : i + 1 < C.P.nx.toNat) (hj : j + 1 < C.P.ny.toNat) (hk : C.d3 = true → k + 1 < C.P.nz.toNat) :
    ∀ x ∈ s.files, fileDivInside C.d3 C.S C.P x i j k = fileDivInside C.d3 C.S C.P x0 i j k := by
  obtain ⟨s0, r, hs, hl, e⟩ := hm
  intro x hx
  refine mhd_run_files
    (I := fun d => fileDivInside C.d3 C.S C.P ⟨0, 0, d⟩ i j k = fileDivInside C.d3 C.S C.P x0 i j k)
    (fun J dt it m m' hr h => ?_) hs hl e.symm hx0 rfl x hx
  rw [← h, ← bufOut_eq]
  obtain ⟨F, E, m1, f, -⟩ := form_any hC.box hC.valid hr
  exact f.divB_inside hC.box hi hj hk

/-- **C122**: for the problems whose field is free of divergence (`Solenoidal`, C100), the field in every file of a periodic run is. -/
theorem C122_solenoidal (hC : C.Ok (Sides.all .periodic)) (hQ : Solenoidal C.d3 C.S C.P D Q) {s : HydroState ℝ}
    (hm : C.Main D Q (some s)) {i j k : ℕ} (hi : i < C.P.nx.toNat) (hj : j < C.P.ny.toNat)
    (hk : C.d3 = true → k < C.P.nz.toNat) :
    ∀ x ∈ s.files, fileDiv C.d3 C.S C.P x i j k = 0 := by
  intro x hx
  by_cases ho : C.ctl.nOutput = 0
  · obtain ⟨s0, r, hs, hl, e⟩ := hm
    rw [mhd_no_files hs hl e.symm ho] at hx; cases hx
  · have hm' := hm
    obtain ⟨s0, r, hs, hl, e⟩ := hm
    obtain ⟨m1, hr, hf⟩ := mhd_first_file hs hl e.symm ho
    rw [C122_divB hC hm' hf hi hj hk x hx]
    exact C100_divB_start hC.box (fun _ => rfl) hQ hr hi hj hk

/-- **C122**: without reflecting boundaries a uniform flow with a uniform field stays as it is: all files show it. -/
theorem C122_uniform (hC : C.Ok B)
    (hx : B.xlo ≠ .reflecting ∧ B.xhi ≠ .reflecting) (hy : B.ylo ≠ .reflecting ∧ B.yhi ≠ .reflecting)
    (hz : C.d3 = true → B.zlo ≠ .reflecting ∧ B.zhi ≠ .reflecting) {s : HydroState ℝ}
    (hm : C.Main D Q (some s)) {x0 : Snapshot (Cell → ℕ → ℝ) ℝ} (hx0 : s.files.head? = some x0)
    {q : MState ℝ}
    (hu : UniformMhdFile C.d3 C.P (mhdConserved C.S.gamma0 q) x0) :
    ∀ x ∈ s.files, UniformMhdFile C.d3 C.P (mhdConserved C.S.gamma0 q) x := by
  obtain ⟨s0, r, hs, hl, e⟩ := hm
  intro x hx'
  refine mhd_run_files (I := fun d => UniformMhdFile C.d3 C.P (mhdConserved C.S.gamma0 q) ⟨0, 0, d⟩)
    (fun J dt it m m' hr h => ?_) hs hl e.symm hx0 hu x hx'
  obtain ⟨F, E, m1, f, hF⟩ := form_any hC.box hC.valid hr
  intro i j k a1 a2 a3
  have key := fun v hv => f.uniform hC.box hF hx hy hz (q := (mhdConserved C.S.gamma0 q).get) (fun i j k v a1 a2 a3 hv => by
    obtain ⟨h0, h1, h2, h3, h4, h5, h6, h7⟩ := h i j k a1 a2 a3
    have : v = 0 ∨ v = 1 ∨ v = 2 ∨ v = 3 ∨ v = 4 ∨ v = 5 ∨ v = 6 ∨ v = 7 := by omega
    rcases this with rfl | rfl | rfl | rfl | rfl | rfl | rfl | rfl <;> assumption) a1 a2 a3 (v := v) hv
  rw [bufOut_eq] at key
  exact ⟨key 0 (by decide), key 1 (by decide), key 2 (by decide), key 3 (by decide), key 4 (by decide),
    key 5 (by decide), key 6 (by decide), key 7 (by decide)⟩

/-! ### C123 restart -/

/-- **C123**: a run is in state `s` at the top of its loop, writes it and goes on to the end.  Restarted from the file of `s` – the
values read into `U`, all other arrays holding anything – with the steps made taken off `nstepmax`, the program runs to its end under every
schedule; the files written before `s` followed by those of the restarted run are the files of the whole run, and it
ends at the same time after the same number of steps altogether.  Premise: no second output is due. -/
theorem C123_continue (hC : C.Ok B) (hlog : C.ctl.nlog ≠ 0) {s fin : HydroState ℝ}
    (hl : C.Loop s (some fin)) (hf : C.ctl.finished s.ctl = false)
    (ho : C.ctl.nOutput ≠ 0) (hs : C.ctl.shouldSave s.ctl = true)
    (hq : C.ctl.shouldSave { s.ctl with timesSaved := s.timesSaved + 1 } = false)
    {m : Addr → ℝ} (hread : ∀ i j k v, i < C.P.nx.toNat → j < C.P.ny.toNat → k < depth C.d3 C.P →
      v < 8 → m ((cell C.d3 C.P i j k).at aU v) = s.file.data (cell C.d3 C.P i j k) v) :
    (∃ r, (C.less s.iteration).Restarted m s.file.number s.file.time (some r)) ∧
    ∀ r, (C.less s.iteration).Restarted m s.file.number s.file.time r → ∃ s', r = some s' ∧
      SameMhdFiles C.d3 C.P (C.saveIf fin).files (s.files ++ s'.files) ∧ s'.t = fin.t ∧
      s'.iteration + s.iteration = fin.iteration := by
  have hOk : (C.less s.iteration).Ok B := ⟨hC.box, hC.valid⟩
  obtain ⟨f, m1, y, F, -, -, g⟩ := mhd_prepare (S := C.S) (mhdOk_of (it := 0) (impl := 0) hC.box (Or.inl rfl)).toMhdBuf hC.box m
  have hag : AgreeAt C.d3 C.P (bufIn s.iteration) (bufIn 0) s.m m1 := by
    intro i j k v a1 a2 a3 a4
    obtain ⟨b1, b2⟩ := mcell_box hC.box (by decide) a1 a2 a3
    have e1 : bufIn 0 ≠ bufOut 0 := by simp [bufIn, bufOut, aU, aU2]
    have e2 : bufIn 0 ≠ aQ := by simp [bufIn, aU, aQ]
    rw [g _ e1 e2, F.interior b1 b2 (hC.box.nv ▸ a4)]
    exact (hread i j k v a1 a2 a3 a4).symm
  have hsave : ∀ y : HydroState ℝ, (C.less s.iteration).saveIf y = y.save := fun y => if_pos ho
  have hout : C.ctl.enableOutput = true := by simp [Sim.enableOutput, ho]
  -- the run from `s` is one from `s.save`
  have hl' : C.Loop s.save (some fin) := by
    cases hl with
    | done h => rw [hf] at h; cases h
    | step _ _ n l =>
      refine .step hf hlog ?_ l
      obtain ⟨dt, m', st, rfl⟩ := n
      have e1 : C.saveDue s = s.save := if_pos (by rw [hs, hout]; rfl)
      have e2 : C.saveDue s.save = s.save := if_neg (by
        rw [show C.ctl.shouldSave s.save.ctl = false from hq]; simp)
      rw [e1] at st
      refine ⟨dt, m', by rw [e2]; exact st, ?_⟩
      rw [e1, e2]
      rfl
  constructor
  · obtain ⟨d, hd⟩ := mhdDt_some C.bot C.d3 C.S C.P m1
    obtain ⟨f', l⟩ := mhdLoop_ends hOk hlog ((C.less s.iteration).saveIf
      ⟨m1, s.file.time, (C.less s.iteration).ctl.computeDt s.file.time d, 0, s.file.number, []⟩)
    exact ⟨_, _, some f', ⟨m1, _, y.run, ⟨d, hd, rfl⟩, rfl⟩, l, rfl⟩
  · rintro r ⟨s1, f1, ⟨x, dt, x1, -, rfl⟩, b2, rfl⟩
    obtain rfl := y.unique x1
    have h0 : Shadow C s.iteration s.files s ⟨x, s.file.time, dt, 0, s.file.number, []⟩ :=
      ⟨rfl, (Nat.zero_add _).symm, rfl, hag, by rw [List.append_nil]; exact same_refl _ _ _⟩
    rw [hsave] at b2
    obtain ⟨f, f', e, rfl, h2⟩ := mhdLoop_shadow hC hlog h0.save hl' b2
    cases e
    have h3 := h2.saveIf (i := C.impl)
    exact ⟨_, rfl, h3.files, by rw [← (mhdSaveIf_m C fin).2.1]; exact h3.t.symm,
      by rw [← (mhdSaveIf_m C fin).2.2]; exact h3.it.symm⟩

/-! ### The premises are met -/

/-- A run of 100 steps at most. -/
noncomputable def exampleMhdConf (d3 : Bool) (b : BC) : MhdConf ℝ :=
  ⟨d3, mhdGas, mhdBox b, 0, 1, -1, ⟨1, 0, 100, 5, 10, false, id, fun _ => 0, fun u _ => u⟩⟩

theorem exampleMhdConf_ok (d3 : Bool) (b : BC) : (exampleMhdConf d3 b).Ok (Sides.all b) :=
  ⟨mhdBox_setup d3 b, Or.inl ⟨Or.inr rfl, Or.inl rfl, fun _ => Or.inl rfl, fun _ => le_rfl⟩⟩

theorem exampleMhdConf_gas (d3 : Bool) (b : BC) : (exampleMhdConf d3 b).Gas :=
  ⟨mhdGas_params.1, mhdGas_params.2.2.2.2 d3, mhdGas_params.2.2.2.1⟩

/-- An Orszag-Tang run. -/
example : ∃ s, (exampleMhdConf true .periodic).Main ⟨0, 1, 0, 1, 0, 1, 0, 0, 0⟩ (.orszagTang 1) (some s) ∧
    ∃ x0, s.files.head? = some x0 ∧ ∀ x ∈ s.files,
      (∀ v < 8, fileTotal true (mhdBox .periodic) x v = fileTotal true (mhdBox .periodic) x0 v) ∧
      ∀ i < 4, ∀ j < 3, ∀ k < 3, fileDiv true mhdGas (mhdBox .periodic) x i j k = 0 := by
  have hC := exampleMhdConf_ok true .periodic
  obtain ⟨⟨s, hs⟩, -⟩ := C122_same_files (D := ⟨0, 1, 0, 1, 0, 1, 0, 0, 0⟩) (Q := .orszagTang 1) hC
    (by simp [exampleMhdConf])
  obtain ⟨⟨m1, -, h1⟩, -⟩ := (C122_outputs hC (exampleMhdConf_gas true .periodic) (by norm_num [exampleMhdConf]) hs).2
    (by simp [exampleMhdConf])
  exact ⟨s, hs, _, h1, fun x hx => ⟨C122_conservation hC hs h1 x hx, fun i hi j hj k hk =>
    C122_solenoidal hC (Q := .orszagTang 1) trivial hs hi hj (fun _ => hk) x hx⟩⟩

/-- Premises of the restart: at time `1/2` of a run to time 1 with 5 outputs, the third (number 2) is due. -/
example (m : Addr → ℝ) : ∃ (s fin : HydroState ℝ), (exampleMhdConf false .absorbing).Loop s (some fin) ∧
    (exampleMhdConf false .absorbing).ctl.finished s.ctl = false ∧
    (exampleMhdConf false .absorbing).ctl.nOutput ≠ 0 ∧ s.m = m ∧
    (exampleMhdConf false .absorbing).ctl.shouldSave s.ctl = true ∧
    (exampleMhdConf false .absorbing).ctl.shouldSave { s.ctl with timesSaved := s.timesSaved + 1 } = false := by
  obtain ⟨fin, l⟩ := mhdLoop_ends (exampleMhdConf_ok false .absorbing) (by simp [exampleMhdConf])
    ⟨m, 1 / 2, 1 / 100, 7, 2, []⟩
  refine ⟨_, fin, l, ?_, by simp [exampleMhdConf], rfl, ?_, ?_⟩
  · simp only [Sim.finished, exampleMhdConf, HydroState.ctl]
    norm_num [ROps.leb, lit]
  · simp only [Sim.shouldSave, exampleMhdConf, HydroState.ctl]
    norm_num [ROps.ltb, lit, ROps.fabs]
  · simp only [Sim.shouldSave, exampleMhdConf, HydroState.ctl]
    norm_num [ROps.ltb, lit, ROps.fabs, abs_of_neg]

end Verif
