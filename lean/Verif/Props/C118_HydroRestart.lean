import Verif.Props.C116_Restart
import Verif.Props.C117_HydroProgram

/-!
# C118: restarting the hydro program

Trusted model: `Verif.Model.HydroProgram`.
-/

namespace Verif

open Spec ROps

variable {C : HydroConf ℝ} {B : Sides} {D : Domain ℝ} {Q : HydroProblem ℝ}

private theorem ghostsDerived (g : Cell → HState ℝ) : GhostsDerived (hydroSim C B g) Eq :=
  ⟨⟨fun _ => rfl, fun h => h.symm, fun h h' => h.trans h'⟩, fun _ _ h => h, fun _ => rfl, fun a b h => by rw [h]⟩

private theorem current_views {g : Cell → HState ℝ} {s : HydroState ℝ} {σ : SimState Content ℝ}
    (h : Views C g s σ) : current σ = s.content C := by
  rw [← h.newest, current, SimState.newest, Int.tmod_eq_emod_of_nonneg (by rw [h.it]; omega)]

/-- **C118**, with whatever gravity field, if it were restored: see `C118_continue` and `C118_gravity_lost`. -/
private theorem continue_with (hC : C.Ok B) (hlog : C.ctl.nlog ≠ 0) (hG : HasGravity Q → C.grav = true)
    {s0 s fin : HydroState ℝ}
    (h0 : C.Start (hydroSetup C.d3 C.S C.P D Q) (fun _ => ROps.lit 0) C.ctl.tCurrent 0 s0)
    (hv : C.Reaches s0 s) (hl : C.Loop s (some fin)) (hf : C.ctl.finished s.ctl = false)
    (ho : C.ctl.nOutput ≠ 0) (hs : C.ctl.shouldSave s.ctl = true)
    (hq : C.ctl.shouldSave { s.ctl with timesSaved := s.timesSaved + 1 } = false)
    {m : Addr → ℝ} (hread : ∀ i j k v, i < C.P.nx.toNat → j < C.P.ny.toNat → k < depth C.d3 C.P →
      v < hydroVars C.d3 → m ((cell C.d3 C.P i j k).at aU v) =
        s.m ((cell C.d3 C.P i j k).at (if s.iteration % 2 = 0 then aU else aU2) v))
    (hgr : gfield C.d3 m = gfield C.d3 s.m) :
    ∃ l, SameFiles C.d3 C.P (C.saveIf fin).files (s.files ++ s.file :: l) ∧
      (∃ r, (C.less s.iteration).Restarted m s.timesSaved s.t (some r)) ∧
      ∀ r, (C.less s.iteration).Restarted m s.timesSaved s.t r → ∃ s', r = some s' ∧
        SameFiles C.d3 C.P s'.files (s.file :: l) ∧ s'.t = fin.t ∧ s'.iteration + s.iteration = fin.iteration := by
  obtain ⟨m0, e0, u0, -⟩ : ∃ m0, Runs (hydroSetup C.d3 C.S C.P D Q) (fun _ => ROps.lit 0) m0 ∧
      (∀ m', Runs (hydroSetup C.d3 C.S C.P D Q) (fun _ => ROps.lit 0) m' → m' = m0) ∧ True := by
    obtain ⟨m1, y, -⟩ := hydro_setup (S := C.S) (D := D) hC.box hC.impl hG (fun _ => ROps.lit 0)
    exact ⟨m1, y.run, fun m' r => y.unique r, trivial⟩
  set g := gfield C.d3 m0 with hg
  set u := interior C.d3 C.P fun c v => m0 (c.at aU v) with hu
  have v0 : Views C g s0 ((hydroSim C B g).start u) := start_views u0 h0
  obtain ⟨σ, vis, vs⟩ := reaches_views hC hlog v0 hv
  obtain ⟨σf, lf⟩ := loop_ends (S := hydroSim C B g) hlog (s := σ) (by rw [vs.it]; omega)
  obtain ⟨-, hall⟩ := views_loop hC hlog vs lf
  obtain ⟨fin', efin, vfin⟩ := hall _ hl
  cases efin
  have vfin' := vfin.saveIf (B := B)
  have hmain : (hydroSim C B g).Main u (some ((hydroSim C B g).finish σf)) :=
    ⟨some σf, visits_loop vis lf, rfl⟩
  have hf' : (hydroSim C B g).finished σ = false := vs.finished.trans hf
  have hs' : (hydroSim C B g).shouldSave σ = true := vs.shouldSave.trans hs
  have hq' : (hydroSim C B g).shouldSave { σ with timesSaved := σ.timesSaved + 1 } = false := by
    rw [← hq]
    simp only [Sim.shouldSave, hydroSim, HydroState.ctl, vs.t, vs.saved]
    rfl
  obtain ⟨rf, l, r1, r2, r3, r4, r5, -⟩ := C116_continue (zero := u) (ghostsDerived g) hlog vis hmain hf' ho hs' hq'
    (u := s.content C) (current_views vs).symm
  have hfile : (⟨σ.timesSaved, σ.t, s.content C⟩ : Snapshot Content ℝ) = fileOf C s.file := by
    rw [vs.saved, vs.t]; rfl
  rw [current_views vs, hfile, vs.out, vfin'.out] at r2
  obtain ⟨l1, l2, q1, q2, q3⟩ := List.map_eq_append_iff.1 r2
  obtain ⟨x, l3, rfl, q4, rfl⟩ := List.map_eq_cons_iff.1 q3
  have hOk : (C.less s.iteration).Ok B := ⟨hC.box, hC.valid, hC.gas, hC.spacings, hC.impl, hC.bot⟩
  obtain ⟨m1, e1, u1, i1, f1⟩ := restart_once hC m
  have hint : (interior C.d3 C.P fun c v => m1 (c.at aU v)) = s.content C := by
    rw [i1]
    exact cut_congr fun i j k v ⟨a1, a2, a3, a4⟩ => hread i j k v a1 a2 a3 a4
  have hgm : gfield C.d3 m1 = g := by
    rw [← vs.grav, ← hgr]
    exact gfield_of_eq fun a ha => f1 a (by rw [ha]; decide) (by rw [ha]; decide)
  obtain ⟨τ, lτ, ⟨b, c, b1, b2⟩, hb⟩ := program_views (C := C.less s.iteration) (B := B) hOk hlog (t := s.t)
    (n := s.timesSaved) e1 u1
  have hτ : (hydroSim (C.less s.iteration) B (gfield C.d3 m1)).finish τ = rf := by
    have := (r1 (some ((hydroSim (C.less s.iteration) B (gfield C.d3 m1)).finish τ))).1 ⟨some τ, by
      have e : simStart (C.less s.iteration) B (gfield C.d3 m1)
          (interior C.d3 C.P fun c v => m1 (c.at aU v)) s.t s.timesSaved =
          (stepsLeft (hydroSim C B g) σ.iteration).restart u (some ⟨s.content C, σ.timesSaved, σ.t⟩) false := by
        rw [hint, hgm, vs.saved, vs.t, vs.it]; rfl
      have e2 : hydroSim (C.less s.iteration) B (gfield C.d3 m1) =
          stepsLeft (hydroSim C B g) σ.iteration := by
        rw [hgm, vs.it]; rfl
      have lτ' := lτ
      change (hydroSim (C.less s.iteration) B (gfield C.d3 m1)).Loop (simStart (C.less s.iteration) B
        (gfield C.d3 m1) (interior C.d3 C.P fun c v => m1 (c.at aU v)) s.t s.timesSaved) (some τ) at lτ'
      rw [e, e2] at lτ'
      exact lτ', rfl⟩
    exact Option.some.inj this
  refine ⟨l3, ?_, ⟨_, b, some c, b1, b2, rfl⟩, ?_⟩
  · refine sameFiles_of ?_
    rw [q1, List.map_append, List.map_append, q2, List.map_cons, List.map_cons, q4]
  · rintro r ⟨s1, r', d1, d2, rfl⟩
    obtain ⟨s', es, vs'⟩ := hb s1 r' d1 d2
    have vs'' : Views (C.less s.iteration) (gfield C.d3 m1) s' rf := hτ ▸ vs'
    refine ⟨s', es, ?_, ?_, ?_⟩
    · refine sameFiles_of ?_
      have := vs''.out.symm.trans r3
      rw [List.map_cons, ← hfile]
      exact this
    · rw [← vs''.t, r4, vfin'.t]
      unfold HydroConf.saveIf; split_ifs <;> rfl
    · have h1 := vs''.it
      have h2 := vs.it
      have h3 := vfin'.it
      have h4 : (C.saveIf fin).iteration = fin.iteration := by
        unfold HydroConf.saveIf; split_ifs <;> rfl
      rw [h4] at h3
      omega

/-- A run never writes the gravity field. -/
private theorem reaches_gravity (hC : C.Ok B) (hlog : C.ctl.nlog ≠ 0) {s0 s : HydroState ℝ} (hv : C.Reaches s0 s) :
    gfield C.d3 s.m = gfield C.d3 s0.m := by
  induction hv with
  | refl => rfl
  | tail _ _ hx ih =>
    obtain ⟨s2, ⟨d, -, rfl⟩, J, m', hr, rfl⟩ := hx
    rw [← ih, (step_content hC hr).2]
    split_ifs <;> rfl

/-- **C118**: a run of a problem without gravity reaches state `s`, writes it and goes on to the end.  Its first files are those written up
to `s`, then the one of `s`, then `l`.  Restarted from the file of `s` – the values read into `U`, everything else as allocated –
with the steps made taken off `nstepmax`, the program runs to its end under every schedule, and writes the file of `s` and
`l` again; it ends at the same time after the same number of steps altogether.  Premise: no second output is due. -/
theorem C118_continue (hC : C.Ok B) (hlog : C.ctl.nlog ≠ 0) (hG : ¬ HasGravity Q)
    {s0 s fin : HydroState ℝ}
    (h0 : C.Start (hydroSetup C.d3 C.S C.P D Q) (fun _ => ROps.lit 0) C.ctl.tCurrent 0 s0)
    (hv : C.Reaches s0 s) (hl : C.Loop s (some fin)) (hf : C.ctl.finished s.ctl = false)
    (ho : C.ctl.nOutput ≠ 0) (hs : C.ctl.shouldSave s.ctl = true)
    (hq : C.ctl.shouldSave { s.ctl with timesSaved := s.timesSaved + 1 } = false)
    {m : Addr → ℝ} (hread : ∀ i j k v, i < C.P.nx.toNat → j < C.P.ny.toNat → k < depth C.d3 C.P →
      v < hydroVars C.d3 → m ((cell C.d3 C.P i j k).at aU v) = s.file.data (cell C.d3 C.P i j k) v)
    (hrest : ∀ a, a.arr ≠ aU → m a = 0) :
    ∃ l, SameFiles C.d3 C.P (C.saveIf fin).files (s.files ++ s.file :: l) ∧
      (∃ r, (C.less s.iteration).Restarted m s.file.number s.file.time (some r)) ∧
      ∀ r, (C.less s.iteration).Restarted m s.file.number s.file.time r → ∃ s', r = some s' ∧
        SameFiles C.d3 C.P s'.files (s.file :: l) ∧ s'.t = fin.t ∧ s'.iteration + s.iteration = fin.iteration := by
  refine continue_with hC hlog (fun h => (hG h).elim) h0 hv hl hf ho hs hq hread ?_
  rw [reaches_gravity hC hlog hv]
  obtain ⟨m1, s2, hr, ⟨d, -, rfl⟩, rfl⟩ := h0
  have e : ∀ y : HydroState ℝ, (C.saveIf y).m = y.m := fun y => by
    unfold HydroConf.saveIf; split_ifs <;> rfl
  rw [e]
  obtain ⟨m2, y, -⟩ := hydro_setup (S := C.S) (D := D) (Q := Q) (grav := false) hC.box hC.impl (fun h => (hG h).elim)
    (fun _ => ROps.lit 0)
  obtain rfl := y.unique hr
  refine gfield_of_eq fun a ha => ?_
  rw [hrest a (by rw [ha]; decide)]
  change 0 = m1 a
  rw [y.frame]
  · simp [ROps.lit]
  · rintro ⟨-, h | h⟩
    · have f1 := aF_range C.impl .x
      have f2 := aF_range C.impl .y
      have f3 := aF_range C.impl .z
      have f4 := aS_range .x
      have f5 := aS_range .y
      have f6 := aS_range .z
      rw [ha] at h
      simp only [hydroArray, aG, aU, aU2, aQ] at h
      omega
    · exact absurd h.1 (by simp)

private theorem total_interior (d3 : Bool) (P : Grid) (f : Cell → ℕ → ℝ) {v : ℕ} (hv : v < hydroVars d3) :
    interiorSum d3 P (fun c => f c v) = ∑ i ∈ Finset.range P.nx.toNat, ∑ j ∈ Finset.range P.ny.toNat,
      ∑ k ∈ Finset.range (depth d3 P), interior d3 P f i j k v := by
  unfold interiorSum
  refine Finset.sum_congr rfl fun i hi => Finset.sum_congr rfl fun j hj => Finset.sum_congr rfl fun k hk => ?_
  exact (cut_inside (f := fun i j k v => f (cell d3 P i j k) v)
    ⟨Finset.mem_range.1 hi, Finset.mem_range.1 hj, Finset.mem_range.1 hk, hv⟩).symm

/-- **C118**, the violated part: nothing restores the gravity field.  A restarted run, gravity enabled or not, runs without:
with periodic boundaries all its files have the same total momentum (a step with field `g` adds
`dt·g·ρ`, `C33_step`). -/
theorem C118_gravity_lost (hC : C.Ok (Sides.all .periodic)) {m : Addr → ℝ} (hrest : ∀ a, a.arr ≠ aU → m a = 0)
    {n : Int} {t : ℝ} {s : HydroState ℝ} (hm : C.Restarted m n t (some s))
    {x0 : Snapshot (Cell → ℕ → ℝ) ℝ} (hx0 : s.files.head? = some x0) :
    ∀ x ∈ s.files, ∀ v < hydroVars C.d3, fileTotal C.d3 C.P x v = fileTotal C.d3 C.P x0 v := by
  obtain ⟨s0, r, hs, hl, e⟩ := hm
  intro x hx v hv
  refine run_files (I := fun d => interiorSum C.d3 C.P (fun c => d c v) = fileTotal C.d3 C.P x0 v)
    (G := fun m => ∀ c, (gfield C.d3 m c).u = 0 ∧ (gfield C.d3 m c).v = 0 ∧ (gfield C.d3 m c).w = 0)
    (fun J dt it m m' hr hg hi => ?_) hs ?_ hl e.symm hx0 rfl x hx
  · obtain ⟨c1, c2⟩ := step_content hC hr
    refine ⟨by rw [c2]; exact hg, ?_⟩
    rw [← hi]
    set C' : HydroConf ℝ := { C with grav := false } with hC'
    have hOk : C'.Ok (Sides.all .periodic) := ⟨hC.box, hC.valid, hC.gas, hC.spacings, hC.impl, hC.bot⟩
    obtain ⟨m1, m2, -, y, -⟩ := step_whole (S := C.S) (J := J) (grav := false) (dt := dt) (it := it)
      hC.box hC.impl m
    obtain ⟨d1, -⟩ := step_content (C := C') hOk (J := J) (dt := dt) (it := it) y.run
    have hup : ∀ u, hydroUpdate C' (Sides.all .periodic) (gfield C.d3 m) u dt =
        hydroUpdate C (Sides.all .periodic) (gfield C.d3 m) u dt := by
      intro u
      refine cut_congr fun i j k v _ => ?_
      have e : stepFlux C.d3 C.S junk0 C.impl C.grav dt (u.filled C.d3 C.P (Sides.all .periodic))
          (gfield C.d3 m) = stepFlux C.d3 C.S junk0 C.impl false dt (u.filled C.d3 C.P (Sides.all .periodic))
          (gfield C.d3 m) := by
        funext d c; exact stepFlux_still hg C.grav d c
      rw [stepCell_still hg C.grav, e]
    have hsame : (interior C.d3 C.P fun c v => m' (c.at (bufOut it) v)) =
        interior C.d3 C.P fun c v => m2 (c.at (bufOut it) v) := by
      rw [c1, ← hup]; exact d1.symm
    have hcons := C22_conservation hC.box hC.valid hC.impl y.run v hv
    have h1 := total_interior C.d3 C.P (fun c v => m' (c.at (bufOut it) v)) hv
    have h2 := total_interior C.d3 C.P (fun c v => m2 (c.at (bufOut it) v)) hv
    rw [hsame, ← h2] at h1
    rw [← bufOut_eq]
    exact h1.trans hcons
  · intro m' hr c
    obtain ⟨m1, -, h2, -, h4⟩ := restart_once hC m
    obtain rfl := h2 m' hr
    have : ∀ v, m' (c.at aG v) = 0 := fun v => by
      rw [h4 _ (show aG ≠ aU by decide) (show aG ≠ aU2 by decide), hrest _ (show aG ≠ aU by decide)]
    simp [gfield, this, ROps.lit]

/-! ### The premises are met -/

/-- A run that starts late, so that an output is due before the first step. -/
private noncomputable def lateConf (grav : Bool) : HydroConf ℝ :=
  { exampleConf false .periodic with
    grav := grav, ctl := ⟨1, 3 / 10, 100, 5, 10, false, id, fun _ => 0, fun u _ => u⟩ }

private theorem lateConf_ok (grav : Bool) : (lateConf grav).Ok (Sides.all .periodic) := by
  obtain ⟨h1, h2, h3, h4, h5, h6⟩ := exampleConf_ok false .periodic
  exact ⟨h1, h2, h3, h4, h5, h6⟩

/-- The memory a restarted run has read the file of `s` into. -/
private noncomputable def readBack (s : HydroState ℝ) : Addr → ℝ :=
  fun a => if a.arr = aU then s.file.data a.cell a.v else 0

example (D : Domain ℝ) (p : BlastParams ℝ) : ∃ s fin,
    (lateConf false).Reaches s s ∧ (lateConf false).Loop s (some fin) ∧
    ∃ l, SameFiles false (lateConf false).P ((lateConf false).saveIf fin).files (s.files ++ s.file :: l) ∧
      ∃ r, ((lateConf false).less s.iteration).Restarted (readBack s) s.file.number s.file.time (some r) ∧
        SameFiles false (lateConf false).P r.files (s.file :: l) := by
  have hC := lateConf_ok false
  obtain ⟨m1, y, -⟩ := hydro_setup (S := (lateConf false).S) (D := D) (Q := .blast p) hC.box hC.impl
    (grav := false) (fun h => h.elim) (fun _ => ROps.lit 0)
  obtain ⟨s, hs⟩ := start_exists (C := lateConf false) (t := 3 / 10) (n := 0) y.run
  have hst : s.t = 3 / 10 ∧ s.timesSaved = 1 ∧ s.iteration = 0 := by
    obtain ⟨m1, s2, -, ⟨d, -, rfl⟩, rfl⟩ := hs
    have e : ∀ y : HydroState ℝ, (lateConf false).saveIf y = y.save := fun y => if_pos (by simp [lateConf])
    rw [e]; exact ⟨rfl, rfl, rfl⟩
  obtain ⟨t1, t2, t3⟩ := hst
  obtain ⟨σ, l⟩ := loop_ends (S := hydroSim (lateConf false) (Sides.all .periodic) (gfield false m1))
    (by simp [hydroSim, lateConf]) (s := simStart (lateConf false) (Sides.all .periodic) (gfield false m1)
      (interior false (lateConf false).P fun c v => m1 (c.at aU v)) (3 / 10) 0) (by
      unfold simStart Sim.finish; split_ifs <;> exact le_refl _)
  obtain ⟨⟨fin, hl⟩, -⟩ := views_loop hC (by simp [lateConf]) (start_views (fun m r => y.unique r) hs) l
  obtain ⟨l, h1, ⟨r, h2⟩, h3⟩ := C118_continue (D := D) (Q := .blast p) hC (by simp [lateConf]) (fun h => h.elim)
    (s0 := s) (s := s) (fin := fin) hs .refl hl
    (by simp only [Sim.finished, HydroState.ctl, t1, t3]; norm_num [lateConf, ROps.leb, ROps.lit])
    (by simp [lateConf])
    (by simp only [Sim.shouldSave, HydroState.ctl, t1, t2]; norm_num [lateConf, ROps.ltb, ROps.lit])
    (by
      simp only [Sim.shouldSave, HydroState.ctl, t1, t2]
      have : |(3 / 10 : ℝ) - 1| = 7 / 10 := by rw [abs_of_neg] <;> norm_num
      norm_num [lateConf, ROps.ltb, ROps.lit, ROps.fabs, this])
    (m := readBack s) (fun i j k v _ _ _ _ => if_pos rfl) (fun a ha => if_neg ha)
  obtain ⟨s', e, h4, -⟩ := h3 _ h2
  cases e
  exact ⟨s, fin, .refl, hl, l, h1, r, h2, h4⟩

/-- Gravity enabled, momentum kept all the same. -/
example (m : Addr → ℝ) (hm : ∀ a, a.arr ≠ aU → m a = 0) : ∃ s x0,
    (lateConf true).Restarted m 3 (1 / 2) (some s) ∧ s.files.head? = some x0 ∧
    ∀ x ∈ s.files, fileTotal false (lateConf true).P x IV = fileTotal false (lateConf true).P x0 IV := by
  have hC := lateConf_ok true
  obtain ⟨m1, hr, hu, -⟩ := restart_once hC m
  obtain ⟨σ, -, ⟨s0, f, h1, h2⟩, -⟩ := program_views hC (by simp [lateConf]) (t := 1 / 2) (n := 3) hr hu
  obtain ⟨m2, -, hx⟩ := first_file h1 h2 (s := (lateConf true).saveIf f) rfl (by simp [lateConf])
  have hR : (lateConf true).Restarted m 3 (1 / 2) (some ((lateConf true).saveIf f)) := ⟨s0, some f, h1, h2, rfl⟩
  exact ⟨_, _, hR, hx, fun x h => C118_gravity_lost hC hm hR hx x h IV (by decide)⟩

end Verif
