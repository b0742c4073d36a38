import Verif.Lemmas.MhdMpi
import Verif.Props.C119_C120_HydroMpi

/-!
# C137, C138: the MHD program on several MPI processes

Trusted model: `Verif.Model.MhdMpi`.  What the files should look like is in `Verif.Spec.MhdMpi`.
-/

namespace Verif

open Spec ROps

variable {C : MhdConf ℝ} {T : Ranks} {B : Sides} {D : Domain ℝ} {Q : MhdProblem ℝ}

/-- **C137**: the exchange at the start of a step and the conversion to primitive variables touch only allocated memory,
cannot hang and end, whatever the interleaving and the buffering of the messages, with every rank holding – ghost cells
included – its part of what a single process holds at that point. -/
theorem C137_exchange (hT : RanksOk C.d3 T) (hC : C.Ok B) {it : ℕ} {M : Nat → Addr → ℝ} {G G1 : Addr → ℝ}
    (h : MhdParts C.d3 T C.P (bufIn it) M G)
    (r : Runs (mhdPrepare C.d3 C.S (Spec.whole T C.P) (bufIn it) (bufOut it)) G G1) :
    JobOK T.num (mhdPrepareMpi C.d3 T C.S C.P (bufIn it) (bufOut it))
      (fun a => mhdInitDom C.d3 C.P C.impl a ∨ haloAlloc C.d3 C.P (bufIn it) a) M
      (fun R => MhdPartsGhost C.d3 T C.P (bufIn it) R G1) :=
  (prepare_job hT hC h r).imp fun _ h => h.1

/-- **C137**: so does the set-up, from arrays of zeros. -/
theorem C137_setup (hT : RanksOk C.d3 T) (hC : C.Ok B) (hQ : MhdDeterministic Q) {G : Addr → ℝ}
    (r : Runs (mhdSetup C.d3 C.S (Spec.whole T C.P) (alone D) Q) (fun _ => 0) G) :
    JobOK T.num (mhdSetupMpi C.d3 T C.S C.P D Q)
      (fun a => mhdInitDom C.d3 C.P C.impl a ∨ haloAlloc C.d3 C.P aU a) (fun _ _ => 0)
      (fun R => MhdPartsGhost C.d3 T C.P aU R G) := by
  have hz : (fun _ => ROps.lit 0 : Addr → ℝ) = fun _ => 0 := by funext _; simp [ROps.lit]
  rw [← hz] at r
  have := (mhd_mpi_setup hT hC hQ r).1.imp (Q' := fun R => MhdPartsGhost C.d3 T C.P aU R G) fun _ h => h.1
  rwa [hz] at this

/-- **C137**: a time step on `mx × my × mz` ranks, which hold their parts of the state of the whole domain, can be done and
cannot hang.  Whatever the interleaving and the buffering of the messages, the order of the reductions and the values of
uninitialised variables, all ranks take the time step of the single process and end with their parts of the state that
the single process computes. -/
theorem C137_step (hT : RanksOk C.d3 T) (hC : C.Ok B) (hG : C.Gas) {s : Nat → HydroState ℝ} {z : HydroState ℝ}
    (h : MhdParts C.d3 T C.P (bufIn z.iteration) (fun r => (s r).m) z.m)
    (ht : ∀ r, r < T.num → (s r).t = z.t) (hi : ∀ r, r < T.num → (s r).iteration = z.iteration) :
    (∃ s', C.MpiNext T s s') ∧ ¬ JobHangs T.num (C.mpiPrepare T s) (fun r => (s r).m) ∧
    ∀ s' z', C.MpiNext T s s' → (C.whole T).Next z z' →
      (∀ r, r < T.num → (s' r).dt = z'.dt ∧ (s' r).t = z'.t ∧ (s' r).iteration = z.iteration + 1) ∧
      MhdParts C.d3 T C.P (bufIn (z.iteration + 1)) (fun r => (s' r).m) z'.m := by
  -- files and file numbers play no part
  let s0 : Nat → HydroState ℝ := fun r => { s r with timesSaved := 0, files := [] }
  let z0 : HydroState ℝ := { z with timesSaved := 0, files := [] }
  have b : MhdBeside C T s0 z0 := ⟨ht, hi, fun _ _ => rfl, h, fun _ _ => .nil⟩
  obtain ⟨-, G1, y1, -⟩ := mhd_prepare (S := C.S) (mhdBuf_of (whole_mhd_ok hT hC).box C.impl z.iteration)
    (whole_mhd_ok hT hC).box z.m
  refine ⟨?_, (mhd_job hT hC b y1.run).no_hang, ?_⟩
  · obtain ⟨_, M1, dt, J, M', h1, h2, h3, -⟩ := mhdMpiNext_exists hT hC b
    exact ⟨_, M1, dt, J, M', h1, h2, h3, fun _ _ => rfl⟩
  · intro s' z' n q
    obtain ⟨M1, dt, J, M', h1, h2, h3, e⟩ := n
    obtain ⟨dt0, m', st, rfl⟩ := q
    obtain ⟨e1, e2, e3⟩ := saveDue_eq (C.whole T) z
    obtain ⟨f1, f2, f3⟩ := saveDue_eq (C.whole T) z0
    rw [e1, e2, e3] at st
    obtain ⟨b', d⟩ := mhd_mpi_next hT hC hG b
      (s' := fun r => { C.saveDue (s0 r) with m := M' r, dt := dt r, iteration := (s r).iteration + 1, t := (s r).t + dt r })
      ⟨M1, dt, J, M', h1, h2, h3, fun _ _ => rfl⟩
      (z' := { (C.whole T).saveDue z0 with m := m', dt := dt0, iteration := z.iteration + 1, t := z.t + dt0 })
      ⟨dt0, m', by rw [f1, f2, f3]; exact st, rfl⟩
    refine ⟨fun r hr => ?_, fun p hp => ?_⟩
    · rw [e r hr]
      exact ⟨d r hr, b'.t r hr, b'.it r hr⟩
    · have := b'.parts p hp
      simp only [e _ (owner_lt hT hp)]
      exact this

/-- **C137**: it makes no difference if some ranks begin the exchange of the next step while others are still in the loops of
this one: taken as one job, both together touch only allocated memory, cannot hang and end with the ranks holding their
parts of what the single process holds after the two. -/
theorem C137_overlap (hT : RanksOk C.d3 T) (hC : C.Ok B) {it : ℕ} {s M : Nat → Addr → ℝ} {G0 G G' G1 : Addr → ℝ}
    (h : MhdParts C.d3 T C.P (bufIn it) s G0)
    (g : Runs (mhdPrepare C.d3 C.S (Spec.whole T C.P) (bufIn it) (bufOut it)) G0 G)
    (hM : JobRuns T.num (mhdPrepareMpi C.d3 T C.S C.P (bufIn it) (bufOut it)) s M) (J : Nat → MJunk ℝ) {J0 : MJunk ℝ} {dt : ℝ}
    (r : Runs ((C.whole T).advance J0 dt it) G G')
    (r' : Runs (mhdPrepare C.d3 C.S (Spec.whole T C.P) (bufIn (it + 1)) (bufOut (it + 1))) G' G1) :
    JobOK T.num (fun r => [MpiOp.kernels (C.advance (J r) dt it)] ++
        mhdPrepareMpi C.d3 T C.S C.P (bufIn (it + 1)) (bufOut (it + 1)) r)
      (fun a => mhdInitDom C.d3 C.P C.impl a ∨ haloAlloc C.d3 C.P (bufIn (it + 1)) a) M
      (fun R => MhdPartsGhost C.d3 T C.P (bufIn (it + 1)) R G1) := by
  obtain ⟨w, k⟩ := (prepare_job hT hC h g).of_run hM
  have hW := (whole_mhd_ok hT hC).box
  rw [advance_eq] at r
  exact (overlap_job hT hC w k (ready_of (mhdBuf_of hW C.impl it) hW g).1 J r r').imp fun _ h => h.1

/-- **C138**: a run on `mx × my × mz` ranks comes to its end, whatever the interleaving of the ranks and the buffering of
their messages: it cannot hang.  It does as many steps as the run of a single process on the whole domain and stops at the
same time; every rank writes the same number of files as the single process does, with the same numbers and times, and
what it writes is its part of what the single process writes. -/
theorem C138_equals_serial (hT : RanksOk C.d3 T) (hC : C.Ok B) (hG : C.Gas) (hlog : C.ctl.nlog ≠ 0)
    (hQ : MhdDeterministic Q) :
    (∃ s, C.MpiMain T D Q (some s)) ∧
    ∀ x y, C.MpiMain T D Q x → (C.whole T).Main (alone D) Q y → ∃ s z, x = some s ∧ y = some z ∧
      (∀ r, r < T.num → (s r).t = z.t ∧ (s r).iteration = z.iteration) ∧
      ∀ p, Block T.mx T.my T.mz p → List.Forall₂ (MhdPartFile C.d3 C.P p) (s (owner T.my T.mz p)).files z.files := by
  -- whatever the parallel run, beside every serial run
  have key : ∀ y, (C.whole T).Main (alone D) Q y → (∃ s, C.MpiMain T D Q (some s)) ∧
      ∀ x, C.MpiMain T D Q x → ∃ s z, x = some s ∧ y = some z ∧ MhdBeside C T s z := by
    rintro y ⟨z0, y', ⟨m1, dt1, hr, hd, rfl⟩, hl, rfl⟩
    obtain ⟨z', rfl⟩ : ∃ z', y' = some z' := by
      obtain ⟨s, _, e, -⟩ := (C122_same_files (D := alone D) (Q := Q) (whole_mhd_ok hT hC) hlog).2 _ _
        (⟨_, y', ⟨m1, dt1, hr, hd, rfl⟩, hl, rfl⟩ : (C.whole T).Main (alone D) Q (y'.map (C.whole T).saveIf))
        ⟨_, y', ⟨m1, dt1, hr, hd, rfl⟩, hl, rfl⟩
      obtain ⟨z', h, -⟩ := Option.map_eq_some_iff.1 e
      exact ⟨z', h⟩
    obtain ⟨Jb, -⟩ := mhd_mpi_setup hT hC hQ (D := D) hr
    have start : ∀ {M1} {dt : Nat → ℝ}, JobRuns T.num (mhdSetupMpi C.d3 T C.S C.P D Q) (fun _ _ => lit 0) M1 →
        MhdBeside C T (fun r => C.saveIf ⟨M1 r, C.ctl.tCurrent, dt r, 0, 0, []⟩)
          ((C.whole T).saveIf ⟨m1, C.ctl.tCurrent, dt1, 0, 0, []⟩) := by
      intro M1 dt h1
      refine MhdBeside.saveIf ?_ hT hC
      exact ⟨fun _ _ => rfl, fun _ _ => rfl, fun _ _ => rfl,
        fun p hp c hc _ v hv => (Jb.of_run h1).1 p hp c hc v hv, fun _ _ => .nil⟩
    refine ⟨?_, fun x hx => ?_⟩
    · obtain ⟨M1, h1⟩ := Jb.exists_run
      obtain ⟨dt, h2⟩ := mpiDt_exists (C := C) hT (fun _ => C.ctl.tCurrent) M1
      obtain ⟨s', h3⟩ := (mhd_mpi_loop hT hC hG hlog (start (dt := dt) h1) hl).1
      exact ⟨_, .run h1 h2 h3⟩
    · cases hx with
      | hang h => exact absurd h Jb.no_hang
      | run h1 h2 h3 =>
        obtain ⟨s', rfl, b⟩ := (mhd_mpi_loop hT hC hG hlog (start h1) hl).2 _ h3
        exact ⟨_, _, rfl, rfl, b.saveIf hT hC⟩
  obtain ⟨⟨y, hy⟩, -⟩ := C122_same_files (D := alone D) (Q := Q) (whole_mhd_ok hT hC) hlog
  refine ⟨(key _ hy).1, fun x y hx hy => ?_⟩
  obtain ⟨s, z, ex, ey, b⟩ := (key _ hy).2 x hx
  exact ⟨s, z, ex, ey, fun r hr => ⟨b.t r hr, b.it r hr⟩, b.files⟩

/-- **C138**: what is written does not depend on how many processes the domain is cut among, or how: two runs with the same
domain write files with the same numbers and times, and wherever a rank of one and a rank of the other own the same cell
of the domain, their files agree. -/
theorem C138_any_ranks {C' : MhdConf ℝ} {T' : Ranks} (hT : RanksOk C.d3 T) (hT' : RanksOk C'.d3 T') (hC : C.Ok B)
    (hC' : C'.Ok B) (hw : C.whole T = C'.whole T') (hG : C.Gas) (hlog : C.ctl.nlog ≠ 0)
    (hQ : MhdDeterministic Q) {s s' : Nat → HydroState ℝ}
    (h : C.MpiMain T D Q (some s)) (h' : C'.MpiMain T' D Q (some s')) :
    ∀ p p', Block T.mx T.my T.mz p → Block T'.mx T'.my T'.mz p' →
      List.Forall₂ (fun x x' => x.number = x'.number ∧ x.time = x'.time ∧
        ∀ i j k i' j' k' v, i < C.P.nx.toNat → j < C.P.ny.toNat → k < depth C.d3 C.P →
          i' < C'.P.nx.toNat → j' < C'.P.ny.toNat → k' < depth C'.d3 C'.P → v < 8 →
          inDomain C.P p (cell C.d3 C.P i j k) = inDomain C'.P p' (cell C'.d3 C'.P i' j' k') →
          x.data (cell C.d3 C.P i j k) v = x'.data (cell C'.d3 C'.P i' j' k') v)
        (s (owner T.my T.mz p)).files (s' (owner T'.my T'.mz p')).files := by
  have e1 : C.S = C'.S := show (C.whole T).S = (C'.whole T').S by rw [hw]
  have e2 : C.ctl = C'.ctl := show (C.whole T).ctl = (C'.whole T').ctl by rw [hw]
  have e4 : C.d3 = C'.d3 := show (C.whole T).d3 = (C'.whole T').d3 by rw [hw]
  have hG' : C'.Gas := ⟨e1 ▸ hG.params, by rw [← e1, ← e4]; exact hG.spacings, e1 ▸ hG.cfl⟩
  obtain ⟨⟨y, hy⟩, -⟩ := C122_same_files (D := alone D) (Q := Q) (whole_mhd_ok hT hC) hlog
  obtain ⟨_, z, ⟨⟩, ez, -, f⟩ := (C138_equals_serial hT hC hG hlog hQ).2 _ _ h hy
  obtain ⟨_, z', ⟨⟩, ez', -, f'⟩ := (C138_equals_serial hT' hC' hG' (e2 ▸ hlog) hQ).2 _ _ h' (hw ▸ hy)
  rw [ez] at ez'
  cases ez'
  intro p p' hp hp'
  have a := f p hp
  have a' := f' p' hp'
  revert a a'
  generalize (s (owner T.my T.mz p)).files = l
  generalize (s' (owner T'.my T'.mz p')).files = l'
  generalize z.files = w
  intro a a'
  induction a generalizing l' with
  | nil => cases a'; exact .nil
  | cons hx _ ih =>
    cases a' with
    | cons hx' a' =>
      refine .cons ⟨hx.1.trans hx'.1.symm, hx.2.1.trans hx'.2.1.symm, ?_⟩ (ih _ a')
      intro i j k i' j' k' v h1 h2 h3 h4 h5 h6 hv e
      rw [hx.2.2 i j k v h1 h2 h3 hv, hx'.2.2 i' j' k' v h4 h5 h6 hv, e]

/-! ### The hypotheses can be met -/

theorem exampleRanks_ok : RanksOk true exampleRanks :=
  ⟨by decide, by decide, by decide, fun h => by cases h⟩

/-- An Orszag-Tang run on twelve ranks and on one process. -/
example : ∃ s, (exampleMhdConf true .periodic).MpiMain exampleRanks ⟨0, 1, 0, 1, 0, 1, 0, 0, 0⟩ (.orszagTang 1) (some s) ∧
    ∃ z, ((exampleMhdConf true .periodic).whole exampleRanks).Main ⟨0, 1, 0, 1, 0, 1, 0, 0, 0⟩ (.orszagTang 1) (some z) ∧
    ∀ p, Block 2 3 2 p → List.Forall₂ (MhdPartFile true (mhdBox .periodic) p) (s (owner 3 2 p)).files z.files := by
  have hC := exampleMhdConf_ok true .periodic
  have hT : RanksOk (exampleMhdConf true .periodic).d3 exampleRanks := exampleRanks_ok
  obtain ⟨⟨s, hs⟩, h⟩ := C138_equals_serial (D := ⟨0, 1, 0, 1, 0, 1, 0, 0, 0⟩) (Q := .orszagTang 1) hT hC
    (exampleMhdConf_gas true .periodic) (by simp [exampleMhdConf]) ⟨fun h => h, fun h => h⟩
  obtain ⟨⟨z, hz⟩, -⟩ := C122_same_files (D := alone ⟨0, 1, 0, 1, 0, 1, 0, 0, 0⟩) (Q := .orszagTang 1) (whole_mhd_ok hT hC)
    (by simp [exampleMhdConf, MhdConf.whole])
  obtain ⟨_, _, ⟨⟩, ⟨⟩, -, f⟩ := h _ _ hs hz
  exact ⟨s, hs, z, hz, f⟩

/-- Twelve ranks and one. -/
example : ∃ s s', (exampleMhdConf true .periodic).MpiMain exampleRanks ⟨0, 1, 0, 1, 0, 1, 0, 0, 0⟩ (.orszagTang 1) (some s) ∧
    ((exampleMhdConf true .periodic).whole exampleRanks).MpiMain ⟨1, 1, 1, .left⟩ ⟨0, 1, 0, 1, 0, 1, 0, 0, 0⟩
      (.orszagTang 1) (some s') ∧
    (s (owner 3 2 ⟨1, 2, 0⟩)).files.map (·.time) = (s' (owner 1 1 ⟨0, 0, 0⟩)).files.map (·.time) := by
  have hC := exampleMhdConf_ok true .periodic
  have hT : RanksOk (exampleMhdConf true .periodic).d3 exampleRanks := exampleRanks_ok
  have hT' : RanksOk ((exampleMhdConf true .periodic).whole exampleRanks).d3 ⟨1, 1, 1, .left⟩ :=
    ⟨by decide, by decide, by decide, fun _ => rfl⟩
  have hC' := whole_mhd_ok hT hC
  have hw : (exampleMhdConf true .periodic).whole exampleRanks =
      ((exampleMhdConf true .periodic).whole exampleRanks).whole ⟨1, 1, 1, .left⟩ := by
    simp [MhdConf.whole, globalGrid]
  have hG := exampleMhdConf_gas true .periodic
  have hlog : (exampleMhdConf true .periodic).ctl.nlog ≠ 0 := by simp [exampleMhdConf]
  have hQ : MhdDeterministic (.orszagTang 1) := ⟨fun h => h, fun h => h⟩
  obtain ⟨⟨s, hs⟩, -⟩ := C138_equals_serial (D := ⟨0, 1, 0, 1, 0, 1, 0, 0, 0⟩) hT hC hG hlog hQ
  obtain ⟨⟨s', hs'⟩, -⟩ := C138_equals_serial (D := ⟨0, 1, 0, 1, 0, 1, 0, 0, 0⟩) hT' hC'
    ⟨hG.params, hG.spacings, hG.cfl⟩ hlog hQ
  have := C138_any_ranks hT hT' hC hC' hw hG hlog hQ hs hs' ⟨1, 2, 0⟩ ⟨0, 0, 0⟩
    ⟨by decide, by decide, by decide, by decide, by decide, by decide⟩
    ⟨by decide, by decide, by decide, by decide, by decide, by decide⟩
  refine ⟨s, s', hs, hs', ?_⟩
  refine List.forall₂_eq_eq_eq ▸ List.forall₂_map_left_iff.2 (List.forall₂_map_right_iff.2 (this.imp fun a b h => h.2.1))

/-- Premises of the theorems on a step: a set-up and the steps after it. -/
example : ∃ (s : Nat → HydroState ℝ) (z : HydroState ℝ),
    MhdParts true exampleRanks (mhdBox .absorbing) (bufIn z.iteration) (fun r => (s r).m) z.m ∧
    (∀ r, r < exampleRanks.num → (s r).t = z.t) ∧ (∀ r, r < exampleRanks.num → (s r).iteration = z.iteration) ∧
    (∃ (c : Cell) (v : Nat), z.m (c.at aU v) ≠ 0) ∧ ∃ s', (exampleMhdConf true .absorbing).MpiNext exampleRanks s s' := by
  have hC := exampleMhdConf_ok true .absorbing
  have hT : RanksOk (exampleMhdConf true .absorbing).d3 exampleRanks := exampleRanks_ok
  let f : Addr → ℝ := fun a => 1 + a.cell.i
  have h : MhdParts true exampleRanks (mhdBox .absorbing) (bufIn 0)
      (fun r a => f (inDomain (mhdBox .absorbing) (cartCoords 3 2 r) a.cell |>.at a.arr a.v)) f := by
    intro p hp c _ _ v _
    have := owner_coords (T := exampleRanks) hp
    change f (inDomain _ (cartCoords exampleRanks.my exampleRanks.mz _) c |>.at _ v) = _
    rw [this]
    rfl
  refine ⟨fun r => ⟨fun a => f (inDomain (mhdBox .absorbing) (cartCoords 3 2 r) a.cell |>.at a.arr a.v), 0, 0, 0, 0, []⟩,
    ⟨f, 0, 0, 0, 0, []⟩, h, fun _ _ => rfl, fun _ _ => rfl, ⟨⟨0, 0, 0⟩, 0, by simp [f, Cell.at, Addr.cell]⟩, ?_⟩
  exact (C137_step hT hC (exampleMhdConf_gas true .absorbing)
    (s := fun r => ⟨fun a => f (inDomain (mhdBox .absorbing) (cartCoords 3 2 r) a.cell |>.at a.arr a.v), 0, 0, 0, 0, []⟩)
    (z := ⟨f, 0, 0, 0, 0, []⟩) h (fun _ _ => rfl) (fun _ _ => rfl)).1

end Verif
