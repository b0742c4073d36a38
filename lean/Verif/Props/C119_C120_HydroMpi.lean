import Verif.Lemmas.HydroMpi
import Verif.Props.C117_HydroProgram

/-!
# C119, C120: the hydro program on several MPI processes

Trusted model: `Verif.Model.HydroMpi`.  What the files should look like is in `Verif.Spec.HydroMpi`.
-/

namespace Verif

open Spec ROps

variable {C : HydroConf ℝ} {T : Ranks} {B : Sides} {D : Domain ℝ} {Q : HydroProblem ℝ}

/-- **C119**: a time step on `mx × my × mz` ranks, which hold their parts of the state of the whole domain, touches only
allocated memory, cannot hang and ends, whatever the interleaving and the buffering of the messages, with the ranks holding
their parts of the state that a single process computes. -/
theorem C119_step (hT : RanksOk C.d3 T) (hC : C.Ok B) {J : Nat → Junk ℝ} {J0 : Junk ℝ} {dt : ℝ} {it : ℕ}
    {M : Nat → Addr → ℝ} {G G' : Addr → ℝ} (h : Parts C T (bufIn it) M G)
    (r : Runs (godunov_unsplit C.d3 C.S (Spec.whole T C.P) J0 C.impl C.grav dt it) G G') :
    JobOK T.num (fun r => godunovMpi C.d3 T C.S C.P (J r) C.impl C.grav dt it r)
      (fun a => hydroDom C.d3 C.P C.impl C.grav a ∨ haloAlloc C.d3 C.P (bufIn it) a) M
      (fun R => Parts C T (bufOut it) R G') :=
  mpi_step hT hC h r

/-- **C119**: so is the set-up, from arrays of zeros. -/
theorem C119_setup (hT : RanksOk C.d3 T) (hC : C.Ok B) (hQ : Deterministic Q) (hG : HasGravity Q → C.grav = true)
    {G : Addr → ℝ} (r : Runs (hydroSetup C.d3 C.S (Spec.whole T C.P) (alone D) Q) (fun _ => 0) G) :
    JobOK T.num (hydroSetupMpi C.d3 T C.S C.P D Q)
      (fun a => hydroDom C.d3 C.P C.impl C.grav a ∨ haloAlloc C.d3 C.P aU a) (fun _ _ => 0)
      (fun R => Parts C T aU R G) := by
  have hz : (fun _ => ROps.lit 0 : Addr → ℝ) = fun _ => 0 := by funext _; simp [ROps.lit]
  rw [← hz] at r
  have := mpi_setup hT hC hQ hG r
  rwa [hz] at this

/-- **C119**: all ranks take the time step of the single process. -/
theorem C119_dt (hT : RanksOk C.d3 T) (hC : C.Ok B) (hcfl : 0 ≤ C.S.cfl) {s s' : Nat → HydroState ℝ}
    {z z' : HydroState ℝ} (h : Parts C T (bufIn z.iteration) (fun r => (s r).m) z.m)
    (ht : ∀ r, r < T.num → (s r).t = z.t) (hi : ∀ r, r < T.num → (s r).iteration = z.iteration)
    (r : C.MpiSetDt T.num s s') (q : (C.whole T).SetDt z z') : ∀ r, r < T.num → (s' r).dt = z'.dt := by
  -- files and file numbers play no part
  obtain ⟨L, E, hL, hE, e⟩ := r
  obtain ⟨d, hd, rfl⟩ := q
  have b : Beside C T (fun r => { s r with timesSaved := 0, files := [] }) { z with timesSaved := 0, files := [] } :=
    ⟨ht, hi, fun _ _ => rfl, h, fun _ _ => .nil⟩
  have := (mpi_dt hT hC hcfl b (s' := fun r => { s r with
      timesSaved := 0, files := [], dt := C.ctl.computeDt (s r).t (E r) }) ⟨L, E, hL, hE, fun _ _ => rfl⟩
    (z' := { z with timesSaved := 0, files := [], dt := C.ctl.computeDt z.t d }) ⟨d, hd, rfl⟩).2
  intro r hr
  rw [e r hr]
  exact this r hr

/-- **C120**: a run on `mx × my × mz` ranks comes to its end, whatever the interleaving of the ranks and the buffering of
their messages: it cannot hang.  It does as many steps as the run of a single process on the whole domain and stops at the
same time; every rank writes the same number of files as the single process does, with the same numbers and times, and
what it writes is its part of what the single process writes. -/
theorem C120_equals_serial (hT : RanksOk C.d3 T) (hC : C.Ok B) (hcfl : 0 ≤ C.S.cfl) (hlog : C.ctl.nlog ≠ 0)
    (hQ : Deterministic Q) (hG : HasGravity Q → C.grav = true) :
    (∃ s, C.MpiMain T D Q (some s)) ∧
    ∀ x y, C.MpiMain T D Q x → (C.whole T).Main (alone D) Q y → ∃ s z, x = some s ∧ y = some z ∧
      (∀ r, r < T.num → (s r).t = z.t ∧ (s r).iteration = z.iteration) ∧
      ∀ p, Block T.mx T.my T.mz p → List.Forall₂ (PartFile C.d3 C.P p) (s (owner T.my T.mz p)).files z.files := by
  -- whatever the parallel run, beside every serial run
  have key : ∀ y, (C.whole T).Main (alone D) Q y → (∃ s, C.MpiMain T D Q (some s)) ∧
      ∀ x, C.MpiMain T D Q x → ∃ s z, x = some s ∧ y = some z ∧ Beside C T s z := by
    rintro y ⟨z0, y', ⟨m1, z1, hr, hd, rfl⟩, hl, rfl⟩
    obtain ⟨z', rfl⟩ : ∃ z', y' = some z' := by
      obtain ⟨s, _, e, -⟩ := (C117_same_files (D := alone D) (whole_ok hT hC) hlog hG).2 _ _
        (⟨_, y', ⟨m1, z1, hr, hd, rfl⟩, hl, rfl⟩ : (C.whole T).Main (alone D) Q (y'.map (C.whole T).saveIf))
        ⟨_, y', ⟨m1, z1, hr, hd, rfl⟩, hl, rfl⟩
      obtain ⟨z', h, -⟩ := Option.map_eq_some_iff.1 e
      exact ⟨z', h⟩
    have J := mpi_setup hT hC hQ hG (D := D) hr
    have start : ∀ {M1 s1}, JobRuns T.num (hydroSetupMpi C.d3 T C.S C.P D Q) (fun _ _ => lit 0) M1 →
        C.MpiSetDt T.num (fun r => ⟨M1 r, C.ctl.tCurrent, C.ctl.tEnd, 0, 0, []⟩) s1 →
        Beside C T (fun r => C.saveIf (s1 r)) ((C.whole T).saveIf z1) := by
      intro M1 s1 h1 h2
      refine ((mpi_dt hT hC hcfl ?_ h2 hd).1).saveIf hT hC
      exact ⟨fun _ _ => rfl, fun _ _ => rfl, fun _ _ => rfl, J.of_run h1, fun _ _ => .nil⟩
    refine ⟨?_, fun x hx => ?_⟩
    · obtain ⟨M1, h1⟩ := J.exists_run
      obtain ⟨s1, h2⟩ := mpiSetDt_exists (C := C) hT
        (fun r => ⟨M1 r, C.ctl.tCurrent, C.ctl.tEnd, 0, 0, []⟩)
      obtain ⟨s', h3⟩ := (mpi_loop hT hC hcfl hlog (start h1 h2) hl).1
      exact ⟨_, .run h1 h2 h3⟩
    · cases hx with
      | hang h => exact absurd h J.no_hang
      | run h1 h2 h3 =>
        obtain ⟨s', rfl, b⟩ := (mpi_loop hT hC hcfl hlog (start h1 h2) hl).2 _ h3
        exact ⟨_, _, rfl, rfl, b.saveIf hT hC⟩
  obtain ⟨⟨y, hy⟩, -⟩ := C117_same_files (D := alone D) (whole_ok hT hC) hlog hG
  refine ⟨(key _ hy).1, fun x y hx hy => ?_⟩
  obtain ⟨s, z, ex, ey, b⟩ := (key _ hy).2 x hx
  exact ⟨s, z, ex, ey, fun r hr => ⟨b.t r hr, b.it r hr⟩, b.files⟩

/-- **C120**: what is written does not depend on how many processes the domain is cut among, or how: two runs with the same
domain write files with the same numbers and times, and wherever a rank of one and a rank of the other own the same cell
of the domain, their files agree. -/
theorem C120_any_ranks {C' : HydroConf ℝ} {T' : Ranks} (hT : RanksOk C.d3 T) (hT' : RanksOk C'.d3 T') (hC : C.Ok B)
    (hC' : C'.Ok B) (hw : C.whole T = C'.whole T') (hcfl : 0 ≤ C.S.cfl) (hlog : C.ctl.nlog ≠ 0)
    (hQ : Deterministic Q) (hG : HasGravity Q → C.grav = true) {s s' : Nat → HydroState ℝ}
    (h : C.MpiMain T D Q (some s)) (h' : C'.MpiMain T' D Q (some s')) :
    ∀ p p', Block T.mx T.my T.mz p → Block T'.mx T'.my T'.mz p' →
      List.Forall₂ (fun x x' => x.number = x'.number ∧ x.time = x'.time ∧
        ∀ i j k i' j' k' v, i < C.P.nx.toNat → j < C.P.ny.toNat → k < depth C.d3 C.P →
          i' < C'.P.nx.toNat → j' < C'.P.ny.toNat → k' < depth C'.d3 C'.P → v < hydroVars C.d3 →
          inDomain C.P p (cell C.d3 C.P i j k) = inDomain C'.P p' (cell C'.d3 C'.P i' j' k') →
          x.data (cell C.d3 C.P i j k) v = x'.data (cell C'.d3 C'.P i' j' k') v)
        (s (owner T.my T.mz p)).files (s' (owner T'.my T'.mz p')).files := by
  have e1 : C.S = C'.S := show (C.whole T).S = (C'.whole T').S by rw [hw]
  have e2 : C.ctl = C'.ctl := show (C.whole T).ctl = (C'.whole T').ctl by rw [hw]
  have e3 : C.grav = C'.grav := show (C.whole T).grav = (C'.whole T').grav by rw [hw]
  have e4 : C.d3 = C'.d3 := show (C.whole T).d3 = (C'.whole T').d3 by rw [hw]
  obtain ⟨⟨y, hy⟩, -⟩ := C117_same_files (D := alone D) (whole_ok hT hC) hlog hG
  obtain ⟨_, z, ⟨⟩, ez, -, f⟩ := (C120_equals_serial hT hC hcfl hlog hQ hG).2 _ _ h hy
  obtain ⟨_, z', ⟨⟩, ez', -, f'⟩ := (C120_equals_serial hT' hC' (e1 ▸ hcfl) (e2 ▸ hlog) hQ (e3 ▸ hG)).2 _ _ h' (hw ▸ hy)
  rw [ez] at ez'
  cases ez'
  intro p p' hp hp'
  have a := f p hp
  have a' := f' p' hp'
  revert a a'
  generalize (s (owner T.my T.mz p)).files = l
  generalize (s' (owner T'.my T'.mz p')).files = l'
  generalize z.files = w
  intro a a'
  induction a generalizing l' with
  | nil => cases a'; exact .nil
  | cons hx _ ih =>
    cases a' with
    | cons hx' a' =>
      refine .cons ⟨hx.1.trans hx'.1.symm, hx.2.1.trans hx'.2.1.symm, ?_⟩ (ih _ a')
      intro i j k i' j' k' v h1 h2 h3 h4 h5 h6 hv e
      rw [hx.2.2 i j k v h1 h2 h3 hv, hx'.2.2 i' j' k' v h4 h5 h6 (e4 ▸ hv), e]

/-! ### The hypotheses can be met -/

/-- Two by three by two ranks. -/
def exampleRanks : Ranks := ⟨2, 3, 2, .right⟩

example : ∃ s, (exampleConf true .periodic).MpiMain exampleRanks ⟨0, 1, 0, 1, 0, 1, 0, 0, 0⟩
    (.blast ⟨1/10, 1/2, 1/2, 1/2, 1, 10, 1, 1/10⟩) (some s) ∧
    ∃ z, ((exampleConf true .periodic).whole exampleRanks).Main ⟨0, 1, 0, 1, 0, 1, 0, 0, 0⟩
      (.blast ⟨1/10, 1/2, 1/2, 1/2, 1, 10, 1, 1/10⟩) (some z) ∧
    ∀ p, Block 2 3 2 p → List.Forall₂ (PartFile true (exampleBox true .periodic) p) (s (owner 3 2 p)).files z.files := by
  have hC := exampleConf_ok true .periodic
  have hT : RanksOk (exampleConf true .periodic).d3 exampleRanks :=
    ⟨by decide, by decide, by decide, fun h => by simp [exampleConf] at h⟩
  obtain ⟨⟨s, hs⟩, h⟩ := C120_equals_serial (D := ⟨0, 1, 0, 1, 0, 1, 0, 0, 0⟩)
    (Q := .blast ⟨1/10, 1/2, 1/2, 1/2, 1, 10, 1, 1/10⟩) hT hC (by norm_num [exampleConf, exampleSettings])
    (by simp [exampleConf]) trivial (fun h => h.elim)
  obtain ⟨⟨z, hz⟩, -⟩ := C117_same_files (D := alone ⟨0, 1, 0, 1, 0, 1, 0, 0, 0⟩)
    (Q := .blast ⟨1/10, 1/2, 1/2, 1/2, 1, 10, 1, 1/10⟩) (whole_ok hT hC) (by simp [exampleConf, HydroConf.whole])
    (fun h => h.elim)
  obtain ⟨_, _, ⟨⟩, ⟨⟩, -, f⟩ := h _ _ hs hz
  exact ⟨s, hs, z, hz, f⟩

/-- Twelve ranks and one. -/
example : ∃ s s', (exampleConf true .reflecting).MpiMain exampleRanks ⟨0, 1, 0, 1, 0, 1, 0, 0, 0⟩
      (.blast ⟨1/10, 1/2, 1/2, 1/2, 1, 10, 1, 1/10⟩) (some s) ∧
    ((exampleConf true .reflecting).whole exampleRanks).MpiMain ⟨1, 1, 1, .left⟩ ⟨0, 1, 0, 1, 0, 1, 0, 0, 0⟩
      (.blast ⟨1/10, 1/2, 1/2, 1/2, 1, 10, 1, 1/10⟩) (some s') ∧
    (s (owner 3 2 ⟨1, 2, 0⟩)).files.map (·.time) = (s' (owner 1 1 ⟨0, 0, 0⟩)).files.map (·.time) := by
  have hC := exampleConf_ok true .reflecting
  have hT : RanksOk (exampleConf true .reflecting).d3 exampleRanks :=
    ⟨by decide, by decide, by decide, fun h => by simp [exampleConf] at h⟩
  have hT' : RanksOk ((exampleConf true .reflecting).whole exampleRanks).d3 ⟨1, 1, 1, .left⟩ :=
    ⟨by decide, by decide, by decide, fun _ => rfl⟩
  have hC' := whole_ok hT hC
  have hw : (exampleConf true .reflecting).whole exampleRanks =
      ((exampleConf true .reflecting).whole exampleRanks).whole ⟨1, 1, 1, .left⟩ := by
    simp [HydroConf.whole, globalGrid]
  have hcfl : 0 ≤ (exampleConf true .reflecting).S.cfl := by norm_num [exampleConf, exampleSettings]
  have hlog : (exampleConf true .reflecting).ctl.nlog ≠ 0 := by simp [exampleConf]
  obtain ⟨⟨s, hs⟩, -⟩ := C120_equals_serial (D := ⟨0, 1, 0, 1, 0, 1, 0, 0, 0⟩)
    (Q := .blast ⟨1/10, 1/2, 1/2, 1/2, 1, 10, 1, 1/10⟩) hT hC hcfl hlog trivial (fun h => h.elim)
  obtain ⟨⟨s', hs'⟩, -⟩ := C120_equals_serial (D := ⟨0, 1, 0, 1, 0, 1, 0, 0, 0⟩)
    (Q := .blast ⟨1/10, 1/2, 1/2, 1/2, 1, 10, 1, 1/10⟩) hT' hC' hcfl hlog trivial (fun h => h.elim)
  have := C120_any_ranks (Q := .blast ⟨1/10, 1/2, 1/2, 1/2, 1, 10, 1, 1/10⟩) hT hT' hC hC' hw hcfl hlog trivial (fun h => h.elim) hs hs' ⟨1, 2, 0⟩ ⟨0, 0, 0⟩
    ⟨by decide, by decide, by decide, by decide, by decide, by decide⟩
    ⟨by decide, by decide, by decide, by decide, by decide, by decide⟩
  refine ⟨s, s', hs, hs', ?_⟩
  refine List.forall₂_eq_eq_eq ▸ List.forall₂_map_left_iff.2 (List.forall₂_map_right_iff.2 (this.imp fun a b h => h.2.1))

end Verif
