import Verif.Lemmas.SdmMpiStep
import Verif.Lemmas.DriverMpi
import Verif.Spec.SdmMpi
import Verif.Props.C131_SdmProgram

/-! Helper lemmas: the SDM program on several MPI processes. -/

namespace Verif.Sdm

open Verif K Function Spec ROps Start Special

variable {C : SdmConf ℝ} {B : Sides} {T : Ranks} {D : Domain ℝ} {Q : SdmProblem ℝ}

theorem ok_whole (hT : RanksOk C.M.d3 T) (hC : C.Ok B) : (C.whole T).Ok B :=
  ⟨hC.scheme, setup_whole hT hC.box, hC.solver⟩

theorem parts_holds {s : Nat → Addr → ℝ} {m : Addr → ℝ} :
    SdmParts C T s m ↔ HoldsAll C.M T C.P s sU (valsOf C.M m sU) :=
  ⟨fun h q hq c p v hb hi hp hv => h q hq c p v ⟨hb, hi⟩ hp hv,
    fun h q hq c p v hc hp hv => h q hq c p v hc.1 hc.2 hp hv⟩

/-- What the ranks hold depends on the interior of the whole only. -/
theorem HoldsAll.inside (hT : RanksOk C.M.d3 T) (hC : C.Ok B) {s : Nat → Addr → ℝ} {A : ℕ} {u v : Vals ℝ}
    (h : HoldsAll C.M T C.P s A u) (e : SameInside C.M.d3 C.M.N (whole T C.P) u v) : HoldsAll C.M T C.P s A v :=
  fun q hq => (h q hq).trans fun c p iv hb hi hp hv =>
    e _ p iv (whole_box hT hC.box hq hb) (whole_inner hT hC.box hq hb hi) hp hv

/-- The exchange. -/
theorem sdm_exchange (hT : RanksOk C.M.d3 T) (hC : C.Ok B) {s : Nat → Addr → ℝ} {m m' : Addr → ℝ}
    (h : SdmParts C T s m) (r : Runs (C.whole T).post m m') :
    JobOK T.num (C.postMpi T) (mpiDom C.M C.P C.ti) s (fun R => SdmPartsGhost C T R m') := by
  obtain ⟨s', l, e, -⟩ := halo_line hT hC.box (sU_sol C.ti) (parts_holds.1 h)
  obtain ⟨m2, y, e2, -⟩ := boundaries_yields (M := C.M) (setup_whole hT hC.box) (sU_sol C.ti) m
  obtain rfl := y.unique r
  refine (LockSeq.job l (Q := fun R => SdmPartsGhost C T R m') ?_).congr ?_
  · intro X hX q hq c p v hb hp hv
    rw [hX _ (owner_lt hT hq), e q hq c p v hb hp hv]
    exact (e2 _ p v (whole_box hT hC.box hq hb) hp hv).symm
  · intro r _
    exact (haloLine_prog C.M T C.P sU r).symm

theorem parts_of_ghost {s : Nat → Addr → ℝ} {m : Addr → ℝ} (h : SdmPartsGhost C T s m) : SdmParts C T s m :=
  fun q hq c p v hc hp hv => h q hq c p v hc.1 hp hv

/-- The step. -/
theorem sdm_mpi_step (hT : RanksOk C.M.d3 T) (hC : C.Ok B) {s : Nat → Addr → ℝ} {m m' : Addr → ℝ} {it : ℕ} {dt : ℝ}
    {its : Nat → Nat} {dts : Nat → ℝ} {prog : Nat → List (MpiOp ℝ)} (h : SdmParts C T s m) (hj : C.jobs T its dts prog)
    (hd : ∀ r, r < T.num → dts r = dt) (r : (C.whole T).driver.Step it dt m m') :
    JobOK T.num prog (mpiDom C.M C.P C.ti) s (fun R => SdmParts C T R m') := by
  obtain ⟨junk, rfl⟩ := hj
  obtain ⟨j0, r⟩ := r
  obtain ⟨m2, y, e2⟩ := step_yields (M := C.M) (S := C.S) (setup_whole hT hC.box) hC.scheme.orders.1 C.ti dt j0 m
  obtain rfl := y.unique r
  obtain ⟨s', l, e⟩ := step_all (S := C.S) hT hC.scheme hC.box hC.solver C.ti dt junk j0 (parts_holds.1 h)
  refine (LockSeq.job l (Q := fun R => SdmParts C T R m') ?_).congr ?_
  · intro X hX
    refine parts_holds.2 fun q hq => ?_
    rw [hX _ (owner_lt hT hq)]
    exact e.inside hT hC e2.symm q hq
  · intro r hr
    rw [hd r hr]
    exact (stepLine_prog C.M T C.S C.P junk C.ti dt r).symm

/-- Every cell of the whole belongs to a rank. -/
theorem whole_cover {d3 : Bool} {nv : Nat} {w : Int} {P : Grid} (hw : 1 ≤ w) (hT : RanksOk d3 T) (h : BoxSetup d3 nv w P B)
    {c' : Cell} (hc : Inside d3 (whole T P) c') : ∃ q c, Block T.mx T.my T.mz q ∧ Inside d3 P c ∧ inDomain P q c = c' := by
  have hg0 : 0 ≤ P.ghostWidth := by have := h.gw; omega
  have hnx : 0 < P.nx := by have := h.nx; have := h.gw; omega
  have hny : 0 < P.ny := by have := h.ny; have := h.gw; omega
  have hC := (interior_iff (P := whole T P) hg0).1 hc
  obtain ⟨px, i, a1, a2, a3, a4, a5⟩ := split_index hnx hC.1 hC.2.1
  obtain ⟨py, j, b1, b2, b3, b4, b5⟩ := split_index hny hC.2.2.1 hC.2.2.2.1
  cases d3
  · simp only [Bool.false_eq_true, if_false] at hC
    have e := hT.flat rfl
    have q := (interior_iff (d3 := false) (c := ⟨i, j, 0⟩) hg0).2 ⟨a3, a4, b3, b4, rfl⟩
    refine ⟨⟨px, py, 0⟩, ⟨i, j, 0⟩, ⟨a1, a2, b1, b2, le_rfl, by simp only; omega⟩, q, ?_⟩
    ext
    · exact a5
    · exact b5
    · simp only [inDomain, zero_mul, add_zero]; exact hC.2.2.2.2.symm
  · simp only [if_true] at hC
    have hnz : 0 < P.nz := by have := h.nz rfl; have := h.gw; omega
    obtain ⟨pz, k, c1, c2, c3, c4, c5⟩ := split_index hnz hC.2.2.2.2.1 hC.2.2.2.2.2
    have q := (interior_iff (d3 := true) (c := ⟨i, j, k⟩) hg0).2 ⟨a3, a4, b3, b4, c3, c4⟩
    refine ⟨⟨px, py, pz⟩, ⟨i, j, k⟩, ⟨a1, a2, b1, b2, c1, c2⟩, q, ?_⟩
    ext
    · exact a5
    · exact b5
    · exact c5

theorem stateAt_same {d3 : Bool} {m m' : Addr → ℝ} {ad ad' : ℕ → Addr}
    (e : ∀ iv < hydroVars d3, m (ad iv) = m' (ad' iv)) : stateAt d3 m ad = stateAt d3 m' ad' := by
  cases d3
  · simp only [stateAt, Mood.ofComps]
    rw [e ID (by decide), e IP (by decide), e IU (by decide), e IV (by decide)]
    rfl
  · simp only [stateAt, Mood.ofComps]
    rw [e ID (by decide), e IP (by decide), e IU (by decide), e IV (by decide), e IW (by decide)]

/-- The time step. -/
theorem sdm_mpi_dt (hT : RanksOk C.M.d3 T) (hC : C.Ok B) (hg : 0 < C.S.gamma0) (hs : Spacings C.M.d3 C.S)
    (hcfl : 0 ≤ C.S.cfl) {s : Nat → Addr → ℝ} {m : Addr → ℝ} {it : ℕ} {L D : Nat → ℝ} {d : ℝ} (h : SdmParts C T s m)
    (hgas : SdmSomeGas C T m) (hL : ∀ r, r < T.num → C.driver.Dt it (s r) (L r)) (hD : AllReduce mpiMin T.num L D)
    (hd : (C.whole T).driver.Dt it m d) : ∀ r, r < T.num → D r = d := by
  have hN : 0 < C.M.N := hC.scheme.orders.1
  obtain ⟨X, ⟨g1, g2⟩, ed⟩ := sdmDt_greatest (P := whole T C.P)
    (nonempty_of_box (setup_whole hT hC.box) (by decide)) hd
  choose Y gY eY using fun r (hr : r < T.num) =>
    sdmDt_greatest (nonempty_of_box hC.box (by decide)) (hL r hr)
  have st : ∀ q, Block T.mx T.my T.mz q → ∀ c p, Inside C.M.d3 C.P c → IsSolPt C.M.d3 C.M.N p →
      stateAt C.M.d3 (s (owner T.my T.mz q)) (C.M.sol sU c p) = stateAt C.M.d3 m (C.M.sol sU (inDomain C.P q c) p) :=
    fun q hq c p hc hp => stateAt_same fun iv hv => h q hq c p iv hc hp hv
  have up : ∀ q, Block T.mx T.my T.mz q → ∀ c, Inside C.M.d3 C.P c → Inside C.M.d3 (whole T C.P) (inDomain C.P q c) :=
    fun q hq c hc => ⟨whole_box hT hC.box hq hc.1, whole_inner hT hC.box hq hc.1 hc.2⟩
  -- rates of the ranks are rates of the whole
  have le : ∀ r (hr : r < T.num), Y r hr ≤ X := by
    intro r hr
    obtain ⟨q, hq, rfl⟩ := owner_surj hT hr
    rcases (gY _ hr).1 with e | ⟨c, p, hc, hp, e⟩
    · rw [e]; exact g2 (.inl rfl)
    · rw [e, st q hq c p hc hp]
      exact g2 (.inr ⟨_, p, up q hq c hc, hp, rfl⟩)
  have pos : ∀ r (hr : r < T.num), 0 < Y r hr := by
    intro r hr
    obtain ⟨q, hq, rfl⟩ := owner_surj hT hr
    obtain ⟨c, p, hc, hp, hden⟩ := hgas q hq
    refine lt_of_lt_of_le (sdm_rate_pos hg hs hN (u := stateAt C.M.d3 (s (owner T.my T.mz q)) (C.M.sol sU c p)) ?_)
      ((gY _ hr).2 (.inr ⟨c, p, hc, hp, rfl⟩))
    rw [st q hq c p hc hp]
    have e : (stateAt C.M.d3 m (C.M.sol sU (inDomain C.P q c) p)).d = valsOf C.M m sU (inDomain C.P q c) p 0 := by
      unfold stateAt Mood.ofComps
      cases C.M.d3 <;> rfl
    rw [e]; exact hden
  have att : ∃ r, ∃ hr : r < T.num, Y r hr = X := by
    rcases g1 with e | ⟨c', p, hc', hp, e⟩
    · exact ⟨0, num_pos hT, le_antisymm (le _ _) (e ▸ (gY 0 (num_pos hT)).2 (.inl rfl))⟩
    · obtain ⟨q, c, hq, hc, rfl⟩ := whole_cover (by decide) hT hC.box hc'
      refine ⟨_, owner_lt hT hq, le_antisymm (le _ _) ?_⟩
      rw [e]
      refine (gY _ (owner_lt hT hq)).2 (.inr ⟨c, p, hc, hp, ?_⟩)
      rw [st q hq c p hc hp]
      rfl
  have mono : ∀ r (hr : r < T.num), d ≤ L r := by
    intro r hr
    rw [ed, eY r hr]
    have k : C.S.cfl / X ≤ C.S.cfl / Y r hr := div_le_div_of_nonneg_left hcfl (pos r hr) (le r hr)
    have k0 : 0 ≤ C.S.cfl / X := div_nonneg hcfl ((pos r hr).trans_le (le r hr)).le
    show (if C.rescale = true ∧ C.M.N ≥ 2 ∧ (C.ssprk3 = true ∨ C.ssprk54 = true) then _ else _) ≤
      if C.rescale = true ∧ C.M.N ≥ 2 ∧ (C.ssprk3 = true ∨ C.ssprk54 = true) then _ else _
    split_ifs
    · exact Real.rpow_le_rpow k0 k (by positivity)
    · exact k
  intro r hr
  obtain ⟨a1, r1, hr1, a2⟩ := allReduce_min hD r hr
  obtain ⟨r0, hr0, e0⟩ := att
  refine le_antisymm ((a1 r0 hr0).trans_eq ?_) (a2 ▸ mono r1 hr1)
  rw [ed, eY r0 hr0, e0]
  rfl

/-! ### The start -/

theorem sdmState_part (M : Scheme ℝ) (S : Settings ℝ) (P : Grid) (D : Domain ℝ) (hQ : SdmDeterministic Q)
    {q : Cell} (hq : Block T.mx T.my T.mz q) (c : Cell) (p : Pt) :
    sdmState M S P (D.ofRank T (owner T.my T.mz q)) c p Q = sdmState M S (whole T P) (alone D) (inDomain P q c) p Q := by
  have ho := owner_coords hq
  have jx : c.i + P.nx * q.i - P.ghostWidth = q.i * P.nx + c.i + T.mx * P.nx * 0 - P.ghostWidth := by ring
  have jy : c.j + P.ny * q.j - P.ghostWidth = q.j * P.ny + c.j + T.my * P.ny * 0 - P.ghostWidth := by ring
  have jz : c.k + P.nz * q.k - P.ghostWidth = q.k * P.nz + c.k + T.mz * P.nz * 0 - P.ghostWidth := by ring
  have ex : xSdm M S P (D.ofRank T (owner T.my T.mz q)) c.i p.x = xSdm M S (whole T P) (alone D) (inDomain P q c).i p.x := by
    unfold xSdm Domain.ofRank alone
    rw [ho]
    simp only [inDomain, globalGrid]
    rw [jx]
  have ey : ySdm M S P (D.ofRank T (owner T.my T.mz q)) c.j p.y = ySdm M S (whole T P) (alone D) (inDomain P q c).j p.y := by
    unfold ySdm Domain.ofRank alone
    rw [ho]
    simp only [inDomain, globalGrid]
    rw [jy]
  have ez : zSdm M S P (D.ofRank T (owner T.my T.mz q)) c.k p.z = zSdm M S (whole T P) (alone D) (inDomain P q c).k p.z := by
    unfold zSdm Domain.ofRank alone
    rw [ho]
    simp only [inDomain, globalGrid]
    rw [jz]
  cases Q with
  | sod => simp only [sdmState, ex]
  | shuOsher => simp only [sdmState, ex]
  | implode a => simp only [sdmState, ex, ey, ez]; rfl
  | blast a => simp only [sdmState, ex, ey, ez]
  | fourQuadrant n xt yt =>
    simp only [sdmState]
    unfold Domain.ofRank alone
    rw [ho]
    simp only [inDomain, globalGrid]
    rw [jx, jy]
  | kelvinHelmholtz a rnd =>
    have ha : a.p_rand = false := hQ
    simp only [sdmState, ex, ey, ez, khSdm, ha, Bool.false_eq_true, if_false]
  | gresho a => simp only [sdmState, ex, ey]
  | vortex a b t => simp only [sdmState, ex, ey]; rfl

theorem sdm_mpi_init (hT : RanksOk C.M.d3 T) (hC : C.Ok B) (hQ : SdmDeterministic Q) {s : Nat → Addr → ℝ} {m : Addr → ℝ}
    (hs : ∀ r, r < T.num → Runs (C.init (D.ofRank T r) Q) (fun _ => lit 0) (s r))
    (hm : Runs ((C.whole T).init (alone D) Q) (fun _ => lit 0) m) : SdmPartsGhost C T s m := by
  obtain ⟨-, -, b⟩ := sdm_init (D := alone D) (Q := Q) (ok_whole hT hC) (fun _ => lit 0)
  intro q hq c p v hb hp hv
  obtain ⟨-, -, a⟩ := sdm_init (D := D.ofRank T (owner T.my T.mz q)) (Q := Q) hC (fun _ => lit 0)
  refine (a _ (hs _ (owner_lt hT hq)) c p v hb hp (hC.box.nv ▸ hv)).trans ?_
  refine Eq.trans ?_ (b _ hm _ p v (whole_box hT hC.box hq hb) hp ((ok_whole hT hC).box.nv ▸ hv)).symm
  rw [sdmState_part C.M C.S C.P D hQ hq c p]
  rfl

/-! ### The program -/

/-- What rank `r` writes. -/
def rankShows (C : SdmConf ℝ) (T : Ranks) (r : Nat) (a b : FileData) : Prop :=
  ∀ q, Block T.mx T.my T.mz q → owner T.my T.mz q = r → SdmPart C q (sdmVals C a) (sdmVals C b)

theorem sdm_mpiTwins (hT : RanksOk C.M.d3 T) (hC : C.Ok B) (hg : 0 < C.S.gamma0) (hs : Spacings C.M.d3 C.S)
    (hcfl : 0 ≤ C.S.cfl) : C.driver.MpiTwins (C.whole T).driver T.num (C.jobs T) (SdmParts C T) (rankShows C T)
      (SdmSomeGas C T) where
  pos := num_pos hT
  ctl := rfl
  every := rfl
  congr e h := fun q hq => by rw [e _ (owner_lt hT hq)]; exact h q hq
  dtExists := (sdm_total hC).dt
  dt h g hL hD hd := sdm_mpi_dt hT hC hg hs hcfl h g hL hD hd
  jobExists _ _ := ⟨_, fun _ _ _ _ _ => HState.zero, rfl⟩
  job h hj _ hd st := ⟨_, sdm_mpi_step hT hC h hj hd st⟩
  shows h r _ q hq e := e ▸ h q hq

theorem sdm_someGas_post (hT : RanksOk C.M.d3 T) (hC : C.Ok B) {m m' : Addr → ℝ} (r : Runs (C.whole T).post m m')
    (h : SdmSomeGas C T m') : SdmSomeGas C T m := by
  obtain ⟨-, -, e⟩ := sdm_post (ok_whole hT hC) m
  intro q hq
  obtain ⟨c, p, hc, hp, k⟩ := h q hq
  refine ⟨c, p, hc, hp, k.trans_eq ?_⟩
  exact e _ r _ p 0 (whole_box hT hC.box hq hc.1) (whole_inner hT hC.box hq hc.1 hc.2) hp
    (by show 0 < hydroVars C.M.d3; cases C.M.d3 <;> decide)

theorem sdm_mpi_main (hT : RanksOk C.M.d3 T) (hC : C.Ok B) (hg : 0 < C.S.gamma0) (hs : Spacings C.M.d3 C.S)
    (hcfl : 0 ≤ C.S.cfl) (hlog : C.ctl.nlog ≠ 0) (hQ : SdmDeterministic Q)
    (hgas : ∀ y, (C.whole T).driver.Visits ((C.whole T).init (alone D) Q) (C.whole T).post y → SdmSomeGas C T y.m)
    {z : HydroState ℝ} (hm : (C.whole T).Main (alone D) Q (some z)) :
    (∃ s, C.MpiMain T D Q (some s)) ∧ ∀ x, C.MpiMain T D Q x →
      ∃ s, x = some s ∧ Driver.MpiSide T.num (SdmParts C T) (rankShows C T) s z := by
  refine Driver.mpi_main (sdm_mpiTwins hT hC hg hs hcfl) hlog ?_ (fun a b => ?_) (fun a b => ?_)
    (fun a b => sdm_someGas_post hT hC a b) hgas hm
  · choose s h _ using fun r => sdm_init (D := D.ofRank T r) (Q := Q) hC (fun _ => lit 0)
    exact ⟨s, fun r _ => h r⟩
  · exact parts_of_ghost (sdm_mpi_init hT hC hQ a b)
  · exact ⟨_, (sdm_exchange hT hC a b).imp fun _ h => parts_of_ghost h⟩

end Verif.Sdm
