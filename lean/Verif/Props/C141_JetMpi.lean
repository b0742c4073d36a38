import Verif.Model.JetMpi
import Verif.Props.C128_Jet
import Verif.Props.C139_C140_SdmMpi

/-!
# C141: the jet problem with MPI

A user expects the jet problem of a build with MPI to show a jet, as without MPI.  It does not.
-/

namespace Verif

open Spec ROps Sdm Start Special

variable {C : SdmConf ℝ} {B : Sides} {T : Ranks} {c : ConfigReader ℝ}

/-- The state of the gas around the jet. -/
noncomputable def bulkState (c : ConfigReader ℝ) : HState ℝ := (bulkGas c).conserved (jetGamma c)

theorem initJet_runs (hC : C.Ok B) (m : Addr → ℝ) : ∃ m', Runs (C.initJet (JetParams.make c)) m m' ∧
    ∀ m'', Runs (C.initJet (JetParams.make c)) m m'' → ∀ b p v, C.P.box C.M.d3 b → IsSolPt C.M.d3 C.M.N p →
      v < hydroVars C.M.d3 → valsOf C.M m'' sU b p v = everywhere (bulkState c) b p v := by
  obtain ⟨m', y, e⟩ := C128_init c C.M C.P (sU_sol C.ti) (nonempty_of_box hC.box (by decide)) m
  have y' : YieldsAll _ (C.initJet (JetParams.make c)) m m' := .cons y (.nil _)
  refine ⟨m', y'.run, fun m'' r b p v hb hp hv => ?_⟩
  obtain rfl := y'.unique r
  exact e b p v hb hp (hC.box.nv ▸ hv)

theorem forall₂_mem {β γ : Type} {R : β → γ → Prop} {l : List β} {k : List γ} (h : List.Forall₂ R l k) {x : β} (hx : x ∈ l) :
    ∃ y ∈ k, R x y := by
  induction h with
  | nil => cases hx
  | cons a _ ih =>
    rcases List.mem_cons.1 hx with rfl | hx
    · exact ⟨_, List.mem_cons_self, a⟩
    · obtain ⟨y, hy, hr⟩ := ih hx
      exact ⟨y, List.mem_cons_of_mem _ hy, hr⟩

/-- **C141, where the code does otherwise.** In a build with MPI the jet problem shows no jet: if the gas around the jet is above the floors
and not moving through walls, the program, on any number of processes including one, runs to its end, and every file of every
process shows nothing but the gas around the jet, as it was at the start. -/
theorem C141_no_jet (hT : RanksOk C.M.d3 T) (hC : C.Ok B) (hG : GasParams C.S) (hg : 0 < C.S.gamma0)
    (hs : Spacings C.M.d3 C.S) (hcfl : 0 ≤ C.S.cfl) (hlog : C.ctl.nlog ≠ 0) (hti : C.ti ≠ .ssprk54)
    (hd : 0 < (bulkState c).d) (hq : Settled C.M.d3 C.S (bulkState c)) (hw : RestAtWalls C.M.d3 B (bulkState c)) :
    (∃ s, C.JetMpi T (JetParams.make c) (some s)) ∧
    ∀ x, C.JetMpi T (JetParams.make c) x → ∃ s, x = some s ∧ ∀ r, r < T.num →
      (C.ctl.nOutput ≠ 0 → (s r).files ≠ []) ∧
      ∀ f ∈ (s r).files, SameInside C.M.d3 C.M.N C.P (sdmVals C f.data) (everywhere (bulkState c)) := by
  have hW := ok_whole hT hC
  let W := C.whole T
  have huni : ∀ {m1 m2}, Runs (W.initJet (JetParams.make c)) (fun _ => lit 0) m1 → Runs W.post m1 m2 →
      SameInside W.M.d3 W.M.N W.P (valsOf W.M m2 sU) (everywhere (bulkState c)) := by
    intro m1 m2 r1 r2
    obtain ⟨-, -, a⟩ := sdm_post hW m1
    obtain ⟨-, -, b⟩ := initJet_runs (c := c) hW (fun _ => lit 0)
    exact (a _ r2).trans fun e p v hb _ hp hv => b _ r1 e p v hb hp hv
  have hstep : ∀ {it dt m m'}, W.driver.Step it dt m m' →
      SameInside W.M.d3 W.M.N W.P (valsOf W.M m sU) (everywhere (bulkState c)) →
      SameInside W.M.d3 W.M.N W.P (valsOf W.M m' sU) (everywhere (bulkState c)) :=
    fun ⟨_, r⟩ h => C88_uniform hW.scheme hW.box hG hW.solver hq hw hti r h
  have hgas : ∀ y, W.driver.Visits (W.initJet (JetParams.make c)) W.post y → SdmSomeGas C T y.m := by
    intro y hv
    refine someGas_of_dense hT hC fun e p he hp => ?_
    have := Driver.visits_of (V := W.driver)
      (I := fun _ m => SameInside W.M.d3 W.M.N W.P (valsOf W.M m sU) (everywhere (bulkState c)))
      huni hstep hv e p 0 he.1 he.2 hp (by show 0 < hydroVars C.M.d3; cases C.M.d3 <;> decide)
    show 0 < valsOf W.M y.m sU e p 0
    rw [this]
    exact hd
  obtain ⟨m1, r1, -⟩ := initJet_runs (c := c) hW (fun _ => lit 0)
  obtain ⟨m2, r2, -⟩ := sdm_post hW m1
  obtain ⟨z, hz⟩ := Driver.main_exists (sdm_total hW) hlog r1 r2
  have key := Driver.mpi_main (init := fun _ => C.initJet (JetParams.make c)) (post := C.postMpi T)
    (sdm_mpiTwins hT hC hg hs hcfl) hlog ?_ (fun a b => ?_) (fun a b => ?_)
    (fun a b => sdm_someGas_post hT hC a b) hgas hz
  · refine ⟨key.1, fun x hx => ?_⟩
    obtain ⟨s, rfl, b⟩ := key.2 x hx
    refine ⟨s, rfl, fun r hr => ⟨fun ho h0 => ?_, fun f hf => ?_⟩⟩
    · obtain ⟨n1, n2, q1, q2, e0⟩ := Driver.first_file hz ho
      have := (b.files r hr).length_eq
      rw [h0] at this
      rw [List.eq_nil_of_length_eq_zero this.symm] at e0
      cases e0
    obtain ⟨q, hqb, rfl⟩ := owner_surj hT hr
    obtain ⟨y, hy, -, -, hsh⟩ := forall₂_mem (b.files _ hr) hf
    have hy' : SameInside W.M.d3 W.M.N W.P (sdmVals W y.data) (everywhere (bulkState c)) := by
      by_cases ho : W.driver.ctl.nOutput = 0
      · rw [Driver.no_files hz ho] at hy; cases hy
      obtain ⟨n1, n2, q1, q2, e0⟩ := Driver.first_file hz ho
      obtain ⟨-, -, h⟩ := Driver.run_files (V := W.driver)
        (I := fun _ d => SameInside W.M.d3 W.M.N W.P (sdmVals W d) (everywhere (bulkState c)))
        (fun it dt m m' st h => hstep st h) hz e0 (huni q1 q2) y hy
      exact h
    intro e p v he hi hp hv
    refine (hsh q hqb rfl e p v ⟨he, hi⟩ hp hv).trans ?_
    exact hy' _ p v (whole_box hT hC.box hqb he) (whole_inner hT hC.box hqb he hi) hp hv
  · choose s h _ using fun _ : Nat => initJet_runs (c := c) hC (fun _ => lit 0)
    exact ⟨s, fun r _ => h r⟩
  · intro q hq e p v he hp hv
    obtain ⟨-, -, i1⟩ := initJet_runs (c := c) hC (fun _ => lit 0)
    obtain ⟨-, -, i2⟩ := initJet_runs (c := c) hW (fun _ => lit 0)
    exact (i1 _ (a _ (owner_lt hT hq)) e p v he.1 hp hv).trans (i2 _ b _ p v (whole_box hT hC.box hq he.1) hp hv).symm
  · exact ⟨_, (sdm_exchange hT hC a b).imp fun _ h => parts_of_ghost h⟩

/-! ### Without MPI -/

/-- The state of the jet. -/
noncomputable def jetState (c : ConfigReader ℝ) : HState ℝ := (jetGas c).conserved (jetGamma c)

theorem pointState_line {d3 : Bool} {N : ℕ} (hN : 0 < N) {q : HState ℝ} {r : ℝ} (hr : r ≤ q.d)
    (hw : d3 = false → q.w = 0) {d : Dir} {u : Vals ℝ} {b : Cell} {p : Pt}
    (hu : ∀ k iv, iv < 5 → u b (p.set d k) iv = part q iv) : pointState d3 N r d u b p = q := by
  unfold pointState
  simp only [hu _ 0 (by norm_num), hu _ 1 (by norm_num), hu _ 2 (by norm_num), hu _ 3 (by norm_num),
    hu _ 4 (by norm_num), lineValue_const hN]
  cases d3
  · ext <;> simp [part, hr]
    exact (hw rfl).symm
  · ext <;> simp [part, hr]

/-- Slope in a cell with the same state in itself and its neighbours. -/
theorem slope_local {M : Scheme ℝ} {S : Settings ℝ} (hM : ExactScheme M) (hG : GasParams S) (hr : HasSolver M.d3 S) {q : HState ℝ}
    (hq : Settled M.d3 S q) {d : Dir} (hd : M.d3 = true ∨ d ≠ .z) {u : Vals ℝ} {b : Cell}
    (h0 : ∀ p iv, iv < 5 → u b p iv = part q iv) (h1 : ∀ p iv, iv < 5 → u (b.down d) p iv = part q iv)
    (h2 : ∀ p iv, iv < 5 → u (b.up d) p iv = part q iv) (p : Pt) (iv : ℕ) :
    slopeOf M.d3 M.N S (eulerFluxOf M.d3 S) (riemannFlux M.d3 S HState.zero) u d b p iv = 0 := by
  have e : ∀ k, pointFlux M.N (eulerFluxOf M.d3 S d) (riemannFlux M.d3 S HState.zero d) d
      (pointState M.d3 M.N S.smallr d u) b (p.set d k) = gasFlux M.d3 S.gamma0 d q := by
    intro k
    have s0 : ∀ p, pointState M.d3 M.N S.smallr d u b p = q := fun p =>
      pointState_line (q := q) hM.orders.1 hq.floors.d hq.phys.w fun k iv hv => h0 _ iv hv
    have s1 : ∀ p, pointState M.d3 M.N S.smallr d u (b.down d) p = q := fun p =>
      pointState_line (q := q) hM.orders.1 hq.floors.d hq.phys.w fun k iv hv => h1 _ iv hv
    have s2 : ∀ p, pointState M.d3 M.N S.smallr d u (b.up d) p = q := fun p =>
      pointState_line (q := q) hM.orders.1 hq.floors.d hq.phys.w fun k iv hv => h2 _ iv hv
    unfold pointFlux
    simp only [s0, s1, s2]
    rw [riemannFlux_eq hG.gamma hq.phys hq.phys, faceFlux_self hG hr hd hq.floors,
      eulerFluxOf_eq hd hG.gamma hq.phys]
    simp
  unfold slopeOf
  simp only [e]
  rw [lineSlope_const hM.orders, zero_div]

open Classical in
/-- What the cells hold after the treatment of the boundaries if all was at rest, except in the corners of the left side. -/
noncomputable def jetField (c : ConfigReader ℝ) (d3 : Bool) (P : Grid) (y z : Int → ℕ → ℝ) (u : Vals ℝ) : Vals ℝ := fun b p v =>
  if P.ghostWidth ≤ b.i then part (bulkState c) v
  else if midY P b ∧ (d3 = true → midZ P b) then
    part (if InOpening c d3 (y b.j p.y) (z b.k p.z) then jetState c else bulkState c) v
  else u b p v

theorem jetField_eq {d3 : Bool} {P : Grid} {N : ℕ} {y z : Int → ℕ → ℝ} {before after : Vals ℝ} (hP : JetGrid d3 P)
    (h : JetGhosts c (jetGamma c) d3 P N y z before after) (h0 : ∀ b p v, Inside d3 P b → IsSolPt d3 N p → v < P.nbvar →
      before b p v = part (bulkState c) v) {b : Cell} {p : Pt} {v : ℕ} (hbox : P.box d3 b) (hp : IsSolPt d3 N p) (hv : v < P.nbvar) :
    after b p v = jetField c d3 P y z after b p v := by
  have hg := hP.g
  have hnx := hP.nx
  have hny := hP.ny
  have hnz := hP.nz
  have ei := P.isize_eq
  have ej := P.jsize_eq
  have ek := P.ksize_eq
  have inn : ∀ b, P.box d3 b → midX P b → midY P b → (d3 = true → midZ P b) → Inside d3 P b := by
    rintro b hb ⟨x1, x2⟩ ⟨y1, y2⟩ hz
    refine ⟨hb, fun h3 => ?_, by omega, by omega, by omega, by omega⟩
    obtain ⟨z1, z2⟩ := hz h3
    exact ⟨by omega, by omega⟩
  have s1 : ∀ b p, P.box d3 b → IsSolPt d3 N p → midX P b → midY P b → (d3 = true → midZ P b) →
      after b p v = part (bulkState c) v := fun b p hb hp hx hy hz =>
    (h.inside b p v hb hp hv hx hy hz).trans (h0 _ _ _ (inn b hb hx hy hz) hp hv)
  have s2 : ∀ b p, P.box d3 b → IsSolPt d3 N p → P.ghostWidth ≤ b.i → midY P b → (d3 = true → midZ P b) →
      after b p v = part (bulkState c) v := by
    intro b p hb hp hx hy hz
    by_cases hi : b.i < P.nx + P.ghostWidth
    · exact s1 b p hb hp ⟨hx, hi⟩ hy hz
    · refine (h.right b p v hb hp hv (by omega) hy hz).trans (s1 _ _ ?_ ?_ ?_ hy hz)
      · obtain ⟨a1, a2, a3⟩ := hb
        exact ⟨by show (0 : Int) ≤ P.nx + P.ghostWidth - 1; omega,
          by show P.nx + P.ghostWidth - 1 < P.isize; omega, a3⟩
      · split_ifs
        · exact hp
        · exact ⟨by have := hp.1; show N - 1 - p.x < N; omega, hp.2⟩
      · exact ⟨by show (P.ghostWidth : Int) ≤ P.nx + P.ghostWidth - 1; omega,
          by show (P.nx : Int) + P.ghostWidth - 1 < _; omega⟩
  have s3 : ∀ b p, P.box d3 b → IsSolPt d3 N p → P.ghostWidth ≤ b.i → (d3 = true → midZ P b) →
      after b p v = part (bulkState c) v := by
    intro b p hb hp hx hz
    have hb' : ∀ j : Int, 0 ≤ j → j < P.jsize → P.box d3 ⟨b.i, j, b.k⟩ := by
      intro j j0 j1
      obtain ⟨a1, a2, -, -, a5⟩ := hb
      exact ⟨a1, a2, j0, j1, a5⟩
    rcases lt_or_ge b.j P.ghostWidth with hj | hj
    · refine (h.bottom b p v hb hp hv hj hz).trans (s2 _ _ (hb' _ (by omega) (by omega)) hp hx ?_ hz)
      exact ⟨le_refl _, by show (P.ghostWidth : Int) < _; omega⟩
    · by_cases hj' : b.j < P.ny + P.ghostWidth
      · exact s2 b p hb hp hx ⟨hj, hj'⟩ hz
      · refine (h.top b p v hb hp hv (by omega) hz).trans (s2 _ _ (hb' _ (by omega) (by omega)) hp hx ?_ hz)
        exact ⟨by show (P.ghostWidth : Int) ≤ P.ny + P.ghostWidth - 1; omega,
          by show (P.ny : Int) + P.ghostWidth - 1 < _; omega⟩
  unfold jetField
  split_ifs with hi hm ho
  · cases hd : d3
    · exact s3 b p hbox hp hi fun h3 => by rw [hd] at h3; cases h3
    · have hb' : ∀ k : Int, 0 ≤ k → k < P.ksize → P.box d3 ⟨b.i, b.j, k⟩ := by
        intro k k0 k1
        obtain ⟨a1, a2, a3, a4, -⟩ := hbox
        exact ⟨a1, a2, a3, a4, by rw [if_pos hd]; exact ⟨k0, k1⟩⟩
      have hz := hnz hd
      rcases lt_or_ge b.k P.ghostWidth with hk | hk
      · refine (h.front hd b p v hbox hp hv hk).trans (s3 _ _ (hb' _ (by omega) (by omega)) hp hi fun _ => ?_)
        exact ⟨le_refl _, by show (P.ghostWidth : Int) < _; omega⟩
      · by_cases hk' : b.k < P.nz + P.ghostWidth
        · exact s3 b p hbox hp hi fun _ => ⟨hk, hk'⟩
        · refine (h.back hd b p v hbox hp hv (by omega)).trans (s3 _ _ (hb' _ (by omega) (by omega)) hp hi fun _ => ?_)
          exact ⟨by show (P.ghostWidth : Int) ≤ P.nz + P.ghostWidth - 1; omega,
            by show (P.nz : Int) + P.ghostWidth - 1 < _; omega⟩
  · rw [h.left b p v hbox hp hv (by omega) hm.1 hm.2, if_pos ho]
    rfl
  · rw [h.left b p v hbox hp hv (by omega) hm.1 hm.2, if_neg ho]
    rfl
  · rfl

theorem jetGrid_of (hC : C.Ok B) : JetGrid C.M.d3 C.P := by
  have hg := hC.box.gw
  have hx := hC.box.nx
  have hy := hC.box.ny
  exact ⟨by omega, by omega, by omega, fun h3 => by have := hC.box.nz h3; omega⟩

theorem jetStep_runs (hC : C.Ok B) (hti : C.ti = .forward_euler) (D : Domain ℝ) (junk : ℕ → Dir → Cell → Pt → HState ℝ) (dt : ℝ)
    (m : Addr → ℝ) : ∃ m', Runs (C.jetStep D (JetParams.make c) junk dt) m m' := by
  have hU : solArray C.ti sU := sU_sol C.ti
  obtain ⟨m1, y1, -⟩ := C128_ghosts c C.M C.S C.P D hU (jetGrid_of hC) m
  obtain ⟨m2, y2, -, -⟩ := divergence_yields (S := C.S) hC.box.ready hC.scheme.orders.1 hU (by decide) (junk 0) m1
  obtain ⟨m3, y3, -, -⟩ := Sdm.update_yields hC.box hU hU hU dt (lit 1) (lit 0) (lit (-1)) m2
  refine ⟨m3, ?_⟩
  have := (y1.append (y2.append y3)).run
  unfold SdmConf.jetStep stepWith
  rw [hti]
  exact this

/-- **C141.** In a build without MPI the jet enters: in every line of points of a cell behind the opening, the first step of
forward Euler from the gas at rest changes the mean of each variable by what the Riemann solver lets in between the jet and
the gas around it, less what would flow there without the jet, per length. -/
theorem C141_jet_enters (hC : C.Ok B) (hG : GasParams C.S) (hti : C.ti = .forward_euler) {D : Domain ℝ}
    (hq : Settled C.M.d3 C.S (bulkState c)) (hj : Settled C.M.d3 C.S (jetState c))
    {junk : ℕ → Dir → Cell → Pt → HState ℝ} {dt : ℝ} {m m' : Addr → ℝ}
    (hm : SameInside C.M.d3 C.M.N C.P (valsOf C.M m sU) (everywhere (bulkState c)))
    (r : Runs (C.jetStep D (JetParams.make c) junk dt) m m') {b : Cell} (hb : Inside C.M.d3 C.P b) (hbi : b.i = C.P.ghostWidth)
    {p : Pt} (hp : IsSolPt C.M.d3 C.M.N p)
    (ho : InOpening c C.M.d3 (D.ymin + (b.j + C.P.ny * D.j_mpi - C.P.ghostWidth + C.M.sp p.y) * C.S.dy)
      (D.zmin + (b.k + C.P.nz * D.k_mpi - C.P.ghostWidth + C.M.sp p.z) * C.S.dz))
    {iv : ℕ} (hv : iv < hydroVars C.M.d3) :
    (lineMean C.M.N fun k => valsOf C.M m' sU b (p.set .x k) iv) = part (bulkState c) iv +
      dt / C.S.dx * (part (Sdm.faceFlux C.M.d3 C.S .x (jetState c) (bulkState c)) iv -
        part (gasFlux C.M.d3 C.S.gamma0 .x (bulkState c)) iv) := by
  have hP := jetGrid_of hC
  have hN := hC.scheme.orders.1
  have hU : solArray C.ti sU := sU_sol C.ti
  obtain ⟨m1, y1, g1⟩ := C128_ghosts c C.M C.S C.P D hU hP m
  obtain ⟨m2, y2, e2, f2⟩ := divergence_yields (S := C.S) hC.box.ready hN hU (by decide) (junk 0) m1
  obtain ⟨m3, y3, e3, -⟩ := Sdm.update_yields hC.box hU hU hU dt (lit 1) (lit 0) (lit (-1)) m2
  have y : YieldsAll (sdmDom C.M.d3 C.M.N C.P C.ti) (C.jetStep D (JetParams.make c) junk dt) m m3 := by
    have := y1.append (y2.append y3)
    unfold SdmConf.jetStep stepWith
    rw [hti] at this ⊢
    exact this
  obtain rfl := y.unique r
  set u := jetField c C.M.d3 C.P (fun j k => D.ymin + (j + C.P.ny * D.j_mpi - C.P.ghostWidth + C.M.sp k) * C.S.dy)
    (fun j k => D.zmin + (j + C.P.nz * D.k_mpi - C.P.ghostWidth + C.M.sp k) * C.S.dz) (valsOf C.M m1 sU) with hu
  have nv : ∀ {v}, v < hydroVars C.M.d3 → v < C.P.nbvar := fun h => hC.box.nv ▸ h
  have eu : ∀ b p v, C.P.box C.M.d3 b → IsSolPt C.M.d3 C.M.N p → v < hydroVars C.M.d3 → valsOf C.M m1 sU b p v = u b p v :=
    fun b p v h1 h2 h3 => jetField_eq hP g1 (fun b p v h1 h2 h3 => hm b p v h1.1 h1.2 h2 (hC.box.nv ▸ h3)) h1 h2 (nv h3)
  have right : ∀ b p v, C.P.ghostWidth ≤ b.i → u b p v = part (bulkState c) v := fun b p v h => if_pos h
  have hbx : ∀ k, k < C.M.N → IsSolPt C.M.d3 C.M.N (p.set .x k) := fun k hk => ⟨hk, hp.2⟩
  -- the value after the step
  have val : ∀ k, k < C.M.N → valsOf C.M m' sU b (p.set .x k) iv = part (bulkState c) iv - dt *
      slopeOf C.M.d3 C.M.N C.S (eulerFluxOf C.M.d3 C.S) (riemannFlux C.M.d3 C.S HState.zero) u .x b (p.set .x k) iv := by
    intro k hk
    have a1 := e3 b _ iv hb.1 hb.2 (hbx k hk) hv
    have a2 : valsOf C.M m2 sU b (p.set .x k) iv = part (bulkState c) iv :=
      (f2 _ (by show sU ≠ sDiv; decide) (by show sU ≠ sF; decide)).trans
        ((eu b _ iv hb.1 (hbx k hk) hv).trans (right _ _ _ hbi.ge))
    have a3 : valsOf C.M m2 sDiv b (p.set .x k) iv = divergenceOf C.M.d3 C.M.N C.S (eulerFluxOf C.M.d3 C.S)
        (riemannFlux C.M.d3 C.S HState.zero) u b (p.set .x k) iv :=
      (e2 b _ iv hb.1 (hbx k hk) hv).trans ((divAll_congr eu iv hb.1 (hbx k hk)).trans
        (divAll_eq hC.scheme hC.box hC.solver u hb.2 (hbx k hk) hv))
    have sy := slope_local (u := u) (b := b) (d := .y) hC.scheme hG hC.solver hq (.inr (by decide))
      (fun _ _ _ => right _ _ _ hbi.ge) (fun _ _ _ => right _ _ _ hbi.ge) (fun _ _ _ => right _ _ _ hbi.ge) (p.set .x k) iv
    have sz : (if C.M.d3 then slopeOf C.M.d3 C.M.N C.S (eulerFluxOf C.M.d3 C.S) (riemannFlux C.M.d3 C.S HState.zero)
        u .z b (p.set .x k) iv else 0) = 0 := by
      by_cases h3 : C.M.d3 = true
      · rw [if_pos h3]
        exact slope_local (u := u) (b := b) (d := .z) hC.scheme hG hC.solver hq (.inl h3)
          (fun _ _ _ => right _ _ _ hbi.ge) (fun _ _ _ => right _ _ _ hbi.ge) (fun _ _ _ => right _ _ _ hbi.ge) _ iv
      · exact if_neg h3
    rw [a1]
    beta_reduce
    rw [a2, a3]
    unfold divergenceOf combine
    rw [sy, sz]
    rops
    norm_num
    ring
  -- the slope
  have hin : midY C.P (b.down .x) ∧ (C.M.d3 = true → midZ C.P (b.down .x)) := by
    have ej := C.P.jsize_eq
    have ek := C.P.ksize_eq
    obtain ⟨z1, y1, y2, -⟩ := hb.2
    exact ⟨⟨y1, by show b.j < _; omega⟩, fun h3 => ⟨(z1 h3).1, by have := (z1 h3).2; show b.k < _; omega⟩⟩
  have left : ∀ k v, u (b.down .x) (p.set .x k) v = part (jetState c) v := by
    intro k v
    have h1 : ¬ (C.P.ghostWidth : Int) ≤ (b.down .x).i := by show ¬ _ ≤ b.i - 1; omega
    rw [hu, jetField, if_neg h1, if_pos hin]
    exact congrArg (part · v) (if_pos ho)
  have fl : ∀ k, part (pointFlux C.M.N (eulerFluxOf C.M.d3 C.S .x) (riemannFlux C.M.d3 C.S HState.zero .x) .x
      (pointState C.M.d3 C.M.N C.S.smallr .x u) b (p.set .x k)) iv =
      if k = 0 then part (Sdm.faceFlux C.M.d3 C.S .x (jetState c) (bulkState c)) iv
      else part (gasFlux C.M.d3 C.S.gamma0 .x (bulkState c)) iv := by
    intro k
    have s0 : ∀ p, pointState C.M.d3 C.M.N C.S.smallr .x u b p = bulkState c := fun p =>
      pointState_line (q := bulkState c) hN hq.floors.d hq.phys.w fun _ _ _ => right _ _ _ hbi.ge
    have s2 : ∀ p, pointState C.M.d3 C.M.N C.S.smallr .x u (b.up .x) p = bulkState c := fun p =>
      pointState_line (q := bulkState c) hN hq.floors.d hq.phys.w fun _ _ _ => right _ _ _ (by show _ ≤ b.i + 1; omega)
    have s1 : ∀ k, pointState C.M.d3 C.M.N C.S.smallr .x u (b.down .x) (p.set .x k) = jetState c := fun k =>
      pointState_line (q := jetState c) hN hj.floors.d hj.phys.w fun k' v _ => left k' v
    unfold pointFlux
    simp only [s0, s2]
    rw [show ((p.set .x k).set .x C.M.N) = p.set .x C.M.N from rfl, s1, riemannFlux_eq hG.gamma hj.phys hq.phys,
      riemannFlux_eq hG.gamma hq.phys hq.phys, faceFlux_self hG hC.solver (.inr (by decide)) hq.floors,
      eulerFluxOf_eq (.inr (by decide)) hG.gamma hq.phys, ite_self]
    show part (if k = 0 then _ else _) iv = _
    by_cases h0 : k = 0
    · rw [if_pos h0, if_pos h0]
    · rw [if_neg h0, if_neg h0]
  rw [lineMean_congr val]
  have sl : ∀ k, slopeOf C.M.d3 C.M.N C.S (eulerFluxOf C.M.d3 C.S) (riemannFlux C.M.d3 C.S HState.zero) u .x b (p.set .x k) iv =
      lineSlope C.M.N (fun k => if k = 0 then part (Sdm.faceFlux C.M.d3 C.S .x (jetState c) (bulkState c)) iv
        else part (gasFlux C.M.d3 C.S.gamma0 .x (bulkState c)) iv) (solPts C.M.N k) / C.S.dx := by
    intro k
    unfold slopeOf
    rw [show (fun j => part (pointFlux C.M.N (eulerFluxOf C.M.d3 C.S .x) (riemannFlux C.M.d3 C.S HState.zero .x) .x
      (pointState C.M.d3 C.M.N C.S.smallr .x u) b ((p.set .x k).set .x j)) iv) = _ from funext fun j => fl j]
    rfl
  simp only [sl]
  rw [show (fun k => part (bulkState c) iv - dt * (lineSlope C.M.N (fun k => if k = 0 then
      part (Sdm.faceFlux C.M.d3 C.S .x (jetState c) (bulkState c)) iv else part (gasFlux C.M.d3 C.S.gamma0 .x (bulkState c)) iv)
        (solPts C.M.N k) / C.S.dx)) = fun k => part (bulkState c) iv * (fun _ => (1 : ℝ)) k + (-dt / C.S.dx) *
      (fun k => lineSlope C.M.N (fun k => if k = 0 then part (Sdm.faceFlux C.M.d3 C.S .x (jetState c) (bulkState c)) iv
        else part (gasFlux C.M.d3 C.S.gamma0 .x (bulkState c)) iv) (solPts C.M.N k)) k from funext fun k => by ring]
  rw [lineMean_lin, lineMean_slope hC.scheme.orders, lineMean_const hN, lineMean_const hN, if_pos rfl, if_neg (by omega)]
  ring

theorem jet_mass_flux (d3 : Bool) (S : Settings ℝ) (ql qr : HState ℝ) : ∃ cm : ℝ, 0 ≤ cm ∧
    (riemann_llf d3 S ql qr).d = 1 / 2 * (ql.d * ql.u + qr.d * qr.u - cm * (qr.d - ql.d)) := by
  refine ⟨fmax (fabs ql.u + ROps.sqrt (S.gamma0 * fmax ql.p (fmax ql.d S.smallr * S.smallp) / fmax ql.d S.smallr))
    (fabs qr.u + ROps.sqrt (S.gamma0 * fmax qr.p (fmax qr.d S.smallr * S.smallp) / fmax qr.d S.smallr)), ?_, ?_⟩
  · exact le_max_of_le_left (add_nonneg (abs_nonneg _) (Real.sqrt_nonneg _))
  · have : (lit (1 / 2) : ℝ) = 1 / 2 := by rops
    rw [← this]
    rfl

/-- **C141.** With the solver `llf`, a jet at least as dense as the gas at rest around it changes the density behind the opening
in the first step of a build without MPI, whereas with MPI it stays the same for ever (`C141_no_jet`). -/
theorem C141_density_changes (hC : C.Ok B) (hG : GasParams C.S) (hti : C.ti = .forward_euler) (hllf : C.S.riemann = .llf)
    (hdx : 0 < C.S.dx) {D : Domain ℝ}
    (hq : Settled C.M.d3 C.S (bulkState c)) (hj : Settled C.M.d3 C.S (jetState c)) (hrest : (bulkState c).u = 0)
    (hin : 0 < (jetState c).u) (hd : (bulkState c).d ≤ (jetState c).d)
    {junk : ℕ → Dir → Cell → Pt → HState ℝ} {dt : ℝ} (hdt : 0 < dt) {m m' : Addr → ℝ}
    (hm : SameInside C.M.d3 C.M.N C.P (valsOf C.M m sU) (everywhere (bulkState c)))
    (r : Runs (C.jetStep D (JetParams.make c) junk dt) m m') {b : Cell} (hb : Inside C.M.d3 C.P b) (hbi : b.i = C.P.ghostWidth)
    {p : Pt} (hp : IsSolPt C.M.d3 C.M.N p)
    (ho : InOpening c C.M.d3 (D.ymin + (b.j + C.P.ny * D.j_mpi - C.P.ghostWidth + C.M.sp p.y) * C.S.dy)
      (D.zmin + (b.k + C.P.nz * D.k_mpi - C.P.ghostWidth + C.M.sp p.z) * C.S.dz)) :
    ∃ k, k < C.M.N ∧ valsOf C.M m' sU b (p.set .x k) 0 ≠ (bulkState c).d := by
  by_contra hne
  push Not at hne
  have h := C141_jet_enters hC hG hti hq hj hm r hb hbi hp ho (iv := 0)
    (by show 0 < hydroVars C.M.d3; cases C.M.d3 <;> decide)
  rw [lineMean_congr hne, lineMean_const hC.scheme.orders.1] at h
  have hpos : 0 < dt / C.S.dx := by positivity
  have e1 : part (gasFlux C.M.d3 C.S.gamma0 .x (bulkState c)) 0 = 0 := by
    simp [gasFlux, fluxAlong, part, Sdm.primOf, Dir.pick, hrest]
  have e2 : 0 < part (Sdm.faceFlux C.M.d3 C.S .x (jetState c) (bulkState c)) 0 := by
    have k : ∃ cm, 0 ≤ cm ∧ part (Sdm.faceFlux C.M.d3 C.S .x (jetState c) (bulkState c)) 0 =
        1 / 2 * ((jetState c).d * ((jetState c).u / (jetState c).d) + (bulkState c).d * ((bulkState c).u / (bulkState c).d) -
          cm * ((bulkState c).d - (jetState c).d)) := by
      have := jet_mass_flux C.M.d3 C.S (Sdm.primOf C.M.d3 C.S.gamma0 (jetState c)) (Sdm.primOf C.M.d3 C.S.gamma0 (bulkState c))
      unfold Sdm.faceFlux riemann_hydro
      revert this
      cases C.M.d3 <;> simp only [hllf, if_true, Bool.false_eq_true, if_false] <;> exact id
    obtain ⟨cm, h0, e⟩ := k
    have := hj.phys.pos
    rw [e, hrest, zero_div, mul_zero, mul_div_cancel₀ _ this.ne']
    nlinarith [mul_nonneg h0 (sub_nonneg.2 hd)]
  have : part (bulkState c) 0 = (bulkState c).d := rfl
  rw [this, e1, sub_zero] at h
  have := mul_pos hpos e2
  linarith

/-! ### The hypotheses can be met -/

/-- A parameter file: a jet of speed 1 through a wide opening, the other values by default. -/
noncomputable def exampleJet : ConfigReader ℝ :=
  ⟨fun _ _ d => d, fun s k d => if s = "hydro" then 7 / 5 else if k = "width_jet" then 100 else if k = "u_jet" then 1 else d,
    fun _ _ d => d⟩

/-- A run with forward Euler and the solver `llf` in the channel of `C85_C89_SdmStep`. -/
noncomputable def exampleJetConf : SdmConf ℝ :=
  { exampleSdmConf true with S := { hllcSettings with riemann := .llf }, ssprk3 := false }

theorem exampleJet_bulk : bulkState exampleJet = ⟨0.5, 0.4127 / 0.4, 0, 0, 0⟩ := by
  unfold bulkState bulkGas jetGamma exampleJet PointGas.conserved
  simp only [String.reduceEq, if_true, if_false]
  ext <;> norm_num

theorem exampleJet_jet : jetState exampleJet = ⟨5, 0.4127 / 0.4 + 2.5, 5, 0, 0⟩ := by
  unfold jetState jetGas jetGamma exampleJet PointGas.conserved
  simp only [String.reduceEq, if_true, if_false]
  ext <;> norm_num

/-- One and the same configuration, a jet entering the 3D channel: on twelve processes of a build with MPI all files show gas at rest; in
one step of a build without MPI the density behind the opening changes. -/
example : (∃ s, exampleJetConf.JetMpi exampleRanks (JetParams.make exampleJet) (some s) ∧ ∀ r, r < 12 → (s r).files ≠ [] ∧
      ∀ f ∈ (s r).files, ∀ b p, Inside true exampleJetConf.P b → IsSolPt true 3 p → sdmVals exampleJetConf f.data b p 0 = 0.5) ∧
    ∃ m m', SameInside true 3 exampleJetConf.P (valsOf exampleJetConf.M m sU) (everywhere (bulkState exampleJet)) ∧
      Runs (exampleJetConf.jetStep ⟨0, 6, 0, 6, 0, 4, 0, 0, 0⟩ (JetParams.make exampleJet) (fun _ _ _ _ => HState.zero) (1 / 100)) m m' ∧
      ∃ k, k < 3 ∧ valsOf exampleJetConf.M m' sU ⟨1, 1, 1⟩ ⟨k, 0, 0⟩ 0 ≠ 0.5 := by
  have hC : exampleJetConf.Ok channelSides :=
    ⟨exampleScheme_exact true, channel_setup true, by constructor <;> simp [exampleJetConf]⟩
  have hT : RanksOk true exampleRanks := ⟨by decide, by decide, by decide, fun h => by cases h⟩
  have hG : GasParams exampleJetConf.S := by
    constructor <;> norm_num [exampleJetConf, hllcSettings, exampleSettings]
  have hti : exampleJetConf.ti = .forward_euler := rfl
  have hq : Settled true exampleJetConf.S (bulkState exampleJet) := by
    rw [exampleJet_bulk]
    refine ⟨⟨by norm_num, ?_, by simp⟩, ⟨?_, ?_⟩⟩ <;>
      norm_num [Sdm.primOf, exampleJetConf, hllcSettings, exampleSettings]
  have hj : Settled true exampleJetConf.S (jetState exampleJet) := by
    rw [exampleJet_jet]
    refine ⟨⟨by norm_num, ?_, by simp⟩, ⟨?_, ?_⟩⟩ <;>
      norm_num [Sdm.primOf, exampleJetConf, hllcSettings, exampleSettings]
  have hsp : Spacings true exampleJetConf.S := by
    constructor <;> intros <;> norm_num [exampleJetConf, hllcSettings, exampleSettings]
  have hw : RestAtWalls true channelSides (bulkState exampleJet) := by
    rw [exampleJet_bulk]; intro d _ _; cases d <;> rfl
  have hd : (bulkState exampleJet).d = 0.5 := by rw [exampleJet_bulk]
  refine ⟨?_, ?_⟩
  · obtain ⟨⟨s, hs⟩, h⟩ := C141_no_jet (C := exampleJetConf) (T := exampleRanks) (c := exampleJet) hT hC hG
      (by norm_num [exampleJetConf, hllcSettings, exampleSettings]) hsp
      (by norm_num [exampleJetConf, hllcSettings, exampleSettings]) (by simp [exampleJetConf, exampleSdmConf])
      (by rw [hti]; decide) (by rw [hd]; norm_num) hq hw
    obtain ⟨_, ⟨⟩, f⟩ := h _ hs
    refine ⟨s, hs, fun r hr => ⟨(f r hr).1 (by simp [exampleJetConf, exampleSdmConf]), fun x hx b p hb hp => ?_⟩⟩
    rw [← hd]
    exact (f r hr).2 x hx b p 0 hb.1 hb.2 hp (by decide)
  · obtain ⟨m, hm, e⟩ := initJet_runs (c := exampleJet) hC (fun _ => 0)
    have hm' : SameInside true 3 exampleJetConf.P (valsOf exampleJetConf.M m sU) (everywhere (bulkState exampleJet)) :=
      fun b p v hb _ hp hv => e m hm b p v hb hp hv
    obtain ⟨m', r⟩ := jetStep_runs (c := exampleJet) hC hti ⟨0, 6, 0, 6, 0, 4, 0, 0, 0⟩ (fun _ _ _ _ => HState.zero) (1 / 100) m
    refine ⟨m, m', hm', r, ?_⟩
    rw [← hd]
    refine C141_density_changes (p := ⟨0, 0, 0⟩) hC hG hti rfl (by norm_num [exampleJetConf, hllcSettings, exampleSettings]) hq hj
      (by rw [exampleJet_bulk]) (by rw [exampleJet_jet]; norm_num) (by rw [exampleJet_jet, exampleJet_bulk]; norm_num)
      (by norm_num) hm' r ?_ rfl ⟨by decide, by decide, by decide⟩ ?_
    · exact ⟨by decide, by decide⟩
    · unfold InOpening
      rw [if_pos (by rfl)]
      show (0 + (((1 : Int) : ℝ) + ((2 : Int) : ℝ) * ((0 : Int) : ℝ) - ((1 : Int) : ℝ) + solPts 3 0) * 1 -
          exampleJet.getFloat "jet" "pos_jet" 0) ^ 2 +
        (0 + (((1 : Int) : ℝ) + ((2 : Int) : ℝ) * ((0 : Int) : ℝ) - ((1 : Int) : ℝ) + solPts 3 0) * 1 -
          exampleJet.getFloat "jet" "pos_jet" 0) ^ 2 < (exampleJet.getFloat "jet" "width_jet" 0.1 / 2) ^ 2
      unfold exampleJet
      simp only [String.reduceEq, if_true, if_false]
      have h0 := solPts_pos (N := 3) (i := 0) (by decide)
      have h1 := solPts_lt_one (N := 3) (i := 0) (by decide)
      push_cast
      nlinarith

end Verif
