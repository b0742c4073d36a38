import Verif.Props.C148_WedgeStages
import Verif.Props.C149_JetSame

/-!
# C150: the wedge problem without MPI has one result
-/

namespace Verif

open Spec ROps Sdm Start Special

variable {C : SdmConf ℝ} {B : Sides} {c : ConfigReader ℝ} {D : Domain ℝ}

/-- What is in the box decides about the ghost cells of the wedge problem. -/
theorem wedge_det {W : MovingShock} {g t : ℝ} {P : Grid} {N : ℕ} {x y : Int → ℕ → ℝ} {rest u a u' a' : Vals ℝ}
    (hg : 0 < P.ghostWidth) (hnx : 1 ≤ P.nx) (hny : P.ghostWidth ≤ P.ny)
    (h : WedgeGhosts W g t P N x y rest u a) (h' : WedgeGhosts W g t P N x y rest u' a')
    (e : ∀ b p v, Inside false P b → IsSolPt false N p → v < 4 → u b p v = u' b p v) {b : Cell} {p : Pt} {v : ℕ}
    (hb : P.box false b) (hp : IsSolPt false N p) (hv : v < 4) : a b p v = a' b p v := by
  have ei := P.isize_eq
  have ej := P.jsize_eq
  have s1 : ∀ b p, P.box false b → IsSolPt false N p → midX P b → midY P b → a b p v = a' b p v := by
    intro b p hb hp hx hy
    rw [h.inside b p v hb hp hv hx hy, h'.inside b p v hb hp hv hx hy]
    refine e b p v ?_ hp hv
    obtain ⟨x1, x2⟩ := hx
    obtain ⟨y1, y2⟩ := hy
    have inn : ∀ d3, d3 = false → P.box d3 b → Inside d3 P b := fun d3 h3 hb =>
      ⟨hb, fun h => by simp [h3] at h, by omega, by omega, by omega, by omega⟩
    exact inn false rfl hb
  have s2 : ∀ b p, P.box false b → IsSolPt false N p → midY P b → a b p v = a' b p v := by
    intro b p hb hp hy
    by_cases hl : b.i < P.ghostWidth
    · rw [h.left b p v hb hp hv hl hy, h'.left b p v hb hp hv hl hy]
    by_cases hi : b.i < P.nx + P.ghostWidth
    · exact s1 b p hb hp ⟨by omega, hi⟩ hy
    · rw [h.right b p v hb hp hv (by omega) hy, h'.right b p v hb hp hv (by omega) hy]
      refine s1 _ _ ?_ ⟨by have := hp.1; show N - 1 - p.x < N; omega, hp.2⟩ ?_ hy
      · obtain ⟨a1, a2, a3⟩ := hb
        exact ⟨by show (0 : Int) ≤ P.nx + P.ghostWidth - 1; omega, by show P.nx + P.ghostWidth - 1 < P.isize; omega, a3⟩
      · exact ⟨by show (P.ghostWidth : Int) ≤ P.nx + P.ghostWidth - 1; omega,
          by show (P.nx : Int) + P.ghostWidth - 1 < _; omega⟩
  rcases lt_or_ge b.j P.ghostWidth with hj | hj
  · rcases lt_or_ge (x b.i p.x) W.x0 with hx | hx
    · rw [h.floor b p v hb hp hv hj hx, h'.floor b p v hb hp hv hj hx]
    · rw [h.wall b p v hb hp hv hj hx, h'.wall b p v hb hp hv hj hx]
      congr 1
      have j0 : 0 ≤ b.j := hb.2.2.1
      refine s2 _ _ ?_ ⟨hp.1, by have := hp.2.1; show N - 1 - p.y < N; omega, hp.2.2⟩ ?_
      · obtain ⟨a1, a2, -, -, a5⟩ := hb
        exact ⟨a1, a2, by show (0 : Int) ≤ 2 * P.ghostWidth - 1 - b.j; omega,
          by show 2 * P.ghostWidth - 1 - b.j < P.jsize; omega, a5⟩
      · exact ⟨by show (P.ghostWidth : Int) ≤ 2 * P.ghostWidth - 1 - b.j; omega,
          by show 2 * (P.ghostWidth : Int) - 1 - b.j < _; omega⟩
  · by_cases hj2 : b.j < P.ny + P.ghostWidth
    · exact s2 b p hb hp ⟨hj, hj2⟩
    · rw [h.top b p v hb hp hv (by omega), h'.top b p v hb hp hv (by omega)]

theorem wedge_frame (w : WedgeParams ℝ) {M : Scheme ℝ} (hM : M.d3 = false) (S : Settings ℝ)
    (P : Grid) {ti : Mood.TimeInt} {U : ℕ} (hU : solArray ti U)
    (hg : 0 < P.ghostWidth) (hnx : 1 ≤ P.nx) (hny : P.ghostWidth ≤ P.ny) (m : Addr → ℝ) :
    ∃ m', YieldsAll (sdmDom false M.N P ti) (sdmWedgeBoundaries M w S P D U) m m' ∧ ∀ a : Addr, a.arr ≠ U → m' a = m a := by
  obtain ⟨lay, d3, N, sp, fp⟩ := M
  obtain rfl : d3 = false := hM
  have hsrc : ∀ f, (false = true ∨ dirOf f ≠ .z) → ∀ b, region false P f b → ∀ p ∈ cellPts false N,
      ∀ iv < P.nbvar, (sdmWedgeSource ⟨lay, false, N, sp, fp⟩ w S P D f b p iv).From
        (cellPts false N) (Along P (dirOf f) b) := by
    intro f hf b hb p hp iv _
    have hb2 := hb.2
    have hp' := mem_cellPts.1 hp
    have hmx : mirrorX N p ∈ cellPts false N :=
      mem_cellPts.2 ⟨by have := hp'.1; show N - 1 - p.x < N; omega, hp'.2⟩
    have hmy : mirrorY N p ∈ cellPts false N :=
      mem_cellPts.2 ⟨hp'.1, by have := hp'.2.1; show N - 1 - p.y < N; omega, hp'.2.2⟩
    cases f
    · trivial
    · exact ⟨⟨⟨_, rfl⟩, by show P.ghostWidth ≤ P.nx + P.ghostWidth - 1; omega,
        by show P.nx + P.ghostWidth - 1 < P.nx + P.ghostWidth; omega⟩, hmx⟩
    · unfold sdmWedgeSource
      simp only
      split_ifs
      · trivial
      · have h2 : b.j < P.ghostWidth := hb2
        have h3 : 0 ≤ b.j := hb.1.2.2.1
        exact ⟨⟨⟨_, rfl⟩, by show P.ghostWidth ≤ 2 * P.ghostWidth - 1 - b.j; omega,
          by show 2 * P.ghostWidth - 1 - b.j < P.ny + P.ghostWidth; omega⟩, hmy⟩
    · unfold sdmWedgeSource
      simp only
      split_ifs <;> trivial
    · simp [dirOf] at hf
    · simp [dirOf] at hf
  obtain ⟨m', y, -, -, f⟩ := ghost_fill
    (places_sdm (M := (⟨lay, false, N, sp, fp⟩ : Scheme ℝ)) hU) (posAll2 hg hnx hny) hsrc m
  exact ⟨m', y, f⟩

theorem wedge_fills (hC : C.Ok B) (h2 : C.M.d3 = false) (h0 : 0 < (wedgeShock c).angle) (h1 : (wedgeShock c).angle < Real.pi / 2)
    (t : ℝ) (ti : Mood.TimeInt) :
    FillsFromBox C ti (fun A => sdmWedgeBoundaries C.M (WedgeParams.make c t) C.S C.P D A) := by
  intro A hA m n e
  have hg := hC.box.gw
  have hx := hC.box.nx
  have hy := hC.box.ny
  obtain ⟨m1, y1, g1⟩ := wedge_fill (D := D) hC h2 h0 h1 t hA m
  obtain ⟨n1, z1, k1⟩ := wedge_fill (D := D) hC h2 h0 h1 t hA n
  obtain ⟨m1', y1', f1⟩ := wedge_frame (D := D) (WedgeParams.make c t) h2 C.S C.P hA (by omega) (by omega) (by omega) m
  obtain ⟨n1', z1', f2⟩ := wedge_frame (D := D) (WedgeParams.make c t) h2 C.S C.P hA (by omega) (by omega) (by omega) n
  obtain rfl := y1.unique y1'.run
  obtain rfl := z1.unique z1'.run
  refine ⟨_, _, y1, z1, fun b p v hb hp hv => ?_, f1, f2⟩
  have e' : ∀ b p v, Inside false C.P b → IsSolPt false C.M.N p → v < 4 → valsOf C.M m A b p v = valsOf C.M n A b p v := by
    have := e
    unfold SameInside at this
    rw [h2] at this
    exact fun b p v hb hp hv => this b p v hb.1 hb.2 hp hv
  rw [h2] at hb hp hv
  exact wedge_det (by omega) (by omega) (by omega) g1 k1 e' hb hp hv

/-- **C150**: a step of the wedge problem without MPI gives in the box one result, whatever was in the ghost cells and in the other
arrays before, whatever the values of uninitialised variables and the schedule, with every time integration. -/
theorem C150_step (hC : C.Ok B) (h2 : C.M.d3 = false) (h0 : 0 < (wedgeShock c).angle) (h1 : (wedgeShock c).angle < Real.pi / 2)
    {ti : Mood.TimeInt} {t dt : ℝ} {junk junk' : ℕ → Dir → Cell → Pt → HState ℝ} {m n m' n' : Addr → ℝ}
    (e : SameInside C.M.d3 C.M.N C.P (valsOf C.M m sU) (valsOf C.M n sU))
    (r : Runs (C.wedgeStep D (WedgeParams.make c) ti t junk dt) m m')
    (r' : Runs (C.wedgeStep D (WedgeParams.make c) ti t junk' dt) n n') :
    SameInside C.M.d3 C.M.N C.P (valsOf C.M m' sU) (valsOf C.M n' sU) :=
  step_same hC (wedge_fills hC h2 h0 h1 t ti) e r r'

theorem wedge_loop_ends (hC : C.Ok B) (h2 : C.M.d3 = false) (h0 : 0 < (wedgeShock c).angle)
    (h1 : (wedgeShock c).angle < Real.pi / 2) (m : Addr → ℝ) (t : ℝ) (it : ℕ) :
    ∃ m' t' n, C.WedgeLoop D (WedgeParams.make c) m t it m' t' n := by
  obtain ⟨n, hk⟩ : ∃ n : ℕ, C.ctl.nStepmax ≤ it + n := ⟨(C.ctl.nStepmax - it).toNat, by omega⟩
  induction n generalizing m t it with
  | zero =>
    refine ⟨m, t, it, .done ?_⟩
    have : (it : Int) ≥ C.ctl.nStepmax := by simpa using hk
    simp [Sim.finished, HydroState.ctl, this]
  | succ n ih =>
    by_cases hf : C.ctl.finished (⟨m, t, lit 0, it, 0, []⟩ : HydroState ℝ).ctl = true
    · exact ⟨m, t, it, .done hf⟩
    · obtain ⟨d, hd⟩ := (sdm_total hC).dt it m
      obtain ⟨m1, y1⟩ := C148_safe (D := D) hC h2 h0 h1 C.ti t (fun _ _ _ _ => HState.zero) (C.ctl.computeDt t d) m
      obtain ⟨m', t', k, l⟩ := ih m1 (t + C.ctl.computeDt t d) (it + 1) (by push_cast at hk ⊢; omega)
      exact ⟨m', t', k, .step (by simpa using hf) hd y1.run l⟩

theorem wedge_loop_same (hC : C.Ok B) (h2 : C.M.d3 = false) (h0 : 0 < (wedgeShock c).angle)
    (h1 : (wedgeShock c).angle < Real.pi / 2) {m n m' n' : Addr → ℝ} {t s s' : ℝ} {it k k' : ℕ}
    (l : C.WedgeLoop D (WedgeParams.make c) m t it m' s k)
    (e : SameInside C.M.d3 C.M.N C.P (valsOf C.M m sU) (valsOf C.M n sU))
    (l' : C.WedgeLoop D (WedgeParams.make c) n t it n' s' k') :
    SameInside C.M.d3 C.M.N C.P (valsOf C.M m' sU) (valsOf C.M n' sU) ∧ s = s' ∧ k = k' := by
  induction l generalizing n with
  | done hf =>
    cases l' with
    | done => exact ⟨e, rfl, rfl⟩
    | step hf' => cases hf.symm.trans hf'
  | step hf hd r _ ih =>
    cases l' with
    | done hf' => cases hf'.symm.trans hf
    | step _ hd' r' l' =>
      obtain rfl := sdm_dt (lay := C.M.lay) hC e hd hd'
      exact ih (C150_step hC h2 h0 h1 e r r') l'

/-- **C150**: all runs of the wedge problem without MPI end, and they end after the same number of steps, at the same time, with the same
gas at every point of the box. -/
theorem C150_same (hC : C.Ok B) (h2 : C.M.d3 = false) (h0 : 0 < (wedgeShock c).angle) (h1 : (wedgeShock c).angle < Real.pi / 2) :
    (∃ m t n, C.WedgeSerial D (WedgeParams.make c) m t n) ∧
    ∀ m t n m' t' n', C.WedgeSerial D (WedgeParams.make c) m t n → C.WedgeSerial D (WedgeParams.make c) m' t' n' →
      SameInside C.M.d3 C.M.N C.P (valsOf C.M m sU) (valsOf C.M m' sU) ∧ t = t' ∧ n = n' := by
  have hU : solArray C.ti sU := sU_sol C.ti
  obtain ⟨m1, y1, -⟩ := C127_init_sdm h0 h1 C.M C.S C.P D hU (nonempty_of_box hC.box (by decide)) (fun _ => lit 0)
  have e0 : (lit 0 : ℝ) = 0 := by rops
  have y1' : YieldsAll (sdmDom C.M.d3 C.M.N C.P C.ti) [sdmWedgeInit C.M (WedgeParams.make c (lit 0)) C.S C.P D sU]
      (fun _ => lit 0) m1 := by rw [e0] at y1 ⊢; exact .cons y1 (.nil _)
  obtain ⟨m2, y2, -⟩ := wedge_fill (c := c) (D := D) hC h2 h0 h1 C.ctl.tCurrent hU m1
  constructor
  · obtain ⟨m, t, n, l⟩ := wedge_loop_ends (c := c) (D := D) hC h2 h0 h1 m2 C.ctl.tCurrent 0
    exact ⟨m, t, n, m1, m2, y1'.run, y2.run, l⟩
  · rintro m t n m' t' n' ⟨a1, a2, ra1, ra2, la⟩ ⟨b1, b2, rb1, rb2, lb⟩
    obtain rfl := y1'.unique ra1
    obtain rfl := y1'.unique rb1
    obtain rfl := y2.unique ra2
    obtain rfl := y2.unique rb2
    exact wedge_loop_same hC h2 h0 h1 la (SameInside.refl _) lb

/-- **C150**: the clock of a run.  A run passes through states `ms k` at times `ts k`; step `k` is taken with the boundaries for time
`ts k` and moves the clock by its time step, not past the end time; no step starts after the end time or the last step. -/
theorem C150_clock {m m' : Addr → ℝ} {t t' : ℝ} {it n : ℕ} (l : C.WedgeLoop D (WedgeParams.make c) m t it m' t' n) :
    it ≤ n ∧ (C.ctl.tEnd - 1e-14 ≤ t' ∨ C.ctl.nStepmax ≤ n) ∧ ∃ (ms : ℕ → Addr → ℝ) (ts : ℕ → ℝ),
      ms it = m ∧ ts it = t ∧ ms n = m' ∧ ts n = t' ∧ ∀ k, it ≤ k → k < n →
        ts k < C.ctl.tEnd - 1e-14 ∧ (k : Int) < C.ctl.nStepmax ∧
        ∃ d junk, C.driver.Dt k (ms k) d ∧ ts (k + 1) = min (ts k + d) C.ctl.tEnd ∧
          Runs (C.wedgeStep D (WedgeParams.make c) C.ti (ts k) junk (ts (k + 1) - ts k)) (ms k) (ms (k + 1)) := by
  have fin : ∀ (m : Addr → ℝ) (t : ℝ) (it : ℕ), C.ctl.finished (⟨m, t, lit 0, it, 0, []⟩ : HydroState ℝ).ctl = true ↔
      C.ctl.tEnd - 1e-14 ≤ t ∨ C.ctl.nStepmax ≤ it := by
    intro m t it
    have e : (1 / 10 ^ 14 : ℝ) = 1e-14 := by norm_num
    rw [← e]
    unfold Sim.finished HydroState.ctl
    rw [Bool.or_eq_true, decide_eq_true_iff]
    rops
    push_cast
    exact Iff.rfl
  induction l with
  | @done m t it hf =>
    refine ⟨le_rfl, ?_, fun _ => m, fun _ => t, rfl, rfl, rfl, rfl, fun k h h' => by omega⟩
    exact (fin _ _ _).1 hf
  | @step m t it d junk m1 m2 t2 n hf hd r l ih =>
    obtain ⟨hn, he, ms, ts, a1, a2, a3, a4, a⟩ := ih
    refine ⟨by omega, he, fun k => if k = it then m else ms k, fun k => if k = it then t else ts k, if_pos rfl, if_pos rfl, ?_, ?_, ?_⟩
    · show (if n = it then m else ms n) = m2
      rw [if_neg (by omega), a3]
    · show (if n = it then t else ts n) = t2
      rw [if_neg (by omega), a4]
    · intro k h h'
      have e1 : ¬ k + 1 = it := by omega
      rcases Nat.eq_or_lt_of_le h with rfl | hk
      · have f : ¬ (C.ctl.tEnd - 1e-14 ≤ t ∨ C.ctl.nStepmax ≤ it) := by
          rw [← fin m, hf]
          decide
        have ed : t + C.ctl.computeDt t d = min (t + d) C.ctl.tEnd := by
          unfold Sim.computeDt
          rops
          split_ifs with hc
          · rw [min_eq_right hc.le]; ring
          · rw [min_eq_left (not_lt.1 hc)]
        simp only [if_true, if_neg e1, a1, a2]
        refine ⟨by rw [not_or, not_le, not_le] at f; exact f.1, by rw [not_or, not_le, not_le] at f; exact f.2, d, junk, hd, ed, ?_⟩
        rw [add_sub_cancel_left]
        exact r
      · simp only [if_neg e1, if_neg (show ¬ k = it by omega)]
        exact a k (by omega) h'

/-- **C150**: a run starts at the start time with the shock where it is at time 0, whatever the start time. -/
theorem C150_start (hC : C.Ok B) (h2 : C.M.d3 = false) (h0 : 0 < (wedgeShock c).angle) (h1 : (wedgeShock c).angle < Real.pi / 2)
    {m : Addr → ℝ} {t : ℝ} {n : ℕ} (r : C.WedgeSerial D (WedgeParams.make c) m t n) :
    ∃ m0, C.WedgeLoop D (WedgeParams.make c) m0 C.ctl.tCurrent 0 m t n ∧
      ∀ b p v, C.P.box false b → midX C.P b → midY C.P b → IsSolPt false C.M.N p → v < 4 →
        valsOf C.M m0 sU b p v = Mood.comp (((wedgeShock c).gasAt 0
          (D.xmin + (b.i + C.P.nx * D.i_mpi - C.P.ghostWidth + C.M.sp p.x) * C.S.dx)
          (D.ymin + (b.j + C.P.ny * D.j_mpi - C.P.ghostWidth + C.M.sp p.y) * C.S.dy)).conserved (configGamma c)) v := by
  have hU : solArray C.ti sU := sU_sol C.ti
  have hnv := hC.box.nv
  rw [h2] at hnv
  obtain ⟨m1, y1, g1⟩ := C127_init_sdm h0 h1 C.M C.S C.P D hU (nonempty_of_box hC.box (by decide)) (fun _ => lit 0)
  have e0 : (lit 0 : ℝ) = 0 := by rops
  have y1' : YieldsAll (sdmDom C.M.d3 C.M.N C.P C.ti) [sdmWedgeInit C.M (WedgeParams.make c (lit 0)) C.S C.P D sU]
      (fun _ => lit 0) m1 := by rw [e0] at y1 ⊢; exact .cons y1 (.nil _)
  obtain ⟨m2, y2, g2⟩ := wedge_fill (c := c) (D := D) hC h2 h0 h1 C.ctl.tCurrent hU m1
  obtain ⟨a1, a2, ra1, ra2, la⟩ := r
  obtain rfl := y1'.unique ra1
  obtain rfl := y2.unique ra2
  rw [h2] at g1
  exact ⟨_, la, fun b p v hb hx hy hp hv => (g2.inside b p v hb hp hv hx hy).trans (g1 b p v hb hp (by rw [hnv]; exact hv))⟩

/-- The hypotheses can be met: the double Mach reflection with its default parameters in the 2D channel of `C131_SdmProgram`. -/
example : ∃ m t n, (exampleSdmConf false).WedgeSerial ⟨0, 3, 0, 2, 0, 1, 0, 0, 0⟩
    (WedgeParams.make ⟨fun _ _ d => d, fun _ _ d => d, fun _ _ d => d⟩) m t n := by
  have := Real.pi_pos
  refine (C150_same (exampleSdmConf_ok false) rfl ?_ ?_).1
  · show 0 < Real.pi / 3; linarith
  · show Real.pi / 3 < Real.pi / 2; linarith

end Verif
