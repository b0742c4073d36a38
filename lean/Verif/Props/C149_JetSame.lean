import Verif.Props.C141_JetSerial

/-!
# C149: all runs of the jet program write the same files

The boundaries of the jet problem depend on nothing but the gas in the box, so the program without MPI gives one result, whatever the
schedules, the order of the reductions and the values of uninitialised variables.
-/

namespace Verif

open Spec ROps Sdm Start Special

variable {C : SdmConf ℝ} {B : Sides} {c : ConfigReader ℝ} {D : Domain ℝ}

/-- What is in the box decides about the ghost cells of the jet problem. -/
theorem jet_det {d3 : Bool} {P : Grid} {N : ℕ} {y z : Int → ℕ → ℝ} {u a u' a' : Vals ℝ} (hP : JetGrid d3 P) {g : ℝ}
    (h : JetGhosts c g d3 P N y z u a) (h' : JetGhosts c g d3 P N y z u' a')
    (e : ∀ b p v, Inside d3 P b → IsSolPt d3 N p → v < P.nbvar → u b p v = u' b p v) {b : Cell} {p : Pt} {v : ℕ}
    (hb : P.box d3 b) (hp : IsSolPt d3 N p) (hv : v < P.nbvar) : a b p v = a' b p v := by
  have hg := hP.g
  have hnx := hP.nx
  have hny := hP.ny
  have hnz := hP.nz
  have ei := P.isize_eq
  have ej := P.jsize_eq
  have ek := P.ksize_eq
  have s1 : ∀ b p, P.box d3 b → IsSolPt d3 N p → midX P b → midY P b → (d3 = true → midZ P b) → a b p v = a' b p v := by
    intro b p hb hp hx hy hz
    rw [h.inside b p v hb hp hv hx hy hz, h'.inside b p v hb hp hv hx hy hz]
    refine e b p v ?_ hp hv
    obtain ⟨x1, x2⟩ := hx
    obtain ⟨y1, y2⟩ := hy
    refine ⟨hb, fun h3 => ?_, by omega, by omega, by omega, by omega⟩
    obtain ⟨z1, z2⟩ := hz h3
    exact ⟨by omega, by omega⟩
  have s2 : ∀ b p, P.box d3 b → IsSolPt d3 N p → midY P b → (d3 = true → midZ P b) → a b p v = a' b p v := by
    intro b p hb hp hy hz
    by_cases hl : b.i < P.ghostWidth
    · rw [h.left b p v hb hp hv hl hy hz, h'.left b p v hb hp hv hl hy hz]
    by_cases hi : b.i < P.nx + P.ghostWidth
    · exact s1 b p hb hp ⟨by omega, hi⟩ hy hz
    · rw [h.right b p v hb hp hv (by omega) hy hz, h'.right b p v hb hp hv (by omega) hy hz]
      refine s1 _ _ ?_ ?_ ?_ hy hz
      · obtain ⟨a1, a2, a3⟩ := hb
        exact ⟨by show (0 : Int) ≤ P.nx + P.ghostWidth - 1; omega, by show P.nx + P.ghostWidth - 1 < P.isize; omega, a3⟩
      · split_ifs
        · exact hp
        · exact ⟨by have := hp.1; show N - 1 - p.x < N; omega, hp.2⟩
      · exact ⟨by show (P.ghostWidth : Int) ≤ P.nx + P.ghostWidth - 1; omega,
          by show (P.nx : Int) + P.ghostWidth - 1 < _; omega⟩
  have s3 : ∀ b p, P.box d3 b → IsSolPt d3 N p → (d3 = true → midZ P b) → a b p v = a' b p v := by
    intro b p hb hp hz
    have hb' : ∀ j : Int, 0 ≤ j → j < P.jsize → P.box d3 ⟨b.i, j, b.k⟩ := by
      intro j j0 j1
      obtain ⟨a1, a2, -, -, a5⟩ := hb
      exact ⟨a1, a2, j0, j1, a5⟩
    rcases lt_or_ge b.j P.ghostWidth with hj | hj
    · rw [h.bottom b p v hb hp hv hj hz, h'.bottom b p v hb hp hv hj hz]
      exact s2 _ _ (hb' _ (by omega) (by omega)) hp ⟨by show (P.ghostWidth : Int) ≤ P.ghostWidth; omega,
        by show (P.ghostWidth : Int) < _; omega⟩ hz
    · by_cases hj2 : b.j < P.ny + P.ghostWidth
      · exact s2 b p hb hp ⟨hj, hj2⟩ hz
      · rw [h.top b p v hb hp hv (by omega) hz, h'.top b p v hb hp hv (by omega) hz]
        exact s2 _ _ (hb' _ (by omega) (by omega)) hp ⟨by show (P.ghostWidth : Int) ≤ P.ny + P.ghostWidth - 1; omega,
          by show (P.ny : Int) + P.ghostWidth - 1 < _; omega⟩ hz
  by_cases h3 : d3 = true
  · have hb' : ∀ k : Int, 0 ≤ k → k < P.ksize → P.box d3 ⟨b.i, b.j, k⟩ := by
      intro k k0 k1
      obtain ⟨a1, a2, a3, a4, a5⟩ := hb
      refine ⟨a1, a2, a3, a4, ?_⟩
      rw [if_pos h3] at a5 ⊢
      exact ⟨k0, k1⟩
    have := hnz h3
    rcases lt_or_ge b.k P.ghostWidth with hk | hk
    · rw [h.front h3 b p v hb hp hv hk, h'.front h3 b p v hb hp hv hk]
      exact s3 _ _ (hb' _ (by omega) (by omega)) hp fun _ => ⟨by show (P.ghostWidth : Int) ≤ P.ghostWidth; omega,
        by show (P.ghostWidth : Int) < _; omega⟩
    · by_cases hk2 : b.k < P.nz + P.ghostWidth
      · exact s3 b p hb hp fun _ => ⟨hk, hk2⟩
      · rw [h.back h3 b p v hb hp hv (by omega), h'.back h3 b p v hb hp hv (by omega)]
        exact s3 _ _ (hb' _ (by omega) (by omega)) hp fun _ => ⟨by show (P.ghostWidth : Int) ≤ P.nz + P.ghostWidth - 1; omega,
          by show (P.nz : Int) + P.ghostWidth - 1 < _; omega⟩
  · exact s3 b p hb hp fun h => absurd h h3

/-- The arrays `S` hold the same in the box. -/
def AgreeOn (C : SdmConf ℝ) (S : List ℕ) (m n : Addr → ℝ) : Prop :=
  ∀ A ∈ S, SameInside C.M.d3 C.M.N C.P (valsOf C.M m A) (valsOf C.M n A)

/-- Started where the arrays `S` agree, both programs end where the arrays `S'` agree. -/
def Pairs (C : SdmConf ℝ) (ti : Mood.TimeInt) (S : List ℕ) (L L' : List (Launch Addr ℝ)) (S' : List ℕ) : Prop :=
  ∀ m n, AgreeOn C S m n → ∃ m' n', YieldsAll (sdmDom C.M.d3 C.M.N C.P ti) L m m' ∧
    YieldsAll (sdmDom C.M.d3 C.M.N C.P ti) L' n n' ∧ AgreeOn C S' m' n'

theorem Pairs.append {ti : Mood.TimeInt} {S S' S'' : List ℕ} {L L' K K' : List (Launch Addr ℝ)} (h : Pairs C ti S L L' S')
    (h' : Pairs C ti S' K K' S'') : Pairs C ti S (L ++ K) (L' ++ K') S'' := by
  intro m n e
  obtain ⟨m1, n1, y1, z1, e1⟩ := h m n e
  obtain ⟨m2, n2, y2, z2, e2⟩ := h' m1 n1 e1
  exact ⟨m2, n2, y1.append y2, z1.append z2, e2⟩

/-- A way to fill the ghost cells of an array that depends on nothing but what the array holds in the box. -/
def FillsFromBox (C : SdmConf ℝ) (ti : Mood.TimeInt) (bound : ℕ → List (Launch Addr ℝ)) : Prop :=
  ∀ A, solArray ti A → ∀ m n, SameInside C.M.d3 C.M.N C.P (valsOf C.M m A) (valsOf C.M n A) →
    ∃ m' n', YieldsAll (sdmDom C.M.d3 C.M.N C.P ti) (bound A) m m' ∧ YieldsAll (sdmDom C.M.d3 C.M.N C.P ti) (bound A) n n' ∧
      (∀ b p v, C.P.box C.M.d3 b → IsSolPt C.M.d3 C.M.N p → v < hydroVars C.M.d3 →
        valsOf C.M m' A b p v = valsOf C.M n' A b p v) ∧
      (∀ a : Addr, a.arr ≠ A → m' a = m a) ∧ ∀ a : Addr, a.arr ≠ A → n' a = n a

theorem jet_fills (hC : C.Ok B) (ti : Mood.TimeInt) :
    FillsFromBox C ti (fun A => jetBoundaries C.M (JetParams.make c) C.S C.P D A) := by
  intro A hA m n e
  have hP := jetGrid_of hC
  have fill : ∀ m, ∃ m', YieldsAll (sdmDom C.M.d3 C.M.N C.P ti) (jetBoundaries C.M (JetParams.make c) C.S C.P D A) m m' ∧
      JetGhosts c (jetGamma c) C.M.d3 C.P C.M.N
        (fun j k => D.ymin + (j + C.P.ny * D.j_mpi - C.P.ghostWidth + C.M.sp k) * C.S.dy)
        (fun j k => D.zmin + (j + C.P.nz * D.k_mpi - C.P.ghostWidth + C.M.sp k) * C.S.dz)
        (valsOf C.M m A) (valsOf C.M m' A) ∧ ∀ a : Addr, a.arr ≠ A → m' a = m a := by
    intro m
    obtain ⟨m1, y1, g1⟩ := C128_ghosts c C.M C.S C.P D hA hP m
    obtain ⟨m2, y2, -, -, f2⟩ := ghost_fill (places_sdm (M := C.M) hA) hP.pos
      (src := jetSource C.M (JetParams.make c) C.S C.P D) (fun f hf b _ p hp iv _ => jetSource_from hP hf hp iv) m
    obtain rfl := y1.unique y2.run
    exact ⟨m2, y1, g1, f2⟩
  obtain ⟨m1, y1, g1, f1⟩ := fill m
  obtain ⟨n1, z1, h1, k1⟩ := fill n
  exact ⟨m1, n1, y1, z1, fun b p v hb hp hv =>
    jet_det hP g1 h1 (fun b p v hb hp hv => e b p v hb.1 hb.2 hp (hC.box.nv ▸ hv)) hb hp (hC.box.nv ▸ hv), f1, k1⟩

theorem stage_pairs (hC : C.Ok B) {ti : Mood.TimeInt} {bound : ℕ → List (Launch Addr ℝ)} (hb : FillsFromBox C ti bound) {A : ℕ}
    (hA : solArray ti A) (hAd : A ≠ sDiv) {S : List ℕ} (hS : A ∈ S) (hF : sF ∉ S) (junk junk' : Dir → Cell → Pt → HState ℝ) :
    Pairs C ti S (bound A ++ divergence C.M C.S C.P junk A) (bound A ++ divergence C.M C.S C.P junk' A) (sDiv :: S) := by
  intro m n e
  have hN := hC.scheme.orders.1
  obtain ⟨m1, n1, y1, z1, full, f1, k1⟩ := hb A hA m n (e A hS)
  obtain ⟨m2, y2, d2, f2⟩ := divergence_yields (S := C.S) hC.box.ready hN hA hAd junk m1
  obtain ⟨n2, z2, b2, k2⟩ := divergence_yields (S := C.S) hC.box.ready hN hA hAd junk' n1
  have hdiv : SameInside C.M.d3 C.M.N C.P (valsOf C.M m2 sDiv) (valsOf C.M n2 sDiv) := by
    intro b p v hb hi hp hv
    refine (d2 b p v hb hp hv).trans (Eq.trans ?_ (b2 b p v hb hp hv).symm)
    rw [divAll_congr full v hb hp, divAll_eq hC.scheme hC.box hC.solver _ hi hp hv, divAll_eq hC.scheme hC.box hC.solver _ hi hp hv]
  refine ⟨m2, n2, y1.append y2, z1.append z2, fun X hX => ?_⟩
  by_cases h0 : X = sDiv
  · rw [h0]; exact hdiv
  have hX' : X ∈ S := (List.mem_cons.1 hX).resolve_left h0
  have hXF : X ≠ sF := fun h => hF (h ▸ hX')
  intro b p v hb hi hp hv
  refine (f2 _ h0 hXF).trans (Eq.trans ?_ (k2 _ h0 hXF).symm)
  by_cases h4 : X = A
  · rw [h4]; exact full b p v hb hp hv
  · exact (f1 _ h4).trans ((e X hX' b p v hb hi hp hv).trans (k1 _ h4).symm)

theorem update_pairs (hC : C.Ok B) {ti : Mood.TimeInt} {o A A' : ℕ} (ho : solArray ti o) (hA : solArray ti A) (hA' : solArray ti A')
    {S : List ℕ} (h1 : A ∈ S) (h2 : A' ∈ S) (h3 : sDiv ∈ S) (dt c0 c1 c2 : ℝ) :
    Pairs C ti S [updateRK C.M C.P dt o A A' c0 c1 c2] [updateRK C.M C.P dt o A A' c0 c1 c2] (o :: S) := by
  intro m n e
  obtain ⟨m1, y1, a1, k1⟩ := Sdm.update_yields hC.box ho hA hA' dt c0 c1 c2 m
  obtain ⟨n1, z1, b1, l1⟩ := Sdm.update_yields hC.box ho hA hA' dt c0 c1 c2 n
  refine ⟨m1, n1, y1, z1, fun X hX => ?_⟩
  by_cases h0 : X = o
  · rw [h0]
    intro b p v hb hi hp hv
    rw [a1 b p v hb hi hp hv, b1 b p v hb hi hp hv]
    beta_reduce
    rw [e A h1 b p v hb hi hp hv, e A' h2 b p v hb hi hp hv, e sDiv h3 b p v hb hi hp hv]
  · have hX' : X ∈ S := (List.mem_cons.1 hX).resolve_left h0
    exact (k1 X h0).trans ((e X hX').trans (SameInside.symm (l1 X h0)))

theorem step_same (hC : C.Ok B) {ti : Mood.TimeInt} {bound : ℕ → List (Launch Addr ℝ)} (fills : FillsFromBox C ti bound)
    {junk junk' : ℕ → Dir → Cell → Pt → HState ℝ} {dt : ℝ} {m n m' n' : Addr → ℝ}
    (e : SameInside C.M.d3 C.M.N C.P (valsOf C.M m sU) (valsOf C.M n sU))
    (r : Runs (stepWith bound (fun i A L => divergence C.M C.S C.P (junk i) A ++ L) C.M C.P ti dt) m m')
    (r' : Runs (stepWith bound (fun i A L => divergence C.M C.S C.P (junk' i) A ++ L) C.M C.P ti dt) n n') :
    SameInside C.M.d3 C.M.N C.P (valsOf C.M m' sU) (valsOf C.M n' sU) := by
  have key : ∀ S', sU ∈ S' → Pairs C ti [sU] (stepWith bound (fun i A L => divergence C.M C.S C.P (junk i) A ++ L) C.M C.P ti dt)
      (stepWith bound (fun i A L => divergence C.M C.S C.P (junk' i) A ++ L) C.M C.P ti dt) S' → SameInside C.M.d3 C.M.N C.P (valsOf C.M m' sU) (valsOf C.M n' sU) := by
    intro S' hS h
    obtain ⟨m1, n1, y, z, a⟩ := h m n fun A hA => by rw [List.mem_singleton.1 hA]; exact e
    obtain rfl := y.unique r
    obtain rfl := z.unique r'
    exact a sU hS
  unfold stepWith at key
  cases ti with
  | forward_euler =>
    have hU : solArray .forward_euler sU := sU_sol _
    refine key [sU, sDiv, sU] (by decide) ?_
    have := (stage_pairs hC fills hU (by decide) (show sU ∈ [sU] by decide) (by decide) (junk 0) (junk' 0)).append
      (update_pairs hC hU hU hU (by decide) (by decide) (by decide) dt (lit 1) (lit 0) (lit (-1)))
    simpa only [List.append_assoc] using this
  | ssprk2 =>
    have hU : solArray .ssprk2 sU := sU_sol _
    have h1 : solArray .ssprk2 (sRK 1) := sRK_sol (by decide) (by decide)
    refine key [sU, sDiv, sRK 1, sDiv, sU] (by decide) ?_
    have := ((stage_pairs hC fills hU (by decide) (show sU ∈ [sU] by decide) (by decide) (junk 0) (junk' 0)).append
      (update_pairs hC h1 hU hU (by decide) (by decide) (by decide) dt (lit 1) (lit 0) (lit (-1)))).append
      ((stage_pairs hC fills h1 (by decide) (by decide) (by decide) (junk 1) (junk' 1)).append
      (update_pairs hC hU hU h1 (by decide) (by decide) (by decide) dt (lit (1/2)) (lit (1/2)) (lit (-1/2))))
    simpa only [List.append_assoc] using this
  | ssprk3 =>
    have hU : solArray .ssprk3 sU := sU_sol _
    have h1 : solArray .ssprk3 (sRK 1) := sRK_sol (by decide) (by decide)
    have h2 : solArray .ssprk3 (sRK 2) := sRK_sol (by decide) (by decide)
    refine key [sU, sDiv, sRK 2, sDiv, sRK 1, sDiv, sU] (by decide) ?_
    have := (((stage_pairs hC fills hU (by decide) (show sU ∈ [sU] by decide) (by decide) (junk 0) (junk' 0)).append
      (update_pairs hC h1 hU hU (by decide) (by decide) (by decide) dt (lit 1) (lit 0) (lit (-1)))).append
      ((stage_pairs hC fills h1 (by decide) (by decide) (by decide) (junk 1) (junk' 1)).append
      (update_pairs hC h2 hU h1 (by decide) (by decide) (by decide) dt (lit (3/4)) (lit (1/4)) (lit (-1/4))))).append
      ((stage_pairs hC fills h2 (by decide) (by decide) (by decide) (junk 2) (junk' 2)).append
      (update_pairs hC hU hU h2 (by decide) (by decide) (by decide) dt (lit 1 / lit 3) (lit 2 / lit 3) (lit (-2) / lit 3)))
    simpa only [List.append_assoc] using this
  | ssprk54 =>
    have hU : solArray .ssprk54 sU := sU_sol _
    have h1 : solArray .ssprk54 (sRK 1) := sRK_sol (by decide) (by decide)
    have h2 : solArray .ssprk54 (sRK 2) := sRK_sol (by decide) (by decide)
    have h3 : solArray .ssprk54 (sRK 3) := sRK_sol (by decide) (by decide)
    have h4 : solArray .ssprk54 (sRK 4) := sRK_sol (by decide) (by decide)
    refine key [sU, sDiv, sU, sRK 4, sDiv, sRK 3, sDiv, sRK 2, sDiv, sRK 1, sDiv, sU] (by decide) ?_
    have := (((((stage_pairs hC fills hU (by decide) (show sU ∈ [sU] by decide) (by decide) (junk 0) (junk' 0)).append
      (update_pairs hC h1 hU hU (by decide) (by decide) (by decide) dt (lit 1) (lit 0) (lit (-0.391752226571890)))).append
      ((stage_pairs hC fills h1 (by decide) (by decide) (by decide) (junk 1) (junk' 1)).append
      (update_pairs hC h2 hU h1 (by decide) (by decide) (by decide) dt (lit 0.444370493651235) (lit 0.555629506348765)
        (lit (-0.368410593050371))))).append
      ((stage_pairs hC fills h2 (by decide) (by decide) (by decide) (junk 2) (junk' 2)).append
      (update_pairs hC h3 hU h2 (by decide) (by decide) (by decide) dt (lit 0.620101851488403) (lit 0.379898148511597)
        (lit (-0.251891774271694))))).append
      ((stage_pairs hC fills h3 (by decide) (by decide) (by decide) (junk 3) (junk' 3)).append
      ((update_pairs hC h4 hU h3 (by decide) (by decide) (by decide) dt (lit 0.178079954393132) (lit 0.821920045606868)
        (lit (-0.544974750228521))).append
      (update_pairs hC hU h2 h3 (by decide) (by decide) (by decide) dt (lit 0.517231671970585) (lit 0.096059710526147)
        (lit (-0.063692468666290)))))).append
      ((stage_pairs hC fills h4 (by decide) (by decide) (by decide) (junk 4) (junk' 4)).append
      (update_pairs hC hU hU h4 (by decide) (by decide) (by decide) dt (lit 1) (lit 0.386708617503269) (lit (-0.226007483236906))))
    simpa only [List.append_assoc, List.cons_append, List.nil_append] using this

/-- **C149**: a step of the jet problem without MPI gives in the box one result, whatever was in the ghost cells and in the other arrays
before, whatever the values of uninitialised variables and the schedule, with every time integration. -/
theorem C149_step (hC : C.Ok B) {junk junk' : ℕ → Dir → Cell → Pt → HState ℝ} {dt : ℝ} {m n m' n' : Addr → ℝ}
    (e : SameInside C.M.d3 C.M.N C.P (valsOf C.M m sU) (valsOf C.M n sU))
    (r : Runs (C.jetStep D (JetParams.make c) junk dt) m m') (r' : Runs (C.jetStep D (JetParams.make c) junk' dt) n n') :
    SameInside C.M.d3 C.M.N C.P (valsOf C.M m' sU) (valsOf C.M n' sU) :=
  step_same hC (jet_fills hC C.ti) e r r'

/-- **C149**: all runs of the program for the jet problem without MPI end, write the same files and stop after the same number of steps
at the same time. -/
theorem C149_same_files (hC : C.Ok B) (hlog : C.ctl.nlog ≠ 0) :
    (∃ s, C.JetSerial D (JetParams.make c) (some s)) ∧
    ∀ r r', C.JetSerial D (JetParams.make c) r → C.JetSerial D (JetParams.make c) r' → ∃ s s', r = some s ∧ r' = some s' ∧
      List.Forall₂ (SameSdmFile C) s.files s'.files ∧ s.t = s'.t ∧ s.iteration = s'.iteration := by
  have hU : solArray C.ti sU := sU_sol C.ti
  constructor
  · obtain ⟨m1, r1, -⟩ := initJet_runs (c := c) hC (fun _ => lit 0)
    obtain ⟨m2, y2, -⟩ := C128_ghosts c C.M C.S C.P D hU (jetGrid_of hC) m1
    exact Driver.main_exists (jet_total hC) hlog r1 y2.run
  intro r r' h h'
  have T : (C.jetDriver D (JetParams.make c)).Twins (C.jetDriver D (JetParams.make c))
      (fun _ m m' => SameInside C.M.d3 C.M.N C.P (valsOf C.M m sU) (valsOf C.M m' sU))
      (fun a b => SameInside C.M.d3 C.M.N C.P (sdmVals C a) (sdmVals C b)) :=
    { ctl := rfl
      every := rfl
      dt := fun e h h' => sdm_dt (lay := C.M.lay) hC e h h'
      step := fun e ⟨_, r⟩ ⟨_, r'⟩ => C149_step hC e r r'
      shows := fun e => e }
  refine Driver.main_same T hlog (fun {m1 m2 m1' m2'} a b a' b' => ?_) h h'
  obtain ⟨-, -, i⟩ := initJet_runs (c := c) hC (fun _ => lit 0)
  obtain ⟨n2, y2, g2⟩ := C128_ghosts c C.M C.S C.P D hU (jetGrid_of hC) m1
  obtain rfl := y2.unique b
  obtain ⟨n2', y2', g2'⟩ := C128_ghosts c C.M C.S C.P D hU (jetGrid_of hC) m1'
  obtain rfl := y2'.unique b'
  intro b p v hb hi hp hv
  refine jet_det (jetGrid_of hC) g2 g2' (fun b p v hb hp hv => ?_) hb hp (hC.box.nv ▸ hv)
  exact (i _ a b p v hb.1 hp (hC.box.nv ▸ hv)).trans (i _ a' b p v hb.1 hp (hC.box.nv ▸ hv)).symm

/-- The hypotheses can be met: the 3D channel of `C141_JetMpi`. -/
example : ∃ s, exampleJetConf.JetSerial ⟨0, 6, 0, 6, 0, 4, 0, 0, 0⟩ (JetParams.make exampleJet) (some s) ∧
    ∀ s', exampleJetConf.JetSerial ⟨0, 6, 0, 6, 0, 4, 0, 0, 0⟩ (JetParams.make exampleJet) (some s') →
      List.Forall₂ (SameSdmFile exampleJetConf) s.files s'.files := by
  have hC : exampleJetConf.Ok channelSides :=
    ⟨exampleScheme_exact true, channel_setup true, by constructor <;> simp [exampleJetConf]⟩
  obtain ⟨⟨s, hs⟩, h⟩ := C149_same_files (c := exampleJet) (D := ⟨0, 6, 0, 6, 0, 4, 0, 0, 0⟩) hC
    (by simp [exampleJetConf, exampleSdmConf])
  refine ⟨s, hs, fun s' hs' => ?_⟩
  obtain ⟨_, _, ⟨⟩, ⟨⟩, f, -⟩ := h _ _ hs hs'
  exact f

end Verif
