import Verif.Lemmas.SdmFixed

/-! Helper lemmas: steps of the spectral difference solver with positivity preservation on several MPI processes. -/

namespace Verif.Sdm

open Verif K Function Spec ROps

section
variable {M : Scheme ℝ} {S : Settings ℝ} {P P' : Grid} {B B' : Sides} {F : Fixes ℝ} {ti : Mood.TimeInt} {T : Ranks}

/-- Same values at the solution points. -/
def SamePts (M : Scheme ℝ) (f g : Pt → ℕ → ℝ) : Prop := ∀ p iv, IsSolPt M.d3 M.N p → iv < hydroVars M.d3 → f p iv = g p iv

theorem posVals_local {big : ℝ} {ave ave' : Cell → HState ℝ} {u u' : Vals ℝ} {c c' : Cell} (ha : ave c = ave' c')
    (h : SamePts M (u c) (u' c')) : SamePts M (posVals S big M ave u c) (posVals S big M ave' u' c') := by
  have h0 : ID < hydroVars M.d3 := by cases M.d3 <;> decide
  have e1 : minVal M big u c = minVal M big u' c' :=
    (show minVal M big u c = minVal M big (fun _ => u c) c' from rfl).trans (minVal_congr fun p hp => h p ID hp h0)
  have e2 : SamePts M (densVals S big M ave u c) (densVals S big M ave' u' c') := fun p iv hp hv => by
    unfold densVals
    rw [e1, ha, h p iv hp hv]
  have e3 : theta2Val M S (ave c) (densVals S big M ave u) c = theta2Val M S (ave' c') (densVals S big M ave' u') c' := by
    rw [ha]
    exact (show theta2Val M S (ave' c') (densVals S big M ave u) c =
      theta2Val M S (ave' c') (fun _ => densVals S big M ave u c) c' from rfl).trans (theta2Val_congr e2)
  intro p iv hp hv
  unfold posVals blendVals
  rw [e3, ha, e2 p iv hp hv]

theorem avgOf_local {pi : ℝ} {u u' : Vals ℝ} {c c' : Cell} (h : SamePts M (u c) (u' c')) :
    avgOf M S pi u c = avgOf M S pi u' c' := by
  refine ofComps_congr fun iv hv => ?_
  unfold avgVal
  rw [foldl_congr fun p hp a => by rw [h p iv (mem_cellPts.1 hp) hv]]

/-- Without the limiter, preparing acts on each cell by itself. -/
theorem prepare_local (hF : F.limiter = none) (h : Ready M P) (h' : Ready M P') {A : ℕ} (hA : solArray ti A) {m n m' n' : Addr → ℝ}
    (r : Runs (prepare M S P F A) m m') (r' : Runs (prepare M S P' F A) n n') {c c' : Cell} (hc : P.box M.d3 c)
    (hc' : P'.box M.d3 c') (hu : SamePts M (valsOf M m A c) (valsOf M n A c')) :
    SamePts M (valsOf M m' A c) (valsOf M n' A c') := by
  rw [prepare_none hF] at r r'
  by_cases hp : F.positivity = true
  · rw [if_pos hp] at r r'
    obtain ⟨m1, y, e, -⟩ := preserving_yields (S := S) (ti := ti) h hA F.pi F.big m
    obtain ⟨n1, y', e', -⟩ := preserving_yields (S := S) (ti := ti) h' hA F.pi F.big n
    obtain rfl := y.unique r
    obtain rfl := y'.unique r'
    intro p iv hpt hv
    refine (e c p iv hc hpt (by rw [h.nv]; exact hv)).trans
      (Eq.trans ?_ (e' c' p iv hc' hpt (by rw [h'.nv]; exact hv)).symm)
    exact posVals_local (avgOf_local hu) hu p iv hpt hv
  · rw [if_neg hp] at r r'
    obtain rfl := (YieldsAll.nil (dom := fun _ => True) m).unique r
    obtain rfl := (YieldsAll.nil (dom := fun _ => True) n).unique r'
    exact hu

/-- In these arrays every rank holds its part of the whole. -/
def PartsOf (M : Scheme ℝ) (T : Ranks) (P : Grid) (K : List ℕ) (s : Nat → Addr → ℝ) (m : Addr → ℝ) : Prop :=
  ∀ A, A ∈ K → HoldsAll M T P s A (valsOf M m A)

/-- Exchange and divergence on all ranks and on the whole. -/
theorem fixedStage_all (hT : RanksOk M.d3 T) (hM : ExactScheme M) (h : Setup M P B) (hr : HasSolver M.d3 S) (hF : F.limiter = none)
    {A : ℕ} (hA : solArray ti A) (hAd : A ≠ sDiv) (junk : ℕ → Dir → Cell → Pt → HState ℝ) (j0 : Dir → Cell → Pt → HState ℝ)
    {K : List ℕ} (hK : ∀ A ∈ K, solArray ti A) (hAK : A ∈ K) {s : Nat → Addr → ℝ} {m : Addr → ℝ} (hs : PartsOf M T P K s m) :
    ∃ s1 s' m', LockSeq T.num (fun _ => fixMpiDom F M P ti) (haloLine M T P A) s s1 ∧
      (∀ r, YieldsAll (fixDom F M.d3 M.N P ti) (fixedDivergence M S P (junk r) F A) (s1 r) (s' r)) ∧
      YieldsAll (fixDom F M.d3 M.N (whole T P) ti) (makeBoundaries M (whole T P) A ++ fixedDivergence M S (whole T P) j0 F A) m m' ∧
      PartsOf M T P (sDiv :: K) s' m' := by
  have hN := hM.orders.1
  have hW := setup_whole hT h
  obtain ⟨s1, l, e1, f1⟩ := halo_line hT h hA (hs A hAK)
  choose t0 t1 s' y yp f0 e2 f2 f3 using fun r => fixed_yields (S := S) h.ready hN F hA hAd (junk r) (s1 r)
  obtain ⟨n0, n1, m', z, zp, g0, g1, g2, g3⟩ := fixedStage_yields (S := S) hW hN F hA hAd j0 m
  have same : ∀ q, Block T.mx T.my T.mz q → ∀ c, P.box M.d3 c →
      SamePts M (valsOf M (t1 (owner T.my T.mz q)) A c) (valsOf M n1 A (inDomain P q c)) := by
    intro q hq c hc
    refine prepare_local hF h.ready hW.ready hA (yp _).run zp.run hc (whole_box hT h hq hc) fun p iv hp hv => ?_
    refine ((f0 _ _ hAd).trans (e1 q hq c p iv hc hp hv)).trans (g0 _ p iv (whole_box hT h hq hc) hp hv).symm
  refine ⟨s1, s', m', l.mono fun _ _ ha => .inr ha, y, z, fun A' hA' q hq c p iv hc hi hp hv => ?_⟩
  have hb := whole_box hT h hq hc
  by_cases hd : A' = sDiv
  · subst hd
    have k1 := e2 (owner T.my T.mz q) c p iv hc hp hv
    have k2 := divAll_congr (P := P) (S := S) (junk := junk (owner T.my T.mz q))
      (v := fun c => valsOf M n1 A (inDomain P q c)) (fun c p iv hc hp hv => same q hq c hc p iv hp hv) iv hc hp
    have k3 := divAll_eq (S := S) (junk := junk (owner T.my T.mz q)) hM h hr (fun c => valsOf M n1 A (inDomain P q c)) hi hp hv
    have k4 := divAll_eq (S := S) (junk := j0) hM hW hr (valsOf M n1 A) (whole_inner hT h hq hc hi) hp hv
    exact k1.trans (k2.trans (k3.trans ((divergenceOf_shift (inDomain_translation P q) _ c p iv).trans
      (k4.symm.trans (g1 _ p iv hb hp hv).symm))))
  · have hK' : A' ∈ K := by simpa [hd] using hA'
    have hS := hK A' hK'
    show s' _ (M.sol A' c p iv) = _
    rw [f2 _ _ hd hS.ne]
    by_cases hAA : A' = A
    · subst hAA
      rw [g2]
      exact same q hq c hc p iv hp hv
    · rw [f3 _ _ hAA (solArray_notMean hS), f0 _ _ hd, g3 A' hAA hd hS.ne (solArray_notMean hS)]
      exact (f1 _ _ _ _ hAA (solArray_notBuf hS)).trans (hs A' hK' q hq c p iv hc hi hp hv)

/-- The update on all ranks and on the whole. -/
theorem fixedUpdate_all (hT : RanksOk M.d3 T) (h : Setup M P B) {K : List ℕ} {out A0 A1 : ℕ} (ho : solArray ti out)
    (h0 : solArray ti A0) (h1 : solArray ti A1) (dt c0 c1 c2 : ℝ) {s : Nat → Addr → ℝ} {m : Addr → ℝ} (hs : PartsOf M T P K s m)
    (k0 : A0 ∈ K) (k1 : A1 ∈ K) (kd : sDiv ∈ K) :
    ∃ s' m', (∀ r, YieldsAll (fixDom F M.d3 M.N P ti) [updateRK M P dt out A0 A1 c0 c1 c2] (s r) (s' r)) ∧
      YieldsAll (fixDom F M.d3 M.N (whole T P) ti) [updateRK M (whole T P) dt out A0 A1 c0 c1 c2] m m' ∧
      PartsOf M T P (out :: K) s' m' := by
  choose s' y e f using fun r => Sdm.update_yields h ho h0 h1 dt c0 c1 c2 (s r)
  obtain ⟨m', z, e', f'⟩ := Sdm.update_yields (setup_whole hT h) ho h0 h1 dt c0 c1 c2 m
  refine ⟨s', m', fun r => (y r).mono fun _ => sdm_fix, z.mono fun _ => sdm_fix, fun A' hA' q hq c p iv hc hi hp hv => ?_⟩
  have hb := whole_box hT h hq hc
  have hi' := whole_inner hT h hq hc hi
  by_cases ha : A' = out
  · subst ha
    refine (e _ c p iv hc hi hp hv).trans (Eq.trans ?_ (e' _ p iv hb hi' hp hv).symm)
    beta_reduce
    rw [hs A0 k0 q hq c p iv hc hi hp hv, hs A1 k1 q hq c p iv hc hi hp hv, hs sDiv kd q hq c p iv hc hi hp hv]
  · have hK' : A' ∈ K := by simpa [ha] using hA'
    exact (f _ A' ha c p iv hc hi hp hv).trans ((hs A' hK' q hq c p iv hc hi hp hv).trans (f' A' ha _ p iv hb hi' hp hv).symm)

/-- Statements of a step, aligned. -/
noncomputable def fixedLine (M : Scheme ℝ) (T : Ranks) (S : Settings ℝ) (P : Grid) (junk : ℕ → ℕ → Dir → Cell → Pt → HState ℝ)
    (F : Fixes ℝ) (ti : Mood.TimeInt) (dt : ℝ) : List (Nat → MpiOp ℝ) :=
  stepWith (haloLine M T P) (fun i A L => [fun r => .kernels (fixedDivergence M S P (junk r i) F A ++ L)]) M P ti dt

theorem fixedLine_prog (M : Scheme ℝ) (T : Ranks) (S : Settings ℝ) (P : Grid)
    (junk : ℕ → ℕ → Dir → Cell → Pt → HState ℝ) (F : Fixes ℝ) (ti : Mood.TimeInt) (dt : ℝ) (r : ℕ) :
    (fixedLine M T S P junk F ti dt).map (fun f => f r) = fixedStepMpi M T S P (junk r) F ti dt r := by
  unfold fixedLine fixedStepMpi
  cases ti <;> simp only [stepWith, List.map_append, haloLine_prog, List.map_cons, List.map_nil]

theorem fixedKernels_all {L : Nat → List (Launch Addr ℝ)} {m m' : Nat → Addr → ℝ}
    (y : ∀ r, YieldsAll (fixDom F M.d3 M.N P ti) (L r) (m r) (m' r)) :
    LockSeq T.num (fun _ => fixMpiDom F M P ti) [fun r => .kernels (L r)] m m' :=
  .loops fun r _ => (y r).mono fun _ ha => .inl ha

/-- Exchange, divergence and update on all ranks and on the whole. -/
theorem fixedPart_all (hT : RanksOk M.d3 T) (hM : ExactScheme M) (h : Setup M P B) (hr : HasSolver M.d3 S) (hF : F.limiter = none)
    {A A0 A1 out : ℕ} (hA : solArray ti A) (hAd : A ≠ sDiv) (junk : ℕ → Dir → Cell → Pt → HState ℝ) (j0 : Dir → Cell → Pt → HState ℝ)
    {K : List ℕ} (hK : ∀ A ∈ K, solArray ti A) (hAK : A ∈ K) (ho : solArray ti out) (k0 : A0 ∈ K) (k1 : A1 ∈ K)
    (dt c0 c1 c2 : ℝ) {s : Nat → Addr → ℝ} {m : Addr → ℝ} (hs : PartsOf M T P K s m) :
    ∃ s1 s' m', LockSeq T.num (fun _ => fixMpiDom F M P ti) (haloLine M T P A) s s1 ∧
      (∀ r, YieldsAll (fixDom F M.d3 M.N P ti)
        (fixedDivergence M S P (junk r) F A ++ [updateRK M P dt out A0 A1 c0 c1 c2]) (s1 r) (s' r)) ∧
      YieldsAll (fixDom F M.d3 M.N (whole T P) ti) (makeBoundaries M (whole T P) A ++ (fixedDivergence M S (whole T P) j0 F A ++
        [updateRK M (whole T P) dt out A0 A1 c0 c1 c2])) m m' ∧
      PartsOf M T P (out :: sDiv :: K) s' m' := by
  obtain ⟨s1, s2, m2, l, y, z, p⟩ := fixedStage_all (S := S) hT hM h hr hF hA hAd junk j0 hK hAK hs
  obtain ⟨s3, m3, y', z', p'⟩ := fixedUpdate_all (F := F) hT h ho (hK _ k0) (hK _ k1) dt c0 c1 c2 p (.tail _ k0) (.tail _ k1) (.head _)
  refine ⟨s1, s3, m3, l, fun r => (y r).append (y' r), ?_, p'⟩
  rw [← List.append_assoc]
  exact z.append z'

/-- A step on all ranks and on the whole. -/
theorem fixedStep_all (hT : RanksOk M.d3 T) (hM : ExactScheme M) (h : Setup M P B) (hr : HasSolver M.d3 S) (hF : F.limiter = none)
    (ti : Mood.TimeInt) (dt : ℝ) (junk : ℕ → ℕ → Dir → Cell → Pt → HState ℝ) (j0 : ℕ → Dir → Cell → Pt → HState ℝ)
    {s : Nat → Addr → ℝ} {m : Addr → ℝ} (hs : HoldsAll M T P s sU (valsOf M m sU)) :
    ∃ s' m', LockSeq T.num (fun _ => fixMpiDom F M P ti) (fixedLine M T S P junk F ti dt) s s' ∧
      YieldsAll (fixDom F M.d3 M.N (whole T P) ti) (fixedStep M S (whole T P) j0 F ti dt) m m' ∧
      HoldsAll M T P s' sU (valsOf M m' sU) := by
  have hU : solArray ti sU := sU_sol ti
  have hD : solArray ti sDiv := .inr (.inl rfl)
  have p0 : PartsOf M T P [sU] s m := fun A hA => by
    obtain rfl : A = sU := by simpa using hA
    exact hs
  have k0 : ∀ A ∈ [sU], solArray ti A := by simpa using hU
  cases ti with
  | forward_euler =>
    obtain ⟨n1, s1, m1, l1, y1, z1, p1⟩ := fixedPart_all (S := S) hT hM h hr hF hU (by decide) (fun r => junk r 0) (j0 0) k0 (by simp)
      hU (A0 := sU) (A1 := sU) (by simp) (by simp) dt (lit 1) (lit 0) (lit (-1)) p0
    exact ⟨s1, m1, l1.append (fixedKernels_all y1), z1, p1 sU (by simp)⟩
  | ssprk2 =>
    have h1 : solArray .ssprk2 (sRK 1) := sRK_sol (by decide) (by decide)
    obtain ⟨n1, s1, m1, l1, y1, z1, p1⟩ := fixedPart_all (S := S) hT hM h hr hF hU (by decide) (fun r => junk r 0) (j0 0) k0 (by simp)
      h1 (A0 := sU) (A1 := sU) (by simp) (by simp) dt (lit 1) (lit 0) (lit (-1)) p0
    obtain ⟨n2, s2, m2, l2, y2, z2, p2⟩ := fixedPart_all (S := S) hT hM h hr hF h1 (by decide) (fun r => junk r 1) (j0 1)
      (by simp [hU, hD, h1]) (by simp) hU (A0 := sU) (A1 := sRK 1) (by simp) (by simp) dt (lit (1/2)) (lit (1/2)) (lit (-1/2)) p1
    refine ⟨s2, m2, ?_, ?_, p2 sU (by simp)⟩
    · have := (l1.append (fixedKernels_all y1)).append (l2.append (fixedKernels_all y2))
      simp only [fixedLine, stepWith]
      simpa only [List.append_assoc, List.cons_append, List.nil_append] using this
    · have := z1.append z2
      simp only [fixedStep, stepWith]
      simpa only [List.append_assoc] using this
  | ssprk3 =>
    have h1 : solArray .ssprk3 (sRK 1) := sRK_sol (by decide) (by decide)
    have h2 : solArray .ssprk3 (sRK 2) := sRK_sol (by decide) (by decide)
    obtain ⟨n1, s1, m1, l1, y1, z1, p1⟩ := fixedPart_all (S := S) hT hM h hr hF hU (by decide) (fun r => junk r 0) (j0 0) k0 (by simp)
      h1 (A0 := sU) (A1 := sU) (by simp) (by simp) dt (lit 1) (lit 0) (lit (-1)) p0
    obtain ⟨n2, s2, m2, l2, y2, z2, p2⟩ := fixedPart_all (S := S) hT hM h hr hF h1 (by decide) (fun r => junk r 1) (j0 1)
      (by simp [hU, hD, h1]) (by simp) h2 (A0 := sU) (A1 := sRK 1) (by simp) (by simp) dt (lit (3/4)) (lit (1/4)) (lit (-1/4)) p1
    obtain ⟨n3, s3, m3, l3, y3, z3, p3⟩ := fixedPart_all (S := S) hT hM h hr hF h2 (by decide) (fun r => junk r 2) (j0 2)
      (by simp [hU, hD, h1, h2]) (by simp) hU (A0 := sU) (A1 := sRK 2) (by simp) (by simp) dt (lit 1 / lit 3) (lit 2 / lit 3)
      (lit (-2) / lit 3) p2
    refine ⟨s3, m3, ?_, ?_, p3 sU (by simp)⟩
    · have := ((l1.append (fixedKernels_all y1)).append (l2.append (fixedKernels_all y2))).append (l3.append (fixedKernels_all y3))
      simp only [fixedLine, stepWith]
      simpa only [List.append_assoc, List.cons_append, List.nil_append] using this
    · have := (z1.append z2).append z3
      simp only [fixedStep, stepWith]
      simpa only [List.append_assoc] using this
  | ssprk54 =>
    have h1 : solArray .ssprk54 (sRK 1) := sRK_sol (by decide) (by decide)
    have h2 : solArray .ssprk54 (sRK 2) := sRK_sol (by decide) (by decide)
    have h3 : solArray .ssprk54 (sRK 3) := sRK_sol (by decide) (by decide)
    have h4 : solArray .ssprk54 (sRK 4) := sRK_sol (by decide) (by decide)
    obtain ⟨n1, s1, m1, l1, y1, z1, p1⟩ := fixedPart_all (S := S) hT hM h hr hF hU (by decide) (fun r => junk r 0) (j0 0) k0 (by simp)
      h1 (A0 := sU) (A1 := sU) (by simp) (by simp) dt (lit 1) (lit 0) (lit (-0.391752226571890)) p0
    obtain ⟨n2, s2, m2, l2, y2, z2, p2⟩ := fixedPart_all (S := S) hT hM h hr hF h1 (by decide) (fun r => junk r 1) (j0 1)
      (by simp [hU, hD, h1]) (by simp) h2 (A0 := sU) (A1 := sRK 1) (by simp) (by simp) dt (lit 0.444370493651235)
      (lit 0.555629506348765) (lit (-0.368410593050371)) p1
    obtain ⟨n3, s3, m3, l3, y3, z3, p3⟩ := fixedPart_all (S := S) hT hM h hr hF h2 (by decide) (fun r => junk r 2) (j0 2)
      (by simp [hU, hD, h1, h2]) (by simp) h3 (A0 := sU) (A1 := sRK 2) (by simp) (by simp) dt (lit 0.620101851488403)
      (lit 0.379898148511597) (lit (-0.251891774271694)) p2
    obtain ⟨n4, s4, m4, l4, y4, z4, p4⟩ := fixedPart_all (S := S) hT hM h hr hF h3 (by decide) (fun r => junk r 3) (j0 3)
      (by simp [hU, hD, h1, h2, h3]) (by simp) h4 (A0 := sU) (A1 := sRK 3) (by simp) (by simp) dt (lit 0.178079954393132)
      (lit 0.821920045606868) (lit (-0.544974750228521)) p3
    obtain ⟨s5, m5, y5, z5, p5⟩ := fixedUpdate_all (F := F) hT h hU h2 h3 dt (lit 0.517231671970585)
      (lit 0.096059710526147) (lit (-0.063692468666290)) p4 (by simp) (by simp) (by simp)
    obtain ⟨n6, s6, m6, l6, y6, z6, p6⟩ := fixedPart_all (S := S) hT hM h hr hF h4 (by decide) (fun r => junk r 4) (j0 4)
      (by simp [hU, hD, h1, h2, h3, h4]) (by simp) hU (A0 := sU) (A1 := sRK 4) (by simp) (by simp) dt (lit 1)
      (lit 0.386708617503269) (lit (-0.226007483236906)) p5
    refine ⟨s6, m6, ?_, ?_, p6 sU (by simp)⟩
    · have y45 := fixedKernels_all (T := T) fun r => (y4 r).append (y5 r)
      have := ((((l1.append (fixedKernels_all y1)).append (l2.append (fixedKernels_all y2))).append
        (l3.append (fixedKernels_all y3))).append (l4.append y45)).append (l6.append (fixedKernels_all y6))
      simp only [fixedLine, stepWith]
      simpa only [List.append_assoc, List.cons_append, List.nil_append] using this
    · have := ((((z1.append z2).append z3).append z4).append z5).append z6
      simp only [fixedStep, stepWith]
      simpa only [List.append_assoc, List.cons_append, List.nil_append] using this

/-! ### Two runs on one grid -/

theorem gradOf_local {pi : ℝ} {u u' : Vals ℝ} {c c' : Cell} {d : Dir} (hd : M.d3 = true ∨ d ≠ .z) (h : SamePts M (u c) (u' c')) :
    gradOf M pi u d c = gradOf M pi u' d c' := by
  refine ofComps_congr fun iv hv => ?_
  unfold gradAvg
  refine congrArg (· * quadScale M.d3 pi M.N) (foldl_congr (fun p hp a => foldl_congr (fun k _ r => ?_) a) _)
  rw [gradVal_congr fun i hi => h (p.set d i) iv (IsSolPt.set hd (mem_gradLines hd hp) hi) hv]

/-- What preparing makes of the values depends on the values only. -/
theorem prepare_same (lay : Layout) (h : Ready M P) {A : ℕ} (hA : solArray ti A) {m n m' n' : Addr → ℝ}
    (r : Runs (prepare M S P F A) m m') (r' : Runs (prepare { M with lay := lay } S P F A) n n')
    (hu : ∀ c, P.box M.d3 c → SamePts M (valsOf M m A c) (valsOf M n A c)) {c : Cell} (hc : P.box M.d3 c) :
    SamePts M (valsOf M m' A c) (valsOf M n' A c) := by
  have h' : Ready { M with lay := lay } P := ⟨h.ne, h.nv⟩
  have hlt := hA.small
  cases hl : F.limiter with
  | none =>
    rw [prepare_none hl] at r r'
    by_cases hp : F.positivity = true
    · rw [if_pos hp] at r r'
      obtain ⟨m1, y, e, -⟩ := preserving_yields (S := S) (ti := ti) h hA F.pi F.big m
      obtain ⟨n1, y', e', -⟩ := preserving_yields (S := S) (ti := ti) h' hA F.pi F.big n
      obtain rfl := y.unique r
      obtain rfl := y'.unique r'
      intro p iv hpt hv
      refine (e c p iv hc hpt (by rw [h.nv]; exact hv)).trans
        (Eq.trans ?_ (e' c p iv hc hpt (by rw [h.nv]; exact hv)).symm)
      exact posVals_local (avgOf_local (hu c hc)) (hu c hc) p iv hpt hv
    · rw [if_neg hp] at r r'
      obtain rfl := (YieldsAll.nil (dom := fun _ => True) m).unique r
      obtain rfl := (YieldsAll.nil (dom := fun _ => True) n).unique r'
      exact hu c hc
  | some t =>
    rw [prepare_some hl] at r r'
    obtain ⟨m1, y, e, a, -⟩ := limiting_yields (S := S) (ti := ti) h hA F.pi t m
    obtain ⟨n1, y', e', a', -⟩ := limiting_yields (S := S) (ti := ti) h' hA F.pi t n
    have same : ∀ c, P.box M.d3 c → SamePts M (valsOf M m1 A c) (valsOf M n1 A c) := by
      intro c hc p iv hpt hv
      refine (e c p iv hc hpt (by rw [h.nv]; exact hv)).trans
        (Eq.trans ?_ (e' c p iv hc hpt (by rw [h.nv]; exact hv)).symm)
      refine (limitVals_congr (fun c hc => avgOf_local (hu c hc)) (fun d c hd hc => gradOf_local hd (hu c hc)) hc p iv).trans ?_
      show (if _ then _ else _) = (if _ then _ else _)
      rw [hu c hc p iv hpt hv]
      rfl
    by_cases hp : F.positivity = true
    · rw [if_pos hp] at r r'
      obtain ⟨m2, z, g, -⟩ := positivity_yields (S := S) (ti := ti) h hA F.big m1
      obtain ⟨n2, z', g', -⟩ := positivity_yields (S := S) (ti := ti) h' hA F.big n1
      have w := y.append (.cons (z.mono fun _ ha => avg_lim ha) (.nil _))
      have w' := y'.append (.cons (z'.mono fun _ ha => avg_lim ha) (.nil _))
      obtain rfl := w.unique r
      obtain rfl := w'.unique r'
      intro p iv hpt hv
      refine (g c p iv hc hpt (by rw [h.nv]; exact hv)).trans
        (Eq.trans ?_ (g' c p iv hc hpt (by rw [h.nv]; exact hv)).symm)
      refine posVals_local ?_ (same c hc) p iv hpt hv
      refine (ofComps_congr fun iv hv => a c iv hc (h.nv ▸ hv)).trans (Eq.trans ?_ (ofComps_congr fun iv hv =>
        a' c iv hc (h.nv ▸ hv)).symm)
      exact avgOf_local (hu c hc)
    · rw [if_neg hp, List.append_nil] at r r'
      obtain rfl := y.unique r
      obtain rfl := y'.unique r'
      exact same c hc

/-- In these arrays the two runs agree. -/
def TwinOf (M : Scheme ℝ) (P : Grid) (K : List ℕ) (m n : Addr → ℝ) : Prop :=
  ∀ A, A ∈ K → SameInside M.d3 M.N P (valsOf M m A) (valsOf M n A)

theorem twinUpdate (lay : Layout) (h : Setup M P B) {K : List ℕ} {out A0 A1 : ℕ} (ho : solArray ti out) (h0 : solArray ti A0)
    (h1 : solArray ti A1) (dt c0 c1 c2 : ℝ) {m n : Addr → ℝ} (hs : TwinOf M P K m n) (k0 : A0 ∈ K) (k1 : A1 ∈ K) (kd : sDiv ∈ K) :
    ∃ m' n', YieldsAll (fixDom F M.d3 M.N P ti) [updateRK M P dt out A0 A1 c0 c1 c2] m m' ∧
      YieldsAll (fixDom F M.d3 M.N P ti) [updateRK { M with lay := lay } P dt out A0 A1 c0 c1 c2] n n' ∧
      TwinOf M P (out :: K) m' n' := by
  obtain ⟨m', y, e, f⟩ := Sdm.update_yields h ho h0 h1 dt c0 c1 c2 m
  obtain ⟨n', z, e', f'⟩ := Sdm.update_yields (M := { M with lay := lay }) h ho h0 h1 dt c0 c1 c2 n
  refine ⟨m', n', y.mono fun _ => sdm_fix, z.mono fun _ => sdm_fix, fun A' hA' c p iv hc hi hp hv => ?_⟩
  by_cases ha : A' = out
  · subst ha
    refine (e c p iv hc hi hp hv).trans (Eq.trans ?_ (e' c p iv hc hi hp hv).symm)
    show combine _ _ _ _ _ _ _ = combine _ _ _ _ (valsOf M n A0 c p iv) (valsOf M n A1 c p iv) (valsOf M n sDiv c p iv)
    rw [hs A0 k0 c p iv hc hi hp hv, hs A1 k1 c p iv hc hi hp hv, hs sDiv kd c p iv hc hi hp hv]
  · have hK' : A' ∈ K := by simpa [ha] using hA'
    exact (f A' ha c p iv hc hi hp hv).trans ((hs A' hK' c p iv hc hi hp hv).trans (f' A' ha c p iv hc hi hp hv).symm)

theorem twinPart (lay : Layout) (hM : ExactScheme M) (h : Setup M P B) (hr : HasSolver M.d3 S)
    {A A0 A1 out : ℕ} (hA : solArray ti A) (hAd : A ≠ sDiv) (j j' : Dir → Cell → Pt → HState ℝ)
    {K : List ℕ} (hK : ∀ A ∈ K, solArray ti A) (hAK : A ∈ K) (ho : solArray ti out) (k0 : A0 ∈ K) (k1 : A1 ∈ K)
    (dt c0 c1 c2 : ℝ) {m n : Addr → ℝ} (hs : TwinOf M P K m n) :
    ∃ m' n', YieldsAll (fixDom F M.d3 M.N P ti) (makeBoundaries M P A ++ (fixedDivergence M S P j F A ++
        [updateRK M P dt out A0 A1 c0 c1 c2])) m m' ∧
      YieldsAll (fixDom F M.d3 M.N P ti) (makeBoundaries { M with lay := lay } P A ++
        (fixedDivergence { M with lay := lay } S P j' F A ++ [updateRK { M with lay := lay } P dt out A0 A1 c0 c1 c2])) n n' ∧
      TwinOf M P (out :: sDiv :: K) m' n' := by
  have hN := hM.orders.1
  obtain ⟨a0, a1, m', y, yp, e0, e1, e2, e3⟩ := fixedStage_yields (S := S) h hN F hA hAd j m
  obtain ⟨b0, b1, n', z, zp, g0, g1, g2, g3⟩ := fixedStage_yields (M := { M with lay := lay }) (S := S) h hN F hA hAd j' n
  have same : ∀ c, P.box M.d3 c → SamePts M (valsOf M a1 A c) (valsOf M b1 A c) := fun c hc =>
    prepare_same lay h.ready hA yp.run zp.run (fun c hc p iv hp hv => (e0 c p iv hc hp hv).trans
      ((extended_congr h (hs A hAK) hc hp hv).trans (g0 c p iv hc hp hv).symm)) hc
  have tw : TwinOf M P (sDiv :: K) m' n' := by
    intro A' hA' c p iv hc hi hp hv
    by_cases hd : A' = sDiv
    · subst hd
      refine (e1 c p iv hc hp hv).trans (Eq.trans ?_ (g1 c p iv hc hp hv).symm)
      refine (divAll_congr (fun c p iv hc hp hv => same c hc p iv hp hv) iv hc hp).trans ?_
      exact (divAll_eq hM h hr _ hi hp hv).trans
        (divAll_eq (M := { M with lay := lay }) ⟨hM.orders, hM.sp, hM.fp⟩ h hr (valsOf M b1 A) hi hp hv).symm
    · have hK' : A' ∈ K := by simpa [hd] using hA'
      have hS := hK A' hK'
      by_cases hAA : A' = A
      · subst hAA
        have g2' : valsOf M n' A' = valsOf M b1 A' := g2
        rw [e2, g2']
        exact same c hc p iv hp hv
      · have g3' : valsOf M n' A' = valsOf M n A' := g3 A' hAA hd hS.ne (solArray_notMean hS)
        rw [e3 A' hAA hd hS.ne (solArray_notMean hS), g3']
        exact hs A' hK' c p iv hc hi hp hv
  obtain ⟨m2, n2, y', z', t⟩ := twinUpdate (F := F) lay h ho (hK _ k0) (hK _ k1) dt c0 c1 c2 tw (.tail _ k0) (.tail _ k1) (.head _)
  refine ⟨m2, n2, ?_, ?_, t⟩
  · rw [← List.append_assoc]
    exact y.append y'
  · rw [← List.append_assoc]
    exact YieldsAll.append z z'

/-- A step of two runs that agree. -/
theorem twinStep (lay : Layout) (hM : ExactScheme M) (h : Setup M P B) (hr : HasSolver M.d3 S) (F : Fixes ℝ)
    (ti : Mood.TimeInt) (dt : ℝ) (j j' : ℕ → Dir → Cell → Pt → HState ℝ) {m n : Addr → ℝ}
    (hs : SameInside M.d3 M.N P (valsOf M m sU) (valsOf M n sU)) :
    ∃ m' n', YieldsAll (fixDom F M.d3 M.N P ti) (fixedStep M S P j F ti dt) m m' ∧
      YieldsAll (fixDom F M.d3 M.N P ti) (fixedStep { M with lay := lay } S P j' F ti dt) n n' ∧
      SameInside M.d3 M.N P (valsOf M m' sU) (valsOf M n' sU) := by
  have hU : solArray ti sU := sU_sol ti
  have hD : solArray ti sDiv := .inr (.inl rfl)
  have p0 : TwinOf M P [sU] m n := fun A hA => by
    obtain rfl : A = sU := by simpa using hA
    exact hs
  have k0 : ∀ A ∈ [sU], solArray ti A := by simpa using hU
  cases ti with
  | forward_euler =>
    obtain ⟨m1, n1, y1, z1, p1⟩ := twinPart (S := S) (F := F) lay hM h hr hU (by decide) (j 0) (j' 0) k0 (by simp)
      hU (A0 := sU) (A1 := sU) (by simp) (by simp) dt (lit 1) (lit 0) (lit (-1)) p0
    exact ⟨m1, n1, y1, z1, p1 sU (by simp)⟩
  | ssprk2 =>
    have h1 : solArray .ssprk2 (sRK 1) := sRK_sol (by decide) (by decide)
    obtain ⟨m1, n1, y1, z1, p1⟩ := twinPart (S := S) (F := F) lay hM h hr hU (by decide) (j 0) (j' 0) k0 (by simp)
      h1 (A0 := sU) (A1 := sU) (by simp) (by simp) dt (lit 1) (lit 0) (lit (-1)) p0
    obtain ⟨m2, n2, y2, z2, p2⟩ := twinPart (S := S) (F := F) lay hM h hr h1 (by decide) (j 1) (j' 1)
      (by simp [hU, hD, h1]) (by simp) hU (A0 := sU) (A1 := sRK 1) (by simp) (by simp) dt (lit (1/2)) (lit (1/2)) (lit (-1/2)) p1
    refine ⟨m2, n2, ?_, ?_, p2 sU (by simp)⟩
    · have := y1.append y2
      simp only [fixedStep, stepWith]
      simpa only [List.append_assoc] using this
    · have := z1.append z2
      simp only [fixedStep, stepWith]
      simpa only [List.append_assoc] using this
  | ssprk3 =>
    have h1 : solArray .ssprk3 (sRK 1) := sRK_sol (by decide) (by decide)
    have h2 : solArray .ssprk3 (sRK 2) := sRK_sol (by decide) (by decide)
    obtain ⟨m1, n1, y1, z1, p1⟩ := twinPart (S := S) (F := F) lay hM h hr hU (by decide) (j 0) (j' 0) k0 (by simp)
      h1 (A0 := sU) (A1 := sU) (by simp) (by simp) dt (lit 1) (lit 0) (lit (-1)) p0
    obtain ⟨m2, n2, y2, z2, p2⟩ := twinPart (S := S) (F := F) lay hM h hr h1 (by decide) (j 1) (j' 1)
      (by simp [hU, hD, h1]) (by simp) h2 (A0 := sU) (A1 := sRK 1) (by simp) (by simp) dt (lit (3/4)) (lit (1/4)) (lit (-1/4)) p1
    obtain ⟨m3, n3, y3, z3, p3⟩ := twinPart (S := S) (F := F) lay hM h hr h2 (by decide) (j 2) (j' 2)
      (by simp [hU, hD, h1, h2]) (by simp) hU (A0 := sU) (A1 := sRK 2) (by simp) (by simp) dt (lit 1 / lit 3) (lit 2 / lit 3)
      (lit (-2) / lit 3) p2
    refine ⟨m3, n3, ?_, ?_, p3 sU (by simp)⟩
    · have := (y1.append y2).append y3
      simp only [fixedStep, stepWith]
      simpa only [List.append_assoc] using this
    · have := (z1.append z2).append z3
      simp only [fixedStep, stepWith]
      simpa only [List.append_assoc] using this
  | ssprk54 =>
    have h1 : solArray .ssprk54 (sRK 1) := sRK_sol (by decide) (by decide)
    have h2 : solArray .ssprk54 (sRK 2) := sRK_sol (by decide) (by decide)
    have h3 : solArray .ssprk54 (sRK 3) := sRK_sol (by decide) (by decide)
    have h4 : solArray .ssprk54 (sRK 4) := sRK_sol (by decide) (by decide)
    obtain ⟨m1, n1, y1, z1, p1⟩ := twinPart (S := S) (F := F) lay hM h hr hU (by decide) (j 0) (j' 0) k0 (by simp)
      h1 (A0 := sU) (A1 := sU) (by simp) (by simp) dt (lit 1) (lit 0) (lit (-0.391752226571890)) p0
    obtain ⟨m2, n2, y2, z2, p2⟩ := twinPart (S := S) (F := F) lay hM h hr h1 (by decide) (j 1) (j' 1)
      (by simp [hU, hD, h1]) (by simp) h2 (A0 := sU) (A1 := sRK 1) (by simp) (by simp) dt (lit 0.444370493651235)
      (lit 0.555629506348765) (lit (-0.368410593050371)) p1
    obtain ⟨m3, n3, y3, z3, p3⟩ := twinPart (S := S) (F := F) lay hM h hr h2 (by decide) (j 2) (j' 2)
      (by simp [hU, hD, h1, h2]) (by simp) h3 (A0 := sU) (A1 := sRK 2) (by simp) (by simp) dt (lit 0.620101851488403)
      (lit 0.379898148511597) (lit (-0.251891774271694)) p2
    obtain ⟨m4, n4, y4, z4, p4⟩ := twinPart (S := S) (F := F) lay hM h hr h3 (by decide) (j 3) (j' 3)
      (by simp [hU, hD, h1, h2, h3]) (by simp) h4 (A0 := sU) (A1 := sRK 3) (by simp) (by simp) dt (lit 0.178079954393132)
      (lit 0.821920045606868) (lit (-0.544974750228521)) p3
    obtain ⟨m5, n5, y5, z5, p5⟩ := twinUpdate (F := F) lay h hU h2 h3 dt (lit 0.517231671970585)
      (lit 0.096059710526147) (lit (-0.063692468666290)) p4 (by simp) (by simp) (by simp)
    obtain ⟨m6, n6, y6, z6, p6⟩ := twinPart (S := S) (F := F) lay hM h hr h4 (by decide) (j 4) (j' 4)
      (by simp [hU, hD, h1, h2, h3, h4]) (by simp) hU (A0 := sU) (A1 := sRK 4) (by simp) (by simp) dt (lit 1)
      (lit 0.386708617503269) (lit (-0.226007483236906)) p5
    refine ⟨m6, n6, ?_, ?_, p6 sU (by simp)⟩
    · have := ((((y1.append y2).append y3).append y4).append y5).append y6
      simp only [fixedStep, stepWith]
      simpa only [List.append_assoc, List.cons_append, List.nil_append] using this
    · have := ((((z1.append z2).append z3).append z4).append z5).append z6
      simp only [fixedStep, stepWith]
      simpa only [List.append_assoc, List.cons_append, List.nil_append] using this

end

end Verif.Sdm
