import Verif.Lemmas.SdmWindow
import Verif.Lemmas.SdmReal

/-! Helper lemmas: steps of the spectral difference solver on several MPI processes. -/

namespace Verif.Sdm

open Verif K Function Spec ROps

/-! ### The divergence of a window -/

section
variable {M : Scheme ℝ} {P : Grid} {B : Sides} {S : Settings ℝ} {T : Ranks}

theorem divAll_eq (hM : ExactScheme M) (hs : Setup M P B) (hr : HasSolver M.d3 S)
    {junk : Dir → Cell → Pt → HState ℝ} (u : Vals ℝ) {c : Cell} (hc : P.inner M.d3 c) {p : Pt}
    (hp : IsSolPt M.d3 M.N p) {iv : ℕ} (hv : iv < hydroVars M.d3) :
    divAll M S P junk u c p iv =
      divergenceOf M.d3 M.N S (eulerFluxOf M.d3 S) (riemannFlux M.d3 S HState.zero) u c p iv := by
  unfold divAll divergenceOf
  simp only
  rw [divAlong_eq hM hs hr (.inr (by decide)) u hc hp hv, divAlong_eq hM hs hr (.inr (by decide)) u hc hp hv]
  cases h3 : M.d3
  · simp only [Bool.false_eq_true, if_false]
    rops
    ring
  · simp only [if_true]
    rw [← h3, divAlong_eq hM hs hr (.inl h3) _ hc hp hv, h3]
    rops; ring

theorem slopeOf_shift {d3 : Bool} {N : ℕ} {f : Dir → HState ℝ → HState ℝ}
    {g : Dir → HState ℝ → HState ℝ → HState ℝ} {τ : Cell → Cell} (hτ : Translation τ) (W : Vals ℝ) (d : Dir)
    (c : Cell) (p : Pt) (iv : ℕ) :
    slopeOf d3 N S f g (fun c => W (τ c)) d c p iv = slopeOf d3 N S f g W d (τ c) p iv := by
  unfold slopeOf pointFlux pointState
  simp only [hτ.up, hτ.down]

theorem divergenceOf_shift {d3 : Bool} {N : ℕ} {f : Dir → HState ℝ → HState ℝ}
    {g : Dir → HState ℝ → HState ℝ → HState ℝ} {τ : Cell → Cell} (hτ : Translation τ) (W : Vals ℝ)
    (c : Cell) (p : Pt) (iv : ℕ) :
    divergenceOf d3 N S f g (fun c => W (τ c)) c p iv = divergenceOf d3 N S f g W (τ c) p iv := by
  unfold divergenceOf
  simp only [slopeOf_shift hτ]

/-- The grid of the whole. -/
theorem setup_whole (hT : RanksOk M.d3 T) (h : Setup M P B) : Setup M (whole T P) B := whole_setup (by decide) hT h

/-- Exchange and divergence. -/
theorem stage_all (hT : RanksOk M.d3 T) (hM : ExactScheme M) (h : Setup M P B) (hr : HasSolver M.d3 S)
    {ti : Mood.TimeInt} {A : ℕ} (hA : solArray ti A) (hAd : A ≠ sDiv) (junk : ℕ → Dir → Cell → Pt → HState ℝ)
    (j0 : Dir → Cell → Pt → HState ℝ) {m : Nat → Addr → ℝ} {u : Vals ℝ} (hu : HoldsAll M T P m A u) :
    ∃ m1 m', LockSeq T.num (fun _ => mpiDom M P ti) (haloLine M T P A) m m1 ∧
      (∀ r, YieldsAll (sdmDom M.d3 M.N P ti) (divergence M S P (junk r) A) (m1 r) (m' r)) ∧
      HoldsAll M T P m' sDiv (rhs M S (whole T P) B j0 u) ∧
      (∀ A' v, solArray ti A' → A' ≠ sDiv → HoldsAll M T P m A' v → HoldsAll M T P m' A' v) := by
  obtain ⟨m1, l, e1, f1⟩ := halo_line hT h hA hu
  choose m' y e2 f2 using fun r => divergence_yields (S := S) h.ready hM.orders.1 hA hAd (junk r) (m1 r)
  refine ⟨m1, m', l, y, ?_, ?_⟩
  · intro q hq c p iv hc hi hp hv
    have k1 := e2 (owner T.my T.mz q) c p iv hc hp hv
    have k2 := divAll_congr (P := P) (S := S) (junk := junk (owner T.my T.mz q))
      (v := fun c => extended M.d3 M.N (whole T P) B u (inDomain P q c))
      (fun c p iv hc hp hv => e1 q hq c p iv hc hp hv) iv hc hp
    have k3 := divAll_eq (S := S) (junk := junk (owner T.my T.mz q)) hM h hr
      (fun c => extended M.d3 M.N (whole T P) B u (inDomain P q c)) hi hp hv
    have k4 := rhs_eq (S := S) (junk := j0) hM (setup_whole hT h) hr u (inDomain P q c) p iv
      (whole_box hT h hq hc) (whole_inner hT h hq hc hi) hp hv
    exact k1.trans (k2.trans (k3.trans ((divergenceOf_shift (inDomain_translation P q) _ c p iv).trans k4.symm)))
  · intro A' v hA' hd hv q hq c p iv hc hi hp hiv
    show m' _ _ = _
    rw [f2 _ _ hd hA'.ne]
    by_cases hAA : A' = A
    · subst hAA
      refine (e1 q hq c p iv hc hp hiv).trans ?_
      rw [extended_inner (whole_inner hT h hq hc hi)]
      exact (hu q hq c p iv hc hi hp hiv).symm.trans (hv q hq c p iv hc hi hp hiv)
    · exact (f1 _ _ _ _ hAA (solArray_notBuf hA')).trans (hv q hq c p iv hc hi hp hiv)

/-- The update on all ranks. -/
theorem update_all (h : Setup M P B) {ti : Mood.TimeInt} {out A0 A1 : ℕ} (ho : solArray ti out)
    (h0 : solArray ti A0) (h1 : solArray ti A1) (dt c0 c1 c2 : ℝ) {m : Nat → Addr → ℝ} {u0 u1 w : Vals ℝ}
    (hu0 : HoldsAll M T P m A0 u0) (hu1 : HoldsAll M T P m A1 u1) (hw : HoldsAll M T P m sDiv w) :
    ∃ m', (∀ r, YieldsAll (sdmDom M.d3 M.N P ti) [updateRK M P dt out A0 A1 c0 c1 c2] (m r) (m' r)) ∧
      HoldsAll M T P m' out (mix c0 c1 c2 dt u0 u1 w) ∧
      (∀ A' v, A' ≠ out → HoldsAll M T P m A' v → HoldsAll M T P m' A' v) := by
  choose m' y e f using fun r => update_yields h ho h0 h1 dt c0 c1 c2 (m r)
  refine ⟨m', y, fun q hq => (e _).trans fun c p iv hc hi hp hv => ?_, fun A' v h1 hv q hq => (f _ A' h1).trans (hv q hq)⟩
  show combine _ _ _ _ _ _ _ = combine _ _ _ _ _ _ _
  rw [hu0 q hq c p iv hc hi hp hv, hu1 q hq c p iv hc hi hp hv, hw q hq c p iv hc hi hp hv]

/-- Statements of a step, aligned. -/
noncomputable def stepLine (M : Scheme ℝ) (T : Ranks) (S : Settings ℝ) (P : Grid) (junk : ℕ → ℕ → Dir → Cell → Pt → HState ℝ)
    (ti : Mood.TimeInt) (dt : ℝ) : List (Nat → MpiOp ℝ) :=
  stepWith (haloLine M T P) (fun i A L => [fun r => .kernels (divergence M S P (junk r i) A ++ L)]) M P ti dt

theorem stepLine_prog (M : Scheme ℝ) (T : Ranks) (S : Settings ℝ) (P : Grid)
    (junk : ℕ → ℕ → Dir → Cell → Pt → HState ℝ) (ti : Mood.TimeInt) (dt : ℝ) (r : ℕ) :
    (stepLine M T S P junk ti dt).map (fun f => f r) = timeStepMpi M T S P (junk r) ti dt r := by
  unfold stepLine timeStepMpi
  cases ti <;> simp only [stepWith, List.map_append, haloLine_prog, List.map_cons, List.map_nil]

theorem kernels_all {ti : Mood.TimeInt} {L : Nat → List (Launch Addr ℝ)} {m m' : Nat → Addr → ℝ}
    (y : ∀ r, YieldsAll (sdmDom M.d3 M.N P ti) (L r) (m r) (m' r)) :
    LockSeq T.num (fun _ => mpiDom M P ti) [fun r => .kernels (L r)] m m' :=
  .loops fun r _ => (y r).mono fun _ ha => .inl ha

/-- A step on all ranks. -/
theorem step_all (hT : RanksOk M.d3 T) (hM : ExactScheme M) (h : Setup M P B) (hr : HasSolver M.d3 S)
    (ti : Mood.TimeInt) (dt : ℝ) (junk : ℕ → ℕ → Dir → Cell → Pt → HState ℝ)
    (j0 : ℕ → Dir → Cell → Pt → HState ℝ) {m : Nat → Addr → ℝ} {u : Vals ℝ} (hu : HoldsAll M T P m sU u) :
    ∃ m', LockSeq T.num (fun _ => mpiDom M P ti) (stepLine M T S P junk ti dt) m m' ∧
      HoldsAll M T P m' sU (stepVals M S (whole T P) B j0 ti dt u) := by
  have hU : solArray ti sU := sU_sol ti
  obtain ⟨n0, m0, l0, y0, d0, k0⟩ := stage_all (S := S) hT hM h hr hU (by decide) (fun r => junk r 0) (j0 0) hu
  have u0 := k0 sU _ hU (by decide) hu
  cases ti with
  | forward_euler =>
    obtain ⟨m1, y1, e1, _⟩ := update_all h hU hU hU dt (lit 1) (lit 0) (lit (-1)) u0 u0 d0
    refine ⟨m1, ?_, e1⟩
    exact l0.append (kernels_all fun r => (y0 r).append (y1 r))
  | ssprk2 =>
    have h1 : solArray .ssprk2 (sRK 1) := sRK_sol (by decide) (by decide)
    obtain ⟨m1, y1, e1, k1⟩ := update_all h h1 hU hU dt (lit 1) (lit 0) (lit (-1)) u0 u0 d0
    obtain ⟨n2, m2, l2, y2, d2, k2⟩ := stage_all (S := S) hT hM h hr h1 (by decide) (fun r => junk r 1) (j0 1) e1
    obtain ⟨m3, y3, e3, _⟩ := update_all h hU hU h1 dt (lit (1/2)) (lit (1/2)) (lit (-1/2))
      (k2 sU _ hU (by decide) (k1 sU _ (by decide) u0))
      (k2 (sRK 1) _ h1 (by decide) e1) d2
    refine ⟨m3, ?_, e3⟩
    have := ((l0.append (kernels_all fun r => (y0 r).append (y1 r))).append l2).append
      (kernels_all fun r => (y2 r).append (y3 r))
    simp only [stepLine, stepWith]
    simpa only [List.append_assoc, List.cons_append, List.nil_append] using this
  | ssprk3 =>
    have h1 : solArray .ssprk3 (sRK 1) := sRK_sol (by decide) (by decide)
    have h2 : solArray .ssprk3 (sRK 2) := sRK_sol (by decide) (by decide)
    obtain ⟨m1, y1, e1, k1⟩ := update_all h h1 hU hU dt (lit 1) (lit 0) (lit (-1)) u0 u0 d0
    obtain ⟨n2, m2, l2, y2, d2, k2⟩ := stage_all (S := S) hT hM h hr h1 (by decide) (fun r => junk r 1) (j0 1) e1
    have u2 := k2 sU _ hU (by decide) (k1 sU _ (by decide) u0)
    obtain ⟨m3, y3, e3, k3⟩ := update_all h h2 hU h1 dt (lit (3/4)) (lit (1/4)) (lit (-1/4))
      u2 (k2 (sRK 1) _ h1 (by decide) e1) d2
    obtain ⟨n4, m4, l4, y4, d4, k4⟩ := stage_all (S := S) hT hM h hr h2 (by decide) (fun r => junk r 2) (j0 2) e3
    obtain ⟨m5, y5, e5, _⟩ := update_all h hU hU h2 dt (lit 1 / lit 3) (lit 2 / lit 3)
      (lit (-2) / lit 3) (k4 sU _ hU (by decide) (k3 sU _ (by decide) u2))
      (k4 (sRK 2) _ h2 (by decide) e3) d4
    refine ⟨m5, ?_, e5⟩
    have := ((((l0.append (kernels_all fun r => (y0 r).append (y1 r))).append l2).append
      (kernels_all fun r => (y2 r).append (y3 r))).append l4).append (kernels_all fun r => (y4 r).append (y5 r))
    simp only [stepLine, stepWith]
    simpa only [List.append_assoc, List.cons_append, List.nil_append] using this
  | ssprk54 =>
    have h1 : solArray .ssprk54 (sRK 1) := sRK_sol (by decide) (by decide)
    have h2 : solArray .ssprk54 (sRK 2) := sRK_sol (by decide) (by decide)
    have h3 : solArray .ssprk54 (sRK 3) := sRK_sol (by decide) (by decide)
    have h4 : solArray .ssprk54 (sRK 4) := sRK_sol (by decide) (by decide)
    obtain ⟨m1, y1, e1, k1⟩ := update_all h h1 hU hU dt (lit 1) (lit 0) (lit (-0.391752226571890))
      u0 u0 d0
    obtain ⟨n2, m2, l2, y2, d2, k2⟩ := stage_all (S := S) hT hM h hr h1 (by decide) (fun r => junk r 1) (j0 1) e1
    have u2 := k2 sU _ hU (by decide) (k1 sU _ (by decide) u0)
    obtain ⟨m3, y3, e3, k3⟩ := update_all h h2 hU h1 dt (lit 0.444370493651235)
      (lit 0.555629506348765) (lit (-0.368410593050371))
      u2 (k2 (sRK 1) _ h1 (by decide) e1) d2
    obtain ⟨n4, m4, l4, y4, d4, k4⟩ := stage_all (S := S) hT hM h hr h2 (by decide) (fun r => junk r 2) (j0 2) e3
    have u4 := k4 sU _ hU (by decide) (k3 sU _ (by decide) u2)
    have r4 := k4 (sRK 2) _ h2 (by decide) e3
    obtain ⟨m5, y5, e5, k5⟩ := update_all h h3 hU h2 dt (lit 0.620101851488403)
      (lit 0.379898148511597) (lit (-0.251891774271694)) u4 r4 d4
    obtain ⟨n6, m6, l6, y6, d6, k6⟩ := stage_all (S := S) hT hM h hr h3 (by decide) (fun r => junk r 3) (j0 3) e5
    have u6 := k6 sU _ hU (by decide) (k5 sU _ (by decide) u4)
    have r6 := k6 (sRK 2) _ h2 (by decide) (k5 (sRK 2) _ (by decide) r4)
    have s6 := k6 (sRK 3) _ h3 (by decide) e5
    obtain ⟨m7, y7, e7, k7⟩ := update_all h h4 hU h3 dt (lit 0.178079954393132)
      (lit 0.821920045606868) (lit (-0.544974750228521)) u6 s6 d6
    obtain ⟨m8, y8, e8, k8⟩ := update_all h hU h2 h3 dt (lit 0.517231671970585)
      (lit 0.096059710526147) (lit (-0.063692468666290)) (k7 (sRK 2) _ (by decide) r6)
      (k7 (sRK 3) _ (by decide) s6) (k7 sDiv _ (by decide) d6)
    have t8 := k8 (sRK 4) _ (by decide) e7
    obtain ⟨n9, m9, l9, y9, d9, k9⟩ := stage_all (S := S) hT hM h hr h4 (by decide) (fun r => junk r 4) (j0 4) t8
    obtain ⟨m10, y10, e10, _⟩ := update_all h hU hU h4 dt (lit 1) (lit 0.386708617503269)
      (lit (-0.226007483236906)) (k9 sU _ hU (by decide) e8)
      (k9 (sRK 4) _ h4 (by decide) t8) d9
    refine ⟨m10, ?_, e10⟩
    have := ((((((((l0.append (kernels_all fun r => (y0 r).append (y1 r))).append l2).append
      (kernels_all fun r => (y2 r).append (y3 r))).append l4).append
      (kernels_all fun r => (y4 r).append (y5 r))).append l6).append
      (kernels_all fun r => (y6 r).append ((y7 r).append (y8 r)))).append l9).append
      (kernels_all fun r => (y9 r).append (y10 r))
    simp only [stepLine, stepWith]
    simpa only [List.append_assoc, List.cons_append, List.nil_append] using this

end

end Verif.Sdm
