import Verif.Model.WedgeStep
import Verif.Props.C127_Wedge
import Verif.Props.C141_JetSerial

/-!
# C148: the moving shock at the upper boundary during a Runge–Kutta step

A user expects the ghost cells of a stage to show the shock where it is at the time of the stage.  They show it where it was at the start
of the step.
-/

namespace Verif

open Spec ROps Sdm Start Special

variable {C : SdmConf ℝ} {B : Sides} {c : ConfigReader ℝ} {D : Domain ℝ}

theorem wedge_fill (hC : C.Ok B) (h2 : C.M.d3 = false) (h0 : 0 < (wedgeShock c).angle) (h1 : (wedgeShock c).angle < Real.pi / 2)
    (t : ℝ) {ti : Mood.TimeInt} {U : ℕ} (hU : solArray ti U) (m : Addr → ℝ) :
    ∃ m', YieldsAll (sdmDom C.M.d3 C.M.N C.P ti) (sdmWedgeBoundaries C.M (WedgeParams.make c t) C.S C.P D U) m m' ∧
      WedgeGhosts (wedgeShock c) (configGamma c) t C.P C.M.N
        (fun i k => D.xmin + (i + C.P.nx * D.i_mpi - C.P.ghostWidth + C.M.sp k) * C.S.dx)
        (fun j k => D.ymin + (j + C.P.ny * D.j_mpi - C.P.ghostWidth + C.M.sp k) * C.S.dy)
        (fun _ _ v => Mood.comp ((wedgeShock c).ahead.conserved (configGamma c)) v)
        (fun b p v => m (C.M.sol U b p v)) (fun b p v => m' (C.M.sol U b p v)) := by
  have hg := hC.box.gw
  have hx := hC.box.nx
  have hy := hC.box.ny
  have hv := hC.box.nv
  rw [h2] at hv ⊢
  exact C127_ghosts_sdm h0 h1 t h2 C.S C.P D hU (by omega) (by omega) (by omega) hv m

/-- **C148**: a step of the wedge problem accesses only allocated entries, is free of data races, ends, and its result does not depend on
the schedule, whatever the time integration. -/
theorem C148_safe (hC : C.Ok B) (h2 : C.M.d3 = false) (h0 : 0 < (wedgeShock c).angle) (h1 : (wedgeShock c).angle < Real.pi / 2)
    (ti : Mood.TimeInt) (t : ℝ) (junk : ℕ → Dir → Cell → Pt → HState ℝ) (dt : ℝ) (m : Addr → ℝ) :
    ∃ m', YieldsAll (sdmDom C.M.d3 C.M.N C.P ti) (C.wedgeStep D (WedgeParams.make c) ti t junk dt) m m' :=
  stepWith_does hC ti (fun _ hA m => let ⟨m', y, _⟩ := wedge_fill hC h2 h0 h1 t hA m; ⟨m', y⟩) junk dt m

/-- **C148.** The stage of ssprk2 – inside the box it holds what a step of forward Euler gives, the state at `t + dt` – has above the box
the gas of the moving shock at time `t`. -/
theorem C148_stage (hC : C.Ok B) (h2 : C.M.d3 = false) (h0 : 0 < (wedgeShock c).angle) (h1 : (wedgeShock c).angle < Real.pi / 2)
    {t dt : ℝ} {junk : ℕ → Dir → Cell → Pt → HState ℝ} {m m' e : Addr → ℝ}
    (r : Runs (C.wedgeStep D (WedgeParams.make c) .ssprk2 t junk dt) m m')
    (re : Runs (C.wedgeStep D (WedgeParams.make c) .forward_euler t junk dt) m e) :
    SameInside C.M.d3 C.M.N C.P (valsOf C.M m' (sRK 1)) (valsOf C.M e sU) ∧
    ∀ b p v, C.P.box C.M.d3 b → IsSolPt C.M.d3 C.M.N p → v < 4 → C.P.ny + C.P.ghostWidth ≤ b.j →
      valsOf C.M m' (sRK 1) b p v = part (((wedgeShock c).gasAt t
        (D.xmin + (b.i + C.P.nx * D.i_mpi - C.P.ghostWidth + C.M.sp p.x) * C.S.dx)
        (D.ymin + (b.j + C.P.ny * D.j_mpi - C.P.ghostWidth + C.M.sp p.y) * C.S.dy)).conserved (configGamma c)) v := by
  have hN := hC.scheme.orders.1
  have hU : solArray .ssprk2 sU := sU_sol _
  have hU' : solArray .forward_euler sU := sU_sol _
  have hR : solArray .ssprk2 (sRK 1) := sRK_sol (by decide) (by decide)
  obtain ⟨m1, y1, g1⟩ := wedge_fill (D := D) hC h2 h0 h1 t hU m
  obtain ⟨m2, y2, -, -⟩ := divergence_yields (S := C.S) hC.box.ready hN hU (by decide) (junk 0) m1
  obtain ⟨m3, y3, e3, -, -⟩ := updateRK_yields hC.box.ready hR hU hU dt (lit 1) (lit 0) (lit (-1)) m2
  obtain ⟨m4, y4, g4⟩ := wedge_fill (D := D) hC h2 h0 h1 t hR m3
  obtain ⟨m5, y5, -, f5⟩ := divergence_yields (S := C.S) hC.box.ready hN hR (by decide) (junk 1) m4
  obtain ⟨m6, y6, -, -, f6⟩ := updateRK_yields hC.box.ready hU hU hR dt (lit (1/2)) (lit (1/2)) (lit (-1/2)) m5
  have y : YieldsAll (sdmDom C.M.d3 C.M.N C.P .ssprk2) (C.wedgeStep D (WedgeParams.make c) .ssprk2 t junk dt) m m6 :=
    y1.append (((y2.append (.cons y3 (.nil _))).append y4).append (y5.append (.cons y6 (.nil _))))
  obtain rfl := y.unique r
  -- forward Euler
  obtain ⟨n1, z1, -⟩ := wedge_fill (D := D) hC h2 h0 h1 t hU' m
  obtain rfl := z1.unique y1.run
  obtain ⟨n2, z2, -, -⟩ := divergence_yields (S := C.S) hC.box.ready hN hU' (by decide) (junk 0) m1
  obtain rfl := z2.unique y2.run
  obtain ⟨n3, z3, d3, -, -⟩ := updateRK_yields hC.box.ready hU' hU' hU' dt (lit 1) (lit 0) (lit (-1)) m2
  have z : YieldsAll (sdmDom C.M.d3 C.M.N C.P .forward_euler) (C.wedgeStep D (WedgeParams.make c) .forward_euler t junk dt) m n3 :=
    z1.append (z2.append (.cons z3 (.nil _)))
  obtain rfl := z.unique re
  have keep : ∀ b p v, valsOf C.M m' (sRK 1) b p v = valsOf C.M m4 (sRK 1) b p v := fun b p v =>
    (f6 _ (by show sRK 1 ≠ sU; decide)).trans (f5 _ (by show sRK 1 ≠ sDiv; decide) (by show sRK 1 ≠ sF; decide))
  constructor
  · intro b p v hb hi hp hv
    have hb' := hb
    have hp' := hp
    have hv' := hv
    rw [h2] at hb' hp' hv'
    have ei := C.P.isize_eq
    have ej := C.P.jsize_eq
    have a := g4.inside b p v hb' hp' hv' ⟨hi.2.2.2.1, by have := hi.2.2.2.2; omega⟩ ⟨hi.2.1, by have := hi.2.2.1; omega⟩
    exact (keep b p v).trans (a.trans ((e3 b p v hb hi hp hv).trans (d3 b p v hb hi hp hv).symm))
  · intro b p v hb hp hv hj
    rw [h2] at hb hp
    rw [keep]
    refine (g4.top b p v hb hp hv hj).trans ?_
    unfold MovingShock.gasAt
    split <;> rfl

/-- **C148, where the code does otherwise.** Wherever the front passes a point above the box during the step, the ghost cells of the
stage have there the gas ahead of the shock, not the gas that is there at the time of the stage. -/
theorem C148_lag (hC : C.Ok B) (h2 : C.M.d3 = false) (h0 : 0 < (wedgeShock c).angle) (h1 : (wedgeShock c).angle < Real.pi / 2)
    (hd : (wedgeShock c).ahead.rho ≠ (wedgeShock c).behind.rho)
    {t dt : ℝ} {junk : ℕ → Dir → Cell → Pt → HState ℝ} {m m' : Addr → ℝ}
    (r : Runs (C.wedgeStep D (WedgeParams.make c) .ssprk2 t junk dt) m m') {b : Cell} {p : Pt} (hb : C.P.box C.M.d3 b)
    (hp : IsSolPt C.M.d3 C.M.N p) (hj : C.P.ny + C.P.ghostWidth ≤ b.j)
    (hn : ¬ (wedgeShock c).passed t (D.xmin + (b.i + C.P.nx * D.i_mpi - C.P.ghostWidth + C.M.sp p.x) * C.S.dx)
      (D.ymin + (b.j + C.P.ny * D.j_mpi - C.P.ghostWidth + C.M.sp p.y) * C.S.dy))
    (hy : (wedgeShock c).passed (t + dt) (D.xmin + (b.i + C.P.nx * D.i_mpi - C.P.ghostWidth + C.M.sp p.x) * C.S.dx)
      (D.ymin + (b.j + C.P.ny * D.j_mpi - C.P.ghostWidth + C.M.sp p.y) * C.S.dy)) :
    valsOf C.M m' (sRK 1) b p 0 = (wedgeShock c).ahead.rho ∧
    valsOf C.M m' (sRK 1) b p 0 ≠ ((wedgeShock c).gasAt (t + dt)
        (D.xmin + (b.i + C.P.nx * D.i_mpi - C.P.ghostWidth + C.M.sp p.x) * C.S.dx)
        (D.ymin + (b.j + C.P.ny * D.j_mpi - C.P.ghostWidth + C.M.sp p.y) * C.S.dy)).rho := by
  obtain ⟨e, ye⟩ := C148_safe (D := D) hC h2 h0 h1 .forward_euler t junk dt m
  have a := (C148_stage hC h2 h0 h1 r ye.run).2 b p 0 hb hp (by decide) hj
  have a' : valsOf C.M m' (sRK 1) b p 0 = (wedgeShock c).ahead.rho := by
    rw [a, MovingShock.gasAt, if_neg hn]
    rfl
  refine ⟨a', ?_⟩
  rw [a', MovingShock.gasAt, if_pos hy]
  exact hd

/-- The stage array the last call of `compute_fluxes_divergence` reads. -/
inductive LastStage : Mood.TimeInt → ℕ → Prop
  | two : LastStage .ssprk2 (sRK 1)
  | three : LastStage .ssprk3 (sRK 2)
  | four : LastStage .ssprk54 (sRK 4)

/-- **C148.** With each of the Runge–Kutta methods the last stage, whatever its time, has above the box the gas of the moving shock at
the time the step starts. -/
theorem C148_last (hC : C.Ok B) (h2 : C.M.d3 = false) (h0 : 0 < (wedgeShock c).angle) (h1 : (wedgeShock c).angle < Real.pi / 2)
    {ti : Mood.TimeInt} {A : ℕ} (hA : LastStage ti A) {t dt : ℝ} {junk : ℕ → Dir → Cell → Pt → HState ℝ} {m m' : Addr → ℝ}
    (r : Runs (C.wedgeStep D (WedgeParams.make c) ti t junk dt) m m') {b : Cell} {p : Pt} {v : ℕ} (hb : C.P.box C.M.d3 b)
    (hp : IsSolPt C.M.d3 C.M.N p) (hv : v < 4) (hj : C.P.ny + C.P.ghostWidth ≤ b.j) :
    valsOf C.M m' A b p v = part (((wedgeShock c).gasAt t
      (D.xmin + (b.i + C.P.nx * D.i_mpi - C.P.ghostWidth + C.M.sp p.x) * C.S.dx)
      (D.ymin + (b.j + C.P.ny * D.j_mpi - C.P.ghostWidth + C.M.sp p.y) * C.S.dy)).conserved (configGamma c)) v := by
  have hN := hC.scheme.orders.1
  let dom := sdmDom C.M.d3 C.M.N C.P ti
  have fill : ∀ A, solArray ti A → Sdm.Does dom (sdmWedgeBoundaries C.M (WedgeParams.make c t) C.S C.P D A) := fun A hA m =>
    let ⟨m', y, _⟩ := wedge_fill hC h2 h0 h1 t hA m; ⟨m', y⟩
  have go : ∀ i A, solArray ti A → A ≠ sDiv → Sdm.Does dom (divergence C.M C.S C.P (junk i) A) :=
    fun i A hA hAd m => let ⟨m', y, _⟩ := divergence_yields (S := C.S) hC.box.ready hN hA hAd (junk i) m; ⟨m', y⟩
  have up : ∀ o A A' c0 c1 c2, solArray ti o → solArray ti A → solArray ti A' →
      Sdm.Does dom [updateRK C.M C.P dt o A A' c0 c1 c2] := fun o A A' c0 c1 c2 ho hA hA' m =>
    let ⟨m', y, _⟩ := Sdm.update_yields hC.box ho hA hA' dt c0 c1 c2 m; ⟨m', y⟩
  have hU := sU_sol ti
  have key : ∀ pre A i c0 c1 c2, solArray ti A → A ≠ sU → A ≠ sDiv → A ≠ sF → Sdm.Does dom pre →
      C.wedgeStep D (WedgeParams.make c) ti t junk dt = pre ++ (sdmWedgeBoundaries C.M (WedgeParams.make c t) C.S C.P D A ++
        (divergence C.M C.S C.P (junk i) A ++ [updateRK C.M C.P dt sU sU A c0 c1 c2])) →
      valsOf C.M m' A b p v = part (((wedgeShock c).gasAt t
        (D.xmin + (b.i + C.P.nx * D.i_mpi - C.P.ghostWidth + C.M.sp p.x) * C.S.dx)
        (D.ymin + (b.j + C.P.ny * D.j_mpi - C.P.ghostWidth + C.M.sp p.y) * C.S.dy)).conserved (configGamma c)) v := by
    intro pre A i c0 c1 c2 hA n1 n2 n3 hpre e
    obtain ⟨m1, y1⟩ := hpre m
    obtain ⟨m4, y4, g4⟩ := wedge_fill (D := D) hC h2 h0 h1 t hA m1
    obtain ⟨m5, y5, -, f5⟩ := divergence_yields (S := C.S) hC.box.ready hN hA n2 (junk i) m4
    obtain ⟨m6, y6, -, -, f6⟩ := updateRK_yields hC.box.ready hU hU hA dt c0 c1 c2 m5
    have y := y1.append (y4.append (y5.append (.cons y6 (.nil _))))
    rw [e] at r
    obtain rfl := y.unique r
    rw [h2] at hb hp
    refine ((f6 _ n1).trans (f5 _ n2 n3)).trans ((g4.top b p v hb hp hv hj).trans ?_)
    unfold MovingShock.gasAt
    split <;> rfl
  cases hA with
  | two =>
    have h1 : solArray .ssprk2 (sRK 1) := sRK_sol (by decide) (by decide)
    refine key _ _ 1 (lit (1/2)) (lit (1/2)) (lit (-1/2)) h1 (by decide) (by decide) (by decide)
      ((fill _ hU).append ((go 0 _ hU (by decide)).append (up _ _ _ (lit 1) (lit 0) (lit (-1)) h1 hU hU))) ?_
    simp only [SdmConf.wedgeStep, stepWith, List.append_assoc]
  | three =>
    have h1 : solArray .ssprk3 (sRK 1) := sRK_sol (by decide) (by decide)
    have h2 : solArray .ssprk3 (sRK 2) := sRK_sol (by decide) (by decide)
    refine key _ _ 2 (lit 1 / lit 3) (lit 2 / lit 3) (lit (-2) / lit 3) h2 (by decide) (by decide) (by decide)
      ((fill _ hU).append (((go 0 _ hU (by decide)).append (up _ _ _ (lit 1) (lit 0) (lit (-1)) h1 hU hU)).append ((fill _ h1).append
        ((go 1 _ h1 (by decide)).append (up _ _ _ (lit (3/4)) (lit (1/4)) (lit (-1/4)) h2 hU h1))))) ?_
    simp only [SdmConf.wedgeStep, stepWith, List.append_assoc]
  | four =>
    have h1 : solArray .ssprk54 (sRK 1) := sRK_sol (by decide) (by decide)
    have h2 : solArray .ssprk54 (sRK 2) := sRK_sol (by decide) (by decide)
    have h3 : solArray .ssprk54 (sRK 3) := sRK_sol (by decide) (by decide)
    have h4 : solArray .ssprk54 (sRK 4) := sRK_sol (by decide) (by decide)
    refine key _ _ 4 (lit 1) (lit 0.386708617503269) (lit (-0.226007483236906)) h4 (by decide) (by decide) (by decide)
      ((fill _ hU).append (((go 0 _ hU (by decide)).append (up _ _ _ (lit 1) (lit 0) (lit (-0.391752226571890)) h1 hU hU)).append
        ((fill _ h1).append (((go 1 _ h1 (by decide)).append
        (up _ _ _ (lit 0.444370493651235) (lit 0.555629506348765) (lit (-0.368410593050371)) h2 hU h1)).append
        ((fill _ h2).append (((go 2 _ h2 (by decide)).append
        (up _ _ _ (lit 0.620101851488403) (lit 0.379898148511597) (lit (-0.251891774271694)) h3 hU h2)).append
        ((fill _ h3).append ((go 3 _ h3 (by decide)).append
        ((up _ _ _ (lit 0.178079954393132) (lit 0.821920045606868) (lit (-0.544974750228521)) h4 hU h3).append
        (up _ _ _ (lit 0.517231671970585) (lit 0.096059710526147) (lit (-0.063692468666290)) hU h2 h3)))))))))) ?_
    simp only [SdmConf.wedgeStep, stepWith, List.append_assoc, List.cons_append, List.nil_append]

/-! ### The hypotheses can be met -/

/-- The double Mach reflection with the default parameters in the 2D channel: the front passes the point in the ghost cell above the box
right after `t`; the stage of ssprk2 for time `t + 1` shows density 1.4 there instead of 8. -/
example : ∃ (t : ℝ) (m m' : Addr → ℝ),
    Runs ((exampleSdmConf false).wedgeStep ⟨0, 3, 0, 2, 0, 1, 0, 0, 0⟩
      (WedgeParams.make ⟨fun _ _ d => d, fun _ _ d => d, fun _ _ d => d⟩) .ssprk2 t (fun _ _ _ _ => HState.zero) 1) m m' ∧
    valsOf (exampleSdmConf false).M m' (sRK 1) ⟨1, 3, 0⟩ ⟨0, 0, 0⟩ 0 = 1.4 ∧
    ((wedgeShock ⟨fun _ _ d => d, fun _ _ d => d, fun _ _ d => d⟩).gasAt (t + 1)
      (0 + (((1 : Int) : ℝ) + ((3 : Int) : ℝ) * ((0 : Int) : ℝ) - ((1 : Int) : ℝ) + solPts 3 0) * 1)
      (0 + (((3 : Int) : ℝ) + ((2 : Int) : ℝ) * ((0 : Int) : ℝ) - ((1 : Int) : ℝ) + solPts 3 0) * 1)).rho = 8 := by
  set c : ConfigReader ℝ := ⟨fun _ _ d => d, fun _ _ d => d, fun _ _ d => d⟩ with hc
  have hpi := Real.pi_pos
  have h0 : 0 < (wedgeShock c).angle := by show 0 < Real.pi / 3; linarith
  have h1 : (wedgeShock c).angle < Real.pi / 2 := by show Real.pi / 3 < Real.pi / 2; linarith
  set x : ℝ := 0 + (((1 : Int) : ℝ) + ((3 : Int) : ℝ) * ((0 : Int) : ℝ) - ((1 : Int) : ℝ) + solPts 3 0) * 1
  set y : ℝ := 0 + (((3 : Int) : ℝ) + ((2 : Int) : ℝ) * ((0 : Int) : ℝ) - ((1 : Int) : ℝ) + solPts 3 0) * 1
  let t : ℝ := ((x - (wedgeShock c).x0) * Real.sin (wedgeShock c).angle - y * Real.cos (wedgeShock c).angle) / 10
  have hs : (wedgeShock c).speed = 10 := rfl
  have hn : ¬ (wedgeShock c).passed t x y := by
    unfold MovingShock.passed
    rw [hs, mul_div_cancel₀ _ (by norm_num : (10 : ℝ) ≠ 0)]
    exact lt_irrefl _
  have hy : (wedgeShock c).passed (t + 1) x y := by
    unfold MovingShock.passed
    rw [hs, mul_add, mul_div_cancel₀ _ (by norm_num : (10 : ℝ) ≠ 0)]
    linarith
  have hC := exampleSdmConf_ok false
  obtain ⟨m', ym⟩ := C148_safe (D := ⟨0, 3, 0, 2, 0, 1, 0, 0, 0⟩) (c := c) hC rfl h0 h1 .ssprk2 t (fun _ _ _ _ => HState.zero) 1
    (fun _ => 0)
  have := C148_lag (b := ⟨1, 3, 0⟩) (p := ⟨0, 0, 0⟩) hC rfl h0 h1
    (by show (1.4 : ℝ) ≠ 8; norm_num) ym.run (by decide) ⟨by decide, by decide, by decide⟩ (by decide) hn hy
  refine ⟨t, _, m', ym.run, this.1, ?_⟩
  rw [MovingShock.gasAt, if_pos hy]
  rfl

end Verif
