import Verif.Props.C22_C26_HydroStep

/-!
# C25, C49: where the hydro step goes wrong

Concrete runs: in 3D with gravity along `z` the two implementations differ; slope types other than
0, 1, 2 and the solver HLLD make the result depend on uninitialised variables.
-/

namespace Verif

open Spec ROps

/-- Gas at rest with density 1 and pressure 1 (`γ = 7/5`); gravity has only a `z` component. -/
noncomputable def restMem (g : Cell → ℝ) (a : Addr) : ℝ :=
  if a.arr = aG then (if a.v = 2 then g a.cell else 0)
  else if a.v = 0 then 1 else if a.v = 1 then 5 / 2 else 0

/-- Settings with the LLF solver and a given slope type. -/
noncomputable def llfSettings (slope : ℝ) : Settings ℝ :=
  { exampleSettings with slope_type := slope, riemann := .llf }

theorem rest_prim (d3 : Bool) (s : ℝ) :
    (computePrimitives d3 (llfSettings s) ⟨1, 5 / 2, 0, 0, 0⟩).1 = ⟨1, 1, 0, 0, 0⟩ := by
  simp only [computePrimitives, llfSettings, exampleSettings]
  rops
  cases d3 <;> norm_num

/-- The filled state is the state of rest everywhere. -/
theorem rest_filled {d3 : Bool} {g : Cell → ℝ} {m1 : Addr → ℝ}
    (f : FilledMem d3 false (exampleBox d3 .periodic) (Sides.all .periodic) (bufIn 0) (restMem g) m1)
    {c : Cell} (hb : (exampleBox d3 .periodic).box d3 c) :
    field d3 m1 (bufIn 0) c = ⟨1, 5 / 2, 0, 0, 0⟩ := by
  have key : ∀ v x, v < hydroVars d3 → (∀ c : Cell, restMem g (c.at (bufIn 0) v) = x) →
      m1 (c.at (bufIn 0) v) = x := fun v x hv hx =>
    f.uniform (exampleBox_setup d3 .periodic) (by decide) ⟨by decide, by decide⟩
      ⟨by decide, by decide⟩ (fun _ => ⟨by decide, by decide⟩) hv (fun c _ _ => hx c)
      ⟨by simp [exampleBox], by simp [exampleBox]⟩ (fun _ => by simp [exampleBox]) hb
  have r : ∀ v (c : Cell), restMem g (c.at (bufIn 0) v) =
      if v = 0 then 1 else if v = 1 then 5 / 2 else 0 := by
    intro v c; simp [restMem, Cell.at, bufIn, aU, aG]
  have k0 := key 0 1 (by cases d3 <;> decide) (fun c => by rw [r]; simp)
  have k1 := key 1 (5 / 2) (by cases d3 <;> decide) (fun c => by rw [r]; simp)
  have k2 := key 2 0 (by cases d3 <;> decide) (fun c => by rw [r]; simp)
  have k3 := key 3 0 (by cases d3 <;> decide) (fun c => by rw [r]; simp)
  cases d3
  · simp only [field, ID, IP, IU, IV, k0, k1, k2, k3]; rops; simp
  · have k4 := key 4 0 (by decide) (fun c => by rw [r]; simp)
    simp only [field, ID, IP, IU, IV, IW, k0, k1, k2, k3, k4]; rops; simp

theorem llf_mass (d3 : Bool) (s : ℝ) (a b : ℝ) (va vb wa wb : ℝ) :
    (riemann_llf d3 (llfSettings s) ⟨1, 1, a, va, wa⟩ ⟨1, 1, b, vb, wb⟩).d = (a + b) / 2 := by
  simp only [riemann_llf, llfCons, llfFlux]
  rops
  ring

theorem rest_trace (d3 : Bool) (s : ℝ) (dq : Dir → HState ℝ) (hd : ∀ d, dq d = ⟨0, 0, 0, 0, 0⟩)
    (dtd : Dir → ℝ) (d : Dir) (up : Bool) :
    traceAlongDir d3 (llfSettings s) ⟨1, 1, 0, 0, 0⟩ dq dtd d up = ⟨1, 1, 0, 0, 0⟩ := by
  simp only [traceAlongDir, traceSource, hd, llfSettings, exampleSettings]
  rops
  cases d3 <;> cases up <;> norm_num

theorem rest_slopes (d3 : Bool) (junk : Dir → HState ℝ) (q : Cell → HState ℝ) (c : Cell) (d : Dir) :
    slopesAt d3 (llfSettings 0) junk q c d = ⟨0, 0, 0, 0, 0⟩ := by
  simp only [slopesAt, slopes, llfSettings]
  rops
  simp [HState.zero, ROps.lit]

theorem rest_slopes1 (J : Junk ℝ) (q : Cell → HState ℝ) (c : Cell) (d : Dir) :
    slopes1 true (llfSettings 0) J q c d = ⟨0, 0, 0, 0, 0⟩ := by
  cases d <;> simp [slopes1, storedAt, rest_slopes, Dir.pick]

/-- Mass flux through the lower `z` face between cells at rest: the predictor adds
`½ dt (g_left + g_right)` to the velocities, except that implementation 1 leaves out `g_right`. -/
theorem rest_flux (J : Junk ℝ) (impl : Int) (dt : ℝ) (u g : Cell → HState ℝ) (c : Cell)
    (h1 : u c = ⟨1, 5 / 2, 0, 0, 0⟩) (h2 : u (c.down .z) = ⟨1, 5 / 2, 0, 0, 0⟩) :
    (stepFlux true (llfSettings 0) J impl true dt u g .z c).d =
      (1 / 2 * dt * (g (c.down .z)).w + (if impl = 0 then 1 / 2 * dt * (g c).w else 0)) / 2 * dt := by
  have e1 : primAt true (llfSettings 0) u c = ⟨1, 1, 0, 0, 0⟩ := by
    unfold primAt; rw [h1]; exact rest_prim true 0
  have e2 : primAt true (llfSettings 0) u (c.down .z) = ⟨1, 1, 0, 0, 0⟩ := by
    unfold primAt; rw [h2]; exact rest_prim true 0
  have e3 : dtOver (llfSettings 0) dt .z = dt := by
    simp [dtOver, llfSettings, exampleSettings]
  have e4 : ∀ (j : HState ℝ) a b va vb ua ub, (faceFlux true (llfSettings 0) j dt .z
      ⟨1, 1, ua, va, a⟩ ⟨1, 1, ub, vb, b⟩).d = (a + b) / 2 * dt := by
    intro j a b va vb ua ub
    have : riemann_hydro true (llfSettings 0) ⟨1, 1, a, va, ua⟩ ⟨1, 1, b, vb, ub⟩ =
        some (riemann_llf true (llfSettings 0) ⟨1, 1, a, va, ua⟩ ⟨1, 1, b, vb, ub⟩) := rfl
    simp only [faceFlux, HState.swap, this, Option.getD_some, HState.scale, llf_mass]
  unfold stepFlux
  split_ifs with hi
  · simp only [fluxAt, fluxOf, e1, e2, e3, pred, if_true]
    rw [rest_trace true 0 _ (rest_slopes true _ _ _), rest_trace true 0 _ (rest_slopes true _ _ _)]
    simp only [addGravity, if_true, e4]
    rops
    norm_num
  · simp only [fluxAtSplit, fluxOf, e1, e2, e3, pred, if_true]
    rw [rest_trace true 0 _ (rest_slopes1 _ _ _), rest_trace true 0 _ (rest_slopes1 _ _ _)]
    simp only [addGravity, if_true, e4]
    rops
    norm_num [e4]

theorem gfield_filled {d3 : Bool} {P : Grid} {B : Sides} {m m1 : Addr → ℝ}
    (f : FilledMem d3 false P B (bufIn 0) m m1) : gfield d3 m1 = gfield d3 m := by
  refine gfield_of_eq fun a ha => f.frame a fun e => ?_
  have : bufIn 0 = aG := e.1.symm.trans ha
  simp [bufIn, aU, aG] at this

/-- **C25 fails with gravity in 3D**: gas at rest, gravity along `z` in a single cell, LLF solver,
no slopes: the two implementations give different densities in the cell below. -/
theorem C25_gravity_differs (J : Junk ℝ) : ∃ (m m0 m1 : Addr → ℝ) (a : Addr),
    Runs (godunov_unsplit true (llfSettings 0) (exampleBox true .periodic) J 0 true (1 / 10) 0)
      m m0 ∧
    Runs (godunov_unsplit true (llfSettings 0) (exampleBox true .periodic) J 1 true (1 / 10) 0)
      m m1 ∧ a.arr = bufOut 0 ∧ a.v = ID ∧ m0 a ≠ m1 a := by
  have hb := exampleBox_setup true .periodic
  set P := exampleBox true .periodic with hP
  set c : Cell := ⟨2, 2, 2⟩ with hc
  set g : Cell → ℝ := fun c' => if c' = c.up .z then 1 else 0 with hg
  have hv : ValidHydro true (llfSettings 0) :=
    ⟨Or.inl (by simp [ROps.eqb, llfSettings, ROps.lit]), by simp [llfSettings], by simp [llfSettings]⟩
  obtain ⟨f0, x0, F0, Y0, R0⟩ := step_whole (S := llfSettings 0) (J := J) (grav := true)
    (dt := 1 / 10) (it := 0) (impl := 0) hb (Or.inl rfl) (restMem g)
  obtain ⟨f1, x1, F1, Y1, R1⟩ := step_whole (S := llfSettings 0) (J := J) (grav := true)
    (dt := 1 / 10) (it := 0) (impl := 1) hb (Or.inr rfl) (restMem g)
  refine ⟨restMem g, x0, x1, c.at (bufOut 0) ID, Y0.run, Y1.run, rfl, rfl, ?_⟩
  have bx : ∀ k : Int, 0 ≤ k → k < 6 → P.box true ⟨2, 2, k⟩ := by
    intro k h1 h2
    rw [box_iff]; simp only [hP, exampleBox, if_true]; omega
  have cin : P.inner true c := by
    rw [inner_iff]; simp only [hP, hc, exampleBox]; omega
  have cb : P.box true c := bx 2 (by norm_num) (by norm_num)
  have hff : f0 = f1 := by
    funext a
    by_cases ha : a.arr = bufIn 0 ∧ P.box true a.cell ∧ a.v < P.nbvar
    · have e1 := F0.cells a.cell a.v ha.2.1 ha.2.2
      have e2 := F1.cells a.cell a.v ha.2.1 ha.2.2
      rw [← ha.1] at e1 e2
      exact e1.trans e2.symm
    · rw [F0.frame a ha, F1.frame a ha]
  subst hff
  have r0 := fun {c : Cell} => rest_filled F0 (c := c)
  have gf : ∀ c', (gfield true f0 c').w = g c' := by
    intro c'; rw [gfield_filled F0]; simp [gfield, restMem, Cell.at, Addr.cell]
  have ups : c.up .z = ⟨2, 2, 3⟩ := by simp [hc, Cell.up]
  have dns : c.down .z = ⟨2, 2, 1⟩ := by simp [hc, Cell.down]
  have ud : (c.up .z).down .z = c := by simp [hc, Cell.up, Cell.down]
  have gz : ∀ k : Int, k ≠ 3 → g ⟨2, 2, k⟩ = 0 := by intro k hk; simp [hg, ups, hk]
  have gone : g (c.up .z) = 1 := by simp [hg]
  have u1 := r0 (bx 1 (by norm_num) (by norm_num))
  have u2 := r0 (bx 2 (by norm_num) (by norm_num))
  have u3 := r0 (bx 3 (by norm_num) (by norm_num))
  have lower : ∀ impl : Int, (stepFlux true (llfSettings 0) J impl true (1 / 10)
      (field true f0 (bufIn 0)) (gfield true f0) .z c).d = 0 := by
    intro impl
    rw [rest_flux J impl _ _ _ c u2 (by rw [dns]; exact u1), gf, gf, dns, gz 1 (by norm_num),
      gz 2 (by norm_num)]
    split_ifs <;> norm_num
  have upper : ∀ impl : Int, (stepFlux true (llfSettings 0) J impl true (1 / 10)
      (field true f0 (bufIn 0)) (gfield true f0) .z (c.up .z)).d =
      if impl = 0 then 1 / 400 else 0 := by
    intro impl
    rw [rest_flux J impl _ _ _ (c.up .z) (by rw [ups]; exact u3) (by rw [ud]; exact u2), gf, gf, ud,
      gz 2 (by norm_num), gone]
    split_ifs <;> norm_num
  have e0 := field_get true x0 (bufOut 0) c (v := ID) (by decide)
  have e1 := field_get true x1 (bufOut 0) c (v := ID) (by decide)
  rw [← e0, ← e1, R0.inner c cb cin, R1.inner c cb cin]
  have keep : ∀ F u, (stepCell true (llfSettings 0) true (1 / 10) F u (gfield true f0) c).get ID =
      (updCell true F (u c) c).get ID := by
    intro F u; rfl
  rw [keep, keep, updCell_get true _ _ _ (by decide), updCell_get true _ _ _ (by decide)]
  have ag := fun (d : Dir) (c : Cell) (hd : d ≠ .z) => stepFlux_agree (grav := true) (dt := 1 / 10) hv
    (fun _ => hd) J J (field true f0 (bufIn 0)) (gfield true f0) (Or.inl rfl) c
  rw [ag .x _ (by decide), ag .x _ (by decide), ag .y _ (by decide), ag .y _ (by decide)]
  have z0 : ∀ q : HState ℝ, q.get ID = q.d := fun q => rfl
  simp only [if_true, z0, lower, upper]
  norm_num

/-! ### C49 -/

/-- **C49 fails for every slope type other than 0, 1, 2** (2D, implementation 0): the new state
depends on uninitialised slopes. -/
theorem C49_slope_type (s : ℝ) (h0 : s ≠ 0) (h1 : s ≠ 1) (h2 : s ≠ 2) :
    ∃ (J J' : Junk ℝ) (m m1 m2 : Addr → ℝ) (a : Addr),
    Runs (godunov_unsplit false (llfSettings s) (exampleBox false .periodic) J 0 false (1 / 10) 0)
      m m1 ∧
    Runs (godunov_unsplit false (llfSettings s) (exampleBox false .periodic) J' 0 false (1 / 10) 0)
      m m2 ∧ a.arr = bufOut 0 ∧ m1 a ≠ m2 a := by
  have hb := exampleBox_setup false .periodic
  set P := exampleBox false .periodic with hP
  set c : Cell := ⟨2, 2, 0⟩ with hc
  -- slopes: `0` everywhere, or a jump of the transverse velocity in the slope of one cell
  set J : Junk ℝ := ⟨fun _ _ _ => ⟨0, 0, 0, 0, 0⟩, fun _ _ => ⟨0, 0, 0, 0, 0⟩⟩ with hJ
  set J' : Junk ℝ := ⟨fun c' t d => if c' = c ∧ t = 0 ∧ d = .x then ⟨0, 0, 0, 1, 0⟩
    else ⟨0, 0, 0, 0, 0⟩, fun _ _ => ⟨0, 0, 0, 0, 0⟩⟩ with hJ'
  obtain ⟨f0, x0, F0, Y0, R0⟩ := step_whole (S := llfSettings s) (J := J) (grav := false)
    (dt := 1 / 10) (it := 0) (impl := 0) hb (Or.inl rfl) (restMem fun _ => 0)
  obtain ⟨f1, x1, F1, Y1, R1⟩ := step_whole (S := llfSettings s) (J := J') (grav := false)
    (dt := 1 / 10) (it := 0) (impl := 0) hb (Or.inl rfl) (restMem fun _ => 0)
  refine ⟨J, J', restMem fun _ => 0, x0, x1, c.at (bufOut 0) IV, Y0.run, Y1.run, rfl, ?_⟩
  have hff : f0 = f1 := by
    funext a
    by_cases ha : a.arr = bufIn 0 ∧ P.box false a.cell ∧ a.v < P.nbvar
    · have e1 := F0.cells a.cell a.v ha.2.1 ha.2.2
      have e2 := F1.cells a.cell a.v ha.2.1 ha.2.2
      rw [← ha.1] at e1 e2
      exact e1.trans e2.symm
    · rw [F0.frame a ha, F1.frame a ha]
  subst hff
  have bx : ∀ i j : Int, 0 ≤ i → i < 6 → 0 ≤ j → j < 6 → P.box false ⟨i, j, 0⟩ := by
    intro i j h1 h2 h3 h4
    rw [box_iff]; simp only [hP, exampleBox]; simp; omega
  have cb : P.box false c := bx 2 2 (by norm_num) (by norm_num) (by norm_num) (by norm_num)
  have cin : P.inner false c := by
    rw [inner_iff]; simp only [hP, hc, exampleBox]; simp
  have prim : ∀ i j : Int, 0 ≤ i → i < 6 → 0 ≤ j → j < 6 →
      primAt false (llfSettings s) (field false f0 (bufIn 0)) ⟨i, j, 0⟩ = ⟨1, 1, 0, 0, 0⟩ := by
    intro i j h1 h2 h3 h4
    unfold primAt; rw [rest_filled F0 (bx i j h1 h2 h3 h4)]; exact rest_prim false s
  have sl : ∀ (junk : Dir → HState ℝ) (q : Cell → HState ℝ) (c : Cell),
      slopesAt false (llfSettings s) junk q c = junk := by
    intro junk q c
    simp [slopesAt, slopes, llfSettings, ROps.eqb, ROps.lit, h0, h1, h2]
  -- flux with general transverse slope `b` on the right
  have fl : ∀ (J : Junk ℝ) (i j : Int) (d : Dir) (b : ℝ), d.ok false → 1 ≤ i → i < 6 → 1 ≤ j → j < 6 →
      (∀ d, J.slope ⟨i, j, 0⟩ 0 d = ⟨0, 0, 0, if d = .x then b else 0, 0⟩) →
      (∀ e, J.slope ⟨i, j, 0⟩ d.tag e = ⟨0, 0, 0, 0, 0⟩) →
      ((stepFlux false (llfSettings s) J 0 false (1 / 10) (field false f0 (bufIn 0))
        (gfield false f0) d ⟨i, j, 0⟩).v : ℝ) = if d = .x then
          (riemann_llf false (llfSettings s) ⟨1, 1, 0, 0, 0⟩ ⟨1, 1, 0, -(b / 2), 0⟩).v * (1 / 10)
        else (riemann_llf false (llfSettings s) ⟨1, 1, 0, 0, 0⟩ ⟨1, 1, 0, 0, 0⟩).u * (1 / 10) := by
    intro J i j d b hd h1 h2 h3 h4 j0 j1
    have pc := prim i j (by omega) h2 (by omega) h4
    have pd : primAt false (llfSettings s) (field false f0 (bufIn 0))
        ((⟨i, j, 0⟩ : Cell).down d) = ⟨1, 1, 0, 0, 0⟩ := by
      cases d
      · exact prim (i - 1) j (by omega) (by omega) (by omega) h4
      · exact prim i (j - 1) (by omega) (by omega) (by omega) (by omega)
      · simp [Dir.ok] at hd
    have tr : traceAlongDir false (llfSettings s) ⟨1, 1, 0, 0, 0⟩ (J.slope ⟨i, j, 0⟩ 0)
        (dtOver (llfSettings s) (1 / 10)) d false =
        ⟨1, 1, 0, if d = .x then -(b / 2) else 0, 0⟩ := by
      simp only [traceAlongDir, traceSource, j0, llfSettings, exampleSettings]
      rops
      have n1 : Dir.y ≠ Dir.x := by decide
      cases d
      · norm_num [n1]; ring
      · norm_num [n1]
      · simp [Dir.ok] at hd
    have dtd : dtOver (llfSettings s) (1 / 10) d = 1 / 10 := by
      cases d <;> simp [dtOver, llfSettings, exampleSettings]
    have rs : ∀ a b, riemann_hydro false (llfSettings s) a b =
      some (riemann_llf false (llfSettings s) a b) := fun _ _ => rfl
    simp only [stepFlux, if_true, fluxAt, fluxOf, sl, pc, pd, pred, Bool.false_eq_true, if_false,
      tr, dtd, rest_trace false s _ j1, faceFlux, rs, Option.getD_some]
    cases d
    · simp [HState.swap, HState.scale]
    · simp [HState.swap, HState.scale]
    · simp [Dir.ok] at hd
  have e0 := field_get false x0 (bufOut 0) c (v := IV) (by decide)
  have e1 := field_get false x1 (bufOut 0) c (v := IV) (by decide)
  rw [← e0, ← e1, R0.inner c cb cin, R1.inner c cb cin]
  simp only [stepCell, Bool.false_eq_true, if_false]
  rw [updCell_get false _ _ _ (by decide), updCell_get false _ _ _ (by decide)]
  have z0 : ∀ q : HState ℝ, q.get IV = q.v := fun q => rfl
  have ux : c.up .x = ⟨3, 2, 0⟩ := by simp [hc, Cell.up]
  have uy : c.up .y = ⟨2, 3, 0⟩ := by simp [hc, Cell.up]
  have okx : Dir.ok false .x := Or.inr (by decide)
  have oky : Dir.ok false .y := Or.inr (by decide)
  have hJ0 : ∀ c' t d, J.slope c' t d = ⟨0, 0, 0, 0, 0⟩ := fun _ _ _ => rfl
  have a1 := fl J 2 2 .x 0 okx (by norm_num) (by norm_num) (by norm_num) (by norm_num)
    (by intro d; rw [hJ0]; simp) (by intro d; rw [hJ0])
  have a2 := fl J 3 2 .x 0 okx (by norm_num) (by norm_num) (by norm_num) (by norm_num)
    (by intro d; rw [hJ0]; simp) (by intro d; rw [hJ0])
  have a3 := fl J 2 2 .y 0 oky (by norm_num) (by norm_num) (by norm_num) (by norm_num)
    (by intro d; rw [hJ0]; simp) (by intro d; rw [hJ0])
  have a4 := fl J 2 3 .y 0 oky (by norm_num) (by norm_num) (by norm_num) (by norm_num)
    (by intro d; rw [hJ0]; simp) (by intro d; rw [hJ0])
  have b1 := fl J' 2 2 .x 1 okx (by norm_num) (by norm_num) (by norm_num) (by norm_num)
    (by intro d; cases d <;> simp [hJ', hc]) (by intro d; simp [hJ', Dir.tag])
  have b2 := fl J' 3 2 .x 0 okx (by norm_num) (by norm_num) (by norm_num) (by norm_num)
    (by intro d; simp [hJ', hc]) (by intro d; simp [hJ', Dir.tag])
  have b3 := fl J' 2 2 .y 1 oky (by norm_num) (by norm_num) (by norm_num) (by norm_num)
    (by intro d; cases d <;> simp [hJ', hc]) (by intro d; simp [hJ', Dir.tag])
  have b4 := fl J' 2 3 .y 0 oky (by norm_num) (by norm_num) (by norm_num) (by norm_num)
    (by intro d; simp [hJ', hc]) (by intro d; simp [hJ', Dir.tag])
  have hl : ∀ b : ℝ, (riemann_llf false (llfSettings s) ⟨1, 1, 0, 0, 0⟩ ⟨1, 1, 0, b, 0⟩).v =
      -(√(7 / 5) * b / 2) := by
    intro b
    simp only [riemann_llf, llfCons, llfFlux, llfSettings, exampleSettings]
    rops
    norm_num
    ring
  rw [ux, uy, hc]
  have n1 : Dir.y ≠ Dir.x := by decide
  simp only [z0, a1, a2, a3, a4, b1, b2, b3, b4, if_true, hl, if_neg n1]
  have hs : (0 : ℝ) < √(7 / 5) := Real.sqrt_pos.2 (by norm_num)
  norm_num

/-- **C49 / C29 fail for HLLD**: the solver is not part of the dispatch, so the step adds
uninitialised fluxes to the state. -/
theorem C49_hlld (S : Settings ℝ) (hS : S.riemann = .hlld) (hdx : S.dx ≠ 0) (dt : ℝ) (hdt : dt ≠ 0)
    (d3 : Bool) (impl : Int) (himpl : impl = 0 ∨ impl = 1) (it : Nat) (m : Addr → ℝ) :
    ∃ (J J' : Junk ℝ) (m1 m2 : Addr → ℝ) (a : Addr),
    Runs (godunov_unsplit d3 S (exampleBox d3 .periodic) J impl false dt it) m m1 ∧
    Runs (godunov_unsplit d3 S (exampleBox d3 .periodic) J' impl false dt it) m m2 ∧
    a.arr = bufOut it ∧ m1 a ≠ m2 a := by
  have hb := exampleBox_setup d3 .periodic
  set P := exampleBox d3 .periodic with hP
  set c : Cell := ⟨2, 2, if d3 then 2 else 0⟩ with hc
  set J : Junk ℝ := ⟨fun _ _ _ => ⟨0, 0, 0, 0, 0⟩, fun _ _ => ⟨0, 0, 0, 0, 0⟩⟩ with hJ
  set J' : Junk ℝ := ⟨fun _ _ _ => ⟨0, 0, 0, 0, 0⟩, fun c' d => if c' = c ∧ d = .x then
    ⟨1, 0, 0, 0, 0⟩ else ⟨0, 0, 0, 0, 0⟩⟩ with hJ'
  obtain ⟨f0, x0, F0, Y0, R0⟩ := step_whole (S := S) (J := J) (grav := false)
    (dt := dt) (it := it) (impl := impl) hb himpl m
  obtain ⟨f1, x1, F1, Y1, R1⟩ := step_whole (S := S) (J := J') (grav := false)
    (dt := dt) (it := it) (impl := impl) hb himpl m
  refine ⟨J, J', x0, x1, c.at (bufOut it) ID, Y0.run, Y1.run, rfl, ?_⟩
  have hff : f0 = f1 := by
    funext a
    by_cases ha : a.arr = bufIn it ∧ P.box d3 a.cell ∧ a.v < P.nbvar
    · have e1 := F0.cells a.cell a.v ha.2.1 ha.2.2
      have e2 := F1.cells a.cell a.v ha.2.1 ha.2.2
      rw [← ha.1] at e1 e2
      exact e1.trans e2.symm
    · rw [F0.frame a ha, F1.frame a ha]
  subst hff
  have cb : P.box d3 c := by
    rw [box_iff]; simp only [hP, hc, exampleBox]; cases d3 <;> simp
  have cin : P.inner d3 c := by
    rw [inner_iff]; simp only [hP, hc, exampleBox]; cases d3 <;> simp
  have hn : ∀ a b, riemann_hydro d3 S a b = none := by
    intro a b; unfold riemann_hydro; cases d3 <;> simp [hS]
  have fl : ∀ (J : Junk ℝ) u g d c, (stepFlux d3 S J impl false dt u g d c).d =
      ((J.flux c d).swap d).d * dtOver S dt d := by
    intro J u g d c
    unfold stepFlux
    split_ifs <;> simp only [fluxAt, fluxAtSplit, fluxOf, faceFlux, hn, Option.getD_none,
      HState.scale]
  have hvar : ID < hydroVars d3 := by cases d3 <;> decide
  have e0 := field_get d3 x0 (bufOut it) c hvar
  have e1 := field_get d3 x1 (bufOut it) c hvar
  rw [← e0, ← e1, R0.inner c cb cin, R1.inner c cb cin]
  simp only [stepCell, Bool.false_eq_true, if_false]
  rw [updCell_get d3 _ _ _ hvar, updCell_get d3 _ _ _ hvar]
  have z0 : ∀ q : HState ℝ, q.get ID = q.d := fun q => rfl
  have ux : c.up .x ≠ c := by simp [hc, Cell.up]
  have q0 : ∀ c' d, ((J.flux c' d).swap d).d = 0 := by intro c' d; cases d <;> rfl
  have q1 : ∀ c' d, ((J'.flux c' d).swap d).d = if c' = c ∧ d = .x then 1 else 0 := by
    intro c' d
    by_cases h : c' = c ∧ d = .x
    · simp only [hJ']
      rw [if_pos h, if_pos h, h.2]; rfl
    · simp only [hJ']
      rw [if_neg h, if_neg h]; cases d <;> rfl
  simp only [z0, fl, q0, q1, ux]
  have : dt / S.dx ≠ 0 := div_ne_zero hdt hdx
  cases d3 <;> simp [dtOver, this]

end Verif
