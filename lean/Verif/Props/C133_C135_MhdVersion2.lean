import Verif.Lemmas.MhdSame2
import Verif.Lemmas.MhdRamp
import Verif.Props.C122_C123_MhdProgram

/-!
# C133–C135: implementation version 2 of the MHD step

`implementationVersion=2` keeps slopes, half-advanced primitive variables and face fields in arrays and
adds the fluxes atomically in one loop per direction.  Vocabulary as for C34–C36.
-/

namespace Verif

open Spec ROps

section real
variable {d3 : Bool} {S : MSettings ℝ} {P : Grid} {B : Sides} {J J' : MJunk ℝ} {impl : Int}
  {xmin dt : ℝ} {it : Nat} {m m' : Addr → ℝ}

/-! ### C133 well defined; the 2D step is the same scheme -/

/-- **C133**: for every grid, boundary condition, configuration, state and time step, the loops of a
version 2 step access only allocated entries, are free of data races, terminate, and (in exact
arithmetic) the result does not depend on the schedule. -/
theorem C133_step (h : BoxSetup d3 8 3 P B) (J : MJunk ℝ) (xmin dt : ℝ) (it : Nat) (m : Addr → ℝ) :
    ∃ m', YieldsAll (mhdDom d3 P 2) (mhd_unsplit d3 S P J xmin 2 dt it) m m' := by
  obtain ⟨m1, m', y, -⟩ := mhd_whole2 (S := S) (J := J) (xmin := xmin) (dt := dt) (it := it) h m
  exact ⟨m', y⟩

/-- **C133**: the interior of the input buffer survives the step. -/
theorem C133_preserves (h : BoxSetup d3 8 3 P B)
    (r : Runs (mhd_unsplit d3 S P J xmin 2 dt it) m m') (i j k v : Nat) (hi : i < P.nx.toNat)
    (hj : j < P.ny.toNat) (hk : k < depth d3 P) (hv : v < 8) :
    m' ((cell d3 P i j k).at (bufIn it) v) = m ((cell d3 P i j k).at (bufIn it) v) := by
  obtain ⟨m1, x, y, f, e, -⟩ := mhd_whole2 (S := S) (J := J) (xmin := xmin) (dt := dt) (it := it) h m
  obtain rfl := y.unique r
  obtain ⟨b1, b2⟩ := mcell_box h (by decide) hi hj hk
  rw [← f.interior b1 b2 (h.nv ▸ hv), ← mfield_get m' _ _ hv, e, mfield_get _ _ _ hv]

/-- Steps of version 2 and another version in 2D. -/
theorem step_agree02 (h : BoxSetup false 8 3 P B) (hv : ValidMhd false S) (hi : impl = 0 ∨ impl = 1)
    {x x' : Addr → ℝ} (ha : AgreeIn false P (bufIn it) m m')
    (r : Runs (mhd_unsplit false S P J xmin 2 dt it) m x)
    (r' : Runs (mhd_unsplit false S P J' xmin impl dt it) m' x') :
    AgreeIn false P (bufOut it) x x' := by
  obtain ⟨f, y, Y, F, -, N⟩ := mhd_whole2 (S := S) (J := J) (xmin := xmin) (dt := dt) (it := it) h m
  obtain ⟨f', y', Y', F', -, N'⟩ := mhd_whole (S := S) (J := J') (xmin := xmin) (dt := dt) (it := it)
    h hi m'
  obtain rfl := Y.unique r
  obtain rfl := Y'.unique r'
  intro i j k v h1 h2 h3 hv8
  obtain ⟨b1, b2⟩ := mcell_box h (by decide) h1 h2 h3
  rw [← mfield_get x _ _ hv8, ← mfield_get x' _ _ hv8, N _ b1 b2, N' _ b1 b2,
    mstep_same (P := P) (xmin := xmin) (hv.defined.slope rfl), mstepOf_junk hv.defined P J' xmin]
  rw [mstepOf_congr fun c' hw => filled_agree h ha F F' (inner_within h b1 b2 hw)]

/-- **C133**: in 2D, two sequences of steps with the same time steps, one with version 2 and one with
version 0 or 1, give the same interior state; for all boundary conditions, supported settings, states
and contents of uninitialised variables. -/
theorem C133_runs_2d (h : BoxSetup false 8 3 P B) (hv : ValidMhd false S) (hi : impl = 0 ∨ impl = 1)
    {l l' : List (ℝ × MJunk ℝ)} (hl : l.map Prod.fst = l'.map Prod.fst) {x x' : Addr → ℝ}
    (r : MhdSteps false S P xmin 2 it l m x) (r' : MhdSteps false S P xmin impl it l' m x')
    {i j v : Nat} (h1 : i < P.nx.toNat) (h2 : j < P.ny.toNat) (h3 : v < 8) :
    x ((cell false P i j 0).at (bufIn (it + l.length)) v) =
      x' ((cell false P i j 0).at (bufIn (it + l.length)) v) := by
  suffices H : ∀ {m' : Addr → ℝ}, AgreeIn false P (bufIn it) m m' →
      MhdSteps false S P xmin impl it l' m' x' → AgreeIn false P (bufIn (it + l.length)) x x' from
    H (fun _ _ _ _ _ _ _ _ => rfl) r' i j 0 v h1 h2 (by simp [depth]) h3
  clear r' h1 h2 h3
  induction r generalizing l' with
  | nil it m =>
    intro m' ha r'
    cases l' with
    | nil => cases r'; exact ha
    | cons a l => simp at hl
  | cons r1 _ ih =>
    intro m' ha r'
    cases l' with
    | nil => simp at hl
    | cons a l' =>
      simp only [List.map_cons, List.cons.injEq] at hl
      cases r' with
      | cons r1' r2' =>
        obtain ⟨e1, e2⟩ := hl
        simp only at e1
        subst e1
        have := step_agree02 h hv hi ha r1 r1'
        rw [bufOut_eq] at this
        have := ih e2 this r2'
        rw [List.length_cons, ← Nat.add_assoc, Nat.add_right_comm]
        exact this

/-- Sequences of version 2 steps exist for all lists of time steps. -/
theorem C133_runs_exist (h : BoxSetup d3 8 3 P B) (l : List (ℝ × MJunk ℝ)) (it : Nat) (m : Addr → ℝ) :
    ∃ m', MhdSteps d3 S P xmin 2 it l m m' := by
  induction l generalizing it m with
  | nil => exact ⟨m, .nil it m⟩
  | cons x l ih =>
    obtain ⟨y1, y⟩ := C133_step (S := S) h x.2 xmin x.1 it m
    obtain ⟨m2, r⟩ := ih (it + 1) y1
    exact ⟨m2, .cons y.run r⟩

/-- Hypotheses met. -/
example (J J' : MJunk ℝ) (m : Addr → ℝ) : ∃ m2 m0,
    MhdSteps false mhdSettings (mhdBox .reflecting) 0 2 5 [(1 / 10, J), (1 / 20, J)] m m2 ∧
    MhdSteps false mhdSettings (mhdBox .reflecting) 0 0 5 [(1 / 10, J'), (1 / 20, J)] m m0 ∧
    m2 ⟨bufIn 7, 3, 3, 0, 0⟩ = m0 ⟨bufIn 7, 3, 3, 0, 0⟩ := by
  obtain ⟨m2, r2⟩ := C133_runs_exist (S := mhdSettings) (xmin := 0) (mhdBox_setup false .reflecting)
    [(1 / 10, J), (1 / 20, J)] 5 m
  obtain ⟨m0, r0⟩ := mhdSteps_exist (S := mhdSettings) (xmin := 0) (mhdBox_setup false .reflecting)
    (Or.inl rfl) [(1 / 10, J'), (1 / 20, J)] 5 m
  exact ⟨m2, m0, r2, r0, C133_runs_2d (mhdBox_setup false .reflecting) (mhdSettings_valid false)
    (Or.inl rfl) (l := [(1 / 10, J), (1 / 20, J)]) (l' := [(1 / 10, J'), (1 / 20, J)]) rfl r2 r0
    (i := 0) (j := 0) (v := 0) (by decide) (by decide) (by decide)⟩

/-- **C133**: in 2D the program as a whole writes with version 2 the files it writes with version 0 or 1: same number,
same times, same values in every cell. -/
theorem C133_files_2d {C : MhdConf ℝ} {D : Domain ℝ} {Q : MhdProblem ℝ} (hC : C.Ok B) (h2 : C.d3 = false)
    (hv : C.impl = 2) (hi : impl = 0 ∨ impl = 1) (hlog : C.ctl.nlog ≠ 0) {r r' : Option (HydroState ℝ)}
    (hr : C.Main D Q r) (hr' : MhdConf.Main { C with impl := impl } D Q r') :
    ∃ s s', r = some s ∧ r' = some s' ∧ SameMhdFiles C.d3 C.P s.files s'.files ∧ s.t = s'.t ∧
      s.iteration = s'.iteration := by
  refine main_alt hC (Or.inl ⟨hi, ?_⟩) (Or.inr (Or.inr h2)) hlog hr hr'
  obtain ⟨h, -⟩ | ⟨-, h⟩ := hC.valid
  · omega
  · exact ⟨h.riemann, fun _ => h.slope, fun h3 => by rw [h2] at h3; cases h3⟩

/-- Hypotheses met: the Orszag-Tang vortex with version 2 and version 0. -/
example : ∃ s s', MhdConf.Main { exampleMhdConf false .periodic with impl := 2 } ⟨0, 1, 0, 1, 0, 1, 0, 0, 0⟩ (.orszagTang 1) (some s) ∧
    MhdConf.Main { exampleMhdConf false .periodic with impl := 0 } ⟨0, 1, 0, 1, 0, 1, 0, 0, 0⟩ (.orszagTang 1) (some s') ∧
    SameMhdFiles false (mhdBox .periodic) s.files s'.files := by
  have h2 : MhdConf.Ok { exampleMhdConf false .periodic with impl := 2 } (Sides.all .periodic) :=
    ⟨mhdBox_setup false .periodic, Or.inr ⟨rfl, Or.inl rfl, Or.inl rfl⟩⟩
  have h0 : MhdConf.Ok { exampleMhdConf false .periodic with impl := 0 } (Sides.all .periodic) :=
    ⟨mhdBox_setup false .periodic, Or.inl ⟨Or.inl rfl, Or.inl rfl, fun _ => Or.inl rfl, fun _ => le_rfl⟩⟩
  obtain ⟨⟨s, hs⟩, -⟩ := C122_same_files (D := ⟨0, 1, 0, 1, 0, 1, 0, 0, 0⟩) (Q := .orszagTang 1) h2
    (by simp [exampleMhdConf])
  obtain ⟨⟨s', hs'⟩, -⟩ := C122_same_files (D := ⟨0, 1, 0, 1, 0, 1, 0, 0, 0⟩) (Q := .orszagTang 1) h0
    (by simp [exampleMhdConf])
  obtain ⟨a, b, e, e', hf, -⟩ := C133_files_2d h2 rfl rfl (impl := 0) (Or.inl rfl) (by simp [exampleMhdConf]) hs hs'
  cases e
  cases e'
  exact ⟨_, _, hs, hs', hf⟩

/-! ### C134 constrained transport and conservation -/

/-- **C134**: a version 2 step in 2D or 3D does not change the divergence of the magnetic field in any
interior cell whose upper neighbours are interior; for all boundary conditions, settings, states and
schedules. -/
theorem C134_divB (h : BoxSetup d3 8 3 P B) (r : Runs (mhd_unsplit d3 S P J xmin 2 dt it) m m')
    {i j k : Nat} (hi : i + 1 < P.nx.toNat) (hj : j + 1 < P.ny.toNat)
    (hk : d3 = true → k + 1 < P.nz.toNat) :
    divB d3 S P m' (bufOut it) i j k = divB d3 S P m (bufIn it) i j k := by
  obtain ⟨F, E, m1, f, -⟩ := mhd_form2 h r
  exact f.divB_inside h hi hj hk

/-- **C134**: on a periodic domain any number of version 2 steps leaves the divergence unchanged in
every cell. -/
theorem C134_divB_periodic (h : BoxSetup d3 8 3 P (Sides.all .periodic)) (hv : ValidMhd2 S)
    {l : List (ℝ × MJunk ℝ)} (r : MhdSteps d3 S P xmin 2 it l m m') {i j k : Nat}
    (hi : i < P.nx.toNat) (hj : j < P.ny.toNat) (hk : d3 = true → k < P.nz.toNat) :
    divBPeriodic d3 S P m' (bufIn (it + l.length)) i j k =
      divBPeriodic d3 S P m (bufIn it) i j k := by
  induction r with
  | nil it m => rfl
  | cons r1 _ ih =>
    obtain ⟨F, E, m1, f, hs⟩ := mhd_form2 h r1
    rw [List.length_cons, ← Nat.add_assoc, Nat.add_right_comm, ih, ← bufOut_eq,
      f.divB_periodic h (hs hv) hi hj hk]

/-- **C134**: on a periodic domain any number of version 2 steps leaves the totals of mass, energy,
momentum components and magnetic field components unchanged. -/
theorem C134_conservation (h : BoxSetup d3 8 3 P (Sides.all .periodic)) (hv : ValidMhd2 S)
    {l : List (ℝ × MJunk ℝ)} (r : MhdSteps d3 S P xmin 2 it l m m') (v : Nat) (hvar : v < 8) :
    total d3 P m' (bufIn (it + l.length)) v = total d3 P m (bufIn it) v := by
  induction r with
  | nil it m => rfl
  | cons r1 _ ih =>
    obtain ⟨F, E, m1, f, hs⟩ := mhd_form2 h r1
    rw [List.length_cons, ← Nat.add_assoc, Nat.add_right_comm, ih, ← bufOut_eq,
      f.conserves h (hs hv) v hvar]

/-- **C134**: for supported settings uninitialised variables have no influence on the interior of the
new state. -/
theorem C134_no_uninitialised (h : BoxSetup d3 8 3 P B) (hv : ValidMhd2 S) (J J' : MJunk ℝ)
    {m0 m1 : Addr → ℝ} (r0 : Runs (mhd_unsplit d3 S P J xmin 2 dt it) m m0)
    (r1 : Runs (mhd_unsplit d3 S P J' xmin 2 dt it) m m1) {i j k v : Nat} (hi : i < P.nx.toNat)
    (hj : j < P.ny.toNat) (hk : k < depth d3 P) (hv8 : v < 8) :
    m0 ((cell d3 P i j k).at (bufOut it) v) = m1 ((cell d3 P i j k).at (bufOut it) v) :=
  step_agree2 h hv (fun _ _ _ _ _ _ _ _ => rfl) r0 r1 i j k v hi hj hk hv8

/-- Hypotheses met: two steps in 3D, in all cells of the small box, starting from every memory. -/
example (J : MJunk ℝ) (m : Addr → ℝ) : ∃ m', MhdSteps true mhdSettings (mhdBox .periodic) 0 2 0
    [(1 / 10, J), (1 / 20, J)] m m' ∧ (∀ i < 4, ∀ j < 3, ∀ k < 3,
      divBPeriodic true mhdSettings (mhdBox .periodic) m' (bufIn 2) i j k =
        divBPeriodic true mhdSettings (mhdBox .periodic) m (bufIn 0) i j k) ∧
      total true (mhdBox .periodic) m' (bufIn 2) 1 = total true (mhdBox .periodic) m (bufIn 0) 1 := by
  have hv : ValidMhd2 mhdSettings := ⟨Or.inl rfl, Or.inl rfl⟩
  obtain ⟨m', r⟩ := C133_runs_exist (S := mhdSettings) (xmin := 0) (mhdBox_setup true .periodic)
    [(1 / 10, J), (1 / 20, J)] 0 m
  exact ⟨m', r, fun i hi j hj k hk => C134_divB_periodic (mhdBox_setup true .periodic) hv r hi hj
    (fun _ => hk), C134_conservation (mhdBox_setup true .periodic) hv r 1 (by decide)⟩

/-! ### C135 the 3D step is a different scheme -/

/-- **C135 (version 2 is a different scheme in 3D)**: there are supported settings and a state - constant
density, pressure and velocity `(10,0,10)`, field along `x` depending on `z` only - for which one step of
version 2 and one step of version 0 (or 1) give different magnetic fields.  Where the field has a slope
along `z`, version 0 extrapolates it to the edge; version 2 uses the same neighbour twice, so that the
limited slope along `z` is zero. -/
theorem C135_differs (J J' : MJunk ℝ) (impl : Int) (himpl : impl = 0 ∨ impl = 1) :
    ∃ (S : MSettings ℝ) (P : Grid) (m m0 m2 : Addr → ℝ), ValidMhd true S ∧ ValidMhd2 S ∧
      BoxSetup true 8 3 P (Sides.all .absorbing) ∧ P.nz = 6 ∧
      Runs (mhd_unsplit true S P J 0 impl (1 / 100) 0) m m0 ∧
      Runs (mhd_unsplit true S P J' 0 2 (1 / 100) 0) m m2 ∧
      m0 ((cell true P 0 0 3).at (bufOut 0) 5) - m2 ((cell true P 0 0 3).at (bufOut 0) 5) = -1 / 20 := by
  obtain ⟨f0, m0, y0, F0, -, R0⟩ := mhd_whole (S := spotSettings) (J := J) (xmin := 0) (dt := 1 / 100)
    (it := 0) rampBox_setup himpl rampMem
  obtain ⟨f2, m2, y2, F2, -, R2⟩ := mhd_whole2 (S := spotSettings) (J := J') (xmin := 0)
    (dt := 1 / 100) (it := 0) rampBox_setup rampMem
  have v0 : ValidMhd true spotSettings := ⟨Or.inl rfl, fun _ => Or.inl rfl, fun _ => le_rfl⟩
  have v2 : ValidMhd2 spotSettings := ⟨Or.inl rfl, Or.inl rfl⟩
  refine ⟨spotSettings, rampBox, rampMem, m0, m2, v0, v2, rampBox_setup, rfl, y0.run, y2.run, ?_⟩
  obtain ⟨b1, b2⟩ := mcell_box rampBox_setup (by decide) (i := 0) (j := 0) (k := 3) (by decide)
    (by decide) (by decide)
  have hc : cell true rampBox 0 0 3 = ⟨3, 3, 6⟩ := rfl
  rw [hc] at b1 b2 ⊢
  set U : Cell → MState ℝ := fun c => rampState c.k with hU
  have e0 := R0 _ b1 b2
  rw [mstepOf_congr (U' := U) fun c' hw => ramp_filled F0 (inner_within rampBox_setup b1 b2 hw)] at e0
  have e2 := R2 _ b1 b2
  rw [mstep2Of_congr (U' := U) fun c' hw => ramp_filled F2 (inner_within rampBox_setup b1 b2 hw)] at e2
  rw [← mfield_get m0 _ _ (by decide : 5 < 8), ← mfield_get m2 _ _ (by decide : 5 < 8), e0, e2]
  have up : (⟨3, 3, 6⟩ : Cell).up .y = (⟨3, 3, 6⟩ : Cell).move (0, 1, 0) := rfl
  have z0 := emf_same (P := rampBox) (J := J) (xmin := 0) (dt := 1 / 100) (U := U) (0, 1, 0)
    v0.defined (c := ⟨3, 3, 6⟩) (e := .z) (by simp [emfDirs]) (fun c' _ => by
      simp [hU, Cell.move, Cell.shift])
  have z2 := (sameFlow2 (d3 := true) (J := J') (dt := 1 / 100) (U := U) v2.slopes v2.riemann (0, 1, 0)
    ⟨3, 3, 6⟩ (fun c' _ => by simp [hU, Cell.move, Cell.shift])).2 .z (by simp [emfDirs])
  have y1 := ramp_emf0 rampBox J 0 ⟨3, 3, 6⟩
  have y1' := ramp_emf0 rampBox J 0 ((⟨3, 3, 6⟩ : Cell).up .z)
  have y3 := ramp_emf2 J' ⟨3, 3, 6⟩
  have y3' := ramp_emf2 J' ((⟨3, 3, 6⟩ : Cell).up .z)
  unfold mstepOf mstep2Of
  rw [upd_get _ _ _ _ (by decide), upd_get _ _ _ _ (by decide)]
  simp only [effFlux, if_true, ramp_dt]
  rw [up, ← z0, ← z2, y1, y1', y3, y3']
  simp only [Cell.up, rampHalf, rampSlope, ramp]
  norm_num

/-- **C135**: the slope along `z` of a face field component is read as zero by version 2, whatever the
memory. -/
theorem C135_z_slope (S : MSettings ℝ) (U : Nat) (c : Cell) (v : Nat) (m : Addr → ℝ) :
    Reads (loadLimitedSlope S U c .z v) m 0 :=
  ⟨rfl, slope_peak _ _ _⟩

/-- **C135**: the field component along `y` in the states of version 2 at an edge with transverse
directions `f`, `s`.  At edges along `z` it is the face value with its half slope.  At edges along `y` the
cell value is moved by twice the half slopes of the cell.  At edges along `x` the half slopes of the cell
are added to the face value, which has its own half slope already.  `±`: by corner. -/
theorem C135_edge_field (S : MSettings ℝ) (k : Corner) (q dq0 dq1 : MState ℝ) (B0 dB0 B1 dB1 : ℝ) :
    let r : ℝ := if k.right then 1 else -1
    let t : ℝ := if k.top then 1 else -1
    (edgeState2 S .x .y k q dq0 dq1 B0 dB0 B1 dB1).b = B1 + 1 / 2 * (r * dB1) ∧
    (edgeState2 S .x .z k q dq0 dq1 B0 dB0 B1 dB1).b = q.b + 2 * (1 / 2 * (r * dq0.b + t * dq1.b)) ∧
    (edgeState2 S .y .z k q dq0 dq1 B0 dB0 B1 dB1).b =
      B0 + 1 / 2 * (t * dB0) + 1 / 2 * (r * dq0.b + t * dq1.b) := by
  cases k <;> refine ⟨?_, ?_, ?_⟩ <;>
    simp only [edgeState2, mfloor, signed, Corner.right, Corner.top, reduceCtorEq, if_true, if_false,
      Bool.false_eq_true] <;> rops <;> push_cast <;> ring

end real

end Verif
