import Verif.Lemmas.MhdForm
import Verif.Props.C37_C63_MhdRiemann

/-!
# C34–C36, C49, C64, C65: steps of the MHD scheme

`Runs (mhd_unsplit d3 S P J xmin impl dt it) m m'`: the loops launched by step number `it` of the MHD
solver (ghost fill included) can take memory `m` to memory `m'` under some schedule.  `d3`: three
dimensions; `impl`: `implementationVersion`; `J`: contents of uninitialised variables; `xmin`: lower
end of the domain (used with rotation only).  `BoxSetup d3 8 3 P B`: at least three ghost layers, at
least as many cells as ghost layers per direction, boundary conditions `B`.
-/

namespace Verif

open Spec ROps

/-- A small box (used by the examples). -/
def mhdBox (b : BC) : Grid :=
  ⟨4, 3, 3, 3, 8, b.code, b.code, b.code, b.code, b.code, b.code⟩

theorem mhdBox_setup (d3 : Bool) (b : BC) : BoxSetup d3 8 3 (mhdBox b) (Sides.all b) := by
  constructor <;> intros <;> first | rfl | (simp [mhdBox])

/-- Settings used by the examples. -/
noncomputable def mhdSettings : MSettings ℝ :=
  { exampleMhd with
    slope_type := 1
    riemann := .hlld
    Omega0 := 0 }

theorem mhdSettings_valid (d3 : Bool) : ValidMhd d3 mhdSettings :=
  ⟨Or.inl rfl, fun _ => Or.inl rfl, fun _ => le_rfl⟩

/-! ### C64 the step is well defined -/

/-- **C64**: for every grid, boundary condition, configuration, state and time step, the loops of an
MHD step that stores its fluxes access only allocated entries, are free of data races, terminate, and
the result does not depend on the schedule (without any law of arithmetic, so also in floating
point). -/
theorem C64_mhd_step {α : Type} [ROps α] {d3 : Bool} {S : MSettings α} {P : Grid} {B : Sides}
    (h : BoxSetup d3 8 3 P B) (J : MJunk α) (xmin dt : α) (it : Nat) (m : Addr → α) :
    ∃ m', YieldsAll (mhdDom d3 P 0) (mhd_unsplit d3 S P J xmin 0 dt it) m m' := by
  obtain ⟨m1, m', y, -⟩ := mhd_step0 (S := S) (J := J) (xmin := xmin) (dt := dt)
    (mhdOk_of (it := it) h (Or.inl rfl)) h m
  rw [mhd_bufs]
  exact ⟨m', y⟩

section real
variable {d3 : Bool} {S : MSettings ℝ} {P : Grid} {B : Sides} {J : MJunk ℝ} {impl : Int}
  {xmin dt : ℝ} {it : Nat} {m m' : Addr → ℝ}

/-- **C64**: the same for the implementation with atomic additions, in exact arithmetic. -/
theorem C64_mhd_step_atomic (h : BoxSetup d3 8 3 P B) (J : MJunk ℝ) (xmin dt : ℝ) (it : Nat)
    (m : Addr → ℝ) :
    ∃ m', YieldsAll (mhdDom d3 P 1) (mhd_unsplit d3 S P J xmin 1 dt it) m m' := by
  obtain ⟨m1, m', y, -⟩ := mhd_whole (S := S) (J := J) (xmin := xmin) (dt := dt) (it := it) h
    (Or.inr rfl) m
  exact ⟨m', y⟩

/-- **C64**: the interior of the input buffer survives the step. -/
theorem C64_mhd_preserves (h : BoxSetup d3 8 3 P B) (himpl : impl = 0 ∨ impl = 1)
    (r : Runs (mhd_unsplit d3 S P J xmin impl dt it) m m') (i j k v : Nat) (hi : i < P.nx.toNat)
    (hj : j < P.ny.toNat) (hk : k < depth d3 P) (hv : v < 8) :
    m' ((cell d3 P i j k).at (bufIn it) v) = m ((cell d3 P i j k).at (bufIn it) v) := by
  obtain ⟨m1, x, y, f, e, -⟩ := mhd_whole (S := S) (J := J) (xmin := xmin) (dt := dt) (it := it) h
    himpl m
  obtain rfl := y.unique r
  obtain ⟨b1, b2⟩ := mcell_box h (by decide) hi hj hk
  rw [← f.interior b1 b2 (h.nv ▸ hv), ← mfield_get m' _ _ hv, e, mfield_get _ _ _ hv]

/-- Hypotheses met. -/
example : BoxSetup false 8 3 (mhdBox .absorbing) (Sides.all .absorbing) := mhdBox_setup _ _
example : BoxSetup true 8 3 (mhdBox .reflecting) (Sides.all .reflecting) := mhdBox_setup _ _

/-! ### C34, C35 constrained transport -/

/-- The divergence is unchanged in cells whose upper neighbours are interior. -/
theorem divB_inside (h : BoxSetup d3 8 3 P B) (himpl : impl = 0 ∨ impl = 1)
    (r : Runs (mhd_unsplit d3 S P J xmin impl dt it) m m') {i j k : Nat} (hi : i + 1 < P.nx.toNat)
    (hj : j + 1 < P.ny.toNat) (hk : d3 = true → k + 1 < P.nz.toNat) :
    divB d3 S P m' (bufOut it) i j k = divB d3 S P m (bufIn it) i j k := by
  obtain ⟨F, E, m1, f, -⟩ := mhd_form h himpl r
  exact f.divB_inside h hi hj hk

/-- **C34**: a 2D step does not change the divergence of the magnetic field in any interior cell whose
upper neighbours are interior cells; for all boundary conditions, settings, states, both
implementations and all schedules. -/
theorem C34_divB_2d (h : BoxSetup false 8 3 P B) (himpl : impl = 0 ∨ impl = 1)
    (r : Runs (mhd_unsplit false S P J xmin impl dt it) m m') {i j : Nat} (hi : i + 1 < P.nx.toNat)
    (hj : j + 1 < P.ny.toNat) :
    divB false S P m' (bufOut it) i j 0 = divB false S P m (bufIn it) i j 0 :=
  divB_inside h himpl r hi hj (fun e => by cases e)

/-- **C35**: the same in 3D. -/
theorem C35_divB_3d (h : BoxSetup true 8 3 P B) (himpl : impl = 0 ∨ impl = 1)
    (r : Runs (mhd_unsplit true S P J xmin impl dt it) m m') {i j k : Nat}
    (hi : i + 1 < P.nx.toNat) (hj : j + 1 < P.ny.toNat) (hk : k + 1 < P.nz.toNat) :
    divB true S P m' (bufOut it) i j k = divB true S P m (bufIn it) i j k :=
  divB_inside h himpl r hi hj (fun _ => hk)

/-- On a periodic domain the divergence is unchanged in all cells. -/
theorem divB_periodic (h : BoxSetup d3 8 3 P (Sides.all .periodic)) (hv : ValidMhd d3 S)
    (himpl : impl = 0 ∨ impl = 1)
    (r : Runs (mhd_unsplit d3 S P J xmin impl dt it) m m') {i j k : Nat} (hi : i < P.nx.toNat)
    (hj : j < P.ny.toNat) (hk : d3 = true → k < P.nz.toNat) :
    divBPeriodic d3 S P m' (bufOut it) i j k = divBPeriodic d3 S P m (bufIn it) i j k := by
  obtain ⟨F, E, m1, f, hs⟩ := mhd_form h himpl r
  exact f.divB_periodic h (hs hv) hi hj hk

/-- Any number of steps. -/
theorem divB_periodic_run (h : BoxSetup d3 8 3 P (Sides.all .periodic)) (hv : ValidMhd d3 S)
    (himpl : impl = 0 ∨ impl = 1) {l : List (ℝ × MJunk ℝ)}
    (r : MhdSteps d3 S P xmin impl it l m m') {i j k : Nat} (hi : i < P.nx.toNat)
    (hj : j < P.ny.toNat) (hk : d3 = true → k < P.nz.toNat) :
    divBPeriodic d3 S P m' (bufIn (it + l.length)) i j k =
      divBPeriodic d3 S P m (bufIn it) i j k := by
  induction r with
  | nil it m => rfl
  | cons r1 _ ih =>
    rw [List.length_cons, ← Nat.add_assoc, Nat.add_right_comm, ih, ← bufOut_eq,
      divB_periodic h hv himpl r1 hi hj hk]

/-- **C34**: on a 2D periodic domain any number of steps leaves the divergence of the magnetic field
unchanged in every cell; in particular a field that starts out free of divergence stays so. -/
theorem C34_divB_periodic_2d (h : BoxSetup false 8 3 P (Sides.all .periodic)) (hv : ValidMhd false S)
    (himpl : impl = 0 ∨ impl = 1) {l : List (ℝ × MJunk ℝ)}
    (r : MhdSteps false S P xmin impl it l m m') {i j : Nat} (hi : i < P.nx.toNat)
    (hj : j < P.ny.toNat) :
    divBPeriodic false S P m' (bufIn (it + l.length)) i j 0 =
      divBPeriodic false S P m (bufIn it) i j 0 :=
  divB_periodic_run h hv himpl r hi hj (fun e => by cases e)

/-- **C35**: the same in 3D, without rotation. -/
theorem C35_divB_periodic_3d (h : BoxSetup true 8 3 P (Sides.all .periodic)) (hv : ValidMhd true S)
    (himpl : impl = 0 ∨ impl = 1) {l : List (ℝ × MJunk ℝ)}
    (r : MhdSteps true S P xmin impl it l m m') {i j k : Nat} (hi : i < P.nx.toNat)
    (hj : j < P.ny.toNat) (hk : k < P.nz.toNat) :
    divBPeriodic true S P m' (bufIn (it + l.length)) i j k =
      divBPeriodic true S P m (bufIn it) i j k :=
  divB_periodic_run h hv himpl r hi hj (fun _ => hk)

/-- Sequences of steps exist for all lists of time steps. -/
theorem mhdSteps_exist (h : BoxSetup d3 8 3 P B) (himpl : impl = 0 ∨ impl = 1)
    (l : List (ℝ × MJunk ℝ)) (it : Nat) (m : Addr → ℝ) :
    ∃ m', MhdSteps d3 S P xmin impl it l m m' := by
  induction l generalizing it m with
  | nil => exact ⟨m, .nil it m⟩
  | cons x l ih =>
    obtain ⟨m1, y1, y, -⟩ := mhd_whole (S := S) (J := x.2) (xmin := xmin) (dt := x.1) (it := it) h
      himpl m
    obtain ⟨m2, r⟩ := ih (it + 1) y1
    exact ⟨m2, .cons y.run r⟩

/-- Hypotheses met by runs of two steps, in all cells of the small box, starting from every
memory. -/
example (J : MJunk ℝ) (m : Addr → ℝ) : ∃ m', MhdSteps true mhdSettings (mhdBox .periodic) 0 1 0
    [(1 / 10, J), (1 / 20, J)] m m' ∧ ∀ i < 4, ∀ j < 3, ∀ k < 3,
      divBPeriodic true mhdSettings (mhdBox .periodic) m' (bufIn 2) i j k =
        divBPeriodic true mhdSettings (mhdBox .periodic) m (bufIn 0) i j k := by
  obtain ⟨m', r⟩ := mhdSteps_exist (S := mhdSettings) (xmin := 0) (mhdBox_setup true .periodic)
    (Or.inr rfl) [(1 / 10, J), (1 / 20, J)] 0 m
  exact ⟨m', r, fun i hi j hj k hk => C35_divB_periodic_3d (mhdBox_setup true .periodic)
    (mhdSettings_valid true) (Or.inr rfl) r hi hj hk⟩

/-! ### C36 the two implementations -/

/-- **C36**: from the same memory the two implementations of a step give the same interior, whatever
the settings. -/
theorem C36_implementations (h : BoxSetup d3 8 3 P B) {m0 m1 : Addr → ℝ}
    (r0 : Runs (mhd_unsplit d3 S P J xmin 0 dt it) m m0)
    (r1 : Runs (mhd_unsplit d3 S P J xmin 1 dt it) m m1) {i j k v : Nat} (hi : i < P.nx.toNat)
    (hj : j < P.ny.toNat) (hk : k < depth d3 P) (hv : v < 8) :
    m0 ((cell d3 P i j k).at (bufOut it) v) = m1 ((cell d3 P i j k).at (bufOut it) v) :=
  step_agree h (Or.inl rfl) (Or.inr rfl) (Or.inl rfl) (fun _ _ _ _ _ _ _ _ => rfl) r0 r1 i j k v hi
    hj hk hv

theorem run_agree (h : BoxSetup d3 8 3 P B) (hv : ValidMhd d3 S) {impl' : Int}
    (hi : impl = 0 ∨ impl = 1) (hi' : impl' = 0 ∨ impl' = 1) {l : List (ℝ × MJunk ℝ)}
    {m x x' : Addr → ℝ} (r : MhdSteps d3 S P xmin impl it l m x) :
    ∀ {m' : Addr → ℝ} {l' : List (ℝ × MJunk ℝ)}, l.map Prod.fst = l'.map Prod.fst →
    MhdSteps d3 S P xmin impl' it l' m' x' → AgreeIn d3 P (bufIn it) m m' →
    AgreeIn d3 P (bufIn (it + l.length)) x x' := by
  induction r with
  | nil it m =>
    intro m' l' hl r' ha
    cases l' with
    | nil => cases r'; exact ha
    | cons a l => simp at hl
  | cons r1 _ ih =>
    intro m' l' hl r' ha
    cases l' with
    | nil => simp at hl
    | cons a l' =>
      simp only [List.map_cons, List.cons.injEq] at hl
      cases r' with
      | cons r1' r2' =>
        obtain ⟨h1, h2⟩ := hl
        simp only at h1
        subst h1
        have := step_agree h hi hi' (Or.inr hv) ha r1 r1'
        rw [bufOut_eq] at this
        have := ih h2 r2' this
        rw [List.length_cons, ← Nat.add_assoc, Nat.add_right_comm]
        exact this

/-- **C36**: two sequences of steps with the same time steps, one with each implementation, give the
same interior state, whatever uninitialised variables contain, for all supported settings. -/
theorem C36_runs (h : BoxSetup d3 8 3 P B) (hv : ValidMhd d3 S) {l0 l1 : List (ℝ × MJunk ℝ)}
    (hl : l0.map Prod.fst = l1.map Prod.fst) {m0 m1 : Addr → ℝ}
    (r0 : MhdSteps d3 S P xmin 0 it l0 m m0) (r1 : MhdSteps d3 S P xmin 1 it l1 m m1)
    {i j k v : Nat} (hi : i < P.nx.toNat) (hj : j < P.ny.toNat) (hk : k < depth d3 P) (hv : v < 8) :
    m0 ((cell d3 P i j k).at (bufIn (it + l0.length)) v) =
      m1 ((cell d3 P i j k).at (bufIn (it + l0.length)) v) :=
  run_agree h ‹_› (Or.inl rfl) (Or.inr rfl) r0 hl r1 (fun _ _ _ _ _ _ _ _ => rfl) i j k v hi hj hk hv

/-- Hypotheses met. -/
example (J J' : MJunk ℝ) (m : Addr → ℝ) : ∃ m0 m1,
    MhdSteps false mhdSettings (mhdBox .absorbing) 0 0 5 [(1 / 10, J), (1 / 20, J)] m m0 ∧
    MhdSteps false mhdSettings (mhdBox .absorbing) 0 1 5 [(1 / 10, J'), (1 / 20, J)] m m1 ∧
    m0 ⟨bufIn 7, 3, 3, 0, 0⟩ = m1 ⟨bufIn 7, 3, 3, 0, 0⟩ := by
  obtain ⟨m0, r0⟩ := mhdSteps_exist (S := mhdSettings) (xmin := 0) (mhdBox_setup false .absorbing)
    (Or.inl rfl) [(1 / 10, J), (1 / 20, J)] 5 m
  obtain ⟨m1, r1⟩ := mhdSteps_exist (S := mhdSettings) (xmin := 0) (mhdBox_setup false .absorbing)
    (Or.inr rfl) [(1 / 10, J'), (1 / 20, J)] 5 m
  exact ⟨m0, m1, r0, r1, C36_runs (mhdBox_setup false .absorbing) (mhdSettings_valid false)
    (l0 := [(1 / 10, J), (1 / 20, J)]) (l1 := [(1 / 10, J'), (1 / 20, J)]) rfl r0 r1
    (i := 0) (j := 0) (k := 0) (v := 0) (by decide) (by decide) (by decide) (by decide)⟩

/-- **C49** (MHD): for supported settings uninitialised variables have no influence on the interior of
the new state. -/
theorem C49_mhd_no_uninitialised (h : BoxSetup d3 8 3 P B) (hv : ValidMhd d3 S)
    (himpl : impl = 0 ∨ impl = 1) (J J' : MJunk ℝ) {m m0 m1 : Addr → ℝ}
    (r0 : Runs (mhd_unsplit d3 S P J xmin impl dt it) m m0)
    (r1 : Runs (mhd_unsplit d3 S P J' xmin impl dt it) m m1) {i j k v : Nat} (hi : i < P.nx.toNat)
    (hj : j < P.ny.toNat) (hk : k < depth d3 P) (hv8 : v < 8) :
    m0 ((cell d3 P i j k).at (bufOut it) v) = m1 ((cell d3 P i j k).at (bufOut it) v) :=
  step_agree h himpl himpl (Or.inr hv) (fun _ _ _ _ _ _ _ _ => rfl) r0 r1 i j k v hi hj hk hv8

/-! ### C65 conservation -/

/-- **C65**: on a periodic domain the totals of mass, energy, momentum components and magnetic field
components are unchanged by an MHD step. -/
theorem C65_mhd_conservation (h : BoxSetup d3 8 3 P (Sides.all .periodic)) (hv : ValidMhd d3 S)
    (himpl : impl = 0 ∨ impl = 1) (r : Runs (mhd_unsplit d3 S P J xmin impl dt it) m m') (v : Nat)
    (hvar : v < 8) : total d3 P m' (bufOut it) v = total d3 P m (bufIn it) v := by
  obtain ⟨F, E, m1, f, hs⟩ := mhd_form h himpl r
  exact f.conserves h (hs hv) v hvar

/-- **C65** for runs of any length. -/
theorem C65_mhd_conservation_run (h : BoxSetup d3 8 3 P (Sides.all .periodic)) (hv : ValidMhd d3 S)
    (himpl : impl = 0 ∨ impl = 1) {l : List (ℝ × MJunk ℝ)}
    (r : MhdSteps d3 S P xmin impl it l m m') (v : Nat) (hvar : v < 8) :
    total d3 P m' (bufIn (it + l.length)) v = total d3 P m (bufIn it) v := by
  induction r with
  | nil it m => rfl
  | cons r1 _ ih =>
    rw [List.length_cons, ← Nat.add_assoc, Nat.add_right_comm, ih, ← bufOut_eq,
      C65_mhd_conservation h hv himpl r1 v hvar]

/-- Hypotheses met. -/
example (J : MJunk ℝ) (m : Addr → ℝ) : ∃ m', MhdSteps false mhdSettings (mhdBox .periodic) 0 1 0
    [(1 / 10, J), (1 / 20, J)] m m' ∧
      total false (mhdBox .periodic) m' (bufIn 2) 1 =
        total false (mhdBox .periodic) m (bufIn 0) 1 := by
  obtain ⟨m', r⟩ := mhdSteps_exist (S := mhdSettings) (xmin := 0) (mhdBox_setup false .periodic)
    (Or.inr rfl) [(1 / 10, J), (1 / 20, J)] 0 m
  exact ⟨m', r, C65_mhd_conservation_run (mhdBox_setup false .periodic) (mhdSettings_valid false)
    (Or.inr rfl) r 1 (by decide)⟩

end real

end Verif
