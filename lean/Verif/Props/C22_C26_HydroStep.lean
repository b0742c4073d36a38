import Verif.Lemmas.HydroFlux
import Verif.Props.C27_C29_Riemann

/-!
# C22–C26, C49, C58: one step of the MUSCL hydro scheme

`Runs (godunov_unsplit d3 S P J impl grav dt it) m m'`: the loops launched by step number `it`
(ghost fill included) can take memory `m` to memory `m'` under some schedule.  `d3`: three
dimensions; `impl`: `implementationVersion`; `grav`: gravity is on; `J`: contents of uninitialised
variables.  `BoxSetup d3 (hydroVars d3) 2 P B`: at least two ghost layers, at least as many cells as
ghost layers per direction, boundary conditions `B`.
-/

namespace Verif

open Spec ROps

/-- A small box (used by the examples). -/
def exampleBox (d3 : Bool) (b : BC) : Grid :=
  ⟨3, 2, 2, 2, hydroVars d3, b.code, b.code, b.code, b.code, b.code, b.code⟩

theorem exampleBox_setup (d3 : Bool) (b : BC) :
    BoxSetup d3 (hydroVars d3) 2 (exampleBox d3 b) (Sides.all b) := by
  constructor <;> intros <;> first | rfl | (simp [exampleBox])

theorem exampleSettings_valid (d3 : Bool) : ValidHydro d3 exampleSettings := by
  constructor
  · right; left; simp [ROps.eqb, exampleSettings, ROps.lit]
  · simp [exampleSettings]
  · simp [exampleSettings]

section anyα
variable {α : Type} [ROps α] {d3 : Bool} {S : Settings α} {P : Grid} {B : Sides}

/-! ### C58 the step is well defined -/

/-- **C58**: for every grid, boundary condition, configuration, state and time step, all loops of a
step access only allocated entries, are free of data races, terminate, and their combined result does not
depend on the schedule. -/
theorem C58_hydro_step (h : BoxSetup d3 (hydroVars d3) 2 P B) (J : Junk α) (impl : Int)
    (himpl : impl = 0 ∨ impl = 1) (grav : Bool) (dt : α) (it : Nat) (m : Addr → α) :
    ∃ m', YieldsAll (hydroDom d3 P impl grav) (godunov_unsplit d3 S P J impl grav dt it) m m' := by
  obtain ⟨m1, m', -, y, -⟩ := step_whole (S := S) (J := J) (grav := grav) (dt := dt) (it := it)
    h himpl m
  exact ⟨m', y⟩

/-- **C58**: in particular the result of a step is unique. -/
theorem C58_hydro_unique (h : BoxSetup d3 (hydroVars d3) 2 P B) {J : Junk α} {impl : Int}
    (himpl : impl = 0 ∨ impl = 1) {grav : Bool} {dt : α} {it : Nat} {m m1 m2 : Addr → α}
    (r1 : Runs (godunov_unsplit d3 S P J impl grav dt it) m m1)
    (r2 : Runs (godunov_unsplit d3 S P J impl grav dt it) m m2) : m1 = m2 := by
  obtain ⟨m', y⟩ := C58_hydro_step (S := S) h J impl himpl grav dt it m
  rw [y.unique r1, y.unique r2]

/-- **C58**: the interior of the input buffer and the gravity field survive the step; ghost cells
of the output are the freshly filled ghost cells of the input. -/
theorem C58_hydro_preserves (h : BoxSetup d3 (hydroVars d3) 2 P B) {J : Junk α} {impl : Int}
    (himpl : impl = 0 ∨ impl = 1) {grav : Bool} {dt : α} {it : Nat} {m m' : Addr → α}
    (r : Runs (godunov_unsplit d3 S P J impl grav dt it) m m') :
    (∀ i j k v, i < P.nx.toNat → j < P.ny.toNat → k < depth d3 P → v < P.nbvar →
      m' ((cell d3 P i j k).at (bufIn it) v) = m ((cell d3 P i j k).at (bufIn it) v)) ∧
    (∀ a, a.arr = aG → m' a = m a) ∧
    (∀ c v, P.box d3 c → ¬ P.inner d3 c → v < P.nbvar →
      m' (c.at (bufOut it) v) = m' (c.at (bufIn it) v)) := by
  obtain ⟨m1, m2, f, y, R⟩ := step_whole (S := S) (J := J) (grav := grav) (dt := dt) (it := it)
    h himpl m
  obtain rfl := y.unique r
  refine ⟨?_, ?_, ?_⟩
  · intro i j k v hi hj hk hv
    obtain ⟨b1, b2⟩ := cell_box h hi hj hk
    rw [R.input _ rfl, f.interior b1 b2 hv]
  · intro a ha
    rw [R.gravity a ha]
    refine f.frame a fun e => ?_
    have : bufIn it = aG := e.1.symm.trans ha
    unfold bufIn at this; split_ifs at this <;> simp [aU, aU2, aG] at this
  · intro c v hb hi hv
    rw [R.input (c.at (bufIn it) v) rfl]
    have e := R.outer c hb hi
    rw [← field_get d3 m' (bufOut it) c (h.nv ▸ hv), e, field_get d3 m1 (bufIn it) c (h.nv ▸ hv)]

/-- Hypotheses met. -/
example : BoxSetup false 4 2 (exampleBox false .periodic) (Sides.all .periodic) :=
  exampleBox_setup false .periodic
example : BoxSetup true 5 2 (exampleBox true .reflecting) (Sides.all .reflecting) :=
  exampleBox_setup true .reflecting

/-! ### C24, C25 the two implementations -/

/-- **C24**: in 2D the two implementations give the same new state, entry by entry and without any
law of arithmetic (so also in floating point), with and without gravity, whatever the uninitialised
variables contain. -/
theorem C24_implementations_2d (h : BoxSetup false 4 2 P B) (hv : ValidHydro false S)
    (J0 J1 : Junk α) (grav : Bool) (dt : α) (it : Nat) {m m0 m1 : Addr → α}
    (r0 : Runs (godunov_unsplit false S P J0 0 grav dt it) m m0)
    (r1 : Runs (godunov_unsplit false S P J1 1 grav dt it) m m1) :
    ∀ a, a.arr = bufOut it → m0 a = m1 a :=
  output_eq (d3 := false) h (Or.inl rfl) (Or.inr rfl)
    (fun u g d c hd => (stepFlux_agree hv (fun _ e => by subst e; simp [Dir.ok] at hd)
      J0 J1 u g hd c).symm) r0 r1

/-- **C25**: in 3D the two implementations agree without gravity. -/
theorem C25_implementations_3d (h : BoxSetup true 5 2 P B) (hv : ValidHydro true S)
    (J0 J1 : Junk α) (dt : α) (it : Nat) {m m0 m1 : Addr → α}
    (r0 : Runs (godunov_unsplit true S P J0 0 false dt it) m m0)
    (r1 : Runs (godunov_unsplit true S P J1 1 false dt it) m m1) :
    ∀ a, a.arr = bufOut it → m0 a = m1 a :=
  output_eq (d3 := true) h (Or.inl rfl) (Or.inr rfl)
    (fun u g d c hd => (stepFlux_agree hv (fun e => by cases e) J0 J1 u g hd c).symm) r0 r1

/-! ### C49 uninitialised variables -/

/-- **C49**: with slope type 0, 1, 2 and a supported Riemann solver, uninitialised variables have
no influence on the new state. -/
theorem C49_no_uninitialised (h : BoxSetup d3 (hydroVars d3) 2 P B) (hv : ValidHydro d3 S)
    {impl : Int} (himpl : impl = 0 ∨ impl = 1) (J J' : Junk α) (grav : Bool) (dt : α) (it : Nat)
    {m m1 m2 : Addr → α}
    (r1 : Runs (godunov_unsplit d3 S P J impl grav dt it) m m1)
    (r2 : Runs (godunov_unsplit d3 S P J' impl grav dt it) m m2) :
    ∀ a, a.arr = bufOut it → m1 a = m2 a :=
  output_eq h himpl himpl (fun u g d c _ => stepFlux_junk hv J' J u g d c) r1 r2

end anyα

/-! ### C22, C23 conservation -/

section real
variable {d3 : Bool} {S : Settings ℝ} {P : Grid} {B : Sides} {J : Junk ℝ} {impl : Int} {dt : ℝ}
  {it : Nat} {m m' : Addr → ℝ}

/-- **C22**: on a periodic domain without gravity the total of every conserved variable (mass,
energy, momentum components) is unchanged by a step, for both implementations and all supported
Riemann solvers and slope types. -/
theorem C22_conservation (h : BoxSetup d3 (hydroVars d3) 2 P (Sides.all .periodic))
    (hv : ValidHydro d3 S) (himpl : impl = 0 ∨ impl = 1)
    (r : Runs (godunov_unsplit d3 S P J impl false dt it) m m') (v : Nat) (hvar : v < hydroVars d3) :
    total d3 P m' (bufOut it) v = total d3 P m (bufIn it) v := by
  obtain ⟨m1, m2, f, y, R⟩ := step_whole (S := S) (J := J) (grav := false) (dt := dt) (it := it)
    h himpl m
  obtain rfl := y.unique r
  rw [total_change h f R hvar]
  obtain ⟨ex, ey, ez⟩ := periodic_flux (J := J) (impl := impl) (dt := dt) h hv f
  simp only [netInflow]
  have zx : (∑ j ∈ Finset.range P.ny.toNat, ∑ k ∈ Finset.range (depth d3 P),
      ((stepFlux d3 S J impl false dt (field d3 m1 (bufIn it)) (gfield d3 m1) .x
        (cell d3 P 0 j k)).get v - (stepFlux d3 S J impl false dt (field d3 m1 (bufIn it))
        (gfield d3 m1) .x (cell d3 P P.nx.toNat j k)).get v)) = 0 := by
    refine Finset.sum_eq_zero fun j hj => Finset.sum_eq_zero fun k hk => ?_
    rw [ex j k (Finset.mem_range.1 hj) (Finset.mem_range.1 hk), sub_self]
  have zy : (∑ i ∈ Finset.range P.nx.toNat, ∑ k ∈ Finset.range (depth d3 P),
      ((stepFlux d3 S J impl false dt (field d3 m1 (bufIn it)) (gfield d3 m1) .y
        (cell d3 P i 0 k)).get v - (stepFlux d3 S J impl false dt (field d3 m1 (bufIn it))
        (gfield d3 m1) .y (cell d3 P i P.ny.toNat k)).get v)) = 0 := by
    refine Finset.sum_eq_zero fun i hi => Finset.sum_eq_zero fun k hk => ?_
    rw [ey i k (Finset.mem_range.1 hi) (Finset.mem_range.1 hk), sub_self]
  rw [zx, zy]
  cases d3
  · simp
  · simp only [if_true, zero_add, add_eq_left]
    refine Finset.sum_eq_zero fun i hi => Finset.sum_eq_zero fun j hj => ?_
    rw [ez rfl i j (Finset.mem_range.1 hi) (Finset.mem_range.1 hj), sub_self]

/-- The hypotheses of C22 are met by concrete 2D and 3D configurations, and the totals are not
trivial: a step exists from every memory. -/
example (m : Addr → ℝ) (J : Junk ℝ) : ∃ m',
    Runs (godunov_unsplit true exampleSettings (exampleBox true .periodic) J 1 false (1 / 10) 3)
      m m' ∧ total true (exampleBox true .periodic) m' (bufOut 3) ID =
        total true (exampleBox true .periodic) m (bufIn 3) ID := by
  obtain ⟨m', y⟩ := C58_hydro_step (S := exampleSettings) (exampleBox_setup true .periodic) J 1
    (Or.inr rfl) false (1 / 10) 3 m
  exact ⟨m', y.run, C22_conservation (exampleBox_setup true .periodic)
    (exampleSettings_valid true) (Or.inr rfl) y.run ID (by decide)⟩
example : total false (exampleBox false .periodic) (fun _ => 1) aU ID = 6 := by
  simp [total, interiorSum, exampleBox, depth]; norm_num

/-- **C23**: for every boundary condition the change of a total is the net inflow through the sides
of the domain of what the step left in its flux arrays (implementation 0, no gravity). -/
theorem C23_flux_balance (h : BoxSetup d3 (hydroVars d3) 2 P B)
    (r : Runs (godunov_unsplit d3 S P J 0 false dt it) m m') (v : Nat) (hvar : v < hydroVars d3) :
    total d3 P m' (bufOut it) v - total d3 P m (bufIn it) v =
      netInflow d3 P (fun c => m' (c.at (aF 0 .x) v)) (fun c => m' (c.at (aF 0 .y) v))
        (fun c => m' (c.at (aF 0 .z) v)) := by
  obtain ⟨m1, m2, f, y, R⟩ := step_whole (S := S) (J := J) (grav := false) (dt := dt) (it := it)
    h (Or.inl rfl) m
  obtain rfl := y.unique r
  rw [total_change h f R hvar, add_sub_cancel_left]
  have hg := h.gw
  have hnx := h.nx
  have hny := h.ny
  have key : ∀ (d : Dir) (i j k : Nat), d.ok d3 → i ≤ P.nx.toNat → j ≤ P.ny.toNat →
      (if d3 then k ≤ P.nz.toNat else True) →
      (stepFlux d3 S J 0 false dt (field d3 m1 (bufIn it)) (gfield d3 m1) d
        (cell d3 P i j k)).get v = m' ((cell d3 P i j k).at (aF 0 d) v) := by
    intro d i j k hd hi hj hk
    rw [← field_get d3 m' (aF 0 d) _ hvar, R.fluxes rfl d _ hd]
    · rw [box_iff]; unfold cell
      cases d3
      · simp only [Bool.false_eq_true, if_false]
        exact ⟨by omega, by omega, by omega, by omega, trivial⟩
      · have := h.nz rfl
        simp only [if_true] at hk ⊢
        exact ⟨by omega, by omega, by omega, by omega, by omega, by omega⟩
    · rw [faces_iff]; unfold cell
      cases d3
      · simp only [Bool.false_eq_true, if_false]
        exact ⟨fun e => e.elim, by omega, by omega, by omega, by omega⟩
      · have := h.nz rfl
        simp only [if_true] at hk ⊢
        exact ⟨fun _ => ⟨by omega, by omega⟩, by omega, by omega, by omega, by omega⟩
  have hx : Dir.ok d3 .x := Or.inr (by decide)
  have hy : Dir.ok d3 .y := Or.inr (by decide)
  have hd : ∀ k, k < depth d3 P → (if d3 then k ≤ P.nz.toNat else True) := by
    intro k hk; unfold depth at hk; cases d3
    · trivial
    · simp only [if_true] at hk ⊢; omega
  simp only [netInflow]
  congr 1
  · congr 1
    · refine Finset.sum_congr rfl fun j hj => Finset.sum_congr rfl fun k hk => ?_
      have h1 := Finset.mem_range.1 hj
      have h2 := hd k (Finset.mem_range.1 hk)
      rw [key .x _ _ _ hx (by omega) (by omega) h2, key .x _ _ _ hx le_rfl (by omega) h2]
    · refine Finset.sum_congr rfl fun j hj => Finset.sum_congr rfl fun k hk => ?_
      have h1 := Finset.mem_range.1 hj
      have h2 := hd k (Finset.mem_range.1 hk)
      rw [key .y _ _ _ hy (by omega) (by omega) h2, key .y _ _ _ hy (by omega) le_rfl h2]
  · cases d3
    · rfl
    · simp only [if_true]
      refine Finset.sum_congr rfl fun i hi => Finset.sum_congr rfl fun j hj => ?_
      have h1 := Finset.mem_range.1 hi
      have h2 := Finset.mem_range.1 hj
      have hz : Dir.ok true .z := Or.inl rfl
      rw [key .z _ _ _ hz (by omega) (by omega) (by simp),
        key .z _ _ _ hz (by omega) (by omega) (by simp)]

/-- **C23, implementation 1**: the change of a total is the net inflow of the fluxes that
implementation 0 computes from the same memory (implementation 1 reuses one flux array for all
directions). -/
theorem C23_flux_balance_impl1 (h : BoxSetup d3 (hydroVars d3) 2 P B) (hv : ValidHydro d3 S)
    {J0 : Junk ℝ} {m0 : Addr → ℝ}
    (r : Runs (godunov_unsplit d3 S P J 1 false dt it) m m')
    (r0 : Runs (godunov_unsplit d3 S P J0 0 false dt it) m m0) (v : Nat) (hvar : v < hydroVars d3) :
    total d3 P m' (bufOut it) v - total d3 P m (bufIn it) v =
      netInflow d3 P (fun c => m0 (c.at (aF 0 .x) v)) (fun c => m0 (c.at (aF 0 .y) v))
        (fun c => m0 (c.at (aF 0 .z) v)) := by
  rw [← C23_flux_balance h r0 v hvar]
  have e := output_eq h (Or.inl rfl) (Or.inr rfl)
    (fun u g d c hd => (stepFlux_agree hv (fun e => by cases e) J0 J u g hd c).symm) r0 r
  have : total d3 P m' (bufOut it) v = total d3 P m0 (bufOut it) v :=
    interiorSum_congr fun i j k _ _ _ => (e _ rfl).symm
  rw [this]

/-- **C23, the update loop alone**: whatever the flux arrays contain, the update loop changes a
total by the net inflow of the fluxes. -/
theorem C23_update (h : BoxSetup d3 (hydroVars d3) 2 P B)
    (r : Runs [update d3 P (bufOut it) (aF 0)] m m') (v : Nat) (hvar : v < hydroVars d3) :
    total d3 P m' (bufOut it) v - total d3 P m (bufOut it) v =
      netInflow d3 P (fun c => m (c.at (aF 0 .x) v)) (fun c => m (c.at (aF 0 .y) v))
        (fun c => if d3 then m (c.at (aF 0 .z) v) else 0) := by
  have y : YieldsAll _ _ m _ := .cons (update_yields (grav := false)
    (hydroOk_of (impl := 0) (it := it) h (Or.inl rfl)) m) (.nil _)
  obtain rfl := y.unique r
  have e1 : ∀ c, updatedAt d3 m (bufOut it) (aF 0) c =
      updCell d3 (fun d c => field d3 m (aF 0 d) c) (field d3 m (bufOut it) c) c := by
    intro c; cases d3 <;> rfl
  have e2 : total d3 P (setArr d3 m (bufOut it) (fun c => P.box d3 c ∧ P.inner d3 c)
      (updatedAt d3 m (bufOut it) (aF 0))) (bufOut it) v = interiorSum d3 P (fun c =>
      (updCell d3 (fun d c => field d3 m (aF 0 d) c) (field d3 m (bufOut it) c) c).get v) := by
    refine interiorSum_congr fun i j k hi hj hk => ?_
    obtain ⟨b1, b2⟩ := cell_box h hi hj hk
    have := field_setArr_same (m := m) (A := bufOut it)
      (R := fun c => P.box d3 c ∧ P.inner d3 c) (f := updatedAt d3 m (bufOut it) (aF 0))
      (d3 := d3) (c := cell d3 P i j k) ⟨b1, b2⟩
    rw [e1, updCell_norm] at this
    rw [← this, field_get _ _ _ _ hvar]; rfl
  have e3 : total d3 P m (bufOut it) v = interiorSum d3 P (fun c =>
      (field d3 m (bufOut it) c).get v) := by
    refine interiorSum_congr fun i j k hi hj hk => ?_
    rw [field_get _ _ _ _ hvar]; rfl
  rw [e2, e3, interiorSum_updCell d3 P _ _ hvar, add_sub_cancel_left]
  simp only [field_get d3 m _ _ hvar]
  cases d3 <;> rfl

/-! ### C26 uniform flow -/

/-- **C26**: if all interior cells hold the same state and no side is reflecting, a step without
gravity returns exactly that state (any supported configuration, any uniform state). -/
theorem C26_uniform (h : BoxSetup d3 (hydroVars d3) 2 P B) (hv : ValidHydro d3 S)
    (himpl : impl = 0 ∨ impl = 1)
    (hx : B.xlo ≠ .reflecting ∧ B.xhi ≠ .reflecting) (hy : B.ylo ≠ .reflecting ∧ B.yhi ≠ .reflecting)
    (hz : d3 = true → B.zlo ≠ .reflecting ∧ B.zhi ≠ .reflecting)
    (r : Runs (godunov_unsplit d3 S P J impl false dt it) m m') (u0 : Nat → ℝ)
    (hu : ∀ i j k v, i < P.nx.toNat → j < P.ny.toNat → k < depth d3 P → v < hydroVars d3 →
      m ((cell d3 P i j k).at (bufIn it) v) = u0 v) :
    ∀ c v, P.box d3 c → v < hydroVars d3 → m' (c.at (bufOut it) v) = u0 v := by
  obtain ⟨m1, m2, f, y, R⟩ := step_whole (S := S) (J := J) (grav := false) (dt := dt) (it := it)
    h himpl m
  obtain rfl := y.unique r
  have hg := h.gw
  have hnx := h.nx
  have hny := h.ny
  have hfill : ∀ c v, P.box d3 c → v < hydroVars d3 → m1 (c.at (bufIn it) v) = u0 v := by
    intro c v hb hvar
    refine f.uniform h (by decide) hx hy hz (h.nv ▸ hvar) ?_ ⟨by omega, by omega⟩
      (fun e => by have := h.nz e; omega) hb
    intro c' hb' hi'
    have hb2 := box_iff.1 hb'
    have hi2 := inner_iff.1 hi'
    have e : c' = cell d3 P (c'.i - P.ghostWidth).toNat (c'.j - P.ghostWidth).toNat
        (if d3 then (c'.k - P.ghostWidth).toNat else 0) := by
      unfold cell
      cases d3
      · simp only [Bool.false_eq_true, if_false] at hb2 ⊢
        ext <;> simp only <;> omega
      · simp only [if_true, forall_true_left] at hi2 ⊢
        ext <;> simp only <;> omega
    rw [e]
    refine hu _ _ _ _ (by omega) (by omega) ?_ hvar
    unfold depth
    cases d3
    · simp
    · simp only [if_true, forall_true_left] at hi2 ⊢; omega
  have hfld : ∀ c c', P.box d3 c → P.box d3 c' →
      field d3 m1 (bufIn it) c = field d3 m1 (bufIn it) c' := fun c c' h1 h2 =>
    field_ext fun v hvar => by rw [hfill c v h1 hvar, hfill c' v h2 hvar]
  intro c v hb hvar
  rw [← field_get d3 m' (bufOut it) c hvar]
  by_cases hi : P.inner d3 c
  swap
  · rw [R.outer c hb hi, field_get d3 m1 _ c hvar, hfill c v hb hvar]
  rw [R.inner c hb hi]
  simp only [stepCell, Bool.false_eq_true, if_false]
  rw [updCell_get d3 _ _ _ hvar, field_get d3 m1 _ c hvar, hfill c v hb hvar]
  -- fluxes through both faces agree
  have key : ∀ d : Dir, d.ok d3 →
      stepFlux d3 S J impl false dt (field d3 m1 (bufIn it)) (gfield d3 m1) d (c.up d) =
      stepFlux d3 S J impl false dt (field d3 m1 (bufIn it)) (gfield d3 m1) d c := by
    intro d hd
    have et : c.up d = shiftBy (Dir.pick 1 0 0 d) (Dir.pick 0 1 0 d) (Dir.pick 0 0 1 d) c := by
      cases d <;> simp [Cell.up, shiftBy, Dir.pick]
    rw [et]
    refine stepFlux_shift hv (shiftBy_translation _ _ _) ?_ (by simp)
    intro c' hc'
    have hb2 := box_iff.1 hb
    have hi2 := inner_iff.1 hi
    have hk : d3 = false → Dir.pick (0 : Int) 0 1 d = 0 := by
      intro e; subst e
      cases d
      · rfl
      · rfl
      · simp [Dir.ok] at hd
    have hp : 0 ≤ Dir.pick (1 : Int) 0 0 d ∧ Dir.pick (1 : Int) 0 0 d ≤ 1 ∧
        0 ≤ Dir.pick (0 : Int) 1 0 d ∧ Dir.pick (0 : Int) 1 0 d ≤ 1 ∧
        0 ≤ Dir.pick (0 : Int) 0 1 d ∧ Dir.pick (0 : Int) 0 1 d ≤ 1 := by
      cases d <;> simp [Dir.pick]
    have hbn : c.i - 2 ≤ c'.i ∧ c'.i ≤ c.i + 1 ∧ c.j - 2 ≤ c'.j ∧ c'.j ≤ c.j + 1 ∧
        c.k - 2 ≤ c'.k ∧ c'.k ≤ c.k + 1 ∧ (d3 = false → c'.k = c.k) := by
      rcases hc' with hn | hn
      · obtain ⟨h1, h2, h3, h4, h5, h6, h7⟩ := near_bounds hn
        refine ⟨?_, ?_, ?_, ?_, ?_, ?_, h7⟩ <;> omega
      · obtain ⟨h1, h2, h3, h4, h5, h6, h7⟩ := near_bounds hn
        cases d <;> simp only [Cell.down] at h1 h2 h3 h4 h5 h6 h7
        · refine ⟨?_, ?_, ?_, ?_, ?_, ?_, h7⟩ <;> omega
        · refine ⟨?_, ?_, ?_, ?_, ?_, ?_, h7⟩ <;> omega
        · refine ⟨?_, ?_, ?_, ?_, ?_, ?_, fun e => ?_⟩
          all_goals first | omega | (subst e; simp [Dir.ok] at hd)
    have hbc : P.box d3 c' ∧ P.box d3 (shiftBy (Dir.pick 1 0 0 d) (Dir.pick 0 1 0 d)
        (Dir.pick 0 0 1 d) c') := by
      rw [box_iff, box_iff]
      simp only [shiftBy]
      generalize Dir.pick (1 : Int) 0 0 d = a1 at *
      generalize Dir.pick (0 : Int) 1 0 d = a2 at *
      generalize Dir.pick (0 : Int) 0 1 d = a3 at *
      cases d3
      · simp only [Bool.false_eq_true, if_false, forall_true_left] at *
        refine ⟨⟨?_, ?_, ?_, ?_, ?_⟩, ?_, ?_, ?_, ?_, ?_⟩ <;> omega
      · simp only [if_true, forall_true_left] at *
        refine ⟨⟨?_, ?_, ?_, ?_, ?_, ?_⟩, ?_, ?_, ?_, ?_, ?_, ?_⟩ <;> omega
    exact hfld _ _ hbc.2 hbc.1
  rw [key .x (Or.inr (by decide)), key .y (Or.inr (by decide))]
  cases d3
  · simp
  · simp only [if_true]
    rw [key .z (Or.inl rfl)]; simp

/-- Hypotheses met: absorbing box, state moving in all directions. -/
example (J : Junk ℝ) : ∃ m', Runs (godunov_unsplit true exampleSettings (exampleBox true .absorbing)
      J 0 false (1 / 10) 0) (fun a => (a.v : ℝ) + 1) m' ∧
    ∀ c v, (exampleBox true .absorbing).box true c → v < 5 → m' (c.at (bufOut 0) v) = (v : ℝ) + 1 := by
  obtain ⟨m', y⟩ := C58_hydro_step (S := exampleSettings) (exampleBox_setup true .absorbing) J 0
    (Or.inl rfl) false (1 / 10) 0 (fun a => (a.v : ℝ) + 1)
  exact ⟨m', y.run, C26_uniform (exampleBox_setup true .absorbing) (exampleSettings_valid true)
    (Or.inl rfl) ⟨by decide, by decide⟩ ⟨by decide, by decide⟩ (fun _ => ⟨by decide, by decide⟩)
    y.run (fun v => (v : ℝ) + 1) (fun _ _ _ _ _ _ _ _ => rfl)⟩

end real

end Verif
