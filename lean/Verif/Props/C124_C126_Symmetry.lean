import Verif.Lemmas.ExchangeStep
import Verif.Props.C117_HydroProgram
import Verif.Props.C102_InitHydro

/-!
# C124–C126: closed boxes, mirror images, exchanged axes

Vocabulary: `Verif.Spec.Symmetry`; `Sdm.Closed d3 B v`: every axis is periodic, or has walls on both sides and `v` is
not the momentum across them.
-/

namespace Verif

open Spec Sdm ROps

/-- Parameters with the HLLC solver (used by the examples). -/
noncomputable def wallSettings : Settings ℝ := { exampleSettings with riemann := .hllc }

theorem wallSettings_valid (d3 : Bool) : ValidHydro d3 wallSettings :=
  ⟨(exampleSettings_valid d3).slope, by simp [wallSettings], by simp [wallSettings]⟩

theorem wallSettings_gas : GasParams wallSettings :=
  ⟨exampleSettings_gas.1, exampleSettings_gas.2, exampleSettings_gas.3, exampleSettings_gas.4⟩

/-- A cubic box. -/
def cubicBox (d3 : Bool) (b : BC) : Grid :=
  ⟨3, 3, 3, 2, hydroVars d3, b.code, b.code, b.code, b.code, b.code, b.code⟩

theorem cubicBox_setup (d3 : Bool) (b : BC) : BoxSetup d3 (hydroVars d3) 2 (cubicBox d3 b) (Sides.all b) := by
  constructor <;> intros <;> first | rfl | (simp [cubicBox])

/-- A run in a cubic box. -/
noncomputable def wallConf (d3 : Bool) (b : BC) (impl : Int) : HydroConf ℝ :=
  ⟨d3, wallSettings, cubicBox d3 b, impl, false, -1, ⟨1, 0, 100, 5, 10, false, id, fun _ => 0, fun u _ => u⟩⟩

theorem wallConf_ok (d3 : Bool) (b : BC) {impl : Int} (hi : impl = 0 ∨ impl = 1) :
    (wallConf d3 b impl).Ok (Sides.all b) :=
  ⟨cubicBox_setup d3 b, wallSettings_valid d3, wallSettings_gas,
    by constructor <;> norm_num [wallConf, wallSettings, exampleSettings], hi, by norm_num [wallConf]⟩

section step
variable {d3 : Bool} {S : Settings ℝ} {P : Grid} {B : Sides} {J J' : Junk ℝ} {impl : Int} {grav : Bool} {dt : ℝ}
  {it : Nat} {m m' n n' : Addr → ℝ}

/-! ### C124 closed boxes -/

/-- **C124**: in a closed box without gravity, a step leaves the mass, the energy and the momentum along the axes without
walls as they are, for both implementations. -/
theorem C124_closed_box (h : BoxSetup d3 (hydroVars d3) 2 P B) (hv : ValidHydro d3 S) (hG : GasParams S)
    (himpl : impl = 0 ∨ impl = 1) (hS : WallSolver d3 S B)
    (r : Runs (godunov_unsplit d3 S P J impl false dt it) m m') (v : Nat) (hvar : v < hydroVars d3)
    (hB : Closed d3 B v) : total d3 P m' (bufOut it) v = total d3 P m (bufIn it) v := by
  obtain ⟨m1, m2, f, y, R⟩ := step_whole (S := S) (J := J) (grav := false) (dt := dt) (it := it) h himpl m
  obtain rfl := y.unique r
  rw [total_change h f R hvar, closed_inflow h hv hG hS f hvar hB, add_zero]

/-- Hypotheses met: walls on all sides, the mass. -/
example : BoxSetup true 5 2 (cubicBox true .reflecting) (Sides.all .reflecting) ∧ ValidHydro true wallSettings ∧
    GasParams wallSettings ∧ WallSolver true wallSettings (Sides.all .reflecting) ∧
    Closed true (Sides.all .reflecting) 0 ∧ Closed true ⟨.periodic, .periodic, .reflecting, .reflecting, .periodic,
      .periodic⟩ 2 :=
  ⟨cubicBox_setup true .reflecting, wallSettings_valid true, wallSettings_gas,
    fun _ _ _ => by simp [wallSettings], fun d _ => Or.inr (by cases d <;> simp [lowBC, highBC, Sides.all, axis]),
    fun d _ => by cases d <;> simp [lowBC, highBC, axis]⟩

/-! ### C125 mirror images -/

private theorem factor_eq (a : Dir) (v : ℕ) (x : ℝ) :
    (if v = 2 + axis a then -x else x) = x * bsgn (normalTo (axis a) false v) := by
  by_cases h : v = 2 + axis a
  · rw [if_pos h]; simp [normalTo, h, bsgn]
  · rw [if_neg h]; simp [normalTo, h, bsgn]

private theorem get_mirror (a : Dir) (q : HState ℝ) {v : ℕ} (hv : v < 5) :
    (mirrorAlong a q).get v = if v = 2 + axis a then -q.get v else q.get v := by
  interval_cases v <;> cases a <;> simp [mirrorAlong, HState.get, axis]

private theorem vars_le (d3 : Bool) {v : ℕ} (h : v < hydroVars d3) : v < 5 :=
  lt_of_lt_of_le h (by cases d3 <;> decide)

private theorem gfield_mirror {a : Dir} (ha : a.ok d3) (h : MirrorGravity d3 P a (fun c v => m (c.at aG v))
    (fun c v => n (c.at aG v))) {c : Cell} (hc : P.box d3 c) :
    gfield d3 n (mirrored P a c) = mirrorAlong a (gfield d3 m c) := by
  have h0 := h c 0 hc (by cases d3 <;> decide)
  have h1 := h c 1 hc (by cases d3 <;> decide)
  unfold gfield
  cases d3
  · cases a
    · simp [axis] at h0 h1; simp [mirrorAlong, h0, h1]
    · simp [axis] at h0 h1; simp [mirrorAlong, h0, h1]
    · exact absurd rfl (ha.resolve_left (by decide))
  · have h2 := h c 2 hc (by decide)
    cases a <;> simp [axis] at h0 h1 h2 <;> simp [mirrorAlong, h0, h1, h2]

/-- **C125**: the scheme has no preferred side: a step of the run seen in a mirror – the boundary conditions of the two
sides exchanged, gravity mirrored – gives the mirror image of the result, exactly (in real arithmetic).  (In 3D with
gravity, implementation 1 has a preferred side along `z`.) -/
theorem C125_step (h : BoxSetup d3 (hydroVars d3) 2 P B) (hv : ValidHydro d3 S) (hG : GasParams S)
    (hS : S.riemann ≠ .approx) {a : Dir} (ha : d3 = true ∨ a ≠ .z) (himpl : impl = 0 ∨ impl = 1)
    (hz : grav = true → impl = 0 ∨ a ≠ .z)
    (r : Runs (godunov_unsplit d3 S P J impl grav dt it) m m')
    (r' : Runs (godunov_unsplit d3 S (flipGrid a P) J' impl grav dt it) n n')
    (hm : MirrorImage d3 P a (fun c v => m (c.at (bufIn it) v)) (fun c v => n (c.at (bufIn it) v)))
    (hg : grav = true → MirrorGravity d3 P a (fun c v => m (c.at aG v)) (fun c v => n (c.at aG v))) :
    MirrorImage d3 P a (fun c v => m' (c.at (bufOut it) v)) (fun c v => n' (c.at (bufOut it) v)) := by
  intro i j k v hi hj hk hvar
  obtain ⟨b1, b2⟩ := cell_box h hi hj hk
  have := step_mirror h hv hG hS ha himpl hz r r' (fun c hb hin v hv => by
    obtain ⟨i, j, k, hi, hj, hk, rfl⟩ := inner_cell' h hb hin
    rw [← factor_eq]; exact hm i j k v hi hj hk hv) (fun e c hc => gfield_mirror ha (hg e) hc) b1 b2
  beta_reduce
  rw [← field_get d3 n' (bufOut it) _ hvar, this, get_mirror a _ (vars_le d3 hvar), field_get _ _ _ _ hvar]

/-! ### C126 exchanged axes -/

private theorem get_exchange (t : Dir) (q : HState ℝ) {v : ℕ} (hv : v < 5) :
    (exchangeState t q).get (exchangeVar t v) = q.get v := by
  interval_cases v <;> cases t <;> rfl

private theorem gfield_exchange {t : Dir} (ht : CanExchange d3 t) (h : ExchangedGravity d3 P t
    (fun c v => m (c.at aG v)) (fun c v => n (c.at aG v))) {c : Cell} (hc : P.box d3 c) :
    gfield d3 n (exchangeCell t c) = exchangeState t (gfield d3 m c) := by
  have h0 := h c 0 hc (by cases d3 <;> decide)
  have h1 := h c 1 hc (by cases d3 <;> decide)
  unfold gfield
  cases d3
  · obtain rfl := ht.resolve_left (by decide)
    simp [exchangeVar] at h0 h1; simp [exchangeState, h0, h1]
  · have h2 := h c 2 hc (by decide)
    cases t <;> simp [exchangeVar] at h0 h1 h2 <;> simp [exchangeState, h0, h1, h2]

/-- **C126**: the scheme has no preferred axis: a step of the run with two axes exchanged – cell numbers and sizes,
boundary conditions, gravity – gives the result with the axes exchanged.  (In 3D with gravity, implementation 1 treats
`z` differently.) -/
theorem C126_step (h : BoxSetup d3 (hydroVars d3) 2 P B) (hv : ValidHydro d3 S) {t : Dir} (ht : CanExchange d3 t)
    (himpl : impl = 0 ∨ impl = 1) (hz : grav = true → impl = 0 ∨ t = .z)
    (r : Runs (godunov_unsplit d3 S P J impl grav dt it) m m')
    (r' : Runs (godunov_unsplit d3 (exchangeSettings t S) (exchangeGrid t P) J' impl grav dt it) n n')
    (hm : ExchangedImage d3 P t (fun c v => m (c.at (bufIn it) v)) (fun c v => n (c.at (bufIn it) v)))
    (hg : grav = true → ExchangedGravity d3 P t (fun c v => m (c.at aG v)) (fun c v => n (c.at aG v))) :
    ExchangedImage d3 P t (fun c v => m' (c.at (bufOut it) v)) (fun c v => n' (c.at (bufOut it) v)) := by
  intro i j k v hi hj hk hvar
  obtain ⟨b1, b2⟩ := cell_box h hi hj hk
  have := step_exchange h hv ht himpl hz r r' (fun c hb hin v hv => by
    obtain ⟨i, j, k, hi, hj, hk, rfl⟩ := inner_cell' h hb hin
    exact hm i j k v hi hj hk hv) (fun e c hc => gfield_exchange ht (hg e) hc) b1 b2
  beta_reduce
  rw [← field_get d3 n' (bufOut it) _ (exchangeVar_lt ht hvar), this, get_exchange t _ (vars_le d3 hvar),
    field_get _ _ _ _ hvar]

end step

/-! ### Files -/

section files
variable {C : HydroConf ℝ} {B : Sides} {D : Domain ℝ} {Q : HydroProblem ℝ}

/-- **C124**: in a closed box without gravity, every file has the mass, energy and momentum along the axes without walls of
the first. -/
theorem C124_files (hC : C.Ok B) (hg : C.grav = false) (hS : WallSolver C.d3 C.S B) {s : HydroState ℝ}
    (hm : C.Main D Q (some s)) {x0 : Snapshot (Cell → ℕ → ℝ) ℝ} (hx0 : s.files.head? = some x0) :
    ∀ x ∈ s.files, ∀ v < hydroVars C.d3, Closed C.d3 B v → fileTotal C.d3 C.P x v = fileTotal C.d3 C.P x0 v := by
  obtain ⟨s0, r, hs, hl, e⟩ := hm
  intro x hx v hv hB
  refine run_files (I := fun d => interiorSum C.d3 C.P (fun c => d c v) = fileTotal C.d3 C.P x0 v)
    (G := fun _ => True) (fun J dt it m m' hr _ hi => ⟨trivial, ?_⟩) hs (fun _ _ => trivial) hl e.symm hx0 rfl x hx
  rw [← hi]
  rw [hg] at hr
  rw [← bufOut_eq]
  exact C124_closed_box hC.box hC.valid hC.gas hC.impl hS hr v hv hB

/-- The gravity field after a step. -/
private theorem gravity_kept (hC : C.Ok B) {J : Junk ℝ} {dt : ℝ} {it : ℕ} {m m' : Addr → ℝ}
    (hr : Runs (godunov_unsplit C.d3 C.S C.P J C.impl C.grav dt it) m m') (c : Cell) (v : ℕ) :
    m' (c.at aG v) = m (c.at aG v) :=
  (C58_hydro_preserves hC.box hC.impl hr).2.1 _ rfl

/-- **C125**: a run that is its own mirror image at the beginning – same boundary conditions on both sides, symmetric
gravity, symmetric first file – is so for ever: all files are symmetric. -/
theorem C125_files (hC : C.Ok B) (hS : C.S.riemann ≠ .approx) {a : Dir} (ha : C.d3 = true ∨ a ≠ .z)
    (hz : C.grav = true → C.impl = 0 ∨ a ≠ .z) (hP : flipGrid a C.P = C.P)
    (hg : C.grav = true → ∀ m, Runs (hydroSetup C.d3 C.S C.P D Q) (fun _ => 0) m →
      MirrorGravity C.d3 C.P a (fun c v => m (c.at aG v)) (fun c v => m (c.at aG v)))
    {s : HydroState ℝ} (hm : C.Main D Q (some s)) {x0 : Snapshot (Cell → ℕ → ℝ) ℝ} (hx0 : s.files.head? = some x0)
    (h0 : MirrorImage C.d3 C.P a x0.data x0.data) : ∀ x ∈ s.files, MirrorImage C.d3 C.P a x.data x.data := by
  obtain ⟨s0, r, hs, hl, e⟩ := hm
  have hzero : (fun _ => ROps.lit 0 : Addr → ℝ) = fun _ => 0 := by funext _; simp [ROps.lit]
  rw [hzero] at hs
  refine run_files (I := fun d => MirrorImage C.d3 C.P a d d)
    (G := fun m => C.grav = true → MirrorGravity C.d3 C.P a (fun c v => m (c.at aG v)) (fun c v => m (c.at aG v)))
    (fun J dt it m m' hr hgm hi => ⟨fun e => ?_, ?_⟩) hs (fun m r e => hg e m r) hl e.symm hx0 h0
  · have := hgm e
    intro c v hc hv
    simp only [gravity_kept hC hr]
    exact this c v hc hv
  · rw [← bufOut_eq]
    exact C125_step hC.box hC.valid hC.gas hS ha hC.impl hz hr (hP.symm ▸ hr) hi hgm

/-- **C126**: a run that looks the same with two axes exchanged at the beginning does so for ever. -/
theorem C126_files (hC : C.Ok B) {t : Dir} (ht : CanExchange C.d3 t) (hz : C.grav = true → C.impl = 0 ∨ t = .z)
    (hP : exchangeGrid t C.P = C.P) (hs : exchangeSettings t C.S = C.S)
    (hg : C.grav = true → ∀ m, Runs (hydroSetup C.d3 C.S C.P D Q) (fun _ => 0) m →
      ExchangedGravity C.d3 C.P t (fun c v => m (c.at aG v)) (fun c v => m (c.at aG v)))
    {s : HydroState ℝ} (hm : C.Main D Q (some s)) {x0 : Snapshot (Cell → ℕ → ℝ) ℝ} (hx0 : s.files.head? = some x0)
    (h0 : ExchangedImage C.d3 C.P t x0.data x0.data) : ∀ x ∈ s.files, ExchangedImage C.d3 C.P t x.data x.data := by
  obtain ⟨s0, r, hst, hl, e⟩ := hm
  have hzero : (fun _ => ROps.lit 0 : Addr → ℝ) = fun _ => 0 := by funext _; simp [ROps.lit]
  rw [hzero] at hst
  refine run_files (I := fun d => ExchangedImage C.d3 C.P t d d)
    (G := fun m => C.grav = true → ExchangedGravity C.d3 C.P t (fun c v => m (c.at aG v)) (fun c v => m (c.at aG v)))
    (fun J dt it m m' hr hgm hi => ⟨fun e => ?_, ?_⟩) hst (fun m r e => hg e m r) hl e.symm hx0 h0
  · have := hgm e
    intro c v hc hv
    simp only [gravity_kept hC hr]
    exact this c v hc hv
  · rw [← bufOut_eq]
    exact C126_step hC.box hC.valid ht hC.impl hz hr (by rw [hP, hs]; exact hr) hi hgm

/-! ### Problems that are symmetric -/

private theorem first_is_setup (hC : C.Ok B) {s : HydroState ℝ} (hm : C.Main D Q (some s))
    {x0 : Snapshot (Cell → ℕ → ℝ) ℝ} (hx0 : s.files.head? = some x0) :
    ∃ m1, Runs (hydroSetup C.d3 C.S C.P D Q) (fun _ => 0) m1 ∧ x0.data = fun c v => m1 (c.at aU v) := by
  obtain ⟨s0, r, hs, hl, e⟩ := hm
  by_cases ho : C.ctl.nOutput = 0
  · rw [no_files hs hl e.symm ho] at hx0; cases hx0
  obtain ⟨s1, rfl, rfl⟩ := Option.map_eq_some_iff.1 e.symm
  have hzero : (fun _ => ROps.lit 0 : Addr → ℝ) = fun _ => 0 := by funext _; simp [ROps.lit]
  rw [← hzero]
  obtain ⟨m1, hr, h1⟩ := first_file hs hl rfl ho
  rw [hx0, Option.some.injEq] at h1
  exact ⟨m1, hr, by rw [h1]⟩

/-- Gravity is off and does not matter. -/
private theorem no_gravity {p : Prop} (h : C.grav = false) : C.grav = true → p := by
  rw [h]; intro e; cases e

/-- **C125**: a problem without gravity whose gas is symmetric stays symmetric. -/
theorem C125_symmetric_gas (hC : C.Ok B) (hg : C.grav = false) (hS : C.S.riemann ≠ .approx) {a : Dir}
    (ha : C.d3 = true ∨ a ≠ .z) (hP : flipGrid a C.P = C.P) (hD : Alone D) {G : ℝ → ℝ → ℝ → PointGas}
    (hQ : ∀ m, Runs (hydroSetup C.d3 C.S C.P D Q) (fun _ => 0) m → Samples C.d3 C.S C.P D m G)
    (hG : MirrorGas C.S C.P D a G) {s : HydroState ℝ} (hm : C.Main D Q (some s)) :
    ∀ x ∈ s.files, MirrorImage C.d3 C.P a x.data x.data := by
  cases hf : s.files with
  | nil => simp
  | cons x0 l =>
    rw [← hf]
    have hx0 : s.files.head? = some x0 := by rw [hf]; rfl
    obtain ⟨m1, hr, e⟩ := first_is_setup hC hm hx0
    refine C125_files hC hS ha (no_gravity hg) hP (no_gravity hg) hm hx0 ?_
    rw [e]
    intro i j k v hi hj hk hv
    obtain ⟨e1, e2, e3⟩ := hD
    have hnx := hC.box.nx
    have hny := hC.box.ny
    have S0 := hQ m1 hr aU (Or.inl rfl) i j k hi hj hk
    have hv5 := vars_le _ hv
    have key : ∀ i' j' k', i' < C.P.nx.toNat → j' < C.P.ny.toNat → k' < depth C.d3 C.P →
        mirrored C.P a (cell C.d3 C.P i j k) = cell C.d3 C.P i' j' k' →
        G (centre D.xmin C.S.dx C.P.nx D.i_mpi i') (centre D.ymin C.S.dy C.P.ny D.j_mpi j')
          (centre D.zmin C.S.dz C.P.nz D.k_mpi k') =
          (match a with
          | .x => fun g : PointGas => { g with u := -g.u }
          | .y => fun g => { g with v := -g.v }
          | .z => fun g => { g with w := -g.w })
          (G (centre D.xmin C.S.dx C.P.nx D.i_mpi i) (centre D.ymin C.S.dy C.P.ny D.j_mpi j)
            (centre D.zmin C.S.dz C.P.nz D.k_mpi k)) →
        m1 ((mirrored C.P a (cell C.d3 C.P i j k)).at aU v) =
          if v = 2 + axis a then -m1 ((cell C.d3 C.P i j k).at aU v) else m1 ((cell C.d3 C.P i j k).at aU v) := by
      intro i' j' k' hi' hj' hk' ec eg
      have S1 := hQ m1 hr aU (Or.inl rfl) i' j' k' hi' hj' hk'
      rw [eg] at S1
      rw [ec]
      obtain ⟨a0, a1, a2, a3, a4⟩ := S0
      obtain ⟨b0, b1, b2, b3, b4⟩ := S1
      simp only [initialAt, PointGas.conserved] at a0 a1 a2 a3 a4 b0 b1 b2 b3 b4
      have h4 : v = 4 → C.d3 = true := by
        intro e; subst e; revert hv; cases C.d3 <;> simp [hydroVars]
      have hA : ∀ c : Cell, ∀ v, c.at aU v = ⟨aU, c.i, c.j, c.k, v⟩ := fun _ _ => rfl
      simp only [hA]
      interval_cases v
      · rw [a0, b0]; cases a <;> simp [axis]
      · rw [a1, b1]; cases a <;> simp [axis]
      · rw [a2, b2]; cases a <;> simp [axis]
      · rw [a3, b3]; cases a <;> simp [axis]
      · rw [a4 (h4 rfl), b4 (h4 rfl)]; cases a <;> simp [axis]
    have hgw := hC.box.gw
    cases a with
    | x =>
      refine key (C.P.nx.toNat - 1 - i) j k (by omega) hj hk ?_ ?_
      · simp only [mirrored, cell, Cell.mk.injEq, and_true]; omega
      · have := hG (centre D.xmin C.S.dx C.P.nx D.i_mpi i) (centre D.ymin C.S.dy C.P.ny D.j_mpi j)
          (centre D.zmin C.S.dz C.P.nz D.k_mpi k)
        refine Eq.trans ?_ this
        congr 1
        have hc : (((C.P.nx.toNat - 1 - i : ℕ) : ℤ) : ℝ) = C.P.nx - 1 - i := by
          have : ((C.P.nx.toNat - 1 - i : ℕ) : ℤ) = C.P.nx - 1 - i := by omega
          rw [this]; push_cast; ring
        simp only [centre, e1, zero_mul, zero_add, hc]
        push_cast; ring
    | y =>
      refine key i (C.P.ny.toNat - 1 - j) k hi (by omega) hk ?_ ?_
      · simp only [mirrored, cell, Cell.mk.injEq, and_true, true_and]; omega
      · have := hG (centre D.xmin C.S.dx C.P.nx D.i_mpi i) (centre D.ymin C.S.dy C.P.ny D.j_mpi j)
          (centre D.zmin C.S.dz C.P.nz D.k_mpi k)
        refine Eq.trans ?_ this
        congr 1
        have hc : (((C.P.ny.toNat - 1 - j : ℕ) : ℤ) : ℝ) = C.P.ny - 1 - j := by
          have : ((C.P.ny.toNat - 1 - j : ℕ) : ℤ) = C.P.ny - 1 - j := by omega
          rw [this]; push_cast; ring
        simp only [centre, e2, zero_mul, zero_add, hc]
        push_cast; ring
    | z =>
      have h3 : C.d3 = true := ha.resolve_right (by simp)
      have hk2 : k < C.P.nz.toNat := by simpa [depth, h3] using hk
      refine key i j (C.P.nz.toNat - 1 - k) hi hj (by simp [depth, h3]; omega) ?_ ?_
      · simp only [mirrored, cell, h3, if_true, Cell.mk.injEq, true_and]; omega
      · have := hG (centre D.xmin C.S.dx C.P.nx D.i_mpi i) (centre D.ymin C.S.dy C.P.ny D.j_mpi j)
          (centre D.zmin C.S.dz C.P.nz D.k_mpi k)
        refine Eq.trans ?_ this
        congr 1
        have hc : (((C.P.nz.toNat - 1 - k : ℕ) : ℤ) : ℝ) = C.P.nz - 1 - k := by
          have : ((C.P.nz.toNat - 1 - k : ℕ) : ℤ) = C.P.nz - 1 - k := by omega
          rw [this]; push_cast; ring
        simp only [centre, e3, zero_mul, zero_add, hc]
        push_cast; ring

/-- **C126**: a problem without gravity whose gas looks the same with the axes exchanged goes on doing so, on a domain and
grid that do. -/
theorem C126_symmetric_gas (hC : C.Ok B) (hg : C.grav = false) {t : Dir} (ht : CanExchange C.d3 t)
    (hP : exchangeGrid t C.P = C.P) (hs : exchangeSettings t C.S = C.S) (hD : Alone D) (hO : SameOrigin t D)
    {G : ℝ → ℝ → ℝ → PointGas}
    (hQ : ∀ m, Runs (hydroSetup C.d3 C.S C.P D Q) (fun _ => 0) m → Samples C.d3 C.S C.P D m G)
    (hG : ExchangedGas t G) {s : HydroState ℝ} (hm : C.Main D Q (some s)) :
    ∀ x ∈ s.files, ExchangedImage C.d3 C.P t x.data x.data := by
  cases hf : s.files with
  | nil => simp
  | cons x0 l =>
    rw [← hf]
    have hx0 : s.files.head? = some x0 := by rw [hf]; rfl
    obtain ⟨m1, hr, e⟩ := first_is_setup hC hm hx0
    refine C126_files hC ht (no_gravity hg) hP hs (no_gravity hg) hm hx0 ?_
    rw [e]
    intro i j k v hi hj hk hv
    obtain ⟨e1, e2, e3⟩ := hD
    have S0 := hQ m1 hr aU (Or.inl rfl) i j k hi hj hk
    have hv5 := vars_le _ hv
    have key : ∀ i' j' k', i' < C.P.nx.toNat → j' < C.P.ny.toNat → k' < depth C.d3 C.P →
        exchangeCell t (cell C.d3 C.P i j k) = cell C.d3 C.P i' j' k' →
        G (centre D.xmin C.S.dx C.P.nx D.i_mpi i') (centre D.ymin C.S.dy C.P.ny D.j_mpi j')
          (centre D.zmin C.S.dz C.P.nz D.k_mpi k') =
          (match t with
          | .z => fun g : PointGas => { g with u := g.v, v := g.u }
          | .y => fun g => { g with u := g.w, w := g.u }
          | .x => fun g => { g with v := g.w, w := g.v })
          (G (centre D.xmin C.S.dx C.P.nx D.i_mpi i) (centre D.ymin C.S.dy C.P.ny D.j_mpi j)
            (centre D.zmin C.S.dz C.P.nz D.k_mpi k)) →
        m1 ((exchangeCell t (cell C.d3 C.P i j k)).at aU (exchangeVar t v)) =
          m1 ((cell C.d3 C.P i j k).at aU v) := by
      intro i' j' k' hi' hj' hk' ec eg
      have S1 := hQ m1 hr aU (Or.inl rfl) i' j' k' hi' hj' hk'
      rw [eg] at S1
      rw [ec]
      obtain ⟨a0, a1, a2, a3, a4⟩ := S0
      obtain ⟨b0, b1, b2, b3, b4⟩ := S1
      simp only [initialAt, PointGas.conserved] at a0 a1 a2 a3 a4 b0 b1 b2 b3 b4
      have h4 : v = 4 → C.d3 = true := by
        intro e; subst e; revert hv; cases C.d3 <;> simp [hydroVars]
      have ht' : t ≠ .z → C.d3 = true := fun h => ht.resolve_right h
      have hA : ∀ c : Cell, ∀ v, c.at aU v = ⟨aU, c.i, c.j, c.k, v⟩ := fun _ _ => rfl
      simp only [hA]
      cases t
      · have a4 := a4 (ht' (by simp))
        have b4 := b4 (ht' (by simp))
        interval_cases v
        · exact b0.trans a0.symm
        · refine b1.trans (Eq.trans ?_ a1.symm); ring
        · exact b2.trans a2.symm
        · exact b4.trans a3.symm
        · exact b3.trans a4.symm
      · have a4 := a4 (ht' (by simp))
        have b4 := b4 (ht' (by simp))
        interval_cases v
        · exact b0.trans a0.symm
        · refine b1.trans (Eq.trans ?_ a1.symm); ring
        · exact b4.trans a2.symm
        · exact b3.trans a3.symm
        · exact b2.trans a4.symm
      · interval_cases v
        · exact b0.trans a0.symm
        · refine b1.trans (Eq.trans ?_ a1.symm); ring
        · exact b3.trans a2.symm
        · exact b2.trans a3.symm
        · exact (b4 (h4 rfl)).trans (a4 (h4 rfl)).symm
    have hG' := hG (centre D.xmin C.S.dx C.P.nx D.i_mpi i) (centre D.ymin C.S.dy C.P.ny D.j_mpi j)
      (centre D.zmin C.S.dz C.P.nz D.k_mpi k)
    rw [e1, e2, e3] at key
    simp only [e1, e2, e3] at hG'
    cases t
    · have h3 : C.d3 = true := ht.resolve_right (by simp)
      have q1 : C.P.nz = C.P.ny := congrArg Grid.ny hP
      have q2 : C.S.dz = C.S.dy := congrArg Settings.dy hs
      have hk2 : k < C.P.nz.toNat := by simpa [depth, h3] using hk
      simp only [SameOrigin] at hO
      refine key i k j hi (by omega) (by simp [depth, h3]; omega) (by simp [exchangeCell, cell, h3]) ?_
      rw [q1, q2, hO] at hG' ⊢
      exact hG'
    · have h3 : C.d3 = true := ht.resolve_right (by simp)
      have q1 : C.P.nz = C.P.nx := congrArg Grid.nx hP
      have q2 : C.S.dz = C.S.dx := congrArg Settings.dx hs
      have hk2 : k < C.P.nz.toNat := by simpa [depth, h3] using hk
      simp only [SameOrigin] at hO
      refine key k j i (by omega) hj (by simp [depth, h3]; omega) (by simp [exchangeCell, cell, h3]) ?_
      rw [q1, q2, hO] at hG' ⊢
      exact hG'
    · have q1 : C.P.ny = C.P.nx := congrArg Grid.nx hP
      have q2 : C.S.dy = C.S.dx := congrArg Settings.dx hs
      simp only [SameOrigin] at hO
      refine key j i k (by omega) (by omega) hk (by simp [exchangeCell, cell]) ?_
      rw [q1, q2, hO] at hG' ⊢
      exact hG'

/-- **C125**: a blast in the middle of the domain is symmetric in all files. -/
theorem C125_blast {p : BlastParams ℝ} (hC : C.Ok B) (hg : C.grav = false) (hS : C.S.riemann ≠ .approx) {a : Dir}
    (ha : C.d3 = true ∨ a ≠ .z) (hP : flipGrid a C.P = C.P) (hD : Alone D) (hr : 0 ≤ p.blast_radius)
    (hp : match a with
      | .x => 2 * p.blast_center_x = 2 * D.xmin + C.P.nx * C.S.dx
      | .y => 2 * p.blast_center_y = 2 * D.ymin + C.P.ny * C.S.dy
      | .z => 2 * p.blast_center_z = 2 * D.zmin + C.P.nz * C.S.dz)
    {s : HydroState ℝ} (hm : C.Main D (.blast p) (some s)) :
    ∀ x ∈ s.files, MirrorImage C.d3 C.P a x.data x.data := by
  refine C125_symmetric_gas hC hg hS ha hP hD (fun m r => C102_blast hC.box r hr) (fun x y z => ?_) hm
  cases a
  · simp only at hp ⊢
    unfold blastGas
    rw [show (2 * D.xmin + C.P.nx * C.S.dx - x - p.blast_center_x) ^ 2 = (x - p.blast_center_x) ^ 2 by
      rw [← hp]; ring]
    split_ifs <;> simp
  · simp only at hp ⊢
    unfold blastGas
    rw [show (2 * D.ymin + C.P.ny * C.S.dy - y - p.blast_center_y) ^ 2 = (y - p.blast_center_y) ^ 2 by
      rw [← hp]; ring]
    split_ifs <;> simp
  · simp only at hp ⊢
    unfold blastGas
    rw [show (2 * D.zmin + C.P.nz * C.S.dz - z - p.blast_center_z) ^ 2 = (z - p.blast_center_z) ^ 2 by
      rw [← hp]; ring]
    split_ifs <;> simp

/-- **C126**: the implosion (`shape ≠ 1`, equal velocities along `x` and `y`) on a square grid stays symmetric about the
diagonal. -/
theorem C126_implode {p : ImplodeParams ℝ} (hC : C.Ok B) (hg : C.grav = false)
    (hP : exchangeGrid .z C.P = C.P) (hs : exchangeSettings .z C.S = C.S) (hD : Alone D) (hO : SameOrigin .z D)
    (hp : p.shape ≠ 1) (hout : p.u_out = p.v_out) (hin : p.u_in = p.v_in)
    (h1 : p.rho_out = 1 ∨ (p.u_out = 0 ∧ p.v_out = 0 ∧ (C.d3 = true → p.w_out = 0)))
    (h2 : p.rho_in = 1 ∨ (p.u_in = 0 ∧ p.v_in = 0 ∧ (C.d3 = true → p.w_in = 0)))
    {s : HydroState ℝ} (hm : C.Main D (.implode p) (some s)) :
    ∀ x ∈ s.files, ExchangedImage C.d3 C.P .z x.data x.data := by
  refine C126_symmetric_gas hC hg (Or.inr rfl) hP hs hD hO (fun m r => C102_implode hC.box r h1 h2)
    (fun x y z => ?_) hm
  simp only
  unfold implodeGas
  simp only [hp, if_false, add_comm y x]
  split_ifs <;> simp [hout, hin]

end files

/-! ### The premises are met -/

/-- The unit cube, or square, on three cells. -/
def cubicDomain : Domain ℝ := ⟨0, 3, 0, 3, 0, 3, 0, 0, 0⟩

example : ∃ s, (wallConf true .reflecting 1).Main cubicDomain (.blast ⟨1, 3/2, 3/2, 3/2, 1, 10, 1, 1/10⟩) (some s) ∧
    ∃ x0, s.files.head? = some x0 ∧
    ∀ x ∈ s.files, fileTotal true (cubicBox true .reflecting) x 0 = fileTotal true (cubicBox true .reflecting) x0 0 ∧
      ∀ a, MirrorImage true (cubicBox true .reflecting) a x.data x.data := by
  have hC := wallConf_ok true .reflecting (impl := 1) (Or.inr rfl)
  obtain ⟨⟨s, hs⟩, -⟩ := C117_same_files (D := cubicDomain)
    (Q := .blast ⟨1, 3/2, 3/2, 3/2, 1, 10, 1, 1/10⟩) hC (by simp [wallConf]) (fun h => h.elim)
  obtain ⟨⟨m1, -, h1⟩, -⟩ := (C117_outputs hC (by norm_num [wallConf, wallSettings, exampleSettings])
    (by norm_num [wallConf]) hs).2 (by simp [wallConf])
  refine ⟨s, hs, _, h1, fun x hx => ⟨?_, fun a => ?_⟩⟩
  · exact C124_files hC rfl (fun _ _ _ => by simp [wallConf, wallSettings]) hs h1 x hx 0 (by simp [wallConf, hydroVars])
      (fun d _ => Or.inr (by cases d <;> simp [lowBC, highBC, Sides.all, axis]))
  · refine C125_blast hC rfl (by simp [wallConf, wallSettings]) (Or.inl rfl) (by cases a <;> rfl) ⟨rfl, rfl, rfl⟩
      (by norm_num) ?_ hs x hx
    cases a <;> norm_num [cubicDomain, wallConf, cubicBox, wallSettings, exampleSettings]

example : ∃ s, (wallConf false .reflecting 0).Main cubicDomain
      (.implode ⟨1, 1, 0, 0, 0, 0, 0, 0, 1/8, 14/100, 0, 0, 0, 0, 0, 0, 0⟩) (some s) ∧
    ∀ x ∈ s.files, ExchangedImage false (cubicBox false .reflecting) .z x.data x.data := by
  have hC := wallConf_ok false .reflecting (impl := 0) (Or.inl rfl)
  obtain ⟨⟨s, hs⟩, -⟩ := C117_same_files (D := cubicDomain)
    (Q := .implode ⟨1, 1, 0, 0, 0, 0, 0, 0, 1/8, 14/100, 0, 0, 0, 0, 0, 0, 0⟩) hC (by simp [wallConf]) (fun h => h.elim)
  exact ⟨s, hs, C126_implode (D := cubicDomain) hC rfl rfl rfl ⟨rfl, rfl, rfl⟩ rfl (by decide) rfl rfl
    (Or.inl rfl) (Or.inr ⟨rfl, rfl, fun _ => rfl⟩) hs⟩

end Verif
