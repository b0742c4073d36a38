import Verif.Props.C74_C75_MoodBalance

/-!
# C74, C75 in three dimensions: the lower sides

In three dimensions the polynomials of the ghost layer next to the lower sides are never computed
(`src/mood/MoodPolynomialReconstructionFunctors.h:164-165`), but the fluxes through the lower sides
use them (`src/mood/MoodFluxesFunctors.h:397-418`).  They keep the zeros of the allocation, so the
gas sees a vacuum behind the lower sides.
-/

namespace Verif.Mood

open Verif Spec ROps Finset

variable {M : Scheme ℝ} {S : Settings ℝ} {P : Grid} {B : Sides}
  {lay : Layout} {J : ℕ → MoodJunk ℝ} {dt : ℝ} {it : Nat} {m m' : Addr → ℝ}

/-- Gas at rest with density `ρ` and pressure `p`, conserved variables. -/
noncomputable def restGas (S : Settings ℝ) (ρ p : ℝ) : HState ℝ :=
  ⟨ρ, p / (S.gamma0 - 1), 0, 0, 0⟩

theorem restGas_prim (hS : GasParams S) {ρ p : ℝ} (hρ : S.smallr ≤ ρ) (hp : ρ * S.smallp ≤ p) :
    (computePrimitives true S (restGas S ρ p)).1 = ⟨ρ, p, 0, 0, 0⟩ := by
  have hr := hS.smallr
  have hG := hS.gamma
  have e1 : max ρ S.smallr = ρ := max_eq_left hρ
  have hρ0 : ρ ≠ 0 := by linarith
  have hG0 : S.gamma0 - 1 ≠ 0 := by linarith
  have e2 : (S.gamma0 - 1) * ρ * (p / (S.gamma0 - 1) / ρ -
      1 / 2 * (0 / ρ * (0 / ρ) + 0 / ρ * (0 / ρ) + 0 / ρ * (0 / ρ))) = p := by
    field_simp
    ring
  simp only [restGas, computePrimitives, if_true]
  rops
  rw [e1, e2, max_eq_left hp]
  simp

theorem zero_prim (hS : GasParams S) :
    (computePrimitives true S HState.zero).1 = ⟨S.smallr, S.smallr * S.smallp, 0, 0, 0⟩ := by
  have hr := hS.smallr
  have := mul_pos hr hS.smallp
  simp only [HState.zero, computePrimitives, if_true]
  rops
  rw [max_eq_right hr.le]
  simp
  exact this.le

/-- Mass flux of the local Lax-Friedrichs solver between vacuum at the floors and gas at rest. -/
theorem llf_vacuum (hS : GasParams S) {ρ p : ℝ} (hρ : S.smallr ≤ ρ) (hp : ρ * S.smallp ≤ p)
    (d : Dir) :
    (riemann_llf true S ((computePrimitives true S HState.zero).1.swap d)
      ((computePrimitives true S (restGas S ρ p)).1.swap d)).d =
      -(1 / 2 * Real.sqrt (S.gamma0 * p / ρ) * (ρ - S.smallr)) := by
  have hr := hS.smallr
  have hG := hS.gamma
  have hρ0 : 0 < ρ := by linarith
  rw [zero_prim hS, restGas_prim hS hρ hp]
  have e1 : ((⟨S.smallr, S.smallr * S.smallp, 0, 0, 0⟩ : HState ℝ).swap d) =
      ⟨S.smallr, S.smallr * S.smallp, 0, 0, 0⟩ := by cases d <;> rfl
  have e2 : ((⟨ρ, p, 0, 0, 0⟩ : HState ℝ).swap d) = ⟨ρ, p, 0, 0, 0⟩ := by cases d <;> rfl
  rw [e1, e2]
  simp only [riemann_llf, llfFlux, llfCons, if_true]
  rops
  rw [max_eq_left hρ, max_eq_left hp, max_self, max_self]
  have e3 : Real.sqrt (S.gamma0 * (S.smallr * S.smallp) / S.smallr) ≤
      Real.sqrt (S.gamma0 * p / ρ) := by
    refine Real.sqrt_le_sqrt ?_
    rw [div_le_div_iff₀ hr hρ0]
    have h1 : S.smallr * S.smallp * ρ ≤ p * S.smallr := by nlinarith
    have h2 : 0 ≤ S.gamma0 := by linarith
    nlinarith [mul_le_mul_of_nonneg_left h1 h2]
  rw [abs_zero, zero_add, zero_add, max_eq_right e3]
  ring

/-- The unscaled mean flux out of vacuum. -/
theorem meanFlux_vacuum (hM : M.Genuine) (h3 : M.d3 = true) (hl : S.riemann = .llf)
    (junk : ℕ → HState ℝ) (d : Dir) (u : HState ℝ) {cn : ℕ → HState ℝ}
    (hn : ∀ i, cn i = HState.zero) (hu : u.norm M.d3 = u) :
    meanFlux M S junk d cn (constCoefs M u) =
      ((riemann_llf true S ((computePrimitives true S HState.zero).1.swap d)
        ((computePrimitives true S u).1.swap d)).norm M.d3).swap d := by
  have hz : (HState.zero : HState ℝ).norm M.d3 = HState.zero := by rw [h3]; rfl
  refine meanFlux_const _ _ _ _ _ fun iq => ?_
  have s1 : sideState M S d true iq cn = HState.zero := by
    rw [sideState_const (u := HState.zero) hM (by rw [hn, hz]) (fun i => hn _), hz]
  have s2 : sideState M S d false iq (constCoefs M u) = u := by rw [constCoefs_side hM, hu]
  have e0 : constCoefs M u 0 = u := by simp [constCoefs, hu]
  have e : faceStates M S d iq cn (constCoefs M u) = (HState.zero, u) := by
    unfold faceStates
    simp only [s1, s2, hn, e0, h3]
    simp
  rw [e]
  unfold pointFlux riemann_hydro
  rw [h3, hl]
  rfl

/-- Mass that leaves through the lower sides of a cell, as a fraction. -/
noncomputable def lostFraction (S : Settings ℝ) (dt : ℝ) (i j k : ℕ) : ℝ :=
  (if i = 0 then dt / S.dx else 0) + (if j = 0 then dt / S.dy else 0) +
    (if k = 0 then dt / S.dy else 0)

/-- Set-up of the counterexample: three dimensions, local Lax-Friedrichs, gas at rest above the
floors, time step within the stability limit, polynomials of the lower ghost layers as allocated. -/
structure RestRun (M : Scheme ℝ) (S : Settings ℝ) (P : Grid) (B : Sides) (dt ρ p : ℝ)
    (m : Addr → ℝ) (U : Nat) : Prop where
  setup : MoodSetup M P B
  genuine : M.Genuine
  id : M.id ≠ .d3deg4
  d3 : M.d3 = true
  llf : S.riemann = .llf
  gas : GasParams S
  x : B.xlo ≠ .reflecting ∧ B.xhi ≠ .reflecting
  y : B.ylo ≠ .reflecting ∧ B.yhi ≠ .reflecting
  z : B.zlo ≠ .reflecting ∧ B.zhi ≠ .reflecting
  dx : 0 < S.dx
  dy : 0 < S.dy
  dt_pos : 0 < dt
  cfl : Real.sqrt (S.gamma0 * p / ρ) * (dt / S.dx + 2 * (dt / S.dy)) ≤ 2
  dense : S.smallr < ρ
  warm : ρ * S.smallp ≤ p
  state : ∀ i j k v, i < P.nx.toNat → j < P.ny.toNat → k < depth M.d3 P → v < P.nbvar →
    m ((cell M.d3 P i j k).at U v) = (restGas S ρ p).get v
  polys : ∀ ip c v, ip < M.ncoefs → P.box M.d3 c →
    (c.i < P.ghostWidth ∨ c.j < P.ghostWidth ∨ c.k < P.ghostWidth) → v < P.nbvar →
    m (c.at (aPoly ip) v) = 0

section
variable {ρ p : ℝ} {U : Nat}

theorem RestRun.valid (R : RestRun M S P B dt ρ p m U) : ValidMood M S :=
  ⟨R.id, by rw [R.llf]; decide, fun _ => by rw [R.llf]; decide⟩

theorem RestRun.fill (R : RestRun M S P B dt ρ p m U) :
    ∀ c, P.box M.d3 c → fillF M.d3 P B (field M.d3 m U) c = restGas S ρ p :=
  uniform_fill R.setup R.x R.y (fun _ => R.z) _ (by rw [R.d3]; rfl) R.state

/-- Index of an interior cell in direction `d`. -/
def idx (d : Dir) (i j k : ℕ) : ℕ := match d with | .x => i | .y => j | .z => k

/-- Mass fluxes around an interior cell. -/
theorem RestRun.flux (R : RestRun M S P B dt ρ p m U) {J : MoodJunk ℝ} {i j k : ℕ}
    (hi : i < P.nx.toNat) (hj : j < P.ny.toNat) (hk : k < depth M.d3 P) (d : Dir) :
    (flux0 M S P J dt (Mood.polys M.d3 m) (fillF M.d3 P B (field M.d3 m U)) d
      (cell M.d3 P i j k)).d = (if idx d i j k = 0 then
        -(1 / 2 * Real.sqrt (S.gamma0 * p / ρ) * (ρ - S.smallr)) * fluxFactor S dt d else 0) ∧
    (flux0 M S P J dt (Mood.polys M.d3 m) (fillF M.d3 P B (field M.d3 m U)) d
      ((cell M.d3 P i j k).up d)).d = 0 := by
  have hok := R.setup.stage
  have hg : 1 ≤ P.ghostWidth := by have := hok.gw2; omega
  obtain ⟨hb, hin⟩ := mood_cell_box R.setup hi hj hk
  have hd : d.ok M.d3 := Or.inl R.d3
  have hbd := inner_down_box hg hd hb hin
  have hud : ((cell M.d3 P i j k).up d).down d = cell M.d3 P i j k := by
    cases d <;> ext <;> simp [Cell.up, Cell.down]
  have phys : (physFlux M.d3 S d (restGas S ρ p)).d = 0 := by
    unfold physFlux
    rw [R.d3, restGas_prim R.gas R.dense.le R.warm]
    cases d <;> simp [HState.swap, eulerFlux]
  have sc : ∀ (q : HState ℝ) (s : ℝ), (q.scale M.d3 s).d = q.d * s := fun q s => rfl
  have hn : (restGas S ρ p).norm M.d3 = restGas S ρ p := by rw [R.d3]; rfl
  refine ⟨?_, ?_⟩
  · split
    · next h0 =>
      have out : (((cell M.d3 P i j k).down d).i < P.ghostWidth ∨
          ((cell M.d3 P i j k).down d).j < P.ghostWidth ∨
          ((cell M.d3 P i j k).down d).k < P.ghostWidth) := by
        rw [R.d3]
        cases d <;> simp only [idx] at h0 <;> subst h0 <;> simp [cell, Cell.down]
      have nr : ¬ reconRegion M.d3 P ((cell M.d3 P i j k).down d) := by
        rw [R.d3] at out ⊢
        unfold reconRegion
        simp only [if_true]
        omega
      have cn : ∀ ip, polyAt M P J (fillF M.d3 P B (field M.d3 m U)) (Mood.polys M.d3 m)
          ((cell M.d3 P i j k).down d) ip = HState.zero := by
        intro ip
        unfold polyAt
        by_cases hip : ip < M.ncoefs
        · rw [if_pos hip, if_neg nr]
          refine state_ext (d3 := M.d3) (field_norm ..) (by rw [R.d3]; rfl) fun v hv => ?_
          unfold Mood.polys
          rw [field_get _ _ _ _ hv, R.polys ip _ v hip hbd out (by rw [R.setup.nv]; exact hv)]
          rw [R.d3] at hv
          have : v = 0 ∨ v = 1 ∨ v = 2 ∨ v = 3 ∨ v = 4 := by simp [hydroVars] at hv; omega
          rcases this with rfl | rfl | rfl | rfl | rfl <;> simp [HState.get, HState.zero, lit]
        · rw [if_neg hip]
      unfold flux0 storedFlux
      rw [polyAt_uniform hok R.id R.fill hb (inner_recon hin),
        meanFlux_vacuum R.genuine R.d3 R.llf _ _ _ cn hn, sc]
      have : ∀ q : HState ℝ, ((q.norm M.d3).swap d).d = q.d := by
        intro q; rw [R.d3]; cases d <;> rfl
      rw [this, llf_vacuum R.gas R.dense.le R.warm]
    · next h0 =>
      have hr : reconRegion M.d3 P ((cell M.d3 P i j k).down d) := by
        refine inner_recon ?_
        rw [inner_iff] at hin ⊢
        rw [R.d3] at hin ⊢
        have := hin.1 rfl
        obtain ⟨-, h2, h3, h4, h5⟩ := hin
        cases d <;> simp only [idx, cell, Cell.down, if_true, forall_true_left] at * <;> omega
      rw [flux0_uniform hok R.genuine R.valid R.gas R.fill hb hbd (inner_recon hin) hr, sc, phys,
        zero_mul]
  · rw [flux0_uniform hok R.genuine R.valid R.gas R.fill (inner_up_box hg hd hb hin)
      (by rw [hud]; exact hb) (inner_recon_up d hin) (by rw [hud]; exact inner_recon hin), sc, phys,
      zero_mul]

theorem lostFraction_le (R : RestRun M S P B dt ρ p m U) (i j k : ℕ) :
    0 ≤ lostFraction S dt i j k ∧ lostFraction S dt i j k ≤ dt / S.dx + 2 * (dt / S.dy) := by
  have h1 := div_pos R.dt_pos R.dx
  have h2 := div_pos R.dt_pos R.dy
  unfold lostFraction
  constructor <;> split <;> split <;> split <;> linarith

/-- Sum of the mass fluxes into a cell before the correction. -/
theorem RestRun.sum (R : RestRun M S P B dt ρ p m U) {J : MoodJunk ℝ} {i j k : ℕ}
    (hi : i < P.nx.toNat) (hj : j < P.ny.toNat) (hk : k < depth M.d3 P) :
    (accFluxes M.d3 (restGas S ρ p) (fluxPairs M.d3 (flux0 M S P J dt (Mood.polys M.d3 m)
      (fillF M.d3 P B (field M.d3 m U))) (cell M.d3 P i j k))).d =
    ρ - 1 / 2 * Real.sqrt (S.gamma0 * p / ρ) * (ρ - S.smallr) * lostFraction S dt i j k := by
  have e := accPairs_get M.d3 (flux0 M S P J dt (Mood.polys M.d3 m)
    (fillF M.d3 P B (field M.d3 m U))) (restGas S ρ p) (cell M.d3 P i j k) (v := 0)
    (by rw [R.d3]; decide)
  rw [updCell_get _ _ _ _ (by rw [R.d3]; decide), if_pos R.d3] at e
  have e' : ∀ q : HState ℝ, q.get 0 = q.d := fun _ => rfl
  simp only [e'] at e
  rw [e, (R.flux hi hj hk .x).1, (R.flux hi hj hk .x).2, (R.flux hi hj hk .y).1,
    (R.flux hi hj hk .y).2, (R.flux hi hj hk .z).1, (R.flux hi hj hk .z).2]
  simp only [idx, fluxFactor_eq, usedSpacing, lostFraction, restGas]
  split <;> split <;> split <;> ring

theorem RestRun.pos (R : RestRun M S P B dt ρ p m U) (i j k : ℕ) :
    0 ≤ ρ - 1 / 2 * Real.sqrt (S.gamma0 * p / ρ) * (ρ - S.smallr) * lostFraction S dt i j k := by
  obtain ⟨l0, l1⟩ := lostFraction_le R i j k
  have c0 : 0 ≤ Real.sqrt (S.gamma0 * p / ρ) := Real.sqrt_nonneg _
  have h1 := R.cfl
  have h2 := R.gas.smallr
  have h3 := R.dense
  have h4 : Real.sqrt (S.gamma0 * p / ρ) * lostFraction S dt i j k ≤ 2 :=
    (mul_le_mul_of_nonneg_left l1 c0).trans h1
  have h5 := mul_le_mul_of_nonneg_left h4 (by linarith : 0 ≤ ρ - S.smallr)
  nlinarith

theorem RestRun.unflagged (R : RestRun M S P B dt ρ p m U) {J : MoodJunk ℝ} {c : Cell}
    (hb : P.box M.d3 c) :
    ¬ 0 < flagAt M S P J dt (Mood.polys M.d3 m) (fillF M.d3 P B (field M.d3 m U)) c := by
  by_cases hin : P.inner M.d3 c
  · obtain ⟨i, j, k, l1, l2, l3, rfl⟩ := inner_cell hb hin
    unfold flagAt
    rw [if_pos hin, flagOf_real _ R.gas, R.fill _ hb, R.sum l1 l2 l3, if_neg]
    · exact lt_irrefl _
    · exact not_lt.2 (R.pos i j k)
  · rw [flagAt_outer hin]
    exact lt_irrefl _

/-- **C74 fails in 3D**: gas at rest does not stay uniform.  After a forward Euler step the density of
a cell is reduced by what leaks through the faces on the lower sides of the domain; inside it is
unchanged. -/
theorem C74_fails_3D (R : RestRun M S P B dt ρ p m (bufIn it))
    (r : Runs (time_integration lay M S P J dt .forward_euler it) m m') {i j k : ℕ}
    (hi : i < P.nx.toNat) (hj : j < P.ny.toNat) (hk : k < depth M.d3 P) :
    m' ((cell M.d3 P i j k).at (bufOut it) ID) =
      ρ - 1 / 2 * Real.sqrt (S.gamma0 * p / ρ) * (ρ - S.smallr) * lostFraction S dt i j k := by
  obtain ⟨q, -, -⟩ := euler_run R.setup r
  obtain ⟨hb, hin⟩ := mood_cell_box R.setup hi hj hk
  have hg : 1 ≤ P.ghostWidth := by have := R.setup.stage.gw2; omega
  have hv : ID < hydroVars M.d3 := by rw [R.d3]; decide
  rw [← field_get M.d3 m' _ _ hv, q.out _ hb hin, ← R.sum (J := J 0) hi hj hk]
  unfold eulerAt
  rw [R.fill _ hb]
  have fl : ∀ d, d.ok M.d3 → ∀ c, P.box M.d3 c → finalFlux M S P (J 0) dt (Mood.polys M.d3 m)
      (fillF M.d3 P B (field M.d3 m (bufIn it))) d c = flux0 M S P (J 0) dt (Mood.polys M.d3 m)
      (fillF M.d3 P B (field M.d3 m (bufIn it))) d c :=
    fun d _ c hb => finalFlux_unflagged (R.unflagged hb)
  have o : ∀ d : Dir, d.ok M.d3 := fun d => Or.inl R.d3
  have e : fluxPairs M.d3 (finalFlux M S P (J 0) dt (Mood.polys M.d3 m)
      (fillF M.d3 P B (field M.d3 m (bufIn it)))) (cell M.d3 P i j k) =
      fluxPairs M.d3 (flux0 M S P (J 0) dt (Mood.polys M.d3 m)
      (fillF M.d3 P B (field M.d3 m (bufIn it)))) (cell M.d3 P i j k) := by
    unfold fluxPairs
    rw [fl .x (o _) _ hb, fl .y (o _) _ hb, fl .z (o _) _ hb,
      fl .x (o _) _ (inner_up_box hg (o _) hb hin), fl .y (o _) _ (inner_up_box hg (o _) hb hin),
      fl .z (o _) _ (inner_up_box hg (o _) hb hin)]
  rw [e]
  rfl

/-- The loss is strict on the lower sides. -/
theorem C74_fails_3D_strict (R : RestRun M S P B dt ρ p m (bufIn it))
    (r : Runs (time_integration lay M S P J dt .forward_euler it) m m') {i j k : ℕ}
    (hi : i < P.nx.toNat) (hj : j < P.ny.toNat) (hk : k < depth M.d3 P)
    (h0 : i = 0 ∨ j = 0 ∨ k = 0) :
    m' ((cell M.d3 P i j k).at (bufOut it) ID) < m ((cell M.d3 P i j k).at (bufIn it) ID) := by
  rw [C74_fails_3D R r hi hj hk, R.state i j k ID hi hj hk (by rw [R.setup.nv, R.d3]; decide)]
  have hρ := R.dense
  have hr := R.gas.smallr
  have hG := R.gas.gamma
  have hp : 0 < p := lt_of_lt_of_le (mul_pos (by linarith) R.gas.smallp) R.warm
  have hc : 0 < Real.sqrt (S.gamma0 * p / ρ) :=
    Real.sqrt_pos.2 (div_pos (mul_pos (by linarith) hp) (by linarith))
  have h1 := div_pos R.dt_pos R.dx
  have h2 := div_pos R.dt_pos R.dy
  have hl : 0 < lostFraction S dt i j k := by
    unfold lostFraction
    rcases h0 with rfl | rfl | rfl
    · rw [if_pos rfl]; split <;> split <;> linarith
    · rw [if_pos rfl]; split <;> split <;> linarith
    · rw [if_pos (rfl : (0 : ℕ) = 0)]; split <;> split <;> linarith
  have := mul_pos (mul_pos (mul_pos (by norm_num : (0 : ℝ) < 1 / 2) hc) (sub_pos.2 hρ)) hl
  show _ < ρ
  linarith

/-- **C75 fails in 3D**: the total mass of a gas at rest decreases, also in a periodic domain. -/
theorem C75_fails_3D (R : RestRun M S P B dt ρ p m (bufIn it))
    (r : Runs (time_integration lay M S P J dt .forward_euler it) m m') :
    total M.d3 P m' (bufOut it) ID < total M.d3 P m (bufIn it) ID := by
  have hg := R.setup.stage.gw2
  have p1 : 0 < P.nx.toNat := by have := R.setup.nx; omega
  have p2 : 0 < P.ny.toNat := by have := R.setup.ny; omega
  have p3 : 0 < depth M.d3 P := by
    have := R.setup.nz R.d3; rw [R.d3]; simp only [depth, if_true]; omega
  have le : ∀ i j k, i < P.nx.toNat → j < P.ny.toNat → k < depth M.d3 P →
      m' ((cell M.d3 P i j k).at (bufOut it) ID) ≤ m ((cell M.d3 P i j k).at (bufIn it) ID) := by
    intro i j k hi hj hk
    by_cases h0 : i = 0 ∨ j = 0 ∨ k = 0
    · exact (C74_fails_3D_strict R r hi hj hk h0).le
    · push Not at h0
      rw [C74_fails_3D R r hi hj hk, R.state i j k ID hi hj hk (by rw [R.setup.nv, R.d3]; decide)]
      unfold lostFraction
      rw [if_neg h0.1, if_neg h0.2.1, if_neg h0.2.2]
      show _ ≤ ρ
      linarith
  unfold total interiorSum
  refine sum_lt_sum (fun i hi => sum_le_sum fun j hj => sum_le_sum fun k hk =>
    le i j k (mem_range.1 hi) (mem_range.1 hj) (mem_range.1 hk)) ⟨0, mem_range.2 p1, ?_⟩
  refine sum_lt_sum (fun j hj => sum_le_sum fun k hk =>
    le 0 j k p1 (mem_range.1 hj) (mem_range.1 hk)) ⟨0, mem_range.2 p2, ?_⟩
  exact sum_lt_sum (fun k hk => le 0 0 k p1 p2 (mem_range.1 hk))
    ⟨0, mem_range.2 p3, C74_fails_3D_strict R r p1 p2 p3 (Or.inl rfl)⟩

end

/-! ### The hypotheses can be met -/

/-- A scheme with the monomial table of the solver and zero slopes. -/
noncomputable def genuineScheme (id : StencilId) : Scheme ℝ where
  id := id
  mm := monomExp
    ((init_map (if id.is3d then 3 else 2) (STENCIL_DEGREE id) 100).getD fun _ => none)
  pi := fun _ _ => 0

theorem genuineScheme_genuine (id : StencilId) : (genuineScheme id).Genuine := by
  have hf : (STENCIL_DEGREE id + (if id.is3d then 3 else 2)).choose (STENCIL_DEGREE id) < 100 := by
    cases id <;> decide
  obtain ⟨data, e, -⟩ := C40_table _ _ 100 (by cases id.is3d <;> simp) hf
  refine ⟨data, e, ?_⟩
  show monomExp _ = _
  rw [e]
  rfl

/-- Settings with the local Lax-Friedrichs solver. -/
noncomputable def llfSettings : Settings ℝ := { exampleSettings with riemann := .llf }

theorem llfSettings_gas : GasParams llfSettings :=
  ⟨exampleSettings_gas.gamma, exampleSettings_gas.smallr, exampleSettings_gas.smallp,
    exampleSettings_gas.smallc⟩

/-- Memory with state `u` in every cell of `U` and zeros elsewhere. -/
noncomputable def uniformMemory (u : HState ℝ) (a : Addr) : ℝ := if a.arr = aU then u.get a.v else 0

/-- The hypotheses of `C74_uniform_2D` can be met: moving gas in a periodic box. -/
example (J : ℕ → MoodJunk ℝ) : ∃ m',
    Runs (time_integration .left (genuineScheme .d2deg2) llfSettings (exampleBox false .periodic)
      J 1 .ssprk3 0) (uniformMemory ⟨1, 3, 1, 0, 0⟩) m' ∧
    AllStates false (exampleBox false .periodic) (Equals ⟨1, 3, 1, 0, 0⟩) m' aU2 := by
  have h : MoodSetup (genuineScheme .d2deg2) (exampleBox false .periodic) (Sides.all .periodic) :=
    exampleBox_setup false .periodic
  obtain ⟨m', y⟩ := C73_mood_step (S := llfSettings) h real_zero_lt .left J 1 .ssprk3 0
    (uniformMemory ⟨1, 3, 1, 0, 0⟩)
  refine ⟨m', y.run, C74_uniform_2D (u := ⟨1, 3, 1, 0, 0⟩) h (genuineScheme_genuine _)
    ⟨by decide, by decide, fun e => by cases e⟩ llfSettings_gas rfl (by decide) (by decide)
    zero_le_one (by decide) y.run ?_⟩
  intro i j k _ _ _ v
  exact if_pos rfl

theorem exampleRest : RestRun (genuineScheme .d3deg1) llfSettings (exampleBox true .periodic)
    (Sides.all .periodic) (1 / 10) 1 1 (uniformMemory (restGas llfSettings 1 1)) aU := by
  have hg : llfSettings.gamma0 = 7 / 5 := by simp [llfSettings, exampleSettings]
  have hx : llfSettings.dx = 1 := by simp [llfSettings, exampleSettings]
  have hy : llfSettings.dy = 1 := by simp [llfSettings, exampleSettings]
  refine ⟨exampleBox_setup true .periodic, genuineScheme_genuine _, by decide, rfl, rfl,
    llfSettings_gas, by decide, by decide, by decide, by rw [hx]; norm_num, by rw [hy]; norm_num,
    by norm_num, ?_, ?_, ?_, ?_, ?_⟩
  · rw [hx, hy, hg]
    have : Real.sqrt (7 / 5 * 1 / 1) ≤ 2 := by
      rw [Real.sqrt_le_iff]; norm_num
    linarith
  · simp only [llfSettings, exampleSettings]; norm_num
  · simp only [llfSettings, exampleSettings]; norm_num
  · intro i j k v _ _ _ _
    exact if_pos rfl
  · intro ip c v _ _ _ _
    exact if_neg (by show 10 + ip ≠ 0; omega)

/-- The counterexample to conservation in three dimensions is realised. -/
example (J : ℕ → MoodJunk ℝ) : ∃ m',
    Runs (time_integration .left (genuineScheme .d3deg1) llfSettings (exampleBox true .periodic)
      J (1 / 10) .forward_euler 0) (uniformMemory (restGas llfSettings 1 1)) m' ∧
    total true (exampleBox true .periodic) m' aU2 ID <
      total true (exampleBox true .periodic) (uniformMemory (restGas llfSettings 1 1)) aU ID := by
  obtain ⟨m', y⟩ := C73_mood_step (S := llfSettings) exampleRest.setup real_zero_lt .left J (1 / 10)
    .forward_euler 0 (uniformMemory (restGas llfSettings 1 1))
  have k := C75_fails_3D (it := 0) (m' := m') exampleRest y.run
  have e : (genuineScheme .d3deg1).d3 = true := rfl
  have eo : bufOut 0 = aU2 := rfl
  have ei : bufIn 0 = aU := rfl
  rw [e, eo, ei] at k
  exact ⟨m', y.run, k⟩

/-- The hypotheses of `C75_conservation_2D` can be met. -/
example (J : ℕ → MoodJunk ℝ) : ∃ m',
    Runs (time_integration .left (genuineScheme .d2deg2) llfSettings (exampleBox false .periodic)
      J 1 .forward_euler 0) (uniformMemory ⟨1, 3, 1, 0, 0⟩) m' ∧
    (∀ j, j < 2 → ¬ 0 < m' ((cell false (exampleBox false .periodic) 0 j 0).at aFlags 0)) ∧
    (∀ i, i < 3 → ¬ 0 < m' ((cell false (exampleBox false .periodic) i 0 0).at aFlags 0)) := by
  have h : MoodSetup (genuineScheme .d2deg2) (exampleBox false .periodic) (Sides.all .periodic) :=
    exampleBox_setup false .periodic
  obtain ⟨m', y⟩ := C73_mood_step (S := llfSettings) h real_zero_lt .left J 1 .forward_euler 0
    (uniformMemory ⟨1, 3, 1, 0, 0⟩)
  obtain ⟨-, -, qg⟩ := euler_run h y.run
  have hf := uniform_fill (m := uniformMemory ⟨1, 3, 1, 0, 0⟩) (U := bufIn 0) h (by decide) (by decide)
    (by decide) ⟨1, 3, 1, 0, 0⟩ (by simp [Scheme.d3, genuineScheme, StencilId.is3d, HState.norm, lit_real])
    (fun i j k v _ _ _ _ => if_pos rfl)
  have nf : ∀ i j, i < 3 → j < 2 →
      ¬ 0 < m' ((cell false (exampleBox false .periodic) i j 0).at aFlags 0) := by
    intro i j hi hj
    have hb := (mood_cell_box (i := i) (j := j) (k := 0) h hi hj (by decide)).1
    have k := qg _ hb
    have k2 := uniform_no_flag (J := J 0) (dt := 1) (S := llfSettings)
      (old := polys (genuineScheme .d2deg2).d3 (uniformMemory ⟨1, 3, 1, 0, 0⟩)) h
      (genuineScheme_genuine _) ⟨by decide, by decide, fun e => by cases e⟩ llfSettings_gas rfl hf
      zero_le_one hb
    rw [← k] at k2
    exact k2
  exact ⟨m', y.run, fun j hj => nf 0 j (by norm_num) hj, fun i hi => nf i 0 hi (by norm_num)⟩

/-- Settings with cells of different sizes. -/
noncomputable def flatSettings : Settings ℝ := { exampleSettings with riemann := .llf, dz := 2 }

/-- The hypotheses of `C44_fails_3D` can be met. -/
example (J : ℕ → MoodJunk ℝ) : ∃ m',
    Runs (time_integration .left (genuineScheme .d3deg1) flatSettings (exampleBox true .periodic)
      J (1 / 10) .forward_euler 0) (uniformMemory (restGas flatSettings 1 1)) m' ∧
    m' ((cell true (exampleBox true .periodic) 1 1 1).at (aF 0 .z) IW) ≠ 1 * (1 / 10 / 2) := by
  have h : MoodSetup (genuineScheme .d3deg1) (exampleBox true .periodic) (Sides.all .periodic) :=
    exampleBox_setup true .periodic
  have hS : GasParams flatSettings := ⟨exampleSettings_gas.gamma, exampleSettings_gas.smallr,
    exampleSettings_gas.smallp, exampleSettings_gas.smallc⟩
  obtain ⟨m', y⟩ := C73_mood_step (S := flatSettings) h real_zero_lt .left J (1 / 10)
    .forward_euler 0 (uniformMemory (restGas flatSettings 1 1))
  have k := C44_fails_3D (ρ := 1) (p := 1) (i := 1) (j := 1) (k := 1) h (genuineScheme_genuine _)
    ⟨by decide, by decide, fun _ => by decide⟩ hS rfl (by decide) (by decide) (by decide)
    (by norm_num) (by simp [flatSettings, exampleSettings])
    (by simp only [flatSettings, exampleSettings]; norm_num)
    (by simp only [flatSettings, exampleSettings]; norm_num) y.run
    (fun i j k v _ _ _ _ => if_pos rfl) (by decide) (by decide) (by decide) (by decide)
  exact ⟨m', y.run, k.2⟩

end Verif.Mood
