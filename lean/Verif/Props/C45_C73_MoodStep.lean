import Verif.Lemmas.MoodConvex
import Verif.Props.C22_C26_HydroStep
import Mathlib.Tactic.Linarith

/-!
# C45, C73: time steps of the MOOD scheme

`Runs (time_integration lay M S P J dt ti it) m m'`: the loops launched by step number `it` with
integrator `ti` (ghost fill included) can take memory `m` to memory `m'` under some schedule.
`lay`: loop order of the backend; `M`: stencil, monomials and pseudo-inverse; `J s`: contents of
uninitialised variables in stage `s`.

`MoodSetup M P B`: as many ghost layers as the stencil needs, at least as many cells as ghost layers
per direction, boundary conditions `B`.
-/

namespace Verif.Mood

open Verif Spec ROps

section any
variable {α : Type} [ROps α] {M : Scheme α} {S : Settings α} {P : Grid} {B : Sides}
  {lay : Layout} {J : ℕ → MoodJunk α} {dt : α} {ti : TimeInt} {it : Nat}

theorem time_integration_bufs : time_integration lay M S P J dt ti it =
    time_integration_impl lay M S P J dt ti (bufIn it) (bufOut it) := by
  unfold time_integration bufIn bufOut
  split <;> rfl

theorem bufs_it (it : Nat) : Bufs (bufIn it) (bufOut it) := by
  unfold Bufs bufIn bufOut
  by_cases h : it % 2 = 0 <;> simp [h]

/-- New interior states of a step. -/
def stepAt (M : Scheme α) (S : Settings α) (P : Grid) (B : Sides) (J : ℕ → MoodJunk α) (dt : α)
    (ti : TimeInt) (old : ℕ → Cell → HState α) (f : Cell → HState α) : Cell → HState α :=
  match ti with
  | .forward_euler => eulerAt M S P B (J 0) dt old f
  | .ssprk2 => ssprk2At M S P B J dt old f
  | .ssprk3 => ssprk3At M S P B J dt old f
  | .ssprk54 => f

theorem step_yields (h : MoodSetup M P B) (hz : ltb (lit 0 : α) (lit 0) = false) (m : Addr → α) :
    ∃ m', YieldsAll (moodDom M.d3 P M.ncoefs ti) (time_integration lay M S P J dt ti it) m m' ∧
      MoodResult M P B (bufIn it) (bufOut it)
        (stepAt M S P B J dt ti (polys M.d3 m) (field M.d3 m (bufIn it))) m m' := by
  rw [time_integration_bufs]
  cases ti
  · obtain ⟨m', y, r, -⟩ := euler_yields (lay := lay) (S := S) (J := J) (dt := dt) h (bufs_it it) hz m
    exact ⟨m', y, r⟩
  · exact ssprk2_yields h (bufs_it it) hz m
  · exact ssprk3_yields h (bufs_it it) hz m
  · exact ssprk54_yields h (bufs_it it) m

/-- **C73**: for every stencil, integrator, grid, boundary condition, state and time step, all loops
of a MOOD step access only allocated entries, are free of data races, terminate, and their combined
result does not depend on the schedule.  (The hypothesis `hz` says that `0 < 0` is false.) -/
theorem C73_mood_step (h : MoodSetup M P B) (hz : ltb (lit 0 : α) (lit 0) = false) (lay : Layout)
    (J : ℕ → MoodJunk α) (dt : α) (ti : TimeInt) (it : Nat) (m : Addr → α) :
    ∃ m', YieldsAll (moodDom M.d3 P M.ncoefs ti) (time_integration lay M S P J dt ti it) m m' := by
  obtain ⟨m', y, -⟩ := step_yields (S := S) (lay := lay) (J := J) (dt := dt) (ti := ti) (it := it) h hz m
  exact ⟨m', y⟩

/-- **C73**: the result of a step is unique. -/
theorem C73_mood_unique (h : MoodSetup M P B) (hz : ltb (lit 0 : α) (lit 0) = false)
    {m m1 m2 : Addr → α} (r1 : Runs (time_integration lay M S P J dt ti it) m m1)
    (r2 : Runs (time_integration lay M S P J dt ti it) m m2) : m1 = m2 := by
  obtain ⟨m', y⟩ := C73_mood_step (S := S) h hz lay J dt ti it m
  rw [y.unique r1, y.unique r2]

theorem mood_cell_box (h : MoodSetup M P B) {i j k : Nat} (hi : i < P.nx.toNat)
    (hj : j < P.ny.toNat) (hk : k < depth M.d3 P) :
    P.box M.d3 (cell M.d3 P i j k) ∧ P.inner M.d3 (cell M.d3 P i j k) := by
  have w := two_le_ghostwidth M.id
  have := h.gw
  refine cell_box (B := B) ⟨?_, h.nv, h.nx, h.ny, h.nz, h.xmin, h.xmax, h.ymin, h.ymax, h.zmin,
    h.zmax⟩ hi hj hk
  omega

/-- **C73**: a step leaves the interior of its input buffer as it was. -/
theorem C73_mood_input_kept (h : MoodSetup M P B) (hz : ltb (lit 0 : α) (lit 0) = false)
    {m m' : Addr → α} (r : Runs (time_integration lay M S P J dt ti it) m m') :
    ∀ i j k v, i < P.nx.toNat → j < P.ny.toNat → k < depth M.d3 P → v < P.nbvar →
      m' ((cell M.d3 P i j k).at (bufIn it) v) = m ((cell M.d3 P i j k).at (bufIn it) v) := by
  intro i j k v hi hj hk hv
  obtain ⟨m1, y, q⟩ := step_yields (S := S) (lay := lay) (J := J) (dt := dt) (ti := ti) (it := it) h hz m
  obtain rfl := y.unique r
  obtain ⟨hb, hin⟩ := mood_cell_box h hi hj hk
  rw [h.nv] at hv
  rw [← field_get M.d3 m' _ _ hv, q.input _ hb, fillF_inner hin hv, field_get M.d3 _ _ _ hv]

/-- **C73**: the result does not depend on the loop order of the backend (`index2coord`), as far as
the new states are concerned. -/
theorem C73_mood_layout (h : MoodSetup M P B) (hz : ltb (lit 0 : α) (lit 0) = false) {lay' : Layout}
    {m m1 m2 : Addr → α} (r1 : Runs (time_integration lay M S P J dt ti it) m m1)
    (r2 : Runs (time_integration lay' M S P J dt ti it) m m2) :
    ∀ i j k v, i < P.nx.toNat → j < P.ny.toNat → k < depth M.d3 P → v < P.nbvar →
      m1 ((cell M.d3 P i j k).at (bufOut it) v) = m2 ((cell M.d3 P i j k).at (bufOut it) v) := by
  intro i j k v hi hj hk hv
  obtain ⟨n1, y1, q1⟩ := step_yields (S := S) (lay := lay) (J := J) (dt := dt) (ti := ti) (it := it)
    h hz m
  obtain ⟨n2, y2, q2⟩ := step_yields (S := S) (lay := lay') (J := J) (dt := dt) (ti := ti) (it := it)
    h hz m
  obtain rfl := y1.unique r1
  obtain rfl := y2.unique r2
  obtain ⟨hb, hin⟩ := mood_cell_box h hi hj hk
  rw [h.nv] at hv
  rw [← field_get M.d3 m1 _ _ hv, ← field_get M.d3 m2 _ _ hv, q1.out _ hb hin, q2.out _ hb hin]

/-- **C45, ssprk54**: this integrator, which can be selected, does not advance the solution: the new
interior states are the old ones, whatever the time step. -/
theorem C45_ssprk54_does_nothing (h : MoodSetup M P B) (hz : ltb (lit 0 : α) (lit 0) = false)
    {m m' : Addr → α} (r : Runs (time_integration lay M S P J dt .ssprk54 it) m m') :
    ∀ i j k v, i < P.nx.toNat → j < P.ny.toNat → k < depth M.d3 P → v < P.nbvar →
      m' ((cell M.d3 P i j k).at (bufOut it) v) = m ((cell M.d3 P i j k).at (bufIn it) v) := by
  intro i j k v hi hj hk hv
  obtain ⟨m1, y, q⟩ := step_yields (S := S) (lay := lay) (J := J) (dt := dt) (ti := .ssprk54)
    (it := it) h hz m
  obtain rfl := y.unique r
  obtain ⟨hb, hin⟩ := mood_cell_box h hi hj hk
  rw [h.nv] at hv
  rw [← field_get M.d3 m' _ _ hv, q.out _ hb hin, stepAt, field_get M.d3 _ _ _ hv]

end any

/-! ### C45 over the real numbers -/

variable {M : Scheme ℝ} {S : Settings ℝ} {P : Grid} {B : Sides}
  {lay : Layout} {J : ℕ → MoodJunk ℝ} {dt : ℝ} {it : Nat}

theorem real_zero_lt : ltb (lit 0 : ℝ) (lit 0) = false := by simp [lit, ltb]

theorem bufIn_succ (it : Nat) : bufIn (it + 1) = bufOut it := by
  unfold bufIn bufOut
  rcases Nat.mod_two_eq_zero_or_one it with h | h
  · rw [if_neg (by omega), if_pos h]
  · rw [if_pos (by omega), if_neg (by omega)]

theorem bufOut_succ (it : Nat) : bufOut (it + 1) = bufIn it := by
  unfold bufIn bufOut
  rcases Nat.mod_two_eq_zero_or_one it with h | h
  · rw [if_neg (by omega), if_pos h]
  · rw [if_pos (by omega), if_neg (by omega)]

/-- **C45**: the integrator switched on in the parameter file runs; of several the first in the order second
order, third order, fourth order; forward Euler if none. -/
theorem C45_selected (e2 e3 e54 : Bool) :
    (selectTimeInt e2 e3 e54 = .ssprk2 ↔ e2 = true) ∧
    (selectTimeInt e2 e3 e54 = .ssprk3 ↔ e2 = false ∧ e3 = true) ∧
    (selectTimeInt e2 e3 e54 = .ssprk54 ↔ e2 = false ∧ e3 = false ∧ e54 = true) ∧
    (selectTimeInt e2 e3 e54 = .forward_euler ↔ e2 = false ∧ e3 = false ∧ e54 = false) := by
  cases e2 <;> cases e3 <;> cases e54 <;> decide

/-- **C45, SSP-RK2**: the result is half the old state plus half the state after two forward Euler
steps, in every interior cell and variable. -/
theorem C45_ssprk2 (h : MoodSetup M P B) {m m1 m2 m' : Addr → ℝ}
    (r1 : Runs (time_integration lay M S P J dt .forward_euler it) m m1)
    (r2 : Runs (time_integration lay M S P (fun _ => J 1) dt .forward_euler (it + 1)) m1 m2)
    (r : Runs (time_integration lay M S P J dt .ssprk2 it) m m') :
    ∀ i j k v, i < P.nx.toNat → j < P.ny.toNat → k < depth M.d3 P → v < P.nbvar →
      m' ((cell M.d3 P i j k).at (bufOut it) v) =
        1 / 2 * m ((cell M.d3 P i j k).at (bufIn it) v) +
        1 / 2 * m2 ((cell M.d3 P i j k).at (bufOut (it + 1)) v) := by
  intro i j k v hi hj hk hv
  obtain ⟨n1, y1, q1⟩ := step_yields (S := S) (lay := lay) (J := J) (dt := dt) (ti := .forward_euler)
    (it := it) h real_zero_lt m
  obtain rfl := y1.unique r1
  obtain ⟨n2, y2, q2⟩ := step_yields (S := S) (lay := lay) (J := fun _ => J 1) (dt := dt)
    (ti := .forward_euler) (it := it + 1) h real_zero_lt m1
  obtain rfl := y2.unique r2
  obtain ⟨n, y, q⟩ := step_yields (S := S) (lay := lay) (J := J) (dt := dt) (ti := .ssprk2)
    (it := it) h real_zero_lt m
  obtain rfl := y.unique r
  obtain ⟨hb, hin⟩ := mood_cell_box h hi hj hk
  rw [h.nv] at hv
  rw [← field_get M.d3 m' _ _ hv, ← field_get M.d3 m _ _ hv, ← field_get M.d3 m2 _ _ hv,
    q.out _ hb hin, q2.out _ hb hin]
  show (ssprk2At M S P B J dt _ _ _).get v = _ + 1 / 2 * (eulerAt M S P B (J 1) dt _ _ _).get v
  rw [ssprk2At_get hin hv]
  rw [eulerAt_congr h hb hin (fun c hb hi => ?_) fun i c hi hb hr => (q1.kept i c hi hb hr).symm]
  rw [bufIn_succ, q1.out c hb hi]
  rfl

/-- **C45, SSP-RK3**: with `u₁ = E(u)`, `u₂ = ¾ u + ¼ E(u₁)`, the result is `⅓ u + ⅔ E(u₂)`, where `E`
is the forward Euler step; `mb` is a memory holding `u₂` in the interior of the input buffer. -/
theorem C45_ssprk3 (h : MoodSetup M P B) {m m1 m2 mb m3 m' : Addr → ℝ}
    (r1 : Runs (time_integration lay M S P J dt .forward_euler it) m m1)
    (r2 : Runs (time_integration lay M S P (fun _ => J 1) dt .forward_euler (it + 1)) m1 m2)
    (hb : ∀ i j k v, i < P.nx.toNat → j < P.ny.toNat → k < depth M.d3 P → v < P.nbvar →
      mb ((cell M.d3 P i j k).at (bufIn it) v) =
        3 / 4 * m ((cell M.d3 P i j k).at (bufIn it) v) +
        1 / 4 * m2 ((cell M.d3 P i j k).at (bufOut (it + 1)) v))
    (hk : ∀ a : Addr, a.arr ≠ bufIn it → mb a = m2 a)
    (r3 : Runs (time_integration lay M S P (fun _ => J 2) dt .forward_euler it) mb m3)
    (r : Runs (time_integration lay M S P J dt .ssprk3 it) m m') :
    ∀ i j k v, i < P.nx.toNat → j < P.ny.toNat → k < depth M.d3 P → v < P.nbvar →
      m' ((cell M.d3 P i j k).at (bufOut it) v) =
        1 / 3 * m ((cell M.d3 P i j k).at (bufIn it) v) +
        2 / 3 * m3 ((cell M.d3 P i j k).at (bufOut it) v) := by
  intro i j k v hi hj hk' hv
  obtain ⟨n1, y1, q1⟩ := step_yields (S := S) (lay := lay) (J := J) (dt := dt) (ti := .forward_euler)
    (it := it) h real_zero_lt m
  obtain rfl := y1.unique r1
  obtain ⟨n2, y2, q2⟩ := step_yields (S := S) (lay := lay) (J := fun _ => J 1) (dt := dt)
    (ti := .forward_euler) (it := it + 1) h real_zero_lt m1
  obtain rfl := y2.unique r2
  obtain ⟨n3, y3, q3⟩ := step_yields (S := S) (lay := lay) (J := fun _ => J 2) (dt := dt)
    (ti := .forward_euler) (it := it) h real_zero_lt mb
  obtain rfl := y3.unique r3
  obtain ⟨n, y, q⟩ := step_yields (S := S) (lay := lay) (J := J) (dt := dt) (ti := .ssprk3)
    (it := it) h real_zero_lt m
  obtain rfl := y.unique r
  have kb : PolyKept M P m2 mb := PolyKept.of_eq fun a ha => hk a (by
    have := stateArray_lt (ti := .forward_euler) (bufs_it it).inp; omega)
  have kall : PolyKept M P m mb := (q1.kept.trans q2.kept).trans kb
  have second : ∀ c, P.box M.d3 c → P.inner M.d3 c →
      rk3Second M S P B J dt (polys M.d3 m) (field M.d3 m (bufIn it)) c =
        field M.d3 mb (bufIn it) c := by
    intro c hbc hin
    refine state_ext rk3Second_norm (field_norm ..) fun v hv => ?_
    rw [rk3Second_get hin hv]
    obtain ⟨a1, a2, a3, l1, l2, l3, rfl⟩ := inner_cell hbc hin
    rw [field_get M.d3 mb _ _ hv, hb _ _ _ _ l1 l2 l3 (by rw [h.nv]; exact hv),
      ← field_get M.d3 m _ _ hv, ← field_get M.d3 m2 _ _ hv, q2.out _ hbc hin]
    show _ = _ + 1 / 4 * (eulerAt M S P B (J 1) dt _ _ _).get v
    rw [eulerAt_congr h hbc hin (fun c hb hi => ?_) fun i c hi hb hr => (q1.kept i c hi hb hr).symm]
    rw [bufIn_succ, q1.out c hb hi]
    rfl
  obtain ⟨hb', hin⟩ := mood_cell_box h hi hj hk'
  rw [h.nv] at hv
  rw [← field_get M.d3 m' _ _ hv, ← field_get M.d3 m _ _ hv, ← field_get M.d3 m3 _ _ hv,
    q.out _ hb' hin, q3.out _ hb' hin]
  show (ssprk3At M S P B J dt _ _ _).get v = _ + 2 / 3 * (eulerAt M S P B (J 2) dt _ _ _).get v
  rw [ssprk3At_get hin hv]
  rw [eulerAt_congr h hb' hin second fun i c hi hb hr => (kall i c hi hb hr).symm]

/-! ### Consequences -/

/-- All interior states in buffer `U` satisfy `good`. -/
def AllStates (d3 : Bool) (P : Grid) (good : (Fin P.nbvar → ℝ) → Prop) (m : Addr → ℝ) (U : Nat) :
    Prop :=
  ∀ i j k, i < P.nx.toNat → j < P.ny.toNat → k < depth d3 P →
    good fun v => m ((cell d3 P i j k).at U v)

/-- `good` holds for all convex combinations of states for which it holds. -/
def ConvexBound {n : Nat} (good : (Fin n → ℝ) → Prop) : Prop :=
  ∀ a b : Fin n → ℝ, ∀ s t : ℝ, 0 ≤ s → 0 ≤ t → s + t = 1 → good a → good b →
    good fun v => s * a v + t * b v

/-- Every forward Euler step with time step `dt` keeps `good`. -/
def EulerKeeps (lay : Layout) (M : Scheme ℝ) (S : Settings ℝ) (P : Grid) (dt : ℝ)
    (good : (Fin P.nbvar → ℝ) → Prop) : Prop :=
  ∀ (J : ℕ → MoodJunk ℝ) (it : Nat) (m m' : Addr → ℝ),
    Runs (time_integration lay M S P J dt .forward_euler it) m m' →
    AllStates M.d3 P good m (bufIn it) → AllStates M.d3 P good m' (bufOut it)

/-- **C45, bounds, SSP-RK2**: a convex bound on the states that forward Euler steps keep is kept. -/
theorem C45_ssprk2_bounds (h : MoodSetup M P B) {good : (Fin P.nbvar → ℝ) → Prop}
    (hc : ConvexBound good) (hE : EulerKeeps lay M S P dt good) {m m' : Addr → ℝ}
    (r : Runs (time_integration lay M S P J dt .ssprk2 it) m m')
    (hg : AllStates M.d3 P good m (bufIn it)) : AllStates M.d3 P good m' (bufOut it) := by
  obtain ⟨m1, y1⟩ := C73_mood_step (S := S) h real_zero_lt lay J dt .forward_euler it m
  obtain ⟨m2, y2⟩ := C73_mood_step (S := S) h real_zero_lt lay (fun _ => J 1) dt .forward_euler
    (it + 1) m1
  have g1 := hE _ _ _ _ y1.run hg
  have g2 := hE _ _ _ _ y2.run (by rw [bufIn_succ]; exact g1)
  intro i j k hi hj hk
  have e : (fun v : Fin P.nbvar => m' ((cell M.d3 P i j k).at (bufOut it) v)) = fun v : Fin P.nbvar =>
      1 / 2 * m ((cell M.d3 P i j k).at (bufIn it) v) +
      1 / 2 * m2 ((cell M.d3 P i j k).at (bufOut (it + 1)) v) :=
    funext fun v => C45_ssprk2 h y1.run y2.run r i j k v hi hj hk v.2
  rw [e]
  exact hc _ _ _ _ (by norm_num) (by norm_num) (by norm_num) (hg i j k hi hj hk) (g2 i j k hi hj hk)

/-- **C45, bounds, SSP-RK3**. -/
theorem C45_ssprk3_bounds (h : MoodSetup M P B) {good : (Fin P.nbvar → ℝ) → Prop}
    (hc : ConvexBound good) (hE : EulerKeeps lay M S P dt good) {m m' : Addr → ℝ}
    (r : Runs (time_integration lay M S P J dt .ssprk3 it) m m')
    (hg : AllStates M.d3 P good m (bufIn it)) : AllStates M.d3 P good m' (bufOut it) := by
  obtain ⟨m1, y1⟩ := C73_mood_step (S := S) h real_zero_lt lay J dt .forward_euler it m
  obtain ⟨m2, y2⟩ := C73_mood_step (S := S) h real_zero_lt lay (fun _ => J 1) dt .forward_euler
    (it + 1) m1
  let mb : Addr → ℝ := fun a => if a.arr = bufIn it then 3 / 4 * m a + 1 / 4 * m2 a else m2 a
  obtain ⟨m3, y3⟩ := C73_mood_step (S := S) h real_zero_lt lay (fun _ => J 2) dt .forward_euler it mb
  have g1 := hE _ _ _ _ y1.run hg
  have g2 := hE _ _ _ _ y2.run (by rw [bufIn_succ]; exact g1)
  rw [bufOut_succ] at g2
  have eb : ∀ c v, mb (Cell.at c (bufIn it) v) =
      3 / 4 * m (c.at (bufIn it) v) + 1 / 4 * m2 (c.at (bufIn it) v) := fun c v => by
    show (if _ then _ else _) = _
    rw [if_pos (Cell.at_arr ..)]
  have gb : AllStates M.d3 P good mb (bufIn it) := by
    intro i j k hi hj hk
    have e : (fun v : Fin P.nbvar => mb ((cell M.d3 P i j k).at (bufIn it) v)) = fun v : Fin P.nbvar =>
      3 / 4 * m ((cell M.d3 P i j k).at (bufIn it) v) +
      1 / 4 * m2 ((cell M.d3 P i j k).at (bufIn it) v) := funext fun v => eb _ _
    rw [e]
    exact hc _ _ _ _ (by norm_num) (by norm_num) (by norm_num) (hg i j k hi hj hk)
      (g2 i j k hi hj hk)
  have g3 := hE _ _ _ _ y3.run gb
  intro i j k hi hj hk
  have e : (fun v : Fin P.nbvar => m' ((cell M.d3 P i j k).at (bufOut it) v)) = fun v : Fin P.nbvar =>
      1 / 3 * m ((cell M.d3 P i j k).at (bufIn it) v) +
      2 / 3 * m3 ((cell M.d3 P i j k).at (bufOut it) v) :=
    funext fun v => C45_ssprk3 h y1.run y2.run (fun i j k v _ _ _ _ => by
      rw [bufOut_succ]; exact eb _ _) (fun a ha => if_neg ha) y3.run r i j k v hi hj hk v.2
  rw [e]
  exact hc _ _ _ _ (by norm_num) (by norm_num) (by norm_num) (hg i j k hi hj hk) (g3 i j k hi hj hk)

theorem interiorSum_combine (d3 : Bool) (P : Grid) (s t : ℝ) (f g e : Cell → ℝ)
    (he : ∀ i j k, i < P.nx.toNat → j < P.ny.toNat → k < depth d3 P →
      e (cell d3 P i j k) = s * f (cell d3 P i j k) + t * g (cell d3 P i j k)) :
    interiorSum d3 P e = s * interiorSum d3 P f + t * interiorSum d3 P g := by
  unfold interiorSum
  simp only [Finset.mul_sum, ← Finset.sum_add_distrib]
  exact Finset.sum_congr rfl fun i hi => Finset.sum_congr rfl fun j hj =>
    Finset.sum_congr rfl fun k hk => he i j k (Finset.mem_range.1 hi) (Finset.mem_range.1 hj)
      (Finset.mem_range.1 hk)

/-- **C45, totals, SSP-RK2**: the totals are combined in the same way, so if the Euler steps
conserve a total the integrator does. -/
theorem C45_ssprk2_totals (h : MoodSetup M P B) {m m1 m2 m' : Addr → ℝ}
    (r1 : Runs (time_integration lay M S P J dt .forward_euler it) m m1)
    (r2 : Runs (time_integration lay M S P (fun _ => J 1) dt .forward_euler (it + 1)) m1 m2)
    (r : Runs (time_integration lay M S P J dt .ssprk2 it) m m') {v : Nat} (hv : v < P.nbvar)
    (c1 : total M.d3 P m1 (bufOut it) v = total M.d3 P m (bufIn it) v)
    (c2 : total M.d3 P m2 (bufOut (it + 1)) v = total M.d3 P m1 (bufIn (it + 1)) v) :
    total M.d3 P m' (bufOut it) v = total M.d3 P m (bufIn it) v := by
  have e : total M.d3 P m' (bufOut it) v = 1 / 2 * total M.d3 P m (bufIn it) v +
      1 / 2 * total M.d3 P m2 (bufOut (it + 1)) v :=
    interiorSum_combine _ _ _ _ _ _ _ fun i j k hi hj hk => C45_ssprk2 h r1 r2 r i j k v hi hj hk hv
  rw [e, c2, bufIn_succ, c1]
  ring

/-- **C45, totals, SSP-RK3**. -/
theorem C45_ssprk3_totals (h : MoodSetup M P B) {m m1 m2 mb m3 m' : Addr → ℝ}
    (r1 : Runs (time_integration lay M S P J dt .forward_euler it) m m1)
    (r2 : Runs (time_integration lay M S P (fun _ => J 1) dt .forward_euler (it + 1)) m1 m2)
    (hb : ∀ i j k v, i < P.nx.toNat → j < P.ny.toNat → k < depth M.d3 P → v < P.nbvar →
      mb ((cell M.d3 P i j k).at (bufIn it) v) =
        3 / 4 * m ((cell M.d3 P i j k).at (bufIn it) v) +
        1 / 4 * m2 ((cell M.d3 P i j k).at (bufOut (it + 1)) v))
    (hk : ∀ a : Addr, a.arr ≠ bufIn it → mb a = m2 a)
    (r3 : Runs (time_integration lay M S P (fun _ => J 2) dt .forward_euler it) mb m3)
    (r : Runs (time_integration lay M S P J dt .ssprk3 it) m m') {v : Nat} (hv : v < P.nbvar)
    (c1 : total M.d3 P m1 (bufOut it) v = total M.d3 P m (bufIn it) v)
    (c2 : total M.d3 P m2 (bufOut (it + 1)) v = total M.d3 P m1 (bufIn (it + 1)) v)
    (c3 : total M.d3 P m3 (bufOut it) v = total M.d3 P mb (bufIn it) v) :
    total M.d3 P m' (bufOut it) v = total M.d3 P m (bufIn it) v := by
  have e : total M.d3 P m' (bufOut it) v = 1 / 3 * total M.d3 P m (bufIn it) v +
      2 / 3 * total M.d3 P m3 (bufOut it) v :=
    interiorSum_combine _ _ _ _ _ _ _ fun i j k hi hj hk' =>
      C45_ssprk3 h r1 r2 hb hk r3 r i j k v hi hj hk' hv
  have e2 : total M.d3 P mb (bufIn it) v = 3 / 4 * total M.d3 P m (bufIn it) v +
      1 / 4 * total M.d3 P m2 (bufOut (it + 1)) v :=
    interiorSum_combine _ _ _ _ _ _ _ fun i j k hi hj hk' => hb i j k v hi hj hk' hv
  rw [e, c3, e2, c2, bufIn_succ, c1]
  ring

/-! ### Examples -/

/-- The second order scheme in two dimensions with zero slopes. -/
def exampleScheme (id : StencilId) : Scheme ℝ where
  id := id
  mm := fun _ _ => 0
  pi := fun _ _ => 0

theorem exampleScheme_setup (b : BC) :
    MoodSetup (exampleScheme .d2deg1) (exampleBox false b) (Sides.all b) := exampleBox_setup false b

theorem exampleScheme_setup3 (b : BC) :
    MoodSetup (exampleScheme .d3deg1) (exampleBox true b) (Sides.all b) := exampleBox_setup true b

/-- The hypotheses of `C73_mood_step` can be met. -/
example (J : ℕ → MoodJunk ℝ) (m : Addr → ℝ) (ti : TimeInt) : ∃ m', YieldsAll
    (moodDom false (exampleBox false .periodic) 3 ti)
    (time_integration .left (exampleScheme .d2deg1) exampleSettings (exampleBox false .periodic) J 1
      ti 0) m m' :=
  C73_mood_step (exampleScheme_setup .periodic) real_zero_lt _ J 1 ti 0 m

/-- The hypotheses of `C45_ssprk2` can be met, for any state. -/
example (J : ℕ → MoodJunk ℝ) (m : Addr → ℝ) : ∃ m1 m2 m',
    Runs (time_integration .left (exampleScheme .d3deg1) exampleSettings (exampleBox true .periodic)
      J 1 .forward_euler 0) m m1 ∧
    Runs (time_integration .left (exampleScheme .d3deg1) exampleSettings (exampleBox true .periodic)
      (fun _ => J 1) 1 .forward_euler 1) m1 m2 ∧
    Runs (time_integration .left (exampleScheme .d3deg1) exampleSettings (exampleBox true .periodic)
      J 1 .ssprk2 0) m m' := by
  obtain ⟨m1, y1⟩ := C73_mood_step (S := exampleSettings) (exampleScheme_setup3 .periodic)
    real_zero_lt .left J 1 .forward_euler 0 m
  obtain ⟨m2, y2⟩ := C73_mood_step (S := exampleSettings) (exampleScheme_setup3 .periodic)
    real_zero_lt .left (fun _ => J 1) 1 .forward_euler 1 m1
  obtain ⟨m', y⟩ := C73_mood_step (S := exampleSettings) (exampleScheme_setup3 .periodic)
    real_zero_lt .left J 1 .ssprk2 0 m
  exact ⟨m1, m2, m', y1.run, y2.run, y.run⟩

/-- Positivity of the density and bounds on a variable are convex. -/
example : ConvexBound (n := 4) (fun u => 0 < u 0 ∧ u 2 ≤ 5) := by
  intro a b s t hs ht hst ha hb
  refine ⟨?_, ?_⟩
  · show 0 < s * a 0 + t * b 0
    rcases hs.eq_or_lt with rfl | hs
    · have : t = 1 := by linarith
      rw [this]; linarith [hb.1]
    · have := mul_pos hs ha.1
      have := mul_nonneg ht hb.1.le
      linarith
  · show s * a 2 + t * b 2 ≤ 5
    nlinarith [ha.2, hb.2]

end Verif.Mood
