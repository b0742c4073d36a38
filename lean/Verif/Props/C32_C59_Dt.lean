import Verif.Lemmas.ComputeDt
import Verif.Props.C22_C26_HydroStep
import Verif.Props.C30_C33_Cell

/-!
# C32, C59: the time step honours the CFL condition

`ComputeDtLocal bot d3 S P grav it m dt`: `compute_dt_local` can return `dt` (for some distribution of
the cells over threads and some order of the joins).  `bot` is the identity of the maximum reduction
(the lowest finite number).
-/

namespace Verif

open Spec ROps

/-- Signal rate of a gas in a cell: sum over directions of (|velocity| + sound speed) / spacing. -/
noncomputable def Spec.signalRate (d3 : Bool) (S : Settings ℝ) (c : ℝ) (q : HState ℝ) : ℝ :=
  (|q.u| + c) / S.dx + (|q.v| + c) / S.dy + (if d3 then (|q.w| + c) / S.dz else 0)

/-- Positive grid spacings. -/
structure Spec.Spacings (d3 : Bool) (S : Settings ℝ) : Prop where
  dx : 0 < S.dx
  dy : 0 < S.dy
  dz : d3 = true → 0 < S.dz

/-- The interior cells hold the gas `Q`. -/
def Spec.Holds (d3 : Bool) (P : Grid) (S : Settings ℝ) (U : Nat) (m : Addr → ℝ)
    (Q : Nat → Nat → Nat → HState ℝ) : Prop :=
  ∀ i j k, i < P.nx.toNat → j < P.ny.toNat → k < depth d3 P →
    AboveFloors S (Q i j k) ∧ (d3 = false → (Q i j k).w = 0) ∧
    ∀ v, v < hydroVars d3 → m ((cell d3 P i j k).at U v) = (conserved d3 S.gamma0 (Q i j k)).get v

variable {d3 : Bool} {S : Settings ℝ} {P : Grid} {B : Sides} {bot : ℝ} {it : Nat} {m : Addr → ℝ}
  {dt : ℝ}

theorem Spec.signalRate_pos (hs : Spacings d3 S) {c : ℝ} (hc : 0 < c) (q : HState ℝ) :
    0 < signalRate d3 S c q := by
  have h1 := hs.dx
  have h2 := hs.dy
  have hz : 0 ≤ (if d3 then (|q.w| + c) / S.dz else 0) := by
    cases d3
    · simp
    · have := hs.dz rfl; simp only [if_true]; positivity
  unfold signalRate
  have : 0 < (|q.u| + c) / S.dx + (|q.v| + c) / S.dy := by positivity
  linarith

theorem cflRate_eq (u : HState ℝ) : cflRate d3 S u =
    signalRate d3 S (computePrimitives d3 S u).2 (computePrimitives d3 S u).1 := by
  unfold cflRate signalRate
  rops
  cases d3 <;> simp <;> ring

theorem Grid.inner_cell (h : BoxSetup d3 (hydroVars d3) 2 P B) {c : Cell} (hb : P.box d3 c)
    (hi : P.inner d3 c) : ∃ i j k, i < P.nx.toNat ∧ j < P.ny.toNat ∧ k < depth d3 P ∧
      c = cell d3 P i j k := by
  have hb2 := box_iff.1 hb
  have hi2 := inner_iff.1 hi
  have hg := h.gw
  refine ⟨(c.i - P.ghostWidth).toNat, (c.j - P.ghostWidth).toNat,
    if d3 then (c.k - P.ghostWidth).toNat else 0, by omega, by omega, ?_, ?_⟩
  · unfold depth
    cases d3
    · simp
    · simp only [if_true, forall_true_left] at hi2 ⊢; omega
  · unfold cell
    cases d3
    · simp only [Bool.false_eq_true, if_false] at hb2 ⊢
      ext <;> simp only <;> omega
    · simp only [if_true, forall_true_left] at hi2 ⊢
      ext <;> simp only <;> omega

/-- **C32** for arbitrary memory contents: with the primitive variables and sound speed the code
computes, `dt` times the signal rate is at most `cfl` in every interior cell and equal to `cfl`
in one of them. -/
theorem C32_cfl_any (h : BoxSetup d3 (hydroVars d3) 2 P B) (hS : GasParams S) (hs : Spacings d3 S)
    (hcfl : 0 ≤ S.cfl) (hbot : bot ≤ 0) (r : ComputeDtLocal bot d3 S P false it m dt) :
    let rate := fun i j k =>
      let p := computePrimitives d3 S (field d3 m (bufIn it) (cell d3 P i j k))
      signalRate d3 S p.2 p.1
    (∀ i j k, i < P.nx.toNat → j < P.ny.toNat → k < depth d3 P → dt * rate i j k ≤ S.cfl) ∧
    ∃ i j k, i < P.nx.toNat ∧ j < P.ny.toNat ∧ k < depth d3 P ∧ dt * rate i j k = S.cfl := by
  have er : ∀ c, rateAt d3 S false (bufIn it) m c =
      signalRate d3 S (computePrimitives d3 S (field d3 m (bufIn it) c)).2
        (computePrimitives d3 S (field d3 m (bufIn it) c)).1 := by
    intro c
    simp only [rateAt, Bool.false_eq_true, if_false]
    exact cflRate_eq _
  have hpos : ∀ c, 0 < rateAt d3 S false (bufIn it) m c := by
    intro c
    rw [er]
    exact signalRate_pos hs (C31_physical d3 hS _).2.2.2.2.1 _
  obtain ⟨M, rfl, hM, h1, c, hb, hi, h2⟩ := computeDt_spec h hbot (fun c _ _ => hpos c) r
  simp only [← er]
  refine ⟨?_, ?_⟩
  · intro i j k a1 a2 a3
    obtain ⟨b1, b2⟩ := cell_box h a1 a2 a3
    have := h1 _ b1 b2
    rw [div_mul_eq_mul_div, div_le_iff₀ hM]
    exact mul_le_mul_of_nonneg_left this hcfl
  · obtain ⟨i, j, k, a1, a2, a3, rfl⟩ := Grid.inner_cell h hb hi
    refine ⟨i, j, k, a1, a2, a3, ?_⟩
    rw [h2, div_mul_cancel₀ _ hM.ne']

theorem Spec.Holds.primitives (hS : GasParams S) {Q : Nat → Nat → Nat → HState ℝ} {U : Nat}
    (hQ : Holds d3 P S U m Q) {i j k : Nat} (a1 : i < P.nx.toNat) (a2 : j < P.ny.toNat)
    (a3 : k < depth d3 P) :
    computePrimitives d3 S (field d3 m U (cell d3 P i j k)) =
      (Q i j k, soundSpeed S.gamma0 (Q i j k)) := by
  obtain ⟨h1, h2, h3⟩ := hQ i j k a1 a2 a3
  rw [← C31_roundtrip d3 hS _ h1 h2]
  congr 1
  have g0 := h3 0 (by cases d3 <;> decide)
  have g1 := h3 1 (by cases d3 <;> decide)
  have g2 := h3 2 (by cases d3 <;> decide)
  have g3 := h3 3 (by cases d3 <;> decide)
  cases d3
  · simp only [HState.get, field, conserved, ID, IP, IU, IV, IW] at g0 g1 g2 g3 ⊢
    ext <;> simp_all [lit]
  · have g4 := h3 4 (by decide)
    simp only [HState.get, field, conserved, ID, IP, IU, IV, IW] at g0 g1 g2 g3 g4 ⊢
    ext <;> simp_all

/-- **C32**: if the interior holds a gas `Q` above the floors, then `dt·((|u|+c)/dx + (|v|+c)/dy
(+ (|w|+c)/dz))` is at most `cfl` in every cell, with equality in some cell; `c` is the sound speed
of the gas. -/
theorem C32_cfl (h : BoxSetup d3 (hydroVars d3) 2 P B) (hS : GasParams S) (hs : Spacings d3 S)
    (hcfl : 0 ≤ S.cfl) (hbot : bot ≤ 0) {Q : Nat → Nat → Nat → HState ℝ}
    (hQ : Holds d3 P S (bufIn it) m Q) (r : ComputeDtLocal bot d3 S P false it m dt) :
    let rate := fun i j k => signalRate d3 S (soundSpeed S.gamma0 (Q i j k)) (Q i j k)
    (∀ i j k, i < P.nx.toNat → j < P.ny.toNat → k < depth d3 P → dt * rate i j k ≤ S.cfl) ∧
    ∃ i j k, i < P.nx.toNat ∧ j < P.ny.toNat ∧ k < depth d3 P ∧ dt * rate i j k = S.cfl := by
  obtain ⟨h1, i, j, k, a1, a2, a3, h2⟩ := C32_cfl_any h hS hs hcfl hbot r
  refine ⟨fun i j k a1 a2 a3 => ?_, i, j, k, a1, a2, a3, ?_⟩
  · have := h1 i j k a1 a2 a3
    simp only [hQ.primitives hS a1 a2 a3] at this
    exact this
  · simp only [hQ.primitives hS a1 a2 a3] at h2
    exact h2

/-- **C32**: the time step does not depend on the number of threads, the distribution of the work
or the order of the joins. -/
theorem C32_unique (h : BoxSetup d3 (hydroVars d3) 2 P B) (hS : GasParams S) (hs : Spacings d3 S)
    (hbot : bot ≤ 0) {dt' : ℝ} (r : ComputeDtLocal bot d3 S P false it m dt)
    (r' : ComputeDtLocal bot d3 S P false it m dt') : dt = dt' := by
  have hpos : ∀ c, P.box d3 c → P.inner d3 c → 0 < rateAt d3 S false (bufIn it) m c := by
    intro c _ _
    simp only [rateAt, Bool.false_eq_true, if_false, cflRate_eq]
    exact signalRate_pos hs (C31_physical d3 hS _).2.2.2.2.1 _
  obtain ⟨M, rfl, -, h1, c, hb, hi, h2⟩ := computeDt_spec h hbot hpos r
  obtain ⟨M', rfl, -, h1', c', hb', hi', h2'⟩ := computeDt_spec h hbot hpos r'
  have : M = M' := le_antisymm (h2 ▸ h1' _ hb hi) (h2' ▸ h1 _ hb' hi')
  rw [this]

/-- A time step exists: one thread that visits the cells in order. -/
theorem computeDt_exists (bot : ℝ) (d3 : Bool) (S : Settings ℝ) (P : Grid) (grav : Bool) (it : Nat)
    (m : Addr → ℝ) : ∃ dt, ComputeDtLocal bot d3 S P grav it m dt :=
  ⟨_, _, ⟨.thread (List.range _), List.Perm.refl _, rfl⟩, rfl⟩

/-- Hypotheses met by a gas whose velocity varies from cell to cell. -/
example : ∃ m : Addr → ℝ, ∃ dt, ComputeDtLocal (-1) true exampleSettings
      (exampleBox true .periodic) false 0 m dt ∧
    Spacings true exampleSettings ∧ GasParams exampleSettings ∧
    Holds true (exampleBox true .periodic) exampleSettings (bufIn 0) m
      (fun i j _ => ⟨1, 1, i, -j, 2⟩) := by
  refine ⟨fun a => (conserved true exampleSettings.gamma0
    ⟨1, 1, ((a.i - 2 : Int) : ℝ), -((a.j - 2 : Int) : ℝ), 2⟩).get a.v, ?_⟩
  obtain ⟨dt, hdt⟩ := computeDt_exists (-1) true exampleSettings (exampleBox true .periodic) false 0
    (fun a => (conserved true exampleSettings.gamma0
    ⟨1, 1, ((a.i - 2 : Int) : ℝ), -((a.j - 2 : Int) : ℝ), 2⟩).get a.v)
  refine ⟨dt, hdt, ?_, exampleSettings_gas, ?_⟩
  · constructor <;> norm_num [exampleSettings]
  · intro i j k _ _ _
    refine ⟨⟨by norm_num [exampleSettings], by norm_num [exampleSettings]⟩, by simp, ?_⟩
    intro v hv
    simp [cell, Cell.at, exampleBox]

/-! ### C59 with gravity -/

/-- Distance covered in a time `t` from speed `v` with acceleration `a`. -/
noncomputable def Spec.travel (v a t : ℝ) : ℝ := v * t + a * t ^ 2 / 2

/-- Smallest grid spacing. -/
noncomputable def Spec.minSpacing (d3 : Bool) (S : Settings ℝ) : ℝ :=
  if d3 then min (min S.dx S.dy) S.dz else min S.dx S.dy

theorem Spec.minSpacing_pos (hs : Spacings d3 S) : 0 < minSpacing d3 S := by
  unfold minSpacing
  cases d3
  · simp [hs.dx, hs.dy]
  · simp [hs.dx, hs.dy, hs.dz rfl]

/-- The rate of the gravity functors in closed form. -/
theorem gravityRate {v k h : ℝ} (hk : 0 < k) :
    v * (k / (Real.sqrt (1 + 2 * k) - 1)) / h = v * (Real.sqrt (1 + 2 * k) + 1) / (2 * h) := by
  have h1 : 1 < Real.sqrt (1 + 2 * k) := by
    rw [Real.lt_sqrt (by norm_num)]; linarith
  have h2 : Real.sqrt (1 + 2 * k) ^ 2 = 1 + 2 * k := Real.sq_sqrt (by linarith)
  set s := Real.sqrt (1 + 2 * k)
  have h3 : k / (s - 1) = (s + 1) / 2 := by
    rw [div_eq_div_iff (by linarith) (by norm_num)]
    nlinarith
  rw [h3, mul_div_assoc', div_div]

/-- With `dt ≤ cfl/rate`, `v dt + a dt²/2 ≤ cfl·h`. -/
theorem travel_le {v a h cfl k M : ℝ} (hv : 0 < v) (ha : 0 ≤ a) (hh : 0 < h) (hc : 0 ≤ cfl)
    (hk : 0 < k) (hka : a * (cfl * h / (v * v)) ≤ k)
    (hM : v * (k / (Real.sqrt (1 + 2 * k) - 1)) / h ≤ M) :
    travel v a (cfl / M) ≤ cfl * h := by
  rw [gravityRate hk] at hM
  have h1 : 1 < Real.sqrt (1 + 2 * k) := by
    rw [Real.lt_sqrt (by norm_num)]; linarith
  have h2 : Real.sqrt (1 + 2 * k) ^ 2 = 1 + 2 * k := Real.sq_sqrt (by linarith)
  set s := Real.sqrt (1 + 2 * k)
  have hM0 : 0 < M := lt_of_lt_of_le (by positivity) hM
  set t := cfl / M with ht
  have ht0 : 0 ≤ t := by positivity
  have ht1 : t ≤ 2 * cfl * h / (v * (s + 1)) := by
    rw [le_div_iff₀ (by positivity), ht, div_mul_eq_mul_div, div_le_iff₀ hM0]
    rw [div_le_iff₀ (by positivity)] at hM
    nlinarith
  set T := 2 * cfl * h / (v * (s + 1)) with hT
  have hTt : travel v a t ≤ travel v a T := by
    unfold travel
    have : t ^ 2 ≤ T ^ 2 := pow_le_pow_left₀ ht0 ht1 2
    nlinarith [mul_le_mul_of_nonneg_left ht1 hv.le, mul_le_mul_of_nonneg_left this ha]
  refine hTt.trans ?_
  have hka' : a * (cfl * h) ≤ k * (v * v) := by
    rw [mul_div_assoc', div_le_iff₀ (by positivity)] at hka
    exact hka
  have hs1 : 0 < s + 1 := by linarith
  have eT : T * (v * (s + 1)) = 2 * cfl * h := by rw [hT]; field_simp
  -- travel = T (v + a T / 2), and a T / 2 ≤ k v / (s+1) = v (s-1)/2
  have hks : k = (s - 1) * (s + 1) / 2 := by nlinarith
  have hT0 : 0 ≤ T := ht0.trans ht1
  have haT : a * T ≤ v * (s - 1) := by
    have : a * T * (v * (s + 1)) ≤ v * (s - 1) * (v * (s + 1)) := by
      calc a * T * (v * (s + 1)) = 2 * (a * (cfl * h)) := by rw [mul_assoc, eT]; ring
        _ ≤ 2 * (k * (v * v)) := by linarith
        _ = v * (s - 1) * (v * (s + 1)) := by rw [hks]; ring
    exact le_of_mul_le_mul_right this (by positivity)
  unfold travel
  have : T * (a * T) ≤ T * (v * (s - 1)) := mul_le_mul_of_nonneg_left haT hT0
  nlinarith

/-- Speed and acceleration of the gas in a cell as the code sees them. -/
noncomputable def speedAt (d3 : Bool) (S : Settings ℝ) (U : Nat) (m : Addr → ℝ) (c : Cell) : ℝ :=
  let p := computePrimitives d3 S (field d3 m U c)
  |p.1.u| + p.2 + (|p.1.v| + p.2) + (if d3 then |p.1.w| + p.2 else 0)
noncomputable def accelAt (d3 : Bool) (m : Addr → ℝ) (c : Cell) : ℝ :=
  |m (c.at aG 0)| + |m (c.at aG 1)| + (if d3 then |m (c.at aG 2)| else 0)

theorem speedAt_pos (hS : GasParams S) (U : Nat) (c : Cell) : 0 < speedAt d3 S U m c := by
  have hc := (C31_physical d3 hS (field d3 m U c)).2.2.2.2.1
  have hz : 0 ≤ (if d3 then |(computePrimitives d3 S (field d3 m U c)).1.w| +
    (computePrimitives d3 S (field d3 m U c)).2 else 0) := by
    cases d3
    · simp
    · simp only [if_true]; positivity
  unfold speedAt
  simp only at hc ⊢
  positivity

theorem accelAt_nonneg (c : Cell) : 0 ≤ accelAt d3 m c := by
  unfold accelAt
  cases d3
  · simp only [Bool.false_eq_true, if_false]; positivity
  · simp only [if_true]; positivity

theorem rateAt_gravity (U : Nat) (c : Cell) : rateAt d3 S true U m c =
    (let v := speedAt d3 S U m c
     let k := max (accelAt d3 m c * (S.cfl * minSpacing d3 S / (v * v))) (1 / 10000)
     v * (k / (Real.sqrt (1 + 2 * k) - 1)) / minSpacing d3 S) := by
  simp only [rateAt, if_true, cflRateGravity, minSpacing, gfield, speedAt, accelAt]
  rops
  cases d3
  · simp only [Bool.false_eq_true, if_false, zero_add, add_zero]
    rw [add_comm _ |_|, add_comm _ |(computePrimitives false S (field false m U c)).1.v|]
  · simp only [if_true, zero_add]
    rw [add_comm _ |_|, add_comm _ |(computePrimitives true S (field true m U c)).1.v|,
      add_comm _ |(computePrimitives true S (field true m U c)).1.w|]

theorem rateAt_gravity_pos (hS : GasParams S) (hs : Spacings d3 S) (U : Nat) (c : Cell) :
    0 < rateAt d3 S true U m c := by
  have hh := minSpacing_pos hs
  have hv := speedAt_pos (m := m) (d3 := d3) hS U c
  rw [rateAt_gravity]
  simp only
  rw [gravityRate (lt_of_lt_of_le (by norm_num) (le_max_right _ _))]
  positivity

/-- **C59**: with gravity, in every interior cell a signal of speed `Σ(|velocity|+c)` accelerated by
the local gravity `Σ|g|` travels at most `cfl` times the smallest grid spacing during `dt`. -/
theorem C59_gravity_cfl (h : BoxSetup d3 (hydroVars d3) 2 P B) (hS : GasParams S)
    (hs : Spacings d3 S) (hcfl : 0 ≤ S.cfl) (hbot : bot ≤ 0) {Q : Nat → Nat → Nat → HState ℝ}
    (hQ : Holds d3 P S (bufIn it) m Q) (r : ComputeDtLocal bot d3 S P true it m dt) :
    ∀ i j k, i < P.nx.toNat → j < P.ny.toNat → k < depth d3 P →
      let q := Q i j k
      let c := soundSpeed S.gamma0 q
      let g := fun v => |m ((cell d3 P i j k).at aG v)|
      travel (|q.u| + c + (|q.v| + c) + (if d3 then |q.w| + c else 0))
        (g 0 + g 1 + (if d3 then g 2 else 0)) dt ≤ S.cfl * minSpacing d3 S := by
  obtain ⟨M, rfl, hM, h1, -⟩ :=
    computeDt_spec h hbot (fun c _ _ => rateAt_gravity_pos hS hs (bufIn it) c) r
  intro i j k a1 a2 a3
  obtain ⟨b1, b2⟩ := cell_box h a1 a2 a3
  have h2 := h1 _ b1 b2
  have h3 := speedAt_pos (m := m) (d3 := d3) hS (bufIn it) (cell d3 P i j k)
  rw [rateAt_gravity] at h2
  have ev : speedAt d3 S (bufIn it) m (cell d3 P i j k) =
      |(Q i j k).u| + soundSpeed S.gamma0 (Q i j k) + (|(Q i j k).v| + soundSpeed S.gamma0 (Q i j k)) +
        (if d3 then |(Q i j k).w| + soundSpeed S.gamma0 (Q i j k) else 0) := by
    simp only [speedAt, hQ.primitives hS a1 a2 a3]
  simp only
  rw [← ev]
  exact travel_le h3 (accelAt_nonneg _) (minSpacing_pos hs) hcfl
    (lt_of_lt_of_le (by norm_num) (le_max_right _ _)) (le_max_left _ _) h2

/-- **C59**: with gravity, too, the time step does not depend on the distribution of the work. -/
theorem C59_unique (h : BoxSetup d3 (hydroVars d3) 2 P B) (hS : GasParams S)
    (hs : Spacings d3 S) (hbot : bot ≤ 0) {dt' : ℝ}
    (r : ComputeDtLocal bot d3 S P true it m dt)
    (r' : ComputeDtLocal bot d3 S P true it m dt') : dt = dt' := by
  obtain ⟨M, rfl, -, h1, c, hb, hi, h2⟩ := computeDt_spec h hbot
    (fun c _ _ => rateAt_gravity_pos hS hs (bufIn it) c) r
  obtain ⟨M', rfl, -, h1', c', hb', hi', h2'⟩ := computeDt_spec h hbot
    (fun c _ _ => rateAt_gravity_pos hS hs (bufIn it) c) r'
  have : M = M' := le_antisymm (h2 ▸ h1' _ hb hi) (h2' ▸ h1 _ hb' hi')
  rw [this]

end Verif
