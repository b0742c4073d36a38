import Verif.Lemmas.InitHydro
import Verif.Lemmas.RealOps
import Verif.Props.C22_C26_HydroStep

/-! # C102: the initial states of the hydro solver are those of the problem described -/

namespace Verif

open Spec ROps TOps

variable {d3 : Bool} {S : Settings ℝ} {P : Grid} {D : Domain ℝ} {B : Sides}
  {m m' : Addr → ℝ} {Q : HydroProblem ℝ}

section helpers

theorem xAt_centre (i : Nat) : xAt S P D (P.ghostWidth + i) = centre D.xmin S.dx P.nx D.i_mpi i := by
  unfold xAt centre
  rops
  push_cast
  ring

theorem yAt_centre (i : Nat) : yAt S P D (P.ghostWidth + i) = centre D.ymin S.dy P.ny D.j_mpi i := by
  unfold yAt centre
  rops
  push_cast
  ring

theorem zAt_centre (i : Nat) : zAt S P D (P.ghostWidth + i) = centre D.zmin S.dz P.nz D.k_mpi i := by
  unfold zAt centre
  rops
  push_cast
  ring

theorem state_at (h : BoxSetup d3 (hydroVars d3) 2 P B) (r : Runs (hydroSetup d3 S P D Q) m m')
    {A : Nat} (hA : A = aU ∨ A = aU2) {i j k : Nat} (hi : i < P.nx.toNat) (hj : j < P.ny.toNat)
    (hk : k < depth d3 P) {v : Nat} (hv : v < hydroVars d3) :
    (initialAt d3 P m' A i j k).get v = lastOf (hydroValues d3 S P D Q (cell d3 P i j k)) v
      (m ((cell d3 P i j k).at aU v)) := by
  obtain ⟨hb, hin⟩ := cell_box h hi hj hk
  rw [← (hydro_setup_run h r).1 _ v A hA hb hin hv]
  have hv5 : v < 5 := lt_of_lt_of_le hv (by cases d3 <;> decide)
  interval_cases v <;> rfl

theorem samples_of (h : BoxSetup d3 (hydroVars d3) 2 P B) (r : Runs (hydroSetup d3 S P D Q) m m')
    {G : ℝ → ℝ → ℝ → PointGas}
    (H : ∀ (c : Cell) (z : ℝ), (d3 = true → z = zAt S P D c.k) → ∀ v, v < hydroVars d3 → ∀ x,
      lastOf (hydroValues d3 S P D Q c) v x =
        ((G (xAt S P D c.i) (yAt S P D c.j) z).conserved S.gamma0).get v) :
    Samples d3 S P D m' G := by
  intro A hA i j k hi hj hk
  have key := fun v hv => (state_at h r hA hi hj hk (v := v) hv).trans
    (H (cell d3 P i j k) (centre D.zmin S.dz P.nz D.k_mpi k) (by
      intro hd; simp only [cell, hd, if_true]; exact (zAt_centre k).symm) v hv _)
  have ex : xAt S P D (cell d3 P i j k).i = centre D.xmin S.dx P.nx D.i_mpi i := xAt_centre i
  have ey : yAt S P D (cell d3 P i j k).j = centre D.ymin S.dy P.ny D.j_mpi j := yAt_centre j
  rw [ex, ey] at key
  exact ⟨key 0 (by cases d3 <;> decide), key 1 (by cases d3 <;> decide),
    key 2 (by cases d3 <;> decide), key 3 (by cases d3 <;> decide),
    fun hd => key 4 (by rw [hd]; decide)⟩

/-- Components of a list of stored values. -/
theorem by_vars {d3 : Bool} {l : List (Nat × ℝ)} {q : HState ℝ}
    (h : ∀ x, lastOf l 0 x = q.d ∧ lastOf l 1 x = q.p ∧ lastOf l 2 x = q.u ∧ lastOf l 3 x = q.v ∧
      (d3 = true → lastOf l 4 x = q.w)) : ∀ v, v < hydroVars d3 → ∀ x, lastOf l v x = q.get v := by
  intro v hv x
  obtain ⟨h0, h1, h2, h3, h4⟩ := h x
  cases d3
  · have : v = 0 ∨ v = 1 ∨ v = 2 ∨ v = 3 := by simp [hydroVars] at hv; omega
    rcases this with rfl | rfl | rfl | rfl <;> assumption
  · have : v = 0 ∨ v = 1 ∨ v = 2 ∨ v = 3 ∨ v = 4 := by simp [hydroVars] at hv; omega
    rcases this with rfl | rfl | rfl | rfl | rfl <;> first | assumption | exact h4 rfl

theorem same_of (h : BoxSetup d3 (hydroVars d3) 2 P B) (r : Runs (hydroSetup d3 S P D Q) m m')
    {A : Nat} (hA : A = aU ∨ A = aU2) {i j k : Nat} (hi : i < P.nx.toNat) (hj : j < P.ny.toNat)
    (hk : k < depth d3 P) {q : HState ℝ} (H : ∀ v, v < hydroVars d3 → ∀ x,
      lastOf (hydroValues d3 S P D Q (cell d3 P i j k)) v x = q.get v) :
    SameState d3 (initialAt d3 P m' A i j k) q := by
  have key := fun v hv => (state_at h r hA hi hj hk (v := v) hv).trans (H v hv _)
  exact ⟨key 0 (by cases d3 <;> decide), key 1 (by cases d3 <;> decide),
    key 2 (by cases d3 <;> decide), key 3 (by cases d3 <;> decide),
    fun hd => key 4 (by rw [hd]; decide)⟩

theorem half_noise {a x : ℝ} (hx : 0 ≤ x ∧ x ≤ 1) : |a * (x - 1 / 2)| ≤ |a| / 2 := by
  rw [abs_mul]
  have : |x - 1 / 2| ≤ 1 / 2 := abs_le.2 ⟨by linarith [hx.1], by linarith [hx.2]⟩
  nlinarith [abs_nonneg a]

theorem outside_iff (h : ℝ) : (ltb h (lit (1/4)) || gtb h (lit (3/4))) = true ↔
    ¬ (1 / 4 ≤ h ∧ h ≤ 3 / 4) := by
  rw [Bool.or_eq_true]
  rops
  rw [not_and_or, not_le, not_le]

theorem sqrt_lt_iff_sq {a b : ℝ} (ha : 0 ≤ a) (hb : 0 ≤ b) : √a < b ↔ a < b * b := by
  rcases hb.lt_or_eq with hb | rfl
  · rw [Real.sqrt_lt' hb, sq]
  · constructor
    · intro h; exact absurd h (not_lt.2 (Real.sqrt_nonneg a))
    · intro h; linarith

/-- Components, for the two usual orders of the stores. -/
theorem vars_dpuv {a b c e : ℝ} {q : HState ℝ} (h : a = q.d ∧ b = q.p ∧ c = q.u ∧ e = q.v) :
    ∀ v, v < hydroVars false → ∀ x, lastOf [(ID, a), (IP, b), (IU, c), (IV, e)] v x = q.get v :=
  by_vars fun _ => ⟨h.1, h.2.1, h.2.2.1, h.2.2.2, fun h => by cases h⟩
theorem vars_dpuvw {a b c e f : ℝ} {q : HState ℝ}
    (h : a = q.d ∧ b = q.p ∧ c = q.u ∧ e = q.v ∧ f = q.w) : ∀ v, v < hydroVars true → ∀ x,
      lastOf [(ID, a), (IP, b), (IU, c), (IV, e), (IW, f)] v x = q.get v :=
  by_vars fun _ => ⟨h.1, h.2.1, h.2.2.1, h.2.2.2.1, fun _ => h.2.2.2.2⟩
theorem vars_duvp {a b c e : ℝ} {q : HState ℝ} (h : a = q.d ∧ b = q.p ∧ c = q.u ∧ e = q.v) :
    ∀ v, v < hydroVars false → ∀ x, lastOf [(ID, a), (IU, c), (IV, e), (IP, b)] v x = q.get v :=
  by_vars fun _ => ⟨h.1, h.2.1, h.2.2.1, h.2.2.2, fun h => by cases h⟩
theorem vars_duvwp {a b c e f : ℝ} {q : HState ℝ}
    (h : a = q.d ∧ b = q.p ∧ c = q.u ∧ e = q.v ∧ f = q.w) : ∀ v, v < hydroVars true → ∀ x,
      lastOf [(ID, a), (IU, c), (IV, e), (IW, f), (IP, b)] v x = q.get v :=
  by_vars fun _ => ⟨h.1, h.2.1, h.2.2.1, h.2.2.2.1, fun _ => h.2.2.2.2⟩

end helpers

/-- **C102**: the set-up is well defined: in any arithmetic, under all schedules, all accesses are in bounds
and the result is unique, provided that the gravity field has been allocated where it is set. -/
theorem C102_setup {α : Type} [TOps α] {d3 : Bool} {S : Settings α} {P : Grid} {D : Domain α}
    {B : Sides} {impl : Int} {grav : Bool} (h : BoxSetup d3 (hydroVars d3) 2 P B)
    (himpl : impl = 0 ∨ impl = 1) (Q : HydroProblem α) (hG : HasGravity Q → grav = true)
    (m : Addr → α) :
    ∃ m', YieldsAll (hydroDom d3 P impl grav) (hydroSetup d3 S P D Q) m m' := by
  obtain ⟨m', y, -⟩ := hydro_setup (S := S) (D := D) h himpl hG m
  exact ⟨m', y⟩

/-- There are runs of the set-up of all problems. -/
theorem example_run (d3 : Bool) (b : BC) (D : Domain ℝ) (Q : HydroProblem ℝ) (m : Addr → ℝ) :
    ∃ m', Runs (hydroSetup d3 exampleSettings (exampleBox d3 b) D Q) m m' := by
  obtain ⟨m', y⟩ := C102_setup (S := exampleSettings) (D := D) (impl := 0) (grav := true)
    (exampleBox_setup d3 b) (Or.inl rfl) Q (fun _ => rfl) m
  exact ⟨m', y.run⟩

/-- **C102**: the blast. -/
theorem C102_blast {p : BlastParams ℝ} (h : BoxSetup d3 (hydroVars d3) 2 P B)
    (r : Runs (hydroSetup d3 S P D (.blast p)) m m') (hr : 0 ≤ p.blast_radius) :
    Samples d3 S P D m' (blastGas d3 p) := by
  refine samples_of h r fun c z hz => ?_
  have e : ∀ G : PointGas, G.u = 0 → G.v = 0 → G.w = 0 → ∀ v, v < hydroVars d3 → ∀ x,
      lastOf ([(ID, G.rho), (IP, G.p / (S.gamma0 - lit 1)), (IU, lit 0), (IV, lit 0)] ++
        (if d3 then [(IW, lit 0)] else [])) v x = (G.conserved S.gamma0).get v := by
    intro G hu hv hw
    cases d3
    · refine vars_dpuv ?_
      simp only [PointGas.conserved, hu, hv, hw]
      rops
      simp
    · refine vars_dpuvw ?_
      simp only [PointGas.conserved, hu, hv, hw]
      rops
      simp
  simp only [hydroValues, blastHydro, blastGas]
  have key : ltb (if d3 = true then
        (xAt S P D c.i - p.blast_center_x) * (xAt S P D c.i - p.blast_center_x) +
          (yAt S P D c.j - p.blast_center_y) * (yAt S P D c.j - p.blast_center_y) +
          (zAt S P D c.k - p.blast_center_z) * (zAt S P D c.k - p.blast_center_z)
      else (xAt S P D c.i - p.blast_center_x) * (xAt S P D c.i - p.blast_center_x) +
          (yAt S P D c.j - p.blast_center_y) * (yAt S P D c.j - p.blast_center_y))
        (p.blast_radius * p.blast_radius) = true ↔
      √((xAt S P D c.i - p.blast_center_x) ^ 2 + (yAt S P D c.j - p.blast_center_y) ^ 2 +
        (if d3 then (z - p.blast_center_z) ^ 2 else 0)) < p.blast_radius := by
    rw [sqrt_lt_iff_sq (by split_ifs <;> positivity) hr]
    rw [show ∀ a b : ℝ, ltb a b = decide (a < b) from fun _ _ => rfl, decide_eq_true_iff]
    cases d3
    · simp only [Bool.false_eq_true, if_false, sq, add_zero]
    · simp only [if_true, sq, hz rfl]
  by_cases h2 : √((xAt S P D c.i - p.blast_center_x) ^ 2 + (yAt S P D c.j - p.blast_center_y) ^ 2 +
      (if d3 then (z - p.blast_center_z) ^ 2 else 0)) < p.blast_radius
  · rw [if_pos (key.2 h2), if_pos h2]
    exact e ⟨_, _, 0, 0, 0⟩ rfl rfl rfl
  · rw [if_neg (fun h1 => h2 (key.1 h1)), if_neg h2]
    exact e ⟨_, _, 0, 0, 0⟩ rfl rfl rfl

example (m : Addr → ℝ) (D : Domain ℝ) : ∃ m',
    Runs (hydroSetup true exampleSettings (exampleBox true .reflecting) D
      (.blast ⟨1/4, 1/2, 1/2, 1/2, 2, 1, 10, 1/10⟩)) m m' ∧
    Samples true exampleSettings (exampleBox true .reflecting) D m'
      (blastGas true ⟨1/4, 1/2, 1/2, 1/2, 2, 1, 10, 1/10⟩) := by
  obtain ⟨m', r⟩ := example_run true .reflecting D (.blast ⟨1/4, 1/2, 1/2, 1/2, 2, 1, 10, 1/10⟩) m
  exact ⟨m', r, C102_blast (exampleBox_setup true .reflecting) r (by norm_num)⟩

/-- **C102**: smooth shear layers in 2D. -/
theorem C102_shear2 {p : KHParams ℝ} {rnd : Cell → Nat → ℝ} (h : BoxSetup false 4 2 P B)
    (r : Runs (hydroSetup false S P D (.kelvinHelmholtz p rnd)) m m') (h1 : p.p_rand = false)
    (h2 : p.p_sine_rob = true) : Samples false S P D m' (shearGas2 p) := by
  refine samples_of h r fun c z _ => ?_
  simp only [hydroValues, khHydro2, h1, h2, Bool.false_eq_true, if_false, if_true]
  refine vars_duvp ?_
  simp only [PointGas.conserved, shearGas2, layers]
  simp only [TOps.exp, TOps.sin, TOps.pi]
  rops
  push_cast
  refine ⟨?_, ?_, ?_, ?_⟩ <;> first | trivial | ring

/-- **C102**: smooth shear layers in 3D. -/
theorem C102_shear3 {p : KHParams ℝ} {rnd : Cell → Nat → ℝ} (h : BoxSetup true 5 2 P B)
    (r : Runs (hydroSetup true S P D (.kelvinHelmholtz p rnd)) m m') (h1 : p.p_rand = false)
    (h2 : p.p_sine_rob = true) : Samples true S P D m' (shearGas3 p) := by
  refine samples_of h r fun c z hz => ?_
  rw [hz rfl]
  simp only [hydroValues, khHydro3, h1, h2, Bool.false_eq_true, if_false, if_true]
  refine vars_duvwp ?_
  simp only [PointGas.conserved, shearGas3, layers]
  simp only [TOps.exp, TOps.sin, TOps.pi]
  rops
  push_cast
  refine ⟨?_, ?_, ?_, ?_, ?_⟩ <;> first | trivial | ring

/-- **C102**: sharp shear layers with a random perturbation of the velocity of at most half the amplitude,
in 2D. -/
theorem C102_sharp2 {p : KHParams ℝ} {rnd : Cell → Nat → ℝ} (h : BoxSetup false 4 2 P B)
    (r : Runs (hydroSetup false S P D (.kelvinHelmholtz p rnd)) m m') (h1 : p.p_rand = true)
    (hr : ∀ c n, 0 ≤ rnd c n ∧ rnd c n ≤ 1) {A i j : Nat} (hA : A = aU ∨ A = aU2)
    (hi : i < P.nx.toNat) (hj : j < P.ny.toNat) :
    ∃ a b, |a| ≤ |p.amplitude| / 2 ∧ |b| ≤ |p.amplitude| / 2 ∧
      SameState false (initialAt false P m' A i j 0)
        ((sharpGas p ((centre D.ymin S.dy P.ny D.j_mpi j - D.ymin) / (D.ymax - D.ymin)) a b 0).conserved
          S.gamma0) := by
  refine ⟨_, _, half_noise (hr (cell false P i j 0) 0), half_noise (hr (cell false P i j 0) 1),
    same_of h r hA hi hj (k := 0) (by simp [depth]) ?_⟩
  simp only [hydroValues, khHydro2, h1, Bool.false_eq_true, if_false, if_true]
  refine vars_duvp ?_
  rw [show yAt S P D (cell false P i j 0).j = centre D.ymin S.dy P.ny D.j_mpi j from yAt_centre j]
  generalize hh : (centre D.ymin S.dy P.ny D.j_mpi j - D.ymin) / (D.ymax - D.ymin) = y
  unfold sharpGas
  by_cases ho : 1 / 4 ≤ y ∧ y ≤ 3 / 4
  · have hb : ¬ (ltb y (lit (1/4)) || gtb y (lit (3/4))) = true := fun e => (outside_iff y).1 e ho
    simp only [if_pos ho, if_neg hb, PointGas.conserved]
    rops
    refine ⟨?_, ?_, ?_, ?_⟩ <;> first | trivial | ring
  · have hb := (outside_iff y).2 ho
    simp only [if_neg ho, if_pos hb, PointGas.conserved]
    rops
    refine ⟨?_, ?_, ?_, ?_⟩ <;> first | trivial | ring

/-- **C102**: the same in 3D. -/
theorem C102_sharp3 {p : KHParams ℝ} {rnd : Cell → Nat → ℝ} (h : BoxSetup true 5 2 P B)
    (r : Runs (hydroSetup true S P D (.kelvinHelmholtz p rnd)) m m') (h1 : p.p_rand = true)
    (hr : ∀ c n, 0 ≤ rnd c n ∧ rnd c n ≤ 1) {A i j k : Nat} (hA : A = aU ∨ A = aU2)
    (hi : i < P.nx.toNat) (hj : j < P.ny.toNat) (hk : k < P.nz.toNat) :
    ∃ a b c, |a| ≤ |p.amplitude| / 2 ∧ |b| ≤ |p.amplitude| / 2 ∧ |c| ≤ |p.amplitude| / 2 ∧
      SameState true (initialAt true P m' A i j k)
        ((sharpGas p ((centre D.zmin S.dz P.nz D.k_mpi k - D.zmin) / (D.zmax - D.zmin)) a b c).conserved
          S.gamma0) := by
  refine ⟨_, _, _, half_noise (hr (cell true P i j k) 0), half_noise (hr (cell true P i j k) 1),
    half_noise (hr (cell true P i j k) 2), same_of h r hA hi hj (by simpa [depth] using hk) ?_⟩
  simp only [hydroValues, khHydro3, h1, if_true]
  refine vars_duvwp ?_
  rw [show zAt S P D (cell true P i j k).k = centre D.zmin S.dz P.nz D.k_mpi k from zAt_centre k]
  generalize hh : (centre D.zmin S.dz P.nz D.k_mpi k - D.zmin) / (D.zmax - D.zmin) = y
  unfold sharpGas
  by_cases ho : 1 / 4 ≤ y ∧ y ≤ 3 / 4
  · have hb : ¬ (ltb y (lit (1/4)) || gtb y (lit (3/4))) = true := fun e => (outside_iff y).1 e ho
    simp only [if_pos ho, if_neg hb, PointGas.conserved]
    rops
    refine ⟨?_, ?_, ?_, ?_, ?_⟩ <;> first | trivial | ring
  · have hb := (outside_iff y).2 ho
    simp only [if_neg ho, if_pos hb, PointGas.conserved]
    rops
    refine ⟨?_, ?_, ?_, ?_, ?_⟩ <;> first | trivial | ring

/-- **C102**: without a choice of the perturbation, the shear layers are not set up at all: on freshly
allocated memory the density is zero everywhere. -/
theorem C102_shear_none {p : KHParams ℝ} {rnd : Cell → Nat → ℝ}
    (h : BoxSetup d3 (hydroVars d3) 2 P B)
    (r : Runs (hydroSetup d3 S P D (.kelvinHelmholtz p rnd)) m m') (hm : Fresh m)
    (h1 : p.p_rand = false) (h2 : p.p_sine_rob = false) {i j k : Nat} (hi : i < P.nx.toNat)
    (hj : j < P.ny.toNat) (hk : k < depth d3 P) : (initialAt d3 P m' aU i j k).d = 0 := by
  have := state_at h r (Or.inl rfl) hi hj hk (v := 0) (by cases d3 <;> decide)
  refine this.trans ?_
  have e : hydroValues d3 S P D (.kelvinHelmholtz p rnd) (cell d3 P i j k) = [] := by
    cases d3 <;> simp [hydroValues, khHydro2, khHydro3, h1, h2]
  rw [e]
  show m _ = 0
  rw [hm]; rops

theorem polar {x y : ℝ} : √(x * x + y * y) * Real.cos (Complex.arg ⟨x, y⟩) = x ∧
    √(x * x + y * y) * Real.sin (Complex.arg ⟨x, y⟩) = y := by
  have e : ‖(⟨x, y⟩ : ℂ)‖ = √(x * x + y * y) := by
    rw [Complex.norm_def, Complex.normSq_apply]
  rw [← e]
  exact ⟨Complex.norm_mul_cos_arg _, Complex.norm_mul_sin_arg _⟩

/-- Circular velocity along the axes. -/
theorem gresho_uv {p0 x y : ℝ} :
    Real.cos (Complex.arg ⟨x, y⟩) * (greshoProfile p0 √(x * x + y * y)).1 =
        x * greshoOmega √(x ^ 2 + y ^ 2) ∧
      Real.sin (Complex.arg ⟨x, y⟩) * (greshoProfile p0 √(x * x + y * y)).1 =
        y * greshoOmega √(x ^ 2 + y ^ 2) ∧
      (greshoProfile p0 √(x * x + y * y)).2 = greshoPressure p0 √(x ^ 2 + y ^ 2) := by
  obtain ⟨hc, hs⟩ := polar (x := x) (y := y)
  rw [show x ^ 2 + y ^ 2 = x * x + y * y by ring]
  generalize √(x * x + y * y) = r at hc hs ⊢
  generalize Real.cos (Complex.arg ⟨x, y⟩) = C at hc ⊢
  generalize Real.sin (Complex.arg ⟨x, y⟩) = T at hs ⊢
  subst hc hs
  unfold greshoProfile greshoOmega greshoPressure
  simp only [show ∀ a b : ℝ, ltb a b = decide (a < b) from fun _ _ => rfl, decide_eq_true_eq,
    TOps.log]
  rops
  push_cast
  split_ifs with h1 h2
  · refine ⟨by ring, by ring, by ring⟩
  · have h0 : 0 < r := by linarith [not_lt.1 h1]
    refine ⟨by field_simp, by field_simp, ?_⟩
    rw [Real.log_mul (by norm_num) h0.ne', show (1 : ℝ) / 5 = 5⁻¹ by norm_num, Real.log_inv]
    ring
  · refine ⟨by ring, by ring, by ring⟩

/-- **C102**: the Gresho vortex in 2D. -/
theorem C102_gresho {p : GreshoParams ℝ} (h : BoxSetup false 4 2 P B)
    (r : Runs (hydroSetup false S P D (.gresho p)) m m') :
    Samples false S P D m' (greshoGas S.gamma0 p) := by
  refine samples_of h r fun c z _ => ?_
  simp only [hydroValues, greshoHydro, Bool.false_eq_true, if_false]
  refine vars_duvp ?_
  simp only [PointGas.conserved, greshoGas, TOps.cos, TOps.sin, TOps.atan2]
  rops
  generalize xAt S P D c.i = x
  generalize yAt S P D c.j = y
  rw [show S.gamma0 * p.Ma * p.Ma = S.gamma0 * p.Ma ^ 2 by ring]
  obtain ⟨h1, h2, h3⟩ := gresho_uv (p0 := p.rho0 / (S.gamma0 * p.Ma ^ 2)) (x := x) (y := y)
  rw [h1, neg_mul, h2, h3]
  refine ⟨trivial, ?_, by ring, rfl⟩
  by_cases h0 : p.rho0 = 0
  · simp [h0]
  · field_simp; ring

/-- **C102**: in 3D the Gresho vortex moves along the third axis as it does along the second one. -/
theorem C102_gresho3 {p : GreshoParams ℝ} (h : BoxSetup true 5 2 P B)
    (r : Runs (hydroSetup true S P D (.gresho p)) m m') :
    Samples true S P D m' (fun x y z =>
      { greshoGas S.gamma0 p x y z with w := (greshoGas S.gamma0 p x y z).v }) := by
  refine samples_of h r fun c z _ => ?_
  simp only [hydroValues, greshoHydro, if_true]
  refine vars_duvwp ?_
  simp only [PointGas.conserved, greshoGas, TOps.cos, TOps.sin, TOps.atan2]
  rops
  generalize xAt S P D c.i = x
  generalize yAt S P D c.j = y
  rw [show S.gamma0 * p.Ma * p.Ma = S.gamma0 * p.Ma ^ 2 by ring]
  obtain ⟨h1, h2, h3⟩ := gresho_uv (p0 := p.rho0 / (S.gamma0 * p.Ma ^ 2)) (x := x) (y := y)
  rw [h1, neg_mul, h2, h3]
  refine ⟨trivial, ?_, by ring, rfl, rfl⟩
  by_cases h0 : p.rho0 = 0
  · simp [h0]
  · field_simp

/-- **C102**: hence it is not the Gresho vortex if the centre of any cell lies within the vortex off the
second axis. -/
theorem C102_gresho3_wrong {p : GreshoParams ℝ} (h : BoxSetup true 5 2 P B)
    (r : Runs (hydroSetup true S P D (.gresho p)) m m') (h0 : p.rho0 ≠ 0) {i j k : Nat}
    (hi : i < P.nx.toNat) (hj : j < P.ny.toNat) (hk : k < P.nz.toNat)
    (hx : centre D.xmin S.dx P.nx D.i_mpi i ≠ 0)
    (hr : √((centre D.xmin S.dx P.nx D.i_mpi i) ^ 2 + (centre D.ymin S.dy P.ny D.j_mpi j) ^ 2) < 2 / 5) :
    ¬ Samples true S P D m' (greshoGas S.gamma0 p) := by
  intro hs
  have a := (C102_gresho3 h r aU (Or.inl rfl) i j k hi hj (by simpa [depth] using hk)).2.2.2.2 rfl
  have b := (hs aU (Or.inl rfl) i j k hi hj (by simpa [depth] using hk)).2.2.2.2 rfl
  rw [a] at b
  simp only [PointGas.conserved, greshoGas, mul_zero] at b
  rcases mul_eq_zero.1 b with e | e
  · exact h0 e
  rcases mul_eq_zero.1 e with e | e
  · exact hx e
  revert e
  unfold greshoOmega
  have hp : 0 < √((centre D.xmin S.dx P.nx D.i_mpi i) ^ 2 + (centre D.ymin S.dy P.ny D.j_mpi j) ^ 2) :=
    Real.sqrt_pos.2 (add_pos_of_pos_of_nonneg (lt_of_le_of_ne (sq_nonneg _) (Ne.symm (pow_ne_zero 2 hx))) (sq_nonneg _))
  split_ifs with h1
  · norm_num
  · intro e
    rcases div_eq_zero_iff.1 e with e | e <;> linarith

/-- **C102**: the isentropic vortex. -/
theorem C102_vortex {p : IsentropicVortexParams ℝ} (h : BoxSetup false 4 2 P B)
    (r : Runs (hydroSetup false S P D (.isentropicVortex p)) m m') :
    Samples false S P D m' (vortexGas S.gamma0 p) := by
  refine samples_of h r fun c z _ => ?_
  simp only [hydroValues, isentropicVortex]
  refine vars_duvp ?_
  simp only [PointGas.conserved, vortexGas, TOps.exp, TOps.pow, TOps.pi]
  rops
  generalize xAt S P D c.i - p.vortex_x = a
  generalize yAt S P D c.j - p.vortex_y = b
  have e1 : √(a * a + b * b) * √(a * a + b * b) = a ^ 2 + b ^ 2 := by
    rw [Real.mul_self_sqrt (add_nonneg (mul_self_nonneg a) (mul_self_nonneg b))]; ring
  simp only [e1]
  have e2 : Real.exp (1 - (a ^ 2 + b ^ 2)) = Real.exp ((1 - (a ^ 2 + b ^ 2)) / 2) ^ 2 := by
    rw [← Real.exp_nat_mul]; congr 1; push_cast; ring
  rw [e2, show (1 : ℝ) / 2 * (1 - (a ^ 2 + b ^ 2)) = (1 - (a ^ 2 + b ^ 2)) / 2 by ring]
  generalize Real.exp ((1 - (a ^ 2 + b ^ 2)) / 2) = E
  have e3 : p.T_a - (S.gamma0 - 1) * p.beta * p.beta / (8 * S.gamma0 * Real.pi * Real.pi) * E ^ 2 =
      p.T_a - (S.gamma0 - 1) / (2 * S.gamma0) * (p.beta / (2 * Real.pi) * E) ^ 2 := by ring
  rw [e3]
  refine ⟨?_, ?_, ?_, ?_⟩ <;> first | trivial | ring

/-- **C102**: the rising bubble. -/
theorem C102_bubble {p : RisingBubbleParams ℝ} (h : BoxSetup d3 (hydroVars d3) 2 P B)
    (r : Runs (hydroSetup d3 S P D (.risingBubble p)) m m') :
    Samples d3 S P D m' (bubbleGas d3 p) := by
  refine samples_of h r fun c z hz => ?_
  simp only [hydroValues, risingBubble, bubbleGas, restGas,
    show ∀ a b : ℝ, ltb a b = decide (a < b) from fun _ _ => rfl, decide_eq_true_eq]
  cases d3
  · simp only [Bool.false_eq_true, if_false]
    refine vars_duvp ?_
    simp only [PointGas.conserved]
    rops
    simp only [← sq, add_zero]
    refine ⟨?_, ?_, ?_, ?_⟩ <;> first | trivial | ring
  · rw [hz rfl]
    simp only [if_true]
    refine vars_duvwp ?_
    simp only [PointGas.conserved]
    rops
    simp only [← sq]
    refine ⟨?_, ?_, ?_, ?_, ?_⟩ <;> first | trivial | ring

/-- **C102**: the Rayleigh-Taylor problem without perturbation. -/
theorem C102_rayleighTaylor {p : RayleighTaylorParams ℝ} (h : BoxSetup d3 (hydroVars d3) 2 P B)
    (r : Runs (hydroSetup d3 S P D (.rayleighTaylor p)) m m') (ha : p.amplitude = 0) :
    Samples d3 S P D m' (layeredGas d3 D p fun _ _ _ => 0) := by
  refine samples_of h r fun c z hz => ?_
  simp only [hydroValues, rayleighTaylor, layeredGas, restGas, ha,
    show ∀ a b : ℝ, gtb a b = decide (b < a) from fun _ _ => rfl, decide_eq_true_eq]
  cases d3
  · simp only [Bool.false_eq_true, if_false]
    refine vars_duvp ?_
    simp only [PointGas.conserved]
    rops
    refine ⟨?_, ?_, ?_, ?_⟩ <;> first | trivial | ring
  · rw [hz rfl]
    simp only [if_true]
    refine vars_duvwp ?_
    simp only [PointGas.conserved]
    rops
    refine ⟨?_, ?_, ?_, ?_, ?_⟩ <;> first | trivial | ring

theorem rti_state {p : RayleighTaylorParams ℝ} (h : BoxSetup d3 (hydroVars d3) 2 P B)
    (r : Runs (hydroSetup d3 S P D (.rayleighTaylor p)) m m') {A i j k : Nat} (hA : A = aU ∨ A = aU2)
    (hi : i < P.nx.toNat) (hj : j < P.ny.toNat) (hk : k < depth d3 P) {x y z b : ℝ}
    (hx : x = centre D.xmin S.dx P.nx D.i_mpi i) (hy : y = centre D.ymin S.dy P.ny D.j_mpi j)
    (hz : z = centre D.zmin S.dz P.nz D.k_mpi k) (hb : b = bump D p.amplitude x y) :
    SameState d3 (initialAt d3 P m' A i j k) ⟨(layeredGas d3 D p (fun _ _ _ => 0) x y z).rho,
      (layeredGas d3 D p (fun _ _ _ => 0) x y z).p / (S.gamma0 - 1), 0, if d3 then 0 else b,
      if d3 then b else 0⟩ := by
  refine same_of h r hA hi hj hk ?_
  have ex : xAt S P D (cell d3 P i j k).i = x := (xAt_centre i).trans hx.symm
  have ey : yAt S P D (cell d3 P i j k).j = y := (yAt_centre j).trans hy.symm
  have ez : d3 = true → zAt S P D (cell d3 P i j k).k = z := fun hd => by
    simp only [cell, hd, if_true]; exact (zAt_centre k).trans hz.symm
  simp only [hydroValues, rayleighTaylor, layeredGas, restGas, ex, ey, hb, bump,
    show ∀ a b : ℝ, gtb a b = decide (b < a) from fun _ _ => rfl, decide_eq_true_eq, TOps.cos, TOps.pi]
  cases d3
  · simp only [Bool.false_eq_true, if_false]
    refine vars_duvp ?_
    rops
    refine ⟨?_, ?_, ?_, ?_⟩ <;> first | trivial | ring
  · rw [ez rfl]
    simp only [if_true]
    refine vars_duvwp ?_
    rops
    refine ⟨?_, ?_, ?_, ?_, ?_⟩ <;> first | trivial | ring

/-- **C102**: with a perturbation, the gas moves at `bump / rho`, and its pressure falls short of the
hydrostatic one by `gamma - 1` times its kinetic energy. -/
theorem C102_rayleighTaylor_wrong {p : RayleighTaylorParams ℝ}
    (h : BoxSetup d3 (hydroVars d3) 2 P B)
    (r : Runs (hydroSetup d3 S P D (.rayleighTaylor p)) m m') (hd : p.d0 ≠ 0 ∧ p.d1 ≠ 0)
    (hg : S.gamma0 ≠ 1) {A i j k : Nat} (hA : A = aU ∨ A = aU2) (hi : i < P.nx.toNat)
    (hj : j < P.ny.toNat) (hk : k < depth d3 P) {x y z b : ℝ}
    (hx : x = centre D.xmin S.dx P.nx D.i_mpi i) (hy : y = centre D.ymin S.dy P.ny D.j_mpi j)
    (hz : z = centre D.zmin S.dz P.nz D.k_mpi k) (hb : b = bump D p.amplitude x y)
    {g : PointGas} (hs : SameState d3 (initialAt d3 P m' A i j k) (g.conserved S.gamma0))
    (hw : d3 = false → g.w = 0) :
    g.u = 0 ∧ (if d3 then g.v = 0 ∧ g.w = b / g.rho else g.v = b / g.rho) ∧
      g.rho = (layeredGas d3 D p (fun _ _ _ => 0) x y z).rho ∧
      g.p = (layeredGas d3 D p (fun _ _ _ => 0) x y z).p - (S.gamma0 - 1) * (b ^ 2 / (2 * g.rho)) := by
  obtain ⟨a0, a1, a2, a3, a4⟩ := rti_state h r hA hi hj hk hx hy hz hb
  obtain ⟨c0, c1, c2, c3, c4⟩ := hs
  have hr : (layeredGas d3 D p (fun _ _ _ => 0) x y z).rho ≠ 0 := by
    simp only [layeredGas, restGas]
    rcases ite_eq_or_eq (if d3 = true then (D.zmin + D.zmax) / 2 < z else (D.ymin + D.ymax) / 2 < y)
      p.d1 p.d0 with e | e <;> rw [e]
    exacts [hd.2, hd.1]
  generalize (layeredGas d3 D p (fun _ _ _ => 0) x y z).rho = R at *
  generalize (layeredGas d3 D p (fun _ _ _ => 0) x y z).p = p0 at *
  rw [a0] at c0; rw [a1] at c1; rw [a2] at c2; rw [a3] at c3
  simp only [PointGas.conserved] at c0 c1 c2 c3 c4
  have hg' : S.gamma0 - 1 ≠ 0 := sub_ne_zero.2 hg
  obtain ⟨rho, p', u, v, w⟩ := g
  dsimp only at *
  subst c0
  have hu : u = 0 := by rcases mul_eq_zero.1 c2.symm with e | e; exacts [absurd e hr, e]
  subst hu
  cases d3
  · simp only [Bool.false_eq_true, if_false] at *
    obtain rfl := hw trivial
    have hv : v = b / R := by rw [c3]; field_simp
    refine ⟨trivial, hv, trivial, ?_⟩
    subst hv
    field_simp at c1 ⊢
    linear_combination -c1
  · simp only [if_true] at *
    have c4 := c4 trivial
    rw [a4 trivial] at c4
    have hv : v = 0 := by rcases mul_eq_zero.1 c3.symm with e | e; exacts [absurd e hr, e]
    subst hv
    have hw : w = b / R := by rw [c4]; field_simp
    refine ⟨trivial, ⟨rfl, hw⟩, trivial, ?_⟩
    subst hw
    field_simp at c1 ⊢
    linear_combination -c1

theorem implode_state {p : ImplodeParams ℝ} (h : BoxSetup d3 (hydroVars d3) 2 P B)
    (r : Runs (hydroSetup d3 S P D (.implode p)) m m') {A i j k : Nat} (hA : A = aU ∨ A = aU2)
    (hi : i < P.nx.toNat) (hj : j < P.ny.toNat) (hk : k < depth d3 P) {G : PointGas}
    (hG : G = implodeGas d3 D p (centre D.xmin S.dx P.nx D.i_mpi i)
      (centre D.ymin S.dy P.ny D.j_mpi j) (centre D.zmin S.dz P.nz D.k_mpi k)) :
    SameState d3 (initialAt d3 P m' A i j k)
      ⟨G.rho, G.p / (S.gamma0 - 1) + G.rho * (G.u ^ 2 + G.v ^ 2 + G.w ^ 2) / 2, G.u, G.v, G.w⟩ := by
  refine same_of h r hA hi hj hk ?_
  have ex : xAt S P D (cell d3 P i j k).i = centre D.xmin S.dx P.nx D.i_mpi i := xAt_centre i
  have ey : yAt S P D (cell d3 P i j k).j = centre D.ymin S.dy P.ny D.j_mpi j := yAt_centre j
  have ez : d3 = true → zAt S P D (cell d3 P i j k).k = centre D.zmin S.dz P.nz D.k_mpi k := fun hd => by
    simp only [cell, hd, if_true]; exact zAt_centre k
  rw [hG]
  simp only [hydroValues, implodeHydro, implodeGas, ex, ey]
  generalize centre D.xmin S.dx P.nx D.i_mpi i = x
  generalize centre D.ymin S.dy P.ny D.j_mpi j = y
  cases d3
  · simp only [Bool.false_eq_true, if_false]
    have key : (if p.shape = 1 then gtb (x + y * y) (lit (1/2)) && ltb (x + y * y) (lit (3/2))
        else gtb (x + y) ((D.xmin + D.xmax) / lit 2 + D.ymin)) = true ↔
        (if p.shape = 1 then 1 / 2 < x + y ^ 2 ∧ x + y ^ 2 < 3 / 2
        else (D.xmin + D.xmax) / 2 + D.ymin < x + y) := by
      split_ifs
      · rw [Bool.and_eq_true]; rops; rw [sq]
      · rops
    by_cases hc : (if p.shape = 1 then 1 / 2 < x + y ^ 2 ∧ x + y ^ 2 < 3 / 2
        else (D.xmin + D.xmax) / 2 + D.ymin < x + y)
    · rw [if_pos hc, if_pos (key.2 hc)]
      refine vars_dpuv ?_
      rops
      refine ⟨?_, ?_, ?_, ?_⟩ <;> first | trivial | ring
    · rw [if_neg hc, if_neg (fun e => hc (key.1 e))]
      refine vars_dpuv ?_
      rops
      refine ⟨?_, ?_, ?_, ?_⟩ <;> first | trivial | ring
  · rw [ez rfl]
    generalize centre D.zmin S.dz P.nz D.k_mpi k = z
    simp only [if_true]
    have key : (if p.shape = 1 then gtb (x + y + z) (lit (1/2)) && ltb (x + y + z) (lit (5/2))
        else gtb (x + y + z) ((D.xmin + D.xmax) / lit 2 + D.ymin + D.zmin)) = true ↔
        (if p.shape = 1 then 1 / 2 < x + y + z ∧ x + y + z < 5 / 2
        else (D.xmin + D.xmax) / 2 + D.ymin + D.zmin < x + y + z) := by
      split_ifs
      · rw [Bool.and_eq_true]; rops
      · rops
    by_cases hc : (if p.shape = 1 then 1 / 2 < x + y + z ∧ x + y + z < 5 / 2
        else (D.xmin + D.xmax) / 2 + D.ymin + D.zmin < x + y + z)
    · rw [if_pos hc, if_pos (key.2 hc)]
      refine vars_dpuvw ?_
      rops
      refine ⟨?_, ?_, ?_, ?_, ?_⟩ <;> first | trivial | ring
    · rw [if_neg hc, if_neg (fun e => hc (key.1 e))]
      refine vars_dpuvw ?_
      rops
      refine ⟨?_, ?_, ?_, ?_, ?_⟩ <;> first | trivial | ring

/-- **C102**: the implosion, if the gases are at rest or have density 1. -/
theorem C102_implode {p : ImplodeParams ℝ} (h : BoxSetup d3 (hydroVars d3) 2 P B)
    (r : Runs (hydroSetup d3 S P D (.implode p)) m m')
    (h1 : p.rho_out = 1 ∨ (p.u_out = 0 ∧ p.v_out = 0 ∧ (d3 = true → p.w_out = 0)))
    (h2 : p.rho_in = 1 ∨ (p.u_in = 0 ∧ p.v_in = 0 ∧ (d3 = true → p.w_in = 0))) :
    Samples d3 S P D m' (implodeGas d3 D p) := by
  intro A hA i j k hi hj hk
  obtain ⟨a0, a1, a2, a3, a4⟩ := implode_state h r hA hi hj hk rfl
  have key : ∀ x y z, (implodeGas d3 D p x y z).rho = 1 ∨ ((implodeGas d3 D p x y z).u = 0 ∧
      (implodeGas d3 D p x y z).v = 0 ∧ (implodeGas d3 D p x y z).w = 0) := by
    intro x y z
    unfold implodeGas
    split_ifs <;> simp_all
  specialize key (centre D.xmin S.dx P.nx D.i_mpi i) (centre D.ymin S.dy P.ny D.j_mpi j)
    (centre D.zmin S.dz P.nz D.k_mpi k)
  generalize implodeGas d3 D p (centre D.xmin S.dx P.nx D.i_mpi i) (centre D.ymin S.dy P.ny D.j_mpi j)
    (centre D.zmin S.dz P.nz D.k_mpi k) = G at *
  refine ⟨a0, a1, a2.trans ?_, a3.trans ?_, fun hd => (a4 hd).trans ?_⟩ <;>
    rcases key with e | ⟨e1, e2, e3⟩ <;> simp [PointGas.conserved, *]

/-- **C102**: otherwise the velocity of the implosion is divided by the density, and the pressure is
wrong. -/
theorem C102_implode_wrong {p : ImplodeParams ℝ} (h : BoxSetup d3 (hydroVars d3) 2 P B)
    (r : Runs (hydroSetup d3 S P D (.implode p)) m m') (hg : S.gamma0 ≠ 1) {A i j k : Nat}
    (hA : A = aU ∨ A = aU2) (hi : i < P.nx.toNat) (hj : j < P.ny.toNat) (hk : k < depth d3 P) {G : PointGas}
    (hG : G = implodeGas d3 D p (centre D.xmin S.dx P.nx D.i_mpi i)
      (centre D.ymin S.dy P.ny D.j_mpi j) (centre D.zmin S.dz P.nz D.k_mpi k)) (hr : G.rho ≠ 0)
    {g : PointGas} (hs : SameState d3 (initialAt d3 P m' A i j k) (g.conserved S.gamma0))
    (hw : d3 = false → g.w = 0) :
    g.rho = G.rho ∧ g.u = G.u / G.rho ∧ g.v = G.v / G.rho ∧ g.w = G.w / G.rho ∧
      g.p = G.p + (S.gamma0 - 1) * (G.u ^ 2 + G.v ^ 2 + G.w ^ 2) * (G.rho - 1 / G.rho) / 2 := by
  obtain ⟨a0, a1, a2, a3, a4⟩ := implode_state h r hA hi hj hk hG
  obtain ⟨c0, c1, c2, c3, c4⟩ := hs
  rw [a0] at c0; rw [a1] at c1; rw [a2] at c2; rw [a3] at c3
  simp only [PointGas.conserved] at c0 c1 c2 c3 c4 a4
  have hg' : S.gamma0 - 1 ≠ 0 := sub_ne_zero.2 hg
  have hGw : d3 = false → G.w = 0 := by
    rintro rfl
    rw [hG]; unfold implodeGas
    split_ifs <;> simp_all
  have c5 : G.w = g.rho * g.w := by
    cases d3
    · rw [hGw rfl, hw rfl, mul_zero]
    · exact (a4 rfl).symm.trans (c4 rfl)
  clear hG hGw hw a4 c4 a0 a1 a2 a3
  obtain ⟨rho, p', u, v, w⟩ := g
  obtain ⟨R, p0, U, V, W⟩ := G
  dsimp only at *
  subst c0 c2 c3 c5
  refine ⟨rfl, ?_, ?_, ?_, ?_⟩
  · field_simp
  · field_simp
  · field_simp
  · field_simp at c1 ⊢
    linear_combination -c1

example (m : Addr → ℝ) : ∃ m', Runs (hydroSetup true exampleSettings (exampleBox true .periodic)
      ⟨-3/10, 27/10, -1/2, 3/2, 0, 2, 0, 0, 0⟩ (.gresho ⟨1, 1/10⟩)) m m' ∧
    ¬ Samples true exampleSettings (exampleBox true .periodic) ⟨-3/10, 27/10, -1/2, 3/2, 0, 2, 0, 0, 0⟩ m'
      (greshoGas exampleSettings.gamma0 ⟨1, 1/10⟩) := by
  obtain ⟨m', r⟩ := example_run true .periodic (⟨-3/10, 27/10, -1/2, 3/2, 0, 2, 0, 0, 0⟩ : Domain ℝ)
    (.gresho ⟨1, 1/10⟩) m
  refine ⟨m', r, C102_gresho3_wrong (exampleBox_setup true .periodic) r (by norm_num) (i := 0) (j := 0) (k := 0)
    (by decide) (by decide) (by decide) ?_ ?_⟩
  · norm_num [centre, exampleSettings, exampleBox]
  · rw [Real.sqrt_lt' (by norm_num)]
    norm_num [centre, exampleSettings, exampleBox]

example (m : Addr → ℝ) (D : Domain ℝ) (rnd : Cell → Nat → ℝ) : ∃ m',
    Runs (hydroSetup false exampleSettings (exampleBox false .periodic) D
      (.kelvinHelmholtz ⟨1, 2, 5/2, false, true, false, 1/2, -1/2, 1/10, 2, 1/10, 1/20⟩ rnd)) m m' ∧
    Samples false exampleSettings (exampleBox false .periodic) D m'
      (shearGas2 ⟨1, 2, 5/2, false, true, false, 1/2, -1/2, 1/10, 2, 1/10, 1/20⟩) := by
  obtain ⟨m', r⟩ := example_run false .periodic D
    (.kelvinHelmholtz ⟨1, 2, 5/2, false, true, false, 1/2, -1/2, 1/10, 2, 1/10, 1/20⟩ rnd) m
  exact ⟨m', r, C102_shear2 (exampleBox_setup false .periodic) r rfl rfl⟩

example (D : Domain ℝ) (rnd : Cell → Nat → ℝ) : ∃ m',
    Runs (hydroSetup true exampleSettings (exampleBox true .periodic) D
      (.kelvinHelmholtz ⟨1, 2, 5/2, true, false, false, 1/2, -1/2, 1/10, 2, 1/10, 1/20⟩ rnd)) (fun _ => 0) m' ∧
    (initialAt true (exampleBox true .periodic) m' aU 0 0 0).d = 0 := by
  obtain ⟨m', r⟩ := example_run true .periodic D
    (.kelvinHelmholtz ⟨1, 2, 5/2, true, false, false, 1/2, -1/2, 1/10, 2, 1/10, 1/20⟩ rnd) (fun _ => 0)
  refine ⟨m', r, C102_shear_none (exampleBox_setup true .periodic) r ?_ rfl rfl (by decide) (by decide) (by decide)⟩
  intro a
  rops

example (m : Addr → ℝ) (D : Domain ℝ) : ∃ m',
    Runs (hydroSetup false exampleSettings (exampleBox false .reflecting) D
      (.implode ⟨1, 1, 0, 0, 0, 0, 0, 0, 1/8, 7/50, 0, 0, 0, 0, 0, 0, 0⟩)) m m' ∧
    Samples false exampleSettings (exampleBox false .reflecting) D m'
      (implodeGas false D ⟨1, 1, 0, 0, 0, 0, 0, 0, 1/8, 7/50, 0, 0, 0, 0, 0, 0, 0⟩) := by
  obtain ⟨m', r⟩ := example_run false .reflecting D (.implode ⟨1, 1, 0, 0, 0, 0, 0, 0, 1/8, 7/50, 0, 0, 0, 0, 0, 0, 0⟩) m
  exact ⟨m', r, C102_implode (exampleBox_setup false .reflecting) r (Or.inl rfl)
    (Or.inr ⟨rfl, rfl, fun h => by cases h⟩)⟩

end Verif
